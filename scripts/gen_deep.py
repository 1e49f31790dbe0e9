#!/usr/bin/env python3
"""Lengths of the members of grouped IEs: generates lean/Verif/V2/Deep.lean from lean/Verif/V2/IE.lean."""
import re, os
ROOT = os.path.join(os.path.dirname(os.path.abspath(__file__)), '..', 'lean', 'Verif', 'V2')
src = open(os.path.join(ROOT, 'IE.lean')).read()
thm = open(os.path.join(ROOT, 'IEThm.lean')).read()

# (struct, constructor), inner groups first
GROUPS = [('BearerContext', 'BearerContext'), ('LoadControl', 'LoadControlInfo'), ('OverloadControlInfo', 'OverloadControlInfo'),
          ('RemoteUeContext', 'RemoteUeContext'), ('ScefPdnConnections', 'ScefPdnConnections'), ('PC5QosParameters', 'PC5QosParameters'),
          ('PgwChangeInfo', 'PgwChangeInfo'), ('PdnConnections', 'PdnConnections'), ('V2xInformation', 'V2xInformation')]
CTORS = [c for _, c in GROUPS]


def members(st):
    body = re.search(r'namespace %s\n.*?def toVec \(x : %s\) : List IE :=\n(.*?)\n\n' % (st, st), src, re.S).group(1)
    out = []
    for line in body.split('\n'):
        line = line.strip()
        for pat, sh in [(r'optV \.(\w+) x\.(\w+)', 'opt'), (r'\[\.(\w+) x\.(\w+)\]', 'one')]:
            m = re.match(pat, line)
            if m:
                out.append((sh, m.group(1), m.group(2)))
        m = re.match(r'x\.(\w+)\.map \.(\w+)', line)
        if m:
            out.append(('many', m.group(2), m.group(1)))
        m = re.match(r'\(x\.(\w+)\.getD \[\]\)\.map \.(\w+)', line)
        if m:
            out.append(('optlist', m.group(2), m.group(1)))
    assert len(out) == len(body.split('\n')), (st, out)
    return out


def upd(ctor, v):
    return '%s.deep' % v if ctor in CTORS else '{ %s with length := (IE.%s %s).bodyLen }' % (v, ctor, v)


def slots(st):
    body = re.search(r'namespace %s\n.*?def Slots \(x : %s\) : Prop :=\n(.*?)\n\n' % (st, st), thm, re.S).group(1)
    return [l.strip().removesuffix('∧').strip() for l in body.split('\n')]


o = []
o.append('''import Verif.V2.Stable

/-!
# The lengths in a grouped IE

Expanded by `scripts/gen_deep.py`. `IE.norm` sets the length field of one IE; `IE.deep` sets that of a grouped IE and those of its
members, at any depth. Encoding does not look at any of them. A grouped IE that was decoded is, with these lengths, a value which the
encoding represents (`deep_WF`).
-/

namespace Gtp.V2
set_option linter.unusedSimpArgs false

theorem optV_map {α : Type} {F : α → IE} {f : α → α} {g : IE → IE} (h : ∀ k, F (f k) = g (F k)) (o : Option α) :
    optV F (o.map f) = (optV F o).map g := by
  cases o <;> simp [optV, h]

theorem list_map {α : Type} {F : α → IE} {f : α → α} {g : IE → IE} (h : ∀ k, F (f k) = g (F k)) (l : List α) :
    (l.map f).map F = (l.map F).map g := by
  simp [h]

theorem app_congr {a b c d : List IE} (h : a = c) (h' : b = d) : a ++ b = c ++ d := by rw [h, h']

theorem getD_map {α : Type} {F : α → IE} {f : α → α} {g : IE → IE} (h : ∀ k, F (f k) = g (F k)) (o : Option (List α)) :
    ((o.map (List.map f)).getD []).map F = ((o.getD []).map F).map g := by
  cases o <;> simp [h]

''')
for st, ct in GROUPS:
    ms = members(st)
    fs = []
    for sh, k, f in ms:
        if sh == 'one':
            fs.append('%s := %s' % (f, upd(k, 'x.' + f)))
        elif sh == 'opt':
            fs.append('%s := x.%s.map fun k => %s' % (f, f, upd(k, 'k')))
        elif sh == 'many':
            fs.append('%s := x.%s.map fun k => %s' % (f, f, upd(k, 'k')))
        else:
            fs.append('%s := x.%s.map (List.map fun k => %s)' % (f, f, upd(k, 'k')))
    o.append('/-- The length of the IE and those of its members are the ones they are encoded with. -/\n')
    o.append('def %s.deep (x : %s) : %s :=\n  { x with\n    length := (IE.%s x).bodyLen\n    %s }\n\n' % (st, st, st, ct, '\n    '.join(fs)))

o.append('/-- The length fields of an IE and of its members are set. -/\ndef IE.deep : IE → IE\n')
for st, ct in GROUPS:
    o.append('  | .%s x => .%s x.deep\n' % (ct, ct))
o.append('  | e => e.norm\n\n')

for st, ct in GROUPS:
    ms = members(st)
    args = []
    o.append('theorem %s.toVec_deep (x : %s) : x.deep.toVec = x.toVec.map IE.deep := by\n' % (st, st))
    o.append('  simp only [toVec, List.map_append, deep]\n')
    n = len(ms)
    for i, (sh, k, f) in enumerate(ms):
        tac = {'one': 'rfl', 'opt': 'apply optV_map; intro _; rfl', 'many': 'apply list_map; intro _; rfl',
               'optlist': 'apply getD_map; intro _; rfl'}[sh]
        if i < n - 1:
            o.append('  refine app_congr ?_ ?_\n  · %s\n' % tac)
        else:
            o.append('  %s\n' % tac)
    o.append('\n')

# slots
for st, ct in GROUPS:
    sl = slots(st)
    o.append('theorem %s.slots_deep {x : %s} (%s : x.Slots) : x.deep.Slots := by\n' % (st, st, '_' if sl == ['True'] else 'h'))
    o.append('  unfold Slots at *\n')
    if sl == ['True']:
        o.append('  trivial\n\n')
        continue
    names = ['h%d' % i for i in range(len(sl))]
    if len(sl) > 1:
        o.append('  obtain ⟨%s⟩ := h\n' % ', '.join(names))
        o.append('  refine ⟨%s⟩\n' % ', '.join('?_' for _ in sl))
    else:
        names = ['h']
    mm = {f: sh for sh, _, f in members(st)}
    for c, nm in zip(sl, names):
        pre = '  · ' if len(sl) > 1 else '  '
        m = re.match(r'\(∀ k ∈ x\.(\w+), ', c)
        if m and mm[m.group(1)] == 'opt':
            o.append(pre + 'intro k hk; obtain ⟨a, ha, rfl⟩ := Option.map_eq_some_iff.mp hk; exact %s a ha\n' % nm)
        elif m:
            o.append(pre + 'intro k hk; obtain ⟨a, ha, rfl⟩ := List.mem_map.mp hk; exact %s a ha\n' % nm)
        elif '≠ []' in c:
            o.append(pre + 'simpa [deep] using %s\n' % nm)
        elif 'getD' in c:
            o.append(pre + 'cases hq : x.list <;> simp_all [deep]\n')
        else:
            o.append(pre + 'exact %s\n' % nm)
    o.append('\n')

# decoded groups
for st, ct in GROUPS:
    pair = st == 'BearerContext'
    S = '%s × Bool' % st if pair else st
    P = '.1' if pair else ''
    sl = slots(st)
    inv = [c for c in sl if 'bss_container' not in c and 'transaction_id' not in c and '≠ []' not in c]
    o.append('theorem %s.step_t (s : %s) (e : IE) : (step s e)%s.t = s%s.t := by\n  unfold step\n  split <;> (repeat\' split) <;> rfl\n\n' % (st, S, P, P))
    o.append('theorem %s.ofGroup_t (t : UInt8) (n : UInt16) (i : UInt8) (l : List IE) : (ofGroup t n i l).t = t := by\n' % st)
    o.append('  suffices h : ∀ (l : List IE) (s : %s), (l.foldl step s)%s.t = s%s.t by exact (h l _).trans rfl\n' % (S, P, P))
    o.append('  intro l\n  induction l with\n  | nil => intro s; rfl\n  | cons e l ih => intro s; rw [List.foldl_cons, ih, step_t]\n\n')
    o.append('/-- A turn of the loop keeps members or takes the one it looks at. -/\n')
    o.append('theorem %s.mem_step (s : %s) (e y : IE) (h : y ∈ (step s e)%s.toVec) : y ∈ s%s.toVec ∨ y = e := by\n' % (st, S, P, P))
    ms = members(st)
    n = len(ms)
    o.append('  unfold step at h\n  split at h <;> (repeat\' split at h)\n')
    o.append('  all_goals first\n    | exact .inl h\n    | (simp only [toVec, List.mem_append] at h ⊢\n       rcases h with %s\n' % ' | '.join(['h'] * n))
    for i in range(n):
        t = 'h' if i == n - 1 else '(.inl h)'
        for _ in range(i):
            t = '(.inr %s)' % t
        o.append('       · first | exact .inl %s | exact .inr (by simpa [optV] using h) | (rw [List.map_append, List.mem_append] at h; exact h.imp (fun h => %s) fun h => by simpa using h)%s\n' % (t, t, ')' if i == n - 1 else ''))
    o.append('\n')
    o.append('theorem %s.mem_ofGroup (t : UInt8) (n : UInt16) (i : UInt8) (l : List IE) (y : IE) (h : y ∈ (ofGroup t n i l).toVec) :\n    y ∈ (init t n i).toVec ∨ y ∈ l := by\n' % st)
    o.append('  suffices hq : ∀ (l : List IE) (s : %s), y ∈ (l.foldl step s)%s.toVec → y ∈ s%s.toVec ∨ y ∈ l from hq l _ h\n' % (S, P, P))
    o.append('''  clear h l
  intro l
  induction l with
  | nil => intro s h; exact .inl h
  | cons e l ih =>
    intro s h
    rcases ih _ h with h | h
    · exact (mem_step s e y h).imp id fun h => by simp [h]
    · exact .inr (by simp [h])

''')
    if inv and inv != ['True']:
        o.append('/-- The instances of the members. -/\ndef %s.Kept (x : %s) : Prop :=\n  %s\n\n' % (st, st, ' ∧\n  '.join(inv)))
        o.append('theorem %s.kept_step (s : %s) (e : IE) (h : s%s.Kept) : (step s e)%s.Kept := by\n' % (st, S, P, P))
        o.append('  unfold step\n  split <;> (repeat\' split)\n')
        o.append('  all_goals first\n    | exact h\n    | (unfold Kept at *; simp only [Option.mem_def, Option.some.injEq, List.mem_append, List.mem_cons, List.not_mem_nil, or_false, Option.getD_some] at h ⊢; grind)\n\n')
        o.append('theorem %s.kept_ofGroup (t : UInt8) (n : UInt16) (i : UInt8) (l : List IE) : (ofGroup t n i l).Kept := by\n' % st)
        o.append('  suffices hq : ∀ (l : List IE) (s : %s), s%s.Kept → (l.foldl step s)%s.Kept from hq l _ (by simp [Kept, init, Ebi.dflt, Apn.dflt, Fteid.dflt, Ambr.dflt, NodeIdentifier.dflt])\n' % (S, P, P))
        o.append('  intro l\n  induction l with\n  | nil => intro s h; exact h\n  | cons e l ih => intro s h; exact ih _ (kept_step s e h)\n\n')


# the sum
o.append('''/-- The grouped IEs. -/
def IE.grouped : IE → Bool
''')
for st, ct in GROUPS:
    o.append('  | .%s _ => true\n' % ct)
o.append('  | _ => false\n\n')


def by_group(f, other):
    return ''.join('  | %s x => %s\n' % (ct, f(st, ct)) for st, ct in GROUPS) + '  | _ => %s\n\n' % other


o.append('theorem IE.members_deep (e : IE) : e.deep.members = e.members.map IE.deep := by\n  cases e with\n')
for st, ct in GROUPS:
    o.append('  | %s x => exact %s.toVec_deep x\n' % (ct, st))
o.append('  | MmContext x => cases x <;> rfl\n  | _ => rfl\n\n')
o.append('theorem IE.deep_plain {e : IE} (h : e.grouped = false) : e.deep = e.norm := by\n  cases e with\n')
o.append(by_group(lambda st, ct: 'cases h', 'rfl'))
o.append('theorem IE.members_plain {e : IE} (h : e.grouped = false) : e.members = [] := by\n  cases e with\n')
o.append(by_group(lambda st, ct: 'cases h', 'rfl'))
o.append('''/-- A grouped IE is encoded as its members behind the header. -/
theorem IE.marshal_grouped {e : IE} (h : e.grouped = true) : e.marshal = tliv e.wireType e.length e.ins (IE.encoder e.members) := by
  rw [IE.marshal_eq]
  cases e with
''')
o.append(by_group(lambda st, ct: 'rfl', 'cases h'))
for f in ['kind', 'ins', 't', 'wireType', 'grouped']:
    o.append('theorem IE.setLength_%s (n : UInt16) (e : IE) : (e.setLength n).%s = e.%s := by\n  cases e with\n  | MmContext x => cases x <;> rfl\n  | _ => rfl\n\n' % (f, f, f))
    o.append('theorem IE.deep_%s (e : IE) : e.deep.%s = e.%s := by\n  cases hg : e.grouped with\n  | false => rw [IE.deep_plain hg]; exact (IE.setLength_%s _ e)%s\n  | true =>\n    cases e with\n' % (f, f, f, f, '.trans hg' if f == 'grouped' else ''))
    for st, ct in GROUPS:
        o.append('    | %s x => rfl\n' % ct)
    o.append('    | _ => cases hg\n\n')
o.append('theorem IE.deep_length (e : IE) : e.deep.length = e.bodyLen := by\n  cases hg : e.grouped with\n  | false => rw [IE.deep_plain hg]; exact IE.length_setLength _ e\n  | true =>\n    cases e with\n')
for st, ct in GROUPS:
    o.append('    | %s x => rfl\n' % ct)
o.append('    | _ => cases hg\n\n')
o.append('''/-- The length fields have no influence on the encoding. -/
theorem IE.marshal_deep : ∀ (d : Nat) (e : IE), e.depth < d → e.deep.marshal = e.marshal
  | 0, _, h => absurd h (Nat.not_lt_zero _)
  | d + 1, e, h => by
    cases hg : e.grouped with
    | false => rw [IE.deep_plain hg]; exact IE.marshal_setLength _ e
    | true =>
      rw [IE.marshal_grouped hg, IE.marshal_grouped (by rw [IE.deep_grouped]; exact hg), IE.deep_wireType, IE.deep_ins, IE.members_deep,
        tliv_length_field _ e.deep.length e.length]
      congr 1
      unfold IE.encoder
      rw [List.flatMap_map]
      exact flatMap_ext fun y hy => IE.marshal_deep d y (by have := IE.depth_members hy; omega)

theorem IE.deep_marshal (e : IE) : e.deep.marshal = e.marshal := IE.marshal_deep (e.depth + 1) e (Nat.lt_succ_self _)

theorem encoder_deep (es : List IE) : IE.encoder (es.map IE.deep) = IE.encoder es := by
  unfold IE.encoder
  rw [List.flatMap_map]
  congr 1
  funext e
  exact e.deep_marshal

/-- What stands in for missing members. -/
def defaultMembers : List IE :=
  [.Ebi Ebi.dflt, .Sqn Sqn.dflt, .Metric Metric.dflt, .EpcTimer EpcTimer.dflt, .RemoteUserId RemoteUserId.dflt,
    .Apn Apn.dflt, .NodeIdentifier NodeIdentifier.dflt, .Fteid Fteid.dflt, .ApnAmbr Ambr.dflt]

theorem groupUnm_inv {α : Type} {dec : Bytes → R Err (List IE)} {mk : UInt8 → UInt16 → UInt8 → List IE → α} {m : Mode} {b : Bytes} {x : α}
    (h : groupUnm dec mk m b = .ok x) : ∃ n i l s, x = mk (b.getD 0 0) n i l ∧ dec s = .ok l := by
  unfold groupUnm at h
  split at h
  · rename_i h4
    rw [rd_getD (by omega), R.ok_bind] at h
    cases h1 : (rd16 b 1 : R Err UInt16) with
    | ok n =>
      rw [h1, R.ok_bind] at h
      cases h2 : (rd b 3 : R Err UInt8) with
      | ok i =>
        rw [h2, R.ok_bind] at h
        cases h3 : (checkTliv m n b : R Err Bool) with
        | ok c =>
          rw [h3, R.ok_bind] at h
          split at h
          · cases h5 : slBody16 m b n with
            | ok s =>
              rw [h5, R.ok_bind] at h
              cases h6 : dec s with
              | ok l =>
                rw [h6, R.ok_bind] at h
                exact ⟨n, i, l, s, (R.ok.inj h).symm, h6⟩
              | _ => rw [h6] at h; cases h
            | _ => rw [h5] at h; cases h
          · cases h
        | _ => rw [h3] at h; cases h
      | _ => rw [h2] at h; cases h
    | _ => rw [h1] at h; cases h
  · cases h1 : (rd b 0 : R Err UInt8) with
    | ok t => rw [h1] at h; cases h
    | _ => rw [h1] at h; cases h

''')
# what a decoded grouped IE looks like
HYP = {'BearerContext': 'x.bss_container = none ∧ x.transaction_id = none ∧ ', 'PgwChangeInfo': 'x.toVec ≠ [] ∧ ', 'V2xInformation': 'x.toVec ≠ [] ∧ '}
o.append('''/-- Conditions under which what was decoded is encoded so that it can be decoded again: those of `IE.Faithful` for the IE and for the
members of a grouped IE. A BSS container and a transaction identifier in a bearer context are decoded but not encoded, and an IE
without any member is written with length 0, which is not accepted. -/
def IE.GoodWith (g : IE → Prop) : IE → Prop
''')
for st, ct in GROUPS:
    o.append('  | .%s x => %s∀ y ∈ x.toVec, g y\n' % (ct, HYP.get(st, '')))
o.append('''  | e => e.Faithful

def IE.Good : IE → Prop := IE.GoodWith (IE.GoodWith (IE.GoodWith fun _ => False))

theorem IE.good_members {g : IE → Prop} {e y : IE} (h : IE.GoodWith g e) (hy : y ∈ e.members) : g y := by
  cases e with
''')
for st, ct in GROUPS:
    o.append('  | %s x => exact h%s y hy\n' % (ct, '.2' * HYP.get(st, '').count('∧')))
o.append('''  | _ => simp [IE.members] at hy

theorem IE.good_congr {f g : IE → Prop} {e : IE} (h : ∀ y ∈ e.members, f y → g y) (he : IE.GoodWith f e) : IE.GoodWith g e := by
  cases e with
''')
for st, ct in GROUPS:
    n = HYP.get(st, '').count('∧')
    o.append('  | %s x => exact %s\n' % (ct, 'fun y hy => h y hy (he y hy)' if n == 0 else '⟨%s, fun y hy => h y hy (he%s y hy)⟩' % (', '.join('he' + '.2' * i + '.1' for i in range(n)), '.2' * n)))
o.append('''  | _ => exact he

theorem IE.good_eq {e : IE} (he : e.Good) : IE.GoodWith IE.Good e := by
  refine IE.good_congr (fun y hy h => IE.good_congr (fun z hz h => IE.good_congr (fun w hw _ => ?_) h) h) he
  have h1 := IE.depth_members hy
  have h2 := IE.depth_members hz
  have h4 := IE.depth_members hw
  have h3 : e.depth ≤ 2 := by cases e <;> simp [IE.depth]
  omega

theorem IE.WF_intro {e : IE} (he : IE.WFWith IE.WF e) : e.WF := by
  refine IE.WFWith_congr (fun y hy h => IE.WFWith_congr (fun z hz h => IE.WFWith_congr (fun w hw _ => ?_) h) h) he
  have h1 := IE.depth_members hy
  have h2 := IE.depth_members hz
  have h4 := IE.depth_members hw
  have h3 : e.depth ≤ 2 := by cases e <;> simp [IE.depth]
  omega

/-- What a decoded grouped IE consists of. -/
theorem grouped_inv {dec : Bytes → R Err (List IE)} {m : Mode} {b : Bytes} {e : IE} (h : unmKind dec m b (kindOf (b.getD 0 0)) = .ok e)
    (hg : e.grouped = true) : kindOf e.t = e.kind ∧ ∃ s l, dec s = .ok l ∧ ∀ y ∈ e.members, y ∈ l ∨ y ∈ defaultMembers := by
  have hk := Post.elim (unmKind_kind dec m b _) h
  rw [← hk] at h
  cases e with
''')
for st, ct in GROUPS:
    o.append('''  | %s x =>
    simp only [IE.kind, unmKind] at h hk
    cases hu : groupUnm dec %s.ofGroup m b with
    | ok z =>
      rw [hu, R.ok_bind] at h
      have hz : z = x := by
        first
          | (injection h with h; injection h with h)
          | (unfold listCheck at h; repeat' split at h
             all_goals first | (cases h; done) | (injection h with h; injection h with h))
          | (split at h
             · cases h
             · injection h with h; injection h with h)
      subst hz
      obtain ⟨n, i, l, s, rfl, hd⟩ := groupUnm_inv hu
      refine ⟨by simp only [IE.t, IE.kind, %s.ofGroup_t]; exact hk.symm, s, l, hd, fun y hy => ?_⟩
      rcases %s.mem_ofGroup _ n i l y hy with h | h
      · refine .inr ?_
        simp only [%s.init, %s.toVec, optV, Option.toList_none, List.map_nil, List.nil_append, List.append_nil, Option.getD_none, List.mem_append, List.mem_cons,
          List.not_mem_nil, or_false] at h
        all_goals (simp only [defaultMembers, List.mem_cons, List.not_mem_nil, or_false]; grind)
      · exact .inl h
    | _ => rw [hu] at h; cases h
''' % (ct, st, st, st, st, st))
o.append('  | _ => cases hg\n\n')
o.append('/-- The members of a grouped IE are of the kinds and instances that the decoder keeps. -/\ndef IE.slots : IE → Prop\n')
for st, ct in GROUPS:
    o.append('  | .%s x => x.Slots\n' % ct)
o.append('  | _ => True\n\n')
o.append('''/-- The members of a decoded grouped IE are where they belong. -/
theorem grouped_slots {dec : Bytes → R Err (List IE)} {m : Mode} {b : Bytes} {e : IE} (h : unmKind dec m b (kindOf (b.getD 0 0)) = .ok e)
    {g : IE → Prop} (hq : IE.GoodWith g e) (hg : e.grouped = true) :
    e.slots := by
  have hk := Post.elim (unmKind_kind dec m b _) h
  rw [← hk] at h
  cases e with
''')
for st, ct in GROUPS:
    sl = slots(st)
    inv = [c for c in sl if 'bss_container' not in c and 'transaction_id' not in c and '≠ []' not in c]
    if inv == ['True']:
        o.append('  | %s x => trivial\n' % ct)
        continue
    k = '%s.kept_ofGroup (b.getD 0 0) n i l' % st
    if st == 'BearerContext':
        fin = 'obtain ⟨%s⟩ := %s\n      exact ⟨%s, hq.1, hq.2.1⟩' % (', '.join('h%d' % j for j in range(len(inv))), k, ', '.join('h%d' % j for j in range(len(inv))))
    elif st == 'PC5QosParameters':
        fin = 'exact ⟨(%s).1, (%s).2, hne⟩' % (k, k)
    else:
        fin = 'exact %s' % k
    o.append('''  | %s x =>
    simp only [IE.kind, unmKind] at h hk
    cases hu : groupUnm dec %s.ofGroup m b with
    | ok z =>
      rw [hu, R.ok_bind] at h
''' % (ct, st))
    if st == 'PC5QosParameters':
        o.append('''      split at h
      · cases h
      rename_i hne
      have hz : z = x := by injection h with h; injection h with h
''')
    else:
        o.append('''      have hz : z = x := by
        first
          | (injection h with h; injection h with h)
          | (unfold listCheck at h; repeat' split at h
             all_goals first | (cases h; done) | (injection h with h; injection h with h))
''')
    o.append('''      subst hz
      obtain ⟨n, i, l, s, rfl, hd⟩ := groupUnm_inv hu
      %s
    | _ => rw [hu] at h; cases h
''' % fin)
o.append('  | _ => cases hg\n\n')
WT = dict(re.findall(r'  \| \.(\w+) x => (\d+)\n', open('lean/Verif/V2/IEThm.lean').read().split('def wireType')[1].split('theorem')[0]))
for st, ct in GROUPS:
    o.append('private theorem kindOf_%s (x : %s) : ∀ t : UInt8, kindOf t = .%s → t = IE.wireType (.%s x) := by\n  show ∀ t : UInt8, kindOf t = .%s → t = %s\n  decide +kernel\n\n' % (ct, st, ct, ct, ct, WT[ct]))
o.append('''theorem kindOf_grouped {e : IE} (hg : e.grouped = true) : ∀ t : UInt8, kindOf t = e.kind → t = e.wireType := by
  cases e with
''')
for st, ct in GROUPS:
    o.append('  | %s x => exact kindOf_%s x\n' % (ct, ct))
o.append('  | _ => cases hg\n\n')
o.append('''theorem IE.WF_grouped {e : IE} (hg : e.grouped = true) (ht : e.t = e.wireType) (hl : e.length.toNat = (IE.encoder e.members).length)
    (h0 : 0 < e.length.toNat) (h1 : e.length.toNat < 65532) (hm : ∀ y ∈ e.members, y.WF)
    (hs : e.slots) : e.WF := by
  refine IE.WF_intro ?_
  cases e with
''')
for st, ct in GROUPS:
    o.append('  | %s x => exact ⟨⟨ht, hl, h0, h1, hm⟩, hs⟩\n' % ct)
o.append('  | _ => cases hg\n\n')
o.append('''theorem defaultMembers_WF : ∀ y ∈ defaultMembers, y.norm.WF ∧ y.grouped = false := by decide +kernel

/-- The IEs in the result of the decoder come from its arms. -/
theorem decoder_arms {m : Mode} : ∀ (k : Nat) {b : Bytes} {es : List IE}, b.length < k → decoder m b = .ok es → ∀ e ∈ es,
    ∃ s, unmKind (decoder m) m s (kindOf (s.getD 0 0)) = .ok e
  | 0, _, _, hk, _, _, _ => absurd hk (by omega)
  | k + 1, b, es, hk, h, e, he => by
    rw [decoder_eq] at h
    split at h
    · cases h; cases he
    · rename_i hb
      have h0 : 0 < b.length := List.length_pos_iff.mpr hb
      cases hp : decodeOne (decoder m) m b with
      | ok p =>
        obtain ⟨x, n⟩ := p
        rw [hp, R.ok_bind] at h
        simp only at h
        split at h
        · cases h
        · cases hd : decoder m (b.drop n) with
          | ok l =>
            rw [hd, R.ok_bind] at h
            cases h
            rcases List.mem_cons.mp he with rfl | he
            · exact ⟨_, (decodeOne_inv hp).2.1⟩
            · exact decoder_arms k (by simp; omega) hd e he
          | _ => rw [hd] at h; cases h
      | _ => rw [hp] at h; cases h

theorem bodyLen_toNat {e : IE} (h : e.marshal.length < 65540) : e.bodyLen.toNat + 4 = e.marshal.length := by
  have h4 : 4 ≤ e.marshal.length := by
    obtain ⟨l, i, body, h⟩ := IE.marshal_tliv e
    rw [h, tliv_eq]
    simp
  rw [IE.bodyLen, UInt16.toNat_ofNat']
  omega

theorem mem_encoder_length {l : List IE} {y : IE} (h : y ∈ l) : y.marshal.length ≤ (IE.encoder l).length := by
  unfold IE.encoder
  rw [List.length_flatMap]
  induction l with
  | nil => cases h
  | cons z l ih =>
    rw [List.map_cons, List.sum_cons]
    rcases List.mem_cons.mp h with rfl | h
    · omega
    · have := ih h
      omega

/-- A decoded IE, with the lengths it is encoded with, is a value which the encoding represents. -/
theorem deep_WF {m : Mode} : ∀ (d : Nat) (e : IE), e.depth < d →
    ((∃ b, unmKind (decoder m) m b (kindOf (b.getD 0 0)) = .ok e) ∨ e ∈ defaultMembers) → e.Good → e.marshal.length < 65536 → e.deep.WF
  | 0, _, h, _, _, _ => absurd h (Nat.not_lt_zero _)
  | d + 1, e, h, hb, hq, hl => by
    rcases hb with ⟨b, hb⟩ | hb
    · have hbl := bodyLen_toNat (e := e) (by omega)
      cases hg : e.grouped with
      | false =>
        rw [IE.deep_plain hg]
        have hf : e.Faithful := by
          have := IE.good_eq hq
          revert this hg
          clear hb hbl hl h hq
          cases e with
''')
for st, ct in GROUPS:
    o.append('          | %s x => intro hg; cases hg\n' % ct)
o.append('''          | _ => exact fun _ h => h
        exact Post.elim (unmKind_stable (decoder m) m b _) hb hf _ hbl (by omega)
      | true =>
        obtain ⟨ht, s, l, hd, hm⟩ := grouped_inv hb hg
        have hsl := grouped_slots hb (IE.good_eq hq) hg
        have hmar : e.marshal.length = (IE.encoder e.members).length + 4 := by
          rw [IE.marshal_grouped hg, tliv_eq]
          simp [be16]
        have hne : e.members ≠ [] := by
          have hw := IE.good_eq hq
          cases e with
''')
for st, ct in GROUPS:
    if HYP.get(st, '').startswith('x.toVec'):
        o.append('          | %s x => exact hw.1\n' % ct)
    elif st == 'PC5QosParameters':
        o.append('          | %s x => simp only [IE.members, %s.toVec]; have := hsl.2.2; simp [this]\n' % (ct, st))
    else:
        o.append('          | %s x => simp [IE.members, %s.toVec]\n' % (ct, st))
o.append('''          | _ => cases hg
        have hpos : 0 < (IE.encoder e.members).length := by
          obtain ⟨y, r, hy⟩ := List.exists_cons_of_ne_nil hne
          have h1 := mem_encoder_length (l := e.members) (y := y) (by rw [hy]; simp)
          obtain ⟨n, i, body, h2⟩ := IE.marshal_tliv y
          rw [h2, tliv_eq] at h1
          simp at h1
          omega
        refine IE.WF_grouped (by rw [IE.deep_grouped]; exact hg) ?_ ?_ ?_ ?_ ?_ ?_
        · rw [IE.deep_t, IE.deep_wireType]
          exact kindOf_grouped hg _ ht
        · rw [IE.deep_length, IE.members_deep, encoder_deep]
          omega
        · rw [IE.deep_length]; omega
        · rw [IE.deep_length]; omega
        · intro y hy
          rw [IE.members_deep] at hy
          obtain ⟨z, hz, rfl⟩ := List.mem_map.mp hy
          refine deep_WF (m := m) d z (by have := IE.depth_members hz; omega) ?_ (IE.good_members (IE.good_eq hq) hz) ?_
          · exact (hm z hz).imp (fun h => decoder_arms _ (Nat.lt_succ_self _) hd z h) id
          · have := mem_encoder_length hz
            omega
        · revert hsl
          clear hpos hne hmar hm hd ht hb hq hl hbl h
          cases e with
''')
for st, ct in GROUPS:
    o.append('          | %s x => exact fun h => %s.slots_deep (x := x) h\n' % (ct, st))
o.append('''          | _ => cases hg
    · obtain ⟨h1, h2⟩ := defaultMembers_WF e hb
      rw [IE.deep_plain h2]
      exact h1

''')
o.append('end Gtp.V2\n')
open(os.path.join(ROOT, 'Deep.lean'), 'w').write(''.join(o))
