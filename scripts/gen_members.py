#!/usr/bin/env python3
"""What a decoded grouped IE holds, field by field: lean/Verif/Props/Members.lean"""
import os
HERE = os.path.dirname(os.path.abspath(__file__))
E0, E1, B2, B4, ANY = '(exactly 0)', '(exactly 1)', '(below 2)', '(below 4)', 'any'
# field, how (first, all, last: the one that stays; only: a list of the last; key: the first, or the default), variant, condition on the instance
G = {
 'BearerContext': [('ebi', 'key', 'Ebi', E0), ('cause', 'first', 'Cause', E0), ('tft', 'first', 'BearerTft', E0), ('fteids', 'all', 'Fteid', ANY),
   ('bearer_qos', 'first', 'BearerQos', E0), ('charging_id', 'first', 'ChargingId', E0), ('bearer_flags', 'first', 'BearerFlags', E0),
   ('pco', 'first', 'Pco', E0), ('apco', 'first', 'Apco', E0), ('epco', 'first', 'Epco', E0), ('max_packet_loss', 'first', 'MaxPacketLossRate', E0),
   ('ran_nas_cause', 'first', 'RanNasCause', E0), ('bss_container', 'first', 'Fcontainer', E0), ('transaction_id', 'first', 'TransactionIdentifier', E0)],
 'LoadControl': [('sqn', 'last', 'Sqn', ANY), ('load_metric', 'last', 'Metric', ANY), ('list', 'only', 'ApnRelativeCapacity', ANY)],
 'OverloadControlInfo': [('sqn', 'last', 'Sqn', ANY), ('metric', 'last', 'Metric', ANY), ('validity', 'last', 'EpcTimer', ANY), ('list', 'only', 'Apn', ANY)],
 'RemoteUeContext': [('user_id', 'last', 'RemoteUserId', ANY), ('ue_ip', 'over', 'RemoteUeIpInformation', ANY)],
 'ScefPdnConnections': [('apn', 'last', 'Apn', E0), ('default_ebi', 'last', 'Ebi', E0), ('scef_id', 'last', 'NodeIdentifier', E0)],
 'PC5QosParameters': [('pc5_qos_flows', 'all', 'PC5QosFlow', E0), ('pc5_link_abrs', 'first', 'BitRate', E0)],
 'PgwChangeInfo': [('pgw_fqdns', 'all', 'PgwFqdn', B2), ('sgw_pgw_smf_ips', 'all', 'IpAddress', B4), ('pgw_smf_fqcsid', 'all', 'Fqcsid', E0),
   ('groupids', 'all', 'GroupId', B2)],
 'PdnConnections': [('apn', 'last', 'Apn', E0), ('apn_restriction', 'first', 'ApnRestriction', E0), ('selection_mode', 'first', 'SelectionMode', E0),
   ('ipv4', 'first', 'IpAddress', E0), ('ipv6', 'first', 'IpAddress', E1), ('linked_ebi', 'last', 'Ebi', E0), ('pgw_addr_control', 'last', 'Fteid', E0),
   ('pgw_node_name', 'first', 'Fqdn', E0), ('bearer_ctxs', 'all', 'BearerContext', E0), ('apn_ambr', 'last', 'ApnAmbr', E0),
   ('charging_char', 'first', 'ChargingCharacteristics', E0), ('change_reporting_action', 'first', 'ChangeReportingAction', E0),
   ('csg_info_reporting_action', 'first', 'CSGInformationReportingAction', E0), ('henb_info_reporting', 'first', 'HenbInfoReporting', E0),
   ('indication', 'first', 'Indication', E0), ('signalling_priority_indication', 'first', 'Spi', E0),
   ('change_to_report_flags', 'first', 'ChangeToReportFlags', E0), ('local_home_network_id', 'first', 'Fqdn', E1),
   ('praa', 'first', 'PresenceReportingAreaAction', E0), ('wlan_offloadability', 'first', 'WlanOffloadIndication', E0),
   ('remote_ue_ctxs', 'all', 'RemoteUeContext', E0), ('pdn_type', 'first', 'PdnType', E0),
   ('hdr_compr_config', 'first', 'HeaderCompressionConfiguration', E0), ('pgw_change_info', 'none', None, None), ('up_security_policy', 'none', None, None)],
 'V2xInformation': [('services_auth', 'all', 'ServicesAuthorized', B2), ('sidelink_max_brs', 'all', 'BitRate', B2),
   ('pc5_qos_params', 'first', 'PC5QosParameters', E0)],
}
TY = {'ApnAmbr': 'Ambr'}
DEF = {'Ebi': '⟨73, 1, 0, 0⟩', 'Sqn': '⟨183, 4, 0, 0⟩', 'Metric': '⟨182, 1, 0, 0⟩', 'EpcTimer': '⟨156, 1, 0, 0, 0⟩', 'RemoteUserId': '⟨192, 0, 0, [], none, none⟩',
       'Apn': '⟨71, 0, 0, []⟩', 'NodeIdentifier': '⟨176, 0, 0, [], []⟩', 'Fteid': '⟨87, 9, 0, 0, 0, some (ip4 0 0 0 0), none⟩', 'ApnAmbr': '⟨72, 8, 0, 0, 0⟩'}
o = ['''import Verif.V2.IE

/-!
# What a decoded grouped IE holds (for C94)

Generated by `scripts/gen_members.py`. `From<GroupedIe>` of the grouped IEs walks over the members and fills the fields; here each field is
described by the members alone. `C94_X` is the whole value for the grouped IE `X`.
-/

namespace Gtp.Props
open Gtp.V2

/-- Conditions on the instance of a member. -/
def exactly (i : UInt8) : UInt8 → Bool := (· == i)
def below (i : UInt8) : UInt8 → Bool := fun j => decide (j < i)
def any : UInt8 → Bool := fun _ => true

/-! ## The members of one type -/
''']
kinds = []
for g in G.values():
    for f, h, k, c in g:
        if k and k not in kinds: kinds.append(k)
for k in kinds:
    o.append(f'''/-- The members of this type with an instance that meets the condition, in their order. -/
def the{k} (c : UInt8 → Bool) (l : List IE) : List V2.{TY.get(k, k)} := l.filterMap fun | .{k} x => if c x.ins then some x else none | _ => none
''')
o.append('''/-! ## Walking over the members -/

theorem keep {σ β : Type} {c : Prop} [Decidable c] {a b : σ} {f : σ → β} {v : β} (ha : f a = v) (hb : f b = v) : f (if c then a else b) = v := by
  split <;> assumption

section
variable {σ α : Type} {step : σ → IE → σ} {p : IE → Option α}

theorem walk_same {β : Type} {f : σ → β} (h : ∀ s e, f (step s e) = f s) (l : List IE) (s : σ) : f (l.foldl step s) = f s := by
  induction l generalizing s with
  | nil => rfl
  | cons e l ih => rw [List.foldl_cons, ih, h]

theorem walk_first {f : σ → Option α} (h : ∀ s e, f (step s e) = (f s).or (p e)) (l : List IE) (s : σ) :
    f (l.foldl step s) = (f s).or (l.filterMap p).head? := by
  induction l generalizing s with
  | nil => rw [List.foldl_nil, List.filterMap_nil, List.head?_nil, Option.or_none]
  | cons e l ih =>
    rw [List.foldl_cons, ih, h, List.filterMap_cons]
    cases f s <;> cases p e <;> rfl

theorem walk_all {f : σ → List α} (h : ∀ s e, f (step s e) = f s ++ (p e).toList) (l : List IE) (s : σ) :
    f (l.foldl step s) = f s ++ l.filterMap p := by
  induction l generalizing s with
  | nil => rw [List.foldl_nil, List.filterMap_nil, List.append_nil]
  | cons e l ih =>
    rw [List.foldl_cons, ih, h, List.filterMap_cons, List.append_assoc]
    cases p e <;> rfl

theorem last_cons (a : α) (l : List α) : (a :: l).getLast? = l.getLast?.or (some a) := by
  rw [List.getLast?_cons]
  cases l.getLast? <;> rfl

theorem walk_over {f : σ → Option α} (h : ∀ s e, f (step s e) = (p e).or (f s)) (l : List IE) (s : σ) :
    f (l.foldl step s) = (l.filterMap p).getLast?.or (f s) := by
  induction l generalizing s with
  | nil => rfl
  | cons e l ih =>
    rw [List.foldl_cons, ih, h, List.filterMap_cons]
    cases p e with
    | none => rfl
    | some a => simp only [last_cons]; cases (l.filterMap p).getLast? <;> rfl

theorem walk_last {f : σ → α} (h : ∀ s e, f (step s e) = (p e).getD (f s)) (l : List IE) (s : σ) :
    f (l.foldl step s) = (l.filterMap p).getLast?.getD (f s) := by
  have := walk_over (f := fun s => some (f s)) (p := p) (fun s e => by rw [h]; cases p e <;> rfl) l s
  revert this
  cases (l.filterMap p).getLast? <;> exact fun h => Option.some.inj h

theorem walk_only {f : σ → Option (List α)} (h : ∀ s e, f (step s e) = ((p e).map ([·])).or (f s)) (l : List IE) (s : σ) :
    f (l.foldl step s) = ((l.filterMap p).getLast?.map ([·])).or (f s) := by
  induction l generalizing s with
  | nil => rfl
  | cons e l ih =>
    rw [List.foldl_cons, ih, h, List.filterMap_cons]
    cases p e with
    | none => rfl
    | some a => simp only [last_cons]; cases (l.filterMap p).getLast? <;> rfl

end
''')
PROOF = {
 'first': ('({s}).or ({p} e)', 'Option.or_none.symm', 'walk_first'),
 'all': ('{s} ++ ({p} e).toList', '(List.append_nil _).symm', 'walk_all'),
 'last': ('({p} e).getD ({s})', 'rfl', 'walk_last'),
 'over': ('({p} e).or ({s})', 'rfl', 'walk_over'),
 'only': ('(({p} e).map ([·])).or ({s})', 'rfl', 'walk_only'),
}
for g, fs in G.items():
    o.append(f'/-! ## {g} -/\n\nnamespace {g}\n')
    pair = g == 'BearerContext'
    sty = f'V2.{g} × Bool' if pair else f'V2.{g}'
    pr = '.1' if pair else ''
    for f, h, k, c in fs:
        if h in ('none', 'key'): continue
        rhs, dflt, walk = PROOF[h]
        p = f'(fun | .{k} x => if {c} x.ins then some x else none | _ => none)'
        rhs = rhs.format(s=f's{pr}.{f}', p='p' )
        o.append(f'''theorem {f}_step (s : {sty}) (e : IE) :
    let p : IE → Option V2.{TY.get(k, k)} := {p}
    (V2.{g}.step s e){pr}.{f} = {rhs} := by
  cases e
  case {k} k =>
    simp only [V2.{g}.step, {c.strip('()').split()[0]}]
    {'rcases ho : s' + pr + '.' + f + ' with _ | v' if h == 'first' else 'skip'}
    all_goals repeat' split
    all_goals simp_all
  all_goals first
  | exact {dflt}
  | exact keep (f := fun s : {sty} => s{pr}.{f}) {dflt} {dflt}
  | exact keep (f := fun s : {sty} => s{pr}.{f}) {dflt} (keep (f := fun s : {sty} => s{pr}.{f}) {dflt} {dflt})
''')
    for f, h, k, c in fs:
        if h == 'none':
            o.append(f'''theorem {f}_step (s : {sty}) (e : IE) : (V2.{g}.step s e){pr}.{f} = s{pr}.{f} := by
  cases e
  all_goals first
  | rfl
  | exact keep (f := fun s : {sty} => s{pr}.{f}) rfl rfl
  | exact keep (f := fun s : {sty} => s{pr}.{f}) rfl (keep (f := fun s : {sty} => s{pr}.{f}) rfl rfl)
''')
    for f in ('t', 'length', 'ins'):
        o.append(f'''theorem {f}_step (s : {sty}) (e : IE) : (V2.{g}.step s e){pr}.{f} = s{pr}.{f} := by
  unfold V2.{g}.step
  repeat' split
  all_goals rfl
''')
    if pair:
        o.append('''/-- The bearer identity of the state together with the flag that tells that there was one. -/
def key (s : V2.BearerContext × Bool) : Option V2.Ebi := if s.2 then some s.1.ebi else none

theorem key_step (s : V2.BearerContext × Bool) (e : IE) :
    let p : IE → Option V2.Ebi := (fun | .Ebi x => if (exactly 0) x.ins then some x else none | _ => none)
    key (V2.BearerContext.step s e) = (key s).or (p e) := by
  cases e
  case Ebi k =>
    simp only [V2.BearerContext.step, exactly, key]
    repeat' split
    all_goals simp_all
  all_goals first
  | exact Option.or_none.symm
  | (simp only [V2.BearerContext.step]
     repeat' split
     all_goals exact Option.or_none.symm)

theorem other_step (s : V2.BearerContext × Bool) (e : IE) (h : (V2.BearerContext.step s e).2 = false) :
    s.2 = false ∧ (V2.BearerContext.step s e).1.ebi = s.1.ebi := by
  revert h
  unfold V2.BearerContext.step
  repeat' split
  all_goals first | exact fun h => ⟨h, rfl⟩ | exact fun h => by cases h

theorem other_walk (l : List IE) (s : V2.BearerContext × Bool) (h : (l.foldl V2.BearerContext.step s).2 = false) :
    (l.foldl V2.BearerContext.step s).1.ebi = s.1.ebi := by
  induction l generalizing s with
  | nil => rfl
  | cons e l ih =>
    have h2 := ih _ h
    rw [List.foldl_cons, h2]
    have : ∀ (l : List IE) (s : V2.BearerContext × Bool), (l.foldl V2.BearerContext.step s).2 = false → s.2 = false := by
      intro l
      induction l with
      | nil => exact fun s h => h
      | cons e l ih => exact fun s h => (other_step s e (ih _ h)).1
    exact (other_step s e (this l _ h)).2

theorem ebi_walk (l : List IE) (t : UInt8) (n : UInt16) (i : UInt8) :
    (V2.BearerContext.ofGroup t n i l).ebi = (theEbi (exactly 0) l).head?.getD ⟨73, 1, 0, 0⟩ := by
  have h := walk_first key_step l (V2.BearerContext.init t n i, false)
  have h0 : key (V2.BearerContext.init t n i, false) = none := rfl
  rw [h0, Option.none_or] at h
  change _ = (theEbi (exactly 0) l).head? at h
  rw [← h]
  unfold key
  split
  · rfl
  · next hc => exact other_walk l _ (by simpa using hc)
''')
    o.append(f'end {g}\n')
    vals = []
    SAY = {'first': '({p}).head?', 'all': '{p}', 'last': '({p}).getLast?.getD {d}', 'over': '({p}).getLast?', 'only': '({p}).getLast?.map ([·])',
           'key': '({p}).head?.getD {d}', 'none': 'none'}
    for f, h, k, c in fs:
        vals.append(f'{f} := ' + SAY[h].format(p=f'the{k} {c} l' if k else '', d=DEF.get(k, '')))
    o.append(f'''/-- C94: `{g}` as its members prescribe it. -/
def expected{g} (t : UInt8) (n : UInt16) (i : UInt8) (l : List IE) : V2.{g} :=
  {{ t := t, length := n, ins := i,
    {(',' + chr(10) + '    ').join(vals)} }}

theorem C94_{g} (t : UInt8) (n : UInt16) (i : UInt8) (l : List IE) : V2.{g}.ofGroup t n i l = expected{g} t n i l := by
  have eta : ∀ a b : V2.{g}, a.t = b.t → a.length = b.length → a.ins = b.ins → {' → '.join(f'a.{f} = b.{f}' for f, *_ in fs)} → a = b := by
    rintro ⟨⟩ ⟨⟩
    simp only
    intros
    subst_vars
    rfl
  refine eta _ _ ?_ ?_ ?_ {' '.join('?_' for _ in fs)}''')
    init = f'(V2.{g}.init t n i, false)' if pair else f'(V2.{g}.init t n i)'
    def fn(f): return f'(f := fun s : {sty} => s{pr}.{f})'
    for f in ('t', 'length', 'ins'):
        o.append(f'  · exact walk_same {fn(f)} {g}.{f}_step l {init}')
    for f, h, k, c in fs:
        if h == 'none': o.append(f'  · exact walk_same {fn(f)} {g}.{f}_step l {init}')
        elif h == 'key': o.append(f'  · exact {g}.ebi_walk l t n i')
        elif h in ('over', 'only'): o.append(f'  · exact ({PROOF[h][2]} {fn(f)} {g}.{f}_step l {init}).trans Option.or_none')
        else: o.append(f'  · exact {PROOF[h][2]} {fn(f)} {g}.{f}_step l {init}')
    o.append('')
o.append('end Gtp.Props')
open(os.path.join(HERE, '..', 'lean', 'Verif', 'Props', 'Members.lean'), 'w').write('\n'.join(x for x in '\n'.join(o).split('\n') if x != '    skip') + '\n')
