import Verif.C1.MsgBase

/-!
# Running the message decoder on encoded elements
-/

namespace Gtp.C1
open Gtp.V1

theorem IE.mar_first {e : IE} (h : e.WF) : ∃ r, e.mar = e.code :: r ∧ (e.code = e.1.code ∨ e.1 = .Teid ∧ e.code = 17) := by
  obtain ⟨t, r, h1, h2⟩ := e.1.first e.2 h
  have : e.code = t := by simp [IE.code, IE.mar, h1]
  exact ⟨r, by rw [this]; exact h1, by rw [this]; exact h2⟩

theorem IE.mar_pos {e : IE} (h : e.WF) : 0 < e.mar.length := by
  obtain ⟨r, h1, _⟩ := IE.mar_first h
  simp [h1]

namespace Desc

variable {d : Desc}

/-- How many elements of type `c` there are. -/
def cnt (c : UInt8) (es : List IE) : Nat := (es.filter (fun e => e.code == c)).length

/-- The number stored for one more element. -/
def succ : Option UInt8 → UInt8
  | none => 1
  | some n => n + 1

/-- One more element `e`. -/
def push (d : Desc) (st : St d) (e : IE) : St d :=
  match d.arm e.code with
  | none => st
  | some a => st.next e.code a (succ (st.hash e.code)) e

/-- The decoder has an arm for the element. -/
def Knows (d : Desc) (e : IE) : Prop := ∃ a, d.arm e.code = some a ∧ a.kind = e.1

/-- The type codes do not decrease, starting with `c`. -/
def Asc : UInt8 → List IE → Prop
  | _, [] => True
  | c, e :: es => c ≤ e.code ∧ Asc e.code es

/-- The counter of a type does not overflow. -/
def Fits (n : Option UInt8) : Prop := ∀ k, n = some k → k.toNat < 255

theorem bump_fits (m : Mode) {n : Option UInt8} (h : Fits n) : bump m n = .ok (succ n) := by
  cases n with
  | none => rfl
  | some k =>
    have := h k rfl
    simp only [bump, succ]
    rw [add8_ok]
    have : (1 : UInt8).toNat = 1 := rfl
    omega

/-- One iteration on an encoded element. -/
theorem scan_step (m : Mode) {e : IE} {tail : Bytes} {st : St d} (fuel : Nat) (hw : e.WF) (hk : d.Knows e)
    (ha : e.1 ≠ .ApnRestriction) (hg : e.1.greedy = false ∨ tail = []) (hi : st.inc ≤ e.code) (hf : Fits (st.hash e.code)) :
    d.scan m (fuel + 1) (e.mar ++ tail) st = d.scan m fuel tail (d.push st e) := by
  obtain ⟨a, hk1, hk2⟩ := hk
  obtain ⟨r, hr, _⟩ := IE.mar_first hw
  obtain ⟨k, x⟩ := e
  simp only at hk2 ha hg
  subst hk2
  have hu : a.kind.codec.unm m (IE.mar ⟨a.kind, x⟩ ++ tail) = .ok x := by
    rcases hg with hg | rfl
    · exact a.kind.rt hg m x tail hw
    · rw [List.append_nil]; exact a.kind.rtLast m x hw
  have hl : a.kind.codec.len m x = .ok (IE.mar ⟨a.kind, x⟩).length := a.kind.lenOk ha m x hw
  generalize hc : IE.code ⟨a.kind, x⟩ = c at *
  rw [hr] at hu hl ⊢
  rw [List.cons_append, scan, if_neg (by simpa using hi), hk1]
  simp only
  rw [← List.cons_append, hu]
  simp only
  rw [bump_fits m hf, R.ok_bind, hl, R.ok_bind, List.drop_left]
  simp only [push, hc, hk1]

/-- The decoder skips two of the four octets of an APN restriction, and then stops at the octet 1, the length. -/
theorem scan_restriction (m : Mode) {e : IE} {tail : Bytes} {st : St d} (fuel : Nat) (hw : e.WF) (hk : d.Knows e)
    (ha : e.1 = .ApnRestriction) (hf : Fits (st.hash e.code)) :
    d.scan m (fuel + 2) (e.mar ++ tail) st = .err .messageInvalidMessageFormat := by
  obtain ⟨a, hk1, hk2⟩ := hk
  obtain ⟨k, x⟩ := e
  simp only at hk2 ha
  subst hk2
  obtain ⟨kind, slots, lt2, bad⟩ := a
  simp only at ha x hw hk1
  subst ha
  have hu := Kind.rt .ApnRestriction rfl m x tail hw
  have e1 : IE.mar ⟨.ApnRestriction, x⟩ = [149, 0, 1, (x : ApnRestriction).restriction_type.toU8] := by
    have h1 : (x : ApnRestriction).t = 149 := hw.1
    show tlv _ _ _ = _
    rw [tlv_eq, h1]
    have (v : UInt8) : lenU16 [v] = 1 := rfl
    rw [this]
    rfl
  have e2 : IE.code ⟨.ApnRestriction, x⟩ = 149 := by rw [IE.code, e1]; rfl
  rw [e2] at hk1 hf
  have e3 : (Kind.codec .ApnRestriction).mar x = _ := e1
  rw [e3] at hu
  rw [e1]
  simp only [List.cons_append, List.nil_append] at hu ⊢
  rw [scan]
  split
  · rfl
  rw [hk1]
  simp only
  rw [hu]
  simp only
  have hl : (Kind.codec .ApnRestriction).len m x = .ok 2 := rfl
  rw [bump_fits m hf, R.ok_bind, hl, R.ok_bind, List.drop_succ_cons, List.drop_succ_cons, List.drop_zero, scan,
    if_pos (by simp only [St.next]; decide)]

/-- `scan` with enough fuel. -/
theorem scan_nil (m : Mode) (fuel : Nat) (st : St d) : d.scan m fuel [] st = .ok st := by
  cases fuel <;> rfl

/-- The numbers of elements of all types, up to the largest counter. -/
def Counts (st : St d) (es : List IE) : Prop := ∀ c, st.hash c = if cnt c es = 0 then none else some (UInt8.ofNat (cnt c es))

theorem cnt_append (c : UInt8) (a b : List IE) : cnt c (a ++ b) = cnt c a + cnt c b := by simp [cnt]

theorem cnt_cons (c : UInt8) (e : IE) (b : List IE) : cnt c (e :: b) = (if e.code = c then 1 else 0) + cnt c b := by
  by_cases h : e.code = c <;> simp [cnt, h] <;> omega

theorem cnt_le {c : UInt8} {a b : List IE} : cnt c a ≤ cnt c (a ++ b) := by rw [cnt_append]; omega

theorem Counts.fits {st : St d} {es : List IE} (h : Counts st es) {c : UInt8} (hc : cnt c es < 255) : Fits (st.hash c) := by
  intro k hk
  rw [h c] at hk
  split at hk
  · cases hk
  · cases hk
    simp
    omega

theorem Counts.push {st : St d} {es : List IE} {e : IE} (h : Counts st es) (hk : d.Knows e) :
    Counts (d.push st e) (es ++ [e]) := by
  obtain ⟨a, h1, _⟩ := hk
  intro c
  simp only [Desc.push, h1, St.next, cnt_append, cnt_cons]
  by_cases hc : c = e.code
  · subst hc
    simp only [if_true, cnt, List.filter_nil, List.length_nil, Nat.add_zero, Nat.add_eq_zero_iff, Nat.one_ne_zero, and_false, if_false]
    rw [h e.code]
    by_cases h0 : (es.filter (fun x => x.code == e.code)).length = 0
    · simp [cnt, h0, succ]
    · simp [cnt, h0, succ]
  · have hc' : ¬ e.code = c := fun x => hc x.symm
    simp [hc, hc', cnt, h c]

/-- What the loop has done after the elements `es` (of which only the last may be one that swallows what
follows): the rest of the buffer is `tail`. -/
theorem scan_list (m : Mode) (tail : Bytes) : ∀ (es pre : List IE) (st : St d) (fuel : Nat),
    (∀ e ∈ es, e.WF ∧ d.Knows e ∧ e.1 ≠ .ApnRestriction) →
    (∀ a b e, es = a ++ e :: b → e.1.greedy = false ∨ b = [] ∧ tail = []) →
    Asc st.inc es → Counts st pre → (∀ c, cnt c (pre ++ es) < 256) →
    (es.flatMap IE.mar ++ tail).length < fuel →
    ∃ fuel', tail.length < fuel' ∧
      d.scan m fuel (es.flatMap IE.mar ++ tail) st = d.scan m fuel' tail (es.foldl d.push st)
  | [], _, _, fuel, _, _, _, _, _, hl => ⟨fuel, by simpa using hl, rfl⟩
  | e :: es, pre, st, fuel, hw, hg, ha, hc, hn, hl => by
    obtain ⟨h1, h2, h3⟩ := hw e (by simp)
    have hp := IE.mar_pos h1
    obtain ⟨f, rfl⟩ : ∃ f, fuel = f + 1 := ⟨fuel - 1, by omega⟩
    simp only [List.flatMap_cons, List.append_assoc, List.length_append] at hl
    have hb : cnt e.code pre < 255 := by
      have := hn e.code
      rw [cnt_append, cnt_cons] at this
      simp only [if_true] at this
      omega
    have hinc : (d.push st e).inc = e.code := by
      obtain ⟨a, h, _⟩ := h2
      simp [push, h, St.next]
    obtain ⟨f', hf, hs⟩ := scan_list m tail es (pre ++ [e]) (d.push st e) f (fun x hx => hw x (by simp [hx]))
      (fun a b x hx => hg (e :: a) b x (by simp [hx])) (by rw [hinc]; exact ha.2) (hc.push h2)
      (by simpa using hn) (by simp only [List.length_append]; omega)
    refine ⟨f', hf, ?_⟩
    rw [List.flatMap_cons, List.append_assoc, scan_step m f h1 h2 h3 _ ha.1 (hc.fits hb), hs, List.foldl_cons]
    rcases hg [] es e rfl with h | ⟨rfl, rfl⟩
    · exact .inl h
    · exact .inr rfl

theorem counts_foldl (es : List IE) (pre : List IE) (st : St d) (h : Counts st pre) (hk : ∀ e ∈ es, d.Knows e) :
    Counts (es.foldl d.push st) (pre ++ es) := by
  induction es generalizing pre st with
  | nil => simpa using h
  | cons e es ih =>
    have := ih (pre ++ [e]) (d.push st e) (h.push (hk e (by simp))) (fun x hx => hk x (by simp [hx]))
    simpa using this

theorem counts_start (h : Header) : Counts (d.start h) [] := by
  intro c
  simp [start, cnt]

theorem mem_of_lookup {α : Type} {c : UInt8} {a : α} : ∀ {l : List (UInt8 × α)}, l.lookup c = some a → (c, a) ∈ l
  | [], h => by simp at h
  | (k, v) :: l, h => by
    rw [List.lookup_cons] at h
    by_cases hk : c = k
    · simp only [hk, beq_self_eq_true, Option.some.injEq] at h
      simp [hk, h]
    · rw [beq_false_of_ne hk] at h
      exact List.mem_cons_of_mem _ (mem_of_lookup h)

/-- The element that belongs to a field: the one at its place among the elements of its type. -/
def pick (d : Desc) (es : List IE) (s : d.S) : Option IE := (es.filter (fun e => e.code == (d.place s).1))[(d.place s).2]?

/-- The loop variables after the elements `es`. -/
structure Good (d : Desc) (h : Header) (st : St d) (es : List IE) : Prop where
  counts : Counts st es
  header : d.header st.x = h
  view : ∀ s, d.view st.x s = match d.pick es s with
    | some e => e.as (d.kind s)
    | none => d.view d.dflt s

theorem pick_ne {es : List IE} {e : IE} {s : d.S} (h : d.place s ≠ (e.code, cnt e.code es)) :
    d.pick (es ++ [e]) s = d.pick es s := by
  unfold pick
  by_cases hc : e.code = (d.place s).1
  · rw [List.filter_append, List.filter_cons_of_pos (by simpa using hc), List.filter_nil]
    have hne : (d.place s).2 ≠ (es.filter (fun e => e.code == (d.place s).1)).length := by
      intro hx
      apply h
      rw [hc]
      exact Prod.ext rfl hx
    rcases Nat.lt_or_ge (d.place s).2 (es.filter (fun e => e.code == (d.place s).1)).length with hl | hl
    · rw [List.getElem?_append_left hl]
    · rw [List.getElem?_eq_none hl, List.getElem?_eq_none (by simp; omega)]
  · rw [List.filter_append, List.filter_cons_of_neg (by simpa using hc), List.filter_nil, List.append_nil]

theorem pick_eq {es : List IE} {e : IE} {s : d.S} (h : d.place s = (e.code, cnt e.code es)) :
    d.pick (es ++ [e]) s = some e := by
  unfold pick
  rw [h]
  simp only
  rw [List.filter_append, List.filter_cons_of_pos (by simp), List.filter_nil, List.getElem?_append_right (by simp [cnt])]
  simp [cnt]

theorem Lawful.place_eq (hl : d.Lawful) {c : UInt8} {a : Arm d.S} (ha : d.arm c = some a) {i : Nat} {s : d.S} :
    a.slots[i]? = some s ↔ d.place s = (c, i) := by
  have hm := mem_of_lookup ha
  constructor
  · intro h
    have hi : i < a.slots.length := by
      rcases Nat.lt_or_ge i a.slots.length with h' | h'
      · exact h'
      · rw [List.getElem?_eq_none h'] at h; cases h
    have := (hl.arm_kind _ hm).2.2.2.2.2 i hi
    rw [h] at this
    simpa using this
  · intro h
    have := hl.arm_place s
    rw [h] at this
    have ha' : d.arms.lookup c = some a := ha
    simp only [ha', Option.map_some, Option.getD_some] at this
    exact this

theorem Counts.slot (hl : d.Lawful) {st : St d} {es : List IE} (h : Counts st es) {c : UInt8} {a : Arm d.S}
    (ha : d.arm c = some a) (hc : cnt c es < 256) : a.slot (st.hash c) = a.slots[cnt c es]? := by
  rw [h c]
  by_cases h0 : cnt c es = 0
  · simp [h0, Arm.slot]
  · rw [if_neg h0]
    have e1 : (UInt8.ofNat (cnt c es)).toNat = cnt c es := by
      rw [UInt8.toNat_ofNat']
      exact Nat.mod_eq_of_lt hc
    have hn : UInt8.ofNat (cnt c es) ≠ 0 := by
      intro hx
      rw [hx] at e1
      have : (0 : UInt8).toNat = 0 := rfl
      omega
    simp only [Arm.slot, if_neg hn, e1]

theorem Good.push (hl : d.Lawful) {h : Header} {st : St d} {es : List IE} {e : IE} (hg : Good d h st es) (hk : d.Knows e)
    (hc : cnt e.code es < 256) : Good d h (d.push st e) (es ++ [e]) := by
  have hcs := hg.counts.push hk
  obtain ⟨a, h1, h2⟩ := hk
  have hs := hg.counts.slot hl h1 hc
  have hx : (d.push st e).x = d.store (a.slots[cnt e.code es]?) e st.x := by
    simp only [Desc.push, h1, St.next, hs]
  cases hsl : a.slots[cnt e.code es]? with
  | none =>
    rw [hsl] at hx
    have hx' : (d.push st e).x = st.x := hx
    refine ⟨hcs, by rw [hx']; exact hg.header, fun s => ?_⟩
    rw [hx', hg.view s, pick_ne]
    intro hp
    rw [(hl.place_eq h1).mpr hp] at hsl
    cases hsl
  | some s =>
    rw [hsl] at hx
    have hp := (hl.place_eq h1).mp hsl
    have hks : e.1 = d.kind s := by
      rw [← h2]
      exact ((hl.arm_kind _ (mem_of_lookup h1)).1 s (List.mem_of_getElem? hsl)).symm
    obtain ⟨k, i⟩ := e
    simp only at hks
    subst hks
    have hx' : (d.push st ⟨d.kind s, i⟩).x = d.put s i st.x := by
      rw [hx]
      simp only [store, IE.as_mk]
    refine ⟨hcs, by rw [hx', hl.header_put]; exact hg.header, fun t => ?_⟩
    rw [hx']
    by_cases hts : t = s
    · subst hts
      rw [hl.view_put, pick_eq hp]
      simp
    · rw [hl.view_put_ne s t i st.x hts, hg.view t, pick_ne]
      intro ht
      rw [← hp] at ht
      have h3 := hl.arm_place t
      rw [ht, hl.arm_place s] at h3
      exact hts (Option.some.inj h3).symm

theorem good_start (hl : d.Lawful) (h : Header) : Good d h (d.start h) [] :=
  ⟨counts_start h, hl.header_set _ _, fun s => by simp [start, hl.view_set, pick]⟩

theorem good_foldl (hl : d.Lawful) {h : Header} : ∀ (es pre : List IE) (st : St d), Good d h st pre → (∀ e ∈ es, d.Knows e) →
    (∀ c, cnt c (pre ++ es) < 256) → Good d h (es.foldl d.push st) (pre ++ es)
  | [], pre, st, hg, _, _ => by simpa using hg
  | e :: es, pre, st, hg, hk, hc => by
    have h0 : cnt e.code pre < 256 := Nat.lt_of_le_of_lt cnt_le (hc e.code)
    have := good_foldl hl es (pre ++ [e]) (d.push st e) (hg.push hl (hk e (by simp)) h0) (fun x hx => hk x (by simp [hx]))
      (by simpa using hc)
    simpa using this

end Desc
end Gtp.C1
