import Verif.Props.CMsgRecv

/-!
# Properties C47 to C49, C51: what an accepted GTPv1-C message consists of

`Parsed` splits the octets behind the header into elements, with no other state than the cursor; the theorems
say that a decoded message is exactly what this list prescribes.
-/

namespace Gtp.Props.C1
open Gtp.C1 Gtp.V1 Gtp.C1.Desc

/-- An element together with the type octet in front of it. -/
abbrev Item := UInt8 × IE

/-- The octets `b` are a sequence of elements: the type octet of each is known to the message type, and the
decoder of its kind succeeds and says where the next one starts. -/
inductive Parsed (t : Msg) (m : Mode) : Bytes → List Item → Prop
  | nil : Parsed t m [] []
  | cons {c r a i l es} : t.desc.arm c = some a → a.kind.codec.unm m (c :: r) = .ok i → a.kind.codec.len m i = .ok l →
      Parsed t m ((c :: r).drop l) es → Parsed t m (c :: r) ((c, ⟨a.kind, i⟩) :: es)

/-- The items of type `c`. -/
def ofType (c : UInt8) (es : List Item) : List Item := es.filter (fun e => e.1 == c)

/-- What a decoded message `x` has to be when the elements `es` follow the header `h`. -/
structure Prescribed (t : Msg) (h : Header) (es : List Item) (x : t.desc.X) : Prop where
  /-- the type codes do not decrease -/
  ascending : es.Pairwise fun a b => a.1 ≤ b.1
  /-- every mandatory type is there -/
  mandatory : ∀ c ∈ t.desc.mandatory, ∃ e ∈ es, e.1 = c
  header : t.desc.header x = h
  /-- the `i`-th element of each type is in the `i`-th field for this type -/
  field : ∀ s, t.desc.view x s = match (ofType (t.desc.place s).1 es)[(t.desc.place s).2]? with
    | some e => e.2.as (t.desc.kind s)
    | none => t.desc.view t.desc.dflt s

/-- One more item. -/
def pushI (t : Msg) (st : St t.desc) (e : Item) : St t.desc :=
  match t.desc.arm e.1 with
  | none => st
  | some a => st.next e.1 a (succ (st.hash e.1)) e.2

def AscI : UInt8 → List Item → Prop
  | _, [] => True
  | c, e :: es => c ≤ e.1 ∧ AscI e.1 es

theorem ascI_iff : ∀ {es : List Item} {c : UInt8}, AscI c es ↔ (∀ e ∈ es, c ≤ e.1) ∧ es.Pairwise fun a b => a.1 ≤ b.1
  | [], _ => by simp [AscI]
  | e :: es, c => by
    rw [AscI, ascI_iff, List.pairwise_cons]
    constructor
    · rintro ⟨h1, h2, h3⟩
      refine ⟨fun x hx => ?_, h2, h3⟩
      rw [List.mem_cons] at hx
      rcases hx with rfl | hx
      · exact h1
      · exact UInt8.le_trans h1 (h2 x hx)
    · rintro ⟨h1, h2, h3⟩
      exact ⟨h1 e (by simp), h2, h3⟩

def CountsI {t : Msg} (st : St t.desc) (es : List Item) : Prop :=
  ∀ c, st.hash c = if (ofType c es).length = 0 then none else some (UInt8.ofNat (ofType c es).length)

theorem ofType_append (c : UInt8) (a b : List Item) : ofType c (a ++ b) = ofType c a ++ ofType c b := by simp [ofType]

theorem ofType_single (c : UInt8) (e : Item) : ofType c [e] = if e.1 = c then [e] else [] := by
  by_cases h : e.1 = c <;> simp [ofType, h]

theorem CountsI.push {t : Msg} {st : St t.desc} {es : List Item} {e : Item} (h : CountsI st es) {a : Arm t.desc.S}
    (ha : t.desc.arm e.1 = some a) : CountsI (pushI t st e) (es ++ [e]) := by
  intro c
  simp only [pushI, ha, St.next, ofType_append, ofType_single]
  by_cases hc : c = e.1
  · subst hc
    simp only [if_true, List.length_append, List.length_singleton, Nat.add_eq_zero_iff, Nat.one_ne_zero, and_false, if_false]
    rw [h e.1]
    by_cases h0 : (ofType e.1 es).length = 0
    · simp [h0, succ]
    · simp [h0, succ]
  · have hc' : ¬ e.1 = c := fun x => hc x.symm
    simp [hc, hc', h c]

/-- The counters of all types fit. -/
def Few (es : List Item) : Prop := ∀ c, (ofType c es).length < 256

theorem CountsI.fits {t : Msg} {st : St t.desc} {es : List Item} (h : CountsI st es) {c : UInt8} (hc : (ofType c es).length < 255) :
    Fits (st.hash c) := by
  intro k hk
  rw [h c] at hk
  split at hk
  · cases hk
  · cases hk
    simp
    omega

theorem bump_ok {m : Mode} {n : Option UInt8} {k : UInt8} (h : bump m n = .ok k) : k = succ n := by
  cases n with
  | none => cases h; rfl
  | some n =>
    cases m with
    | release => cases h; rfl
    | debug =>
      simp only [bump, add8] at h
      split at h
      · cases h; rfl
      · cases h

theorem scan_parsed (t : Msg) (m : Mode) : ∀ (fuel : Nat) (b : Bytes) (st st' : St t.desc), t.desc.scan m fuel b st = .ok st' →
    ∃ es, Parsed t m b es ∧ AscI st.inc es ∧ st' = es.foldl (pushI t) st ∧
      (m = .debug → ∀ pre, CountsI st pre → Few pre → Few (pre ++ es))
  | fuel, [], st, st', h => by
    rw [scan_nil] at h
    cases h
    exact ⟨[], .nil, trivial, rfl, fun _ pre _ h => by simpa using h⟩
  | 0, c :: r, st, st', h => by cases h
  | fuel + 1, c :: r, st, st', h => by
    rw [scan] at h
    split at h
    · cases h
    rename_i hi
    split at h
    · cases h
    rename_i a ha
    split at h
    · rename_i i hu
      obtain ⟨k, hk, h⟩ := ok_of_bind h
      obtain ⟨l, hl, h⟩ := ok_of_bind h
      obtain ⟨es, h1, h2, h3, h4⟩ := scan_parsed t m fuel _ _ _ h
      have hpush : pushI t st (c, ⟨a.kind, i⟩) = st.next c a k ⟨a.kind, i⟩ := by simp only [pushI, ha, bump_ok hk]
      refine ⟨(c, ⟨a.kind, i⟩) :: es, .cons ha hu hl h1, ⟨by simpa using hi, h2⟩, ?_, ?_⟩
      · rw [List.foldl_cons, hpush]
        exact h3
      · intro hm pre hc hf
        have := h4 hm (pre ++ [(c, ⟨a.kind, i⟩)]) (by rw [← hpush]; exact hc.push (e := (c, ⟨a.kind, i⟩)) ha) (by
          intro c'
          rw [ofType_append, ofType_single]
          by_cases hcc : c = c'
          · subst hcc
            simp only [if_true, List.length_append, List.length_singleton]
            have h256 := hf c
            rcases Nat.lt_or_ge (ofType c pre).length 255 with hlt | hge
            · omega
            · have e0 : (ofType c pre).length = 255 := by omega
              subst hm
              rw [hc c, e0] at hk
              exact absurd hk (by simp [bump, add8])
          · simp only [hcc, if_false, List.append_nil]
            exact hf c')
        simpa using this
    · split at h <;> cases h
    · cases h
    · cases h

/-- A step of the parser makes progress. -/
theorem parsed_pos {t : Msg} {m : Mode} {b : Bytes} {es : List Item} (h : Parsed t m b es) :
    ∀ c r a i, b = c :: r → t.desc.arm c = some a → a.kind.codec.unm m (c :: r) = .ok i → a.kind.codec.len m i ≠ .ok 0 := by
  induction h with
  | nil => intro c r a i h; cases h
  | cons h1 h2 h3 _ ih =>
    intro c r a i e ha hu hl
    cases e
    rw [ha] at h1
    cases h1
    rw [hu] at h2
    cases h2
    rw [hl] at h3
    cases h3
    exact ih _ _ _ _ rfl ha hu hl

/-- There are no more elements than octets. -/
theorem parsed_length {t : Msg} {m : Mode} {b : Bytes} {es : List Item} (h : Parsed t m b es) : es.length ≤ b.length := by
  induction h with
  | nil => exact Nat.le_refl _
  | cons h1 h2 h3 h4 ih =>
    have := parsed_pos (.cons h1 h2 h3 h4) _ _ _ _ rfl h1 h2
    rename_i l es
    have hl : 0 < l := by
      rcases Nat.eq_zero_or_pos l with rfl | h
      · exact absurd h3 this
      · exact h
    rw [List.length_drop] at ih
    simp only [List.length_cons] at ih ⊢
    omega

theorem parsed_unique {t : Msg} {m : Mode} {b : Bytes} {es : List Item} (h : Parsed t m b es) : ∀ es', Parsed t m b es' → es' = es := by
  induction h with
  | nil => intro es' h; cases h; rfl
  | cons h1 h2 h3 _ ih =>
    intro es' h
    cases h with
    | cons g1 g2 g3 g4 =>
      rw [h1] at g1
      cases g1
      rw [h2] at g2
      cases g2
      rw [h3] at g3
      cases g3
      rw [ih _ g4]

theorem scan_of_parsed {t : Msg} {m : Mode} {b : Bytes} {es : List Item} (h : Parsed t m b es) : ∀ (fuel : Nat) (st : St t.desc) (pre : List Item),
    AscI st.inc es → CountsI st pre → Few (pre ++ es) → b.length < fuel → t.desc.scan m fuel b st = .ok (es.foldl (pushI t) st) := by
  induction h with
  | nil => intro fuel st pre _ _ _ _; rw [scan_nil]; rfl
  | @cons c r a i l es h1 h2 h3 h4 ih =>
    intro fuel st pre ha hc hf hl
    obtain ⟨fuel, rfl⟩ : ∃ g, fuel = g + 1 := ⟨fuel - 1, by omega⟩
    have h0 := parsed_pos (.cons h1 h2 h3 h4) _ _ _ _ rfl h1 h2
    have hpos : 0 < l := by
      rcases Nat.eq_zero_or_pos l with rfl | h
      · exact absurd h3 h0
      · exact h
    have hn : (ofType c pre).length < 255 := by
      have := hf c
      rw [← List.singleton_append, ofType_append, ofType_append, ofType_single] at this
      simp only [if_true, List.length_append, List.length_singleton] at this
      omega
    rw [scan, if_neg (by simpa using ha.1), h1]
    simp only
    rw [h2]
    simp only
    rw [bump_fits m (hc.fits hn), R.ok_bind, h3, R.ok_bind, List.foldl_cons]
    have hpush : pushI t st (c, ⟨a.kind, i⟩) = st.next c a (succ (st.hash c)) ⟨a.kind, i⟩ := by simp only [pushI, h1]
    rw [hpush]
    refine ih fuel _ (pre ++ [(c, ⟨a.kind, i⟩)]) ha.2 (by rw [← hpush]; exact hc.push (e := (c, ⟨a.kind, i⟩)) h1) (by simpa using hf) ?_
    rw [List.length_drop]
    simp only [List.length_cons] at hl ⊢
    omega

/-- The loop variables after the items `es`. -/
structure GoodI (t : Msg) (h : Header) (st : St t.desc) (es : List Item) : Prop where
  counts : CountsI st es
  header : t.desc.header st.x = h
  view : ∀ s, t.desc.view st.x s = match (ofType (t.desc.place s).1 es)[(t.desc.place s).2]? with
    | some e => e.2.as (t.desc.kind s)
    | none => t.desc.view t.desc.dflt s

theorem pickI_ne {t : Msg} {es : List Item} {e : Item} {s : t.desc.S} (h : t.desc.place s ≠ (e.1, (ofType e.1 es).length)) :
    (ofType (t.desc.place s).1 (es ++ [e]))[(t.desc.place s).2]? = (ofType (t.desc.place s).1 es)[(t.desc.place s).2]? := by
  rw [ofType_append, ofType_single]
  by_cases hc : e.1 = (t.desc.place s).1
  · rw [if_pos hc]
    have hne : (t.desc.place s).2 ≠ (ofType (t.desc.place s).1 es).length := by
      intro hx
      apply h
      rw [hc]
      exact Prod.ext rfl hx
    rcases Nat.lt_or_ge (t.desc.place s).2 (ofType (t.desc.place s).1 es).length with hl | hl
    · rw [List.getElem?_append_left hl]
    · rw [List.getElem?_eq_none hl, List.getElem?_eq_none (by simp; omega)]
  · rw [if_neg hc, List.append_nil]

theorem pickI_eq {t : Msg} {es : List Item} {e : Item} {s : t.desc.S} (h : t.desc.place s = (e.1, (ofType e.1 es).length)) :
    (ofType (t.desc.place s).1 (es ++ [e]))[(t.desc.place s).2]? = some e := by
  rw [h, ofType_append, ofType_single, if_pos rfl, List.getElem?_append_right (by simp)]
  simp

theorem CountsI.slot {t : Msg} {st : St t.desc} {es : List Item} (h : CountsI st es) {c : UInt8} {a : Arm t.desc.S}
    (hc : (ofType c es).length < 256) : a.slot (st.hash c) = a.slots[(ofType c es).length]? := by
  rw [h c]
  by_cases h0 : (ofType c es).length = 0
  · simp [h0, Arm.slot]
  · rw [if_neg h0]
    have e1 : (UInt8.ofNat (ofType c es).length).toNat = (ofType c es).length := by
      rw [UInt8.toNat_ofNat']
      exact Nat.mod_eq_of_lt hc
    have hn : UInt8.ofNat (ofType c es).length ≠ 0 := by
      intro hx
      rw [hx] at e1
      have : (0 : UInt8).toNat = 0 := rfl
      omega
    simp only [Arm.slot, if_neg hn, e1]

theorem GoodI.push {t : Msg} {h : Header} {st : St t.desc} {es : List Item} {e : Item} (hg : GoodI t h st es) {a : Arm t.desc.S}
    (h1 : t.desc.arm e.1 = some a) (h2 : a.kind = e.2.1) (hc : (ofType e.1 es).length < 256) : GoodI t h (pushI t st e) (es ++ [e]) := by
  have hcs := hg.counts.push h1
  have hs := hg.counts.slot (a := a) hc
  have hx : (pushI t st e).x = t.desc.store (a.slots[(ofType e.1 es).length]?) e.2 st.x := by
    simp only [pushI, h1, St.next, hs]
  have hl := t.lawful
  cases hsl : a.slots[(ofType e.1 es).length]? with
  | none =>
    rw [hsl] at hx
    have hx' : (pushI t st e).x = st.x := hx
    refine ⟨hcs, by rw [hx']; exact hg.header, fun s => ?_⟩
    rw [hx', hg.view s, pickI_ne]
    intro hp
    rw [(hl.place_eq h1).mpr hp] at hsl
    cases hsl
  | some s =>
    rw [hsl] at hx
    have hp := (hl.place_eq h1).mp hsl
    have hks : e.2.1 = t.desc.kind s := by
      rw [← h2]
      exact ((hl.arm_kind _ (mem_of_lookup h1)).1 s (List.mem_of_getElem? hsl)).symm
    obtain ⟨c, k, i⟩ := e
    simp only at hks
    subst hks
    have hx' : (pushI t st (c, ⟨t.desc.kind s, i⟩)).x = t.desc.put s i st.x := by
      rw [hx]
      simp only [store, IE.as_mk]
    refine ⟨hcs, by rw [hx', hl.header_put]; exact hg.header, fun s' => ?_⟩
    rw [hx']
    by_cases hts : s' = s
    · subst hts
      rw [hl.view_put, pickI_eq hp]
      simp
    · rw [hl.view_put_ne s s' i st.x hts, hg.view s', pickI_ne]
      intro ht
      rw [← hp] at ht
      have h3 := hl.arm_place s'
      rw [ht, hl.arm_place s] at h3
      exact hts (Option.some.inj h3).symm

theorem good_parsed {t : Msg} {m : Mode} {h : Header} {b : Bytes} {es : List Item} (hp : Parsed t m b es) : ∀ (pre : List Item) (st : St t.desc),
    GoodI t h st pre → Few (pre ++ es) → GoodI t h (es.foldl (pushI t) st) (pre ++ es) := by
  induction hp with
  | nil => intro pre st hg _; simpa using hg
  | @cons c r a i l es h1 _ _ _ ih =>
    intro pre st hg hf
    have h0 : (ofType c pre).length < 256 := by
      have := hf c
      rw [ofType_append, List.length_append] at this
      omega
    have := ih (pre ++ [(c, ⟨a.kind, i⟩)]) _ (hg.push (e := (c, ⟨a.kind, i⟩)) h1 rfl h0) (by simpa using hf)
    simpa using this

theorem goodI_start (t : Msg) (h : Header) : GoodI t h (t.desc.start h) [] :=
  ⟨fun c => by simp [start, ofType], t.lawful.header_set _ _, fun s => by simp [start, t.lawful.view_set, ofType]⟩

theorem finishI {t : Msg} {h : Header} {st : St t.desc} {es : List Item} (hg : GoodI t h st es) (hf : Few es) :
    t.desc.mandatory.all (fun c => (st.hash c).isSome) = true ↔ ∀ c ∈ t.desc.mandatory, ∃ e ∈ es, e.1 = c := by
  rw [List.all_eq_true]
  refine forall_congr' fun c => forall_congr' fun _ => ?_
  rw [hg.counts c]
  have key : (∃ e ∈ es, e.1 = c) ↔ (ofType c es).length ≠ 0 := by
    rw [Ne, List.length_eq_zero_iff, ofType, List.filter_eq_nil_iff]
    simp only [beq_iff_eq]
    constructor
    · rintro ⟨e, h1, h2⟩ h3
      exact h3 e h1 h2
    · intro h
      by_cases hx : ∃ e ∈ es, e.1 = c
      · exact hx
      · exact absurd (fun a ha hc => hx ⟨a, ha, hc⟩) h
  rw [key]
  by_cases h0 : (ofType c es).length = 0 <;> simp [h0]

/-- The buffer `b` is read as the message `x`: the header is one of this message type and announces no more octets than there are,
and what follows it, **up to the end of the buffer**, is a sequence of elements that prescribes `x`. -/
def Reads (t : Msg) (m : Mode) (b : Bytes) (x : t.desc.X) : Prop :=
  ∃ h n l es, Header.unmarshal m b = .ok h ∧ h.msgtype = t.desc.code ∧ Gtp.U.len8 m h.length = .ok n ∧ n ≤ b.length ∧ h.len m = .ok l ∧
    Parsed t m (b.drop l) es ∧ Few es ∧ Prescribed t h es x

/-- C47: in debug builds, and in release builds for buffers of at most 263 octets, a message decoder accepts
exactly the buffers that consist of a header and elements in ascending order, with all mandatory types, and the result is
the message prescribed by the elements. -/
theorem C47_accepted_iff (t : Msg) (m : Mode) (b : Bytes) (x : t.desc.X) (hm : m = .debug ∨ b.length ≤ 263) :
    t.desc.unmarshal m b = .ok x ↔ Reads t m b x := by
  constructor
  · intro e
    obtain ⟨h, n, l, st, h1, h2, h3, h4, h5, h6, h7⟩ := accepted e
    obtain ⟨es, p1, p2, p3, p4⟩ := scan_parsed t m _ _ _ _ h6
    have h8 := header_len_ge h5
    have hb := header_fields h1
    have hf : Few es := by
      rcases hm with hm | hm
      · have := p4 hm [] (goodI_start t h).counts (fun c => by simp [ofType])
        simpa using this
      · intro c
        have q1 := parsed_length p1
        have q2 : (ofType c es).length ≤ es.length := List.length_filter_le _ _
        rw [List.length_drop] at q1
        omega
    have hg := good_parsed p1 [] _ (goodI_start t h) (by simpa using hf)
    rw [← p3, List.nil_append] at hg
    have hx : st.x = x ∧ t.desc.mandatory.all (fun c => (st.hash c).isSome) = true := by
      rw [finish] at h7
      split at h7
      · exact ⟨R.ok.inj h7, by assumption⟩
      · cases h7
    obtain ⟨rfl, hall⟩ := hx
    exact ⟨h, n, l, es, h1, h2, h3, h4, h5, p1, hf, (ascI_iff.mp p2).2, (finishI hg hf).mp hall, hg.header, hg.view⟩
  · rintro ⟨h, n, l, es, h1, h2, h3, h4, h5, p1, hf, q1, q2, q3, q4⟩
    have hg := good_parsed p1 [] _ (goodI_start t h) (by simpa using hf)
    rw [List.nil_append] at hg
    have hs := scan_of_parsed p1 (b.length + 1) (t.desc.start h) [] (ascI_iff.mpr ⟨fun e _ => by simp [start], q1⟩)
      (goodI_start t h).counts (by simpa using hf) (by rw [List.length_drop]; omega)
    rw [Desc.unmarshal, h1, R.ok_bind, if_neg (by simp [h2]), h3, R.ok_bind, if_pos h4, h5, R.ok_bind, hs, R.ok_bind, finish,
      if_pos ((finishI hg hf).mpr q2)]
    congr 1
    refine t.lawful.ext _ _ ?_ fun s => ?_
    · rw [hg.header, q3]
    · rw [hg.view s, q4 s]

/-- A Delete PDP Context Response with two causes, two protocol configuration options, and octets that are not announced. -/
def exDelete : Bytes := [0x30, 21, 0, 4, 0, 0, 0, 9, 1, 128, 1, 129, 132, 0, 2, 7, 8]

example : ∃ x, Reads .DeletePDPContextResponse .debug exDelete x :=
  ⟨_, (C47_accepted_iff .DeletePDPContextResponse .debug exDelete _ (.inl rfl)).mp rfl⟩

/-- C47: the elements are determined by the buffer. -/
theorem C47_elements_unique (t : Msg) (m : Mode) (b : Bytes) (es es' : List Item) (h : Parsed t m b es) (h' : Parsed t m b es') : es = es' :=
  parsed_unique h' es h

/-- C47 is violated when a type occurs 256 times: debug builds panic, and release builds count from 0 again, so that a Create
PDP Context Request with 257 NSAPIs has the last one as linked NSAPI. -/
theorem C47_violation :
    DeletePDPContextResponse.unmarshal .debug ([0x30, 21, 2, 0, 0, 0, 0, 0] ++ (List.replicate 256 [1, 128]).flatten) = .panic ∧
    ∃ x, CreatePDPContextRequest.unmarshal .release ([0x30, 16, 2, 28, 0, 0, 0, 0] ++ [16, 0, 0, 0, 0] ++
      (List.replicate 256 [20, 5]).flatten ++ [20, 6, 133, 0, 4, 0, 0, 0, 0, 133, 0, 4, 0, 0, 0, 0, 135, 0, 4, 2, 1, 1, 1]) = .ok x ∧
      x.linked_nsapi = some ⟨20, 6⟩ := by
  refine ⟨by decide +kernel, ?_⟩
  generalize hx : CreatePDPContextRequest.unmarshal .release _ = y
  have key : (match CreatePDPContextRequest.unmarshal .release ([0x30, 16, 2, 28, 0, 0, 0, 0] ++ [16, 0, 0, 0, 0] ++
      (List.replicate 256 [20, 5]).flatten ++ [20, 6, 133, 0, 4, 0, 0, 0, 0, 133, 0, 4, 0, 0, 0, 0, 135, 0, 4, 2, 1, 1, 1]) with
      | .ok x => decide (x.linked_nsapi = some ⟨20, 6⟩)
      | _ => false) = true := by decide +kernel
  rw [hx] at key
  cases y with
  | ok x => exact ⟨x, rfl, by simpa using key⟩
  | err e => cases key
  | panic => cases key
  | diverge => cases key

/-! ## C48: mandatory elements -/

/-- The mandatory information elements of 3GPP TS 29.060, clause 7: type and number. -/
def required : Msg → List (UInt8 × Nat)
  | .CreatePDPContextRequest => [(16, 1), (20, 1), (133, 2), (135, 1)]
  | .CreatePDPContextResponse => [(1, 1)]
  | .UpdatePDPContextRequest => [(16, 1), (20, 1), (133, 2), (135, 1)]
  | .UpdatePDPContextResponse => [(1, 1)]
  | .UpdatePDPContextRequestGGSN => [(20, 1)]
  | .UpdatePDPContextResponseGGSN => [(1, 1)]
  | .DeletePDPContextRequest => [(20, 1)]
  | .DeletePDPContextResponse => [(1, 1)]
  | .InitiatePDPContextActivationRequest => [(20, 1), (135, 1), (183, 1)]
  | .InitiatePDPContextActivationResponse => [(1, 1)]
  | .PDUNotificationRequest => [(2, 1), (17, 1), (128, 1), (131, 1), (133, 1)]
  | .PDUNotificationResponse => [(1, 1)]
  | .PDUNotificationRejectRequest => [(1, 1), (17, 1), (128, 1), (131, 1)]
  | .PDUNotificationRejectResponse => [(1, 1)]
  | .MSInfoChangeNotificationRequest => [(151, 1)]
  | .MSInfoChangeNotificationResponse => [(1, 1)]

theorem required_eq (t : Msg) : t.desc.mandatory = (required t).map Prod.fst := by cases t <;> decide +kernel

/-- The elements behind the header of an accepted message. -/
theorem accepted_parsed {t : Msg} {m : Mode} {b : Bytes} {x : t.desc.X} (e : t.desc.unmarshal m b = .ok x) :
    ∃ h l es, Header.unmarshal m b = .ok h ∧ h.len m = .ok l ∧ Parsed t m (b.drop l) es ∧ (es.Pairwise fun a b => a.1 ≤ b.1) ∧
      ∀ c ∈ t.desc.mandatory, ∃ i ∈ es, i.1 = c := by
  obtain ⟨h, n, l, st, h1, h2, h3, h4, h5, h6, h7⟩ := accepted e
  obtain ⟨es, p1, p2, p3, p4⟩ := scan_parsed t m _ _ _ _ h6
  refine ⟨h, l, es, h1, h5, p1, (ascI_iff.mp p2).2, ?_⟩
  rw [finish] at h7
  split at h7
  · rename_i hall
    rw [List.all_eq_true] at hall
    intro c hc
    have hs := hall c hc
    -- a type that is in the table at the end is the type of an item
    have key : ∀ (es : List Item) (st : St t.desc), ((es.foldl (pushI t) st).hash c).isSome → (st.hash c).isSome ∨ ∃ i ∈ es, i.1 = c := by
      intro es
      induction es with
      | nil => intro st h; exact .inl h
      | cons i es ih =>
        intro st h
        rw [List.foldl_cons] at h
        rcases ih _ h with h | ⟨j, h1, h2⟩
        · by_cases hi : i.1 = c
          · exact .inr ⟨i, by simp, hi⟩
          · left
            rw [pushI] at h
            split at h
            · exact h
            · simpa [St.next, Ne.symm hi] using h
        · exact .inr ⟨j, by simp [h1], h2⟩
    rw [p3] at hs
    rcases key es _ hs with h | h
    · cases h
    · exact h
  · cases h7

/-- C48 (partial): an accepted message contains an element of every mandatory type. Missing: the second one
where the specification requires two (`C48_violation`). -/
theorem C48_mandatory_partial (t : Msg) (m : Mode) (b : Bytes) (x : t.desc.X) (e : t.desc.unmarshal m b = .ok x) :
    ∃ h l es, Header.unmarshal m b = .ok h ∧ h.len m = .ok l ∧ Parsed t m (b.drop l) es ∧ ∀ r ∈ required t, ∃ i ∈ es, i.1 = r.1 := by
  obtain ⟨h, l, es, h1, h2, h3, _, h5⟩ := accepted_parsed e
  refine ⟨h, l, es, h1, h2, h3, fun r hr => h5 r.1 ?_⟩
  rw [required_eq]
  exact List.mem_map.mpr ⟨r, hr, rfl⟩

example : ∃ x, (Msg.desc .DeletePDPContextResponse).unmarshal .release exDelete = .ok x := ⟨_, rfl⟩

/-- C48: when an element of a mandatory type is missing, and the message is otherwise fine, the error says so. -/
theorem C48_missing (t : Msg) (m : Mode) (h : Header) (wf : HeaderWF h) (hc : h.msgtype = t.desc.code) (es : List IE) (hca : Carried t es)
    (ha : Ascending es) (hr : ∀ e ∈ es, e.1 ≠ .ApnRestriction) (r : UInt8 × Nat) (hr1 : r ∈ required t) (hr2 : ∀ e ∈ es, e.code ≠ r.1)
    (h1 : h.length.toNat < 65528) (h2 : h.length.toNat + 8 ≤ h.marshal.length + (octets es).length) :
    t.desc.unmarshal m (h.marshal ++ octets es) = .err .messageMandatoryIEMissing := by
  refine (decode_elements t m h wf hc es hca ha hr h.length h1 h2).2 fun hcomp => ?_
  obtain ⟨e, he, hec⟩ := hcomp r.1 (by rw [required_eq]; exact List.mem_map.mpr ⟨r, hr1, rfl⟩)
  exact hr2 e he hec

example : Carried .DeletePDPContextResponse [⟨.PrivateExtension, ⟨255, 5, 10415, [1, 2, 3]⟩⟩] ∧
    Ascending [⟨.PrivateExtension, ⟨255, 5, 10415, [1, 2, 3]⟩⟩] ∧ (1, 1) ∈ required .DeletePDPContextResponse := by
  refine ⟨⟨?_, ?_, List.pairwise_singleton _ _, ?_⟩, List.pairwise_singleton _ _, by decide⟩
  · intro e he
    rw [List.mem_singleton] at he
    subst he
    decide +kernel
  · intro e he
    rw [List.mem_singleton] at he
    subst he
    exact ⟨_, rfl, rfl⟩
  · intro c
    exact Nat.lt_of_le_of_lt (List.length_filter_le _ _) (by decide)

/-- C48 is violated: an Update PDP Context Request with one GSN address is accepted, and the address for user
traffic is 0.0.0.0. -/
theorem C48_violation (m : Mode) : ∃ x, UpdatePDPContextRequest.unmarshal m
    [0x30, 18, 0, 21, 0, 0, 0, 0, 16, 0, 0, 0, 1, 20, 5, 133, 0, 4, 10, 0, 0, 1, 135, 0, 4, 2, 1, 1, 1] = .ok x ∧
    x.sgsn_ip_control = ⟨133, 4, .v4 0x0a000001⟩ ∧ x.sgsn_ip_user = ⟨133, 4, .v4 0⟩ := by
  refine ⟨_, by cases m <;> rfl, by rfl, by rfl⟩

/-! ## C49: order and unknown types -/

/-- C49: an accepted message has the type codes of its elements in ascending order, and all of them are known to its type. -/
theorem C49_ordered (t : Msg) (m : Mode) (b : Bytes) (x : t.desc.X) (e : t.desc.unmarshal m b = .ok x) :
    ∃ h l es, Header.unmarshal m b = .ok h ∧ h.len m = .ok l ∧ Parsed t m (b.drop l) es ∧ es.Pairwise fun a b => a.1 ≤ b.1 := by
  obtain ⟨h, l, es, h1, h2, h3, h4, _⟩ := accepted_parsed e
  exact ⟨h, l, es, h1, h2, h3, h4⟩

/-- C49: an octet in the place of a type that is lower than the type in front of it, or not known to the message type, is
reported as invalid format, whatever follows it. -/
theorem C49_rejected (t : Msg) (m : Mode) (h : Header) (wf : HeaderWF h) (hc : h.msgtype = t.desc.code) (es : List IE) (hca : Carried t es)
    (ha : Ascending es) (hr : ∀ e ∈ es, e.1 ≠ .ApnRestriction) (hp : ∀ e ∈ es, e.1 ≠ .PrivateExtension) (c : UInt8) (rest : Bytes)
    (hbad : (∃ e, es.getLast? = some e ∧ c < e.code) ∨ ∀ s, (t.desc.place s).1 ≠ c) (h1 : h.length.toNat < 65528)
    (h2 : h.length.toNat + 8 ≤ h.marshal.length + (octets es ++ c :: rest).length) :
    t.desc.unmarshal m (h.marshal ++ (octets es ++ c :: rest)) = .err .messageInvalidMessageFormat := by
  refine decode_stops t m h wf hc es hca ha hr hp c rest ?_ h.length h1 h2
  rcases hbad with hbad | hbad
  · exact .inl hbad
  · right
    cases harm : t.desc.arm c with
    | none => rfl
    | some a =>
      have h3 := (t.lawful.arm_kind _ (mem_of_lookup harm)).2.2
      have h4 := h3.2.2.2 0 h3.1
      cases h5 : a.slots[0]? with
      | none => rw [h5] at h4; cases h4
      | some s =>
        rw [h5] at h4
        simp only [Option.map_some, Option.some.injEq] at h4
        exact absurd (by rw [h4]) (hbad s)

example : (∀ s, ((Msg.desc .DeletePDPContextResponse).place s).1 ≠ 16) ∧
    (Msg.desc .DeletePDPContextResponse).unmarshal .debug [0x30, 21, 0, 7, 0, 0, 0, 9, 1, 128, 16, 0, 0, 0, 1] = .err .messageInvalidMessageFormat := by
  refine ⟨?_, rfl⟩
  intro s
  cases s <;> decide

/-! ## C51: octets behind the announced length -/

/-- The result when the length field is another one, which the buffer is also long enough for, is the same message: the
decoder reads up to the end of the buffer and not up to the announced length. -/
theorem C51_length_ignored (t : Msg) (m : Mode) (h : Header) (wf : HeaderWF h) (hc : h.msgtype = t.desc.code) (body : Bytes) (l l' : UInt16)
    (h1' : l'.toNat < 65528) (h2' : l'.toNat + 8 ≤ h.marshal.length + body.length) (x : t.desc.X) (e : t.desc.unmarshal m ((withLen h l).marshal ++ body) = .ok x)
    (hm : m = .debug ∨ h.marshal.length + body.length ≤ 263) :
    t.desc.unmarshal m ((withLen h l').marshal ++ body) = .ok (t.desc.setHeader (withLen h l') x) := by
  rw [C47_accepted_iff t m _ _ (by rw [List.length_append, marshal_withLen_length]; exact hm)] at e ⊢
  obtain ⟨g, n, k, es, g1, g2, g3, g4, g5, p1, hf, q⟩ := e
  rw [C34_header_roundtrip m _ (withLen_wf wf l)] at g1
  cases g1
  have hk := C41_header_len_partial m _ (withLen_wf wf l)
  rw [hk] at g5
  cases g5
  rw [List.drop_left] at p1
  refine ⟨withLen h l', l'.toNat + 8, (withLen h l').marshal.length, es, C34_header_roundtrip m _ (withLen_wf wf l') body, hc,
    len8_small m h1', by rw [List.length_append, marshal_withLen_length]; exact h2', C41_header_len_partial m _ (withLen_wf wf l'), ?_, hf,
    q.ascending, q.mandatory, t.lawful.header_set _ _, ?_⟩
  · rw [List.drop_left]; exact p1
  · intro s
    rw [t.lawful.view_set]
    exact q.field s

/-- C51 is violated: of a buffer with two messages, the first one that announces its length is read together with the
octets behind it. Here one octet behind the announced end makes the decoding fail, and three more are read as an element. -/
theorem C51_violation (m : Mode) :
    (∃ x, DeletePDPContextResponse.unmarshal m [0x30, 21, 0, 2, 0, 0, 0, 9, 1, 128] = .ok x ∧ x.pco = none) ∧
    DeletePDPContextResponse.unmarshal m [0x30, 21, 0, 2, 0, 0, 0, 9, 1, 128, 0x30] = .err .messageInvalidMessageFormat ∧
    ∃ x, DeletePDPContextResponse.unmarshal m [0x30, 21, 0, 2, 0, 0, 0, 9, 1, 128, 132, 0, 1, 7] = .ok x ∧ x.pco.isSome := by
  refine ⟨⟨_, by cases m <;> rfl, by rfl⟩, by cases m <;> rfl, ⟨_, by cases m <;> rfl, by rfl⟩⟩

/-! ## C55, C56: the encoding -/

/-- C55: a message shorter than 65544 octets is encoded with its own length, less 8, in the length field, after its type. -/
theorem C55_length_field (t : Msg) (x : t.desc.X) (hs : (t.desc.marshalInto [] x).length < 65544) :
    lengthField (t.desc.marshalInto [] x) + 8 = (t.desc.marshalInto [] x).length ∧
    (t.desc.marshalInto [] x).getD 1 0 = (t.desc.header x).msgtype := by
  have h8 := header_ge8 (t.desc.header x)
  have hl := marshal_len t x
  generalize hn : (t.desc.marshalInto [] x).length = n at *
  rw [marshal_octets t x, hn]
  obtain ⟨r, _, hr⟩ := header_cons (t.desc.header x)
  rw [hr]
  refine ⟨?_, rfl⟩
  show (hi16 _).toNat * 256 + (lo16 _).toNat + 8 = n
  rw [← of16_toNat, of16_be]
  simp
  omega

example : ((Msg.desc .CreatePDPContextRequest).marshalInto [] exCreate).length < 65544 := by decide +kernel

/-- C55: the encoding is the header followed by the elements, each encoded by itself, in the order of the fields. -/
theorem C55_octets (t : Msg) (x : t.desc.X) : (t.desc.marshalInto [] x).drop (t.desc.header x).marshal.length =
    t.desc.order.flatMap fun s => match t.desc.view x s with
      | some i => (t.desc.kind s).codec.mar i
      | none => [] := by
  rw [marshal_octets t x, ← marshal_withLen_length _ (UInt16.ofNat ((t.desc.marshalInto [] x).length - 8)), List.drop_left,
    ← body_octets, t.lawful.body_eq]
  congr 1
  funext s
  cases t.desc.view x s <;> rfl

/-- C55 is violated when the buffer is not empty: the length is written into the octets in front of the message. -/
theorem C55_violation (t : Msg) : ∃ x, t.desc.marshalInto [1, 2, 3, 4] x ≠ [1, 2, 3, 4] ++ t.desc.marshalInto [] x := by
  refine ⟨t.desc.dflt, ?_⟩
  cases t <;> decide +kernel

/-- C56: two messages of a type with the same encoding are the same up to the length field, when one of them can be decoded. -/
theorem C56_injective (t : Msg) (x y : t.desc.X) (hx : Regular t x) (hy : Regular t y)
    (ax : Ascending (elements t x) ∧ (∀ e ∈ elements t x, e.1 ≠ .ApnRestriction) ∧ NoGaps t x)
    (ay : Ascending (elements t y) ∧ (∀ e ∈ elements t y, e.1 ≠ .ApnRestriction) ∧ NoGaps t y)
    (e : t.desc.marshalInto [] x = t.desc.marshalInto [] y) (hl : (t.desc.header x).length = (t.desc.header y).length) : x = y := by
  have h1 := (C36_roundtrip_iff t .debug x hx).mpr ax
  have h2 := (C36_roundtrip_iff t .debug y hy).mpr ay
  rw [e, h2] at h1
  have h3 : sent t y = sent t x := R.ok.inj h1
  have hv : ∀ s, t.desc.view x s = t.desc.view y s := by
    intro s
    have := congrArg (fun z => t.desc.view z s) h3
    simp only [sent, t.lawful.view_set] at this
    exact this.symm
  refine t.lawful.ext _ _ ?_ hv
  have := congrArg t.desc.header h3
  simp only [sent, t.lawful.header_set, withLen] at this
  generalize t.desc.header x = a at *
  generalize t.desc.header y = b at *
  cases a
  cases b
  simp only [Header.mk.injEq] at this hl ⊢
  exact ⟨this.1.symm, hl, this.2.2.1.symm, this.2.2.2.1.symm, this.2.2.2.2.1.symm, this.2.2.2.2.2.symm⟩

end Gtp.Props.C1
