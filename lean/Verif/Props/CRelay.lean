import Verif.C1.Stable
import Verif.Props.CIe
import Verif.Props.CMsgAll

/-!
# C63 to C65: GTPv1-C elements and messages that are encoded again

C63 is for GTPv1-C what C60 is for GTPv2-C: the length field of an element plays no role in encoding. C64: a decoded element, encoded
and decoded again, is the same element with the length of the encoding. C65: so is a decoded message, with all its fields. Neither
holds for all elements; `Kind.Faithful` (Verif/C1/Stable.lean) lists the conditions.
-/

namespace Gtp.Props.C1
open Gtp.C1 Gtp.V1 Gtp.C1.Desc

/-! ## C63 -/

/-- Kinds without a length field. -/
def NoLength (k : Kind) : Prop := k.code < 128

instance (k : Kind) : Decidable (NoLength k) := by unfold NoLength; infer_instance

/-- `setLength` changes the length field and nothing else: the old value can be put back. -/
theorem C63_setLength (k : Kind) (x : k.Ty) (n : Nat) : (k.lengthOf x = none ↔ NoLength k) ∧ (NoLength k → k.setLength n x = x) ∧
    (¬ NoLength k → k.lengthOf (k.setLength n x) = some (n % if k = .ExtensionHeaderTypeList then 256 else 65536)) ∧
    (∀ l, k.lengthOf x = some l → k.setLength l (k.setLength n x) = x) := by
  cases k
  all_goals refine ⟨?_, ?_, ?_, ?_⟩
  all_goals first
    | exact ⟨fun _ => by decide, fun _ => rfl⟩
    | exact ⟨fun h => (Option.some_ne_none _ h).elim, fun h => absurd h (by decide)⟩
    | exact fun _ => rfl
    | exact fun h => absurd h (by decide)
    | exact fun h => absurd (by decide) h
    | exact fun _ => congrArg some (UInt16.toNat_ofNat' ..)
    | exact fun _ => congrArg some (UInt8.toNat_ofNat' ..)
    | (intro l hl; cases hl; done)
    | (intro l hl
       have e := (Option.some.inj hl).symm
       subst e
       simp only [Kind.setLength, UInt16.ofNat_toNat, UInt8.ofNat_toNat]
       rfl)

/-- C63: the length field has no influence on the octets, for every value of every kind. -/
theorem C63_encoding_ignores_length (k : Kind) (x : k.Ty) (n : Nat) : k.codec.mar (k.setLength n x) = k.codec.mar x :=
  k.mar_setLength n x

/-- C63: an element that is well-formed up to its length is decoded with the length of the encoding, and otherwise unchanged. -/
theorem C63_round_trip (m : Mode) (k : Kind) (x : k.Ty) (h : k.codec.WF (k.norm x)) (tail : Bytes) (ht : Swallows k → tail = []) :
    k.codec.unm m (k.codec.mar x ++ tail) = .ok (k.norm x) := by
  rw [← k.mar_setLength ((k.codec.mar x).length - k.head) x]
  by_cases hk : Swallows k
  · rw [ht hk, List.append_nil]
    exact k.rtLast m _ h
  · exact k.rt (greedy_of hk) m _ tail h

/-- An access point name whose length field is nonsense. -/
def exLength : Kind.Ty .Apn := (⟨131, 999, "abc.mnc1".toList⟩ : Apn)

example : (Kind.codec .Apn).WF (Kind.norm .Apn exLength) ∧ (Kind.norm .Apn exLength : Apn) = ⟨131, 9, "abc.mnc1".toList⟩ ∧
    ¬ NoLength .Apn := by
  refine ⟨by decide +kernel, rfl, by decide⟩

/-! ## C64 -/

/-- The type octets that messages dispatch to a kind. -/
def Names (k : Kind) (c : UInt8) : Prop := c = k.code ∨ k = .Teid ∧ c = 17

/-- C64 (partial): an element decoded from any octets, encoded and decoded again, is the same element with the length of the encoding.
Missing: the values that are not `Faithful`. -/
theorem C64_resend_partial (m m' : Mode) (k : Kind) (c : UInt8) (r tail : Bytes) (x : k.Ty) (hc : Names k c)
    (h : k.codec.unm m (c :: r) = .ok x) (hf : k.Faithful x) (hl : (k.codec.mar x).length < 65536) (ht : Swallows k → tail = []) :
    k.codec.unm m' (k.codec.mar x ++ tail) = .ok (k.norm x) :=
  C63_round_trip m' k x (Kind.norm_WF h hf (by rintro rfl; rcases hc with rfl | ⟨_, rfl⟩ <;> simp [Kind.code]) hl) tail ht

/-- C64: the type octet stays. -/
theorem C64_type_partial (m : Mode) (k : Kind) (c : UInt8) (r : Bytes) (x : k.Ty) (hc : Names k c)
    (h : k.codec.unm m (c :: r) = .ok x) (hf : k.Faithful x) (hl : (k.codec.mar x).length < 65536) :
    (k.codec.mar x).head? = some c := by
  by_cases hk : k = .Teid
  · subst hk
    have := Teid.head (m := m) h
    rw [List.head?_cons] at this
    exact this.symm
  · have hw := Kind.norm_WF h hf (fun e => absurd e hk) hl
    obtain ⟨t, r, e, h1⟩ := k.first _ hw
    rw [Kind.norm, k.mar_setLength] at e
    rw [e]
    rcases h1 with rfl | ⟨h1, _⟩
    · rcases hc with rfl | ⟨h2, _⟩
      · rfl
      · exact absurd h2 hk
    · exact absurd h1 hk

/-- C64: a further round changes nothing. -/
theorem C64_stable_partial (m m' m'' : Mode) (k : Kind) (c : UInt8) (r : Bytes) (x : k.Ty) (hc : Names k c)
    (h : k.codec.unm m (c :: r) = .ok x) (hf : k.Faithful x) (hl : (k.codec.mar x).length < 65536) :
    ∃ y, k.codec.unm m' (k.codec.mar x) = .ok y ∧ k.codec.mar y = k.codec.mar x ∧ k.codec.unm m'' (k.codec.mar y) = .ok y := by
  have h1 := C64_resend_partial m m' k c r [] x hc h hf hl (fun _ => rfl)
  have h2 := C64_resend_partial m m'' k c r [] x hc h hf hl (fun _ => rfl)
  rw [List.append_nil] at h1 h2
  exact ⟨_, h1, k.mar_setLength _ x, by rw [Kind.norm, k.mar_setLength]; exact h2⟩

/-- A RAT type with a length of 7, and a user location with spare octets behind it. -/
example : Names .RatType 151 ∧ (Kind.codec .RatType).unm .debug [151, 0, 7, 1] = .ok (⟨151, 7, .utran⟩ : RatType) ∧
    Kind.Faithful .RatType (⟨151, 7, .utran⟩ : RatType) ∧ (Kind.norm .RatType (⟨151, 7, .utran⟩ : RatType) : RatType) = ⟨151, 1, .utran⟩ := by
  refine ⟨.inl rfl, by decide +kernel, trivial, rfl⟩

/-- The octets are decoded, and encoding the value and decoding it again gives something else, or nothing. -/
def resendFails (m : Mode) (w : Kind × Bytes) : Bool :=
  match w.1.codec.unm m w.2 with
  | .ok x => decide (w.2.head? = some w.1.code) && decide ((w.1.codec.mar x).length < 65536) &&
      decide (w.1.codec.unm m (w.1.codec.mar x) ≠ .ok (w.1.norm x))
  | _ => false

/-- Octets on which C64 fails. -/
def resendWitnesses : List (Kind × Bytes) := [
  (.Imsi, [2, 0xff, 0xff, 0xff, 0xff, 0xff, 0xff, 0xff, 0xff]),
  (.Imei, [154, 0, 8, 0xff, 0xff, 0xff, 0xff, 0xff, 0xff, 0xff, 0xff]),
  (.Msisdn, [134, 0, 9, 0x91, 0xff, 0xff, 0xff, 0xff, 0xff, 0xff, 0xff, 0xff]),
  (.Uci, [194, 0, 8, 0x99, 0xf9, 0x10, 0xff, 0xff, 0xff, 0xff, 0]),
  (.Apn, [131, 0, 2, 1, 0xe9]),
  (.ExtensionHeaderTypeList, [141, 0] ++ List.replicate 254 1)]

/-- C64 is violated by some values of each kind for which `Faithful` has a condition. -/
theorem C64_violation : ∀ w ∈ resendWitnesses, resendFails .debug w = true := by decide +kernel

/-! ## C65 -/

/-- The field `s` holds a value that was decoded from octets starting with the type of the field. -/
def Decoded (t : Msg) (m : Mode) (x : t.desc.X) (s : t.desc.S) : Prop :=
  ∃ i r, t.desc.view x s = some i ∧ (t.desc.kind s).codec.unm m ((t.desc.place s).1 :: r) = .ok i

theorem Decoded.isSome {t : Msg} {m : Mode} {x : t.desc.X} {s : t.desc.S} (h : Decoded t m x s) : (t.desc.view x s).isSome := by
  obtain ⟨i, r, h, _⟩ := h
  rw [h]
  rfl

/-- What holds of the variables of the loop, however many elements of a type there are. -/
structure Inv (t : Msg) (m : Mode) (h : Header) (st : St t.desc) : Prop where
  header : t.desc.header st.x = h
  source : ∀ s, t.desc.view st.x s = t.desc.view t.desc.dflt s ∨ Decoded t m st.x s
  filled : ∀ s n, st.hash (t.desc.place s).1 = some n → n = 0 ∨ (t.desc.place s).2 < n.toNat → Decoded t m st.x s
  gaps : NoGaps t st.x

theorem place_inj (t : Msg) {s s' : t.desc.S} (h : t.desc.place s = t.desc.place s') : s = s' := by
  have h1 := t.lawful.arm_place s
  rw [h, t.lawful.arm_place s'] at h1
  exact (Option.some.inj h1).symm

/-- A step of the loop: nothing is assigned, or the field of the element. -/
theorem push_cases {t : Msg} {m : Mode} {st : St t.desc} {c : UInt8} {r : Bytes} {a : Arm t.desc.S} {i : a.kind.Ty} (ha : t.desc.arm c = some a)
    (hu : a.kind.codec.unm m (c :: r) = .ok i) :
    (a.slot (st.hash c) = none ∧ (pushI t st (c, ⟨a.kind, i⟩)).x = st.x) ∨
    ∃ s j, a.slot (st.hash c) = some s ∧ t.desc.place s = (c, j) ∧ t.desc.header (pushI t st (c, ⟨a.kind, i⟩)).x = t.desc.header st.x ∧
      Decoded t m (pushI t st (c, ⟨a.kind, i⟩)).x s ∧
      ∀ s', s' ≠ s → t.desc.view (pushI t st (c, ⟨a.kind, i⟩)).x s' = t.desc.view st.x s' := by
  have hx : (pushI t st (c, ⟨a.kind, i⟩)).x = t.desc.store (a.slot (st.hash c)) ⟨a.kind, i⟩ st.x := by
    simp only [pushI, ha, St.next]
  have hl := t.lawful
  rw [hx]
  cases hsl : a.slot (st.hash c) with
  | none => exact .inl ⟨rfl, rfl⟩
  | some s =>
    right
    obtain ⟨j, hj⟩ : ∃ j, a.slots[j]? = some s := by
      unfold Arm.slot at hsl
      split at hsl
      · exact ⟨_, hsl⟩
      · split at hsl
        · split at hsl
          · exact ⟨_, hsl⟩
          · cases hsl
        · exact ⟨_, hsl⟩
    have hp := (hl.place_eq ha).mp hj
    have hks : a.kind = t.desc.kind s := ((hl.arm_kind _ (mem_of_lookup ha)).1 s (List.mem_of_getElem? hj)).symm
    obtain ⟨k, sl, lt2, bad⟩ := a
    simp only at hks hu i
    subst hks
    simp only [store, IE.as_mk]
    exact ⟨s, j, rfl, hp, hl.header_put .., ⟨i, r, hl.view_put .., by rw [hp]; exact hu⟩, fun s' hs => hl.view_put_ne s s' i st.x hs⟩

theorem Inv.push {t : Msg} {m : Mode} {h : Header} {st : St t.desc} (hi : Inv t m h st) {c : UInt8} {r : Bytes} {a : Arm t.desc.S}
    {i : a.kind.Ty} (ha : t.desc.arm c = some a) (hu : a.kind.codec.unm m (c :: r) = .ok i) :
    Inv t m h (pushI t st (c, ⟨a.kind, i⟩)) := by
  have hl := t.lawful
  have hlen := (hl.arm_kind _ (mem_of_lookup ha)).2.2.2.1
  have hash : ∀ d, (pushI t st (c, ⟨a.kind, i⟩)).hash d = if d = c then some (succ (st.hash c)) else st.hash d := by
    intro d
    simp only [pushI, ha, St.next]
  have h0 : (0 : UInt8).toNat = 0 := rfl
  -- the fields that are filled afterwards were filled before, or are the one that is assigned
  have key : ∀ s, (t.desc.place s).1 = c → (succ (st.hash c) = 0 ∨ (t.desc.place s).2 < (succ (st.hash c)).toNat) →
      Decoded t m st.x s ∨ a.slot (st.hash c) = some s := by
    intro s hs hn
    have hps : t.desc.place s = (c, (t.desc.place s).2) := Prod.ext hs rfl
    have hsl := (hl.place_eq ha).mpr hps
    cases hh : st.hash c with
    | none =>
      rw [hh] at hn
      have h1 : (1 : UInt8).toNat = 1 := rfl
      have : (t.desc.place s).2 = 0 := by
        rcases hn with hn | hn
        · exact absurd hn (by decide)
        · change _ < (1 : UInt8).toNat at hn
          omega
      rw [this] at hsl
      exact .inr hsl
    | some n =>
      rw [hh] at hn
      by_cases hz : n = 0
      · exact .inl (hi.filled s n (by rw [hs]; exact hh) (.inl hz))
      · have hsucc : (succ (some n)).toNat = (n.toNat + 1) % 256 := by
          show (n + 1).toNat = _
          rw [UInt8.toNat_add]
          rfl
        have hlt : (t.desc.place s).2 < a.slots.length := by
          rcases Nat.lt_or_ge (t.desc.place s).2 a.slots.length with h' | h'
          · exact h'
          · rw [List.getElem?_eq_none h'] at hsl; cases hsl
        have hn256 := n.toNat_lt
        have : (t.desc.place s).2 < n.toNat ∨ (t.desc.place s).2 = n.toNat := by
          rcases hn with hn | hn
          · rw [hn, h0] at hsucc
            simp only at hlen
            omega
          · omega
        rcases this with hlt | heq
        · exact .inl (hi.filled s n (by rw [hs]; exact hh) (.inr hlt))
        · right
          rw [heq] at hsl
          simp only [Arm.slot, if_neg hz]
          exact hsl
  rcases push_cases (st := st) ha hu with ⟨hn, hx⟩ | ⟨s0, j, hs0, hp0, hhd, hd0, hv⟩
  · have hdec : ∀ s, Decoded t m (pushI t st (c, ⟨a.kind, i⟩)).x s ↔ Decoded t m st.x s := fun s => by rw [hx]
    refine ⟨by rw [hx]; exact hi.header, fun s => by rw [hx]; exact hi.source s, fun s n h1 h2 => ?_, by rw [hx]; exact hi.gaps⟩
    · rw [hdec]
      rw [hash] at h1
      split at h1
      · rename_i hc
        rcases key s hc (by rw [Option.some.inj h1]; exact h2) with h | h
        · exact h
        · rw [hn] at h; cases h
      · exact hi.filled s n h1 h2
  · have mono : ∀ s, Decoded t m st.x s → Decoded t m (pushI t st (c, ⟨a.kind, i⟩)).x s := by
      intro s hs
      by_cases e : s = s0
      · rw [e]; exact hd0
      · unfold Decoded at *
        rw [hv s e]
        exact hs
    have some_mono : ∀ s, (t.desc.view st.x s).isSome → (t.desc.view (pushI t st (c, ⟨a.kind, i⟩)).x s).isSome := by
      intro s hs
      by_cases e : s = s0
      · rw [e]; exact hd0.isSome
      · rw [hv s e]; exact hs
    refine ⟨hhd.trans hi.header, fun s => ?_, fun s n h1 h2 => ?_, fun s s' h1 h2 h3 => ?_⟩
    · by_cases e : s = s0
      · rw [e]; exact .inr hd0
      · rcases hi.source s with h | h
        · exact .inl ((hv s e).trans h)
        · exact .inr (mono s h)
    · rw [hash] at h1
      split at h1
      · rename_i hc
        rcases key s hc (by rw [Option.some.inj h1]; exact h2) with h | h
        · exact mono s h
        · rw [hs0] at h
          rw [← Option.some.inj h]
          exact hd0
      · exact mono s (hi.filled s n h1 h2)
    · by_cases e' : s' = s0
      · subst e'
        by_cases e : s = s'
        · rw [e]; exact hd0.isSome
        · -- a field in front of the one that is assigned
          have hc : (t.desc.place s).1 = c := by rw [← h1, hp0]
          have hne : (t.desc.place s).2 ≠ (t.desc.place s').2 := fun h => e (place_inj t (Prod.ext h1.symm h))
          refine some_mono s ?_
          cases hh : st.hash c with
          | none =>
            rw [hh] at hs0
            have : t.desc.place s' = (c, 0) := (hl.place_eq ha).mp hs0
            rw [this] at h2 hne
            simp only at h2 hne
            omega
          | some n =>
            by_cases hz : n = 0
            · exact (hi.filled s n (by rw [hc]; exact hh) (.inl hz)).isSome
            · rw [hh] at hs0
              simp only [Arm.slot, if_neg hz] at hs0
              have : t.desc.place s' = (c, n.toNat) := (hl.place_eq ha).mp hs0
              rw [this] at h2 hne
              exact (hi.filled s n (by rw [hc]; exact hh) (.inr (by simp only at h2 hne; omega))).isSome
      · rw [hv s' e'] at h3
        exact some_mono s (hi.gaps s s' h1 h2 h3)

theorem Inv.start (t : Msg) (m : Mode) (h : Header) : Inv t m h (t.desc.start h) := by
  refine ⟨t.lawful.header_set _ _, fun s => .inl (t.lawful.view_set _ _ s), fun s n h1 => (by cases h1), fun s s' h1 h2 h3 => ?_⟩
  have h4 : t.desc.mand s' = true := by
    cases hm : t.desc.mand s' with
    | true => rfl
    | false =>
      have : t.desc.view (t.desc.start h).x s' = none := (t.lawful.view_set _ _ s').trans (t.lawful.dflt_view s' hm)
      rw [this] at h3
      cases h3
  exact t.lawful.mand_view _ s ((mand_table t).2 s' (t.lawful.order_all s') h4 s (t.lawful.order_all s) h1 h2)

theorem Inv.parsed {t : Msg} {m : Mode} {h : Header} {b : Bytes} {es : List Item} (hp : Parsed t m b es) :
    ∀ st, Inv t m h st → Inv t m h (es.foldl (pushI t) st) := by
  induction hp with
  | nil => exact fun st h => h
  | cons h1 h2 _ _ ih => exact fun st hi => ih _ (hi.push h1 h2)

/-- The fields that are not optional in the structure, but that may be missing in an accepted message. -/
def mayBeMissing (t : Msg) (s : t.desc.S) : Bool := t.desc.mand s && !(t.desc.mandatory.contains (t.desc.place s).1 && (t.desc.place s).2 == 0)

/-- The second GSN address of the requests to create and to update a context is the only such field. -/
theorem missing_table (t : Msg) : ∀ s ∈ t.desc.order, mayBeMissing t s = true →
    (t = .CreatePDPContextRequest ∨ t = .UpdatePDPContextRequest) ∧ t.desc.kind s = .GsnAddress ∧ t.desc.place s = (133, 1) := by
  cases t <;> (show ∀ _ ∈ (_ : List _), _) <;> decide +kernel

theorem default_table (t : Msg) : ∀ s ∈ t.desc.order, mayBeMissing t s = true → ∀ i, t.desc.view t.desc.dflt s = some i →
    (t.desc.kind s).Faithful i ∧ ((t.desc.kind s).codec.mar i).head? = some (t.desc.place s).1 ∧ (t.desc.kind s).codec.WF ((t.desc.kind s).norm i) := by
  intro s hs hm
  obtain ⟨ht, hk, hp⟩ := missing_table t s hs hm
  rcases ht with rfl | rfl
  all_goals
    cases s
    all_goals first
      | exact absurd hm (by decide)
      | (intro i hi
         cases hi
         refine ⟨trivial, rfl, by decide +kernel⟩)

/-- A field of an accepted message was decoded, or is a field that may be missing and has its default value. -/
theorem accepted_fields {t : Msg} {m : Mode} {b : Bytes} {x : t.desc.X} (e : t.desc.unmarshal m b = .ok x) :
    Header.unmarshal m b = .ok (t.desc.header x) ∧ (t.desc.header x).msgtype = t.desc.code ∧ NoGaps t x ∧
    ∀ s i, t.desc.view x s = some i → (∃ r, (t.desc.kind s).codec.unm m ((t.desc.place s).1 :: r) = .ok i) ∨
      mayBeMissing t s = true ∧ t.desc.view t.desc.dflt s = some i := by
  obtain ⟨h, n, l, st, h1, h2, h3, h4, h5, h6, h7⟩ := accepted e
  obtain ⟨es, p1, p2, p3, p4⟩ := scan_parsed t m _ _ _ _ h6
  have hi : Inv t m h st := by rw [p3]; exact Inv.parsed p1 _ (Inv.start t m h)
  rw [finish] at h7
  split at h7
  · rename_i hall
    rw [List.all_eq_true] at hall
    cases h7
    refine ⟨by rw [hi.header]; exact h1, by rw [hi.header]; exact h2, hi.gaps, fun s i hs => ?_⟩
    have dec : Decoded t m st.x s → ∃ r, (t.desc.kind s).codec.unm m ((t.desc.place s).1 :: r) = .ok i := by
      rintro ⟨j, r, g1, g2⟩
      rw [hs] at g1
      cases g1
      exact ⟨r, g2⟩
    rcases hi.source s with hd | hd
    · by_cases hm : mayBeMissing t s = true
      · exact .inr ⟨hm, by rw [← hd]; exact hs⟩
      · left
        apply dec
        have hmand : t.desc.mand s = true := by
          cases hm : t.desc.mand s with
          | true => rfl
          | false => rw [hd, t.lawful.dflt_view s hm] at hs; cases hs
        simp only [mayBeMissing, hmand, Bool.true_and, Bool.not_eq_true, Bool.not_eq_false', Bool.and_eq_true, List.contains_iff_mem, beq_iff_eq] at hm
        obtain ⟨n, hn⟩ := Option.isSome_iff_exists.mp (hall _ hm.1)
        refine hi.filled s n hn ?_
        by_cases hz : n = 0
        · exact .inl hz
        · right
          have : n.toNat ≠ 0 := fun h => hz (UInt8.toNat_inj.mp h)
          omega
    · exact .inl (dec hd)
  · cases h7

/-- The message with every element carrying the length of its encoding. -/
def normed (t : Msg) (x : t.desc.X) : t.desc.X :=
  t.desc.order.foldl (fun y s => match t.desc.view x s with
    | some i => t.desc.put s ((t.desc.kind s).norm i) y
    | none => y) x

/-- `normed` keeps the header and the set of fields, and replaces the length fields. -/
theorem C65_normed (t : Msg) (x : t.desc.X) : t.desc.header (normed t x) = t.desc.header x ∧
    ∀ s, t.desc.view (normed t x) s = (t.desc.view x s).map (t.desc.kind s).norm := by
  have hl := t.lawful
  have key : ∀ (l : List t.desc.S) (y : t.desc.X),
      t.desc.header (l.foldl (fun y s => match t.desc.view x s with
        | some i => t.desc.put s ((t.desc.kind s).norm i) y
        | none => y) y) = t.desc.header y ∧
      ∀ s, t.desc.view y s = t.desc.view x s ∨ t.desc.view y s = (t.desc.view x s).map (t.desc.kind s).norm →
        (s ∉ l → t.desc.view (l.foldl (fun y s => match t.desc.view x s with
          | some i => t.desc.put s ((t.desc.kind s).norm i) y
          | none => y) y) s = t.desc.view y s) ∧
        (s ∈ l → t.desc.view (l.foldl (fun y s => match t.desc.view x s with
          | some i => t.desc.put s ((t.desc.kind s).norm i) y
          | none => y) y) s = (t.desc.view x s).map (t.desc.kind s).norm) := by
    intro l
    induction l with
    | nil => exact fun y => ⟨rfl, fun s _ => ⟨fun _ => rfl, fun h => by cases h⟩⟩
    | cons s0 l ih =>
      intro y
      rw [List.foldl_cons]
      cases hv : t.desc.view x s0 with
      | none =>
        simp only
        refine ⟨(ih y).1, fun s hs => ⟨fun hn => ((ih y).2 s hs).1 (fun h => hn (by simp [h])), fun hm => ?_⟩⟩
        by_cases hsl : s ∈ l
        · exact ((ih y).2 s hs).2 hsl
        · have e : s = s0 := by simpa [hsl] using hm
          subst e
          rw [((ih y).2 s hs).1 hsl, hv]
          rw [hv] at hs
          simpa using hs
      | some i =>
        simp only
        have h0 := ih (t.desc.put s0 ((t.desc.kind s0).norm i) y)
        refine ⟨h0.1.trans (hl.header_put ..), fun s hs => ?_⟩
        by_cases e : s = s0
        · subst e
          have e1 : t.desc.view (t.desc.put s ((t.desc.kind s).norm i) y) s = (t.desc.view x s).map (t.desc.kind s).norm := by
            rw [hl.view_put, hv]
            rfl
          refine ⟨fun hn => absurd (by simp) hn, fun _ => ?_⟩
          by_cases hsl : s ∈ l
          · exact (h0.2 s (.inr e1)).2 hsl
          · exact ((h0.2 s (.inr e1)).1 hsl).trans e1
        · have e1 := hl.view_put_ne s0 s ((t.desc.kind s0).norm i) y e
          have h1 := h0.2 s (by rw [e1]; exact hs)
          refine ⟨fun hn => (h1.1 (fun h => hn (by simp [h]))).trans e1, fun hm => h1.2 (by simpa [e] using hm)⟩
  exact ⟨(key _ x).1, fun s => ((key t.desc.order x).2 s (.inl rfl)).2 (hl.order_all s)⟩

theorem normed_ie (t : Msg) (x : t.desc.X) (s : t.desc.S) : t.desc.ie (normed t x) s = (t.desc.ie x s).map fun e => ⟨e.1, e.1.norm e.2⟩ := by
  rw [ie, ie, (C65_normed t x).2 s]
  cases t.desc.view x s <;> rfl

/-- The elements of `normed` are those of the message, with new lengths, and in the same order. -/
theorem normed_elements (t : Msg) (x : t.desc.X) : elements t (normed t x) = (elements t x).map fun e => ⟨e.1, e.1.norm e.2⟩ := by
  rw [elements, elements, ies, ies, List.map_filterMap]
  congr 1
  funext s
  exact normed_ie t x s

theorem normed_marshal (t : Msg) (x : t.desc.X) : t.desc.marshalInto [] (normed t x) = t.desc.marshalInto [] x := by
  rw [marshalInto, marshalInto, (C65_normed t x).1, body_octets, body_octets, normed_elements]
  congr 2
  unfold octets
  rw [List.flatMap_map]
  congr 1
  funext e
  exact e.1.mar_setLength _ e.2

/-- An element is no longer than the message. -/
theorem field_length (t : Msg) (x : t.desc.X) (s : t.desc.S) (i : (t.desc.kind s).Ty) (h : t.desc.view x s = some i) :
    ((t.desc.kind s).codec.mar i).length ≤ (t.desc.marshalInto [] x).length := by
  rw [marshal_len]
  have h1 : (⟨t.desc.kind s, i⟩ : IE) ∈ elements t x := List.mem_filterMap.mpr ⟨s, t.lawful.order_all s, by simp [ie, h]⟩
  have h2 : ∀ (l : List IE) (e : IE), e ∈ l → e.mar.length ≤ (octets l).length := by
    intro l e he
    induction l with
    | nil => cases he
    | cons a l ih =>
      unfold octets at ih ⊢
      rw [List.flatMap_cons, List.length_append]
      rcases List.mem_cons.mp he with rfl | he
      · omega
      · have := ih he
        omega
  have := h2 _ _ h1
  exact Nat.le_trans this (Nat.le_add_left ..)

/-- A received message that can be sent on: its extension headers and its elements keep their octets, and it is not longer than a
length field can say. -/
structure Relayable (t : Msg) (x : t.desc.X) : Prop where
  header : HeaderWF (t.desc.header x)
  fields : ∀ s i, t.desc.view x s = some i → (t.desc.kind s).Faithful i
  size : (t.desc.marshalInto [] x).length < 65536

/-- A decoded message that can be sent on is representable, up to the lengths of its elements. -/
theorem regular_normed (t : Msg) (m : Mode) (b : Bytes) (x : t.desc.X) (e : t.desc.unmarshal m b = .ok x) (hr : Relayable t x) :
    Regular t (normed t x) := by
  obtain ⟨h1, h2, h3, h4⟩ := accepted_fields e
  refine ⟨by rw [(C65_normed t x).1]; exact hr.header, by rw [(C65_normed t x).1]; exact h2, fun s j hj => ?_, by
    rw [normed_marshal]; exact hr.size⟩
  rw [(C65_normed t x).2 s, Option.map_eq_some_iff] at hj
  obtain ⟨i, hi, rfl⟩ := hj
  have hlen := Nat.lt_of_le_of_lt (field_length t x s i hi) hr.size
  rw [show (t.desc.kind s).codec.mar ((t.desc.kind s).norm i) = (t.desc.kind s).codec.mar i from (t.desc.kind s).mar_setLength _ i]
  rcases h4 s i hi with ⟨r, hu⟩ | ⟨hm, hd⟩
  · obtain ⟨a, ha, _, hk⟩ := place_arm t s
    have hn : Names (t.desc.kind s) (t.desc.place s).1 := by
      rcases (t.lawful.arm_kind _ (mem_of_lookup ha)).2.1 with h | ⟨h, h'⟩
      · exact .inl (by rw [hk]; exact h.symm)
      · exact .inr ⟨hk.trans h, h'⟩
    refine ⟨Kind.norm_WF hu (hr.fields s i hi) ?_ hlen, C64_type_partial m _ _ r i hn hu (hr.fields s i hi) hlen⟩
    intro hT
    rw [List.head?_cons]
    rcases hn with h | ⟨_, h⟩
    · left
      rw [h, hT]
      rfl
    · exact .inr (congrArg some h)
  · obtain ⟨g1, g2, g3⟩ := default_table t s (t.lawful.order_all s) hm i hd
    exact ⟨g3, g2⟩

/-- C65, exactly: a decoded message that can be sent on is decoded from its own encoding, with the lengths of the encoding, if and only
if its elements are written in ascending order and none of them is an APN restriction. -/
theorem C65_relay_iff (t : Msg) (m m' : Mode) (b : Bytes) (x : t.desc.X) (e : t.desc.unmarshal m b = .ok x) (hr : Relayable t x) :
    t.desc.unmarshal m' (t.desc.marshalInto [] x) = .ok (sent t (normed t x)) ↔
      Ascending (elements t x) ∧ ∀ e ∈ elements t x, e.1 ≠ .ApnRestriction := by
  have hreg := regular_normed t m b x e hr
  have h := C36_roundtrip_iff t m' (normed t x) hreg
  rw [normed_marshal] at h
  rw [h]
  have hcode : ∀ e : IE, IE.code ⟨e.1, e.1.norm e.2⟩ = e.code := by
    intro e
    show (e.1.codec.mar (e.1.norm e.2)).headD 0 = (e.1.codec.mar e.2).headD 0
    rw [show e.1.codec.mar (e.1.norm e.2) = e.1.codec.mar e.2 from e.1.mar_setLength _ e.2]
  have hg : NoGaps t (normed t x) := by
    intro s s' h1 h2 h3
    rw [(C65_normed t x).2] at h3 ⊢
    rw [Option.isSome_map] at h3 ⊢
    exact (accepted_fields e).2.2.1 s s' h1 h2 h3
  rw [normed_elements, Ascending, List.pairwise_map]
  simp only [hcode]
  constructor
  · rintro ⟨h1, h2, _⟩
    exact ⟨h1, fun e he => h2 ⟨e.1, e.1.norm e.2⟩ (List.mem_map.mpr ⟨e, he, rfl⟩)⟩
  · rintro ⟨h1, h2⟩
    refine ⟨h1, fun e he => ?_, hg⟩
    obtain ⟨e', he', rfl⟩ := List.mem_map.mp he
    exact h2 e' he'

/-- C65: otherwise the message is rejected by the next node. -/
theorem C65_rejected (t : Msg) (m m' : Mode) (b : Bytes) (x : t.desc.X) (e : t.desc.unmarshal m b = .ok x) (hr : Relayable t x)
    (h : ¬ (Ascending (elements t x) ∧ ∀ e ∈ elements t x, e.1 ≠ .ApnRestriction)) :
    t.desc.unmarshal m' (t.desc.marshalInto [] x) = .err .messageInvalidMessageFormat := by
  have hreg := regular_normed t m b x e hr
  have h1 := C36_roundtrip_iff t m' (normed t x) hreg
  rw [normed_marshal] at h1
  have h2 := C65_relay_iff t m m' b x e hr
  rw [← normed_marshal]
  refine C36_rejected t m' (normed t x) hreg ?_
  have hg : NoGaps t (normed t x) := by
    intro s s' h1 h2 h3
    rw [(C65_normed t x).2] at h3 ⊢
    rw [Option.isSome_map] at h3 ⊢
    exact (accepted_fields e).2.2.1 s s' h1 h2 h3
  by_cases ha : Ascending (elements t (normed t x))
  · right
    by_cases hx : ∃ e ∈ elements t (normed t x), e.1 = .ApnRestriction
    · exact hx
    · exact absurd (h2.mp (h1.mpr ⟨ha, fun e he hr => hx ⟨e, he, hr⟩, hg⟩)) h
  · exact .inl ha

/-- C65 (partial): a decoded message that can be sent on arrives unchanged, except for the length fields, and sending it on once more
produces the same octets. Missing: the responses to create and to update a context, whose elements are not always written in ascending order
(`C65_relay_iff` says when they are), messages with an APN restriction, and messages that are not `Relayable`. -/
theorem C65_relay_partial (t : Msg) (ht : t ≠ .CreatePDPContextResponse ∧ t ≠ .UpdatePDPContextResponse) (m m' : Mode) (b : Bytes) (x : t.desc.X)
    (e : t.desc.unmarshal m b = .ok x) (hr : Relayable t x) (ha : ∀ s, t.desc.kind s = .ApnRestriction → t.desc.view x s = none) :
    ∃ y, t.desc.unmarshal m' (t.desc.marshalInto [] x) = .ok y ∧ t.desc.marshalInto [] y = t.desc.marshalInto [] x ∧
      t.desc.header y = withLen (t.desc.header x) (UInt16.ofNat ((t.desc.marshalInto [] x).length - 8)) ∧
      ∀ s, t.desc.view y s = (t.desc.view x s).map (t.desc.kind s).norm := by
  have hreg := regular_normed t m b x e hr
  refine ⟨sent t (normed t x), (C65_relay_iff t m m' b x e hr).mpr ⟨?_, fun e he hk => ?_⟩, ?_, ?_, fun s => ?_⟩
  · have h1 := C36_ascending t ht (normed t x) hreg
    rw [normed_elements, Ascending, List.pairwise_map] at h1
    refine h1.imp fun {a b} h => ?_
    have hcode : ∀ e : IE, IE.code ⟨e.1, e.1.norm e.2⟩ = e.code := by
      intro e
      show (e.1.codec.mar (e.1.norm e.2)).headD 0 = (e.1.codec.mar e.2).headD 0
      rw [show e.1.codec.mar (e.1.norm e.2) = e.1.codec.mar e.2 from e.1.mar_setLength _ e.2]
    rw [hcode, hcode] at h
    exact h
  · obtain ⟨s, _, hs⟩ := List.mem_filterMap.mp he
    obtain ⟨i, hi, rfl⟩ := ie_some hs
    rw [ha s hk] at hi
    cases hi
  · have hel : elements t (sent t (normed t x)) = elements t (normed t x) := by
      rw [elements, elements, ies, ies]
      congr 1
      funext s
      rw [ie, ie, sent, t.lawful.view_set]
    have hlen : (t.desc.marshalInto [] (sent t (normed t x))).length = (t.desc.marshalInto [] (normed t x)).length := by
      rw [marshal_len, marshal_len, hel, sent, t.lawful.header_set, marshal_withLen_length]
    have h1 := marshal_octets t (sent t (normed t x))
    have h2 := marshal_octets t (normed t x)
    rw [hlen, hel] at h1
    rw [h1, ← normed_marshal t x]
    refine Eq.trans ?_ h2.symm
    congr 2
    rw [sent, t.lawful.header_set]
    rfl
  · rw [sent, t.lawful.header_set, normed_marshal, (C65_normed t x).1]
  · rw [sent, t.lawful.view_set, (C65_normed t x).2]

instance (k : Kind) (x : k.Ty) : Decidable (k.Faithful x) := by
  cases k <;> dsimp only [Kind.Faithful] <;> infer_instance

/-- `Relayable`, checked field by field, for messages without extension headers. -/
def relayableB (t : Msg) (x : t.desc.X) : Bool :=
  (t.desc.header x).exts.isNone && decide ((t.desc.marshalInto [] x).length < 65536) &&
  t.desc.order.all (fun s => match t.desc.view x s with
    | none => true
    | some i => decide ((t.desc.kind s).Faithful i))

theorem relayable_of {t : Msg} {x : t.desc.X} (h : relayableB t x = true) : Relayable t x := by
  rw [relayableB, Bool.and_eq_true, Bool.and_eq_true, List.all_eq_true] at h
  obtain ⟨⟨h1, h2⟩, h3⟩ := h
  refine ⟨?_, ?_, by simpa using h2⟩
  · intro l hl
    rw [hl] at h1
    cases h1
  · intro s i hi
    have := h3 s (t.lawful.order_all s)
    rw [hi] at this
    simpa using this

/-- A Delete PDP Context Response whose length field, and whose protocol configuration options, do not say the number of octets. -/
example : ∃ x, (Msg.desc .DeletePDPContextResponse).unmarshal .release exDelete = .ok x ∧ Relayable .DeletePDPContextResponse x ∧
    ∀ s, (Msg.desc .DeletePDPContextResponse).kind s = .ApnRestriction → (Msg.desc .DeletePDPContextResponse).view x s = none := by
  refine ⟨_, rfl, relayable_of (by decide +kernel), fun s => ?_⟩
  cases s <;> decide +kernel

/-- A Create PDP Context Response with common flags (148) and a charging gateway address (251), in this order. -/
def exOrdered : Bytes := [0x30, 17, 0, 13, 0, 0, 0, 9, 1, 128, 148, 0, 1, 0, 251, 0, 4, 10, 0, 0, 1]

/-- A Delete PDP Context Response with a PDCP PDU number that says it takes 8 octets. -/
def exLongExt : Bytes := [0x34, 21, 0, 14, 0, 0, 0, 9, 0, 0, 0, 0xc0, 2, 0x12, 0x34, 0, 0, 0, 0, 0, 1, 128]

/-- C65 is violated: a Create PDP Context Response is accepted, and rejected by the next node after it was sent on unchanged; the same
happens to a message with an extension header that is longer than usual. -/
theorem C65_violation (m : Mode) :
    (∃ x, CreatePDPContextResponse.unmarshal m exOrdered = .ok x ∧ Relayable .CreatePDPContextResponse x ∧
      CreatePDPContextResponse.unmarshal m (CreatePDPContextResponse.marshalInto [] x) = .err .messageInvalidMessageFormat) ∧
    ∃ x, DeletePDPContextResponse.unmarshal m exLongExt = .ok x ∧
      ∀ y, DeletePDPContextResponse.unmarshal m (DeletePDPContextResponse.marshalInto [] x) ≠ .ok y := by
  refine ⟨⟨_, by cases m <;> rfl, relayable_of (by decide +kernel), by cases m <;> decide +kernel⟩, _, by cases m <;> rfl, ?_⟩
  intro y h
  cases m <;> cases h

end Gtp.Props.C1
