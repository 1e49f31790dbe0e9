import Verif.C1.Own

/-!
# C73: a GTPv1-C information element is decoded from its own octets

An element without length field has a fixed size; one with a length field has three octets and as many as these declare, the
Extension Header Type List two and as many as these declare. What follows belongs to the next element.
-/

namespace Gtp.Props.C1
open Gtp.C1 Gtp.V1

/-- The sizes of the elements of type and value (3GPP TS 29.060, 7.7). -/
def tvSizes : List (Kind × Nat) :=
  [(.Cause, 2), (.Imsi, 9), (.Rai, 7), (.ReorderingRequired, 2), (.Recovery, 2), (.SelectionMode, 2), (.Teid, 5), (.TeardownInd, 2),
   (.Nsapi, 2), (.ChargingCharacteristics, 3), (.TraceReference, 3), (.TraceType, 3), (.ChargingID, 5)]

/-- Octets that are exactly one element of a kind. -/
def Whole (k : Kind) (own : Bytes) : Prop :=
  (∃ n, (k, n) ∈ tvSizes ∧ own.length = n) ∨
  (k = .ExtensionHeaderTypeList ∧ ∃ t l body, own = t :: l :: body ∧ body.length = l.toNat) ∨
  (k ∉ tvSizes.map Prod.fst ∧ k ≠ .ExtensionHeaderTypeList ∧
    ∃ t h l body, own = t :: h :: l :: body ∧ body.length = 256 * h.toNat + l.toNat)

/-- The kinds of which the decoder reads the octets of the element and no others. -/
def selfContained : List Kind :=
  tvSizes.map Prod.fst ++ [.Pco, .Tft, .TriggerId, .OmcId, .Apn, .Qos, .CamelChargingInfoContainer, .GsnAddress, .ChargingGWAddress, .EndUserAddress]

theorem tvSizes_spec : ∀ p ∈ tvSizes, p.1.tvSize = some p.2 := by decide +kernel

theorem contained_spec (k : Kind) (h : k ∈ selfContained) : k ∈ tvSizes.map Prod.fst ∨ (k.contained = true ∧ k ≠ .ExtensionHeaderTypeList) := by
  cases k <;> first | exact .inl (by decide) | exact .inr (by decide) | exact absurd h (by decide)

theorem contained_open (k : Kind) (h : k ∈ selfContained) : k.openEnded = false := by
  cases k <;> first | rfl | exact absurd h (by decide)

theorem Whole.declLen {k : Kind} {own r : Bytes} (h : Whole k own) (h1 : k ∉ tvSizes.map Prod.fst) (h2 : k ≠ .ExtensionHeaderTypeList) :
    own.length = (V2.declLen (own ++ r)).toNat + 3 := by
  rcases h with ⟨n, h3, -⟩ | ⟨h3, -⟩ | ⟨-, -, t, h, l, body, rfl, hb⟩
  · exact absurd (List.mem_map_of_mem (f := Prod.fst) h3) h1
  · exact absurd h3 h2
  · have : (V2.declLen (t :: h :: l :: body ++ r)) = of16 h l := rfl
    rw [this]
    simp only [List.length_cons, hb, of16]
    have h1 := h.toNat_lt
    have h2 := l.toNat_lt
    simp
    omega

/-- C73: an element of one of the kinds of `selfContained` is decoded in front of any octets to exactly what it is on its own.
Missing: the other kinds (`C73_violation`). -/
theorem C73_own_partial {m : Mode} {k : Kind} {own r : Bytes} (hw : Whole k own) (hk : k ∈ selfContained) (x : k.Ty) :
    k.codec.unm m (own ++ r) = .ok x ↔ k.codec.unm m own = .ok x := by
  constructor
  · intro h
    rcases contained_spec k hk with ht | ⟨hc, he⟩
    · obtain ⟨⟨k', n⟩, hp, hkn⟩ := List.mem_map.mp ht
      have hn : own.length = n := by
        rcases hw with ⟨n', h3, h4⟩ | ⟨h3, -⟩ | ⟨h3, -⟩
        · have e1 := tvSizes_spec _ h3
          have e2 := tvSizes_spec _ hp
          simp only at hkn
          subst hkn
          rw [h4]
          exact Option.some.inj (e1.symm.trans e2)
        · subst h3
          exact absurd ht (by decide)
        · exact absurd ht h3
      have e2 := tvSizes_spec _ hp
      simp only at hkn e2
      subst hkn
      have e := Kind.own_tv (b := own ++ r) m k' e2
      rw [← hn, List.take_left] at e
      exact e x h
    · by_cases h1 : k ∈ tvSizes.map Prod.fst
      · exact absurd hc (by
          clear h x hw hk he
          cases k <;> first | (exact Bool.false_ne_true) | exact absurd h1 (by decide))
      · have e := Kind.own_tlv (b := own ++ r) m k hc (hw.declLen (r := r) h1 he)
        rw [List.take_left] at e
        exact e x h
  · exact Kind.ext m k (contained_open k hk) x

/-- The kinds whose decoders take the rest of the buffer. -/
def takesAll : List Kind := [.PrivateExtension, .ExtensionHeaderTypeList]

/-- C73: an element that is accepted at the end of a buffer is accepted as the same in front of any octets. Missing: the kinds of
`takesAll` (`C73_violation_rest`). -/
theorem C73_append_partial {m : Mode} {k : Kind} (hk : k ∉ takesAll) {b r : Bytes} {x : k.Ty} (h : k.codec.unm m b = .ok x) :
    k.codec.unm m (b ++ r) = .ok x :=
  Kind.ext m k (by cases k <;> first | rfl | exact absurd (by decide) hk) x h

/-- C73 violated: whatever follows a Private Extension becomes part of its value. -/
theorem C73_violation_rest {m : Mode} {b r : Bytes} {x : PrivateExtension} (h : PrivateExtension.unmarshal m b = .ok x) :
    PrivateExtension.unmarshal m (b ++ r) = .ok { x with extension_value := x.extension_value ++ r } := by
  have key : ∀ l, PrivateExtension.body b l = .ok x →
      PrivateExtension.body (b ++ r) l = .ok { x with extension_value := x.extension_value ++ r } := by
    intro l h
    unfold PrivateExtension.body at h ⊢
    cases h1 : (rd16 b 3 : R Err UInt16) with
    | ok i =>
      rw [h1, R.ok_bind] at h
      rw [Ext.rd16 i h1, R.ok_bind]
      unfold slFrom at h ⊢
      by_cases h2 : 5 ≤ b.length
      · rw [if_pos h2] at h
        rw [if_pos (by rw [List.length_append]; omega), List.drop_append_of_le_length h2]
        injection h with h
        subst h
        rfl
      · rw [if_neg h2] at h
        cases h
    | _ => rw [h1] at h; cases h
  unfold PrivateExtension.unmarshal withTlv at h ⊢
  by_cases h3 : 3 ≤ b.length
  · rw [if_pos h3] at h
    rw [if_pos (by rw [List.length_append]; omega)]
    cases h1 : (rd16 b 1 : R Err UInt16) with
    | ok l =>
      rw [h1, R.ok_bind] at h
      rw [Ext.rd16 l h1, R.ok_bind]
      unfold checkTlv at h ⊢
      by_cases hl : l = 0
      · rw [if_pos hl] at h
        cases h
      · rw [if_neg hl] at h ⊢
        cases h4 : (add16 m l 3 : R Err UInt16) with
        | ok n =>
          rw [h4] at h
          simp only [R.ok_bind, R.pure_eq] at h ⊢
          by_cases h5 : n.toNat ≤ b.length
          · rw [if_pos (decide_eq_true h5)] at h
            rw [if_pos (decide_eq_true (by rw [List.length_append]; omega))]
            exact key l h
          · rw [decide_eq_false h5] at h
            cases h
        | _ => rw [h4] at h; cases h
    | _ => rw [h1] at h; cases h
  · rw [if_neg h3] at h
    cases h

/-- C73 violated: whatever follows an Extension Header Type List becomes part of it. -/
theorem C73_violation_list {m : Mode} {b r : Bytes} {x : ExtensionHeaderTypeList} (h : ExtensionHeaderTypeList.unmarshal m b = .ok x) :
    ExtensionHeaderTypeList.unmarshal m (b ++ r) = .ok { x with list := x.list ++ r } := by
  unfold ExtensionHeaderTypeList.unmarshal at h ⊢
  cases h1 : (rd b 1 : R Err UInt8) with
  | ok l =>
    rw [h1, R.ok_bind] at h
    rw [Ext.rd l h1, R.ok_bind]
    cases h4 : (add8 m l 2 : R Err UInt8) with
    | ok n =>
      rw [h4, R.ok_bind] at h
      rw [R.ok_bind]
      by_cases h5 : n.toNat ≤ b.length
      · rw [if_pos h5] at h
        rw [if_pos (by rw [List.length_append]; omega)]
        unfold slFrom at h ⊢
        by_cases h2 : 2 ≤ b.length
        · rw [if_pos h2] at h
          rw [if_pos (by rw [List.length_append]; omega), List.drop_append_of_le_length h2]
          injection h with h
          subst h
          rfl
        · rw [if_neg h2] at h
          cases h
      · rw [if_neg h5] at h
        cases h
    | _ => rw [h4] at h; cases h
  | _ => rw [h1] at h; cases h

/-- Elements of the other kinds that declare fewer octets than they need, and octets behind them with which they are accepted. -/
def overreaders : List (Kind × Bytes × Bytes) :=
  [(.Msisdn, [134, 0, 1, 1], [0, 0, 0, 0, 0, 0, 0, 0]),
   (.CommonFlags, [148, 0, 0], [0]),
   (.ApnRestriction, [149, 0, 0], [0]),
   (.RatType, [151, 0, 0], [1]),
   (.Uli, [152, 0, 0], [0, 0, 0, 0, 0, 0, 0, 0]),
   (.MsTimeZone, [153, 0, 0], [0, 0]),
   (.Imei, [154, 0, 0], [0, 0, 0, 0, 0, 0, 0, 0]),
   (.AdditionalTraceInfo, [162, 0, 0], [0, 0, 0, 0, 0, 0, 0, 0, 0]),
   (.MSInfoChangeReportingAction, [181, 0, 0], [0]),
   (.DirectTunnelFlags, [182, 0, 0], [0]),
   (.CorrelationId, [183, 0, 0], [0]),
   (.BearerControlMode, [184, 0, 0], [0]),
   (.EvolvedAllocationRetentionI, [191, 0, 0], [0]),
   (.ExtendedCommonFlags, [193, 0, 0], [0]),
   (.Uci, [194, 0, 0], [0, 0, 0, 0, 0, 0, 0, 0]),
   (.CSGInformationReportingAction, [195, 0, 0], [0]),
   (.ApnAmbr, [198, 0, 0], [0, 0, 0, 0, 0, 0, 0, 0]),
   (.GGSNBackOffTime, [202, 0, 0], [0]),
   (.Spi, [203, 0, 0], [0]),
   (.UliTimestamp, [214, 0, 0], [0, 0, 0, 0]),
   (.CnOperatorSelectionEntity, [216, 0, 0], [0]),
   (.ExtendedCommonFlagsII, [218, 0, 0], [0]),
   (.MappedUeUsageType, [223, 0, 0], [0, 0]),
   (.UpFunctionSelectionIndicationFlags, [224, 0, 0], [0]),
   (.PrivateExtension, [255, 0, 1, 0], [0])]

def accepts (m : Mode) (k : Kind) (b : Bytes) : Bool :=
  match k.codec.unm m b with
  | .ok _ => true
  | _ => false

def wholeB : Bytes → Bool
  | _ :: h :: l :: body => body.length = 256 * h.toNat + l.toNat
  | _ => false

theorem overreaders_spec : (overreaders.all fun p => wholeB p.2.1 && accepts .debug p.1 (p.2.1 ++ p.2.2) &&
    accepts .release p.1 (p.2.1 ++ p.2.2) && !accepts .debug p.1 p.2.1 && !accepts .release p.1 p.2.1) = true := by decide +kernel

theorem overreaders_kinds (k : Kind) (h : k ∉ selfContained) (h2 : k ≠ .ExtensionHeaderTypeList) :
    k ∉ tvSizes.map Prod.fst ∧ ∃ p ∈ overreaders, p.1 = k := by
  cases k <;> first | exact absurd (by decide) h | exact absurd rfl h2 | decide

/-- C73 violated: of every kind outside `selfContained`, the Extension Header Type List aside, some element is accepted only because
of the octets behind it. -/
theorem C73_violation (m : Mode) {k : Kind} (h : k ∉ selfContained) (h2 : k ≠ .ExtensionHeaderTypeList) :
    ∃ own r x, Whole k own ∧ k.codec.unm m (own ++ r) = .ok x ∧ ∀ y, k.codec.unm m own ≠ .ok y := by
  obtain ⟨h1, ⟨k', own, r⟩, hp, hh⟩ := overreaders_kinds k h h2
  simp only at hh
  subst hh
  have hs := List.all_eq_true.mp overreaders_spec _ hp
  simp only [Bool.and_eq_true, Bool.not_eq_true'] at hs
  obtain ⟨⟨⟨⟨h0, h3⟩, h4⟩, h5⟩, h6⟩ := hs
  have a1 : accepts m k' (own ++ r) = true := by cases m <;> assumption
  have a2 : accepts m k' own = false := by cases m <;> assumption
  unfold accepts at a1 a2
  cases hd : k'.codec.unm m (own ++ r) with
  | ok p =>
    refine ⟨own, r, p, .inr (.inr ⟨h1, h2, ?_⟩), hd, fun q hq => ?_⟩
    · match own, h0 with
      | a :: h :: l :: body, h0 => exact ⟨a, h, l, body, rfl, of_decide_eq_true h0⟩
    · rw [hq] at a2
      cases a2
  | _ => rw [hd] at a1; cases a1

example : Whole .Apn [131, 0, 2, 1, 97] ∧ Kind.Apn ∈ selfContained ∧ accepts .debug .Apn [131, 0, 2, 1, 97] = true :=
  ⟨.inr (.inr ⟨by decide, by decide, 131, 0, 2, [1, 97], rfl, rfl⟩), by decide, by decide +kernel⟩

example : accepts .debug .PrivateExtension [255, 0, 2, 0, 1] = true ∧ accepts .debug .ExtensionHeaderTypeList [141, 1, 0xc0] = true := by
  decide +kernel

end Gtp.Props.C1
