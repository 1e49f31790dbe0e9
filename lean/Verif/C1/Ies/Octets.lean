import Verif.C1.IeBase

/-!
# TLV information elements holding octets

Expanded by `scripts/gen_c1_ies.py`; the citations refer to
`/repo/src/gtpv1/gtpc/messages/ies`.
-/

namespace Gtp.C1
open Gtp.V1
open Gtp.U (len3)
open Gtp.V2 (declLen)

set_option linter.unusedSimpArgs false

/-- The panics of the decoders in this file: only when `length + 3` does not fit in a `u16`. -/
theorem octets_panics {α : Type} (m : Mode) (b : Bytes) (k : UInt16 → Bytes → α) :
    ((if b.length < 3 then .err .ieInvalidLength
      else if 65533 ≤ (declLen b).toNat then
        (if m = .debug then .panic else slBody3 m b (declLen b) >>= fun s => .ok (k (declLen b) s))
      else if 0 < (declLen b).toNat ∧ (declLen b).toNat + 3 ≤ b.length then
        slBody3 m b (declLen b) >>= fun s => .ok (k (declLen b) s)
      else .err .ieInvalidLength : R Err α) = .panic ↔ 3 ≤ b.length ∧ 65533 ≤ (declLen b).toNat) ∧
    (if b.length < 3 then .err .ieInvalidLength
      else if 65533 ≤ (declLen b).toNat then
        (if m = .debug then .panic else slBody3 m b (declLen b) >>= fun s => .ok (k (declLen b) s))
      else if 0 < (declLen b).toNat ∧ (declLen b).toNat + 3 ≤ b.length then
        slBody3 m b (declLen b) >>= fun s => .ok (k (declLen b) s)
      else .err .ieInvalidLength : R Err α) ≠ .diverge := by
  by_cases h : b.length < 3
  · simp [h, Nat.not_le.mpr h]
  · by_cases h1 : 65533 ≤ (declLen b).toNat
    · rw [if_neg h, if_pos h1, slBody3_panic h1]
      have h3 : 3 ≤ b.length := by omega
      cases m <;> simp [h1, h3]
    · rw [if_neg h, if_neg h1]
      by_cases h2 : 0 < (declLen b).toNat ∧ (declLen b).toNat + 3 ≤ b.length
      · rw [if_pos h2, slBody3_ok (by omega), sl_ok (by omega) (by omega)]
        simp [h1]
      · rw [if_neg h2]
        simp [h1]

/-- `Pco` (pco.rs:12-16). -/
structure Pco where
  t : UInt8
  length : UInt16
  pco : Bytes
deriving DecidableEq, Repr

namespace Pco

/-- `default` (pco.rs:19-25). -/
def dflt : Pco := ⟨132, 0, []⟩

/-- `marshal` (pco.rs:29-36). -/
def marshal (x : Pco) : Bytes := tlv x.t x.length x.pco

/-- `unmarshal` (pco.rs:38-57). -/
def unmarshal (m : Mode) (b : Bytes) : R Err Pco :=
  withTlv m b fun length => do
    let pco ← slBody3 m b length
    return { t := 132, length, pco }

/-- `len` (pco.rs:59-61). -/
def len (m : Mode) (x : Pco) : R Err Nat := len3 m x.length

/-- Field values that the encoding of `Pco` can represent. -/
def WF (x : Pco) : Prop :=
  x.t = 132 ∧ x.length.toNat = x.pco.length ∧ 0 < x.length.toNat ∧ x.length.toNat < 65533

instance (x : Pco) : Decidable x.WF := by unfold WF; infer_instance

theorem rt : RoundTrips WF marshal unmarshal := by
  intro m x tail h
  obtain ⟨t, length, s⟩ := x
  obtain ⟨ht, hl, h0, hb⟩ := h
  simp only at ht hl h0 hb
  subst ht
  simp only [marshal, tlv_wf hl, List.cons_append, unmarshal]
  rw [withTlv_cons h0 hb (by simp; omega), slBody3_ok hb, sl_body3 _ _ _ _ _ _ hl]
  rfl

theorem len_ok : LenOk WF marshal len := by
  intro m x h
  rw [marshal, tlv_length, len, len3_ok h.2.2.2, h.2.1]

theorem panics : PanicsIff Overflows unmarshal := by
  intro m b
  unfold unmarshal Overflows
  rw [withTlv_eq]
  exact octets_panics m b _

theorem declared : Declared unmarshal len := by
  intro m b x e
  unfold unmarshal at e
  have : x.length = declLen b := withTlv_post (P := fun x => x.length = declLen b) m b _ (by
    intro y hy
    cases hs : slBody3 m b (declLen b) <;> simp [hs] at hy
    subst hy; rfl) e
  rw [len, this]

end Pco

/-- `Tft` (tft.rs:12-16). -/
structure Tft where
  t : UInt8
  length : UInt16
  tft : Bytes
deriving DecidableEq, Repr

namespace Tft

/-- `default` (tft.rs:19-25). -/
def dflt : Tft := ⟨137, 0, []⟩

/-- `marshal` (tft.rs:29-36). -/
def marshal (x : Tft) : Bytes := tlv x.t x.length x.tft

/-- `unmarshal` (tft.rs:38-57). -/
def unmarshal (m : Mode) (b : Bytes) : R Err Tft :=
  withTlv m b fun length => do
    let tft ← slBody3 m b length
    return { t := 137, length, tft }

/-- `len` (tft.rs:59-61). -/
def len (m : Mode) (x : Tft) : R Err Nat := len3 m x.length

/-- Field values that the encoding of `Tft` can represent. -/
def WF (x : Tft) : Prop :=
  x.t = 137 ∧ x.length.toNat = x.tft.length ∧ 0 < x.length.toNat ∧ x.length.toNat < 65533

instance (x : Tft) : Decidable x.WF := by unfold WF; infer_instance

theorem rt : RoundTrips WF marshal unmarshal := by
  intro m x tail h
  obtain ⟨t, length, s⟩ := x
  obtain ⟨ht, hl, h0, hb⟩ := h
  simp only at ht hl h0 hb
  subst ht
  simp only [marshal, tlv_wf hl, List.cons_append, unmarshal]
  rw [withTlv_cons h0 hb (by simp; omega), slBody3_ok hb, sl_body3 _ _ _ _ _ _ hl]
  rfl

theorem len_ok : LenOk WF marshal len := by
  intro m x h
  rw [marshal, tlv_length, len, len3_ok h.2.2.2, h.2.1]

theorem panics : PanicsIff Overflows unmarshal := by
  intro m b
  unfold unmarshal Overflows
  rw [withTlv_eq]
  exact octets_panics m b _

theorem declared : Declared unmarshal len := by
  intro m b x e
  unfold unmarshal at e
  have : x.length = declLen b := withTlv_post (P := fun x => x.length = declLen b) m b _ (by
    intro y hy
    cases hs : slBody3 m b (declLen b) <;> simp [hs] at hy
    subst hy; rfl) e
  rw [len, this]

end Tft

/-- `TriggerId` (triggerid.rs:12-16). -/
structure TriggerId where
  t : UInt8
  length : UInt16
  triggerid : Bytes
deriving DecidableEq, Repr

namespace TriggerId

/-- `default` (triggerid.rs:19-25). -/
def dflt : TriggerId := ⟨142, 0, []⟩

/-- `marshal` (triggerid.rs:29-36). -/
def marshal (x : TriggerId) : Bytes := tlv x.t x.length x.triggerid

/-- `unmarshal` (triggerid.rs:38-57). -/
def unmarshal (m : Mode) (b : Bytes) : R Err TriggerId :=
  withTlv m b fun length => do
    let triggerid ← slBody3 m b length
    return { t := 142, length, triggerid }

/-- `len` (triggerid.rs:59-61). -/
def len (m : Mode) (x : TriggerId) : R Err Nat := len3 m x.length

/-- Field values that the encoding of `TriggerId` can represent. -/
def WF (x : TriggerId) : Prop :=
  x.t = 142 ∧ x.length.toNat = x.triggerid.length ∧ 0 < x.length.toNat ∧ x.length.toNat < 65533

instance (x : TriggerId) : Decidable x.WF := by unfold WF; infer_instance

theorem rt : RoundTrips WF marshal unmarshal := by
  intro m x tail h
  obtain ⟨t, length, s⟩ := x
  obtain ⟨ht, hl, h0, hb⟩ := h
  simp only at ht hl h0 hb
  subst ht
  simp only [marshal, tlv_wf hl, List.cons_append, unmarshal]
  rw [withTlv_cons h0 hb (by simp; omega), slBody3_ok hb, sl_body3 _ _ _ _ _ _ hl]
  rfl

theorem len_ok : LenOk WF marshal len := by
  intro m x h
  rw [marshal, tlv_length, len, len3_ok h.2.2.2, h.2.1]

theorem panics : PanicsIff Overflows unmarshal := by
  intro m b
  unfold unmarshal Overflows
  rw [withTlv_eq]
  exact octets_panics m b _

theorem declared : Declared unmarshal len := by
  intro m b x e
  unfold unmarshal at e
  have : x.length = declLen b := withTlv_post (P := fun x => x.length = declLen b) m b _ (by
    intro y hy
    cases hs : slBody3 m b (declLen b) <;> simp [hs] at hy
    subst hy; rfl) e
  rw [len, this]

end TriggerId

/-- `OmcId` (omcid.rs:12-16). -/
structure OmcId where
  t : UInt8
  length : UInt16
  omcid : Bytes
deriving DecidableEq, Repr

namespace OmcId

/-- `default` (omcid.rs:19-25). -/
def dflt : OmcId := ⟨143, 0, []⟩

/-- `marshal` (omcid.rs:29-36). -/
def marshal (x : OmcId) : Bytes := tlv x.t x.length x.omcid

/-- `unmarshal` (omcid.rs:38-57). -/
def unmarshal (m : Mode) (b : Bytes) : R Err OmcId :=
  withTlv m b fun length => do
    let omcid ← slBody3 m b length
    return { t := 143, length, omcid }

/-- `len` (omcid.rs:59-61). -/
def len (m : Mode) (x : OmcId) : R Err Nat := len3 m x.length

/-- Field values that the encoding of `OmcId` can represent. -/
def WF (x : OmcId) : Prop :=
  x.t = 143 ∧ x.length.toNat = x.omcid.length ∧ 0 < x.length.toNat ∧ x.length.toNat < 65533

instance (x : OmcId) : Decidable x.WF := by unfold WF; infer_instance

theorem rt : RoundTrips WF marshal unmarshal := by
  intro m x tail h
  obtain ⟨t, length, s⟩ := x
  obtain ⟨ht, hl, h0, hb⟩ := h
  simp only at ht hl h0 hb
  subst ht
  simp only [marshal, tlv_wf hl, List.cons_append, unmarshal]
  rw [withTlv_cons h0 hb (by simp; omega), slBody3_ok hb, sl_body3 _ _ _ _ _ _ hl]
  rfl

theorem len_ok : LenOk WF marshal len := by
  intro m x h
  rw [marshal, tlv_length, len, len3_ok h.2.2.2, h.2.1]

theorem panics : PanicsIff Overflows unmarshal := by
  intro m b
  unfold unmarshal Overflows
  rw [withTlv_eq]
  exact octets_panics m b _

theorem declared : Declared unmarshal len := by
  intro m b x e
  unfold unmarshal at e
  have : x.length = declLen b := withTlv_post (P := fun x => x.length = declLen b) m b _ (by
    intro y hy
    cases hs : slBody3 m b (declLen b) <;> simp [hs] at hy
    subst hy; rfl) e
  rw [len, this]

end OmcId

end Gtp.C1
