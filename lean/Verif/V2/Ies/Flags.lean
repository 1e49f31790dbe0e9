import Verif.V2.IeBase

/-!
# Information elements consisting of flags

Expanded by `scripts/gen_ies.py`; the citations refer to `/repo/src/gtpv2/messages/ies`.
-/

namespace Gtp.V2

set_option linter.unusedSimpArgs false

/-- `match v { 0 => false, 1 => true, _ => return Err(..) }`, as in spi.rs:60-64. -/
def boolOfU8 (v : UInt8) : Option Bool :=
  if v = 0 then some false else if v = 1 then some true else none

@[gtp] theorem boolOfU8_b2u (v : Bool) : boolOfU8 (b2u v) = some v := by cases v <;> rfl

/-- `Spi` (spi.rs:17-22). -/
structure Spi where
  t : UInt8
  length : UInt16
  ins : UInt8
  lapi : Bool
deriving DecidableEq, Repr

namespace Spi

/-- `marshal` (spi.rs:42-53). -/
def marshal (x : Spi) : Bytes :=
  tliv 157 x.length x.ins [b2u x.lapi]

/-- `unmarshal` (spi.rs:55-71). -/
def unmarshal (_m : Mode) (b : Bytes) : R Err Spi := do
  if 5 ≤ b.length then
    let length ← rd16 b 1
    let ins ← rd b 3
    let v0 ← rd b 4
    let lapi ← .ofOption (boolOfU8 v0) (.ieIncorrect 157)
    return { t := 157, length, ins := ins &&& 0x0f, lapi }
  else .err (.ieInvalidLength 157)

/-- `len` (spi.rs:73-75). -/
def len (_m : Mode) (_x : Spi) : R Err Nat := .ok 5

/-- Field values that the encoding of a `Spi` can represent. -/
def WF (x : Spi) : Prop := x.t = 157 ∧ x.length.toNat = 1 ∧ x.ins < 16

instance (x : Spi) : Decidable x.WF := by unfold WF; infer_instance

theorem rt : RoundTrips WF marshal unmarshal := by
  intro m x tail h
  obtain ⟨t, length, ins, lapi⟩ := x
  obtain ⟨ht, hl, hi⟩ := h
  simp only at ht hl hi
  enc_simp [marshal]
  rt_simp [unmarshal, ht, hl, hi]

theorem len_ok : LenOk WF marshal len := by
  intro m x h
  have hm : x.marshal.length = 5 := by
    obtain ⟨t, length, ins, lapi⟩ := x
    obtain ⟨ht, hl, hi⟩ := h
    simp only at ht hl hi
    enc_simp [marshal]
    simp [gtp]
  rw [hm]; rfl

theorem safe : FixedSafe 5 unmarshal len := by
  intro m b
  safe_simp [unmarshal, len]
  safe_fin

end Spi

/-- `UpFunctionSelectionIndicationFlags` (upfsif.rs:17-22). -/
structure UpFunctionSelectionIndicationFlags where
  t : UInt8
  length : UInt16
  ins : UInt8
  dcnr : Bool
deriving DecidableEq, Repr

namespace UpFunctionSelectionIndicationFlags

/-- `marshal` (upfsif.rs:42-53). -/
def marshal (x : UpFunctionSelectionIndicationFlags) : Bytes :=
  tliv 202 x.length x.ins [b2u x.dcnr]

/-- `unmarshal` (upfsif.rs:55-71). -/
def unmarshal (_m : Mode) (b : Bytes) : R Err UpFunctionSelectionIndicationFlags := do
  if 5 ≤ b.length then
    let length ← rd16 b 1
    let ins ← rd b 3
    let v0 ← rd b 4
    let dcnr ← .ofOption (boolOfU8 v0) (.ieIncorrect 202)
    return { t := 202, length, ins := ins &&& 0x0f, dcnr }
  else .err (.ieInvalidLength 202)

/-- `len` (upfsif.rs:73-75). -/
def len (_m : Mode) (_x : UpFunctionSelectionIndicationFlags) : R Err Nat := .ok 5

/-- Field values that the encoding of a `UpFunctionSelectionIndicationFlags` can represent. -/
def WF (x : UpFunctionSelectionIndicationFlags) : Prop :=
  x.t = 202 ∧
  x.length.toNat = 1 ∧
  x.ins < 16

instance (x : UpFunctionSelectionIndicationFlags) : Decidable x.WF := by unfold WF; infer_instance

theorem rt : RoundTrips WF marshal unmarshal := by
  intro m x tail h
  obtain ⟨t, length, ins, dcnr⟩ := x
  obtain ⟨ht, hl, hi⟩ := h
  simp only at ht hl hi
  enc_simp [marshal]
  rt_simp [unmarshal, ht, hl, hi]

theorem len_ok : LenOk WF marshal len := by
  intro m x h
  have hm : x.marshal.length = 5 := by
    obtain ⟨t, length, ins, dcnr⟩ := x
    obtain ⟨ht, hl, hi⟩ := h
    simp only at ht hl hi
    enc_simp [marshal]
    simp [gtp]
  rw [hm]; rfl

theorem safe : FixedSafe 5 unmarshal len := by
  intro m b
  safe_simp [unmarshal, len]
  safe_fin

end UpFunctionSelectionIndicationFlags

/-- `HenbInfoReporting` (henbinforeporting.rs:21-26). -/
structure HenbInfoReporting where
  t : UInt8
  length : UInt16
  ins : UInt8
  fti : Bool
deriving DecidableEq, Repr

namespace HenbInfoReporting

/-- `marshal` (henbinforeporting.rs:46-57). -/
def marshal (x : HenbInfoReporting) : Bytes :=
  tliv 165 x.length x.ins [b2u x.fti]

/-- `unmarshal` (henbinforeporting.rs:59-75). -/
def unmarshal (_m : Mode) (b : Bytes) : R Err HenbInfoReporting := do
  if 5 ≤ b.length then
    let length ← rd16 b 1
    let ins ← rd b 3
    let v0 ← rd b 4
    let fti ← .ofOption (boolOfU8 v0) (.ieIncorrect 165)
    return { t := 165, length, ins := ins &&& 0x0f, fti }
  else .err (.ieInvalidLength 165)

/-- `len` (henbinforeporting.rs:77-79). -/
def len (_m : Mode) (_x : HenbInfoReporting) : R Err Nat := .ok 5

/-- Field values that the encoding of a `HenbInfoReporting` can represent. -/
def WF (x : HenbInfoReporting) : Prop := x.t = 165 ∧ x.length.toNat = 1 ∧ x.ins < 16

instance (x : HenbInfoReporting) : Decidable x.WF := by unfold WF; infer_instance

theorem rt : RoundTrips WF marshal unmarshal := by
  intro m x tail h
  obtain ⟨t, length, ins, fti⟩ := x
  obtain ⟨ht, hl, hi⟩ := h
  simp only at ht hl hi
  enc_simp [marshal]
  rt_simp [unmarshal, ht, hl, hi]

theorem len_ok : LenOk WF marshal len := by
  intro m x h
  have hm : x.marshal.length = 5 := by
    obtain ⟨t, length, ins, fti⟩ := x
    obtain ⟨ht, hl, hi⟩ := h
    simp only at ht hl hi
    enc_simp [marshal]
    simp [gtp]
  rw [hm]; rfl

theorem safe : FixedSafe 5 unmarshal len := by
  intro m b
  safe_simp [unmarshal, len]
  safe_fin

end HenbInfoReporting

/-- `ServicesAuthorized` (servicesauthorized.rs:17-23). -/
structure ServicesAuthorized where
  t : UInt8
  length : UInt16
  ins : UInt8
  vehicle_ue_auth : Bool
  pedestrian_ue_auth : Bool
deriving DecidableEq, Repr

namespace ServicesAuthorized

/-- `marshal` (servicesauthorized.rs:44-59). -/
def marshal (x : ServicesAuthorized) : Bytes :=
  tliv 210 x.length x.ins [b2u x.vehicle_ue_auth, b2u x.pedestrian_ue_auth]

/-- `unmarshal` (servicesauthorized.rs:61-82). -/
def unmarshal (_m : Mode) (b : Bytes) : R Err ServicesAuthorized := do
  if 6 ≤ b.length then
    let length ← rd16 b 1
    let ins ← rd b 3
    let v0 ← rd b 4
    let vehicle_ue_auth ← .ofOption (boolOfU8 v0) (.ieIncorrect 210)
    let v1 ← rd b 5
    let pedestrian_ue_auth ← .ofOption (boolOfU8 v1) (.ieIncorrect 210)
    return { t := 210, length, ins := ins &&& 0x0f, vehicle_ue_auth, pedestrian_ue_auth }
  else .err (.ieInvalidLength 210)

/-- `len` (servicesauthorized.rs:84-86). -/
def len (_m : Mode) (_x : ServicesAuthorized) : R Err Nat := .ok 6

/-- Field values that the encoding of a `ServicesAuthorized` can represent. -/
def WF (x : ServicesAuthorized) : Prop := x.t = 210 ∧ x.length.toNat = 2 ∧ x.ins < 16

instance (x : ServicesAuthorized) : Decidable x.WF := by unfold WF; infer_instance

theorem rt : RoundTrips WF marshal unmarshal := by
  intro m x tail h
  obtain ⟨t, length, ins, vehicle_ue_auth, pedestrian_ue_auth⟩ := x
  obtain ⟨ht, hl, hi⟩ := h
  simp only at ht hl hi
  enc_simp [marshal]
  rt_simp [unmarshal, ht, hl, hi]

theorem len_ok : LenOk WF marshal len := by
  intro m x h
  have hm : x.marshal.length = 6 := by
    obtain ⟨t, length, ins, vehicle_ue_auth, pedestrian_ue_auth⟩ := x
    obtain ⟨ht, hl, hi⟩ := h
    simp only at ht hl hi
    enc_simp [marshal]
    simp [gtp]
  rw [hm]; rfl

theorem safe : FixedSafe 6 unmarshal len := by
  intro m b
  safe_simp [unmarshal, len]
  safe_fin

end ServicesAuthorized

/-- `Twmi` (twmi.rs:17-23). -/
structure Twmi where
  t : UInt8
  length : UInt16
  ins : UInt8
  mcm : Bool
  scm : Bool
deriving DecidableEq, Repr

namespace Twmi

/-- The flags octet. -/
def flags (scm mcm : Bool) : UInt8 :=
  b2u scm ||| (b2u mcm <<< 1)

theorem flags_dec : ∀ scm mcm : Bool,
    bitOn (flags scm mcm) 0 = scm ∧
    bitOn (flags scm mcm) 1 = mcm := by
  decide

/-- `marshal` (twmi.rs:44-57). -/
def marshal (x : Twmi) : Bytes :=
  tliv 174 x.length x.ins [flags x.scm x.mcm]

/-- `unmarshal` (twmi.rs:59-77); `match v & 3` over all four values is the same as testing the two bits. -/
def unmarshal (_m : Mode) (b : Bytes) : R Err Twmi := do
  if 5 ≤ b.length then
    let length ← rd16 b 1
    let ins ← rd b 3
    let v ← rd b 4
    return { t := 174, length, ins := ins &&& 0x0f, mcm := bitOn v 1, scm := bitOn v 0 }
  else .err (.ieInvalidLength 174)

/-- `len` (twmi.rs:79-81). -/
def len (_m : Mode) (_x : Twmi) : R Err Nat := .ok 5

/-- Field values that the encoding of a `Twmi` can represent. -/
def WF (x : Twmi) : Prop := x.t = 174 ∧ x.length.toNat = 1 ∧ x.ins < 16

instance (x : Twmi) : Decidable x.WF := by unfold WF; infer_instance

theorem rt : RoundTrips WF marshal unmarshal := by
  intro m x tail h
  obtain ⟨t, length, ins, mcm, scm⟩ := x
  obtain ⟨ht, hl, hi⟩ := h
  simp only at ht hl hi
  enc_simp [marshal, flags_dec]
  rt_simp [unmarshal, ht, hl, hi, flags_dec]

theorem len_ok : LenOk WF marshal len := by
  intro m x h
  have hm : x.marshal.length = 5 := by
    obtain ⟨t, length, ins, mcm, scm⟩ := x
    obtain ⟨ht, hl, hi⟩ := h
    simp only at ht hl hi
    enc_simp [marshal, flags_dec]
    simp [gtp]
  rw [hm]; rfl

theorem safe : FixedSafe 5 unmarshal len := by
  intro m b
  safe_simp [unmarshal, len]
  safe_fin

end Twmi

/-- `ChangeToReportFlags` (changetoreportflags.rs:20-26). -/
structure ChangeToReportFlags where
  t : UInt8
  length : UInt16
  ins : UInt8
  tzcr : Bool
  sncr : Bool
deriving DecidableEq, Repr

namespace ChangeToReportFlags

/-- The flags octet. -/
def flags (sncr tzcr : Bool) : UInt8 :=
  b2u sncr ||| (b2u tzcr <<< 1)

theorem flags_dec : ∀ sncr tzcr : Bool,
    bitOn (flags sncr tzcr) 0 = sncr ∧
    bitOn (flags sncr tzcr) 1 = tzcr := by
  decide

/-- `marshal` (changetoreportflags.rs:47-60). -/
def marshal (x : ChangeToReportFlags) : Bytes :=
  tliv 167 x.length x.ins [flags x.sncr x.tzcr]

/-- `unmarshal` (changetoreportflags.rs:62-80); `match v & 3` over all four values is the same as testing the two bits. -/
def unmarshal (_m : Mode) (b : Bytes) : R Err ChangeToReportFlags := do
  if 5 ≤ b.length then
    let length ← rd16 b 1
    let ins ← rd b 3
    let v ← rd b 4
    return { t := 167, length, ins := ins &&& 0x0f, tzcr := bitOn v 1, sncr := bitOn v 0 }
  else .err (.ieInvalidLength 167)

/-- `len` (changetoreportflags.rs:82-84). -/
def len (_m : Mode) (_x : ChangeToReportFlags) : R Err Nat := .ok 5

/-- Field values that the encoding of a `ChangeToReportFlags` can represent. -/
def WF (x : ChangeToReportFlags) : Prop := x.t = 167 ∧ x.length.toNat = 1 ∧ x.ins < 16

instance (x : ChangeToReportFlags) : Decidable x.WF := by unfold WF; infer_instance

theorem rt : RoundTrips WF marshal unmarshal := by
  intro m x tail h
  obtain ⟨t, length, ins, tzcr, sncr⟩ := x
  obtain ⟨ht, hl, hi⟩ := h
  simp only at ht hl hi
  enc_simp [marshal, flags_dec]
  rt_simp [unmarshal, ht, hl, hi, flags_dec]

theorem len_ok : LenOk WF marshal len := by
  intro m x h
  have hm : x.marshal.length = 5 := by
    obtain ⟨t, length, ins, tzcr, sncr⟩ := x
    obtain ⟨ht, hl, hi⟩ := h
    simp only at ht hl hi
    enc_simp [marshal, flags_dec]
    simp [gtp]
  rw [hm]; rfl

theorem safe : FixedSafe 5 unmarshal len := by
  intro m b
  safe_simp [unmarshal, len]
  safe_fin

end ChangeToReportFlags

/-- `WlanOffloadIndication` (wlanoffloadindication.rs:22-28). -/
structure WlanOffloadIndication where
  t : UInt8
  length : UInt16
  ins : UInt8
  eutran_ind : Bool
  utran_ind : Bool
deriving DecidableEq, Repr

namespace WlanOffloadIndication

/-- The flags octet. -/
def flags (utran_ind eutran_ind : Bool) : UInt8 :=
  b2u utran_ind ||| (b2u eutran_ind <<< 1)

theorem flags_dec : ∀ utran_ind eutran_ind : Bool,
    bitOn (flags utran_ind eutran_ind) 0 = utran_ind ∧
    bitOn (flags utran_ind eutran_ind) 1 = eutran_ind := by
  decide

/-- `marshal` (wlanoffloadindication.rs:49-62). -/
def marshal (x : WlanOffloadIndication) : Bytes :=
  tliv 185 x.length x.ins [flags x.utran_ind x.eutran_ind]

/-- `unmarshal` (wlanoffloadindication.rs:64-82); `match v & 3` over all four values is the same as testing the two bits. -/
def unmarshal (_m : Mode) (b : Bytes) : R Err WlanOffloadIndication := do
  if 5 ≤ b.length then
    let length ← rd16 b 1
    let ins ← rd b 3
    let v ← rd b 4
    return { t := 185, length, ins := ins &&& 0x0f, eutran_ind := bitOn v 1,
             utran_ind := bitOn v 0 }
  else .err (.ieInvalidLength 185)

/-- `len` (wlanoffloadindication.rs:84-86). -/
def len (_m : Mode) (_x : WlanOffloadIndication) : R Err Nat := .ok 5

/-- Field values that the encoding of a `WlanOffloadIndication` can represent. -/
def WF (x : WlanOffloadIndication) : Prop := x.t = 185 ∧ x.length.toNat = 1 ∧ x.ins < 16

instance (x : WlanOffloadIndication) : Decidable x.WF := by unfold WF; infer_instance

theorem rt : RoundTrips WF marshal unmarshal := by
  intro m x tail h
  obtain ⟨t, length, ins, eutran_ind, utran_ind⟩ := x
  obtain ⟨ht, hl, hi⟩ := h
  simp only at ht hl hi
  enc_simp [marshal, flags_dec]
  rt_simp [unmarshal, ht, hl, hi, flags_dec]

theorem len_ok : LenOk WF marshal len := by
  intro m x h
  have hm : x.marshal.length = 5 := by
    obtain ⟨t, length, ins, eutran_ind, utran_ind⟩ := x
    obtain ⟨ht, hl, hi⟩ := h
    simp only at ht hl hi
    enc_simp [marshal, flags_dec]
    simp [gtp]
  rw [hm]; rfl

theorem safe : FixedSafe 5 unmarshal len := by
  intro m b
  safe_simp [unmarshal, len]
  safe_fin

end WlanOffloadIndication

/-- `MbmsFlags` (mbmsflags.rs:17-23). -/
structure MbmsFlags where
  t : UInt8
  length : UInt16
  ins : UInt8
  msri : Bool
  lmri : Bool
deriving DecidableEq, Repr

namespace MbmsFlags

/-- The flags octet. -/
def flags (msri lmri : Bool) : UInt8 :=
  b2u msri ||| (b2u lmri <<< 1)

theorem flags_dec : ∀ msri lmri : Bool,
    bitOn (flags msri lmri) 0 = msri ∧
    bitOn (flags msri lmri) 1 = lmri := by
  decide

/-- `marshal` (mbmsflags.rs:44-58). -/
def marshal (x : MbmsFlags) : Bytes :=
  tliv 171 x.length x.ins [flags x.msri x.lmri]

/-- `unmarshal` (mbmsflags.rs:60-92); `match v & 3` over all four values is the same as testing the two bits. -/
def unmarshal (_m : Mode) (b : Bytes) : R Err MbmsFlags := do
  if 5 ≤ b.length then
    let length ← rd16 b 1
    let ins ← rd b 3
    let v ← rd b 4
    return { t := 171, length, ins := ins &&& 0x0f, msri := bitOn v 0, lmri := bitOn v 1 }
  else .err (.ieInvalidLength 171)

/-- `len` (mbmsflags.rs:94-96). -/
def len (_m : Mode) (_x : MbmsFlags) : R Err Nat := .ok 5

/-- Field values that the encoding of a `MbmsFlags` can represent. -/
def WF (x : MbmsFlags) : Prop := x.t = 171 ∧ x.length.toNat = 1 ∧ x.ins < 16

instance (x : MbmsFlags) : Decidable x.WF := by unfold WF; infer_instance

theorem rt : RoundTrips WF marshal unmarshal := by
  intro m x tail h
  obtain ⟨t, length, ins, msri, lmri⟩ := x
  obtain ⟨ht, hl, hi⟩ := h
  simp only at ht hl hi
  enc_simp [marshal, flags_dec]
  rt_simp [unmarshal, ht, hl, hi, flags_dec]

theorem len_ok : LenOk WF marshal len := by
  intro m x h
  have hm : x.marshal.length = 5 := by
    obtain ⟨t, length, ins, msri, lmri⟩ := x
    obtain ⟨ht, hl, hi⟩ := h
    simp only at ht hl hi
    enc_simp [marshal, flags_dec]
    simp [gtp]
  rw [hm]; rfl

theorem safe : FixedSafe 5 unmarshal len := by
  intro m b
  safe_simp [unmarshal, len]
  safe_fin

end MbmsFlags

/-- `AdditionalFlagsSrvcc` (addflagssrvcc.rs:17-23). -/
structure AdditionalFlagsSrvcc where
  t : UInt8
  length : UInt16
  ins : UInt8
  ics : Bool
  vf : Bool
deriving DecidableEq, Repr

namespace AdditionalFlagsSrvcc

/-- The flags octet. -/
def flags (ics vf : Bool) : UInt8 :=
  b2u ics ||| (b2u vf <<< 1)

theorem flags_dec : ∀ ics vf : Bool,
    bitOn (flags ics vf) 0 = ics ∧
    bitOn (flags ics vf) 1 = vf := by
  decide

/-- `marshal` (addflagssrvcc.rs:44-58). -/
def marshal (x : AdditionalFlagsSrvcc) : Bytes :=
  tliv 160 x.length x.ins [flags x.ics x.vf]

/-- `unmarshal` (addflagssrvcc.rs:60-92); `match v & 3` over all four values is the same as testing the two bits. -/
def unmarshal (_m : Mode) (b : Bytes) : R Err AdditionalFlagsSrvcc := do
  if 5 ≤ b.length then
    let length ← rd16 b 1
    let ins ← rd b 3
    let v ← rd b 4
    return { t := 160, length, ins := ins &&& 0x0f, ics := bitOn v 0, vf := bitOn v 1 }
  else .err (.ieInvalidLength 160)

/-- `len` (addflagssrvcc.rs:94-96). -/
def len (_m : Mode) (_x : AdditionalFlagsSrvcc) : R Err Nat := .ok 5

/-- Field values that the encoding of a `AdditionalFlagsSrvcc` can represent. -/
def WF (x : AdditionalFlagsSrvcc) : Prop := x.t = 160 ∧ x.length.toNat = 1 ∧ x.ins < 16

instance (x : AdditionalFlagsSrvcc) : Decidable x.WF := by unfold WF; infer_instance

theorem rt : RoundTrips WF marshal unmarshal := by
  intro m x tail h
  obtain ⟨t, length, ins, ics, vf⟩ := x
  obtain ⟨ht, hl, hi⟩ := h
  simp only at ht hl hi
  enc_simp [marshal, flags_dec]
  rt_simp [unmarshal, ht, hl, hi, flags_dec]

theorem len_ok : LenOk WF marshal len := by
  intro m x h
  have hm : x.marshal.length = 5 := by
    obtain ⟨t, length, ins, ics, vf⟩ := x
    obtain ⟨ht, hl, hi⟩ := h
    simp only at ht hl hi
    enc_simp [marshal, flags_dec]
    simp [gtp]
  rw [hm]; rfl

theorem safe : FixedSafe 5 unmarshal len := by
  intro m b
  safe_simp [unmarshal, len]
  safe_fin

end AdditionalFlagsSrvcc

/-- `CIoTOptimizationSupportIndication` (ciotoptimizationssupport.rs:17-25). -/
structure CIoTOptimizationSupportIndication where
  t : UInt8
  length : UInt16
  ins : UInt8
  sgnipdn : Bool
  scnipdn : Bool
  awopdn : Bool
  ihcsi : Bool
deriving DecidableEq, Repr

namespace CIoTOptimizationSupportIndication

/-- The flags octet. -/
def flags (sgnipdn scnipdn awopdn ihcsi : Bool) : UInt8 :=
  b2u sgnipdn ||| (b2u scnipdn <<< 1) ||| (b2u awopdn <<< 2) ||| (b2u ihcsi <<< 3)

theorem flags_dec : ∀ sgnipdn scnipdn awopdn ihcsi : Bool,
    bitOn (flags sgnipdn scnipdn awopdn ihcsi) 0 = sgnipdn ∧
    bitOn (flags sgnipdn scnipdn awopdn ihcsi) 1 = scnipdn ∧
    bitOn (flags sgnipdn scnipdn awopdn ihcsi) 2 = awopdn ∧
    bitOn (flags sgnipdn scnipdn awopdn ihcsi) 3 = ihcsi := by
  decide

/-- `marshal` (ciotoptimizationssupport.rs:48-60). -/
def marshal (x : CIoTOptimizationSupportIndication) : Bytes :=
  tliv 194 x.length x.ins [flags x.sgnipdn x.scnipdn x.awopdn x.ihcsi]

/-- `unmarshal` (ciotoptimizationssupport.rs:62-77). -/
def unmarshal (_m : Mode) (b : Bytes) : R Err CIoTOptimizationSupportIndication := do
  if 5 ≤ b.length then
    let length ← rd16 b 1
    let ins ← rd b 3
    let v ← rd b 4
    return { t := 194, length, ins := ins &&& 0x0f, sgnipdn := bitOn v 0, scnipdn := bitOn v 1,
             awopdn := bitOn v 2, ihcsi := bitOn v 3 }
  else .err (.ieInvalidLength 194)

/-- `len` (ciotoptimizationssupport.rs:79-81). -/
def len (_m : Mode) (_x : CIoTOptimizationSupportIndication) : R Err Nat := .ok 5

/-- Field values that the encoding of a `CIoTOptimizationSupportIndication` can represent. -/
def WF (x : CIoTOptimizationSupportIndication) : Prop := x.t = 194 ∧ x.length.toNat = 1 ∧ x.ins < 16

instance (x : CIoTOptimizationSupportIndication) : Decidable x.WF := by unfold WF; infer_instance

theorem rt : RoundTrips WF marshal unmarshal := by
  intro m x tail h
  obtain ⟨t, length, ins, sgnipdn, scnipdn, awopdn, ihcsi⟩ := x
  obtain ⟨ht, hl, hi⟩ := h
  simp only at ht hl hi
  enc_simp [marshal, flags_dec]
  rt_simp [unmarshal, ht, hl, hi, flags_dec]

theorem len_ok : LenOk WF marshal len := by
  intro m x h
  have hm : x.marshal.length = 5 := by
    obtain ⟨t, length, ins, sgnipdn, scnipdn, awopdn, ihcsi⟩ := x
    obtain ⟨ht, hl, hi⟩ := h
    simp only at ht hl hi
    enc_simp [marshal, flags_dec]
    simp [gtp]
  rw [hm]; rfl

theorem safe : FixedSafe 5 unmarshal len := by
  intro m b
  safe_simp [unmarshal, len]
  safe_fin

end CIoTOptimizationSupportIndication

/-- `BearerFlags` (bearerflags.rs:17-25). -/
structure BearerFlags where
  t : UInt8
  length : UInt16
  ins : UInt8
  asi : Bool
  vind : Bool
  vb : Bool
  ppc : Bool
deriving DecidableEq, Repr

namespace BearerFlags

/-- The flags octet. -/
def flags (ppc vb vind asi : Bool) : UInt8 :=
  b2u ppc ||| (b2u vb <<< 1) ||| (b2u vind <<< 2) ||| (b2u asi <<< 3)

theorem flags_dec : ∀ ppc vb vind asi : Bool,
    hasBits (flags ppc vb vind asi) 0x01 = ppc ∧
    hasBits (flags ppc vb vind asi) 0x02 = vb ∧
    hasBits (flags ppc vb vind asi) 0x04 = vind ∧
    hasBits (flags ppc vb vind asi) 0x08 = asi := by
  decide

/-- `marshal` (bearerflags.rs:48-69). -/
def marshal (x : BearerFlags) : Bytes :=
  tliv 97 x.length x.ins [flags x.ppc x.vb x.vind x.asi]

/-- `unmarshal` (bearerflags.rs:71-95). -/
def unmarshal (_m : Mode) (b : Bytes) : R Err BearerFlags := do
  if 5 ≤ b.length then
    let length ← rd16 b 1
    let ins ← rd b 3
    let v ← rd b 4
    return { t := 97, length, ins := ins &&& 0x0f, asi := hasBits v 0x08,
             vind := hasBits v 0x04, vb := hasBits v 0x02, ppc := hasBits v 0x01 }
  else .err (.ieInvalidLength 97)

/-- `len` (bearerflags.rs:97-99). -/
def len (_m : Mode) (x : BearerFlags) : R Err Nat := ieLenU x.length

/-- Field values that the encoding of a `BearerFlags` can represent. -/
def WF (x : BearerFlags) : Prop := x.t = 97 ∧ x.length.toNat = 1 ∧ x.ins < 16

instance (x : BearerFlags) : Decidable x.WF := by unfold WF; infer_instance

theorem rt : RoundTrips WF marshal unmarshal := by
  intro m x tail h
  obtain ⟨t, length, ins, asi, vind, vb, ppc⟩ := x
  obtain ⟨ht, hl, hi⟩ := h
  simp only at ht hl hi
  enc_simp [marshal, flags_dec]
  rt_simp [unmarshal, ht, hl, hi, flags_dec]

theorem len_ok : LenOk WF marshal len := by
  intro m x h
  obtain ⟨t, length, ins, asi, vind, vb, ppc⟩ := x
  obtain ⟨ht, hl, hi⟩ := h
  simp only at ht hl hi
  enc_simp [marshal, flags_dec]
  simp only [len, ieLenU]
  congr 1
  simp only [List.length_cons, List.length_append, List.length_nil, gtplen]
  try omega

theorem safe : LooseSafe (fun _ => True) unmarshal len := by
  intro m b hb hc
  unfold declLen at *
  safe_simp [unmarshal, len]
  safe_fin

end BearerFlags

/-- `NodeFeatures` (nodefeatures.rs:17-29). -/
structure NodeFeatures where
  t : UInt8
  length : UInt16
  ins : UInt8
  prn : Bool
  mabr : Bool
  ntsr : Bool
  ciot : Bool
  s1un : Bool
  eth : Bool
  mtedt : Bool
  psset : Bool
deriving DecidableEq, Repr

namespace NodeFeatures

/-- The flags octet. -/
def flags (prn mabr ntsr ciot s1un eth mtedt psset : Bool) : UInt8 :=
  b2u prn ||| (b2u mabr <<< 1) ||| (b2u ntsr <<< 2) ||| (b2u ciot <<< 3) ||| (b2u s1un <<< 4) ||| (b2u eth <<< 5) ||| (b2u mtedt <<< 6) ||| (b2u psset <<< 7)

theorem flags_dec : ∀ prn mabr ntsr ciot s1un eth mtedt psset : Bool,
    hasBits (flags prn mabr ntsr ciot s1un eth mtedt psset) 0x01 = prn ∧
    hasBits (flags prn mabr ntsr ciot s1un eth mtedt psset) 0x02 = mabr ∧
    hasBits (flags prn mabr ntsr ciot s1un eth mtedt psset) 0x04 = ntsr ∧
    hasBits (flags prn mabr ntsr ciot s1un eth mtedt psset) 0x08 = ciot ∧
    hasBits (flags prn mabr ntsr ciot s1un eth mtedt psset) 0x10 = s1un ∧
    hasBits (flags prn mabr ntsr ciot s1un eth mtedt psset) 0x20 = eth ∧
    hasBits (flags prn mabr ntsr ciot s1un eth mtedt psset) 0x40 = mtedt ∧
    hasBits (flags prn mabr ntsr ciot s1un eth mtedt psset) 0x80 = psset := by
  decide

/-- `marshal` (nodefeatures.rs:56-72). -/
def marshal (x : NodeFeatures) : Bytes :=
  tliv 152 x.length x.ins [flags x.prn x.mabr x.ntsr x.ciot x.s1un x.eth x.mtedt x.psset]

/-- `unmarshal` (nodefeatures.rs:74-93). -/
def unmarshal (_m : Mode) (b : Bytes) : R Err NodeFeatures := do
  if 5 ≤ b.length then
    let length ← rd16 b 1
    let ins ← rd b 3
    let v ← rd b 4
    return { t := 152, length, ins := ins &&& 0x0f, prn := hasBits v 0x01,
             mabr := hasBits v 0x02, ntsr := hasBits v 0x04, ciot := hasBits v 0x08,
             s1un := hasBits v 0x10, eth := hasBits v 0x20, mtedt := hasBits v 0x40,
             psset := hasBits v 0x80 }
  else .err (.ieInvalidLength 152)

/-- `len` (nodefeatures.rs:95-97). -/
def len (_m : Mode) (_x : NodeFeatures) : R Err Nat := .ok 5

/-- Field values that the encoding of a `NodeFeatures` can represent. -/
def WF (x : NodeFeatures) : Prop := x.t = 152 ∧ x.length.toNat = 1 ∧ x.ins < 16

instance (x : NodeFeatures) : Decidable x.WF := by unfold WF; infer_instance

theorem rt : RoundTrips WF marshal unmarshal := by
  intro m x tail h
  obtain ⟨t, length, ins, prn, mabr, ntsr, ciot, s1un, eth, mtedt, psset⟩ := x
  obtain ⟨ht, hl, hi⟩ := h
  simp only at ht hl hi
  enc_simp [marshal, flags_dec]
  rt_simp [unmarshal, ht, hl, hi, flags_dec]

theorem len_ok : LenOk WF marshal len := by
  intro m x h
  have hm : x.marshal.length = 5 := by
    obtain ⟨t, length, ins, prn, mabr, ntsr, ciot, s1un, eth, mtedt, psset⟩ := x
    obtain ⟨ht, hl, hi⟩ := h
    simp only at ht hl hi
    enc_simp [marshal, flags_dec]
    simp [gtp]
  rw [hm]; rfl

theorem safe : FixedSafe 5 unmarshal len := by
  intro m b
  safe_simp [unmarshal, len]
  safe_fin

end NodeFeatures

end Gtp.V2
