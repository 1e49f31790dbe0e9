import Verif.C1.IeBase

/-!
# Information elements without a length field (TV)

Expanded by `scripts/gen_c1_ies.py`; the citations refer to
`/repo/src/gtpv1/gtpc/messages/ies`.
-/

namespace Gtp.C1
open Gtp.V1
open Gtp.U (len3)
open Gtp.V2 (declLen)

set_option linter.unusedSimpArgs false

/-- `Cause` (cause.rs:14-17). -/
structure Cause where
  t : UInt8
  value : UInt8
deriving DecidableEq, Repr

namespace Cause

/-- `default` (cause.rs:20-22). -/
def dflt : Cause := ⟨1, 0⟩

/-- `marshal` (cause.rs:26-29). -/
def marshal (x : Cause) : Bytes := x.t :: ([x.value])

/-- `unmarshal` (cause.rs:31-41). -/
def unmarshal (_m : Mode) (b : Bytes) : R Err Cause := do
  if 2 ≤ b.length then
    let value ← rd b 1
    return { t := 1, value }
  else .err .ieInvalidLength

/-- `len` (cause.rs:43-45). -/
def len (_m : Mode) (_x : Cause) : R Err Nat := .ok 2

/-- Field values that the encoding of `Cause` can represent. -/
def WF (x : Cause) : Prop :=
  x.t = 1

instance (x : Cause) : Decidable x.WF := by unfold WF; infer_instance

theorem rt : RoundTrips WF marshal unmarshal := by
  intro m x tail h
  obtain ⟨t, value⟩ := x
  have ht := h
  simp only [WF] at ht
  subst ht
  all_goals enc_simp [marshal]
  all_goals rt_simp [unmarshal]

theorem size_eq {x : Cause} (h : x.WF) : x.marshal.length = 2 := by
  obtain ⟨t, value⟩ := x
  have ht := h
  simp only [WF] at ht
  subst ht
  all_goals enc_simp [marshal]
  all_goals simp [gtp]

theorem len_ok : LenOk WF marshal len := by
  intro m x h
  rw [size_eq h]; rfl

theorem safe : FixedSafe 2 unmarshal len := by
  intro m b
  safe_simp [unmarshal, len]
  safe_fin

theorem panics : PanicsIff Never unmarshal := safe.panics

end Cause

/-- `Imsi` (imsi.rs:13-16). -/
structure Imsi where
  t : UInt8
  imsi : Str
deriving DecidableEq, Repr

namespace Imsi

/-- `default` (imsi.rs:19-24). -/
def dflt : Imsi := ⟨2, ['0']⟩

/-- `marshal` (imsi.rs:28-31). -/
def marshal (x : Imsi) : Bytes := x.t :: (tbcdEncode x.imsi)

/-- `unmarshal` (imsi.rs:33-47). -/
def unmarshal (_m : Mode) (b : Bytes) : R Err Imsi := do
  if 9 ≤ b.length then
    let s ← sl b 1 9
    return { t := 2, imsi := tbcdDecode s }
  else .err .ieInvalidLength

/-- `len` (imsi.rs:49-51). -/
def len (_m : Mode) (_x : Imsi) : R Err Nat := .ok 9

/-- Field values that the encoding of `Imsi` can represent. -/
def WF (x : Imsi) : Prop :=
  x.t = 2 ∧
  (∀ c ∈ x.imsi, IsDigit c) ∧
  (x.imsi.length + 1) / 2 = 8

instance (x : Imsi) : Decidable x.WF := by unfold WF; infer_instance

theorem rt : RoundTrips WF marshal unmarshal := by
  intro m x tail h
  obtain ⟨t, imsi⟩ := x
  obtain ⟨ht, hd, hn⟩ := h
  simp only at ht hd hn
  subst ht
  have hb := tbcd_length _ hd
  have hr := tbcd_roundtrip _ hd
  rw [hn] at hb
  obtain ⟨s0, s1, s2, s3, s4, s5, s6, s7, he⟩ := exists_list8 hb
  rw [he] at hr
  all_goals enc_simp [marshal, he, hr]
  all_goals rt_simp [unmarshal, hd, hn, he, hr]

theorem size_eq {x : Imsi} (h : x.WF) : x.marshal.length = 9 := by
  obtain ⟨t, imsi⟩ := x
  obtain ⟨ht, hd, hn⟩ := h
  simp only at ht hd hn
  subst ht
  have hb := tbcd_length _ hd
  have hr := tbcd_roundtrip _ hd
  rw [hn] at hb
  obtain ⟨s0, s1, s2, s3, s4, s5, s6, s7, he⟩ := exists_list8 hb
  rw [he] at hr
  all_goals enc_simp [marshal, he, hr]
  all_goals simp [gtp]

theorem len_ok : LenOk WF marshal len := by
  intro m x h
  rw [size_eq h]; rfl

theorem safe : FixedSafe 9 unmarshal len := by
  intro m b
  safe_simp [unmarshal, len]
  safe_fin

theorem panics : PanicsIff Never unmarshal := safe.panics

end Imsi

/-- `Rai` (rai.rs:13-20). -/
structure Rai where
  t : UInt8
  mcc : UInt16
  mnc : UInt16
  mnc_is_three_digits : Bool
  lac : UInt16
  rac : UInt8
deriving DecidableEq, Repr

namespace Rai

/-- `default` (rai.rs:23-32). -/
def dflt : Rai := ⟨3, 0, 0, false, 0, 0⟩

/-- `marshal` (rai.rs:36-45). -/
def marshal (x : Rai) : Bytes := x.t :: (mccMncEncode x.mcc x.mnc x.mnc_is_three_digits ++ be16 x.lac ++ [x.rac])

/-- `unmarshal` (rai.rs:47-65). -/
def unmarshal (_m : Mode) (b : Bytes) : R Err Rai := do
  if 7 ≤ b.length then
    let s ← sl b 1 4
    let (mcc, mnc, mnc_is_three_digits) ← mccMncDecode s
    let lac ← rd16 b 4
    let rac ← rd b 6
    return { t := 3, mcc, mnc, mnc_is_three_digits, lac, rac }
  else .err .ieInvalidLength

/-- `len` (rai.rs:67-69). -/
def len (_m : Mode) (_x : Rai) : R Err Nat := .ok 7

/-- Field values that the encoding of `Rai` can represent. -/
def WF (x : Rai) : Prop :=
  x.t = 3 ∧
  PlmnOk x.mcc x.mnc x.mnc_is_three_digits

instance (x : Rai) : Decidable x.WF := by unfold WF; infer_instance

theorem rt : RoundTrips WF marshal unmarshal := by
  intro m x tail h
  obtain ⟨t, mcc, mnc, mnc_is_three_digits, lac, rac⟩ := x
  obtain ⟨ht, hp⟩ := h
  simp only at ht hp
  subst ht
  obtain ⟨p0, p1, p2, e1, e2⟩ := mccMnc_roundtrip3 hp
  all_goals enc_simp [marshal, e1, e2, mccMncDecode]
  all_goals rt_simp [unmarshal, hp, e1, e2, mccMncDecode]

theorem size_eq {x : Rai} (h : x.WF) : x.marshal.length = 7 := by
  obtain ⟨t, mcc, mnc, mnc_is_three_digits, lac, rac⟩ := x
  obtain ⟨ht, hp⟩ := h
  simp only at ht hp
  subst ht
  obtain ⟨p0, p1, p2, e1, e2⟩ := mccMnc_roundtrip3 hp
  all_goals enc_simp [marshal, e1, e2, mccMncDecode]
  all_goals simp [gtp]

theorem len_ok : LenOk WF marshal len := by
  intro m x h
  rw [size_eq h]; rfl

theorem safe : FixedSafe 7 unmarshal len := by
  intro m b
  safe_simp [unmarshal, len, mccMncDecode, List.length_drop, List.length_take]
  safe_fin

theorem panics : PanicsIff Never unmarshal := safe.panics

end Rai

/-- `ReorderingRequired` (reorderingreq.rs:14-17). -/
structure ReorderingRequired where
  t : UInt8
  req : Bool
deriving DecidableEq, Repr

namespace ReorderingRequired

/-- `default` (reorderingreq.rs:20-25). -/
def dflt : ReorderingRequired := ⟨8, false⟩

/-- `marshal` (reorderingreq.rs:29-35). -/
def marshal (x : ReorderingRequired) : Bytes := x.t :: ([if x.req then 0xff else 0xfe])

/-- `unmarshal` (reorderingreq.rs:37-47). -/
def unmarshal (_m : Mode) (b : Bytes) : R Err ReorderingRequired := do
  if 2 ≤ b.length then
    let v ← rd b 1
    return { t := 8, req := v &&& 1 != 0 }
  else .err .ieInvalidLength

/-- `len` (reorderingreq.rs:49-51). -/
def len (_m : Mode) (_x : ReorderingRequired) : R Err Nat := .ok 2

/-- Field values that the encoding of `ReorderingRequired` can represent. -/
def WF (x : ReorderingRequired) : Prop :=
  x.t = 8

instance (x : ReorderingRequired) : Decidable x.WF := by unfold WF; infer_instance

theorem rt : RoundTrips WF marshal unmarshal := by
  intro m x tail h
  obtain ⟨t, req⟩ := x
  have ht := h
  simp only [WF] at ht
  subst ht
  cases req
  all_goals enc_simp [marshal]
  all_goals rt_simp [unmarshal]

theorem size_eq {x : ReorderingRequired} (h : x.WF) : x.marshal.length = 2 := by
  obtain ⟨t, req⟩ := x
  have ht := h
  simp only [WF] at ht
  subst ht
  cases req
  all_goals enc_simp [marshal]
  all_goals simp [gtp]

theorem len_ok : LenOk WF marshal len := by
  intro m x h
  rw [size_eq h]; rfl

theorem safe : FixedSafe 2 unmarshal len := by
  intro m b
  safe_simp [unmarshal, len]
  safe_fin

theorem panics : PanicsIff Never unmarshal := safe.panics

end ReorderingRequired

/-- `Recovery` (recovery.rs:13-16). -/
structure Recovery where
  t : UInt8
  value : UInt8
deriving DecidableEq, Repr

namespace Recovery

/-- `default` (recovery.rs:19-24). -/
def dflt : Recovery := ⟨14, 0⟩

/-- `marshal` (recovery.rs:28-31). -/
def marshal (x : Recovery) : Bytes := 14 :: ([x.value])

/-- `unmarshal` (recovery.rs:33-42). -/
def unmarshal (_m : Mode) (b : Bytes) : R Err Recovery := do
  if 2 ≤ b.length then
    let value ← rd b 1
    return { t := 14, value }
  else .err .ieInvalidLength

/-- `len` (recovery.rs:44-46). -/
def len (_m : Mode) (_x : Recovery) : R Err Nat := .ok 2

/-- Field values that the encoding of `Recovery` can represent. -/
def WF (x : Recovery) : Prop :=
  x.t = 14

instance (x : Recovery) : Decidable x.WF := by unfold WF; infer_instance

theorem rt : RoundTrips WF marshal unmarshal := by
  intro m x tail h
  obtain ⟨t, value⟩ := x
  have ht := h
  simp only [WF] at ht
  subst ht
  all_goals enc_simp [marshal]
  all_goals rt_simp [unmarshal]

theorem size_eq {x : Recovery} (h : x.WF) : x.marshal.length = 2 := by
  obtain ⟨t, value⟩ := x
  have ht := h
  simp only [WF] at ht
  subst ht
  all_goals enc_simp [marshal]
  all_goals simp [gtp]

theorem len_ok : LenOk WF marshal len := by
  intro m x h
  rw [size_eq h]; rfl

theorem safe : FixedSafe 2 unmarshal len := by
  intro m b
  safe_simp [unmarshal, len]
  safe_fin

theorem panics : PanicsIff Never unmarshal := safe.panics

end Recovery

/-- `SelectionMode` (selectionmode.rs:13-16). -/
structure SelectionMode where
  t : UInt8
  value : UInt8
deriving DecidableEq, Repr

namespace SelectionMode

theorem low2 {v : UInt8} (h : v < 4) : ((0xfc ||| v) &&& 3) = v := by revert v; decide +kernel

/-- `default` (selectionmode.rs:19-24). -/
def dflt : SelectionMode := ⟨15, 0⟩

/-- `marshal` (selectionmode.rs:28-31). -/
def marshal (x : SelectionMode) : Bytes := x.t :: ([0xfc ||| x.value])

/-- `unmarshal` (selectionmode.rs:33-46). -/
def unmarshal (_m : Mode) (b : Bytes) : R Err SelectionMode := do
  if 2 ≤ b.length then
    let v ← rd b 1
    return { t := 15, value := v &&& 3 }
  else .err .ieInvalidLength

/-- `len` (selectionmode.rs:48-50). -/
def len (_m : Mode) (_x : SelectionMode) : R Err Nat := .ok 2

/-- Field values that the encoding of `SelectionMode` can represent. -/
def WF (x : SelectionMode) : Prop :=
  x.t = 15 ∧
  x.value < 4

instance (x : SelectionMode) : Decidable x.WF := by unfold WF; infer_instance

theorem rt : RoundTrips WF marshal unmarshal := by
  intro m x tail h
  obtain ⟨t, value⟩ := x
  obtain ⟨ht, hv⟩ := h
  simp only at ht hv
  subst ht
  have hm := low2 hv
  all_goals enc_simp [marshal, hm]
  all_goals rt_simp [unmarshal, hv, hm]

theorem size_eq {x : SelectionMode} (h : x.WF) : x.marshal.length = 2 := by
  obtain ⟨t, value⟩ := x
  obtain ⟨ht, hv⟩ := h
  simp only at ht hv
  subst ht
  have hm := low2 hv
  all_goals enc_simp [marshal, hm]
  all_goals simp [gtp]

theorem len_ok : LenOk WF marshal len := by
  intro m x h
  rw [size_eq h]; rfl

theorem safe : FixedSafe 2 unmarshal len := by
  intro m b
  safe_simp [unmarshal, len]
  safe_fin

theorem panics : PanicsIff Never unmarshal := safe.panics

end SelectionMode

/-- `Teid` (teid.rs:14-17). -/
structure Teid where
  t : UInt8
  teid : UInt32
deriving DecidableEq, Repr

namespace Teid

/-- `default` (teid.rs:20-25). -/
def dflt : Teid := ⟨16, 0⟩

/-- `marshal` (teid.rs:29-32). -/
def marshal (x : Teid) : Bytes := x.t :: (be32 x.teid)

/-- `unmarshal` (teid.rs:34-44); the type octet is kept, so that one kind serves TEID Data I (16) and TEID Control Plane (17). -/
def unmarshal (_m : Mode) (b : Bytes) : R Err Teid := do
  if 5 ≤ b.length then
    let t ← rd b 0
    let teid ← rd32 b 1
    return { t, teid }
  else .err .ieInvalidLength

/-- `len` (teid.rs:46-48). -/
def len (_m : Mode) (_x : Teid) : R Err Nat := .ok 5

/-- Field values that the encoding of `Teid` can represent. -/
def WF (x : Teid) : Prop :=
  (x.t = 16 ∨ x.t = 17)

instance (x : Teid) : Decidable x.WF := by unfold WF; infer_instance

theorem rt : RoundTrips WF marshal unmarshal := by
  intro m x tail h
  obtain ⟨t, teid⟩ := x
  have hv := h
  simp only [WF] at hv
  all_goals enc_simp [marshal]
  all_goals rt_simp [unmarshal, hv]

theorem size_eq {x : Teid} (h : x.WF) : x.marshal.length = 5 := by
  obtain ⟨t, teid⟩ := x
  have hv := h
  simp only [WF] at hv
  all_goals enc_simp [marshal]
  all_goals simp [gtp]

theorem len_ok : LenOk WF marshal len := by
  intro m x h
  rw [size_eq h]; rfl

theorem safe : FixedSafe 5 unmarshal len := by
  intro m b
  safe_simp [unmarshal, len]
  safe_fin

theorem panics : PanicsIff Never unmarshal := safe.panics

end Teid

/-- `TeardownInd` (teardownind.rs:13-16). -/
structure TeardownInd where
  t : UInt8
  teardown : Bool
deriving DecidableEq, Repr

namespace TeardownInd

/-- teardownind.rs:39-43. -/
def ofU8? (v : UInt8) : Option Bool := if v = 0xfe then some false else if v = 0xff then some true else none

/-- `default` (teardownind.rs:19-24). -/
def dflt : TeardownInd := ⟨19, true⟩

/-- `marshal` (teardownind.rs:28-34). -/
def marshal (x : TeardownInd) : Bytes := x.t :: ([if x.teardown then 0xff else 0xfe])

/-- `unmarshal` (teardownind.rs:36-50). -/
def unmarshal (_m : Mode) (b : Bytes) : R Err TeardownInd := do
  if 2 ≤ b.length then
    let v ← rd b 1
    let teardown ← R.ofOption (ofU8? v) .ieIncorrect
    return { t := 19, teardown }
  else .err .ieInvalidLength

/-- `len` (teardownind.rs:52-54). -/
def len (_m : Mode) (_x : TeardownInd) : R Err Nat := .ok 2

/-- Field values that the encoding of `TeardownInd` can represent. -/
def WF (x : TeardownInd) : Prop :=
  x.t = 19

instance (x : TeardownInd) : Decidable x.WF := by unfold WF; infer_instance

theorem rt : RoundTrips WF marshal unmarshal := by
  intro m x tail h
  obtain ⟨t, teardown⟩ := x
  have ht := h
  simp only [WF] at ht
  subst ht
  cases teardown
  all_goals enc_simp [marshal, ofU8?]
  all_goals rt_simp [unmarshal, ofU8?]

theorem size_eq {x : TeardownInd} (h : x.WF) : x.marshal.length = 2 := by
  obtain ⟨t, teardown⟩ := x
  have ht := h
  simp only [WF] at ht
  subst ht
  cases teardown
  all_goals enc_simp [marshal, ofU8?]
  all_goals simp [gtp]

theorem len_ok : LenOk WF marshal len := by
  intro m x h
  rw [size_eq h]; rfl

theorem safe : FixedSafe 2 unmarshal len := by
  intro m b
  safe_simp [unmarshal, len]
  safe_fin

theorem panics : PanicsIff Never unmarshal := safe.panics

end TeardownInd

/-- `Nsapi` (nsapi.rs:14-17). -/
structure Nsapi where
  t : UInt8
  value : UInt8
deriving DecidableEq, Repr

namespace Nsapi

/-- `default` (nsapi.rs:20-22). -/
def dflt : Nsapi := ⟨20, 0⟩

/-- `marshal` (nsapi.rs:26-29). -/
def marshal (x : Nsapi) : Bytes := x.t :: ([x.value])

/-- `unmarshal` (nsapi.rs:31-44). -/
def unmarshal (_m : Mode) (b : Bytes) : R Err Nsapi := do
  if 2 ≤ b.length then
    let v ← rd b 1
    return { t := 20, value := v &&& 0x0f }
  else .err .ieInvalidLength

/-- `len` (nsapi.rs:46-48). -/
def len (_m : Mode) (_x : Nsapi) : R Err Nat := .ok 2

/-- Field values that the encoding of `Nsapi` can represent. -/
def WF (x : Nsapi) : Prop :=
  x.t = 20 ∧
  x.value < 16

instance (x : Nsapi) : Decidable x.WF := by unfold WF; infer_instance

theorem rt : RoundTrips WF marshal unmarshal := by
  intro m x tail h
  obtain ⟨t, value⟩ := x
  obtain ⟨ht, hv⟩ := h
  simp only at ht hv
  subst ht
  all_goals enc_simp [marshal]
  all_goals rt_simp [unmarshal, hv]

theorem size_eq {x : Nsapi} (h : x.WF) : x.marshal.length = 2 := by
  obtain ⟨t, value⟩ := x
  obtain ⟨ht, hv⟩ := h
  simp only at ht hv
  subst ht
  all_goals enc_simp [marshal]
  all_goals simp [gtp]

theorem len_ok : LenOk WF marshal len := by
  intro m x h
  rw [size_eq h]; rfl

theorem safe : FixedSafe 2 unmarshal len := by
  intro m b
  safe_simp [unmarshal, len]
  safe_fin

theorem panics : PanicsIff Never unmarshal := safe.panics

end Nsapi

/-- `ChargingCharacteristics` (chargingcharateristics.rs:14-17). -/
structure ChargingCharacteristics where
  t : UInt8
  value : UInt8
deriving DecidableEq, Repr

namespace ChargingCharacteristics

/-- `default` (chargingcharateristics.rs:20-25). -/
def dflt : ChargingCharacteristics := ⟨26, 0⟩

/-- `marshal` (chargingcharateristics.rs:29-33). -/
def marshal (x : ChargingCharacteristics) : Bytes := x.t :: ([x.value, 0])

/-- `unmarshal` (chargingcharateristics.rs:35-48). -/
def unmarshal (_m : Mode) (b : Bytes) : R Err ChargingCharacteristics := do
  if 3 ≤ b.length then
    let v ← rd b 1
    return { t := 26, value := v &&& 0x0f }
  else .err .ieInvalidLength

/-- `len` (chargingcharateristics.rs:50-52). -/
def len (_m : Mode) (_x : ChargingCharacteristics) : R Err Nat := .ok 3

/-- Field values that the encoding of `ChargingCharacteristics` can represent. -/
def WF (x : ChargingCharacteristics) : Prop :=
  x.t = 26 ∧
  x.value < 16

instance (x : ChargingCharacteristics) : Decidable x.WF := by unfold WF; infer_instance

theorem rt : RoundTrips WF marshal unmarshal := by
  intro m x tail h
  obtain ⟨t, value⟩ := x
  obtain ⟨ht, hv⟩ := h
  simp only at ht hv
  subst ht
  all_goals enc_simp [marshal]
  all_goals rt_simp [unmarshal, hv]

theorem size_eq {x : ChargingCharacteristics} (h : x.WF) : x.marshal.length = 3 := by
  obtain ⟨t, value⟩ := x
  obtain ⟨ht, hv⟩ := h
  simp only at ht hv
  subst ht
  all_goals enc_simp [marshal]
  all_goals simp [gtp]

theorem len_ok : LenOk WF marshal len := by
  intro m x h
  rw [size_eq h]; rfl

theorem safe : FixedSafe 3 unmarshal len := by
  intro m b
  safe_simp [unmarshal, len]
  safe_fin

theorem panics : PanicsIff Never unmarshal := safe.panics

end ChargingCharacteristics

/-- `TraceReference` (tracereference.rs:14-17). -/
structure TraceReference where
  t : UInt8
  value : UInt16
deriving DecidableEq, Repr

namespace TraceReference

/-- `default` (tracereference.rs:20-25). -/
def dflt : TraceReference := ⟨27, 0⟩

/-- `marshal` (tracereference.rs:29-32). -/
def marshal (x : TraceReference) : Bytes := x.t :: (be16 x.value)

/-- `unmarshal` (tracereference.rs:34-47). -/
def unmarshal (_m : Mode) (b : Bytes) : R Err TraceReference := do
  if 3 ≤ b.length then
    let value ← rd16 b 1
    return { t := 27, value }
  else .err .ieInvalidLength

/-- `len` (tracereference.rs:49-51). -/
def len (_m : Mode) (_x : TraceReference) : R Err Nat := .ok 3

/-- Field values that the encoding of `TraceReference` can represent. -/
def WF (x : TraceReference) : Prop :=
  x.t = 27

instance (x : TraceReference) : Decidable x.WF := by unfold WF; infer_instance

theorem rt : RoundTrips WF marshal unmarshal := by
  intro m x tail h
  obtain ⟨t, value⟩ := x
  have ht := h
  simp only [WF] at ht
  subst ht
  all_goals enc_simp [marshal]
  all_goals rt_simp [unmarshal]

theorem size_eq {x : TraceReference} (h : x.WF) : x.marshal.length = 3 := by
  obtain ⟨t, value⟩ := x
  have ht := h
  simp only [WF] at ht
  subst ht
  all_goals enc_simp [marshal]
  all_goals simp [gtp]

theorem len_ok : LenOk WF marshal len := by
  intro m x h
  rw [size_eq h]; rfl

theorem safe : FixedSafe 3 unmarshal len := by
  intro m b
  safe_simp [unmarshal, len]
  safe_fin

theorem panics : PanicsIff Never unmarshal := safe.panics

end TraceReference

/-- `TraceType` (tracetype.rs:14-17). -/
structure TraceType where
  t : UInt8
  value : UInt16
deriving DecidableEq, Repr

namespace TraceType

/-- `default` (tracetype.rs:20-25). -/
def dflt : TraceType := ⟨28, 0⟩

/-- `marshal` (tracetype.rs:29-32). -/
def marshal (x : TraceType) : Bytes := x.t :: (be16 x.value)

/-- `unmarshal` (tracetype.rs:34-47). -/
def unmarshal (_m : Mode) (b : Bytes) : R Err TraceType := do
  if 3 ≤ b.length then
    let value ← rd16 b 1
    return { t := 28, value }
  else .err .ieInvalidLength

/-- `len` (tracetype.rs:49-51). -/
def len (_m : Mode) (_x : TraceType) : R Err Nat := .ok 3

/-- Field values that the encoding of `TraceType` can represent. -/
def WF (x : TraceType) : Prop :=
  x.t = 28

instance (x : TraceType) : Decidable x.WF := by unfold WF; infer_instance

theorem rt : RoundTrips WF marshal unmarshal := by
  intro m x tail h
  obtain ⟨t, value⟩ := x
  have ht := h
  simp only [WF] at ht
  subst ht
  all_goals enc_simp [marshal]
  all_goals rt_simp [unmarshal]

theorem size_eq {x : TraceType} (h : x.WF) : x.marshal.length = 3 := by
  obtain ⟨t, value⟩ := x
  have ht := h
  simp only [WF] at ht
  subst ht
  all_goals enc_simp [marshal]
  all_goals simp [gtp]

theorem len_ok : LenOk WF marshal len := by
  intro m x h
  rw [size_eq h]; rfl

theorem safe : FixedSafe 3 unmarshal len := by
  intro m b
  safe_simp [unmarshal, len]
  safe_fin

theorem panics : PanicsIff Never unmarshal := safe.panics

end TraceType

/-- `ChargingID` (chargingid.rs:14-17). -/
structure ChargingID where
  t : UInt8
  value : UInt32
deriving DecidableEq, Repr

namespace ChargingID

/-- `default` (chargingid.rs:20-25). -/
def dflt : ChargingID := ⟨127, 0⟩

/-- `marshal` (chargingid.rs:29-32). -/
def marshal (x : ChargingID) : Bytes := x.t :: (be32 x.value)

/-- `unmarshal` (chargingid.rs:34-47). -/
def unmarshal (_m : Mode) (b : Bytes) : R Err ChargingID := do
  if 5 ≤ b.length then
    let v ← rd32 b 1
    let value ← R.ofOption (if v = 0 then none else some v) .ieIncorrect
    return { t := 127, value }
  else .err .ieInvalidLength

/-- `len` (chargingid.rs:49-51). -/
def len (_m : Mode) (_x : ChargingID) : R Err Nat := .ok 5

/-- Field values that the encoding of `ChargingID` can represent. -/
def WF (x : ChargingID) : Prop :=
  x.t = 127 ∧
  x.value ≠ 0

instance (x : ChargingID) : Decidable x.WF := by unfold WF; infer_instance

theorem rt : RoundTrips WF marshal unmarshal := by
  intro m x tail h
  obtain ⟨t, value⟩ := x
  obtain ⟨ht, hv⟩ := h
  simp only at ht hv
  subst ht
  all_goals enc_simp [marshal]
  all_goals rt_simp [unmarshal, hv]

theorem size_eq {x : ChargingID} (h : x.WF) : x.marshal.length = 5 := by
  obtain ⟨t, value⟩ := x
  obtain ⟨ht, hv⟩ := h
  simp only at ht hv
  subst ht
  all_goals enc_simp [marshal]
  all_goals simp [gtp]

theorem len_ok : LenOk WF marshal len := by
  intro m x h
  rw [size_eq h]; rfl

theorem safe : FixedSafe 5 unmarshal len := by
  intro m b
  safe_simp [unmarshal, len]
  safe_fin

theorem panics : PanicsIff Never unmarshal := safe.panics

end ChargingID

end Gtp.C1
