import Verif.V2.IeBase

/-!
# Information elements consisting of numbers, part 2

Expanded by `scripts/gen_ies.py`; the citations refer to `/repo/src/gtpv2/messages/ies`.
-/

namespace Gtp.V2

set_option linter.unusedSimpArgs false

/-- `Tmsi` (tmsi.rs:17-22). -/
structure Tmsi where
  t : UInt8
  length : UInt16
  ins : UInt8
  tmsi : UInt32
deriving DecidableEq, Repr

namespace Tmsi

/-- `marshal` (tmsi.rs:42-50). -/
def marshal (x : Tmsi) : Bytes :=
  tliv 88 x.length x.ins (be32 x.tmsi)

/-- `unmarshal` (tmsi.rs:52-64). -/
def unmarshal (_m : Mode) (b : Bytes) : R Err Tmsi := do
  if 8 ≤ b.length then
    let length ← rd16 b 1
    let ins ← rd b 3
    let tmsi ← rd32 b 4
    return { t := 88, length, ins := ins &&& 0x0f, tmsi }
  else .err (.ieInvalidLength 88)

/-- `len` (tmsi.rs:66-68). -/
def len (_m : Mode) (x : Tmsi) : R Err Nat := ieLenU x.length

/-- Field values that the encoding of a `Tmsi` can represent. -/
def WF (x : Tmsi) : Prop := x.t = 88 ∧ x.length.toNat = 4 ∧ x.ins < 16

instance (x : Tmsi) : Decidable x.WF := by unfold WF; infer_instance

theorem rt : RoundTrips WF marshal unmarshal := by
  intro m x tail h
  obtain ⟨t, length, ins, tmsi⟩ := x
  obtain ⟨ht, hl, hi⟩ := h
  simp only at ht hl hi
  enc_simp [marshal]
  rt_simp [unmarshal, ht, hl, hi]

theorem len_ok : LenOk WF marshal len := by
  intro m x h
  obtain ⟨t, length, ins, tmsi⟩ := x
  obtain ⟨ht, hl, hi⟩ := h
  simp only at ht hl hi
  enc_simp [marshal]
  simp only [len, ieLenU]
  congr 1
  simp only [List.length_cons, List.length_append, List.length_nil, gtplen]
  try omega

theorem safe : LooseSafe (fun _ => True) unmarshal len := by
  intro m b hb hc
  unfold declLen at *
  safe_simp [unmarshal, len]
  safe_fin

end Tmsi

/-- `TwanIdTimeStamp` (twanidtimestamp.rs:17-22). -/
structure TwanIdTimeStamp where
  t : UInt8
  length : UInt16
  ins : UInt8
  timestamp : UInt32
deriving DecidableEq, Repr

namespace TwanIdTimeStamp

/-- `marshal` (twanidtimestamp.rs:42-50). -/
def marshal (x : TwanIdTimeStamp) : Bytes :=
  tliv 179 x.length x.ins (be32 x.timestamp)

/-- `unmarshal` (twanidtimestamp.rs:52-64). -/
def unmarshal (_m : Mode) (b : Bytes) : R Err TwanIdTimeStamp := do
  if 8 ≤ b.length then
    let length ← rd16 b 1
    let ins ← rd b 3
    let timestamp ← rd32 b 4
    return { t := 179, length, ins := ins &&& 0x0f, timestamp }
  else .err (.ieInvalidLength 179)

/-- `len` (twanidtimestamp.rs:66-68). -/
def len (_m : Mode) (_x : TwanIdTimeStamp) : R Err Nat := .ok 8

/-- Field values that the encoding of a `TwanIdTimeStamp` can represent. -/
def WF (x : TwanIdTimeStamp) : Prop := x.t = 179 ∧ x.length.toNat = 4 ∧ x.ins < 16

instance (x : TwanIdTimeStamp) : Decidable x.WF := by unfold WF; infer_instance

theorem rt : RoundTrips WF marshal unmarshal := by
  intro m x tail h
  obtain ⟨t, length, ins, timestamp⟩ := x
  obtain ⟨ht, hl, hi⟩ := h
  simp only at ht hl hi
  enc_simp [marshal]
  rt_simp [unmarshal, ht, hl, hi]

theorem len_ok : LenOk WF marshal len := by
  intro m x h
  have hm : x.marshal.length = 8 := by
    obtain ⟨t, length, ins, timestamp⟩ := x
    obtain ⟨ht, hl, hi⟩ := h
    simp only at ht hl hi
    enc_simp [marshal]
    simp [gtp]
  rw [hm]; rfl

theorem safe : FixedSafe 8 unmarshal len := by
  intro m b
  safe_simp [unmarshal, len]
  safe_fin

end TwanIdTimeStamp

/-- `UliTimestamp` (ulitimestamp.rs:17-22). -/
structure UliTimestamp where
  t : UInt8
  length : UInt16
  ins : UInt8
  timestamp : UInt32
deriving DecidableEq, Repr

namespace UliTimestamp

/-- `marshal` (ulitimestamp.rs:42-50). -/
def marshal (x : UliTimestamp) : Bytes :=
  tliv 170 x.length x.ins (be32 x.timestamp)

/-- `unmarshal` (ulitimestamp.rs:52-64). -/
def unmarshal (_m : Mode) (b : Bytes) : R Err UliTimestamp := do
  if 8 ≤ b.length then
    let length ← rd16 b 1
    let ins ← rd b 3
    let timestamp ← rd32 b 4
    return { t := 170, length, ins := ins &&& 0x0f, timestamp }
  else .err (.ieInvalidLength 170)

/-- `len` (ulitimestamp.rs:66-68). -/
def len (_m : Mode) (_x : UliTimestamp) : R Err Nat := .ok 8

/-- Field values that the encoding of a `UliTimestamp` can represent. -/
def WF (x : UliTimestamp) : Prop := x.t = 170 ∧ x.length.toNat = 4 ∧ x.ins < 16

instance (x : UliTimestamp) : Decidable x.WF := by unfold WF; infer_instance

theorem rt : RoundTrips WF marshal unmarshal := by
  intro m x tail h
  obtain ⟨t, length, ins, timestamp⟩ := x
  obtain ⟨ht, hl, hi⟩ := h
  simp only at ht hl hi
  enc_simp [marshal]
  rt_simp [unmarshal, ht, hl, hi]

theorem len_ok : LenOk WF marshal len := by
  intro m x h
  have hm : x.marshal.length = 8 := by
    obtain ⟨t, length, ins, timestamp⟩ := x
    obtain ⟨ht, hl, hi⟩ := h
    simp only at ht hl hi
    enc_simp [marshal]
    simp [gtp]
  rw [hm]; rfl

theorem safe : FixedSafe 8 unmarshal len := by
  intro m b
  safe_simp [unmarshal, len]
  safe_fin

end UliTimestamp

/-- `MappedUeUsageType` (mueut.rs:18-23). -/
structure MappedUeUsageType where
  t : UInt8
  length : UInt16
  ins : UInt8
  usage_type : UInt16
deriving DecidableEq, Repr

namespace MappedUeUsageType

/-- `marshal` (mueut.rs:43-51). -/
def marshal (x : MappedUeUsageType) : Bytes :=
  tliv 200 x.length x.ins (be16 x.usage_type)

/-- `unmarshal` (mueut.rs:53-65). -/
def unmarshal (_m : Mode) (b : Bytes) : R Err MappedUeUsageType := do
  if 6 ≤ b.length then
    let length ← rd16 b 1
    let ins ← rd b 3
    let usage_type ← rd16 b 4
    return { t := 200, length, ins := ins &&& 0x0f, usage_type }
  else .err (.ieInvalidLength 200)

/-- `len` (mueut.rs:67-69). -/
def len (_m : Mode) (_x : MappedUeUsageType) : R Err Nat := .ok 6

/-- Field values that the encoding of a `MappedUeUsageType` can represent. -/
def WF (x : MappedUeUsageType) : Prop := x.t = 200 ∧ x.length.toNat = 2 ∧ x.ins < 16

instance (x : MappedUeUsageType) : Decidable x.WF := by unfold WF; infer_instance

theorem rt : RoundTrips WF marshal unmarshal := by
  intro m x tail h
  obtain ⟨t, length, ins, usage_type⟩ := x
  obtain ⟨ht, hl, hi⟩ := h
  simp only at ht hl hi
  enc_simp [marshal]
  rt_simp [unmarshal, ht, hl, hi]

theorem len_ok : LenOk WF marshal len := by
  intro m x h
  have hm : x.marshal.length = 6 := by
    obtain ⟨t, length, ins, usage_type⟩ := x
    obtain ⟨ht, hl, hi⟩ := h
    simp only at ht hl hi
    enc_simp [marshal]
    simp [gtp]
  rw [hm]; rfl

theorem safe : FixedSafe 6 unmarshal len := by
  intro m b
  safe_simp [unmarshal, len]
  safe_fin

end MappedUeUsageType

/-- `Ptmsi` (ptmsi.rs:17-22). -/
structure Ptmsi where
  t : UInt8
  length : UInt16
  ins : UInt8
  ptmsi : UInt32
deriving DecidableEq, Repr

namespace Ptmsi

/-- `marshal` (ptmsi.rs:42-50). -/
def marshal (x : Ptmsi) : Bytes :=
  tliv 111 x.length x.ins (be32 x.ptmsi)

/-- `unmarshal` (ptmsi.rs:52-66). -/
def unmarshal (_m : Mode) (b : Bytes) : R Err Ptmsi := do
  if 8 ≤ b.length then
    let length ← rd16 b 1
    let ins ← rd b 3
    let ptmsi ← rd32 b 4
    return { t := 111, length, ins, ptmsi }
  else .err (.ieInvalidLength 111)

/-- `len` (ptmsi.rs:68-70). -/
def len (_m : Mode) (_x : Ptmsi) : R Err Nat := .ok 8

/-- Field values that the encoding of a `Ptmsi` can represent. -/
def WF (x : Ptmsi) : Prop := x.t = 111 ∧ x.length.toNat = 4

instance (x : Ptmsi) : Decidable x.WF := by unfold WF; infer_instance

theorem rt : RoundTrips WF marshal unmarshal := by
  intro m x tail h
  obtain ⟨t, length, ins, ptmsi⟩ := x
  obtain ⟨ht, hl⟩ := h
  simp only at ht hl
  enc_simp [marshal]
  rt_simp [unmarshal, ht, hl]

theorem len_ok : LenOk WF marshal len := by
  intro m x h
  have hm : x.marshal.length = 8 := by
    obtain ⟨t, length, ins, ptmsi⟩ := x
    obtain ⟨ht, hl⟩ := h
    simp only at ht hl
    enc_simp [marshal]
    simp [gtp]
  rw [hm]; rfl

theorem safe : FixedSafe 8 unmarshal len := by
  intro m b
  safe_simp [unmarshal, len]
  safe_fin

end Ptmsi

/-- `AdditionalRrmPolicyIndex` (arpi.rs:17-22). -/
structure AdditionalRrmPolicyIndex where
  t : UInt8
  length : UInt16
  ins : UInt8
  arpi : UInt32
deriving DecidableEq, Repr

namespace AdditionalRrmPolicyIndex

/-- `marshal` (arpi.rs:42-50). -/
def marshal (x : AdditionalRrmPolicyIndex) : Bytes :=
  tliv 207 x.length x.ins (be32 x.arpi)

/-- `unmarshal` (arpi.rs:52-64). -/
def unmarshal (_m : Mode) (b : Bytes) : R Err AdditionalRrmPolicyIndex := do
  if 8 ≤ b.length then
    let length ← rd16 b 1
    let ins ← rd b 3
    let arpi ← rd32 b 4
    return { t := 207, length, ins := ins &&& 0x0f, arpi }
  else .err (.ieInvalidLength 207)

/-- `len` (arpi.rs:66-68). -/
def len (_m : Mode) (_x : AdditionalRrmPolicyIndex) : R Err Nat := .ok 8

/-- Field values that the encoding of a `AdditionalRrmPolicyIndex` can represent. -/
def WF (x : AdditionalRrmPolicyIndex) : Prop := x.t = 207 ∧ x.length.toNat = 4 ∧ x.ins < 16

instance (x : AdditionalRrmPolicyIndex) : Decidable x.WF := by unfold WF; infer_instance

theorem rt : RoundTrips WF marshal unmarshal := by
  intro m x tail h
  obtain ⟨t, length, ins, arpi⟩ := x
  obtain ⟨ht, hl, hi⟩ := h
  simp only at ht hl hi
  enc_simp [marshal]
  rt_simp [unmarshal, ht, hl, hi]

theorem len_ok : LenOk WF marshal len := by
  intro m x h
  have hm : x.marshal.length = 8 := by
    obtain ⟨t, length, ins, arpi⟩ := x
    obtain ⟨ht, hl, hi⟩ := h
    simp only at ht hl hi
    enc_simp [marshal]
    simp [gtp]
  rw [hm]; rfl

theorem safe : FixedSafe 8 unmarshal len := by
  intro m b
  safe_simp [unmarshal, len]
  safe_fin

end AdditionalRrmPolicyIndex

/-- `ChargingCharacteristics` (chargingchar.rs:17-22). -/
structure ChargingCharacteristics where
  t : UInt8
  length : UInt16
  ins : UInt8
  charging_char : UInt16
deriving DecidableEq, Repr

namespace ChargingCharacteristics

/-- `marshal` (chargingchar.rs:42-50). -/
def marshal (x : ChargingCharacteristics) : Bytes :=
  tliv 95 x.length x.ins (be16 x.charging_char)

/-- `unmarshal` (chargingchar.rs:52-64). -/
def unmarshal (_m : Mode) (b : Bytes) : R Err ChargingCharacteristics := do
  if 6 ≤ b.length then
    let length ← rd16 b 1
    let ins ← rd b 3
    let charging_char ← rd16 b 4
    return { t := 95, length, ins := ins &&& 0x0f, charging_char }
  else .err (.ieInvalidLength 95)

/-- `len` (chargingchar.rs:66-68). -/
def len (_m : Mode) (_x : ChargingCharacteristics) : R Err Nat := .ok 6

/-- Field values that the encoding of a `ChargingCharacteristics` can represent. -/
def WF (x : ChargingCharacteristics) : Prop := x.t = 95 ∧ x.length.toNat = 2 ∧ x.ins < 16

instance (x : ChargingCharacteristics) : Decidable x.WF := by unfold WF; infer_instance

theorem rt : RoundTrips WF marshal unmarshal := by
  intro m x tail h
  obtain ⟨t, length, ins, charging_char⟩ := x
  obtain ⟨ht, hl, hi⟩ := h
  simp only at ht hl hi
  enc_simp [marshal]
  rt_simp [unmarshal, ht, hl, hi]

theorem len_ok : LenOk WF marshal len := by
  intro m x h
  have hm : x.marshal.length = 6 := by
    obtain ⟨t, length, ins, charging_char⟩ := x
    obtain ⟨ht, hl, hi⟩ := h
    simp only at ht hl hi
    enc_simp [marshal]
    simp [gtp]
  rw [hm]; rfl

theorem safe : FixedSafe 6 unmarshal len := by
  intro m b
  safe_simp [unmarshal, len]
  safe_fin

end ChargingCharacteristics

/-- `CSGInformationReportingAction` (csginforeporting.rs:17-25). -/
structure CSGInformationReportingAction where
  t : UInt8
  length : UInt16
  ins : UInt8
  action : UInt8
deriving DecidableEq, Repr

namespace CSGInformationReportingAction

/-- `marshal` (csginforeporting.rs:45-53). -/
def marshal (x : CSGInformationReportingAction) : Bytes :=
  tliv 146 x.length x.ins [x.action]

/-- `unmarshal` (csginforeporting.rs:55-67). -/
def unmarshal (_m : Mode) (b : Bytes) : R Err CSGInformationReportingAction := do
  if 5 ≤ b.length then
    let length ← rd16 b 1
    let ins ← rd b 3
    let action ← rd b 4
    return { t := 146, length, ins := ins &&& 0x0f, action := action &&& 0x07 }
  else .err (.ieInvalidLength 146)

/-- `len` (csginforeporting.rs:69-71). -/
def len (_m : Mode) (_x : CSGInformationReportingAction) : R Err Nat := .ok 5

/-- Field values that the encoding of a `CSGInformationReportingAction` can represent. -/
def WF (x : CSGInformationReportingAction) : Prop :=
  x.t = 146 ∧
  x.length.toNat = 1 ∧
  x.ins < 16 ∧
  x.action < 8

instance (x : CSGInformationReportingAction) : Decidable x.WF := by unfold WF; infer_instance

theorem rt : RoundTrips WF marshal unmarshal := by
  intro m x tail h
  obtain ⟨t, length, ins, action⟩ := x
  obtain ⟨ht, hl, hi, hv3⟩ := h
  simp only at ht hl hi hv3
  enc_simp [marshal]
  rt_simp [unmarshal, ht, hl, hi, hv3]

theorem len_ok : LenOk WF marshal len := by
  intro m x h
  have hm : x.marshal.length = 5 := by
    obtain ⟨t, length, ins, action⟩ := x
    obtain ⟨ht, hl, hi, hv3⟩ := h
    simp only at ht hl hi hv3
    enc_simp [marshal]
    simp [gtp]
  rw [hm]; rfl

theorem safe : FixedSafe 5 unmarshal len := by
  intro m b
  safe_simp [unmarshal, len]
  safe_fin

end CSGInformationReportingAction

/-- `PacketFlowId` (packetflowid.rs:17-23). -/
structure PacketFlowId where
  t : UInt8
  length : UInt16
  ins : UInt8
  ebi : UInt8
  flow_id : UInt32
deriving DecidableEq, Repr

namespace PacketFlowId

/-- `marshal` (packetflowid.rs:44-53). -/
def marshal (x : PacketFlowId) : Bytes :=
  tliv 123 x.length x.ins ([x.ebi] ++ be32 x.flow_id)

/-- `unmarshal` (packetflowid.rs:55-68). -/
def unmarshal (_m : Mode) (b : Bytes) : R Err PacketFlowId := do
  if 9 ≤ b.length then
    let length ← rd16 b 1
    let ins ← rd b 3
    let ebi ← rd b 4
    let flow_id ← rd32 b 5
    return { t := 123, length, ins := ins &&& 0x0f, ebi := ebi &&& 0x0f, flow_id }
  else .err (.ieInvalidLength 123)

/-- `len` (packetflowid.rs:70-72). -/
def len (_m : Mode) (_x : PacketFlowId) : R Err Nat := .ok 9

/-- Field values that the encoding of a `PacketFlowId` can represent. -/
def WF (x : PacketFlowId) : Prop := x.t = 123 ∧ x.length.toNat = 5 ∧ x.ins < 16 ∧ x.ebi < 16

instance (x : PacketFlowId) : Decidable x.WF := by unfold WF; infer_instance

theorem rt : RoundTrips WF marshal unmarshal := by
  intro m x tail h
  obtain ⟨t, length, ins, ebi, flow_id⟩ := x
  obtain ⟨ht, hl, hi, hv3⟩ := h
  simp only at ht hl hi hv3
  enc_simp [marshal]
  rt_simp [unmarshal, ht, hl, hi, hv3]

theorem len_ok : LenOk WF marshal len := by
  intro m x h
  have hm : x.marshal.length = 9 := by
    obtain ⟨t, length, ins, ebi, flow_id⟩ := x
    obtain ⟨ht, hl, hi, hv3⟩ := h
    simp only at ht hl hi hv3
    enc_simp [marshal]
    simp [gtp]
  rw [hm]; rfl

theorem safe : FixedSafe 9 unmarshal len := by
  intro m b
  safe_simp [unmarshal, len]
  safe_fin

end PacketFlowId

/-- `Counter` (counter.rs:17-23). -/
structure Counter where
  t : UInt8
  length : UInt16
  ins : UInt8
  timestamp : UInt32
  counter : UInt8
deriving DecidableEq, Repr

namespace Counter

/-- `marshal` (counter.rs:44-53). -/
def marshal (x : Counter) : Bytes :=
  tliv 199 x.length x.ins (be32 x.timestamp ++ [x.counter])

/-- `unmarshal` (counter.rs:55-68). -/
def unmarshal (_m : Mode) (b : Bytes) : R Err Counter := do
  if 9 ≤ b.length then
    let length ← rd16 b 1
    let ins ← rd b 3
    let timestamp ← rd32 b 4
    let counter ← rd b 8
    return { t := 199, length, ins := ins &&& 0x0f, timestamp, counter }
  else .err (.ieInvalidLength 199)

/-- `len` (counter.rs:70-72). -/
def len (_m : Mode) (_x : Counter) : R Err Nat := .ok 9

/-- Field values that the encoding of a `Counter` can represent. -/
def WF (x : Counter) : Prop := x.t = 199 ∧ x.length.toNat = 5 ∧ x.ins < 16

instance (x : Counter) : Decidable x.WF := by unfold WF; infer_instance

theorem rt : RoundTrips WF marshal unmarshal := by
  intro m x tail h
  obtain ⟨t, length, ins, timestamp, counter⟩ := x
  obtain ⟨ht, hl, hi⟩ := h
  simp only at ht hl hi
  enc_simp [marshal]
  rt_simp [unmarshal, ht, hl, hi]

theorem len_ok : LenOk WF marshal len := by
  intro m x h
  have hm : x.marshal.length = 9 := by
    obtain ⟨t, length, ins, timestamp, counter⟩ := x
    obtain ⟨ht, hl, hi⟩ := h
    simp only at ht hl hi
    enc_simp [marshal]
    simp [gtp]
  rw [hm]; rfl

theorem safe : FixedSafe 9 unmarshal len := by
  intro m b
  safe_simp [unmarshal, len]
  safe_fin

end Counter

/-- `ServingPlmnRateControl` (servingplmnratecontrol.rs:17-23). -/
structure ServingPlmnRateControl where
  t : UInt8
  length : UInt16
  ins : UInt8
  rate_ctrl_ul : UInt16
  rate_ctrl_dl : UInt16
deriving DecidableEq, Repr

namespace ServingPlmnRateControl

/-- `marshal` (servingplmnratecontrol.rs:44-53). -/
def marshal (x : ServingPlmnRateControl) : Bytes :=
  tliv 198 x.length x.ins (be16 x.rate_ctrl_ul ++ be16 x.rate_ctrl_dl)

/-- `unmarshal` (servingplmnratecontrol.rs:55-68). -/
def unmarshal (_m : Mode) (b : Bytes) : R Err ServingPlmnRateControl := do
  if 8 ≤ b.length then
    let length ← rd16 b 1
    let ins ← rd b 3
    let rate_ctrl_ul ← rd16 b 4
    let rate_ctrl_dl ← rd16 b 6
    return { t := 198, length, ins := ins &&& 0x0f, rate_ctrl_ul, rate_ctrl_dl }
  else .err (.ieInvalidLength 198)

/-- `len` (servingplmnratecontrol.rs:70-72). -/
def len (_m : Mode) (_x : ServingPlmnRateControl) : R Err Nat := .ok 8

/-- Field values that the encoding of a `ServingPlmnRateControl` can represent. -/
def WF (x : ServingPlmnRateControl) : Prop := x.t = 198 ∧ x.length.toNat = 4 ∧ x.ins < 16

instance (x : ServingPlmnRateControl) : Decidable x.WF := by unfold WF; infer_instance

theorem rt : RoundTrips WF marshal unmarshal := by
  intro m x tail h
  obtain ⟨t, length, ins, rate_ctrl_ul, rate_ctrl_dl⟩ := x
  obtain ⟨ht, hl, hi⟩ := h
  simp only at ht hl hi
  enc_simp [marshal]
  rt_simp [unmarshal, ht, hl, hi]

theorem len_ok : LenOk WF marshal len := by
  intro m x h
  have hm : x.marshal.length = 8 := by
    obtain ⟨t, length, ins, rate_ctrl_ul, rate_ctrl_dl⟩ := x
    obtain ⟨ht, hl, hi⟩ := h
    simp only at ht hl hi
    enc_simp [marshal]
    simp [gtp]
  rw [hm]; rfl

theorem safe : FixedSafe 8 unmarshal len := by
  intro m b
  safe_simp [unmarshal, len]
  safe_fin

end ServingPlmnRateControl

/-- `AbsoluteTimeMbmsDataTransfer` (abstimembmsdatatransfer.rs:17-22). -/
structure AbsoluteTimeMbmsDataTransfer where
  t : UInt8
  length : UInt16
  ins : UInt8
  seconds : UInt64
deriving DecidableEq, Repr

namespace AbsoluteTimeMbmsDataTransfer

/-- `marshal` (abstimembmsdatatransfer.rs:42-50). -/
def marshal (x : AbsoluteTimeMbmsDataTransfer) : Bytes :=
  tliv 164 x.length x.ins (be64 x.seconds)

/-- `unmarshal` (abstimembmsdatatransfer.rs:52-67). -/
def unmarshal (_m : Mode) (b : Bytes) : R Err AbsoluteTimeMbmsDataTransfer := do
  if 12 ≤ b.length then
    let length ← rd16 b 1
    let ins ← rd b 3
    let seconds ← rd64 b 4
    return { t := 164, length, ins := ins &&& 0x0f, seconds }
  else .err (.ieInvalidLength 164)

/-- `len` (abstimembmsdatatransfer.rs:69-71). -/
def len (_m : Mode) (_x : AbsoluteTimeMbmsDataTransfer) : R Err Nat := .ok 12

/-- Field values that the encoding of a `AbsoluteTimeMbmsDataTransfer` can represent. -/
def WF (x : AbsoluteTimeMbmsDataTransfer) : Prop := x.t = 164 ∧ x.length.toNat = 8 ∧ x.ins < 16

instance (x : AbsoluteTimeMbmsDataTransfer) : Decidable x.WF := by unfold WF; infer_instance

theorem rt : RoundTrips WF marshal unmarshal := by
  intro m x tail h
  obtain ⟨t, length, ins, seconds⟩ := x
  obtain ⟨ht, hl, hi⟩ := h
  simp only at ht hl hi
  enc_simp [marshal]
  rt_simp [unmarshal, ht, hl, hi]

theorem len_ok : LenOk WF marshal len := by
  intro m x h
  have hm : x.marshal.length = 12 := by
    obtain ⟨t, length, ins, seconds⟩ := x
    obtain ⟨ht, hl, hi⟩ := h
    simp only at ht hl hi
    enc_simp [marshal]
    simp [gtp]
  rw [hm]; rfl

theorem safe : FixedSafe 12 unmarshal len := by
  intro m b
  safe_simp [unmarshal, len]
  safe_fin

end AbsoluteTimeMbmsDataTransfer

/-- `Ambr` (ambr.rs:17-23). -/
structure Ambr where
  t : UInt8
  length : UInt16
  ins : UInt8
  ambr_ul : UInt32
  ambr_dl : UInt32
deriving DecidableEq, Repr

namespace Ambr

/-- `marshal` (ambr.rs:44-53). -/
def marshal (x : Ambr) : Bytes :=
  tliv 72 x.length x.ins (be32 x.ambr_ul ++ be32 x.ambr_dl)

/-- `unmarshal` (ambr.rs:55-68). -/
def unmarshal (_m : Mode) (b : Bytes) : R Err Ambr := do
  if 12 ≤ b.length then
    let length ← rd16 b 1
    let ins ← rd b 3
    let ambr_ul ← rd32 b 4
    let ambr_dl ← rd32 b 8
    return { t := 72, length, ins := ins &&& 0x0f, ambr_ul, ambr_dl }
  else .err (.ieInvalidLength 72)

/-- `len` (ambr.rs:70-72). -/
def len (_m : Mode) (_x : Ambr) : R Err Nat := .ok 12

/-- Field values that the encoding of a `Ambr` can represent. -/
def WF (x : Ambr) : Prop := x.t = 72 ∧ x.length.toNat = 8 ∧ x.ins < 16

instance (x : Ambr) : Decidable x.WF := by unfold WF; infer_instance

theorem rt : RoundTrips WF marshal unmarshal := by
  intro m x tail h
  obtain ⟨t, length, ins, ambr_ul, ambr_dl⟩ := x
  obtain ⟨ht, hl, hi⟩ := h
  simp only at ht hl hi
  enc_simp [marshal]
  rt_simp [unmarshal, ht, hl, hi]

theorem len_ok : LenOk WF marshal len := by
  intro m x h
  have hm : x.marshal.length = 12 := by
    obtain ⟨t, length, ins, ambr_ul, ambr_dl⟩ := x
    obtain ⟨ht, hl, hi⟩ := h
    simp only at ht hl hi
    enc_simp [marshal]
    simp [gtp]
  rw [hm]; rfl

theorem safe : FixedSafe 12 unmarshal len := by
  intro m b
  safe_simp [unmarshal, len]
  safe_fin

end Ambr

/-- `ChangeReportingAction` (changereportingaction.rs:29-34). -/
structure ChangeReportingAction where
  t : UInt8
  length : UInt16
  ins : UInt8
  action : UInt8
deriving DecidableEq, Repr

namespace ChangeReportingAction

/-- `marshal` (changereportingaction.rs:54-62). -/
def marshal (x : ChangeReportingAction) : Bytes :=
  tliv 131 x.length x.ins [x.action]

/-- `unmarshal` (changereportingaction.rs:64-76). -/
def unmarshal (_m : Mode) (b : Bytes) : R Err ChangeReportingAction := do
  if 5 ≤ b.length then
    let length ← rd16 b 1
    let ins ← rd b 3
    let action ← rd b 4
    return { t := 131, length, ins := ins &&& 0x0f, action }
  else .err (.ieInvalidLength 131)

/-- `len` (changereportingaction.rs:78-80). -/
def len (_m : Mode) (_x : ChangeReportingAction) : R Err Nat := .ok 5

/-- Field values that the encoding of a `ChangeReportingAction` can represent. -/
def WF (x : ChangeReportingAction) : Prop := x.t = 131 ∧ x.length.toNat = 1 ∧ x.ins < 16

instance (x : ChangeReportingAction) : Decidable x.WF := by unfold WF; infer_instance

theorem rt : RoundTrips WF marshal unmarshal := by
  intro m x tail h
  obtain ⟨t, length, ins, action⟩ := x
  obtain ⟨ht, hl, hi⟩ := h
  simp only at ht hl hi
  enc_simp [marshal]
  rt_simp [unmarshal, ht, hl, hi]

theorem len_ok : LenOk WF marshal len := by
  intro m x h
  have hm : x.marshal.length = 5 := by
    obtain ⟨t, length, ins, action⟩ := x
    obtain ⟨ht, hl, hi⟩ := h
    simp only at ht hl hi
    enc_simp [marshal]
    simp [gtp]
  rw [hm]; rfl

theorem safe : FixedSafe 5 unmarshal len := by
  intro m b
  safe_simp [unmarshal, len]
  safe_fin

end ChangeReportingAction

/-- `Ip4Cp` (ip4cp.rs:18-24). -/
structure Ip4Cp where
  t : UInt8
  length : UInt16
  ins : UInt8
  subnet_prefix : UInt8
  ip : UInt32
deriving DecidableEq, Repr

namespace Ip4Cp

/-- `marshal` (ip4cp.rs:45-54). -/
def marshal (x : Ip4Cp) : Bytes :=
  tliv 166 x.length x.ins ([x.subnet_prefix] ++ be32 x.ip)

/-- `unmarshal` (ip4cp.rs:56-69). -/
def unmarshal (_m : Mode) (b : Bytes) : R Err Ip4Cp := do
  if 9 ≤ b.length then
    let length ← rd16 b 1
    let ins ← rd b 3
    let subnet_prefix ← rd b 4
    let ip ← rd32 b 5
    return { t := 166, length, ins := ins &&& 0x0f, subnet_prefix, ip }
  else .err (.ieInvalidLength 166)

/-- `len` (ip4cp.rs:71-73). -/
def len (_m : Mode) (_x : Ip4Cp) : R Err Nat := .ok 9

/-- Field values that the encoding of a `Ip4Cp` can represent. -/
def WF (x : Ip4Cp) : Prop := x.t = 166 ∧ x.length.toNat = 5 ∧ x.ins < 16

instance (x : Ip4Cp) : Decidable x.WF := by unfold WF; infer_instance

theorem rt : RoundTrips WF marshal unmarshal := by
  intro m x tail h
  obtain ⟨t, length, ins, subnet_prefix, ip⟩ := x
  obtain ⟨ht, hl, hi⟩ := h
  simp only at ht hl hi
  enc_simp [marshal]
  rt_simp [unmarshal, ht, hl, hi]

theorem len_ok : LenOk WF marshal len := by
  intro m x h
  have hm : x.marshal.length = 9 := by
    obtain ⟨t, length, ins, subnet_prefix, ip⟩ := x
    obtain ⟨ht, hl, hi⟩ := h
    simp only at ht hl hi
    enc_simp [marshal]
    simp [gtp]
  rw [hm]; rfl

theorem safe : FixedSafe 9 unmarshal len := by
  intro m b
  safe_simp [unmarshal, len]
  safe_fin

end Ip4Cp

/-- `MbmsDistributionAck` (mbmsdistributionack.rs:17-22). -/
structure MbmsDistributionAck where
  t : UInt8
  length : UInt16
  ins : UInt8
  distr_id : UInt8
deriving DecidableEq, Repr

namespace MbmsDistributionAck

/-- `marshal` (mbmsdistributionack.rs:42-50). -/
def marshal (x : MbmsDistributionAck) : Bytes :=
  tliv 143 x.length x.ins [x.distr_id &&& 0x03]

/-- `unmarshal` (mbmsdistributionack.rs:52-64). -/
def unmarshal (_m : Mode) (b : Bytes) : R Err MbmsDistributionAck := do
  if 5 ≤ b.length then
    let length ← rd16 b 1
    let ins ← rd b 3
    let v ← rd b 4
    return { t := 143, length, ins := ins &&& 0x0f, distr_id := v &&& 0x03 }
  else .err (.ieInvalidLength 143)

/-- `len` (mbmsdistributionack.rs:66-68). -/
def len (_m : Mode) (_x : MbmsDistributionAck) : R Err Nat := .ok 5

/-- Field values that the encoding of a `MbmsDistributionAck` can represent. -/
def WF (x : MbmsDistributionAck) : Prop :=
  x.t = 143 ∧
  x.length.toNat = 1 ∧
  x.ins < 16 ∧
  x.distr_id < 4

instance (x : MbmsDistributionAck) : Decidable x.WF := by unfold WF; infer_instance

theorem rt : RoundTrips WF marshal unmarshal := by
  intro m x tail h
  obtain ⟨t, length, ins, distr_id⟩ := x
  obtain ⟨ht, hl, hi, hv3⟩ := h
  simp only at ht hl hi hv3
  enc_simp [marshal]
  rt_simp [unmarshal, ht, hl, hi, hv3]

theorem len_ok : LenOk WF marshal len := by
  intro m x h
  have hm : x.marshal.length = 5 := by
    obtain ⟨t, length, ins, distr_id⟩ := x
    obtain ⟨ht, hl, hi, hv3⟩ := h
    simp only at ht hl hi hv3
    enc_simp [marshal]
    simp [gtp]
  rw [hm]; rfl

theorem safe : FixedSafe 5 unmarshal len := by
  intro m b
  safe_simp [unmarshal, len]
  safe_fin

end MbmsDistributionAck

/-- `Metric` (metric.rs:17-22). -/
structure Metric where
  t : UInt8
  length : UInt16
  ins : UInt8
  metric : UInt8
deriving DecidableEq, Repr

namespace Metric

/-- `marshal` (metric.rs:42-50). -/
def marshal (x : Metric) : Bytes :=
  tliv 182 x.length x.ins [x.metric]

/-- `unmarshal` (metric.rs:52-64). -/
def unmarshal (_m : Mode) (b : Bytes) : R Err Metric := do
  if 5 ≤ b.length then
    let length ← rd16 b 1
    let ins ← rd b 3
    let v ← rd b 4
    return { t := 182, length, ins := ins &&& 0x0f, metric := if v > 100 then 0 else v }
  else .err (.ieInvalidLength 182)

/-- `len` (metric.rs:66-68). -/
def len (_m : Mode) (_x : Metric) : R Err Nat := .ok 5

/-- Field values that the encoding of a `Metric` can represent. -/
def WF (x : Metric) : Prop := x.t = 182 ∧ x.length.toNat = 1 ∧ x.ins < 16 ∧ x.metric ≤ 100

instance (x : Metric) : Decidable x.WF := by unfold WF; infer_instance

theorem rt : RoundTrips WF marshal unmarshal := by
  intro m x tail h
  obtain ⟨t, length, ins, metric⟩ := x
  obtain ⟨ht, hl, hi, hv3⟩ := h
  simp only at ht hl hi hv3
  have hn : ¬ metric > 100 := UInt8.not_lt.mpr hv3
  enc_simp [marshal, hn]
  rt_simp [unmarshal, ht, hl, hi, hv3, hn]

theorem len_ok : LenOk WF marshal len := by
  intro m x h
  have hm : x.marshal.length = 5 := by
    obtain ⟨t, length, ins, metric⟩ := x
    obtain ⟨ht, hl, hi, hv3⟩ := h
    simp only at ht hl hi hv3
    have hn : ¬ metric > 100 := UInt8.not_lt.mpr hv3
    enc_simp [marshal, hn]
    simp [gtp]
  rw [hm]; rfl

theorem safe : FixedSafe 5 unmarshal len := by
  intro m b
  safe_simp [unmarshal, len]
  safe_fin

end Metric

/-- `MilliSecondTimeStamp` (millisecondtimestamp.rs:17-22). -/
structure MilliSecondTimeStamp where
  t : UInt8
  length : UInt16
  ins : UInt8
  timestamp : UInt64
deriving DecidableEq, Repr

namespace MilliSecondTimeStamp

/-- `marshal` (millisecondtimestamp.rs:42-50). -/
def marshal (x : MilliSecondTimeStamp) : Bytes :=
  tliv 188 x.length x.ins (be48 x.timestamp)

/-- `unmarshal` (millisecondtimestamp.rs:52-66). -/
def unmarshal (_m : Mode) (b : Bytes) : R Err MilliSecondTimeStamp := do
  if 10 ≤ b.length then
    let length ← rd16 b 1
    let ins ← rd b 3
    let timestamp ← rd48 b 4
    return { t := 188, length, ins := ins &&& 0x0f, timestamp }
  else .err (.ieInvalidLength 188)

/-- `len` (millisecondtimestamp.rs:68-70). -/
def len (_m : Mode) (_x : MilliSecondTimeStamp) : R Err Nat := .ok 10

/-- Field values that the encoding of a `MilliSecondTimeStamp` can represent. -/
def WF (x : MilliSecondTimeStamp) : Prop :=
  x.t = 188 ∧
  x.length.toNat = 6 ∧
  x.ins < 16 ∧
  x.timestamp.toNat < 2 ^ 48

instance (x : MilliSecondTimeStamp) : Decidable x.WF := by unfold WF; infer_instance

theorem rt : RoundTrips WF marshal unmarshal := by
  intro m x tail h
  obtain ⟨t, length, ins, timestamp⟩ := x
  obtain ⟨ht, hl, hi, hv3⟩ := h
  simp only at ht hl hi hv3
  simp only [Nat.reducePow] at hv3
  enc_simp [marshal, of48_be hv3]
  rt_simp [unmarshal, ht, hl, hi, hv3, of48_be hv3]

theorem len_ok : LenOk WF marshal len := by
  intro m x h
  have hm : x.marshal.length = 10 := by
    obtain ⟨t, length, ins, timestamp⟩ := x
    obtain ⟨ht, hl, hi, hv3⟩ := h
    simp only at ht hl hi hv3
    simp only [Nat.reducePow] at hv3
    enc_simp [marshal, of48_be hv3]
    simp [gtp]
  rw [hm]; rfl

theorem safe : FixedSafe 10 unmarshal len := by
  intro m b
  safe_simp [unmarshal, len]
  safe_fin

end MilliSecondTimeStamp

end Gtp.V2
