import Verif.V2.IeBase

/-!
# Information elements consisting of numbers, part 1

Expanded by `scripts/gen_ies.py`; the citations refer to `/repo/src/gtpv2/messages/ies`.
-/

namespace Gtp.V2

set_option linter.unusedSimpArgs false

/-- `Recovery` (recovery.rs:16-21). -/
structure Recovery where
  t : UInt8
  length : UInt16
  ins : UInt8
  recovery : UInt8
deriving DecidableEq, Repr

namespace Recovery

/-- `marshal` (recovery.rs:41-49). -/
def marshal (x : Recovery) : Bytes :=
  tliv 3 x.length x.ins [x.recovery]

/-- `unmarshal` (recovery.rs:51-63). -/
def unmarshal (_m : Mode) (b : Bytes) : R Err Recovery := do
  if 5 ≤ b.length then
    let length ← rd16 b 1
    let ins ← rd b 3
    let recovery ← rd b 4
    return { t := 3, length, ins := ins &&& 0x0f, recovery }
  else .err (.ieInvalidLength 3)

/-- `len` (recovery.rs:65-67). -/
def len (_m : Mode) (_x : Recovery) : R Err Nat := .ok 5

/-- Field values that the encoding of a `Recovery` can represent. -/
def WF (x : Recovery) : Prop := x.t = 3 ∧ x.length.toNat = 1 ∧ x.ins < 16

instance (x : Recovery) : Decidable x.WF := by unfold WF; infer_instance

theorem rt : RoundTrips WF marshal unmarshal := by
  intro m x tail h
  obtain ⟨t, length, ins, recovery⟩ := x
  obtain ⟨ht, hl, hi⟩ := h
  simp only at ht hl hi
  enc_simp [marshal]
  rt_simp [unmarshal, ht, hl, hi]

theorem len_ok : LenOk WF marshal len := by
  intro m x h
  have hm : x.marshal.length = 5 := by
    obtain ⟨t, length, ins, recovery⟩ := x
    obtain ⟨ht, hl, hi⟩ := h
    simp only at ht hl hi
    enc_simp [marshal]
    simp [gtp]
  rw [hm]; rfl

theorem safe : FixedSafe 5 unmarshal len := by
  intro m b
  safe_simp [unmarshal, len]
  safe_fin

end Recovery

/-- `Ebi` (ebi.rs:16-21). -/
structure Ebi where
  t : UInt8
  length : UInt16
  ins : UInt8
  value : UInt8
deriving DecidableEq, Repr

namespace Ebi

/-- `marshal` (ebi.rs:41-49). -/
def marshal (x : Ebi) : Bytes :=
  tliv 73 x.length x.ins [x.value]

/-- `unmarshal` (ebi.rs:51-63). -/
def unmarshal (_m : Mode) (b : Bytes) : R Err Ebi := do
  if 5 ≤ b.length then
    let length ← rd16 b 1
    let ins ← rd b 3
    let value ← rd b 4
    return { t := 73, length, ins := ins &&& 0x0f, value := value &&& 0x0f }
  else .err (.ieInvalidLength 73)

/-- `len` (ebi.rs:65-67). -/
def len (_m : Mode) (_x : Ebi) : R Err Nat := .ok 5

/-- Field values that the encoding of a `Ebi` can represent. -/
def WF (x : Ebi) : Prop := x.t = 73 ∧ x.length.toNat = 1 ∧ x.ins < 16 ∧ x.value < 16

instance (x : Ebi) : Decidable x.WF := by unfold WF; infer_instance

theorem rt : RoundTrips WF marshal unmarshal := by
  intro m x tail h
  obtain ⟨t, length, ins, value⟩ := x
  obtain ⟨ht, hl, hi, hv3⟩ := h
  simp only at ht hl hi hv3
  enc_simp [marshal]
  rt_simp [unmarshal, ht, hl, hi, hv3]

theorem len_ok : LenOk WF marshal len := by
  intro m x h
  have hm : x.marshal.length = 5 := by
    obtain ⟨t, length, ins, value⟩ := x
    obtain ⟨ht, hl, hi, hv3⟩ := h
    simp only at ht hl hi hv3
    enc_simp [marshal]
    simp [gtp]
  rw [hm]; rfl

theorem safe : FixedSafe 5 unmarshal len := by
  intro m b
  safe_simp [unmarshal, len]
  safe_fin

end Ebi

/-- `EmlppPriority` (emlppprio.rs:16-21). -/
structure EmlppPriority where
  t : UInt8
  length : UInt16
  ins : UInt8
  priority : UInt8
deriving DecidableEq, Repr

namespace EmlppPriority

/-- `marshal` (emlppprio.rs:41-49). -/
def marshal (x : EmlppPriority) : Bytes :=
  tliv 134 x.length x.ins [x.priority]

/-- `unmarshal` (emlppprio.rs:51-63). -/
def unmarshal (_m : Mode) (b : Bytes) : R Err EmlppPriority := do
  if 5 ≤ b.length then
    let length ← rd16 b 1
    let ins ← rd b 3
    let priority ← rd b 4
    return { t := 134, length, ins := ins &&& 0x0f, priority := priority &&& 0x07 }
  else .err (.ieInvalidLength 134)

/-- `len` (emlppprio.rs:65-67). -/
def len (_m : Mode) (_x : EmlppPriority) : R Err Nat := .ok 5

/-- Field values that the encoding of a `EmlppPriority` can represent. -/
def WF (x : EmlppPriority) : Prop := x.t = 134 ∧ x.length.toNat = 1 ∧ x.ins < 16 ∧ x.priority < 8

instance (x : EmlppPriority) : Decidable x.WF := by unfold WF; infer_instance

theorem rt : RoundTrips WF marshal unmarshal := by
  intro m x tail h
  obtain ⟨t, length, ins, priority⟩ := x
  obtain ⟨ht, hl, hi, hv3⟩ := h
  simp only at ht hl hi hv3
  enc_simp [marshal]
  rt_simp [unmarshal, ht, hl, hi, hv3]

theorem len_ok : LenOk WF marshal len := by
  intro m x h
  have hm : x.marshal.length = 5 := by
    obtain ⟨t, length, ins, priority⟩ := x
    obtain ⟨ht, hl, hi, hv3⟩ := h
    simp only at ht hl hi hv3
    enc_simp [marshal]
    simp [gtp]
  rw [hm]; rfl

theorem safe : FixedSafe 5 unmarshal len := by
  intro m b
  safe_simp [unmarshal, len]
  safe_fin

end EmlppPriority

/-- `MbmsTimeToDataTransfer` (mbmstimetodatatransfer.rs:17-22). -/
structure MbmsTimeToDataTransfer where
  t : UInt8
  length : UInt16
  ins : UInt8
  mbms_time_to_data : UInt8
deriving DecidableEq, Repr

namespace MbmsTimeToDataTransfer

/-- `marshal` (mbmstimetodatatransfer.rs:42-50). -/
def marshal (x : MbmsTimeToDataTransfer) : Bytes :=
  tliv 153 x.length x.ins [x.mbms_time_to_data]

/-- `unmarshal` (mbmstimetodatatransfer.rs:52-64). -/
def unmarshal (_m : Mode) (b : Bytes) : R Err MbmsTimeToDataTransfer := do
  if 5 ≤ b.length then
    let length ← rd16 b 1
    let ins ← rd b 3
    let mbms_time_to_data ← rd b 4
    return { t := 153, length, ins, mbms_time_to_data }
  else .err (.ieInvalidLength 153)

/-- `len` (mbmstimetodatatransfer.rs:66-68). -/
def len (_m : Mode) (_x : MbmsTimeToDataTransfer) : R Err Nat := .ok 5

/-- Field values that the encoding of a `MbmsTimeToDataTransfer` can represent. -/
def WF (x : MbmsTimeToDataTransfer) : Prop := x.t = 153 ∧ x.length.toNat = 1

instance (x : MbmsTimeToDataTransfer) : Decidable x.WF := by unfold WF; infer_instance

theorem rt : RoundTrips WF marshal unmarshal := by
  intro m x tail h
  obtain ⟨t, length, ins, mbms_time_to_data⟩ := x
  obtain ⟨ht, hl⟩ := h
  simp only at ht hl
  enc_simp [marshal]
  rt_simp [unmarshal, ht, hl]

theorem len_ok : LenOk WF marshal len := by
  intro m x h
  have hm : x.marshal.length = 5 := by
    obtain ⟨t, length, ins, mbms_time_to_data⟩ := x
    obtain ⟨ht, hl⟩ := h
    simp only at ht hl
    enc_simp [marshal]
    simp [gtp]
  rw [hm]; rfl

theorem safe : FixedSafe 5 unmarshal len := by
  intro m b
  safe_simp [unmarshal, len]
  safe_fin

end MbmsTimeToDataTransfer

/-- `BitRate` (bitrate.rs:17-22). -/
structure BitRate where
  t : UInt8
  length : UInt16
  ins : UInt8
  bitrate : UInt32
deriving DecidableEq, Repr

namespace BitRate

/-- `marshal` (bitrate.rs:42-50). -/
def marshal (x : BitRate) : Bytes :=
  tliv 211 x.length x.ins (be32 x.bitrate)

/-- `unmarshal` (bitrate.rs:52-64). -/
def unmarshal (_m : Mode) (b : Bytes) : R Err BitRate := do
  if 8 ≤ b.length then
    let length ← rd16 b 1
    let ins ← rd b 3
    let bitrate ← rd32 b 4
    return { t := 211, length, ins := ins &&& 0x0f, bitrate }
  else .err (.ieInvalidLength 211)

/-- `len` (bitrate.rs:66-68). -/
def len (_m : Mode) (_x : BitRate) : R Err Nat := .ok 8

/-- Field values that the encoding of a `BitRate` can represent. -/
def WF (x : BitRate) : Prop := x.t = 211 ∧ x.length.toNat = 4 ∧ x.ins < 16

instance (x : BitRate) : Decidable x.WF := by unfold WF; infer_instance

theorem rt : RoundTrips WF marshal unmarshal := by
  intro m x tail h
  obtain ⟨t, length, ins, bitrate⟩ := x
  obtain ⟨ht, hl, hi⟩ := h
  simp only at ht hl hi
  enc_simp [marshal]
  rt_simp [unmarshal, ht, hl, hi]

theorem len_ok : LenOk WF marshal len := by
  intro m x h
  have hm : x.marshal.length = 8 := by
    obtain ⟨t, length, ins, bitrate⟩ := x
    obtain ⟨ht, hl, hi⟩ := h
    simp only at ht hl hi
    enc_simp [marshal]
    simp [gtp]
  rw [hm]; rfl

theorem safe : FixedSafe 8 unmarshal len := by
  intro m b
  safe_simp [unmarshal, len]
  safe_fin

end BitRate

/-- `ChannelNeeded` (channelneeded.rs:17-22). -/
structure ChannelNeeded where
  t : UInt8
  length : UInt16
  ins : UInt8
  chnl_needed : UInt8
deriving DecidableEq, Repr

namespace ChannelNeeded

/-- `marshal` (channelneeded.rs:42-50). -/
def marshal (x : ChannelNeeded) : Bytes :=
  tliv 133 x.length x.ins [x.chnl_needed]

/-- `unmarshal` (channelneeded.rs:52-64). -/
def unmarshal (_m : Mode) (b : Bytes) : R Err ChannelNeeded := do
  if 5 ≤ b.length then
    let length ← rd16 b 1
    let ins ← rd b 3
    let chnl_needed ← rd b 4
    return { t := 133, length, ins := ins &&& 0x0f, chnl_needed }
  else .err (.ieInvalidLength 133)

/-- `len` (channelneeded.rs:66-68). -/
def len (_m : Mode) (_x : ChannelNeeded) : R Err Nat := .ok 5

/-- Field values that the encoding of a `ChannelNeeded` can represent. -/
def WF (x : ChannelNeeded) : Prop := x.t = 133 ∧ x.length.toNat = 1 ∧ x.ins < 16

instance (x : ChannelNeeded) : Decidable x.WF := by unfold WF; infer_instance

theorem rt : RoundTrips WF marshal unmarshal := by
  intro m x tail h
  obtain ⟨t, length, ins, chnl_needed⟩ := x
  obtain ⟨ht, hl, hi⟩ := h
  simp only at ht hl hi
  enc_simp [marshal]
  rt_simp [unmarshal, ht, hl, hi]

theorem len_ok : LenOk WF marshal len := by
  intro m x h
  have hm : x.marshal.length = 5 := by
    obtain ⟨t, length, ins, chnl_needed⟩ := x
    obtain ⟨ht, hl, hi⟩ := h
    simp only at ht hl hi
    enc_simp [marshal]
    simp [gtp]
  rw [hm]; rfl

theorem safe : FixedSafe 5 unmarshal len := by
  intro m b
  safe_simp [unmarshal, len]
  safe_fin

end ChannelNeeded

/-- `ChargingId` (chargingid.rs:17-22). -/
structure ChargingId where
  t : UInt8
  length : UInt16
  ins : UInt8
  charging_id : UInt32
deriving DecidableEq, Repr

namespace ChargingId

/-- `marshal` (chargingid.rs:42-50). -/
def marshal (x : ChargingId) : Bytes :=
  tliv 94 x.length x.ins (be32 x.charging_id)

/-- `unmarshal` (chargingid.rs:52-64). -/
def unmarshal (_m : Mode) (b : Bytes) : R Err ChargingId := do
  if 8 ≤ b.length then
    let length ← rd16 b 1
    let ins ← rd b 3
    let charging_id ← rd32 b 4
    return { t := 94, length, ins := ins &&& 0x0f, charging_id }
  else .err (.ieInvalidLength 94)

/-- `len` (chargingid.rs:66-68). -/
def len (_m : Mode) (_x : ChargingId) : R Err Nat := .ok 8

/-- Field values that the encoding of a `ChargingId` can represent. -/
def WF (x : ChargingId) : Prop := x.t = 94 ∧ x.length.toNat = 4 ∧ x.ins < 16

instance (x : ChargingId) : Decidable x.WF := by unfold WF; infer_instance

theorem rt : RoundTrips WF marshal unmarshal := by
  intro m x tail h
  obtain ⟨t, length, ins, charging_id⟩ := x
  obtain ⟨ht, hl, hi⟩ := h
  simp only at ht hl hi
  enc_simp [marshal]
  rt_simp [unmarshal, ht, hl, hi]

theorem len_ok : LenOk WF marshal len := by
  intro m x h
  have hm : x.marshal.length = 8 := by
    obtain ⟨t, length, ins, charging_id⟩ := x
    obtain ⟨ht, hl, hi⟩ := h
    simp only at ht hl hi
    enc_simp [marshal]
    simp [gtp]
  rw [hm]; rfl

theorem safe : FixedSafe 8 unmarshal len := by
  intro m b
  safe_simp [unmarshal, len]
  safe_fin

end ChargingId

/-- `CsgId` (csgid.rs:17-22). -/
structure CsgId where
  t : UInt8
  length : UInt16
  ins : UInt8
  csgid : UInt32
deriving DecidableEq, Repr

namespace CsgId

/-- `marshal` (csgid.rs:42-50). -/
def marshal (x : CsgId) : Bytes :=
  tliv 147 x.length x.ins (be32 x.csgid)

/-- `unmarshal` (csgid.rs:52-64). -/
def unmarshal (_m : Mode) (b : Bytes) : R Err CsgId := do
  if 8 ≤ b.length then
    let length ← rd16 b 1
    let ins ← rd b 3
    let csgid ← rd32 b 4
    return { t := 147, length, ins := ins &&& 0x0f, csgid }
  else .err (.ieInvalidLength 147)

/-- `len` (csgid.rs:66-68). -/
def len (_m : Mode) (_x : CsgId) : R Err Nat := .ok 8

/-- Field values that the encoding of a `CsgId` can represent. -/
def WF (x : CsgId) : Prop := x.t = 147 ∧ x.length.toNat = 4 ∧ x.ins < 16

instance (x : CsgId) : Decidable x.WF := by unfold WF; infer_instance

theorem rt : RoundTrips WF marshal unmarshal := by
  intro m x tail h
  obtain ⟨t, length, ins, csgid⟩ := x
  obtain ⟨ht, hl, hi⟩ := h
  simp only at ht hl hi
  enc_simp [marshal]
  rt_simp [unmarshal, ht, hl, hi]

theorem len_ok : LenOk WF marshal len := by
  intro m x h
  have hm : x.marshal.length = 8 := by
    obtain ⟨t, length, ins, csgid⟩ := x
    obtain ⟨ht, hl, hi⟩ := h
    simp only at ht hl hi
    enc_simp [marshal]
    simp [gtp]
  rw [hm]; rfl

theorem safe : FixedSafe 8 unmarshal len := by
  intro m b
  safe_simp [unmarshal, len]
  safe_fin

end CsgId

/-- `DelayValue` (delayvalue.rs:17-22). -/
structure DelayValue where
  t : UInt8
  length : UInt16
  ins : UInt8
  value : UInt8
deriving DecidableEq, Repr

namespace DelayValue

/-- `marshal` (delayvalue.rs:42-50). -/
def marshal (x : DelayValue) : Bytes :=
  tliv 92 x.length x.ins [x.value]

/-- `unmarshal` (delayvalue.rs:52-64). -/
def unmarshal (_m : Mode) (b : Bytes) : R Err DelayValue := do
  if 5 ≤ b.length then
    let length ← rd16 b 1
    let ins ← rd b 3
    let value ← rd b 4
    return { t := 92, length, ins := ins &&& 0x0f, value }
  else .err (.ieInvalidLength 92)

/-- `len` (delayvalue.rs:66-68). -/
def len (_m : Mode) (_x : DelayValue) : R Err Nat := .ok 5

/-- Field values that the encoding of a `DelayValue` can represent. -/
def WF (x : DelayValue) : Prop := x.t = 92 ∧ x.length.toNat = 1 ∧ x.ins < 16

instance (x : DelayValue) : Decidable x.WF := by unfold WF; infer_instance

theorem rt : RoundTrips WF marshal unmarshal := by
  intro m x tail h
  obtain ⟨t, length, ins, value⟩ := x
  obtain ⟨ht, hl, hi⟩ := h
  simp only at ht hl hi
  enc_simp [marshal]
  rt_simp [unmarshal, ht, hl, hi]

theorem len_ok : LenOk WF marshal len := by
  intro m x h
  have hm : x.marshal.length = 5 := by
    obtain ⟨t, length, ins, value⟩ := x
    obtain ⟨ht, hl, hi⟩ := h
    simp only at ht hl hi
    enc_simp [marshal]
    simp [gtp]
  rw [hm]; rfl

theorem safe : FixedSafe 5 unmarshal len := by
  intro m b
  safe_simp [unmarshal, len]
  safe_fin

end DelayValue

/-- `HopCounter` (hopcounter.rs:17-22). -/
structure HopCounter where
  t : UInt8
  length : UInt16
  ins : UInt8
  hop_counter : UInt8
deriving DecidableEq, Repr

namespace HopCounter

/-- `marshal` (hopcounter.rs:42-50). -/
def marshal (x : HopCounter) : Bytes :=
  tliv 113 x.length x.ins [x.hop_counter]

/-- `unmarshal` (hopcounter.rs:52-64). -/
def unmarshal (_m : Mode) (b : Bytes) : R Err HopCounter := do
  if 5 ≤ b.length then
    let length ← rd16 b 1
    let ins ← rd b 3
    let hop_counter ← rd b 4
    return { t := 113, length, ins := ins &&& 0x0f, hop_counter }
  else .err (.ieInvalidLength 113)

/-- `len` (hopcounter.rs:66-68). -/
def len (_m : Mode) (x : HopCounter) : R Err Nat := ieLenU x.length

/-- Field values that the encoding of a `HopCounter` can represent. -/
def WF (x : HopCounter) : Prop := x.t = 113 ∧ x.length.toNat = 1 ∧ x.ins < 16

instance (x : HopCounter) : Decidable x.WF := by unfold WF; infer_instance

theorem rt : RoundTrips WF marshal unmarshal := by
  intro m x tail h
  obtain ⟨t, length, ins, hop_counter⟩ := x
  obtain ⟨ht, hl, hi⟩ := h
  simp only at ht hl hi
  enc_simp [marshal]
  rt_simp [unmarshal, ht, hl, hi]

theorem len_ok : LenOk WF marshal len := by
  intro m x h
  obtain ⟨t, length, ins, hop_counter⟩ := x
  obtain ⟨ht, hl, hi⟩ := h
  simp only at ht hl hi
  enc_simp [marshal]
  simp only [len, ieLenU]
  congr 1
  simp only [List.length_cons, List.length_append, List.length_nil, gtplen]
  try omega

theorem safe : LooseSafe (fun _ => True) unmarshal len := by
  intro m b hb hc
  unfold declLen at *
  safe_simp [unmarshal, len]
  safe_fin

end HopCounter

/-- `MbmsFlowId` (mbmsflowid.rs:17-22). -/
structure MbmsFlowId where
  t : UInt8
  length : UInt16
  ins : UInt8
  mbms_flowid : UInt16
deriving DecidableEq, Repr

namespace MbmsFlowId

/-- `marshal` (mbmsflowid.rs:42-50). -/
def marshal (x : MbmsFlowId) : Bytes :=
  tliv 141 x.length x.ins (be16 x.mbms_flowid)

/-- `unmarshal` (mbmsflowid.rs:52-64). -/
def unmarshal (_m : Mode) (b : Bytes) : R Err MbmsFlowId := do
  if 6 ≤ b.length then
    let length ← rd16 b 1
    let ins ← rd b 3
    let mbms_flowid ← rd16 b 4
    return { t := 141, length, ins := ins &&& 0x0f, mbms_flowid }
  else .err (.ieInvalidLength 141)

/-- `len` (mbmsflowid.rs:66-68). -/
def len (_m : Mode) (_x : MbmsFlowId) : R Err Nat := .ok 6

/-- Field values that the encoding of a `MbmsFlowId` can represent. -/
def WF (x : MbmsFlowId) : Prop := x.t = 141 ∧ x.length.toNat = 2 ∧ x.ins < 16

instance (x : MbmsFlowId) : Decidable x.WF := by unfold WF; infer_instance

theorem rt : RoundTrips WF marshal unmarshal := by
  intro m x tail h
  obtain ⟨t, length, ins, mbms_flowid⟩ := x
  obtain ⟨ht, hl, hi⟩ := h
  simp only at ht hl hi
  enc_simp [marshal]
  rt_simp [unmarshal, ht, hl, hi]

theorem len_ok : LenOk WF marshal len := by
  intro m x h
  have hm : x.marshal.length = 6 := by
    obtain ⟨t, length, ins, mbms_flowid⟩ := x
    obtain ⟨ht, hl, hi⟩ := h
    simp only at ht hl hi
    enc_simp [marshal]
    simp [gtp]
  rw [hm]; rfl

theorem safe : FixedSafe 6 unmarshal len := by
  intro m b
  safe_simp [unmarshal, len]
  safe_fin

end MbmsFlowId

/-- `MbmsSessionId` (mbmssessionid.rs:17-22). -/
structure MbmsSessionId where
  t : UInt8
  length : UInt16
  ins : UInt8
  mbms_sessionid : UInt8
deriving DecidableEq, Repr

namespace MbmsSessionId

/-- `marshal` (mbmssessionid.rs:42-50). -/
def marshal (x : MbmsSessionId) : Bytes :=
  tliv 140 x.length x.ins [x.mbms_sessionid]

/-- `unmarshal` (mbmssessionid.rs:52-64). -/
def unmarshal (_m : Mode) (b : Bytes) : R Err MbmsSessionId := do
  if 5 ≤ b.length then
    let length ← rd16 b 1
    let ins ← rd b 3
    let mbms_sessionid ← rd b 4
    return { t := 140, length, ins := ins &&& 0x0f, mbms_sessionid }
  else .err (.ieInvalidLength 140)

/-- `len` (mbmssessionid.rs:66-68). -/
def len (_m : Mode) (_x : MbmsSessionId) : R Err Nat := .ok 5

/-- Field values that the encoding of a `MbmsSessionId` can represent. -/
def WF (x : MbmsSessionId) : Prop := x.t = 140 ∧ x.length.toNat = 1 ∧ x.ins < 16

instance (x : MbmsSessionId) : Decidable x.WF := by unfold WF; infer_instance

theorem rt : RoundTrips WF marshal unmarshal := by
  intro m x tail h
  obtain ⟨t, length, ins, mbms_sessionid⟩ := x
  obtain ⟨ht, hl, hi⟩ := h
  simp only at ht hl hi
  enc_simp [marshal]
  rt_simp [unmarshal, ht, hl, hi]

theorem len_ok : LenOk WF marshal len := by
  intro m x h
  have hm : x.marshal.length = 5 := by
    obtain ⟨t, length, ins, mbms_sessionid⟩ := x
    obtain ⟨ht, hl, hi⟩ := h
    simp only at ht hl hi
    enc_simp [marshal]
    simp [gtp]
  rw [hm]; rfl

theorem safe : FixedSafe 5 unmarshal len := by
  intro m b
  safe_simp [unmarshal, len]
  safe_fin

end MbmsSessionId

/-- `PortNumber` (portnumber.rs:17-22). -/
structure PortNumber where
  t : UInt8
  length : UInt16
  ins : UInt8
  port : UInt16
deriving DecidableEq, Repr

namespace PortNumber

/-- `marshal` (portnumber.rs:42-50). -/
def marshal (x : PortNumber) : Bytes :=
  tliv 126 x.length x.ins (be16 x.port)

/-- `unmarshal` (portnumber.rs:52-64). -/
def unmarshal (_m : Mode) (b : Bytes) : R Err PortNumber := do
  if 6 ≤ b.length then
    let length ← rd16 b 1
    let ins ← rd b 3
    let port ← rd16 b 4
    return { t := 126, length, ins := ins &&& 0x0f, port }
  else .err (.ieInvalidLength 126)

/-- `len` (portnumber.rs:66-68). -/
def len (_m : Mode) (_x : PortNumber) : R Err Nat := .ok 6

/-- Field values that the encoding of a `PortNumber` can represent. -/
def WF (x : PortNumber) : Prop := x.t = 126 ∧ x.length.toNat = 2 ∧ x.ins < 16

instance (x : PortNumber) : Decidable x.WF := by unfold WF; infer_instance

theorem rt : RoundTrips WF marshal unmarshal := by
  intro m x tail h
  obtain ⟨t, length, ins, port⟩ := x
  obtain ⟨ht, hl, hi⟩ := h
  simp only at ht hl hi
  enc_simp [marshal]
  rt_simp [unmarshal, ht, hl, hi]

theorem len_ok : LenOk WF marshal len := by
  intro m x h
  have hm : x.marshal.length = 6 := by
    obtain ⟨t, length, ins, port⟩ := x
    obtain ⟨ht, hl, hi⟩ := h
    simp only at ht hl hi
    enc_simp [marshal]
    simp [gtp]
  rw [hm]; rfl

theorem safe : FixedSafe 6 unmarshal len := by
  intro m b
  safe_simp [unmarshal, len]
  safe_fin

end PortNumber

/-- `Pti` (pti.rs:17-22). -/
structure Pti where
  t : UInt8
  length : UInt16
  ins : UInt8
  pti : UInt8
deriving DecidableEq, Repr

namespace Pti

/-- `marshal` (pti.rs:42-50). -/
def marshal (x : Pti) : Bytes :=
  tliv 100 x.length x.ins [x.pti]

/-- `unmarshal` (pti.rs:52-64). -/
def unmarshal (_m : Mode) (b : Bytes) : R Err Pti := do
  if 5 ≤ b.length then
    let length ← rd16 b 1
    let ins ← rd b 3
    let pti ← rd b 4
    return { t := 100, length, ins := ins &&& 0x0f, pti }
  else .err (.ieInvalidLength 100)

/-- `len` (pti.rs:66-68). -/
def len (_m : Mode) (_x : Pti) : R Err Nat := .ok 5

/-- Field values that the encoding of a `Pti` can represent. -/
def WF (x : Pti) : Prop := x.t = 100 ∧ x.length.toNat = 1 ∧ x.ins < 16

instance (x : Pti) : Decidable x.WF := by unfold WF; infer_instance

theorem rt : RoundTrips WF marshal unmarshal := by
  intro m x tail h
  obtain ⟨t, length, ins, pti⟩ := x
  obtain ⟨ht, hl, hi⟩ := h
  simp only at ht hl hi
  enc_simp [marshal]
  rt_simp [unmarshal, ht, hl, hi]

theorem len_ok : LenOk WF marshal len := by
  intro m x h
  have hm : x.marshal.length = 5 := by
    obtain ⟨t, length, ins, pti⟩ := x
    obtain ⟨ht, hl, hi⟩ := h
    simp only at ht hl hi
    enc_simp [marshal]
    simp [gtp]
  rw [hm]; rfl

theorem safe : FixedSafe 5 unmarshal len := by
  intro m b
  safe_simp [unmarshal, len]
  safe_fin

end Pti

/-- `PtmsiSignature` (ptmsisignature.rs:17-22). -/
structure PtmsiSignature where
  t : UInt8
  length : UInt16
  ins : UInt8
  ptmsi_sig : UInt32
deriving DecidableEq, Repr

namespace PtmsiSignature

/-- `marshal` (ptmsisignature.rs:42-50). -/
def marshal (x : PtmsiSignature) : Bytes :=
  tliv 112 x.length x.ins (be32 x.ptmsi_sig)

/-- `unmarshal` (ptmsisignature.rs:52-64). -/
def unmarshal (_m : Mode) (b : Bytes) : R Err PtmsiSignature := do
  if 8 ≤ b.length then
    let length ← rd16 b 1
    let ins ← rd b 3
    let ptmsi_sig ← rd32 b 4
    return { t := 112, length, ins := ins &&& 0x0f, ptmsi_sig }
  else .err (.ieInvalidLength 112)

/-- `len` (ptmsisignature.rs:66-68). -/
def len (_m : Mode) (_x : PtmsiSignature) : R Err Nat := .ok 8

/-- Field values that the encoding of a `PtmsiSignature` can represent. -/
def WF (x : PtmsiSignature) : Prop := x.t = 112 ∧ x.length.toNat = 4 ∧ x.ins < 16

instance (x : PtmsiSignature) : Decidable x.WF := by unfold WF; infer_instance

theorem rt : RoundTrips WF marshal unmarshal := by
  intro m x tail h
  obtain ⟨t, length, ins, ptmsi_sig⟩ := x
  obtain ⟨ht, hl, hi⟩ := h
  simp only at ht hl hi
  enc_simp [marshal]
  rt_simp [unmarshal, ht, hl, hi]

theorem len_ok : LenOk WF marshal len := by
  intro m x h
  have hm : x.marshal.length = 8 := by
    obtain ⟨t, length, ins, ptmsi_sig⟩ := x
    obtain ⟨ht, hl, hi⟩ := h
    simp only at ht hl hi
    enc_simp [marshal]
    simp [gtp]
  rw [hm]; rfl

theorem safe : FixedSafe 8 unmarshal len := by
  intro m b
  safe_simp [unmarshal, len]
  safe_fin

end PtmsiSignature

/-- `RfspIndex` (rfspindex.rs:17-22). -/
structure RfspIndex where
  t : UInt8
  length : UInt16
  ins : UInt8
  spid : UInt16
deriving DecidableEq, Repr

namespace RfspIndex

/-- `marshal` (rfspindex.rs:42-50). -/
def marshal (x : RfspIndex) : Bytes :=
  tliv 144 x.length x.ins (be16 x.spid)

/-- `unmarshal` (rfspindex.rs:52-64). -/
def unmarshal (_m : Mode) (b : Bytes) : R Err RfspIndex := do
  if 6 ≤ b.length then
    let length ← rd16 b 1
    let ins ← rd b 3
    let spid ← rd16 b 4
    return { t := 144, length, ins := ins &&& 0x0f, spid }
  else .err (.ieInvalidLength 144)

/-- `len` (rfspindex.rs:66-68). -/
def len (_m : Mode) (_x : RfspIndex) : R Err Nat := .ok 6

/-- Field values that the encoding of a `RfspIndex` can represent. -/
def WF (x : RfspIndex) : Prop := x.t = 144 ∧ x.length.toNat = 2 ∧ x.ins < 16

instance (x : RfspIndex) : Decidable x.WF := by unfold WF; infer_instance

theorem rt : RoundTrips WF marshal unmarshal := by
  intro m x tail h
  obtain ⟨t, length, ins, spid⟩ := x
  obtain ⟨ht, hl, hi⟩ := h
  simp only at ht hl hi
  enc_simp [marshal]
  rt_simp [unmarshal, ht, hl, hi]

theorem len_ok : LenOk WF marshal len := by
  intro m x h
  have hm : x.marshal.length = 6 := by
    obtain ⟨t, length, ins, spid⟩ := x
    obtain ⟨ht, hl, hi⟩ := h
    simp only at ht hl hi
    enc_simp [marshal]
    simp [gtp]
  rw [hm]; rfl

theorem safe : FixedSafe 6 unmarshal len := by
  intro m b
  safe_simp [unmarshal, len]
  safe_fin

end RfspIndex

/-- `SelectionMode` (selectionmode.rs:17-22). -/
structure SelectionMode where
  t : UInt8
  length : UInt16
  ins : UInt8
  mode : UInt8
deriving DecidableEq, Repr

namespace SelectionMode

/-- `marshal` (selectionmode.rs:42-50). -/
def marshal (x : SelectionMode) : Bytes :=
  tliv 128 x.length x.ins [x.mode]

/-- `unmarshal` (selectionmode.rs:52-64). -/
def unmarshal (_m : Mode) (b : Bytes) : R Err SelectionMode := do
  if 5 ≤ b.length then
    let length ← rd16 b 1
    let ins ← rd b 3
    let mode ← rd b 4
    return { t := 128, length, ins := ins &&& 0x0f, mode := mode &&& 0x03 }
  else .err (.ieInvalidLength 128)

/-- `len` (selectionmode.rs:66-68). -/
def len (_m : Mode) (_x : SelectionMode) : R Err Nat := .ok 5

/-- Field values that the encoding of a `SelectionMode` can represent. -/
def WF (x : SelectionMode) : Prop := x.t = 128 ∧ x.length.toNat = 1 ∧ x.ins < 16 ∧ x.mode < 4

instance (x : SelectionMode) : Decidable x.WF := by unfold WF; infer_instance

theorem rt : RoundTrips WF marshal unmarshal := by
  intro m x tail h
  obtain ⟨t, length, ins, mode⟩ := x
  obtain ⟨ht, hl, hi, hv3⟩ := h
  simp only at ht hl hi hv3
  enc_simp [marshal]
  rt_simp [unmarshal, ht, hl, hi, hv3]

theorem len_ok : LenOk WF marshal len := by
  intro m x h
  have hm : x.marshal.length = 5 := by
    obtain ⟨t, length, ins, mode⟩ := x
    obtain ⟨ht, hl, hi, hv3⟩ := h
    simp only at ht hl hi hv3
    enc_simp [marshal]
    simp [gtp]
  rw [hm]; rfl

theorem safe : FixedSafe 5 unmarshal len := by
  intro m b
  safe_simp [unmarshal, len]
  safe_fin

end SelectionMode

/-- `Sqn` (sqn.rs:17-22). -/
structure Sqn where
  t : UInt8
  length : UInt16
  ins : UInt8
  sqn : UInt32
deriving DecidableEq, Repr

namespace Sqn

/-- `marshal` (sqn.rs:42-50). -/
def marshal (x : Sqn) : Bytes :=
  tliv 183 x.length x.ins (be32 x.sqn)

/-- `unmarshal` (sqn.rs:52-64). -/
def unmarshal (_m : Mode) (b : Bytes) : R Err Sqn := do
  if 8 ≤ b.length then
    let length ← rd16 b 1
    let ins ← rd b 3
    let sqn ← rd32 b 4
    return { t := 183, length, ins := ins &&& 0x0f, sqn }
  else .err (.ieInvalidLength 183)

/-- `len` (sqn.rs:66-68). -/
def len (_m : Mode) (_x : Sqn) : R Err Nat := .ok 8

/-- Field values that the encoding of a `Sqn` can represent. -/
def WF (x : Sqn) : Prop := x.t = 183 ∧ x.length.toNat = 4 ∧ x.ins < 16

instance (x : Sqn) : Decidable x.WF := by unfold WF; infer_instance

theorem rt : RoundTrips WF marshal unmarshal := by
  intro m x tail h
  obtain ⟨t, length, ins, sqn⟩ := x
  obtain ⟨ht, hl, hi⟩ := h
  simp only at ht hl hi
  enc_simp [marshal]
  rt_simp [unmarshal, ht, hl, hi]

theorem len_ok : LenOk WF marshal len := by
  intro m x h
  have hm : x.marshal.length = 8 := by
    obtain ⟨t, length, ins, sqn⟩ := x
    obtain ⟨ht, hl, hi⟩ := h
    simp only at ht hl hi
    enc_simp [marshal]
    simp [gtp]
  rw [hm]; rfl

theorem safe : FixedSafe 8 unmarshal len := by
  intro m b
  safe_simp [unmarshal, len]
  safe_fin

end Sqn

end Gtp.V2
