import Verif.V2.IeBase

/-!
# Information elements carrying opaque octets

Expanded by `scripts/gen_ies.py`; the citations refer to `/repo/src/gtpv2/messages/ies`.
-/

namespace Gtp.V2

set_option linter.unusedSimpArgs false

/-- `enum CauseType` (fcause.rs:15-22). -/
inductive CauseType where
  | Spare | RadioNetworkLayer | TransportLayer | Nas | Protocol | Misc
deriving DecidableEq, Repr

namespace CauseType

/-- The code written for a `CauseType` (fcause.rs). -/
def toU8 : CauseType → UInt8
  | .Spare => 5
  | .RadioNetworkLayer => 0
  | .TransportLayer => 1
  | .Nas => 2
  | .Protocol => 3
  | .Misc => 4

/-- The `CauseType` read from a code (fcause.rs). -/
def ofU8 (i : UInt8) : CauseType :=
  if i = 5 then .Spare
  else if i = 0 then .RadioNetworkLayer
  else if i = 1 then .TransportLayer
  else if i = 2 then .Nas
  else if i = 3 then .Protocol
  else if i = 4 then .Misc
  else .Spare

@[gtp] theorem ofU8_toU8 (v : CauseType) : ofU8 v.toU8 = v := by cases v <;> rfl

end CauseType

theorem CauseType.toU8_and (c : CauseType) : c.toU8 &&& 15 = c.toU8 := by cases c <;> rfl

/-- `enum RequestMessage` (completereqmessage.rs:15-19). -/
inductive RequestMessage where
  | Spare | AttachRequest (i : Bytes) | TauRequest (i : Bytes)
deriving DecidableEq, Repr

/-- Body written for a `RequestMessage` (completereqmessage.rs:54-65). -/
def RequestMessage.octets : RequestMessage → Bytes
  | .Spare => [2]
  | .AttachRequest i => [0] ++ i
  | .TauRequest i => [1] ++ i

/-- `GroupId` (groupid.rs:16-21). -/
structure GroupId where
  t : UInt8
  length : UInt16
  ins : UInt8
  groupid : Bytes
deriving DecidableEq, Repr

namespace GroupId

/-- `marshal` (groupid.rs:41-49). -/
def marshal (x : GroupId) : Bytes :=
  tliv 216 x.length x.ins (x.groupid)

/-- `unmarshal` (groupid.rs:51-68). -/
def unmarshal (m : Mode) (b : Bytes) : R Err GroupId := do
  if 4 ≤ b.length then
    let length ← rd16 b 1
    let ins ← rd b 3
    if ← checkTliv m length b then
      let groupid ← sl b 4 (length.toNat + 4)
      return { t := 216, length, ins := ins &&& 0x0f, groupid }
    else .err (.ieInvalidLength 216)
  else .err (.ieInvalidLength 216)

/-- `len` (groupid.rs:70-72). -/
def len (_m : Mode) (x : GroupId) : R Err Nat := ieLenU x.length

/-- Field values that the encoding of a `GroupId` can represent. -/
def WF (x : GroupId) : Prop :=
  x.t = 216 ∧
  x.length.toNat = x.groupid.length ∧
  x.ins < 16 ∧
  x.length.toNat < 65532 ∧
  x.groupid ≠ []

instance (x : GroupId) : Decidable x.WF := by unfold WF; infer_instance

theorem rt : RoundTrips WF marshal unmarshal := by
  intro m x tail h
  obtain ⟨t, length, ins, groupid⟩ := x
  obtain ⟨ht, hl, hi, hbd, hne⟩ := h
  simp only at ht hl hi hbd hne
  have hpos := List.length_pos_iff.mpr hne
  enc_simp [marshal]
  rtv_simp [unmarshal, ht, hl, hi, hbd, hne]

theorem len_ok : LenOk WF marshal len := by
  intro m x h
  obtain ⟨t, length, ins, groupid⟩ := x
  obtain ⟨ht, hl, hi, hbd, hne⟩ := h
  simp only at ht hl hi hbd hne
  have hpos := List.length_pos_iff.mpr hne
  enc_simp [marshal]
  simp only [len, ieLenU]
  congr 1
  simp only [List.length_cons, List.length_append, List.length_nil, gtplen]
  try omega

theorem safe : ExactSafe unmarshal len := by
  intro m b hb hc
  unfold declLen at *
  safe_simp [unmarshal, len, Safe_checkTliv hb]
  safe_fin

end GroupId

/-- `IntegerNumber` (integernumber.rs:16-21). -/
structure IntegerNumber where
  t : UInt8
  length : UInt16
  ins : UInt8
  number : Bytes
deriving DecidableEq, Repr

namespace IntegerNumber

/-- `marshal` (integernumber.rs:41-49). -/
def marshal (x : IntegerNumber) : Bytes :=
  tliv 187 x.length x.ins (x.number)

/-- `unmarshal` (integernumber.rs:51-68). -/
def unmarshal (m : Mode) (b : Bytes) : R Err IntegerNumber := do
  if 4 ≤ b.length then
    let length ← rd16 b 1
    let ins ← rd b 3
    if ← checkTliv m length b then
      let number ← sl b 4 (length.toNat + 4)
      return { t := 187, length, ins := ins &&& 0x0f, number }
    else .err (.ieInvalidLength 187)
  else .err (.ieInvalidLength 187)

/-- `len` (integernumber.rs:70-72). -/
def len (_m : Mode) (x : IntegerNumber) : R Err Nat := ieLenU x.length

/-- Field values that the encoding of a `IntegerNumber` can represent. -/
def WF (x : IntegerNumber) : Prop :=
  x.t = 187 ∧
  x.length.toNat = x.number.length ∧
  x.ins < 16 ∧
  x.length.toNat < 65532 ∧
  x.number ≠ []

instance (x : IntegerNumber) : Decidable x.WF := by unfold WF; infer_instance

theorem rt : RoundTrips WF marshal unmarshal := by
  intro m x tail h
  obtain ⟨t, length, ins, number⟩ := x
  obtain ⟨ht, hl, hi, hbd, hne⟩ := h
  simp only at ht hl hi hbd hne
  have hpos := List.length_pos_iff.mpr hne
  enc_simp [marshal]
  rtv_simp [unmarshal, ht, hl, hi, hbd, hne]

theorem len_ok : LenOk WF marshal len := by
  intro m x h
  obtain ⟨t, length, ins, number⟩ := x
  obtain ⟨ht, hl, hi, hbd, hne⟩ := h
  simp only at ht hl hi hbd hne
  have hpos := List.length_pos_iff.mpr hne
  enc_simp [marshal]
  simp only [len, ieLenU]
  congr 1
  simp only [List.length_cons, List.length_append, List.length_nil, gtplen]
  try omega

theorem safe : ExactSafe unmarshal len := by
  intro m b hb hc
  unfold declLen at *
  safe_simp [unmarshal, len, Safe_checkTliv hb]
  safe_fin

end IntegerNumber

/-- `BearerTft` (bearertft.rs:16-21). -/
structure BearerTft where
  t : UInt8
  length : UInt16
  ins : UInt8
  tft : Bytes
deriving DecidableEq, Repr

namespace BearerTft

/-- `marshal` (bearertft.rs:41-49). -/
def marshal (x : BearerTft) : Bytes :=
  tliv 84 x.length x.ins (x.tft)

/-- `unmarshal` (bearertft.rs:51-69). -/
def unmarshal (m : Mode) (b : Bytes) : R Err BearerTft := do
  if 4 ≤ b.length then
    let length ← rd16 b 1
    let ins ← rd b 3
    if ← checkTliv m length b then
      let tft ← sl b 4 (length.toNat + 4)
      return { t := 84, length, ins := ins &&& 0x0f, tft }
    else .err (.ieInvalidLength 84)
  else .err (.ieInvalidLength 84)

/-- `len` (bearertft.rs:71-73). -/
def len (_m : Mode) (x : BearerTft) : R Err Nat := ieLenU x.length

/-- Field values that the encoding of a `BearerTft` can represent. -/
def WF (x : BearerTft) : Prop :=
  x.t = 84 ∧
  x.length.toNat = x.tft.length ∧
  x.ins < 16 ∧
  x.length.toNat < 65532 ∧
  x.tft ≠ []

instance (x : BearerTft) : Decidable x.WF := by unfold WF; infer_instance

theorem rt : RoundTrips WF marshal unmarshal := by
  intro m x tail h
  obtain ⟨t, length, ins, tft⟩ := x
  obtain ⟨ht, hl, hi, hbd, hne⟩ := h
  simp only at ht hl hi hbd hne
  have hpos := List.length_pos_iff.mpr hne
  enc_simp [marshal]
  rtv_simp [unmarshal, ht, hl, hi, hbd, hne]

theorem len_ok : LenOk WF marshal len := by
  intro m x h
  obtain ⟨t, length, ins, tft⟩ := x
  obtain ⟨ht, hl, hi, hbd, hne⟩ := h
  simp only at ht hl hi hbd hne
  have hpos := List.length_pos_iff.mpr hne
  enc_simp [marshal]
  simp only [len, ieLenU]
  congr 1
  simp only [List.length_cons, List.length_append, List.length_nil, gtplen]
  try omega

theorem safe : ExactSafe unmarshal len := by
  intro m b hb hc
  unfold declLen at *
  safe_simp [unmarshal, len, Safe_checkTliv hb]
  safe_fin

end BearerTft

/-- `TrafficAggregateDescription` (tad.rs:16-21). -/
structure TrafficAggregateDescription where
  t : UInt8
  length : UInt16
  ins : UInt8
  tad : Bytes
deriving DecidableEq, Repr

namespace TrafficAggregateDescription

/-- `marshal` (tad.rs:41-49). -/
def marshal (x : TrafficAggregateDescription) : Bytes :=
  tliv 85 x.length x.ins (x.tad)

/-- `unmarshal` (tad.rs:51-69). -/
def unmarshal (m : Mode) (b : Bytes) : R Err TrafficAggregateDescription := do
  if 4 ≤ b.length then
    let length ← rd16 b 1
    let ins ← rd b 3
    if ← checkTliv m length b then
      let tad ← sl b 4 (length.toNat + 4)
      return { t := 85, length, ins := ins &&& 0x0f, tad }
    else .err (.ieInvalidLength 85)
  else .err (.ieInvalidLength 85)

/-- `len` (tad.rs:71-73). -/
def len (_m : Mode) (x : TrafficAggregateDescription) : R Err Nat := ieLenU x.length

/-- Field values that the encoding of a `TrafficAggregateDescription` can represent. -/
def WF (x : TrafficAggregateDescription) : Prop :=
  x.t = 85 ∧
  x.length.toNat = x.tad.length ∧
  x.ins < 16 ∧
  x.length.toNat < 65532 ∧
  x.tad ≠ []

instance (x : TrafficAggregateDescription) : Decidable x.WF := by unfold WF; infer_instance

theorem rt : RoundTrips WF marshal unmarshal := by
  intro m x tail h
  obtain ⟨t, length, ins, tad⟩ := x
  obtain ⟨ht, hl, hi, hbd, hne⟩ := h
  simp only at ht hl hi hbd hne
  have hpos := List.length_pos_iff.mpr hne
  enc_simp [marshal]
  rtv_simp [unmarshal, ht, hl, hi, hbd, hne]

theorem len_ok : LenOk WF marshal len := by
  intro m x h
  obtain ⟨t, length, ins, tad⟩ := x
  obtain ⟨ht, hl, hi, hbd, hne⟩ := h
  simp only at ht hl hi hbd hne
  have hpos := List.length_pos_iff.mpr hne
  enc_simp [marshal]
  simp only [len, ieLenU]
  congr 1
  simp only [List.length_cons, List.length_append, List.length_nil, gtplen]
  try omega

theorem safe : ExactSafe unmarshal len := by
  intro m b hb hc
  unfold declLen at *
  safe_simp [unmarshal, len, Safe_checkTliv hb]
  safe_fin

end TrafficAggregateDescription

/-- `Apco` (apco.rs:17-22). -/
structure Apco where
  t : UInt8
  length : UInt16
  ins : UInt8
  apco : Bytes
deriving DecidableEq, Repr

namespace Apco

/-- `marshal` (apco.rs:42-50). -/
def marshal (x : Apco) : Bytes :=
  tliv 163 x.length x.ins (x.apco)

/-- `unmarshal` (apco.rs:52-69). -/
def unmarshal (m : Mode) (b : Bytes) : R Err Apco := do
  if 4 ≤ b.length then
    let length ← rd16 b 1
    let ins ← rd b 3
    if ← checkTliv m length b then
      let apco ← sl b 4 (length.toNat + 4)
      return { t := 163, length, ins := ins &&& 0x0f, apco }
    else .err (.ieInvalidLength 163)
  else .err (.ieInvalidLength 163)

/-- `len` (apco.rs:71-73). -/
def len (_m : Mode) (x : Apco) : R Err Nat := ieLenU x.length

/-- Field values that the encoding of a `Apco` can represent. -/
def WF (x : Apco) : Prop :=
  x.t = 163 ∧
  x.length.toNat = x.apco.length ∧
  x.ins < 16 ∧
  x.length.toNat < 65532 ∧
  x.apco ≠ []

instance (x : Apco) : Decidable x.WF := by unfold WF; infer_instance

theorem rt : RoundTrips WF marshal unmarshal := by
  intro m x tail h
  obtain ⟨t, length, ins, apco⟩ := x
  obtain ⟨ht, hl, hi, hbd, hne⟩ := h
  simp only at ht hl hi hbd hne
  have hpos := List.length_pos_iff.mpr hne
  enc_simp [marshal]
  rtv_simp [unmarshal, ht, hl, hi, hbd, hne]

theorem len_ok : LenOk WF marshal len := by
  intro m x h
  obtain ⟨t, length, ins, apco⟩ := x
  obtain ⟨ht, hl, hi, hbd, hne⟩ := h
  simp only at ht hl hi hbd hne
  have hpos := List.length_pos_iff.mpr hne
  enc_simp [marshal]
  simp only [len, ieLenU]
  congr 1
  simp only [List.length_cons, List.length_append, List.length_nil, gtplen]
  try omega

theorem safe : ExactSafe unmarshal len := by
  intro m b hb hc
  unfold declLen at *
  safe_simp [unmarshal, len, Safe_checkTliv hb]
  safe_fin

end Apco

/-- `Pco` (pco.rs:16-21). -/
structure Pco where
  t : UInt8
  length : UInt16
  ins : UInt8
  pco : Bytes
deriving DecidableEq, Repr

namespace Pco

/-- `marshal` (pco.rs:41-49). -/
def marshal (x : Pco) : Bytes :=
  tliv 78 x.length x.ins (x.pco)

/-- `unmarshal` (pco.rs:51-68). -/
def unmarshal (m : Mode) (b : Bytes) : R Err Pco := do
  if 4 ≤ b.length then
    let length ← rd16 b 1
    let ins ← rd b 3
    if ← checkTliv m length b then
      let pco ← slBody16 m b length
      return { t := 78, length, ins := ins &&& 0x0f, pco }
    else .err (.ieInvalidLength 78)
  else .err (.ieInvalidLength 78)

/-- `len` (pco.rs:70-72). -/
def len (_m : Mode) (x : Pco) : R Err Nat := ieLenU x.length

/-- Field values that the encoding of a `Pco` can represent. -/
def WF (x : Pco) : Prop :=
  x.t = 78 ∧
  x.length.toNat = x.pco.length ∧
  x.ins < 16 ∧
  x.length.toNat < 65532 ∧
  x.pco ≠ []

instance (x : Pco) : Decidable x.WF := by unfold WF; infer_instance

theorem rt : RoundTrips WF marshal unmarshal := by
  intro m x tail h
  obtain ⟨t, length, ins, pco⟩ := x
  obtain ⟨ht, hl, hi, hbd, hne⟩ := h
  simp only at ht hl hi hbd hne
  have hpos := List.length_pos_iff.mpr hne
  enc_simp [marshal, slBody16_ok]
  rtv_simp [unmarshal, ht, hl, hi, hbd, hne, slBody16_ok]

theorem len_ok : LenOk WF marshal len := by
  intro m x h
  obtain ⟨t, length, ins, pco⟩ := x
  obtain ⟨ht, hl, hi, hbd, hne⟩ := h
  simp only at ht hl hi hbd hne
  have hpos := List.length_pos_iff.mpr hne
  enc_simp [marshal, slBody16_ok]
  simp only [len, ieLenU]
  congr 1
  simp only [List.length_cons, List.length_append, List.length_nil, gtplen]
  try omega

theorem safe : ExactSafe unmarshal len := by
  intro m b hb hc
  unfold declLen at *
  safe_simp [unmarshal, len, Safe_checkTliv hb, slBody16_ok hb]
  safe_fin

end Pco

/-- `Epco` (epco.rs:17-22). -/
structure Epco where
  t : UInt8
  length : UInt16
  ins : UInt8
  epco : Bytes
deriving DecidableEq, Repr

namespace Epco

/-- `marshal` (epco.rs:42-50). -/
def marshal (x : Epco) : Bytes :=
  tliv 197 x.length x.ins (x.epco)

/-- `unmarshal` (epco.rs:52-69). -/
def unmarshal (m : Mode) (b : Bytes) : R Err Epco := do
  if 4 ≤ b.length then
    let length ← rd16 b 1
    let ins ← rd b 3
    if ← checkTliv m length b then
      let epco ← slBody16 m b length
      return { t := 197, length, ins := ins &&& 0x0f, epco }
    else .err (.ieInvalidLength 197)
  else .err (.ieInvalidLength 197)

/-- `len` (epco.rs:71-73). -/
def len (_m : Mode) (x : Epco) : R Err Nat := ieLenU x.length

/-- Field values that the encoding of a `Epco` can represent. -/
def WF (x : Epco) : Prop :=
  x.t = 197 ∧
  x.length.toNat = x.epco.length ∧
  x.ins < 16 ∧
  x.length.toNat < 65532 ∧
  x.epco ≠ []

instance (x : Epco) : Decidable x.WF := by unfold WF; infer_instance

theorem rt : RoundTrips WF marshal unmarshal := by
  intro m x tail h
  obtain ⟨t, length, ins, epco⟩ := x
  obtain ⟨ht, hl, hi, hbd, hne⟩ := h
  simp only at ht hl hi hbd hne
  have hpos := List.length_pos_iff.mpr hne
  enc_simp [marshal, slBody16_ok]
  rtv_simp [unmarshal, ht, hl, hi, hbd, hne, slBody16_ok]

theorem len_ok : LenOk WF marshal len := by
  intro m x h
  obtain ⟨t, length, ins, epco⟩ := x
  obtain ⟨ht, hl, hi, hbd, hne⟩ := h
  simp only at ht hl hi hbd hne
  have hpos := List.length_pos_iff.mpr hne
  enc_simp [marshal, slBody16_ok]
  simp only [len, ieLenU]
  congr 1
  simp only [List.length_cons, List.length_append, List.length_nil, gtplen]
  try omega

theorem safe : ExactSafe unmarshal len := by
  intro m b hb hc
  unfold declLen at *
  safe_simp [unmarshal, len, Safe_checkTliv hb, slBody16_ok hb]
  safe_fin

end Epco

/-- `SourceRncPdcpContextInfo` (srcrncpdcpctxinfo.rs:16-21). -/
structure SourceRncPdcpContextInfo where
  t : UInt8
  length : UInt16
  ins : UInt8
  rrc_container : Bytes
deriving DecidableEq, Repr

namespace SourceRncPdcpContextInfo

/-- `marshal` (srcrncpdcpctxinfo.rs:41-49). -/
def marshal (x : SourceRncPdcpContextInfo) : Bytes :=
  tliv 125 x.length x.ins (x.rrc_container)

/-- `unmarshal` (srcrncpdcpctxinfo.rs:51-68). -/
def unmarshal (m : Mode) (b : Bytes) : R Err SourceRncPdcpContextInfo := do
  if 4 ≤ b.length then
    let length ← rd16 b 1
    let ins ← rd b 3
    if ← checkTliv m length b then
      let rrc_container ← slBody16 m b length
      return { t := 125, length, ins := ins &&& 0x0f, rrc_container }
    else .err (.ieInvalidLength 125)
  else .err (.ieInvalidLength 125)

/-- `len` (srcrncpdcpctxinfo.rs:70-72). -/
def len (m : Mode) (x : SourceRncPdcpContextInfo) : R Err Nat := ieLen16 m x.length

/-- Field values that the encoding of a `SourceRncPdcpContextInfo` can represent. -/
def WF (x : SourceRncPdcpContextInfo) : Prop :=
  x.t = 125 ∧
  x.length.toNat = x.rrc_container.length ∧
  x.ins < 16 ∧
  x.length.toNat < 65532 ∧
  x.rrc_container ≠ []

instance (x : SourceRncPdcpContextInfo) : Decidable x.WF := by unfold WF; infer_instance

theorem rt : RoundTrips WF marshal unmarshal := by
  intro m x tail h
  obtain ⟨t, length, ins, rrc_container⟩ := x
  obtain ⟨ht, hl, hi, hbd, hne⟩ := h
  simp only at ht hl hi hbd hne
  have hpos := List.length_pos_iff.mpr hne
  enc_simp [marshal, slBody16_ok]
  rtv_simp [unmarshal, ht, hl, hi, hbd, hne, slBody16_ok]

theorem len_ok : LenOk WF marshal len := by
  intro m x h
  obtain ⟨t, length, ins, rrc_container⟩ := x
  obtain ⟨ht, hl, hi, hbd, hne⟩ := h
  simp only at ht hl hi hbd hne
  have hpos := List.length_pos_iff.mpr hne
  simp only [len]
  rw [ieLen16_ok (by omega)]
  enc_simp [marshal, slBody16_ok]
  congr 1
  simp only [List.length_cons, List.length_append, List.length_nil, gtplen]
  try omega

theorem safe : ExactSafe unmarshal len := by
  intro m b hb hc
  unfold declLen at *
  safe_simp [unmarshal, len, Safe_checkTliv hb, ieLen16_ok hb, slBody16_ok hb]
  safe_fin

end SourceRncPdcpContextInfo

/-- `SpecialIEWithTypeExt` (specialiewithtypeext.rs:16-22). -/
structure SpecialIEWithTypeExt where
  t : UInt8
  length : UInt16
  ins : UInt8
  ie_type_ext : UInt16
  ie_data : Bytes
deriving DecidableEq, Repr

namespace SpecialIEWithTypeExt

/-- `marshal` (specialiewithtypeext.rs:43-52). -/
def marshal (x : SpecialIEWithTypeExt) : Bytes :=
  tliv 254 x.length x.ins (be16 x.ie_type_ext ++ x.ie_data)

/-- `unmarshal` (specialiewithtypeext.rs:54-72). -/
def unmarshal (m : Mode) (b : Bytes) : R Err SpecialIEWithTypeExt := do
  if 5 ≤ b.length then
    let length ← rd16 b 1
    let ins ← rd b 3
    let ie_type_ext ← rd16 b 4
    if ← checkTliv m length b then
      let ie_data ← sl b 6 (length.toNat + 4)
      return { t := 254, length, ins := ins &&& 0x0f, ie_type_ext, ie_data }
    else .err (.ieInvalidLength 254)
  else .err (.ieInvalidLength 254)

/-- `len` (specialiewithtypeext.rs:74-76). -/
def len (_m : Mode) (x : SpecialIEWithTypeExt) : R Err Nat := ieLenU x.length

/-- Field values that the encoding of a `SpecialIEWithTypeExt` can represent. -/
def WF (x : SpecialIEWithTypeExt) : Prop :=
  x.t = 254 ∧
  x.length.toNat = x.ie_data.length + 2 ∧
  x.ins < 16 ∧
  x.length.toNat < 65532

instance (x : SpecialIEWithTypeExt) : Decidable x.WF := by unfold WF; infer_instance

theorem rt : RoundTrips WF marshal unmarshal := by
  intro m x tail h
  obtain ⟨t, length, ins, ie_type_ext, ie_data⟩ := x
  obtain ⟨ht, hl, hi, hbd⟩ := h
  simp only at ht hl hi hbd
  enc_simp [marshal]
  rtv_simp [unmarshal, ht, hl, hi, hbd]

theorem len_ok : LenOk WF marshal len := by
  intro m x h
  obtain ⟨t, length, ins, ie_type_ext, ie_data⟩ := x
  obtain ⟨ht, hl, hi, hbd⟩ := h
  simp only at ht hl hi hbd
  enc_simp [marshal]
  simp only [len, ieLenU]
  congr 1
  simp only [List.length_cons, List.length_append, List.length_nil, gtplen]
  try omega

theorem safe : SafeIf (fun b => b.length ≠ 5 ∧ (declLen b).toNat ≠ 1) unmarshal len := by
  intro m b hb hc
  unfold declLen at *
  try simp only at hc
  safe_simp [unmarshal, len, Safe_checkTliv hb]
  safe_fin

end SpecialIEWithTypeExt

/-- `PrivateExtension` (privateextension.rs:16-22). -/
structure PrivateExtension where
  t : UInt8
  length : UInt16
  ins : UInt8
  enterprise_id : UInt16
  value : Bytes
deriving DecidableEq, Repr

namespace PrivateExtension

/-- `marshal` (privateextension.rs:43-52). -/
def marshal (x : PrivateExtension) : Bytes :=
  tliv 255 x.length x.ins (be16 x.enterprise_id ++ x.value)

/-- `unmarshal` (privateextension.rs:54-72). -/
def unmarshal (m : Mode) (b : Bytes) : R Err PrivateExtension := do
  if 7 ≤ b.length then
    let length ← rd16 b 1
    let ins ← rd b 3
    if ← checkTliv m length b then
      let enterprise_id ← rd16 b 4
      let l ← add16 m length 4
      let value ← sl b 6 l.toNat
      return { t := 255, length, ins := ins &&& 0x0f, enterprise_id, value }
    else .err (.ieInvalidLength 255)
  else .err (.ieInvalidLength 255)

/-- `len` (privateextension.rs:74-76). -/
def len (_m : Mode) (x : PrivateExtension) : R Err Nat := ieLenU x.length

/-- Field values that the encoding of a `PrivateExtension` can represent. -/
def WF (x : PrivateExtension) : Prop :=
  x.t = 255 ∧
  x.length.toNat = x.value.length + 2 ∧
  x.ins < 16 ∧
  x.length.toNat < 65532 ∧
  x.value ≠ []

instance (x : PrivateExtension) : Decidable x.WF := by unfold WF; infer_instance

theorem rt : RoundTrips WF marshal unmarshal := by
  intro m x tail h
  obtain ⟨t, length, ins, enterprise_id, value⟩ := x
  obtain ⟨ht, hl, hi, hbd, hne⟩ := h
  simp only at ht hl hi hbd hne
  have hpos := List.length_pos_iff.mpr hne
  enc_simp [marshal, add16_four, toNat_add4]
  rtv_simp [unmarshal, ht, hl, hi, hbd, hne, add16_four, toNat_add4]

theorem len_ok : LenOk WF marshal len := by
  intro m x h
  obtain ⟨t, length, ins, enterprise_id, value⟩ := x
  obtain ⟨ht, hl, hi, hbd, hne⟩ := h
  simp only at ht hl hi hbd hne
  have hpos := List.length_pos_iff.mpr hne
  enc_simp [marshal, add16_four, toNat_add4]
  simp only [len, ieLenU]
  congr 1
  simp only [List.length_cons, List.length_append, List.length_nil, gtplen]
  try omega

theorem safe : SafeIf (fun b => (declLen b).toNat ≠ 1) unmarshal len := by
  intro m b hb hc
  unfold declLen at *
  try simp only at hc
  safe_simp [unmarshal, len, Safe_checkTliv hb, Safe_add4 hb, toNat_add4 hb]
  safe_fin

end PrivateExtension

/-- `Fcause` (fcause.rs:54-60). -/
structure Fcause where
  t : UInt8
  length : UInt16
  ins : UInt8
  cause_type : CauseType
  cause_field : Bytes
deriving DecidableEq, Repr

namespace Fcause

/-- `marshal` (fcause.rs:81-90). -/
def marshal (x : Fcause) : Bytes :=
  tliv 119 x.length x.ins ([x.cause_type.toU8] ++ x.cause_field)

/-- `unmarshal` (fcause.rs:92-110). -/
def unmarshal (m : Mode) (b : Bytes) : R Err Fcause := do
  if 5 ≤ b.length then
    let length ← rd16 b 1
    let ins ← rd b 3
    if ← checkTliv m length b then
      let c ← rd b 4
      let cause_field ← sl b 5 (length.toNat + 4)
      return { t := 119, length, ins := ins &&& 0x0f, cause_type := .ofU8 (c &&& 0x0f),
               cause_field }
    else .err (.ieInvalidLength 119)
  else .err (.ieInvalidLength 119)

/-- `len` (fcause.rs:112-114). -/
def len (_m : Mode) (x : Fcause) : R Err Nat := ieLenU x.length

/-- Field values that the encoding of a `Fcause` can represent. -/
def WF (x : Fcause) : Prop :=
  x.t = 119 ∧
  x.length.toNat = x.cause_field.length + 1 ∧
  x.ins < 16 ∧
  x.length.toNat < 65532

instance (x : Fcause) : Decidable x.WF := by unfold WF; infer_instance

theorem rt : RoundTrips WF marshal unmarshal := by
  intro m x tail h
  obtain ⟨t, length, ins, cause_type, cause_field⟩ := x
  obtain ⟨ht, hl, hi, hbd⟩ := h
  simp only at ht hl hi hbd
  enc_simp [marshal, CauseType.toU8_and]
  rtv_simp [unmarshal, ht, hl, hi, hbd, CauseType.toU8_and]

theorem len_ok : LenOk WF marshal len := by
  intro m x h
  obtain ⟨t, length, ins, cause_type, cause_field⟩ := x
  obtain ⟨ht, hl, hi, hbd⟩ := h
  simp only at ht hl hi hbd
  enc_simp [marshal, CauseType.toU8_and]
  simp only [len, ieLenU]
  congr 1
  simp only [List.length_cons, List.length_append, List.length_nil, gtplen]
  try omega

theorem safe : ExactSafe unmarshal len := by
  intro m b hb hc
  unfold declLen at *
  safe_simp [unmarshal, len, Safe_checkTliv hb]
  safe_fin

end Fcause

/-- `CompleteRequestMessage` (completereqmessage.rs:24-29). -/
structure CompleteRequestMessage where
  t : UInt8
  length : UInt16
  ins : UInt8
  message : RequestMessage
deriving DecidableEq, Repr

namespace CompleteRequestMessage

/-- `marshal` (completereqmessage.rs:49-67). -/
def marshal (x : CompleteRequestMessage) : Bytes :=
  tliv 116 x.length x.ins (x.message.octets)

/-- `unmarshal` (completereqmessage.rs:69-97). -/
def unmarshal (m : Mode) (b : Bytes) : R Err CompleteRequestMessage := do
  if 5 ≤ b.length then
    let length ← rd16 b 1
    let ins ← rd b 3
    if ← checkTliv m length b then
      let c ← rd b 4
      if c = 0 then
        let s ← sl b 5 (length.toNat + 4)
        return { t := 116, length, ins := ins &&& 0x0f, message := .AttachRequest s }
      else if c = 1 then
        let s ← sl b 5 (length.toNat + 4)
        return { t := 116, length, ins := ins &&& 0x0f, message := .TauRequest s }
      else return { t := 116, length, ins := ins &&& 0x0f, message := .Spare }
    else .err (.ieInvalidLength 116)
  else .err (.ieInvalidLength 116)

/-- `len` (completereqmessage.rs:99-101). -/
def len (m : Mode) (x : CompleteRequestMessage) : R Err Nat := ieLen16 m x.length

/-- Field values that the encoding of a `CompleteRequestMessage` can represent. -/
def WF (x : CompleteRequestMessage) : Prop :=
  x.t = 116 ∧
  x.length.toNat = x.message.octets.length ∧
  x.ins < 16 ∧
  x.length.toNat < 65532

instance (x : CompleteRequestMessage) : Decidable x.WF := by unfold WF; infer_instance

theorem rt : RoundTrips WF marshal unmarshal := by
  intro m x tail h
  obtain ⟨t, length, ins, message⟩ := x
  obtain ⟨ht, hl, hi, hbd⟩ := h
  simp only at ht hl hi hbd
  cases message <;> simp only [RequestMessage.octets, List.length_append, List.length_cons, List.length_nil] at hl <;>
    enc_simp [marshal, RequestMessage.octets] <;> rtv_simp [unmarshal, ht, hi, hbd]

theorem len_ok : LenOk WF marshal len := by
  intro m x h
  obtain ⟨t, length, ins, message⟩ := x
  obtain ⟨ht, hl, hi, hbd⟩ := h
  simp only at ht hl hi hbd
  simp only [len]
  rw [ieLen16_ok (by omega)]
  enc_simp [marshal]
  congr 1
  simp only [List.length_cons, List.length_append, List.length_nil, gtplen]
  try omega

theorem safe : ExactSafe unmarshal len := by
  intro m b hb hc
  unfold declLen at *
  safe_simp [unmarshal, len, Safe_checkTliv hb, ieLen16_ok hb]
  safe_fin

end CompleteRequestMessage

end Gtp.V2
