import Verif.C1.IeBase

/-!
# TLV information elements of fixed size

Expanded by `scripts/gen_c1_ies.py`; the citations refer to
`/repo/src/gtpv1/gtpc/messages/ies`.
-/

namespace Gtp.C1
open Gtp.V1
open Gtp.U (len3)
open Gtp.V2 (declLen)

set_option linter.unusedSimpArgs false

/-- `enum Restriction` (apnrestriction.rs:13-19). -/
inductive Restriction where
  | noApnRestriction
  | public1
  | public2
  | private1
  | private2
deriving DecidableEq, Repr

namespace Restriction

/-- The code written (apnrestriction.rs). -/
def toU8 : Restriction → UInt8
  | .noApnRestriction => 0
  | .public1 => 1
  | .public2 => 2
  | .private1 => 3
  | .private2 => 4

/-- The value read from a code (apnrestriction.rs); `none` is `IEIncorrect`. -/
def ofU8? (i : UInt8) : Option Restriction :=
  if i = 0 then some .noApnRestriction
  else if i = 1 then some .public1
  else if i = 2 then some .public2
  else if i = 3 then some .private1
  else if i = 4 then some .private2
  else none

@[gtp] theorem ofU8_toU8 (v : Restriction) : ofU8? v.toU8 = some v := by cases v <;> rfl

end Restriction

/-- `ApnRestriction` (apnrestriction.rs:46-50); its `len` is 2, although 4 octets are written. -/
structure ApnRestriction where
  t : UInt8
  length : UInt16
  restriction_type : Restriction
deriving DecidableEq, Repr

namespace ApnRestriction

/-- `default` (apnrestriction.rs:53-59). -/
def dflt : ApnRestriction := ⟨149, 1, .noApnRestriction⟩

/-- `marshal` (apnrestriction.rs:63-70). -/
def marshal (x : ApnRestriction) : Bytes := tlv x.t x.length ([x.restriction_type.toU8])

/-- `unmarshal` (apnrestriction.rs:72-89). -/
def unmarshal (_m : Mode) (b : Bytes) : R Err ApnRestriction := do
  if 4 ≤ b.length then
    let length ← rd16 b 1
    let v ← rd b 3
    let restriction_type ← R.ofOption (Restriction.ofU8? v) .ieIncorrect
    return { t := 149, length, restriction_type }
  else .err .ieInvalidLength

/-- `len` (apnrestriction.rs:91-93). -/
def len (_m : Mode) (_x : ApnRestriction) : R Err Nat := .ok 2

/-- Field values that the encoding of `ApnRestriction` can represent. -/
def WF (x : ApnRestriction) : Prop :=
  x.t = 149 ∧
  x.length = 1

instance (x : ApnRestriction) : Decidable x.WF := by unfold WF; infer_instance

theorem rt : RoundTrips WF marshal unmarshal := by
  intro m x tail h
  obtain ⟨t, length, restriction_type⟩ := x
  obtain ⟨ht, hl⟩ := h
  simp only at ht hl
  subst ht hl
  all_goals enc_simp [marshal]
  all_goals rt_simp [unmarshal]

theorem size_eq {x : ApnRestriction} (h : x.WF) : x.marshal.length = 4 := by
  obtain ⟨t, length, restriction_type⟩ := x
  obtain ⟨ht, hl⟩ := h
  simp only at ht hl
  subst ht hl
  all_goals enc_simp [marshal]
  all_goals simp [gtp]

theorem safe : FixedSafe 2 unmarshal len := by
  intro m b
  safe_simp [unmarshal, len]
  safe_fin

theorem panics : PanicsIff Never unmarshal := safe.panics

end ApnRestriction

/-- `enum Rat` (rattype.rs:12-19). -/
inductive Rat where
  | utran
  | geran
  | wlan
  | gan
  | hspaevo
  | eutran
deriving DecidableEq, Repr

namespace Rat

/-- The code written (rattype.rs). -/
def toU8 : Rat → UInt8
  | .utran => 1
  | .geran => 2
  | .wlan => 3
  | .gan => 4
  | .hspaevo => 5
  | .eutran => 6

/-- The value read from a code (rattype.rs); `none` is `IEIncorrect`. -/
def ofU8? (i : UInt8) : Option Rat :=
  if i = 1 then some .utran
  else if i = 2 then some .geran
  else if i = 3 then some .wlan
  else if i = 4 then some .gan
  else if i = 5 then some .hspaevo
  else if i = 6 then some .eutran
  else none

@[gtp] theorem ofU8_toU8 (v : Rat) : ofU8? v.toU8 = some v := by cases v <;> rfl

end Rat

/-- `RatType` (rattype.rs:48-52). -/
structure RatType where
  t : UInt8
  length : UInt16
  rat_type : Rat
deriving DecidableEq, Repr

namespace RatType

/-- `default` (rattype.rs:55-61). -/
def dflt : RatType := ⟨151, 1, .geran⟩

/-- `marshal` (rattype.rs:65-72). -/
def marshal (x : RatType) : Bytes := tlv x.t x.length ([x.rat_type.toU8])

/-- `unmarshal` (rattype.rs:74-91). -/
def unmarshal (_m : Mode) (b : Bytes) : R Err RatType := do
  if 4 ≤ b.length then
    let length ← rd16 b 1
    let v ← rd b 3
    let rat_type ← R.ofOption (Rat.ofU8? v) .ieIncorrect
    return { t := 151, length, rat_type }
  else .err .ieInvalidLength

/-- `len` (rattype.rs:93-95). -/
def len (_m : Mode) (_x : RatType) : R Err Nat := .ok 4

/-- Field values that the encoding of `RatType` can represent. -/
def WF (x : RatType) : Prop :=
  x.t = 151 ∧
  x.length = 1

instance (x : RatType) : Decidable x.WF := by unfold WF; infer_instance

theorem rt : RoundTrips WF marshal unmarshal := by
  intro m x tail h
  obtain ⟨t, length, rat_type⟩ := x
  obtain ⟨ht, hl⟩ := h
  simp only at ht hl
  subst ht hl
  all_goals enc_simp [marshal]
  all_goals rt_simp [unmarshal]

theorem size_eq {x : RatType} (h : x.WF) : x.marshal.length = 4 := by
  obtain ⟨t, length, rat_type⟩ := x
  obtain ⟨ht, hl⟩ := h
  simp only at ht hl
  subst ht hl
  all_goals enc_simp [marshal]
  all_goals simp [gtp]

theorem len_ok : LenOk WF marshal len := by
  intro m x h
  rw [size_eq h]; rfl

theorem safe : FixedSafe 4 unmarshal len := by
  intro m b
  safe_simp [unmarshal, len]
  safe_fin

theorem panics : PanicsIff Never unmarshal := safe.panics

end RatType

/-- `enum Location` (uli.rs:13-17). -/
inductive Location where
  | ci (v : UInt16)
  | sac (v : UInt16)
  | rac (v : UInt8)
deriving DecidableEq, Repr

/-- `Uli` (uli.rs:21-29). -/
structure Uli where
  t : UInt8
  length : UInt16
  mcc : UInt16
  mnc : UInt16
  mnc_is_three_digits : Bool
  lac : UInt16
  loc : Location
deriving DecidableEq, Repr

namespace Uli

/-- The location type octet (uli.rs:52, 62, 72). -/
def locType : Location → UInt8
  | .ci _ => 0
  | .sac _ => 1
  | .rac _ => 2

/-- Octets 10 and 11 (uli.rs:59, 69, 79-80). -/
def locBody : Location → Bytes
  | .ci v => be16 v
  | .sac v => be16 v
  | .rac v => [v, 0xff]

/-- The location read for type octet `k` from the two octets `v`, the first of which is `w`
(uli.rs:103, 111, 119). -/
def locOf (k : UInt8) (v : UInt16) (w : UInt8) : Location :=
  if k = 0 then .ci v else if k = 1 then .sac v else .rac w

/-- `default` (uli.rs:32-42). -/
def dflt : Uli := ⟨152, 8, 0, 0, false, 0, .ci 0⟩

/-- `marshal` (uli.rs:46-85). -/
def marshal (x : Uli) : Bytes := tlv x.t x.length ([locType x.loc] ++ mccMncEncode x.mcc x.mnc x.mnc_is_three_digits ++ be16 x.lac ++ locBody x.loc)

/-- `unmarshal` (uli.rs:87-129). -/
def unmarshal (_m : Mode) (b : Bytes) : R Err Uli := do
  if 11 ≤ b.length then
    let length ← rd16 b 1
    let k ← rd b 3
    let k ← R.ofOption (if k ≤ 2 then some k else none) .ieIncorrect
    let s ← sl b 4 7
    let (mcc, mnc, mnc_is_three_digits) ← mccMncDecode s
    let lac ← rd16 b 7
    let v ← rd16 b 9
    let w ← rd b 9
    return { t := 152, length, mcc, mnc, mnc_is_three_digits, lac, loc := locOf k v w }
  else .err .ieInvalidLength

/-- `len` (uli.rs:131-133). -/
def len (_m : Mode) (_x : Uli) : R Err Nat := .ok 11

/-- Field values that the encoding of `Uli` can represent. -/
def WF (x : Uli) : Prop :=
  x.t = 152 ∧
  x.length = 8 ∧
  PlmnOk x.mcc x.mnc x.mnc_is_three_digits

instance (x : Uli) : Decidable x.WF := by unfold WF; infer_instance

theorem rt : RoundTrips WF marshal unmarshal := by
  intro m x tail h
  obtain ⟨t, length, mcc, mnc, mnc_is_three_digits, lac, loc⟩ := x
  obtain ⟨ht, hl, hp⟩ := h
  simp only at ht hl hp
  subst ht hl
  obtain ⟨p0, p1, p2, e1, e2⟩ := mccMnc_roundtrip3 hp
  cases loc
  all_goals enc_simp [marshal, locType, locBody, locOf, e1, e2, mccMncDecode]
  all_goals rt_simp [unmarshal, hp, locType, locBody, locOf, e1, e2, mccMncDecode]

theorem size_eq {x : Uli} (h : x.WF) : x.marshal.length = 11 := by
  obtain ⟨t, length, mcc, mnc, mnc_is_three_digits, lac, loc⟩ := x
  obtain ⟨ht, hl, hp⟩ := h
  simp only at ht hl hp
  subst ht hl
  obtain ⟨p0, p1, p2, e1, e2⟩ := mccMnc_roundtrip3 hp
  cases loc
  all_goals enc_simp [marshal, locType, locBody, locOf, e1, e2, mccMncDecode]
  all_goals simp [gtp]

theorem len_ok : LenOk WF marshal len := by
  intro m x h
  rw [size_eq h]; rfl

theorem safe : FixedSafe 11 unmarshal len := by
  intro m b
  safe_simp [unmarshal, len, mccMncDecode, List.length_drop, List.length_take]
  safe_fin

theorem panics : PanicsIff Never unmarshal := safe.panics

end Uli

/-- `MsTimeZone` (mstimezone.rs:13-18). -/
structure MsTimeZone where
  t : UInt8
  length : UInt16
  time_zone : Int8
  dst : UInt8
deriving DecidableEq, Repr

namespace MsTimeZone

/-- Octet 4 (mstimezone.rs:36-40); `unsigned_abs` of an `i8`. -/
def zoneOctet (z : Int8) : UInt8 :=
  if 0 ≤ z then UInt8.ofNat z.toInt.natAbs else (0x80 : UInt8) ||| UInt8.ofNat z.toInt.natAbs

/-- Time zone read from octet 4 (mstimezone.rs:55-59). -/
def zoneOf (v : UInt8) : Int8 :=
  if v >>> 7 = 0 then (v &&& 0x7f).toInt8 else if v >>> 7 = 1 then -(v &&& 0x7f).toInt8 else 0

theorem zone_dec {z : Int8} (h : z ≠ -128) : zoneOf (zoneOctet z) = z := by
  have key : ∀ n : UInt8, n.toInt8 ≠ -128 → zoneOf (zoneOctet n.toInt8) = n.toInt8 := by
    decide +kernel
  have := key z.toUInt8
  simp only [Int8.toInt8_toUInt8] at this
  exact this h

/-- `default` (mstimezone.rs:21-28). -/
def dflt : MsTimeZone := ⟨153, 2, 0, 0⟩

/-- `marshal` (mstimezone.rs:32-44). -/
def marshal (x : MsTimeZone) : Bytes := tlv x.t x.length ([zoneOctet x.time_zone, x.dst])

/-- `unmarshal` (mstimezone.rs:46-65). -/
def unmarshal (_m : Mode) (b : Bytes) : R Err MsTimeZone := do
  if 5 ≤ b.length then
    let length ← rd16 b 1
    let v ← rd b 3
    let d ← rd b 4
    return { t := 153, length, time_zone := zoneOf v, dst := d &&& 3 }
  else .err .ieInvalidLength

/-- `len` (mstimezone.rs:67-69). -/
def len (_m : Mode) (_x : MsTimeZone) : R Err Nat := .ok 5

/-- Field values that the encoding of `MsTimeZone` can represent. -/
def WF (x : MsTimeZone) : Prop :=
  x.t = 153 ∧
  x.length = 2 ∧
  x.time_zone ≠ -128 ∧
  x.dst < 4

instance (x : MsTimeZone) : Decidable x.WF := by unfold WF; infer_instance

theorem rt : RoundTrips WF marshal unmarshal := by
  intro m x tail h
  obtain ⟨t, length, time_zone, dst⟩ := x
  obtain ⟨ht, hl, hz, hd⟩ := h
  simp only at ht hl hz hd
  subst ht hl
  have hp := zone_dec hz
  all_goals enc_simp [marshal, hp]
  all_goals rt_simp [unmarshal, hz, hd, hp]

theorem size_eq {x : MsTimeZone} (h : x.WF) : x.marshal.length = 5 := by
  obtain ⟨t, length, time_zone, dst⟩ := x
  obtain ⟨ht, hl, hz, hd⟩ := h
  simp only at ht hl hz hd
  subst ht hl
  have hp := zone_dec hz
  all_goals enc_simp [marshal, hp]
  all_goals simp [gtp]

theorem len_ok : LenOk WF marshal len := by
  intro m x h
  rw [size_eq h]; rfl

theorem safe : FixedSafe 5 unmarshal len := by
  intro m b
  safe_simp [unmarshal, len]
  safe_fin

theorem panics : PanicsIff Never unmarshal := safe.panics

end MsTimeZone

/-- `Imei` (imei.rs:13-17). -/
structure Imei where
  t : UInt8
  length : UInt16
  imei : Str
deriving DecidableEq, Repr

namespace Imei

/-- `default` (imei.rs:20-26). -/
def dflt : Imei := ⟨154, 8, ['0']⟩

/-- `marshal` (imei.rs:30-37). -/
def marshal (x : Imei) : Bytes := tlv x.t x.length (tbcdEncode x.imei)

/-- `unmarshal` (imei.rs:39-53); the length field is not read. -/
def unmarshal (_m : Mode) (b : Bytes) : R Err Imei := do
  if 11 ≤ b.length then
    let s ← sl b 3 11
    return { t := 154, length := 8, imei := tbcdDecode s }
  else .err .ieInvalidLength

/-- `len` (imei.rs:55-57). -/
def len (_m : Mode) (_x : Imei) : R Err Nat := .ok 11

/-- Field values that the encoding of `Imei` can represent. -/
def WF (x : Imei) : Prop :=
  x.t = 154 ∧
  x.length = 8 ∧
  (∀ c ∈ x.imei, IsDigit c) ∧
  (x.imei.length + 1) / 2 = 8

instance (x : Imei) : Decidable x.WF := by unfold WF; infer_instance

theorem rt : RoundTrips WF marshal unmarshal := by
  intro m x tail h
  obtain ⟨t, length, imei⟩ := x
  obtain ⟨ht, hl, hd, hn⟩ := h
  simp only at ht hl hd hn
  subst ht hl
  have hb := tbcd_length _ hd
  have hr := tbcd_roundtrip _ hd
  rw [hn] at hb
  obtain ⟨s0, s1, s2, s3, s4, s5, s6, s7, he⟩ := exists_list8 hb
  rw [he] at hr
  all_goals enc_simp [marshal, he, hr]
  all_goals rt_simp [unmarshal, hd, hn, he, hr]

theorem size_eq {x : Imei} (h : x.WF) : x.marshal.length = 11 := by
  obtain ⟨t, length, imei⟩ := x
  obtain ⟨ht, hl, hd, hn⟩ := h
  simp only at ht hl hd hn
  subst ht hl
  have hb := tbcd_length _ hd
  have hr := tbcd_roundtrip _ hd
  rw [hn] at hb
  obtain ⟨s0, s1, s2, s3, s4, s5, s6, s7, he⟩ := exists_list8 hb
  rw [he] at hr
  all_goals enc_simp [marshal, he, hr]
  all_goals simp [gtp]

theorem len_ok : LenOk WF marshal len := by
  intro m x h
  rw [size_eq h]; rfl

theorem safe : FixedSafe 11 unmarshal len := by
  intro m b
  safe_simp [unmarshal, len]
  safe_fin

theorem panics : PanicsIff Never unmarshal := safe.panics

end Imei

/-- `AdditionalTraceInfo` (additionaltraceinfo.rs:13-22). -/
structure AdditionalTraceInfo where
  t : UInt8
  length : UInt16
  trace_ref : UInt32
  trace_rec_session_ref : UInt16
  triggering_events : UInt8
  trace_depth : UInt8
  interface_list : UInt8
  trace_activity_control : UInt8
deriving DecidableEq, Repr

namespace AdditionalTraceInfo

/-- `default` (additionaltraceinfo.rs:25-36). -/
def dflt : AdditionalTraceInfo := ⟨162, 9, 0, 0, 0, 0, 0, 0⟩

/-- `marshal` (additionaltraceinfo.rs:40-55). -/
def marshal (x : AdditionalTraceInfo) : Bytes := tlv x.t x.length (be24 x.trace_ref ++ be16 x.trace_rec_session_ref ++
    [x.triggering_events, x.trace_depth, x.interface_list, x.trace_activity_control])

/-- `unmarshal` (additionaltraceinfo.rs:57-76). -/
def unmarshal (_m : Mode) (b : Bytes) : R Err AdditionalTraceInfo := do
  if 12 ≤ b.length then
    let length ← rd16 b 1
    let trace_ref ← rd24 b 3
    let trace_rec_session_ref ← rd16 b 6
    let triggering_events ← rd b 8
    let trace_depth ← rd b 9
    let interface_list ← rd b 10
    let trace_activity_control ← rd b 11
    return { t := 162, length, trace_ref, trace_rec_session_ref, triggering_events, trace_depth,
             interface_list, trace_activity_control }
  else .err .ieInvalidLength

/-- `len` (additionaltraceinfo.rs:78-80). -/
def len (_m : Mode) (_x : AdditionalTraceInfo) : R Err Nat := .ok 12

/-- Field values that the encoding of `AdditionalTraceInfo` can represent. -/
def WF (x : AdditionalTraceInfo) : Prop :=
  x.t = 162 ∧
  x.length = 9 ∧
  x.trace_ref.toNat < 16777216

instance (x : AdditionalTraceInfo) : Decidable x.WF := by unfold WF; infer_instance

theorem rt : RoundTrips WF marshal unmarshal := by
  intro m x tail h
  obtain ⟨t, length, trace_ref, trace_rec_session_ref, triggering_events, trace_depth, interface_list, trace_activity_control⟩ := x
  obtain ⟨ht, hl, h24⟩ := h
  simp only at ht hl h24
  subst ht hl
  all_goals enc_simp [marshal, of24_be h24]
  all_goals rt_simp [unmarshal, h24, of24_be h24]

theorem size_eq {x : AdditionalTraceInfo} (h : x.WF) : x.marshal.length = 12 := by
  obtain ⟨t, length, trace_ref, trace_rec_session_ref, triggering_events, trace_depth, interface_list, trace_activity_control⟩ := x
  obtain ⟨ht, hl, h24⟩ := h
  simp only at ht hl h24
  subst ht hl
  all_goals enc_simp [marshal, of24_be h24]
  all_goals simp [gtp]

theorem len_ok : LenOk WF marshal len := by
  intro m x h
  rw [size_eq h]; rfl

theorem safe : FixedSafe 12 unmarshal len := by
  intro m b
  safe_simp [unmarshal, len]
  safe_fin

theorem panics : PanicsIff Never unmarshal := safe.panics

end AdditionalTraceInfo

/-- `MSInfoChangeReportingAction` (msinfochange.rs:13-17). -/
structure MSInfoChangeReportingAction where
  t : UInt8
  length : UInt16
  action : UInt8
deriving DecidableEq, Repr

namespace MSInfoChangeReportingAction

/-- `default` (msinfochange.rs:20-26). -/
def dflt : MSInfoChangeReportingAction := ⟨181, 1, 0⟩

/-- `marshal` (msinfochange.rs:30-37). -/
def marshal (x : MSInfoChangeReportingAction) : Bytes := tlv x.t x.length ([x.action])

/-- `unmarshal` (msinfochange.rs:39-53). -/
def unmarshal (_m : Mode) (b : Bytes) : R Err MSInfoChangeReportingAction := do
  if 4 ≤ b.length then
    let length ← rd16 b 1
    let v ← rd b 3
    let action ← R.ofOption (if v ≤ 2 then some v else none) .ieIncorrect
    return { t := 181, length, action }
  else .err .ieInvalidLength

/-- `len` (msinfochange.rs:55-57). -/
def len (_m : Mode) (_x : MSInfoChangeReportingAction) : R Err Nat := .ok 4

/-- Field values that the encoding of `MSInfoChangeReportingAction` can represent. -/
def WF (x : MSInfoChangeReportingAction) : Prop :=
  x.t = 181 ∧
  x.length = 1 ∧
  x.action ≤ 2

instance (x : MSInfoChangeReportingAction) : Decidable x.WF := by unfold WF; infer_instance

theorem rt : RoundTrips WF marshal unmarshal := by
  intro m x tail h
  obtain ⟨t, length, action⟩ := x
  obtain ⟨ht, hl, hv⟩ := h
  simp only at ht hl hv
  subst ht hl
  all_goals enc_simp [marshal]
  all_goals rt_simp [unmarshal, hv]

theorem size_eq {x : MSInfoChangeReportingAction} (h : x.WF) : x.marshal.length = 4 := by
  obtain ⟨t, length, action⟩ := x
  obtain ⟨ht, hl, hv⟩ := h
  simp only at ht hl hv
  subst ht hl
  all_goals enc_simp [marshal]
  all_goals simp [gtp]

theorem len_ok : LenOk WF marshal len := by
  intro m x h
  rw [size_eq h]; rfl

theorem safe : FixedSafe 4 unmarshal len := by
  intro m b
  safe_simp [unmarshal, len]
  safe_fin

theorem panics : PanicsIff Never unmarshal := safe.panics

end MSInfoChangeReportingAction

/-- `CorrelationId` (correlationid.rs:13-17). -/
structure CorrelationId where
  t : UInt8
  length : UInt16
  correlation_id : UInt8
deriving DecidableEq, Repr

namespace CorrelationId

/-- `default` (correlationid.rs:20-26). -/
def dflt : CorrelationId := ⟨183, 1, 0⟩

/-- `marshal` (correlationid.rs:30-37). -/
def marshal (x : CorrelationId) : Bytes := tlv x.t x.length ([x.correlation_id])

/-- `unmarshal` (correlationid.rs:39-53). -/
def unmarshal (_m : Mode) (b : Bytes) : R Err CorrelationId := do
  if 4 ≤ b.length then
    let length ← rd16 b 1
    let correlation_id ← rd b 3
    return { t := 183, length, correlation_id }
  else .err .ieInvalidLength

/-- `len` (correlationid.rs:55-57). -/
def len (_m : Mode) (_x : CorrelationId) : R Err Nat := .ok 4

/-- Field values that the encoding of `CorrelationId` can represent. -/
def WF (x : CorrelationId) : Prop :=
  x.t = 183 ∧
  x.length = 1

instance (x : CorrelationId) : Decidable x.WF := by unfold WF; infer_instance

theorem rt : RoundTrips WF marshal unmarshal := by
  intro m x tail h
  obtain ⟨t, length, correlation_id⟩ := x
  obtain ⟨ht, hl⟩ := h
  simp only at ht hl
  subst ht hl
  all_goals enc_simp [marshal]
  all_goals rt_simp [unmarshal]

theorem size_eq {x : CorrelationId} (h : x.WF) : x.marshal.length = 4 := by
  obtain ⟨t, length, correlation_id⟩ := x
  obtain ⟨ht, hl⟩ := h
  simp only at ht hl
  subst ht hl
  all_goals enc_simp [marshal]
  all_goals simp [gtp]

theorem len_ok : LenOk WF marshal len := by
  intro m x h
  rw [size_eq h]; rfl

theorem safe : FixedSafe 4 unmarshal len := by
  intro m b
  safe_simp [unmarshal, len]
  safe_fin

theorem panics : PanicsIff Never unmarshal := safe.panics

end CorrelationId

/-- `BearerControlMode` (bearercontrolmode.rs:13-17). -/
structure BearerControlMode where
  t : UInt8
  length : UInt16
  bearer_ctrl_mode : UInt8
deriving DecidableEq, Repr

namespace BearerControlMode

/-- `default` (bearercontrolmode.rs:20-26). -/
def dflt : BearerControlMode := ⟨184, 1, 0⟩

/-- `marshal` (bearercontrolmode.rs:30-37). -/
def marshal (x : BearerControlMode) : Bytes := tlv x.t x.length ([x.bearer_ctrl_mode])

/-- `unmarshal` (bearercontrolmode.rs:39-53). -/
def unmarshal (_m : Mode) (b : Bytes) : R Err BearerControlMode := do
  if 4 ≤ b.length then
    let length ← rd16 b 1
    let v ← rd b 3
    let bearer_ctrl_mode ← R.ofOption (if v ≤ 1 then some v else none) .ieIncorrect
    return { t := 184, length, bearer_ctrl_mode }
  else .err .ieInvalidLength

/-- `len` (bearercontrolmode.rs:55-57). -/
def len (_m : Mode) (_x : BearerControlMode) : R Err Nat := .ok 4

/-- Field values that the encoding of `BearerControlMode` can represent. -/
def WF (x : BearerControlMode) : Prop :=
  x.t = 184 ∧
  x.length = 1 ∧
  x.bearer_ctrl_mode ≤ 1

instance (x : BearerControlMode) : Decidable x.WF := by unfold WF; infer_instance

theorem rt : RoundTrips WF marshal unmarshal := by
  intro m x tail h
  obtain ⟨t, length, bearer_ctrl_mode⟩ := x
  obtain ⟨ht, hl, hv⟩ := h
  simp only at ht hl hv
  subst ht hl
  all_goals enc_simp [marshal]
  all_goals rt_simp [unmarshal, hv]

theorem size_eq {x : BearerControlMode} (h : x.WF) : x.marshal.length = 4 := by
  obtain ⟨t, length, bearer_ctrl_mode⟩ := x
  obtain ⟨ht, hl, hv⟩ := h
  simp only at ht hl hv
  subst ht hl
  all_goals enc_simp [marshal]
  all_goals simp [gtp]

theorem len_ok : LenOk WF marshal len := by
  intro m x h
  rw [size_eq h]; rfl

theorem safe : FixedSafe 4 unmarshal len := by
  intro m b
  safe_simp [unmarshal, len]
  safe_fin

theorem panics : PanicsIff Never unmarshal := safe.panics

end BearerControlMode

/-- `EvolvedAllocationRetentionI` (evolvedallocretentioni.rs:13-19). -/
structure EvolvedAllocationRetentionI where
  t : UInt8
  length : UInt16
  pre_emption_vulnerability : UInt8
  priority_level : UInt8
  pre_emption_capability : UInt8
deriving DecidableEq, Repr

namespace EvolvedAllocationRetentionI

/-- evolvedallocretentioni.rs:39-41. -/
def octet (c p v : UInt8) : UInt8 := (c <<< 6) ||| (p <<< 2) ||| v

theorem octet_dec {c p v : UInt8} (hc : c < 2) (hp : p < 16) (hv : v < 2) :
    octet c p v &&& 1 = v ∧ (octet c p v >>> 2) &&& 0x0f = p ∧ (octet c p v >>> 6) &&& 1 = c := by
  have c2 : ∀ x : UInt8, x < 2 → x = 0 ∨ x = 1 := by decide +kernel
  rcases c2 c hc with rfl | rfl <;> rcases c2 v hv with rfl | rfl <;> revert p <;> decide +kernel

/-- `default` (evolvedallocretentioni.rs:22-30). -/
def dflt : EvolvedAllocationRetentionI := ⟨191, 1, 0, 0, 0⟩

/-- `marshal` (evolvedallocretentioni.rs:34-45). -/
def marshal (x : EvolvedAllocationRetentionI) : Bytes := tlv x.t x.length ([octet x.pre_emption_capability x.priority_level x.pre_emption_vulnerability])

/-- `unmarshal` (evolvedallocretentioni.rs:47-63). -/
def unmarshal (_m : Mode) (b : Bytes) : R Err EvolvedAllocationRetentionI := do
  if 4 ≤ b.length then
    let length ← rd16 b 1
    let v ← rd b 3
    return { t := 191, length, pre_emption_vulnerability := v &&& 1, priority_level := (v >>> 2) &&& 0x0f,
             pre_emption_capability := (v >>> 6) &&& 1 }
  else .err .ieInvalidLength

/-- `len` (evolvedallocretentioni.rs:65-67). -/
def len (_m : Mode) (_x : EvolvedAllocationRetentionI) : R Err Nat := .ok 4

/-- Field values that the encoding of `EvolvedAllocationRetentionI` can represent. -/
def WF (x : EvolvedAllocationRetentionI) : Prop :=
  x.t = 191 ∧
  x.length = 1 ∧
  x.pre_emption_vulnerability < 2 ∧
  x.priority_level < 16 ∧
  x.pre_emption_capability < 2

instance (x : EvolvedAllocationRetentionI) : Decidable x.WF := by unfold WF; infer_instance

theorem rt : RoundTrips WF marshal unmarshal := by
  intro m x tail h
  obtain ⟨t, length, pre_emption_vulnerability, priority_level, pre_emption_capability⟩ := x
  obtain ⟨ht, hl, hv, hp, hc⟩ := h
  simp only at ht hl hv hp hc
  subst ht hl
  have hm := octet_dec hc hp hv
  all_goals enc_simp [marshal, hm]
  all_goals rt_simp [unmarshal, hv, hp, hc, hm]

theorem size_eq {x : EvolvedAllocationRetentionI} (h : x.WF) : x.marshal.length = 4 := by
  obtain ⟨t, length, pre_emption_vulnerability, priority_level, pre_emption_capability⟩ := x
  obtain ⟨ht, hl, hv, hp, hc⟩ := h
  simp only at ht hl hv hp hc
  subst ht hl
  have hm := octet_dec hc hp hv
  all_goals enc_simp [marshal, hm]
  all_goals simp [gtp]

theorem len_ok : LenOk WF marshal len := by
  intro m x h
  rw [size_eq h]; rfl

theorem safe : FixedSafe 4 unmarshal len := by
  intro m b
  safe_simp [unmarshal, len]
  safe_fin

theorem panics : PanicsIff Never unmarshal := safe.panics

end EvolvedAllocationRetentionI

/-- `enum AccessMode` (uci.rs:13-17). -/
inductive AccessMode where
  | closedMode
  | hybridMode
  | reserved
deriving DecidableEq, Repr

/-- `enum Cmi` (uci.rs:22-25). -/
inductive Cmi where
  | csgMembership
  | nonCsgMembership
deriving DecidableEq, Repr

/-- `Uci` (uci.rs:30-39). -/
structure Uci where
  t : UInt8
  length : UInt16
  mcc : UInt16
  mnc : UInt16
  mnc_is_three_digits : Bool
  csgid : UInt32
  access_mode : AccessMode
  cmi : Cmi
deriving DecidableEq, Repr

namespace Uci

/-- The last octet (uci.rs:67-74). -/
def modes : AccessMode → Cmi → UInt8
  | .closedMode, .csgMembership => 0x00
  | .closedMode, .nonCsgMembership => 0x01
  | .hybridMode, .csgMembership => 0x40
  | .hybridMode, .nonCsgMembership => 0x41
  | .reserved, .csgMembership => 0x80
  | .reserved, .nonCsgMembership => 0x81

/-- uci.rs:93-97. -/
def modeOf (v : UInt8) : AccessMode :=
  if (v &&& 0xc0) >>> 6 = 0 then .closedMode else if (v &&& 0xc0) >>> 6 = 1 then .hybridMode else .reserved

/-- uci.rs:98-102; the catch-all (keep the default) is not reachable. -/
def cmiOf (v : UInt8) : Cmi := if v &&& 1 = 1 then .nonCsgMembership else .csgMembership

theorem modes_dec (a : AccessMode) (c : Cmi) : modeOf (modes a c) = a ∧ cmiOf (modes a c) = c := by
  cases a <;> cases c <;> decide

theorem and27 {x : UInt32} (h : x.toNat < 2 ^ 27) : x &&& 0x07ffffff = x := by
  apply UInt32.toNat_inj.mp
  have : (0x07ffffff : UInt32).toNat = 2 ^ 27 - 1 := rfl
  rw [UInt32.toNat_and, this, Nat.and_two_pow_sub_one_eq_mod, Nat.mod_eq_of_lt h]

/-- `default` (uci.rs:42-53). -/
def dflt : Uci := ⟨194, 8, 0, 0, false, 0, .closedMode, .csgMembership⟩

/-- `marshal` (uci.rs:57-77). -/
def marshal (x : Uci) : Bytes := tlv x.t x.length (mccMncEncode x.mcc x.mnc x.mnc_is_three_digits ++ be32 (x.csgid &&& 0x07ffffff) ++ [modes x.access_mode x.cmi])

/-- `unmarshal` (uci.rs:79-107). -/
def unmarshal (_m : Mode) (b : Bytes) : R Err Uci := do
  if 11 ≤ b.length then
    let length ← rd16 b 1
    let s ← sl b 3 6
    let (mcc, mnc, mnc_is_three_digits) ← mccMncDecode s
    let csgid ← rd32 b 6
    let v ← rd b 10
    return { t := 194, length, mcc, mnc, mnc_is_three_digits, csgid,
             access_mode := modeOf v, cmi := cmiOf v }
  else .err .ieInvalidLength

/-- `len` (uci.rs:109-111). -/
def len (_m : Mode) (_x : Uci) : R Err Nat := .ok 11

/-- Field values that the encoding of `Uci` can represent. -/
def WF (x : Uci) : Prop :=
  x.t = 194 ∧
  x.length = 8 ∧
  PlmnOk x.mcc x.mnc x.mnc_is_three_digits ∧
  x.csgid.toNat < 2 ^ 27

instance (x : Uci) : Decidable x.WF := by unfold WF; infer_instance

theorem rt : RoundTrips WF marshal unmarshal := by
  intro m x tail h
  obtain ⟨t, length, mcc, mnc, mnc_is_three_digits, csgid, access_mode, cmi⟩ := x
  obtain ⟨ht, hl, hp, hc⟩ := h
  simp only at ht hl hp hc
  subst ht hl
  obtain ⟨p0, p1, p2, e1, e2⟩ := mccMnc_roundtrip3 hp
  have hm := modes_dec access_mode cmi
  have h27 := and27 hc
  all_goals enc_simp [marshal, e1, e2, mccMncDecode, hm, h27]
  all_goals rt_simp [unmarshal, hp, hc, e1, e2, mccMncDecode, hm, h27]

theorem size_eq {x : Uci} (h : x.WF) : x.marshal.length = 11 := by
  obtain ⟨t, length, mcc, mnc, mnc_is_three_digits, csgid, access_mode, cmi⟩ := x
  obtain ⟨ht, hl, hp, hc⟩ := h
  simp only at ht hl hp hc
  subst ht hl
  obtain ⟨p0, p1, p2, e1, e2⟩ := mccMnc_roundtrip3 hp
  have hm := modes_dec access_mode cmi
  have h27 := and27 hc
  all_goals enc_simp [marshal, e1, e2, mccMncDecode, hm, h27]
  all_goals simp [gtp]

theorem len_ok : LenOk WF marshal len := by
  intro m x h
  rw [size_eq h]; rfl

theorem safe : FixedSafe 11 unmarshal len := by
  intro m b
  safe_simp [unmarshal, len, mccMncDecode, List.length_drop, List.length_take]
  safe_fin

theorem panics : PanicsIff Never unmarshal := safe.panics

end Uci

/-- `ApnAmbr` (apnambr.rs:13-18). -/
structure ApnAmbr where
  t : UInt8
  length : UInt16
  ambr_ul : UInt32
  ambr_dl : UInt32
deriving DecidableEq, Repr

namespace ApnAmbr

/-- `default` (apnambr.rs:21-28). -/
def dflt : ApnAmbr := ⟨198, 8, 0, 0⟩

/-- `marshal` (apnambr.rs:32-40). -/
def marshal (x : ApnAmbr) : Bytes := tlv x.t x.length (be32 x.ambr_ul ++ be32 x.ambr_dl)

/-- `unmarshal` (apnambr.rs:42-57). -/
def unmarshal (_m : Mode) (b : Bytes) : R Err ApnAmbr := do
  if 11 ≤ b.length then
    let length ← rd16 b 1
    let ambr_ul ← rd32 b 3
    let ambr_dl ← rd32 b 7
    return { t := 198, length, ambr_ul, ambr_dl }
  else .err .ieInvalidLength

/-- `len` (apnambr.rs:59-61). -/
def len (_m : Mode) (_x : ApnAmbr) : R Err Nat := .ok 11

/-- Field values that the encoding of `ApnAmbr` can represent. -/
def WF (x : ApnAmbr) : Prop :=
  x.t = 198 ∧
  x.length = 8

instance (x : ApnAmbr) : Decidable x.WF := by unfold WF; infer_instance

theorem rt : RoundTrips WF marshal unmarshal := by
  intro m x tail h
  obtain ⟨t, length, ambr_ul, ambr_dl⟩ := x
  obtain ⟨ht, hl⟩ := h
  simp only at ht hl
  subst ht hl
  all_goals enc_simp [marshal]
  all_goals rt_simp [unmarshal]

theorem size_eq {x : ApnAmbr} (h : x.WF) : x.marshal.length = 11 := by
  obtain ⟨t, length, ambr_ul, ambr_dl⟩ := x
  obtain ⟨ht, hl⟩ := h
  simp only at ht hl
  subst ht hl
  all_goals enc_simp [marshal]
  all_goals simp [gtp]

theorem len_ok : LenOk WF marshal len := by
  intro m x h
  rw [size_eq h]; rfl

theorem safe : FixedSafe 11 unmarshal len := by
  intro m b
  safe_simp [unmarshal, len]
  safe_fin

theorem panics : PanicsIff Never unmarshal := safe.panics

end ApnAmbr

/-- `Spi` (spi.rs:13-17). -/
structure Spi where
  t : UInt8
  length : UInt16
  lapi : Bool
deriving DecidableEq, Repr

namespace Spi

/-- spi.rs:49-53. -/
def ofU8? (v : UInt8) : Option Bool := if v = 0 then some false else if v = 1 then some true else none

/-- `default` (spi.rs:20-26). -/
def dflt : Spi := ⟨203, 1, false⟩

/-- `marshal` (spi.rs:30-40). -/
def marshal (x : Spi) : Bytes := tlv x.t x.length ([if x.lapi then 1 else 0])

/-- `unmarshal` (spi.rs:42-60). -/
def unmarshal (_m : Mode) (b : Bytes) : R Err Spi := do
  if 4 ≤ b.length then
    let length ← rd16 b 1
    let v ← rd b 3
    let lapi ← R.ofOption (ofU8? v) .ieIncorrect
    return { t := 203, length, lapi }
  else .err .ieInvalidLength

/-- `len` (spi.rs:62-64). -/
def len (_m : Mode) (_x : Spi) : R Err Nat := .ok 4

/-- Field values that the encoding of `Spi` can represent. -/
def WF (x : Spi) : Prop :=
  x.t = 203 ∧
  x.length = 1

instance (x : Spi) : Decidable x.WF := by unfold WF; infer_instance

theorem rt : RoundTrips WF marshal unmarshal := by
  intro m x tail h
  obtain ⟨t, length, lapi⟩ := x
  obtain ⟨ht, hl⟩ := h
  simp only at ht hl
  subst ht hl
  cases lapi
  all_goals enc_simp [marshal, ofU8?]
  all_goals rt_simp [unmarshal, ofU8?]

theorem size_eq {x : Spi} (h : x.WF) : x.marshal.length = 4 := by
  obtain ⟨t, length, lapi⟩ := x
  obtain ⟨ht, hl⟩ := h
  simp only at ht hl
  subst ht hl
  cases lapi
  all_goals enc_simp [marshal, ofU8?]
  all_goals simp [gtp]

theorem len_ok : LenOk WF marshal len := by
  intro m x h
  rw [size_eq h]; rfl

theorem safe : FixedSafe 4 unmarshal len := by
  intro m b
  safe_simp [unmarshal, len]
  safe_fin

theorem panics : PanicsIff Never unmarshal := safe.panics

end Spi

/-- `UliTimestamp` (ulitimestamp.rs:13-17). -/
structure UliTimestamp where
  t : UInt8
  length : UInt16
  timestamp : UInt32
deriving DecidableEq, Repr

namespace UliTimestamp

/-- `default` (ulitimestamp.rs:20-26). -/
def dflt : UliTimestamp := ⟨214, 4, 0⟩

/-- `marshal` (ulitimestamp.rs:30-37). -/
def marshal (x : UliTimestamp) : Bytes := tlv x.t x.length (be32 x.timestamp)

/-- `unmarshal` (ulitimestamp.rs:39-50). -/
def unmarshal (_m : Mode) (b : Bytes) : R Err UliTimestamp := do
  if 7 ≤ b.length then
    let length ← rd16 b 1
    let timestamp ← rd32 b 3
    return { t := 214, length, timestamp }
  else .err .ieInvalidLength

/-- `len` (ulitimestamp.rs:52-54). -/
def len (_m : Mode) (_x : UliTimestamp) : R Err Nat := .ok 7

/-- Field values that the encoding of `UliTimestamp` can represent. -/
def WF (x : UliTimestamp) : Prop :=
  x.t = 214 ∧
  x.length = 4

instance (x : UliTimestamp) : Decidable x.WF := by unfold WF; infer_instance

theorem rt : RoundTrips WF marshal unmarshal := by
  intro m x tail h
  obtain ⟨t, length, timestamp⟩ := x
  obtain ⟨ht, hl⟩ := h
  simp only at ht hl
  subst ht hl
  all_goals enc_simp [marshal]
  all_goals rt_simp [unmarshal]

theorem size_eq {x : UliTimestamp} (h : x.WF) : x.marshal.length = 7 := by
  obtain ⟨t, length, timestamp⟩ := x
  obtain ⟨ht, hl⟩ := h
  simp only at ht hl
  subst ht hl
  all_goals enc_simp [marshal]
  all_goals simp [gtp]

theorem len_ok : LenOk WF marshal len := by
  intro m x h
  rw [size_eq h]; rfl

theorem safe : FixedSafe 7 unmarshal len := by
  intro m b
  safe_simp [unmarshal, len]
  safe_fin

theorem panics : PanicsIff Never unmarshal := safe.panics

end UliTimestamp

/-- `enum SelectMode` (cnose.rs:21-24). -/
inductive SelectMode where
  | servingNetworkSelectedbyUE
  | servingNetworkSelectedbyNetwork
deriving DecidableEq, Repr

namespace SelectMode

/-- The code written (cnose.rs). -/
def toU8 : SelectMode → UInt8
  | .servingNetworkSelectedbyUE => 0
  | .servingNetworkSelectedbyNetwork => 1

/-- The value read from a code (cnose.rs); `none` is `IEIncorrect`. -/
def ofU8? (i : UInt8) : Option SelectMode :=
  if i = 0 then some .servingNetworkSelectedbyUE
  else if i = 1 ∨ i = 2 ∨ i = 3 then some .servingNetworkSelectedbyNetwork
  else none

@[gtp] theorem ofU8_toU8 (v : SelectMode) : ofU8? v.toU8 = some v := by cases v <;> rfl

end SelectMode

/-- `CnOperatorSelectionEntity` (cnose.rs:13-17). -/
structure CnOperatorSelectionEntity where
  t : UInt8
  length : UInt16
  selection_entity : SelectMode
deriving DecidableEq, Repr

namespace CnOperatorSelectionEntity

/-- `default` (cnose.rs:27-33). -/
def dflt : CnOperatorSelectionEntity := ⟨216, 1, .servingNetworkSelectedbyUE⟩

/-- `marshal` (cnose.rs:37-47). -/
def marshal (x : CnOperatorSelectionEntity) : Bytes := tlv x.t x.length ([x.selection_entity.toU8])

/-- `unmarshal` (cnose.rs:49-70). -/
def unmarshal (_m : Mode) (b : Bytes) : R Err CnOperatorSelectionEntity := do
  if 4 ≤ b.length then
    let length ← rd16 b 1
    let v ← rd b 3
    let selection_entity ← R.ofOption (SelectMode.ofU8? v) .ieIncorrect
    return { t := 216, length, selection_entity }
  else .err .ieInvalidLength

/-- `len` (cnose.rs:72-74). -/
def len (_m : Mode) (_x : CnOperatorSelectionEntity) : R Err Nat := .ok 4

/-- Field values that the encoding of `CnOperatorSelectionEntity` can represent. -/
def WF (x : CnOperatorSelectionEntity) : Prop :=
  x.t = 216 ∧
  x.length = 1

instance (x : CnOperatorSelectionEntity) : Decidable x.WF := by unfold WF; infer_instance

theorem rt : RoundTrips WF marshal unmarshal := by
  intro m x tail h
  obtain ⟨t, length, selection_entity⟩ := x
  obtain ⟨ht, hl⟩ := h
  simp only at ht hl
  subst ht hl
  all_goals enc_simp [marshal]
  all_goals rt_simp [unmarshal]

theorem size_eq {x : CnOperatorSelectionEntity} (h : x.WF) : x.marshal.length = 4 := by
  obtain ⟨t, length, selection_entity⟩ := x
  obtain ⟨ht, hl⟩ := h
  simp only at ht hl
  subst ht hl
  all_goals enc_simp [marshal]
  all_goals simp [gtp]

theorem len_ok : LenOk WF marshal len := by
  intro m x h
  rw [size_eq h]; rfl

theorem safe : FixedSafe 4 unmarshal len := by
  intro m b
  safe_simp [unmarshal, len]
  safe_fin

theorem panics : PanicsIff Never unmarshal := safe.panics

end CnOperatorSelectionEntity

/-- `MappedUeUsageType` (mueut.rs:13-17). -/
structure MappedUeUsageType where
  t : UInt8
  length : UInt16
  usage_type : UInt16
deriving DecidableEq, Repr

namespace MappedUeUsageType

/-- `default` (mueut.rs:20-26). -/
def dflt : MappedUeUsageType := ⟨223, 2, 0⟩

/-- `marshal` (mueut.rs:30-37). -/
def marshal (x : MappedUeUsageType) : Bytes := tlv x.t x.length (be16 x.usage_type)

/-- `unmarshal` (mueut.rs:39-53). -/
def unmarshal (_m : Mode) (b : Bytes) : R Err MappedUeUsageType := do
  if 5 ≤ b.length then
    let length ← rd16 b 1
    let usage_type ← rd16 b 3
    return { t := 223, length, usage_type }
  else .err .ieInvalidLength

/-- `len` (mueut.rs:55-57). -/
def len (_m : Mode) (_x : MappedUeUsageType) : R Err Nat := .ok 5

/-- Field values that the encoding of `MappedUeUsageType` can represent. -/
def WF (x : MappedUeUsageType) : Prop :=
  x.t = 223 ∧
  x.length = 2

instance (x : MappedUeUsageType) : Decidable x.WF := by unfold WF; infer_instance

theorem rt : RoundTrips WF marshal unmarshal := by
  intro m x tail h
  obtain ⟨t, length, usage_type⟩ := x
  obtain ⟨ht, hl⟩ := h
  simp only at ht hl
  subst ht hl
  all_goals enc_simp [marshal]
  all_goals rt_simp [unmarshal]

theorem size_eq {x : MappedUeUsageType} (h : x.WF) : x.marshal.length = 5 := by
  obtain ⟨t, length, usage_type⟩ := x
  obtain ⟨ht, hl⟩ := h
  simp only at ht hl
  subst ht hl
  all_goals enc_simp [marshal]
  all_goals simp [gtp]

theorem len_ok : LenOk WF marshal len := by
  intro m x h
  rw [size_eq h]; rfl

theorem safe : FixedSafe 5 unmarshal len := by
  intro m b
  safe_simp [unmarshal, len]
  safe_fin

theorem panics : PanicsIff Never unmarshal := safe.panics

end MappedUeUsageType

/-- `UpFunctionSelectionIndicationFlags` (upfsif.rs:13-17). -/
structure UpFunctionSelectionIndicationFlags where
  t : UInt8
  length : UInt16
  dcnr : Bool
deriving DecidableEq, Repr

namespace UpFunctionSelectionIndicationFlags

/-- upfsif.rs:49-53. -/
def ofU8? (v : UInt8) : Option Bool := if v = 0 then some false else if v = 1 then some true else none

/-- `default` (upfsif.rs:20-26). -/
def dflt : UpFunctionSelectionIndicationFlags := ⟨224, 1, false⟩

/-- `marshal` (upfsif.rs:30-40). -/
def marshal (x : UpFunctionSelectionIndicationFlags) : Bytes := tlv x.t x.length ([if x.dcnr then 1 else 0])

/-- `unmarshal` (upfsif.rs:42-60). -/
def unmarshal (_m : Mode) (b : Bytes) : R Err UpFunctionSelectionIndicationFlags := do
  if 4 ≤ b.length then
    let length ← rd16 b 1
    let v ← rd b 3
    let dcnr ← R.ofOption (ofU8? v) .ieIncorrect
    return { t := 224, length, dcnr }
  else .err .ieInvalidLength

/-- `len` (upfsif.rs:62-64). -/
def len (_m : Mode) (_x : UpFunctionSelectionIndicationFlags) : R Err Nat := .ok 4

/-- Field values that the encoding of `UpFunctionSelectionIndicationFlags` can represent. -/
def WF (x : UpFunctionSelectionIndicationFlags) : Prop :=
  x.t = 224 ∧
  x.length = 1

instance (x : UpFunctionSelectionIndicationFlags) : Decidable x.WF := by unfold WF; infer_instance

theorem rt : RoundTrips WF marshal unmarshal := by
  intro m x tail h
  obtain ⟨t, length, dcnr⟩ := x
  obtain ⟨ht, hl⟩ := h
  simp only at ht hl
  subst ht hl
  cases dcnr
  all_goals enc_simp [marshal, ofU8?]
  all_goals rt_simp [unmarshal, ofU8?]

theorem size_eq {x : UpFunctionSelectionIndicationFlags} (h : x.WF) : x.marshal.length = 4 := by
  obtain ⟨t, length, dcnr⟩ := x
  obtain ⟨ht, hl⟩ := h
  simp only at ht hl
  subst ht hl
  cases dcnr
  all_goals enc_simp [marshal, ofU8?]
  all_goals simp [gtp]

theorem len_ok : LenOk WF marshal len := by
  intro m x h
  rw [size_eq h]; rfl

theorem safe : FixedSafe 4 unmarshal len := by
  intro m b
  safe_simp [unmarshal, len]
  safe_fin

theorem panics : PanicsIff Never unmarshal := safe.panics

end UpFunctionSelectionIndicationFlags

end Gtp.C1
