import Verif.C1.IeBase

/-!
# TLV information elements of one octet whose `len` uses the declared length

Expanded by `scripts/gen_c1_ies.py`; the citations refer to
`/repo/src/gtpv1/gtpc/messages/ies`.
-/

namespace Gtp.C1
open Gtp.V1
open Gtp.U (len3)
open Gtp.V2 (declLen)

set_option linter.unusedSimpArgs false

/-- `[f0, .., f7].iter().map(|x| if *x {1} else {0}).enumerate().map(|(i, x)| x << (7 - i)).sum()`
(commonflags.rs:48-57, extendedcommonflags.rs:48-57); the sum of distinct powers of two never overflows. -/
def flagOctet (f0 f1 f2 f3 f4 f5 f6 f7 : Bool) : UInt8 :=
  (b2u f0 <<< 7) + (b2u f1 <<< 6) + (b2u f2 <<< 5) + (b2u f3 <<< 4) +
  (b2u f4 <<< 3) + (b2u f5 <<< 2) + (b2u f6 <<< 1) + b2u f7

/-- `(v & (0b10000000 >> i)) >> (7 - i) == 1` (commonflags.rs:72-77, extendedcommonflags.rs:72-77). -/
def flagAt (v i : UInt8) : Bool := (v &&& ((0x80 : UInt8) >>> i)) >>> (7 - i) == 1

theorem flagAt_octet (f0 f1 f2 f3 f4 f5 f6 f7 : Bool) :
    flagAt (flagOctet f0 f1 f2 f3 f4 f5 f6 f7) 0 = f0 ∧ flagAt (flagOctet f0 f1 f2 f3 f4 f5 f6 f7) 1 = f1 ∧
    flagAt (flagOctet f0 f1 f2 f3 f4 f5 f6 f7) 2 = f2 ∧ flagAt (flagOctet f0 f1 f2 f3 f4 f5 f6 f7) 3 = f3 ∧
    flagAt (flagOctet f0 f1 f2 f3 f4 f5 f6 f7) 4 = f4 ∧ flagAt (flagOctet f0 f1 f2 f3 f4 f5 f6 f7) 5 = f5 ∧
    flagAt (flagOctet f0 f1 f2 f3 f4 f5 f6 f7) 6 = f6 ∧ flagAt (flagOctet f0 f1 f2 f3 f4 f5 f6 f7) 7 = f7 := by
  revert f0 f1 f2 f3 f4 f5 f6 f7; decide +kernel

/-- `CommonFlags` (commonflags.rs:13-24). -/
structure CommonFlags where
  t : UInt8
  length : UInt16
  dual_addr_bearer : Bool
  upgrade_qos_support : Bool
  nrsn : Bool
  no_qos_negotiation : Bool
  mbms_counting_info : Bool
  ran_procedures_ready : Bool
  mbms_service_type : Bool
  prohibit_payload_compr : Bool
deriving DecidableEq, Repr

namespace CommonFlags

/-- `default` (commonflags.rs:27-40). -/
def dflt : CommonFlags := ⟨148, 1, false, false, false, false, false, false, false, false⟩

/-- `marshal` (commonflags.rs:44-61). -/
def marshal (x : CommonFlags) : Bytes := tlv x.t x.length ([flagOctet x.dual_addr_bearer x.upgrade_qos_support x.nrsn x.no_qos_negotiation
    x.mbms_counting_info x.ran_procedures_ready x.mbms_service_type x.prohibit_payload_compr])

/-- `unmarshal` (commonflags.rs:63-90). -/
def unmarshal (_m : Mode) (b : Bytes) : R Err CommonFlags := do
  if 4 ≤ b.length then
    let length ← rd16 b 1
    let v ← rd b 3
    return { t := 148, length, dual_addr_bearer := flagAt v 0,
             upgrade_qos_support := flagAt v 1,
             nrsn := flagAt v 2,
             no_qos_negotiation := flagAt v 3,
             mbms_counting_info := flagAt v 4,
             ran_procedures_ready := flagAt v 5,
             mbms_service_type := flagAt v 6,
             prohibit_payload_compr := flagAt v 7 }
  else .err .ieInvalidLength

/-- `len` (commonflags.rs:92-94). -/
def len (m : Mode) (x : CommonFlags) : R Err Nat := len3 m x.length

/-- Field values that the encoding of `CommonFlags` can represent. -/
def WF (x : CommonFlags) : Prop :=
  x.t = 148 ∧
  x.length = 1

instance (x : CommonFlags) : Decidable x.WF := by unfold WF; infer_instance

theorem rt : RoundTrips WF marshal unmarshal := by
  intro m x tail h
  obtain ⟨t, length, dual_addr_bearer, upgrade_qos_support, nrsn, no_qos_negotiation, mbms_counting_info, ran_procedures_ready, mbms_service_type, prohibit_payload_compr⟩ := x
  obtain ⟨ht, hl⟩ := h
  simp only at ht hl
  subst ht hl
  have hf := flagAt_octet dual_addr_bearer upgrade_qos_support nrsn no_qos_negotiation mbms_counting_info ran_procedures_ready mbms_service_type prohibit_payload_compr
  all_goals enc_simp [marshal, hf]
  all_goals rt_simp [unmarshal, hf]

theorem size_eq {x : CommonFlags} (h : x.WF) : x.marshal.length = 4 := by
  obtain ⟨t, length, dual_addr_bearer, upgrade_qos_support, nrsn, no_qos_negotiation, mbms_counting_info, ran_procedures_ready, mbms_service_type, prohibit_payload_compr⟩ := x
  obtain ⟨ht, hl⟩ := h
  simp only at ht hl
  subst ht hl
  have hf := flagAt_octet dual_addr_bearer upgrade_qos_support nrsn no_qos_negotiation mbms_counting_info ran_procedures_ready mbms_service_type prohibit_payload_compr
  all_goals enc_simp [marshal, hf]
  all_goals simp [gtp]

theorem len_ok : LenOk WF marshal len := by
  intro m x h
  rw [size_eq h, len, h.2]; exact len3_ok (by decide)

theorem safe (m : Mode) (b : Bytes) : (unmarshal m b).Safe fun x => x.length = declLen b ∧ 4 ≤ b.length := by
  safe_simp [unmarshal, declLen]
  safe_fin

theorem panics : PanicsIff Never unmarshal := fun m b =>
  have h := Safe.noPanic (safe m b)
  ⟨⟨fun e => absurd e h.1, fun e => e.elim⟩, h.2⟩

theorem declared : Declared unmarshal len := by
  intro m b x e
  have h := safe m b
  rw [e] at h
  rw [len, h.1]

end CommonFlags

/-- `DirectTunnelFlags` (directtunnelflags.rs:13-19). -/
structure DirectTunnelFlags where
  t : UInt8
  length : UInt16
  dti : Bool
  gcsi : Bool
  ei : Bool
deriving DecidableEq, Repr

namespace DirectTunnelFlags

/-- `default` (directtunnelflags.rs:22-30). -/
def dflt : DirectTunnelFlags := ⟨182, 1, false, false, false⟩

/-- `marshal` (directtunnelflags.rs:34-49). -/
def marshal (x : DirectTunnelFlags) : Bytes := tlv x.t x.length ([(b2u x.ei <<< 2) ||| (b2u x.gcsi <<< 1) ||| b2u x.dti])

/-- `unmarshal` (directtunnelflags.rs:51-65). -/
def unmarshal (_m : Mode) (b : Bytes) : R Err DirectTunnelFlags := do
  if 4 ≤ b.length then
    let length ← rd16 b 1
    let v ← rd b 3
    return { t := 182, length, dti := v &&& 1 == 1, gcsi := (v >>> 1) &&& 1 == 1, ei := (v >>> 2) &&& 1 == 1 }
  else .err .ieInvalidLength

/-- `len` (directtunnelflags.rs:67-69). -/
def len (m : Mode) (x : DirectTunnelFlags) : R Err Nat := len3 m x.length

/-- Field values that the encoding of `DirectTunnelFlags` can represent. -/
def WF (x : DirectTunnelFlags) : Prop :=
  x.t = 182 ∧
  x.length = 1

instance (x : DirectTunnelFlags) : Decidable x.WF := by unfold WF; infer_instance

theorem rt : RoundTrips WF marshal unmarshal := by
  intro m x tail h
  obtain ⟨t, length, dti, gcsi, ei⟩ := x
  obtain ⟨ht, hl⟩ := h
  simp only at ht hl
  subst ht hl
  cases dti <;> cases gcsi <;> cases ei
  all_goals enc_simp [marshal, b2u]
  all_goals rt_simp [unmarshal, b2u]

theorem size_eq {x : DirectTunnelFlags} (h : x.WF) : x.marshal.length = 4 := by
  obtain ⟨t, length, dti, gcsi, ei⟩ := x
  obtain ⟨ht, hl⟩ := h
  simp only at ht hl
  subst ht hl
  cases dti <;> cases gcsi <;> cases ei
  all_goals enc_simp [marshal, b2u]
  all_goals simp [gtp]

theorem len_ok : LenOk WF marshal len := by
  intro m x h
  rw [size_eq h, len, h.2]; exact len3_ok (by decide)

theorem safe (m : Mode) (b : Bytes) : (unmarshal m b).Safe fun x => x.length = declLen b ∧ 4 ≤ b.length := by
  safe_simp [unmarshal, declLen]
  safe_fin

theorem panics : PanicsIff Never unmarshal := fun m b =>
  have h := Safe.noPanic (safe m b)
  ⟨⟨fun e => absurd e h.1, fun e => e.elim⟩, h.2⟩

theorem declared : Declared unmarshal len := by
  intro m b x e
  have h := safe m b
  rw [e] at h
  rw [len, h.1]

end DirectTunnelFlags

/-- `ExtendedCommonFlags` (extendedcommonflags.rs:13-24). -/
structure ExtendedCommonFlags where
  t : UInt8
  length : UInt16
  unauthenticated_imsi : Bool
  ccrsi : Bool
  cpsr : Bool
  retloc : Bool
  vb : Bool
  pcri : Bool
  bdwi : Bool
  uasi : Bool
deriving DecidableEq, Repr

namespace ExtendedCommonFlags

/-- `default` (extendedcommonflags.rs:27-40). -/
def dflt : ExtendedCommonFlags := ⟨193, 1, false, false, false, false, false, false, false, false⟩

/-- `marshal` (extendedcommonflags.rs:44-61). -/
def marshal (x : ExtendedCommonFlags) : Bytes := tlv x.t x.length ([flagOctet x.uasi x.bdwi x.pcri x.vb
    x.retloc x.cpsr x.ccrsi x.unauthenticated_imsi])

/-- `unmarshal` (extendedcommonflags.rs:63-90). -/
def unmarshal (_m : Mode) (b : Bytes) : R Err ExtendedCommonFlags := do
  if 4 ≤ b.length then
    let length ← rd16 b 1
    let v ← rd b 3
    return { t := 193, length, unauthenticated_imsi := flagAt v 7,
             ccrsi := flagAt v 6,
             cpsr := flagAt v 5,
             retloc := flagAt v 4,
             vb := flagAt v 3,
             pcri := flagAt v 2,
             bdwi := flagAt v 1,
             uasi := flagAt v 0 }
  else .err .ieInvalidLength

/-- `len` (extendedcommonflags.rs:92-94). -/
def len (m : Mode) (x : ExtendedCommonFlags) : R Err Nat := len3 m x.length

/-- Field values that the encoding of `ExtendedCommonFlags` can represent. -/
def WF (x : ExtendedCommonFlags) : Prop :=
  x.t = 193 ∧
  x.length = 1

instance (x : ExtendedCommonFlags) : Decidable x.WF := by unfold WF; infer_instance

theorem rt : RoundTrips WF marshal unmarshal := by
  intro m x tail h
  obtain ⟨t, length, unauthenticated_imsi, ccrsi, cpsr, retloc, vb, pcri, bdwi, uasi⟩ := x
  obtain ⟨ht, hl⟩ := h
  simp only at ht hl
  subst ht hl
  have hf := flagAt_octet uasi bdwi pcri vb retloc cpsr ccrsi unauthenticated_imsi
  all_goals enc_simp [marshal, hf]
  all_goals rt_simp [unmarshal, hf]

theorem size_eq {x : ExtendedCommonFlags} (h : x.WF) : x.marshal.length = 4 := by
  obtain ⟨t, length, unauthenticated_imsi, ccrsi, cpsr, retloc, vb, pcri, bdwi, uasi⟩ := x
  obtain ⟨ht, hl⟩ := h
  simp only at ht hl
  subst ht hl
  have hf := flagAt_octet uasi bdwi pcri vb retloc cpsr ccrsi unauthenticated_imsi
  all_goals enc_simp [marshal, hf]
  all_goals simp [gtp]

theorem len_ok : LenOk WF marshal len := by
  intro m x h
  rw [size_eq h, len, h.2]; exact len3_ok (by decide)

theorem safe (m : Mode) (b : Bytes) : (unmarshal m b).Safe fun x => x.length = declLen b ∧ 4 ≤ b.length := by
  safe_simp [unmarshal, declLen]
  safe_fin

theorem panics : PanicsIff Never unmarshal := fun m b =>
  have h := Safe.noPanic (safe m b)
  ⟨⟨fun e => absurd e h.1, fun e => e.elim⟩, h.2⟩

theorem declared : Declared unmarshal len := by
  intro m b x e
  have h := safe m b
  rw [e] at h
  rw [len, h.1]

end ExtendedCommonFlags

/-- `CSGInformationReportingAction` (csginforeporting.rs:12-19). -/
structure CSGInformationReportingAction where
  t : UInt8
  length : UInt16
  action : UInt8
deriving DecidableEq, Repr

namespace CSGInformationReportingAction

theorem low3 {v : UInt8} (h : v < 8) : v &&& 7 = v := by revert v; decide +kernel

/-- `default` (csginforeporting.rs:22-28). -/
def dflt : CSGInformationReportingAction := ⟨195, 1, 0⟩

/-- `marshal` (csginforeporting.rs:32-39). -/
def marshal (x : CSGInformationReportingAction) : Bytes := tlv x.t x.length ([x.action])

/-- `unmarshal` (csginforeporting.rs:41-52). -/
def unmarshal (_m : Mode) (b : Bytes) : R Err CSGInformationReportingAction := do
  if 4 ≤ b.length then
    let length ← rd16 b 1
    let v ← rd b 3
    return { t := 195, length, action := v &&& 7 }
  else .err .ieInvalidLength

/-- `len` (csginforeporting.rs:54-56). -/
def len (m : Mode) (x : CSGInformationReportingAction) : R Err Nat := len3 m x.length

/-- Field values that the encoding of `CSGInformationReportingAction` can represent. -/
def WF (x : CSGInformationReportingAction) : Prop :=
  x.t = 195 ∧
  x.length = 1 ∧
  x.action < 8

instance (x : CSGInformationReportingAction) : Decidable x.WF := by unfold WF; infer_instance

theorem rt : RoundTrips WF marshal unmarshal := by
  intro m x tail h
  obtain ⟨t, length, action⟩ := x
  obtain ⟨ht, hl, hv⟩ := h
  simp only at ht hl hv
  subst ht hl
  have hm := low3 hv
  all_goals enc_simp [marshal, hm]
  all_goals rt_simp [unmarshal, hv, hm]

theorem size_eq {x : CSGInformationReportingAction} (h : x.WF) : x.marshal.length = 4 := by
  obtain ⟨t, length, action⟩ := x
  obtain ⟨ht, hl, hv⟩ := h
  simp only at ht hl hv
  subst ht hl
  have hm := low3 hv
  all_goals enc_simp [marshal, hm]
  all_goals simp [gtp]

theorem len_ok : LenOk WF marshal len := by
  intro m x h
  rw [size_eq h, len, h.2.1]; exact len3_ok (by decide)

theorem safe (m : Mode) (b : Bytes) : (unmarshal m b).Safe fun x => x.length = declLen b ∧ 4 ≤ b.length := by
  safe_simp [unmarshal, declLen]
  safe_fin

theorem panics : PanicsIff Never unmarshal := fun m b =>
  have h := Safe.noPanic (safe m b)
  ⟨⟨fun e => absurd e h.1, fun e => e.elim⟩, h.2⟩

theorem declared : Declared unmarshal len := by
  intro m b x e
  have h := safe m b
  rw [e] at h
  rw [len, h.1]

end CSGInformationReportingAction

/-- `ExtendedCommonFlagsII` (extendedcommonflagsii.rs:13-19). -/
structure ExtendedCommonFlagsII where
  t : UInt8
  length : UInt16
  pnsi : Bool
  dtci : Bool
  pmtsmi : Bool
deriving DecidableEq, Repr

namespace ExtendedCommonFlagsII

/-- `default` (extendedcommonflagsii.rs:22-30). -/
def dflt : ExtendedCommonFlagsII := ⟨218, 1, false, false, false⟩

/-- `marshal` (extendedcommonflagsii.rs:34-49). -/
def marshal (x : ExtendedCommonFlagsII) : Bytes := tlv x.t x.length ([(b2u x.pmtsmi <<< 2) ||| (b2u x.dtci <<< 1) ||| b2u x.pnsi])

/-- `unmarshal` (extendedcommonflagsii.rs:51-68). -/
def unmarshal (_m : Mode) (b : Bytes) : R Err ExtendedCommonFlagsII := do
  if 4 ≤ b.length then
    let length ← rd16 b 1
    let v ← rd b 3
    return { t := 218, length, pnsi := v &&& 1 == 1, dtci := (v >>> 1) &&& 1 == 1, pmtsmi := (v >>> 2) &&& 1 == 1 }
  else .err .ieInvalidLength

/-- `len` (extendedcommonflagsii.rs:70-72). -/
def len (m : Mode) (x : ExtendedCommonFlagsII) : R Err Nat := len3 m x.length

/-- Field values that the encoding of `ExtendedCommonFlagsII` can represent. -/
def WF (x : ExtendedCommonFlagsII) : Prop :=
  x.t = 218 ∧
  x.length = 1

instance (x : ExtendedCommonFlagsII) : Decidable x.WF := by unfold WF; infer_instance

theorem rt : RoundTrips WF marshal unmarshal := by
  intro m x tail h
  obtain ⟨t, length, pnsi, dtci, pmtsmi⟩ := x
  obtain ⟨ht, hl⟩ := h
  simp only at ht hl
  subst ht hl
  cases pnsi <;> cases dtci <;> cases pmtsmi
  all_goals enc_simp [marshal, b2u]
  all_goals rt_simp [unmarshal, b2u]

theorem size_eq {x : ExtendedCommonFlagsII} (h : x.WF) : x.marshal.length = 4 := by
  obtain ⟨t, length, pnsi, dtci, pmtsmi⟩ := x
  obtain ⟨ht, hl⟩ := h
  simp only at ht hl
  subst ht hl
  cases pnsi <;> cases dtci <;> cases pmtsmi
  all_goals enc_simp [marshal, b2u]
  all_goals simp [gtp]

theorem len_ok : LenOk WF marshal len := by
  intro m x h
  rw [size_eq h, len, h.2]; exact len3_ok (by decide)

theorem safe (m : Mode) (b : Bytes) : (unmarshal m b).Safe fun x => x.length = declLen b ∧ 4 ≤ b.length := by
  safe_simp [unmarshal, declLen]
  safe_fin

theorem panics : PanicsIff Never unmarshal := fun m b =>
  have h := Safe.noPanic (safe m b)
  ⟨⟨fun e => absurd e h.1, fun e => e.elim⟩, h.2⟩

theorem declared : Declared unmarshal len := by
  intro m b x e
  have h := safe m b
  rw [e] at h
  rw [len, h.1]

end ExtendedCommonFlagsII

end Gtp.C1
