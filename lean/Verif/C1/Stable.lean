import Verif.C1.StableBase

/-!
# Decoded GTPv1-C IEs

Expanded by `scripts/gen_c1_stable.py`. The length field of an IE, that encoding does not look at it, and, for every kind: once its
length field is set to the length it is encoded with, a decoded value satisfies `WF`. For some kinds this takes a condition, which is
stated in front of the conclusion and collected in `Kind.Faithful`.
-/

namespace Gtp.C1
open Gtp.V1
set_option linter.unusedSimpArgs false
set_option linter.unusedVariables false

theorem tlv_length_field (t : UInt8) (n l : UInt16) (body : Bytes) : tlv t n body = tlv t l body := by
  rw [tlv_eq, tlv_eq]

theorem tlvLen {t : UInt8} {l : UInt16} {body : Bytes} (h : (tlv t l body).length < 65536) :
    (UInt16.ofNat ((tlv t l body).length - 3)).toNat + 3 = (tlv t l body).length := by
  rw [tlv_length] at *
  rw [UInt16.toNat_ofNat']
  omega

theorem tlvLen_lt {t : UInt8} {l : UInt16} {body : Bytes} (h : (tlv t l body).length < 65536) :
    (UInt16.ofNat ((tlv t l body).length - 3)).toNat < 65533 := by
  have := tlvLen h
  omega

theorem ehLen (x : ExtensionHeaderTypeList) (h : x.list.length < 254) :
    (UInt8.ofNat (x.marshal.length - 2)).toNat + 2 = x.marshal.length := by
  rw [UInt8.toNat_ofNat']
  simp only [ExtensionHeaderTypeList.marshal, List.length_set, List.length_cons]
  omega

theorem zoneOf_ne : ∀ v : UInt8, MsTimeZone.zoneOf v ≠ -128 := by decide +kernel
theorem unitOf_ok : ∀ v : UInt8, GGSNBackOffTime.unitOf v ≤ 4 ∨ GGSNBackOffTime.unitOf v = 7 := by decide +kernel
theorem locBody_length (l : Location) : (Uli.locBody l).length = 2 := by cases l <;> rfl

namespace Kind

/-- The number of octets in front of the body: the type, and the length if the kind has one. -/
def head : Kind → Nat
  | .Cause => 1
  | .Imsi => 1
  | .Rai => 1
  | .ReorderingRequired => 1
  | .Recovery => 1
  | .SelectionMode => 1
  | .Teid => 1
  | .TeardownInd => 1
  | .Nsapi => 1
  | .ChargingCharacteristics => 1
  | .TraceReference => 1
  | .TraceType => 1
  | .ChargingID => 1
  | .ExtensionHeaderTypeList => 2
  | _ => 3

/-- The field `t`. -/
def tOf : (k : Kind) → k.Ty → UInt8
  | .Cause => fun (x : C1.Cause) => x.t
  | .Imsi => fun (x : C1.Imsi) => x.t
  | .Rai => fun (x : C1.Rai) => x.t
  | .ReorderingRequired => fun (x : C1.ReorderingRequired) => x.t
  | .Recovery => fun (x : C1.Recovery) => x.t
  | .SelectionMode => fun (x : C1.SelectionMode) => x.t
  | .Teid => fun (x : C1.Teid) => x.t
  | .TeardownInd => fun (x : C1.TeardownInd) => x.t
  | .Nsapi => fun (x : C1.Nsapi) => x.t
  | .ChargingCharacteristics => fun (x : C1.ChargingCharacteristics) => x.t
  | .TraceReference => fun (x : C1.TraceReference) => x.t
  | .TraceType => fun (x : C1.TraceType) => x.t
  | .ChargingID => fun (x : C1.ChargingID) => x.t
  | .EndUserAddress => fun (x : C1.EndUserAddress) => x.t
  | .Apn => fun (x : C1.Apn) => x.t
  | .Pco => fun (x : C1.Pco) => x.t
  | .GsnAddress => fun (x : C1.GsnAddress) => x.t
  | .Msisdn => fun (x : C1.Msisdn) => x.t
  | .Qos => fun (x : C1.Qos) => x.t
  | .Tft => fun (x : C1.Tft) => x.t
  | .ExtensionHeaderTypeList => fun (x : C1.ExtensionHeaderTypeList) => x.t
  | .TriggerId => fun (x : C1.TriggerId) => x.t
  | .OmcId => fun (x : C1.OmcId) => x.t
  | .CommonFlags => fun (x : C1.CommonFlags) => x.t
  | .ApnRestriction => fun (x : C1.ApnRestriction) => x.t
  | .RatType => fun (x : C1.RatType) => x.t
  | .Uli => fun (x : C1.Uli) => x.t
  | .MsTimeZone => fun (x : C1.MsTimeZone) => x.t
  | .Imei => fun (x : C1.Imei) => x.t
  | .CamelChargingInfoContainer => fun (x : C1.CamelChargingInfoContainer) => x.t
  | .AdditionalTraceInfo => fun (x : C1.AdditionalTraceInfo) => x.t
  | .MSInfoChangeReportingAction => fun (x : C1.MSInfoChangeReportingAction) => x.t
  | .DirectTunnelFlags => fun (x : C1.DirectTunnelFlags) => x.t
  | .CorrelationId => fun (x : C1.CorrelationId) => x.t
  | .BearerControlMode => fun (x : C1.BearerControlMode) => x.t
  | .EvolvedAllocationRetentionI => fun (x : C1.EvolvedAllocationRetentionI) => x.t
  | .ExtendedCommonFlags => fun (x : C1.ExtendedCommonFlags) => x.t
  | .Uci => fun (x : C1.Uci) => x.t
  | .CSGInformationReportingAction => fun (x : C1.CSGInformationReportingAction) => x.t
  | .ApnAmbr => fun (x : C1.ApnAmbr) => x.t
  | .GGSNBackOffTime => fun (x : C1.GGSNBackOffTime) => x.t
  | .Spi => fun (x : C1.Spi) => x.t
  | .UliTimestamp => fun (x : C1.UliTimestamp) => x.t
  | .CnOperatorSelectionEntity => fun (x : C1.CnOperatorSelectionEntity) => x.t
  | .ExtendedCommonFlagsII => fun (x : C1.ExtendedCommonFlagsII) => x.t
  | .MappedUeUsageType => fun (x : C1.MappedUeUsageType) => x.t
  | .UpFunctionSelectionIndicationFlags => fun (x : C1.UpFunctionSelectionIndicationFlags) => x.t
  | .ChargingGWAddress => fun (x : C1.ChargingGWAddress) => x.t
  | .PrivateExtension => fun (x : C1.PrivateExtension) => x.t

/-- The field `length`, for the kinds that have one. -/
def lengthOf : (k : Kind) → k.Ty → Option Nat
  | .Cause => fun (x : C1.Cause) => none
  | .Imsi => fun (x : C1.Imsi) => none
  | .Rai => fun (x : C1.Rai) => none
  | .ReorderingRequired => fun (x : C1.ReorderingRequired) => none
  | .Recovery => fun (x : C1.Recovery) => none
  | .SelectionMode => fun (x : C1.SelectionMode) => none
  | .Teid => fun (x : C1.Teid) => none
  | .TeardownInd => fun (x : C1.TeardownInd) => none
  | .Nsapi => fun (x : C1.Nsapi) => none
  | .ChargingCharacteristics => fun (x : C1.ChargingCharacteristics) => none
  | .TraceReference => fun (x : C1.TraceReference) => none
  | .TraceType => fun (x : C1.TraceType) => none
  | .ChargingID => fun (x : C1.ChargingID) => none
  | .EndUserAddress => fun (x : C1.EndUserAddress) => some x.length.toNat
  | .Apn => fun (x : C1.Apn) => some x.length.toNat
  | .Pco => fun (x : C1.Pco) => some x.length.toNat
  | .GsnAddress => fun (x : C1.GsnAddress) => some x.length.toNat
  | .Msisdn => fun (x : C1.Msisdn) => some x.length.toNat
  | .Qos => fun (x : C1.Qos) => some x.length.toNat
  | .Tft => fun (x : C1.Tft) => some x.length.toNat
  | .ExtensionHeaderTypeList => fun (x : C1.ExtensionHeaderTypeList) => some x.length.toNat
  | .TriggerId => fun (x : C1.TriggerId) => some x.length.toNat
  | .OmcId => fun (x : C1.OmcId) => some x.length.toNat
  | .CommonFlags => fun (x : C1.CommonFlags) => some x.length.toNat
  | .ApnRestriction => fun (x : C1.ApnRestriction) => some x.length.toNat
  | .RatType => fun (x : C1.RatType) => some x.length.toNat
  | .Uli => fun (x : C1.Uli) => some x.length.toNat
  | .MsTimeZone => fun (x : C1.MsTimeZone) => some x.length.toNat
  | .Imei => fun (x : C1.Imei) => some x.length.toNat
  | .CamelChargingInfoContainer => fun (x : C1.CamelChargingInfoContainer) => some x.length.toNat
  | .AdditionalTraceInfo => fun (x : C1.AdditionalTraceInfo) => some x.length.toNat
  | .MSInfoChangeReportingAction => fun (x : C1.MSInfoChangeReportingAction) => some x.length.toNat
  | .DirectTunnelFlags => fun (x : C1.DirectTunnelFlags) => some x.length.toNat
  | .CorrelationId => fun (x : C1.CorrelationId) => some x.length.toNat
  | .BearerControlMode => fun (x : C1.BearerControlMode) => some x.length.toNat
  | .EvolvedAllocationRetentionI => fun (x : C1.EvolvedAllocationRetentionI) => some x.length.toNat
  | .ExtendedCommonFlags => fun (x : C1.ExtendedCommonFlags) => some x.length.toNat
  | .Uci => fun (x : C1.Uci) => some x.length.toNat
  | .CSGInformationReportingAction => fun (x : C1.CSGInformationReportingAction) => some x.length.toNat
  | .ApnAmbr => fun (x : C1.ApnAmbr) => some x.length.toNat
  | .GGSNBackOffTime => fun (x : C1.GGSNBackOffTime) => some x.length.toNat
  | .Spi => fun (x : C1.Spi) => some x.length.toNat
  | .UliTimestamp => fun (x : C1.UliTimestamp) => some x.length.toNat
  | .CnOperatorSelectionEntity => fun (x : C1.CnOperatorSelectionEntity) => some x.length.toNat
  | .ExtendedCommonFlagsII => fun (x : C1.ExtendedCommonFlagsII) => some x.length.toNat
  | .MappedUeUsageType => fun (x : C1.MappedUeUsageType) => some x.length.toNat
  | .UpFunctionSelectionIndicationFlags => fun (x : C1.UpFunctionSelectionIndicationFlags) => some x.length.toNat
  | .ChargingGWAddress => fun (x : C1.ChargingGWAddress) => some x.length.toNat
  | .PrivateExtension => fun (x : C1.PrivateExtension) => some x.length.toNat

/-- `self.length = n`, for the kinds that have a length. -/
def setLength (n : Nat) : (k : Kind) → k.Ty → k.Ty
  | .Cause => fun (x : C1.Cause) => x
  | .Imsi => fun (x : C1.Imsi) => x
  | .Rai => fun (x : C1.Rai) => x
  | .ReorderingRequired => fun (x : C1.ReorderingRequired) => x
  | .Recovery => fun (x : C1.Recovery) => x
  | .SelectionMode => fun (x : C1.SelectionMode) => x
  | .Teid => fun (x : C1.Teid) => x
  | .TeardownInd => fun (x : C1.TeardownInd) => x
  | .Nsapi => fun (x : C1.Nsapi) => x
  | .ChargingCharacteristics => fun (x : C1.ChargingCharacteristics) => x
  | .TraceReference => fun (x : C1.TraceReference) => x
  | .TraceType => fun (x : C1.TraceType) => x
  | .ChargingID => fun (x : C1.ChargingID) => x
  | .EndUserAddress => fun (x : C1.EndUserAddress) => ({ x with length := UInt16.ofNat n } : C1.EndUserAddress)
  | .Apn => fun (x : C1.Apn) => ({ x with length := UInt16.ofNat n } : C1.Apn)
  | .Pco => fun (x : C1.Pco) => ({ x with length := UInt16.ofNat n } : C1.Pco)
  | .GsnAddress => fun (x : C1.GsnAddress) => ({ x with length := UInt16.ofNat n } : C1.GsnAddress)
  | .Msisdn => fun (x : C1.Msisdn) => ({ x with length := UInt16.ofNat n } : C1.Msisdn)
  | .Qos => fun (x : C1.Qos) => ({ x with length := UInt16.ofNat n } : C1.Qos)
  | .Tft => fun (x : C1.Tft) => ({ x with length := UInt16.ofNat n } : C1.Tft)
  | .ExtensionHeaderTypeList => fun (x : C1.ExtensionHeaderTypeList) => ({ x with length := UInt8.ofNat n } : C1.ExtensionHeaderTypeList)
  | .TriggerId => fun (x : C1.TriggerId) => ({ x with length := UInt16.ofNat n } : C1.TriggerId)
  | .OmcId => fun (x : C1.OmcId) => ({ x with length := UInt16.ofNat n } : C1.OmcId)
  | .CommonFlags => fun (x : C1.CommonFlags) => ({ x with length := UInt16.ofNat n } : C1.CommonFlags)
  | .ApnRestriction => fun (x : C1.ApnRestriction) => ({ x with length := UInt16.ofNat n } : C1.ApnRestriction)
  | .RatType => fun (x : C1.RatType) => ({ x with length := UInt16.ofNat n } : C1.RatType)
  | .Uli => fun (x : C1.Uli) => ({ x with length := UInt16.ofNat n } : C1.Uli)
  | .MsTimeZone => fun (x : C1.MsTimeZone) => ({ x with length := UInt16.ofNat n } : C1.MsTimeZone)
  | .Imei => fun (x : C1.Imei) => ({ x with length := UInt16.ofNat n } : C1.Imei)
  | .CamelChargingInfoContainer => fun (x : C1.CamelChargingInfoContainer) => ({ x with length := UInt16.ofNat n } : C1.CamelChargingInfoContainer)
  | .AdditionalTraceInfo => fun (x : C1.AdditionalTraceInfo) => ({ x with length := UInt16.ofNat n } : C1.AdditionalTraceInfo)
  | .MSInfoChangeReportingAction => fun (x : C1.MSInfoChangeReportingAction) => ({ x with length := UInt16.ofNat n } : C1.MSInfoChangeReportingAction)
  | .DirectTunnelFlags => fun (x : C1.DirectTunnelFlags) => ({ x with length := UInt16.ofNat n } : C1.DirectTunnelFlags)
  | .CorrelationId => fun (x : C1.CorrelationId) => ({ x with length := UInt16.ofNat n } : C1.CorrelationId)
  | .BearerControlMode => fun (x : C1.BearerControlMode) => ({ x with length := UInt16.ofNat n } : C1.BearerControlMode)
  | .EvolvedAllocationRetentionI => fun (x : C1.EvolvedAllocationRetentionI) => ({ x with length := UInt16.ofNat n } : C1.EvolvedAllocationRetentionI)
  | .ExtendedCommonFlags => fun (x : C1.ExtendedCommonFlags) => ({ x with length := UInt16.ofNat n } : C1.ExtendedCommonFlags)
  | .Uci => fun (x : C1.Uci) => ({ x with length := UInt16.ofNat n } : C1.Uci)
  | .CSGInformationReportingAction => fun (x : C1.CSGInformationReportingAction) => ({ x with length := UInt16.ofNat n } : C1.CSGInformationReportingAction)
  | .ApnAmbr => fun (x : C1.ApnAmbr) => ({ x with length := UInt16.ofNat n } : C1.ApnAmbr)
  | .GGSNBackOffTime => fun (x : C1.GGSNBackOffTime) => ({ x with length := UInt16.ofNat n } : C1.GGSNBackOffTime)
  | .Spi => fun (x : C1.Spi) => ({ x with length := UInt16.ofNat n } : C1.Spi)
  | .UliTimestamp => fun (x : C1.UliTimestamp) => ({ x with length := UInt16.ofNat n } : C1.UliTimestamp)
  | .CnOperatorSelectionEntity => fun (x : C1.CnOperatorSelectionEntity) => ({ x with length := UInt16.ofNat n } : C1.CnOperatorSelectionEntity)
  | .ExtendedCommonFlagsII => fun (x : C1.ExtendedCommonFlagsII) => ({ x with length := UInt16.ofNat n } : C1.ExtendedCommonFlagsII)
  | .MappedUeUsageType => fun (x : C1.MappedUeUsageType) => ({ x with length := UInt16.ofNat n } : C1.MappedUeUsageType)
  | .UpFunctionSelectionIndicationFlags => fun (x : C1.UpFunctionSelectionIndicationFlags) => ({ x with length := UInt16.ofNat n } : C1.UpFunctionSelectionIndicationFlags)
  | .ChargingGWAddress => fun (x : C1.ChargingGWAddress) => ({ x with length := UInt16.ofNat n } : C1.ChargingGWAddress)
  | .PrivateExtension => fun (x : C1.PrivateExtension) => ({ x with length := UInt16.ofNat n } : C1.PrivateExtension)

/-- The value with the length field it is encoded with. -/
def norm (k : Kind) (x : k.Ty) : k.Ty := k.setLength ((k.codec.mar x).length - k.head) x

theorem mar_setLength (n : Nat) (k : Kind) (x : k.Ty) : k.codec.mar (k.setLength n x) = k.codec.mar x := by
  cases k
  case Cause => rfl
  case Imsi => rfl
  case Rai => rfl
  case ReorderingRequired => rfl
  case Recovery => rfl
  case SelectionMode => rfl
  case Teid => rfl
  case TeardownInd => rfl
  case Nsapi => rfl
  case ChargingCharacteristics => rfl
  case TraceReference => rfl
  case TraceType => rfl
  case ChargingID => rfl
  case EndUserAddress => exact tlv_length_field ..
  case Apn => exact tlv_length_field ..
  case Pco => exact tlv_length_field ..
  case GsnAddress => exact tlv_length_field ..
  case Msisdn => exact tlv_length_field ..
  case Qos => exact tlv_length_field ..
  case Tft => exact tlv_length_field ..
  case ExtensionHeaderTypeList => rfl
  case TriggerId => exact tlv_length_field ..
  case OmcId => exact tlv_length_field ..
  case CommonFlags => exact tlv_length_field ..
  case ApnRestriction => exact tlv_length_field ..
  case RatType => exact tlv_length_field ..
  case Uli => exact tlv_length_field ..
  case MsTimeZone => exact tlv_length_field ..
  case Imei => exact tlv_length_field ..
  case CamelChargingInfoContainer => exact tlv_length_field ..
  case AdditionalTraceInfo => exact tlv_length_field ..
  case MSInfoChangeReportingAction => exact tlv_length_field ..
  case DirectTunnelFlags => exact tlv_length_field ..
  case CorrelationId => exact tlv_length_field ..
  case BearerControlMode => exact tlv_length_field ..
  case EvolvedAllocationRetentionI => exact tlv_length_field ..
  case ExtendedCommonFlags => exact tlv_length_field ..
  case Uci => exact tlv_length_field ..
  case CSGInformationReportingAction => exact tlv_length_field ..
  case ApnAmbr => exact tlv_length_field ..
  case GGSNBackOffTime => exact tlv_length_field ..
  case Spi => exact tlv_length_field ..
  case UliTimestamp => exact tlv_length_field ..
  case CnOperatorSelectionEntity => exact tlv_length_field ..
  case ExtendedCommonFlagsII => exact tlv_length_field ..
  case MappedUeUsageType => exact tlv_length_field ..
  case UpFunctionSelectionIndicationFlags => exact tlv_length_field ..
  case ChargingGWAddress => exact tlv_length_field ..
  case PrivateExtension => exact tlv_length_field ..

end Kind

theorem Cause.stable (m : Mode) (b : Bytes) : (Cause.unmarshal m b).Post fun x => Cause.WF x := by
  unfold Cause.unmarshal
  c1_steps
  all_goals (simp only [Cause.WF])
  all_goals c1_fin

theorem Imsi.stable (m : Mode) (b : Bytes) : (Imsi.unmarshal m b).Post fun x => (x.imsi.length + 1) / 2 = 8 → Imsi.WF x := by
  unfold Imsi.unmarshal
  c1_steps
  all_goals (intro h0)
  all_goals (simp only [Imsi.WF])
  all_goals c1_fin

theorem Rai.stable (m : Mode) (b : Bytes) : (Rai.unmarshal m b).Post fun x => Rai.WF x := by
  unfold Rai.unmarshal
  c1_steps
  all_goals (simp only [Rai.WF])
  all_goals c1_fin

theorem ReorderingRequired.stable (m : Mode) (b : Bytes) : (ReorderingRequired.unmarshal m b).Post fun x => ReorderingRequired.WF x := by
  unfold ReorderingRequired.unmarshal
  c1_steps
  all_goals (simp only [ReorderingRequired.WF])
  all_goals c1_fin

theorem Recovery.stable (m : Mode) (b : Bytes) : (Recovery.unmarshal m b).Post fun x => Recovery.WF x := by
  unfold Recovery.unmarshal
  c1_steps
  all_goals (simp only [Recovery.WF])
  all_goals c1_fin

theorem SelectionMode.stable (m : Mode) (b : Bytes) : (SelectionMode.unmarshal m b).Post fun x => SelectionMode.WF x := by
  unfold SelectionMode.unmarshal
  c1_steps
  all_goals (simp only [SelectionMode.WF])
  all_goals c1_fin

theorem Teid.head {m : Mode} {b : Bytes} {x : Teid} (h : Teid.unmarshal m b = .ok x) : b.head? = some x.t := by
  unfold Teid.unmarshal at h
  split at h
  · cases b with
    | nil => simp at *
    | cons c r =>
      rw [rd_zero, R.ok_bind] at h
      cases h1 : (rd32 (c :: r) 1 : R Err UInt32) <;> rw [h1] at h <;> cases h
      rfl
  · cases h

theorem Teid.stable (m : Mode) (b : Bytes) : (Teid.unmarshal m b).Post fun x => (b.head? = some 16 ∨ b.head? = some 17) → Teid.WF x := by
  cases h : Teid.unmarshal m b with
  | ok x =>
    rw [Post_ok, Teid.head h]
    rintro (h | h)
    · exact .inl (Option.some.inj h)
    · exact .inr (Option.some.inj h)
  | _ => trivial

theorem TeardownInd.stable (m : Mode) (b : Bytes) : (TeardownInd.unmarshal m b).Post fun x => TeardownInd.WF x := by
  unfold TeardownInd.unmarshal
  c1_steps
  all_goals (simp only [TeardownInd.WF])
  all_goals c1_fin

theorem Nsapi.stable (m : Mode) (b : Bytes) : (Nsapi.unmarshal m b).Post fun x => Nsapi.WF x := by
  unfold Nsapi.unmarshal
  c1_steps
  all_goals (simp only [Nsapi.WF])
  all_goals c1_fin

theorem ChargingCharacteristics.stable (m : Mode) (b : Bytes) : (ChargingCharacteristics.unmarshal m b).Post fun x => ChargingCharacteristics.WF x := by
  unfold ChargingCharacteristics.unmarshal
  c1_steps
  all_goals (simp only [ChargingCharacteristics.WF])
  all_goals c1_fin

theorem TraceReference.stable (m : Mode) (b : Bytes) : (TraceReference.unmarshal m b).Post fun x => TraceReference.WF x := by
  unfold TraceReference.unmarshal
  c1_steps
  all_goals (simp only [TraceReference.WF])
  all_goals c1_fin

theorem TraceType.stable (m : Mode) (b : Bytes) : (TraceType.unmarshal m b).Post fun x => TraceType.WF x := by
  unfold TraceType.unmarshal
  c1_steps
  all_goals (simp only [TraceType.WF])
  all_goals c1_fin

theorem ChargingID.stable (m : Mode) (b : Bytes) : (ChargingID.unmarshal m b).Post fun x => ChargingID.WF x := by
  unfold ChargingID.unmarshal
  c1_steps
  all_goals (simp only [ChargingID.WF])
  all_goals c1_fin
  all_goals (rename_i h; split at h <;> simp_all)

theorem EndUserAddress.stable (m : Mode) (b : Bytes) : (EndUserAddress.unmarshal m b).Post fun x => ∀ n : UInt16,
    n.toNat + 3 = x.marshal.length → n.toNat < 65533 → EndUserAddress.WF { x with length := n } := by
  unfold EndUserAddress.unmarshal
  refine Post_tlv fun l _ => ?_
  unfold EndUserAddress.body
  refine Post_any fun v => Post_any fun nbr => ?_
  refine Post_if (fun h => ?_) fun _ => Post_if (fun h => ?_) fun _ => Post_if (fun h => ?_) fun _ => Post_if (fun h => ?_) fun _ => Post_e
  · refine Post_p fun n hn _ => ?_
    simp only [EndUserAddress.marshal, tlv_length] at hn
    obtain ⟨_, h | h⟩ := h
    · simp [EndUserAddress.addr, h.1] at hn
      exact ⟨rfl, .inl ⟨UInt16.toNat_inj.mp hn, h.1, h.2, rfl, rfl⟩⟩
    · simp [EndUserAddress.addr, h.1] at hn
      exact ⟨rfl, .inr (.inl ⟨UInt16.toNat_inj.mp hn, h.1, h.2, rfl, rfl⟩)⟩
  · refine Post_any fun a => Post_p fun n hn _ => ?_
    simp [EndUserAddress.marshal, tlv_length, EndUserAddress.addr, h.2.1, gtp] at hn
    exact ⟨rfl, .inr (.inr (.inl ⟨UInt16.toNat_inj.mp hn, h.2.1, h.2.2, rfl, rfl⟩))⟩
  · refine Post_any fun a => Post_p fun n hn _ => ?_
    simp [EndUserAddress.marshal, tlv_length, EndUserAddress.addr, h.2.1, gtp] at hn
    exact ⟨rfl, .inr (.inr (.inr (.inl ⟨UInt16.toNat_inj.mp hn, h.2.1, h.2.2, rfl, rfl⟩)))⟩
  · refine Post_any fun a => Post_any fun c => Post_p fun n hn _ => ?_
    simp [EndUserAddress.marshal, tlv_length, EndUserAddress.addr, h.2.1, gtp] at hn
    exact ⟨rfl, .inr (.inr (.inr (.inr ⟨UInt16.toNat_inj.mp hn, h.2.1, h.2.2, rfl, rfl⟩)))⟩

theorem Apn.stable (m : Mode) (b : Bytes) : (Apn.unmarshal m b).Post fun x => Gtp.V2.NameOk x.name → ∀ n : UInt16,
    n.toNat + 3 = x.marshal.length → n.toNat < 65533 → Apn.WF { x with length := n } := by
  unfold Apn.unmarshal
  refine Post_tlv fun l _ => ?_
  unfold Apn.body
  refine Post_sl fun s _ => Post_any fun nm => Post_p fun h0 n hn hN => ?_
  simp only [Apn.marshal, tlv_length] at hn
  rw [Gtp.V2.encName_length h0] at hn
  exact ⟨rfl, Nat.add_right_cancel hn, hN, h0⟩

theorem Pco.stable (m : Mode) (b : Bytes) : (Pco.unmarshal m b).Post fun x => ∀ n : UInt16,
    n.toNat + 3 = x.marshal.length → n.toNat < 65533 → Pco.WF { x with length := n } := by
  unfold Pco.unmarshal
  c1_steps
  all_goals (intro n hn hN)
  all_goals (simp only [Pco.marshal, tlv_length] at hn)
  all_goals (try simp [gtp] at hn)
  all_goals (simp only [Pco.WF])
  all_goals c1_fin

theorem GsnAddress.stable (m : Mode) (b : Bytes) : (GsnAddress.unmarshal m b).Post fun x => ∀ n : UInt16,
    n.toNat + 3 = x.marshal.length → n.toNat < 65533 → GsnAddress.WF { x with length := n } := by
  unfold GsnAddress.unmarshal
  c1_steps
  all_goals (intro n hn hN)
  all_goals (simp only [GsnAddress.marshal, tlv_length] at hn)
  all_goals (try simp [gtp, ip_octets_length] at hn)
  all_goals (simp only [GsnAddress.WF])
  all_goals c1_fin

theorem Msisdn.stable (m : Mode) (b : Bytes) : (Msisdn.unmarshal m b).Post fun x => (x.msisdn.length + 1) / 2 = 8 → ∀ n : UInt16,
    n.toNat + 3 = x.marshal.length → n.toNat < 65533 → Msisdn.WF { x with length := n } := by
  unfold Msisdn.unmarshal
  refine Post_tlv fun l _ => ?_
  unfold Msisdn.body
  refine Post_any fun v => Post_if (fun h => ?_) fun _ => Post_e
  refine Post_sl fun s _ => Post_p fun h0 n hn hN => ?_
  simp only [Msisdn.marshal, tlv_length, List.length_cons, tbcd_length _ (tbcdDecode_digits _)] at hn
  have h1 : ((tbcdDecode s).length + 1) / 2 = 8 := h0
  refine ⟨rfl, UInt16.toNat_inj.mp ?_, bit7 _, bits654 _, h, tbcdDecode_digits _, h0⟩
  show n.toNat = 9
  omega

theorem Qos.stable (m : Mode) (b : Bytes) : (Qos.unmarshal m b).Post fun x => ∀ n : UInt16,
    n.toNat + 3 = x.marshal.length → n.toNat < 65533 → Qos.WF { x with length := n } := by
  unfold Qos.unmarshal
  unfold Qos.body
  c1_steps
  all_goals (intro n hn hN)
  all_goals (simp only [Qos.marshal, tlv_length] at hn)
  all_goals (try simp [gtp] at hn)
  all_goals (simp only [Qos.WF])
  all_goals c1_fin

theorem Tft.stable (m : Mode) (b : Bytes) : (Tft.unmarshal m b).Post fun x => ∀ n : UInt16,
    n.toNat + 3 = x.marshal.length → n.toNat < 65533 → Tft.WF { x with length := n } := by
  unfold Tft.unmarshal
  c1_steps
  all_goals (intro n hn hN)
  all_goals (simp only [Tft.marshal, tlv_length] at hn)
  all_goals (try simp [gtp] at hn)
  all_goals (simp only [Tft.WF])
  all_goals c1_fin

theorem ExtensionHeaderTypeList.stable (m : Mode) (b : Bytes) : (ExtensionHeaderTypeList.unmarshal m b).Post fun x => x.list.length < 254 → ∀ n : UInt8,
    n.toNat + 2 = x.marshal.length → n.toNat < 256 → ExtensionHeaderTypeList.WF { x with length := n } := by
  unfold ExtensionHeaderTypeList.unmarshal
  c1_steps
  all_goals (intro h0 n hn hN)
  all_goals (simp only [ExtensionHeaderTypeList.marshal, tlv_length] at hn)
  all_goals (try simp [gtp] at hn)
  all_goals (simp only [ExtensionHeaderTypeList.WF])
  all_goals c1_fin

theorem TriggerId.stable (m : Mode) (b : Bytes) : (TriggerId.unmarshal m b).Post fun x => ∀ n : UInt16,
    n.toNat + 3 = x.marshal.length → n.toNat < 65533 → TriggerId.WF { x with length := n } := by
  unfold TriggerId.unmarshal
  c1_steps
  all_goals (intro n hn hN)
  all_goals (simp only [TriggerId.marshal, tlv_length] at hn)
  all_goals (try simp [gtp] at hn)
  all_goals (simp only [TriggerId.WF])
  all_goals c1_fin

theorem OmcId.stable (m : Mode) (b : Bytes) : (OmcId.unmarshal m b).Post fun x => ∀ n : UInt16,
    n.toNat + 3 = x.marshal.length → n.toNat < 65533 → OmcId.WF { x with length := n } := by
  unfold OmcId.unmarshal
  c1_steps
  all_goals (intro n hn hN)
  all_goals (simp only [OmcId.marshal, tlv_length] at hn)
  all_goals (try simp [gtp] at hn)
  all_goals (simp only [OmcId.WF])
  all_goals c1_fin

theorem CommonFlags.stable (m : Mode) (b : Bytes) : (CommonFlags.unmarshal m b).Post fun x => ∀ n : UInt16,
    n.toNat + 3 = x.marshal.length → n.toNat < 65533 → CommonFlags.WF { x with length := n } := by
  unfold CommonFlags.unmarshal
  c1_steps
  all_goals (intro n hn hN)
  all_goals (simp only [CommonFlags.marshal, tlv_length] at hn)
  all_goals (try simp [gtp] at hn)
  all_goals (simp only [CommonFlags.WF])
  all_goals c1_fin

theorem ApnRestriction.stable (m : Mode) (b : Bytes) : (ApnRestriction.unmarshal m b).Post fun x => ∀ n : UInt16,
    n.toNat + 3 = x.marshal.length → n.toNat < 65533 → ApnRestriction.WF { x with length := n } := by
  unfold ApnRestriction.unmarshal
  c1_steps
  all_goals (intro n hn hN)
  all_goals (simp only [ApnRestriction.marshal, tlv_length] at hn)
  all_goals (try simp [gtp] at hn)
  all_goals (simp only [ApnRestriction.WF])
  all_goals c1_fin

theorem RatType.stable (m : Mode) (b : Bytes) : (RatType.unmarshal m b).Post fun x => ∀ n : UInt16,
    n.toNat + 3 = x.marshal.length → n.toNat < 65533 → RatType.WF { x with length := n } := by
  unfold RatType.unmarshal
  c1_steps
  all_goals (intro n hn hN)
  all_goals (simp only [RatType.marshal, tlv_length] at hn)
  all_goals (try simp [gtp] at hn)
  all_goals (simp only [RatType.WF])
  all_goals c1_fin

theorem Uli.stable (m : Mode) (b : Bytes) : (Uli.unmarshal m b).Post fun x => ∀ n : UInt16,
    n.toNat + 3 = x.marshal.length → n.toNat < 65533 → Uli.WF { x with length := n } := by
  unfold Uli.unmarshal
  c1_steps
  all_goals (intro n hn hN)
  all_goals (simp only [Uli.marshal, tlv_length] at hn)
  all_goals (try simp [gtp, mccMncEncode_length, locBody_length] at hn)
  all_goals (simp only [Uli.WF])
  all_goals c1_fin

theorem MsTimeZone.stable (m : Mode) (b : Bytes) : (MsTimeZone.unmarshal m b).Post fun x => ∀ n : UInt16,
    n.toNat + 3 = x.marshal.length → n.toNat < 65533 → MsTimeZone.WF { x with length := n } := by
  unfold MsTimeZone.unmarshal
  c1_steps
  all_goals (intro n hn hN)
  all_goals (simp only [MsTimeZone.marshal, tlv_length] at hn)
  all_goals (try simp [gtp] at hn)
  all_goals (simp only [MsTimeZone.WF])
  all_goals c1_fin
  all_goals exact zoneOf_ne _

theorem Imei.stable (m : Mode) (b : Bytes) : (Imei.unmarshal m b).Post fun x => (x.imei.length + 1) / 2 = 8 → ∀ n : UInt16,
    n.toNat + 3 = x.marshal.length → n.toNat < 65533 → Imei.WF { x with length := n } := by
  unfold Imei.unmarshal
  refine Post_if (fun _ => ?_) fun _ => Post_e
  c1_steps
  intro h0 n hn hN
  simp only [Imei.marshal, tlv_length, tbcd_length _ (tbcdDecode_digits _)] at hn
  refine ⟨rfl, UInt16.toNat_inj.mp ?_, tbcdDecode_digits _, h0⟩
  show n.toNat = 8
  have := h0
  simp only at this
  omega

theorem CamelChargingInfoContainer.stable (m : Mode) (b : Bytes) : (CamelChargingInfoContainer.unmarshal m b).Post fun x => ∀ n : UInt16,
    n.toNat + 3 = x.marshal.length → n.toNat < 65533 → CamelChargingInfoContainer.WF { x with length := n } := by
  unfold CamelChargingInfoContainer.unmarshal
  c1_steps
  all_goals (intro n hn hN)
  all_goals (simp only [CamelChargingInfoContainer.marshal, tlv_length] at hn)
  all_goals (try simp [gtp] at hn)
  all_goals (simp only [CamelChargingInfoContainer.WF])
  all_goals c1_fin

theorem AdditionalTraceInfo.stable (m : Mode) (b : Bytes) : (AdditionalTraceInfo.unmarshal m b).Post fun x => ∀ n : UInt16,
    n.toNat + 3 = x.marshal.length → n.toNat < 65533 → AdditionalTraceInfo.WF { x with length := n } := by
  unfold AdditionalTraceInfo.unmarshal
  c1_steps
  all_goals (intro n hn hN)
  all_goals (simp only [AdditionalTraceInfo.marshal, tlv_length] at hn)
  all_goals (try simp [gtp] at hn)
  all_goals (simp only [AdditionalTraceInfo.WF])
  all_goals c1_fin

theorem MSInfoChangeReportingAction.stable (m : Mode) (b : Bytes) : (MSInfoChangeReportingAction.unmarshal m b).Post fun x => ∀ n : UInt16,
    n.toNat + 3 = x.marshal.length → n.toNat < 65533 → MSInfoChangeReportingAction.WF { x with length := n } := by
  unfold MSInfoChangeReportingAction.unmarshal
  c1_steps
  all_goals (intro n hn hN)
  all_goals (simp only [MSInfoChangeReportingAction.marshal, tlv_length] at hn)
  all_goals (try simp [gtp] at hn)
  all_goals (simp only [MSInfoChangeReportingAction.WF])
  all_goals c1_fin
  all_goals (rename_i h; split at h <;> simp_all)

theorem DirectTunnelFlags.stable (m : Mode) (b : Bytes) : (DirectTunnelFlags.unmarshal m b).Post fun x => ∀ n : UInt16,
    n.toNat + 3 = x.marshal.length → n.toNat < 65533 → DirectTunnelFlags.WF { x with length := n } := by
  unfold DirectTunnelFlags.unmarshal
  c1_steps
  all_goals (intro n hn hN)
  all_goals (simp only [DirectTunnelFlags.marshal, tlv_length] at hn)
  all_goals (try simp [gtp] at hn)
  all_goals (simp only [DirectTunnelFlags.WF])
  all_goals c1_fin

theorem CorrelationId.stable (m : Mode) (b : Bytes) : (CorrelationId.unmarshal m b).Post fun x => ∀ n : UInt16,
    n.toNat + 3 = x.marshal.length → n.toNat < 65533 → CorrelationId.WF { x with length := n } := by
  unfold CorrelationId.unmarshal
  c1_steps
  all_goals (intro n hn hN)
  all_goals (simp only [CorrelationId.marshal, tlv_length] at hn)
  all_goals (try simp [gtp] at hn)
  all_goals (simp only [CorrelationId.WF])
  all_goals c1_fin

theorem BearerControlMode.stable (m : Mode) (b : Bytes) : (BearerControlMode.unmarshal m b).Post fun x => ∀ n : UInt16,
    n.toNat + 3 = x.marshal.length → n.toNat < 65533 → BearerControlMode.WF { x with length := n } := by
  unfold BearerControlMode.unmarshal
  c1_steps
  all_goals (intro n hn hN)
  all_goals (simp only [BearerControlMode.marshal, tlv_length] at hn)
  all_goals (try simp [gtp] at hn)
  all_goals (simp only [BearerControlMode.WF])
  all_goals c1_fin
  all_goals (rename_i h; split at h <;> simp_all)

theorem EvolvedAllocationRetentionI.stable (m : Mode) (b : Bytes) : (EvolvedAllocationRetentionI.unmarshal m b).Post fun x => ∀ n : UInt16,
    n.toNat + 3 = x.marshal.length → n.toNat < 65533 → EvolvedAllocationRetentionI.WF { x with length := n } := by
  unfold EvolvedAllocationRetentionI.unmarshal
  c1_steps
  all_goals (intro n hn hN)
  all_goals (simp only [EvolvedAllocationRetentionI.marshal, tlv_length] at hn)
  all_goals (try simp [gtp] at hn)
  all_goals (simp only [EvolvedAllocationRetentionI.WF])
  all_goals c1_fin

theorem ExtendedCommonFlags.stable (m : Mode) (b : Bytes) : (ExtendedCommonFlags.unmarshal m b).Post fun x => ∀ n : UInt16,
    n.toNat + 3 = x.marshal.length → n.toNat < 65533 → ExtendedCommonFlags.WF { x with length := n } := by
  unfold ExtendedCommonFlags.unmarshal
  c1_steps
  all_goals (intro n hn hN)
  all_goals (simp only [ExtendedCommonFlags.marshal, tlv_length] at hn)
  all_goals (try simp [gtp] at hn)
  all_goals (simp only [ExtendedCommonFlags.WF])
  all_goals c1_fin

theorem Uci.stable (m : Mode) (b : Bytes) : (Uci.unmarshal m b).Post fun x => x.csgid.toNat < 2 ^ 27 → ∀ n : UInt16,
    n.toNat + 3 = x.marshal.length → n.toNat < 65533 → Uci.WF { x with length := n } := by
  unfold Uci.unmarshal
  c1_steps
  all_goals (intro h0 n hn hN)
  all_goals (simp only [Uci.marshal, tlv_length] at hn)
  all_goals (try simp [gtp, mccMncEncode_length] at hn)
  all_goals (simp only [Uci.WF])
  all_goals c1_fin

theorem CSGInformationReportingAction.stable (m : Mode) (b : Bytes) : (CSGInformationReportingAction.unmarshal m b).Post fun x => ∀ n : UInt16,
    n.toNat + 3 = x.marshal.length → n.toNat < 65533 → CSGInformationReportingAction.WF { x with length := n } := by
  unfold CSGInformationReportingAction.unmarshal
  c1_steps
  all_goals (intro n hn hN)
  all_goals (simp only [CSGInformationReportingAction.marshal, tlv_length] at hn)
  all_goals (try simp [gtp] at hn)
  all_goals (simp only [CSGInformationReportingAction.WF])
  all_goals c1_fin

theorem ApnAmbr.stable (m : Mode) (b : Bytes) : (ApnAmbr.unmarshal m b).Post fun x => ∀ n : UInt16,
    n.toNat + 3 = x.marshal.length → n.toNat < 65533 → ApnAmbr.WF { x with length := n } := by
  unfold ApnAmbr.unmarshal
  c1_steps
  all_goals (intro n hn hN)
  all_goals (simp only [ApnAmbr.marshal, tlv_length] at hn)
  all_goals (try simp [gtp] at hn)
  all_goals (simp only [ApnAmbr.WF])
  all_goals c1_fin

theorem GGSNBackOffTime.stable (m : Mode) (b : Bytes) : (GGSNBackOffTime.unmarshal m b).Post fun x => ∀ n : UInt16,
    n.toNat + 3 = x.marshal.length → n.toNat < 65533 → GGSNBackOffTime.WF { x with length := n } := by
  unfold GGSNBackOffTime.unmarshal
  c1_steps
  all_goals (intro n hn hN)
  all_goals (simp only [GGSNBackOffTime.marshal, tlv_length] at hn)
  all_goals (try simp [gtp] at hn)
  all_goals (simp only [GGSNBackOffTime.WF])
  all_goals c1_fin
  all_goals exact unitOf_ok _

theorem Spi.stable (m : Mode) (b : Bytes) : (Spi.unmarshal m b).Post fun x => ∀ n : UInt16,
    n.toNat + 3 = x.marshal.length → n.toNat < 65533 → Spi.WF { x with length := n } := by
  unfold Spi.unmarshal
  c1_steps
  all_goals (intro n hn hN)
  all_goals (simp only [Spi.marshal, tlv_length] at hn)
  all_goals (try simp [gtp] at hn)
  all_goals (simp only [Spi.WF])
  all_goals c1_fin

theorem UliTimestamp.stable (m : Mode) (b : Bytes) : (UliTimestamp.unmarshal m b).Post fun x => ∀ n : UInt16,
    n.toNat + 3 = x.marshal.length → n.toNat < 65533 → UliTimestamp.WF { x with length := n } := by
  unfold UliTimestamp.unmarshal
  c1_steps
  all_goals (intro n hn hN)
  all_goals (simp only [UliTimestamp.marshal, tlv_length] at hn)
  all_goals (try simp [gtp] at hn)
  all_goals (simp only [UliTimestamp.WF])
  all_goals c1_fin

theorem CnOperatorSelectionEntity.stable (m : Mode) (b : Bytes) : (CnOperatorSelectionEntity.unmarshal m b).Post fun x => ∀ n : UInt16,
    n.toNat + 3 = x.marshal.length → n.toNat < 65533 → CnOperatorSelectionEntity.WF { x with length := n } := by
  unfold CnOperatorSelectionEntity.unmarshal
  c1_steps
  all_goals (intro n hn hN)
  all_goals (simp only [CnOperatorSelectionEntity.marshal, tlv_length] at hn)
  all_goals (try simp [gtp] at hn)
  all_goals (simp only [CnOperatorSelectionEntity.WF])
  all_goals c1_fin

theorem ExtendedCommonFlagsII.stable (m : Mode) (b : Bytes) : (ExtendedCommonFlagsII.unmarshal m b).Post fun x => ∀ n : UInt16,
    n.toNat + 3 = x.marshal.length → n.toNat < 65533 → ExtendedCommonFlagsII.WF { x with length := n } := by
  unfold ExtendedCommonFlagsII.unmarshal
  c1_steps
  all_goals (intro n hn hN)
  all_goals (simp only [ExtendedCommonFlagsII.marshal, tlv_length] at hn)
  all_goals (try simp [gtp] at hn)
  all_goals (simp only [ExtendedCommonFlagsII.WF])
  all_goals c1_fin

theorem MappedUeUsageType.stable (m : Mode) (b : Bytes) : (MappedUeUsageType.unmarshal m b).Post fun x => ∀ n : UInt16,
    n.toNat + 3 = x.marshal.length → n.toNat < 65533 → MappedUeUsageType.WF { x with length := n } := by
  unfold MappedUeUsageType.unmarshal
  c1_steps
  all_goals (intro n hn hN)
  all_goals (simp only [MappedUeUsageType.marshal, tlv_length] at hn)
  all_goals (try simp [gtp] at hn)
  all_goals (simp only [MappedUeUsageType.WF])
  all_goals c1_fin

theorem UpFunctionSelectionIndicationFlags.stable (m : Mode) (b : Bytes) : (UpFunctionSelectionIndicationFlags.unmarshal m b).Post fun x => ∀ n : UInt16,
    n.toNat + 3 = x.marshal.length → n.toNat < 65533 → UpFunctionSelectionIndicationFlags.WF { x with length := n } := by
  unfold UpFunctionSelectionIndicationFlags.unmarshal
  c1_steps
  all_goals (intro n hn hN)
  all_goals (simp only [UpFunctionSelectionIndicationFlags.marshal, tlv_length] at hn)
  all_goals (try simp [gtp] at hn)
  all_goals (simp only [UpFunctionSelectionIndicationFlags.WF])
  all_goals c1_fin

theorem ChargingGWAddress.stable (m : Mode) (b : Bytes) : (ChargingGWAddress.unmarshal m b).Post fun x => ∀ n : UInt16,
    n.toNat + 3 = x.marshal.length → n.toNat < 65533 → ChargingGWAddress.WF { x with length := n } := by
  unfold ChargingGWAddress.unmarshal
  c1_steps
  all_goals (intro n hn hN)
  all_goals (simp only [ChargingGWAddress.marshal, tlv_length] at hn)
  all_goals (try simp [gtp, ip_octets_length] at hn)
  all_goals (simp only [ChargingGWAddress.WF])
  all_goals c1_fin

theorem PrivateExtension.stable (m : Mode) (b : Bytes) : (PrivateExtension.unmarshal m b).Post fun x => ∀ n : UInt16,
    n.toNat + 3 = x.marshal.length → n.toNat < 65533 → PrivateExtension.WF { x with length := n } := by
  unfold PrivateExtension.unmarshal
  unfold PrivateExtension.body
  c1_steps
  all_goals (intro n hn hN)
  all_goals (simp only [PrivateExtension.marshal, tlv_length] at hn)
  all_goals (try simp [gtp] at hn)
  all_goals (simp only [PrivateExtension.WF])
  all_goals c1_fin

/-- What a decoded value must satisfy so that its encoding is decoded to the same value. -/
def Kind.Faithful : (k : Kind) → k.Ty → Prop
  | .Cause => fun (x : C1.Cause) => True
  | .Imsi => fun (x : C1.Imsi) => (x.imsi.length + 1) / 2 = 8
  | .Rai => fun (x : C1.Rai) => True
  | .ReorderingRequired => fun (x : C1.ReorderingRequired) => True
  | .Recovery => fun (x : C1.Recovery) => True
  | .SelectionMode => fun (x : C1.SelectionMode) => True
  | .Teid => fun (x : C1.Teid) => True
  | .TeardownInd => fun (x : C1.TeardownInd) => True
  | .Nsapi => fun (x : C1.Nsapi) => True
  | .ChargingCharacteristics => fun (x : C1.ChargingCharacteristics) => True
  | .TraceReference => fun (x : C1.TraceReference) => True
  | .TraceType => fun (x : C1.TraceType) => True
  | .ChargingID => fun (x : C1.ChargingID) => True
  | .EndUserAddress => fun (x : C1.EndUserAddress) => True
  | .Apn => fun (x : C1.Apn) => Gtp.V2.NameOk x.name
  | .Pco => fun (x : C1.Pco) => True
  | .GsnAddress => fun (x : C1.GsnAddress) => True
  | .Msisdn => fun (x : C1.Msisdn) => (x.msisdn.length + 1) / 2 = 8
  | .Qos => fun (x : C1.Qos) => True
  | .Tft => fun (x : C1.Tft) => True
  | .ExtensionHeaderTypeList => fun (x : C1.ExtensionHeaderTypeList) => x.list.length < 254
  | .TriggerId => fun (x : C1.TriggerId) => True
  | .OmcId => fun (x : C1.OmcId) => True
  | .CommonFlags => fun (x : C1.CommonFlags) => True
  | .ApnRestriction => fun (x : C1.ApnRestriction) => True
  | .RatType => fun (x : C1.RatType) => True
  | .Uli => fun (x : C1.Uli) => True
  | .MsTimeZone => fun (x : C1.MsTimeZone) => True
  | .Imei => fun (x : C1.Imei) => (x.imei.length + 1) / 2 = 8
  | .CamelChargingInfoContainer => fun (x : C1.CamelChargingInfoContainer) => True
  | .AdditionalTraceInfo => fun (x : C1.AdditionalTraceInfo) => True
  | .MSInfoChangeReportingAction => fun (x : C1.MSInfoChangeReportingAction) => True
  | .DirectTunnelFlags => fun (x : C1.DirectTunnelFlags) => True
  | .CorrelationId => fun (x : C1.CorrelationId) => True
  | .BearerControlMode => fun (x : C1.BearerControlMode) => True
  | .EvolvedAllocationRetentionI => fun (x : C1.EvolvedAllocationRetentionI) => True
  | .ExtendedCommonFlags => fun (x : C1.ExtendedCommonFlags) => True
  | .Uci => fun (x : C1.Uci) => x.csgid.toNat < 2 ^ 27
  | .CSGInformationReportingAction => fun (x : C1.CSGInformationReportingAction) => True
  | .ApnAmbr => fun (x : C1.ApnAmbr) => True
  | .GGSNBackOffTime => fun (x : C1.GGSNBackOffTime) => True
  | .Spi => fun (x : C1.Spi) => True
  | .UliTimestamp => fun (x : C1.UliTimestamp) => True
  | .CnOperatorSelectionEntity => fun (x : C1.CnOperatorSelectionEntity) => True
  | .ExtendedCommonFlagsII => fun (x : C1.ExtendedCommonFlagsII) => True
  | .MappedUeUsageType => fun (x : C1.MappedUeUsageType) => True
  | .UpFunctionSelectionIndicationFlags => fun (x : C1.UpFunctionSelectionIndicationFlags) => True
  | .ChargingGWAddress => fun (x : C1.ChargingGWAddress) => True
  | .PrivateExtension => fun (x : C1.PrivateExtension) => True

/-- A decoded value, with the length it is encoded with, is a value which the encoding represents. -/
theorem Kind.norm_WF {m : Mode} {b : Bytes} {k : Kind} {x : k.Ty} (h : k.codec.unm m b = .ok x) (hf : k.Faithful x)
    (ht : k = .Teid → b.head? = some 16 ∨ b.head? = some 17) (hl : (k.codec.mar x).length < 65536) : k.codec.WF (k.norm x) := by
  cases k
  case Cause => exact Post.elim (Cause.stable m b) h
  case Imsi => exact Post.elim (Imsi.stable m b) h hf
  case Rai => exact Post.elim (Rai.stable m b) h
  case ReorderingRequired => exact Post.elim (ReorderingRequired.stable m b) h
  case Recovery => exact Post.elim (Recovery.stable m b) h
  case SelectionMode => exact Post.elim (SelectionMode.stable m b) h
  case Teid => exact Post.elim (Teid.stable m b) h (ht rfl)
  case TeardownInd => exact Post.elim (TeardownInd.stable m b) h
  case Nsapi => exact Post.elim (Nsapi.stable m b) h
  case ChargingCharacteristics => exact Post.elim (ChargingCharacteristics.stable m b) h
  case TraceReference => exact Post.elim (TraceReference.stable m b) h
  case TraceType => exact Post.elim (TraceType.stable m b) h
  case ChargingID => exact Post.elim (ChargingID.stable m b) h
  case EndUserAddress => exact Post.elim (EndUserAddress.stable m b) h _ (tlvLen hl) (tlvLen_lt hl)
  case Apn => exact Post.elim (Apn.stable m b) h hf _ (tlvLen hl) (tlvLen_lt hl)
  case Pco => exact Post.elim (Pco.stable m b) h _ (tlvLen hl) (tlvLen_lt hl)
  case GsnAddress => exact Post.elim (GsnAddress.stable m b) h _ (tlvLen hl) (tlvLen_lt hl)
  case Msisdn => exact Post.elim (Msisdn.stable m b) h hf _ (tlvLen hl) (tlvLen_lt hl)
  case Qos => exact Post.elim (Qos.stable m b) h _ (tlvLen hl) (tlvLen_lt hl)
  case Tft => exact Post.elim (Tft.stable m b) h _ (tlvLen hl) (tlvLen_lt hl)
  case ExtensionHeaderTypeList =>
    have e := hf
    exact Post.elim (ExtensionHeaderTypeList.stable m b) h hf _ (ehLen x hf) (by rw [UInt8.toNat_ofNat']; omega)
  case TriggerId => exact Post.elim (TriggerId.stable m b) h _ (tlvLen hl) (tlvLen_lt hl)
  case OmcId => exact Post.elim (OmcId.stable m b) h _ (tlvLen hl) (tlvLen_lt hl)
  case CommonFlags => exact Post.elim (CommonFlags.stable m b) h _ (tlvLen hl) (tlvLen_lt hl)
  case ApnRestriction => exact Post.elim (ApnRestriction.stable m b) h _ (tlvLen hl) (tlvLen_lt hl)
  case RatType => exact Post.elim (RatType.stable m b) h _ (tlvLen hl) (tlvLen_lt hl)
  case Uli => exact Post.elim (Uli.stable m b) h _ (tlvLen hl) (tlvLen_lt hl)
  case MsTimeZone => exact Post.elim (MsTimeZone.stable m b) h _ (tlvLen hl) (tlvLen_lt hl)
  case Imei => exact Post.elim (Imei.stable m b) h hf _ (tlvLen hl) (tlvLen_lt hl)
  case CamelChargingInfoContainer => exact Post.elim (CamelChargingInfoContainer.stable m b) h _ (tlvLen hl) (tlvLen_lt hl)
  case AdditionalTraceInfo => exact Post.elim (AdditionalTraceInfo.stable m b) h _ (tlvLen hl) (tlvLen_lt hl)
  case MSInfoChangeReportingAction => exact Post.elim (MSInfoChangeReportingAction.stable m b) h _ (tlvLen hl) (tlvLen_lt hl)
  case DirectTunnelFlags => exact Post.elim (DirectTunnelFlags.stable m b) h _ (tlvLen hl) (tlvLen_lt hl)
  case CorrelationId => exact Post.elim (CorrelationId.stable m b) h _ (tlvLen hl) (tlvLen_lt hl)
  case BearerControlMode => exact Post.elim (BearerControlMode.stable m b) h _ (tlvLen hl) (tlvLen_lt hl)
  case EvolvedAllocationRetentionI => exact Post.elim (EvolvedAllocationRetentionI.stable m b) h _ (tlvLen hl) (tlvLen_lt hl)
  case ExtendedCommonFlags => exact Post.elim (ExtendedCommonFlags.stable m b) h _ (tlvLen hl) (tlvLen_lt hl)
  case Uci => exact Post.elim (Uci.stable m b) h hf _ (tlvLen hl) (tlvLen_lt hl)
  case CSGInformationReportingAction => exact Post.elim (CSGInformationReportingAction.stable m b) h _ (tlvLen hl) (tlvLen_lt hl)
  case ApnAmbr => exact Post.elim (ApnAmbr.stable m b) h _ (tlvLen hl) (tlvLen_lt hl)
  case GGSNBackOffTime => exact Post.elim (GGSNBackOffTime.stable m b) h _ (tlvLen hl) (tlvLen_lt hl)
  case Spi => exact Post.elim (Spi.stable m b) h _ (tlvLen hl) (tlvLen_lt hl)
  case UliTimestamp => exact Post.elim (UliTimestamp.stable m b) h _ (tlvLen hl) (tlvLen_lt hl)
  case CnOperatorSelectionEntity => exact Post.elim (CnOperatorSelectionEntity.stable m b) h _ (tlvLen hl) (tlvLen_lt hl)
  case ExtendedCommonFlagsII => exact Post.elim (ExtendedCommonFlagsII.stable m b) h _ (tlvLen hl) (tlvLen_lt hl)
  case MappedUeUsageType => exact Post.elim (MappedUeUsageType.stable m b) h _ (tlvLen hl) (tlvLen_lt hl)
  case UpFunctionSelectionIndicationFlags => exact Post.elim (UpFunctionSelectionIndicationFlags.stable m b) h _ (tlvLen hl) (tlvLen_lt hl)
  case ChargingGWAddress => exact Post.elim (ChargingGWAddress.stable m b) h _ (tlvLen hl) (tlvLen_lt hl)
  case PrivateExtension => exact Post.elim (PrivateExtension.stable m b) h _ (tlvLen hl) (tlvLen_lt hl)

end Gtp.C1
