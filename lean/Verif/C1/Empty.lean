import Verif.C1.Kind
import Verif.Props.Decode1

/-!
# `is_empty` of the GTPv1-C information elements

Expanded by `scripts/gen_c1_empty.py`: the third function of `trait IEs` (ies/commons.rs:8-13) for each structure, and what it says about
a decoded element.
-/

namespace Gtp.C1
open Gtp.V1 Gtp.Props
open Gtp.V2 (declLen)

theorem rd16_one {b : Bytes} {l : UInt16} (h : (rd16 b 1 : R Err UInt16) = .ok l) : l = declLen b := by
  match b with
  | [] => cases h
  | [_] => cases h
  | [_, _] => cases h
  | _ :: _ :: _ :: _ => cases h; rfl

theorem withTlv_inv {α : Type} {m : Mode} {b : Bytes} {f : UInt16 → R Err α} {x : α} (h : withTlv m b f = .ok x) : f (declLen b) = .ok x := by
  unfold withTlv at h
  split at h
  · obtain ⟨l, hl, h⟩ := ok_bind_inv h
    obtain ⟨c, -, h⟩ := ok_bind_inv h
    rw [rd16_one hl] at h
    split at h
    · exact h
    · cases h
  · cases h

/-- Takes apart a successful decoder until its result is seen. -/
macro "open_ok" h:ident : tactic => `(tactic| repeat' (first
  | (obtain ⟨_, _, $h⟩ := ok_bind_inv $h)
  | (cases $h:ident; done)
  | split at $h:ident))

/-- The length of the result of a decoder is the declared one. -/
macro "by_len" h:ident : tactic => `(tactic| (
  first
  | replace $h := withTlv_inv $h
  | skip
  open_ok $h
  all_goals first
  | (cases $h:ident; first | rfl | exact rd16_one (by assumption))
  | (simp only [R.pure_eq, R.ok.injEq] at $h:ident; subst $h; first | rfl | exact rd16_one (by assumption))))

namespace Kind

/-- `is_empty`. -/
def isEmpty : (k : Kind) → k.Ty → Bool
  | .Cause => fun (_ : C1.Cause) => false  -- cause.rs:46-48
  | .Imsi => fun (x : C1.Imsi) => x.imsi == ['0']  -- imsi.rs:52-54
  | .Rai => fun (_ : C1.Rai) => false  -- rai.rs:70-72
  | .ReorderingRequired => fun (_ : C1.ReorderingRequired) => false  -- reorderingreq.rs:52-54
  | .Recovery => fun (_ : C1.Recovery) => false  -- recovery.rs:47-49
  | .SelectionMode => fun (_ : C1.SelectionMode) => false  -- selectionmode.rs:51-53
  | .Teid => fun (_ : C1.Teid) => false  -- teid.rs:49-51
  | .TeardownInd => fun (_ : C1.TeardownInd) => false  -- teardownind.rs:55-57
  | .Nsapi => fun (_ : C1.Nsapi) => false  -- nsapi.rs:49-51
  | .ChargingCharacteristics => fun (_ : C1.ChargingCharacteristics) => false  -- chargingcharateristics.rs:54-56
  | .TraceReference => fun (_ : C1.TraceReference) => false  -- tracereference.rs:52-54
  | .TraceType => fun (_ : C1.TraceType) => false  -- tracetype.rs:52-54
  | .ChargingID => fun (_ : C1.ChargingID) => false  -- chargingid.rs:52-54
  | .EndUserAddress => fun (x : C1.EndUserAddress) => x.length == 0  -- enduseraddress.rs:137-139
  | .Apn => fun (x : C1.Apn) => x.length == 0  -- apn.rs:89-91
  | .Pco => fun (x : C1.Pco) => x.length == 0  -- pco.rs:62-64
  | .GsnAddress => fun (x : C1.GsnAddress) => x.length == 0  -- gsnaddress.rs:74-76
  | .Msisdn => fun (x : C1.Msisdn) => x.length == 0  -- msisdn.rs:78-80
  | .Qos => fun (x : C1.Qos) => x.length == 0  -- qos.rs:70-72
  | .Tft => fun (x : C1.Tft) => x.length == 0  -- tft.rs:62-64
  | .ExtensionHeaderTypeList => fun (x : C1.ExtensionHeaderTypeList) => x.length == 0  -- extensionheadertypelist.rs:54-56
  | .TriggerId => fun (x : C1.TriggerId) => x.length == 0  -- triggerid.rs:62-64
  | .OmcId => fun (x : C1.OmcId) => x.length == 0  -- omcid.rs:62-64
  | .CommonFlags => fun (x : C1.CommonFlags) => x.length == 0  -- commonflags.rs:95-97
  | .ApnRestriction => fun (x : C1.ApnRestriction) => x.length == 0  -- apnrestriction.rs:94-96
  | .RatType => fun (x : C1.RatType) => x.length == 0  -- rattype.rs:96-98
  | .Uli => fun (x : C1.Uli) => x.length == 0  -- uli.rs:134-136
  | .MsTimeZone => fun (x : C1.MsTimeZone) => x.length == 0  -- mstimezone.rs:70-72
  | .Imei => fun (x : C1.Imei) => x.length == 0  -- imei.rs:58-60
  | .CamelChargingInfoContainer => fun (x : C1.CamelChargingInfoContainer) => x.length == 0  -- camelcic.rs:62-64
  | .AdditionalTraceInfo => fun (x : C1.AdditionalTraceInfo) => x.length == 0  -- additionaltraceinfo.rs:82-84
  | .MSInfoChangeReportingAction => fun (x : C1.MSInfoChangeReportingAction) => x.length == 0  -- msinfochange.rs:58-60
  | .DirectTunnelFlags => fun (x : C1.DirectTunnelFlags) => x.length == 0  -- directtunnelflags.rs:70-72
  | .CorrelationId => fun (x : C1.CorrelationId) => x.length == 0  -- correlationid.rs:58-60
  | .BearerControlMode => fun (x : C1.BearerControlMode) => x.length == 0  -- bearercontrolmode.rs:58-60
  | .EvolvedAllocationRetentionI => fun (x : C1.EvolvedAllocationRetentionI) => x.length == 0  -- evolvedallocretentioni.rs:68-70
  | .ExtendedCommonFlags => fun (x : C1.ExtendedCommonFlags) => x.length == 0  -- extendedcommonflags.rs:95-97
  | .Uci => fun (x : C1.Uci) => x.length == 0  -- uci.rs:112-114
  | .CSGInformationReportingAction => fun (x : C1.CSGInformationReportingAction) => x.length == 0  -- csginforeporting.rs:57-59
  | .ApnAmbr => fun (x : C1.ApnAmbr) => x.length == 0  -- apnambr.rs:62-64
  | .GGSNBackOffTime => fun (x : C1.GGSNBackOffTime) => x.length == 0  -- ggsnbackofftime.rs:65-67
  | .Spi => fun (x : C1.Spi) => x.length == 0  -- spi.rs:65-67
  | .UliTimestamp => fun (x : C1.UliTimestamp) => x.length == 0  -- ulitimestamp.rs:55-57
  | .CnOperatorSelectionEntity => fun (x : C1.CnOperatorSelectionEntity) => x.length == 0  -- cnose.rs:75-77
  | .ExtendedCommonFlagsII => fun (x : C1.ExtendedCommonFlagsII) => x.length == 0  -- extendedcommonflagsii.rs:73-75
  | .MappedUeUsageType => fun (x : C1.MappedUeUsageType) => x.length == 0  -- mueut.rs:58-60
  | .UpFunctionSelectionIndicationFlags => fun (x : C1.UpFunctionSelectionIndicationFlags) => x.length == 0  -- upfsif.rs:65-67
  | .ChargingGWAddress => fun (x : C1.ChargingGWAddress) => x.length == 0  -- charginggwaddress.rs:74-76
  | .PrivateExtension => fun (x : C1.PrivateExtension) => x.length == 0  -- privateextension.rs:62-64

/-- Whether `is_empty` looks at a length that is read from the two octets behind the type. -/
def hasLength : Kind → Bool
  | .EndUserAddress => true
  | .Apn => true
  | .Pco => true
  | .GsnAddress => true
  | .Msisdn => true
  | .Qos => true
  | .Tft => true
  | .TriggerId => true
  | .OmcId => true
  | .CommonFlags => true
  | .ApnRestriction => true
  | .RatType => true
  | .Uli => true
  | .MsTimeZone => true
  | .CamelChargingInfoContainer => true
  | .AdditionalTraceInfo => true
  | .MSInfoChangeReportingAction => true
  | .DirectTunnelFlags => true
  | .CorrelationId => true
  | .BearerControlMode => true
  | .EvolvedAllocationRetentionI => true
  | .ExtendedCommonFlags => true
  | .Uci => true
  | .CSGInformationReportingAction => true
  | .ApnAmbr => true
  | .GGSNBackOffTime => true
  | .Spi => true
  | .UliTimestamp => true
  | .CnOperatorSelectionEntity => true
  | .ExtendedCommonFlagsII => true
  | .MappedUeUsageType => true
  | .UpFunctionSelectionIndicationFlags => true
  | .ChargingGWAddress => true
  | .PrivateExtension => true
  | _ => false

/-- The length field of a decoded element is what was received. -/
theorem isEmpty_length (k : Kind) (hk : k.hasLength = true) (m : Mode) (b : Bytes) (x : k.Ty) (h : k.codec.unm m b = .ok x) :
    k.isEmpty x = (declLen b == 0) := by
  cases k <;> first | (cases hk; done) | skip
  case EndUserAddress =>
    change C1.EndUserAddress.unmarshal m b = .ok x at h
    change (C1.EndUserAddress.length x == 0) = _
    refine congrArg (· == 0) ?_
    unfold C1.EndUserAddress.unmarshal at h
    by_len h
  case Apn =>
    change C1.Apn.unmarshal m b = .ok x at h
    change (C1.Apn.length x == 0) = _
    refine congrArg (· == 0) ?_
    unfold C1.Apn.unmarshal at h
    by_len h
  case Pco =>
    change C1.Pco.unmarshal m b = .ok x at h
    change (C1.Pco.length x == 0) = _
    refine congrArg (· == 0) ?_
    unfold C1.Pco.unmarshal at h
    by_len h
  case GsnAddress =>
    change C1.GsnAddress.unmarshal m b = .ok x at h
    change (C1.GsnAddress.length x == 0) = _
    refine congrArg (· == 0) ?_
    unfold C1.GsnAddress.unmarshal at h
    by_len h
  case Msisdn =>
    change C1.Msisdn.unmarshal m b = .ok x at h
    change (C1.Msisdn.length x == 0) = _
    refine congrArg (· == 0) ?_
    unfold C1.Msisdn.unmarshal at h
    by_len h
  case Qos =>
    change C1.Qos.unmarshal m b = .ok x at h
    change (C1.Qos.length x == 0) = _
    refine congrArg (· == 0) ?_
    unfold C1.Qos.unmarshal at h
    by_len h
  case Tft =>
    change C1.Tft.unmarshal m b = .ok x at h
    change (C1.Tft.length x == 0) = _
    refine congrArg (· == 0) ?_
    unfold C1.Tft.unmarshal at h
    by_len h
  case TriggerId =>
    change C1.TriggerId.unmarshal m b = .ok x at h
    change (C1.TriggerId.length x == 0) = _
    refine congrArg (· == 0) ?_
    unfold C1.TriggerId.unmarshal at h
    by_len h
  case OmcId =>
    change C1.OmcId.unmarshal m b = .ok x at h
    change (C1.OmcId.length x == 0) = _
    refine congrArg (· == 0) ?_
    unfold C1.OmcId.unmarshal at h
    by_len h
  case CommonFlags =>
    change C1.CommonFlags.unmarshal m b = .ok x at h
    change (C1.CommonFlags.length x == 0) = _
    refine congrArg (· == 0) ?_
    unfold C1.CommonFlags.unmarshal at h
    by_len h
  case ApnRestriction =>
    change C1.ApnRestriction.unmarshal m b = .ok x at h
    change (C1.ApnRestriction.length x == 0) = _
    refine congrArg (· == 0) ?_
    unfold C1.ApnRestriction.unmarshal at h
    by_len h
  case RatType =>
    change C1.RatType.unmarshal m b = .ok x at h
    change (C1.RatType.length x == 0) = _
    refine congrArg (· == 0) ?_
    unfold C1.RatType.unmarshal at h
    by_len h
  case Uli =>
    change C1.Uli.unmarshal m b = .ok x at h
    change (C1.Uli.length x == 0) = _
    refine congrArg (· == 0) ?_
    unfold C1.Uli.unmarshal at h
    by_len h
  case MsTimeZone =>
    change C1.MsTimeZone.unmarshal m b = .ok x at h
    change (C1.MsTimeZone.length x == 0) = _
    refine congrArg (· == 0) ?_
    unfold C1.MsTimeZone.unmarshal at h
    by_len h
  case CamelChargingInfoContainer =>
    change C1.CamelChargingInfoContainer.unmarshal m b = .ok x at h
    change (C1.CamelChargingInfoContainer.length x == 0) = _
    refine congrArg (· == 0) ?_
    unfold C1.CamelChargingInfoContainer.unmarshal at h
    by_len h
  case AdditionalTraceInfo =>
    change C1.AdditionalTraceInfo.unmarshal m b = .ok x at h
    change (C1.AdditionalTraceInfo.length x == 0) = _
    refine congrArg (· == 0) ?_
    unfold C1.AdditionalTraceInfo.unmarshal at h
    by_len h
  case MSInfoChangeReportingAction =>
    change C1.MSInfoChangeReportingAction.unmarshal m b = .ok x at h
    change (C1.MSInfoChangeReportingAction.length x == 0) = _
    refine congrArg (· == 0) ?_
    unfold C1.MSInfoChangeReportingAction.unmarshal at h
    by_len h
  case DirectTunnelFlags =>
    change C1.DirectTunnelFlags.unmarshal m b = .ok x at h
    change (C1.DirectTunnelFlags.length x == 0) = _
    refine congrArg (· == 0) ?_
    unfold C1.DirectTunnelFlags.unmarshal at h
    by_len h
  case CorrelationId =>
    change C1.CorrelationId.unmarshal m b = .ok x at h
    change (C1.CorrelationId.length x == 0) = _
    refine congrArg (· == 0) ?_
    unfold C1.CorrelationId.unmarshal at h
    by_len h
  case BearerControlMode =>
    change C1.BearerControlMode.unmarshal m b = .ok x at h
    change (C1.BearerControlMode.length x == 0) = _
    refine congrArg (· == 0) ?_
    unfold C1.BearerControlMode.unmarshal at h
    by_len h
  case EvolvedAllocationRetentionI =>
    change C1.EvolvedAllocationRetentionI.unmarshal m b = .ok x at h
    change (C1.EvolvedAllocationRetentionI.length x == 0) = _
    refine congrArg (· == 0) ?_
    unfold C1.EvolvedAllocationRetentionI.unmarshal at h
    by_len h
  case ExtendedCommonFlags =>
    change C1.ExtendedCommonFlags.unmarshal m b = .ok x at h
    change (C1.ExtendedCommonFlags.length x == 0) = _
    refine congrArg (· == 0) ?_
    unfold C1.ExtendedCommonFlags.unmarshal at h
    by_len h
  case Uci =>
    change C1.Uci.unmarshal m b = .ok x at h
    change (C1.Uci.length x == 0) = _
    refine congrArg (· == 0) ?_
    unfold C1.Uci.unmarshal at h
    by_len h
  case CSGInformationReportingAction =>
    change C1.CSGInformationReportingAction.unmarshal m b = .ok x at h
    change (C1.CSGInformationReportingAction.length x == 0) = _
    refine congrArg (· == 0) ?_
    unfold C1.CSGInformationReportingAction.unmarshal at h
    by_len h
  case ApnAmbr =>
    change C1.ApnAmbr.unmarshal m b = .ok x at h
    change (C1.ApnAmbr.length x == 0) = _
    refine congrArg (· == 0) ?_
    unfold C1.ApnAmbr.unmarshal at h
    by_len h
  case GGSNBackOffTime =>
    change C1.GGSNBackOffTime.unmarshal m b = .ok x at h
    change (C1.GGSNBackOffTime.length x == 0) = _
    refine congrArg (· == 0) ?_
    unfold C1.GGSNBackOffTime.unmarshal at h
    by_len h
  case Spi =>
    change C1.Spi.unmarshal m b = .ok x at h
    change (C1.Spi.length x == 0) = _
    refine congrArg (· == 0) ?_
    unfold C1.Spi.unmarshal at h
    by_len h
  case UliTimestamp =>
    change C1.UliTimestamp.unmarshal m b = .ok x at h
    change (C1.UliTimestamp.length x == 0) = _
    refine congrArg (· == 0) ?_
    unfold C1.UliTimestamp.unmarshal at h
    by_len h
  case CnOperatorSelectionEntity =>
    change C1.CnOperatorSelectionEntity.unmarshal m b = .ok x at h
    change (C1.CnOperatorSelectionEntity.length x == 0) = _
    refine congrArg (· == 0) ?_
    unfold C1.CnOperatorSelectionEntity.unmarshal at h
    by_len h
  case ExtendedCommonFlagsII =>
    change C1.ExtendedCommonFlagsII.unmarshal m b = .ok x at h
    change (C1.ExtendedCommonFlagsII.length x == 0) = _
    refine congrArg (· == 0) ?_
    unfold C1.ExtendedCommonFlagsII.unmarshal at h
    by_len h
  case MappedUeUsageType =>
    change C1.MappedUeUsageType.unmarshal m b = .ok x at h
    change (C1.MappedUeUsageType.length x == 0) = _
    refine congrArg (· == 0) ?_
    unfold C1.MappedUeUsageType.unmarshal at h
    by_len h
  case UpFunctionSelectionIndicationFlags =>
    change C1.UpFunctionSelectionIndicationFlags.unmarshal m b = .ok x at h
    change (C1.UpFunctionSelectionIndicationFlags.length x == 0) = _
    refine congrArg (· == 0) ?_
    unfold C1.UpFunctionSelectionIndicationFlags.unmarshal at h
    by_len h
  case ChargingGWAddress =>
    change C1.ChargingGWAddress.unmarshal m b = .ok x at h
    change (C1.ChargingGWAddress.length x == 0) = _
    refine congrArg (· == 0) ?_
    unfold C1.ChargingGWAddress.unmarshal at h
    by_len h
  case PrivateExtension =>
    change C1.PrivateExtension.unmarshal m b = .ok x at h
    change (C1.PrivateExtension.length x == 0) = _
    refine congrArg (· == 0) ?_
    unfold C1.PrivateExtension.unmarshal at h
    by_len h

end Kind

end Gtp.C1
