import Verif.C1.Ies.Tv
import Verif.C1.Ies.Fixed
import Verif.C1.Ies.Flags
import Verif.C1.Ies.Octets
import Verif.C1.Ies.Special

/-!
# The kinds of GTPv1-C information elements

Expanded by `scripts/gen_c1_kinds.py`: one constructor for each structure of
`/repo/src/gtpv1/gtpc/messages/ies`, and the facts proved about each, collected by kind.
-/

namespace Gtp.C1
open Gtp.V1
open Gtp.U (len3)
open Gtp.V2 (declLen)

/-- The structures of `ies/*.rs` that implement `IEs`. -/
inductive Kind where
  | Cause
  | Imsi
  | Rai
  | ReorderingRequired
  | Recovery
  | SelectionMode
  | Teid
  | TeardownInd
  | Nsapi
  | ChargingCharacteristics
  | TraceReference
  | TraceType
  | ChargingID
  | EndUserAddress
  | Apn
  | Pco
  | GsnAddress
  | Msisdn
  | Qos
  | Tft
  | ExtensionHeaderTypeList
  | TriggerId
  | OmcId
  | CommonFlags
  | ApnRestriction
  | RatType
  | Uli
  | MsTimeZone
  | Imei
  | CamelChargingInfoContainer
  | AdditionalTraceInfo
  | MSInfoChangeReportingAction
  | DirectTunnelFlags
  | CorrelationId
  | BearerControlMode
  | EvolvedAllocationRetentionI
  | ExtendedCommonFlags
  | Uci
  | CSGInformationReportingAction
  | ApnAmbr
  | GGSNBackOffTime
  | Spi
  | UliTimestamp
  | CnOperatorSelectionEntity
  | ExtendedCommonFlagsII
  | MappedUeUsageType
  | UpFunctionSelectionIndicationFlags
  | ChargingGWAddress
  | PrivateExtension
deriving DecidableEq, Repr

namespace Kind

/-- All kinds. -/
def all : List Kind := [
  .Cause, .Imsi, .Rai, .ReorderingRequired, .Recovery, .SelectionMode,
  .Teid, .TeardownInd, .Nsapi, .ChargingCharacteristics, .TraceReference, .TraceType,
  .ChargingID, .EndUserAddress, .Apn, .Pco, .GsnAddress, .Msisdn,
  .Qos, .Tft, .ExtensionHeaderTypeList, .TriggerId, .OmcId, .CommonFlags,
  .ApnRestriction, .RatType, .Uli, .MsTimeZone, .Imei, .CamelChargingInfoContainer,
  .AdditionalTraceInfo, .MSInfoChangeReportingAction, .DirectTunnelFlags, .CorrelationId, .BearerControlMode, .EvolvedAllocationRetentionI,
  .ExtendedCommonFlags, .Uci, .CSGInformationReportingAction, .ApnAmbr, .GGSNBackOffTime, .Spi,
  .UliTimestamp, .CnOperatorSelectionEntity, .ExtendedCommonFlagsII, .MappedUeUsageType, .UpFunctionSelectionIndicationFlags, .ChargingGWAddress,
  .PrivateExtension]

theorem mem_all (k : Kind) : k ∈ all := by cases k <;> decide

/-- The type of the values of a kind. -/
def Ty : Kind → Type
  | .Cause => C1.Cause
  | .Imsi => C1.Imsi
  | .Rai => C1.Rai
  | .ReorderingRequired => C1.ReorderingRequired
  | .Recovery => C1.Recovery
  | .SelectionMode => C1.SelectionMode
  | .Teid => C1.Teid
  | .TeardownInd => C1.TeardownInd
  | .Nsapi => C1.Nsapi
  | .ChargingCharacteristics => C1.ChargingCharacteristics
  | .TraceReference => C1.TraceReference
  | .TraceType => C1.TraceType
  | .ChargingID => C1.ChargingID
  | .EndUserAddress => C1.EndUserAddress
  | .Apn => C1.Apn
  | .Pco => C1.Pco
  | .GsnAddress => C1.GsnAddress
  | .Msisdn => C1.Msisdn
  | .Qos => C1.Qos
  | .Tft => C1.Tft
  | .ExtensionHeaderTypeList => C1.ExtensionHeaderTypeList
  | .TriggerId => C1.TriggerId
  | .OmcId => C1.OmcId
  | .CommonFlags => C1.CommonFlags
  | .ApnRestriction => C1.ApnRestriction
  | .RatType => C1.RatType
  | .Uli => C1.Uli
  | .MsTimeZone => C1.MsTimeZone
  | .Imei => C1.Imei
  | .CamelChargingInfoContainer => C1.CamelChargingInfoContainer
  | .AdditionalTraceInfo => C1.AdditionalTraceInfo
  | .MSInfoChangeReportingAction => C1.MSInfoChangeReportingAction
  | .DirectTunnelFlags => C1.DirectTunnelFlags
  | .CorrelationId => C1.CorrelationId
  | .BearerControlMode => C1.BearerControlMode
  | .EvolvedAllocationRetentionI => C1.EvolvedAllocationRetentionI
  | .ExtendedCommonFlags => C1.ExtendedCommonFlags
  | .Uci => C1.Uci
  | .CSGInformationReportingAction => C1.CSGInformationReportingAction
  | .ApnAmbr => C1.ApnAmbr
  | .GGSNBackOffTime => C1.GGSNBackOffTime
  | .Spi => C1.Spi
  | .UliTimestamp => C1.UliTimestamp
  | .CnOperatorSelectionEntity => C1.CnOperatorSelectionEntity
  | .ExtendedCommonFlagsII => C1.ExtendedCommonFlagsII
  | .MappedUeUsageType => C1.MappedUeUsageType
  | .UpFunctionSelectionIndicationFlags => C1.UpFunctionSelectionIndicationFlags
  | .ChargingGWAddress => C1.ChargingGWAddress
  | .PrivateExtension => C1.PrivateExtension

end Kind

/-- The functions of `trait IEs` (ies/commons.rs) for one structure, its default value, and the values
for which its round trip is proved. -/
structure Codec (α : Type) where
  /-- `marshal`: the octets appended to the buffer. -/
  mar : α → Bytes
  /-- `unmarshal`. -/
  unm : Mode → Bytes → R Err α
  /-- `len`. -/
  len : Mode → α → R Err Nat
  /-- `default`. -/
  dflt : α
  /-- The well-formed values. -/
  WF : α → Prop

namespace Kind

/-- The functions of a kind. -/
def codec : (k : Kind) → Codec k.Ty
  | .Cause => ⟨C1.Cause.marshal, C1.Cause.unmarshal, C1.Cause.len, C1.Cause.dflt, C1.Cause.WF⟩
  | .Imsi => ⟨C1.Imsi.marshal, C1.Imsi.unmarshal, C1.Imsi.len, C1.Imsi.dflt, C1.Imsi.WF⟩
  | .Rai => ⟨C1.Rai.marshal, C1.Rai.unmarshal, C1.Rai.len, C1.Rai.dflt, C1.Rai.WF⟩
  | .ReorderingRequired => ⟨C1.ReorderingRequired.marshal, C1.ReorderingRequired.unmarshal, C1.ReorderingRequired.len, C1.ReorderingRequired.dflt, C1.ReorderingRequired.WF⟩
  | .Recovery => ⟨C1.Recovery.marshal, C1.Recovery.unmarshal, C1.Recovery.len, C1.Recovery.dflt, C1.Recovery.WF⟩
  | .SelectionMode => ⟨C1.SelectionMode.marshal, C1.SelectionMode.unmarshal, C1.SelectionMode.len, C1.SelectionMode.dflt, C1.SelectionMode.WF⟩
  | .Teid => ⟨C1.Teid.marshal, C1.Teid.unmarshal, C1.Teid.len, C1.Teid.dflt, C1.Teid.WF⟩
  | .TeardownInd => ⟨C1.TeardownInd.marshal, C1.TeardownInd.unmarshal, C1.TeardownInd.len, C1.TeardownInd.dflt, C1.TeardownInd.WF⟩
  | .Nsapi => ⟨C1.Nsapi.marshal, C1.Nsapi.unmarshal, C1.Nsapi.len, C1.Nsapi.dflt, C1.Nsapi.WF⟩
  | .ChargingCharacteristics => ⟨C1.ChargingCharacteristics.marshal, C1.ChargingCharacteristics.unmarshal, C1.ChargingCharacteristics.len, C1.ChargingCharacteristics.dflt, C1.ChargingCharacteristics.WF⟩
  | .TraceReference => ⟨C1.TraceReference.marshal, C1.TraceReference.unmarshal, C1.TraceReference.len, C1.TraceReference.dflt, C1.TraceReference.WF⟩
  | .TraceType => ⟨C1.TraceType.marshal, C1.TraceType.unmarshal, C1.TraceType.len, C1.TraceType.dflt, C1.TraceType.WF⟩
  | .ChargingID => ⟨C1.ChargingID.marshal, C1.ChargingID.unmarshal, C1.ChargingID.len, C1.ChargingID.dflt, C1.ChargingID.WF⟩
  | .EndUserAddress => ⟨C1.EndUserAddress.marshal, C1.EndUserAddress.unmarshal, C1.EndUserAddress.len, C1.EndUserAddress.dflt, C1.EndUserAddress.WF⟩
  | .Apn => ⟨C1.Apn.marshal, C1.Apn.unmarshal, C1.Apn.len, C1.Apn.dflt, C1.Apn.WF⟩
  | .Pco => ⟨C1.Pco.marshal, C1.Pco.unmarshal, C1.Pco.len, C1.Pco.dflt, C1.Pco.WF⟩
  | .GsnAddress => ⟨C1.GsnAddress.marshal, C1.GsnAddress.unmarshal, C1.GsnAddress.len, C1.GsnAddress.dflt, C1.GsnAddress.WF⟩
  | .Msisdn => ⟨C1.Msisdn.marshal, C1.Msisdn.unmarshal, C1.Msisdn.len, C1.Msisdn.dflt, C1.Msisdn.WF⟩
  | .Qos => ⟨C1.Qos.marshal, C1.Qos.unmarshal, C1.Qos.len, C1.Qos.dflt, C1.Qos.WF⟩
  | .Tft => ⟨C1.Tft.marshal, C1.Tft.unmarshal, C1.Tft.len, C1.Tft.dflt, C1.Tft.WF⟩
  | .ExtensionHeaderTypeList => ⟨C1.ExtensionHeaderTypeList.marshal, C1.ExtensionHeaderTypeList.unmarshal, C1.ExtensionHeaderTypeList.len, C1.ExtensionHeaderTypeList.dflt, C1.ExtensionHeaderTypeList.WF⟩
  | .TriggerId => ⟨C1.TriggerId.marshal, C1.TriggerId.unmarshal, C1.TriggerId.len, C1.TriggerId.dflt, C1.TriggerId.WF⟩
  | .OmcId => ⟨C1.OmcId.marshal, C1.OmcId.unmarshal, C1.OmcId.len, C1.OmcId.dflt, C1.OmcId.WF⟩
  | .CommonFlags => ⟨C1.CommonFlags.marshal, C1.CommonFlags.unmarshal, C1.CommonFlags.len, C1.CommonFlags.dflt, C1.CommonFlags.WF⟩
  | .ApnRestriction => ⟨C1.ApnRestriction.marshal, C1.ApnRestriction.unmarshal, C1.ApnRestriction.len, C1.ApnRestriction.dflt, C1.ApnRestriction.WF⟩
  | .RatType => ⟨C1.RatType.marshal, C1.RatType.unmarshal, C1.RatType.len, C1.RatType.dflt, C1.RatType.WF⟩
  | .Uli => ⟨C1.Uli.marshal, C1.Uli.unmarshal, C1.Uli.len, C1.Uli.dflt, C1.Uli.WF⟩
  | .MsTimeZone => ⟨C1.MsTimeZone.marshal, C1.MsTimeZone.unmarshal, C1.MsTimeZone.len, C1.MsTimeZone.dflt, C1.MsTimeZone.WF⟩
  | .Imei => ⟨C1.Imei.marshal, C1.Imei.unmarshal, C1.Imei.len, C1.Imei.dflt, C1.Imei.WF⟩
  | .CamelChargingInfoContainer => ⟨C1.CamelChargingInfoContainer.marshal, C1.CamelChargingInfoContainer.unmarshal, C1.CamelChargingInfoContainer.len, C1.CamelChargingInfoContainer.dflt, C1.CamelChargingInfoContainer.WF⟩
  | .AdditionalTraceInfo => ⟨C1.AdditionalTraceInfo.marshal, C1.AdditionalTraceInfo.unmarshal, C1.AdditionalTraceInfo.len, C1.AdditionalTraceInfo.dflt, C1.AdditionalTraceInfo.WF⟩
  | .MSInfoChangeReportingAction => ⟨C1.MSInfoChangeReportingAction.marshal, C1.MSInfoChangeReportingAction.unmarshal, C1.MSInfoChangeReportingAction.len, C1.MSInfoChangeReportingAction.dflt, C1.MSInfoChangeReportingAction.WF⟩
  | .DirectTunnelFlags => ⟨C1.DirectTunnelFlags.marshal, C1.DirectTunnelFlags.unmarshal, C1.DirectTunnelFlags.len, C1.DirectTunnelFlags.dflt, C1.DirectTunnelFlags.WF⟩
  | .CorrelationId => ⟨C1.CorrelationId.marshal, C1.CorrelationId.unmarshal, C1.CorrelationId.len, C1.CorrelationId.dflt, C1.CorrelationId.WF⟩
  | .BearerControlMode => ⟨C1.BearerControlMode.marshal, C1.BearerControlMode.unmarshal, C1.BearerControlMode.len, C1.BearerControlMode.dflt, C1.BearerControlMode.WF⟩
  | .EvolvedAllocationRetentionI => ⟨C1.EvolvedAllocationRetentionI.marshal, C1.EvolvedAllocationRetentionI.unmarshal, C1.EvolvedAllocationRetentionI.len, C1.EvolvedAllocationRetentionI.dflt, C1.EvolvedAllocationRetentionI.WF⟩
  | .ExtendedCommonFlags => ⟨C1.ExtendedCommonFlags.marshal, C1.ExtendedCommonFlags.unmarshal, C1.ExtendedCommonFlags.len, C1.ExtendedCommonFlags.dflt, C1.ExtendedCommonFlags.WF⟩
  | .Uci => ⟨C1.Uci.marshal, C1.Uci.unmarshal, C1.Uci.len, C1.Uci.dflt, C1.Uci.WF⟩
  | .CSGInformationReportingAction => ⟨C1.CSGInformationReportingAction.marshal, C1.CSGInformationReportingAction.unmarshal, C1.CSGInformationReportingAction.len, C1.CSGInformationReportingAction.dflt, C1.CSGInformationReportingAction.WF⟩
  | .ApnAmbr => ⟨C1.ApnAmbr.marshal, C1.ApnAmbr.unmarshal, C1.ApnAmbr.len, C1.ApnAmbr.dflt, C1.ApnAmbr.WF⟩
  | .GGSNBackOffTime => ⟨C1.GGSNBackOffTime.marshal, C1.GGSNBackOffTime.unmarshal, C1.GGSNBackOffTime.len, C1.GGSNBackOffTime.dflt, C1.GGSNBackOffTime.WF⟩
  | .Spi => ⟨C1.Spi.marshal, C1.Spi.unmarshal, C1.Spi.len, C1.Spi.dflt, C1.Spi.WF⟩
  | .UliTimestamp => ⟨C1.UliTimestamp.marshal, C1.UliTimestamp.unmarshal, C1.UliTimestamp.len, C1.UliTimestamp.dflt, C1.UliTimestamp.WF⟩
  | .CnOperatorSelectionEntity => ⟨C1.CnOperatorSelectionEntity.marshal, C1.CnOperatorSelectionEntity.unmarshal, C1.CnOperatorSelectionEntity.len, C1.CnOperatorSelectionEntity.dflt, C1.CnOperatorSelectionEntity.WF⟩
  | .ExtendedCommonFlagsII => ⟨C1.ExtendedCommonFlagsII.marshal, C1.ExtendedCommonFlagsII.unmarshal, C1.ExtendedCommonFlagsII.len, C1.ExtendedCommonFlagsII.dflt, C1.ExtendedCommonFlagsII.WF⟩
  | .MappedUeUsageType => ⟨C1.MappedUeUsageType.marshal, C1.MappedUeUsageType.unmarshal, C1.MappedUeUsageType.len, C1.MappedUeUsageType.dflt, C1.MappedUeUsageType.WF⟩
  | .UpFunctionSelectionIndicationFlags => ⟨C1.UpFunctionSelectionIndicationFlags.marshal, C1.UpFunctionSelectionIndicationFlags.unmarshal, C1.UpFunctionSelectionIndicationFlags.len, C1.UpFunctionSelectionIndicationFlags.dflt, C1.UpFunctionSelectionIndicationFlags.WF⟩
  | .ChargingGWAddress => ⟨C1.ChargingGWAddress.marshal, C1.ChargingGWAddress.unmarshal, C1.ChargingGWAddress.len, C1.ChargingGWAddress.dflt, C1.ChargingGWAddress.WF⟩
  | .PrivateExtension => ⟨C1.PrivateExtension.marshal, C1.PrivateExtension.unmarshal, C1.PrivateExtension.len, C1.PrivateExtension.dflt, C1.PrivateExtension.WF⟩

instance instDecEq : (k : Kind) → DecidableEq k.Ty
  | .Cause => inferInstanceAs (DecidableEq C1.Cause)
  | .Imsi => inferInstanceAs (DecidableEq C1.Imsi)
  | .Rai => inferInstanceAs (DecidableEq C1.Rai)
  | .ReorderingRequired => inferInstanceAs (DecidableEq C1.ReorderingRequired)
  | .Recovery => inferInstanceAs (DecidableEq C1.Recovery)
  | .SelectionMode => inferInstanceAs (DecidableEq C1.SelectionMode)
  | .Teid => inferInstanceAs (DecidableEq C1.Teid)
  | .TeardownInd => inferInstanceAs (DecidableEq C1.TeardownInd)
  | .Nsapi => inferInstanceAs (DecidableEq C1.Nsapi)
  | .ChargingCharacteristics => inferInstanceAs (DecidableEq C1.ChargingCharacteristics)
  | .TraceReference => inferInstanceAs (DecidableEq C1.TraceReference)
  | .TraceType => inferInstanceAs (DecidableEq C1.TraceType)
  | .ChargingID => inferInstanceAs (DecidableEq C1.ChargingID)
  | .EndUserAddress => inferInstanceAs (DecidableEq C1.EndUserAddress)
  | .Apn => inferInstanceAs (DecidableEq C1.Apn)
  | .Pco => inferInstanceAs (DecidableEq C1.Pco)
  | .GsnAddress => inferInstanceAs (DecidableEq C1.GsnAddress)
  | .Msisdn => inferInstanceAs (DecidableEq C1.Msisdn)
  | .Qos => inferInstanceAs (DecidableEq C1.Qos)
  | .Tft => inferInstanceAs (DecidableEq C1.Tft)
  | .ExtensionHeaderTypeList => inferInstanceAs (DecidableEq C1.ExtensionHeaderTypeList)
  | .TriggerId => inferInstanceAs (DecidableEq C1.TriggerId)
  | .OmcId => inferInstanceAs (DecidableEq C1.OmcId)
  | .CommonFlags => inferInstanceAs (DecidableEq C1.CommonFlags)
  | .ApnRestriction => inferInstanceAs (DecidableEq C1.ApnRestriction)
  | .RatType => inferInstanceAs (DecidableEq C1.RatType)
  | .Uli => inferInstanceAs (DecidableEq C1.Uli)
  | .MsTimeZone => inferInstanceAs (DecidableEq C1.MsTimeZone)
  | .Imei => inferInstanceAs (DecidableEq C1.Imei)
  | .CamelChargingInfoContainer => inferInstanceAs (DecidableEq C1.CamelChargingInfoContainer)
  | .AdditionalTraceInfo => inferInstanceAs (DecidableEq C1.AdditionalTraceInfo)
  | .MSInfoChangeReportingAction => inferInstanceAs (DecidableEq C1.MSInfoChangeReportingAction)
  | .DirectTunnelFlags => inferInstanceAs (DecidableEq C1.DirectTunnelFlags)
  | .CorrelationId => inferInstanceAs (DecidableEq C1.CorrelationId)
  | .BearerControlMode => inferInstanceAs (DecidableEq C1.BearerControlMode)
  | .EvolvedAllocationRetentionI => inferInstanceAs (DecidableEq C1.EvolvedAllocationRetentionI)
  | .ExtendedCommonFlags => inferInstanceAs (DecidableEq C1.ExtendedCommonFlags)
  | .Uci => inferInstanceAs (DecidableEq C1.Uci)
  | .CSGInformationReportingAction => inferInstanceAs (DecidableEq C1.CSGInformationReportingAction)
  | .ApnAmbr => inferInstanceAs (DecidableEq C1.ApnAmbr)
  | .GGSNBackOffTime => inferInstanceAs (DecidableEq C1.GGSNBackOffTime)
  | .Spi => inferInstanceAs (DecidableEq C1.Spi)
  | .UliTimestamp => inferInstanceAs (DecidableEq C1.UliTimestamp)
  | .CnOperatorSelectionEntity => inferInstanceAs (DecidableEq C1.CnOperatorSelectionEntity)
  | .ExtendedCommonFlagsII => inferInstanceAs (DecidableEq C1.ExtendedCommonFlagsII)
  | .MappedUeUsageType => inferInstanceAs (DecidableEq C1.MappedUeUsageType)
  | .UpFunctionSelectionIndicationFlags => inferInstanceAs (DecidableEq C1.UpFunctionSelectionIndicationFlags)
  | .ChargingGWAddress => inferInstanceAs (DecidableEq C1.ChargingGWAddress)
  | .PrivateExtension => inferInstanceAs (DecidableEq C1.PrivateExtension)

def decWF : (k : Kind) → (x : k.Ty) → Decidable (k.codec.WF x)
  | .Cause => fun (x : C1.Cause) => inferInstanceAs (Decidable (C1.Cause.WF x))
  | .Imsi => fun (x : C1.Imsi) => inferInstanceAs (Decidable (C1.Imsi.WF x))
  | .Rai => fun (x : C1.Rai) => inferInstanceAs (Decidable (C1.Rai.WF x))
  | .ReorderingRequired => fun (x : C1.ReorderingRequired) => inferInstanceAs (Decidable (C1.ReorderingRequired.WF x))
  | .Recovery => fun (x : C1.Recovery) => inferInstanceAs (Decidable (C1.Recovery.WF x))
  | .SelectionMode => fun (x : C1.SelectionMode) => inferInstanceAs (Decidable (C1.SelectionMode.WF x))
  | .Teid => fun (x : C1.Teid) => inferInstanceAs (Decidable (C1.Teid.WF x))
  | .TeardownInd => fun (x : C1.TeardownInd) => inferInstanceAs (Decidable (C1.TeardownInd.WF x))
  | .Nsapi => fun (x : C1.Nsapi) => inferInstanceAs (Decidable (C1.Nsapi.WF x))
  | .ChargingCharacteristics => fun (x : C1.ChargingCharacteristics) => inferInstanceAs (Decidable (C1.ChargingCharacteristics.WF x))
  | .TraceReference => fun (x : C1.TraceReference) => inferInstanceAs (Decidable (C1.TraceReference.WF x))
  | .TraceType => fun (x : C1.TraceType) => inferInstanceAs (Decidable (C1.TraceType.WF x))
  | .ChargingID => fun (x : C1.ChargingID) => inferInstanceAs (Decidable (C1.ChargingID.WF x))
  | .EndUserAddress => fun (x : C1.EndUserAddress) => inferInstanceAs (Decidable (C1.EndUserAddress.WF x))
  | .Apn => fun (x : C1.Apn) => inferInstanceAs (Decidable (C1.Apn.WF x))
  | .Pco => fun (x : C1.Pco) => inferInstanceAs (Decidable (C1.Pco.WF x))
  | .GsnAddress => fun (x : C1.GsnAddress) => inferInstanceAs (Decidable (C1.GsnAddress.WF x))
  | .Msisdn => fun (x : C1.Msisdn) => inferInstanceAs (Decidable (C1.Msisdn.WF x))
  | .Qos => fun (x : C1.Qos) => inferInstanceAs (Decidable (C1.Qos.WF x))
  | .Tft => fun (x : C1.Tft) => inferInstanceAs (Decidable (C1.Tft.WF x))
  | .ExtensionHeaderTypeList => fun (x : C1.ExtensionHeaderTypeList) => inferInstanceAs (Decidable (C1.ExtensionHeaderTypeList.WF x))
  | .TriggerId => fun (x : C1.TriggerId) => inferInstanceAs (Decidable (C1.TriggerId.WF x))
  | .OmcId => fun (x : C1.OmcId) => inferInstanceAs (Decidable (C1.OmcId.WF x))
  | .CommonFlags => fun (x : C1.CommonFlags) => inferInstanceAs (Decidable (C1.CommonFlags.WF x))
  | .ApnRestriction => fun (x : C1.ApnRestriction) => inferInstanceAs (Decidable (C1.ApnRestriction.WF x))
  | .RatType => fun (x : C1.RatType) => inferInstanceAs (Decidable (C1.RatType.WF x))
  | .Uli => fun (x : C1.Uli) => inferInstanceAs (Decidable (C1.Uli.WF x))
  | .MsTimeZone => fun (x : C1.MsTimeZone) => inferInstanceAs (Decidable (C1.MsTimeZone.WF x))
  | .Imei => fun (x : C1.Imei) => inferInstanceAs (Decidable (C1.Imei.WF x))
  | .CamelChargingInfoContainer => fun (x : C1.CamelChargingInfoContainer) => inferInstanceAs (Decidable (C1.CamelChargingInfoContainer.WF x))
  | .AdditionalTraceInfo => fun (x : C1.AdditionalTraceInfo) => inferInstanceAs (Decidable (C1.AdditionalTraceInfo.WF x))
  | .MSInfoChangeReportingAction => fun (x : C1.MSInfoChangeReportingAction) => inferInstanceAs (Decidable (C1.MSInfoChangeReportingAction.WF x))
  | .DirectTunnelFlags => fun (x : C1.DirectTunnelFlags) => inferInstanceAs (Decidable (C1.DirectTunnelFlags.WF x))
  | .CorrelationId => fun (x : C1.CorrelationId) => inferInstanceAs (Decidable (C1.CorrelationId.WF x))
  | .BearerControlMode => fun (x : C1.BearerControlMode) => inferInstanceAs (Decidable (C1.BearerControlMode.WF x))
  | .EvolvedAllocationRetentionI => fun (x : C1.EvolvedAllocationRetentionI) => inferInstanceAs (Decidable (C1.EvolvedAllocationRetentionI.WF x))
  | .ExtendedCommonFlags => fun (x : C1.ExtendedCommonFlags) => inferInstanceAs (Decidable (C1.ExtendedCommonFlags.WF x))
  | .Uci => fun (x : C1.Uci) => inferInstanceAs (Decidable (C1.Uci.WF x))
  | .CSGInformationReportingAction => fun (x : C1.CSGInformationReportingAction) => inferInstanceAs (Decidable (C1.CSGInformationReportingAction.WF x))
  | .ApnAmbr => fun (x : C1.ApnAmbr) => inferInstanceAs (Decidable (C1.ApnAmbr.WF x))
  | .GGSNBackOffTime => fun (x : C1.GGSNBackOffTime) => inferInstanceAs (Decidable (C1.GGSNBackOffTime.WF x))
  | .Spi => fun (x : C1.Spi) => inferInstanceAs (Decidable (C1.Spi.WF x))
  | .UliTimestamp => fun (x : C1.UliTimestamp) => inferInstanceAs (Decidable (C1.UliTimestamp.WF x))
  | .CnOperatorSelectionEntity => fun (x : C1.CnOperatorSelectionEntity) => inferInstanceAs (Decidable (C1.CnOperatorSelectionEntity.WF x))
  | .ExtendedCommonFlagsII => fun (x : C1.ExtendedCommonFlagsII) => inferInstanceAs (Decidable (C1.ExtendedCommonFlagsII.WF x))
  | .MappedUeUsageType => fun (x : C1.MappedUeUsageType) => inferInstanceAs (Decidable (C1.MappedUeUsageType.WF x))
  | .UpFunctionSelectionIndicationFlags => fun (x : C1.UpFunctionSelectionIndicationFlags) => inferInstanceAs (Decidable (C1.UpFunctionSelectionIndicationFlags.WF x))
  | .ChargingGWAddress => fun (x : C1.ChargingGWAddress) => inferInstanceAs (Decidable (C1.ChargingGWAddress.WF x))
  | .PrivateExtension => fun (x : C1.PrivateExtension) => inferInstanceAs (Decidable (C1.PrivateExtension.WF x))

instance (k : Kind) (x : k.Ty) : Decidable (k.codec.WF x) := k.decWF x

/-- The type code of a kind; a TEID may also carry 17 (`Teid` is used for both). -/
def code : Kind → UInt8
  | .Cause => 1
  | .Imsi => 2
  | .Rai => 3
  | .ReorderingRequired => 8
  | .Recovery => 14
  | .SelectionMode => 15
  | .Teid => 16
  | .TeardownInd => 19
  | .Nsapi => 20
  | .ChargingCharacteristics => 26
  | .TraceReference => 27
  | .TraceType => 28
  | .ChargingID => 127
  | .EndUserAddress => 128
  | .Apn => 131
  | .Pco => 132
  | .GsnAddress => 133
  | .Msisdn => 134
  | .Qos => 135
  | .Tft => 137
  | .ExtensionHeaderTypeList => 141
  | .TriggerId => 142
  | .OmcId => 143
  | .CommonFlags => 148
  | .ApnRestriction => 149
  | .RatType => 151
  | .Uli => 152
  | .MsTimeZone => 153
  | .Imei => 154
  | .CamelChargingInfoContainer => 155
  | .AdditionalTraceInfo => 162
  | .MSInfoChangeReportingAction => 181
  | .DirectTunnelFlags => 182
  | .CorrelationId => 183
  | .BearerControlMode => 184
  | .EvolvedAllocationRetentionI => 191
  | .ExtendedCommonFlags => 193
  | .Uci => 194
  | .CSGInformationReportingAction => 195
  | .ApnAmbr => 198
  | .GGSNBackOffTime => 202
  | .Spi => 203
  | .UliTimestamp => 214
  | .CnOperatorSelectionEntity => 216
  | .ExtendedCommonFlagsII => 218
  | .MappedUeUsageType => 223
  | .UpFunctionSelectionIndicationFlags => 224
  | .ChargingGWAddress => 251
  | .PrivateExtension => 255

/-- Kinds whose last field extends to the end of the buffer. -/
def greedy : Kind → Bool
  | .PrivateExtension => true
  | .ExtensionHeaderTypeList => true
  | _ => false

/-- Kinds whose `len` is a constant. -/
def fixedLen : Kind → Option Nat
  | .Cause => some 2
  | .Imsi => some 9
  | .Rai => some 7
  | .ReorderingRequired => some 2
  | .Recovery => some 2
  | .SelectionMode => some 2
  | .Teid => some 5
  | .TeardownInd => some 2
  | .Nsapi => some 2
  | .ChargingCharacteristics => some 3
  | .TraceReference => some 3
  | .TraceType => some 3
  | .ChargingID => some 5
  | .ApnRestriction => some 2
  | .RatType => some 4
  | .Uli => some 11
  | .MsTimeZone => some 5
  | .Imei => some 11
  | .AdditionalTraceInfo => some 12
  | .MSInfoChangeReportingAction => some 4
  | .CorrelationId => some 4
  | .BearerControlMode => some 4
  | .EvolvedAllocationRetentionI => some 4
  | .Uci => some 11
  | .ApnAmbr => some 11
  | .Spi => some 4
  | .UliTimestamp => some 7
  | .CnOperatorSelectionEntity => some 4
  | .MappedUeUsageType => some 5
  | .UpFunctionSelectionIndicationFlags => some 4
  | _ => none

/-- The first octet of the encoding of a well-formed value. -/
theorem first (k : Kind) (x : k.Ty) (h : k.codec.WF x) :
    ∃ t r, k.codec.mar x = t :: r ∧ (t = k.code ∨ k = .Teid ∧ t = 17) := by
  cases k
  case Cause => exact ⟨_, _, rfl, .inl h⟩
  case Imsi => exact ⟨_, _, rfl, .inl h.1⟩
  case Rai => exact ⟨_, _, rfl, .inl h.1⟩
  case ReorderingRequired => exact ⟨_, _, rfl, .inl h⟩
  case Recovery => exact ⟨_, _, rfl, .inl rfl⟩
  case SelectionMode => exact ⟨_, _, rfl, .inl h.1⟩
  case Teid => exact ⟨_, _, rfl, h.imp id fun h => ⟨rfl, h⟩⟩
  case TeardownInd => exact ⟨_, _, rfl, .inl h⟩
  case Nsapi => exact ⟨_, _, rfl, .inl h.1⟩
  case ChargingCharacteristics => exact ⟨_, _, rfl, .inl h.1⟩
  case TraceReference => exact ⟨_, _, rfl, .inl h⟩
  case TraceType => exact ⟨_, _, rfl, .inl h⟩
  case ChargingID => exact ⟨_, _, rfl, .inl h.1⟩
  case EndUserAddress => exact ⟨_, _, tlv_eq _ _ _, .inl h.1⟩
  case Apn => exact ⟨_, _, tlv_eq _ _ _, .inl h.1⟩
  case Pco => exact ⟨_, _, tlv_eq _ _ _, .inl h.1⟩
  case GsnAddress => exact ⟨_, _, tlv_eq _ _ _, .inl h.1⟩
  case Msisdn => exact ⟨_, _, tlv_eq _ _ _, .inl h.1⟩
  case Qos => exact ⟨_, _, tlv_eq _ _ _, .inl h.1⟩
  case Tft => exact ⟨_, _, tlv_eq _ _ _, .inl h.1⟩
  case ExtensionHeaderTypeList => exact ⟨_, _, C1.ExtensionHeaderTypeList.marshal_eq h, .inl rfl⟩
  case TriggerId => exact ⟨_, _, tlv_eq _ _ _, .inl h.1⟩
  case OmcId => exact ⟨_, _, tlv_eq _ _ _, .inl h.1⟩
  case CommonFlags => exact ⟨_, _, tlv_eq _ _ _, .inl h.1⟩
  case ApnRestriction => exact ⟨_, _, tlv_eq _ _ _, .inl h.1⟩
  case RatType => exact ⟨_, _, tlv_eq _ _ _, .inl h.1⟩
  case Uli => exact ⟨_, _, tlv_eq _ _ _, .inl h.1⟩
  case MsTimeZone => exact ⟨_, _, tlv_eq _ _ _, .inl h.1⟩
  case Imei => exact ⟨_, _, tlv_eq _ _ _, .inl h.1⟩
  case CamelChargingInfoContainer => exact ⟨_, _, tlv_eq _ _ _, .inl h.1⟩
  case AdditionalTraceInfo => exact ⟨_, _, tlv_eq _ _ _, .inl h.1⟩
  case MSInfoChangeReportingAction => exact ⟨_, _, tlv_eq _ _ _, .inl h.1⟩
  case DirectTunnelFlags => exact ⟨_, _, tlv_eq _ _ _, .inl h.1⟩
  case CorrelationId => exact ⟨_, _, tlv_eq _ _ _, .inl h.1⟩
  case BearerControlMode => exact ⟨_, _, tlv_eq _ _ _, .inl h.1⟩
  case EvolvedAllocationRetentionI => exact ⟨_, _, tlv_eq _ _ _, .inl h.1⟩
  case ExtendedCommonFlags => exact ⟨_, _, tlv_eq _ _ _, .inl h.1⟩
  case Uci => exact ⟨_, _, tlv_eq _ _ _, .inl h.1⟩
  case CSGInformationReportingAction => exact ⟨_, _, tlv_eq _ _ _, .inl h.1⟩
  case ApnAmbr => exact ⟨_, _, tlv_eq _ _ _, .inl h.1⟩
  case GGSNBackOffTime => exact ⟨_, _, tlv_eq _ _ _, .inl h.1⟩
  case Spi => exact ⟨_, _, tlv_eq _ _ _, .inl h.1⟩
  case UliTimestamp => exact ⟨_, _, tlv_eq _ _ _, .inl h.1⟩
  case CnOperatorSelectionEntity => exact ⟨_, _, tlv_eq _ _ _, .inl h.1⟩
  case ExtendedCommonFlagsII => exact ⟨_, _, tlv_eq _ _ _, .inl h.1⟩
  case MappedUeUsageType => exact ⟨_, _, tlv_eq _ _ _, .inl h.1⟩
  case UpFunctionSelectionIndicationFlags => exact ⟨_, _, tlv_eq _ _ _, .inl h.1⟩
  case ChargingGWAddress => exact ⟨_, _, tlv_eq _ _ _, .inl h.1⟩
  case PrivateExtension => exact ⟨_, _, tlv_eq _ _ _, .inl h.1⟩

/-- Round trip with anything behind, for the kinds that do not swallow it. -/
theorem rt (k : Kind) (hk : k.greedy = false) : RoundTrips k.codec.WF k.codec.mar k.codec.unm := by
  cases k
  case Cause => exact C1.Cause.rt
  case Imsi => exact C1.Imsi.rt
  case Rai => exact C1.Rai.rt
  case ReorderingRequired => exact C1.ReorderingRequired.rt
  case Recovery => exact C1.Recovery.rt
  case SelectionMode => exact C1.SelectionMode.rt
  case Teid => exact C1.Teid.rt
  case TeardownInd => exact C1.TeardownInd.rt
  case Nsapi => exact C1.Nsapi.rt
  case ChargingCharacteristics => exact C1.ChargingCharacteristics.rt
  case TraceReference => exact C1.TraceReference.rt
  case TraceType => exact C1.TraceType.rt
  case ChargingID => exact C1.ChargingID.rt
  case EndUserAddress => exact C1.EndUserAddress.rt
  case Apn => exact C1.Apn.rt
  case Pco => exact C1.Pco.rt
  case GsnAddress => exact C1.GsnAddress.rt
  case Msisdn => exact C1.Msisdn.rt
  case Qos => exact C1.Qos.rt
  case Tft => exact C1.Tft.rt
  case ExtensionHeaderTypeList => cases hk
  case TriggerId => exact C1.TriggerId.rt
  case OmcId => exact C1.OmcId.rt
  case CommonFlags => exact C1.CommonFlags.rt
  case ApnRestriction => exact C1.ApnRestriction.rt
  case RatType => exact C1.RatType.rt
  case Uli => exact C1.Uli.rt
  case MsTimeZone => exact C1.MsTimeZone.rt
  case Imei => exact C1.Imei.rt
  case CamelChargingInfoContainer => exact C1.CamelChargingInfoContainer.rt
  case AdditionalTraceInfo => exact C1.AdditionalTraceInfo.rt
  case MSInfoChangeReportingAction => exact C1.MSInfoChangeReportingAction.rt
  case DirectTunnelFlags => exact C1.DirectTunnelFlags.rt
  case CorrelationId => exact C1.CorrelationId.rt
  case BearerControlMode => exact C1.BearerControlMode.rt
  case EvolvedAllocationRetentionI => exact C1.EvolvedAllocationRetentionI.rt
  case ExtendedCommonFlags => exact C1.ExtendedCommonFlags.rt
  case Uci => exact C1.Uci.rt
  case CSGInformationReportingAction => exact C1.CSGInformationReportingAction.rt
  case ApnAmbr => exact C1.ApnAmbr.rt
  case GGSNBackOffTime => exact C1.GGSNBackOffTime.rt
  case Spi => exact C1.Spi.rt
  case UliTimestamp => exact C1.UliTimestamp.rt
  case CnOperatorSelectionEntity => exact C1.CnOperatorSelectionEntity.rt
  case ExtendedCommonFlagsII => exact C1.ExtendedCommonFlagsII.rt
  case MappedUeUsageType => exact C1.MappedUeUsageType.rt
  case UpFunctionSelectionIndicationFlags => exact C1.UpFunctionSelectionIndicationFlags.rt
  case ChargingGWAddress => exact C1.ChargingGWAddress.rt
  case PrivateExtension => cases hk

/-- Round trip at the end of the buffer, for every kind. -/
theorem rtLast (k : Kind) (m : Mode) (x : k.Ty) (h : k.codec.WF x) : k.codec.unm m (k.codec.mar x) = .ok x := by
  by_cases hk : k.greedy = false
  · simpa using rt k hk m x [] h
  · cases k <;> simp [greedy] at hk
    case PrivateExtension => exact C1.PrivateExtension.rt m x h
    case ExtensionHeaderTypeList => exact C1.ExtensionHeaderTypeList.rt m x h

/-- `len` is the size of the encoding, except for `ApnRestriction`. -/
theorem lenOk (k : Kind) (hk : k ≠ .ApnRestriction) : LenOk k.codec.WF k.codec.mar k.codec.len := by
  cases k
  case Cause => exact C1.Cause.len_ok
  case Imsi => exact C1.Imsi.len_ok
  case Rai => exact C1.Rai.len_ok
  case ReorderingRequired => exact C1.ReorderingRequired.len_ok
  case Recovery => exact C1.Recovery.len_ok
  case SelectionMode => exact C1.SelectionMode.len_ok
  case Teid => exact C1.Teid.len_ok
  case TeardownInd => exact C1.TeardownInd.len_ok
  case Nsapi => exact C1.Nsapi.len_ok
  case ChargingCharacteristics => exact C1.ChargingCharacteristics.len_ok
  case TraceReference => exact C1.TraceReference.len_ok
  case TraceType => exact C1.TraceType.len_ok
  case ChargingID => exact C1.ChargingID.len_ok
  case EndUserAddress => exact C1.EndUserAddress.len_ok
  case Apn => exact C1.Apn.len_ok
  case Pco => exact C1.Pco.len_ok
  case GsnAddress => exact C1.GsnAddress.len_ok
  case Msisdn => exact C1.Msisdn.len_ok
  case Qos => exact C1.Qos.len_ok
  case Tft => exact C1.Tft.len_ok
  case ExtensionHeaderTypeList => exact C1.ExtensionHeaderTypeList.len_ok
  case TriggerId => exact C1.TriggerId.len_ok
  case OmcId => exact C1.OmcId.len_ok
  case CommonFlags => exact C1.CommonFlags.len_ok
  case ApnRestriction => exact absurd rfl hk
  case RatType => exact C1.RatType.len_ok
  case Uli => exact C1.Uli.len_ok
  case MsTimeZone => exact C1.MsTimeZone.len_ok
  case Imei => exact C1.Imei.len_ok
  case CamelChargingInfoContainer => exact C1.CamelChargingInfoContainer.len_ok
  case AdditionalTraceInfo => exact C1.AdditionalTraceInfo.len_ok
  case MSInfoChangeReportingAction => exact C1.MSInfoChangeReportingAction.len_ok
  case DirectTunnelFlags => exact C1.DirectTunnelFlags.len_ok
  case CorrelationId => exact C1.CorrelationId.len_ok
  case BearerControlMode => exact C1.BearerControlMode.len_ok
  case EvolvedAllocationRetentionI => exact C1.EvolvedAllocationRetentionI.len_ok
  case ExtendedCommonFlags => exact C1.ExtendedCommonFlags.len_ok
  case Uci => exact C1.Uci.len_ok
  case CSGInformationReportingAction => exact C1.CSGInformationReportingAction.len_ok
  case ApnAmbr => exact C1.ApnAmbr.len_ok
  case GGSNBackOffTime => exact C1.GGSNBackOffTime.len_ok
  case Spi => exact C1.Spi.len_ok
  case UliTimestamp => exact C1.UliTimestamp.len_ok
  case CnOperatorSelectionEntity => exact C1.CnOperatorSelectionEntity.len_ok
  case ExtendedCommonFlagsII => exact C1.ExtendedCommonFlagsII.len_ok
  case MappedUeUsageType => exact C1.MappedUeUsageType.len_ok
  case UpFunctionSelectionIndicationFlags => exact C1.UpFunctionSelectionIndicationFlags.len_ok
  case ChargingGWAddress => exact C1.ChargingGWAddress.len_ok
  case PrivateExtension => exact C1.PrivateExtension.len_ok

/-- The buffers on which the decoder of a kind panics. -/
def Panics : Kind → Mode → Bytes → Prop
  | .EndUserAddress => TlvPanics fun b => b.length < 5
  | .Apn => TlvPanics fun b => b.length < 3 + (declLen b).toNat ∨
      ¬ Gtp.V2.Labels ((b.drop 3).take (declLen b).toNat)
  | .Pco => Overflows
  | .GsnAddress => TlvPanics fun _ => False
  | .Msisdn => TlvPanics fun b => b.length < 4 ∨
      (b.getD 3 0 &&& 0x0f = 1 ∨ b.getD 3 0 &&& 0x0f = 6) ∧ b.length < 12
  | .Qos => Overflows
  | .Tft => Overflows
  | .ExtensionHeaderTypeList => fun m b => b.length < 2 ∨ m = .debug ∧ 254 ≤ (b.getD 1 0).toNat
  | .TriggerId => Overflows
  | .OmcId => Overflows
  | .CamelChargingInfoContainer => fun m b => Overflows m b ∧ (m = .debug ∨ b.length < 3 + (declLen b).toNat)
  | .GGSNBackOffTime => fun _ b => b.length = 2 ∨ b.length = 3
  | .ChargingGWAddress => TlvPanics fun _ => False
  | .PrivateExtension => TlvPanics fun b => b.length < 5
  | _ => Never

theorem panics (k : Kind) : PanicsIff k.Panics k.codec.unm := by
  cases k
  case Cause => exact C1.Cause.panics
  case Imsi => exact C1.Imsi.panics
  case Rai => exact C1.Rai.panics
  case ReorderingRequired => exact C1.ReorderingRequired.panics
  case Recovery => exact C1.Recovery.panics
  case SelectionMode => exact C1.SelectionMode.panics
  case Teid => exact C1.Teid.panics
  case TeardownInd => exact C1.TeardownInd.panics
  case Nsapi => exact C1.Nsapi.panics
  case ChargingCharacteristics => exact C1.ChargingCharacteristics.panics
  case TraceReference => exact C1.TraceReference.panics
  case TraceType => exact C1.TraceType.panics
  case ChargingID => exact C1.ChargingID.panics
  case EndUserAddress => exact C1.EndUserAddress.panics
  case Apn => exact C1.Apn.panics
  case Pco => exact C1.Pco.panics
  case GsnAddress => exact C1.GsnAddress.panics
  case Msisdn => exact C1.Msisdn.panics
  case Qos => exact C1.Qos.panics
  case Tft => exact C1.Tft.panics
  case ExtensionHeaderTypeList => exact C1.ExtensionHeaderTypeList.panics
  case TriggerId => exact C1.TriggerId.panics
  case OmcId => exact C1.OmcId.panics
  case CommonFlags => exact C1.CommonFlags.panics
  case ApnRestriction => exact C1.ApnRestriction.panics
  case RatType => exact C1.RatType.panics
  case Uli => exact C1.Uli.panics
  case MsTimeZone => exact C1.MsTimeZone.panics
  case Imei => exact C1.Imei.panics
  case CamelChargingInfoContainer => exact C1.CamelChargingInfoContainer.panics
  case AdditionalTraceInfo => exact C1.AdditionalTraceInfo.panics
  case MSInfoChangeReportingAction => exact C1.MSInfoChangeReportingAction.panics
  case DirectTunnelFlags => exact C1.DirectTunnelFlags.panics
  case CorrelationId => exact C1.CorrelationId.panics
  case BearerControlMode => exact C1.BearerControlMode.panics
  case EvolvedAllocationRetentionI => exact C1.EvolvedAllocationRetentionI.panics
  case ExtendedCommonFlags => exact C1.ExtendedCommonFlags.panics
  case Uci => exact C1.Uci.panics
  case CSGInformationReportingAction => exact C1.CSGInformationReportingAction.panics
  case ApnAmbr => exact C1.ApnAmbr.panics
  case GGSNBackOffTime => exact C1.GGSNBackOffTime.panics
  case Spi => exact C1.Spi.panics
  case UliTimestamp => exact C1.UliTimestamp.panics
  case CnOperatorSelectionEntity => exact C1.CnOperatorSelectionEntity.panics
  case ExtendedCommonFlagsII => exact C1.ExtendedCommonFlagsII.panics
  case MappedUeUsageType => exact C1.MappedUeUsageType.panics
  case UpFunctionSelectionIndicationFlags => exact C1.UpFunctionSelectionIndicationFlags.panics
  case ChargingGWAddress => exact C1.ChargingGWAddress.panics
  case PrivateExtension => exact C1.PrivateExtension.panics

/-- What is accounted for a decoded element. -/
theorem account (k : Kind) (m : Mode) (b : Bytes) (x : k.Ty) (h : k.codec.unm m b = .ok x) :
    (∃ n, k.fixedLen = some n ∧ k.codec.len m x = .ok n ∧ n ≤ b.length) ∨
    (k.fixedLen = none ∧ k ≠ .ExtensionHeaderTypeList ∧ k.codec.len m x = len3 m (declLen b)) ∨
    k = .ExtensionHeaderTypeList := by
  cases k
  case Cause => exact .inl ⟨_, rfl, C1.Cause.safe.fixed m b x h⟩
  case Imsi => exact .inl ⟨_, rfl, C1.Imsi.safe.fixed m b x h⟩
  case Rai => exact .inl ⟨_, rfl, C1.Rai.safe.fixed m b x h⟩
  case ReorderingRequired => exact .inl ⟨_, rfl, C1.ReorderingRequired.safe.fixed m b x h⟩
  case Recovery => exact .inl ⟨_, rfl, C1.Recovery.safe.fixed m b x h⟩
  case SelectionMode => exact .inl ⟨_, rfl, C1.SelectionMode.safe.fixed m b x h⟩
  case Teid => exact .inl ⟨_, rfl, C1.Teid.safe.fixed m b x h⟩
  case TeardownInd => exact .inl ⟨_, rfl, C1.TeardownInd.safe.fixed m b x h⟩
  case Nsapi => exact .inl ⟨_, rfl, C1.Nsapi.safe.fixed m b x h⟩
  case ChargingCharacteristics => exact .inl ⟨_, rfl, C1.ChargingCharacteristics.safe.fixed m b x h⟩
  case TraceReference => exact .inl ⟨_, rfl, C1.TraceReference.safe.fixed m b x h⟩
  case TraceType => exact .inl ⟨_, rfl, C1.TraceType.safe.fixed m b x h⟩
  case ChargingID => exact .inl ⟨_, rfl, C1.ChargingID.safe.fixed m b x h⟩
  case EndUserAddress => exact .inr (.inl ⟨rfl, by simp, C1.EndUserAddress.declared m b x h⟩)
  case Apn => exact .inr (.inl ⟨rfl, by simp, C1.Apn.declared m b x h⟩)
  case Pco => exact .inr (.inl ⟨rfl, by simp, C1.Pco.declared m b x h⟩)
  case GsnAddress => exact .inr (.inl ⟨rfl, by simp, C1.GsnAddress.declared m b x h⟩)
  case Msisdn => exact .inr (.inl ⟨rfl, by simp, C1.Msisdn.declared m b x h⟩)
  case Qos => exact .inr (.inl ⟨rfl, by simp, C1.Qos.declared m b x h⟩)
  case Tft => exact .inr (.inl ⟨rfl, by simp, C1.Tft.declared m b x h⟩)
  case ExtensionHeaderTypeList => exact .inr (.inr rfl)
  case TriggerId => exact .inr (.inl ⟨rfl, by simp, C1.TriggerId.declared m b x h⟩)
  case OmcId => exact .inr (.inl ⟨rfl, by simp, C1.OmcId.declared m b x h⟩)
  case CommonFlags => exact .inr (.inl ⟨rfl, by simp, C1.CommonFlags.declared m b x h⟩)
  case ApnRestriction => exact .inl ⟨_, rfl, C1.ApnRestriction.safe.fixed m b x h⟩
  case RatType => exact .inl ⟨_, rfl, C1.RatType.safe.fixed m b x h⟩
  case Uli => exact .inl ⟨_, rfl, C1.Uli.safe.fixed m b x h⟩
  case MsTimeZone => exact .inl ⟨_, rfl, C1.MsTimeZone.safe.fixed m b x h⟩
  case Imei => exact .inl ⟨_, rfl, C1.Imei.safe.fixed m b x h⟩
  case CamelChargingInfoContainer => exact .inr (.inl ⟨rfl, by simp, C1.CamelChargingInfoContainer.declared m b x h⟩)
  case AdditionalTraceInfo => exact .inl ⟨_, rfl, C1.AdditionalTraceInfo.safe.fixed m b x h⟩
  case MSInfoChangeReportingAction => exact .inl ⟨_, rfl, C1.MSInfoChangeReportingAction.safe.fixed m b x h⟩
  case DirectTunnelFlags => exact .inr (.inl ⟨rfl, by simp, C1.DirectTunnelFlags.declared m b x h⟩)
  case CorrelationId => exact .inl ⟨_, rfl, C1.CorrelationId.safe.fixed m b x h⟩
  case BearerControlMode => exact .inl ⟨_, rfl, C1.BearerControlMode.safe.fixed m b x h⟩
  case EvolvedAllocationRetentionI => exact .inl ⟨_, rfl, C1.EvolvedAllocationRetentionI.safe.fixed m b x h⟩
  case ExtendedCommonFlags => exact .inr (.inl ⟨rfl, by simp, C1.ExtendedCommonFlags.declared m b x h⟩)
  case Uci => exact .inl ⟨_, rfl, C1.Uci.safe.fixed m b x h⟩
  case CSGInformationReportingAction => exact .inr (.inl ⟨rfl, by simp, C1.CSGInformationReportingAction.declared m b x h⟩)
  case ApnAmbr => exact .inl ⟨_, rfl, C1.ApnAmbr.safe.fixed m b x h⟩
  case GGSNBackOffTime => exact .inr (.inl ⟨rfl, by simp, C1.GGSNBackOffTime.declared m b x h⟩)
  case Spi => exact .inl ⟨_, rfl, C1.Spi.safe.fixed m b x h⟩
  case UliTimestamp => exact .inl ⟨_, rfl, C1.UliTimestamp.safe.fixed m b x h⟩
  case CnOperatorSelectionEntity => exact .inl ⟨_, rfl, C1.CnOperatorSelectionEntity.safe.fixed m b x h⟩
  case ExtendedCommonFlagsII => exact .inr (.inl ⟨rfl, by simp, C1.ExtendedCommonFlagsII.declared m b x h⟩)
  case MappedUeUsageType => exact .inl ⟨_, rfl, C1.MappedUeUsageType.safe.fixed m b x h⟩
  case UpFunctionSelectionIndicationFlags => exact .inl ⟨_, rfl, C1.UpFunctionSelectionIndicationFlags.safe.fixed m b x h⟩
  case ChargingGWAddress => exact .inr (.inl ⟨rfl, by simp, C1.ChargingGWAddress.declared m b x h⟩)
  case PrivateExtension => exact .inr (.inl ⟨rfl, by simp, C1.PrivateExtension.declared m b x h⟩)

end Kind

end Gtp.C1
