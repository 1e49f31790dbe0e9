import Verif.Props.FigureSpec
import Verif.C1.Kind

/-!
# Property C75: the octets of a GTPv1-C information element are those of the specification

As `FigureSpec.lean`, for the figures of 3GPP TS 29.060 §7.7. The type tells the format (§7.7, table 37): below 128 the value follows
the type, from 128 on there is a length of two octets in between, of one octet for the Extension Header Type List.
-/

namespace Gtp.Props.C1
open Gtp.C1
open Gtp.Props.Row

def ratCode : Gtp.C1.Rat → Nat
  | .utran => 1 | .geran => 2 | .wlan => 3 | .gan => 4 | .hspaevo => 5 | .eutran => 6
def restrictionCode : Restriction → Nat
  | .noApnRestriction => 0 | .public1 => 1 | .public2 => 2 | .private1 => 3 | .private2 => 4
def accessCode : AccessMode → Nat
  | .closedMode => 0 | .hybridMode => 1 | .reserved => 2
def cmiCode : Cmi → Nat
  | .csgMembership => 0 | .nonCsgMembership => 1
def selectCode : SelectMode → Nat
  | .servingNetworkSelectedbyUE => 0 | .servingNetworkSelectedbyNetwork => 1
def ipFig : Gtp.V1.IpAddr → List Row
  | .v4 a => [o4 a]
  | .v6 a => ip6 a
/-- Geographic location type, PLMN and LAC, then cell identity, service area code, or routing area code and an octet of ones. -/
def uliFig (x : Gtp.C1.Uli) : List Row :=
  match x.loc with
  | .ci v => [num 1 0, pl x.mcc x.mnc x.mnc_is_three_digits, o2 x.lac, o2 v]
  | .sac v => [num 1 1, pl x.mcc x.mnc x.mnc_is_three_digits, o2 x.lac, o2 v]
  | .rac v => [num 1 2, pl x.mcc x.mnc x.mnc_is_three_digits, o2 x.lac, o1 v, num 1 255]
/-- ETSI has PDP types without address, IETF those with IPv4, IPv6 or both; the other organisations are reserved. -/
def euaFig (x : Gtp.C1.EndUserAddress) : Option (List Row) :=
  if x.pdp_type_org = 0 then
    if x.ipv4.isNone && x.ipv6.isNone then some [bits [(4, 15), (4, 0)], o1 x.pdp_type_nbr] else none
  else if x.pdp_type_org = 1 then
    some ([bits [(4, 15), (4, 1)], o1 x.pdp_type_nbr] ++ opt x.ipv4 (fun a => [o4 a]) ++ opt x.ipv6 ip6)
  else none

/-- Type and value, as the specification has them. There is none for Charging Characteristics, whose coding another specification
gives, and for values that the specification does not have. -/
def figure : (k : Kind) → k.Ty → Option (Nat × List Row)
  | .Cause => fun (x : Gtp.C1.Cause) => some (1, [o1 x.value])
  | .Imsi => fun (x : Gtp.C1.Imsi) =>
    if x.imsi.length ≤ 15 then some (2, digits x.imsi :: List.replicate (8 - (x.imsi.length + 1) / 2) (num 1 255)) else none
  | .Rai => fun (x : Gtp.C1.Rai) => some (3, [pl x.mcc x.mnc x.mnc_is_three_digits, o2 x.lac, o1 x.rac])
  | .ReorderingRequired => fun (x : Gtp.C1.ReorderingRequired) => some (8, [bits [(7, 127), flag x.req]])
  | .Recovery => fun (x : Gtp.C1.Recovery) => some (14, [o1 x.value])
  | .SelectionMode => fun (x : Gtp.C1.SelectionMode) => some (15, [bits [(6, 63), (2, x.value.toNat)]])
  | .Teid => fun (x : Gtp.C1.Teid) => if x.t = 16 ∨ x.t = 17 then some (x.t.toNat, [o4 x.teid]) else none
  | .TeardownInd => fun (x : Gtp.C1.TeardownInd) => some (19, [bits [(7, 127), flag x.teardown]])
  | .Nsapi => fun (x : Gtp.C1.Nsapi) => some (20, [bits [spare 4, (4, x.value.toNat)]])
  | .ChargingCharacteristics => fun (_ : Gtp.C1.ChargingCharacteristics) => none
  | .TraceReference => fun (x : Gtp.C1.TraceReference) => some (27, [o2 x.value])
  | .TraceType => fun (x : Gtp.C1.TraceType) => some (28, [o2 x.value])
  | .ChargingID => fun (x : Gtp.C1.ChargingID) => some (127, [o4 x.value])
  | .EndUserAddress => fun (x : Gtp.C1.EndUserAddress) => (euaFig x).map (128, ·)
  | .Apn => fun (x : Gtp.C1.Apn) => some (131, nameFig x.name)
  | .Pco => fun (x : Gtp.C1.Pco) => some (132, [raw x.pco])
  | .GsnAddress => fun (x : Gtp.C1.GsnAddress) => some (133, ipFig x.ip)
  | .Msisdn => fun (x : Gtp.C1.Msisdn) =>
    some (134, [bits [(1, x.extension.toNat), (3, x.number_nature.toNat), (4, x.number_plan.toNat)], digits x.msisdn])
  | .Qos => fun (x : Gtp.C1.Qos) => some (135, [o1 x.arp, raw x.qos])
  | .Tft => fun (x : Gtp.C1.Tft) => some (137, [raw x.tft])
  | .ExtensionHeaderTypeList => fun (x : Gtp.C1.ExtensionHeaderTypeList) => some (141, [raw x.list])
  | .TriggerId => fun (x : Gtp.C1.TriggerId) => some (142, [raw x.triggerid])
  | .OmcId => fun (x : Gtp.C1.OmcId) => some (143, [raw x.omcid])
  | .CommonFlags => fun (x : Gtp.C1.CommonFlags) => some (148, [bits [flag x.dual_addr_bearer, flag x.upgrade_qos_support, flag x.nrsn,
      flag x.no_qos_negotiation, flag x.mbms_counting_info, flag x.ran_procedures_ready, flag x.mbms_service_type, flag x.prohibit_payload_compr]])
  | .ApnRestriction => fun (x : Gtp.C1.ApnRestriction) => some (149, [num 1 (restrictionCode x.restriction_type)])
  | .RatType => fun (x : Gtp.C1.RatType) => some (151, [num 1 (ratCode x.rat_type)])
  | .Uli => fun (x : Gtp.C1.Uli) => some (152, uliFig x)
  | .MsTimeZone => fun (x : Gtp.C1.MsTimeZone) => some (153, [zoneFig x.time_zone, bits [spare 6, (2, x.dst.toNat)]])
  | .Imei => fun (x : Gtp.C1.Imei) => some (154, [digits x.imei])
  | .CamelChargingInfoContainer => fun (x : Gtp.C1.CamelChargingInfoContainer) => some (155, [raw x.camel_cic])
  | .AdditionalTraceInfo => fun (x : Gtp.C1.AdditionalTraceInfo) => some (162, [o3 x.trace_ref, o2 x.trace_rec_session_ref,
      o1 x.triggering_events, o1 x.trace_depth, o1 x.interface_list, o1 x.trace_activity_control])
  | .MSInfoChangeReportingAction => fun (x : Gtp.C1.MSInfoChangeReportingAction) => some (181, [o1 x.action])
  | .DirectTunnelFlags => fun (x : Gtp.C1.DirectTunnelFlags) => some (182, [bits [spare 5, flag x.ei, flag x.gcsi, flag x.dti]])
  | .CorrelationId => fun (x : Gtp.C1.CorrelationId) => some (183, [o1 x.correlation_id])
  | .BearerControlMode => fun (x : Gtp.C1.BearerControlMode) => some (184, [o1 x.bearer_ctrl_mode])
  | .EvolvedAllocationRetentionI => fun (x : Gtp.C1.EvolvedAllocationRetentionI) => some (191, [bits [spare 1,
      (1, x.pre_emption_capability.toNat), (4, x.priority_level.toNat), spare 1, (1, x.pre_emption_vulnerability.toNat)]])
  | .ExtendedCommonFlags => fun (x : Gtp.C1.ExtendedCommonFlags) => some (193, [bits [flag x.uasi, flag x.bdwi, flag x.pcri, flag x.vb,
      flag x.retloc, flag x.cpsr, flag x.ccrsi, flag x.unauthenticated_imsi]])
  | .Uci => fun (x : Gtp.C1.Uci) => some (194, [pl x.mcc x.mnc x.mnc_is_three_digits, bits [spare 5, (3, x.csgid.toNat / 16777216)],
      num 3 (x.csgid.toNat % 16777216), bits [(2, accessCode x.access_mode), spare 5, (1, cmiCode x.cmi)]])
  | .CSGInformationReportingAction => fun (x : Gtp.C1.CSGInformationReportingAction) => some (195, [bits [spare 5, (3, x.action.toNat)]])
  | .ApnAmbr => fun (x : Gtp.C1.ApnAmbr) => some (198, [o4 x.ambr_ul, o4 x.ambr_dl])
  | .GGSNBackOffTime => fun (x : Gtp.C1.GGSNBackOffTime) => some (202, [bits [(3, x.timer_unit.toNat), (5, x.timer_value.toNat)]])
  | .Spi => fun (x : Gtp.C1.Spi) => some (203, [bits [spare 7, flag x.lapi]])
  | .UliTimestamp => fun (x : Gtp.C1.UliTimestamp) => some (214, [o4 x.timestamp])
  | .CnOperatorSelectionEntity => fun (x : Gtp.C1.CnOperatorSelectionEntity) => some (216, [bits [spare 6, (2, selectCode x.selection_entity)]])
  | .ExtendedCommonFlagsII => fun (x : Gtp.C1.ExtendedCommonFlagsII) => some (218, [bits [spare 5, flag x.pmtsmi, flag x.dtci, flag x.pnsi]])
  | .MappedUeUsageType => fun (x : Gtp.C1.MappedUeUsageType) => some (223, [o2 x.usage_type])
  | .UpFunctionSelectionIndicationFlags => fun (x : Gtp.C1.UpFunctionSelectionIndicationFlags) => some (224, [bits [spare 7, flag x.dcnr]])
  | .ChargingGWAddress => fun (x : Gtp.C1.ChargingGWAddress) => some (251, ipFig x.ip)
  | .PrivateExtension => fun (x : Gtp.C1.PrivateExtension) => some (255, [o2 x.extension_id, raw x.extension_value])

/-- The octets of a marshalled element show a figure. -/
def Drawn (m : Bytes) (f : Nat × List Row) : Prop :=
  let v := f.2.flatMap draw
  m.map UInt8.toNat =
    if f.1 < 128 then f.1 :: v
    else if f.1 = 141 then f.1 :: v.length % 256 :: v
    else f.1 :: v.length / 256 % 256 :: v.length % 256 :: v

instance (m : Bytes) (f : Nat × List Row) : Decidable (Drawn m f) := by unfold Drawn; infer_instance

/-- The values that the code writes differently: all time zones but three, and IMSIs below 15 digits, which are not filled up. -/
def deviates : (k : Kind) → k.Ty → Bool
  | .Imsi => fun (x : Gtp.C1.Imsi) => x.imsi.length < 15
  | .MsTimeZone => fun (x : Gtp.C1.MsTimeZone) => x.time_zone ∉ [0, 53, -8]
  | _ => fun _ => false

end Gtp.Props.C1
