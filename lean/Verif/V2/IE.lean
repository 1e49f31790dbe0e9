import Verif.V2.Group

/-!
# Encoder and decoder of IE sequences (src/gtpv2/messages/ies/ie.rs, groupedie.rs and the grouped IEs)

Generated by `scripts/gen_sum.py`.

The Rust functions are mutually recursive through the grouped IEs: `InformationElement::marshal` calls
`BearerContext::marshal`, which calls `InformationElement::encoder` on the members. The recursion is opened here:
`IE.marshalWith enc` and `unmKind dec` take the recursive call as a parameter. For encoding the knot is tied by iterating
three times, which is enough as the static types allow no deeper nesting (`IE.marshal_eq` shows that the result is a fixed
point). For decoding it is tied by `decodeF` with fuel; `decodeF_fuel` shows that the result does not depend on the fuel.
-/

namespace Gtp.V2

/-- `if let Some(i) = x { v.push(i.into()) }`. -/
def optV {α : Type} (f : α → IE) (o : Option α) : List IE := o.toList.map f

namespace BearerContext

/-- `BearerContext::default()` with the header fields set (bearercontext.rs:65-138). -/
def init (t : UInt8) (length : UInt16) (ins : UInt8) : BearerContext :=
  { t, length, ins, ebi := Ebi.dflt, cause := none, tft := none, fteids := [], bearer_qos := none, charging_id := none, bearer_flags := none, pco := none, apco := none, epco := none, max_packet_loss := none, ran_nas_cause := none, bss_container := none, transaction_id := none }

/-- One turn of the loop over the members (bearercontext.rs:65-138). -/
def step (s : BearerContext × Bool) : IE → BearerContext × Bool
  | .Ebi k => if k.ins = 0 ∧ s.2 = false then ({ s.1 with ebi := k }, true) else s
  | .Cause k => if k.ins = 0 ∧ s.1.cause = none then ({ s.1 with cause := some k }, s.2) else s
  | .BearerTft k => if k.ins = 0 ∧ s.1.tft = none then ({ s.1 with tft := some k }, s.2) else s
  | .Fteid k => ({ s.1 with fteids := s.1.fteids ++ [k] }, s.2)
  | .BearerQos k => if k.ins = 0 ∧ s.1.bearer_qos = none then ({ s.1 with bearer_qos := some k }, s.2) else s
  | .ChargingId k => if k.ins = 0 ∧ s.1.charging_id = none then ({ s.1 with charging_id := some k }, s.2) else s
  | .BearerFlags k => if k.ins = 0 ∧ s.1.bearer_flags = none then ({ s.1 with bearer_flags := some k }, s.2) else s
  | .Pco k => if k.ins = 0 ∧ s.1.pco = none then ({ s.1 with pco := some k }, s.2) else s
  | .Apco k => if k.ins = 0 ∧ s.1.apco = none then ({ s.1 with apco := some k }, s.2) else s
  | .Epco k => if k.ins = 0 ∧ s.1.epco = none then ({ s.1 with epco := some k }, s.2) else s
  | .MaxPacketLossRate k => if k.ins = 0 ∧ s.1.max_packet_loss = none then ({ s.1 with max_packet_loss := some k }, s.2) else s
  | .RanNasCause k => if k.ins = 0 ∧ s.1.ran_nas_cause = none then ({ s.1 with ran_nas_cause := some k }, s.2) else s
  | .Fcontainer k => if k.ins = 0 ∧ s.1.bss_container = none then ({ s.1 with bss_container := some k }, s.2) else s
  | .TransactionIdentifier k => if k.ins = 0 ∧ s.1.transaction_id = none then ({ s.1 with transaction_id := some k }, s.2) else s
  | _ => s

/-- `From<GroupedIe> for BearerContext` (bearercontext.rs:65-138). -/
def ofGroup (t : UInt8) (length : UInt16) (ins : UInt8) (l : List IE) : BearerContext :=
  (l.foldl step (init t length ins, false)).1

/-- `to_vec` (bearercontext.rs:171-224). -/
def toVec (x : BearerContext) : List IE :=
  optV .Cause x.cause ++ (
  [.Ebi x.ebi] ++ (
  optV .BearerTft x.tft ++ (
  x.fteids.map .Fteid ++ (
  optV .BearerQos x.bearer_qos ++ (
  optV .ChargingId x.charging_id ++ (
  optV .BearerFlags x.bearer_flags ++ (
  optV .Pco x.pco ++ (
  optV .Apco x.apco ++ (
  optV .Epco x.epco ++ (
  optV .MaxPacketLossRate x.max_packet_loss ++ (
  optV .RanNasCause x.ran_nas_cause)))))))))))

end BearerContext

namespace LoadControl

/-- `LoadControl::default()` with the header fields set (loadcontrolinfo.rs:43-61). -/
def init (t : UInt8) (length : UInt16) (ins : UInt8) : LoadControl :=
  { t, length, ins, sqn := Sqn.dflt, load_metric := Metric.dflt, list := none }

/-- One turn of the loop over the members (loadcontrolinfo.rs:43-61). -/
def step (s : LoadControl) : IE → LoadControl
  | .Sqn k => { s with sqn := k }
  | .Metric k => { s with load_metric := k }
  | .ApnRelativeCapacity k => { s with list := some [k] }
  | _ => s

/-- `From<GroupedIe> for LoadControl` (loadcontrolinfo.rs:43-61). -/
def ofGroup (t : UInt8) (length : UInt16) (ins : UInt8) (l : List IE) : LoadControl :=
  l.foldl step (init t length ins)

/-- `to_vec` (loadcontrolinfo.rs:97-109). -/
def toVec (x : LoadControl) : List IE :=
  [.Sqn x.sqn] ++ (
  [.Metric x.load_metric] ++ (
  (x.list.getD []).map .ApnRelativeCapacity))

end LoadControl

namespace OverloadControlInfo

/-- `OverloadControlInfo::default()` with the header fields set (overloadcontrolinfo.rs:45-64). -/
def init (t : UInt8) (length : UInt16) (ins : UInt8) : OverloadControlInfo :=
  { t, length, ins, sqn := Sqn.dflt, metric := Metric.dflt, validity := EpcTimer.dflt, list := none }

/-- One turn of the loop over the members (overloadcontrolinfo.rs:45-64). -/
def step (s : OverloadControlInfo) : IE → OverloadControlInfo
  | .Sqn k => { s with sqn := k }
  | .Metric k => { s with metric := k }
  | .EpcTimer k => { s with validity := k }
  | .Apn k => { s with list := some [k] }
  | _ => s

/-- `From<GroupedIe> for OverloadControlInfo` (overloadcontrolinfo.rs:45-64). -/
def ofGroup (t : UInt8) (length : UInt16) (ins : UInt8) (l : List IE) : OverloadControlInfo :=
  l.foldl step (init t length ins)

/-- `to_vec` (overloadcontrolinfo.rs:100-113). -/
def toVec (x : OverloadControlInfo) : List IE :=
  [.Sqn x.sqn] ++ (
  [.Metric x.metric] ++ (
  [.EpcTimer x.validity] ++ (
  (x.list.getD []).map .Apn)))

end OverloadControlInfo

namespace RemoteUeContext

/-- `RemoteUeContext::default()` with the header fields set (remoteuecontext.rs:41-54). -/
def init (t : UInt8) (length : UInt16) (ins : UInt8) : RemoteUeContext :=
  { t, length, ins, user_id := RemoteUserId.dflt, ue_ip := none }

/-- One turn of the loop over the members (remoteuecontext.rs:41-54). -/
def step (s : RemoteUeContext) : IE → RemoteUeContext
  | .RemoteUserId k => { s with user_id := k }
  | .RemoteUeIpInformation k => { s with ue_ip := some k }
  | _ => s

/-- `From<GroupedIe> for RemoteUeContext` (remoteuecontext.rs:41-54). -/
def ofGroup (t : UInt8) (length : UInt16) (ins : UInt8) (l : List IE) : RemoteUeContext :=
  l.foldl step (init t length ins)

/-- `to_vec` (remoteuecontext.rs:85-94). -/
def toVec (x : RemoteUeContext) : List IE :=
  [.RemoteUserId x.user_id] ++ (
  optV .RemoteUeIpInformation x.ue_ip)

end RemoteUeContext

namespace ScefPdnConnections

/-- `ScefPdnConnections::default()` with the header fields set (scefpdnconnections.rs:43-69). -/
def init (t : UInt8) (length : UInt16) (ins : UInt8) : ScefPdnConnections :=
  { t, length, ins, apn := Apn.dflt, default_ebi := Ebi.dflt, scef_id := NodeIdentifier.dflt }

/-- One turn of the loop over the members (scefpdnconnections.rs:43-69). -/
def step (s : ScefPdnConnections) : IE → ScefPdnConnections
  | .Apn k => if k.ins = 0 then { s with apn := k } else s
  | .Ebi k => if k.ins = 0 then { s with default_ebi := k } else s
  | .NodeIdentifier k => if k.ins = 0 then { s with scef_id := k } else s
  | _ => s

/-- `From<GroupedIe> for ScefPdnConnections` (scefpdnconnections.rs:43-69). -/
def ofGroup (t : UInt8) (length : UInt16) (ins : UInt8) (l : List IE) : ScefPdnConnections :=
  l.foldl step (init t length ins)

/-- `to_vec` (scefpdnconnections.rs:100-108). -/
def toVec (x : ScefPdnConnections) : List IE :=
  [.Apn x.apn] ++ (
  [.Ebi x.default_ebi] ++ (
  [.NodeIdentifier x.scef_id]))

end ScefPdnConnections

namespace PC5QosParameters

/-- `PC5QosParameters::default()` with the header fields set (pc5qosparameters.rs:41-62). -/
def init (t : UInt8) (length : UInt16) (ins : UInt8) : PC5QosParameters :=
  { t, length, ins, pc5_qos_flows := [], pc5_link_abrs := none }

/-- One turn of the loop over the members (pc5qosparameters.rs:41-62). -/
def step (s : PC5QosParameters) : IE → PC5QosParameters
  | .PC5QosFlow k => if k.ins = 0 then { s with pc5_qos_flows := s.pc5_qos_flows ++ [k] } else s
  | .BitRate k => if k.ins = 0 ∧ s.pc5_link_abrs = none then { s with pc5_link_abrs := some k } else s
  | _ => s

/-- `From<GroupedIe> for PC5QosParameters` (pc5qosparameters.rs:41-62). -/
def ofGroup (t : UInt8) (length : UInt16) (ins : UInt8) (l : List IE) : PC5QosParameters :=
  l.foldl step (init t length ins)

/-- `to_vec` (pc5qosparameters.rs:97-108). -/
def toVec (x : PC5QosParameters) : List IE :=
  x.pc5_qos_flows.map .PC5QosFlow ++ (
  optV .BitRate x.pc5_link_abrs)

end PC5QosParameters

namespace PgwChangeInfo

/-- `PgwChangeInfo::default()` with the header fields set (pgwchangeinfo.rs:45-76). -/
def init (t : UInt8) (length : UInt16) (ins : UInt8) : PgwChangeInfo :=
  { t, length, ins, pgw_fqdns := [], sgw_pgw_smf_ips := [], pgw_smf_fqcsid := [], groupids := [] }

/-- One turn of the loop over the members (pgwchangeinfo.rs:45-76). -/
def step (s : PgwChangeInfo) : IE → PgwChangeInfo
  | .PgwFqdn k => if k.ins < 2 then { s with pgw_fqdns := s.pgw_fqdns ++ [k] } else s
  | .IpAddress k => if k.ins < 4 then { s with sgw_pgw_smf_ips := s.sgw_pgw_smf_ips ++ [k] } else s
  | .Fqcsid k => if k.ins = 0 then { s with pgw_smf_fqcsid := s.pgw_smf_fqcsid ++ [k] } else s
  | .GroupId k => if k.ins < 2 then { s with groupids := s.groupids ++ [k] } else s
  | _ => s

/-- `From<GroupedIe> for PgwChangeInfo` (pgwchangeinfo.rs:45-76). -/
def ofGroup (t : UInt8) (length : UInt16) (ins : UInt8) (l : List IE) : PgwChangeInfo :=
  l.foldl step (init t length ins)

/-- `to_vec` (pgwchangeinfo.rs:107-120). -/
def toVec (x : PgwChangeInfo) : List IE :=
  x.sgw_pgw_smf_ips.map .IpAddress ++ (
  x.pgw_fqdns.map .PgwFqdn ++ (
  x.pgw_smf_fqcsid.map .Fqcsid ++ (
  x.groupids.map .GroupId)))

end PgwChangeInfo

namespace PdnConnections

/-- `PdnConnections::default()` with the header fields set (pdnconnections.rs:87-211). -/
def init (t : UInt8) (length : UInt16) (ins : UInt8) : PdnConnections :=
  { t, length, ins, apn := Apn.dflt, apn_restriction := none, selection_mode := none, ipv4 := none, ipv6 := none, linked_ebi := Ebi.dflt, pgw_addr_control := Fteid.dflt, pgw_node_name := none, bearer_ctxs := [], apn_ambr := Ambr.dflt, charging_char := none, change_reporting_action := none, csg_info_reporting_action := none, henb_info_reporting := none, indication := none, signalling_priority_indication := none, change_to_report_flags := none, local_home_network_id := none, praa := none, wlan_offloadability := none, remote_ue_ctxs := [], pdn_type := none, hdr_compr_config := none, pgw_change_info := none, up_security_policy := none }

/-- One turn of the loop over the members (pdnconnections.rs:87-211). -/
def step (s : PdnConnections) : IE → PdnConnections
  | .Apn k => if k.ins = 0 then { s with apn := k } else s
  | .ApnRestriction k => if k.ins = 0 ∧ s.apn_restriction = none then { s with apn_restriction := some k } else s
  | .SelectionMode k => if k.ins = 0 ∧ s.selection_mode = none then { s with selection_mode := some k } else s
  | .IpAddress k => if k.ins = 0 ∧ s.ipv4 = none then { s with ipv4 := some k } else if k.ins = 1 ∧ s.ipv6 = none then { s with ipv6 := some k } else s
  | .Ebi k => if k.ins = 0 then { s with linked_ebi := k } else s
  | .Fteid k => if k.ins = 0 then { s with pgw_addr_control := k } else s
  | .Fqdn k => if k.ins = 0 ∧ s.pgw_node_name = none then { s with pgw_node_name := some k } else if k.ins = 1 ∧ s.local_home_network_id = none then { s with local_home_network_id := some k } else s
  | .BearerContext k => if k.ins = 0 then { s with bearer_ctxs := s.bearer_ctxs ++ [k] } else s
  | .ApnAmbr k => if k.ins = 0 then { s with apn_ambr := k } else s
  | .ChargingCharacteristics k => if k.ins = 0 ∧ s.charging_char = none then { s with charging_char := some k } else s
  | .ChangeReportingAction k => if k.ins = 0 ∧ s.change_reporting_action = none then { s with change_reporting_action := some k } else s
  | .CSGInformationReportingAction k => if k.ins = 0 ∧ s.csg_info_reporting_action = none then { s with csg_info_reporting_action := some k } else s
  | .HenbInfoReporting k => if k.ins = 0 ∧ s.henb_info_reporting = none then { s with henb_info_reporting := some k } else s
  | .Indication k => if k.ins = 0 ∧ s.indication = none then { s with indication := some k } else s
  | .Spi k => if k.ins = 0 ∧ s.signalling_priority_indication = none then { s with signalling_priority_indication := some k } else s
  | .ChangeToReportFlags k => if k.ins = 0 ∧ s.change_to_report_flags = none then { s with change_to_report_flags := some k } else s
  | .PresenceReportingAreaAction k => if k.ins = 0 ∧ s.praa = none then { s with praa := some k } else s
  | .WlanOffloadIndication k => if k.ins = 0 ∧ s.wlan_offloadability = none then { s with wlan_offloadability := some k } else s
  | .RemoteUeContext k => if k.ins = 0 then { s with remote_ue_ctxs := s.remote_ue_ctxs ++ [k] } else s
  | .PdnType k => if k.ins = 0 ∧ s.pdn_type = none then { s with pdn_type := some k } else s
  | .HeaderCompressionConfiguration k => if k.ins = 0 ∧ s.hdr_compr_config = none then { s with hdr_compr_config := some k } else s
  | _ => s

/-- `From<GroupedIe> for PdnConnections` (pdnconnections.rs:87-211). -/
def ofGroup (t : UInt8) (length : UInt16) (ins : UInt8) (l : List IE) : PdnConnections :=
  l.foldl step (init t length ins)

/-- `to_vec` (pdnconnections.rs:242-332). -/
def toVec (x : PdnConnections) : List IE :=
  [.Apn x.apn] ++ (
  optV .ApnRestriction x.apn_restriction ++ (
  optV .SelectionMode x.selection_mode ++ (
  optV .IpAddress x.ipv4 ++ (
  optV .IpAddress x.ipv6 ++ (
  [.Ebi x.linked_ebi] ++ (
  [.Fteid x.pgw_addr_control] ++ (
  optV .Fqdn x.pgw_node_name ++ (
  x.bearer_ctxs.map .BearerContext ++ (
  [.ApnAmbr x.apn_ambr] ++ (
  optV .ChargingCharacteristics x.charging_char ++ (
  optV .ChangeReportingAction x.change_reporting_action ++ (
  optV .CSGInformationReportingAction x.csg_info_reporting_action ++ (
  optV .HenbInfoReporting x.henb_info_reporting ++ (
  optV .Indication x.indication ++ (
  optV .Spi x.signalling_priority_indication ++ (
  optV .ChangeToReportFlags x.change_to_report_flags ++ (
  optV .Fqdn x.local_home_network_id ++ (
  optV .PresenceReportingAreaAction x.praa ++ (
  optV .WlanOffloadIndication x.wlan_offloadability ++ (
  x.remote_ue_ctxs.map .RemoteUeContext ++ (
  optV .PdnType x.pdn_type ++ (
  optV .HeaderCompressionConfiguration x.hdr_compr_config))))))))))))))))))))))

end PdnConnections

namespace V2xInformation

/-- `V2xInformation::default()` with the header fields set (v2xinformation.rs:43-69). -/
def init (t : UInt8) (length : UInt16) (ins : UInt8) : V2xInformation :=
  { t, length, ins, services_auth := [], sidelink_max_brs := [], pc5_qos_params := none }

/-- One turn of the loop over the members (v2xinformation.rs:43-69). -/
def step (s : V2xInformation) : IE → V2xInformation
  | .ServicesAuthorized k => if k.ins < 2 then { s with services_auth := s.services_auth ++ [k] } else s
  | .BitRate k => if k.ins < 2 then { s with sidelink_max_brs := s.sidelink_max_brs ++ [k] } else s
  | .PC5QosParameters k => if k.ins = 0 ∧ s.pc5_qos_params = none then { s with pc5_qos_params := some k } else s
  | _ => s

/-- `From<GroupedIe> for V2xInformation` (v2xinformation.rs:43-69). -/
def ofGroup (t : UInt8) (length : UInt16) (ins : UInt8) (l : List IE) : V2xInformation :=
  l.foldl step (init t length ins)

/-- `to_vec` (v2xinformation.rs:100-114). -/
def toVec (x : V2xInformation) : List IE :=
  x.services_auth.map .ServicesAuthorized ++ (
  x.sidelink_max_brs.map .BitRate ++ (
  optV .PC5QosParameters x.pc5_qos_params))

end V2xInformation

namespace IE

/-- `GroupedIe::marshal` (groupedie.rs:27-35) on the members, given the encoder of one IE. -/
def groupMar (enc : IE → Bytes) (ty : UInt8) (length : UInt16) (ins : UInt8) (l : List IE) : Bytes :=
  tliv ty length ins (l.flatMap enc)

/-- `InformationElement::marshal` (ie.rs:324-473), given the encoder used for the members of grouped IEs. For grouped IEs
this is `GroupedIe::from(self.clone()).marshal(buffer)`; for `Unknown` unknown.rs:26-34. -/
def marshalWith (enc : IE → Bytes) : IE → Bytes
  | .Imsi x => x.marshal
  | .Cause x => x.marshal
  | .Recovery x => x.marshal
  | .StnSr x => x.marshal
  | .SrvccCause x => x.marshal
  | .Apn x => x.marshal
  | .ApnAmbr x => x.marshal
  | .Ebi x => x.marshal
  | .IpAddress x => x.marshal
  | .Mei x => x.marshal
  | .Msisdn x => x.marshal
  | .Indication x => x.marshal
  | .Pco x => x.marshal
  | .PdnAddressAllocation x => x.marshal
  | .BearerQos x => x.marshal
  | .FlowQos x => x.marshal
  | .RatType x => x.marshal
  | .ServingNetwork x => x.marshal
  | .BearerTft x => x.marshal
  | .TrafficAggregateDescription x => x.marshal
  | .Uli x => x.marshal
  | .Fteid x => x.marshal
  | .Tmsi x => x.marshal
  | .GlobalCnId x => x.marshal
  | .S103pdf x => x.marshal
  | .S1udf x => x.marshal
  | .DelayValue x => x.marshal
  | .BearerContext x => groupMar enc 93 x.length x.ins x.toVec
  | .ChargingId x => x.marshal
  | .ChargingCharacteristics x => x.marshal
  | .TraceInformation x => x.marshal
  | .BearerFlags x => x.marshal
  | .PdnType x => x.marshal
  | .Pti x => x.marshal
  | .MmContext x => x.marshal
  | .PdnConnections x => groupMar enc 109 x.length x.ins x.toVec
  | .PduNumbers x => x.marshal
  | .Ptmsi x => x.marshal
  | .PtmsiSignature x => x.marshal
  | .HopCounter x => x.marshal
  | .UeTimeZone x => x.marshal
  | .TraceReference x => x.marshal
  | .CompleteRequestMessage x => x.marshal
  | .Guti x => x.marshal
  | .Fcontainer x => x.marshal
  | .Fcause x => x.marshal
  | .PlmnId x => x.marshal
  | .TargetIdentification x => x.marshal
  | .PacketFlowId x => x.marshal
  | .RabContext x => x.marshal
  | .SrcRncPdcpCtxInfo x => x.marshal
  | .PortNumber x => x.marshal
  | .ApnRestriction x => x.marshal
  | .SelectionMode x => x.marshal
  | .SourceIdentification x => x.marshal
  | .ChangeReportingAction x => x.marshal
  | .Fqcsid x => x.marshal
  | .ChannelNeeded x => x.marshal
  | .EmlppPriority x => x.marshal
  | .NodeType x => x.marshal
  | .Fqdn x => x.marshal
  | .TransactionIdentifier x => x.marshal
  | .MbmsSa x => x.marshal
  | .MbmsSd x => x.marshal
  | .MbmsSessionId x => x.marshal
  | .MbmsFlowId x => x.marshal
  | .MbmsIpMulticastDistribution x => x.marshal
  | .MbmsDistributionAck x => x.marshal
  | .RfspIndex x => x.marshal
  | .Uci x => x.marshal
  | .CSGInformationReportingAction x => x.marshal
  | .CsgId x => x.marshal
  | .CsgMembershipIndication x => x.marshal
  | .ServiceIndicator x => x.marshal
  | .DetachType x => x.marshal
  | .Ldn x => x.marshal
  | .NodeFeatures x => x.marshal
  | .MbmsTimeToDataTransfer x => x.marshal
  | .Throttling x => x.marshal
  | .Arp x => x.marshal
  | .EpcTimer x => x.marshal
  | .Spi x => x.marshal
  | .Tmgi x => x.marshal
  | .AdditionalMmContextForSrvcc x => x.marshal
  | .AdditionalFlagsSrvcc x => x.marshal
  | .MdtConfiguration x => x.marshal
  | .Apco x => x.marshal
  | .AbsoluteTimeMbmsDataTransfer x => x.marshal
  | .HenbInfoReporting x => x.marshal
  | .Ip4Cp x => x.marshal
  | .ChangeToReportFlags x => x.marshal
  | .ActionIndication x => x.marshal
  | .TwanId x => x.marshal
  | .UliTimestamp x => x.marshal
  | .MbmsFlags x => x.marshal
  | .RanNasCause x => x.marshal
  | .CnOperatorSelectionEntity x => x.marshal
  | .Twmi x => x.marshal
  | .NodeNumber x => x.marshal
  | .NodeIdentifier x => x.marshal
  | .PresenceReportingAreaAction x => x.marshal
  | .PresenceReportingAreaInformation x => x.marshal
  | .TwanIdTimeStamp x => x.marshal
  | .OverloadControlInfo x => groupMar enc 180 x.length x.ins x.toVec
  | .LoadControlInfo x => groupMar enc 181 x.length x.ins x.toVec
  | .Metric x => x.marshal
  | .Sqn x => x.marshal
  | .ApnRelativeCapacity x => x.marshal
  | .WlanOffloadIndication x => x.marshal
  | .PagingServiceInfo x => x.marshal
  | .IntegerNumber x => x.marshal
  | .MilliSecondTimeStamp x => x.marshal
  | .MonitoringEventInformation x => x.marshal
  | .EcgiList x => x.marshal
  | .RemoteUeContext x => groupMar enc 191 x.length x.ins x.toVec
  | .RemoteUserId x => x.marshal
  | .RemoteUeIpInformation x => x.marshal
  | .CIoTOptimizationSupportIndication x => x.marshal
  | .ScefPdnConnections x => groupMar enc 195 x.length x.ins x.toVec
  | .HeaderCompressionConfiguration x => x.marshal
  | .Epco x => x.marshal
  | .ServingPlmnRateControl x => x.marshal
  | .Counter x => x.marshal
  | .MappedUeUsageType x => x.marshal
  | .SecondaryRatUsageDataReport x => x.marshal
  | .UpFunctionSelectionIndicationFlags x => x.marshal
  | .MaxPacketLossRate x => x.marshal
  | .ApnRateControlStatus x => x.marshal
  | .ExtendedTraceInformation x => x.marshal
  | .MonitoringEventExtensionInfo x => x.marshal
  | .AdditionalRrmPolicyIndex x => x.marshal
  | .V2xInformation x => groupMar enc 208 x.length x.ins x.toVec
  | .PC5QosParameters x => groupMar enc 209 x.length x.ins x.toVec
  | .ServicesAuthorized x => x.marshal
  | .BitRate x => x.marshal
  | .PC5QosFlow x => x.marshal
  | .SgiPtpTunnelAddress x => x.marshal
  | .PgwChangeInfo x => groupMar enc 214 x.length x.ins x.toVec
  | .PgwFqdn x => x.marshal
  | .GroupId x => x.marshal
  | .PSCellId x => x.marshal
  | .UpSecurityPolicy x => x.marshal
  | .AlternativeImsi x => x.marshal
  | .SpecialIEWithTypeExt x => x.marshal
  | .PrivateExtension x => x.marshal
  | .Unknown x => tliv x.t x.length x.ins x.value

/-- `InformationElement::marshal` (ie.rs:324-473): the octets appended to the buffer. -/
def marshal : IE → Bytes := marshalWith (marshalWith (marshalWith fun _ => []))

/-- `InformationElement::encoder` (ie.rs:475-479). -/
def encoder (l : List IE) : Bytes := l.flatMap marshal

/-- `i.len()` as used by the decoder. -/
def len (m : Mode) : IE → R Err Nat
  | .Imsi x => x.len m
  | .Cause x => x.len m
  | .Recovery x => x.len m
  | .StnSr x => x.len m
  | .SrvccCause x => x.len m
  | .Apn x => x.len m
  | .ApnAmbr x => x.len m
  | .Ebi x => x.len m
  | .IpAddress x => x.len m
  | .Mei x => x.len m
  | .Msisdn x => x.len m
  | .Indication x => x.len m
  | .Pco x => x.len m
  | .PdnAddressAllocation x => x.len m
  | .BearerQos x => x.len m
  | .FlowQos x => x.len m
  | .RatType x => x.len m
  | .ServingNetwork x => x.len m
  | .BearerTft x => x.len m
  | .TrafficAggregateDescription x => x.len m
  | .Uli x => x.len m
  | .Fteid x => x.len m
  | .Tmsi x => x.len m
  | .GlobalCnId x => x.len m
  | .S103pdf x => x.len m
  | .S1udf x => x.len m
  | .DelayValue x => x.len m
  | .BearerContext x => ieLenU x.length
  | .ChargingId x => x.len m
  | .ChargingCharacteristics x => x.len m
  | .TraceInformation x => x.len m
  | .BearerFlags x => x.len m
  | .PdnType x => x.len m
  | .Pti x => x.len m
  | .MmContext x => x.len m
  | .PdnConnections x => ieLenU x.length
  | .PduNumbers x => x.len m
  | .Ptmsi x => x.len m
  | .PtmsiSignature x => x.len m
  | .HopCounter x => x.len m
  | .UeTimeZone x => x.len m
  | .TraceReference x => x.len m
  | .CompleteRequestMessage x => x.len m
  | .Guti x => x.len m
  | .Fcontainer x => x.len m
  | .Fcause x => x.len m
  | .PlmnId x => x.len m
  | .TargetIdentification x => x.len m
  | .PacketFlowId x => x.len m
  | .RabContext x => x.len m
  | .SrcRncPdcpCtxInfo x => x.len m
  | .PortNumber x => x.len m
  | .ApnRestriction x => x.len m
  | .SelectionMode x => x.len m
  | .SourceIdentification x => x.len m
  | .ChangeReportingAction x => x.len m
  | .Fqcsid x => x.len m
  | .ChannelNeeded x => x.len m
  | .EmlppPriority x => x.len m
  | .NodeType x => x.len m
  | .Fqdn x => x.len m
  | .TransactionIdentifier x => x.len m
  | .MbmsSa x => x.len m
  | .MbmsSd x => x.len m
  | .MbmsSessionId x => x.len m
  | .MbmsFlowId x => x.len m
  | .MbmsIpMulticastDistribution x => x.len m
  | .MbmsDistributionAck x => x.len m
  | .RfspIndex x => x.len m
  | .Uci x => x.len m
  | .CSGInformationReportingAction x => x.len m
  | .CsgId x => x.len m
  | .CsgMembershipIndication x => x.len m
  | .ServiceIndicator x => x.len m
  | .DetachType x => x.len m
  | .Ldn x => x.len m
  | .NodeFeatures x => x.len m
  | .MbmsTimeToDataTransfer x => x.len m
  | .Throttling x => x.len m
  | .Arp x => x.len m
  | .EpcTimer x => x.len m
  | .Spi x => x.len m
  | .Tmgi x => x.len m
  | .AdditionalMmContextForSrvcc x => x.len m
  | .AdditionalFlagsSrvcc x => x.len m
  | .MdtConfiguration x => x.len m
  | .Apco x => x.len m
  | .AbsoluteTimeMbmsDataTransfer x => x.len m
  | .HenbInfoReporting x => x.len m
  | .Ip4Cp x => x.len m
  | .ChangeToReportFlags x => x.len m
  | .ActionIndication x => x.len m
  | .TwanId x => x.len m
  | .UliTimestamp x => x.len m
  | .MbmsFlags x => x.len m
  | .RanNasCause x => x.len m
  | .CnOperatorSelectionEntity x => x.len m
  | .Twmi x => x.len m
  | .NodeNumber x => x.len m
  | .NodeIdentifier x => x.len m
  | .PresenceReportingAreaAction x => x.len m
  | .PresenceReportingAreaInformation x => x.len m
  | .TwanIdTimeStamp x => x.len m
  | .OverloadControlInfo x => ieLenU x.length
  | .LoadControlInfo x => ieLenU x.length
  | .Metric x => x.len m
  | .Sqn x => x.len m
  | .ApnRelativeCapacity x => x.len m
  | .WlanOffloadIndication x => x.len m
  | .PagingServiceInfo x => x.len m
  | .IntegerNumber x => x.len m
  | .MilliSecondTimeStamp x => x.len m
  | .MonitoringEventInformation x => x.len m
  | .EcgiList x => x.len m
  | .RemoteUeContext x => ieLenU x.length
  | .RemoteUserId x => x.len m
  | .RemoteUeIpInformation x => x.len m
  | .CIoTOptimizationSupportIndication x => x.len m
  | .ScefPdnConnections x => ieLenU x.length
  | .HeaderCompressionConfiguration x => x.len m
  | .Epco x => x.len m
  | .ServingPlmnRateControl x => x.len m
  | .Counter x => x.len m
  | .MappedUeUsageType x => x.len m
  | .SecondaryRatUsageDataReport x => x.len m
  | .UpFunctionSelectionIndicationFlags x => x.len m
  | .MaxPacketLossRate x => x.len m
  | .ApnRateControlStatus x => x.len m
  | .ExtendedTraceInformation x => x.len m
  | .MonitoringEventExtensionInfo x => x.len m
  | .AdditionalRrmPolicyIndex x => x.len m
  | .V2xInformation x => ieLenU x.length
  | .PC5QosParameters x => ieLenU x.length
  | .ServicesAuthorized x => x.len m
  | .BitRate x => x.len m
  | .PC5QosFlow x => x.len m
  | .SgiPtpTunnelAddress x => x.len m
  | .PgwChangeInfo x => ieLenU x.length
  | .PgwFqdn x => x.len m
  | .GroupId x => x.len m
  | .PSCellId x => x.len m
  | .UpSecurityPolicy x => x.len m
  | .AlternativeImsi x => x.len m
  | .SpecialIEWithTypeExt x => x.len m
  | .PrivateExtension x => x.len m
  | .Unknown x => ieLenU x.length

/-- The field `ins`. -/
def ins : IE → UInt8
  | .Imsi x => x.ins
  | .Cause x => x.ins
  | .Recovery x => x.ins
  | .StnSr x => x.ins
  | .SrvccCause x => x.ins
  | .Apn x => x.ins
  | .ApnAmbr x => x.ins
  | .Ebi x => x.ins
  | .IpAddress x => x.ins
  | .Mei x => x.ins
  | .Msisdn x => x.ins
  | .Indication x => x.ins
  | .Pco x => x.ins
  | .PdnAddressAllocation x => x.ins
  | .BearerQos x => x.ins
  | .FlowQos x => x.ins
  | .RatType x => x.ins
  | .ServingNetwork x => x.ins
  | .BearerTft x => x.ins
  | .TrafficAggregateDescription x => x.ins
  | .Uli x => x.ins
  | .Fteid x => x.ins
  | .Tmsi x => x.ins
  | .GlobalCnId x => x.ins
  | .S103pdf x => x.ins
  | .S1udf x => x.ins
  | .DelayValue x => x.ins
  | .BearerContext x => x.ins
  | .ChargingId x => x.ins
  | .ChargingCharacteristics x => x.ins
  | .TraceInformation x => x.ins
  | .BearerFlags x => x.ins
  | .PdnType x => x.ins
  | .Pti x => x.ins
  | .MmContext x => x.ins
  | .PdnConnections x => x.ins
  | .PduNumbers x => x.ins
  | .Ptmsi x => x.ins
  | .PtmsiSignature x => x.ins
  | .HopCounter x => x.ins
  | .UeTimeZone x => x.ins
  | .TraceReference x => x.ins
  | .CompleteRequestMessage x => x.ins
  | .Guti x => x.ins
  | .Fcontainer x => x.ins
  | .Fcause x => x.ins
  | .PlmnId x => x.ins
  | .TargetIdentification x => x.ins
  | .PacketFlowId x => x.ins
  | .RabContext x => x.ins
  | .SrcRncPdcpCtxInfo x => x.ins
  | .PortNumber x => x.ins
  | .ApnRestriction x => x.ins
  | .SelectionMode x => x.ins
  | .SourceIdentification x => x.ins
  | .ChangeReportingAction x => x.ins
  | .Fqcsid x => x.ins
  | .ChannelNeeded x => x.ins
  | .EmlppPriority x => x.ins
  | .NodeType x => x.ins
  | .Fqdn x => x.ins
  | .TransactionIdentifier x => x.ins
  | .MbmsSa x => x.ins
  | .MbmsSd x => x.ins
  | .MbmsSessionId x => x.ins
  | .MbmsFlowId x => x.ins
  | .MbmsIpMulticastDistribution x => x.ins
  | .MbmsDistributionAck x => x.ins
  | .RfspIndex x => x.ins
  | .Uci x => x.ins
  | .CSGInformationReportingAction x => x.ins
  | .CsgId x => x.ins
  | .CsgMembershipIndication x => x.ins
  | .ServiceIndicator x => x.ins
  | .DetachType x => x.ins
  | .Ldn x => x.ins
  | .NodeFeatures x => x.ins
  | .MbmsTimeToDataTransfer x => x.ins
  | .Throttling x => x.ins
  | .Arp x => x.ins
  | .EpcTimer x => x.ins
  | .Spi x => x.ins
  | .Tmgi x => x.ins
  | .AdditionalMmContextForSrvcc x => x.ins
  | .AdditionalFlagsSrvcc x => x.ins
  | .MdtConfiguration x => x.ins
  | .Apco x => x.ins
  | .AbsoluteTimeMbmsDataTransfer x => x.ins
  | .HenbInfoReporting x => x.ins
  | .Ip4Cp x => x.ins
  | .ChangeToReportFlags x => x.ins
  | .ActionIndication x => x.ins
  | .TwanId x => x.ins
  | .UliTimestamp x => x.ins
  | .MbmsFlags x => x.ins
  | .RanNasCause x => x.ins
  | .CnOperatorSelectionEntity x => x.ins
  | .Twmi x => x.ins
  | .NodeNumber x => x.ins
  | .NodeIdentifier x => x.ins
  | .PresenceReportingAreaAction x => x.ins
  | .PresenceReportingAreaInformation x => x.ins
  | .TwanIdTimeStamp x => x.ins
  | .OverloadControlInfo x => x.ins
  | .LoadControlInfo x => x.ins
  | .Metric x => x.ins
  | .Sqn x => x.ins
  | .ApnRelativeCapacity x => x.ins
  | .WlanOffloadIndication x => x.ins
  | .PagingServiceInfo x => x.ins
  | .IntegerNumber x => x.ins
  | .MilliSecondTimeStamp x => x.ins
  | .MonitoringEventInformation x => x.ins
  | .EcgiList x => x.ins
  | .RemoteUeContext x => x.ins
  | .RemoteUserId x => x.ins
  | .RemoteUeIpInformation x => x.ins
  | .CIoTOptimizationSupportIndication x => x.ins
  | .ScefPdnConnections x => x.ins
  | .HeaderCompressionConfiguration x => x.ins
  | .Epco x => x.ins
  | .ServingPlmnRateControl x => x.ins
  | .Counter x => x.ins
  | .MappedUeUsageType x => x.ins
  | .SecondaryRatUsageDataReport x => x.ins
  | .UpFunctionSelectionIndicationFlags x => x.ins
  | .MaxPacketLossRate x => x.ins
  | .ApnRateControlStatus x => x.ins
  | .ExtendedTraceInformation x => x.ins
  | .MonitoringEventExtensionInfo x => x.ins
  | .AdditionalRrmPolicyIndex x => x.ins
  | .V2xInformation x => x.ins
  | .PC5QosParameters x => x.ins
  | .ServicesAuthorized x => x.ins
  | .BitRate x => x.ins
  | .PC5QosFlow x => x.ins
  | .SgiPtpTunnelAddress x => x.ins
  | .PgwChangeInfo x => x.ins
  | .PgwFqdn x => x.ins
  | .GroupId x => x.ins
  | .PSCellId x => x.ins
  | .UpSecurityPolicy x => x.ins
  | .AlternativeImsi x => x.ins
  | .SpecialIEWithTypeExt x => x.ins
  | .PrivateExtension x => x.ins
  | .Unknown x => x.ins

/-- The field `t`. -/
def t : IE → UInt8
  | .Imsi x => x.t
  | .Cause x => x.t
  | .Recovery x => x.t
  | .StnSr x => x.t
  | .SrvccCause x => x.t
  | .Apn x => x.t
  | .ApnAmbr x => x.t
  | .Ebi x => x.t
  | .IpAddress x => x.t
  | .Mei x => x.t
  | .Msisdn x => x.t
  | .Indication x => x.t
  | .Pco x => x.t
  | .PdnAddressAllocation x => x.t
  | .BearerQos x => x.t
  | .FlowQos x => x.t
  | .RatType x => x.t
  | .ServingNetwork x => x.t
  | .BearerTft x => x.t
  | .TrafficAggregateDescription x => x.t
  | .Uli x => x.t
  | .Fteid x => x.t
  | .Tmsi x => x.t
  | .GlobalCnId x => x.t
  | .S103pdf x => x.t
  | .S1udf x => x.t
  | .DelayValue x => x.t
  | .BearerContext x => x.t
  | .ChargingId x => x.t
  | .ChargingCharacteristics x => x.t
  | .TraceInformation x => x.t
  | .BearerFlags x => x.t
  | .PdnType x => x.t
  | .Pti x => x.t
  | .MmContext x => x.t
  | .PdnConnections x => x.t
  | .PduNumbers x => x.t
  | .Ptmsi x => x.t
  | .PtmsiSignature x => x.t
  | .HopCounter x => x.t
  | .UeTimeZone x => x.t
  | .TraceReference x => x.t
  | .CompleteRequestMessage x => x.t
  | .Guti x => x.t
  | .Fcontainer x => x.t
  | .Fcause x => x.t
  | .PlmnId x => x.t
  | .TargetIdentification x => x.t
  | .PacketFlowId x => x.t
  | .RabContext x => x.t
  | .SrcRncPdcpCtxInfo x => x.t
  | .PortNumber x => x.t
  | .ApnRestriction x => x.t
  | .SelectionMode x => x.t
  | .SourceIdentification x => x.t
  | .ChangeReportingAction x => x.t
  | .Fqcsid x => x.t
  | .ChannelNeeded x => x.t
  | .EmlppPriority x => x.t
  | .NodeType x => x.t
  | .Fqdn x => x.t
  | .TransactionIdentifier x => x.t
  | .MbmsSa x => x.t
  | .MbmsSd x => x.t
  | .MbmsSessionId x => x.t
  | .MbmsFlowId x => x.t
  | .MbmsIpMulticastDistribution x => x.t
  | .MbmsDistributionAck x => x.t
  | .RfspIndex x => x.t
  | .Uci x => x.t
  | .CSGInformationReportingAction x => x.t
  | .CsgId x => x.t
  | .CsgMembershipIndication x => x.t
  | .ServiceIndicator x => x.t
  | .DetachType x => x.t
  | .Ldn x => x.t
  | .NodeFeatures x => x.t
  | .MbmsTimeToDataTransfer x => x.t
  | .Throttling x => x.t
  | .Arp x => x.t
  | .EpcTimer x => x.t
  | .Spi x => x.t
  | .Tmgi x => x.t
  | .AdditionalMmContextForSrvcc x => x.t
  | .AdditionalFlagsSrvcc x => x.t
  | .MdtConfiguration x => x.t
  | .Apco x => x.t
  | .AbsoluteTimeMbmsDataTransfer x => x.t
  | .HenbInfoReporting x => x.t
  | .Ip4Cp x => x.t
  | .ChangeToReportFlags x => x.t
  | .ActionIndication x => x.t
  | .TwanId x => x.t
  | .UliTimestamp x => x.t
  | .MbmsFlags x => x.t
  | .RanNasCause x => x.t
  | .CnOperatorSelectionEntity x => x.t
  | .Twmi x => x.t
  | .NodeNumber x => x.t
  | .NodeIdentifier x => x.t
  | .PresenceReportingAreaAction x => x.t
  | .PresenceReportingAreaInformation x => x.t
  | .TwanIdTimeStamp x => x.t
  | .OverloadControlInfo x => x.t
  | .LoadControlInfo x => x.t
  | .Metric x => x.t
  | .Sqn x => x.t
  | .ApnRelativeCapacity x => x.t
  | .WlanOffloadIndication x => x.t
  | .PagingServiceInfo x => x.t
  | .IntegerNumber x => x.t
  | .MilliSecondTimeStamp x => x.t
  | .MonitoringEventInformation x => x.t
  | .EcgiList x => x.t
  | .RemoteUeContext x => x.t
  | .RemoteUserId x => x.t
  | .RemoteUeIpInformation x => x.t
  | .CIoTOptimizationSupportIndication x => x.t
  | .ScefPdnConnections x => x.t
  | .HeaderCompressionConfiguration x => x.t
  | .Epco x => x.t
  | .ServingPlmnRateControl x => x.t
  | .Counter x => x.t
  | .MappedUeUsageType x => x.t
  | .SecondaryRatUsageDataReport x => x.t
  | .UpFunctionSelectionIndicationFlags x => x.t
  | .MaxPacketLossRate x => x.t
  | .ApnRateControlStatus x => x.t
  | .ExtendedTraceInformation x => x.t
  | .MonitoringEventExtensionInfo x => x.t
  | .AdditionalRrmPolicyIndex x => x.t
  | .V2xInformation x => x.t
  | .PC5QosParameters x => x.t
  | .ServicesAuthorized x => x.t
  | .BitRate x => x.t
  | .PC5QosFlow x => x.t
  | .SgiPtpTunnelAddress x => x.t
  | .PgwChangeInfo x => x.t
  | .PgwFqdn x => x.t
  | .GroupId x => x.t
  | .PSCellId x => x.t
  | .UpSecurityPolicy x => x.t
  | .AlternativeImsi x => x.t
  | .SpecialIEWithTypeExt x => x.t
  | .PrivateExtension x => x.t
  | .Unknown x => x.t

/-- The field `length`. -/
def length : IE → UInt16
  | .Imsi x => x.length
  | .Cause x => x.length
  | .Recovery x => x.length
  | .StnSr x => x.length
  | .SrvccCause x => x.length
  | .Apn x => x.length
  | .ApnAmbr x => x.length
  | .Ebi x => x.length
  | .IpAddress x => x.length
  | .Mei x => x.length
  | .Msisdn x => x.length
  | .Indication x => x.length
  | .Pco x => x.length
  | .PdnAddressAllocation x => x.length
  | .BearerQos x => x.length
  | .FlowQos x => x.length
  | .RatType x => x.length
  | .ServingNetwork x => x.length
  | .BearerTft x => x.length
  | .TrafficAggregateDescription x => x.length
  | .Uli x => x.length
  | .Fteid x => x.length
  | .Tmsi x => x.length
  | .GlobalCnId x => x.length
  | .S103pdf x => x.length
  | .S1udf x => x.length
  | .DelayValue x => x.length
  | .BearerContext x => x.length
  | .ChargingId x => x.length
  | .ChargingCharacteristics x => x.length
  | .TraceInformation x => x.length
  | .BearerFlags x => x.length
  | .PdnType x => x.length
  | .Pti x => x.length
  | .MmContext x => x.length
  | .PdnConnections x => x.length
  | .PduNumbers x => x.length
  | .Ptmsi x => x.length
  | .PtmsiSignature x => x.length
  | .HopCounter x => x.length
  | .UeTimeZone x => x.length
  | .TraceReference x => x.length
  | .CompleteRequestMessage x => x.length
  | .Guti x => x.length
  | .Fcontainer x => x.length
  | .Fcause x => x.length
  | .PlmnId x => x.length
  | .TargetIdentification x => x.length
  | .PacketFlowId x => x.length
  | .RabContext x => x.length
  | .SrcRncPdcpCtxInfo x => x.length
  | .PortNumber x => x.length
  | .ApnRestriction x => x.length
  | .SelectionMode x => x.length
  | .SourceIdentification x => x.length
  | .ChangeReportingAction x => x.length
  | .Fqcsid x => x.length
  | .ChannelNeeded x => x.length
  | .EmlppPriority x => x.length
  | .NodeType x => x.length
  | .Fqdn x => x.length
  | .TransactionIdentifier x => x.length
  | .MbmsSa x => x.length
  | .MbmsSd x => x.length
  | .MbmsSessionId x => x.length
  | .MbmsFlowId x => x.length
  | .MbmsIpMulticastDistribution x => x.length
  | .MbmsDistributionAck x => x.length
  | .RfspIndex x => x.length
  | .Uci x => x.length
  | .CSGInformationReportingAction x => x.length
  | .CsgId x => x.length
  | .CsgMembershipIndication x => x.length
  | .ServiceIndicator x => x.length
  | .DetachType x => x.length
  | .Ldn x => x.length
  | .NodeFeatures x => x.length
  | .MbmsTimeToDataTransfer x => x.length
  | .Throttling x => x.length
  | .Arp x => x.length
  | .EpcTimer x => x.length
  | .Spi x => x.length
  | .Tmgi x => x.length
  | .AdditionalMmContextForSrvcc x => x.length
  | .AdditionalFlagsSrvcc x => x.length
  | .MdtConfiguration x => x.length
  | .Apco x => x.length
  | .AbsoluteTimeMbmsDataTransfer x => x.length
  | .HenbInfoReporting x => x.length
  | .Ip4Cp x => x.length
  | .ChangeToReportFlags x => x.length
  | .ActionIndication x => x.length
  | .TwanId x => x.length
  | .UliTimestamp x => x.length
  | .MbmsFlags x => x.length
  | .RanNasCause x => x.length
  | .CnOperatorSelectionEntity x => x.length
  | .Twmi x => x.length
  | .NodeNumber x => x.length
  | .NodeIdentifier x => x.length
  | .PresenceReportingAreaAction x => x.length
  | .PresenceReportingAreaInformation x => x.length
  | .TwanIdTimeStamp x => x.length
  | .OverloadControlInfo x => x.length
  | .LoadControlInfo x => x.length
  | .Metric x => x.length
  | .Sqn x => x.length
  | .ApnRelativeCapacity x => x.length
  | .WlanOffloadIndication x => x.length
  | .PagingServiceInfo x => x.length
  | .IntegerNumber x => x.length
  | .MilliSecondTimeStamp x => x.length
  | .MonitoringEventInformation x => x.length
  | .EcgiList x => x.length
  | .RemoteUeContext x => x.length
  | .RemoteUserId x => x.length
  | .RemoteUeIpInformation x => x.length
  | .CIoTOptimizationSupportIndication x => x.length
  | .ScefPdnConnections x => x.length
  | .HeaderCompressionConfiguration x => x.length
  | .Epco x => x.length
  | .ServingPlmnRateControl x => x.length
  | .Counter x => x.length
  | .MappedUeUsageType x => x.length
  | .SecondaryRatUsageDataReport x => x.length
  | .UpFunctionSelectionIndicationFlags x => x.length
  | .MaxPacketLossRate x => x.length
  | .ApnRateControlStatus x => x.length
  | .ExtendedTraceInformation x => x.length
  | .MonitoringEventExtensionInfo x => x.length
  | .AdditionalRrmPolicyIndex x => x.length
  | .V2xInformation x => x.length
  | .PC5QosParameters x => x.length
  | .ServicesAuthorized x => x.length
  | .BitRate x => x.length
  | .PC5QosFlow x => x.length
  | .SgiPtpTunnelAddress x => x.length
  | .PgwChangeInfo x => x.length
  | .PgwFqdn x => x.length
  | .GroupId x => x.length
  | .PSCellId x => x.length
  | .UpSecurityPolicy x => x.length
  | .AlternativeImsi x => x.length
  | .SpecialIEWithTypeExt x => x.length
  | .PrivateExtension x => x.length
  | .Unknown x => x.length

/-- The arm of the decoder that produces an IE of this constructor. -/
def kind : IE → Kind
  | .Imsi _ => .Imsi
  | .Cause _ => .Cause
  | .Recovery _ => .Recovery
  | .StnSr _ => .StnSr
  | .SrvccCause _ => .SrvccCause
  | .Apn _ => .Apn
  | .ApnAmbr _ => .ApnAmbr
  | .Ebi _ => .Ebi
  | .IpAddress _ => .IpAddress
  | .Mei _ => .Mei
  | .Msisdn _ => .Msisdn
  | .Indication _ => .Indication
  | .Pco _ => .Pco
  | .PdnAddressAllocation _ => .PdnAddressAllocation
  | .BearerQos _ => .BearerQos
  | .FlowQos _ => .FlowQos
  | .RatType _ => .RatType
  | .ServingNetwork _ => .ServingNetwork
  | .BearerTft _ => .BearerTft
  | .TrafficAggregateDescription _ => .TrafficAggregateDescription
  | .Uli _ => .Uli
  | .Fteid _ => .Fteid
  | .Tmsi _ => .Tmsi
  | .GlobalCnId _ => .GlobalCnId
  | .S103pdf _ => .S103pdf
  | .S1udf _ => .S1udf
  | .DelayValue _ => .DelayValue
  | .BearerContext _ => .BearerContext
  | .ChargingId _ => .ChargingId
  | .ChargingCharacteristics _ => .ChargingCharacteristics
  | .TraceInformation _ => .TraceInformation
  | .BearerFlags _ => .BearerFlags
  | .PdnType _ => .PdnType
  | .Pti _ => .Pti
  | .MmContext _ => .MmContext
  | .PdnConnections _ => .PdnConnections
  | .PduNumbers _ => .PduNumbers
  | .Ptmsi _ => .Ptmsi
  | .PtmsiSignature _ => .PtmsiSignature
  | .HopCounter _ => .HopCounter
  | .UeTimeZone _ => .UeTimeZone
  | .TraceReference _ => .TraceReference
  | .CompleteRequestMessage _ => .CompleteRequestMessage
  | .Guti _ => .Guti
  | .Fcontainer _ => .Fcontainer
  | .Fcause _ => .Fcause
  | .PlmnId _ => .PlmnId
  | .TargetIdentification _ => .TargetIdentification
  | .PacketFlowId _ => .PacketFlowId
  | .RabContext _ => .RabContext
  | .SrcRncPdcpCtxInfo _ => .SrcRncPdcpCtxInfo
  | .PortNumber _ => .PortNumber
  | .ApnRestriction _ => .ApnRestriction
  | .SelectionMode _ => .SelectionMode
  | .SourceIdentification _ => .SourceIdentification
  | .ChangeReportingAction _ => .ChangeReportingAction
  | .Fqcsid _ => .Fqcsid
  | .ChannelNeeded _ => .ChannelNeeded
  | .EmlppPriority _ => .EmlppPriority
  | .NodeType _ => .NodeType
  | .Fqdn _ => .Fqdn
  | .TransactionIdentifier _ => .TransactionIdentifier
  | .MbmsSa _ => .MbmsSa
  | .MbmsSd _ => .MbmsSd
  | .MbmsSessionId _ => .MbmsSessionId
  | .MbmsFlowId _ => .MbmsFlowId
  | .MbmsIpMulticastDistribution _ => .MbmsIpMulticastDistribution
  | .MbmsDistributionAck _ => .MbmsDistributionAck
  | .RfspIndex _ => .RfspIndex
  | .Uci _ => .Uci
  | .CSGInformationReportingAction _ => .CSGInformationReportingAction
  | .CsgId _ => .CsgId
  | .CsgMembershipIndication _ => .CsgMembershipIndication
  | .ServiceIndicator _ => .ServiceIndicator
  | .DetachType _ => .DetachType
  | .Ldn _ => .Ldn
  | .NodeFeatures _ => .NodeFeatures
  | .MbmsTimeToDataTransfer _ => .MbmsTimeToDataTransfer
  | .Throttling _ => .Throttling
  | .Arp _ => .Arp
  | .EpcTimer _ => .EpcTimer
  | .Spi _ => .Spi
  | .Tmgi _ => .Tmgi
  | .AdditionalMmContextForSrvcc _ => .AdditionalMmContextForSrvcc
  | .AdditionalFlagsSrvcc _ => .AdditionalFlagsSrvcc
  | .MdtConfiguration _ => .MdtConfiguration
  | .Apco _ => .Apco
  | .AbsoluteTimeMbmsDataTransfer _ => .AbsoluteTimeMbmsDataTransfer
  | .HenbInfoReporting _ => .HenbInfoReporting
  | .Ip4Cp _ => .Ip4Cp
  | .ChangeToReportFlags _ => .ChangeToReportFlags
  | .ActionIndication _ => .ActionIndication
  | .TwanId _ => .TwanId
  | .UliTimestamp _ => .UliTimestamp
  | .MbmsFlags _ => .MbmsFlags
  | .RanNasCause _ => .RanNasCause
  | .CnOperatorSelectionEntity _ => .CnOperatorSelectionEntity
  | .Twmi _ => .Twmi
  | .NodeNumber _ => .NodeNumber
  | .NodeIdentifier _ => .NodeIdentifier
  | .PresenceReportingAreaAction _ => .PresenceReportingAreaAction
  | .PresenceReportingAreaInformation _ => .PresenceReportingAreaInformation
  | .TwanIdTimeStamp _ => .TwanIdTimeStamp
  | .OverloadControlInfo _ => .OverloadControlInfo
  | .LoadControlInfo _ => .LoadControlInfo
  | .Metric _ => .Metric
  | .Sqn _ => .Sqn
  | .ApnRelativeCapacity _ => .ApnRelativeCapacity
  | .WlanOffloadIndication _ => .WlanOffloadIndication
  | .PagingServiceInfo _ => .PagingServiceInfo
  | .IntegerNumber _ => .IntegerNumber
  | .MilliSecondTimeStamp _ => .MilliSecondTimeStamp
  | .MonitoringEventInformation _ => .MonitoringEventInformation
  | .EcgiList _ => .EcgiList
  | .RemoteUeContext _ => .RemoteUeContext
  | .RemoteUserId _ => .RemoteUserId
  | .RemoteUeIpInformation _ => .RemoteUeIpInformation
  | .CIoTOptimizationSupportIndication _ => .CIoTOptimizationSupportIndication
  | .ScefPdnConnections _ => .ScefPdnConnections
  | .HeaderCompressionConfiguration _ => .HeaderCompressionConfiguration
  | .Epco _ => .Epco
  | .ServingPlmnRateControl _ => .ServingPlmnRateControl
  | .Counter _ => .Counter
  | .MappedUeUsageType _ => .MappedUeUsageType
  | .SecondaryRatUsageDataReport _ => .SecondaryRatUsageDataReport
  | .UpFunctionSelectionIndicationFlags _ => .UpFunctionSelectionIndicationFlags
  | .MaxPacketLossRate _ => .MaxPacketLossRate
  | .ApnRateControlStatus _ => .ApnRateControlStatus
  | .ExtendedTraceInformation _ => .ExtendedTraceInformation
  | .MonitoringEventExtensionInfo _ => .MonitoringEventExtensionInfo
  | .AdditionalRrmPolicyIndex _ => .AdditionalRrmPolicyIndex
  | .V2xInformation _ => .V2xInformation
  | .PC5QosParameters _ => .PC5QosParameters
  | .ServicesAuthorized _ => .ServicesAuthorized
  | .BitRate _ => .BitRate
  | .PC5QosFlow _ => .PC5QosFlow
  | .SgiPtpTunnelAddress _ => .SgiPtpTunnelAddress
  | .PgwChangeInfo _ => .PgwChangeInfo
  | .PgwFqdn _ => .PgwFqdn
  | .GroupId _ => .GroupId
  | .PSCellId _ => .PSCellId
  | .UpSecurityPolicy _ => .UpSecurityPolicy
  | .AlternativeImsi _ => .AlternativeImsi
  | .SpecialIEWithTypeExt _ => .SpecialIEWithTypeExt
  | .PrivateExtension _ => .PrivateExtension
  | .Unknown _ => .Unknown

end IE

/-- The decoder's `match buffer[cursor]` (ie.rs:492-1522): pattern and arm; the last arm is `_`. -/
def kindTable : List (UInt8 × Kind) :=
  [(1, .Imsi), (2, .Cause), (3, .Recovery), (51, .StnSr),
   (56, .SrvccCause), (71, .Apn), (72, .ApnAmbr), (73, .Ebi),
   (74, .IpAddress), (75, .Mei), (76, .Msisdn), (77, .Indication),
   (78, .Pco), (79, .PdnAddressAllocation), (80, .BearerQos), (81, .FlowQos),
   (82, .RatType), (83, .ServingNetwork), (84, .BearerTft), (85, .TrafficAggregateDescription),
   (86, .Uli), (87, .Fteid), (88, .Tmsi), (89, .GlobalCnId),
   (90, .S103pdf), (91, .S1udf), (92, .DelayValue), (93, .BearerContext),
   (94, .ChargingId), (95, .ChargingCharacteristics), (96, .TraceInformation), (97, .BearerFlags),
   (99, .PdnType), (100, .Pti), (103, .MmContext), (104, .MmContext),
   (105, .MmContext), (106, .MmContext), (107, .MmContext), (108, .MmContext),
   (109, .PdnConnections), (110, .PduNumbers), (111, .Ptmsi), (112, .PtmsiSignature),
   (113, .HopCounter), (114, .UeTimeZone), (115, .TraceReference), (116, .CompleteRequestMessage),
   (117, .Guti), (118, .Fcontainer), (119, .Fcause), (120, .PlmnId),
   (121, .TargetIdentification), (123, .PacketFlowId), (124, .RabContext), (125, .SrcRncPdcpCtxInfo),
   (126, .PortNumber), (127, .ApnRestriction), (128, .SelectionMode), (129, .SourceIdentification),
   (131, .ChangeReportingAction), (132, .Fqcsid), (133, .ChannelNeeded), (134, .EmlppPriority),
   (135, .NodeType), (136, .Fqdn), (137, .TransactionIdentifier), (138, .MbmsSd),
   (139, .MbmsSa), (140, .MbmsSessionId), (141, .MbmsFlowId), (142, .MbmsIpMulticastDistribution),
   (143, .MbmsDistributionAck), (144, .RfspIndex), (145, .Uci), (146, .CSGInformationReportingAction),
   (147, .CsgId), (148, .CsgMembershipIndication), (149, .ServiceIndicator), (150, .DetachType),
   (151, .Ldn), (152, .NodeFeatures), (153, .MbmsTimeToDataTransfer), (154, .Throttling),
   (155, .Arp), (156, .EpcTimer), (157, .Spi), (158, .Tmgi),
   (159, .AdditionalMmContextForSrvcc), (160, .AdditionalFlagsSrvcc), (162, .MdtConfiguration), (163, .Apco),
   (164, .AbsoluteTimeMbmsDataTransfer), (165, .HenbInfoReporting), (166, .Ip4Cp), (167, .ChangeToReportFlags),
   (168, .ActionIndication), (169, .ActionIndication), (170, .UliTimestamp), (171, .MbmsFlags),
   (172, .RanNasCause), (173, .CnOperatorSelectionEntity), (174, .Twmi), (175, .NodeNumber),
   (176, .NodeIdentifier), (177, .PresenceReportingAreaAction), (178, .PresenceReportingAreaInformation), (179, .TwanIdTimeStamp),
   (180, .OverloadControlInfo), (181, .LoadControlInfo), (182, .Metric), (183, .Sqn),
   (184, .ApnRelativeCapacity), (185, .WlanOffloadIndication), (186, .PagingServiceInfo), (187, .IntegerNumber),
   (188, .MilliSecondTimeStamp), (189, .MonitoringEventInformation), (190, .EcgiList), (191, .RemoteUeContext),
   (192, .RemoteUserId), (193, .RemoteUeIpInformation), (194, .CIoTOptimizationSupportIndication), (195, .ScefPdnConnections),
   (196, .HeaderCompressionConfiguration), (197, .Epco), (198, .ServingPlmnRateControl), (199, .Counter),
   (200, .MappedUeUsageType), (201, .SecondaryRatUsageDataReport), (202, .UpFunctionSelectionIndicationFlags), (203, .MaxPacketLossRate),
   (204, .ApnRateControlStatus), (205, .ExtendedTraceInformation), (206, .MonitoringEventExtensionInfo), (207, .AdditionalRrmPolicyIndex),
   (208, .V2xInformation), (209, .PC5QosParameters), (210, .ServicesAuthorized), (211, .BitRate),
   (212, .PC5QosFlow), (213, .SgiPtpTunnelAddress), (214, .PgwChangeInfo), (215, .PgwFqdn),
   (216, .GroupId), (217, .PSCellId), (218, .UpSecurityPolicy), (219, .AlternativeImsi),
   (254, .SpecialIEWithTypeExt), (255, .PrivateExtension)]

/-- The arm taken for a type octet. -/
def kindOf (t : UInt8) : Kind := (kindTable.lookup t).getD .Unknown

/-- `GroupedIe::unmarshal` (groupedie.rs:37-58), given the decoder of IE sequences. -/
def groupUnm {α : Type} (dec : Bytes → R Err (List IE)) (mk : UInt8 → UInt16 → UInt8 → List IE → α) (m : Mode) (b : Bytes) :
    R Err α := do
  if 4 ≤ b.length then
    let t ← rd b 0
    let length ← rd16 b 1
    let ins ← rd b 3
    let ok ← checkTliv m length b
    if ok then
      let body ← slBody16 m b length
      let l ← dec body
      return mk t length ins l
    else .err (.ieInvalidLength t)
  else
    let t ← rd b 0
    .err (.ieInvalidLength t)

/-- `Unknown::unmarshal` (unknown.rs:36-53): the type is not kept. -/
def Unknown.unmarshal (m : Mode) (b : Bytes) : R Err Unknown := do
  if 4 ≤ b.length then
    let length ← rd16 b 1
    let ins ← rd b 3
    let ok ← checkTliv m length b
    if ok then
      let value ← slBody16 m b length
      return { t := 0, length, ins, value }
    else .err (.ieInvalidLength 0)
  else
    let t ← rd b 0
    .err (.ieInvalidLength t)

/-- `if let Some(i) = data.list { if i.len() > 10 { return Err(IEIncorrect(ty)) } }` (loadcontrolinfo.rs:74-78,
overloadcontrolinfo.rs:77-81). -/
def listCheck {α β : Type} (ty : UInt8) (l : α → Option (List β)) (x : α) : R Err α :=
  match l x with
  | some v => if 10 < v.length then .err (.ieIncorrect ty) else .ok x
  | none => .ok x

/-- `X::unmarshal(&buffer[cursor..])` of the arm (ie.rs:493-1522), given the decoder used for the members of grouped IEs. -/
def unmKind (dec : Bytes → R Err (List IE)) (m : Mode) (b : Bytes) : Kind → R Err IE
  | .Imsi => do let x ← Imsi.unmarshal m b; return .Imsi x
  | .Cause => do let x ← Cause.unmarshal m b; return .Cause x
  | .Recovery => do let x ← Recovery.unmarshal m b; return .Recovery x
  | .StnSr => do let x ← StnSr.unmarshal m b; return .StnSr x
  | .SrvccCause => do let x ← SrvccCause.unmarshal m b; return .SrvccCause x
  | .Apn => do let x ← Apn.unmarshal m b; return .Apn x
  | .ApnAmbr => do let x ← Ambr.unmarshal m b; return .ApnAmbr x
  | .Ebi => do let x ← Ebi.unmarshal m b; return .Ebi x
  | .IpAddress => do let x ← IpAddress.unmarshal m b; return .IpAddress x
  | .Mei => do let x ← Mei.unmarshal m b; return .Mei x
  | .Msisdn => do let x ← Msisdn.unmarshal m b; return .Msisdn x
  | .Indication => do let x ← Indication.unmarshal m b; return .Indication x
  | .Pco => do let x ← Pco.unmarshal m b; return .Pco x
  | .PdnAddressAllocation => do let x ← PdnAddressAllocation.unmarshal m b; return .PdnAddressAllocation x
  | .BearerQos => do let x ← BearerQos.unmarshal m b; return .BearerQos x
  | .FlowQos => do let x ← FlowQos.unmarshal m b; return .FlowQos x
  | .RatType => do let x ← RatType.unmarshal m b; return .RatType x
  | .ServingNetwork => do let x ← ServingNetwork.unmarshal m b; return .ServingNetwork x
  | .BearerTft => do let x ← BearerTft.unmarshal m b; return .BearerTft x
  | .TrafficAggregateDescription => do let x ← TrafficAggregateDescription.unmarshal m b; return .TrafficAggregateDescription x
  | .Uli => do let x ← Uli.unmarshal m b; return .Uli x
  | .Fteid => do let x ← Fteid.unmarshal m b; return .Fteid x
  | .Tmsi => do let x ← Tmsi.unmarshal m b; return .Tmsi x
  | .GlobalCnId => do let x ← GlobalCnId.unmarshal m b; return .GlobalCnId x
  | .S103pdf => do let x ← S103pdf.unmarshal m b; return .S103pdf x
  | .S1udf => do let x ← S1udf.unmarshal m b; return .S1udf x
  | .DelayValue => do let x ← DelayValue.unmarshal m b; return .DelayValue x
  | .BearerContext => do let x ← groupUnm dec BearerContext.ofGroup m b; return .BearerContext x
  | .ChargingId => do let x ← ChargingId.unmarshal m b; return .ChargingId x
  | .ChargingCharacteristics => do let x ← ChargingCharacteristics.unmarshal m b; return .ChargingCharacteristics x
  | .TraceInformation => do let x ← TraceInformation.unmarshal m b; return .TraceInformation x
  | .BearerFlags => do let x ← BearerFlags.unmarshal m b; return .BearerFlags x
  | .PdnType => do let x ← PdnType.unmarshal m b; return .PdnType x
  | .Pti => do let x ← Pti.unmarshal m b; return .Pti x
  | .MmContext => do let x ← MmContext.unmarshal m b; return .MmContext x
  | .PdnConnections => do let x ← groupUnm dec PdnConnections.ofGroup m b; return .PdnConnections x
  | .PduNumbers => do let x ← PduNumbers.unmarshal m b; return .PduNumbers x
  | .Ptmsi => do let x ← Ptmsi.unmarshal m b; return .Ptmsi x
  | .PtmsiSignature => do let x ← PtmsiSignature.unmarshal m b; return .PtmsiSignature x
  | .HopCounter => do let x ← HopCounter.unmarshal m b; return .HopCounter x
  | .UeTimeZone => do let x ← UeTimeZone.unmarshal m b; return .UeTimeZone x
  | .TraceReference => do let x ← TraceReference.unmarshal m b; return .TraceReference x
  | .CompleteRequestMessage => do let x ← CompleteRequestMessage.unmarshal m b; return .CompleteRequestMessage x
  | .Guti => do let x ← Guti.unmarshal m b; return .Guti x
  | .Fcontainer => do let x ← Fcontainer.unmarshal m b; return .Fcontainer x
  | .Fcause => do let x ← Fcause.unmarshal m b; return .Fcause x
  | .PlmnId => do let x ← PlmnId.unmarshal m b; return .PlmnId x
  | .TargetIdentification => do let x ← TargetIdentification.unmarshal m b; return .TargetIdentification x
  | .PacketFlowId => do let x ← PacketFlowId.unmarshal m b; return .PacketFlowId x
  | .RabContext => do let x ← RabContext.unmarshal m b; return .RabContext x
  | .SrcRncPdcpCtxInfo => do let x ← SourceRncPdcpContextInfo.unmarshal m b; return .SrcRncPdcpCtxInfo x
  | .PortNumber => do let x ← PortNumber.unmarshal m b; return .PortNumber x
  | .ApnRestriction => do let x ← ApnRestriction.unmarshal m b; return .ApnRestriction x
  | .SelectionMode => do let x ← SelectionMode.unmarshal m b; return .SelectionMode x
  | .SourceIdentification => do let x ← SourceIdentification.unmarshal m b; return .SourceIdentification x
  | .ChangeReportingAction => do let x ← ChangeReportingAction.unmarshal m b; return .ChangeReportingAction x
  | .Fqcsid => do let x ← Fqcsid.unmarshal m b; return .Fqcsid x
  | .ChannelNeeded => do let x ← ChannelNeeded.unmarshal m b; return .ChannelNeeded x
  | .EmlppPriority => do let x ← EmlppPriority.unmarshal m b; return .EmlppPriority x
  | .NodeType => do let x ← NodeType.unmarshal m b; return .NodeType x
  | .Fqdn => do let x ← Fqdn.unmarshal m b; return .Fqdn x
  | .TransactionIdentifier => do let x ← TransactionIdentifier.unmarshal m b; return .TransactionIdentifier x
  | .MbmsSa => do let x ← MbmsServiceArea.unmarshal m b; return .MbmsSa x
  | .MbmsSd => do let x ← MbmsSessionDuration.unmarshal m b; return .MbmsSd x
  | .MbmsSessionId => do let x ← MbmsSessionId.unmarshal m b; return .MbmsSessionId x
  | .MbmsFlowId => do let x ← MbmsFlowId.unmarshal m b; return .MbmsFlowId x
  | .MbmsIpMulticastDistribution => do let x ← MbmsIpMulticastDistribution.unmarshal m b; return .MbmsIpMulticastDistribution x
  | .MbmsDistributionAck => do let x ← MbmsDistributionAck.unmarshal m b; return .MbmsDistributionAck x
  | .RfspIndex => do let x ← RfspIndex.unmarshal m b; return .RfspIndex x
  | .Uci => do let x ← Uci.unmarshal m b; return .Uci x
  | .CSGInformationReportingAction => do let x ← CSGInformationReportingAction.unmarshal m b; return .CSGInformationReportingAction x
  | .CsgId => do let x ← CsgId.unmarshal m b; return .CsgId x
  | .CsgMembershipIndication => do let x ← CsgMembershipIndication.unmarshal m b; return .CsgMembershipIndication x
  | .ServiceIndicator => do let x ← ServiceIndicator.unmarshal m b; return .ServiceIndicator x
  | .DetachType => do let x ← DetachType.unmarshal m b; return .DetachType x
  | .Ldn => do let x ← Ldn.unmarshal m b; return .Ldn x
  | .NodeFeatures => do let x ← NodeFeatures.unmarshal m b; return .NodeFeatures x
  | .MbmsTimeToDataTransfer => do let x ← MbmsTimeToDataTransfer.unmarshal m b; return .MbmsTimeToDataTransfer x
  | .Throttling => do let x ← Throttling.unmarshal m b; return .Throttling x
  | .Arp => do let x ← Arp.unmarshal m b; return .Arp x
  | .EpcTimer => do let x ← EpcTimer.unmarshal m b; return .EpcTimer x
  | .Spi => do let x ← Spi.unmarshal m b; return .Spi x
  | .Tmgi => do let x ← Tmgi.unmarshal m b; return .Tmgi x
  | .AdditionalMmContextForSrvcc => do let x ← AdditionalMmContextForSrvcc.unmarshal m b; return .AdditionalMmContextForSrvcc x
  | .AdditionalFlagsSrvcc => do let x ← AdditionalFlagsSrvcc.unmarshal m b; return .AdditionalFlagsSrvcc x
  | .MdtConfiguration => do let x ← MdtConfiguration.unmarshal m b; return .MdtConfiguration x
  | .Apco => do let x ← Apco.unmarshal m b; return .Apco x
  | .AbsoluteTimeMbmsDataTransfer => do let x ← AbsoluteTimeMbmsDataTransfer.unmarshal m b; return .AbsoluteTimeMbmsDataTransfer x
  | .HenbInfoReporting => do let x ← HenbInfoReporting.unmarshal m b; return .HenbInfoReporting x
  | .Ip4Cp => do let x ← Ip4Cp.unmarshal m b; return .Ip4Cp x
  | .ChangeToReportFlags => do let x ← ChangeToReportFlags.unmarshal m b; return .ChangeToReportFlags x
  | .ActionIndication => do let x ← ActionIndication.unmarshal m b; return .ActionIndication x
  | .TwanId => do let x ← TwanId.unmarshal m b; return .TwanId x
  | .UliTimestamp => do let x ← UliTimestamp.unmarshal m b; return .UliTimestamp x
  | .MbmsFlags => do let x ← MbmsFlags.unmarshal m b; return .MbmsFlags x
  | .RanNasCause => do let x ← RanNasCause.unmarshal m b; return .RanNasCause x
  | .CnOperatorSelectionEntity => do let x ← CnOperatorSelectionEntity.unmarshal m b; return .CnOperatorSelectionEntity x
  | .Twmi => do let x ← Twmi.unmarshal m b; return .Twmi x
  | .NodeNumber => do let x ← NodeNumber.unmarshal m b; return .NodeNumber x
  | .NodeIdentifier => do let x ← NodeIdentifier.unmarshal m b; return .NodeIdentifier x
  | .PresenceReportingAreaAction => do let x ← PresenceReportingAreaAction.unmarshal m b; return .PresenceReportingAreaAction x
  | .PresenceReportingAreaInformation => do let x ← PresenceReportingAreaInformation.unmarshal m b; return .PresenceReportingAreaInformation x
  | .TwanIdTimeStamp => do let x ← TwanIdTimeStamp.unmarshal m b; return .TwanIdTimeStamp x
  | .OverloadControlInfo => do let x ← groupUnm dec OverloadControlInfo.ofGroup m b; let x ← listCheck 180 OverloadControlInfo.list x; return .OverloadControlInfo x
  | .LoadControlInfo => do let x ← groupUnm dec LoadControl.ofGroup m b; let x ← listCheck 181 LoadControl.list x; return .LoadControlInfo x
  | .Metric => do let x ← Metric.unmarshal m b; return .Metric x
  | .Sqn => do let x ← Sqn.unmarshal m b; return .Sqn x
  | .ApnRelativeCapacity => do let x ← ApnRelativeCapacity.unmarshal m b; return .ApnRelativeCapacity x
  | .WlanOffloadIndication => do let x ← WlanOffloadIndication.unmarshal m b; return .WlanOffloadIndication x
  | .PagingServiceInfo => do let x ← PagingServiceInfo.unmarshal m b; return .PagingServiceInfo x
  | .IntegerNumber => do let x ← IntegerNumber.unmarshal m b; return .IntegerNumber x
  | .MilliSecondTimeStamp => do let x ← MilliSecondTimeStamp.unmarshal m b; return .MilliSecondTimeStamp x
  | .MonitoringEventInformation => do let x ← MonitoringEventInformation.unmarshal m b; return .MonitoringEventInformation x
  | .EcgiList => do let x ← EcgiList.unmarshal m b; return .EcgiList x
  | .RemoteUeContext => do let x ← groupUnm dec RemoteUeContext.ofGroup m b; return .RemoteUeContext x
  | .RemoteUserId => do let x ← RemoteUserId.unmarshal m b; return .RemoteUserId x
  | .RemoteUeIpInformation => do let x ← RemoteUeIpInformation.unmarshal m b; return .RemoteUeIpInformation x
  | .CIoTOptimizationSupportIndication => do let x ← CIoTOptimizationSupportIndication.unmarshal m b; return .CIoTOptimizationSupportIndication x
  | .ScefPdnConnections => do let x ← groupUnm dec ScefPdnConnections.ofGroup m b; return .ScefPdnConnections x
  | .HeaderCompressionConfiguration => do let x ← HeaderCompressionConfiguration.unmarshal m b; return .HeaderCompressionConfiguration x
  | .Epco => do let x ← Epco.unmarshal m b; return .Epco x
  | .ServingPlmnRateControl => do let x ← ServingPlmnRateControl.unmarshal m b; return .ServingPlmnRateControl x
  | .Counter => do let x ← Counter.unmarshal m b; return .Counter x
  | .MappedUeUsageType => do let x ← MappedUeUsageType.unmarshal m b; return .MappedUeUsageType x
  | .SecondaryRatUsageDataReport => do let x ← SecondaryRatUsageDataReport.unmarshal m b; return .SecondaryRatUsageDataReport x
  | .UpFunctionSelectionIndicationFlags => do let x ← UpFunctionSelectionIndicationFlags.unmarshal m b; return .UpFunctionSelectionIndicationFlags x
  | .MaxPacketLossRate => do let x ← MaxPacketLossRate.unmarshal m b; return .MaxPacketLossRate x
  | .ApnRateControlStatus => do let x ← ApnRateControlStatus.unmarshal m b; return .ApnRateControlStatus x
  | .ExtendedTraceInformation => do let x ← ExtendedTraceInformation.unmarshal m b; return .ExtendedTraceInformation x
  | .MonitoringEventExtensionInfo => do let x ← MonitoringEventExtensionInfo.unmarshal m b; return .MonitoringEventExtensionInfo x
  | .AdditionalRrmPolicyIndex => do let x ← AdditionalRrmPolicyIndex.unmarshal m b; return .AdditionalRrmPolicyIndex x
  | .V2xInformation => do let x ← groupUnm dec V2xInformation.ofGroup m b; return .V2xInformation x
  | .PC5QosParameters => do
      let x ← groupUnm dec PC5QosParameters.ofGroup m b
      if x.pc5_qos_flows = [] then .err (.ieIncorrect 209) else return .PC5QosParameters x
  | .ServicesAuthorized => do let x ← ServicesAuthorized.unmarshal m b; return .ServicesAuthorized x
  | .BitRate => do let x ← BitRate.unmarshal m b; return .BitRate x
  | .PC5QosFlow => do let x ← PC5QosFlow.unmarshal m b; return .PC5QosFlow x
  | .SgiPtpTunnelAddress => do let x ← SgiPtpTunnelAddress.unmarshal m b; return .SgiPtpTunnelAddress x
  | .PgwChangeInfo => do let x ← groupUnm dec PgwChangeInfo.ofGroup m b; return .PgwChangeInfo x
  | .PgwFqdn => do let x ← PgwFqdn.unmarshal m b; return .PgwFqdn x
  | .GroupId => do let x ← GroupId.unmarshal m b; return .GroupId x
  | .PSCellId => do let x ← PSCellId.unmarshal m b; return .PSCellId x
  | .UpSecurityPolicy => do let x ← UpSecurityPolicy.unmarshal m b; return .UpSecurityPolicy x
  | .AlternativeImsi => do let x ← AlternativeImsi.unmarshal m b; return .AlternativeImsi x
  | .SpecialIEWithTypeExt => do let x ← SpecialIEWithTypeExt.unmarshal m b; return .SpecialIEWithTypeExt x
  | .PrivateExtension => do let x ← PrivateExtension.unmarshal m b; return .PrivateExtension x
  | .Unknown => do let x ← Unknown.unmarshal m b; return .Unknown x

/-- One turn of the decoder's loop (ie.rs:492-1523) on `&buffer[cursor..]`: the IE and the number of octets by which the
cursor advances. -/
def decodeOne (dec : Bytes → R Err (List IE)) (m : Mode) (b : Bytes) : R Err (IE × Nat) := do
  let t ← rd b 0
  let x ← unmKind dec m b (kindOf t)
  let n ← x.len m
  return (x, n)

/-- `InformationElement::decoder` (ie.rs:481-1525). `buffer[cursor..]` is the argument; a turn that does not advance the
cursor is repeated forever. The first argument bounds the recursion. -/
def decodeF : Nat → Mode → Bytes → R Err (List IE)
  | 0, _, _ => .diverge
  | f + 1, m, b =>
    if b = [] then .ok []
    else do
      let (x, n) ← decodeOne (decodeF f m) m b
      if n = 0 then .diverge
      else
        let l ← decodeF f m (b.drop n)
        return x :: l

/-- `InformationElement::decoder` (ie.rs:481-1525). -/
def decoder (m : Mode) (b : Bytes) : R Err (List IE) := decodeF (b.length + 1) m b

end Gtp.V2
