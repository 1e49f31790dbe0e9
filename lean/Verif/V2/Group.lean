import Verif.V2.Ies.Numeric1
import Verif.V2.Ies.Numeric2
import Verif.V2.Ies.Enums
import Verif.V2.Ies.Flags
import Verif.V2.Ies.Plmn
import Verif.V2.Ies.Octets
import Verif.V2.Ies.Strings
import Verif.V2.Ies.Bits
import Verif.V2.Ies.Var1
import Verif.V2.Ies.Var2
import Verif.V2.Ies.Names
import Verif.V2.Ies.Loc
import Verif.V2.Ies.Var3
import Verif.V2.Ies.Var4
import Verif.V2.Ies.Var5
import Verif.V2.Ies.MmCtx

/-!
# Grouped IEs and the sum of all IEs

Generated by `scripts/gen_sum.py`. The structures of the grouped IEs and
`enum InformationElement` (src/gtpv2/messages/ies/ie.rs:174-321). `Box` is dropped.
-/

namespace Gtp.V2

/-- `Ebi::default()` (ebi.rs:23-32). -/
def Ebi.dflt : Ebi := ⟨73, 1, 0, 0⟩

/-- `Sqn::default()` (sqn.rs:24-33). -/
def Sqn.dflt : Sqn := ⟨183, 4, 0, 0⟩

/-- `Metric::default()` (metric.rs:24-33). -/
def Metric.dflt : Metric := ⟨182, 1, 0, 0⟩

/-- `EpcTimer::default()` (epctimer.rs:25-35). -/
def EpcTimer.dflt : EpcTimer := ⟨156, 1, 0, 0, 0⟩

/-- `RemoteUserId::default()` (remoteuserid.rs:25-36). -/
def RemoteUserId.dflt : RemoteUserId := ⟨192, 0, 0, [], none, none⟩

/-- `Apn::default()` (apn.rs:23-32). -/
def Apn.dflt : Apn := ⟨71, 0, 0, []⟩

/-- `NodeIdentifier::default()` (nodeidentifier.rs:24-34). -/
def NodeIdentifier.dflt : NodeIdentifier := ⟨176, 0, 0, [], []⟩

/-- `Fteid::default()` (fteid.rs:70-82). -/
def Fteid.dflt : Fteid := ⟨87, 9, 0, 0, 0, some (ip4 0 0 0 0), none⟩

/-- `Ambr::default()` (ambr.rs:25-35). -/
def Ambr.dflt : Ambr := ⟨72, 8, 0, 0, 0⟩

/-- `struct BearerContext` (bearercontext.rs:9-28). -/
structure BearerContext where
  t : UInt8
  length : UInt16
  ins : UInt8
  ebi : Ebi
  cause : Option Cause
  tft : Option BearerTft
  fteids : List Fteid
  bearer_qos : Option BearerQos
  charging_id : Option ChargingId
  bearer_flags : Option BearerFlags
  pco : Option Pco
  apco : Option Apco
  epco : Option Epco
  max_packet_loss : Option MaxPacketLossRate
  ran_nas_cause : Option RanNasCause
  bss_container : Option Fcontainer
  transaction_id : Option TransactionIdentifier
deriving DecidableEq, Repr

/-- `struct LoadControl` (loadcontrolinfo.rs:9-17). -/
structure LoadControl where
  t : UInt8
  length : UInt16
  ins : UInt8
  sqn : Sqn
  load_metric : Metric
  list : Option (List ApnRelativeCapacity)
deriving DecidableEq, Repr

/-- `struct OverloadControlInfo` (overloadcontrolinfo.rs:9-18). -/
structure OverloadControlInfo where
  t : UInt8
  length : UInt16
  ins : UInt8
  sqn : Sqn
  metric : Metric
  validity : EpcTimer
  list : Option (List Apn)
deriving DecidableEq, Repr

/-- `struct RemoteUeContext` (remoteuecontext.rs:9-16). -/
structure RemoteUeContext where
  t : UInt8
  length : UInt16
  ins : UInt8
  user_id : RemoteUserId
  ue_ip : Option RemoteUeIpInformation
deriving DecidableEq, Repr

/-- `struct ScefPdnConnections` (scefpdnconnections.rs:9-17). -/
structure ScefPdnConnections where
  t : UInt8
  length : UInt16
  ins : UInt8
  apn : Apn
  default_ebi : Ebi
  scef_id : NodeIdentifier
deriving DecidableEq, Repr

/-- `struct PC5QosParameters` (pc5qosparameters.rs:9-16). -/
structure PC5QosParameters where
  t : UInt8
  length : UInt16
  ins : UInt8
  pc5_qos_flows : List PC5QosFlow
  pc5_link_abrs : Option BitRate
deriving DecidableEq, Repr

/-- `struct PgwChangeInfo` (pgwchangeinfo.rs:9-18). -/
structure PgwChangeInfo where
  t : UInt8
  length : UInt16
  ins : UInt8
  pgw_fqdns : List PgwFqdn
  sgw_pgw_smf_ips : List IpAddress
  pgw_smf_fqcsid : List Fqcsid
  groupids : List GroupId
deriving DecidableEq, Repr

/-- `struct PdnConnections` (pdnconnections.rs:9-39). -/
structure PdnConnections where
  t : UInt8
  length : UInt16
  ins : UInt8
  apn : Apn
  apn_restriction : Option ApnRestriction
  selection_mode : Option SelectionMode
  ipv4 : Option IpAddress
  ipv6 : Option IpAddress
  linked_ebi : Ebi
  pgw_addr_control : Fteid
  pgw_node_name : Option Fqdn
  bearer_ctxs : List BearerContext
  apn_ambr : Ambr
  charging_char : Option ChargingCharacteristics
  change_reporting_action : Option ChangeReportingAction
  csg_info_reporting_action : Option CSGInformationReportingAction
  henb_info_reporting : Option HenbInfoReporting
  indication : Option Indication
  signalling_priority_indication : Option Spi
  change_to_report_flags : Option ChangeToReportFlags
  local_home_network_id : Option Fqdn
  praa : Option PresenceReportingAreaAction
  wlan_offloadability : Option WlanOffloadIndication
  remote_ue_ctxs : List RemoteUeContext
  pdn_type : Option PdnType
  hdr_compr_config : Option HeaderCompressionConfiguration
  pgw_change_info : Option PgwChangeInfo
  up_security_policy : Option UpSecurityPolicy
deriving DecidableEq, Repr

/-- `struct V2xInformation` (v2xinformation.rs:9-17). -/
structure V2xInformation where
  t : UInt8
  length : UInt16
  ins : UInt8
  services_auth : List ServicesAuthorized
  sidelink_max_brs : List BitRate
  pc5_qos_params : Option PC5QosParameters
deriving DecidableEq, Repr

/-- `struct Unknown` (unknown.rs:11-17). -/
structure Unknown where
  t : UInt8
  length : UInt16
  ins : UInt8
  value : Bytes
deriving DecidableEq, Repr

/-- `enum InformationElement` (ie.rs:174-321). -/
inductive IE where
  | Imsi (v : V2.Imsi)
  | Cause (v : V2.Cause)
  | Recovery (v : V2.Recovery)
  | StnSr (v : V2.StnSr)
  | SrvccCause (v : V2.SrvccCause)
  | Apn (v : V2.Apn)
  | ApnAmbr (v : V2.Ambr)
  | Ebi (v : V2.Ebi)
  | IpAddress (v : V2.IpAddress)
  | Mei (v : V2.Mei)
  | Msisdn (v : V2.Msisdn)
  | Indication (v : V2.Indication)
  | Pco (v : V2.Pco)
  | PdnAddressAllocation (v : V2.PdnAddressAllocation)
  | BearerQos (v : V2.BearerQos)
  | FlowQos (v : V2.FlowQos)
  | RatType (v : V2.RatType)
  | ServingNetwork (v : V2.ServingNetwork)
  | BearerTft (v : V2.BearerTft)
  | TrafficAggregateDescription (v : V2.TrafficAggregateDescription)
  | Uli (v : V2.Uli)
  | Fteid (v : V2.Fteid)
  | Tmsi (v : V2.Tmsi)
  | GlobalCnId (v : V2.GlobalCnId)
  | S103pdf (v : V2.S103pdf)
  | S1udf (v : V2.S1udf)
  | DelayValue (v : V2.DelayValue)
  | BearerContext (v : V2.BearerContext)
  | ChargingId (v : V2.ChargingId)
  | ChargingCharacteristics (v : V2.ChargingCharacteristics)
  | TraceInformation (v : V2.TraceInformation)
  | BearerFlags (v : V2.BearerFlags)
  | PdnType (v : V2.PdnType)
  | Pti (v : V2.Pti)
  | MmContext (v : V2.MmContext)
  | PdnConnections (v : V2.PdnConnections)
  | PduNumbers (v : V2.PduNumbers)
  | Ptmsi (v : V2.Ptmsi)
  | PtmsiSignature (v : V2.PtmsiSignature)
  | HopCounter (v : V2.HopCounter)
  | UeTimeZone (v : V2.UeTimeZone)
  | TraceReference (v : V2.TraceReference)
  | CompleteRequestMessage (v : V2.CompleteRequestMessage)
  | Guti (v : V2.Guti)
  | Fcontainer (v : V2.Fcontainer)
  | Fcause (v : V2.Fcause)
  | PlmnId (v : V2.PlmnId)
  | TargetIdentification (v : V2.TargetIdentification)
  | PacketFlowId (v : V2.PacketFlowId)
  | RabContext (v : V2.RabContext)
  | SrcRncPdcpCtxInfo (v : V2.SourceRncPdcpContextInfo)
  | PortNumber (v : V2.PortNumber)
  | ApnRestriction (v : V2.ApnRestriction)
  | SelectionMode (v : V2.SelectionMode)
  | SourceIdentification (v : V2.SourceIdentification)
  | ChangeReportingAction (v : V2.ChangeReportingAction)
  | Fqcsid (v : V2.Fqcsid)
  | ChannelNeeded (v : V2.ChannelNeeded)
  | EmlppPriority (v : V2.EmlppPriority)
  | NodeType (v : V2.NodeType)
  | Fqdn (v : V2.Fqdn)
  | TransactionIdentifier (v : V2.TransactionIdentifier)
  | MbmsSa (v : V2.MbmsServiceArea)
  | MbmsSd (v : V2.MbmsSessionDuration)
  | MbmsSessionId (v : V2.MbmsSessionId)
  | MbmsFlowId (v : V2.MbmsFlowId)
  | MbmsIpMulticastDistribution (v : V2.MbmsIpMulticastDistribution)
  | MbmsDistributionAck (v : V2.MbmsDistributionAck)
  | RfspIndex (v : V2.RfspIndex)
  | Uci (v : V2.Uci)
  | CSGInformationReportingAction (v : V2.CSGInformationReportingAction)
  | CsgId (v : V2.CsgId)
  | CsgMembershipIndication (v : V2.CsgMembershipIndication)
  | ServiceIndicator (v : V2.ServiceIndicator)
  | DetachType (v : V2.DetachType)
  | Ldn (v : V2.Ldn)
  | NodeFeatures (v : V2.NodeFeatures)
  | MbmsTimeToDataTransfer (v : V2.MbmsTimeToDataTransfer)
  | Throttling (v : V2.Throttling)
  | Arp (v : V2.Arp)
  | EpcTimer (v : V2.EpcTimer)
  | Spi (v : V2.Spi)
  | Tmgi (v : V2.Tmgi)
  | AdditionalMmContextForSrvcc (v : V2.AdditionalMmContextForSrvcc)
  | AdditionalFlagsSrvcc (v : V2.AdditionalFlagsSrvcc)
  | MdtConfiguration (v : V2.MdtConfiguration)
  | Apco (v : V2.Apco)
  | AbsoluteTimeMbmsDataTransfer (v : V2.AbsoluteTimeMbmsDataTransfer)
  | HenbInfoReporting (v : V2.HenbInfoReporting)
  | Ip4Cp (v : V2.Ip4Cp)
  | ChangeToReportFlags (v : V2.ChangeToReportFlags)
  | ActionIndication (v : V2.ActionIndication)
  | TwanId (v : V2.TwanId)
  | UliTimestamp (v : V2.UliTimestamp)
  | MbmsFlags (v : V2.MbmsFlags)
  | RanNasCause (v : V2.RanNasCause)
  | CnOperatorSelectionEntity (v : V2.CnOperatorSelectionEntity)
  | Twmi (v : V2.Twmi)
  | NodeNumber (v : V2.NodeNumber)
  | NodeIdentifier (v : V2.NodeIdentifier)
  | PresenceReportingAreaAction (v : V2.PresenceReportingAreaAction)
  | PresenceReportingAreaInformation (v : V2.PresenceReportingAreaInformation)
  | TwanIdTimeStamp (v : V2.TwanIdTimeStamp)
  | OverloadControlInfo (v : V2.OverloadControlInfo)
  | LoadControlInfo (v : V2.LoadControl)
  | Metric (v : V2.Metric)
  | Sqn (v : V2.Sqn)
  | ApnRelativeCapacity (v : V2.ApnRelativeCapacity)
  | WlanOffloadIndication (v : V2.WlanOffloadIndication)
  | PagingServiceInfo (v : V2.PagingServiceInfo)
  | IntegerNumber (v : V2.IntegerNumber)
  | MilliSecondTimeStamp (v : V2.MilliSecondTimeStamp)
  | MonitoringEventInformation (v : V2.MonitoringEventInformation)
  | EcgiList (v : V2.EcgiList)
  | RemoteUeContext (v : V2.RemoteUeContext)
  | RemoteUserId (v : V2.RemoteUserId)
  | RemoteUeIpInformation (v : V2.RemoteUeIpInformation)
  | CIoTOptimizationSupportIndication (v : V2.CIoTOptimizationSupportIndication)
  | ScefPdnConnections (v : V2.ScefPdnConnections)
  | HeaderCompressionConfiguration (v : V2.HeaderCompressionConfiguration)
  | Epco (v : V2.Epco)
  | ServingPlmnRateControl (v : V2.ServingPlmnRateControl)
  | Counter (v : V2.Counter)
  | MappedUeUsageType (v : V2.MappedUeUsageType)
  | SecondaryRatUsageDataReport (v : V2.SecondaryRatUsageDataReport)
  | UpFunctionSelectionIndicationFlags (v : V2.UpFunctionSelectionIndicationFlags)
  | MaxPacketLossRate (v : V2.MaxPacketLossRate)
  | ApnRateControlStatus (v : V2.ApnRateControlStatus)
  | ExtendedTraceInformation (v : V2.ExtendedTraceInformation)
  | MonitoringEventExtensionInfo (v : V2.MonitoringEventExtensionInfo)
  | AdditionalRrmPolicyIndex (v : V2.AdditionalRrmPolicyIndex)
  | V2xInformation (v : V2.V2xInformation)
  | PC5QosParameters (v : V2.PC5QosParameters)
  | ServicesAuthorized (v : V2.ServicesAuthorized)
  | BitRate (v : V2.BitRate)
  | PC5QosFlow (v : V2.PC5QosFlow)
  | SgiPtpTunnelAddress (v : V2.SgiPtpTunnelAddress)
  | PgwChangeInfo (v : V2.PgwChangeInfo)
  | PgwFqdn (v : V2.PgwFqdn)
  | GroupId (v : V2.GroupId)
  | PSCellId (v : V2.PSCellId)
  | UpSecurityPolicy (v : V2.UpSecurityPolicy)
  | AlternativeImsi (v : V2.AlternativeImsi)
  | SpecialIEWithTypeExt (v : V2.SpecialIEWithTypeExt)
  | PrivateExtension (v : V2.PrivateExtension)
  | Unknown (v : V2.Unknown)
deriving DecidableEq, Repr

/-- The arms of the decoder's `match` (ie.rs:493-1522), named after the IE they produce. -/
inductive Kind where
  | Imsi
  | Cause
  | Recovery
  | StnSr
  | SrvccCause
  | Apn
  | ApnAmbr
  | Ebi
  | IpAddress
  | Mei
  | Msisdn
  | Indication
  | Pco
  | PdnAddressAllocation
  | BearerQos
  | FlowQos
  | RatType
  | ServingNetwork
  | BearerTft
  | TrafficAggregateDescription
  | Uli
  | Fteid
  | Tmsi
  | GlobalCnId
  | S103pdf
  | S1udf
  | DelayValue
  | BearerContext
  | ChargingId
  | ChargingCharacteristics
  | TraceInformation
  | BearerFlags
  | PdnType
  | Pti
  | MmContext
  | PdnConnections
  | PduNumbers
  | Ptmsi
  | PtmsiSignature
  | HopCounter
  | UeTimeZone
  | TraceReference
  | CompleteRequestMessage
  | Guti
  | Fcontainer
  | Fcause
  | PlmnId
  | TargetIdentification
  | PacketFlowId
  | RabContext
  | SrcRncPdcpCtxInfo
  | PortNumber
  | ApnRestriction
  | SelectionMode
  | SourceIdentification
  | ChangeReportingAction
  | Fqcsid
  | ChannelNeeded
  | EmlppPriority
  | NodeType
  | Fqdn
  | TransactionIdentifier
  | MbmsSa
  | MbmsSd
  | MbmsSessionId
  | MbmsFlowId
  | MbmsIpMulticastDistribution
  | MbmsDistributionAck
  | RfspIndex
  | Uci
  | CSGInformationReportingAction
  | CsgId
  | CsgMembershipIndication
  | ServiceIndicator
  | DetachType
  | Ldn
  | NodeFeatures
  | MbmsTimeToDataTransfer
  | Throttling
  | Arp
  | EpcTimer
  | Spi
  | Tmgi
  | AdditionalMmContextForSrvcc
  | AdditionalFlagsSrvcc
  | MdtConfiguration
  | Apco
  | AbsoluteTimeMbmsDataTransfer
  | HenbInfoReporting
  | Ip4Cp
  | ChangeToReportFlags
  | ActionIndication
  | TwanId
  | UliTimestamp
  | MbmsFlags
  | RanNasCause
  | CnOperatorSelectionEntity
  | Twmi
  | NodeNumber
  | NodeIdentifier
  | PresenceReportingAreaAction
  | PresenceReportingAreaInformation
  | TwanIdTimeStamp
  | OverloadControlInfo
  | LoadControlInfo
  | Metric
  | Sqn
  | ApnRelativeCapacity
  | WlanOffloadIndication
  | PagingServiceInfo
  | IntegerNumber
  | MilliSecondTimeStamp
  | MonitoringEventInformation
  | EcgiList
  | RemoteUeContext
  | RemoteUserId
  | RemoteUeIpInformation
  | CIoTOptimizationSupportIndication
  | ScefPdnConnections
  | HeaderCompressionConfiguration
  | Epco
  | ServingPlmnRateControl
  | Counter
  | MappedUeUsageType
  | SecondaryRatUsageDataReport
  | UpFunctionSelectionIndicationFlags
  | MaxPacketLossRate
  | ApnRateControlStatus
  | ExtendedTraceInformation
  | MonitoringEventExtensionInfo
  | AdditionalRrmPolicyIndex
  | V2xInformation
  | PC5QosParameters
  | ServicesAuthorized
  | BitRate
  | PC5QosFlow
  | SgiPtpTunnelAddress
  | PgwChangeInfo
  | PgwFqdn
  | GroupId
  | PSCellId
  | UpSecurityPolicy
  | AlternativeImsi
  | SpecialIEWithTypeExt
  | PrivateExtension
  | Unknown
deriving DecidableEq, Repr

end Gtp.V2
