import Verif.V2.Decoder

/-!
# The `length` field of a GTPv2-C information element

Expanded by `scripts/gen_setlen.py`.
-/

namespace Gtp.V2

/-- `self.length = n`. -/
def MmContext.setLength (n : UInt16) : MmContext → MmContext
  | .MmContextEpsSecurityContextQuadruplets x => .MmContextEpsSecurityContextQuadruplets { x with length := n }
  | .MmContextUmtsKeyQuintuplets x => .MmContextUmtsKeyQuintuplets { x with length := n }
  | .MmContextUmtsKeyQuadrupletsQuintuplets x => .MmContextUmtsKeyQuadrupletsQuintuplets { x with length := n }
  | .MmContextUmtsKeyCipherQuintuplets x => .MmContextUmtsKeyCipherQuintuplets { x with length := n }
  | .MmContextGsmKeyTriplets x => .MmContextGsmKeyTriplets { x with length := n }
  | .MmContextGsmKeyCipherQuintuplets x => .MmContextGsmKeyCipherQuintuplets { x with length := n }

/-- `self.length = n`. -/
def IE.setLength (n : UInt16) : IE → IE
  | .Imsi x => .Imsi { x with length := n }
  | .Cause x => .Cause { x with length := n }
  | .Recovery x => .Recovery { x with length := n }
  | .StnSr x => .StnSr { x with length := n }
  | .SrvccCause x => .SrvccCause { x with length := n }
  | .Apn x => .Apn { x with length := n }
  | .ApnAmbr x => .ApnAmbr { x with length := n }
  | .Ebi x => .Ebi { x with length := n }
  | .IpAddress x => .IpAddress { x with length := n }
  | .Mei x => .Mei { x with length := n }
  | .Msisdn x => .Msisdn { x with length := n }
  | .Indication x => .Indication { x with length := n }
  | .Pco x => .Pco { x with length := n }
  | .PdnAddressAllocation x => .PdnAddressAllocation { x with length := n }
  | .BearerQos x => .BearerQos { x with length := n }
  | .FlowQos x => .FlowQos { x with length := n }
  | .RatType x => .RatType { x with length := n }
  | .ServingNetwork x => .ServingNetwork { x with length := n }
  | .BearerTft x => .BearerTft { x with length := n }
  | .TrafficAggregateDescription x => .TrafficAggregateDescription { x with length := n }
  | .Uli x => .Uli { x with length := n }
  | .Fteid x => .Fteid { x with length := n }
  | .Tmsi x => .Tmsi { x with length := n }
  | .GlobalCnId x => .GlobalCnId { x with length := n }
  | .S103pdf x => .S103pdf { x with length := n }
  | .S1udf x => .S1udf { x with length := n }
  | .DelayValue x => .DelayValue { x with length := n }
  | .BearerContext x => .BearerContext { x with length := n }
  | .ChargingId x => .ChargingId { x with length := n }
  | .ChargingCharacteristics x => .ChargingCharacteristics { x with length := n }
  | .TraceInformation x => .TraceInformation { x with length := n }
  | .BearerFlags x => .BearerFlags { x with length := n }
  | .PdnType x => .PdnType { x with length := n }
  | .Pti x => .Pti { x with length := n }
  | .MmContext x => .MmContext (x.setLength n)
  | .PdnConnections x => .PdnConnections { x with length := n }
  | .PduNumbers x => .PduNumbers { x with length := n }
  | .Ptmsi x => .Ptmsi { x with length := n }
  | .PtmsiSignature x => .PtmsiSignature { x with length := n }
  | .HopCounter x => .HopCounter { x with length := n }
  | .UeTimeZone x => .UeTimeZone { x with length := n }
  | .TraceReference x => .TraceReference { x with length := n }
  | .CompleteRequestMessage x => .CompleteRequestMessage { x with length := n }
  | .Guti x => .Guti { x with length := n }
  | .Fcontainer x => .Fcontainer { x with length := n }
  | .Fcause x => .Fcause { x with length := n }
  | .PlmnId x => .PlmnId { x with length := n }
  | .TargetIdentification x => .TargetIdentification { x with length := n }
  | .PacketFlowId x => .PacketFlowId { x with length := n }
  | .RabContext x => .RabContext { x with length := n }
  | .SrcRncPdcpCtxInfo x => .SrcRncPdcpCtxInfo { x with length := n }
  | .PortNumber x => .PortNumber { x with length := n }
  | .ApnRestriction x => .ApnRestriction { x with length := n }
  | .SelectionMode x => .SelectionMode { x with length := n }
  | .SourceIdentification x => .SourceIdentification { x with length := n }
  | .ChangeReportingAction x => .ChangeReportingAction { x with length := n }
  | .Fqcsid x => .Fqcsid { x with length := n }
  | .ChannelNeeded x => .ChannelNeeded { x with length := n }
  | .EmlppPriority x => .EmlppPriority { x with length := n }
  | .NodeType x => .NodeType { x with length := n }
  | .Fqdn x => .Fqdn { x with length := n }
  | .TransactionIdentifier x => .TransactionIdentifier { x with length := n }
  | .MbmsSa x => .MbmsSa { x with length := n }
  | .MbmsSd x => .MbmsSd { x with length := n }
  | .MbmsSessionId x => .MbmsSessionId { x with length := n }
  | .MbmsFlowId x => .MbmsFlowId { x with length := n }
  | .MbmsIpMulticastDistribution x => .MbmsIpMulticastDistribution { x with length := n }
  | .MbmsDistributionAck x => .MbmsDistributionAck { x with length := n }
  | .RfspIndex x => .RfspIndex { x with length := n }
  | .Uci x => .Uci { x with length := n }
  | .CSGInformationReportingAction x => .CSGInformationReportingAction { x with length := n }
  | .CsgId x => .CsgId { x with length := n }
  | .CsgMembershipIndication x => .CsgMembershipIndication { x with length := n }
  | .ServiceIndicator x => .ServiceIndicator { x with length := n }
  | .DetachType x => .DetachType { x with length := n }
  | .Ldn x => .Ldn { x with length := n }
  | .NodeFeatures x => .NodeFeatures { x with length := n }
  | .MbmsTimeToDataTransfer x => .MbmsTimeToDataTransfer { x with length := n }
  | .Throttling x => .Throttling { x with length := n }
  | .Arp x => .Arp { x with length := n }
  | .EpcTimer x => .EpcTimer { x with length := n }
  | .Spi x => .Spi { x with length := n }
  | .Tmgi x => .Tmgi { x with length := n }
  | .AdditionalMmContextForSrvcc x => .AdditionalMmContextForSrvcc { x with length := n }
  | .AdditionalFlagsSrvcc x => .AdditionalFlagsSrvcc { x with length := n }
  | .MdtConfiguration x => .MdtConfiguration { x with length := n }
  | .Apco x => .Apco { x with length := n }
  | .AbsoluteTimeMbmsDataTransfer x => .AbsoluteTimeMbmsDataTransfer { x with length := n }
  | .HenbInfoReporting x => .HenbInfoReporting { x with length := n }
  | .Ip4Cp x => .Ip4Cp { x with length := n }
  | .ChangeToReportFlags x => .ChangeToReportFlags { x with length := n }
  | .ActionIndication x => .ActionIndication { x with length := n }
  | .TwanId x => .TwanId { x with length := n }
  | .UliTimestamp x => .UliTimestamp { x with length := n }
  | .MbmsFlags x => .MbmsFlags { x with length := n }
  | .RanNasCause x => .RanNasCause { x with length := n }
  | .CnOperatorSelectionEntity x => .CnOperatorSelectionEntity { x with length := n }
  | .Twmi x => .Twmi { x with length := n }
  | .NodeNumber x => .NodeNumber { x with length := n }
  | .NodeIdentifier x => .NodeIdentifier { x with length := n }
  | .PresenceReportingAreaAction x => .PresenceReportingAreaAction { x with length := n }
  | .PresenceReportingAreaInformation x => .PresenceReportingAreaInformation { x with length := n }
  | .TwanIdTimeStamp x => .TwanIdTimeStamp { x with length := n }
  | .OverloadControlInfo x => .OverloadControlInfo { x with length := n }
  | .LoadControlInfo x => .LoadControlInfo { x with length := n }
  | .Metric x => .Metric { x with length := n }
  | .Sqn x => .Sqn { x with length := n }
  | .ApnRelativeCapacity x => .ApnRelativeCapacity { x with length := n }
  | .WlanOffloadIndication x => .WlanOffloadIndication { x with length := n }
  | .PagingServiceInfo x => .PagingServiceInfo { x with length := n }
  | .IntegerNumber x => .IntegerNumber { x with length := n }
  | .MilliSecondTimeStamp x => .MilliSecondTimeStamp { x with length := n }
  | .MonitoringEventInformation x => .MonitoringEventInformation { x with length := n }
  | .EcgiList x => .EcgiList { x with length := n }
  | .RemoteUeContext x => .RemoteUeContext { x with length := n }
  | .RemoteUserId x => .RemoteUserId { x with length := n }
  | .RemoteUeIpInformation x => .RemoteUeIpInformation { x with length := n }
  | .CIoTOptimizationSupportIndication x => .CIoTOptimizationSupportIndication { x with length := n }
  | .ScefPdnConnections x => .ScefPdnConnections { x with length := n }
  | .HeaderCompressionConfiguration x => .HeaderCompressionConfiguration { x with length := n }
  | .Epco x => .Epco { x with length := n }
  | .ServingPlmnRateControl x => .ServingPlmnRateControl { x with length := n }
  | .Counter x => .Counter { x with length := n }
  | .MappedUeUsageType x => .MappedUeUsageType { x with length := n }
  | .SecondaryRatUsageDataReport x => .SecondaryRatUsageDataReport { x with length := n }
  | .UpFunctionSelectionIndicationFlags x => .UpFunctionSelectionIndicationFlags { x with length := n }
  | .MaxPacketLossRate x => .MaxPacketLossRate { x with length := n }
  | .ApnRateControlStatus x => .ApnRateControlStatus { x with length := n }
  | .ExtendedTraceInformation x => .ExtendedTraceInformation { x with length := n }
  | .MonitoringEventExtensionInfo x => .MonitoringEventExtensionInfo { x with length := n }
  | .AdditionalRrmPolicyIndex x => .AdditionalRrmPolicyIndex { x with length := n }
  | .V2xInformation x => .V2xInformation { x with length := n }
  | .PC5QosParameters x => .PC5QosParameters { x with length := n }
  | .ServicesAuthorized x => .ServicesAuthorized { x with length := n }
  | .BitRate x => .BitRate { x with length := n }
  | .PC5QosFlow x => .PC5QosFlow { x with length := n }
  | .SgiPtpTunnelAddress x => .SgiPtpTunnelAddress { x with length := n }
  | .PgwChangeInfo x => .PgwChangeInfo { x with length := n }
  | .PgwFqdn x => .PgwFqdn { x with length := n }
  | .GroupId x => .GroupId { x with length := n }
  | .PSCellId x => .PSCellId { x with length := n }
  | .UpSecurityPolicy x => .UpSecurityPolicy { x with length := n }
  | .AlternativeImsi x => .AlternativeImsi { x with length := n }
  | .SpecialIEWithTypeExt x => .SpecialIEWithTypeExt { x with length := n }
  | .PrivateExtension x => .PrivateExtension { x with length := n }
  | .Unknown x => .Unknown { x with length := n }

/-- Encoding overwrites the length field. -/
theorem tliv_length_field (t : UInt8) (n l : UInt16) (i : UInt8) (body : Bytes) : tliv t n i body = tliv t l i body := by
  rw [tliv_eq, tliv_eq]

theorem groupMar_length_field (enc : IE → Bytes) (t : UInt8) (n l : UInt16) (i : UInt8) (v : List IE) :
    IE.groupMar enc t n i v = IE.groupMar enc t l i v := tliv_length_field ..

theorem IE.marshalWith_setLength (enc : IE → Bytes) (n : UInt16) (e : IE) : (e.setLength n).marshalWith enc = e.marshalWith enc := by
  cases e with
  | Imsi x => exact tliv_length_field ..
  | Cause x => exact tliv_length_field ..
  | Recovery x => exact tliv_length_field ..
  | StnSr x => exact tliv_length_field ..
  | SrvccCause x => exact tliv_length_field ..
  | Apn x => exact tliv_length_field ..
  | ApnAmbr x => exact tliv_length_field ..
  | Ebi x => exact tliv_length_field ..
  | IpAddress x => exact tliv_length_field ..
  | Mei x => exact tliv_length_field ..
  | Msisdn x => exact tliv_length_field ..
  | Indication x => exact tliv_length_field ..
  | Pco x => exact tliv_length_field ..
  | PdnAddressAllocation x => exact tliv_length_field ..
  | BearerQos x => exact tliv_length_field ..
  | FlowQos x => exact tliv_length_field ..
  | RatType x => exact tliv_length_field ..
  | ServingNetwork x => exact tliv_length_field ..
  | BearerTft x => exact tliv_length_field ..
  | TrafficAggregateDescription x => exact tliv_length_field ..
  | Uli x => exact tliv_length_field ..
  | Fteid x => exact tliv_length_field ..
  | Tmsi x => exact tliv_length_field ..
  | GlobalCnId x => exact tliv_length_field ..
  | S103pdf x => exact tliv_length_field ..
  | S1udf x => exact tliv_length_field ..
  | DelayValue x => exact tliv_length_field ..
  | BearerContext x => exact tliv_length_field ..
  | ChargingId x => exact tliv_length_field ..
  | ChargingCharacteristics x => exact tliv_length_field ..
  | TraceInformation x => exact tliv_length_field ..
  | BearerFlags x => exact tliv_length_field ..
  | PdnType x => exact tliv_length_field ..
  | Pti x => exact tliv_length_field ..
  | MmContext x => cases x <;> exact tliv_length_field ..
  | PdnConnections x => exact tliv_length_field ..
  | PduNumbers x => exact tliv_length_field ..
  | Ptmsi x => exact tliv_length_field ..
  | PtmsiSignature x => exact tliv_length_field ..
  | HopCounter x => exact tliv_length_field ..
  | UeTimeZone x => exact tliv_length_field ..
  | TraceReference x => exact tliv_length_field ..
  | CompleteRequestMessage x => exact tliv_length_field ..
  | Guti x => exact tliv_length_field ..
  | Fcontainer x => exact tliv_length_field ..
  | Fcause x => exact tliv_length_field ..
  | PlmnId x => exact tliv_length_field ..
  | TargetIdentification x => exact tliv_length_field ..
  | PacketFlowId x => exact tliv_length_field ..
  | RabContext x => exact tliv_length_field ..
  | SrcRncPdcpCtxInfo x => exact tliv_length_field ..
  | PortNumber x => exact tliv_length_field ..
  | ApnRestriction x => exact tliv_length_field ..
  | SelectionMode x => exact tliv_length_field ..
  | SourceIdentification x => exact tliv_length_field ..
  | ChangeReportingAction x => exact tliv_length_field ..
  | Fqcsid x => exact tliv_length_field ..
  | ChannelNeeded x => exact tliv_length_field ..
  | EmlppPriority x => exact tliv_length_field ..
  | NodeType x => exact tliv_length_field ..
  | Fqdn x => exact tliv_length_field ..
  | TransactionIdentifier x => exact tliv_length_field ..
  | MbmsSa x => exact tliv_length_field ..
  | MbmsSd x => exact tliv_length_field ..
  | MbmsSessionId x => exact tliv_length_field ..
  | MbmsFlowId x => exact tliv_length_field ..
  | MbmsIpMulticastDistribution x => exact tliv_length_field ..
  | MbmsDistributionAck x => exact tliv_length_field ..
  | RfspIndex x => exact tliv_length_field ..
  | Uci x => exact tliv_length_field ..
  | CSGInformationReportingAction x => exact tliv_length_field ..
  | CsgId x => exact tliv_length_field ..
  | CsgMembershipIndication x => exact tliv_length_field ..
  | ServiceIndicator x => exact tliv_length_field ..
  | DetachType x => exact tliv_length_field ..
  | Ldn x => exact tliv_length_field ..
  | NodeFeatures x => exact tliv_length_field ..
  | MbmsTimeToDataTransfer x => exact tliv_length_field ..
  | Throttling x => exact tliv_length_field ..
  | Arp x => exact tliv_length_field ..
  | EpcTimer x => exact tliv_length_field ..
  | Spi x => exact tliv_length_field ..
  | Tmgi x => exact tliv_length_field ..
  | AdditionalMmContextForSrvcc x => exact tliv_length_field ..
  | AdditionalFlagsSrvcc x => exact tliv_length_field ..
  | MdtConfiguration x => exact tliv_length_field ..
  | Apco x => exact tliv_length_field ..
  | AbsoluteTimeMbmsDataTransfer x => exact tliv_length_field ..
  | HenbInfoReporting x => exact tliv_length_field ..
  | Ip4Cp x => exact tliv_length_field ..
  | ChangeToReportFlags x => exact tliv_length_field ..
  | ActionIndication x => exact tliv_length_field ..
  | TwanId x => exact tliv_length_field ..
  | UliTimestamp x => exact tliv_length_field ..
  | MbmsFlags x => exact tliv_length_field ..
  | RanNasCause x => exact tliv_length_field ..
  | CnOperatorSelectionEntity x => exact tliv_length_field ..
  | Twmi x => exact tliv_length_field ..
  | NodeNumber x => exact tliv_length_field ..
  | NodeIdentifier x => exact tliv_length_field ..
  | PresenceReportingAreaAction x => exact tliv_length_field ..
  | PresenceReportingAreaInformation x => exact tliv_length_field ..
  | TwanIdTimeStamp x => exact tliv_length_field ..
  | OverloadControlInfo x => exact tliv_length_field ..
  | LoadControlInfo x => exact tliv_length_field ..
  | Metric x => exact tliv_length_field ..
  | Sqn x => exact tliv_length_field ..
  | ApnRelativeCapacity x => exact tliv_length_field ..
  | WlanOffloadIndication x => exact tliv_length_field ..
  | PagingServiceInfo x => exact tliv_length_field ..
  | IntegerNumber x => exact tliv_length_field ..
  | MilliSecondTimeStamp x => exact tliv_length_field ..
  | MonitoringEventInformation x => exact tliv_length_field ..
  | EcgiList x => exact tliv_length_field ..
  | RemoteUeContext x => exact tliv_length_field ..
  | RemoteUserId x => exact tliv_length_field ..
  | RemoteUeIpInformation x => exact tliv_length_field ..
  | CIoTOptimizationSupportIndication x => exact tliv_length_field ..
  | ScefPdnConnections x => exact tliv_length_field ..
  | HeaderCompressionConfiguration x => exact tliv_length_field ..
  | Epco x => exact tliv_length_field ..
  | ServingPlmnRateControl x => exact tliv_length_field ..
  | Counter x => exact tliv_length_field ..
  | MappedUeUsageType x => exact tliv_length_field ..
  | SecondaryRatUsageDataReport x => exact tliv_length_field ..
  | UpFunctionSelectionIndicationFlags x => exact tliv_length_field ..
  | MaxPacketLossRate x => exact tliv_length_field ..
  | ApnRateControlStatus x => exact tliv_length_field ..
  | ExtendedTraceInformation x => exact tliv_length_field ..
  | MonitoringEventExtensionInfo x => exact tliv_length_field ..
  | AdditionalRrmPolicyIndex x => exact tliv_length_field ..
  | V2xInformation x => exact tliv_length_field ..
  | PC5QosParameters x => exact tliv_length_field ..
  | ServicesAuthorized x => exact tliv_length_field ..
  | BitRate x => exact tliv_length_field ..
  | PC5QosFlow x => exact tliv_length_field ..
  | SgiPtpTunnelAddress x => exact tliv_length_field ..
  | PgwChangeInfo x => exact tliv_length_field ..
  | PgwFqdn x => exact tliv_length_field ..
  | GroupId x => exact tliv_length_field ..
  | PSCellId x => exact tliv_length_field ..
  | UpSecurityPolicy x => exact tliv_length_field ..
  | AlternativeImsi x => exact tliv_length_field ..
  | SpecialIEWithTypeExt x => exact tliv_length_field ..
  | PrivateExtension x => exact tliv_length_field ..
  | Unknown x => exact tliv_length_field ..

theorem IE.marshal_setLength (n : UInt16) (e : IE) : (e.setLength n).marshal = e.marshal := IE.marshalWith_setLength _ n e

theorem IE.length_setLength (n : UInt16) (e : IE) : (e.setLength n).length = n := by
  cases e with
  | MmContext x => cases x <;> rfl
  | _ => rfl

theorem IE.kind_setLength (n : UInt16) (e : IE) : (e.setLength n).kind = e.kind := by cases e <;> rfl

theorem IE.setLength_setLength (n l : UInt16) (e : IE) : (e.setLength n).setLength l = e.setLength l := by
  cases e with
  | MmContext x => cases x <;> rfl
  | _ => rfl

theorem IE.setLength_self (e : IE) : e.setLength e.length = e := by
  cases e with
  | MmContext x => cases x <;> rfl
  | _ => rfl

/-- The number of octets behind the first four. -/
def IE.bodyLen (e : IE) : UInt16 := UInt16.ofNat (e.marshal.length - 4)

/-- The IE with the length field that it is encoded with. -/
def IE.norm (e : IE) : IE := e.setLength e.bodyLen

end Gtp.V2
