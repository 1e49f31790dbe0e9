import Verif.V2.PanicMm

/-!
# The octets on which the decoder of an information element panics in a debug build

Expanded by `scripts/gen_panic.py`.
-/

namespace Gtp.V2

/-- The kinds that have members. -/
def Kind.grouped : Kind → Bool
  | .BearerContext => true
  | .PdnConnections => true
  | .OverloadControlInfo => true
  | .LoadControlInfo => true
  | .RemoteUeContext => true
  | .ScefPdnConnections => true
  | .V2xInformation => true
  | .PC5QosParameters => true
  | .PgwChangeInfo => true
  | _ => false

/-- The kinds whose decoder panics on no octets at all, in a debug build. -/
def Kind.calm : Kind → Bool
  | .Cause => true
  | .Recovery => true
  | .SrvccCause => true
  | .ApnAmbr => true
  | .Ebi => true
  | .BearerQos => true
  | .FlowQos => true
  | .RatType => true
  | .ServingNetwork => true
  | .Tmsi => true
  | .GlobalCnId => true
  | .DelayValue => true
  | .ChargingId => true
  | .ChargingCharacteristics => true
  | .TraceInformation => true
  | .BearerFlags => true
  | .PdnType => true
  | .Pti => true
  | .PduNumbers => true
  | .Ptmsi => true
  | .PtmsiSignature => true
  | .HopCounter => true
  | .UeTimeZone => true
  | .TraceReference => true
  | .Guti => true
  | .PlmnId => true
  | .TargetIdentification => true
  | .PacketFlowId => true
  | .RabContext => true
  | .PortNumber => true
  | .ApnRestriction => true
  | .SelectionMode => true
  | .ChangeReportingAction => true
  | .ChannelNeeded => true
  | .EmlppPriority => true
  | .NodeType => true
  | .TransactionIdentifier => true
  | .MbmsSd => true
  | .MbmsSessionId => true
  | .MbmsFlowId => true
  | .MbmsDistributionAck => true
  | .RfspIndex => true
  | .Uci => true
  | .CSGInformationReportingAction => true
  | .CsgId => true
  | .CsgMembershipIndication => true
  | .ServiceIndicator => true
  | .DetachType => true
  | .NodeFeatures => true
  | .MbmsTimeToDataTransfer => true
  | .Throttling => true
  | .Arp => true
  | .EpcTimer => true
  | .Spi => true
  | .Tmgi => true
  | .AdditionalFlagsSrvcc => true
  | .AbsoluteTimeMbmsDataTransfer => true
  | .HenbInfoReporting => true
  | .Ip4Cp => true
  | .ChangeToReportFlags => true
  | .ActionIndication => true
  | .UliTimestamp => true
  | .MbmsFlags => true
  | .CnOperatorSelectionEntity => true
  | .Twmi => true
  | .PresenceReportingAreaInformation => true
  | .TwanIdTimeStamp => true
  | .Metric => true
  | .Sqn => true
  | .WlanOffloadIndication => true
  | .MilliSecondTimeStamp => true
  | .MonitoringEventInformation => true
  | .EcgiList => true
  | .CIoTOptimizationSupportIndication => true
  | .HeaderCompressionConfiguration => true
  | .ServingPlmnRateControl => true
  | .Counter => true
  | .MappedUeUsageType => true
  | .SecondaryRatUsageDataReport => true
  | .UpFunctionSelectionIndicationFlags => true
  | .MaxPacketLossRate => true
  | .ApnRateControlStatus => true
  | .AdditionalRrmPolicyIndex => true
  | .ServicesAuthorized => true
  | .BitRate => true
  | .PSCellId => true
  | .UpSecurityPolicy => true
  | _ => false

/-- The octets from which the decoder cannot make an IE of the kind without panicking, in a debug build; for a grouped kind
without the octets of the members. -/
def Kind.Crash (b : Bytes) : Kind → Prop
  | .Imsi => Over 5 b
  | .Cause => False
  | .Recovery => False
  | .StnSr => Over 4 b
  | .SrvccCause => False
  | .Apn => Over 4 b ∨ Full b ∧ ¬ Labels ((b.take (4 + declN b)).drop 4)
  | .ApnAmbr => False
  | .Ebi => False
  | .IpAddress => Over 4 b
  | .Mei => Over 4 b
  | .Msisdn => Over 4 b
  | .Indication => 4 ≤ b.length ∧ b.length < declN b + 4
  | .Pco => Over 4 b
  | .PdnAddressAllocation => Over 5 b
  | .BearerQos => False
  | .FlowQos => False
  | .RatType => False
  | .ServingNetwork => False
  | .BearerTft => Over 4 b
  | .TrafficAggregateDescription => Over 4 b
  | .Uli => Over 4 b ∨ Full b ∧ b.getD 4 0 &&& 4 = 4 ∧ 8 ≤ octAt b 4 ∧ b.length = 11 + 7 * (octAt b 4 % 2) + 7 * (octAt b 4 / 2 % 2)
  | .Fteid => Over 4 b ∨ Full b ∧ b.length < Fteid.need (b.getD 4 0)
  | .Tmsi => False
  | .GlobalCnId => False
  | .S103pdf => Over 4 b ∨ Full b ∧ (octAt b 4 = 4 ∧ b.length < 14 ∨ octAt b 4 = 16 ∧ (b.length = 25 ∨ 25 < b.length ∧ b.length = 25 + octAt b 25))
  | .S1udf => Over 4 b ∨ Full b ∧ (b.length < 6 ∨ octAt b 5 = 4 ∧ b.length < 14 ∨ octAt b 5 = 16 ∧ 22 ≤ b.length ∧ b.length < 26)
  | .DelayValue => False
  | .BearerContext => Over 4 b
  | .ChargingId => False
  | .ChargingCharacteristics => False
  | .TraceInformation => False
  | .BearerFlags => False
  | .PdnType => False
  | .Pti => False
  | .MmContext => MmCrash b
  | .PdnConnections => Over 4 b
  | .PduNumbers => False
  | .Ptmsi => False
  | .PtmsiSignature => False
  | .HopCounter => False
  | .UeTimeZone => False
  | .TraceReference => False
  | .CompleteRequestMessage => Over 5 b
  | .Guti => False
  | .Fcontainer => Over 5 b
  | .Fcause => Over 5 b
  | .PlmnId => False
  | .TargetIdentification => False
  | .PacketFlowId => False
  | .RabContext => False
  | .SrcRncPdcpCtxInfo => Over 4 b
  | .PortNumber => False
  | .ApnRestriction => False
  | .SelectionMode => False
  | .SourceIdentification => 13 ≤ b.length ∧ b.length < 18 ∧ octAt b 12 = 1
  | .ChangeReportingAction => False
  | .Fqcsid => Over 5 b
  | .ChannelNeeded => False
  | .EmlppPriority => False
  | .NodeType => False
  | .Fqdn => Over 4 b ∨ Full b ∧ ¬ Labels ((b.take (4 + declN b)).drop 4)
  | .TransactionIdentifier => False
  | .MbmsSa => Over 4 b
  | .MbmsSd => False
  | .MbmsSessionId => False
  | .MbmsFlowId => False
  | .MbmsIpMulticastDistribution => Over 8 b ∨ 8 ≤ b.length ∧ Full b ∧ ¬ checksIp b 8 fun c => checksIp b c fun c => c ≠ b.length
  | .MbmsDistributionAck => False
  | .RfspIndex => False
  | .Uci => False
  | .CSGInformationReportingAction => False
  | .CsgId => False
  | .CsgMembershipIndication => False
  | .ServiceIndicator => False
  | .DetachType => False
  | .Ldn => Over 4 b
  | .NodeFeatures => False
  | .MbmsTimeToDataTransfer => False
  | .Throttling => False
  | .Arp => False
  | .EpcTimer => False
  | .Spi => False
  | .Tmgi => False
  | .AdditionalMmContextForSrvcc => 5 ≤ b.length ∧ ¬ checksLv0 b 1 4 fun c => checksLv0 b 1 c fun c => c < b.length
  | .AdditionalFlagsSrvcc => False
  | .MdtConfiguration => 15 ≤ b.length ∧ ¬ takesLv b 14 fun p => p < b.length ∧ maybe8 b (b.getD p 0 &&& 1 == 1) (p + 1) fun c =>
      maybe8 b (b.getD p 0 >>> 1 &&& 1 == 1) c fun c => maybe8 b (b.getD p 0 >>> 2 &&& 1 == 1) c fun c =>
      octAt b p / 8 = 1 → c < b.length
  | .Apco => Over 4 b
  | .AbsoluteTimeMbmsDataTransfer => False
  | .HenbInfoReporting => False
  | .Ip4Cp => False
  | .ChangeToReportFlags => False
  | .ActionIndication => False
  | .TwanId => 6 ≤ b.length ∧ ¬ takesLv b 5 fun c => flagged (b.getD 4 0 &&& 1 == 1) (takes b 6) c fun c =>
      flagged (b.getD 4 0 >>> 1 &&& 1 == 1) (guarded b (takesLv b)) c fun c => flagged (b.getD 4 0 >>> 2 &&& 1 == 1) (takes b 3) c fun c =>
      flagged (b.getD 4 0 >>> 3 &&& 1 == 1) (guarded b (takesText b)) c fun c =>
      b.getD 4 0 >>> 4 &&& 1 = 1 → c < b.length → checksLv b (c + 1) fun c => c ≠ b.length
  | .UliTimestamp => False
  | .MbmsFlags => False
  | .RanNasCause => Over 6 b
  | .CnOperatorSelectionEntity => False
  | .Twmi => False
  | .NodeNumber => Over 5 b ∨ 5 ≤ b.length ∧ Full b ∧ (octAt b 4 = 0 ∨ b.length < octAt b 4 + 5)
  | .NodeIdentifier => Over 5 b
  | .PresenceReportingAreaAction => Over 4 b ∨ Full b ∧ (b.length < 14 ∨ PresenceReportingAreaAction.extPos b = b.length)
  | .PresenceReportingAreaInformation => False
  | .TwanIdTimeStamp => False
  | .OverloadControlInfo => Over 4 b
  | .LoadControlInfo => Over 4 b
  | .Metric => False
  | .Sqn => False
  | .ApnRelativeCapacity => Over 4 b ∨ Full b ∧ ¬ Labels ((b.take (4 + declN b)).drop 5)
  | .WlanOffloadIndication => False
  | .PagingServiceInfo => b.length = 6 ∧ octAt b 5 = 1
  | .IntegerNumber => Over 4 b
  | .MilliSecondTimeStamp => False
  | .MonitoringEventInformation => False
  | .EcgiList => False
  | .RemoteUeContext => Over 4 b
  | .RemoteUserId => 6 ≤ b.length ∧ b.length < 6 + octAt b 5
  | .RemoteUeIpInformation => Over 5 b
  | .CIoTOptimizationSupportIndication => False
  | .ScefPdnConnections => Over 4 b
  | .HeaderCompressionConfiguration => False
  | .Epco => Over 4 b
  | .ServingPlmnRateControl => False
  | .Counter => False
  | .MappedUeUsageType => False
  | .SecondaryRatUsageDataReport => False
  | .UpFunctionSelectionIndicationFlags => False
  | .MaxPacketLossRate => False
  | .ApnRateControlStatus => False
  | .ExtendedTraceInformation => 11 ≤ b.length ∧ ¬ checksLv b 10 fun c => checksLv b c fun c => c < b.length → checksLv b (c + 1) fun c =>
      c < b.length ∧ (octAt b c = 4 → c + 5 ≤ b.length → declN b < 65532) ∧ (octAt b c = 16 → c + 17 ≤ b.length → declN b < 65532)
  | .MonitoringEventExtensionInfo => Over 4 b ∨ Full b ∧ (b.length < 10 ∨ b.length = 9 + octAt b 9)
  | .AdditionalRrmPolicyIndex => False
  | .V2xInformation => Over 4 b
  | .PC5QosParameters => Over 4 b
  | .ServicesAuthorized => False
  | .BitRate => False
  | .PC5QosFlow => Over 4 b ∨ Full b ∧ (b.length < 14 ∨ b.getD 4 0 &&& 1 = 1 ∧ b.length < 15)
  | .SgiPtpTunnelAddress => Over 5 b
  | .PgwChangeInfo => Over 4 b
  | .PgwFqdn => Over 4 b ∨ Full b ∧ ¬ Labels ((b.take (4 + declN b)).drop 4)
  | .GroupId => Over 4 b
  | .PSCellId => False
  | .UpSecurityPolicy => False
  | .AlternativeImsi => Over 5 b
  | .SpecialIEWithTypeExt => 5 ≤ b.length ∧ (b.length = 5 ∨ 65532 ≤ declN b ∨ declN b = 1)
  | .PrivateExtension => 7 ≤ b.length ∧ (65532 ≤ declN b ∨ declN b = 1)
  | .Unknown => Over 4 b

end Gtp.V2
