import Verif.V2.Deep
import Verif.V2.IESafe

/-!
# The type of a decoded IE

`get_type` of what a decoder returns, for every kind. Generated by scripts/gen_posttype.py.
-/

namespace Gtp.V2

/-- Follow a decoder to its results. -/
macro "post_t" : tactic => `(tactic| repeat' first
  | exact Post_err'
  | exact Post_panic'
  | (with_reducible refine Post_bind_any fun _ => ?_)
  | (with_reducible refine Post_ite_any ?_ ?_)
  | exact (rfl : (_ : UInt8) = _)
  | (show R.Post (R.ok _) _; exact (rfl : (_ : UInt8) = _))
  | split)

theorem Imsi.postT (m : Mode) (b : Bytes) : (Imsi.unmarshal m b).Post fun x => x.t = 1 := by
  unfold Imsi.unmarshal
  post_t

theorem Cause.postT (m : Mode) (b : Bytes) : (Cause.unmarshal m b).Post fun x => x.t = 2 := by
  unfold Cause.unmarshal
  post_t

theorem Recovery.postT (m : Mode) (b : Bytes) : (Recovery.unmarshal m b).Post fun x => x.t = 3 := by
  unfold Recovery.unmarshal
  post_t

theorem StnSr.postT (m : Mode) (b : Bytes) : (StnSr.unmarshal m b).Post fun x => x.t = 51 := by
  unfold StnSr.unmarshal
  post_t

theorem SrvccCause.postT (m : Mode) (b : Bytes) : (SrvccCause.unmarshal m b).Post fun x => x.t = 56 := by
  unfold SrvccCause.unmarshal
  post_t

theorem Apn.postT (m : Mode) (b : Bytes) : (Apn.unmarshal m b).Post fun x => x.t = 71 := by
  unfold Apn.unmarshal
  post_t

theorem Ambr.postT (m : Mode) (b : Bytes) : (Ambr.unmarshal m b).Post fun x => x.t = 72 := by
  unfold Ambr.unmarshal
  post_t

theorem Ebi.postT (m : Mode) (b : Bytes) : (Ebi.unmarshal m b).Post fun x => x.t = 73 := by
  unfold Ebi.unmarshal
  post_t

theorem IpAddress.postT (m : Mode) (b : Bytes) : (IpAddress.unmarshal m b).Post fun x => x.t = 74 := by
  unfold IpAddress.unmarshal
  post_t

theorem Mei.postT (m : Mode) (b : Bytes) : (Mei.unmarshal m b).Post fun x => x.t = 75 := by
  unfold Mei.unmarshal
  post_t

theorem Msisdn.postT (m : Mode) (b : Bytes) : (Msisdn.unmarshal m b).Post fun x => x.t = 76 := by
  unfold Msisdn.unmarshal
  post_t

theorem Indication.postT (m : Mode) (b : Bytes) : (Indication.unmarshal m b).Post fun x => x.t = 77 := by
  unfold Indication.unmarshal
  post_t

theorem Pco.postT (m : Mode) (b : Bytes) : (Pco.unmarshal m b).Post fun x => x.t = 78 := by
  unfold Pco.unmarshal
  post_t

theorem PdnAddressAllocation.postT (m : Mode) (b : Bytes) : (PdnAddressAllocation.unmarshal m b).Post fun x => x.t = 79 := by
  unfold PdnAddressAllocation.unmarshal
  post_t

theorem BearerQos.postT (m : Mode) (b : Bytes) : (BearerQos.unmarshal m b).Post fun x => x.t = 80 := by
  unfold BearerQos.unmarshal
  post_t

theorem FlowQos.postT (m : Mode) (b : Bytes) : (FlowQos.unmarshal m b).Post fun x => x.t = 81 := by
  unfold FlowQos.unmarshal
  post_t

theorem RatType.postT (m : Mode) (b : Bytes) : (RatType.unmarshal m b).Post fun x => x.t = 82 := by
  unfold RatType.unmarshal
  post_t

theorem ServingNetwork.postT (m : Mode) (b : Bytes) : (ServingNetwork.unmarshal m b).Post fun x => x.t = 83 := by
  unfold ServingNetwork.unmarshal
  post_t

theorem BearerTft.postT (m : Mode) (b : Bytes) : (BearerTft.unmarshal m b).Post fun x => x.t = 84 := by
  unfold BearerTft.unmarshal
  post_t

theorem TrafficAggregateDescription.postT (m : Mode) (b : Bytes) : (TrafficAggregateDescription.unmarshal m b).Post fun x => x.t = 85 := by
  unfold TrafficAggregateDescription.unmarshal
  post_t

theorem Uli.postT (m : Mode) (b : Bytes) : (Uli.unmarshal m b).Post fun x => x.t = 86 := by
  unfold Uli.unmarshal
  post_t

theorem Fteid.postT (m : Mode) (b : Bytes) : (Fteid.unmarshal m b).Post fun x => x.t = 87 := by
  unfold Fteid.unmarshal
  post_t

theorem Tmsi.postT (m : Mode) (b : Bytes) : (Tmsi.unmarshal m b).Post fun x => x.t = 88 := by
  unfold Tmsi.unmarshal
  post_t

theorem GlobalCnId.postT (m : Mode) (b : Bytes) : (GlobalCnId.unmarshal m b).Post fun x => x.t = 89 := by
  unfold GlobalCnId.unmarshal
  post_t

theorem S103pdf.postT (m : Mode) (b : Bytes) : (S103pdf.unmarshal m b).Post fun x => x.t = 90 := by
  unfold S103pdf.unmarshal
  post_t

theorem S1udf.postT (m : Mode) (b : Bytes) : (S1udf.unmarshal m b).Post fun x => x.t = 91 := by
  unfold S1udf.unmarshal
  post_t

theorem DelayValue.postT (m : Mode) (b : Bytes) : (DelayValue.unmarshal m b).Post fun x => x.t = 92 := by
  unfold DelayValue.unmarshal
  post_t

theorem ChargingId.postT (m : Mode) (b : Bytes) : (ChargingId.unmarshal m b).Post fun x => x.t = 94 := by
  unfold ChargingId.unmarshal
  post_t

theorem ChargingCharacteristics.postT (m : Mode) (b : Bytes) : (ChargingCharacteristics.unmarshal m b).Post fun x => x.t = 95 := by
  unfold ChargingCharacteristics.unmarshal
  post_t

theorem TraceInformation.postT (m : Mode) (b : Bytes) : (TraceInformation.unmarshal m b).Post fun x => x.t = 96 := by
  unfold TraceInformation.unmarshal
  post_t

theorem BearerFlags.postT (m : Mode) (b : Bytes) : (BearerFlags.unmarshal m b).Post fun x => x.t = 97 := by
  unfold BearerFlags.unmarshal
  post_t

theorem PdnType.postT (m : Mode) (b : Bytes) : (PdnType.unmarshal m b).Post fun x => x.t = 99 := by
  unfold PdnType.unmarshal
  post_t

theorem Pti.postT (m : Mode) (b : Bytes) : (Pti.unmarshal m b).Post fun x => x.t = 100 := by
  unfold Pti.unmarshal
  post_t

theorem PduNumbers.postT (m : Mode) (b : Bytes) : (PduNumbers.unmarshal m b).Post fun x => x.t = 110 := by
  unfold PduNumbers.unmarshal
  post_t

theorem Ptmsi.postT (m : Mode) (b : Bytes) : (Ptmsi.unmarshal m b).Post fun x => x.t = 111 := by
  unfold Ptmsi.unmarshal
  post_t

theorem PtmsiSignature.postT (m : Mode) (b : Bytes) : (PtmsiSignature.unmarshal m b).Post fun x => x.t = 112 := by
  unfold PtmsiSignature.unmarshal
  post_t

theorem HopCounter.postT (m : Mode) (b : Bytes) : (HopCounter.unmarshal m b).Post fun x => x.t = 113 := by
  unfold HopCounter.unmarshal
  post_t

theorem UeTimeZone.postT (m : Mode) (b : Bytes) : (UeTimeZone.unmarshal m b).Post fun x => x.t = 114 := by
  unfold UeTimeZone.unmarshal
  post_t

theorem TraceReference.postT (m : Mode) (b : Bytes) : (TraceReference.unmarshal m b).Post fun x => x.t = 83 := by
  unfold TraceReference.unmarshal
  post_t

theorem CompleteRequestMessage.postT (m : Mode) (b : Bytes) : (CompleteRequestMessage.unmarshal m b).Post fun x => x.t = 116 := by
  unfold CompleteRequestMessage.unmarshal
  post_t

theorem Guti.postT (m : Mode) (b : Bytes) : (Guti.unmarshal m b).Post fun x => x.t = 117 := by
  unfold Guti.unmarshal
  post_t

theorem Fcontainer.postT (m : Mode) (b : Bytes) : (Fcontainer.unmarshal m b).Post fun x => x.t = 118 := by
  unfold Fcontainer.unmarshal
  post_t

theorem Fcause.postT (m : Mode) (b : Bytes) : (Fcause.unmarshal m b).Post fun x => x.t = 119 := by
  unfold Fcause.unmarshal
  post_t

theorem PlmnId.postT (m : Mode) (b : Bytes) : (PlmnId.unmarshal m b).Post fun x => x.t = 120 := by
  unfold PlmnId.unmarshal
  post_t

theorem TargetIdentification.postT (m : Mode) (b : Bytes) : (TargetIdentification.unmarshal m b).Post fun x => x.t = 121 := by
  unfold TargetIdentification.unmarshal
  post_t

theorem PacketFlowId.postT (m : Mode) (b : Bytes) : (PacketFlowId.unmarshal m b).Post fun x => x.t = 123 := by
  unfold PacketFlowId.unmarshal
  post_t

theorem RabContext.postT (m : Mode) (b : Bytes) : (RabContext.unmarshal m b).Post fun x => x.t = 124 := by
  unfold RabContext.unmarshal
  post_t

theorem SourceRncPdcpContextInfo.postT (m : Mode) (b : Bytes) : (SourceRncPdcpContextInfo.unmarshal m b).Post fun x => x.t = 125 := by
  unfold SourceRncPdcpContextInfo.unmarshal
  post_t

theorem PortNumber.postT (m : Mode) (b : Bytes) : (PortNumber.unmarshal m b).Post fun x => x.t = 126 := by
  unfold PortNumber.unmarshal
  post_t

theorem ApnRestriction.postT (m : Mode) (b : Bytes) : (ApnRestriction.unmarshal m b).Post fun x => x.t = 127 := by
  unfold ApnRestriction.unmarshal
  post_t

theorem SelectionMode.postT (m : Mode) (b : Bytes) : (SelectionMode.unmarshal m b).Post fun x => x.t = 128 := by
  unfold SelectionMode.unmarshal
  post_t

theorem SourceIdentification.postT (m : Mode) (b : Bytes) : (SourceIdentification.unmarshal m b).Post fun x => x.t = 129 := by
  unfold SourceIdentification.unmarshal
  post_t

theorem ChangeReportingAction.postT (m : Mode) (b : Bytes) : (ChangeReportingAction.unmarshal m b).Post fun x => x.t = 131 := by
  unfold ChangeReportingAction.unmarshal
  post_t

theorem Fqcsid.postT (m : Mode) (b : Bytes) : (Fqcsid.unmarshal m b).Post fun x => x.t = 132 := by
  unfold Fqcsid.unmarshal
  post_t

theorem ChannelNeeded.postT (m : Mode) (b : Bytes) : (ChannelNeeded.unmarshal m b).Post fun x => x.t = 133 := by
  unfold ChannelNeeded.unmarshal
  post_t

theorem EmlppPriority.postT (m : Mode) (b : Bytes) : (EmlppPriority.unmarshal m b).Post fun x => x.t = 134 := by
  unfold EmlppPriority.unmarshal
  post_t

theorem NodeType.postT (m : Mode) (b : Bytes) : (NodeType.unmarshal m b).Post fun x => x.t = 135 := by
  unfold NodeType.unmarshal
  post_t

theorem Fqdn.postT (m : Mode) (b : Bytes) : (Fqdn.unmarshal m b).Post fun x => x.t = 136 := by
  unfold Fqdn.unmarshal
  post_t

theorem TransactionIdentifier.postT (m : Mode) (b : Bytes) : (TransactionIdentifier.unmarshal m b).Post fun x => x.t = 137 := by
  unfold TransactionIdentifier.unmarshal
  post_t

theorem MbmsServiceArea.postT (m : Mode) (b : Bytes) : (MbmsServiceArea.unmarshal m b).Post fun x => x.t = 139 := by
  unfold MbmsServiceArea.unmarshal
  post_t

theorem MbmsSessionDuration.postT (m : Mode) (b : Bytes) : (MbmsSessionDuration.unmarshal m b).Post fun x => x.t = 138 := by
  unfold MbmsSessionDuration.unmarshal
  post_t

theorem MbmsSessionId.postT (m : Mode) (b : Bytes) : (MbmsSessionId.unmarshal m b).Post fun x => x.t = 140 := by
  unfold MbmsSessionId.unmarshal
  post_t

theorem MbmsFlowId.postT (m : Mode) (b : Bytes) : (MbmsFlowId.unmarshal m b).Post fun x => x.t = 141 := by
  unfold MbmsFlowId.unmarshal
  post_t

theorem MbmsIpMulticastDistribution.postT (m : Mode) (b : Bytes) : (MbmsIpMulticastDistribution.unmarshal m b).Post fun x => x.t = 142 := by
  unfold MbmsIpMulticastDistribution.unmarshal
  post_t

theorem MbmsDistributionAck.postT (m : Mode) (b : Bytes) : (MbmsDistributionAck.unmarshal m b).Post fun x => x.t = 143 := by
  unfold MbmsDistributionAck.unmarshal
  post_t

theorem RfspIndex.postT (m : Mode) (b : Bytes) : (RfspIndex.unmarshal m b).Post fun x => x.t = 144 := by
  unfold RfspIndex.unmarshal
  post_t

theorem Uci.postT (m : Mode) (b : Bytes) : (Uci.unmarshal m b).Post fun x => x.t = 145 := by
  unfold Uci.unmarshal
  post_t

theorem CSGInformationReportingAction.postT (m : Mode) (b : Bytes) : (CSGInformationReportingAction.unmarshal m b).Post fun x => x.t = 146 := by
  unfold CSGInformationReportingAction.unmarshal
  post_t

theorem CsgId.postT (m : Mode) (b : Bytes) : (CsgId.unmarshal m b).Post fun x => x.t = 147 := by
  unfold CsgId.unmarshal
  post_t

theorem CsgMembershipIndication.postT (m : Mode) (b : Bytes) : (CsgMembershipIndication.unmarshal m b).Post fun x => x.t = 148 := by
  unfold CsgMembershipIndication.unmarshal
  post_t

theorem ServiceIndicator.postT (m : Mode) (b : Bytes) : (ServiceIndicator.unmarshal m b).Post fun x => x.t = 149 := by
  unfold ServiceIndicator.unmarshal
  post_t

theorem DetachType.postT (m : Mode) (b : Bytes) : (DetachType.unmarshal m b).Post fun x => x.t = 150 := by
  unfold DetachType.unmarshal
  post_t

theorem Ldn.postT (m : Mode) (b : Bytes) : (Ldn.unmarshal m b).Post fun x => x.t = 151 := by
  unfold Ldn.unmarshal
  post_t

theorem NodeFeatures.postT (m : Mode) (b : Bytes) : (NodeFeatures.unmarshal m b).Post fun x => x.t = 152 := by
  unfold NodeFeatures.unmarshal
  post_t

theorem MbmsTimeToDataTransfer.postT (m : Mode) (b : Bytes) : (MbmsTimeToDataTransfer.unmarshal m b).Post fun x => x.t = 153 := by
  unfold MbmsTimeToDataTransfer.unmarshal
  post_t

theorem Throttling.postT (m : Mode) (b : Bytes) : (Throttling.unmarshal m b).Post fun x => x.t = 154 := by
  unfold Throttling.unmarshal
  post_t

theorem Arp.postT (m : Mode) (b : Bytes) : (Arp.unmarshal m b).Post fun x => x.t = 155 := by
  unfold Arp.unmarshal
  post_t

theorem EpcTimer.postT (m : Mode) (b : Bytes) : (EpcTimer.unmarshal m b).Post fun x => x.t = 156 := by
  unfold EpcTimer.unmarshal
  post_t

theorem Spi.postT (m : Mode) (b : Bytes) : (Spi.unmarshal m b).Post fun x => x.t = 157 := by
  unfold Spi.unmarshal
  post_t

theorem Tmgi.postT (m : Mode) (b : Bytes) : (Tmgi.unmarshal m b).Post fun x => x.t = 158 := by
  unfold Tmgi.unmarshal
  post_t

theorem AdditionalMmContextForSrvcc.postT (m : Mode) (b : Bytes) : (AdditionalMmContextForSrvcc.unmarshal m b).Post fun x => x.t = 159 := by
  unfold AdditionalMmContextForSrvcc.unmarshal
  post_t

theorem AdditionalFlagsSrvcc.postT (m : Mode) (b : Bytes) : (AdditionalFlagsSrvcc.unmarshal m b).Post fun x => x.t = 160 := by
  unfold AdditionalFlagsSrvcc.unmarshal
  post_t

theorem MdtConfiguration.postT (m : Mode) (b : Bytes) : (MdtConfiguration.unmarshal m b).Post fun x => x.t = 162 := by
  unfold MdtConfiguration.unmarshal
  post_t

theorem Apco.postT (m : Mode) (b : Bytes) : (Apco.unmarshal m b).Post fun x => x.t = 163 := by
  unfold Apco.unmarshal
  post_t

theorem AbsoluteTimeMbmsDataTransfer.postT (m : Mode) (b : Bytes) : (AbsoluteTimeMbmsDataTransfer.unmarshal m b).Post fun x => x.t = 164 := by
  unfold AbsoluteTimeMbmsDataTransfer.unmarshal
  post_t

theorem HenbInfoReporting.postT (m : Mode) (b : Bytes) : (HenbInfoReporting.unmarshal m b).Post fun x => x.t = 165 := by
  unfold HenbInfoReporting.unmarshal
  post_t

theorem Ip4Cp.postT (m : Mode) (b : Bytes) : (Ip4Cp.unmarshal m b).Post fun x => x.t = 166 := by
  unfold Ip4Cp.unmarshal
  post_t

theorem ChangeToReportFlags.postT (m : Mode) (b : Bytes) : (ChangeToReportFlags.unmarshal m b).Post fun x => x.t = 167 := by
  unfold ChangeToReportFlags.unmarshal
  post_t

theorem ActionIndication.postT (m : Mode) (b : Bytes) : (ActionIndication.unmarshal m b).Post fun x => x.t = 168 := by
  unfold ActionIndication.unmarshal
  post_t

theorem TwanId.postT (m : Mode) (b : Bytes) : (TwanId.unmarshal m b).Post fun x => x.t = 169 := by
  unfold TwanId.unmarshal
  post_t

theorem UliTimestamp.postT (m : Mode) (b : Bytes) : (UliTimestamp.unmarshal m b).Post fun x => x.t = 170 := by
  unfold UliTimestamp.unmarshal
  post_t

theorem MbmsFlags.postT (m : Mode) (b : Bytes) : (MbmsFlags.unmarshal m b).Post fun x => x.t = 171 := by
  unfold MbmsFlags.unmarshal
  post_t

theorem RanNasCause.postT (m : Mode) (b : Bytes) : (RanNasCause.unmarshal m b).Post fun x => x.t = 172 := by
  unfold RanNasCause.unmarshal
  post_t

theorem CnOperatorSelectionEntity.postT (m : Mode) (b : Bytes) : (CnOperatorSelectionEntity.unmarshal m b).Post fun x => x.t = 173 := by
  unfold CnOperatorSelectionEntity.unmarshal
  post_t

theorem Twmi.postT (m : Mode) (b : Bytes) : (Twmi.unmarshal m b).Post fun x => x.t = 174 := by
  unfold Twmi.unmarshal
  post_t

theorem NodeNumber.postT (m : Mode) (b : Bytes) : (NodeNumber.unmarshal m b).Post fun x => x.t = 175 := by
  unfold NodeNumber.unmarshal
  post_t

theorem NodeIdentifier.postT (m : Mode) (b : Bytes) : (NodeIdentifier.unmarshal m b).Post fun x => x.t = 176 := by
  unfold NodeIdentifier.unmarshal
  post_t

theorem PresenceReportingAreaAction.postT (m : Mode) (b : Bytes) : (PresenceReportingAreaAction.unmarshal m b).Post fun x => x.t = 177 := by
  unfold PresenceReportingAreaAction.unmarshal
  post_t

theorem PresenceReportingAreaInformation.postT (m : Mode) (b : Bytes) : (PresenceReportingAreaInformation.unmarshal m b).Post fun x => x.t = 178 := by
  unfold PresenceReportingAreaInformation.unmarshal
  post_t

theorem TwanIdTimeStamp.postT (m : Mode) (b : Bytes) : (TwanIdTimeStamp.unmarshal m b).Post fun x => x.t = 179 := by
  unfold TwanIdTimeStamp.unmarshal
  post_t

theorem Metric.postT (m : Mode) (b : Bytes) : (Metric.unmarshal m b).Post fun x => x.t = 182 := by
  unfold Metric.unmarshal
  post_t

theorem Sqn.postT (m : Mode) (b : Bytes) : (Sqn.unmarshal m b).Post fun x => x.t = 183 := by
  unfold Sqn.unmarshal
  post_t

theorem ApnRelativeCapacity.postT (m : Mode) (b : Bytes) : (ApnRelativeCapacity.unmarshal m b).Post fun x => x.t = 184 := by
  unfold ApnRelativeCapacity.unmarshal
  post_t

theorem WlanOffloadIndication.postT (m : Mode) (b : Bytes) : (WlanOffloadIndication.unmarshal m b).Post fun x => x.t = 185 := by
  unfold WlanOffloadIndication.unmarshal
  post_t

theorem PagingServiceInfo.postT (m : Mode) (b : Bytes) : (PagingServiceInfo.unmarshal m b).Post fun x => x.t = 186 := by
  unfold PagingServiceInfo.unmarshal
  post_t

theorem IntegerNumber.postT (m : Mode) (b : Bytes) : (IntegerNumber.unmarshal m b).Post fun x => x.t = 187 := by
  unfold IntegerNumber.unmarshal
  post_t

theorem MilliSecondTimeStamp.postT (m : Mode) (b : Bytes) : (MilliSecondTimeStamp.unmarshal m b).Post fun x => x.t = 188 := by
  unfold MilliSecondTimeStamp.unmarshal
  post_t

theorem MonitoringEventInformation.postT (m : Mode) (b : Bytes) : (MonitoringEventInformation.unmarshal m b).Post fun x => x.t = 189 := by
  unfold MonitoringEventInformation.unmarshal
  post_t

theorem EcgiList.postT (m : Mode) (b : Bytes) : (EcgiList.unmarshal m b).Post fun x => x.t = 190 := by
  unfold EcgiList.unmarshal
  post_t

theorem RemoteUserId.postT (m : Mode) (b : Bytes) : (RemoteUserId.unmarshal m b).Post fun x => x.t = 192 := by
  unfold RemoteUserId.unmarshal
  post_t

theorem RemoteUeIpInformation.postT (m : Mode) (b : Bytes) : (RemoteUeIpInformation.unmarshal m b).Post fun x => x.t = 193 := by
  unfold RemoteUeIpInformation.unmarshal
  post_t

theorem CIoTOptimizationSupportIndication.postT (m : Mode) (b : Bytes) : (CIoTOptimizationSupportIndication.unmarshal m b).Post fun x => x.t = 194 := by
  unfold CIoTOptimizationSupportIndication.unmarshal
  post_t

theorem HeaderCompressionConfiguration.postT (m : Mode) (b : Bytes) : (HeaderCompressionConfiguration.unmarshal m b).Post fun x => x.t = 196 := by
  unfold HeaderCompressionConfiguration.unmarshal
  post_t

theorem Epco.postT (m : Mode) (b : Bytes) : (Epco.unmarshal m b).Post fun x => x.t = 197 := by
  unfold Epco.unmarshal
  post_t

theorem ServingPlmnRateControl.postT (m : Mode) (b : Bytes) : (ServingPlmnRateControl.unmarshal m b).Post fun x => x.t = 198 := by
  unfold ServingPlmnRateControl.unmarshal
  post_t

theorem Counter.postT (m : Mode) (b : Bytes) : (Counter.unmarshal m b).Post fun x => x.t = 199 := by
  unfold Counter.unmarshal
  post_t

theorem MappedUeUsageType.postT (m : Mode) (b : Bytes) : (MappedUeUsageType.unmarshal m b).Post fun x => x.t = 200 := by
  unfold MappedUeUsageType.unmarshal
  post_t

theorem SecondaryRatUsageDataReport.postT (m : Mode) (b : Bytes) : (SecondaryRatUsageDataReport.unmarshal m b).Post fun x => x.t = 201 := by
  unfold SecondaryRatUsageDataReport.unmarshal
  post_t

theorem UpFunctionSelectionIndicationFlags.postT (m : Mode) (b : Bytes) : (UpFunctionSelectionIndicationFlags.unmarshal m b).Post fun x => x.t = 202 := by
  unfold UpFunctionSelectionIndicationFlags.unmarshal
  post_t

theorem MaxPacketLossRate.postT (m : Mode) (b : Bytes) : (MaxPacketLossRate.unmarshal m b).Post fun x => x.t = 203 := by
  unfold MaxPacketLossRate.unmarshal
  post_t

theorem ApnRateControlStatus.postT (m : Mode) (b : Bytes) : (ApnRateControlStatus.unmarshal m b).Post fun x => x.t = 204 := by
  unfold ApnRateControlStatus.unmarshal
  post_t

theorem ExtendedTraceInformation.postT (m : Mode) (b : Bytes) : (ExtendedTraceInformation.unmarshal m b).Post fun x => x.t = 205 := by
  unfold ExtendedTraceInformation.unmarshal
  post_t

theorem MonitoringEventExtensionInfo.postT (m : Mode) (b : Bytes) : (MonitoringEventExtensionInfo.unmarshal m b).Post fun x => x.t = 206 := by
  unfold MonitoringEventExtensionInfo.unmarshal
  post_t

theorem AdditionalRrmPolicyIndex.postT (m : Mode) (b : Bytes) : (AdditionalRrmPolicyIndex.unmarshal m b).Post fun x => x.t = 207 := by
  unfold AdditionalRrmPolicyIndex.unmarshal
  post_t

theorem ServicesAuthorized.postT (m : Mode) (b : Bytes) : (ServicesAuthorized.unmarshal m b).Post fun x => x.t = 210 := by
  unfold ServicesAuthorized.unmarshal
  post_t

theorem BitRate.postT (m : Mode) (b : Bytes) : (BitRate.unmarshal m b).Post fun x => x.t = 211 := by
  unfold BitRate.unmarshal
  post_t

theorem PC5QosFlow.postT (m : Mode) (b : Bytes) : (PC5QosFlow.unmarshal m b).Post fun x => x.t = 212 := by
  unfold PC5QosFlow.unmarshal
  post_t

theorem SgiPtpTunnelAddress.postT (m : Mode) (b : Bytes) : (SgiPtpTunnelAddress.unmarshal m b).Post fun x => x.t = 213 := by
  unfold SgiPtpTunnelAddress.unmarshal
  post_t

theorem PgwFqdn.postT (m : Mode) (b : Bytes) : (PgwFqdn.unmarshal m b).Post fun x => x.t = 215 := by
  unfold PgwFqdn.unmarshal
  post_t

theorem GroupId.postT (m : Mode) (b : Bytes) : (GroupId.unmarshal m b).Post fun x => x.t = 216 := by
  unfold GroupId.unmarshal
  post_t

theorem PSCellId.postT (m : Mode) (b : Bytes) : (PSCellId.unmarshal m b).Post fun x => x.t = 217 := by
  unfold PSCellId.unmarshal
  post_t

theorem UpSecurityPolicy.postT (m : Mode) (b : Bytes) : (UpSecurityPolicy.unmarshal m b).Post fun x => x.t = 218 := by
  unfold UpSecurityPolicy.unmarshal
  post_t

theorem AlternativeImsi.postT (m : Mode) (b : Bytes) : (AlternativeImsi.unmarshal m b).Post fun x => x.t = 219 := by
  unfold AlternativeImsi.unmarshal
  post_t

theorem SpecialIEWithTypeExt.postT (m : Mode) (b : Bytes) : (SpecialIEWithTypeExt.unmarshal m b).Post fun x => x.t = 254 := by
  unfold SpecialIEWithTypeExt.unmarshal
  post_t

theorem PrivateExtension.postT (m : Mode) (b : Bytes) : (PrivateExtension.unmarshal m b).Post fun x => x.t = 255 := by
  unfold PrivateExtension.unmarshal
  post_t

theorem Unknown.postT (m : Mode) (b : Bytes) : (Unknown.unmarshal m b).Post fun x => x.t = 0 := by
  unfold Unknown.unmarshal
  post_t

theorem MmContext.postT (m : Mode) (b : Bytes) : (MmContext.unmarshal m b).Post fun x => x.t = b.getD 0 0 := by
  unfold MmContext.unmarshal
  rw [Post_bind, Post_rd]
  intro _
  generalize b.getD 0 0 = u
  repeat' first
    | exact Post_err'
    | (rw [Post_ite]; refine ⟨fun h => Post_bind_any fun _ => h.symm, fun _ => ?_⟩)

theorem groupUnm_postT {α : Type} {dec : Bytes → R Err (List IE)} {mk : UInt8 → UInt16 → UInt8 → List IE → α} {m : Mode}
    {b : Bytes} {P : α → Prop} (h : ∀ n i l, P (mk (b.getD 0 0) n i l)) : (groupUnm dec mk m b).Post P := by
  unfold groupUnm
  refine Post_ite_any ?_ (Post_bind_any fun _ => Post_err')
  rw [Post_bind, Post_rd]
  intro _
  refine Post_bind_any fun n => Post_bind_any fun i => Post_bind_any fun ok => Post_ite_any ?_ Post_err'
  exact Post_bind_any fun _ => Post_bind_any fun l => h n i l

/-- The type that the decoder of a kind puts into its result: a constant, or the type octet of the buffer (grouped IEs and
MM contexts). -/
def Kind.typed (t : UInt8) : Kind → UInt8
  | .Imsi => 1
  | .Cause => 2
  | .Recovery => 3
  | .StnSr => 51
  | .SrvccCause => 56
  | .Apn => 71
  | .ApnAmbr => 72
  | .Ebi => 73
  | .IpAddress => 74
  | .Mei => 75
  | .Msisdn => 76
  | .Indication => 77
  | .Pco => 78
  | .PdnAddressAllocation => 79
  | .BearerQos => 80
  | .FlowQos => 81
  | .RatType => 82
  | .ServingNetwork => 83
  | .BearerTft => 84
  | .TrafficAggregateDescription => 85
  | .Uli => 86
  | .Fteid => 87
  | .Tmsi => 88
  | .GlobalCnId => 89
  | .S103pdf => 90
  | .S1udf => 91
  | .DelayValue => 92
  | .BearerContext => t
  | .ChargingId => 94
  | .ChargingCharacteristics => 95
  | .TraceInformation => 96
  | .BearerFlags => 97
  | .PdnType => 99
  | .Pti => 100
  | .MmContext => t
  | .PdnConnections => t
  | .PduNumbers => 110
  | .Ptmsi => 111
  | .PtmsiSignature => 112
  | .HopCounter => 113
  | .UeTimeZone => 114
  | .TraceReference => 83
  | .CompleteRequestMessage => 116
  | .Guti => 117
  | .Fcontainer => 118
  | .Fcause => 119
  | .PlmnId => 120
  | .TargetIdentification => 121
  | .PacketFlowId => 123
  | .RabContext => 124
  | .SrcRncPdcpCtxInfo => 125
  | .PortNumber => 126
  | .ApnRestriction => 127
  | .SelectionMode => 128
  | .SourceIdentification => 129
  | .ChangeReportingAction => 131
  | .Fqcsid => 132
  | .ChannelNeeded => 133
  | .EmlppPriority => 134
  | .NodeType => 135
  | .Fqdn => 136
  | .TransactionIdentifier => 137
  | .MbmsSa => 139
  | .MbmsSd => 138
  | .MbmsSessionId => 140
  | .MbmsFlowId => 141
  | .MbmsIpMulticastDistribution => 142
  | .MbmsDistributionAck => 143
  | .RfspIndex => 144
  | .Uci => 145
  | .CSGInformationReportingAction => 146
  | .CsgId => 147
  | .CsgMembershipIndication => 148
  | .ServiceIndicator => 149
  | .DetachType => 150
  | .Ldn => 151
  | .NodeFeatures => 152
  | .MbmsTimeToDataTransfer => 153
  | .Throttling => 154
  | .Arp => 155
  | .EpcTimer => 156
  | .Spi => 157
  | .Tmgi => 158
  | .AdditionalMmContextForSrvcc => 159
  | .AdditionalFlagsSrvcc => 160
  | .MdtConfiguration => 162
  | .Apco => 163
  | .AbsoluteTimeMbmsDataTransfer => 164
  | .HenbInfoReporting => 165
  | .Ip4Cp => 166
  | .ChangeToReportFlags => 167
  | .ActionIndication => 168
  | .TwanId => 169
  | .UliTimestamp => 170
  | .MbmsFlags => 171
  | .RanNasCause => 172
  | .CnOperatorSelectionEntity => 173
  | .Twmi => 174
  | .NodeNumber => 175
  | .NodeIdentifier => 176
  | .PresenceReportingAreaAction => 177
  | .PresenceReportingAreaInformation => 178
  | .TwanIdTimeStamp => 179
  | .OverloadControlInfo => t
  | .LoadControlInfo => t
  | .Metric => 182
  | .Sqn => 183
  | .ApnRelativeCapacity => 184
  | .WlanOffloadIndication => 185
  | .PagingServiceInfo => 186
  | .IntegerNumber => 187
  | .MilliSecondTimeStamp => 188
  | .MonitoringEventInformation => 189
  | .EcgiList => 190
  | .RemoteUeContext => t
  | .RemoteUserId => 192
  | .RemoteUeIpInformation => 193
  | .CIoTOptimizationSupportIndication => 194
  | .ScefPdnConnections => t
  | .HeaderCompressionConfiguration => 196
  | .Epco => 197
  | .ServingPlmnRateControl => 198
  | .Counter => 199
  | .MappedUeUsageType => 200
  | .SecondaryRatUsageDataReport => 201
  | .UpFunctionSelectionIndicationFlags => 202
  | .MaxPacketLossRate => 203
  | .ApnRateControlStatus => 204
  | .ExtendedTraceInformation => 205
  | .MonitoringEventExtensionInfo => 206
  | .AdditionalRrmPolicyIndex => 207
  | .V2xInformation => t
  | .PC5QosParameters => t
  | .ServicesAuthorized => 210
  | .BitRate => 211
  | .PC5QosFlow => 212
  | .SgiPtpTunnelAddress => 213
  | .PgwChangeInfo => t
  | .PgwFqdn => 215
  | .GroupId => 216
  | .PSCellId => 217
  | .UpSecurityPolicy => 218
  | .AlternativeImsi => 219
  | .SpecialIEWithTypeExt => 254
  | .PrivateExtension => 255
  | .Unknown => 0

theorem unmKind_typed (dec : Bytes → R Err (List IE)) (m : Mode) (b : Bytes) (k : Kind) :
    (unmKind dec m b k).Post fun x => x.t = k.typed (b.getD 0 0) := by
  cases k with
  | Imsi => simp only [unmKind]; rw [Post_bind]; exact Post.mono (Imsi.postT m b) fun _ h => h
  | Cause => simp only [unmKind]; rw [Post_bind]; exact Post.mono (Cause.postT m b) fun _ h => h
  | Recovery => simp only [unmKind]; rw [Post_bind]; exact Post.mono (Recovery.postT m b) fun _ h => h
  | StnSr => simp only [unmKind]; rw [Post_bind]; exact Post.mono (StnSr.postT m b) fun _ h => h
  | SrvccCause => simp only [unmKind]; rw [Post_bind]; exact Post.mono (SrvccCause.postT m b) fun _ h => h
  | Apn => simp only [unmKind]; rw [Post_bind]; exact Post.mono (Apn.postT m b) fun _ h => h
  | ApnAmbr => simp only [unmKind]; rw [Post_bind]; exact Post.mono (Ambr.postT m b) fun _ h => h
  | Ebi => simp only [unmKind]; rw [Post_bind]; exact Post.mono (Ebi.postT m b) fun _ h => h
  | IpAddress => simp only [unmKind]; rw [Post_bind]; exact Post.mono (IpAddress.postT m b) fun _ h => h
  | Mei => simp only [unmKind]; rw [Post_bind]; exact Post.mono (Mei.postT m b) fun _ h => h
  | Msisdn => simp only [unmKind]; rw [Post_bind]; exact Post.mono (Msisdn.postT m b) fun _ h => h
  | Indication => simp only [unmKind]; rw [Post_bind]; exact Post.mono (Indication.postT m b) fun _ h => h
  | Pco => simp only [unmKind]; rw [Post_bind]; exact Post.mono (Pco.postT m b) fun _ h => h
  | PdnAddressAllocation => simp only [unmKind]; rw [Post_bind]; exact Post.mono (PdnAddressAllocation.postT m b) fun _ h => h
  | BearerQos => simp only [unmKind]; rw [Post_bind]; exact Post.mono (BearerQos.postT m b) fun _ h => h
  | FlowQos => simp only [unmKind]; rw [Post_bind]; exact Post.mono (FlowQos.postT m b) fun _ h => h
  | RatType => simp only [unmKind]; rw [Post_bind]; exact Post.mono (RatType.postT m b) fun _ h => h
  | ServingNetwork => simp only [unmKind]; rw [Post_bind]; exact Post.mono (ServingNetwork.postT m b) fun _ h => h
  | BearerTft => simp only [unmKind]; rw [Post_bind]; exact Post.mono (BearerTft.postT m b) fun _ h => h
  | TrafficAggregateDescription => simp only [unmKind]; rw [Post_bind]; exact Post.mono (TrafficAggregateDescription.postT m b) fun _ h => h
  | Uli => simp only [unmKind]; rw [Post_bind]; exact Post.mono (Uli.postT m b) fun _ h => h
  | Fteid => simp only [unmKind]; rw [Post_bind]; exact Post.mono (Fteid.postT m b) fun _ h => h
  | Tmsi => simp only [unmKind]; rw [Post_bind]; exact Post.mono (Tmsi.postT m b) fun _ h => h
  | GlobalCnId => simp only [unmKind]; rw [Post_bind]; exact Post.mono (GlobalCnId.postT m b) fun _ h => h
  | S103pdf => simp only [unmKind]; rw [Post_bind]; exact Post.mono (S103pdf.postT m b) fun _ h => h
  | S1udf => simp only [unmKind]; rw [Post_bind]; exact Post.mono (S1udf.postT m b) fun _ h => h
  | DelayValue => simp only [unmKind]; rw [Post_bind]; exact Post.mono (DelayValue.postT m b) fun _ h => h
  | BearerContext =>
    simp only [unmKind]
    rw [Post_bind]
    exact groupUnm_postT fun n i l => BearerContext.ofGroup_t (b.getD 0 0) n i l
  | ChargingId => simp only [unmKind]; rw [Post_bind]; exact Post.mono (ChargingId.postT m b) fun _ h => h
  | ChargingCharacteristics => simp only [unmKind]; rw [Post_bind]; exact Post.mono (ChargingCharacteristics.postT m b) fun _ h => h
  | TraceInformation => simp only [unmKind]; rw [Post_bind]; exact Post.mono (TraceInformation.postT m b) fun _ h => h
  | BearerFlags => simp only [unmKind]; rw [Post_bind]; exact Post.mono (BearerFlags.postT m b) fun _ h => h
  | PdnType => simp only [unmKind]; rw [Post_bind]; exact Post.mono (PdnType.postT m b) fun _ h => h
  | Pti => simp only [unmKind]; rw [Post_bind]; exact Post.mono (Pti.postT m b) fun _ h => h
  | MmContext => simp only [unmKind]; rw [Post_bind]; exact Post.mono (MmContext.postT m b) fun _ h => h
  | PdnConnections =>
    simp only [unmKind]
    rw [Post_bind]
    exact groupUnm_postT fun n i l => PdnConnections.ofGroup_t (b.getD 0 0) n i l
  | PduNumbers => simp only [unmKind]; rw [Post_bind]; exact Post.mono (PduNumbers.postT m b) fun _ h => h
  | Ptmsi => simp only [unmKind]; rw [Post_bind]; exact Post.mono (Ptmsi.postT m b) fun _ h => h
  | PtmsiSignature => simp only [unmKind]; rw [Post_bind]; exact Post.mono (PtmsiSignature.postT m b) fun _ h => h
  | HopCounter => simp only [unmKind]; rw [Post_bind]; exact Post.mono (HopCounter.postT m b) fun _ h => h
  | UeTimeZone => simp only [unmKind]; rw [Post_bind]; exact Post.mono (UeTimeZone.postT m b) fun _ h => h
  | TraceReference => simp only [unmKind]; rw [Post_bind]; exact Post.mono (TraceReference.postT m b) fun _ h => h
  | CompleteRequestMessage => simp only [unmKind]; rw [Post_bind]; exact Post.mono (CompleteRequestMessage.postT m b) fun _ h => h
  | Guti => simp only [unmKind]; rw [Post_bind]; exact Post.mono (Guti.postT m b) fun _ h => h
  | Fcontainer => simp only [unmKind]; rw [Post_bind]; exact Post.mono (Fcontainer.postT m b) fun _ h => h
  | Fcause => simp only [unmKind]; rw [Post_bind]; exact Post.mono (Fcause.postT m b) fun _ h => h
  | PlmnId => simp only [unmKind]; rw [Post_bind]; exact Post.mono (PlmnId.postT m b) fun _ h => h
  | TargetIdentification => simp only [unmKind]; rw [Post_bind]; exact Post.mono (TargetIdentification.postT m b) fun _ h => h
  | PacketFlowId => simp only [unmKind]; rw [Post_bind]; exact Post.mono (PacketFlowId.postT m b) fun _ h => h
  | RabContext => simp only [unmKind]; rw [Post_bind]; exact Post.mono (RabContext.postT m b) fun _ h => h
  | SrcRncPdcpCtxInfo => simp only [unmKind]; rw [Post_bind]; exact Post.mono (SourceRncPdcpContextInfo.postT m b) fun _ h => h
  | PortNumber => simp only [unmKind]; rw [Post_bind]; exact Post.mono (PortNumber.postT m b) fun _ h => h
  | ApnRestriction => simp only [unmKind]; rw [Post_bind]; exact Post.mono (ApnRestriction.postT m b) fun _ h => h
  | SelectionMode => simp only [unmKind]; rw [Post_bind]; exact Post.mono (SelectionMode.postT m b) fun _ h => h
  | SourceIdentification => simp only [unmKind]; rw [Post_bind]; exact Post.mono (SourceIdentification.postT m b) fun _ h => h
  | ChangeReportingAction => simp only [unmKind]; rw [Post_bind]; exact Post.mono (ChangeReportingAction.postT m b) fun _ h => h
  | Fqcsid => simp only [unmKind]; rw [Post_bind]; exact Post.mono (Fqcsid.postT m b) fun _ h => h
  | ChannelNeeded => simp only [unmKind]; rw [Post_bind]; exact Post.mono (ChannelNeeded.postT m b) fun _ h => h
  | EmlppPriority => simp only [unmKind]; rw [Post_bind]; exact Post.mono (EmlppPriority.postT m b) fun _ h => h
  | NodeType => simp only [unmKind]; rw [Post_bind]; exact Post.mono (NodeType.postT m b) fun _ h => h
  | Fqdn => simp only [unmKind]; rw [Post_bind]; exact Post.mono (Fqdn.postT m b) fun _ h => h
  | TransactionIdentifier => simp only [unmKind]; rw [Post_bind]; exact Post.mono (TransactionIdentifier.postT m b) fun _ h => h
  | MbmsSa => simp only [unmKind]; rw [Post_bind]; exact Post.mono (MbmsServiceArea.postT m b) fun _ h => h
  | MbmsSd => simp only [unmKind]; rw [Post_bind]; exact Post.mono (MbmsSessionDuration.postT m b) fun _ h => h
  | MbmsSessionId => simp only [unmKind]; rw [Post_bind]; exact Post.mono (MbmsSessionId.postT m b) fun _ h => h
  | MbmsFlowId => simp only [unmKind]; rw [Post_bind]; exact Post.mono (MbmsFlowId.postT m b) fun _ h => h
  | MbmsIpMulticastDistribution => simp only [unmKind]; rw [Post_bind]; exact Post.mono (MbmsIpMulticastDistribution.postT m b) fun _ h => h
  | MbmsDistributionAck => simp only [unmKind]; rw [Post_bind]; exact Post.mono (MbmsDistributionAck.postT m b) fun _ h => h
  | RfspIndex => simp only [unmKind]; rw [Post_bind]; exact Post.mono (RfspIndex.postT m b) fun _ h => h
  | Uci => simp only [unmKind]; rw [Post_bind]; exact Post.mono (Uci.postT m b) fun _ h => h
  | CSGInformationReportingAction => simp only [unmKind]; rw [Post_bind]; exact Post.mono (CSGInformationReportingAction.postT m b) fun _ h => h
  | CsgId => simp only [unmKind]; rw [Post_bind]; exact Post.mono (CsgId.postT m b) fun _ h => h
  | CsgMembershipIndication => simp only [unmKind]; rw [Post_bind]; exact Post.mono (CsgMembershipIndication.postT m b) fun _ h => h
  | ServiceIndicator => simp only [unmKind]; rw [Post_bind]; exact Post.mono (ServiceIndicator.postT m b) fun _ h => h
  | DetachType => simp only [unmKind]; rw [Post_bind]; exact Post.mono (DetachType.postT m b) fun _ h => h
  | Ldn => simp only [unmKind]; rw [Post_bind]; exact Post.mono (Ldn.postT m b) fun _ h => h
  | NodeFeatures => simp only [unmKind]; rw [Post_bind]; exact Post.mono (NodeFeatures.postT m b) fun _ h => h
  | MbmsTimeToDataTransfer => simp only [unmKind]; rw [Post_bind]; exact Post.mono (MbmsTimeToDataTransfer.postT m b) fun _ h => h
  | Throttling => simp only [unmKind]; rw [Post_bind]; exact Post.mono (Throttling.postT m b) fun _ h => h
  | Arp => simp only [unmKind]; rw [Post_bind]; exact Post.mono (Arp.postT m b) fun _ h => h
  | EpcTimer => simp only [unmKind]; rw [Post_bind]; exact Post.mono (EpcTimer.postT m b) fun _ h => h
  | Spi => simp only [unmKind]; rw [Post_bind]; exact Post.mono (Spi.postT m b) fun _ h => h
  | Tmgi => simp only [unmKind]; rw [Post_bind]; exact Post.mono (Tmgi.postT m b) fun _ h => h
  | AdditionalMmContextForSrvcc => simp only [unmKind]; rw [Post_bind]; exact Post.mono (AdditionalMmContextForSrvcc.postT m b) fun _ h => h
  | AdditionalFlagsSrvcc => simp only [unmKind]; rw [Post_bind]; exact Post.mono (AdditionalFlagsSrvcc.postT m b) fun _ h => h
  | MdtConfiguration => simp only [unmKind]; rw [Post_bind]; exact Post.mono (MdtConfiguration.postT m b) fun _ h => h
  | Apco => simp only [unmKind]; rw [Post_bind]; exact Post.mono (Apco.postT m b) fun _ h => h
  | AbsoluteTimeMbmsDataTransfer => simp only [unmKind]; rw [Post_bind]; exact Post.mono (AbsoluteTimeMbmsDataTransfer.postT m b) fun _ h => h
  | HenbInfoReporting => simp only [unmKind]; rw [Post_bind]; exact Post.mono (HenbInfoReporting.postT m b) fun _ h => h
  | Ip4Cp => simp only [unmKind]; rw [Post_bind]; exact Post.mono (Ip4Cp.postT m b) fun _ h => h
  | ChangeToReportFlags => simp only [unmKind]; rw [Post_bind]; exact Post.mono (ChangeToReportFlags.postT m b) fun _ h => h
  | ActionIndication => simp only [unmKind]; rw [Post_bind]; exact Post.mono (ActionIndication.postT m b) fun _ h => h
  | TwanId => simp only [unmKind]; rw [Post_bind]; exact Post.mono (TwanId.postT m b) fun _ h => h
  | UliTimestamp => simp only [unmKind]; rw [Post_bind]; exact Post.mono (UliTimestamp.postT m b) fun _ h => h
  | MbmsFlags => simp only [unmKind]; rw [Post_bind]; exact Post.mono (MbmsFlags.postT m b) fun _ h => h
  | RanNasCause => simp only [unmKind]; rw [Post_bind]; exact Post.mono (RanNasCause.postT m b) fun _ h => h
  | CnOperatorSelectionEntity => simp only [unmKind]; rw [Post_bind]; exact Post.mono (CnOperatorSelectionEntity.postT m b) fun _ h => h
  | Twmi => simp only [unmKind]; rw [Post_bind]; exact Post.mono (Twmi.postT m b) fun _ h => h
  | NodeNumber => simp only [unmKind]; rw [Post_bind]; exact Post.mono (NodeNumber.postT m b) fun _ h => h
  | NodeIdentifier => simp only [unmKind]; rw [Post_bind]; exact Post.mono (NodeIdentifier.postT m b) fun _ h => h
  | PresenceReportingAreaAction => simp only [unmKind]; rw [Post_bind]; exact Post.mono (PresenceReportingAreaAction.postT m b) fun _ h => h
  | PresenceReportingAreaInformation => simp only [unmKind]; rw [Post_bind]; exact Post.mono (PresenceReportingAreaInformation.postT m b) fun _ h => h
  | TwanIdTimeStamp => simp only [unmKind]; rw [Post_bind]; exact Post.mono (TwanIdTimeStamp.postT m b) fun _ h => h
  | OverloadControlInfo =>
    simp only [unmKind]
    rw [Post_bind]
    refine groupUnm_postT fun n i l => ?_
    have h := OverloadControlInfo.ofGroup_t (b.getD 0 0) n i l
    generalize OverloadControlInfo.ofGroup (b.getD 0 0) n i l = x at h
    unfold listCheck
    split
    · split
      · trivial
      · exact h
    · exact h
  | LoadControlInfo =>
    simp only [unmKind]
    rw [Post_bind]
    refine groupUnm_postT fun n i l => ?_
    have h := LoadControl.ofGroup_t (b.getD 0 0) n i l
    generalize LoadControl.ofGroup (b.getD 0 0) n i l = x at h
    unfold listCheck
    split
    · split
      · trivial
      · exact h
    · exact h
  | Metric => simp only [unmKind]; rw [Post_bind]; exact Post.mono (Metric.postT m b) fun _ h => h
  | Sqn => simp only [unmKind]; rw [Post_bind]; exact Post.mono (Sqn.postT m b) fun _ h => h
  | ApnRelativeCapacity => simp only [unmKind]; rw [Post_bind]; exact Post.mono (ApnRelativeCapacity.postT m b) fun _ h => h
  | WlanOffloadIndication => simp only [unmKind]; rw [Post_bind]; exact Post.mono (WlanOffloadIndication.postT m b) fun _ h => h
  | PagingServiceInfo => simp only [unmKind]; rw [Post_bind]; exact Post.mono (PagingServiceInfo.postT m b) fun _ h => h
  | IntegerNumber => simp only [unmKind]; rw [Post_bind]; exact Post.mono (IntegerNumber.postT m b) fun _ h => h
  | MilliSecondTimeStamp => simp only [unmKind]; rw [Post_bind]; exact Post.mono (MilliSecondTimeStamp.postT m b) fun _ h => h
  | MonitoringEventInformation => simp only [unmKind]; rw [Post_bind]; exact Post.mono (MonitoringEventInformation.postT m b) fun _ h => h
  | EcgiList => simp only [unmKind]; rw [Post_bind]; exact Post.mono (EcgiList.postT m b) fun _ h => h
  | RemoteUeContext =>
    simp only [unmKind]
    rw [Post_bind]
    exact groupUnm_postT fun n i l => RemoteUeContext.ofGroup_t (b.getD 0 0) n i l
  | RemoteUserId => simp only [unmKind]; rw [Post_bind]; exact Post.mono (RemoteUserId.postT m b) fun _ h => h
  | RemoteUeIpInformation => simp only [unmKind]; rw [Post_bind]; exact Post.mono (RemoteUeIpInformation.postT m b) fun _ h => h
  | CIoTOptimizationSupportIndication => simp only [unmKind]; rw [Post_bind]; exact Post.mono (CIoTOptimizationSupportIndication.postT m b) fun _ h => h
  | ScefPdnConnections =>
    simp only [unmKind]
    rw [Post_bind]
    exact groupUnm_postT fun n i l => ScefPdnConnections.ofGroup_t (b.getD 0 0) n i l
  | HeaderCompressionConfiguration => simp only [unmKind]; rw [Post_bind]; exact Post.mono (HeaderCompressionConfiguration.postT m b) fun _ h => h
  | Epco => simp only [unmKind]; rw [Post_bind]; exact Post.mono (Epco.postT m b) fun _ h => h
  | ServingPlmnRateControl => simp only [unmKind]; rw [Post_bind]; exact Post.mono (ServingPlmnRateControl.postT m b) fun _ h => h
  | Counter => simp only [unmKind]; rw [Post_bind]; exact Post.mono (Counter.postT m b) fun _ h => h
  | MappedUeUsageType => simp only [unmKind]; rw [Post_bind]; exact Post.mono (MappedUeUsageType.postT m b) fun _ h => h
  | SecondaryRatUsageDataReport => simp only [unmKind]; rw [Post_bind]; exact Post.mono (SecondaryRatUsageDataReport.postT m b) fun _ h => h
  | UpFunctionSelectionIndicationFlags => simp only [unmKind]; rw [Post_bind]; exact Post.mono (UpFunctionSelectionIndicationFlags.postT m b) fun _ h => h
  | MaxPacketLossRate => simp only [unmKind]; rw [Post_bind]; exact Post.mono (MaxPacketLossRate.postT m b) fun _ h => h
  | ApnRateControlStatus => simp only [unmKind]; rw [Post_bind]; exact Post.mono (ApnRateControlStatus.postT m b) fun _ h => h
  | ExtendedTraceInformation => simp only [unmKind]; rw [Post_bind]; exact Post.mono (ExtendedTraceInformation.postT m b) fun _ h => h
  | MonitoringEventExtensionInfo => simp only [unmKind]; rw [Post_bind]; exact Post.mono (MonitoringEventExtensionInfo.postT m b) fun _ h => h
  | AdditionalRrmPolicyIndex => simp only [unmKind]; rw [Post_bind]; exact Post.mono (AdditionalRrmPolicyIndex.postT m b) fun _ h => h
  | V2xInformation =>
    simp only [unmKind]
    rw [Post_bind]
    exact groupUnm_postT fun n i l => V2xInformation.ofGroup_t (b.getD 0 0) n i l
  | PC5QosParameters =>
    simp only [unmKind]
    rw [Post_bind]
    exact groupUnm_postT fun n i l => Post_ite_any Post_err' (PC5QosParameters.ofGroup_t (b.getD 0 0) n i l)
  | ServicesAuthorized => simp only [unmKind]; rw [Post_bind]; exact Post.mono (ServicesAuthorized.postT m b) fun _ h => h
  | BitRate => simp only [unmKind]; rw [Post_bind]; exact Post.mono (BitRate.postT m b) fun _ h => h
  | PC5QosFlow => simp only [unmKind]; rw [Post_bind]; exact Post.mono (PC5QosFlow.postT m b) fun _ h => h
  | SgiPtpTunnelAddress => simp only [unmKind]; rw [Post_bind]; exact Post.mono (SgiPtpTunnelAddress.postT m b) fun _ h => h
  | PgwChangeInfo =>
    simp only [unmKind]
    rw [Post_bind]
    exact groupUnm_postT fun n i l => PgwChangeInfo.ofGroup_t (b.getD 0 0) n i l
  | PgwFqdn => simp only [unmKind]; rw [Post_bind]; exact Post.mono (PgwFqdn.postT m b) fun _ h => h
  | GroupId => simp only [unmKind]; rw [Post_bind]; exact Post.mono (GroupId.postT m b) fun _ h => h
  | PSCellId => simp only [unmKind]; rw [Post_bind]; exact Post.mono (PSCellId.postT m b) fun _ h => h
  | UpSecurityPolicy => simp only [unmKind]; rw [Post_bind]; exact Post.mono (UpSecurityPolicy.postT m b) fun _ h => h
  | AlternativeImsi => simp only [unmKind]; rw [Post_bind]; exact Post.mono (AlternativeImsi.postT m b) fun _ h => h
  | SpecialIEWithTypeExt => simp only [unmKind]; rw [Post_bind]; exact Post.mono (SpecialIEWithTypeExt.postT m b) fun _ h => h
  | PrivateExtension => simp only [unmKind]; rw [Post_bind]; exact Post.mono (PrivateExtension.postT m b) fun _ h => h
  | Unknown => simp only [unmKind]; rw [Post_bind]; exact Post.mono (Unknown.postT m b) fun _ h => h

end Gtp.V2
