import Verif.V2.Decoder

/-!
# No IE is decoded from fewer than four octets

Every `unmarshal` of src/gtpv2/messages/ies compares the length of the buffer with a constant first. One line per kind.
-/

namespace Gtp.V2

/-- The call does not return `Ok`. -/
def Fails {ε α : Type} (x : R ε α) : Prop := ∀ a, x ≠ .ok a

theorem Fails.err {ε α : Type} {e : ε} : Fails (.err e : R ε α) := fun _ h => nomatch h

theorem Fails.bind {ε α β : Type} {x : R ε α} {f : α → R ε β} (h : Fails x) : Fails (x >>= f) := by
  intro b hb
  cases x with
  | ok a => exact h a rfl
  | _ => cases hb

theorem Fails.bind_right {ε α β : Type} {x : R ε α} {f : α → R ε β} (h : ∀ a, Fails (f a)) : Fails (x >>= f) := by
  intro b hb
  cases x with
  | ok a => exact h a b hb
  | _ => cases hb

local macro "short_arm" : tactic => `(tactic| (
  rw [if_neg (by omega)]
  repeat (first | exact Fails.err | (apply Fails.bind_right; intro _))))

theorem Imsi.short {m : Mode} {b : Bytes} (h : b.length < 4) : Fails (Imsi.unmarshal m b) := by unfold Imsi.unmarshal; short_arm
theorem Cause.short {m : Mode} {b : Bytes} (h : b.length < 4) : Fails (Cause.unmarshal m b) := by unfold Cause.unmarshal; short_arm
theorem Recovery.short {m : Mode} {b : Bytes} (h : b.length < 4) : Fails (Recovery.unmarshal m b) := by unfold Recovery.unmarshal; short_arm
theorem StnSr.short {m : Mode} {b : Bytes} (h : b.length < 4) : Fails (StnSr.unmarshal m b) := by unfold StnSr.unmarshal; short_arm
theorem SrvccCause.short {m : Mode} {b : Bytes} (h : b.length < 4) : Fails (SrvccCause.unmarshal m b) := by unfold SrvccCause.unmarshal; short_arm
theorem Apn.short {m : Mode} {b : Bytes} (h : b.length < 4) : Fails (Apn.unmarshal m b) := by unfold Apn.unmarshal; short_arm
theorem Ambr.short {m : Mode} {b : Bytes} (h : b.length < 4) : Fails (Ambr.unmarshal m b) := by unfold Ambr.unmarshal; short_arm
theorem Ebi.short {m : Mode} {b : Bytes} (h : b.length < 4) : Fails (Ebi.unmarshal m b) := by unfold Ebi.unmarshal; short_arm
theorem IpAddress.short {m : Mode} {b : Bytes} (h : b.length < 4) : Fails (IpAddress.unmarshal m b) := by unfold IpAddress.unmarshal; short_arm
theorem Mei.short {m : Mode} {b : Bytes} (h : b.length < 4) : Fails (Mei.unmarshal m b) := by unfold Mei.unmarshal; short_arm
theorem Msisdn.short {m : Mode} {b : Bytes} (h : b.length < 4) : Fails (Msisdn.unmarshal m b) := by unfold Msisdn.unmarshal; short_arm
theorem Indication.short {m : Mode} {b : Bytes} (h : b.length < 4) : Fails (Indication.unmarshal m b) := by unfold Indication.unmarshal; short_arm
theorem Pco.short {m : Mode} {b : Bytes} (h : b.length < 4) : Fails (Pco.unmarshal m b) := by unfold Pco.unmarshal; short_arm
theorem PdnAddressAllocation.short {m : Mode} {b : Bytes} (h : b.length < 4) : Fails (PdnAddressAllocation.unmarshal m b) := by unfold PdnAddressAllocation.unmarshal; short_arm
theorem BearerQos.short {m : Mode} {b : Bytes} (h : b.length < 4) : Fails (BearerQos.unmarshal m b) := by unfold BearerQos.unmarshal; short_arm
theorem FlowQos.short {m : Mode} {b : Bytes} (h : b.length < 4) : Fails (FlowQos.unmarshal m b) := by unfold FlowQos.unmarshal; short_arm
theorem RatType.short {m : Mode} {b : Bytes} (h : b.length < 4) : Fails (RatType.unmarshal m b) := by unfold RatType.unmarshal; short_arm
theorem ServingNetwork.short {m : Mode} {b : Bytes} (h : b.length < 4) : Fails (ServingNetwork.unmarshal m b) := by unfold ServingNetwork.unmarshal; short_arm
theorem BearerTft.short {m : Mode} {b : Bytes} (h : b.length < 4) : Fails (BearerTft.unmarshal m b) := by unfold BearerTft.unmarshal; short_arm
theorem TrafficAggregateDescription.short {m : Mode} {b : Bytes} (h : b.length < 4) : Fails (TrafficAggregateDescription.unmarshal m b) := by unfold TrafficAggregateDescription.unmarshal; short_arm
theorem Uli.short {m : Mode} {b : Bytes} (h : b.length < 4) : Fails (Uli.unmarshal m b) := by unfold Uli.unmarshal; short_arm
theorem Fteid.short {m : Mode} {b : Bytes} (h : b.length < 4) : Fails (Fteid.unmarshal m b) := by unfold Fteid.unmarshal; short_arm
theorem Tmsi.short {m : Mode} {b : Bytes} (h : b.length < 4) : Fails (Tmsi.unmarshal m b) := by unfold Tmsi.unmarshal; short_arm
theorem GlobalCnId.short {m : Mode} {b : Bytes} (h : b.length < 4) : Fails (GlobalCnId.unmarshal m b) := by unfold GlobalCnId.unmarshal; short_arm
theorem S103pdf.short {m : Mode} {b : Bytes} (h : b.length < 4) : Fails (S103pdf.unmarshal m b) := by unfold S103pdf.unmarshal; short_arm
theorem S1udf.short {m : Mode} {b : Bytes} (h : b.length < 4) : Fails (S1udf.unmarshal m b) := by unfold S1udf.unmarshal; short_arm
theorem DelayValue.short {m : Mode} {b : Bytes} (h : b.length < 4) : Fails (DelayValue.unmarshal m b) := by unfold DelayValue.unmarshal; short_arm
theorem ChargingId.short {m : Mode} {b : Bytes} (h : b.length < 4) : Fails (ChargingId.unmarshal m b) := by unfold ChargingId.unmarshal; short_arm
theorem ChargingCharacteristics.short {m : Mode} {b : Bytes} (h : b.length < 4) : Fails (ChargingCharacteristics.unmarshal m b) := by unfold ChargingCharacteristics.unmarshal; short_arm
theorem TraceInformation.short {m : Mode} {b : Bytes} (h : b.length < 4) : Fails (TraceInformation.unmarshal m b) := by unfold TraceInformation.unmarshal; short_arm
theorem BearerFlags.short {m : Mode} {b : Bytes} (h : b.length < 4) : Fails (BearerFlags.unmarshal m b) := by unfold BearerFlags.unmarshal; short_arm
theorem PdnType.short {m : Mode} {b : Bytes} (h : b.length < 4) : Fails (PdnType.unmarshal m b) := by unfold PdnType.unmarshal; short_arm
theorem Pti.short {m : Mode} {b : Bytes} (h : b.length < 4) : Fails (Pti.unmarshal m b) := by unfold Pti.unmarshal; short_arm
theorem PduNumbers.short {m : Mode} {b : Bytes} (h : b.length < 4) : Fails (PduNumbers.unmarshal m b) := by unfold PduNumbers.unmarshal; short_arm
theorem Ptmsi.short {m : Mode} {b : Bytes} (h : b.length < 4) : Fails (Ptmsi.unmarshal m b) := by unfold Ptmsi.unmarshal; short_arm
theorem PtmsiSignature.short {m : Mode} {b : Bytes} (h : b.length < 4) : Fails (PtmsiSignature.unmarshal m b) := by unfold PtmsiSignature.unmarshal; short_arm
theorem HopCounter.short {m : Mode} {b : Bytes} (h : b.length < 4) : Fails (HopCounter.unmarshal m b) := by unfold HopCounter.unmarshal; short_arm
theorem UeTimeZone.short {m : Mode} {b : Bytes} (h : b.length < 4) : Fails (UeTimeZone.unmarshal m b) := by unfold UeTimeZone.unmarshal; short_arm
theorem TraceReference.short {m : Mode} {b : Bytes} (h : b.length < 4) : Fails (TraceReference.unmarshal m b) := by unfold TraceReference.unmarshal; short_arm
theorem CompleteRequestMessage.short {m : Mode} {b : Bytes} (h : b.length < 4) : Fails (CompleteRequestMessage.unmarshal m b) := by unfold CompleteRequestMessage.unmarshal; short_arm
theorem Guti.short {m : Mode} {b : Bytes} (h : b.length < 4) : Fails (Guti.unmarshal m b) := by unfold Guti.unmarshal; short_arm
theorem Fcontainer.short {m : Mode} {b : Bytes} (h : b.length < 4) : Fails (Fcontainer.unmarshal m b) := by unfold Fcontainer.unmarshal; short_arm
theorem Fcause.short {m : Mode} {b : Bytes} (h : b.length < 4) : Fails (Fcause.unmarshal m b) := by unfold Fcause.unmarshal; short_arm
theorem PlmnId.short {m : Mode} {b : Bytes} (h : b.length < 4) : Fails (PlmnId.unmarshal m b) := by unfold PlmnId.unmarshal; short_arm
theorem TargetIdentification.short {m : Mode} {b : Bytes} (h : b.length < 4) : Fails (TargetIdentification.unmarshal m b) := by unfold TargetIdentification.unmarshal; short_arm
theorem PacketFlowId.short {m : Mode} {b : Bytes} (h : b.length < 4) : Fails (PacketFlowId.unmarshal m b) := by unfold PacketFlowId.unmarshal; short_arm
theorem RabContext.short {m : Mode} {b : Bytes} (h : b.length < 4) : Fails (RabContext.unmarshal m b) := by unfold RabContext.unmarshal; short_arm
theorem SourceRncPdcpContextInfo.short {m : Mode} {b : Bytes} (h : b.length < 4) : Fails (SourceRncPdcpContextInfo.unmarshal m b) := by unfold SourceRncPdcpContextInfo.unmarshal; short_arm
theorem PortNumber.short {m : Mode} {b : Bytes} (h : b.length < 4) : Fails (PortNumber.unmarshal m b) := by unfold PortNumber.unmarshal; short_arm
theorem ApnRestriction.short {m : Mode} {b : Bytes} (h : b.length < 4) : Fails (ApnRestriction.unmarshal m b) := by unfold ApnRestriction.unmarshal; short_arm
theorem SelectionMode.short {m : Mode} {b : Bytes} (h : b.length < 4) : Fails (SelectionMode.unmarshal m b) := by unfold SelectionMode.unmarshal; short_arm
theorem SourceIdentification.short {m : Mode} {b : Bytes} (h : b.length < 4) : Fails (SourceIdentification.unmarshal m b) := by unfold SourceIdentification.unmarshal; short_arm
theorem ChangeReportingAction.short {m : Mode} {b : Bytes} (h : b.length < 4) : Fails (ChangeReportingAction.unmarshal m b) := by unfold ChangeReportingAction.unmarshal; short_arm
theorem Fqcsid.short {m : Mode} {b : Bytes} (h : b.length < 4) : Fails (Fqcsid.unmarshal m b) := by unfold Fqcsid.unmarshal; short_arm
theorem ChannelNeeded.short {m : Mode} {b : Bytes} (h : b.length < 4) : Fails (ChannelNeeded.unmarshal m b) := by unfold ChannelNeeded.unmarshal; short_arm
theorem EmlppPriority.short {m : Mode} {b : Bytes} (h : b.length < 4) : Fails (EmlppPriority.unmarshal m b) := by unfold EmlppPriority.unmarshal; short_arm
theorem NodeType.short {m : Mode} {b : Bytes} (h : b.length < 4) : Fails (NodeType.unmarshal m b) := by unfold NodeType.unmarshal; short_arm
theorem Fqdn.short {m : Mode} {b : Bytes} (h : b.length < 4) : Fails (Fqdn.unmarshal m b) := by unfold Fqdn.unmarshal; short_arm
theorem TransactionIdentifier.short {m : Mode} {b : Bytes} (h : b.length < 4) : Fails (TransactionIdentifier.unmarshal m b) := by unfold TransactionIdentifier.unmarshal; short_arm
theorem MbmsServiceArea.short {m : Mode} {b : Bytes} (h : b.length < 4) : Fails (MbmsServiceArea.unmarshal m b) := by unfold MbmsServiceArea.unmarshal; short_arm
theorem MbmsSessionDuration.short {m : Mode} {b : Bytes} (h : b.length < 4) : Fails (MbmsSessionDuration.unmarshal m b) := by unfold MbmsSessionDuration.unmarshal; short_arm
theorem MbmsSessionId.short {m : Mode} {b : Bytes} (h : b.length < 4) : Fails (MbmsSessionId.unmarshal m b) := by unfold MbmsSessionId.unmarshal; short_arm
theorem MbmsFlowId.short {m : Mode} {b : Bytes} (h : b.length < 4) : Fails (MbmsFlowId.unmarshal m b) := by unfold MbmsFlowId.unmarshal; short_arm
theorem MbmsIpMulticastDistribution.short {m : Mode} {b : Bytes} (h : b.length < 4) : Fails (MbmsIpMulticastDistribution.unmarshal m b) := by unfold MbmsIpMulticastDistribution.unmarshal; short_arm
theorem MbmsDistributionAck.short {m : Mode} {b : Bytes} (h : b.length < 4) : Fails (MbmsDistributionAck.unmarshal m b) := by unfold MbmsDistributionAck.unmarshal; short_arm
theorem RfspIndex.short {m : Mode} {b : Bytes} (h : b.length < 4) : Fails (RfspIndex.unmarshal m b) := by unfold RfspIndex.unmarshal; short_arm
theorem Uci.short {m : Mode} {b : Bytes} (h : b.length < 4) : Fails (Uci.unmarshal m b) := by unfold Uci.unmarshal; short_arm
theorem CSGInformationReportingAction.short {m : Mode} {b : Bytes} (h : b.length < 4) : Fails (CSGInformationReportingAction.unmarshal m b) := by unfold CSGInformationReportingAction.unmarshal; short_arm
theorem CsgId.short {m : Mode} {b : Bytes} (h : b.length < 4) : Fails (CsgId.unmarshal m b) := by unfold CsgId.unmarshal; short_arm
theorem CsgMembershipIndication.short {m : Mode} {b : Bytes} (h : b.length < 4) : Fails (CsgMembershipIndication.unmarshal m b) := by unfold CsgMembershipIndication.unmarshal; short_arm
theorem ServiceIndicator.short {m : Mode} {b : Bytes} (h : b.length < 4) : Fails (ServiceIndicator.unmarshal m b) := by unfold ServiceIndicator.unmarshal; short_arm
theorem DetachType.short {m : Mode} {b : Bytes} (h : b.length < 4) : Fails (DetachType.unmarshal m b) := by unfold DetachType.unmarshal; short_arm
theorem Ldn.short {m : Mode} {b : Bytes} (h : b.length < 4) : Fails (Ldn.unmarshal m b) := by unfold Ldn.unmarshal; short_arm
theorem NodeFeatures.short {m : Mode} {b : Bytes} (h : b.length < 4) : Fails (NodeFeatures.unmarshal m b) := by unfold NodeFeatures.unmarshal; short_arm
theorem MbmsTimeToDataTransfer.short {m : Mode} {b : Bytes} (h : b.length < 4) : Fails (MbmsTimeToDataTransfer.unmarshal m b) := by unfold MbmsTimeToDataTransfer.unmarshal; short_arm
theorem Throttling.short {m : Mode} {b : Bytes} (h : b.length < 4) : Fails (Throttling.unmarshal m b) := by unfold Throttling.unmarshal; short_arm
theorem Arp.short {m : Mode} {b : Bytes} (h : b.length < 4) : Fails (Arp.unmarshal m b) := by unfold Arp.unmarshal; short_arm
theorem EpcTimer.short {m : Mode} {b : Bytes} (h : b.length < 4) : Fails (EpcTimer.unmarshal m b) := by unfold EpcTimer.unmarshal; short_arm
theorem Spi.short {m : Mode} {b : Bytes} (h : b.length < 4) : Fails (Spi.unmarshal m b) := by unfold Spi.unmarshal; short_arm
theorem Tmgi.short {m : Mode} {b : Bytes} (h : b.length < 4) : Fails (Tmgi.unmarshal m b) := by unfold Tmgi.unmarshal; short_arm
theorem AdditionalMmContextForSrvcc.short {m : Mode} {b : Bytes} (h : b.length < 4) : Fails (AdditionalMmContextForSrvcc.unmarshal m b) := by unfold AdditionalMmContextForSrvcc.unmarshal; short_arm
theorem AdditionalFlagsSrvcc.short {m : Mode} {b : Bytes} (h : b.length < 4) : Fails (AdditionalFlagsSrvcc.unmarshal m b) := by unfold AdditionalFlagsSrvcc.unmarshal; short_arm
theorem MdtConfiguration.short {m : Mode} {b : Bytes} (h : b.length < 4) : Fails (MdtConfiguration.unmarshal m b) := by unfold MdtConfiguration.unmarshal; short_arm
theorem Apco.short {m : Mode} {b : Bytes} (h : b.length < 4) : Fails (Apco.unmarshal m b) := by unfold Apco.unmarshal; short_arm
theorem AbsoluteTimeMbmsDataTransfer.short {m : Mode} {b : Bytes} (h : b.length < 4) : Fails (AbsoluteTimeMbmsDataTransfer.unmarshal m b) := by unfold AbsoluteTimeMbmsDataTransfer.unmarshal; short_arm
theorem HenbInfoReporting.short {m : Mode} {b : Bytes} (h : b.length < 4) : Fails (HenbInfoReporting.unmarshal m b) := by unfold HenbInfoReporting.unmarshal; short_arm
theorem Ip4Cp.short {m : Mode} {b : Bytes} (h : b.length < 4) : Fails (Ip4Cp.unmarshal m b) := by unfold Ip4Cp.unmarshal; short_arm
theorem ChangeToReportFlags.short {m : Mode} {b : Bytes} (h : b.length < 4) : Fails (ChangeToReportFlags.unmarshal m b) := by unfold ChangeToReportFlags.unmarshal; short_arm
theorem ActionIndication.short {m : Mode} {b : Bytes} (h : b.length < 4) : Fails (ActionIndication.unmarshal m b) := by unfold ActionIndication.unmarshal; short_arm
theorem TwanId.short {m : Mode} {b : Bytes} (h : b.length < 4) : Fails (TwanId.unmarshal m b) := by unfold TwanId.unmarshal; short_arm
theorem UliTimestamp.short {m : Mode} {b : Bytes} (h : b.length < 4) : Fails (UliTimestamp.unmarshal m b) := by unfold UliTimestamp.unmarshal; short_arm
theorem MbmsFlags.short {m : Mode} {b : Bytes} (h : b.length < 4) : Fails (MbmsFlags.unmarshal m b) := by unfold MbmsFlags.unmarshal; short_arm
theorem RanNasCause.short {m : Mode} {b : Bytes} (h : b.length < 4) : Fails (RanNasCause.unmarshal m b) := by unfold RanNasCause.unmarshal; short_arm
theorem CnOperatorSelectionEntity.short {m : Mode} {b : Bytes} (h : b.length < 4) : Fails (CnOperatorSelectionEntity.unmarshal m b) := by unfold CnOperatorSelectionEntity.unmarshal; short_arm
theorem Twmi.short {m : Mode} {b : Bytes} (h : b.length < 4) : Fails (Twmi.unmarshal m b) := by unfold Twmi.unmarshal; short_arm
theorem NodeNumber.short {m : Mode} {b : Bytes} (h : b.length < 4) : Fails (NodeNumber.unmarshal m b) := by unfold NodeNumber.unmarshal; short_arm
theorem NodeIdentifier.short {m : Mode} {b : Bytes} (h : b.length < 4) : Fails (NodeIdentifier.unmarshal m b) := by unfold NodeIdentifier.unmarshal; short_arm
theorem PresenceReportingAreaAction.short {m : Mode} {b : Bytes} (h : b.length < 4) : Fails (PresenceReportingAreaAction.unmarshal m b) := by unfold PresenceReportingAreaAction.unmarshal; short_arm
theorem PresenceReportingAreaInformation.short {m : Mode} {b : Bytes} (h : b.length < 4) : Fails (PresenceReportingAreaInformation.unmarshal m b) := by unfold PresenceReportingAreaInformation.unmarshal; short_arm
theorem TwanIdTimeStamp.short {m : Mode} {b : Bytes} (h : b.length < 4) : Fails (TwanIdTimeStamp.unmarshal m b) := by unfold TwanIdTimeStamp.unmarshal; short_arm
theorem Metric.short {m : Mode} {b : Bytes} (h : b.length < 4) : Fails (Metric.unmarshal m b) := by unfold Metric.unmarshal; short_arm
theorem Sqn.short {m : Mode} {b : Bytes} (h : b.length < 4) : Fails (Sqn.unmarshal m b) := by unfold Sqn.unmarshal; short_arm
theorem ApnRelativeCapacity.short {m : Mode} {b : Bytes} (h : b.length < 4) : Fails (ApnRelativeCapacity.unmarshal m b) := by unfold ApnRelativeCapacity.unmarshal; short_arm
theorem WlanOffloadIndication.short {m : Mode} {b : Bytes} (h : b.length < 4) : Fails (WlanOffloadIndication.unmarshal m b) := by unfold WlanOffloadIndication.unmarshal; short_arm
theorem PagingServiceInfo.short {m : Mode} {b : Bytes} (h : b.length < 4) : Fails (PagingServiceInfo.unmarshal m b) := by unfold PagingServiceInfo.unmarshal; short_arm
theorem IntegerNumber.short {m : Mode} {b : Bytes} (h : b.length < 4) : Fails (IntegerNumber.unmarshal m b) := by unfold IntegerNumber.unmarshal; short_arm
theorem MilliSecondTimeStamp.short {m : Mode} {b : Bytes} (h : b.length < 4) : Fails (MilliSecondTimeStamp.unmarshal m b) := by unfold MilliSecondTimeStamp.unmarshal; short_arm
theorem MonitoringEventInformation.short {m : Mode} {b : Bytes} (h : b.length < 4) : Fails (MonitoringEventInformation.unmarshal m b) := by unfold MonitoringEventInformation.unmarshal; short_arm
theorem EcgiList.short {m : Mode} {b : Bytes} (h : b.length < 4) : Fails (EcgiList.unmarshal m b) := by unfold EcgiList.unmarshal; short_arm
theorem RemoteUserId.short {m : Mode} {b : Bytes} (h : b.length < 4) : Fails (RemoteUserId.unmarshal m b) := by unfold RemoteUserId.unmarshal; short_arm
theorem RemoteUeIpInformation.short {m : Mode} {b : Bytes} (h : b.length < 4) : Fails (RemoteUeIpInformation.unmarshal m b) := by unfold RemoteUeIpInformation.unmarshal; short_arm
theorem CIoTOptimizationSupportIndication.short {m : Mode} {b : Bytes} (h : b.length < 4) : Fails (CIoTOptimizationSupportIndication.unmarshal m b) := by unfold CIoTOptimizationSupportIndication.unmarshal; short_arm
theorem HeaderCompressionConfiguration.short {m : Mode} {b : Bytes} (h : b.length < 4) : Fails (HeaderCompressionConfiguration.unmarshal m b) := by unfold HeaderCompressionConfiguration.unmarshal; short_arm
theorem Epco.short {m : Mode} {b : Bytes} (h : b.length < 4) : Fails (Epco.unmarshal m b) := by unfold Epco.unmarshal; short_arm
theorem ServingPlmnRateControl.short {m : Mode} {b : Bytes} (h : b.length < 4) : Fails (ServingPlmnRateControl.unmarshal m b) := by unfold ServingPlmnRateControl.unmarshal; short_arm
theorem Counter.short {m : Mode} {b : Bytes} (h : b.length < 4) : Fails (Counter.unmarshal m b) := by unfold Counter.unmarshal; short_arm
theorem MappedUeUsageType.short {m : Mode} {b : Bytes} (h : b.length < 4) : Fails (MappedUeUsageType.unmarshal m b) := by unfold MappedUeUsageType.unmarshal; short_arm
theorem SecondaryRatUsageDataReport.short {m : Mode} {b : Bytes} (h : b.length < 4) : Fails (SecondaryRatUsageDataReport.unmarshal m b) := by unfold SecondaryRatUsageDataReport.unmarshal; short_arm
theorem UpFunctionSelectionIndicationFlags.short {m : Mode} {b : Bytes} (h : b.length < 4) : Fails (UpFunctionSelectionIndicationFlags.unmarshal m b) := by unfold UpFunctionSelectionIndicationFlags.unmarshal; short_arm
theorem MaxPacketLossRate.short {m : Mode} {b : Bytes} (h : b.length < 4) : Fails (MaxPacketLossRate.unmarshal m b) := by unfold MaxPacketLossRate.unmarshal; short_arm
theorem ApnRateControlStatus.short {m : Mode} {b : Bytes} (h : b.length < 4) : Fails (ApnRateControlStatus.unmarshal m b) := by unfold ApnRateControlStatus.unmarshal; short_arm
theorem ExtendedTraceInformation.short {m : Mode} {b : Bytes} (h : b.length < 4) : Fails (ExtendedTraceInformation.unmarshal m b) := by unfold ExtendedTraceInformation.unmarshal; short_arm
theorem MonitoringEventExtensionInfo.short {m : Mode} {b : Bytes} (h : b.length < 4) : Fails (MonitoringEventExtensionInfo.unmarshal m b) := by unfold MonitoringEventExtensionInfo.unmarshal; short_arm
theorem AdditionalRrmPolicyIndex.short {m : Mode} {b : Bytes} (h : b.length < 4) : Fails (AdditionalRrmPolicyIndex.unmarshal m b) := by unfold AdditionalRrmPolicyIndex.unmarshal; short_arm
theorem ServicesAuthorized.short {m : Mode} {b : Bytes} (h : b.length < 4) : Fails (ServicesAuthorized.unmarshal m b) := by unfold ServicesAuthorized.unmarshal; short_arm
theorem BitRate.short {m : Mode} {b : Bytes} (h : b.length < 4) : Fails (BitRate.unmarshal m b) := by unfold BitRate.unmarshal; short_arm
theorem PC5QosFlow.short {m : Mode} {b : Bytes} (h : b.length < 4) : Fails (PC5QosFlow.unmarshal m b) := by unfold PC5QosFlow.unmarshal; short_arm
theorem SgiPtpTunnelAddress.short {m : Mode} {b : Bytes} (h : b.length < 4) : Fails (SgiPtpTunnelAddress.unmarshal m b) := by unfold SgiPtpTunnelAddress.unmarshal; short_arm
theorem PgwFqdn.short {m : Mode} {b : Bytes} (h : b.length < 4) : Fails (PgwFqdn.unmarshal m b) := by unfold PgwFqdn.unmarshal; short_arm
theorem GroupId.short {m : Mode} {b : Bytes} (h : b.length < 4) : Fails (GroupId.unmarshal m b) := by unfold GroupId.unmarshal; short_arm
theorem PSCellId.short {m : Mode} {b : Bytes} (h : b.length < 4) : Fails (PSCellId.unmarshal m b) := by unfold PSCellId.unmarshal; short_arm
theorem UpSecurityPolicy.short {m : Mode} {b : Bytes} (h : b.length < 4) : Fails (UpSecurityPolicy.unmarshal m b) := by unfold UpSecurityPolicy.unmarshal; short_arm
theorem AlternativeImsi.short {m : Mode} {b : Bytes} (h : b.length < 4) : Fails (AlternativeImsi.unmarshal m b) := by unfold AlternativeImsi.unmarshal; short_arm
theorem SpecialIEWithTypeExt.short {m : Mode} {b : Bytes} (h : b.length < 4) : Fails (SpecialIEWithTypeExt.unmarshal m b) := by unfold SpecialIEWithTypeExt.unmarshal; short_arm
theorem PrivateExtension.short {m : Mode} {b : Bytes} (h : b.length < 4) : Fails (PrivateExtension.unmarshal m b) := by unfold PrivateExtension.unmarshal; short_arm
theorem Unknown.short {m : Mode} {b : Bytes} (h : b.length < 4) : Fails (Unknown.unmarshal m b) := by unfold Unknown.unmarshal; short_arm
theorem MmContextGsmKeyTriplets.short {m : Mode} {b : Bytes} (h : b.length < 4) : Fails (MmContextGsmKeyTriplets.unmarshal m b) := by unfold MmContextGsmKeyTriplets.unmarshal; short_arm
theorem MmContextGsmKeyCipherQuintuplets.short {m : Mode} {b : Bytes} (h : b.length < 4) : Fails (MmContextGsmKeyCipherQuintuplets.unmarshal m b) := by unfold MmContextGsmKeyCipherQuintuplets.unmarshal; short_arm
theorem MmContextUmtsKeyCipherQuintuplets.short {m : Mode} {b : Bytes} (h : b.length < 4) : Fails (MmContextUmtsKeyCipherQuintuplets.unmarshal m b) := by unfold MmContextUmtsKeyCipherQuintuplets.unmarshal; short_arm
theorem MmContextUmtsKeyQuintuplets.short {m : Mode} {b : Bytes} (h : b.length < 4) : Fails (MmContextUmtsKeyQuintuplets.unmarshal m b) := by unfold MmContextUmtsKeyQuintuplets.unmarshal; short_arm
theorem MmContextUmtsKeyQuadrupletsQuintuplets.short {m : Mode} {b : Bytes} (h : b.length < 4) : Fails (MmContextUmtsKeyQuadrupletsQuintuplets.unmarshal m b) := by unfold MmContextUmtsKeyQuadrupletsQuintuplets.unmarshal; short_arm
theorem MmContextEpsSecurityContextQuadruplets.short {m : Mode} {b : Bytes} (h : b.length < 4) : Fails (MmContextEpsSecurityContextQuadruplets.unmarshal m b) := by unfold MmContextEpsSecurityContextQuadruplets.unmarshal; short_arm

theorem MmContext.short {m : Mode} {b : Bytes} (h : b.length < 4) : Fails (MmContext.unmarshal m b) := by
  unfold MmContext.unmarshal
  apply Fails.bind_right
  intro t
  repeat' split
  · exact (MmContextEpsSecurityContextQuadruplets.short h).bind
  · exact (MmContextUmtsKeyQuintuplets.short h).bind
  · exact (MmContextUmtsKeyQuadrupletsQuintuplets.short h).bind
  · exact (MmContextUmtsKeyCipherQuintuplets.short h).bind
  · exact (MmContextGsmKeyTriplets.short h).bind
  · exact (MmContextGsmKeyCipherQuintuplets.short h).bind
  · exact Fails.err

theorem groupUnm_short {α : Type} {dec : Bytes → R Err (List IE)} {mk : UInt8 → UInt16 → UInt8 → List IE → α} {m : Mode} {b : Bytes}
    (h : b.length < 4) : Fails (groupUnm dec mk m b) := by unfold groupUnm; short_arm

/-- No arm returns an IE when there are fewer than four octets. -/
theorem unmKind_short {dec : Bytes → R Err (List IE)} {m : Mode} {b : Bytes} (h : b.length < 4) (k : Kind) :
    Fails (unmKind dec m b k) := by
  cases k <;> apply Fails.bind
  case Imsi => exact Imsi.short h
  case Cause => exact Cause.short h
  case Recovery => exact Recovery.short h
  case StnSr => exact StnSr.short h
  case SrvccCause => exact SrvccCause.short h
  case Apn => exact Apn.short h
  case ApnAmbr => exact Ambr.short h
  case Ebi => exact Ebi.short h
  case IpAddress => exact IpAddress.short h
  case Mei => exact Mei.short h
  case Msisdn => exact Msisdn.short h
  case Indication => exact Indication.short h
  case Pco => exact Pco.short h
  case PdnAddressAllocation => exact PdnAddressAllocation.short h
  case BearerQos => exact BearerQos.short h
  case FlowQos => exact FlowQos.short h
  case RatType => exact RatType.short h
  case ServingNetwork => exact ServingNetwork.short h
  case BearerTft => exact BearerTft.short h
  case TrafficAggregateDescription => exact TrafficAggregateDescription.short h
  case Uli => exact Uli.short h
  case Fteid => exact Fteid.short h
  case Tmsi => exact Tmsi.short h
  case GlobalCnId => exact GlobalCnId.short h
  case S103pdf => exact S103pdf.short h
  case S1udf => exact S1udf.short h
  case DelayValue => exact DelayValue.short h
  case ChargingId => exact ChargingId.short h
  case ChargingCharacteristics => exact ChargingCharacteristics.short h
  case TraceInformation => exact TraceInformation.short h
  case BearerFlags => exact BearerFlags.short h
  case PdnType => exact PdnType.short h
  case Pti => exact Pti.short h
  case MmContext => exact MmContext.short h
  case PduNumbers => exact PduNumbers.short h
  case Ptmsi => exact Ptmsi.short h
  case PtmsiSignature => exact PtmsiSignature.short h
  case HopCounter => exact HopCounter.short h
  case UeTimeZone => exact UeTimeZone.short h
  case TraceReference => exact TraceReference.short h
  case CompleteRequestMessage => exact CompleteRequestMessage.short h
  case Guti => exact Guti.short h
  case Fcontainer => exact Fcontainer.short h
  case Fcause => exact Fcause.short h
  case PlmnId => exact PlmnId.short h
  case TargetIdentification => exact TargetIdentification.short h
  case PacketFlowId => exact PacketFlowId.short h
  case RabContext => exact RabContext.short h
  case SrcRncPdcpCtxInfo => exact SourceRncPdcpContextInfo.short h
  case PortNumber => exact PortNumber.short h
  case ApnRestriction => exact ApnRestriction.short h
  case SelectionMode => exact SelectionMode.short h
  case SourceIdentification => exact SourceIdentification.short h
  case ChangeReportingAction => exact ChangeReportingAction.short h
  case Fqcsid => exact Fqcsid.short h
  case ChannelNeeded => exact ChannelNeeded.short h
  case EmlppPriority => exact EmlppPriority.short h
  case NodeType => exact NodeType.short h
  case Fqdn => exact Fqdn.short h
  case TransactionIdentifier => exact TransactionIdentifier.short h
  case MbmsSa => exact MbmsServiceArea.short h
  case MbmsSd => exact MbmsSessionDuration.short h
  case MbmsSessionId => exact MbmsSessionId.short h
  case MbmsFlowId => exact MbmsFlowId.short h
  case MbmsIpMulticastDistribution => exact MbmsIpMulticastDistribution.short h
  case MbmsDistributionAck => exact MbmsDistributionAck.short h
  case RfspIndex => exact RfspIndex.short h
  case Uci => exact Uci.short h
  case CSGInformationReportingAction => exact CSGInformationReportingAction.short h
  case CsgId => exact CsgId.short h
  case CsgMembershipIndication => exact CsgMembershipIndication.short h
  case ServiceIndicator => exact ServiceIndicator.short h
  case DetachType => exact DetachType.short h
  case Ldn => exact Ldn.short h
  case NodeFeatures => exact NodeFeatures.short h
  case MbmsTimeToDataTransfer => exact MbmsTimeToDataTransfer.short h
  case Throttling => exact Throttling.short h
  case Arp => exact Arp.short h
  case EpcTimer => exact EpcTimer.short h
  case Spi => exact Spi.short h
  case Tmgi => exact Tmgi.short h
  case AdditionalMmContextForSrvcc => exact AdditionalMmContextForSrvcc.short h
  case AdditionalFlagsSrvcc => exact AdditionalFlagsSrvcc.short h
  case MdtConfiguration => exact MdtConfiguration.short h
  case Apco => exact Apco.short h
  case AbsoluteTimeMbmsDataTransfer => exact AbsoluteTimeMbmsDataTransfer.short h
  case HenbInfoReporting => exact HenbInfoReporting.short h
  case Ip4Cp => exact Ip4Cp.short h
  case ChangeToReportFlags => exact ChangeToReportFlags.short h
  case ActionIndication => exact ActionIndication.short h
  case TwanId => exact TwanId.short h
  case UliTimestamp => exact UliTimestamp.short h
  case MbmsFlags => exact MbmsFlags.short h
  case RanNasCause => exact RanNasCause.short h
  case CnOperatorSelectionEntity => exact CnOperatorSelectionEntity.short h
  case Twmi => exact Twmi.short h
  case NodeNumber => exact NodeNumber.short h
  case NodeIdentifier => exact NodeIdentifier.short h
  case PresenceReportingAreaAction => exact PresenceReportingAreaAction.short h
  case PresenceReportingAreaInformation => exact PresenceReportingAreaInformation.short h
  case TwanIdTimeStamp => exact TwanIdTimeStamp.short h
  case Metric => exact Metric.short h
  case Sqn => exact Sqn.short h
  case ApnRelativeCapacity => exact ApnRelativeCapacity.short h
  case WlanOffloadIndication => exact WlanOffloadIndication.short h
  case PagingServiceInfo => exact PagingServiceInfo.short h
  case IntegerNumber => exact IntegerNumber.short h
  case MilliSecondTimeStamp => exact MilliSecondTimeStamp.short h
  case MonitoringEventInformation => exact MonitoringEventInformation.short h
  case EcgiList => exact EcgiList.short h
  case RemoteUserId => exact RemoteUserId.short h
  case RemoteUeIpInformation => exact RemoteUeIpInformation.short h
  case CIoTOptimizationSupportIndication => exact CIoTOptimizationSupportIndication.short h
  case HeaderCompressionConfiguration => exact HeaderCompressionConfiguration.short h
  case Epco => exact Epco.short h
  case ServingPlmnRateControl => exact ServingPlmnRateControl.short h
  case Counter => exact Counter.short h
  case MappedUeUsageType => exact MappedUeUsageType.short h
  case SecondaryRatUsageDataReport => exact SecondaryRatUsageDataReport.short h
  case UpFunctionSelectionIndicationFlags => exact UpFunctionSelectionIndicationFlags.short h
  case MaxPacketLossRate => exact MaxPacketLossRate.short h
  case ApnRateControlStatus => exact ApnRateControlStatus.short h
  case ExtendedTraceInformation => exact ExtendedTraceInformation.short h
  case MonitoringEventExtensionInfo => exact MonitoringEventExtensionInfo.short h
  case AdditionalRrmPolicyIndex => exact AdditionalRrmPolicyIndex.short h
  case ServicesAuthorized => exact ServicesAuthorized.short h
  case BitRate => exact BitRate.short h
  case PC5QosFlow => exact PC5QosFlow.short h
  case SgiPtpTunnelAddress => exact SgiPtpTunnelAddress.short h
  case PgwFqdn => exact PgwFqdn.short h
  case GroupId => exact GroupId.short h
  case PSCellId => exact PSCellId.short h
  case UpSecurityPolicy => exact UpSecurityPolicy.short h
  case AlternativeImsi => exact AlternativeImsi.short h
  case SpecialIEWithTypeExt => exact SpecialIEWithTypeExt.short h
  case PrivateExtension => exact PrivateExtension.short h
  case Unknown => exact Unknown.short h
  all_goals exact groupUnm_short h

theorem decodeOne_four {dec : Bytes → R Err (List IE)} {m : Mode} {b : Bytes} {p : IE × Nat} (h : decodeOne dec m b = .ok p) :
    4 ≤ b.length := by
  apply Classical.byContradiction
  intro h4
  obtain ⟨x, n⟩ := p
  exact unmKind_short (by omega) _ _ (decodeOne_inv h).2.1

end Gtp.V2
