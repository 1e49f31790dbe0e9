import Verif.V2.Fin
import Verif.V2.IESafe

/-!
# Decoding one IE finishes, for all kinds

Generated by `scripts/gen_sum.py`.
-/

namespace Gtp.V2

theorem Imsi.fin (m : Mode) (b : Bytes) : (Imsi.unmarshal m b).Fin := by
  unfold Imsi.unmarshal
  fin

theorem Cause.fin (m : Mode) (b : Bytes) : (Cause.unmarshal m b).Fin := by
  unfold Cause.unmarshal
  fin

theorem Recovery.fin (m : Mode) (b : Bytes) : (Recovery.unmarshal m b).Fin := by
  unfold Recovery.unmarshal
  fin

theorem StnSr.fin (m : Mode) (b : Bytes) : (StnSr.unmarshal m b).Fin := by
  unfold StnSr.unmarshal
  fin

theorem SrvccCause.fin (m : Mode) (b : Bytes) : (SrvccCause.unmarshal m b).Fin := by
  unfold SrvccCause.unmarshal
  fin

theorem Apn.fin (m : Mode) (b : Bytes) : (Apn.unmarshal m b).Fin := by
  unfold Apn.unmarshal
  fin

theorem Ambr.fin (m : Mode) (b : Bytes) : (Ambr.unmarshal m b).Fin := by
  unfold Ambr.unmarshal
  fin

theorem Ebi.fin (m : Mode) (b : Bytes) : (Ebi.unmarshal m b).Fin := by
  unfold Ebi.unmarshal
  fin

theorem IpAddress.fin (m : Mode) (b : Bytes) : (IpAddress.unmarshal m b).Fin := by
  unfold IpAddress.unmarshal
  fin

theorem Mei.fin (m : Mode) (b : Bytes) : (Mei.unmarshal m b).Fin := by
  unfold Mei.unmarshal
  fin

theorem Msisdn.fin (m : Mode) (b : Bytes) : (Msisdn.unmarshal m b).Fin := by
  unfold Msisdn.unmarshal
  fin

theorem Indication.fin (m : Mode) (b : Bytes) : (Indication.unmarshal m b).Fin := by
  unfold Indication.unmarshal
  fin

theorem Pco.fin (m : Mode) (b : Bytes) : (Pco.unmarshal m b).Fin := by
  unfold Pco.unmarshal
  fin

theorem PdnAddressAllocation.fin (m : Mode) (b : Bytes) : (PdnAddressAllocation.unmarshal m b).Fin := by
  unfold PdnAddressAllocation.unmarshal
  fin

theorem BearerQos.fin (m : Mode) (b : Bytes) : (BearerQos.unmarshal m b).Fin := by
  unfold BearerQos.unmarshal
  fin

theorem FlowQos.fin (m : Mode) (b : Bytes) : (FlowQos.unmarshal m b).Fin := by
  unfold FlowQos.unmarshal
  fin

theorem RatType.fin (m : Mode) (b : Bytes) : (RatType.unmarshal m b).Fin := by
  unfold RatType.unmarshal
  fin

theorem ServingNetwork.fin (m : Mode) (b : Bytes) : (ServingNetwork.unmarshal m b).Fin := by
  unfold ServingNetwork.unmarshal
  fin

theorem BearerTft.fin (m : Mode) (b : Bytes) : (BearerTft.unmarshal m b).Fin := by
  unfold BearerTft.unmarshal
  fin

theorem TrafficAggregateDescription.fin (m : Mode) (b : Bytes) : (TrafficAggregateDescription.unmarshal m b).Fin := by
  unfold TrafficAggregateDescription.unmarshal
  fin

theorem Uli.fin (m : Mode) (b : Bytes) : (Uli.unmarshal m b).Fin := by
  unfold Uli.unmarshal
  fin

theorem Fteid.fin (m : Mode) (b : Bytes) : (Fteid.unmarshal m b).Fin := by
  unfold Fteid.unmarshal
  fin

theorem Tmsi.fin (m : Mode) (b : Bytes) : (Tmsi.unmarshal m b).Fin := by
  unfold Tmsi.unmarshal
  fin

theorem GlobalCnId.fin (m : Mode) (b : Bytes) : (GlobalCnId.unmarshal m b).Fin := by
  unfold GlobalCnId.unmarshal
  fin

theorem S103pdf.fin (m : Mode) (b : Bytes) : (S103pdf.unmarshal m b).Fin := by
  unfold S103pdf.unmarshal
  fin

theorem S1udf.fin (m : Mode) (b : Bytes) : (S1udf.unmarshal m b).Fin := by
  unfold S1udf.unmarshal
  fin

theorem DelayValue.fin (m : Mode) (b : Bytes) : (DelayValue.unmarshal m b).Fin := by
  unfold DelayValue.unmarshal
  fin

theorem ChargingId.fin (m : Mode) (b : Bytes) : (ChargingId.unmarshal m b).Fin := by
  unfold ChargingId.unmarshal
  fin

theorem ChargingCharacteristics.fin (m : Mode) (b : Bytes) : (ChargingCharacteristics.unmarshal m b).Fin := by
  unfold ChargingCharacteristics.unmarshal
  fin

theorem TraceInformation.fin (m : Mode) (b : Bytes) : (TraceInformation.unmarshal m b).Fin := by
  unfold TraceInformation.unmarshal
  fin

theorem BearerFlags.fin (m : Mode) (b : Bytes) : (BearerFlags.unmarshal m b).Fin := by
  unfold BearerFlags.unmarshal
  fin

theorem PdnType.fin (m : Mode) (b : Bytes) : (PdnType.unmarshal m b).Fin := by
  unfold PdnType.unmarshal
  fin

theorem Pti.fin (m : Mode) (b : Bytes) : (Pti.unmarshal m b).Fin := by
  unfold Pti.unmarshal
  fin

theorem MmContextEpsSecurityContextQuadruplets.fin (m : Mode) (b : Bytes) : (MmContextEpsSecurityContextQuadruplets.unmarshal m b).Fin := by
  unfold MmContextEpsSecurityContextQuadruplets.unmarshal
  fin

theorem MmContextUmtsKeyQuintuplets.fin (m : Mode) (b : Bytes) : (MmContextUmtsKeyQuintuplets.unmarshal m b).Fin := by
  unfold MmContextUmtsKeyQuintuplets.unmarshal
  fin

theorem MmContextUmtsKeyQuadrupletsQuintuplets.fin (m : Mode) (b : Bytes) : (MmContextUmtsKeyQuadrupletsQuintuplets.unmarshal m b).Fin := by
  unfold MmContextUmtsKeyQuadrupletsQuintuplets.unmarshal
  fin

theorem MmContextUmtsKeyCipherQuintuplets.fin (m : Mode) (b : Bytes) : (MmContextUmtsKeyCipherQuintuplets.unmarshal m b).Fin := by
  unfold MmContextUmtsKeyCipherQuintuplets.unmarshal
  fin

theorem MmContextGsmKeyTriplets.fin (m : Mode) (b : Bytes) : (MmContextGsmKeyTriplets.unmarshal m b).Fin := by
  unfold MmContextGsmKeyTriplets.unmarshal
  fin

theorem MmContextGsmKeyCipherQuintuplets.fin (m : Mode) (b : Bytes) : (MmContextGsmKeyCipherQuintuplets.unmarshal m b).Fin := by
  unfold MmContextGsmKeyCipherQuintuplets.unmarshal
  fin

theorem MmContext.fin (m : Mode) (b : Bytes) : (MmContext.unmarshal m b).Fin := by
  have h107 := MmContextEpsSecurityContextQuadruplets.fin m b
  have h106 := MmContextUmtsKeyQuintuplets.fin m b
  have h108 := MmContextUmtsKeyQuadrupletsQuintuplets.fin m b
  have h104 := MmContextUmtsKeyCipherQuintuplets.fin m b
  have h103 := MmContextGsmKeyTriplets.fin m b
  have h105 := MmContextGsmKeyCipherQuintuplets.fin m b
  unfold MmContext.unmarshal
  fin

theorem PduNumbers.fin (m : Mode) (b : Bytes) : (PduNumbers.unmarshal m b).Fin := by
  unfold PduNumbers.unmarshal
  fin

theorem Ptmsi.fin (m : Mode) (b : Bytes) : (Ptmsi.unmarshal m b).Fin := by
  unfold Ptmsi.unmarshal
  fin

theorem PtmsiSignature.fin (m : Mode) (b : Bytes) : (PtmsiSignature.unmarshal m b).Fin := by
  unfold PtmsiSignature.unmarshal
  fin

theorem HopCounter.fin (m : Mode) (b : Bytes) : (HopCounter.unmarshal m b).Fin := by
  unfold HopCounter.unmarshal
  fin

theorem UeTimeZone.fin (m : Mode) (b : Bytes) : (UeTimeZone.unmarshal m b).Fin := by
  unfold UeTimeZone.unmarshal
  fin

theorem TraceReference.fin (m : Mode) (b : Bytes) : (TraceReference.unmarshal m b).Fin := by
  unfold TraceReference.unmarshal
  fin

theorem CompleteRequestMessage.fin (m : Mode) (b : Bytes) : (CompleteRequestMessage.unmarshal m b).Fin := by
  unfold CompleteRequestMessage.unmarshal
  fin

theorem Guti.fin (m : Mode) (b : Bytes) : (Guti.unmarshal m b).Fin := by
  unfold Guti.unmarshal
  fin

theorem Fcontainer.fin (m : Mode) (b : Bytes) : (Fcontainer.unmarshal m b).Fin := by
  unfold Fcontainer.unmarshal
  fin

theorem Fcause.fin (m : Mode) (b : Bytes) : (Fcause.unmarshal m b).Fin := by
  unfold Fcause.unmarshal
  fin

theorem PlmnId.fin (m : Mode) (b : Bytes) : (PlmnId.unmarshal m b).Fin := by
  unfold PlmnId.unmarshal
  fin

theorem TargetIdentification.fin (m : Mode) (b : Bytes) : (TargetIdentification.unmarshal m b).Fin := by
  unfold TargetIdentification.unmarshal
  fin

theorem PacketFlowId.fin (m : Mode) (b : Bytes) : (PacketFlowId.unmarshal m b).Fin := by
  unfold PacketFlowId.unmarshal
  fin

theorem RabContext.fin (m : Mode) (b : Bytes) : (RabContext.unmarshal m b).Fin := by
  unfold RabContext.unmarshal
  fin

theorem SourceRncPdcpContextInfo.fin (m : Mode) (b : Bytes) : (SourceRncPdcpContextInfo.unmarshal m b).Fin := by
  unfold SourceRncPdcpContextInfo.unmarshal
  fin

theorem PortNumber.fin (m : Mode) (b : Bytes) : (PortNumber.unmarshal m b).Fin := by
  unfold PortNumber.unmarshal
  fin

theorem ApnRestriction.fin (m : Mode) (b : Bytes) : (ApnRestriction.unmarshal m b).Fin := by
  unfold ApnRestriction.unmarshal
  fin

theorem SelectionMode.fin (m : Mode) (b : Bytes) : (SelectionMode.unmarshal m b).Fin := by
  unfold SelectionMode.unmarshal
  fin

theorem SourceIdentification.fin (m : Mode) (b : Bytes) : (SourceIdentification.unmarshal m b).Fin := by
  unfold SourceIdentification.unmarshal
  fin

theorem ChangeReportingAction.fin (m : Mode) (b : Bytes) : (ChangeReportingAction.unmarshal m b).Fin := by
  unfold ChangeReportingAction.unmarshal
  fin

theorem Fqcsid.fin (m : Mode) (b : Bytes) : (Fqcsid.unmarshal m b).Fin := by
  unfold Fqcsid.unmarshal
  fin

theorem ChannelNeeded.fin (m : Mode) (b : Bytes) : (ChannelNeeded.unmarshal m b).Fin := by
  unfold ChannelNeeded.unmarshal
  fin

theorem EmlppPriority.fin (m : Mode) (b : Bytes) : (EmlppPriority.unmarshal m b).Fin := by
  unfold EmlppPriority.unmarshal
  fin

theorem NodeType.fin (m : Mode) (b : Bytes) : (NodeType.unmarshal m b).Fin := by
  unfold NodeType.unmarshal
  fin

theorem Fqdn.fin (m : Mode) (b : Bytes) : (Fqdn.unmarshal m b).Fin := by
  unfold Fqdn.unmarshal
  fin

theorem TransactionIdentifier.fin (m : Mode) (b : Bytes) : (TransactionIdentifier.unmarshal m b).Fin := by
  unfold TransactionIdentifier.unmarshal
  fin

theorem MbmsServiceArea.fin (m : Mode) (b : Bytes) : (MbmsServiceArea.unmarshal m b).Fin := by
  unfold MbmsServiceArea.unmarshal
  fin

theorem MbmsSessionDuration.fin (m : Mode) (b : Bytes) : (MbmsSessionDuration.unmarshal m b).Fin := by
  unfold MbmsSessionDuration.unmarshal
  fin

theorem MbmsSessionId.fin (m : Mode) (b : Bytes) : (MbmsSessionId.unmarshal m b).Fin := by
  unfold MbmsSessionId.unmarshal
  fin

theorem MbmsFlowId.fin (m : Mode) (b : Bytes) : (MbmsFlowId.unmarshal m b).Fin := by
  unfold MbmsFlowId.unmarshal
  fin

theorem MbmsIpMulticastDistribution.fin (m : Mode) (b : Bytes) : (MbmsIpMulticastDistribution.unmarshal m b).Fin := by
  unfold MbmsIpMulticastDistribution.unmarshal
  fin

theorem MbmsDistributionAck.fin (m : Mode) (b : Bytes) : (MbmsDistributionAck.unmarshal m b).Fin := by
  unfold MbmsDistributionAck.unmarshal
  fin

theorem RfspIndex.fin (m : Mode) (b : Bytes) : (RfspIndex.unmarshal m b).Fin := by
  unfold RfspIndex.unmarshal
  fin

theorem Uci.fin (m : Mode) (b : Bytes) : (Uci.unmarshal m b).Fin := by
  unfold Uci.unmarshal
  fin

theorem CSGInformationReportingAction.fin (m : Mode) (b : Bytes) : (CSGInformationReportingAction.unmarshal m b).Fin := by
  unfold CSGInformationReportingAction.unmarshal
  fin

theorem CsgId.fin (m : Mode) (b : Bytes) : (CsgId.unmarshal m b).Fin := by
  unfold CsgId.unmarshal
  fin

theorem CsgMembershipIndication.fin (m : Mode) (b : Bytes) : (CsgMembershipIndication.unmarshal m b).Fin := by
  unfold CsgMembershipIndication.unmarshal
  fin

theorem ServiceIndicator.fin (m : Mode) (b : Bytes) : (ServiceIndicator.unmarshal m b).Fin := by
  unfold ServiceIndicator.unmarshal
  fin

theorem DetachType.fin (m : Mode) (b : Bytes) : (DetachType.unmarshal m b).Fin := by
  unfold DetachType.unmarshal
  fin

theorem Ldn.fin (m : Mode) (b : Bytes) : (Ldn.unmarshal m b).Fin := by
  unfold Ldn.unmarshal
  fin

theorem NodeFeatures.fin (m : Mode) (b : Bytes) : (NodeFeatures.unmarshal m b).Fin := by
  unfold NodeFeatures.unmarshal
  fin

theorem MbmsTimeToDataTransfer.fin (m : Mode) (b : Bytes) : (MbmsTimeToDataTransfer.unmarshal m b).Fin := by
  unfold MbmsTimeToDataTransfer.unmarshal
  fin

theorem Throttling.fin (m : Mode) (b : Bytes) : (Throttling.unmarshal m b).Fin := by
  unfold Throttling.unmarshal
  fin

theorem Arp.fin (m : Mode) (b : Bytes) : (Arp.unmarshal m b).Fin := by
  unfold Arp.unmarshal
  fin

theorem EpcTimer.fin (m : Mode) (b : Bytes) : (EpcTimer.unmarshal m b).Fin := by
  unfold EpcTimer.unmarshal
  fin

theorem Spi.fin (m : Mode) (b : Bytes) : (Spi.unmarshal m b).Fin := by
  unfold Spi.unmarshal
  fin

theorem Tmgi.fin (m : Mode) (b : Bytes) : (Tmgi.unmarshal m b).Fin := by
  unfold Tmgi.unmarshal
  fin

theorem AdditionalMmContextForSrvcc.fin (m : Mode) (b : Bytes) : (AdditionalMmContextForSrvcc.unmarshal m b).Fin := by
  unfold AdditionalMmContextForSrvcc.unmarshal
  fin

theorem AdditionalFlagsSrvcc.fin (m : Mode) (b : Bytes) : (AdditionalFlagsSrvcc.unmarshal m b).Fin := by
  unfold AdditionalFlagsSrvcc.unmarshal
  fin

theorem MdtConfiguration.fin (m : Mode) (b : Bytes) : (MdtConfiguration.unmarshal m b).Fin := by
  unfold MdtConfiguration.unmarshal
  fin

theorem Apco.fin (m : Mode) (b : Bytes) : (Apco.unmarshal m b).Fin := by
  unfold Apco.unmarshal
  fin

theorem AbsoluteTimeMbmsDataTransfer.fin (m : Mode) (b : Bytes) : (AbsoluteTimeMbmsDataTransfer.unmarshal m b).Fin := by
  unfold AbsoluteTimeMbmsDataTransfer.unmarshal
  fin

theorem HenbInfoReporting.fin (m : Mode) (b : Bytes) : (HenbInfoReporting.unmarshal m b).Fin := by
  unfold HenbInfoReporting.unmarshal
  fin

theorem Ip4Cp.fin (m : Mode) (b : Bytes) : (Ip4Cp.unmarshal m b).Fin := by
  unfold Ip4Cp.unmarshal
  fin

theorem ChangeToReportFlags.fin (m : Mode) (b : Bytes) : (ChangeToReportFlags.unmarshal m b).Fin := by
  unfold ChangeToReportFlags.unmarshal
  fin

theorem ActionIndication.fin (m : Mode) (b : Bytes) : (ActionIndication.unmarshal m b).Fin := by
  unfold ActionIndication.unmarshal
  fin

theorem TwanId.fin (m : Mode) (b : Bytes) : (TwanId.unmarshal m b).Fin := by
  unfold TwanId.unmarshal
  fin

theorem UliTimestamp.fin (m : Mode) (b : Bytes) : (UliTimestamp.unmarshal m b).Fin := by
  unfold UliTimestamp.unmarshal
  fin

theorem MbmsFlags.fin (m : Mode) (b : Bytes) : (MbmsFlags.unmarshal m b).Fin := by
  unfold MbmsFlags.unmarshal
  fin

theorem RanNasCause.fin (m : Mode) (b : Bytes) : (RanNasCause.unmarshal m b).Fin := by
  unfold RanNasCause.unmarshal
  fin

theorem CnOperatorSelectionEntity.fin (m : Mode) (b : Bytes) : (CnOperatorSelectionEntity.unmarshal m b).Fin := by
  unfold CnOperatorSelectionEntity.unmarshal
  fin

theorem Twmi.fin (m : Mode) (b : Bytes) : (Twmi.unmarshal m b).Fin := by
  unfold Twmi.unmarshal
  fin

theorem NodeNumber.fin (m : Mode) (b : Bytes) : (NodeNumber.unmarshal m b).Fin := by
  unfold NodeNumber.unmarshal
  fin

theorem NodeIdentifier.fin (m : Mode) (b : Bytes) : (NodeIdentifier.unmarshal m b).Fin := by
  unfold NodeIdentifier.unmarshal
  fin

theorem PresenceReportingAreaAction.fin (m : Mode) (b : Bytes) : (PresenceReportingAreaAction.unmarshal m b).Fin := by
  unfold PresenceReportingAreaAction.unmarshal
  fin

theorem PresenceReportingAreaInformation.fin (m : Mode) (b : Bytes) : (PresenceReportingAreaInformation.unmarshal m b).Fin := by
  unfold PresenceReportingAreaInformation.unmarshal
  fin

theorem TwanIdTimeStamp.fin (m : Mode) (b : Bytes) : (TwanIdTimeStamp.unmarshal m b).Fin := by
  unfold TwanIdTimeStamp.unmarshal
  fin

theorem Metric.fin (m : Mode) (b : Bytes) : (Metric.unmarshal m b).Fin := by
  unfold Metric.unmarshal
  fin

theorem Sqn.fin (m : Mode) (b : Bytes) : (Sqn.unmarshal m b).Fin := by
  unfold Sqn.unmarshal
  fin

theorem ApnRelativeCapacity.fin (m : Mode) (b : Bytes) : (ApnRelativeCapacity.unmarshal m b).Fin := by
  unfold ApnRelativeCapacity.unmarshal
  fin

theorem WlanOffloadIndication.fin (m : Mode) (b : Bytes) : (WlanOffloadIndication.unmarshal m b).Fin := by
  unfold WlanOffloadIndication.unmarshal
  fin

theorem PagingServiceInfo.fin (m : Mode) (b : Bytes) : (PagingServiceInfo.unmarshal m b).Fin := by
  unfold PagingServiceInfo.unmarshal
  fin

theorem IntegerNumber.fin (m : Mode) (b : Bytes) : (IntegerNumber.unmarshal m b).Fin := by
  unfold IntegerNumber.unmarshal
  fin

theorem MilliSecondTimeStamp.fin (m : Mode) (b : Bytes) : (MilliSecondTimeStamp.unmarshal m b).Fin := by
  unfold MilliSecondTimeStamp.unmarshal
  fin

theorem MonitoringEventInformation.fin (m : Mode) (b : Bytes) : (MonitoringEventInformation.unmarshal m b).Fin := by
  unfold MonitoringEventInformation.unmarshal
  fin

theorem EcgiList.fin (m : Mode) (b : Bytes) : (EcgiList.unmarshal m b).Fin := by
  unfold EcgiList.unmarshal
  fin

theorem RemoteUserId.fin (m : Mode) (b : Bytes) : (RemoteUserId.unmarshal m b).Fin := by
  unfold RemoteUserId.unmarshal
  fin

theorem RemoteUeIpInformation.fin (m : Mode) (b : Bytes) : (RemoteUeIpInformation.unmarshal m b).Fin := by
  unfold RemoteUeIpInformation.unmarshal
  fin

theorem CIoTOptimizationSupportIndication.fin (m : Mode) (b : Bytes) : (CIoTOptimizationSupportIndication.unmarshal m b).Fin := by
  unfold CIoTOptimizationSupportIndication.unmarshal
  fin

theorem HeaderCompressionConfiguration.fin (m : Mode) (b : Bytes) : (HeaderCompressionConfiguration.unmarshal m b).Fin := by
  unfold HeaderCompressionConfiguration.unmarshal
  fin

theorem Epco.fin (m : Mode) (b : Bytes) : (Epco.unmarshal m b).Fin := by
  unfold Epco.unmarshal
  fin

theorem ServingPlmnRateControl.fin (m : Mode) (b : Bytes) : (ServingPlmnRateControl.unmarshal m b).Fin := by
  unfold ServingPlmnRateControl.unmarshal
  fin

theorem Counter.fin (m : Mode) (b : Bytes) : (Counter.unmarshal m b).Fin := by
  unfold Counter.unmarshal
  fin

theorem MappedUeUsageType.fin (m : Mode) (b : Bytes) : (MappedUeUsageType.unmarshal m b).Fin := by
  unfold MappedUeUsageType.unmarshal
  fin

theorem SecondaryRatUsageDataReport.fin (m : Mode) (b : Bytes) : (SecondaryRatUsageDataReport.unmarshal m b).Fin := by
  unfold SecondaryRatUsageDataReport.unmarshal
  fin

theorem UpFunctionSelectionIndicationFlags.fin (m : Mode) (b : Bytes) : (UpFunctionSelectionIndicationFlags.unmarshal m b).Fin := by
  unfold UpFunctionSelectionIndicationFlags.unmarshal
  fin

theorem MaxPacketLossRate.fin (m : Mode) (b : Bytes) : (MaxPacketLossRate.unmarshal m b).Fin := by
  unfold MaxPacketLossRate.unmarshal
  fin

theorem ApnRateControlStatus.fin (m : Mode) (b : Bytes) : (ApnRateControlStatus.unmarshal m b).Fin := by
  unfold ApnRateControlStatus.unmarshal
  fin

theorem ExtendedTraceInformation.fin (m : Mode) (b : Bytes) : (ExtendedTraceInformation.unmarshal m b).Fin := by
  unfold ExtendedTraceInformation.unmarshal
  fin

theorem MonitoringEventExtensionInfo.fin (m : Mode) (b : Bytes) : (MonitoringEventExtensionInfo.unmarshal m b).Fin := by
  unfold MonitoringEventExtensionInfo.unmarshal
  fin

theorem AdditionalRrmPolicyIndex.fin (m : Mode) (b : Bytes) : (AdditionalRrmPolicyIndex.unmarshal m b).Fin := by
  unfold AdditionalRrmPolicyIndex.unmarshal
  fin

theorem ServicesAuthorized.fin (m : Mode) (b : Bytes) : (ServicesAuthorized.unmarshal m b).Fin := by
  unfold ServicesAuthorized.unmarshal
  fin

theorem BitRate.fin (m : Mode) (b : Bytes) : (BitRate.unmarshal m b).Fin := by
  unfold BitRate.unmarshal
  fin

theorem PC5QosFlow.fin (m : Mode) (b : Bytes) : (PC5QosFlow.unmarshal m b).Fin := by
  unfold PC5QosFlow.unmarshal
  fin

theorem SgiPtpTunnelAddress.fin (m : Mode) (b : Bytes) : (SgiPtpTunnelAddress.unmarshal m b).Fin := by
  unfold SgiPtpTunnelAddress.unmarshal
  fin

theorem PgwFqdn.fin (m : Mode) (b : Bytes) : (PgwFqdn.unmarshal m b).Fin := by
  unfold PgwFqdn.unmarshal
  fin

theorem GroupId.fin (m : Mode) (b : Bytes) : (GroupId.unmarshal m b).Fin := by
  unfold GroupId.unmarshal
  fin

theorem PSCellId.fin (m : Mode) (b : Bytes) : (PSCellId.unmarshal m b).Fin := by
  unfold PSCellId.unmarshal
  fin

theorem UpSecurityPolicy.fin (m : Mode) (b : Bytes) : (UpSecurityPolicy.unmarshal m b).Fin := by
  unfold UpSecurityPolicy.unmarshal
  fin

theorem AlternativeImsi.fin (m : Mode) (b : Bytes) : (AlternativeImsi.unmarshal m b).Fin := by
  unfold AlternativeImsi.unmarshal
  fin

theorem SpecialIEWithTypeExt.fin (m : Mode) (b : Bytes) : (SpecialIEWithTypeExt.unmarshal m b).Fin := by
  unfold SpecialIEWithTypeExt.unmarshal
  fin

theorem PrivateExtension.fin (m : Mode) (b : Bytes) : (PrivateExtension.unmarshal m b).Fin := by
  unfold PrivateExtension.unmarshal
  fin

theorem Unknown.fin (m : Mode) (b : Bytes) : (Unknown.unmarshal m b).Fin := by
  unfold Unknown.unmarshal
  fin

theorem groupUnm_fin {α : Type} {dec : Bytes → R Err (List IE)} {mk : UInt8 → UInt16 → UInt8 → List IE → α} {m : Mode}
    {b : Bytes} (hd : ∀ s, slBody16 m b (declLen b) = .ok s → (dec s).Fin) : (groupUnm dec mk m b).Fin := by
  unfold groupUnm
  refine R.Fin.ite (fun _ => ?_) fun _ => R.Fin.bind Fin_rd fun _ => R.Fin.err
  refine R.Fin.bind Fin_rd fun t => R.Fin.bind' Fin_rd16 fun l hl => ?_
  have e : (rd16 b 1 : R Err UInt16).Post fun l => l = declLen b := by
    simp only [rd16, Post_bind, Post_rd, Post_pure]
    intro _ _
    rfl
  rw [Post.elim e hl]
  refine R.Fin.bind Fin_rd fun i => R.Fin.bind Fin_checkTliv fun ok => R.Fin.ite (fun _ => ?_) fun _ => R.Fin.err
  exact R.Fin.bind' Fin_slBody16 fun s hs => R.Fin.bind (hd s hs) fun _ => R.Fin.pure

/-- An arm finishes if the decoding of the members does. -/
theorem unmKind_fin {dec : Bytes → R Err (List IE)} {m : Mode} {b : Bytes} {k : Kind}
    (hd : ∀ s, slBody16 m b (declLen b) = .ok s → (dec s).Fin) : (unmKind dec m b k).Fin := by
  cases k with
  | Imsi => exact R.Fin.bind (Imsi.fin m b) fun _ => R.Fin.pure
  | Cause => exact R.Fin.bind (Cause.fin m b) fun _ => R.Fin.pure
  | Recovery => exact R.Fin.bind (Recovery.fin m b) fun _ => R.Fin.pure
  | StnSr => exact R.Fin.bind (StnSr.fin m b) fun _ => R.Fin.pure
  | SrvccCause => exact R.Fin.bind (SrvccCause.fin m b) fun _ => R.Fin.pure
  | Apn => exact R.Fin.bind (Apn.fin m b) fun _ => R.Fin.pure
  | ApnAmbr => exact R.Fin.bind (Ambr.fin m b) fun _ => R.Fin.pure
  | Ebi => exact R.Fin.bind (Ebi.fin m b) fun _ => R.Fin.pure
  | IpAddress => exact R.Fin.bind (IpAddress.fin m b) fun _ => R.Fin.pure
  | Mei => exact R.Fin.bind (Mei.fin m b) fun _ => R.Fin.pure
  | Msisdn => exact R.Fin.bind (Msisdn.fin m b) fun _ => R.Fin.pure
  | Indication => exact R.Fin.bind (Indication.fin m b) fun _ => R.Fin.pure
  | Pco => exact R.Fin.bind (Pco.fin m b) fun _ => R.Fin.pure
  | PdnAddressAllocation => exact R.Fin.bind (PdnAddressAllocation.fin m b) fun _ => R.Fin.pure
  | BearerQos => exact R.Fin.bind (BearerQos.fin m b) fun _ => R.Fin.pure
  | FlowQos => exact R.Fin.bind (FlowQos.fin m b) fun _ => R.Fin.pure
  | RatType => exact R.Fin.bind (RatType.fin m b) fun _ => R.Fin.pure
  | ServingNetwork => exact R.Fin.bind (ServingNetwork.fin m b) fun _ => R.Fin.pure
  | BearerTft => exact R.Fin.bind (BearerTft.fin m b) fun _ => R.Fin.pure
  | TrafficAggregateDescription => exact R.Fin.bind (TrafficAggregateDescription.fin m b) fun _ => R.Fin.pure
  | Uli => exact R.Fin.bind (Uli.fin m b) fun _ => R.Fin.pure
  | Fteid => exact R.Fin.bind (Fteid.fin m b) fun _ => R.Fin.pure
  | Tmsi => exact R.Fin.bind (Tmsi.fin m b) fun _ => R.Fin.pure
  | GlobalCnId => exact R.Fin.bind (GlobalCnId.fin m b) fun _ => R.Fin.pure
  | S103pdf => exact R.Fin.bind (S103pdf.fin m b) fun _ => R.Fin.pure
  | S1udf => exact R.Fin.bind (S1udf.fin m b) fun _ => R.Fin.pure
  | DelayValue => exact R.Fin.bind (DelayValue.fin m b) fun _ => R.Fin.pure
  | BearerContext => exact R.Fin.bind (groupUnm_fin hd) fun _ => R.Fin.pure
  | ChargingId => exact R.Fin.bind (ChargingId.fin m b) fun _ => R.Fin.pure
  | ChargingCharacteristics => exact R.Fin.bind (ChargingCharacteristics.fin m b) fun _ => R.Fin.pure
  | TraceInformation => exact R.Fin.bind (TraceInformation.fin m b) fun _ => R.Fin.pure
  | BearerFlags => exact R.Fin.bind (BearerFlags.fin m b) fun _ => R.Fin.pure
  | PdnType => exact R.Fin.bind (PdnType.fin m b) fun _ => R.Fin.pure
  | Pti => exact R.Fin.bind (Pti.fin m b) fun _ => R.Fin.pure
  | MmContext => exact R.Fin.bind (MmContext.fin m b) fun _ => R.Fin.pure
  | PdnConnections => exact R.Fin.bind (groupUnm_fin hd) fun _ => R.Fin.pure
  | PduNumbers => exact R.Fin.bind (PduNumbers.fin m b) fun _ => R.Fin.pure
  | Ptmsi => exact R.Fin.bind (Ptmsi.fin m b) fun _ => R.Fin.pure
  | PtmsiSignature => exact R.Fin.bind (PtmsiSignature.fin m b) fun _ => R.Fin.pure
  | HopCounter => exact R.Fin.bind (HopCounter.fin m b) fun _ => R.Fin.pure
  | UeTimeZone => exact R.Fin.bind (UeTimeZone.fin m b) fun _ => R.Fin.pure
  | TraceReference => exact R.Fin.bind (TraceReference.fin m b) fun _ => R.Fin.pure
  | CompleteRequestMessage => exact R.Fin.bind (CompleteRequestMessage.fin m b) fun _ => R.Fin.pure
  | Guti => exact R.Fin.bind (Guti.fin m b) fun _ => R.Fin.pure
  | Fcontainer => exact R.Fin.bind (Fcontainer.fin m b) fun _ => R.Fin.pure
  | Fcause => exact R.Fin.bind (Fcause.fin m b) fun _ => R.Fin.pure
  | PlmnId => exact R.Fin.bind (PlmnId.fin m b) fun _ => R.Fin.pure
  | TargetIdentification => exact R.Fin.bind (TargetIdentification.fin m b) fun _ => R.Fin.pure
  | PacketFlowId => exact R.Fin.bind (PacketFlowId.fin m b) fun _ => R.Fin.pure
  | RabContext => exact R.Fin.bind (RabContext.fin m b) fun _ => R.Fin.pure
  | SrcRncPdcpCtxInfo => exact R.Fin.bind (SourceRncPdcpContextInfo.fin m b) fun _ => R.Fin.pure
  | PortNumber => exact R.Fin.bind (PortNumber.fin m b) fun _ => R.Fin.pure
  | ApnRestriction => exact R.Fin.bind (ApnRestriction.fin m b) fun _ => R.Fin.pure
  | SelectionMode => exact R.Fin.bind (SelectionMode.fin m b) fun _ => R.Fin.pure
  | SourceIdentification => exact R.Fin.bind (SourceIdentification.fin m b) fun _ => R.Fin.pure
  | ChangeReportingAction => exact R.Fin.bind (ChangeReportingAction.fin m b) fun _ => R.Fin.pure
  | Fqcsid => exact R.Fin.bind (Fqcsid.fin m b) fun _ => R.Fin.pure
  | ChannelNeeded => exact R.Fin.bind (ChannelNeeded.fin m b) fun _ => R.Fin.pure
  | EmlppPriority => exact R.Fin.bind (EmlppPriority.fin m b) fun _ => R.Fin.pure
  | NodeType => exact R.Fin.bind (NodeType.fin m b) fun _ => R.Fin.pure
  | Fqdn => exact R.Fin.bind (Fqdn.fin m b) fun _ => R.Fin.pure
  | TransactionIdentifier => exact R.Fin.bind (TransactionIdentifier.fin m b) fun _ => R.Fin.pure
  | MbmsSa => exact R.Fin.bind (MbmsServiceArea.fin m b) fun _ => R.Fin.pure
  | MbmsSd => exact R.Fin.bind (MbmsSessionDuration.fin m b) fun _ => R.Fin.pure
  | MbmsSessionId => exact R.Fin.bind (MbmsSessionId.fin m b) fun _ => R.Fin.pure
  | MbmsFlowId => exact R.Fin.bind (MbmsFlowId.fin m b) fun _ => R.Fin.pure
  | MbmsIpMulticastDistribution => exact R.Fin.bind (MbmsIpMulticastDistribution.fin m b) fun _ => R.Fin.pure
  | MbmsDistributionAck => exact R.Fin.bind (MbmsDistributionAck.fin m b) fun _ => R.Fin.pure
  | RfspIndex => exact R.Fin.bind (RfspIndex.fin m b) fun _ => R.Fin.pure
  | Uci => exact R.Fin.bind (Uci.fin m b) fun _ => R.Fin.pure
  | CSGInformationReportingAction => exact R.Fin.bind (CSGInformationReportingAction.fin m b) fun _ => R.Fin.pure
  | CsgId => exact R.Fin.bind (CsgId.fin m b) fun _ => R.Fin.pure
  | CsgMembershipIndication => exact R.Fin.bind (CsgMembershipIndication.fin m b) fun _ => R.Fin.pure
  | ServiceIndicator => exact R.Fin.bind (ServiceIndicator.fin m b) fun _ => R.Fin.pure
  | DetachType => exact R.Fin.bind (DetachType.fin m b) fun _ => R.Fin.pure
  | Ldn => exact R.Fin.bind (Ldn.fin m b) fun _ => R.Fin.pure
  | NodeFeatures => exact R.Fin.bind (NodeFeatures.fin m b) fun _ => R.Fin.pure
  | MbmsTimeToDataTransfer => exact R.Fin.bind (MbmsTimeToDataTransfer.fin m b) fun _ => R.Fin.pure
  | Throttling => exact R.Fin.bind (Throttling.fin m b) fun _ => R.Fin.pure
  | Arp => exact R.Fin.bind (Arp.fin m b) fun _ => R.Fin.pure
  | EpcTimer => exact R.Fin.bind (EpcTimer.fin m b) fun _ => R.Fin.pure
  | Spi => exact R.Fin.bind (Spi.fin m b) fun _ => R.Fin.pure
  | Tmgi => exact R.Fin.bind (Tmgi.fin m b) fun _ => R.Fin.pure
  | AdditionalMmContextForSrvcc => exact R.Fin.bind (AdditionalMmContextForSrvcc.fin m b) fun _ => R.Fin.pure
  | AdditionalFlagsSrvcc => exact R.Fin.bind (AdditionalFlagsSrvcc.fin m b) fun _ => R.Fin.pure
  | MdtConfiguration => exact R.Fin.bind (MdtConfiguration.fin m b) fun _ => R.Fin.pure
  | Apco => exact R.Fin.bind (Apco.fin m b) fun _ => R.Fin.pure
  | AbsoluteTimeMbmsDataTransfer => exact R.Fin.bind (AbsoluteTimeMbmsDataTransfer.fin m b) fun _ => R.Fin.pure
  | HenbInfoReporting => exact R.Fin.bind (HenbInfoReporting.fin m b) fun _ => R.Fin.pure
  | Ip4Cp => exact R.Fin.bind (Ip4Cp.fin m b) fun _ => R.Fin.pure
  | ChangeToReportFlags => exact R.Fin.bind (ChangeToReportFlags.fin m b) fun _ => R.Fin.pure
  | ActionIndication => exact R.Fin.bind (ActionIndication.fin m b) fun _ => R.Fin.pure
  | TwanId => exact R.Fin.bind (TwanId.fin m b) fun _ => R.Fin.pure
  | UliTimestamp => exact R.Fin.bind (UliTimestamp.fin m b) fun _ => R.Fin.pure
  | MbmsFlags => exact R.Fin.bind (MbmsFlags.fin m b) fun _ => R.Fin.pure
  | RanNasCause => exact R.Fin.bind (RanNasCause.fin m b) fun _ => R.Fin.pure
  | CnOperatorSelectionEntity => exact R.Fin.bind (CnOperatorSelectionEntity.fin m b) fun _ => R.Fin.pure
  | Twmi => exact R.Fin.bind (Twmi.fin m b) fun _ => R.Fin.pure
  | NodeNumber => exact R.Fin.bind (NodeNumber.fin m b) fun _ => R.Fin.pure
  | NodeIdentifier => exact R.Fin.bind (NodeIdentifier.fin m b) fun _ => R.Fin.pure
  | PresenceReportingAreaAction => exact R.Fin.bind (PresenceReportingAreaAction.fin m b) fun _ => R.Fin.pure
  | PresenceReportingAreaInformation => exact R.Fin.bind (PresenceReportingAreaInformation.fin m b) fun _ => R.Fin.pure
  | TwanIdTimeStamp => exact R.Fin.bind (TwanIdTimeStamp.fin m b) fun _ => R.Fin.pure
  | OverloadControlInfo => exact R.Fin.bind (groupUnm_fin hd) fun x => R.Fin.bind (by unfold listCheck; fin) fun _ => R.Fin.pure
  | LoadControlInfo => exact R.Fin.bind (groupUnm_fin hd) fun x => R.Fin.bind (by unfold listCheck; fin) fun _ => R.Fin.pure
  | Metric => exact R.Fin.bind (Metric.fin m b) fun _ => R.Fin.pure
  | Sqn => exact R.Fin.bind (Sqn.fin m b) fun _ => R.Fin.pure
  | ApnRelativeCapacity => exact R.Fin.bind (ApnRelativeCapacity.fin m b) fun _ => R.Fin.pure
  | WlanOffloadIndication => exact R.Fin.bind (WlanOffloadIndication.fin m b) fun _ => R.Fin.pure
  | PagingServiceInfo => exact R.Fin.bind (PagingServiceInfo.fin m b) fun _ => R.Fin.pure
  | IntegerNumber => exact R.Fin.bind (IntegerNumber.fin m b) fun _ => R.Fin.pure
  | MilliSecondTimeStamp => exact R.Fin.bind (MilliSecondTimeStamp.fin m b) fun _ => R.Fin.pure
  | MonitoringEventInformation => exact R.Fin.bind (MonitoringEventInformation.fin m b) fun _ => R.Fin.pure
  | EcgiList => exact R.Fin.bind (EcgiList.fin m b) fun _ => R.Fin.pure
  | RemoteUeContext => exact R.Fin.bind (groupUnm_fin hd) fun _ => R.Fin.pure
  | RemoteUserId => exact R.Fin.bind (RemoteUserId.fin m b) fun _ => R.Fin.pure
  | RemoteUeIpInformation => exact R.Fin.bind (RemoteUeIpInformation.fin m b) fun _ => R.Fin.pure
  | CIoTOptimizationSupportIndication => exact R.Fin.bind (CIoTOptimizationSupportIndication.fin m b) fun _ => R.Fin.pure
  | ScefPdnConnections => exact R.Fin.bind (groupUnm_fin hd) fun _ => R.Fin.pure
  | HeaderCompressionConfiguration => exact R.Fin.bind (HeaderCompressionConfiguration.fin m b) fun _ => R.Fin.pure
  | Epco => exact R.Fin.bind (Epco.fin m b) fun _ => R.Fin.pure
  | ServingPlmnRateControl => exact R.Fin.bind (ServingPlmnRateControl.fin m b) fun _ => R.Fin.pure
  | Counter => exact R.Fin.bind (Counter.fin m b) fun _ => R.Fin.pure
  | MappedUeUsageType => exact R.Fin.bind (MappedUeUsageType.fin m b) fun _ => R.Fin.pure
  | SecondaryRatUsageDataReport => exact R.Fin.bind (SecondaryRatUsageDataReport.fin m b) fun _ => R.Fin.pure
  | UpFunctionSelectionIndicationFlags => exact R.Fin.bind (UpFunctionSelectionIndicationFlags.fin m b) fun _ => R.Fin.pure
  | MaxPacketLossRate => exact R.Fin.bind (MaxPacketLossRate.fin m b) fun _ => R.Fin.pure
  | ApnRateControlStatus => exact R.Fin.bind (ApnRateControlStatus.fin m b) fun _ => R.Fin.pure
  | ExtendedTraceInformation => exact R.Fin.bind (ExtendedTraceInformation.fin m b) fun _ => R.Fin.pure
  | MonitoringEventExtensionInfo => exact R.Fin.bind (MonitoringEventExtensionInfo.fin m b) fun _ => R.Fin.pure
  | AdditionalRrmPolicyIndex => exact R.Fin.bind (AdditionalRrmPolicyIndex.fin m b) fun _ => R.Fin.pure
  | V2xInformation => exact R.Fin.bind (groupUnm_fin hd) fun _ => R.Fin.pure
  | PC5QosParameters => exact R.Fin.bind (groupUnm_fin hd) fun x => R.Fin.ite (fun _ => R.Fin.err) fun _ => R.Fin.pure
  | ServicesAuthorized => exact R.Fin.bind (ServicesAuthorized.fin m b) fun _ => R.Fin.pure
  | BitRate => exact R.Fin.bind (BitRate.fin m b) fun _ => R.Fin.pure
  | PC5QosFlow => exact R.Fin.bind (PC5QosFlow.fin m b) fun _ => R.Fin.pure
  | SgiPtpTunnelAddress => exact R.Fin.bind (SgiPtpTunnelAddress.fin m b) fun _ => R.Fin.pure
  | PgwChangeInfo => exact R.Fin.bind (groupUnm_fin hd) fun _ => R.Fin.pure
  | PgwFqdn => exact R.Fin.bind (PgwFqdn.fin m b) fun _ => R.Fin.pure
  | GroupId => exact R.Fin.bind (GroupId.fin m b) fun _ => R.Fin.pure
  | PSCellId => exact R.Fin.bind (PSCellId.fin m b) fun _ => R.Fin.pure
  | UpSecurityPolicy => exact R.Fin.bind (UpSecurityPolicy.fin m b) fun _ => R.Fin.pure
  | AlternativeImsi => exact R.Fin.bind (AlternativeImsi.fin m b) fun _ => R.Fin.pure
  | SpecialIEWithTypeExt => exact R.Fin.bind (SpecialIEWithTypeExt.fin m b) fun _ => R.Fin.pure
  | PrivateExtension => exact R.Fin.bind (PrivateExtension.fin m b) fun _ => R.Fin.pure
  | Unknown => exact R.Fin.bind (Unknown.fin m b) fun _ => R.Fin.pure

theorem IE.len_fin {m : Mode} {e : IE} : (e.len m).Fin := by
  cases e with
  | MmContext x => cases x <;> exact Fin_ieLenU
  | EcgiList x => simp only [IE.len, EcgiList.len]; fin
  | PagingServiceInfo x => simp only [IE.len, PagingServiceInfo.len]; fin
  | Cause x => exact Fin_ieLen16
  | Apn x => exact Fin_ieLen16
  | Fteid x => exact Fin_ieLen16
  | CompleteRequestMessage x => exact Fin_ieLen16
  | Fcontainer x => exact Fin_ieLen16
  | SrcRncPdcpCtxInfo x => exact Fin_ieLen16
  | Fqcsid x => exact Fin_ieLen16
  | Fqdn x => exact Fin_ieLen16
  | Ldn x => exact Fin_ieLen16
  | RemoteUeIpInformation x => exact Fin_ieLen16
  | ExtendedTraceInformation x => exact Fin_ieLen16
  | _ => first | exact R.Fin.ok | exact Fin_ieLenU

end Gtp.V2
