import Verif.V2.PostLen

/-!
# Panics and consumed octets, for the arms of the IE decoder

Generated by `scripts/gen_sum.py`.
-/

namespace Gtp.V2

theorem Imsi.post (m : Mode) (b : Bytes) : (Imsi.unmarshal m b).Post fun x => x.length = declLen b := by
  unfold Imsi.unmarshal
  post_len

theorem Cause.post (m : Mode) (b : Bytes) : (Cause.unmarshal m b).Post fun x => x.length = declLen b := by
  unfold Cause.unmarshal
  post_len

theorem Recovery.post (m : Mode) (b : Bytes) : (Recovery.unmarshal m b).Post fun x => x.length = declLen b := by
  unfold Recovery.unmarshal
  post_len

theorem StnSr.post (m : Mode) (b : Bytes) : (StnSr.unmarshal m b).Post fun x => x.length = declLen b := by
  unfold StnSr.unmarshal
  post_len

theorem SrvccCause.post (m : Mode) (b : Bytes) : (SrvccCause.unmarshal m b).Post fun x => x.length = declLen b := by
  unfold SrvccCause.unmarshal
  post_len

theorem Apn.post (m : Mode) (b : Bytes) : (Apn.unmarshal m b).Post fun x => x.length = declLen b := by
  unfold Apn.unmarshal
  post_len

theorem Ambr.post (m : Mode) (b : Bytes) : (Ambr.unmarshal m b).Post fun x => x.length = declLen b := by
  unfold Ambr.unmarshal
  post_len

theorem Ebi.post (m : Mode) (b : Bytes) : (Ebi.unmarshal m b).Post fun x => x.length = declLen b := by
  unfold Ebi.unmarshal
  post_len

theorem IpAddress.post (m : Mode) (b : Bytes) : (IpAddress.unmarshal m b).Post fun x => x.length = declLen b := by
  unfold IpAddress.unmarshal
  post_len

theorem Mei.post (m : Mode) (b : Bytes) : (Mei.unmarshal m b).Post fun x => x.length = declLen b := by
  unfold Mei.unmarshal
  post_len

theorem Msisdn.post (m : Mode) (b : Bytes) : (Msisdn.unmarshal m b).Post fun x => x.length = declLen b := by
  unfold Msisdn.unmarshal
  post_len

theorem Indication.post (m : Mode) (b : Bytes) : (Indication.unmarshal m b).Post fun x => x.length = declLen b := by
  unfold Indication.unmarshal
  post_len

theorem Pco.post (m : Mode) (b : Bytes) : (Pco.unmarshal m b).Post fun x => x.length = declLen b := by
  unfold Pco.unmarshal
  post_len

theorem PdnAddressAllocation.post (m : Mode) (b : Bytes) : (PdnAddressAllocation.unmarshal m b).Post fun x => x.length = declLen b := by
  unfold PdnAddressAllocation.unmarshal
  post_len

theorem BearerQos.post (m : Mode) (b : Bytes) : (BearerQos.unmarshal m b).Post fun x => x.length = declLen b := by
  unfold BearerQos.unmarshal
  post_len

theorem FlowQos.post (m : Mode) (b : Bytes) : (FlowQos.unmarshal m b).Post fun x => x.length = declLen b := by
  unfold FlowQos.unmarshal
  post_len

theorem RatType.post (m : Mode) (b : Bytes) : (RatType.unmarshal m b).Post fun x => x.length = declLen b := by
  unfold RatType.unmarshal
  post_len

theorem ServingNetwork.post (m : Mode) (b : Bytes) : (ServingNetwork.unmarshal m b).Post fun x => x.length = declLen b := by
  unfold ServingNetwork.unmarshal
  post_len

theorem BearerTft.post (m : Mode) (b : Bytes) : (BearerTft.unmarshal m b).Post fun x => x.length = declLen b := by
  unfold BearerTft.unmarshal
  post_len

theorem TrafficAggregateDescription.post (m : Mode) (b : Bytes) : (TrafficAggregateDescription.unmarshal m b).Post fun x => x.length = declLen b := by
  unfold TrafficAggregateDescription.unmarshal
  post_len

theorem Uli.post (m : Mode) (b : Bytes) : (Uli.unmarshal m b).Post fun x => x.length = declLen b := by
  unfold Uli.unmarshal
  post_len

theorem Fteid.post (m : Mode) (b : Bytes) : (Fteid.unmarshal m b).Post fun x => x.length = declLen b := by
  unfold Fteid.unmarshal
  post_len

theorem Tmsi.post (m : Mode) (b : Bytes) : (Tmsi.unmarshal m b).Post fun x => x.length = declLen b := by
  unfold Tmsi.unmarshal
  post_len

theorem GlobalCnId.post (m : Mode) (b : Bytes) : (GlobalCnId.unmarshal m b).Post fun x => x.length = declLen b := by
  unfold GlobalCnId.unmarshal
  post_len

theorem S103pdf.post (m : Mode) (b : Bytes) : (S103pdf.unmarshal m b).Post fun x => x.length = declLen b := by
  unfold S103pdf.unmarshal
  post_len

theorem S1udf.post (m : Mode) (b : Bytes) : (S1udf.unmarshal m b).Post fun x => x.length = declLen b := by
  unfold S1udf.unmarshal
  post_len

theorem DelayValue.post (m : Mode) (b : Bytes) : (DelayValue.unmarshal m b).Post fun x => x.length = declLen b := by
  unfold DelayValue.unmarshal
  post_len

theorem BearerContext.step_length (s : BearerContext × Bool) (e : IE) : (BearerContext.step s e).1.length = s.1.length := by
  unfold BearerContext.step
  split <;> (repeat' split) <;> rfl

theorem BearerContext.foldl_length (s : BearerContext × Bool) (l : List IE) : (l.foldl BearerContext.step s).1.length = s.1.length := by
  induction l generalizing s with
  | nil => rfl
  | cons e l ih => rw [List.foldl_cons, ih, BearerContext.step_length]

theorem BearerContext.ofGroup_length (t : UInt8) (n : UInt16) (i : UInt8) (l : List IE) : (BearerContext.ofGroup t n i l).length = n := by
  rw [BearerContext.ofGroup, BearerContext.foldl_length]
  rfl

theorem ChargingId.post (m : Mode) (b : Bytes) : (ChargingId.unmarshal m b).Post fun x => x.length = declLen b := by
  unfold ChargingId.unmarshal
  post_len

theorem ChargingCharacteristics.post (m : Mode) (b : Bytes) : (ChargingCharacteristics.unmarshal m b).Post fun x => x.length = declLen b := by
  unfold ChargingCharacteristics.unmarshal
  post_len

theorem TraceInformation.post (m : Mode) (b : Bytes) : (TraceInformation.unmarshal m b).Post fun x => x.length = declLen b := by
  unfold TraceInformation.unmarshal
  post_len

theorem BearerFlags.post (m : Mode) (b : Bytes) : (BearerFlags.unmarshal m b).Post fun x => x.length = declLen b := by
  unfold BearerFlags.unmarshal
  post_len

theorem PdnType.post (m : Mode) (b : Bytes) : (PdnType.unmarshal m b).Post fun x => x.length = declLen b := by
  unfold PdnType.unmarshal
  post_len

theorem Pti.post (m : Mode) (b : Bytes) : (Pti.unmarshal m b).Post fun x => x.length = declLen b := by
  unfold Pti.unmarshal
  post_len

theorem MmContextEpsSecurityContextQuadruplets.post (m : Mode) (b : Bytes) : (MmContextEpsSecurityContextQuadruplets.unmarshal m b).Post fun x => x.length = declLen b := by
  unfold MmContextEpsSecurityContextQuadruplets.unmarshal
  post_len

theorem MmContextUmtsKeyQuintuplets.post (m : Mode) (b : Bytes) : (MmContextUmtsKeyQuintuplets.unmarshal m b).Post fun x => x.length = declLen b := by
  unfold MmContextUmtsKeyQuintuplets.unmarshal
  post_len

theorem MmContextUmtsKeyQuadrupletsQuintuplets.post (m : Mode) (b : Bytes) : (MmContextUmtsKeyQuadrupletsQuintuplets.unmarshal m b).Post fun x => x.length = declLen b := by
  unfold MmContextUmtsKeyQuadrupletsQuintuplets.unmarshal
  post_len

theorem MmContextUmtsKeyCipherQuintuplets.post (m : Mode) (b : Bytes) : (MmContextUmtsKeyCipherQuintuplets.unmarshal m b).Post fun x => x.length = declLen b := by
  unfold MmContextUmtsKeyCipherQuintuplets.unmarshal
  post_len

theorem MmContextGsmKeyTriplets.post (m : Mode) (b : Bytes) : (MmContextGsmKeyTriplets.unmarshal m b).Post fun x => x.length = declLen b := by
  unfold MmContextGsmKeyTriplets.unmarshal
  post_len

theorem MmContextGsmKeyCipherQuintuplets.post (m : Mode) (b : Bytes) : (MmContextGsmKeyCipherQuintuplets.unmarshal m b).Post fun x => x.length = declLen b := by
  unfold MmContextGsmKeyCipherQuintuplets.unmarshal
  post_len

theorem MmContext.post (m : Mode) (b : Bytes) : (MmContext.unmarshal m b).Post fun x => x.length = declLen b := by
  unfold MmContext.unmarshal
  refine Post_bind_any fun t => ?_
  refine Post_ite_any (by rw [Post_bind]; exact Post.mono (MmContextEpsSecurityContextQuadruplets.post m b) fun _ h => h) ?_
  refine Post_ite_any (by rw [Post_bind]; exact Post.mono (MmContextUmtsKeyQuintuplets.post m b) fun _ h => h) ?_
  refine Post_ite_any (by rw [Post_bind]; exact Post.mono (MmContextUmtsKeyQuadrupletsQuintuplets.post m b) fun _ h => h) ?_
  refine Post_ite_any (by rw [Post_bind]; exact Post.mono (MmContextUmtsKeyCipherQuintuplets.post m b) fun _ h => h) ?_
  refine Post_ite_any (by rw [Post_bind]; exact Post.mono (MmContextGsmKeyTriplets.post m b) fun _ h => h) ?_
  refine Post_ite_any (by rw [Post_bind]; exact Post.mono (MmContextGsmKeyCipherQuintuplets.post m b) fun _ h => h) ?_
  exact Post_err'

theorem PdnConnections.step_length (s : PdnConnections) (e : IE) : (PdnConnections.step s e).length = s.length := by
  unfold PdnConnections.step
  split <;> (repeat' split) <;> rfl

theorem PdnConnections.foldl_length (s : PdnConnections) (l : List IE) : (l.foldl PdnConnections.step s).length = s.length := by
  induction l generalizing s with
  | nil => rfl
  | cons e l ih => rw [List.foldl_cons, ih, PdnConnections.step_length]

theorem PdnConnections.ofGroup_length (t : UInt8) (n : UInt16) (i : UInt8) (l : List IE) : (PdnConnections.ofGroup t n i l).length = n := by
  rw [PdnConnections.ofGroup, PdnConnections.foldl_length]
  rfl

theorem PduNumbers.post (m : Mode) (b : Bytes) : (PduNumbers.unmarshal m b).Post fun x => x.length = declLen b := by
  unfold PduNumbers.unmarshal
  post_len

theorem Ptmsi.post (m : Mode) (b : Bytes) : (Ptmsi.unmarshal m b).Post fun x => x.length = declLen b := by
  unfold Ptmsi.unmarshal
  post_len

theorem PtmsiSignature.post (m : Mode) (b : Bytes) : (PtmsiSignature.unmarshal m b).Post fun x => x.length = declLen b := by
  unfold PtmsiSignature.unmarshal
  post_len

theorem HopCounter.post (m : Mode) (b : Bytes) : (HopCounter.unmarshal m b).Post fun x => x.length = declLen b := by
  unfold HopCounter.unmarshal
  post_len

theorem UeTimeZone.post (m : Mode) (b : Bytes) : (UeTimeZone.unmarshal m b).Post fun x => x.length = declLen b := by
  unfold UeTimeZone.unmarshal
  post_len

theorem TraceReference.post (m : Mode) (b : Bytes) : (TraceReference.unmarshal m b).Post fun x => x.length = declLen b := by
  unfold TraceReference.unmarshal
  post_len

theorem CompleteRequestMessage.post (m : Mode) (b : Bytes) : (CompleteRequestMessage.unmarshal m b).Post fun x => x.length = declLen b := by
  unfold CompleteRequestMessage.unmarshal
  post_len

theorem Guti.post (m : Mode) (b : Bytes) : (Guti.unmarshal m b).Post fun x => x.length = declLen b := by
  unfold Guti.unmarshal
  post_len

theorem Fcontainer.post (m : Mode) (b : Bytes) : (Fcontainer.unmarshal m b).Post fun x => x.length = declLen b := by
  unfold Fcontainer.unmarshal
  post_len

theorem Fcause.post (m : Mode) (b : Bytes) : (Fcause.unmarshal m b).Post fun x => x.length = declLen b := by
  unfold Fcause.unmarshal
  post_len

theorem PlmnId.post (m : Mode) (b : Bytes) : (PlmnId.unmarshal m b).Post fun x => x.length = declLen b := by
  unfold PlmnId.unmarshal
  post_len

theorem TargetIdentification.post (m : Mode) (b : Bytes) : (TargetIdentification.unmarshal m b).Post fun x => x.length = declLen b := by
  unfold TargetIdentification.unmarshal
  post_len

theorem PacketFlowId.post (m : Mode) (b : Bytes) : (PacketFlowId.unmarshal m b).Post fun x => x.length = declLen b := by
  unfold PacketFlowId.unmarshal
  post_len

theorem RabContext.post (m : Mode) (b : Bytes) : (RabContext.unmarshal m b).Post fun x => x.length = declLen b := by
  unfold RabContext.unmarshal
  post_len

theorem SourceRncPdcpContextInfo.post (m : Mode) (b : Bytes) : (SourceRncPdcpContextInfo.unmarshal m b).Post fun x => x.length = declLen b := by
  unfold SourceRncPdcpContextInfo.unmarshal
  post_len

theorem PortNumber.post (m : Mode) (b : Bytes) : (PortNumber.unmarshal m b).Post fun x => x.length = declLen b := by
  unfold PortNumber.unmarshal
  post_len

theorem ApnRestriction.post (m : Mode) (b : Bytes) : (ApnRestriction.unmarshal m b).Post fun x => x.length = declLen b := by
  unfold ApnRestriction.unmarshal
  post_len

theorem SelectionMode.post (m : Mode) (b : Bytes) : (SelectionMode.unmarshal m b).Post fun x => x.length = declLen b := by
  unfold SelectionMode.unmarshal
  post_len

theorem SourceIdentification.post (m : Mode) (b : Bytes) : (SourceIdentification.unmarshal m b).Post fun x => x.length = declLen b := by
  unfold SourceIdentification.unmarshal
  post_len

theorem ChangeReportingAction.post (m : Mode) (b : Bytes) : (ChangeReportingAction.unmarshal m b).Post fun x => x.length = declLen b := by
  unfold ChangeReportingAction.unmarshal
  post_len

theorem Fqcsid.post (m : Mode) (b : Bytes) : (Fqcsid.unmarshal m b).Post fun x => x.length = declLen b := by
  unfold Fqcsid.unmarshal
  post_len

theorem ChannelNeeded.post (m : Mode) (b : Bytes) : (ChannelNeeded.unmarshal m b).Post fun x => x.length = declLen b := by
  unfold ChannelNeeded.unmarshal
  post_len

theorem EmlppPriority.post (m : Mode) (b : Bytes) : (EmlppPriority.unmarshal m b).Post fun x => x.length = declLen b := by
  unfold EmlppPriority.unmarshal
  post_len

theorem NodeType.post (m : Mode) (b : Bytes) : (NodeType.unmarshal m b).Post fun x => x.length = declLen b := by
  unfold NodeType.unmarshal
  post_len

theorem Fqdn.post (m : Mode) (b : Bytes) : (Fqdn.unmarshal m b).Post fun x => x.length = declLen b := by
  unfold Fqdn.unmarshal
  post_len

theorem TransactionIdentifier.post (m : Mode) (b : Bytes) : (TransactionIdentifier.unmarshal m b).Post fun x => x.length = declLen b := by
  unfold TransactionIdentifier.unmarshal
  post_len

theorem MbmsServiceArea.post (m : Mode) (b : Bytes) : (MbmsServiceArea.unmarshal m b).Post fun x => x.length = declLen b := by
  unfold MbmsServiceArea.unmarshal
  post_len

theorem MbmsSessionDuration.post (m : Mode) (b : Bytes) : (MbmsSessionDuration.unmarshal m b).Post fun x => x.length = declLen b := by
  unfold MbmsSessionDuration.unmarshal
  post_len

theorem MbmsSessionId.post (m : Mode) (b : Bytes) : (MbmsSessionId.unmarshal m b).Post fun x => x.length = declLen b := by
  unfold MbmsSessionId.unmarshal
  post_len

theorem MbmsFlowId.post (m : Mode) (b : Bytes) : (MbmsFlowId.unmarshal m b).Post fun x => x.length = declLen b := by
  unfold MbmsFlowId.unmarshal
  post_len

theorem MbmsIpMulticastDistribution.post (m : Mode) (b : Bytes) : (MbmsIpMulticastDistribution.unmarshal m b).Post fun x => x.length = declLen b := by
  unfold MbmsIpMulticastDistribution.unmarshal
  post_len

theorem MbmsDistributionAck.post (m : Mode) (b : Bytes) : (MbmsDistributionAck.unmarshal m b).Post fun x => x.length = declLen b := by
  unfold MbmsDistributionAck.unmarshal
  post_len

theorem RfspIndex.post (m : Mode) (b : Bytes) : (RfspIndex.unmarshal m b).Post fun x => x.length = declLen b := by
  unfold RfspIndex.unmarshal
  post_len

theorem Uci.post (m : Mode) (b : Bytes) : (Uci.unmarshal m b).Post fun x => x.length = declLen b := by
  unfold Uci.unmarshal
  post_len

theorem CSGInformationReportingAction.post (m : Mode) (b : Bytes) : (CSGInformationReportingAction.unmarshal m b).Post fun x => x.length = declLen b := by
  unfold CSGInformationReportingAction.unmarshal
  post_len

theorem CsgId.post (m : Mode) (b : Bytes) : (CsgId.unmarshal m b).Post fun x => x.length = declLen b := by
  unfold CsgId.unmarshal
  post_len

theorem CsgMembershipIndication.post (m : Mode) (b : Bytes) : (CsgMembershipIndication.unmarshal m b).Post fun x => x.length = declLen b := by
  unfold CsgMembershipIndication.unmarshal
  post_len

theorem ServiceIndicator.post (m : Mode) (b : Bytes) : (ServiceIndicator.unmarshal m b).Post fun x => x.length = declLen b := by
  unfold ServiceIndicator.unmarshal
  post_len

theorem DetachType.post (m : Mode) (b : Bytes) : (DetachType.unmarshal m b).Post fun x => x.length = declLen b := by
  unfold DetachType.unmarshal
  post_len

theorem Ldn.post (m : Mode) (b : Bytes) : (Ldn.unmarshal m b).Post fun x => x.length = declLen b := by
  unfold Ldn.unmarshal
  post_len

theorem NodeFeatures.post (m : Mode) (b : Bytes) : (NodeFeatures.unmarshal m b).Post fun x => x.length = declLen b := by
  unfold NodeFeatures.unmarshal
  post_len

theorem MbmsTimeToDataTransfer.post (m : Mode) (b : Bytes) : (MbmsTimeToDataTransfer.unmarshal m b).Post fun x => x.length = declLen b := by
  unfold MbmsTimeToDataTransfer.unmarshal
  post_len

theorem Throttling.post (m : Mode) (b : Bytes) : (Throttling.unmarshal m b).Post fun x => x.length = declLen b := by
  unfold Throttling.unmarshal
  post_len

theorem Arp.post (m : Mode) (b : Bytes) : (Arp.unmarshal m b).Post fun x => x.length = declLen b := by
  unfold Arp.unmarshal
  post_len

theorem EpcTimer.post (m : Mode) (b : Bytes) : (EpcTimer.unmarshal m b).Post fun x => x.length = declLen b := by
  unfold EpcTimer.unmarshal
  post_len

theorem Spi.post (m : Mode) (b : Bytes) : (Spi.unmarshal m b).Post fun x => x.length = declLen b := by
  unfold Spi.unmarshal
  post_len

theorem Tmgi.post (m : Mode) (b : Bytes) : (Tmgi.unmarshal m b).Post fun x => x.length = declLen b := by
  unfold Tmgi.unmarshal
  post_len

theorem AdditionalMmContextForSrvcc.post (m : Mode) (b : Bytes) : (AdditionalMmContextForSrvcc.unmarshal m b).Post fun x => x.length = declLen b := by
  unfold AdditionalMmContextForSrvcc.unmarshal
  post_len

theorem AdditionalFlagsSrvcc.post (m : Mode) (b : Bytes) : (AdditionalFlagsSrvcc.unmarshal m b).Post fun x => x.length = declLen b := by
  unfold AdditionalFlagsSrvcc.unmarshal
  post_len

theorem MdtConfiguration.post (m : Mode) (b : Bytes) : (MdtConfiguration.unmarshal m b).Post fun x => x.length = declLen b := by
  unfold MdtConfiguration.unmarshal
  post_len

theorem Apco.post (m : Mode) (b : Bytes) : (Apco.unmarshal m b).Post fun x => x.length = declLen b := by
  unfold Apco.unmarshal
  post_len

theorem AbsoluteTimeMbmsDataTransfer.post (m : Mode) (b : Bytes) : (AbsoluteTimeMbmsDataTransfer.unmarshal m b).Post fun x => x.length = declLen b := by
  unfold AbsoluteTimeMbmsDataTransfer.unmarshal
  post_len

theorem HenbInfoReporting.post (m : Mode) (b : Bytes) : (HenbInfoReporting.unmarshal m b).Post fun x => x.length = declLen b := by
  unfold HenbInfoReporting.unmarshal
  post_len

theorem Ip4Cp.post (m : Mode) (b : Bytes) : (Ip4Cp.unmarshal m b).Post fun x => x.length = declLen b := by
  unfold Ip4Cp.unmarshal
  post_len

theorem ChangeToReportFlags.post (m : Mode) (b : Bytes) : (ChangeToReportFlags.unmarshal m b).Post fun x => x.length = declLen b := by
  unfold ChangeToReportFlags.unmarshal
  post_len

theorem ActionIndication.post (m : Mode) (b : Bytes) : (ActionIndication.unmarshal m b).Post fun x => x.length = declLen b := by
  unfold ActionIndication.unmarshal
  post_len

theorem TwanId.post (m : Mode) (b : Bytes) : (TwanId.unmarshal m b).Post fun x => x.length = declLen b := by
  unfold TwanId.unmarshal
  post_len

theorem UliTimestamp.post (m : Mode) (b : Bytes) : (UliTimestamp.unmarshal m b).Post fun x => x.length = declLen b := by
  unfold UliTimestamp.unmarshal
  post_len

theorem MbmsFlags.post (m : Mode) (b : Bytes) : (MbmsFlags.unmarshal m b).Post fun x => x.length = declLen b := by
  unfold MbmsFlags.unmarshal
  post_len

theorem RanNasCause.post (m : Mode) (b : Bytes) : (RanNasCause.unmarshal m b).Post fun x => x.length = declLen b := by
  unfold RanNasCause.unmarshal
  post_len

theorem CnOperatorSelectionEntity.post (m : Mode) (b : Bytes) : (CnOperatorSelectionEntity.unmarshal m b).Post fun x => x.length = declLen b := by
  unfold CnOperatorSelectionEntity.unmarshal
  post_len

theorem Twmi.post (m : Mode) (b : Bytes) : (Twmi.unmarshal m b).Post fun x => x.length = declLen b := by
  unfold Twmi.unmarshal
  post_len

theorem NodeNumber.post (m : Mode) (b : Bytes) : (NodeNumber.unmarshal m b).Post fun x => x.length = declLen b := by
  unfold NodeNumber.unmarshal
  post_len

theorem NodeIdentifier.post (m : Mode) (b : Bytes) : (NodeIdentifier.unmarshal m b).Post fun x => x.length = declLen b := by
  unfold NodeIdentifier.unmarshal
  post_len

theorem PresenceReportingAreaAction.post (m : Mode) (b : Bytes) : (PresenceReportingAreaAction.unmarshal m b).Post fun x => x.length = declLen b := by
  unfold PresenceReportingAreaAction.unmarshal
  post_len

theorem PresenceReportingAreaInformation.post (m : Mode) (b : Bytes) : (PresenceReportingAreaInformation.unmarshal m b).Post fun x => x.length = declLen b := by
  unfold PresenceReportingAreaInformation.unmarshal
  post_len

theorem TwanIdTimeStamp.post (m : Mode) (b : Bytes) : (TwanIdTimeStamp.unmarshal m b).Post fun x => x.length = declLen b := by
  unfold TwanIdTimeStamp.unmarshal
  post_len

theorem OverloadControlInfo.step_length (s : OverloadControlInfo) (e : IE) : (OverloadControlInfo.step s e).length = s.length := by
  unfold OverloadControlInfo.step
  split <;> (repeat' split) <;> rfl

theorem OverloadControlInfo.foldl_length (s : OverloadControlInfo) (l : List IE) : (l.foldl OverloadControlInfo.step s).length = s.length := by
  induction l generalizing s with
  | nil => rfl
  | cons e l ih => rw [List.foldl_cons, ih, OverloadControlInfo.step_length]

theorem OverloadControlInfo.ofGroup_length (t : UInt8) (n : UInt16) (i : UInt8) (l : List IE) : (OverloadControlInfo.ofGroup t n i l).length = n := by
  rw [OverloadControlInfo.ofGroup, OverloadControlInfo.foldl_length]
  rfl

theorem LoadControl.step_length (s : LoadControl) (e : IE) : (LoadControl.step s e).length = s.length := by
  unfold LoadControl.step
  split <;> (repeat' split) <;> rfl

theorem LoadControl.foldl_length (s : LoadControl) (l : List IE) : (l.foldl LoadControl.step s).length = s.length := by
  induction l generalizing s with
  | nil => rfl
  | cons e l ih => rw [List.foldl_cons, ih, LoadControl.step_length]

theorem LoadControl.ofGroup_length (t : UInt8) (n : UInt16) (i : UInt8) (l : List IE) : (LoadControl.ofGroup t n i l).length = n := by
  rw [LoadControl.ofGroup, LoadControl.foldl_length]
  rfl

theorem Metric.post (m : Mode) (b : Bytes) : (Metric.unmarshal m b).Post fun x => x.length = declLen b := by
  unfold Metric.unmarshal
  post_len

theorem Sqn.post (m : Mode) (b : Bytes) : (Sqn.unmarshal m b).Post fun x => x.length = declLen b := by
  unfold Sqn.unmarshal
  post_len

theorem ApnRelativeCapacity.post (m : Mode) (b : Bytes) : (ApnRelativeCapacity.unmarshal m b).Post fun x => x.length = declLen b := by
  unfold ApnRelativeCapacity.unmarshal
  post_len

theorem WlanOffloadIndication.post (m : Mode) (b : Bytes) : (WlanOffloadIndication.unmarshal m b).Post fun x => x.length = declLen b := by
  unfold WlanOffloadIndication.unmarshal
  post_len

theorem PagingServiceInfo.post (m : Mode) (b : Bytes) : (PagingServiceInfo.unmarshal m b).Post fun x => x.length = declLen b := by
  unfold PagingServiceInfo.unmarshal
  post_len

theorem IntegerNumber.post (m : Mode) (b : Bytes) : (IntegerNumber.unmarshal m b).Post fun x => x.length = declLen b := by
  unfold IntegerNumber.unmarshal
  post_len

theorem MilliSecondTimeStamp.post (m : Mode) (b : Bytes) : (MilliSecondTimeStamp.unmarshal m b).Post fun x => x.length = declLen b := by
  unfold MilliSecondTimeStamp.unmarshal
  post_len

theorem MonitoringEventInformation.post (m : Mode) (b : Bytes) : (MonitoringEventInformation.unmarshal m b).Post fun x => x.length = declLen b := by
  unfold MonitoringEventInformation.unmarshal
  post_len

theorem EcgiList.post (m : Mode) (b : Bytes) : (EcgiList.unmarshal m b).Post fun x => x.length = declLen b := by
  unfold EcgiList.unmarshal
  post_len

theorem RemoteUeContext.step_length (s : RemoteUeContext) (e : IE) : (RemoteUeContext.step s e).length = s.length := by
  unfold RemoteUeContext.step
  split <;> (repeat' split) <;> rfl

theorem RemoteUeContext.foldl_length (s : RemoteUeContext) (l : List IE) : (l.foldl RemoteUeContext.step s).length = s.length := by
  induction l generalizing s with
  | nil => rfl
  | cons e l ih => rw [List.foldl_cons, ih, RemoteUeContext.step_length]

theorem RemoteUeContext.ofGroup_length (t : UInt8) (n : UInt16) (i : UInt8) (l : List IE) : (RemoteUeContext.ofGroup t n i l).length = n := by
  rw [RemoteUeContext.ofGroup, RemoteUeContext.foldl_length]
  rfl

theorem RemoteUserId.post (m : Mode) (b : Bytes) : (RemoteUserId.unmarshal m b).Post fun x => x.length = declLen b := by
  unfold RemoteUserId.unmarshal
  post_len

theorem RemoteUeIpInformation.post (m : Mode) (b : Bytes) : (RemoteUeIpInformation.unmarshal m b).Post fun x => x.length = declLen b := by
  unfold RemoteUeIpInformation.unmarshal
  post_len

theorem CIoTOptimizationSupportIndication.post (m : Mode) (b : Bytes) : (CIoTOptimizationSupportIndication.unmarshal m b).Post fun x => x.length = declLen b := by
  unfold CIoTOptimizationSupportIndication.unmarshal
  post_len

theorem ScefPdnConnections.step_length (s : ScefPdnConnections) (e : IE) : (ScefPdnConnections.step s e).length = s.length := by
  unfold ScefPdnConnections.step
  split <;> (repeat' split) <;> rfl

theorem ScefPdnConnections.foldl_length (s : ScefPdnConnections) (l : List IE) : (l.foldl ScefPdnConnections.step s).length = s.length := by
  induction l generalizing s with
  | nil => rfl
  | cons e l ih => rw [List.foldl_cons, ih, ScefPdnConnections.step_length]

theorem ScefPdnConnections.ofGroup_length (t : UInt8) (n : UInt16) (i : UInt8) (l : List IE) : (ScefPdnConnections.ofGroup t n i l).length = n := by
  rw [ScefPdnConnections.ofGroup, ScefPdnConnections.foldl_length]
  rfl

theorem HeaderCompressionConfiguration.post (m : Mode) (b : Bytes) : (HeaderCompressionConfiguration.unmarshal m b).Post fun x => x.length = declLen b := by
  unfold HeaderCompressionConfiguration.unmarshal
  post_len

theorem Epco.post (m : Mode) (b : Bytes) : (Epco.unmarshal m b).Post fun x => x.length = declLen b := by
  unfold Epco.unmarshal
  post_len

theorem ServingPlmnRateControl.post (m : Mode) (b : Bytes) : (ServingPlmnRateControl.unmarshal m b).Post fun x => x.length = declLen b := by
  unfold ServingPlmnRateControl.unmarshal
  post_len

theorem Counter.post (m : Mode) (b : Bytes) : (Counter.unmarshal m b).Post fun x => x.length = declLen b := by
  unfold Counter.unmarshal
  post_len

theorem MappedUeUsageType.post (m : Mode) (b : Bytes) : (MappedUeUsageType.unmarshal m b).Post fun x => x.length = declLen b := by
  unfold MappedUeUsageType.unmarshal
  post_len

theorem SecondaryRatUsageDataReport.post (m : Mode) (b : Bytes) : (SecondaryRatUsageDataReport.unmarshal m b).Post fun x => x.length = declLen b := by
  unfold SecondaryRatUsageDataReport.unmarshal
  post_len

theorem UpFunctionSelectionIndicationFlags.post (m : Mode) (b : Bytes) : (UpFunctionSelectionIndicationFlags.unmarshal m b).Post fun x => x.length = declLen b := by
  unfold UpFunctionSelectionIndicationFlags.unmarshal
  post_len

theorem MaxPacketLossRate.post (m : Mode) (b : Bytes) : (MaxPacketLossRate.unmarshal m b).Post fun x => x.length = declLen b := by
  unfold MaxPacketLossRate.unmarshal
  post_len

theorem ApnRateControlStatus.post (m : Mode) (b : Bytes) : (ApnRateControlStatus.unmarshal m b).Post fun x => x.length = declLen b := by
  unfold ApnRateControlStatus.unmarshal
  post_len

theorem ExtendedTraceInformation.post (m : Mode) (b : Bytes) : (ExtendedTraceInformation.unmarshal m b).Post fun x => x.length = declLen b := by
  unfold ExtendedTraceInformation.unmarshal
  post_len

theorem MonitoringEventExtensionInfo.post (m : Mode) (b : Bytes) : (MonitoringEventExtensionInfo.unmarshal m b).Post fun x => x.length = declLen b := by
  unfold MonitoringEventExtensionInfo.unmarshal
  post_len

theorem AdditionalRrmPolicyIndex.post (m : Mode) (b : Bytes) : (AdditionalRrmPolicyIndex.unmarshal m b).Post fun x => x.length = declLen b := by
  unfold AdditionalRrmPolicyIndex.unmarshal
  post_len

theorem V2xInformation.step_length (s : V2xInformation) (e : IE) : (V2xInformation.step s e).length = s.length := by
  unfold V2xInformation.step
  split <;> (repeat' split) <;> rfl

theorem V2xInformation.foldl_length (s : V2xInformation) (l : List IE) : (l.foldl V2xInformation.step s).length = s.length := by
  induction l generalizing s with
  | nil => rfl
  | cons e l ih => rw [List.foldl_cons, ih, V2xInformation.step_length]

theorem V2xInformation.ofGroup_length (t : UInt8) (n : UInt16) (i : UInt8) (l : List IE) : (V2xInformation.ofGroup t n i l).length = n := by
  rw [V2xInformation.ofGroup, V2xInformation.foldl_length]
  rfl

theorem PC5QosParameters.step_length (s : PC5QosParameters) (e : IE) : (PC5QosParameters.step s e).length = s.length := by
  unfold PC5QosParameters.step
  split <;> (repeat' split) <;> rfl

theorem PC5QosParameters.foldl_length (s : PC5QosParameters) (l : List IE) : (l.foldl PC5QosParameters.step s).length = s.length := by
  induction l generalizing s with
  | nil => rfl
  | cons e l ih => rw [List.foldl_cons, ih, PC5QosParameters.step_length]

theorem PC5QosParameters.ofGroup_length (t : UInt8) (n : UInt16) (i : UInt8) (l : List IE) : (PC5QosParameters.ofGroup t n i l).length = n := by
  rw [PC5QosParameters.ofGroup, PC5QosParameters.foldl_length]
  rfl

theorem ServicesAuthorized.post (m : Mode) (b : Bytes) : (ServicesAuthorized.unmarshal m b).Post fun x => x.length = declLen b := by
  unfold ServicesAuthorized.unmarshal
  post_len

theorem BitRate.post (m : Mode) (b : Bytes) : (BitRate.unmarshal m b).Post fun x => x.length = declLen b := by
  unfold BitRate.unmarshal
  post_len

theorem PC5QosFlow.post (m : Mode) (b : Bytes) : (PC5QosFlow.unmarshal m b).Post fun x => x.length = declLen b := by
  unfold PC5QosFlow.unmarshal
  post_len

theorem SgiPtpTunnelAddress.post (m : Mode) (b : Bytes) : (SgiPtpTunnelAddress.unmarshal m b).Post fun x => x.length = declLen b := by
  unfold SgiPtpTunnelAddress.unmarshal
  post_len

theorem PgwChangeInfo.step_length (s : PgwChangeInfo) (e : IE) : (PgwChangeInfo.step s e).length = s.length := by
  unfold PgwChangeInfo.step
  split <;> (repeat' split) <;> rfl

theorem PgwChangeInfo.foldl_length (s : PgwChangeInfo) (l : List IE) : (l.foldl PgwChangeInfo.step s).length = s.length := by
  induction l generalizing s with
  | nil => rfl
  | cons e l ih => rw [List.foldl_cons, ih, PgwChangeInfo.step_length]

theorem PgwChangeInfo.ofGroup_length (t : UInt8) (n : UInt16) (i : UInt8) (l : List IE) : (PgwChangeInfo.ofGroup t n i l).length = n := by
  rw [PgwChangeInfo.ofGroup, PgwChangeInfo.foldl_length]
  rfl

theorem PgwFqdn.post (m : Mode) (b : Bytes) : (PgwFqdn.unmarshal m b).Post fun x => x.length = declLen b := by
  unfold PgwFqdn.unmarshal
  post_len

theorem GroupId.post (m : Mode) (b : Bytes) : (GroupId.unmarshal m b).Post fun x => x.length = declLen b := by
  unfold GroupId.unmarshal
  post_len

theorem PSCellId.post (m : Mode) (b : Bytes) : (PSCellId.unmarshal m b).Post fun x => x.length = declLen b := by
  unfold PSCellId.unmarshal
  post_len

theorem UpSecurityPolicy.post (m : Mode) (b : Bytes) : (UpSecurityPolicy.unmarshal m b).Post fun x => x.length = declLen b := by
  unfold UpSecurityPolicy.unmarshal
  post_len

theorem AlternativeImsi.post (m : Mode) (b : Bytes) : (AlternativeImsi.unmarshal m b).Post fun x => x.length = declLen b := by
  unfold AlternativeImsi.unmarshal
  post_len

theorem SpecialIEWithTypeExt.post (m : Mode) (b : Bytes) : (SpecialIEWithTypeExt.unmarshal m b).Post fun x => x.length = declLen b := by
  unfold SpecialIEWithTypeExt.unmarshal
  post_len

theorem PrivateExtension.post (m : Mode) (b : Bytes) : (PrivateExtension.unmarshal m b).Post fun x => x.length = declLen b := by
  unfold PrivateExtension.unmarshal
  post_len

theorem Unknown.post (m : Mode) (b : Bytes) : (Unknown.unmarshal m b).Post fun x => x.length = declLen b := by
  unfold Unknown.unmarshal
  post_len

theorem groupUnm_post {α : Type} {dec : Bytes → R Err (List IE)} {mk : UInt8 → UInt16 → UInt8 → List IE → α} {m : Mode}
    {b : Bytes} {P : α → Prop} (h : ∀ t i l, P (mk t (declLen b) i l)) : (groupUnm dec mk m b).Post P := by
  unfold groupUnm
  refine Post_ite_any ?_ (Post_bind_any fun _ => Post_err')
  refine Post_bind_any fun t => Post_bind_len <| Post_bind_any fun i => Post_bind_any fun ok => Post_ite_any ?_ Post_err'
  exact Post_bind_any fun _ => Post_bind_any fun l => h t i l

/-- The length field of a decoded IE is the one found in the buffer. -/
theorem unmKind_length (dec : Bytes → R Err (List IE)) (m : Mode) (b : Bytes) (k : Kind) :
    (unmKind dec m b k).Post fun x => x.length = declLen b := by
  cases k with
  | Imsi => simp only [unmKind]; rw [Post_bind]; exact Post.mono (Imsi.post m b) fun _ h => h
  | Cause => simp only [unmKind]; rw [Post_bind]; exact Post.mono (Cause.post m b) fun _ h => h
  | Recovery => simp only [unmKind]; rw [Post_bind]; exact Post.mono (Recovery.post m b) fun _ h => h
  | StnSr => simp only [unmKind]; rw [Post_bind]; exact Post.mono (StnSr.post m b) fun _ h => h
  | SrvccCause => simp only [unmKind]; rw [Post_bind]; exact Post.mono (SrvccCause.post m b) fun _ h => h
  | Apn => simp only [unmKind]; rw [Post_bind]; exact Post.mono (Apn.post m b) fun _ h => h
  | ApnAmbr => simp only [unmKind]; rw [Post_bind]; exact Post.mono (Ambr.post m b) fun _ h => h
  | Ebi => simp only [unmKind]; rw [Post_bind]; exact Post.mono (Ebi.post m b) fun _ h => h
  | IpAddress => simp only [unmKind]; rw [Post_bind]; exact Post.mono (IpAddress.post m b) fun _ h => h
  | Mei => simp only [unmKind]; rw [Post_bind]; exact Post.mono (Mei.post m b) fun _ h => h
  | Msisdn => simp only [unmKind]; rw [Post_bind]; exact Post.mono (Msisdn.post m b) fun _ h => h
  | Indication => simp only [unmKind]; rw [Post_bind]; exact Post.mono (Indication.post m b) fun _ h => h
  | Pco => simp only [unmKind]; rw [Post_bind]; exact Post.mono (Pco.post m b) fun _ h => h
  | PdnAddressAllocation => simp only [unmKind]; rw [Post_bind]; exact Post.mono (PdnAddressAllocation.post m b) fun _ h => h
  | BearerQos => simp only [unmKind]; rw [Post_bind]; exact Post.mono (BearerQos.post m b) fun _ h => h
  | FlowQos => simp only [unmKind]; rw [Post_bind]; exact Post.mono (FlowQos.post m b) fun _ h => h
  | RatType => simp only [unmKind]; rw [Post_bind]; exact Post.mono (RatType.post m b) fun _ h => h
  | ServingNetwork => simp only [unmKind]; rw [Post_bind]; exact Post.mono (ServingNetwork.post m b) fun _ h => h
  | BearerTft => simp only [unmKind]; rw [Post_bind]; exact Post.mono (BearerTft.post m b) fun _ h => h
  | TrafficAggregateDescription => simp only [unmKind]; rw [Post_bind]; exact Post.mono (TrafficAggregateDescription.post m b) fun _ h => h
  | Uli => simp only [unmKind]; rw [Post_bind]; exact Post.mono (Uli.post m b) fun _ h => h
  | Fteid => simp only [unmKind]; rw [Post_bind]; exact Post.mono (Fteid.post m b) fun _ h => h
  | Tmsi => simp only [unmKind]; rw [Post_bind]; exact Post.mono (Tmsi.post m b) fun _ h => h
  | GlobalCnId => simp only [unmKind]; rw [Post_bind]; exact Post.mono (GlobalCnId.post m b) fun _ h => h
  | S103pdf => simp only [unmKind]; rw [Post_bind]; exact Post.mono (S103pdf.post m b) fun _ h => h
  | S1udf => simp only [unmKind]; rw [Post_bind]; exact Post.mono (S1udf.post m b) fun _ h => h
  | DelayValue => simp only [unmKind]; rw [Post_bind]; exact Post.mono (DelayValue.post m b) fun _ h => h
  | BearerContext =>
    simp only [unmKind]
    rw [Post_bind]
    exact groupUnm_post fun t i l => BearerContext.ofGroup_length t (declLen b) i l
  | ChargingId => simp only [unmKind]; rw [Post_bind]; exact Post.mono (ChargingId.post m b) fun _ h => h
  | ChargingCharacteristics => simp only [unmKind]; rw [Post_bind]; exact Post.mono (ChargingCharacteristics.post m b) fun _ h => h
  | TraceInformation => simp only [unmKind]; rw [Post_bind]; exact Post.mono (TraceInformation.post m b) fun _ h => h
  | BearerFlags => simp only [unmKind]; rw [Post_bind]; exact Post.mono (BearerFlags.post m b) fun _ h => h
  | PdnType => simp only [unmKind]; rw [Post_bind]; exact Post.mono (PdnType.post m b) fun _ h => h
  | Pti => simp only [unmKind]; rw [Post_bind]; exact Post.mono (Pti.post m b) fun _ h => h
  | MmContext => simp only [unmKind]; rw [Post_bind]; exact Post.mono (MmContext.post m b) fun _ h => h
  | PdnConnections =>
    simp only [unmKind]
    rw [Post_bind]
    exact groupUnm_post fun t i l => PdnConnections.ofGroup_length t (declLen b) i l
  | PduNumbers => simp only [unmKind]; rw [Post_bind]; exact Post.mono (PduNumbers.post m b) fun _ h => h
  | Ptmsi => simp only [unmKind]; rw [Post_bind]; exact Post.mono (Ptmsi.post m b) fun _ h => h
  | PtmsiSignature => simp only [unmKind]; rw [Post_bind]; exact Post.mono (PtmsiSignature.post m b) fun _ h => h
  | HopCounter => simp only [unmKind]; rw [Post_bind]; exact Post.mono (HopCounter.post m b) fun _ h => h
  | UeTimeZone => simp only [unmKind]; rw [Post_bind]; exact Post.mono (UeTimeZone.post m b) fun _ h => h
  | TraceReference => simp only [unmKind]; rw [Post_bind]; exact Post.mono (TraceReference.post m b) fun _ h => h
  | CompleteRequestMessage => simp only [unmKind]; rw [Post_bind]; exact Post.mono (CompleteRequestMessage.post m b) fun _ h => h
  | Guti => simp only [unmKind]; rw [Post_bind]; exact Post.mono (Guti.post m b) fun _ h => h
  | Fcontainer => simp only [unmKind]; rw [Post_bind]; exact Post.mono (Fcontainer.post m b) fun _ h => h
  | Fcause => simp only [unmKind]; rw [Post_bind]; exact Post.mono (Fcause.post m b) fun _ h => h
  | PlmnId => simp only [unmKind]; rw [Post_bind]; exact Post.mono (PlmnId.post m b) fun _ h => h
  | TargetIdentification => simp only [unmKind]; rw [Post_bind]; exact Post.mono (TargetIdentification.post m b) fun _ h => h
  | PacketFlowId => simp only [unmKind]; rw [Post_bind]; exact Post.mono (PacketFlowId.post m b) fun _ h => h
  | RabContext => simp only [unmKind]; rw [Post_bind]; exact Post.mono (RabContext.post m b) fun _ h => h
  | SrcRncPdcpCtxInfo => simp only [unmKind]; rw [Post_bind]; exact Post.mono (SourceRncPdcpContextInfo.post m b) fun _ h => h
  | PortNumber => simp only [unmKind]; rw [Post_bind]; exact Post.mono (PortNumber.post m b) fun _ h => h
  | ApnRestriction => simp only [unmKind]; rw [Post_bind]; exact Post.mono (ApnRestriction.post m b) fun _ h => h
  | SelectionMode => simp only [unmKind]; rw [Post_bind]; exact Post.mono (SelectionMode.post m b) fun _ h => h
  | SourceIdentification => simp only [unmKind]; rw [Post_bind]; exact Post.mono (SourceIdentification.post m b) fun _ h => h
  | ChangeReportingAction => simp only [unmKind]; rw [Post_bind]; exact Post.mono (ChangeReportingAction.post m b) fun _ h => h
  | Fqcsid => simp only [unmKind]; rw [Post_bind]; exact Post.mono (Fqcsid.post m b) fun _ h => h
  | ChannelNeeded => simp only [unmKind]; rw [Post_bind]; exact Post.mono (ChannelNeeded.post m b) fun _ h => h
  | EmlppPriority => simp only [unmKind]; rw [Post_bind]; exact Post.mono (EmlppPriority.post m b) fun _ h => h
  | NodeType => simp only [unmKind]; rw [Post_bind]; exact Post.mono (NodeType.post m b) fun _ h => h
  | Fqdn => simp only [unmKind]; rw [Post_bind]; exact Post.mono (Fqdn.post m b) fun _ h => h
  | TransactionIdentifier => simp only [unmKind]; rw [Post_bind]; exact Post.mono (TransactionIdentifier.post m b) fun _ h => h
  | MbmsSa => simp only [unmKind]; rw [Post_bind]; exact Post.mono (MbmsServiceArea.post m b) fun _ h => h
  | MbmsSd => simp only [unmKind]; rw [Post_bind]; exact Post.mono (MbmsSessionDuration.post m b) fun _ h => h
  | MbmsSessionId => simp only [unmKind]; rw [Post_bind]; exact Post.mono (MbmsSessionId.post m b) fun _ h => h
  | MbmsFlowId => simp only [unmKind]; rw [Post_bind]; exact Post.mono (MbmsFlowId.post m b) fun _ h => h
  | MbmsIpMulticastDistribution => simp only [unmKind]; rw [Post_bind]; exact Post.mono (MbmsIpMulticastDistribution.post m b) fun _ h => h
  | MbmsDistributionAck => simp only [unmKind]; rw [Post_bind]; exact Post.mono (MbmsDistributionAck.post m b) fun _ h => h
  | RfspIndex => simp only [unmKind]; rw [Post_bind]; exact Post.mono (RfspIndex.post m b) fun _ h => h
  | Uci => simp only [unmKind]; rw [Post_bind]; exact Post.mono (Uci.post m b) fun _ h => h
  | CSGInformationReportingAction => simp only [unmKind]; rw [Post_bind]; exact Post.mono (CSGInformationReportingAction.post m b) fun _ h => h
  | CsgId => simp only [unmKind]; rw [Post_bind]; exact Post.mono (CsgId.post m b) fun _ h => h
  | CsgMembershipIndication => simp only [unmKind]; rw [Post_bind]; exact Post.mono (CsgMembershipIndication.post m b) fun _ h => h
  | ServiceIndicator => simp only [unmKind]; rw [Post_bind]; exact Post.mono (ServiceIndicator.post m b) fun _ h => h
  | DetachType => simp only [unmKind]; rw [Post_bind]; exact Post.mono (DetachType.post m b) fun _ h => h
  | Ldn => simp only [unmKind]; rw [Post_bind]; exact Post.mono (Ldn.post m b) fun _ h => h
  | NodeFeatures => simp only [unmKind]; rw [Post_bind]; exact Post.mono (NodeFeatures.post m b) fun _ h => h
  | MbmsTimeToDataTransfer => simp only [unmKind]; rw [Post_bind]; exact Post.mono (MbmsTimeToDataTransfer.post m b) fun _ h => h
  | Throttling => simp only [unmKind]; rw [Post_bind]; exact Post.mono (Throttling.post m b) fun _ h => h
  | Arp => simp only [unmKind]; rw [Post_bind]; exact Post.mono (Arp.post m b) fun _ h => h
  | EpcTimer => simp only [unmKind]; rw [Post_bind]; exact Post.mono (EpcTimer.post m b) fun _ h => h
  | Spi => simp only [unmKind]; rw [Post_bind]; exact Post.mono (Spi.post m b) fun _ h => h
  | Tmgi => simp only [unmKind]; rw [Post_bind]; exact Post.mono (Tmgi.post m b) fun _ h => h
  | AdditionalMmContextForSrvcc => simp only [unmKind]; rw [Post_bind]; exact Post.mono (AdditionalMmContextForSrvcc.post m b) fun _ h => h
  | AdditionalFlagsSrvcc => simp only [unmKind]; rw [Post_bind]; exact Post.mono (AdditionalFlagsSrvcc.post m b) fun _ h => h
  | MdtConfiguration => simp only [unmKind]; rw [Post_bind]; exact Post.mono (MdtConfiguration.post m b) fun _ h => h
  | Apco => simp only [unmKind]; rw [Post_bind]; exact Post.mono (Apco.post m b) fun _ h => h
  | AbsoluteTimeMbmsDataTransfer => simp only [unmKind]; rw [Post_bind]; exact Post.mono (AbsoluteTimeMbmsDataTransfer.post m b) fun _ h => h
  | HenbInfoReporting => simp only [unmKind]; rw [Post_bind]; exact Post.mono (HenbInfoReporting.post m b) fun _ h => h
  | Ip4Cp => simp only [unmKind]; rw [Post_bind]; exact Post.mono (Ip4Cp.post m b) fun _ h => h
  | ChangeToReportFlags => simp only [unmKind]; rw [Post_bind]; exact Post.mono (ChangeToReportFlags.post m b) fun _ h => h
  | ActionIndication => simp only [unmKind]; rw [Post_bind]; exact Post.mono (ActionIndication.post m b) fun _ h => h
  | TwanId => simp only [unmKind]; rw [Post_bind]; exact Post.mono (TwanId.post m b) fun _ h => h
  | UliTimestamp => simp only [unmKind]; rw [Post_bind]; exact Post.mono (UliTimestamp.post m b) fun _ h => h
  | MbmsFlags => simp only [unmKind]; rw [Post_bind]; exact Post.mono (MbmsFlags.post m b) fun _ h => h
  | RanNasCause => simp only [unmKind]; rw [Post_bind]; exact Post.mono (RanNasCause.post m b) fun _ h => h
  | CnOperatorSelectionEntity => simp only [unmKind]; rw [Post_bind]; exact Post.mono (CnOperatorSelectionEntity.post m b) fun _ h => h
  | Twmi => simp only [unmKind]; rw [Post_bind]; exact Post.mono (Twmi.post m b) fun _ h => h
  | NodeNumber => simp only [unmKind]; rw [Post_bind]; exact Post.mono (NodeNumber.post m b) fun _ h => h
  | NodeIdentifier => simp only [unmKind]; rw [Post_bind]; exact Post.mono (NodeIdentifier.post m b) fun _ h => h
  | PresenceReportingAreaAction => simp only [unmKind]; rw [Post_bind]; exact Post.mono (PresenceReportingAreaAction.post m b) fun _ h => h
  | PresenceReportingAreaInformation => simp only [unmKind]; rw [Post_bind]; exact Post.mono (PresenceReportingAreaInformation.post m b) fun _ h => h
  | TwanIdTimeStamp => simp only [unmKind]; rw [Post_bind]; exact Post.mono (TwanIdTimeStamp.post m b) fun _ h => h
  | OverloadControlInfo =>
    simp only [unmKind]
    rw [Post_bind]
    refine groupUnm_post fun t i l => ?_
    have h := OverloadControlInfo.ofGroup_length t (declLen b) i l
    generalize OverloadControlInfo.ofGroup t (declLen b) i l = x at h
    unfold listCheck
    split
    · split
      · trivial
      · exact h
    · exact h
  | LoadControlInfo =>
    simp only [unmKind]
    rw [Post_bind]
    refine groupUnm_post fun t i l => ?_
    have h := LoadControl.ofGroup_length t (declLen b) i l
    generalize LoadControl.ofGroup t (declLen b) i l = x at h
    unfold listCheck
    split
    · split
      · trivial
      · exact h
    · exact h
  | Metric => simp only [unmKind]; rw [Post_bind]; exact Post.mono (Metric.post m b) fun _ h => h
  | Sqn => simp only [unmKind]; rw [Post_bind]; exact Post.mono (Sqn.post m b) fun _ h => h
  | ApnRelativeCapacity => simp only [unmKind]; rw [Post_bind]; exact Post.mono (ApnRelativeCapacity.post m b) fun _ h => h
  | WlanOffloadIndication => simp only [unmKind]; rw [Post_bind]; exact Post.mono (WlanOffloadIndication.post m b) fun _ h => h
  | PagingServiceInfo => simp only [unmKind]; rw [Post_bind]; exact Post.mono (PagingServiceInfo.post m b) fun _ h => h
  | IntegerNumber => simp only [unmKind]; rw [Post_bind]; exact Post.mono (IntegerNumber.post m b) fun _ h => h
  | MilliSecondTimeStamp => simp only [unmKind]; rw [Post_bind]; exact Post.mono (MilliSecondTimeStamp.post m b) fun _ h => h
  | MonitoringEventInformation => simp only [unmKind]; rw [Post_bind]; exact Post.mono (MonitoringEventInformation.post m b) fun _ h => h
  | EcgiList => simp only [unmKind]; rw [Post_bind]; exact Post.mono (EcgiList.post m b) fun _ h => h
  | RemoteUeContext =>
    simp only [unmKind]
    rw [Post_bind]
    exact groupUnm_post fun t i l => RemoteUeContext.ofGroup_length t (declLen b) i l
  | RemoteUserId => simp only [unmKind]; rw [Post_bind]; exact Post.mono (RemoteUserId.post m b) fun _ h => h
  | RemoteUeIpInformation => simp only [unmKind]; rw [Post_bind]; exact Post.mono (RemoteUeIpInformation.post m b) fun _ h => h
  | CIoTOptimizationSupportIndication => simp only [unmKind]; rw [Post_bind]; exact Post.mono (CIoTOptimizationSupportIndication.post m b) fun _ h => h
  | ScefPdnConnections =>
    simp only [unmKind]
    rw [Post_bind]
    exact groupUnm_post fun t i l => ScefPdnConnections.ofGroup_length t (declLen b) i l
  | HeaderCompressionConfiguration => simp only [unmKind]; rw [Post_bind]; exact Post.mono (HeaderCompressionConfiguration.post m b) fun _ h => h
  | Epco => simp only [unmKind]; rw [Post_bind]; exact Post.mono (Epco.post m b) fun _ h => h
  | ServingPlmnRateControl => simp only [unmKind]; rw [Post_bind]; exact Post.mono (ServingPlmnRateControl.post m b) fun _ h => h
  | Counter => simp only [unmKind]; rw [Post_bind]; exact Post.mono (Counter.post m b) fun _ h => h
  | MappedUeUsageType => simp only [unmKind]; rw [Post_bind]; exact Post.mono (MappedUeUsageType.post m b) fun _ h => h
  | SecondaryRatUsageDataReport => simp only [unmKind]; rw [Post_bind]; exact Post.mono (SecondaryRatUsageDataReport.post m b) fun _ h => h
  | UpFunctionSelectionIndicationFlags => simp only [unmKind]; rw [Post_bind]; exact Post.mono (UpFunctionSelectionIndicationFlags.post m b) fun _ h => h
  | MaxPacketLossRate => simp only [unmKind]; rw [Post_bind]; exact Post.mono (MaxPacketLossRate.post m b) fun _ h => h
  | ApnRateControlStatus => simp only [unmKind]; rw [Post_bind]; exact Post.mono (ApnRateControlStatus.post m b) fun _ h => h
  | ExtendedTraceInformation => simp only [unmKind]; rw [Post_bind]; exact Post.mono (ExtendedTraceInformation.post m b) fun _ h => h
  | MonitoringEventExtensionInfo => simp only [unmKind]; rw [Post_bind]; exact Post.mono (MonitoringEventExtensionInfo.post m b) fun _ h => h
  | AdditionalRrmPolicyIndex => simp only [unmKind]; rw [Post_bind]; exact Post.mono (AdditionalRrmPolicyIndex.post m b) fun _ h => h
  | V2xInformation =>
    simp only [unmKind]
    rw [Post_bind]
    exact groupUnm_post fun t i l => V2xInformation.ofGroup_length t (declLen b) i l
  | PC5QosParameters =>
    simp only [unmKind]
    rw [Post_bind]
    exact groupUnm_post fun t i l => Post_ite_any Post_err' (PC5QosParameters.ofGroup_length t (declLen b) i l)
  | ServicesAuthorized => simp only [unmKind]; rw [Post_bind]; exact Post.mono (ServicesAuthorized.post m b) fun _ h => h
  | BitRate => simp only [unmKind]; rw [Post_bind]; exact Post.mono (BitRate.post m b) fun _ h => h
  | PC5QosFlow => simp only [unmKind]; rw [Post_bind]; exact Post.mono (PC5QosFlow.post m b) fun _ h => h
  | SgiPtpTunnelAddress => simp only [unmKind]; rw [Post_bind]; exact Post.mono (SgiPtpTunnelAddress.post m b) fun _ h => h
  | PgwChangeInfo =>
    simp only [unmKind]
    rw [Post_bind]
    exact groupUnm_post fun t i l => PgwChangeInfo.ofGroup_length t (declLen b) i l
  | PgwFqdn => simp only [unmKind]; rw [Post_bind]; exact Post.mono (PgwFqdn.post m b) fun _ h => h
  | GroupId => simp only [unmKind]; rw [Post_bind]; exact Post.mono (GroupId.post m b) fun _ h => h
  | PSCellId => simp only [unmKind]; rw [Post_bind]; exact Post.mono (PSCellId.post m b) fun _ h => h
  | UpSecurityPolicy => simp only [unmKind]; rw [Post_bind]; exact Post.mono (UpSecurityPolicy.post m b) fun _ h => h
  | AlternativeImsi => simp only [unmKind]; rw [Post_bind]; exact Post.mono (AlternativeImsi.post m b) fun _ h => h
  | SpecialIEWithTypeExt => simp only [unmKind]; rw [Post_bind]; exact Post.mono (SpecialIEWithTypeExt.post m b) fun _ h => h
  | PrivateExtension => simp only [unmKind]; rw [Post_bind]; exact Post.mono (PrivateExtension.post m b) fun _ h => h
  | Unknown => simp only [unmKind]; rw [Post_bind]; exact Post.mono (Unknown.post m b) fun _ h => h

/-- The constructor of a decoded IE is that of the arm. -/
theorem unmKind_kind (dec : Bytes → R Err (List IE)) (m : Mode) (b : Bytes) (k : Kind) :
    (unmKind dec m b k).Post fun x => x.kind = k := by
  cases k with
  | LoadControlInfo => exact Post_bind_any fun _ => Post_bind_any fun _ => rfl
  | OverloadControlInfo => exact Post_bind_any fun _ => Post_bind_any fun _ => rfl
  | PC5QosParameters => exact Post_bind_any fun _ => Post_ite_any Post_err' rfl
  | _ => exact Post_bind_any fun _ => rfl

/-- The kinds that are accounted with their declared length plus 4. -/
def Kind.exact : Kind → Bool
  | .Imsi => true
  | .Cause => true
  | .StnSr => true
  | .Apn => true
  | .IpAddress => true
  | .Msisdn => true
  | .Indication => true
  | .Pco => true
  | .PdnAddressAllocation => true
  | .BearerTft => true
  | .TrafficAggregateDescription => true
  | .Uli => true
  | .Fteid => true
  | .Tmsi => true
  | .S103pdf => true
  | .S1udf => true
  | .BearerContext => true
  | .BearerFlags => true
  | .MmContext => true
  | .PdnConnections => true
  | .PduNumbers => true
  | .HopCounter => true
  | .CompleteRequestMessage => true
  | .Fcontainer => true
  | .Fcause => true
  | .SrcRncPdcpCtxInfo => true
  | .Fqcsid => true
  | .Fqdn => true
  | .TransactionIdentifier => true
  | .MbmsSa => true
  | .MbmsIpMulticastDistribution => true
  | .Ldn => true
  | .Arp => true
  | .AdditionalMmContextForSrvcc => true
  | .MdtConfiguration => true
  | .Apco => true
  | .ActionIndication => true
  | .TwanId => true
  | .RanNasCause => true
  | .NodeNumber => true
  | .NodeIdentifier => true
  | .PresenceReportingAreaAction => true
  | .OverloadControlInfo => true
  | .LoadControlInfo => true
  | .ApnRelativeCapacity => true
  | .IntegerNumber => true
  | .MonitoringEventInformation => true
  | .RemoteUeContext => true
  | .RemoteUserId => true
  | .RemoteUeIpInformation => true
  | .ScefPdnConnections => true
  | .Epco => true
  | .SecondaryRatUsageDataReport => true
  | .MaxPacketLossRate => true
  | .ApnRateControlStatus => true
  | .ExtendedTraceInformation => true
  | .MonitoringEventExtensionInfo => true
  | .V2xInformation => true
  | .PC5QosParameters => true
  | .PC5QosFlow => true
  | .SgiPtpTunnelAddress => true
  | .PgwChangeInfo => true
  | .PgwFqdn => true
  | .GroupId => true
  | .AlternativeImsi => true
  | .SpecialIEWithTypeExt => true
  | .PrivateExtension => true
  | .Unknown => true
  | _ => false

/-- The kinds that are accounted with a constant number of octets. -/
def Kind.fixed : Kind → Option Nat
  | .Recovery => some 5
  | .SrvccCause => some 5
  | .ApnAmbr => some 12
  | .Ebi => some 5
  | .Mei => some 12
  | .BearerQos => some 26
  | .FlowQos => some 25
  | .RatType => some 5
  | .ServingNetwork => some 7
  | .GlobalCnId => some 9
  | .DelayValue => some 5
  | .ChargingId => some 8
  | .ChargingCharacteristics => some 6
  | .TraceInformation => some 38
  | .PdnType => some 5
  | .Pti => some 5
  | .Ptmsi => some 8
  | .PtmsiSignature => some 8
  | .UeTimeZone => some 6
  | .TraceReference => some 10
  | .Guti => some 14
  | .PlmnId => some 7
  | .PacketFlowId => some 9
  | .RabContext => some 13
  | .PortNumber => some 6
  | .ApnRestriction => some 5
  | .SelectionMode => some 5
  | .ChangeReportingAction => some 5
  | .ChannelNeeded => some 5
  | .EmlppPriority => some 5
  | .NodeType => some 5
  | .MbmsSd => some 7
  | .MbmsSessionId => some 5
  | .MbmsFlowId => some 6
  | .MbmsDistributionAck => some 5
  | .RfspIndex => some 6
  | .Uci => some 12
  | .CSGInformationReportingAction => some 5
  | .CsgId => some 8
  | .CsgMembershipIndication => some 5
  | .ServiceIndicator => some 5
  | .DetachType => some 5
  | .NodeFeatures => some 5
  | .MbmsTimeToDataTransfer => some 5
  | .Throttling => some 6
  | .EpcTimer => some 5
  | .Spi => some 5
  | .Tmgi => some 10
  | .AdditionalFlagsSrvcc => some 5
  | .AbsoluteTimeMbmsDataTransfer => some 12
  | .HenbInfoReporting => some 5
  | .Ip4Cp => some 9
  | .ChangeToReportFlags => some 5
  | .UliTimestamp => some 8
  | .MbmsFlags => some 5
  | .CnOperatorSelectionEntity => some 5
  | .Twmi => some 5
  | .PresenceReportingAreaInformation => some 12
  | .TwanIdTimeStamp => some 8
  | .Metric => some 5
  | .Sqn => some 8
  | .WlanOffloadIndication => some 5
  | .MilliSecondTimeStamp => some 10
  | .CIoTOptimizationSupportIndication => some 5
  | .HeaderCompressionConfiguration => some 8
  | .ServingPlmnRateControl => some 8
  | .Counter => some 9
  | .MappedUeUsageType => some 6
  | .UpFunctionSelectionIndicationFlags => some 5
  | .AdditionalRrmPolicyIndex => some 8
  | .ServicesAuthorized => some 6
  | .BitRate => some 8
  | .PSCellId => some 12
  | .UpSecurityPolicy => some 5
  | _ => none

/-- The kinds of which the decoder checks that they lie inside the buffer. -/
def Kind.inside : Kind → Bool
  | .Imsi => true
  | .Cause => true
  | .Recovery => true
  | .StnSr => true
  | .SrvccCause => true
  | .Apn => true
  | .ApnAmbr => true
  | .Ebi => true
  | .IpAddress => true
  | .Msisdn => true
  | .Indication => true
  | .Pco => true
  | .PdnAddressAllocation => true
  | .BearerQos => true
  | .FlowQos => true
  | .RatType => true
  | .ServingNetwork => true
  | .BearerTft => true
  | .TrafficAggregateDescription => true
  | .Uli => true
  | .Fteid => true
  | .GlobalCnId => true
  | .S103pdf => true
  | .S1udf => true
  | .DelayValue => true
  | .BearerContext => true
  | .ChargingId => true
  | .ChargingCharacteristics => true
  | .TraceInformation => true
  | .PdnType => true
  | .Pti => true
  | .PdnConnections => true
  | .Ptmsi => true
  | .PtmsiSignature => true
  | .UeTimeZone => true
  | .TraceReference => true
  | .CompleteRequestMessage => true
  | .Guti => true
  | .Fcontainer => true
  | .Fcause => true
  | .PlmnId => true
  | .PacketFlowId => true
  | .RabContext => true
  | .SrcRncPdcpCtxInfo => true
  | .PortNumber => true
  | .ApnRestriction => true
  | .SelectionMode => true
  | .ChangeReportingAction => true
  | .Fqcsid => true
  | .ChannelNeeded => true
  | .EmlppPriority => true
  | .NodeType => true
  | .Fqdn => true
  | .MbmsSa => true
  | .MbmsSd => true
  | .MbmsSessionId => true
  | .MbmsFlowId => true
  | .MbmsIpMulticastDistribution => true
  | .MbmsDistributionAck => true
  | .RfspIndex => true
  | .Uci => true
  | .CSGInformationReportingAction => true
  | .CsgId => true
  | .CsgMembershipIndication => true
  | .ServiceIndicator => true
  | .DetachType => true
  | .Ldn => true
  | .NodeFeatures => true
  | .MbmsTimeToDataTransfer => true
  | .Throttling => true
  | .EpcTimer => true
  | .Spi => true
  | .Tmgi => true
  | .AdditionalFlagsSrvcc => true
  | .Apco => true
  | .AbsoluteTimeMbmsDataTransfer => true
  | .HenbInfoReporting => true
  | .Ip4Cp => true
  | .ChangeToReportFlags => true
  | .UliTimestamp => true
  | .MbmsFlags => true
  | .RanNasCause => true
  | .CnOperatorSelectionEntity => true
  | .Twmi => true
  | .NodeNumber => true
  | .NodeIdentifier => true
  | .PresenceReportingAreaAction => true
  | .PresenceReportingAreaInformation => true
  | .TwanIdTimeStamp => true
  | .OverloadControlInfo => true
  | .LoadControlInfo => true
  | .Metric => true
  | .Sqn => true
  | .ApnRelativeCapacity => true
  | .WlanOffloadIndication => true
  | .PagingServiceInfo => true
  | .IntegerNumber => true
  | .MilliSecondTimeStamp => true
  | .EcgiList => true
  | .RemoteUeContext => true
  | .RemoteUeIpInformation => true
  | .CIoTOptimizationSupportIndication => true
  | .ScefPdnConnections => true
  | .HeaderCompressionConfiguration => true
  | .Epco => true
  | .ServingPlmnRateControl => true
  | .Counter => true
  | .MappedUeUsageType => true
  | .UpFunctionSelectionIndicationFlags => true
  | .MonitoringEventExtensionInfo => true
  | .AdditionalRrmPolicyIndex => true
  | .V2xInformation => true
  | .PC5QosParameters => true
  | .ServicesAuthorized => true
  | .BitRate => true
  | .PC5QosFlow => true
  | .SgiPtpTunnelAddress => true
  | .PgwChangeInfo => true
  | .PgwFqdn => true
  | .GroupId => true
  | .PSCellId => true
  | .UpSecurityPolicy => true
  | .AlternativeImsi => true
  | .SpecialIEWithTypeExt => true
  | .PrivateExtension => true
  | .Unknown => true
  | _ => false

theorem IE.len_exact {m : Mode} {e : IE} (hk : e.kind.exact = true) (hm : m = .debug ∨ e.length.toNat < 65532) {n : Nat}
    (h : e.len m = .ok n) : n = e.length.toNat + 4 := by
  have h16 : ∀ l : UInt16, (m = .debug ∨ l.toNat < 65532) → ieLen16 m l = .ok n → n = l.toNat + 4 := by
    intro l hl h
    by_cases hs : l.toNat < 65532
    · rw [ieLen16_ok hs] at h
      injection h with h
      exact h.symm
    · rcases hl with rfl | hl
      · have h4 : (4 : UInt16).toNat = 4 := rfl
        have : (add16 Mode.debug l 4 : R Err UInt16) = .panic := by simp only [add16]; rw [if_neg (by omega)]
        rw [ieLen16, this] at h
        exact absurd h (by intro h; cases h)
      · omega
  have hU : ∀ l : UInt16, ieLenU l = .ok n → n = l.toNat + 4 := by
    intro l h
    injection h with h
    exact h.symm
  cases e with
  | MmContext x => cases x <;> exact hU _ h
  | Imsi x => exact hU _ h
  | Cause x => exact h16 _ hm h
  | StnSr x => exact hU _ h
  | Apn x => exact h16 _ hm h
  | IpAddress x => exact hU _ h
  | Msisdn x => exact hU _ h
  | Indication x => exact hU _ h
  | Pco x => exact hU _ h
  | PdnAddressAllocation x => exact hU _ h
  | BearerTft x => exact hU _ h
  | TrafficAggregateDescription x => exact hU _ h
  | Uli x => exact hU _ h
  | Fteid x => exact h16 _ hm h
  | Tmsi x => exact hU _ h
  | S103pdf x => exact hU _ h
  | S1udf x => exact hU _ h
  | BearerContext x => exact hU _ h
  | BearerFlags x => exact hU _ h
  | PdnConnections x => exact hU _ h
  | PduNumbers x => exact hU _ h
  | HopCounter x => exact hU _ h
  | CompleteRequestMessage x => exact h16 _ hm h
  | Fcontainer x => exact h16 _ hm h
  | Fcause x => exact hU _ h
  | SrcRncPdcpCtxInfo x => exact h16 _ hm h
  | Fqcsid x => exact h16 _ hm h
  | Fqdn x => exact h16 _ hm h
  | TransactionIdentifier x => exact hU _ h
  | MbmsSa x => exact hU _ h
  | MbmsIpMulticastDistribution x => exact hU _ h
  | Ldn x => exact h16 _ hm h
  | Arp x => exact hU _ h
  | AdditionalMmContextForSrvcc x => exact hU _ h
  | MdtConfiguration x => exact hU _ h
  | Apco x => exact hU _ h
  | ActionIndication x => exact hU _ h
  | TwanId x => exact hU _ h
  | RanNasCause x => exact hU _ h
  | NodeNumber x => exact hU _ h
  | NodeIdentifier x => exact hU _ h
  | PresenceReportingAreaAction x => exact hU _ h
  | OverloadControlInfo x => exact hU _ h
  | LoadControlInfo x => exact hU _ h
  | ApnRelativeCapacity x => exact hU _ h
  | IntegerNumber x => exact hU _ h
  | MonitoringEventInformation x => exact hU _ h
  | RemoteUeContext x => exact hU _ h
  | RemoteUserId x => exact hU _ h
  | RemoteUeIpInformation x => exact h16 _ hm h
  | ScefPdnConnections x => exact hU _ h
  | Epco x => exact hU _ h
  | SecondaryRatUsageDataReport x => exact hU _ h
  | MaxPacketLossRate x => exact hU _ h
  | ApnRateControlStatus x => exact hU _ h
  | ExtendedTraceInformation x => exact h16 _ hm h
  | MonitoringEventExtensionInfo x => exact hU _ h
  | V2xInformation x => exact hU _ h
  | PC5QosParameters x => exact hU _ h
  | PC5QosFlow x => exact hU _ h
  | SgiPtpTunnelAddress x => exact hU _ h
  | PgwChangeInfo x => exact hU _ h
  | PgwFqdn x => exact hU _ h
  | GroupId x => exact hU _ h
  | AlternativeImsi x => exact hU _ h
  | SpecialIEWithTypeExt x => exact hU _ h
  | PrivateExtension x => exact hU _ h
  | Unknown x => exact hU _ h
  | _ => exact absurd hk (by intro h; cases h)

theorem IE.len_fixed {m : Mode} {e : IE} {k : Nat} (hk : e.kind.fixed = some k) : e.len m = .ok k := by
  cases e with
  | Recovery x => injection hk with hk; subst hk; rfl
  | SrvccCause x => injection hk with hk; subst hk; rfl
  | ApnAmbr x => injection hk with hk; subst hk; rfl
  | Ebi x => injection hk with hk; subst hk; rfl
  | Mei x => injection hk with hk; subst hk; rfl
  | BearerQos x => injection hk with hk; subst hk; rfl
  | FlowQos x => injection hk with hk; subst hk; rfl
  | RatType x => injection hk with hk; subst hk; rfl
  | ServingNetwork x => injection hk with hk; subst hk; rfl
  | GlobalCnId x => injection hk with hk; subst hk; rfl
  | DelayValue x => injection hk with hk; subst hk; rfl
  | ChargingId x => injection hk with hk; subst hk; rfl
  | ChargingCharacteristics x => injection hk with hk; subst hk; rfl
  | TraceInformation x => injection hk with hk; subst hk; rfl
  | PdnType x => injection hk with hk; subst hk; rfl
  | Pti x => injection hk with hk; subst hk; rfl
  | Ptmsi x => injection hk with hk; subst hk; rfl
  | PtmsiSignature x => injection hk with hk; subst hk; rfl
  | UeTimeZone x => injection hk with hk; subst hk; rfl
  | TraceReference x => injection hk with hk; subst hk; rfl
  | Guti x => injection hk with hk; subst hk; rfl
  | PlmnId x => injection hk with hk; subst hk; rfl
  | PacketFlowId x => injection hk with hk; subst hk; rfl
  | RabContext x => injection hk with hk; subst hk; rfl
  | PortNumber x => injection hk with hk; subst hk; rfl
  | ApnRestriction x => injection hk with hk; subst hk; rfl
  | SelectionMode x => injection hk with hk; subst hk; rfl
  | ChangeReportingAction x => injection hk with hk; subst hk; rfl
  | ChannelNeeded x => injection hk with hk; subst hk; rfl
  | EmlppPriority x => injection hk with hk; subst hk; rfl
  | NodeType x => injection hk with hk; subst hk; rfl
  | MbmsSd x => injection hk with hk; subst hk; rfl
  | MbmsSessionId x => injection hk with hk; subst hk; rfl
  | MbmsFlowId x => injection hk with hk; subst hk; rfl
  | MbmsDistributionAck x => injection hk with hk; subst hk; rfl
  | RfspIndex x => injection hk with hk; subst hk; rfl
  | Uci x => injection hk with hk; subst hk; rfl
  | CSGInformationReportingAction x => injection hk with hk; subst hk; rfl
  | CsgId x => injection hk with hk; subst hk; rfl
  | CsgMembershipIndication x => injection hk with hk; subst hk; rfl
  | ServiceIndicator x => injection hk with hk; subst hk; rfl
  | DetachType x => injection hk with hk; subst hk; rfl
  | NodeFeatures x => injection hk with hk; subst hk; rfl
  | MbmsTimeToDataTransfer x => injection hk with hk; subst hk; rfl
  | Throttling x => injection hk with hk; subst hk; rfl
  | EpcTimer x => injection hk with hk; subst hk; rfl
  | Spi x => injection hk with hk; subst hk; rfl
  | Tmgi x => injection hk with hk; subst hk; rfl
  | AdditionalFlagsSrvcc x => injection hk with hk; subst hk; rfl
  | AbsoluteTimeMbmsDataTransfer x => injection hk with hk; subst hk; rfl
  | HenbInfoReporting x => injection hk with hk; subst hk; rfl
  | Ip4Cp x => injection hk with hk; subst hk; rfl
  | ChangeToReportFlags x => injection hk with hk; subst hk; rfl
  | UliTimestamp x => injection hk with hk; subst hk; rfl
  | MbmsFlags x => injection hk with hk; subst hk; rfl
  | CnOperatorSelectionEntity x => injection hk with hk; subst hk; rfl
  | Twmi x => injection hk with hk; subst hk; rfl
  | PresenceReportingAreaInformation x => injection hk with hk; subst hk; rfl
  | TwanIdTimeStamp x => injection hk with hk; subst hk; rfl
  | Metric x => injection hk with hk; subst hk; rfl
  | Sqn x => injection hk with hk; subst hk; rfl
  | WlanOffloadIndication x => injection hk with hk; subst hk; rfl
  | MilliSecondTimeStamp x => injection hk with hk; subst hk; rfl
  | CIoTOptimizationSupportIndication x => injection hk with hk; subst hk; rfl
  | HeaderCompressionConfiguration x => injection hk with hk; subst hk; rfl
  | ServingPlmnRateControl x => injection hk with hk; subst hk; rfl
  | Counter x => injection hk with hk; subst hk; rfl
  | MappedUeUsageType x => injection hk with hk; subst hk; rfl
  | UpFunctionSelectionIndicationFlags x => injection hk with hk; subst hk; rfl
  | AdditionalRrmPolicyIndex x => injection hk with hk; subst hk; rfl
  | ServicesAuthorized x => injection hk with hk; subst hk; rfl
  | BitRate x => injection hk with hk; subst hk; rfl
  | PSCellId x => injection hk with hk; subst hk; rfl
  | UpSecurityPolicy x => injection hk with hk; subst hk; rfl
  | _ => exact absurd hk (by intro h; cases h)

/-- A decoded IE advances the cursor, unless its length overflows in a release build. -/
theorem IE.len_pos {m : Mode} {e : IE} (hm : e.kind.exact = true → m = .debug ∨ e.length.toNat < 65532) {n : Nat} (h : e.len m = .ok n) :
    4 ≤ n := by
  by_cases hk : e.kind.exact = true
  · have := IE.len_exact hk (hm hk) h
    omega
  · cases e with
    | EcgiList x => simp only [IE.len, EcgiList.len] at h; split at h <;> (injection h with h; omega)
    | PagingServiceInfo x => simp only [IE.len, PagingServiceInfo.len] at h; (try split at h) <;> injection h with h <;> omega
    | TargetIdentification x => simp only [IE.len, TargetIdentification.len] at h; injection h with h; omega
    | SourceIdentification x => simp only [IE.len, SourceIdentification.len] at h; injection h with h; omega
    | Recovery x => injection h with h; subst h; decide
    | SrvccCause x => injection h with h; subst h; decide
    | ApnAmbr x => injection h with h; subst h; decide
    | Ebi x => injection h with h; subst h; decide
    | Mei x => injection h with h; subst h; decide
    | BearerQos x => injection h with h; subst h; decide
    | FlowQos x => injection h with h; subst h; decide
    | RatType x => injection h with h; subst h; decide
    | ServingNetwork x => injection h with h; subst h; decide
    | GlobalCnId x => injection h with h; subst h; decide
    | DelayValue x => injection h with h; subst h; decide
    | ChargingId x => injection h with h; subst h; decide
    | ChargingCharacteristics x => injection h with h; subst h; decide
    | TraceInformation x => injection h with h; subst h; decide
    | PdnType x => injection h with h; subst h; decide
    | Pti x => injection h with h; subst h; decide
    | Ptmsi x => injection h with h; subst h; decide
    | PtmsiSignature x => injection h with h; subst h; decide
    | UeTimeZone x => injection h with h; subst h; decide
    | TraceReference x => injection h with h; subst h; decide
    | Guti x => injection h with h; subst h; decide
    | PlmnId x => injection h with h; subst h; decide
    | PacketFlowId x => injection h with h; subst h; decide
    | RabContext x => injection h with h; subst h; decide
    | PortNumber x => injection h with h; subst h; decide
    | ApnRestriction x => injection h with h; subst h; decide
    | SelectionMode x => injection h with h; subst h; decide
    | ChangeReportingAction x => injection h with h; subst h; decide
    | ChannelNeeded x => injection h with h; subst h; decide
    | EmlppPriority x => injection h with h; subst h; decide
    | NodeType x => injection h with h; subst h; decide
    | MbmsSd x => injection h with h; subst h; decide
    | MbmsSessionId x => injection h with h; subst h; decide
    | MbmsFlowId x => injection h with h; subst h; decide
    | MbmsDistributionAck x => injection h with h; subst h; decide
    | RfspIndex x => injection h with h; subst h; decide
    | Uci x => injection h with h; subst h; decide
    | CSGInformationReportingAction x => injection h with h; subst h; decide
    | CsgId x => injection h with h; subst h; decide
    | CsgMembershipIndication x => injection h with h; subst h; decide
    | ServiceIndicator x => injection h with h; subst h; decide
    | DetachType x => injection h with h; subst h; decide
    | NodeFeatures x => injection h with h; subst h; decide
    | MbmsTimeToDataTransfer x => injection h with h; subst h; decide
    | Throttling x => injection h with h; subst h; decide
    | EpcTimer x => injection h with h; subst h; decide
    | Spi x => injection h with h; subst h; decide
    | Tmgi x => injection h with h; subst h; decide
    | AdditionalFlagsSrvcc x => injection h with h; subst h; decide
    | AbsoluteTimeMbmsDataTransfer x => injection h with h; subst h; decide
    | HenbInfoReporting x => injection h with h; subst h; decide
    | Ip4Cp x => injection h with h; subst h; decide
    | ChangeToReportFlags x => injection h with h; subst h; decide
    | UliTimestamp x => injection h with h; subst h; decide
    | MbmsFlags x => injection h with h; subst h; decide
    | CnOperatorSelectionEntity x => injection h with h; subst h; decide
    | Twmi x => injection h with h; subst h; decide
    | PresenceReportingAreaInformation x => injection h with h; subst h; decide
    | TwanIdTimeStamp x => injection h with h; subst h; decide
    | Metric x => injection h with h; subst h; decide
    | Sqn x => injection h with h; subst h; decide
    | WlanOffloadIndication x => injection h with h; subst h; decide
    | MilliSecondTimeStamp x => injection h with h; subst h; decide
    | CIoTOptimizationSupportIndication x => injection h with h; subst h; decide
    | HeaderCompressionConfiguration x => injection h with h; subst h; decide
    | ServingPlmnRateControl x => injection h with h; subst h; decide
    | Counter x => injection h with h; subst h; decide
    | MappedUeUsageType x => injection h with h; subst h; decide
    | UpFunctionSelectionIndicationFlags x => injection h with h; subst h; decide
    | AdditionalRrmPolicyIndex x => injection h with h; subst h; decide
    | ServicesAuthorized x => injection h with h; subst h; decide
    | BitRate x => injection h with h; subst h; decide
    | PSCellId x => injection h with h; subst h; decide
    | UpSecurityPolicy x => injection h with h; subst h; decide
    | _ => exact absurd rfl hk

/-- A sufficient condition for the arm not to panic on the buffer `b`. -/
def Kind.Cond (b : Bytes) : Kind → Prop
  | .Imsi => (declLen b).toNat < 65532
  | .Cause => (declLen b).toNat < 65532
  | .Recovery => True
  | .StnSr => (declLen b).toNat < 65532
  | .SrvccCause => True
  | .Apn => (declLen b).toNat < 65532 ∧ (Labels ((b.take (4 + (declLen b).toNat)).drop 4))
  | .ApnAmbr => True
  | .Ebi => True
  | .IpAddress => (declLen b).toNat < 65532
  | .Mei => (declLen b).toNat < 65532
  | .Msisdn => (declLen b).toNat < 65532
  | .Indication => (declLen b).toNat < 65532 ∧ ((declLen b).toNat + 4 ≤ b.length)
  | .Pco => (declLen b).toNat < 65532
  | .PdnAddressAllocation => (declLen b).toNat < 65532
  | .BearerQos => True
  | .FlowQos => True
  | .RatType => True
  | .ServingNetwork => True
  | .BearerTft => (declLen b).toNat < 65532
  | .TrafficAggregateDescription => (declLen b).toNat < 65532
  | .Uli => (declLen b).toNat < 65532 ∧ (b.getD 4 0 &&& 0x04 = 0 ∨ 26 ≤ b.length)
  | .Fteid => (declLen b).toNat < 65532 ∧ (Fteid.need (b.getD 4 0) ≤ b.length)
  | .Tmsi => (declLen b).toNat < 65532
  | .GlobalCnId => True
  | .S103pdf => (declLen b).toNat < 65532 ∧ (5 ≤ b.length ∧ (b.getD 4 0 = 0x04 → 14 ≤ b.length) ∧ (b.getD 4 0 = 0x10 → 26 + (b.getD 25 0).toNat ≤ b.length))
  | .S1udf => (declLen b).toNat < 65532 ∧ (6 ≤ b.length ∧ (b.getD 5 0 = 0x04 → 14 ≤ b.length) ∧ (b.getD 5 0 = 0x10 → 26 ≤ b.length))
  | .DelayValue => True
  | .BearerContext => (declLen b).toNat < 65532 ∧ b ≠ []
  | .ChargingId => True
  | .ChargingCharacteristics => True
  | .TraceInformation => True
  | .BearerFlags => (declLen b).toNat < 65532
  | .PdnType => True
  | .Pti => True
  | .MmContext => (declLen b).toNat < 65532 ∧ (MmContext.cond b)
  | .PdnConnections => (declLen b).toNat < 65532 ∧ b ≠ []
  | .PduNumbers => (declLen b).toNat < 65532
  | .Ptmsi => True
  | .PtmsiSignature => True
  | .HopCounter => (declLen b).toNat < 65532
  | .UeTimeZone => True
  | .TraceReference => True
  | .CompleteRequestMessage => (declLen b).toNat < 65532
  | .Guti => True
  | .Fcontainer => (declLen b).toNat < 65532
  | .Fcause => (declLen b).toNat < 65532
  | .PlmnId => True
  | .TargetIdentification => True
  | .PacketFlowId => True
  | .RabContext => True
  | .SrcRncPdcpCtxInfo => (declLen b).toNat < 65532
  | .PortNumber => True
  | .ApnRestriction => True
  | .SelectionMode => True
  | .SourceIdentification => (b.getD 12 0 = 1 → 18 ≤ b.length)
  | .ChangeReportingAction => True
  | .Fqcsid => (declLen b).toNat < 65532
  | .ChannelNeeded => True
  | .EmlppPriority => True
  | .NodeType => True
  | .Fqdn => (declLen b).toNat < 65532 ∧ (Labels ((b.take (4 + (declLen b).toNat)).drop 4))
  | .TransactionIdentifier => (declLen b).toNat < 65532
  | .MbmsSa => (declLen b).toNat < 65532
  | .MbmsSd => True
  | .MbmsSessionId => True
  | .MbmsFlowId => True
  | .MbmsIpMulticastDistribution => (declLen b).toNat < 65532 ∧ (43 ≤ b.length)
  | .MbmsDistributionAck => True
  | .RfspIndex => True
  | .Uci => True
  | .CSGInformationReportingAction => True
  | .CsgId => True
  | .CsgMembershipIndication => True
  | .ServiceIndicator => True
  | .DetachType => True
  | .Ldn => (declLen b).toNat < 65532
  | .NodeFeatures => True
  | .MbmsTimeToDataTransfer => True
  | .Throttling => True
  | .Arp => (declLen b).toNat < 65532
  | .EpcTimer => True
  | .Spi => True
  | .Tmgi => True
  | .AdditionalMmContextForSrvcc => (declLen b).toNat < 65532 ∧ (517 ≤ b.length)
  | .AdditionalFlagsSrvcc => True
  | .MdtConfiguration => (declLen b).toNat < 65532 ∧ (275 ≤ b.length)
  | .Apco => (declLen b).toNat < 65532
  | .AbsoluteTimeMbmsDataTransfer => True
  | .HenbInfoReporting => True
  | .Ip4Cp => True
  | .ChangeToReportFlags => True
  | .ActionIndication => (declLen b).toNat < 65532
  | .TwanId => (declLen b).toNat < 65532 ∧ (1284 ≤ b.length)
  | .UliTimestamp => True
  | .MbmsFlags => True
  | .RanNasCause => (declLen b).toNat < 65532
  | .CnOperatorSelectionEntity => True
  | .Twmi => True
  | .NodeNumber => (declLen b).toNat < 65532 ∧ (1 ≤ (b.getD 4 0).toNat ∧ (b.getD 4 0).toNat + 5 ≤ b.length)
  | .NodeIdentifier => (declLen b).toNat < 65532
  | .PresenceReportingAreaAction => (declLen b).toNat < 65532 ∧ (14 ≤ b.length ∧ PresenceReportingAreaAction.extPos b ≠ b.length)
  | .PresenceReportingAreaInformation => True
  | .TwanIdTimeStamp => True
  | .OverloadControlInfo => (declLen b).toNat < 65532 ∧ b ≠ []
  | .LoadControlInfo => (declLen b).toNat < 65532 ∧ b ≠ []
  | .Metric => True
  | .Sqn => True
  | .ApnRelativeCapacity => (declLen b).toNat < 65532 ∧ (Labels ((b.take (4 + (declLen b).toNat)).drop 5))
  | .WlanOffloadIndication => True
  | .PagingServiceInfo => (declLen b).toNat < 65532 ∧ (7 ≤ b.length ∨ b.getD 5 0 ≠ 1)
  | .IntegerNumber => (declLen b).toNat < 65532
  | .MilliSecondTimeStamp => True
  | .MonitoringEventInformation => (declLen b).toNat < 65532
  | .EcgiList => (declLen b).toNat < 65532
  | .RemoteUeContext => (declLen b).toNat < 65532 ∧ b ≠ []
  | .RemoteUserId => (declLen b).toNat < 65532 ∧ (6 + (b.getD 5 0).toNat ≤ b.length)
  | .RemoteUeIpInformation => (declLen b).toNat < 65532
  | .CIoTOptimizationSupportIndication => True
  | .ScefPdnConnections => (declLen b).toNat < 65532 ∧ b ≠ []
  | .HeaderCompressionConfiguration => True
  | .Epco => (declLen b).toNat < 65532
  | .ServingPlmnRateControl => True
  | .Counter => True
  | .MappedUeUsageType => True
  | .SecondaryRatUsageDataReport => (declLen b).toNat < 65532
  | .UpFunctionSelectionIndicationFlags => True
  | .MaxPacketLossRate => (declLen b).toNat < 65532
  | .ApnRateControlStatus => (declLen b).toNat < 65532
  | .ExtendedTraceInformation => (declLen b).toNat < 65532 ∧ (800 ≤ b.length)
  | .MonitoringEventExtensionInfo => (declLen b).toNat < 65532 ∧ (10 + (b.getD 9 0).toNat ≤ b.length)
  | .AdditionalRrmPolicyIndex => True
  | .V2xInformation => (declLen b).toNat < 65532 ∧ b ≠ []
  | .PC5QosParameters => (declLen b).toNat < 65532 ∧ b ≠ []
  | .ServicesAuthorized => True
  | .BitRate => True
  | .PC5QosFlow => (declLen b).toNat < 65532 ∧ (14 ≤ b.length ∧ (b.getD 4 0 &&& 0x01 = 1 → 15 ≤ b.length))
  | .SgiPtpTunnelAddress => (declLen b).toNat < 65532
  | .PgwChangeInfo => (declLen b).toNat < 65532 ∧ b ≠ []
  | .PgwFqdn => (declLen b).toNat < 65532 ∧ (Labels ((b.take (4 + (declLen b).toNat)).drop 4))
  | .GroupId => (declLen b).toNat < 65532
  | .PSCellId => True
  | .UpSecurityPolicy => True
  | .AlternativeImsi => (declLen b).toNat < 65532
  | .SpecialIEWithTypeExt => (declLen b).toNat < 65532 ∧ (b.length ≠ 5 ∧ (declLen b).toNat ≠ 1)
  | .PrivateExtension => (declLen b).toNat < 65532 ∧ ((declLen b).toNat ≠ 1)
  | .Unknown => (declLen b).toNat < 65532 ∧ b ≠ []

/-- The kinds with no other condition than a declared length below 65532 (and a non-empty buffer). -/
def Kind.robust : Kind → Bool
  | .Imsi => true
  | .Cause => true
  | .Recovery => true
  | .StnSr => true
  | .SrvccCause => true
  | .ApnAmbr => true
  | .Ebi => true
  | .IpAddress => true
  | .Mei => true
  | .Msisdn => true
  | .Pco => true
  | .PdnAddressAllocation => true
  | .BearerQos => true
  | .FlowQos => true
  | .RatType => true
  | .ServingNetwork => true
  | .BearerTft => true
  | .TrafficAggregateDescription => true
  | .Tmsi => true
  | .GlobalCnId => true
  | .DelayValue => true
  | .BearerContext => true
  | .ChargingId => true
  | .ChargingCharacteristics => true
  | .TraceInformation => true
  | .BearerFlags => true
  | .PdnType => true
  | .Pti => true
  | .PdnConnections => true
  | .PduNumbers => true
  | .Ptmsi => true
  | .PtmsiSignature => true
  | .HopCounter => true
  | .UeTimeZone => true
  | .TraceReference => true
  | .CompleteRequestMessage => true
  | .Guti => true
  | .Fcontainer => true
  | .Fcause => true
  | .PlmnId => true
  | .TargetIdentification => true
  | .PacketFlowId => true
  | .RabContext => true
  | .SrcRncPdcpCtxInfo => true
  | .PortNumber => true
  | .ApnRestriction => true
  | .SelectionMode => true
  | .ChangeReportingAction => true
  | .Fqcsid => true
  | .ChannelNeeded => true
  | .EmlppPriority => true
  | .NodeType => true
  | .TransactionIdentifier => true
  | .MbmsSa => true
  | .MbmsSd => true
  | .MbmsSessionId => true
  | .MbmsFlowId => true
  | .MbmsDistributionAck => true
  | .RfspIndex => true
  | .Uci => true
  | .CSGInformationReportingAction => true
  | .CsgId => true
  | .CsgMembershipIndication => true
  | .ServiceIndicator => true
  | .DetachType => true
  | .Ldn => true
  | .NodeFeatures => true
  | .MbmsTimeToDataTransfer => true
  | .Throttling => true
  | .Arp => true
  | .EpcTimer => true
  | .Spi => true
  | .Tmgi => true
  | .AdditionalFlagsSrvcc => true
  | .Apco => true
  | .AbsoluteTimeMbmsDataTransfer => true
  | .HenbInfoReporting => true
  | .Ip4Cp => true
  | .ChangeToReportFlags => true
  | .ActionIndication => true
  | .UliTimestamp => true
  | .MbmsFlags => true
  | .RanNasCause => true
  | .CnOperatorSelectionEntity => true
  | .Twmi => true
  | .NodeIdentifier => true
  | .PresenceReportingAreaInformation => true
  | .TwanIdTimeStamp => true
  | .OverloadControlInfo => true
  | .LoadControlInfo => true
  | .Metric => true
  | .Sqn => true
  | .WlanOffloadIndication => true
  | .IntegerNumber => true
  | .MilliSecondTimeStamp => true
  | .MonitoringEventInformation => true
  | .EcgiList => true
  | .RemoteUeContext => true
  | .RemoteUeIpInformation => true
  | .CIoTOptimizationSupportIndication => true
  | .ScefPdnConnections => true
  | .HeaderCompressionConfiguration => true
  | .Epco => true
  | .ServingPlmnRateControl => true
  | .Counter => true
  | .MappedUeUsageType => true
  | .SecondaryRatUsageDataReport => true
  | .UpFunctionSelectionIndicationFlags => true
  | .MaxPacketLossRate => true
  | .ApnRateControlStatus => true
  | .AdditionalRrmPolicyIndex => true
  | .V2xInformation => true
  | .PC5QosParameters => true
  | .ServicesAuthorized => true
  | .BitRate => true
  | .SgiPtpTunnelAddress => true
  | .PgwChangeInfo => true
  | .GroupId => true
  | .PSCellId => true
  | .UpSecurityPolicy => true
  | .AlternativeImsi => true
  | .Unknown => true
  | _ => false

theorem Kind.cond_robust {k : Kind} {b : Bytes} (hk : k.robust = true) (hb : b ≠ []) (hl : (declLen b).toNat < 65532) :
    k.Cond b := by
  cases k with
  | Imsi => exact hl
  | Cause => exact hl
  | Recovery => exact trivial
  | StnSr => exact hl
  | SrvccCause => exact trivial
  | ApnAmbr => exact trivial
  | Ebi => exact trivial
  | IpAddress => exact hl
  | Mei => exact hl
  | Msisdn => exact hl
  | Pco => exact hl
  | PdnAddressAllocation => exact hl
  | BearerQos => exact trivial
  | FlowQos => exact trivial
  | RatType => exact trivial
  | ServingNetwork => exact trivial
  | BearerTft => exact hl
  | TrafficAggregateDescription => exact hl
  | Tmsi => exact hl
  | GlobalCnId => exact trivial
  | DelayValue => exact trivial
  | BearerContext => exact ⟨hl, hb⟩
  | ChargingId => exact trivial
  | ChargingCharacteristics => exact trivial
  | TraceInformation => exact trivial
  | BearerFlags => exact hl
  | PdnType => exact trivial
  | Pti => exact trivial
  | PdnConnections => exact ⟨hl, hb⟩
  | PduNumbers => exact hl
  | Ptmsi => exact trivial
  | PtmsiSignature => exact trivial
  | HopCounter => exact hl
  | UeTimeZone => exact trivial
  | TraceReference => exact trivial
  | CompleteRequestMessage => exact hl
  | Guti => exact trivial
  | Fcontainer => exact hl
  | Fcause => exact hl
  | PlmnId => exact trivial
  | TargetIdentification => exact trivial
  | PacketFlowId => exact trivial
  | RabContext => exact trivial
  | SrcRncPdcpCtxInfo => exact hl
  | PortNumber => exact trivial
  | ApnRestriction => exact trivial
  | SelectionMode => exact trivial
  | ChangeReportingAction => exact trivial
  | Fqcsid => exact hl
  | ChannelNeeded => exact trivial
  | EmlppPriority => exact trivial
  | NodeType => exact trivial
  | TransactionIdentifier => exact hl
  | MbmsSa => exact hl
  | MbmsSd => exact trivial
  | MbmsSessionId => exact trivial
  | MbmsFlowId => exact trivial
  | MbmsDistributionAck => exact trivial
  | RfspIndex => exact trivial
  | Uci => exact trivial
  | CSGInformationReportingAction => exact trivial
  | CsgId => exact trivial
  | CsgMembershipIndication => exact trivial
  | ServiceIndicator => exact trivial
  | DetachType => exact trivial
  | Ldn => exact hl
  | NodeFeatures => exact trivial
  | MbmsTimeToDataTransfer => exact trivial
  | Throttling => exact trivial
  | Arp => exact hl
  | EpcTimer => exact trivial
  | Spi => exact trivial
  | Tmgi => exact trivial
  | AdditionalFlagsSrvcc => exact trivial
  | Apco => exact hl
  | AbsoluteTimeMbmsDataTransfer => exact trivial
  | HenbInfoReporting => exact trivial
  | Ip4Cp => exact trivial
  | ChangeToReportFlags => exact trivial
  | ActionIndication => exact hl
  | UliTimestamp => exact trivial
  | MbmsFlags => exact trivial
  | RanNasCause => exact hl
  | CnOperatorSelectionEntity => exact trivial
  | Twmi => exact trivial
  | NodeIdentifier => exact hl
  | PresenceReportingAreaInformation => exact trivial
  | TwanIdTimeStamp => exact trivial
  | OverloadControlInfo => exact ⟨hl, hb⟩
  | LoadControlInfo => exact ⟨hl, hb⟩
  | Metric => exact trivial
  | Sqn => exact trivial
  | WlanOffloadIndication => exact trivial
  | IntegerNumber => exact hl
  | MilliSecondTimeStamp => exact trivial
  | MonitoringEventInformation => exact hl
  | EcgiList => exact hl
  | RemoteUeContext => exact ⟨hl, hb⟩
  | RemoteUeIpInformation => exact hl
  | CIoTOptimizationSupportIndication => exact trivial
  | ScefPdnConnections => exact ⟨hl, hb⟩
  | HeaderCompressionConfiguration => exact trivial
  | Epco => exact hl
  | ServingPlmnRateControl => exact trivial
  | Counter => exact trivial
  | MappedUeUsageType => exact trivial
  | SecondaryRatUsageDataReport => exact hl
  | UpFunctionSelectionIndicationFlags => exact trivial
  | MaxPacketLossRate => exact hl
  | ApnRateControlStatus => exact hl
  | AdditionalRrmPolicyIndex => exact trivial
  | V2xInformation => exact ⟨hl, hb⟩
  | PC5QosParameters => exact ⟨hl, hb⟩
  | ServicesAuthorized => exact trivial
  | BitRate => exact trivial
  | SgiPtpTunnelAddress => exact hl
  | PgwChangeInfo => exact ⟨hl, hb⟩
  | GroupId => exact hl
  | PSCellId => exact trivial
  | UpSecurityPolicy => exact trivial
  | AlternativeImsi => exact hl
  | Unknown => exact ⟨hl, hb⟩
  | _ => exact absurd hk (by decide)

theorem Kind.cond_exact {k : Kind} {b : Bytes} (hk : k.exact = true) (h : k.Cond b) : (declLen b).toNat < 65532 := by
  cases k with
  | Imsi => exact h
  | Cause => exact h
  | StnSr => exact h
  | Apn => exact h.1
  | IpAddress => exact h
  | Msisdn => exact h
  | Indication => exact h.1
  | Pco => exact h
  | PdnAddressAllocation => exact h
  | BearerTft => exact h
  | TrafficAggregateDescription => exact h
  | Uli => exact h.1
  | Fteid => exact h.1
  | Tmsi => exact h
  | S103pdf => exact h.1
  | S1udf => exact h.1
  | BearerContext => exact h.1
  | BearerFlags => exact h
  | MmContext => exact h.1
  | PdnConnections => exact h.1
  | PduNumbers => exact h
  | HopCounter => exact h
  | CompleteRequestMessage => exact h
  | Fcontainer => exact h
  | Fcause => exact h
  | SrcRncPdcpCtxInfo => exact h
  | Fqcsid => exact h
  | Fqdn => exact h.1
  | TransactionIdentifier => exact h
  | MbmsSa => exact h
  | MbmsIpMulticastDistribution => exact h.1
  | Ldn => exact h
  | Arp => exact h
  | AdditionalMmContextForSrvcc => exact h.1
  | MdtConfiguration => exact h.1
  | Apco => exact h
  | ActionIndication => exact h
  | TwanId => exact h.1
  | RanNasCause => exact h
  | NodeNumber => exact h.1
  | NodeIdentifier => exact h
  | PresenceReportingAreaAction => exact h.1
  | OverloadControlInfo => exact h.1
  | LoadControlInfo => exact h.1
  | ApnRelativeCapacity => exact h.1
  | IntegerNumber => exact h
  | MonitoringEventInformation => exact h
  | RemoteUeContext => exact h.1
  | RemoteUserId => exact h.1
  | RemoteUeIpInformation => exact h
  | ScefPdnConnections => exact h.1
  | Epco => exact h
  | SecondaryRatUsageDataReport => exact h
  | MaxPacketLossRate => exact h
  | ApnRateControlStatus => exact h
  | ExtendedTraceInformation => exact h.1
  | MonitoringEventExtensionInfo => exact h.1
  | V2xInformation => exact h.1
  | PC5QosParameters => exact h.1
  | PC5QosFlow => exact h.1
  | SgiPtpTunnelAddress => exact h
  | PgwChangeInfo => exact h.1
  | PgwFqdn => exact h.1
  | GroupId => exact h
  | AlternativeImsi => exact h
  | SpecialIEWithTypeExt => exact h.1
  | PrivateExtension => exact h.1
  | Unknown => exact h.1
  | _ => exact absurd hk (by decide)

theorem groupUnm_safe {α : Type} {dec : Bytes → R Err (List IE)} {mk : UInt8 → UInt16 → UInt8 → List IE → α} {m : Mode}
    {b : Bytes} {P : α → Prop} (hl : (declLen b).toNat < 65532) (hb : b ≠ [])
    (hd : ∀ body, body = (b.take ((declLen b).toNat + 4)).drop 4 → (declLen b).toNat + 4 ≤ b.length →
      (dec body).Safe fun l => P (mk (b.getD 0 0) (declLen b) (b.getD 3 0) l)) :
    (groupUnm dec mk m b).Safe P := by
  have h0 : 0 < b.length := List.length_pos_iff.mpr hb
  unfold groupUnm
  rw [Safe_ite]
  refine ⟨fun h4 => ?_, fun _ => ?_⟩
  · have e1 : (rd b 0 : R Err UInt8) = .ok (b.getD 0 0) := rd_getD (by omega)
    have e2 : (rd16 b 1 : R Err UInt16) = .ok (declLen b) := by
      simp only [rd16, rd_getD (show 1 < b.length by omega), rd_getD (show 1 + 1 < b.length by omega), R.ok_bind, R.pure_eq, declLen]
    have e3 : (rd b 3 : R Err UInt8) = .ok (b.getD 3 0) := rd_getD (by omega)
    simp only [e1, e2, e3, R.ok_bind]
    rw [checkTliv_ok hl]
    simp only [R.ok_bind]
    rw [slBody16_ok hl]
    by_cases hc : 0 < (declLen b).toNat ∧ (declLen b).toNat + 4 ≤ b.length
    · rw [if_pos (by simpa using hc)]
      rw [Safe_bind, Safe_sl]
      refine ⟨⟨by omega, by omega⟩, ?_⟩
      rw [Safe_bind]
      exact hd _ rfl hc.2
    · rw [if_neg (by simpa using hc)]
      trivial
  · rw [rd_lt h0]
    trivial

theorem Unknown.safe {m : Mode} {b : Bytes} (hl : (declLen b).toNat < 65532) (hb : b ≠ []) :
    (Unknown.unmarshal m b).Safe fun _ => True := by
  have h0 : 0 < b.length := List.length_pos_iff.mpr hb
  unfold Unknown.unmarshal
  rw [Safe_ite]
  refine ⟨fun h4 => ?_, fun _ => ?_⟩
  · have e2 : (rd16 b 1 : R Err UInt16) = .ok (declLen b) := by
      simp only [rd16, rd_getD (show 1 < b.length by omega), rd_getD (show 1 + 1 < b.length by omega), R.ok_bind, R.pure_eq, declLen]
    have e3 : (rd b 3 : R Err UInt8) = .ok (b.getD 3 0) := rd_getD (by omega)
    simp only [e2, e3, R.ok_bind]
    rw [checkTliv_ok hl]
    simp only [R.ok_bind]
    rw [slBody16_ok hl]
    by_cases hc : 0 < (declLen b).toNat ∧ (declLen b).toNat + 4 ≤ b.length
    · rw [if_pos (by simpa using hc), Safe_bind, Safe_sl]
      exact ⟨⟨by omega, by omega⟩, trivial⟩
    · rw [if_neg (by simpa using hc)]
      trivial
  · rw [rd_lt h0]
    trivial

theorem safe_arm {α : Type} {m : Mode} {x : R Err α} {l : α → R Err Nat} {P : Nat → Prop} {f : α → IE}
    (h : x.Safe fun a => (l a).Safe P) (hf : ∀ a, (f a).len m = l a) :
    (x >>= fun a => pure (f a)).Safe fun e => (e.len m).Safe fun _ => True := by
  rw [Safe_bind]
  refine Safe.mono h fun a ha => ?_
  show ((f a).len m).Safe _
  rw [hf]
  exact Safe.mono ha fun _ _ => trivial

/-- An arm whose condition holds neither panics nor diverges, nor does `len` on its result, provided that the decoding of the
members does not. -/
theorem unmKind_safe {dec : Bytes → R Err (List IE)} {m : Mode} {b : Bytes} {k : Kind} (h : k.Cond b)
    (hd : (declLen b).toNat + 4 ≤ b.length → (dec ((b.take ((declLen b).toNat + 4)).drop 4)).Safe fun _ => True) :
    (unmKind dec m b k).Safe fun x => (x.len m).Safe fun _ => True := by
  have hG : ∀ {α : Type} {mk : UInt8 → UInt16 → UInt8 → List IE → α}, (declLen b).toNat < 65532 ∧ b ≠ [] →
      (groupUnm dec mk m b).Safe fun _ => True :=
    fun {α mk} h => groupUnm_safe h.1 h.2 fun body hb hl => by subst hb; exact hd hl
  cases k with
  | Imsi => exact safe_arm (Imsi.safe m b h trivial) fun _ => rfl
  | Cause => exact safe_arm (Cause.safe m b h trivial) fun _ => rfl
  | Recovery => exact safe_arm (Recovery.safe m b ) fun _ => rfl
  | StnSr => exact safe_arm (StnSr.safe m b h trivial) fun _ => rfl
  | SrvccCause => exact safe_arm (SrvccCause.safe m b ) fun _ => rfl
  | Apn => exact safe_arm (Apn.safe m b h.1 h.2) fun _ => rfl
  | ApnAmbr => exact safe_arm (Ambr.safe m b ) fun _ => rfl
  | Ebi => exact safe_arm (Ebi.safe m b ) fun _ => rfl
  | IpAddress => exact safe_arm (IpAddress.safe m b h trivial) fun _ => rfl
  | Mei => exact safe_arm (Mei.safe m b h) fun _ => rfl
  | Msisdn => exact safe_arm (Msisdn.safe m b h trivial) fun _ => rfl
  | Indication => exact safe_arm (Indication.safe m b h.1 h.2) fun _ => rfl
  | Pco => exact safe_arm (Pco.safe m b h trivial) fun _ => rfl
  | PdnAddressAllocation => exact safe_arm (PdnAddressAllocation.safe m b h trivial) fun _ => rfl
  | BearerQos => exact safe_arm (BearerQos.safe m b ) fun _ => rfl
  | FlowQos => exact safe_arm (FlowQos.safe m b ) fun _ => rfl
  | RatType => exact safe_arm (RatType.safe m b ) fun _ => rfl
  | ServingNetwork => exact safe_arm (ServingNetwork.safe m b ) fun _ => rfl
  | BearerTft => exact safe_arm (BearerTft.safe m b h trivial) fun _ => rfl
  | TrafficAggregateDescription => exact safe_arm (TrafficAggregateDescription.safe m b h trivial) fun _ => rfl
  | Uli => exact safe_arm (Uli.safe m b h.1 h.2) fun _ => rfl
  | Fteid => exact safe_arm (Fteid.safe m b h.1 h.2) fun _ => rfl
  | Tmsi => exact safe_arm (Tmsi.safe m b h trivial) fun _ => rfl
  | GlobalCnId => exact safe_arm (GlobalCnId.safe m b ) fun _ => rfl
  | S103pdf => exact safe_arm (S103pdf.safe m b h.1 h.2) fun _ => rfl
  | S1udf => exact safe_arm (S1udf.safe m b h.1 h.2) fun _ => rfl
  | DelayValue => exact safe_arm (DelayValue.safe m b ) fun _ => rfl
  | BearerContext => simp only [unmKind]; rw [Safe_bind]; exact Safe.mono (hG h) fun _ _ => trivial
  | ChargingId => exact safe_arm (ChargingId.safe m b ) fun _ => rfl
  | ChargingCharacteristics => exact safe_arm (ChargingCharacteristics.safe m b ) fun _ => rfl
  | TraceInformation => exact safe_arm (TraceInformation.safe m b ) fun _ => rfl
  | BearerFlags => exact safe_arm (BearerFlags.safe m b h trivial) fun _ => rfl
  | PdnType => exact safe_arm (PdnType.safe m b ) fun _ => rfl
  | Pti => exact safe_arm (Pti.safe m b ) fun _ => rfl
  | MmContext => exact safe_arm (MmContext.safe m b h.1 h.2) fun _ => rfl
  | PdnConnections => simp only [unmKind]; rw [Safe_bind]; exact Safe.mono (hG h) fun _ _ => trivial
  | PduNumbers => exact safe_arm (PduNumbers.safe m b h trivial) fun _ => rfl
  | Ptmsi => exact safe_arm (Ptmsi.safe m b ) fun _ => rfl
  | PtmsiSignature => exact safe_arm (PtmsiSignature.safe m b ) fun _ => rfl
  | HopCounter => exact safe_arm (HopCounter.safe m b h trivial) fun _ => rfl
  | UeTimeZone => exact safe_arm (UeTimeZone.safe m b ) fun _ => rfl
  | TraceReference => exact safe_arm (TraceReference.safe m b ) fun _ => rfl
  | CompleteRequestMessage => exact safe_arm (CompleteRequestMessage.safe m b h trivial) fun _ => rfl
  | Guti => exact safe_arm (Guti.safe m b ) fun _ => rfl
  | Fcontainer => exact safe_arm (Fcontainer.safe m b h trivial) fun _ => rfl
  | Fcause => exact safe_arm (Fcause.safe m b h trivial) fun _ => rfl
  | PlmnId => exact safe_arm (PlmnId.safe m b ) fun _ => rfl
  | TargetIdentification => exact safe_arm (TargetIdentification.safe m b trivial) fun _ => rfl
  | PacketFlowId => exact safe_arm (PacketFlowId.safe m b ) fun _ => rfl
  | RabContext => exact safe_arm (RabContext.safe m b ) fun _ => rfl
  | SrcRncPdcpCtxInfo => exact safe_arm (SourceRncPdcpContextInfo.safe m b h trivial) fun _ => rfl
  | PortNumber => exact safe_arm (PortNumber.safe m b ) fun _ => rfl
  | ApnRestriction => exact safe_arm (ApnRestriction.safe m b ) fun _ => rfl
  | SelectionMode => exact safe_arm (SelectionMode.safe m b ) fun _ => rfl
  | SourceIdentification => exact safe_arm (SourceIdentification.safe m b h) fun _ => rfl
  | ChangeReportingAction => exact safe_arm (ChangeReportingAction.safe m b ) fun _ => rfl
  | Fqcsid => exact safe_arm (Fqcsid.safe m b h trivial) fun _ => rfl
  | ChannelNeeded => exact safe_arm (ChannelNeeded.safe m b ) fun _ => rfl
  | EmlppPriority => exact safe_arm (EmlppPriority.safe m b ) fun _ => rfl
  | NodeType => exact safe_arm (NodeType.safe m b ) fun _ => rfl
  | Fqdn => exact safe_arm (Fqdn.safe m b h.1 h.2) fun _ => rfl
  | TransactionIdentifier => exact safe_arm (TransactionIdentifier.safe m b h trivial) fun _ => rfl
  | MbmsSa => exact safe_arm (MbmsServiceArea.safe m b h trivial) fun _ => rfl
  | MbmsSd => exact safe_arm (MbmsSessionDuration.safe m b ) fun _ => rfl
  | MbmsSessionId => exact safe_arm (MbmsSessionId.safe m b ) fun _ => rfl
  | MbmsFlowId => exact safe_arm (MbmsFlowId.safe m b ) fun _ => rfl
  | MbmsIpMulticastDistribution => exact safe_arm (MbmsIpMulticastDistribution.safe m b h.1 h.2) fun _ => rfl
  | MbmsDistributionAck => exact safe_arm (MbmsDistributionAck.safe m b ) fun _ => rfl
  | RfspIndex => exact safe_arm (RfspIndex.safe m b ) fun _ => rfl
  | Uci => exact safe_arm (Uci.safe m b ) fun _ => rfl
  | CSGInformationReportingAction => exact safe_arm (CSGInformationReportingAction.safe m b ) fun _ => rfl
  | CsgId => exact safe_arm (CsgId.safe m b ) fun _ => rfl
  | CsgMembershipIndication => exact safe_arm (CsgMembershipIndication.safe m b ) fun _ => rfl
  | ServiceIndicator => exact safe_arm (ServiceIndicator.safe m b ) fun _ => rfl
  | DetachType => exact safe_arm (DetachType.safe m b ) fun _ => rfl
  | Ldn => exact safe_arm (Ldn.safe m b h trivial) fun _ => rfl
  | NodeFeatures => exact safe_arm (NodeFeatures.safe m b ) fun _ => rfl
  | MbmsTimeToDataTransfer => exact safe_arm (MbmsTimeToDataTransfer.safe m b ) fun _ => rfl
  | Throttling => exact safe_arm (Throttling.safe m b ) fun _ => rfl
  | Arp => exact safe_arm (Arp.safe m b h trivial) fun _ => rfl
  | EpcTimer => exact safe_arm (EpcTimer.safe m b ) fun _ => rfl
  | Spi => exact safe_arm (Spi.safe m b ) fun _ => rfl
  | Tmgi => exact safe_arm (Tmgi.safe m b ) fun _ => rfl
  | AdditionalMmContextForSrvcc => exact safe_arm (AdditionalMmContextForSrvcc.safe m b h.1 h.2) fun _ => rfl
  | AdditionalFlagsSrvcc => exact safe_arm (AdditionalFlagsSrvcc.safe m b ) fun _ => rfl
  | MdtConfiguration => exact safe_arm (MdtConfiguration.safe m b h.1 h.2) fun _ => rfl
  | Apco => exact safe_arm (Apco.safe m b h trivial) fun _ => rfl
  | AbsoluteTimeMbmsDataTransfer => exact safe_arm (AbsoluteTimeMbmsDataTransfer.safe m b ) fun _ => rfl
  | HenbInfoReporting => exact safe_arm (HenbInfoReporting.safe m b ) fun _ => rfl
  | Ip4Cp => exact safe_arm (Ip4Cp.safe m b ) fun _ => rfl
  | ChangeToReportFlags => exact safe_arm (ChangeToReportFlags.safe m b ) fun _ => rfl
  | ActionIndication => exact safe_arm (ActionIndication.safe m b h trivial) fun _ => rfl
  | TwanId => exact safe_arm (TwanId.safe m b h.1 h.2) fun _ => rfl
  | UliTimestamp => exact safe_arm (UliTimestamp.safe m b ) fun _ => rfl
  | MbmsFlags => exact safe_arm (MbmsFlags.safe m b ) fun _ => rfl
  | RanNasCause => exact safe_arm (RanNasCause.safe m b h trivial) fun _ => rfl
  | CnOperatorSelectionEntity => exact safe_arm (CnOperatorSelectionEntity.safe m b ) fun _ => rfl
  | Twmi => exact safe_arm (Twmi.safe m b ) fun _ => rfl
  | NodeNumber => exact safe_arm (NodeNumber.safe m b h.1 h.2) fun _ => rfl
  | NodeIdentifier => exact safe_arm (NodeIdentifier.safe m b h trivial) fun _ => rfl
  | PresenceReportingAreaAction => exact safe_arm (PresenceReportingAreaAction.safe m b h.1 h.2) fun _ => rfl
  | PresenceReportingAreaInformation => exact safe_arm (PresenceReportingAreaInformation.safe m b ) fun _ => rfl
  | TwanIdTimeStamp => exact safe_arm (TwanIdTimeStamp.safe m b ) fun _ => rfl
  | OverloadControlInfo =>
    simp only [unmKind]
    rw [Safe_bind]
    refine Safe.mono (hG h) fun x _ => ?_
    rw [Safe_bind]
    unfold listCheck
    split
    · split
      · trivial
      · trivial
    · trivial
  | LoadControlInfo =>
    simp only [unmKind]
    rw [Safe_bind]
    refine Safe.mono (hG h) fun x _ => ?_
    rw [Safe_bind]
    unfold listCheck
    split
    · split
      · trivial
      · trivial
    · trivial
  | Metric => exact safe_arm (Metric.safe m b ) fun _ => rfl
  | Sqn => exact safe_arm (Sqn.safe m b ) fun _ => rfl
  | ApnRelativeCapacity => exact safe_arm (ApnRelativeCapacity.safe m b h.1 h.2) fun _ => rfl
  | WlanOffloadIndication => exact safe_arm (WlanOffloadIndication.safe m b ) fun _ => rfl
  | PagingServiceInfo => exact safe_arm (PagingServiceInfo.safe m b h.1 h.2) fun _ => rfl
  | IntegerNumber => exact safe_arm (IntegerNumber.safe m b h trivial) fun _ => rfl
  | MilliSecondTimeStamp => exact safe_arm (MilliSecondTimeStamp.safe m b ) fun _ => rfl
  | MonitoringEventInformation => exact safe_arm (MonitoringEventInformation.safe m b h trivial) fun _ => rfl
  | EcgiList => exact safe_arm (EcgiList.safe m b h trivial) fun _ => rfl
  | RemoteUeContext => simp only [unmKind]; rw [Safe_bind]; exact Safe.mono (hG h) fun _ _ => trivial
  | RemoteUserId => exact safe_arm (RemoteUserId.safe m b h.1 h.2) fun _ => rfl
  | RemoteUeIpInformation => exact safe_arm (RemoteUeIpInformation.safe m b h trivial) fun _ => rfl
  | CIoTOptimizationSupportIndication => exact safe_arm (CIoTOptimizationSupportIndication.safe m b ) fun _ => rfl
  | ScefPdnConnections => simp only [unmKind]; rw [Safe_bind]; exact Safe.mono (hG h) fun _ _ => trivial
  | HeaderCompressionConfiguration => exact safe_arm (HeaderCompressionConfiguration.safe m b ) fun _ => rfl
  | Epco => exact safe_arm (Epco.safe m b h trivial) fun _ => rfl
  | ServingPlmnRateControl => exact safe_arm (ServingPlmnRateControl.safe m b ) fun _ => rfl
  | Counter => exact safe_arm (Counter.safe m b ) fun _ => rfl
  | MappedUeUsageType => exact safe_arm (MappedUeUsageType.safe m b ) fun _ => rfl
  | SecondaryRatUsageDataReport => exact safe_arm (SecondaryRatUsageDataReport.safe m b h trivial) fun _ => rfl
  | UpFunctionSelectionIndicationFlags => exact safe_arm (UpFunctionSelectionIndicationFlags.safe m b ) fun _ => rfl
  | MaxPacketLossRate => exact safe_arm (MaxPacketLossRate.safe m b h trivial) fun _ => rfl
  | ApnRateControlStatus => exact safe_arm (ApnRateControlStatus.safe m b h trivial) fun _ => rfl
  | ExtendedTraceInformation => exact safe_arm (ExtendedTraceInformation.safe m b h.1 h.2) fun _ => rfl
  | MonitoringEventExtensionInfo => exact safe_arm (MonitoringEventExtensionInfo.safe m b h.1 h.2) fun _ => rfl
  | AdditionalRrmPolicyIndex => exact safe_arm (AdditionalRrmPolicyIndex.safe m b ) fun _ => rfl
  | V2xInformation => simp only [unmKind]; rw [Safe_bind]; exact Safe.mono (hG h) fun _ _ => trivial
  | PC5QosParameters =>
    simp only [unmKind]
    rw [Safe_bind]
    refine Safe.mono (hG h) fun x _ => ?_
    split <;> trivial
  | ServicesAuthorized => exact safe_arm (ServicesAuthorized.safe m b ) fun _ => rfl
  | BitRate => exact safe_arm (BitRate.safe m b ) fun _ => rfl
  | PC5QosFlow => exact safe_arm (PC5QosFlow.safe m b h.1 h.2) fun _ => rfl
  | SgiPtpTunnelAddress => exact safe_arm (SgiPtpTunnelAddress.safe m b h trivial) fun _ => rfl
  | PgwChangeInfo => simp only [unmKind]; rw [Safe_bind]; exact Safe.mono (hG h) fun _ _ => trivial
  | PgwFqdn => exact safe_arm (PgwFqdn.safe m b h.1 h.2) fun _ => rfl
  | GroupId => exact safe_arm (GroupId.safe m b h trivial) fun _ => rfl
  | PSCellId => exact safe_arm (PSCellId.safe m b ) fun _ => rfl
  | UpSecurityPolicy => exact safe_arm (UpSecurityPolicy.safe m b ) fun _ => rfl
  | AlternativeImsi => exact safe_arm (AlternativeImsi.safe m b h trivial) fun _ => rfl
  | SpecialIEWithTypeExt => exact safe_arm (SpecialIEWithTypeExt.safe m b h.1 h.2) fun _ => rfl
  | PrivateExtension => exact safe_arm (PrivateExtension.safe m b h.1 h.2) fun _ => rfl
  | Unknown => simp only [unmKind]; rw [Safe_bind]; exact Safe.mono (Unknown.safe h.1 h.2) fun _ _ => trivial

end Gtp.V2
