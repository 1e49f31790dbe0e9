import Verif.V2.ExtBase

/-!
# Octets behind an IE

The decoder of a kind, on a buffer and on the same buffer with more octets behind it. Expanded by `scripts/gen_append.py`.
-/

namespace Gtp.V2
set_option linter.unusedSimpArgs false
set_option linter.unusedVariables false

/-! ### Parts of IEs -/

section
variable {α : Type} {b r : Bytes}

theorem Cgi.ext : Ext (Cgi.unmarshal b) (Cgi.unmarshal (b ++ r)) := by ext_all [Cgi.unmarshal]
theorem Sai.ext : Ext (Sai.unmarshal b) (Sai.unmarshal (b ++ r)) := by ext_all [Sai.unmarshal]
theorem Rai.ext : Ext (Rai.unmarshal b) (Rai.unmarshal (b ++ r)) := by ext_all [Rai.unmarshal]
theorem Tai.ext : Ext (Tai.unmarshal b) (Tai.unmarshal (b ++ r)) := by ext_all [Tai.unmarshal]
theorem Ecgi.ext : Ext (Ecgi.unmarshal b) (Ecgi.unmarshal (b ++ r)) := by ext_all [Ecgi.unmarshal]
theorem Lai.ext : Ext (Lai.unmarshal b) (Lai.unmarshal (b ++ r)) := by ext_all [Lai.unmarshal]
theorem MacroEnbId.ext : Ext (MacroEnbId.unmarshal b) (MacroEnbId.unmarshal (b ++ r)) := by ext_all [MacroEnbId.unmarshal]
theorem ExtMacroEnbId.ext : Ext (ExtMacroEnbId.unmarshal b) (ExtMacroEnbId.unmarshal (b ++ r)) := by ext_all [ExtMacroEnbId.unmarshal]
theorem CellIdentifier.ext : Ext (CellIdentifier.unmarshal b) (CellIdentifier.unmarshal (b ++ r)) := by ext_all [CellIdentifier.unmarshal]
theorem GNbIdentifier.ext : Ext (GNbIdentifier.unmarshal b) (GNbIdentifier.unmarshal (b ++ r)) := by ext_all [GNbIdentifier.unmarshal]
theorem MacroEnbIdentifier.ext : Ext (MacroEnbIdentifier.unmarshal b) (MacroEnbIdentifier.unmarshal (b ++ r)) := by ext_all [MacroEnbIdentifier.unmarshal]
theorem ExtendedMacroEnbIdentifier.ext : Ext (ExtendedMacroEnbIdentifier.unmarshal b) (ExtendedMacroEnbIdentifier.unmarshal (b ++ r)) := by ext_all [ExtendedMacroEnbIdentifier.unmarshal]
theorem MacronGeNbIdentifier.ext : Ext (MacronGeNbIdentifier.unmarshal b) (MacronGeNbIdentifier.unmarshal (b ++ r)) := by ext_all [MacronGeNbIdentifier.unmarshal]
theorem ExtendedGeNbIdentifier.ext : Ext (ExtendedGeNbIdentifier.unmarshal b) (ExtendedGeNbIdentifier.unmarshal (b ++ r)) := by ext_all [ExtendedGeNbIdentifier.unmarshal]
theorem EnGNbIdentifier.ext : Ext (EnGNbIdentifier.unmarshal b) (EnGNbIdentifier.unmarshal (b ++ r)) := by ext_all [EnGNbIdentifier.unmarshal]
theorem AuthTriplet.ext : Ext (AuthTriplet.unm b) (AuthTriplet.unm (b ++ r)) := by ext_all [AuthTriplet.unm]
theorem AuthQuintuplet.ext : Ext (AuthQuintuplet.unm b) (AuthQuintuplet.unm (b ++ r)) := by ext_all [AuthQuintuplet.unm]
theorem AuthQuadruplet.ext : Ext (AuthQuadruplet.unm b) (AuthQuadruplet.unm (b ++ r)) := by ext_all [AuthQuadruplet.unm]
theorem AmbrMM.ext : Ext (AmbrMM.unm b) (AmbrMM.unm (b ++ r)) := by ext_all [AmbrMM.unm]
theorem OldEpsSecurityContext.ext : Ext (OldEpsSecurityContext.unm b) (OldEpsSecurityContext.unm (b ++ r)) := by ext_all [OldEpsSecurityContext.unm]
theorem ApnRateControlStatusMM.ext : Ext (ApnRateControlStatusMM.unm b) (ApnRateControlStatusMM.unm (b ++ r)) := by ext_all [ApnRateControlStatusMM.unm]

macro_rules | `(tactic| ext_leaf) => `(tactic| first
  | with_reducible exact Cgi.ext
  | with_reducible exact Sai.ext
  | with_reducible exact Rai.ext
  | with_reducible exact Tai.ext
  | with_reducible exact Ecgi.ext
  | with_reducible exact Lai.ext
  | with_reducible exact MacroEnbId.ext
  | with_reducible exact ExtMacroEnbId.ext
  | with_reducible exact CellIdentifier.ext
  | with_reducible exact GNbIdentifier.ext
  | with_reducible exact MacroEnbIdentifier.ext
  | with_reducible exact ExtendedMacroEnbIdentifier.ext
  | with_reducible exact MacronGeNbIdentifier.ext
  | with_reducible exact ExtendedGeNbIdentifier.ext
  | with_reducible exact EnGNbIdentifier.ext
  | with_reducible exact AuthTriplet.ext
  | with_reducible exact AuthQuintuplet.ext
  | with_reducible exact AuthQuadruplet.ext
  | with_reducible exact AmbrMM.ext
  | with_reducible exact OldEpsSecurityContext.ext
  | with_reducible exact ApnRateControlStatusMM.ext)

theorem Ext.rdItem {unm : Bytes → R Err α} {len : α → Nat} {e : Err} {c : Nat} (hu : ∀ s, Ext (unm s) (unm (s ++ r))) :
    Ext (rdItem unm len e b c) (rdItem unm len e (b ++ r) c) := by
  unfold V2.rdItem
  exact Ext.slFrom fun s => (hu s).mapErr.bind fun _ => Ext.refl _

theorem Ext.rdItems {unm : Bytes → R Err α} {len : α → Nat} {e : Err} (hu : ∀ s, Ext (unm s) (unm (s ++ r))) :
    ∀ {n c : Nat}, Ext (rdItems unm len e b n c) (rdItems unm len e (b ++ r) n c)
  | 0, c => Ext.refl _
  | n + 1, c => by
    unfold V2.rdItems
    exact (Ext.rdItem hu).bind fun _ => (Ext.rdItems hu).bind fun _ => Ext.refl _

theorem Ext.rdAuth {unm : Bytes → R Err α} {len : α → Nat} {e : Err} {n : UInt8} {c : Nat} (hu : ∀ s, Ext (unm s) (unm (s ++ r))) :
    Ext (rdAuth unm len e b n c) (rdAuth unm len e (b ++ r) n c) := by
  unfold V2.rdAuth
  exact Ext.ite (fun _ => Ext.refl _) fun _ => Ext.ite (fun _ => (Ext.rdItems hu).bind fun _ => Ext.refl _) fun _ => Ext.err

theorem Ext.rdAmbr {ty : UInt8} {c : Nat} : Ext (rdAmbr ty b c) (rdAmbr ty (b ++ r) c) := by
  unfold V2.rdAmbr
  exact Ext.iteT (by ext_cond) fun _ => Ext.rdItem fun s => AmbrMM.ext

theorem Ext.rdIov {f : Bool} {e : Err} {c : Nat} : Ext (rdIov f e b c) (rdIov f e (b ++ r) c) := by
  ext_all [V2.rdIov]

theorem Ext.rdExtAcc {e : Err} {c : Nat} : Ext (rdExtAcc e b c) (rdExtAcc e (b ++ r) c) := by
  ext_all [V2.rdExtAcc]

theorem Ext.rdTriplets {n : UInt8} {c : Nat} : Ext (rdTriplets b n c) (rdTriplets (b ++ r) n c) := by
  unfold V2.rdTriplets
  refine Ext.iteF (fun h => ⟨h.1, h.2.1, fun h1 => h.2.2 ?_⟩) fun _ => Ext.rdAuth fun s => AuthTriplet.ext
  rw [List.length_append]
  omega

theorem Ext.rdScope {c : Nat} : Ext (MdtConfiguration.rdScope b c) (MdtConfiguration.rdScope (b ++ r) c) := by
  ext_all [MdtConfiguration.rdScope]

theorem Ext.rdLe {e : Err} {st st' : Nat → R Err α} {c : Nat} (hs : Ext (st c) (st' c)) :
    Ext (rdLe e b st c) (rdLe e (b ++ r) st' c) := by
  unfold V2.rdLe
  exact Ext.iteT (by ext_cond) fun _ => hs

theorem Ext.rdPlmnS {c : Nat} : Ext (rdPlmnS b c) (rdPlmnS (b ++ r) c) := by
  ext_all [V2.rdPlmnS]

theorem Ext.rdName {c : Nat} : Ext (TwanId.rdName b c) (TwanId.rdName (b ++ r) c) := by
  ext_all [TwanId.rdName]

theorem Ext.rdRelay {f : Bool} {c : Nat} : Ext (TwanId.rdRelay f b c) (TwanId.rdRelay f (b ++ r) c) := by
  unfold TwanId.rdRelay
  exact Ext.ite (fun _ => Ext.iteT (by ext_cond) fun _ => Ext.rd.bind fun _ => Ext.rdLvC.bind fun _ => (Ext.rdLe Ext.rdLvC).bind fun _ =>
    Ext.refl _) fun _ => Ext.refl _

theorem Ext.rdStr {e : Err} {c : Nat} : Ext (rdStr b c e) (rdStr (b ++ r) c e) := by
  ext_all [V2.rdStr]

theorem Ext.rdElems {chk : Bool} {unm : Bytes → R Err α} {k : Nat} {e : Err} (hu : ∀ s, Ext (unm s) (unm (s ++ r))) :
    ∀ {n c : Nat}, Ext (rdElems chk unm k e b n c) (rdElems chk unm k e (b ++ r) n c)
  | 0, c => Ext.refl _
  | n + 1, c => by
    unfold V2.rdElems
    exact Ext.iteF (by ext_cond) fun _ => Ext.slFrom fun s => (hu s).mapErr.bind fun _ => (Ext.rdElems hu).bind fun _ => Ext.refl _

theorem Location.ext {k : Nat} : Ext (Location.read k b) (Location.read k (b ++ r)) := by
  ext_all [Location.read]

theorem Ext.readAll : ∀ {ks : List Nat} {c : Nat}, Ext (Location.readAll b ks c) (Location.readAll (b ++ r) ks c)
  | [], c => Ext.refl _
  | k :: ks, c => by
    unfold Location.readAll
    exact Ext.slFrom fun s => Location.ext.bind fun _ => Ext.readAll.bind fun _ => Ext.refl _

theorem Ext.container {v : UInt8} {n : Nat} : Ext (Container.read b v n) (Container.read (b ++ r) v n) := by
  unfold Container.read
  ext_steps

theorem Ext.rdIp50 {c : Nat} : Ext (rdIp50 b c) (rdIp50 (b ++ r) c) := by
  ext_all [V2.rdIp50]

end

macro_rules | `(tactic| ext_leaf) => `(tactic| first
  | ((with_reducible refine Ext.rdAuth fun _ => ?_); ext_leaf)
  | ((with_reducible refine Ext.rdItem fun _ => ?_); ext_leaf)
  | ((with_reducible refine Ext.rdElems fun _ => ?_); ext_leaf)
  | ((with_reducible refine Ext.rdLe ?_); ext_leaf)
  | with_reducible exact Ext.rdAmbr
  | with_reducible exact Ext.rdIov
  | with_reducible exact Ext.rdExtAcc
  | with_reducible exact Ext.rdTriplets
  | with_reducible exact Ext.rdScope
  | with_reducible exact Ext.rdPlmnS
  | with_reducible exact Ext.rdName
  | with_reducible exact Ext.rdRelay
  | with_reducible exact Ext.rdStr
  | with_reducible exact Ext.readAll
  | with_reducible exact Ext.container
  | with_reducible exact Ext.rdIp50)

/-! ### The decoders -/

section
variable {b r : Bytes}

theorem Imsi.ext (m : Mode) : Ext (Imsi.unmarshal m b) (Imsi.unmarshal m (b ++ r)) := by
  ext_all [Imsi.unmarshal]

theorem Cause.ext (m : Mode) : Ext (Cause.unmarshal m b) (Cause.unmarshal m (b ++ r)) := by
  ext_all [Cause.unmarshal]

theorem Recovery.ext (m : Mode) : Ext (Recovery.unmarshal m b) (Recovery.unmarshal m (b ++ r)) := by
  ext_all [Recovery.unmarshal]

theorem StnSr.ext (m : Mode) : Ext (StnSr.unmarshal m b) (StnSr.unmarshal m (b ++ r)) := by
  ext_all [StnSr.unmarshal]

theorem SrvccCause.ext (m : Mode) : Ext (SrvccCause.unmarshal m b) (SrvccCause.unmarshal m (b ++ r)) := by
  ext_all [SrvccCause.unmarshal]

theorem Apn.ext (m : Mode) : Ext (Apn.unmarshal m b) (Apn.unmarshal m (b ++ r)) := by
  ext_all [Apn.unmarshal]

theorem Ambr.ext (m : Mode) : Ext (Ambr.unmarshal m b) (Ambr.unmarshal m (b ++ r)) := by
  ext_all [Ambr.unmarshal]

theorem Ebi.ext (m : Mode) : Ext (Ebi.unmarshal m b) (Ebi.unmarshal m (b ++ r)) := by
  ext_all [Ebi.unmarshal]

theorem IpAddress.ext (m : Mode) : Ext (IpAddress.unmarshal m b) (IpAddress.unmarshal m (b ++ r)) := by
  ext_all [IpAddress.unmarshal]

theorem Mei.ext (m : Mode) : Ext (Mei.unmarshal m b) (Mei.unmarshal m (b ++ r)) := by
  ext_all [Mei.unmarshal]

theorem Msisdn.ext (m : Mode) : Ext (Msisdn.unmarshal m b) (Msisdn.unmarshal m (b ++ r)) := by
  ext_all [Msisdn.unmarshal]

theorem Indication.ext (m : Mode) : Ext (Indication.unmarshal m b) (Indication.unmarshal m (b ++ r)) := by
  ext_all [Indication.unmarshal]

theorem Pco.ext (m : Mode) : Ext (Pco.unmarshal m b) (Pco.unmarshal m (b ++ r)) := by
  ext_all [Pco.unmarshal]

theorem PdnAddressAllocation.ext (m : Mode) : Ext (PdnAddressAllocation.unmarshal m b) (PdnAddressAllocation.unmarshal m (b ++ r)) := by
  ext_all [PdnAddressAllocation.unmarshal]

theorem BearerQos.ext (m : Mode) : Ext (BearerQos.unmarshal m b) (BearerQos.unmarshal m (b ++ r)) := by
  ext_all [BearerQos.unmarshal]

theorem FlowQos.ext (m : Mode) : Ext (FlowQos.unmarshal m b) (FlowQos.unmarshal m (b ++ r)) := by
  ext_all [FlowQos.unmarshal]

theorem RatType.ext (m : Mode) : Ext (RatType.unmarshal m b) (RatType.unmarshal m (b ++ r)) := by
  ext_all [RatType.unmarshal]

theorem ServingNetwork.ext (m : Mode) : Ext (ServingNetwork.unmarshal m b) (ServingNetwork.unmarshal m (b ++ r)) := by
  ext_all [ServingNetwork.unmarshal]

theorem BearerTft.ext (m : Mode) : Ext (BearerTft.unmarshal m b) (BearerTft.unmarshal m (b ++ r)) := by
  ext_all [BearerTft.unmarshal]

theorem TrafficAggregateDescription.ext (m : Mode) : Ext (TrafficAggregateDescription.unmarshal m b) (TrafficAggregateDescription.unmarshal m (b ++ r)) := by
  ext_all [TrafficAggregateDescription.unmarshal]

theorem Uli.ext (m : Mode) : Ext (Uli.unmarshal m b) (Uli.unmarshal m (b ++ r)) := by
  ext_all [Uli.unmarshal]

theorem Fteid.ext (m : Mode) : Ext (Fteid.unmarshal m b) (Fteid.unmarshal m (b ++ r)) := by
  ext_all [Fteid.unmarshal]

theorem Tmsi.ext (m : Mode) : Ext (Tmsi.unmarshal m b) (Tmsi.unmarshal m (b ++ r)) := by
  ext_all [Tmsi.unmarshal]

theorem GlobalCnId.ext (m : Mode) : Ext (GlobalCnId.unmarshal m b) (GlobalCnId.unmarshal m (b ++ r)) := by
  ext_all [GlobalCnId.unmarshal]

theorem S103pdf.ext (m : Mode) : Ext (S103pdf.unmarshal m b) (S103pdf.unmarshal m (b ++ r)) := by
  ext_all [S103pdf.unmarshal]

theorem S1udf.ext (m : Mode) : Ext (S1udf.unmarshal m b) (S1udf.unmarshal m (b ++ r)) := by
  ext_all [S1udf.unmarshal]

theorem DelayValue.ext (m : Mode) : Ext (DelayValue.unmarshal m b) (DelayValue.unmarshal m (b ++ r)) := by
  ext_all [DelayValue.unmarshal]

theorem ChargingId.ext (m : Mode) : Ext (ChargingId.unmarshal m b) (ChargingId.unmarshal m (b ++ r)) := by
  ext_all [ChargingId.unmarshal]

theorem ChargingCharacteristics.ext (m : Mode) : Ext (ChargingCharacteristics.unmarshal m b) (ChargingCharacteristics.unmarshal m (b ++ r)) := by
  ext_all [ChargingCharacteristics.unmarshal]

theorem TraceInformation.ext (m : Mode) : Ext (TraceInformation.unmarshal m b) (TraceInformation.unmarshal m (b ++ r)) := by
  ext_all [TraceInformation.unmarshal]

theorem BearerFlags.ext (m : Mode) : Ext (BearerFlags.unmarshal m b) (BearerFlags.unmarshal m (b ++ r)) := by
  ext_all [BearerFlags.unmarshal]

theorem PdnType.ext (m : Mode) : Ext (PdnType.unmarshal m b) (PdnType.unmarshal m (b ++ r)) := by
  ext_all [PdnType.unmarshal]

theorem Pti.ext (m : Mode) : Ext (Pti.unmarshal m b) (Pti.unmarshal m (b ++ r)) := by
  ext_all [Pti.unmarshal]

theorem PduNumbers.ext (m : Mode) : Ext (PduNumbers.unmarshal m b) (PduNumbers.unmarshal m (b ++ r)) := by
  ext_all [PduNumbers.unmarshal]

theorem Ptmsi.ext (m : Mode) : Ext (Ptmsi.unmarshal m b) (Ptmsi.unmarshal m (b ++ r)) := by
  ext_all [Ptmsi.unmarshal]

theorem PtmsiSignature.ext (m : Mode) : Ext (PtmsiSignature.unmarshal m b) (PtmsiSignature.unmarshal m (b ++ r)) := by
  ext_all [PtmsiSignature.unmarshal]

theorem HopCounter.ext (m : Mode) : Ext (HopCounter.unmarshal m b) (HopCounter.unmarshal m (b ++ r)) := by
  ext_all [HopCounter.unmarshal]

theorem UeTimeZone.ext (m : Mode) : Ext (UeTimeZone.unmarshal m b) (UeTimeZone.unmarshal m (b ++ r)) := by
  ext_all [UeTimeZone.unmarshal]

theorem TraceReference.ext (m : Mode) : Ext (TraceReference.unmarshal m b) (TraceReference.unmarshal m (b ++ r)) := by
  ext_all [TraceReference.unmarshal]

theorem CompleteRequestMessage.ext (m : Mode) : Ext (CompleteRequestMessage.unmarshal m b) (CompleteRequestMessage.unmarshal m (b ++ r)) := by
  ext_all [CompleteRequestMessage.unmarshal]

theorem Guti.ext (m : Mode) : Ext (Guti.unmarshal m b) (Guti.unmarshal m (b ++ r)) := by
  ext_all [Guti.unmarshal]

theorem Fcontainer.ext (m : Mode) : Ext (Fcontainer.unmarshal m b) (Fcontainer.unmarshal m (b ++ r)) := by
  ext_all [Fcontainer.unmarshal]

theorem Fcause.ext (m : Mode) : Ext (Fcause.unmarshal m b) (Fcause.unmarshal m (b ++ r)) := by
  ext_all [Fcause.unmarshal]

theorem PlmnId.ext (m : Mode) : Ext (PlmnId.unmarshal m b) (PlmnId.unmarshal m (b ++ r)) := by
  ext_all [PlmnId.unmarshal]

theorem PacketFlowId.ext (m : Mode) : Ext (PacketFlowId.unmarshal m b) (PacketFlowId.unmarshal m (b ++ r)) := by
  ext_all [PacketFlowId.unmarshal]

theorem RabContext.ext (m : Mode) : Ext (RabContext.unmarshal m b) (RabContext.unmarshal m (b ++ r)) := by
  ext_all [RabContext.unmarshal]

theorem SourceRncPdcpContextInfo.ext (m : Mode) : Ext (SourceRncPdcpContextInfo.unmarshal m b) (SourceRncPdcpContextInfo.unmarshal m (b ++ r)) := by
  ext_all [SourceRncPdcpContextInfo.unmarshal]

theorem PortNumber.ext (m : Mode) : Ext (PortNumber.unmarshal m b) (PortNumber.unmarshal m (b ++ r)) := by
  ext_all [PortNumber.unmarshal]

theorem ApnRestriction.ext (m : Mode) : Ext (ApnRestriction.unmarshal m b) (ApnRestriction.unmarshal m (b ++ r)) := by
  ext_all [ApnRestriction.unmarshal]

theorem SelectionMode.ext (m : Mode) : Ext (SelectionMode.unmarshal m b) (SelectionMode.unmarshal m (b ++ r)) := by
  ext_all [SelectionMode.unmarshal]

theorem ChangeReportingAction.ext (m : Mode) : Ext (ChangeReportingAction.unmarshal m b) (ChangeReportingAction.unmarshal m (b ++ r)) := by
  ext_all [ChangeReportingAction.unmarshal]

theorem Fqcsid.ext (m : Mode) : Ext (Fqcsid.unmarshal m b) (Fqcsid.unmarshal m (b ++ r)) := by
  ext_all [Fqcsid.unmarshal]

theorem ChannelNeeded.ext (m : Mode) : Ext (ChannelNeeded.unmarshal m b) (ChannelNeeded.unmarshal m (b ++ r)) := by
  ext_all [ChannelNeeded.unmarshal]

theorem EmlppPriority.ext (m : Mode) : Ext (EmlppPriority.unmarshal m b) (EmlppPriority.unmarshal m (b ++ r)) := by
  ext_all [EmlppPriority.unmarshal]

theorem NodeType.ext (m : Mode) : Ext (NodeType.unmarshal m b) (NodeType.unmarshal m (b ++ r)) := by
  ext_all [NodeType.unmarshal]

theorem Fqdn.ext (m : Mode) : Ext (Fqdn.unmarshal m b) (Fqdn.unmarshal m (b ++ r)) := by
  ext_all [Fqdn.unmarshal]

theorem TransactionIdentifier.ext (m : Mode) : Ext (TransactionIdentifier.unmarshal m b) (TransactionIdentifier.unmarshal m (b ++ r)) := by
  ext_all [TransactionIdentifier.unmarshal]

theorem MbmsServiceArea.ext (m : Mode) : Ext (MbmsServiceArea.unmarshal m b) (MbmsServiceArea.unmarshal m (b ++ r)) := by
  ext_all [MbmsServiceArea.unmarshal]

theorem MbmsSessionDuration.ext (m : Mode) : Ext (MbmsSessionDuration.unmarshal m b) (MbmsSessionDuration.unmarshal m (b ++ r)) := by
  ext_all [MbmsSessionDuration.unmarshal]

theorem MbmsSessionId.ext (m : Mode) : Ext (MbmsSessionId.unmarshal m b) (MbmsSessionId.unmarshal m (b ++ r)) := by
  ext_all [MbmsSessionId.unmarshal]

theorem MbmsFlowId.ext (m : Mode) : Ext (MbmsFlowId.unmarshal m b) (MbmsFlowId.unmarshal m (b ++ r)) := by
  ext_all [MbmsFlowId.unmarshal]

theorem MbmsIpMulticastDistribution.ext (m : Mode) : Ext (MbmsIpMulticastDistribution.unmarshal m b) (MbmsIpMulticastDistribution.unmarshal m (b ++ r)) := by
  ext_all [MbmsIpMulticastDistribution.unmarshal]

theorem MbmsDistributionAck.ext (m : Mode) : Ext (MbmsDistributionAck.unmarshal m b) (MbmsDistributionAck.unmarshal m (b ++ r)) := by
  ext_all [MbmsDistributionAck.unmarshal]

theorem RfspIndex.ext (m : Mode) : Ext (RfspIndex.unmarshal m b) (RfspIndex.unmarshal m (b ++ r)) := by
  ext_all [RfspIndex.unmarshal]

theorem Uci.ext (m : Mode) : Ext (Uci.unmarshal m b) (Uci.unmarshal m (b ++ r)) := by
  ext_all [Uci.unmarshal]

theorem CSGInformationReportingAction.ext (m : Mode) : Ext (CSGInformationReportingAction.unmarshal m b) (CSGInformationReportingAction.unmarshal m (b ++ r)) := by
  ext_all [CSGInformationReportingAction.unmarshal]

theorem CsgId.ext (m : Mode) : Ext (CsgId.unmarshal m b) (CsgId.unmarshal m (b ++ r)) := by
  ext_all [CsgId.unmarshal]

theorem CsgMembershipIndication.ext (m : Mode) : Ext (CsgMembershipIndication.unmarshal m b) (CsgMembershipIndication.unmarshal m (b ++ r)) := by
  ext_all [CsgMembershipIndication.unmarshal]

theorem ServiceIndicator.ext (m : Mode) : Ext (ServiceIndicator.unmarshal m b) (ServiceIndicator.unmarshal m (b ++ r)) := by
  ext_all [ServiceIndicator.unmarshal]

theorem DetachType.ext (m : Mode) : Ext (DetachType.unmarshal m b) (DetachType.unmarshal m (b ++ r)) := by
  ext_all [DetachType.unmarshal]

theorem Ldn.ext (m : Mode) : Ext (Ldn.unmarshal m b) (Ldn.unmarshal m (b ++ r)) := by
  ext_all [Ldn.unmarshal]

theorem NodeFeatures.ext (m : Mode) : Ext (NodeFeatures.unmarshal m b) (NodeFeatures.unmarshal m (b ++ r)) := by
  ext_all [NodeFeatures.unmarshal]

theorem MbmsTimeToDataTransfer.ext (m : Mode) : Ext (MbmsTimeToDataTransfer.unmarshal m b) (MbmsTimeToDataTransfer.unmarshal m (b ++ r)) := by
  ext_all [MbmsTimeToDataTransfer.unmarshal]

theorem Throttling.ext (m : Mode) : Ext (Throttling.unmarshal m b) (Throttling.unmarshal m (b ++ r)) := by
  ext_all [Throttling.unmarshal]

theorem Arp.ext (m : Mode) : Ext (Arp.unmarshal m b) (Arp.unmarshal m (b ++ r)) := by
  ext_all [Arp.unmarshal]

theorem EpcTimer.ext (m : Mode) : Ext (EpcTimer.unmarshal m b) (EpcTimer.unmarshal m (b ++ r)) := by
  ext_all [EpcTimer.unmarshal]

theorem Spi.ext (m : Mode) : Ext (Spi.unmarshal m b) (Spi.unmarshal m (b ++ r)) := by
  ext_all [Spi.unmarshal]

theorem Tmgi.ext (m : Mode) : Ext (Tmgi.unmarshal m b) (Tmgi.unmarshal m (b ++ r)) := by
  ext_all [Tmgi.unmarshal]

theorem AdditionalMmContextForSrvcc.ext (m : Mode) : Ext (AdditionalMmContextForSrvcc.unmarshal m b) (AdditionalMmContextForSrvcc.unmarshal m (b ++ r)) := by
  ext_all [AdditionalMmContextForSrvcc.unmarshal]

theorem AdditionalFlagsSrvcc.ext (m : Mode) : Ext (AdditionalFlagsSrvcc.unmarshal m b) (AdditionalFlagsSrvcc.unmarshal m (b ++ r)) := by
  ext_all [AdditionalFlagsSrvcc.unmarshal]

theorem Apco.ext (m : Mode) : Ext (Apco.unmarshal m b) (Apco.unmarshal m (b ++ r)) := by
  ext_all [Apco.unmarshal]

theorem AbsoluteTimeMbmsDataTransfer.ext (m : Mode) : Ext (AbsoluteTimeMbmsDataTransfer.unmarshal m b) (AbsoluteTimeMbmsDataTransfer.unmarshal m (b ++ r)) := by
  ext_all [AbsoluteTimeMbmsDataTransfer.unmarshal]

theorem HenbInfoReporting.ext (m : Mode) : Ext (HenbInfoReporting.unmarshal m b) (HenbInfoReporting.unmarshal m (b ++ r)) := by
  ext_all [HenbInfoReporting.unmarshal]

theorem Ip4Cp.ext (m : Mode) : Ext (Ip4Cp.unmarshal m b) (Ip4Cp.unmarshal m (b ++ r)) := by
  ext_all [Ip4Cp.unmarshal]

theorem ChangeToReportFlags.ext (m : Mode) : Ext (ChangeToReportFlags.unmarshal m b) (ChangeToReportFlags.unmarshal m (b ++ r)) := by
  ext_all [ChangeToReportFlags.unmarshal]

theorem ActionIndication.ext (m : Mode) : Ext (ActionIndication.unmarshal m b) (ActionIndication.unmarshal m (b ++ r)) := by
  ext_all [ActionIndication.unmarshal]

theorem TwanId.ext (m : Mode) : Ext (TwanId.unmarshal m b) (TwanId.unmarshal m (b ++ r)) := by
  ext_all [TwanId.unmarshal]

theorem UliTimestamp.ext (m : Mode) : Ext (UliTimestamp.unmarshal m b) (UliTimestamp.unmarshal m (b ++ r)) := by
  ext_all [UliTimestamp.unmarshal]

theorem MbmsFlags.ext (m : Mode) : Ext (MbmsFlags.unmarshal m b) (MbmsFlags.unmarshal m (b ++ r)) := by
  ext_all [MbmsFlags.unmarshal]

theorem RanNasCause.ext (m : Mode) : Ext (RanNasCause.unmarshal m b) (RanNasCause.unmarshal m (b ++ r)) := by
  ext_all [RanNasCause.unmarshal]

theorem CnOperatorSelectionEntity.ext (m : Mode) : Ext (CnOperatorSelectionEntity.unmarshal m b) (CnOperatorSelectionEntity.unmarshal m (b ++ r)) := by
  ext_all [CnOperatorSelectionEntity.unmarshal]

theorem Twmi.ext (m : Mode) : Ext (Twmi.unmarshal m b) (Twmi.unmarshal m (b ++ r)) := by
  ext_all [Twmi.unmarshal]

theorem NodeNumber.ext (m : Mode) : Ext (NodeNumber.unmarshal m b) (NodeNumber.unmarshal m (b ++ r)) := by
  ext_all [NodeNumber.unmarshal]

theorem NodeIdentifier.ext (m : Mode) : Ext (NodeIdentifier.unmarshal m b) (NodeIdentifier.unmarshal m (b ++ r)) := by
  ext_all [NodeIdentifier.unmarshal]

theorem TwanIdTimeStamp.ext (m : Mode) : Ext (TwanIdTimeStamp.unmarshal m b) (TwanIdTimeStamp.unmarshal m (b ++ r)) := by
  ext_all [TwanIdTimeStamp.unmarshal]

theorem Metric.ext (m : Mode) : Ext (Metric.unmarshal m b) (Metric.unmarshal m (b ++ r)) := by
  ext_all [Metric.unmarshal]

theorem Sqn.ext (m : Mode) : Ext (Sqn.unmarshal m b) (Sqn.unmarshal m (b ++ r)) := by
  ext_all [Sqn.unmarshal]

theorem ApnRelativeCapacity.ext (m : Mode) : Ext (ApnRelativeCapacity.unmarshal m b) (ApnRelativeCapacity.unmarshal m (b ++ r)) := by
  ext_all [ApnRelativeCapacity.unmarshal]

theorem WlanOffloadIndication.ext (m : Mode) : Ext (WlanOffloadIndication.unmarshal m b) (WlanOffloadIndication.unmarshal m (b ++ r)) := by
  ext_all [WlanOffloadIndication.unmarshal]

theorem PagingServiceInfo.ext (m : Mode) : Ext (PagingServiceInfo.unmarshal m b) (PagingServiceInfo.unmarshal m (b ++ r)) := by
  ext_all [PagingServiceInfo.unmarshal]

theorem IntegerNumber.ext (m : Mode) : Ext (IntegerNumber.unmarshal m b) (IntegerNumber.unmarshal m (b ++ r)) := by
  ext_all [IntegerNumber.unmarshal]

theorem MilliSecondTimeStamp.ext (m : Mode) : Ext (MilliSecondTimeStamp.unmarshal m b) (MilliSecondTimeStamp.unmarshal m (b ++ r)) := by
  ext_all [MilliSecondTimeStamp.unmarshal]

theorem MonitoringEventInformation.ext (m : Mode) : Ext (MonitoringEventInformation.unmarshal m b) (MonitoringEventInformation.unmarshal m (b ++ r)) := by
  ext_all [MonitoringEventInformation.unmarshal]

theorem EcgiList.ext (m : Mode) : Ext (EcgiList.unmarshal m b) (EcgiList.unmarshal m (b ++ r)) := by
  ext_all [EcgiList.unmarshal]

theorem RemoteUserId.ext (m : Mode) : Ext (RemoteUserId.unmarshal m b) (RemoteUserId.unmarshal m (b ++ r)) := by
  ext_all [RemoteUserId.unmarshal]

theorem RemoteUeIpInformation.ext (m : Mode) : Ext (RemoteUeIpInformation.unmarshal m b) (RemoteUeIpInformation.unmarshal m (b ++ r)) := by
  ext_all [RemoteUeIpInformation.unmarshal]

theorem CIoTOptimizationSupportIndication.ext (m : Mode) : Ext (CIoTOptimizationSupportIndication.unmarshal m b) (CIoTOptimizationSupportIndication.unmarshal m (b ++ r)) := by
  ext_all [CIoTOptimizationSupportIndication.unmarshal]

theorem HeaderCompressionConfiguration.ext (m : Mode) : Ext (HeaderCompressionConfiguration.unmarshal m b) (HeaderCompressionConfiguration.unmarshal m (b ++ r)) := by
  ext_all [HeaderCompressionConfiguration.unmarshal]

theorem Epco.ext (m : Mode) : Ext (Epco.unmarshal m b) (Epco.unmarshal m (b ++ r)) := by
  ext_all [Epco.unmarshal]

theorem ServingPlmnRateControl.ext (m : Mode) : Ext (ServingPlmnRateControl.unmarshal m b) (ServingPlmnRateControl.unmarshal m (b ++ r)) := by
  ext_all [ServingPlmnRateControl.unmarshal]

theorem Counter.ext (m : Mode) : Ext (Counter.unmarshal m b) (Counter.unmarshal m (b ++ r)) := by
  ext_all [Counter.unmarshal]

theorem MappedUeUsageType.ext (m : Mode) : Ext (MappedUeUsageType.unmarshal m b) (MappedUeUsageType.unmarshal m (b ++ r)) := by
  ext_all [MappedUeUsageType.unmarshal]

theorem SecondaryRatUsageDataReport.ext (m : Mode) : Ext (SecondaryRatUsageDataReport.unmarshal m b) (SecondaryRatUsageDataReport.unmarshal m (b ++ r)) := by
  ext_all [SecondaryRatUsageDataReport.unmarshal]

theorem UpFunctionSelectionIndicationFlags.ext (m : Mode) : Ext (UpFunctionSelectionIndicationFlags.unmarshal m b) (UpFunctionSelectionIndicationFlags.unmarshal m (b ++ r)) := by
  ext_all [UpFunctionSelectionIndicationFlags.unmarshal]

theorem MaxPacketLossRate.ext (m : Mode) : Ext (MaxPacketLossRate.unmarshal m b) (MaxPacketLossRate.unmarshal m (b ++ r)) := by
  ext_all [MaxPacketLossRate.unmarshal]

theorem ApnRateControlStatus.ext (m : Mode) : Ext (ApnRateControlStatus.unmarshal m b) (ApnRateControlStatus.unmarshal m (b ++ r)) := by
  ext_all [ApnRateControlStatus.unmarshal]

theorem ExtendedTraceInformation.ext (m : Mode) : Ext (ExtendedTraceInformation.unmarshal m b) (ExtendedTraceInformation.unmarshal m (b ++ r)) := by
  ext_all [ExtendedTraceInformation.unmarshal]

theorem MonitoringEventExtensionInfo.ext (m : Mode) : Ext (MonitoringEventExtensionInfo.unmarshal m b) (MonitoringEventExtensionInfo.unmarshal m (b ++ r)) := by
  ext_all [MonitoringEventExtensionInfo.unmarshal]

theorem AdditionalRrmPolicyIndex.ext (m : Mode) : Ext (AdditionalRrmPolicyIndex.unmarshal m b) (AdditionalRrmPolicyIndex.unmarshal m (b ++ r)) := by
  ext_all [AdditionalRrmPolicyIndex.unmarshal]

theorem ServicesAuthorized.ext (m : Mode) : Ext (ServicesAuthorized.unmarshal m b) (ServicesAuthorized.unmarshal m (b ++ r)) := by
  ext_all [ServicesAuthorized.unmarshal]

theorem BitRate.ext (m : Mode) : Ext (BitRate.unmarshal m b) (BitRate.unmarshal m (b ++ r)) := by
  ext_all [BitRate.unmarshal]

theorem PC5QosFlow.ext (m : Mode) : Ext (PC5QosFlow.unmarshal m b) (PC5QosFlow.unmarshal m (b ++ r)) := by
  ext_all [PC5QosFlow.unmarshal]

theorem SgiPtpTunnelAddress.ext (m : Mode) : Ext (SgiPtpTunnelAddress.unmarshal m b) (SgiPtpTunnelAddress.unmarshal m (b ++ r)) := by
  ext_all [SgiPtpTunnelAddress.unmarshal]

theorem PgwFqdn.ext (m : Mode) : Ext (PgwFqdn.unmarshal m b) (PgwFqdn.unmarshal m (b ++ r)) := by
  ext_all [PgwFqdn.unmarshal]

theorem GroupId.ext (m : Mode) : Ext (GroupId.unmarshal m b) (GroupId.unmarshal m (b ++ r)) := by
  ext_all [GroupId.unmarshal]

theorem PSCellId.ext (m : Mode) : Ext (PSCellId.unmarshal m b) (PSCellId.unmarshal m (b ++ r)) := by
  ext_all [PSCellId.unmarshal]

theorem UpSecurityPolicy.ext (m : Mode) : Ext (UpSecurityPolicy.unmarshal m b) (UpSecurityPolicy.unmarshal m (b ++ r)) := by
  ext_all [UpSecurityPolicy.unmarshal]

theorem AlternativeImsi.ext (m : Mode) : Ext (AlternativeImsi.unmarshal m b) (AlternativeImsi.unmarshal m (b ++ r)) := by
  ext_all [AlternativeImsi.unmarshal]

theorem SpecialIEWithTypeExt.ext (m : Mode) : Ext (SpecialIEWithTypeExt.unmarshal m b) (SpecialIEWithTypeExt.unmarshal m (b ++ r)) := by
  ext_all [SpecialIEWithTypeExt.unmarshal]

theorem PrivateExtension.ext (m : Mode) : Ext (PrivateExtension.unmarshal m b) (PrivateExtension.unmarshal m (b ++ r)) := by
  ext_all [PrivateExtension.unmarshal]

theorem Unknown.ext (m : Mode) : Ext (Unknown.unmarshal m b) (Unknown.unmarshal m (b ++ r)) := by
  ext_all [Unknown.unmarshal]

theorem groupUnm.ext {α : Type} {dec : Bytes → R Err (List IE)} {mk : UInt8 → UInt16 → UInt8 → List IE → α} (m : Mode) :
    Ext (groupUnm dec mk m b) (groupUnm dec mk m (b ++ r)) := by
  ext_all [groupUnm]

/-- The kinds whose decoders look for the end of the buffer: targetid.rs:37, sourceid.rs:39, mdtconfiguration.rs:204-226,
praa.rs:319, prai.rs:120 and the MM contexts (src/gtpv2/messages/ies). -/
def Kind.openEnded : Kind → Bool
  | .MmContext | .TargetIdentification | .SourceIdentification | .MdtConfiguration | .PresenceReportingAreaAction | .PresenceReportingAreaInformation => true
  | _ => false

theorem unmKind.ext (dec : Bytes → R Err (List IE)) (m : Mode) (k : Kind) (hk : k.openEnded = false) :
    Ext (unmKind dec m b k) (unmKind dec m (b ++ r) k) := by
  cases k with
  | Imsi => exact (Imsi.ext m).bind fun _ => Ext.refl _
  | Cause => exact (Cause.ext m).bind fun _ => Ext.refl _
  | Recovery => exact (Recovery.ext m).bind fun _ => Ext.refl _
  | StnSr => exact (StnSr.ext m).bind fun _ => Ext.refl _
  | SrvccCause => exact (SrvccCause.ext m).bind fun _ => Ext.refl _
  | Apn => exact (Apn.ext m).bind fun _ => Ext.refl _
  | ApnAmbr => exact (Ambr.ext m).bind fun _ => Ext.refl _
  | Ebi => exact (Ebi.ext m).bind fun _ => Ext.refl _
  | IpAddress => exact (IpAddress.ext m).bind fun _ => Ext.refl _
  | Mei => exact (Mei.ext m).bind fun _ => Ext.refl _
  | Msisdn => exact (Msisdn.ext m).bind fun _ => Ext.refl _
  | Indication => exact (Indication.ext m).bind fun _ => Ext.refl _
  | Pco => exact (Pco.ext m).bind fun _ => Ext.refl _
  | PdnAddressAllocation => exact (PdnAddressAllocation.ext m).bind fun _ => Ext.refl _
  | BearerQos => exact (BearerQos.ext m).bind fun _ => Ext.refl _
  | FlowQos => exact (FlowQos.ext m).bind fun _ => Ext.refl _
  | RatType => exact (RatType.ext m).bind fun _ => Ext.refl _
  | ServingNetwork => exact (ServingNetwork.ext m).bind fun _ => Ext.refl _
  | BearerTft => exact (BearerTft.ext m).bind fun _ => Ext.refl _
  | TrafficAggregateDescription => exact (TrafficAggregateDescription.ext m).bind fun _ => Ext.refl _
  | Uli => exact (Uli.ext m).bind fun _ => Ext.refl _
  | Fteid => exact (Fteid.ext m).bind fun _ => Ext.refl _
  | Tmsi => exact (Tmsi.ext m).bind fun _ => Ext.refl _
  | GlobalCnId => exact (GlobalCnId.ext m).bind fun _ => Ext.refl _
  | S103pdf => exact (S103pdf.ext m).bind fun _ => Ext.refl _
  | S1udf => exact (S1udf.ext m).bind fun _ => Ext.refl _
  | DelayValue => exact (DelayValue.ext m).bind fun _ => Ext.refl _
  | BearerContext => exact (groupUnm.ext m).bind fun _ => Ext.refl _
  | ChargingId => exact (ChargingId.ext m).bind fun _ => Ext.refl _
  | ChargingCharacteristics => exact (ChargingCharacteristics.ext m).bind fun _ => Ext.refl _
  | TraceInformation => exact (TraceInformation.ext m).bind fun _ => Ext.refl _
  | BearerFlags => exact (BearerFlags.ext m).bind fun _ => Ext.refl _
  | PdnType => exact (PdnType.ext m).bind fun _ => Ext.refl _
  | Pti => exact (Pti.ext m).bind fun _ => Ext.refl _
  | MmContext => cases hk
  | PdnConnections => exact (groupUnm.ext m).bind fun _ => Ext.refl _
  | PduNumbers => exact (PduNumbers.ext m).bind fun _ => Ext.refl _
  | Ptmsi => exact (Ptmsi.ext m).bind fun _ => Ext.refl _
  | PtmsiSignature => exact (PtmsiSignature.ext m).bind fun _ => Ext.refl _
  | HopCounter => exact (HopCounter.ext m).bind fun _ => Ext.refl _
  | UeTimeZone => exact (UeTimeZone.ext m).bind fun _ => Ext.refl _
  | TraceReference => exact (TraceReference.ext m).bind fun _ => Ext.refl _
  | CompleteRequestMessage => exact (CompleteRequestMessage.ext m).bind fun _ => Ext.refl _
  | Guti => exact (Guti.ext m).bind fun _ => Ext.refl _
  | Fcontainer => exact (Fcontainer.ext m).bind fun _ => Ext.refl _
  | Fcause => exact (Fcause.ext m).bind fun _ => Ext.refl _
  | PlmnId => exact (PlmnId.ext m).bind fun _ => Ext.refl _
  | TargetIdentification => cases hk
  | PacketFlowId => exact (PacketFlowId.ext m).bind fun _ => Ext.refl _
  | RabContext => exact (RabContext.ext m).bind fun _ => Ext.refl _
  | SrcRncPdcpCtxInfo => exact (SourceRncPdcpContextInfo.ext m).bind fun _ => Ext.refl _
  | PortNumber => exact (PortNumber.ext m).bind fun _ => Ext.refl _
  | ApnRestriction => exact (ApnRestriction.ext m).bind fun _ => Ext.refl _
  | SelectionMode => exact (SelectionMode.ext m).bind fun _ => Ext.refl _
  | SourceIdentification => cases hk
  | ChangeReportingAction => exact (ChangeReportingAction.ext m).bind fun _ => Ext.refl _
  | Fqcsid => exact (Fqcsid.ext m).bind fun _ => Ext.refl _
  | ChannelNeeded => exact (ChannelNeeded.ext m).bind fun _ => Ext.refl _
  | EmlppPriority => exact (EmlppPriority.ext m).bind fun _ => Ext.refl _
  | NodeType => exact (NodeType.ext m).bind fun _ => Ext.refl _
  | Fqdn => exact (Fqdn.ext m).bind fun _ => Ext.refl _
  | TransactionIdentifier => exact (TransactionIdentifier.ext m).bind fun _ => Ext.refl _
  | MbmsSa => exact (MbmsServiceArea.ext m).bind fun _ => Ext.refl _
  | MbmsSd => exact (MbmsSessionDuration.ext m).bind fun _ => Ext.refl _
  | MbmsSessionId => exact (MbmsSessionId.ext m).bind fun _ => Ext.refl _
  | MbmsFlowId => exact (MbmsFlowId.ext m).bind fun _ => Ext.refl _
  | MbmsIpMulticastDistribution => exact (MbmsIpMulticastDistribution.ext m).bind fun _ => Ext.refl _
  | MbmsDistributionAck => exact (MbmsDistributionAck.ext m).bind fun _ => Ext.refl _
  | RfspIndex => exact (RfspIndex.ext m).bind fun _ => Ext.refl _
  | Uci => exact (Uci.ext m).bind fun _ => Ext.refl _
  | CSGInformationReportingAction => exact (CSGInformationReportingAction.ext m).bind fun _ => Ext.refl _
  | CsgId => exact (CsgId.ext m).bind fun _ => Ext.refl _
  | CsgMembershipIndication => exact (CsgMembershipIndication.ext m).bind fun _ => Ext.refl _
  | ServiceIndicator => exact (ServiceIndicator.ext m).bind fun _ => Ext.refl _
  | DetachType => exact (DetachType.ext m).bind fun _ => Ext.refl _
  | Ldn => exact (Ldn.ext m).bind fun _ => Ext.refl _
  | NodeFeatures => exact (NodeFeatures.ext m).bind fun _ => Ext.refl _
  | MbmsTimeToDataTransfer => exact (MbmsTimeToDataTransfer.ext m).bind fun _ => Ext.refl _
  | Throttling => exact (Throttling.ext m).bind fun _ => Ext.refl _
  | Arp => exact (Arp.ext m).bind fun _ => Ext.refl _
  | EpcTimer => exact (EpcTimer.ext m).bind fun _ => Ext.refl _
  | Spi => exact (Spi.ext m).bind fun _ => Ext.refl _
  | Tmgi => exact (Tmgi.ext m).bind fun _ => Ext.refl _
  | AdditionalMmContextForSrvcc => exact (AdditionalMmContextForSrvcc.ext m).bind fun _ => Ext.refl _
  | AdditionalFlagsSrvcc => exact (AdditionalFlagsSrvcc.ext m).bind fun _ => Ext.refl _
  | MdtConfiguration => cases hk
  | Apco => exact (Apco.ext m).bind fun _ => Ext.refl _
  | AbsoluteTimeMbmsDataTransfer => exact (AbsoluteTimeMbmsDataTransfer.ext m).bind fun _ => Ext.refl _
  | HenbInfoReporting => exact (HenbInfoReporting.ext m).bind fun _ => Ext.refl _
  | Ip4Cp => exact (Ip4Cp.ext m).bind fun _ => Ext.refl _
  | ChangeToReportFlags => exact (ChangeToReportFlags.ext m).bind fun _ => Ext.refl _
  | ActionIndication => exact (ActionIndication.ext m).bind fun _ => Ext.refl _
  | TwanId => exact (TwanId.ext m).bind fun _ => Ext.refl _
  | UliTimestamp => exact (UliTimestamp.ext m).bind fun _ => Ext.refl _
  | MbmsFlags => exact (MbmsFlags.ext m).bind fun _ => Ext.refl _
  | RanNasCause => exact (RanNasCause.ext m).bind fun _ => Ext.refl _
  | CnOperatorSelectionEntity => exact (CnOperatorSelectionEntity.ext m).bind fun _ => Ext.refl _
  | Twmi => exact (Twmi.ext m).bind fun _ => Ext.refl _
  | NodeNumber => exact (NodeNumber.ext m).bind fun _ => Ext.refl _
  | NodeIdentifier => exact (NodeIdentifier.ext m).bind fun _ => Ext.refl _
  | PresenceReportingAreaAction => cases hk
  | PresenceReportingAreaInformation => cases hk
  | TwanIdTimeStamp => exact (TwanIdTimeStamp.ext m).bind fun _ => Ext.refl _
  | OverloadControlInfo => exact (groupUnm.ext m).bind fun _ => Ext.refl _
  | LoadControlInfo => exact (groupUnm.ext m).bind fun _ => Ext.refl _
  | Metric => exact (Metric.ext m).bind fun _ => Ext.refl _
  | Sqn => exact (Sqn.ext m).bind fun _ => Ext.refl _
  | ApnRelativeCapacity => exact (ApnRelativeCapacity.ext m).bind fun _ => Ext.refl _
  | WlanOffloadIndication => exact (WlanOffloadIndication.ext m).bind fun _ => Ext.refl _
  | PagingServiceInfo => exact (PagingServiceInfo.ext m).bind fun _ => Ext.refl _
  | IntegerNumber => exact (IntegerNumber.ext m).bind fun _ => Ext.refl _
  | MilliSecondTimeStamp => exact (MilliSecondTimeStamp.ext m).bind fun _ => Ext.refl _
  | MonitoringEventInformation => exact (MonitoringEventInformation.ext m).bind fun _ => Ext.refl _
  | EcgiList => exact (EcgiList.ext m).bind fun _ => Ext.refl _
  | RemoteUeContext => exact (groupUnm.ext m).bind fun _ => Ext.refl _
  | RemoteUserId => exact (RemoteUserId.ext m).bind fun _ => Ext.refl _
  | RemoteUeIpInformation => exact (RemoteUeIpInformation.ext m).bind fun _ => Ext.refl _
  | CIoTOptimizationSupportIndication => exact (CIoTOptimizationSupportIndication.ext m).bind fun _ => Ext.refl _
  | ScefPdnConnections => exact (groupUnm.ext m).bind fun _ => Ext.refl _
  | HeaderCompressionConfiguration => exact (HeaderCompressionConfiguration.ext m).bind fun _ => Ext.refl _
  | Epco => exact (Epco.ext m).bind fun _ => Ext.refl _
  | ServingPlmnRateControl => exact (ServingPlmnRateControl.ext m).bind fun _ => Ext.refl _
  | Counter => exact (Counter.ext m).bind fun _ => Ext.refl _
  | MappedUeUsageType => exact (MappedUeUsageType.ext m).bind fun _ => Ext.refl _
  | SecondaryRatUsageDataReport => exact (SecondaryRatUsageDataReport.ext m).bind fun _ => Ext.refl _
  | UpFunctionSelectionIndicationFlags => exact (UpFunctionSelectionIndicationFlags.ext m).bind fun _ => Ext.refl _
  | MaxPacketLossRate => exact (MaxPacketLossRate.ext m).bind fun _ => Ext.refl _
  | ApnRateControlStatus => exact (ApnRateControlStatus.ext m).bind fun _ => Ext.refl _
  | ExtendedTraceInformation => exact (ExtendedTraceInformation.ext m).bind fun _ => Ext.refl _
  | MonitoringEventExtensionInfo => exact (MonitoringEventExtensionInfo.ext m).bind fun _ => Ext.refl _
  | AdditionalRrmPolicyIndex => exact (AdditionalRrmPolicyIndex.ext m).bind fun _ => Ext.refl _
  | V2xInformation => exact (groupUnm.ext m).bind fun _ => Ext.refl _
  | PC5QosParameters => exact (groupUnm.ext m).bind fun _ => Ext.refl _
  | ServicesAuthorized => exact (ServicesAuthorized.ext m).bind fun _ => Ext.refl _
  | BitRate => exact (BitRate.ext m).bind fun _ => Ext.refl _
  | PC5QosFlow => exact (PC5QosFlow.ext m).bind fun _ => Ext.refl _
  | SgiPtpTunnelAddress => exact (SgiPtpTunnelAddress.ext m).bind fun _ => Ext.refl _
  | PgwChangeInfo => exact (groupUnm.ext m).bind fun _ => Ext.refl _
  | PgwFqdn => exact (PgwFqdn.ext m).bind fun _ => Ext.refl _
  | GroupId => exact (GroupId.ext m).bind fun _ => Ext.refl _
  | PSCellId => exact (PSCellId.ext m).bind fun _ => Ext.refl _
  | UpSecurityPolicy => exact (UpSecurityPolicy.ext m).bind fun _ => Ext.refl _
  | AlternativeImsi => exact (AlternativeImsi.ext m).bind fun _ => Ext.refl _
  | SpecialIEWithTypeExt => exact (SpecialIEWithTypeExt.ext m).bind fun _ => Ext.refl _
  | PrivateExtension => exact (PrivateExtension.ext m).bind fun _ => Ext.refl _
  | Unknown => exact (Unknown.ext m).bind fun _ => Ext.refl _

end

end Gtp.V2
