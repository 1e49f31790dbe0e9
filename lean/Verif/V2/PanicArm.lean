import Verif.V2.PanicKinds
import Verif.V2.Crash
import Verif.V2.IEFin

/-!
# When one turn of the decoder's loop panics in a debug build

The cases of the last theorem are written by `scripts/gen_panic.py`.
-/

namespace Gtp.V2

variable {dec : Bytes → R Err (List IE)} {b : Bytes} {k : Kind}

/-- The octets of the members of a grouped IE. -/
abbrev memberOctets (b : Bytes) : Bytes := (b.take (declN b + 4)).drop 4

/-- What an arm decodes, and the size of it: no panic. -/
abbrev QuietArm (dec : Bytes → R Err (List IE)) (b : Bytes) (k : Kind) : Prop :=
  (unmKind dec .debug b k).Safe fun x => (x.len .debug).Safe fun _ => True

theorem arm_eq {α : Type} {x : R Err α} {l : α → R Err Nat} {f : α → IE} (hf : ∀ a, (f a).len .debug = l a) :
    ((x >>= fun a => pure (f a)).Safe fun e => (e.len .debug).Safe fun _ => True) = (x.Safe fun a => (l a).Safe fun _ => True) := by
  rw [Safe_bind]
  simp only [Safe_pure, hf]

theorem arm_quiet {α : Type} {x : R Err α} {l : α → R Err Nat} {f : α → IE} {C D : Prop} (hk : k.grouped = false)
    (hf : ∀ a, (f a).len .debug = l a) (h : (x.Safe fun a => (l a).Safe fun _ => True) ↔ ¬ C) :
    ((x >>= fun a => pure (f a)).Safe fun e => (e.len .debug).Safe fun _ => True) ↔ ¬ C ∧ (k.grouped = true → D) := by
  rw [arm_eq hf, h, hk]
  simp

theorem arm_never {α : Type} {x : R Err α} {l : α → R Err Nat} {f : α → IE} {D : Prop} (hk : k.grouped = false)
    (hf : ∀ a, (f a).len .debug = l a) (h : x.Safe fun a => (l a).Safe fun _ => True) :
    ((x >>= fun a => pure (f a)).Safe fun e => (e.len .debug).Safe fun _ => True) ↔ ¬ False ∧ (k.grouped = true → D) := by
  rw [arm_eq hf, hk]
  simp [h]

theorem groupUnm_quiet {α : Type} {mk : UInt8 → UInt16 → UInt8 → List IE → α} (hb : b ≠ []) :
    ((groupUnm dec mk .debug b).Safe fun _ => True) ↔
      ¬ Over 4 b ∧ (Full b → (dec (memberOctets b)).Safe fun _ => True) := by
  have h0 : 0 < b.length := List.length_pos_iff.mpr hb
  crash_unfold
  safe_simp [groupUnm, Safe_checkTliv_debug, Safe_slBody16_debug]
  generalize hx : (of16 (b.getD 1 0) (b.getD 2 0)).toNat = n
  have hm : memberOctets b = (b.take (n + 4)).drop 4 := by rw [← hx]; rfl
  rw [hm]
  by_cases h4 : 4 ≤ b.length
  · simp only [h4, h0, show 1 < b.length by omega, show 2 < b.length by omega, show 3 < b.length by omega, true_and]
    by_cases hl : n < 65532
    · simp only [hl, Nat.not_le.mpr hl, true_and, not_false_eq_true]
      exact ⟨fun h hf => (h.1 trivial hf).2, fun h => ⟨fun _ hf => ⟨hf.2, h hf⟩, fun _ => trivial⟩⟩
    · simp [hl, Nat.not_lt.mp hl]
  · simp [h4, h0]
    omega

theorem group_quiet {α : Type} {x : R Err α} {f : α → IE} {C D : Prop} (hk : k.grouped = true)
    (hf : ∀ a, ((f a).len .debug).Safe fun _ => True) (h : (x.Safe fun _ => True) ↔ ¬ C ∧ D) :
    ((x >>= fun a => pure (f a)).Safe fun e => (e.len .debug).Safe fun _ => True) ↔ ¬ C ∧ (k.grouped = true → D) := by
  rw [Safe_bind]
  simp only [Safe_pure, hf, h, hk, true_implies]

theorem group_list_quiet {α β : Type} {x : R Err α} {f : α → IE} {C D : Prop} {ty : UInt8} {g : α → Option (List β)}
    (hk : k.grouped = true) (hf : ∀ a, ((f a).len .debug).Safe fun _ => True) (h : (x.Safe fun _ => True) ↔ ¬ C ∧ D) :
    ((x >>= fun a => listCheck ty g a >>= fun a => pure (f a)).Safe fun e => (e.len .debug).Safe fun _ => True) ↔
      ¬ C ∧ (k.grouped = true → D) := by
  have hl : ∀ a, ((listCheck ty g a >>= fun a => pure (f a)).Safe fun e => (e.len .debug).Safe fun _ => True) = True := by
    intro a
    rw [Safe_bind]
    simp only [Safe_pure, hf]
    unfold listCheck
    split
    · split <;> exact eq_true trivial
    · exact eq_true trivial
  rw [Safe_bind]
  simp only [hl, h, hk, true_implies]

theorem group_flows_quiet {x : R Err PC5QosParameters} {C D : Prop} (h : (x.Safe fun _ => True) ↔ ¬ C ∧ D) :
    ((x >>= fun a => if a.pc5_qos_flows = [] then .err (.ieIncorrect 209) else pure (.PC5QosParameters a) : R Err IE).Safe
      fun e => (e.len .debug).Safe fun _ => True) ↔ ¬ C ∧ (Kind.PC5QosParameters.grouped = true → D) := by
  have hl : ∀ a : PC5QosParameters, ((if a.pc5_qos_flows = [] then .err (.ieIncorrect 209) else pure (.PC5QosParameters a) : R Err IE).Safe
      fun e => (e.len .debug).Safe fun _ => True) = True := by
    intro a
    split <;> exact eq_true trivial
  rw [Safe_bind]
  simp only [hl, h, Kind.grouped, true_implies]

theorem Unknown.quiet (hb : b ≠ []) : ((Unknown.unmarshal .debug b).Safe fun x => ((IE.Unknown x).len .debug).Safe fun _ => True) ↔
    ¬ Over 4 b := by
  have h0 : 0 < b.length := List.length_pos_iff.mpr hb
  crash_unfold
  safe_simp [Unknown.unmarshal, Safe_checkTliv_debug, Safe_slBody16_debug, IE.len, ieLenU]
  omega

/-- One arm in a debug build, exactly. -/
theorem unmKind_quiet (hb : b ≠ []) : QuietArm dec b k ↔
    ¬ k.Crash b ∧ (k.grouped = true → Full b → (dec (memberOctets b)).Safe fun _ => True) := by
  cases k with
  | Imsi => exact arm_quiet rfl (fun _ => rfl) (Imsi.quiet b)
  | Cause => exact arm_never rfl (fun _ => rfl) (Cause.quiet b)
  | Recovery => exact arm_never rfl (fun _ => rfl) (quiet_of (Recovery.safe .debug b))
  | StnSr => exact arm_quiet rfl (fun _ => rfl) (StnSr.quiet b)
  | SrvccCause => exact arm_never rfl (fun _ => rfl) (quiet_of (SrvccCause.safe .debug b))
  | Apn => exact arm_quiet rfl (fun _ => rfl) (Apn.quiet b)
  | ApnAmbr => exact arm_never rfl (fun _ => rfl) (quiet_of (Ambr.safe .debug b))
  | Ebi => exact arm_never rfl (fun _ => rfl) (quiet_of (Ebi.safe .debug b))
  | IpAddress => exact arm_quiet rfl (fun _ => rfl) (IpAddress.quiet b)
  | Mei => exact arm_quiet rfl (fun _ => rfl) (Mei.quiet b)
  | Msisdn => exact arm_quiet rfl (fun _ => rfl) (Msisdn.quiet b)
  | Indication => exact arm_quiet rfl (fun _ => rfl) (Indication.quiet b)
  | Pco => exact arm_quiet rfl (fun _ => rfl) (Pco.quiet b)
  | PdnAddressAllocation => exact arm_quiet rfl (fun _ => rfl) (PdnAddressAllocation.quiet b)
  | BearerQos => exact arm_never rfl (fun _ => rfl) (quiet_of (BearerQos.safe .debug b))
  | FlowQos => exact arm_never rfl (fun _ => rfl) (quiet_of (FlowQos.safe .debug b))
  | RatType => exact arm_never rfl (fun _ => rfl) (quiet_of (RatType.safe .debug b))
  | ServingNetwork => exact arm_never rfl (fun _ => rfl) (quiet_of (ServingNetwork.safe .debug b))
  | BearerTft => exact arm_quiet rfl (fun _ => rfl) (BearerTft.quiet b)
  | TrafficAggregateDescription => exact arm_quiet rfl (fun _ => rfl) (TrafficAggregateDescription.quiet b)
  | Uli => exact arm_quiet rfl (fun _ => rfl) (Uli.quiet b)
  | Fteid => exact arm_quiet rfl (fun _ => rfl) (Fteid.quiet b)
  | Tmsi => exact arm_never rfl (fun _ => rfl) (Tmsi.quiet b)
  | GlobalCnId => exact arm_never rfl (fun _ => rfl) (quiet_of (GlobalCnId.safe .debug b))
  | S103pdf => exact arm_quiet rfl (fun _ => rfl) (S103pdf.quiet b)
  | S1udf => exact arm_quiet rfl (fun _ => rfl) (S1udf.quiet b)
  | DelayValue => exact arm_never rfl (fun _ => rfl) (quiet_of (DelayValue.safe .debug b))
  | BearerContext => exact group_quiet rfl (fun _ => trivial) (groupUnm_quiet hb)
  | ChargingId => exact arm_never rfl (fun _ => rfl) (quiet_of (ChargingId.safe .debug b))
  | ChargingCharacteristics => exact arm_never rfl (fun _ => rfl) (quiet_of (ChargingCharacteristics.safe .debug b))
  | TraceInformation => exact arm_never rfl (fun _ => rfl) (quiet_of (TraceInformation.safe .debug b))
  | BearerFlags => exact arm_never rfl (fun _ => rfl) (BearerFlags.quiet b)
  | PdnType => exact arm_never rfl (fun _ => rfl) (quiet_of (PdnType.safe .debug b))
  | Pti => exact arm_never rfl (fun _ => rfl) (quiet_of (Pti.safe .debug b))
  | MmContext => exact arm_quiet rfl (fun _ => rfl) (MmContext.quiet b)
  | PdnConnections => exact group_quiet rfl (fun _ => trivial) (groupUnm_quiet hb)
  | PduNumbers => exact arm_never rfl (fun _ => rfl) (PduNumbers.quiet b)
  | Ptmsi => exact arm_never rfl (fun _ => rfl) (quiet_of (Ptmsi.safe .debug b))
  | PtmsiSignature => exact arm_never rfl (fun _ => rfl) (quiet_of (PtmsiSignature.safe .debug b))
  | HopCounter => exact arm_never rfl (fun _ => rfl) (HopCounter.quiet b)
  | UeTimeZone => exact arm_never rfl (fun _ => rfl) (quiet_of (UeTimeZone.safe .debug b))
  | TraceReference => exact arm_never rfl (fun _ => rfl) (quiet_of (TraceReference.safe .debug b))
  | CompleteRequestMessage => exact arm_quiet rfl (fun _ => rfl) (CompleteRequestMessage.quiet b)
  | Guti => exact arm_never rfl (fun _ => rfl) (quiet_of (Guti.safe .debug b))
  | Fcontainer => exact arm_quiet rfl (fun _ => rfl) (Fcontainer.quiet b)
  | Fcause => exact arm_quiet rfl (fun _ => rfl) (Fcause.quiet b)
  | PlmnId => exact arm_never rfl (fun _ => rfl) (quiet_of (PlmnId.safe .debug b))
  | TargetIdentification => exact arm_never rfl (fun _ => rfl) (quiet_of (TargetIdentification.safe .debug b trivial))
  | PacketFlowId => exact arm_never rfl (fun _ => rfl) (quiet_of (PacketFlowId.safe .debug b))
  | RabContext => exact arm_never rfl (fun _ => rfl) (quiet_of (RabContext.safe .debug b))
  | SrcRncPdcpCtxInfo => exact arm_quiet rfl (fun _ => rfl) (SourceRncPdcpContextInfo.quiet b)
  | PortNumber => exact arm_never rfl (fun _ => rfl) (quiet_of (PortNumber.safe .debug b))
  | ApnRestriction => exact arm_never rfl (fun _ => rfl) (quiet_of (ApnRestriction.safe .debug b))
  | SelectionMode => exact arm_never rfl (fun _ => rfl) (quiet_of (SelectionMode.safe .debug b))
  | SourceIdentification => exact arm_quiet rfl (fun _ => rfl) (SourceIdentification.quiet b)
  | ChangeReportingAction => exact arm_never rfl (fun _ => rfl) (quiet_of (ChangeReportingAction.safe .debug b))
  | Fqcsid => exact arm_quiet rfl (fun _ => rfl) (Fqcsid.quiet b)
  | ChannelNeeded => exact arm_never rfl (fun _ => rfl) (quiet_of (ChannelNeeded.safe .debug b))
  | EmlppPriority => exact arm_never rfl (fun _ => rfl) (quiet_of (EmlppPriority.safe .debug b))
  | NodeType => exact arm_never rfl (fun _ => rfl) (quiet_of (NodeType.safe .debug b))
  | Fqdn => exact arm_quiet rfl (fun _ => rfl) (Fqdn.quiet b)
  | TransactionIdentifier => exact arm_never rfl (fun _ => rfl) (TransactionIdentifier.quiet b)
  | MbmsSa => exact arm_quiet rfl (fun _ => rfl) (MbmsServiceArea.quiet b)
  | MbmsSd => exact arm_never rfl (fun _ => rfl) (quiet_of (MbmsSessionDuration.safe .debug b))
  | MbmsSessionId => exact arm_never rfl (fun _ => rfl) (quiet_of (MbmsSessionId.safe .debug b))
  | MbmsFlowId => exact arm_never rfl (fun _ => rfl) (quiet_of (MbmsFlowId.safe .debug b))
  | MbmsIpMulticastDistribution => exact arm_quiet rfl (fun _ => rfl) (MbmsIpMulticastDistribution.quiet b)
  | MbmsDistributionAck => exact arm_never rfl (fun _ => rfl) (quiet_of (MbmsDistributionAck.safe .debug b))
  | RfspIndex => exact arm_never rfl (fun _ => rfl) (quiet_of (RfspIndex.safe .debug b))
  | Uci => exact arm_never rfl (fun _ => rfl) (quiet_of (Uci.safe .debug b))
  | CSGInformationReportingAction => exact arm_never rfl (fun _ => rfl) (quiet_of (CSGInformationReportingAction.safe .debug b))
  | CsgId => exact arm_never rfl (fun _ => rfl) (quiet_of (CsgId.safe .debug b))
  | CsgMembershipIndication => exact arm_never rfl (fun _ => rfl) (quiet_of (CsgMembershipIndication.safe .debug b))
  | ServiceIndicator => exact arm_never rfl (fun _ => rfl) (quiet_of (ServiceIndicator.safe .debug b))
  | DetachType => exact arm_never rfl (fun _ => rfl) (quiet_of (DetachType.safe .debug b))
  | Ldn => exact arm_quiet rfl (fun _ => rfl) (Ldn.quiet b)
  | NodeFeatures => exact arm_never rfl (fun _ => rfl) (quiet_of (NodeFeatures.safe .debug b))
  | MbmsTimeToDataTransfer => exact arm_never rfl (fun _ => rfl) (quiet_of (MbmsTimeToDataTransfer.safe .debug b))
  | Throttling => exact arm_never rfl (fun _ => rfl) (quiet_of (Throttling.safe .debug b))
  | Arp => exact arm_never rfl (fun _ => rfl) (Arp.quiet b)
  | EpcTimer => exact arm_never rfl (fun _ => rfl) (quiet_of (EpcTimer.safe .debug b))
  | Spi => exact arm_never rfl (fun _ => rfl) (quiet_of (Spi.safe .debug b))
  | Tmgi => exact arm_never rfl (fun _ => rfl) (quiet_of (Tmgi.safe .debug b))
  | AdditionalMmContextForSrvcc => exact arm_quiet rfl (fun _ => rfl) (AdditionalMmContextForSrvcc.quiet b)
  | AdditionalFlagsSrvcc => exact arm_never rfl (fun _ => rfl) (quiet_of (AdditionalFlagsSrvcc.safe .debug b))
  | MdtConfiguration => exact arm_quiet rfl (fun _ => rfl) (MdtConfiguration.quiet b)
  | Apco => exact arm_quiet rfl (fun _ => rfl) (Apco.quiet b)
  | AbsoluteTimeMbmsDataTransfer => exact arm_never rfl (fun _ => rfl) (quiet_of (AbsoluteTimeMbmsDataTransfer.safe .debug b))
  | HenbInfoReporting => exact arm_never rfl (fun _ => rfl) (quiet_of (HenbInfoReporting.safe .debug b))
  | Ip4Cp => exact arm_never rfl (fun _ => rfl) (quiet_of (Ip4Cp.safe .debug b))
  | ChangeToReportFlags => exact arm_never rfl (fun _ => rfl) (quiet_of (ChangeToReportFlags.safe .debug b))
  | ActionIndication => exact arm_never rfl (fun _ => rfl) (ActionIndication.quiet b)
  | TwanId => exact arm_quiet rfl (fun _ => rfl) (TwanId.quiet b)
  | UliTimestamp => exact arm_never rfl (fun _ => rfl) (quiet_of (UliTimestamp.safe .debug b))
  | MbmsFlags => exact arm_never rfl (fun _ => rfl) (quiet_of (MbmsFlags.safe .debug b))
  | RanNasCause => exact arm_quiet rfl (fun _ => rfl) (RanNasCause.quiet b)
  | CnOperatorSelectionEntity => exact arm_never rfl (fun _ => rfl) (quiet_of (CnOperatorSelectionEntity.safe .debug b))
  | Twmi => exact arm_never rfl (fun _ => rfl) (quiet_of (Twmi.safe .debug b))
  | NodeNumber => exact arm_quiet rfl (fun _ => rfl) (NodeNumber.quiet b)
  | NodeIdentifier => exact arm_quiet rfl (fun _ => rfl) (NodeIdentifier.quiet b)
  | PresenceReportingAreaAction => exact arm_quiet rfl (fun _ => rfl) (PresenceReportingAreaAction.quiet b)
  | PresenceReportingAreaInformation => exact arm_never rfl (fun _ => rfl) (quiet_of (PresenceReportingAreaInformation.safe .debug b))
  | TwanIdTimeStamp => exact arm_never rfl (fun _ => rfl) (quiet_of (TwanIdTimeStamp.safe .debug b))
  | OverloadControlInfo => exact group_list_quiet rfl (fun _ => trivial) (groupUnm_quiet hb)
  | LoadControlInfo => exact group_list_quiet rfl (fun _ => trivial) (groupUnm_quiet hb)
  | Metric => exact arm_never rfl (fun _ => rfl) (quiet_of (Metric.safe .debug b))
  | Sqn => exact arm_never rfl (fun _ => rfl) (quiet_of (Sqn.safe .debug b))
  | ApnRelativeCapacity => exact arm_quiet rfl (fun _ => rfl) (ApnRelativeCapacity.quiet b)
  | WlanOffloadIndication => exact arm_never rfl (fun _ => rfl) (quiet_of (WlanOffloadIndication.safe .debug b))
  | PagingServiceInfo => exact arm_quiet rfl (fun _ => rfl) (PagingServiceInfo.quiet b)
  | IntegerNumber => exact arm_quiet rfl (fun _ => rfl) (IntegerNumber.quiet b)
  | MilliSecondTimeStamp => exact arm_never rfl (fun _ => rfl) (quiet_of (MilliSecondTimeStamp.safe .debug b))
  | MonitoringEventInformation => exact arm_never rfl (fun _ => rfl) (MonitoringEventInformation.quiet b)
  | EcgiList => exact arm_never rfl (fun _ => rfl) (EcgiList.quiet b)
  | RemoteUeContext => exact group_quiet rfl (fun _ => trivial) (groupUnm_quiet hb)
  | RemoteUserId => exact arm_quiet rfl (fun _ => rfl) (RemoteUserId.quiet b)
  | RemoteUeIpInformation => exact arm_quiet rfl (fun _ => rfl) (RemoteUeIpInformation.quiet b)
  | CIoTOptimizationSupportIndication => exact arm_never rfl (fun _ => rfl) (quiet_of (CIoTOptimizationSupportIndication.safe .debug b))
  | ScefPdnConnections => exact group_quiet rfl (fun _ => trivial) (groupUnm_quiet hb)
  | HeaderCompressionConfiguration => exact arm_never rfl (fun _ => rfl) (quiet_of (HeaderCompressionConfiguration.safe .debug b))
  | Epco => exact arm_quiet rfl (fun _ => rfl) (Epco.quiet b)
  | ServingPlmnRateControl => exact arm_never rfl (fun _ => rfl) (quiet_of (ServingPlmnRateControl.safe .debug b))
  | Counter => exact arm_never rfl (fun _ => rfl) (quiet_of (Counter.safe .debug b))
  | MappedUeUsageType => exact arm_never rfl (fun _ => rfl) (quiet_of (MappedUeUsageType.safe .debug b))
  | SecondaryRatUsageDataReport => exact arm_never rfl (fun _ => rfl) (SecondaryRatUsageDataReport.quiet b)
  | UpFunctionSelectionIndicationFlags => exact arm_never rfl (fun _ => rfl) (quiet_of (UpFunctionSelectionIndicationFlags.safe .debug b))
  | MaxPacketLossRate => exact arm_never rfl (fun _ => rfl) (MaxPacketLossRate.quiet b)
  | ApnRateControlStatus => exact arm_never rfl (fun _ => rfl) (ApnRateControlStatus.quiet b)
  | ExtendedTraceInformation => exact arm_quiet rfl (fun _ => rfl) (ExtendedTraceInformation.quiet b)
  | MonitoringEventExtensionInfo => exact arm_quiet rfl (fun _ => rfl) (MonitoringEventExtensionInfo.quiet b)
  | AdditionalRrmPolicyIndex => exact arm_never rfl (fun _ => rfl) (quiet_of (AdditionalRrmPolicyIndex.safe .debug b))
  | V2xInformation => exact group_quiet rfl (fun _ => trivial) (groupUnm_quiet hb)
  | PC5QosParameters => exact group_flows_quiet (groupUnm_quiet hb)
  | ServicesAuthorized => exact arm_never rfl (fun _ => rfl) (quiet_of (ServicesAuthorized.safe .debug b))
  | BitRate => exact arm_never rfl (fun _ => rfl) (quiet_of (BitRate.safe .debug b))
  | PC5QosFlow => exact arm_quiet rfl (fun _ => rfl) (PC5QosFlow.quiet b)
  | SgiPtpTunnelAddress => exact arm_quiet rfl (fun _ => rfl) (SgiPtpTunnelAddress.quiet b)
  | PgwChangeInfo => exact group_quiet rfl (fun _ => trivial) (groupUnm_quiet hb)
  | PgwFqdn => exact arm_quiet rfl (fun _ => rfl) (PgwFqdn.quiet b)
  | GroupId => exact arm_quiet rfl (fun _ => rfl) (GroupId.quiet b)
  | PSCellId => exact arm_never rfl (fun _ => rfl) (quiet_of (PSCellId.safe .debug b))
  | UpSecurityPolicy => exact arm_never rfl (fun _ => rfl) (quiet_of (UpSecurityPolicy.safe .debug b))
  | AlternativeImsi => exact arm_quiet rfl (fun _ => rfl) (AlternativeImsi.quiet b)
  | SpecialIEWithTypeExt => exact arm_quiet rfl (fun _ => rfl) (SpecialIEWithTypeExt.quiet b)
  | PrivateExtension => exact arm_quiet rfl (fun _ => rfl) (PrivateExtension.quiet b)
  | Unknown => exact arm_quiet rfl (fun _ => rfl) (Unknown.quiet hb)

end Gtp.V2
