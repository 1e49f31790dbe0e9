import Verif.V2.WrapKinds
import Verif.V2.WrapCrash
import Verif.V2.PanicArm

/-!
# One turn of the decoder's loop in a release build

The cases of the theorems `unmKind_same` and `unmKind_wrap` are written by `scripts/gen_wrap.py`.
-/

namespace Gtp.V2

variable {dec : Bytes → R Err (List IE)} {b : Bytes} {k : Kind} {z : Prop}

/-- What an arm decodes, and the size of it, in a release build: no panic, and if `z` then a size other than 0. -/
abbrev QuietArmR (dec : Bytes → R Err (List IE)) (b : Bytes) (k : Kind) (z : Prop) : Prop :=
  (unmKind dec .release b k).Safe fun x => (x.len .release).Safe fun n => z → n ≠ 0

theorem groupUnm_same {α : Type} {mk : UInt8 → UInt16 → UInt8 → List IE → α} (h : declN b < 65532) :
    groupUnm dec mk .release b = groupUnm dec mk .debug b := by
  same_mode b, groupUnm, h

theorem Unknown.same (h : declN b < 65532) : Unknown.unmarshal .release b = Unknown.unmarshal .debug b := by
  same_mode b, Unknown.unmarshal, h

theorem unmKind_same (h : declN b < 65532) : unmKind dec .release b k = unmKind dec .debug b k := by
  cases k with
-- begin same
  | Imsi => simp only [unmKind, Imsi.same h]
  | Cause => rfl
  | Recovery => rfl
  | StnSr => simp only [unmKind, StnSr.same h]
  | SrvccCause => rfl
  | Apn => simp only [unmKind, Apn.same h]
  | ApnAmbr => rfl
  | Ebi => rfl
  | IpAddress => simp only [unmKind, IpAddress.same h]
  | Mei => simp only [unmKind, Mei.same h]
  | Msisdn => simp only [unmKind, Msisdn.same h]
  | Indication => rfl
  | Pco => simp only [unmKind, Pco.same h]
  | PdnAddressAllocation => simp only [unmKind, PdnAddressAllocation.same h]
  | BearerQos => rfl
  | FlowQos => rfl
  | RatType => rfl
  | ServingNetwork => rfl
  | BearerTft => simp only [unmKind, BearerTft.same h]
  | TrafficAggregateDescription => simp only [unmKind, TrafficAggregateDescription.same h]
  | Uli => simp only [unmKind, Uli.same h]
  | Fteid => simp only [unmKind, Fteid.same h]
  | Tmsi => rfl
  | GlobalCnId => rfl
  | S103pdf => simp only [unmKind, S103pdf.same h]
  | S1udf => simp only [unmKind, S1udf.same h]
  | DelayValue => rfl
  | BearerContext => simp only [unmKind, groupUnm_same h]
  | ChargingId => rfl
  | ChargingCharacteristics => rfl
  | TraceInformation => rfl
  | BearerFlags => rfl
  | PdnType => rfl
  | Pti => rfl
  | MmContext => rfl
  | PdnConnections => simp only [unmKind, groupUnm_same h]
  | PduNumbers => rfl
  | Ptmsi => rfl
  | PtmsiSignature => rfl
  | HopCounter => rfl
  | UeTimeZone => rfl
  | TraceReference => rfl
  | CompleteRequestMessage => simp only [unmKind, CompleteRequestMessage.same h]
  | Guti => rfl
  | Fcontainer => simp only [unmKind, Fcontainer.same h]
  | Fcause => simp only [unmKind, Fcause.same h]
  | PlmnId => rfl
  | TargetIdentification => rfl
  | PacketFlowId => rfl
  | RabContext => rfl
  | SrcRncPdcpCtxInfo => simp only [unmKind, SourceRncPdcpContextInfo.same h]
  | PortNumber => rfl
  | ApnRestriction => rfl
  | SelectionMode => rfl
  | SourceIdentification => rfl
  | ChangeReportingAction => rfl
  | Fqcsid => simp only [unmKind, Fqcsid.same h]
  | ChannelNeeded => rfl
  | EmlppPriority => rfl
  | NodeType => rfl
  | Fqdn => simp only [unmKind, Fqdn.same h]
  | TransactionIdentifier => rfl
  | MbmsSa => simp only [unmKind, MbmsServiceArea.same h]
  | MbmsSd => rfl
  | MbmsSessionId => rfl
  | MbmsFlowId => rfl
  | MbmsIpMulticastDistribution => simp only [unmKind, MbmsIpMulticastDistribution.same h]
  | MbmsDistributionAck => rfl
  | RfspIndex => rfl
  | Uci => rfl
  | CSGInformationReportingAction => rfl
  | CsgId => rfl
  | CsgMembershipIndication => rfl
  | ServiceIndicator => rfl
  | DetachType => rfl
  | Ldn => simp only [unmKind, Ldn.same h]
  | NodeFeatures => rfl
  | MbmsTimeToDataTransfer => rfl
  | Throttling => rfl
  | Arp => rfl
  | EpcTimer => rfl
  | Spi => rfl
  | Tmgi => rfl
  | AdditionalMmContextForSrvcc => rfl
  | AdditionalFlagsSrvcc => rfl
  | MdtConfiguration => rfl
  | Apco => simp only [unmKind, Apco.same h]
  | AbsoluteTimeMbmsDataTransfer => rfl
  | HenbInfoReporting => rfl
  | Ip4Cp => rfl
  | ChangeToReportFlags => rfl
  | ActionIndication => rfl
  | TwanId => rfl
  | UliTimestamp => rfl
  | MbmsFlags => rfl
  | RanNasCause => simp only [unmKind, RanNasCause.same h]
  | CnOperatorSelectionEntity => rfl
  | Twmi => rfl
  | NodeNumber => simp only [unmKind, NodeNumber.same h]
  | NodeIdentifier => simp only [unmKind, NodeIdentifier.same h]
  | PresenceReportingAreaAction => simp only [unmKind, PresenceReportingAreaAction.same h]
  | PresenceReportingAreaInformation => rfl
  | TwanIdTimeStamp => rfl
  | OverloadControlInfo => simp only [unmKind, groupUnm_same h]
  | LoadControlInfo => simp only [unmKind, groupUnm_same h]
  | Metric => rfl
  | Sqn => rfl
  | ApnRelativeCapacity => simp only [unmKind, ApnRelativeCapacity.same h]
  | WlanOffloadIndication => rfl
  | PagingServiceInfo => rfl
  | IntegerNumber => simp only [unmKind, IntegerNumber.same h]
  | MilliSecondTimeStamp => rfl
  | MonitoringEventInformation => rfl
  | EcgiList => rfl
  | RemoteUeContext => simp only [unmKind, groupUnm_same h]
  | RemoteUserId => rfl
  | RemoteUeIpInformation => simp only [unmKind, RemoteUeIpInformation.same h]
  | CIoTOptimizationSupportIndication => rfl
  | ScefPdnConnections => simp only [unmKind, groupUnm_same h]
  | HeaderCompressionConfiguration => rfl
  | Epco => simp only [unmKind, Epco.same h]
  | ServingPlmnRateControl => rfl
  | Counter => rfl
  | MappedUeUsageType => rfl
  | SecondaryRatUsageDataReport => rfl
  | UpFunctionSelectionIndicationFlags => rfl
  | MaxPacketLossRate => simp only [unmKind, MaxPacketLossRate.same h]
  | ApnRateControlStatus => rfl
  | ExtendedTraceInformation => rfl
  | MonitoringEventExtensionInfo => simp only [unmKind, MonitoringEventExtensionInfo.same h]
  | AdditionalRrmPolicyIndex => rfl
  | V2xInformation => simp only [unmKind, groupUnm_same h]
  | PC5QosParameters => simp only [unmKind, groupUnm_same h]
  | ServicesAuthorized => rfl
  | BitRate => rfl
  | PC5QosFlow => simp only [unmKind, PC5QosFlow.same h]
  | SgiPtpTunnelAddress => simp only [unmKind, SgiPtpTunnelAddress.same h]
  | PgwChangeInfo => simp only [unmKind, groupUnm_same h]
  | PgwFqdn => simp only [unmKind, PgwFqdn.same h]
  | GroupId => simp only [unmKind, GroupId.same h]
  | PSCellId => rfl
  | UpSecurityPolicy => rfl
  | AlternativeImsi => simp only [unmKind, AlternativeImsi.same h]
  | SpecialIEWithTypeExt => simp only [unmKind, SpecialIEWithTypeExt.same h]
  | PrivateExtension => simp only [unmKind, PrivateExtension.same h]
  | Unknown => simp only [unmKind, Unknown.same h]
-- end same

theorem IE.len_same {x : IE} (h : x.length.toNat < 65532) : x.len .release = x.len .debug := by
  cases x <;> first | rfl | exact ieLen16_same h

theorem Safe_size {x : IE} : ((x.len .debug).Safe fun n => z → n ≠ 0) = ((x.len .debug).Safe fun _ => True) := by
  cases h : x.len .debug with
  | ok n =>
    have := IE.len_pos (fun _ => .inl rfl) h
    exact propext ⟨fun _ => trivial, fun _ _ => by omega⟩
  | err e => rfl
  | panic => rfl
  | diverge => rfl

/-- A declared length below 65532: as in a debug build. -/
theorem unmKind_small (h : declN b < 65532) : QuietArmR dec b k z ↔ QuietArm dec b k := by
  have hp := unmKind_length dec .debug b k
  unfold QuietArmR QuietArm
  rw [unmKind_same h]
  cases hx : unmKind dec .debug b k with
  | ok x =>
    rw [hx] at hp
    have hl : x.length = declLen b := hp
    rw [Safe_ok, Safe_ok, IE.len_same (by rw [hl]; exact h), Safe_size]
  | err e => exact Iff.rfl
  | panic => exact Iff.rfl
  | diverge => exact Iff.rfl

theorem arm_wrap {α : Type} {x : R Err α} {l : α → R Err Nat} {f : α → IE} {C S : Prop}
    (hf : ∀ a, (f a).len .release = l a) (h : (x.Safe fun a => (l a).Safe fun n => z → n ≠ 0) ↔ ¬ C ∧ (z → ¬ S)) :
    ((x >>= fun a => pure (f a)).Safe fun e => (e.len .release).Safe fun n => z → n ≠ 0) ↔ ¬ C ∧ (z → ¬ S) := by
  rw [Safe_bind]
  simp only [Safe_pure, hf, h]

theorem arm_indep {α : Type} {x : Mode → R Err α} {f : α → IE} {C S D : Prop} (hk : k.grouped = false) (hx : x .release = x .debug)
    (hf : ∀ a, (f a).len .release = (f a).len .debug) (hS : S → False)
    (h : ((x .debug >>= fun a => pure (f a)).Safe fun e => (e.len .debug).Safe fun _ => True) ↔ ¬ C ∧ (k.grouped = true → D)) :
    ((x .release >>= fun a => pure (f a)).Safe fun e => (e.len .release).Safe fun n => z → n ≠ 0) ↔ ¬ C ∧ (z → ¬ S) := by
  rw [hx]
  rw [Safe_bind] at h ⊢
  simp only [Safe_pure, hf, Safe_size] at h ⊢
  rw [h, hk]
  have hS' : ¬ S := hS
  simp [hS']

theorem Unknown.wrap (hb : b ≠ []) (h : 65532 ≤ declN b) :
    ((Unknown.unmarshal .release b).Safe fun x => ((IE.Unknown x).len .release).Safe fun n => z → n ≠ 0) ↔
      ¬ (4 ≤ b.length) ∧ (z → ¬ False) := by
  have h0 : 0 < b.length := List.length_pos_iff.mpr hb
  have h1 := (declLen b).toNat_lt
  crash_unfold
  safe_simp [Unknown.unmarshal, Safe_checkTliv_wrap h, Safe_slBody16_wrap h, IE.len, ieLenU, size_ne]
  simp only [not_false_eq_true, implies_true, and_true, decide_eq_true_eq, imp_false]
  omega

/-- One arm without members in a release build, with a declared length of 65532 or more. -/
theorem unmKind_wrap (hk : k.grouped = false) (hb : b ≠ []) (h : 65532 ≤ declN b) :
    QuietArmR dec b k z ↔ ¬ k.WrapCrash b ∧ (z → ¬ k.Spin b) := by
  cases k with
-- begin wrap
  | Imsi => exact arm_wrap (fun _ => rfl) (Imsi.wrap h)
  | Cause => exact arm_wrap (fun _ => rfl) (Cause.wrap h)
  | Recovery => exact arm_indep (k := .Recovery) (x := fun m => Recovery.unmarshal m b) rfl rfl (fun _ => rfl) (fun hs => hs) (unmKind_quiet (dec := dec) (k := .Recovery) hb)
  | StnSr => exact arm_wrap (fun _ => rfl) (StnSr.wrap h)
  | SrvccCause => exact arm_indep (k := .SrvccCause) (x := fun m => SrvccCause.unmarshal m b) rfl rfl (fun _ => rfl) (fun hs => hs) (unmKind_quiet (dec := dec) (k := .SrvccCause) hb)
  | Apn => exact arm_wrap (fun _ => rfl) (Apn.wrap h)
  | ApnAmbr => exact arm_indep (k := .ApnAmbr) (x := fun m => Ambr.unmarshal m b) rfl rfl (fun _ => rfl) (fun hs => hs) (unmKind_quiet (dec := dec) (k := .ApnAmbr) hb)
  | Ebi => exact arm_indep (k := .Ebi) (x := fun m => Ebi.unmarshal m b) rfl rfl (fun _ => rfl) (fun hs => hs) (unmKind_quiet (dec := dec) (k := .Ebi) hb)
  | IpAddress => exact arm_wrap (fun _ => rfl) (IpAddress.wrap h)
  | Mei => exact arm_wrap (fun _ => rfl) (Mei.wrap h)
  | Msisdn => exact arm_wrap (fun _ => rfl) (Msisdn.wrap h)
  | Indication => exact arm_indep (k := .Indication) (x := fun m => Indication.unmarshal m b) rfl rfl (fun _ => rfl) (fun hs => hs) (unmKind_quiet (dec := dec) (k := .Indication) hb)
  | Pco => exact arm_wrap (fun _ => rfl) (Pco.wrap h)
  | PdnAddressAllocation => exact arm_wrap (fun _ => rfl) (PdnAddressAllocation.wrap h)
  | BearerQos => exact arm_indep (k := .BearerQos) (x := fun m => BearerQos.unmarshal m b) rfl rfl (fun _ => rfl) (fun hs => hs) (unmKind_quiet (dec := dec) (k := .BearerQos) hb)
  | FlowQos => exact arm_indep (k := .FlowQos) (x := fun m => FlowQos.unmarshal m b) rfl rfl (fun _ => rfl) (fun hs => hs) (unmKind_quiet (dec := dec) (k := .FlowQos) hb)
  | RatType => exact arm_indep (k := .RatType) (x := fun m => RatType.unmarshal m b) rfl rfl (fun _ => rfl) (fun hs => hs) (unmKind_quiet (dec := dec) (k := .RatType) hb)
  | ServingNetwork => exact arm_indep (k := .ServingNetwork) (x := fun m => ServingNetwork.unmarshal m b) rfl rfl (fun _ => rfl) (fun hs => hs) (unmKind_quiet (dec := dec) (k := .ServingNetwork) hb)
  | BearerTft => exact arm_wrap (fun _ => rfl) (BearerTft.wrap h)
  | TrafficAggregateDescription => exact arm_wrap (fun _ => rfl) (TrafficAggregateDescription.wrap h)
  | Uli => exact arm_wrap (fun _ => rfl) (Uli.wrap h)
  | Fteid => exact arm_wrap (fun _ => rfl) (Fteid.wrap h)
  | Tmsi => exact arm_indep (k := .Tmsi) (x := fun m => Tmsi.unmarshal m b) rfl rfl (fun _ => rfl) (fun hs => hs) (unmKind_quiet (dec := dec) (k := .Tmsi) hb)
  | GlobalCnId => exact arm_indep (k := .GlobalCnId) (x := fun m => GlobalCnId.unmarshal m b) rfl rfl (fun _ => rfl) (fun hs => hs) (unmKind_quiet (dec := dec) (k := .GlobalCnId) hb)
  | S103pdf => exact arm_wrap (fun _ => rfl) (S103pdf.wrap h)
  | S1udf => exact arm_wrap (fun _ => rfl) (S1udf.wrap h)
  | DelayValue => exact arm_indep (k := .DelayValue) (x := fun m => DelayValue.unmarshal m b) rfl rfl (fun _ => rfl) (fun hs => hs) (unmKind_quiet (dec := dec) (k := .DelayValue) hb)
  | BearerContext => cases hk
  | ChargingId => exact arm_indep (k := .ChargingId) (x := fun m => ChargingId.unmarshal m b) rfl rfl (fun _ => rfl) (fun hs => hs) (unmKind_quiet (dec := dec) (k := .ChargingId) hb)
  | ChargingCharacteristics => exact arm_indep (k := .ChargingCharacteristics) (x := fun m => ChargingCharacteristics.unmarshal m b) rfl rfl (fun _ => rfl) (fun hs => hs) (unmKind_quiet (dec := dec) (k := .ChargingCharacteristics) hb)
  | TraceInformation => exact arm_indep (k := .TraceInformation) (x := fun m => TraceInformation.unmarshal m b) rfl rfl (fun _ => rfl) (fun hs => hs) (unmKind_quiet (dec := dec) (k := .TraceInformation) hb)
  | BearerFlags => exact arm_indep (k := .BearerFlags) (x := fun m => BearerFlags.unmarshal m b) rfl rfl (fun _ => rfl) (fun hs => hs) (unmKind_quiet (dec := dec) (k := .BearerFlags) hb)
  | PdnType => exact arm_indep (k := .PdnType) (x := fun m => PdnType.unmarshal m b) rfl rfl (fun _ => rfl) (fun hs => hs) (unmKind_quiet (dec := dec) (k := .PdnType) hb)
  | Pti => exact arm_indep (k := .Pti) (x := fun m => Pti.unmarshal m b) rfl rfl (fun _ => rfl) (fun hs => hs) (unmKind_quiet (dec := dec) (k := .Pti) hb)
  | MmContext => exact arm_indep (k := .MmContext) (x := fun m => MmContext.unmarshal m b) rfl rfl (fun x => by cases x <;> rfl) (fun hs => hs) (unmKind_quiet (dec := dec) (k := .MmContext) hb)
  | PdnConnections => cases hk
  | PduNumbers => exact arm_indep (k := .PduNumbers) (x := fun m => PduNumbers.unmarshal m b) rfl rfl (fun _ => rfl) (fun hs => hs) (unmKind_quiet (dec := dec) (k := .PduNumbers) hb)
  | Ptmsi => exact arm_indep (k := .Ptmsi) (x := fun m => Ptmsi.unmarshal m b) rfl rfl (fun _ => rfl) (fun hs => hs) (unmKind_quiet (dec := dec) (k := .Ptmsi) hb)
  | PtmsiSignature => exact arm_indep (k := .PtmsiSignature) (x := fun m => PtmsiSignature.unmarshal m b) rfl rfl (fun _ => rfl) (fun hs => hs) (unmKind_quiet (dec := dec) (k := .PtmsiSignature) hb)
  | HopCounter => exact arm_indep (k := .HopCounter) (x := fun m => HopCounter.unmarshal m b) rfl rfl (fun _ => rfl) (fun hs => hs) (unmKind_quiet (dec := dec) (k := .HopCounter) hb)
  | UeTimeZone => exact arm_indep (k := .UeTimeZone) (x := fun m => UeTimeZone.unmarshal m b) rfl rfl (fun _ => rfl) (fun hs => hs) (unmKind_quiet (dec := dec) (k := .UeTimeZone) hb)
  | TraceReference => exact arm_indep (k := .TraceReference) (x := fun m => TraceReference.unmarshal m b) rfl rfl (fun _ => rfl) (fun hs => hs) (unmKind_quiet (dec := dec) (k := .TraceReference) hb)
  | CompleteRequestMessage => exact arm_wrap (fun _ => rfl) (CompleteRequestMessage.wrap h)
  | Guti => exact arm_indep (k := .Guti) (x := fun m => Guti.unmarshal m b) rfl rfl (fun _ => rfl) (fun hs => hs) (unmKind_quiet (dec := dec) (k := .Guti) hb)
  | Fcontainer => exact arm_wrap (fun _ => rfl) (Fcontainer.wrap h)
  | Fcause => exact arm_wrap (fun _ => rfl) (Fcause.wrap h)
  | PlmnId => exact arm_indep (k := .PlmnId) (x := fun m => PlmnId.unmarshal m b) rfl rfl (fun _ => rfl) (fun hs => hs) (unmKind_quiet (dec := dec) (k := .PlmnId) hb)
  | TargetIdentification => exact arm_indep (k := .TargetIdentification) (x := fun m => TargetIdentification.unmarshal m b) rfl rfl (fun _ => rfl) (fun hs => hs) (unmKind_quiet (dec := dec) (k := .TargetIdentification) hb)
  | PacketFlowId => exact arm_indep (k := .PacketFlowId) (x := fun m => PacketFlowId.unmarshal m b) rfl rfl (fun _ => rfl) (fun hs => hs) (unmKind_quiet (dec := dec) (k := .PacketFlowId) hb)
  | RabContext => exact arm_indep (k := .RabContext) (x := fun m => RabContext.unmarshal m b) rfl rfl (fun _ => rfl) (fun hs => hs) (unmKind_quiet (dec := dec) (k := .RabContext) hb)
  | SrcRncPdcpCtxInfo => exact arm_wrap (fun _ => rfl) (SourceRncPdcpContextInfo.wrap h)
  | PortNumber => exact arm_indep (k := .PortNumber) (x := fun m => PortNumber.unmarshal m b) rfl rfl (fun _ => rfl) (fun hs => hs) (unmKind_quiet (dec := dec) (k := .PortNumber) hb)
  | ApnRestriction => exact arm_indep (k := .ApnRestriction) (x := fun m => ApnRestriction.unmarshal m b) rfl rfl (fun _ => rfl) (fun hs => hs) (unmKind_quiet (dec := dec) (k := .ApnRestriction) hb)
  | SelectionMode => exact arm_indep (k := .SelectionMode) (x := fun m => SelectionMode.unmarshal m b) rfl rfl (fun _ => rfl) (fun hs => hs) (unmKind_quiet (dec := dec) (k := .SelectionMode) hb)
  | SourceIdentification => exact arm_indep (k := .SourceIdentification) (x := fun m => SourceIdentification.unmarshal m b) rfl rfl (fun _ => rfl) (fun hs => hs) (unmKind_quiet (dec := dec) (k := .SourceIdentification) hb)
  | ChangeReportingAction => exact arm_indep (k := .ChangeReportingAction) (x := fun m => ChangeReportingAction.unmarshal m b) rfl rfl (fun _ => rfl) (fun hs => hs) (unmKind_quiet (dec := dec) (k := .ChangeReportingAction) hb)
  | Fqcsid => exact arm_wrap (fun _ => rfl) (Fqcsid.wrap h)
  | ChannelNeeded => exact arm_indep (k := .ChannelNeeded) (x := fun m => ChannelNeeded.unmarshal m b) rfl rfl (fun _ => rfl) (fun hs => hs) (unmKind_quiet (dec := dec) (k := .ChannelNeeded) hb)
  | EmlppPriority => exact arm_indep (k := .EmlppPriority) (x := fun m => EmlppPriority.unmarshal m b) rfl rfl (fun _ => rfl) (fun hs => hs) (unmKind_quiet (dec := dec) (k := .EmlppPriority) hb)
  | NodeType => exact arm_indep (k := .NodeType) (x := fun m => NodeType.unmarshal m b) rfl rfl (fun _ => rfl) (fun hs => hs) (unmKind_quiet (dec := dec) (k := .NodeType) hb)
  | Fqdn => exact arm_wrap (fun _ => rfl) (Fqdn.wrap h)
  | TransactionIdentifier => exact arm_indep (k := .TransactionIdentifier) (x := fun m => TransactionIdentifier.unmarshal m b) rfl rfl (fun _ => rfl) (fun hs => hs) (unmKind_quiet (dec := dec) (k := .TransactionIdentifier) hb)
  | MbmsSa => exact arm_wrap (fun _ => rfl) (MbmsServiceArea.wrap h)
  | MbmsSd => exact arm_indep (k := .MbmsSd) (x := fun m => MbmsSessionDuration.unmarshal m b) rfl rfl (fun _ => rfl) (fun hs => hs) (unmKind_quiet (dec := dec) (k := .MbmsSd) hb)
  | MbmsSessionId => exact arm_indep (k := .MbmsSessionId) (x := fun m => MbmsSessionId.unmarshal m b) rfl rfl (fun _ => rfl) (fun hs => hs) (unmKind_quiet (dec := dec) (k := .MbmsSessionId) hb)
  | MbmsFlowId => exact arm_indep (k := .MbmsFlowId) (x := fun m => MbmsFlowId.unmarshal m b) rfl rfl (fun _ => rfl) (fun hs => hs) (unmKind_quiet (dec := dec) (k := .MbmsFlowId) hb)
  | MbmsIpMulticastDistribution => exact arm_wrap (fun _ => rfl) (MbmsIpMulticastDistribution.wrap h)
  | MbmsDistributionAck => exact arm_indep (k := .MbmsDistributionAck) (x := fun m => MbmsDistributionAck.unmarshal m b) rfl rfl (fun _ => rfl) (fun hs => hs) (unmKind_quiet (dec := dec) (k := .MbmsDistributionAck) hb)
  | RfspIndex => exact arm_indep (k := .RfspIndex) (x := fun m => RfspIndex.unmarshal m b) rfl rfl (fun _ => rfl) (fun hs => hs) (unmKind_quiet (dec := dec) (k := .RfspIndex) hb)
  | Uci => exact arm_indep (k := .Uci) (x := fun m => Uci.unmarshal m b) rfl rfl (fun _ => rfl) (fun hs => hs) (unmKind_quiet (dec := dec) (k := .Uci) hb)
  | CSGInformationReportingAction => exact arm_indep (k := .CSGInformationReportingAction) (x := fun m => CSGInformationReportingAction.unmarshal m b) rfl rfl (fun _ => rfl) (fun hs => hs) (unmKind_quiet (dec := dec) (k := .CSGInformationReportingAction) hb)
  | CsgId => exact arm_indep (k := .CsgId) (x := fun m => CsgId.unmarshal m b) rfl rfl (fun _ => rfl) (fun hs => hs) (unmKind_quiet (dec := dec) (k := .CsgId) hb)
  | CsgMembershipIndication => exact arm_indep (k := .CsgMembershipIndication) (x := fun m => CsgMembershipIndication.unmarshal m b) rfl rfl (fun _ => rfl) (fun hs => hs) (unmKind_quiet (dec := dec) (k := .CsgMembershipIndication) hb)
  | ServiceIndicator => exact arm_indep (k := .ServiceIndicator) (x := fun m => ServiceIndicator.unmarshal m b) rfl rfl (fun _ => rfl) (fun hs => hs) (unmKind_quiet (dec := dec) (k := .ServiceIndicator) hb)
  | DetachType => exact arm_indep (k := .DetachType) (x := fun m => DetachType.unmarshal m b) rfl rfl (fun _ => rfl) (fun hs => hs) (unmKind_quiet (dec := dec) (k := .DetachType) hb)
  | Ldn => exact arm_wrap (fun _ => rfl) (Ldn.wrap h)
  | NodeFeatures => exact arm_indep (k := .NodeFeatures) (x := fun m => NodeFeatures.unmarshal m b) rfl rfl (fun _ => rfl) (fun hs => hs) (unmKind_quiet (dec := dec) (k := .NodeFeatures) hb)
  | MbmsTimeToDataTransfer => exact arm_indep (k := .MbmsTimeToDataTransfer) (x := fun m => MbmsTimeToDataTransfer.unmarshal m b) rfl rfl (fun _ => rfl) (fun hs => hs) (unmKind_quiet (dec := dec) (k := .MbmsTimeToDataTransfer) hb)
  | Throttling => exact arm_indep (k := .Throttling) (x := fun m => Throttling.unmarshal m b) rfl rfl (fun _ => rfl) (fun hs => hs) (unmKind_quiet (dec := dec) (k := .Throttling) hb)
  | Arp => exact arm_indep (k := .Arp) (x := fun m => Arp.unmarshal m b) rfl rfl (fun _ => rfl) (fun hs => hs) (unmKind_quiet (dec := dec) (k := .Arp) hb)
  | EpcTimer => exact arm_indep (k := .EpcTimer) (x := fun m => EpcTimer.unmarshal m b) rfl rfl (fun _ => rfl) (fun hs => hs) (unmKind_quiet (dec := dec) (k := .EpcTimer) hb)
  | Spi => exact arm_indep (k := .Spi) (x := fun m => Spi.unmarshal m b) rfl rfl (fun _ => rfl) (fun hs => hs) (unmKind_quiet (dec := dec) (k := .Spi) hb)
  | Tmgi => exact arm_indep (k := .Tmgi) (x := fun m => Tmgi.unmarshal m b) rfl rfl (fun _ => rfl) (fun hs => hs) (unmKind_quiet (dec := dec) (k := .Tmgi) hb)
  | AdditionalMmContextForSrvcc => exact arm_indep (k := .AdditionalMmContextForSrvcc) (x := fun m => AdditionalMmContextForSrvcc.unmarshal m b) rfl rfl (fun _ => rfl) (fun hs => hs) (unmKind_quiet (dec := dec) (k := .AdditionalMmContextForSrvcc) hb)
  | AdditionalFlagsSrvcc => exact arm_indep (k := .AdditionalFlagsSrvcc) (x := fun m => AdditionalFlagsSrvcc.unmarshal m b) rfl rfl (fun _ => rfl) (fun hs => hs) (unmKind_quiet (dec := dec) (k := .AdditionalFlagsSrvcc) hb)
  | MdtConfiguration => exact arm_indep (k := .MdtConfiguration) (x := fun m => MdtConfiguration.unmarshal m b) rfl rfl (fun _ => rfl) (fun hs => hs) (unmKind_quiet (dec := dec) (k := .MdtConfiguration) hb)
  | Apco => exact arm_wrap (fun _ => rfl) (Apco.wrap h)
  | AbsoluteTimeMbmsDataTransfer => exact arm_indep (k := .AbsoluteTimeMbmsDataTransfer) (x := fun m => AbsoluteTimeMbmsDataTransfer.unmarshal m b) rfl rfl (fun _ => rfl) (fun hs => hs) (unmKind_quiet (dec := dec) (k := .AbsoluteTimeMbmsDataTransfer) hb)
  | HenbInfoReporting => exact arm_indep (k := .HenbInfoReporting) (x := fun m => HenbInfoReporting.unmarshal m b) rfl rfl (fun _ => rfl) (fun hs => hs) (unmKind_quiet (dec := dec) (k := .HenbInfoReporting) hb)
  | Ip4Cp => exact arm_indep (k := .Ip4Cp) (x := fun m => Ip4Cp.unmarshal m b) rfl rfl (fun _ => rfl) (fun hs => hs) (unmKind_quiet (dec := dec) (k := .Ip4Cp) hb)
  | ChangeToReportFlags => exact arm_indep (k := .ChangeToReportFlags) (x := fun m => ChangeToReportFlags.unmarshal m b) rfl rfl (fun _ => rfl) (fun hs => hs) (unmKind_quiet (dec := dec) (k := .ChangeToReportFlags) hb)
  | ActionIndication => exact arm_indep (k := .ActionIndication) (x := fun m => ActionIndication.unmarshal m b) rfl rfl (fun _ => rfl) (fun hs => hs) (unmKind_quiet (dec := dec) (k := .ActionIndication) hb)
  | TwanId => exact arm_indep (k := .TwanId) (x := fun m => TwanId.unmarshal m b) rfl rfl (fun _ => rfl) (fun hs => hs) (unmKind_quiet (dec := dec) (k := .TwanId) hb)
  | UliTimestamp => exact arm_indep (k := .UliTimestamp) (x := fun m => UliTimestamp.unmarshal m b) rfl rfl (fun _ => rfl) (fun hs => hs) (unmKind_quiet (dec := dec) (k := .UliTimestamp) hb)
  | MbmsFlags => exact arm_indep (k := .MbmsFlags) (x := fun m => MbmsFlags.unmarshal m b) rfl rfl (fun _ => rfl) (fun hs => hs) (unmKind_quiet (dec := dec) (k := .MbmsFlags) hb)
  | RanNasCause => exact arm_wrap (fun _ => rfl) (RanNasCause.wrap h)
  | CnOperatorSelectionEntity => exact arm_indep (k := .CnOperatorSelectionEntity) (x := fun m => CnOperatorSelectionEntity.unmarshal m b) rfl rfl (fun _ => rfl) (fun hs => hs) (unmKind_quiet (dec := dec) (k := .CnOperatorSelectionEntity) hb)
  | Twmi => exact arm_indep (k := .Twmi) (x := fun m => Twmi.unmarshal m b) rfl rfl (fun _ => rfl) (fun hs => hs) (unmKind_quiet (dec := dec) (k := .Twmi) hb)
  | NodeNumber => exact arm_wrap (fun _ => rfl) (NodeNumber.wrap h)
  | NodeIdentifier => exact arm_wrap (fun _ => rfl) (NodeIdentifier.wrap h)
  | PresenceReportingAreaAction => exact arm_wrap (fun _ => rfl) (PresenceReportingAreaAction.wrap h)
  | PresenceReportingAreaInformation => exact arm_indep (k := .PresenceReportingAreaInformation) (x := fun m => PresenceReportingAreaInformation.unmarshal m b) rfl rfl (fun _ => rfl) (fun hs => hs) (unmKind_quiet (dec := dec) (k := .PresenceReportingAreaInformation) hb)
  | TwanIdTimeStamp => exact arm_indep (k := .TwanIdTimeStamp) (x := fun m => TwanIdTimeStamp.unmarshal m b) rfl rfl (fun _ => rfl) (fun hs => hs) (unmKind_quiet (dec := dec) (k := .TwanIdTimeStamp) hb)
  | OverloadControlInfo => cases hk
  | LoadControlInfo => cases hk
  | Metric => exact arm_indep (k := .Metric) (x := fun m => Metric.unmarshal m b) rfl rfl (fun _ => rfl) (fun hs => hs) (unmKind_quiet (dec := dec) (k := .Metric) hb)
  | Sqn => exact arm_indep (k := .Sqn) (x := fun m => Sqn.unmarshal m b) rfl rfl (fun _ => rfl) (fun hs => hs) (unmKind_quiet (dec := dec) (k := .Sqn) hb)
  | ApnRelativeCapacity => exact arm_wrap (fun _ => rfl) (ApnRelativeCapacity.wrap h)
  | WlanOffloadIndication => exact arm_indep (k := .WlanOffloadIndication) (x := fun m => WlanOffloadIndication.unmarshal m b) rfl rfl (fun _ => rfl) (fun hs => hs) (unmKind_quiet (dec := dec) (k := .WlanOffloadIndication) hb)
  | PagingServiceInfo => exact arm_indep (k := .PagingServiceInfo) (x := fun m => PagingServiceInfo.unmarshal m b) rfl rfl (fun _ => rfl) (fun hs => hs) (unmKind_quiet (dec := dec) (k := .PagingServiceInfo) hb)
  | IntegerNumber => exact arm_wrap (fun _ => rfl) (IntegerNumber.wrap h)
  | MilliSecondTimeStamp => exact arm_indep (k := .MilliSecondTimeStamp) (x := fun m => MilliSecondTimeStamp.unmarshal m b) rfl rfl (fun _ => rfl) (fun hs => hs) (unmKind_quiet (dec := dec) (k := .MilliSecondTimeStamp) hb)
  | MonitoringEventInformation => exact arm_indep (k := .MonitoringEventInformation) (x := fun m => MonitoringEventInformation.unmarshal m b) rfl rfl (fun _ => rfl) (fun hs => hs) (unmKind_quiet (dec := dec) (k := .MonitoringEventInformation) hb)
  | EcgiList => exact arm_indep (k := .EcgiList) (x := fun m => EcgiList.unmarshal m b) rfl rfl (fun _ => rfl) (fun hs => hs) (unmKind_quiet (dec := dec) (k := .EcgiList) hb)
  | RemoteUeContext => cases hk
  | RemoteUserId => exact arm_indep (k := .RemoteUserId) (x := fun m => RemoteUserId.unmarshal m b) rfl rfl (fun _ => rfl) (fun hs => hs) (unmKind_quiet (dec := dec) (k := .RemoteUserId) hb)
  | RemoteUeIpInformation => exact arm_wrap (fun _ => rfl) (RemoteUeIpInformation.wrap h)
  | CIoTOptimizationSupportIndication => exact arm_indep (k := .CIoTOptimizationSupportIndication) (x := fun m => CIoTOptimizationSupportIndication.unmarshal m b) rfl rfl (fun _ => rfl) (fun hs => hs) (unmKind_quiet (dec := dec) (k := .CIoTOptimizationSupportIndication) hb)
  | ScefPdnConnections => cases hk
  | HeaderCompressionConfiguration => exact arm_indep (k := .HeaderCompressionConfiguration) (x := fun m => HeaderCompressionConfiguration.unmarshal m b) rfl rfl (fun _ => rfl) (fun hs => hs) (unmKind_quiet (dec := dec) (k := .HeaderCompressionConfiguration) hb)
  | Epco => exact arm_wrap (fun _ => rfl) (Epco.wrap h)
  | ServingPlmnRateControl => exact arm_indep (k := .ServingPlmnRateControl) (x := fun m => ServingPlmnRateControl.unmarshal m b) rfl rfl (fun _ => rfl) (fun hs => hs) (unmKind_quiet (dec := dec) (k := .ServingPlmnRateControl) hb)
  | Counter => exact arm_indep (k := .Counter) (x := fun m => Counter.unmarshal m b) rfl rfl (fun _ => rfl) (fun hs => hs) (unmKind_quiet (dec := dec) (k := .Counter) hb)
  | MappedUeUsageType => exact arm_indep (k := .MappedUeUsageType) (x := fun m => MappedUeUsageType.unmarshal m b) rfl rfl (fun _ => rfl) (fun hs => hs) (unmKind_quiet (dec := dec) (k := .MappedUeUsageType) hb)
  | SecondaryRatUsageDataReport => exact arm_indep (k := .SecondaryRatUsageDataReport) (x := fun m => SecondaryRatUsageDataReport.unmarshal m b) rfl rfl (fun _ => rfl) (fun hs => hs) (unmKind_quiet (dec := dec) (k := .SecondaryRatUsageDataReport) hb)
  | UpFunctionSelectionIndicationFlags => exact arm_indep (k := .UpFunctionSelectionIndicationFlags) (x := fun m => UpFunctionSelectionIndicationFlags.unmarshal m b) rfl rfl (fun _ => rfl) (fun hs => hs) (unmKind_quiet (dec := dec) (k := .UpFunctionSelectionIndicationFlags) hb)
  | MaxPacketLossRate => exact arm_wrap (fun _ => rfl) (MaxPacketLossRate.wrap h)
  | ApnRateControlStatus => exact arm_indep (k := .ApnRateControlStatus) (x := fun m => ApnRateControlStatus.unmarshal m b) rfl rfl (fun _ => rfl) (fun hs => hs) (unmKind_quiet (dec := dec) (k := .ApnRateControlStatus) hb)
  | ExtendedTraceInformation => exact arm_wrap (fun _ => rfl) (ExtendedTraceInformation.wrap h)
  | MonitoringEventExtensionInfo => exact arm_wrap (fun _ => rfl) (MonitoringEventExtensionInfo.wrap h)
  | AdditionalRrmPolicyIndex => exact arm_indep (k := .AdditionalRrmPolicyIndex) (x := fun m => AdditionalRrmPolicyIndex.unmarshal m b) rfl rfl (fun _ => rfl) (fun hs => hs) (unmKind_quiet (dec := dec) (k := .AdditionalRrmPolicyIndex) hb)
  | V2xInformation => cases hk
  | PC5QosParameters => cases hk
  | ServicesAuthorized => exact arm_indep (k := .ServicesAuthorized) (x := fun m => ServicesAuthorized.unmarshal m b) rfl rfl (fun _ => rfl) (fun hs => hs) (unmKind_quiet (dec := dec) (k := .ServicesAuthorized) hb)
  | BitRate => exact arm_indep (k := .BitRate) (x := fun m => BitRate.unmarshal m b) rfl rfl (fun _ => rfl) (fun hs => hs) (unmKind_quiet (dec := dec) (k := .BitRate) hb)
  | PC5QosFlow => exact arm_wrap (fun _ => rfl) (PC5QosFlow.wrap h)
  | SgiPtpTunnelAddress => exact arm_wrap (fun _ => rfl) (SgiPtpTunnelAddress.wrap h)
  | PgwChangeInfo => cases hk
  | PgwFqdn => exact arm_wrap (fun _ => rfl) (PgwFqdn.wrap h)
  | GroupId => exact arm_wrap (fun _ => rfl) (GroupId.wrap h)
  | PSCellId => exact arm_indep (k := .PSCellId) (x := fun m => PSCellId.unmarshal m b) rfl rfl (fun _ => rfl) (fun hs => hs) (unmKind_quiet (dec := dec) (k := .PSCellId) hb)
  | UpSecurityPolicy => exact arm_indep (k := .UpSecurityPolicy) (x := fun m => UpSecurityPolicy.unmarshal m b) rfl rfl (fun _ => rfl) (fun hs => hs) (unmKind_quiet (dec := dec) (k := .UpSecurityPolicy) hb)
  | AlternativeImsi => exact arm_wrap (fun _ => rfl) (AlternativeImsi.wrap h)
  | SpecialIEWithTypeExt => exact arm_wrap (fun _ => rfl) (SpecialIEWithTypeExt.wrap h)
  | PrivateExtension => exact arm_wrap (fun _ => rfl) (PrivateExtension.wrap h)
  | Unknown => exact arm_wrap (fun _ => rfl) (Unknown.wrap hb h)
-- end wrap

end Gtp.V2
