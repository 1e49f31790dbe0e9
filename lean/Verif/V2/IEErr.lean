import Verif.V2.Decoder

/-!
# The IE types named by decoding errors

Expanded by `scripts/gen_ieerr.py`. For every IE: which IE types the errors `IEInvalidLength(t)` and `IEIncorrect(t)` name.
-/

namespace Gtp.V2

set_option linter.unusedSimpArgs false

/-- If the outcome is an error, it satisfies `P`. -/
def _root_.Gtp.R.Errs {ε α : Type} (x : R ε α) (P : ε → Prop) : Prop :=
  match x with
  | .err e => P e
  | _ => True

/-- The error names the IE type `t`. -/
def Err.Names (t : UInt8) (e : Err) : Prop := e = .ieInvalidLength t ∨ e = .ieIncorrect t

section
variable {ε α β : Type} {P : ε → Prop}
theorem Errs_ok {a : α} : (R.ok a : R ε α).Errs P := trivial
theorem Errs_pure {a : α} : (pure a : R ε α).Errs P := trivial
theorem Errs_panic : (R.panic : R ε α).Errs P := trivial
theorem Errs_len {t : UInt8} : (R.err (.ieInvalidLength t) : R Err α).Errs (Err.Names t) := .inl rfl
theorem Errs_inc {t : UInt8} : (R.err (.ieIncorrect t) : R Err α).Errs (Err.Names t) := .inr rfl
theorem Errs_bind {x : R ε α} {f : α → R ε β} (hx : x.Errs P) (h : ∀ a, (f a).Errs P) : (x >>= f).Errs P := by
  cases x with
  | ok a => exact h a
  | err e => exact hx
  | _ => trivial
theorem Errs_ite {c : Prop} [Decidable c] {x y : R ε α} (hx : x.Errs P) (hy : y.Errs P) : (if c then x else y).Errs P := by
  split
  · exact hx
  · exact hy
theorem Errs_rd {b : Bytes} {i : Nat} : (rd b i : R ε UInt8).Errs P := by unfold rd; split <;> trivial
theorem Errs_sl {b : Bytes} {i j : Nat} : (sl b i j : R ε Bytes).Errs P := by unfold sl; split <;> trivial
theorem Errs_slFrom {b : Bytes} {i : Nat} : (slFrom b i : R ε Bytes).Errs P := by unfold slFrom; split <;> trivial
theorem Errs_add16 {m : Mode} {x y : UInt16} : (add16 m x y : R ε UInt16).Errs P := by
  unfold add16; cases m <;> simp only <;> (try split) <;> trivial
theorem Errs_add8 {m : Mode} {x y : UInt8} : (add8 m x y : R ε UInt8).Errs P := by
  unfold add8; cases m <;> simp only <;> (try split) <;> trivial
theorem Errs_mapErr {x : R ε α} {e : ε} (h : P e) : (x.mapErr e).Errs P := by cases x <;> first | trivial | exact h
theorem Errs_ofOption {o : Option α} {e : ε} (h : P e) : (R.ofOption o e).Errs P := by cases o <;> first | trivial | exact h
end

theorem Errs_checkTliv {m : Mode} {l : UInt16} {b : Bytes} {P : Err → Prop} : (checkTliv m l b : R Err Bool).Errs P := by
  unfold checkTliv
  exact Errs_ite Errs_ok (Errs_bind Errs_add16 fun _ => Errs_pure)

theorem Names_len {t : UInt8} : Err.Names t (.ieInvalidLength t) := .inl rfl
theorem Names_inc {t : UInt8} : Err.Names t (.ieIncorrect t) := .inr rfl
section
variable {P : Err → Prop} {b : Bytes} {i : Nat}
theorem Errs_rd16 : (rd16 b i : R Err UInt16).Errs P := Errs_bind Errs_rd fun _ => Errs_bind Errs_rd fun _ => Errs_pure
theorem Errs_rd24 : (rd24 b i : R Err _).Errs P := Errs_bind Errs_rd fun _ => Errs_bind Errs_rd fun _ => Errs_bind Errs_rd fun _ => Errs_pure
theorem Errs_rd32 : (rd32 b i : R Err _).Errs P := by
  unfold rd32; repeat (refine Errs_bind Errs_rd fun _ => ?_)
  exact Errs_pure
theorem Errs_rd40 : (rd40 b i : R Err _).Errs P := by
  unfold rd40; repeat' first | exact Errs_pure | exact Errs_rd | exact Errs_rd32 | refine Errs_bind ?_ fun _ => ?_
theorem Errs_rd48 : (rd48 b i : R Err _).Errs P := by
  unfold rd48; repeat' first | exact Errs_pure | exact Errs_rd | exact Errs_rd32 | exact Errs_rd16 | refine Errs_bind ?_ fun _ => ?_
theorem Errs_rd64 : (rd64 b i : R Err _).Errs P := by
  unfold rd64; repeat' first | exact Errs_pure | exact Errs_rd | exact Errs_rd32 | refine Errs_bind ?_ fun _ => ?_
theorem Errs_rdIp6 : (rdIp6 b i : R Err _).Errs P := Errs_bind Errs_rd64 fun _ => Errs_bind Errs_rd64 fun _ => Errs_pure
theorem Errs_slBody16 {m : Mode} {l : UInt16} : (slBody16 m b l : R Err _).Errs P := Errs_bind Errs_add16 fun _ => Errs_sl
end

theorem Errs_mcc {b : Bytes} {P : Err → Prop} : (mccMncDecode b : R Err _).Errs P := by
  unfold mccMncDecode
  exact Errs_bind Errs_rd fun _ => Errs_bind Errs_rd fun _ => Errs_bind Errs_rd fun _ => Errs_pure

theorem Errs_labels {P : Err → Prop} : ∀ (n : Nat) (b : Bytes), (decLabels n b : R Err Str).Errs P := by
  intro n
  induction n with
  | zero => intro b; cases b <;> trivial
  | succ n ih =>
    intro b
    cases b with
    | nil => trivial
    | cons a r =>
      unfold decLabels
      exact Errs_ite (Errs_bind (ih _) fun _ => Errs_pure) Errs_panic

theorem Errs_elems {α : Type} {chk : Bool} {unm : Bytes → R Err α} {k : Nat} {e : Err} {b : Bytes} {P : Err → Prop} (h : P e) :
    ∀ n c, (rdElems chk unm k e b n c).Errs P := by
  intro n
  induction n with
  | zero => intro c; exact Errs_ok
  | succ n ih =>
    intro c
    unfold rdElems
    exact Errs_ite h (Errs_bind Errs_slFrom fun _ => Errs_bind (Errs_mapErr h) fun _ => Errs_bind (ih _) fun _ => Errs_pure)

theorem Errs_plmns : ∀ b : Bytes, (rdMdtPlmns b).Errs (Err.Names 162)
  | [] => Errs_ok
  | [_] => Errs_len
  | [_, _] => Errs_len
  | p0 :: p1 :: p2 :: r => by
    unfold rdMdtPlmns
    exact Errs_bind Errs_mcc fun _ => Errs_bind (Errs_plmns r) fun _ => Errs_pure

theorem Errs_items {α : Type} {unm : Bytes → R Err α} {len : α → Nat} {e : Err} {b : Bytes} {P : Err → Prop} (h : P e) :
    ∀ n c, (rdItems unm len e b n c).Errs P := by
  intro n
  induction n with
  | zero => intro c; exact Errs_ok
  | succ n ih =>
    intro c
    unfold rdItems rdItem
    exact Errs_bind (Errs_bind Errs_slFrom fun _ => Errs_bind (Errs_mapErr h) fun _ => Errs_pure)
      fun _ => Errs_bind (ih _) fun _ => Errs_pure

theorem Errs_rates {b : Bytes} {P : Err → Prop} : ∀ n c, (rdRates b n c).Errs P := by
  intro n
  induction n with
  | zero => intro c; trivial
  | succ n ih =>
    intro c
    unfold rdRates
    refine Errs_bind Errs_slFrom fun _ => ?_
    split
    · exact Errs_bind (ih _) fun _ => Errs_pure
    · exact Errs_pure
    · trivial
    · trivial

macro "err_own" : tactic => `(tactic| repeat' first
  | (with_reducible exact Errs_len)
  | (with_reducible exact Errs_inc)
  | (with_reducible exact Errs_pure)
  | (with_reducible exact Errs_ok)
  | (with_reducible exact Errs_panic)
  | (with_reducible exact Errs_rd)
  | (with_reducible exact Errs_rd16)
  | (with_reducible exact Errs_rd24)
  | (with_reducible exact Errs_rd32)
  | (with_reducible exact Errs_rd40)
  | (with_reducible exact Errs_rd48)
  | (with_reducible exact Errs_rd64)
  | (with_reducible exact Errs_rdIp6)
  | (with_reducible exact Errs_sl)
  | (with_reducible exact Errs_slFrom)
  | (with_reducible exact Errs_slBody16)
  | (with_reducible exact Errs_add16)
  | (with_reducible exact Errs_add8)
  | (with_reducible exact Errs_checkTliv)
  | (with_reducible exact Errs_mapErr Names_len)
  | (with_reducible exact Errs_mapErr Names_inc)
  | (with_reducible exact Errs_ofOption Names_len)
  | (with_reducible exact Errs_ofOption Names_inc)
  | (with_reducible refine Errs_bind ?_ fun _ => ?_)
  | (with_reducible refine Errs_ite ?_ ?_)
  | (with_reducible exact Errs_mcc)
  | (with_reducible exact Errs_labels _ _)
  | (with_reducible exact Errs_plmns _)
  | (with_reducible exact Errs_rates _ _)
  | (with_reducible exact Errs_elems Names_len _ _)
  | (with_reducible exact Errs_elems Names_inc _ _)
  | (with_reducible exact Errs_items Names_len _ _)
  | (with_reducible exact Errs_items Names_inc _ _)
  | unfold decName
  | unfold rdStr
  | unfold MdtConfiguration.rdScope
  | unfold rdLvU
  | unfold rdLv
  | unfold rdIp50
  | unfold TwanId.rdRelay
  | unfold MdtConfiguration.rdPlmnList
  | unfold rdOpt8
  | unfold rdLvC
  | unfold rdIf
  | unfold rdLe
  | unfold TwanId.rdName
  | unfold rdN
  | unfold rdPlmnS
  | unfold rdItem
  | unfold rdAuth
  | unfold rdAmbr
  | unfold rdDrx
  | unfold rdHigher
  | unfold rdIov
  | unfold rdExtAcc
  | unfold rdTriplets
  | unfold rd8s
  | unfold rdNextHop
  | unfold rdEnsct
  | unfold rdEpsTail
  | unfold rdApnRates
  | unfold Container.read
  | split)

theorem Imsi.errs (m : Mode) (b : Bytes) : (Imsi.unmarshal m b).Errs (Err.Names 1) := by
  unfold Imsi.unmarshal
  err_own

theorem Cause.errs (m : Mode) (b : Bytes) : (Cause.unmarshal m b).Errs (Err.Names 2) := by
  unfold Cause.unmarshal
  err_own

theorem Recovery.errs (m : Mode) (b : Bytes) : (Recovery.unmarshal m b).Errs (Err.Names 3) := by
  unfold Recovery.unmarshal
  err_own

theorem StnSr.errs (m : Mode) (b : Bytes) : (StnSr.unmarshal m b).Errs (Err.Names 51) := by
  unfold StnSr.unmarshal
  err_own

theorem SrvccCause.errs (m : Mode) (b : Bytes) : (SrvccCause.unmarshal m b).Errs (Err.Names 56) := by
  unfold SrvccCause.unmarshal
  err_own

theorem Apn.errs (m : Mode) (b : Bytes) : (Apn.unmarshal m b).Errs (Err.Names 71) := by
  unfold Apn.unmarshal
  err_own

theorem Ambr.errs (m : Mode) (b : Bytes) : (Ambr.unmarshal m b).Errs (Err.Names 72) := by
  unfold Ambr.unmarshal
  err_own

theorem Ebi.errs (m : Mode) (b : Bytes) : (Ebi.unmarshal m b).Errs (Err.Names 73) := by
  unfold Ebi.unmarshal
  err_own

theorem IpAddress.errs (m : Mode) (b : Bytes) : (IpAddress.unmarshal m b).Errs (Err.Names 74) := by
  unfold IpAddress.unmarshal
  err_own

theorem Mei.errs (m : Mode) (b : Bytes) : (Mei.unmarshal m b).Errs (Err.Names 75) := by
  unfold Mei.unmarshal
  err_own

theorem Msisdn.errs (m : Mode) (b : Bytes) : (Msisdn.unmarshal m b).Errs (Err.Names 76) := by
  unfold Msisdn.unmarshal
  err_own

theorem Indication.errs (m : Mode) (b : Bytes) : (Indication.unmarshal m b).Errs (Err.Names 77) := by
  unfold Indication.unmarshal
  err_own

theorem Pco.errs (m : Mode) (b : Bytes) : (Pco.unmarshal m b).Errs (Err.Names 78) := by
  unfold Pco.unmarshal
  err_own

theorem PdnAddressAllocation.errs (m : Mode) (b : Bytes) : (PdnAddressAllocation.unmarshal m b).Errs (Err.Names 79) := by
  unfold PdnAddressAllocation.unmarshal
  err_own

theorem BearerQos.errs (m : Mode) (b : Bytes) : (BearerQos.unmarshal m b).Errs (Err.Names 80) := by
  unfold BearerQos.unmarshal
  err_own

theorem FlowQos.errs (m : Mode) (b : Bytes) : (FlowQos.unmarshal m b).Errs (Err.Names 81) := by
  unfold FlowQos.unmarshal
  err_own

theorem RatType.errs (m : Mode) (b : Bytes) : (RatType.unmarshal m b).Errs (Err.Names 82) := by
  unfold RatType.unmarshal
  err_own

theorem ServingNetwork.errs (m : Mode) (b : Bytes) : (ServingNetwork.unmarshal m b).Errs (Err.Names 83) := by
  unfold ServingNetwork.unmarshal
  err_own

theorem BearerTft.errs (m : Mode) (b : Bytes) : (BearerTft.unmarshal m b).Errs (Err.Names 84) := by
  unfold BearerTft.unmarshal
  err_own

theorem TrafficAggregateDescription.errs (m : Mode) (b : Bytes) : (TrafficAggregateDescription.unmarshal m b).Errs (Err.Names 85) := by
  unfold TrafficAggregateDescription.unmarshal
  err_own

theorem Fteid.errs (m : Mode) (b : Bytes) : (Fteid.unmarshal m b).Errs (Err.Names 87) := by
  unfold Fteid.unmarshal
  err_own

theorem Tmsi.errs (m : Mode) (b : Bytes) : (Tmsi.unmarshal m b).Errs (Err.Names 88) := by
  unfold Tmsi.unmarshal
  err_own

theorem GlobalCnId.errs (m : Mode) (b : Bytes) : (GlobalCnId.unmarshal m b).Errs (Err.Names 89) := by
  unfold GlobalCnId.unmarshal
  err_own

theorem S103pdf.errs (m : Mode) (b : Bytes) : (S103pdf.unmarshal m b).Errs (Err.Names 90) := by
  unfold S103pdf.unmarshal
  err_own

theorem S1udf.errs (m : Mode) (b : Bytes) : (S1udf.unmarshal m b).Errs (Err.Names 91) := by
  unfold S1udf.unmarshal
  err_own

theorem DelayValue.errs (m : Mode) (b : Bytes) : (DelayValue.unmarshal m b).Errs (Err.Names 92) := by
  unfold DelayValue.unmarshal
  err_own

theorem ChargingId.errs (m : Mode) (b : Bytes) : (ChargingId.unmarshal m b).Errs (Err.Names 94) := by
  unfold ChargingId.unmarshal
  err_own

theorem ChargingCharacteristics.errs (m : Mode) (b : Bytes) : (ChargingCharacteristics.unmarshal m b).Errs (Err.Names 95) := by
  unfold ChargingCharacteristics.unmarshal
  err_own

theorem TraceInformation.errs (m : Mode) (b : Bytes) : (TraceInformation.unmarshal m b).Errs (Err.Names 96) := by
  unfold TraceInformation.unmarshal
  err_own

theorem BearerFlags.errs (m : Mode) (b : Bytes) : (BearerFlags.unmarshal m b).Errs (Err.Names 97) := by
  unfold BearerFlags.unmarshal
  err_own

theorem PdnType.errs (m : Mode) (b : Bytes) : (PdnType.unmarshal m b).Errs (Err.Names 99) := by
  unfold PdnType.unmarshal
  err_own

theorem Pti.errs (m : Mode) (b : Bytes) : (Pti.unmarshal m b).Errs (Err.Names 100) := by
  unfold Pti.unmarshal
  err_own

theorem PduNumbers.errs (m : Mode) (b : Bytes) : (PduNumbers.unmarshal m b).Errs (Err.Names 110) := by
  unfold PduNumbers.unmarshal
  err_own

theorem Ptmsi.errs (m : Mode) (b : Bytes) : (Ptmsi.unmarshal m b).Errs (Err.Names 111) := by
  unfold Ptmsi.unmarshal
  err_own

theorem PtmsiSignature.errs (m : Mode) (b : Bytes) : (PtmsiSignature.unmarshal m b).Errs (Err.Names 112) := by
  unfold PtmsiSignature.unmarshal
  err_own

theorem HopCounter.errs (m : Mode) (b : Bytes) : (HopCounter.unmarshal m b).Errs (Err.Names 113) := by
  unfold HopCounter.unmarshal
  err_own

theorem UeTimeZone.errs (m : Mode) (b : Bytes) : (UeTimeZone.unmarshal m b).Errs (Err.Names 114) := by
  unfold UeTimeZone.unmarshal
  err_own

theorem TraceReference.errs (m : Mode) (b : Bytes) : (TraceReference.unmarshal m b).Errs (Err.Names 83) := by
  unfold TraceReference.unmarshal
  err_own

theorem CompleteRequestMessage.errs (m : Mode) (b : Bytes) : (CompleteRequestMessage.unmarshal m b).Errs (Err.Names 116) := by
  unfold CompleteRequestMessage.unmarshal
  err_own

theorem Guti.errs (m : Mode) (b : Bytes) : (Guti.unmarshal m b).Errs (Err.Names 117) := by
  unfold Guti.unmarshal
  err_own

theorem Fcontainer.errs (m : Mode) (b : Bytes) : (Fcontainer.unmarshal m b).Errs (Err.Names 118) := by
  unfold Fcontainer.unmarshal
  err_own

theorem Fcause.errs (m : Mode) (b : Bytes) : (Fcause.unmarshal m b).Errs (Err.Names 119) := by
  unfold Fcause.unmarshal
  err_own

theorem PlmnId.errs (m : Mode) (b : Bytes) : (PlmnId.unmarshal m b).Errs (Err.Names 120) := by
  unfold PlmnId.unmarshal
  err_own

theorem TargetIdentification.errs (m : Mode) (b : Bytes) : (TargetIdentification.unmarshal m b).Errs (Err.Names 121) := by
  unfold TargetIdentification.unmarshal
  err_own

theorem PacketFlowId.errs (m : Mode) (b : Bytes) : (PacketFlowId.unmarshal m b).Errs (Err.Names 123) := by
  unfold PacketFlowId.unmarshal
  err_own

theorem RabContext.errs (m : Mode) (b : Bytes) : (RabContext.unmarshal m b).Errs (Err.Names 124) := by
  unfold RabContext.unmarshal
  err_own

theorem SourceRncPdcpContextInfo.errs (m : Mode) (b : Bytes) : (SourceRncPdcpContextInfo.unmarshal m b).Errs (Err.Names 125) := by
  unfold SourceRncPdcpContextInfo.unmarshal
  err_own

theorem PortNumber.errs (m : Mode) (b : Bytes) : (PortNumber.unmarshal m b).Errs (Err.Names 126) := by
  unfold PortNumber.unmarshal
  err_own

theorem ApnRestriction.errs (m : Mode) (b : Bytes) : (ApnRestriction.unmarshal m b).Errs (Err.Names 127) := by
  unfold ApnRestriction.unmarshal
  err_own

theorem SelectionMode.errs (m : Mode) (b : Bytes) : (SelectionMode.unmarshal m b).Errs (Err.Names 128) := by
  unfold SelectionMode.unmarshal
  err_own

theorem SourceIdentification.errs (m : Mode) (b : Bytes) : (SourceIdentification.unmarshal m b).Errs (Err.Names 129) := by
  unfold SourceIdentification.unmarshal
  err_own

theorem ChangeReportingAction.errs (m : Mode) (b : Bytes) : (ChangeReportingAction.unmarshal m b).Errs (Err.Names 131) := by
  unfold ChangeReportingAction.unmarshal
  err_own

theorem Fqcsid.errs (m : Mode) (b : Bytes) : (Fqcsid.unmarshal m b).Errs (Err.Names 132) := by
  unfold Fqcsid.unmarshal
  err_own

theorem ChannelNeeded.errs (m : Mode) (b : Bytes) : (ChannelNeeded.unmarshal m b).Errs (Err.Names 133) := by
  unfold ChannelNeeded.unmarshal
  err_own

theorem EmlppPriority.errs (m : Mode) (b : Bytes) : (EmlppPriority.unmarshal m b).Errs (Err.Names 134) := by
  unfold EmlppPriority.unmarshal
  err_own

theorem NodeType.errs (m : Mode) (b : Bytes) : (NodeType.unmarshal m b).Errs (Err.Names 135) := by
  unfold NodeType.unmarshal
  err_own

theorem Fqdn.errs (m : Mode) (b : Bytes) : (Fqdn.unmarshal m b).Errs (Err.Names 136) := by
  unfold Fqdn.unmarshal
  err_own

theorem TransactionIdentifier.errs (m : Mode) (b : Bytes) : (TransactionIdentifier.unmarshal m b).Errs (Err.Names 137) := by
  unfold TransactionIdentifier.unmarshal
  err_own

theorem MbmsServiceArea.errs (m : Mode) (b : Bytes) : (MbmsServiceArea.unmarshal m b).Errs (Err.Names 139) := by
  unfold MbmsServiceArea.unmarshal
  err_own

theorem MbmsSessionDuration.errs (m : Mode) (b : Bytes) : (MbmsSessionDuration.unmarshal m b).Errs (Err.Names 138) := by
  unfold MbmsSessionDuration.unmarshal
  err_own

theorem MbmsSessionId.errs (m : Mode) (b : Bytes) : (MbmsSessionId.unmarshal m b).Errs (Err.Names 140) := by
  unfold MbmsSessionId.unmarshal
  err_own

theorem MbmsFlowId.errs (m : Mode) (b : Bytes) : (MbmsFlowId.unmarshal m b).Errs (Err.Names 141) := by
  unfold MbmsFlowId.unmarshal
  err_own

theorem MbmsIpMulticastDistribution.errs (m : Mode) (b : Bytes) : (MbmsIpMulticastDistribution.unmarshal m b).Errs (Err.Names 142) := by
  unfold MbmsIpMulticastDistribution.unmarshal
  err_own

theorem MbmsDistributionAck.errs (m : Mode) (b : Bytes) : (MbmsDistributionAck.unmarshal m b).Errs (Err.Names 143) := by
  unfold MbmsDistributionAck.unmarshal
  err_own

theorem RfspIndex.errs (m : Mode) (b : Bytes) : (RfspIndex.unmarshal m b).Errs (Err.Names 144) := by
  unfold RfspIndex.unmarshal
  err_own

theorem Uci.errs (m : Mode) (b : Bytes) : (Uci.unmarshal m b).Errs (Err.Names 145) := by
  unfold Uci.unmarshal
  err_own

theorem CSGInformationReportingAction.errs (m : Mode) (b : Bytes) : (CSGInformationReportingAction.unmarshal m b).Errs (Err.Names 146) := by
  unfold CSGInformationReportingAction.unmarshal
  err_own

theorem CsgId.errs (m : Mode) (b : Bytes) : (CsgId.unmarshal m b).Errs (Err.Names 147) := by
  unfold CsgId.unmarshal
  err_own

theorem CsgMembershipIndication.errs (m : Mode) (b : Bytes) : (CsgMembershipIndication.unmarshal m b).Errs (Err.Names 148) := by
  unfold CsgMembershipIndication.unmarshal
  err_own

theorem ServiceIndicator.errs (m : Mode) (b : Bytes) : (ServiceIndicator.unmarshal m b).Errs (Err.Names 149) := by
  unfold ServiceIndicator.unmarshal
  err_own

theorem DetachType.errs (m : Mode) (b : Bytes) : (DetachType.unmarshal m b).Errs (Err.Names 150) := by
  unfold DetachType.unmarshal
  err_own

theorem Ldn.errs (m : Mode) (b : Bytes) : (Ldn.unmarshal m b).Errs (Err.Names 151) := by
  unfold Ldn.unmarshal
  err_own

theorem NodeFeatures.errs (m : Mode) (b : Bytes) : (NodeFeatures.unmarshal m b).Errs (Err.Names 152) := by
  unfold NodeFeatures.unmarshal
  err_own

theorem MbmsTimeToDataTransfer.errs (m : Mode) (b : Bytes) : (MbmsTimeToDataTransfer.unmarshal m b).Errs (Err.Names 153) := by
  unfold MbmsTimeToDataTransfer.unmarshal
  err_own

theorem Throttling.errs (m : Mode) (b : Bytes) : (Throttling.unmarshal m b).Errs (Err.Names 154) := by
  unfold Throttling.unmarshal
  err_own

theorem Arp.errs (m : Mode) (b : Bytes) : (Arp.unmarshal m b).Errs (Err.Names 155) := by
  unfold Arp.unmarshal
  err_own

theorem EpcTimer.errs (m : Mode) (b : Bytes) : (EpcTimer.unmarshal m b).Errs (Err.Names 156) := by
  unfold EpcTimer.unmarshal
  err_own

theorem Spi.errs (m : Mode) (b : Bytes) : (Spi.unmarshal m b).Errs (Err.Names 157) := by
  unfold Spi.unmarshal
  err_own

theorem Tmgi.errs (m : Mode) (b : Bytes) : (Tmgi.unmarshal m b).Errs (Err.Names 158) := by
  unfold Tmgi.unmarshal
  err_own

theorem AdditionalMmContextForSrvcc.errs (m : Mode) (b : Bytes) : (AdditionalMmContextForSrvcc.unmarshal m b).Errs (Err.Names 159) := by
  unfold AdditionalMmContextForSrvcc.unmarshal
  err_own

theorem AdditionalFlagsSrvcc.errs (m : Mode) (b : Bytes) : (AdditionalFlagsSrvcc.unmarshal m b).Errs (Err.Names 160) := by
  unfold AdditionalFlagsSrvcc.unmarshal
  err_own

theorem MdtConfiguration.errs (m : Mode) (b : Bytes) : (MdtConfiguration.unmarshal m b).Errs (Err.Names 162) := by
  unfold MdtConfiguration.unmarshal
  err_own

theorem Apco.errs (m : Mode) (b : Bytes) : (Apco.unmarshal m b).Errs (Err.Names 163) := by
  unfold Apco.unmarshal
  err_own

theorem AbsoluteTimeMbmsDataTransfer.errs (m : Mode) (b : Bytes) : (AbsoluteTimeMbmsDataTransfer.unmarshal m b).Errs (Err.Names 164) := by
  unfold AbsoluteTimeMbmsDataTransfer.unmarshal
  err_own

theorem HenbInfoReporting.errs (m : Mode) (b : Bytes) : (HenbInfoReporting.unmarshal m b).Errs (Err.Names 165) := by
  unfold HenbInfoReporting.unmarshal
  err_own

theorem Ip4Cp.errs (m : Mode) (b : Bytes) : (Ip4Cp.unmarshal m b).Errs (Err.Names 166) := by
  unfold Ip4Cp.unmarshal
  err_own

theorem ChangeToReportFlags.errs (m : Mode) (b : Bytes) : (ChangeToReportFlags.unmarshal m b).Errs (Err.Names 167) := by
  unfold ChangeToReportFlags.unmarshal
  err_own

theorem ActionIndication.errs (m : Mode) (b : Bytes) : (ActionIndication.unmarshal m b).Errs (Err.Names 168) := by
  unfold ActionIndication.unmarshal
  err_own

theorem TwanId.errs (m : Mode) (b : Bytes) : (TwanId.unmarshal m b).Errs (Err.Names 169) := by
  unfold TwanId.unmarshal
  err_own

theorem UliTimestamp.errs (m : Mode) (b : Bytes) : (UliTimestamp.unmarshal m b).Errs (Err.Names 170) := by
  unfold UliTimestamp.unmarshal
  err_own

theorem MbmsFlags.errs (m : Mode) (b : Bytes) : (MbmsFlags.unmarshal m b).Errs (Err.Names 171) := by
  unfold MbmsFlags.unmarshal
  err_own

theorem RanNasCause.errs (m : Mode) (b : Bytes) : (RanNasCause.unmarshal m b).Errs (Err.Names 172) := by
  unfold RanNasCause.unmarshal
  err_own

theorem CnOperatorSelectionEntity.errs (m : Mode) (b : Bytes) : (CnOperatorSelectionEntity.unmarshal m b).Errs (Err.Names 173) := by
  unfold CnOperatorSelectionEntity.unmarshal
  err_own

theorem Twmi.errs (m : Mode) (b : Bytes) : (Twmi.unmarshal m b).Errs (Err.Names 174) := by
  unfold Twmi.unmarshal
  err_own

theorem NodeNumber.errs (m : Mode) (b : Bytes) : (NodeNumber.unmarshal m b).Errs (Err.Names 175) := by
  unfold NodeNumber.unmarshal
  err_own

theorem NodeIdentifier.errs (m : Mode) (b : Bytes) : (NodeIdentifier.unmarshal m b).Errs (Err.Names 176) := by
  unfold NodeIdentifier.unmarshal
  err_own

theorem PresenceReportingAreaAction.errs (m : Mode) (b : Bytes) : (PresenceReportingAreaAction.unmarshal m b).Errs (Err.Names 177) := by
  unfold PresenceReportingAreaAction.unmarshal
  err_own

theorem PresenceReportingAreaInformation.errs (m : Mode) (b : Bytes) : (PresenceReportingAreaInformation.unmarshal m b).Errs (Err.Names 178) := by
  unfold PresenceReportingAreaInformation.unmarshal
  err_own

theorem TwanIdTimeStamp.errs (m : Mode) (b : Bytes) : (TwanIdTimeStamp.unmarshal m b).Errs (Err.Names 179) := by
  unfold TwanIdTimeStamp.unmarshal
  err_own

theorem Metric.errs (m : Mode) (b : Bytes) : (Metric.unmarshal m b).Errs (Err.Names 182) := by
  unfold Metric.unmarshal
  err_own

theorem Sqn.errs (m : Mode) (b : Bytes) : (Sqn.unmarshal m b).Errs (Err.Names 183) := by
  unfold Sqn.unmarshal
  err_own

theorem ApnRelativeCapacity.errs (m : Mode) (b : Bytes) : (ApnRelativeCapacity.unmarshal m b).Errs (Err.Names 184) := by
  unfold ApnRelativeCapacity.unmarshal
  err_own

theorem WlanOffloadIndication.errs (m : Mode) (b : Bytes) : (WlanOffloadIndication.unmarshal m b).Errs (Err.Names 185) := by
  unfold WlanOffloadIndication.unmarshal
  err_own

theorem PagingServiceInfo.errs (m : Mode) (b : Bytes) : (PagingServiceInfo.unmarshal m b).Errs (Err.Names 186) := by
  unfold PagingServiceInfo.unmarshal
  err_own

theorem IntegerNumber.errs (m : Mode) (b : Bytes) : (IntegerNumber.unmarshal m b).Errs (Err.Names 187) := by
  unfold IntegerNumber.unmarshal
  err_own

theorem MilliSecondTimeStamp.errs (m : Mode) (b : Bytes) : (MilliSecondTimeStamp.unmarshal m b).Errs (Err.Names 188) := by
  unfold MilliSecondTimeStamp.unmarshal
  err_own

theorem MonitoringEventInformation.errs (m : Mode) (b : Bytes) : (MonitoringEventInformation.unmarshal m b).Errs (Err.Names 189) := by
  unfold MonitoringEventInformation.unmarshal
  err_own

theorem EcgiList.errs (m : Mode) (b : Bytes) : (EcgiList.unmarshal m b).Errs (Err.Names 190) := by
  unfold EcgiList.unmarshal
  err_own

theorem RemoteUserId.errs (m : Mode) (b : Bytes) : (RemoteUserId.unmarshal m b).Errs (Err.Names 192) := by
  unfold RemoteUserId.unmarshal
  err_own

theorem RemoteUeIpInformation.errs (m : Mode) (b : Bytes) : (RemoteUeIpInformation.unmarshal m b).Errs (Err.Names 193) := by
  unfold RemoteUeIpInformation.unmarshal
  err_own

theorem CIoTOptimizationSupportIndication.errs (m : Mode) (b : Bytes) : (CIoTOptimizationSupportIndication.unmarshal m b).Errs (Err.Names 194) := by
  unfold CIoTOptimizationSupportIndication.unmarshal
  err_own

theorem HeaderCompressionConfiguration.errs (m : Mode) (b : Bytes) : (HeaderCompressionConfiguration.unmarshal m b).Errs (Err.Names 196) := by
  unfold HeaderCompressionConfiguration.unmarshal
  err_own

theorem Epco.errs (m : Mode) (b : Bytes) : (Epco.unmarshal m b).Errs (Err.Names 197) := by
  unfold Epco.unmarshal
  err_own

theorem ServingPlmnRateControl.errs (m : Mode) (b : Bytes) : (ServingPlmnRateControl.unmarshal m b).Errs (Err.Names 198) := by
  unfold ServingPlmnRateControl.unmarshal
  err_own

theorem Counter.errs (m : Mode) (b : Bytes) : (Counter.unmarshal m b).Errs (Err.Names 199) := by
  unfold Counter.unmarshal
  err_own

theorem MappedUeUsageType.errs (m : Mode) (b : Bytes) : (MappedUeUsageType.unmarshal m b).Errs (Err.Names 200) := by
  unfold MappedUeUsageType.unmarshal
  err_own

theorem SecondaryRatUsageDataReport.errs (m : Mode) (b : Bytes) : (SecondaryRatUsageDataReport.unmarshal m b).Errs (Err.Names 201) := by
  unfold SecondaryRatUsageDataReport.unmarshal
  err_own

theorem UpFunctionSelectionIndicationFlags.errs (m : Mode) (b : Bytes) : (UpFunctionSelectionIndicationFlags.unmarshal m b).Errs (Err.Names 202) := by
  unfold UpFunctionSelectionIndicationFlags.unmarshal
  err_own

theorem MaxPacketLossRate.errs (m : Mode) (b : Bytes) : (MaxPacketLossRate.unmarshal m b).Errs (Err.Names 203) := by
  unfold MaxPacketLossRate.unmarshal
  err_own

theorem ApnRateControlStatus.errs (m : Mode) (b : Bytes) : (ApnRateControlStatus.unmarshal m b).Errs (Err.Names 204) := by
  unfold ApnRateControlStatus.unmarshal
  err_own

theorem ExtendedTraceInformation.errs (m : Mode) (b : Bytes) : (ExtendedTraceInformation.unmarshal m b).Errs (Err.Names 205) := by
  unfold ExtendedTraceInformation.unmarshal
  err_own

theorem MonitoringEventExtensionInfo.errs (m : Mode) (b : Bytes) : (MonitoringEventExtensionInfo.unmarshal m b).Errs (Err.Names 206) := by
  unfold MonitoringEventExtensionInfo.unmarshal
  err_own

theorem AdditionalRrmPolicyIndex.errs (m : Mode) (b : Bytes) : (AdditionalRrmPolicyIndex.unmarshal m b).Errs (Err.Names 207) := by
  unfold AdditionalRrmPolicyIndex.unmarshal
  err_own

theorem ServicesAuthorized.errs (m : Mode) (b : Bytes) : (ServicesAuthorized.unmarshal m b).Errs (Err.Names 210) := by
  unfold ServicesAuthorized.unmarshal
  err_own

theorem BitRate.errs (m : Mode) (b : Bytes) : (BitRate.unmarshal m b).Errs (Err.Names 211) := by
  unfold BitRate.unmarshal
  err_own

theorem PC5QosFlow.errs (m : Mode) (b : Bytes) : (PC5QosFlow.unmarshal m b).Errs (Err.Names 212) := by
  unfold PC5QosFlow.unmarshal
  err_own

theorem SgiPtpTunnelAddress.errs (m : Mode) (b : Bytes) : (SgiPtpTunnelAddress.unmarshal m b).Errs (Err.Names 213) := by
  unfold SgiPtpTunnelAddress.unmarshal
  err_own

theorem PgwFqdn.errs (m : Mode) (b : Bytes) : (PgwFqdn.unmarshal m b).Errs (Err.Names 215) := by
  unfold PgwFqdn.unmarshal
  err_own

theorem GroupId.errs (m : Mode) (b : Bytes) : (GroupId.unmarshal m b).Errs (Err.Names 216) := by
  unfold GroupId.unmarshal
  err_own

theorem PSCellId.errs (m : Mode) (b : Bytes) : (PSCellId.unmarshal m b).Errs (Err.Names 217) := by
  unfold PSCellId.unmarshal
  err_own

theorem UpSecurityPolicy.errs (m : Mode) (b : Bytes) : (UpSecurityPolicy.unmarshal m b).Errs (Err.Names 218) := by
  unfold UpSecurityPolicy.unmarshal
  err_own

theorem AlternativeImsi.errs (m : Mode) (b : Bytes) : (AlternativeImsi.unmarshal m b).Errs (Err.Names 219) := by
  unfold AlternativeImsi.unmarshal
  err_own

theorem SpecialIEWithTypeExt.errs (m : Mode) (b : Bytes) : (SpecialIEWithTypeExt.unmarshal m b).Errs (Err.Names 254) := by
  unfold SpecialIEWithTypeExt.unmarshal
  err_own

theorem PrivateExtension.errs (m : Mode) (b : Bytes) : (PrivateExtension.unmarshal m b).Errs (Err.Names 255) := by
  unfold PrivateExtension.unmarshal
  err_own

theorem MmContextGsmKeyTriplets.errs (m : Mode) (b : Bytes) : (MmContextGsmKeyTriplets.unmarshal m b).Errs (Err.Names 103) := by
  unfold MmContextGsmKeyTriplets.unmarshal
  err_own

theorem MmContextUmtsKeyCipherQuintuplets.errs (m : Mode) (b : Bytes) : (MmContextUmtsKeyCipherQuintuplets.unmarshal m b).Errs (Err.Names 104) := by
  unfold MmContextUmtsKeyCipherQuintuplets.unmarshal
  err_own

theorem MmContextGsmKeyCipherQuintuplets.errs (m : Mode) (b : Bytes) : (MmContextGsmKeyCipherQuintuplets.unmarshal m b).Errs (Err.Names 105) := by
  unfold MmContextGsmKeyCipherQuintuplets.unmarshal
  err_own

theorem MmContextUmtsKeyQuintuplets.errs (m : Mode) (b : Bytes) : (MmContextUmtsKeyQuintuplets.unmarshal m b).Errs (Err.Names 106) := by
  unfold MmContextUmtsKeyQuintuplets.unmarshal
  err_own

theorem MmContextEpsSecurityContextQuadruplets.errs (m : Mode) (b : Bytes) : (MmContextEpsSecurityContextQuadruplets.unmarshal m b).Errs (Err.Names 107) := by
  unfold MmContextEpsSecurityContextQuadruplets.unmarshal
  err_own

theorem MmContextUmtsKeyQuadrupletsQuintuplets.errs (m : Mode) (b : Bytes) : (MmContextUmtsKeyQuadrupletsQuintuplets.unmarshal m b).Errs (Err.Names 108) := by
  unfold MmContextUmtsKeyQuadrupletsQuintuplets.unmarshal
  err_own

theorem Errs.mono {ε α : Type} {x : R ε α} {P Q : ε → Prop} (h : x.Errs P) (hq : ∀ e, P e → Q e) : x.Errs Q := by
  cases x with
  | err e => exact hq e h
  | _ => trivial

theorem Errs_ite' {ε α : Type} {P : ε → Prop} {c : Prop} [Decidable c] {x y : R ε α} (hx : c → x.Errs P) (hy : ¬ c → y.Errs P) :
    (if c then x else y).Errs P := by
  split
  · exact hx ‹_›
  · exact hy ‹_›

/-- An MM context names the type octet, which selects the variant. -/
theorem MmContext.errs (m : Mode) (b : Bytes) : (MmContext.unmarshal m b).Errs (Err.Names (b.getD 0 0)) := by
  unfold MmContext.unmarshal
  cases b with
  | nil => trivial
  | cons a r =>
    rw [rd_zero, R.ok_bind]
    simp only [List.getD_cons_zero]
    refine Errs_ite' (fun h => by subst h; exact Errs_bind (MmContextEpsSecurityContextQuadruplets.errs m _) fun _ => Errs_pure) fun _ => ?_
    refine Errs_ite' (fun h => by subst h; exact Errs_bind (MmContextUmtsKeyQuintuplets.errs m _) fun _ => Errs_pure) fun _ => ?_
    refine Errs_ite' (fun h => by subst h; exact Errs_bind (MmContextUmtsKeyQuadrupletsQuintuplets.errs m _) fun _ => Errs_pure) fun _ => ?_
    refine Errs_ite' (fun h => by subst h; exact Errs_bind (MmContextUmtsKeyCipherQuintuplets.errs m _) fun _ => Errs_pure) fun _ => ?_
    refine Errs_ite' (fun h => by subst h; exact Errs_bind (MmContextGsmKeyTriplets.errs m _) fun _ => Errs_pure) fun _ => ?_
    refine Errs_ite' (fun h => by subst h; exact Errs_bind (MmContextGsmKeyCipherQuintuplets.errs m _) fun _ => Errs_pure) fun _ => ?_
    exact Errs_inc

/-- The octets that an error about a ULI can name: the location readers name none. -/
theorem Uli.errs (m : Mode) (b : Bytes) : (Uli.unmarshal m b).Errs fun e => Err.Names 86 e ∨ e = .ieIncorrect 0 := by
  have hr : ∀ k (s : Bytes), (Location.read k s).Errs fun e => Err.Names 86 e ∨ e = .ieIncorrect 0 := by
    intro k s
    unfold Location.read
    repeat' first
        | (with_reducible exact Errs_pure)
        | (with_reducible exact Errs_ok)
        | (with_reducible exact Errs_panic)
        | (with_reducible exact Errs_rd)
        | (with_reducible exact Errs_rd16)
        | (with_reducible exact Errs_rd24)
        | (with_reducible exact Errs_rd32)
        | (with_reducible exact Errs_sl)
        | (with_reducible exact Errs_mcc)
        | (with_reducible refine Errs_bind ?_ fun _ => ?_)
        | (with_reducible refine Errs_ite ?_ ?_)
        | exact (.inr rfl : Err.Names 86 (.ieIncorrect 0) ∨ _)
        | unfold Cgi.unmarshal
        | unfold Sai.unmarshal
        | unfold Rai.unmarshal
        | unfold Tai.unmarshal
        | unfold Ecgi.unmarshal
        | unfold Lai.unmarshal
        | unfold MacroEnbId.unmarshal
        | unfold ExtMacroEnbId.unmarshal
        | split
  have ha : ∀ ks c, (Location.readAll b ks c).Errs fun e => Err.Names 86 e ∨ e = .ieIncorrect 0 := by
    intro ks
    induction ks with
    | nil => intro c; trivial
    | cons k ks ih =>
      intro c
      unfold Location.readAll
      exact Errs_bind Errs_slFrom fun _ => Errs_bind (hr _ _) fun _ => Errs_bind (ih _) fun _ => Errs_pure
  unfold Uli.unmarshal
  refine Errs_ite (Errs_bind Errs_rd16 fun _ => Errs_bind Errs_rd fun _ => Errs_bind Errs_checkTliv fun _ =>
    Errs_ite (Errs_bind Errs_rd fun _ => Errs_bind (ha _ _) fun _ => Errs_pure) ?_) ?_ <;> exact .inl (.inl rfl)

/-- An unknown type is not named if the length does not fit. -/
theorem Unknown.errs (m : Mode) (b : Bytes) : (Unknown.unmarshal m b).Errs fun e => Err.Names (b.getD 0 0) e ∨ e = .ieInvalidLength 0 := by
  unfold Unknown.unmarshal
  cases b with
  | nil => trivial
  | cons a r =>
    refine Errs_ite (Errs_bind Errs_rd16 fun _ => Errs_bind Errs_rd fun _ => Errs_bind Errs_checkTliv fun _ =>
      Errs_ite (Errs_bind Errs_slBody16 fun _ => Errs_pure) ?_) ?_
    · exact .inr rfl
    · rw [rd_zero, R.ok_bind]
      exact .inl (.inl rfl)

/-- The octets that an error of the arm `k` for the type octet `t` names. -/
def Kind.blames (t : UInt8) : Kind → List UInt8
  | .Imsi => [1]
  | .Cause => [2]
  | .Recovery => [3]
  | .StnSr => [51]
  | .SrvccCause => [56]
  | .Apn => [71]
  | .ApnAmbr => [72]
  | .Ebi => [73]
  | .IpAddress => [74]
  | .Mei => [75]
  | .Msisdn => [76]
  | .Indication => [77]
  | .Pco => [78]
  | .PdnAddressAllocation => [79]
  | .BearerQos => [80]
  | .FlowQos => [81]
  | .RatType => [82]
  | .ServingNetwork => [83]
  | .BearerTft => [84]
  | .TrafficAggregateDescription => [85]
  | .Uli => [86, 0]
  | .Fteid => [87]
  | .Tmsi => [88]
  | .GlobalCnId => [89]
  | .S103pdf => [90]
  | .S1udf => [91]
  | .DelayValue => [92]
  | .BearerContext => [t]
  | .ChargingId => [94]
  | .ChargingCharacteristics => [95]
  | .TraceInformation => [96]
  | .BearerFlags => [97]
  | .PdnType => [99]
  | .Pti => [100]
  | .MmContext => [t]
  | .PdnConnections => [t]
  | .PduNumbers => [110]
  | .Ptmsi => [111]
  | .PtmsiSignature => [112]
  | .HopCounter => [113]
  | .UeTimeZone => [114]
  | .TraceReference => [83]
  | .CompleteRequestMessage => [116]
  | .Guti => [117]
  | .Fcontainer => [118]
  | .Fcause => [119]
  | .PlmnId => [120]
  | .TargetIdentification => [121]
  | .PacketFlowId => [123]
  | .RabContext => [124]
  | .SrcRncPdcpCtxInfo => [125]
  | .PortNumber => [126]
  | .ApnRestriction => [127]
  | .SelectionMode => [128]
  | .SourceIdentification => [129]
  | .ChangeReportingAction => [131]
  | .Fqcsid => [132]
  | .ChannelNeeded => [133]
  | .EmlppPriority => [134]
  | .NodeType => [135]
  | .Fqdn => [136]
  | .TransactionIdentifier => [137]
  | .MbmsSa => [139]
  | .MbmsSd => [138]
  | .MbmsSessionId => [140]
  | .MbmsFlowId => [141]
  | .MbmsIpMulticastDistribution => [142]
  | .MbmsDistributionAck => [143]
  | .RfspIndex => [144]
  | .Uci => [145]
  | .CSGInformationReportingAction => [146]
  | .CsgId => [147]
  | .CsgMembershipIndication => [148]
  | .ServiceIndicator => [149]
  | .DetachType => [150]
  | .Ldn => [151]
  | .NodeFeatures => [152]
  | .MbmsTimeToDataTransfer => [153]
  | .Throttling => [154]
  | .Arp => [155]
  | .EpcTimer => [156]
  | .Spi => [157]
  | .Tmgi => [158]
  | .AdditionalMmContextForSrvcc => [159]
  | .AdditionalFlagsSrvcc => [160]
  | .MdtConfiguration => [162]
  | .Apco => [163]
  | .AbsoluteTimeMbmsDataTransfer => [164]
  | .HenbInfoReporting => [165]
  | .Ip4Cp => [166]
  | .ChangeToReportFlags => [167]
  | .ActionIndication => [168]
  | .TwanId => [169]
  | .UliTimestamp => [170]
  | .MbmsFlags => [171]
  | .RanNasCause => [172]
  | .CnOperatorSelectionEntity => [173]
  | .Twmi => [174]
  | .NodeNumber => [175]
  | .NodeIdentifier => [176]
  | .PresenceReportingAreaAction => [177]
  | .PresenceReportingAreaInformation => [178]
  | .TwanIdTimeStamp => [179]
  | .OverloadControlInfo => [t, 180]
  | .LoadControlInfo => [t, 181]
  | .Metric => [182]
  | .Sqn => [183]
  | .ApnRelativeCapacity => [184]
  | .WlanOffloadIndication => [185]
  | .PagingServiceInfo => [186]
  | .IntegerNumber => [187]
  | .MilliSecondTimeStamp => [188]
  | .MonitoringEventInformation => [189]
  | .EcgiList => [190]
  | .RemoteUeContext => [t]
  | .RemoteUserId => [192]
  | .RemoteUeIpInformation => [193]
  | .CIoTOptimizationSupportIndication => [194]
  | .ScefPdnConnections => [t]
  | .HeaderCompressionConfiguration => [196]
  | .Epco => [197]
  | .ServingPlmnRateControl => [198]
  | .Counter => [199]
  | .MappedUeUsageType => [200]
  | .SecondaryRatUsageDataReport => [201]
  | .UpFunctionSelectionIndicationFlags => [202]
  | .MaxPacketLossRate => [203]
  | .ApnRateControlStatus => [204]
  | .ExtendedTraceInformation => [205]
  | .MonitoringEventExtensionInfo => [206]
  | .AdditionalRrmPolicyIndex => [207]
  | .V2xInformation => [t]
  | .PC5QosParameters => [t, 209]
  | .ServicesAuthorized => [210]
  | .BitRate => [211]
  | .PC5QosFlow => [212]
  | .SgiPtpTunnelAddress => [213]
  | .PgwChangeInfo => [t]
  | .PgwFqdn => [215]
  | .GroupId => [216]
  | .PSCellId => [217]
  | .UpSecurityPolicy => [218]
  | .AlternativeImsi => [219]
  | .SpecialIEWithTypeExt => [254]
  | .PrivateExtension => [255]
  | .Unknown => [t, 0]

/-- The error names one of the types in `l`. -/
def Err.NamesAny (l : List UInt8) (e : Err) : Prop := ∃ t ∈ l, Err.Names t e

theorem Names.any {t : UInt8} {l : List UInt8} (h : t ∈ l) {e : Err} (he : Err.Names t e) : Err.NamesAny l e := ⟨t, h, he⟩

theorem slBody16_body {m : Mode} {b s : Bytes} {l : UInt16} (h : slBody16 m b l = .ok s) :
    s = (b.take (l.toNat + 4)).drop 4 ∧ l.toNat + 4 ≤ b.length := by
  unfold slBody16 add16 at h
  have h4 : (4 : UInt16).toNat = 4 := rfl
  have hl := l.toNat_lt
  have hs : ∀ x : UInt16, x = l + 4 → (sl b 4 x.toNat : R Err Bytes) = .ok s →
      s = (b.take (l.toNat + 4)).drop 4 ∧ l.toNat + 4 ≤ b.length := by
    intro x hx hs
    have hx2 : x.toNat = (l.toNat + 4) % 65536 := by rw [hx, UInt16.toNat_add, h4]
    unfold sl at hs
    split at hs
    · rename_i hc
      have : x.toNat = l.toNat + 4 := by omega
      injection hs with hs
      rw [this] at hs hc
      exact ⟨hs.symm, hc.2⟩
    · cases hs
  cases m
  · simp only at h
    split at h
    · exact hs _ rfl h
    · cases h
  · exact hs _ rfl h

/-- The octets of the body of an IE, as delimited by its length field. -/
theorem groupUnm_errs {α : Type} {dec : Bytes → R Err (List IE)} {mk : UInt8 → UInt16 → UInt8 → List IE → α} {m : Mode} {b : Bytes}
    {P : Err → Prop} (hd : (declLen b).toNat + 4 ≤ b.length → (dec ((b.take ((declLen b).toNat + 4)).drop 4)).Errs P) :
    (groupUnm dec mk m b).Errs fun e => Err.Names (b.getD 0 0) e ∨ P e := by
  unfold groupUnm
  cases hb : b with
  | nil => trivial
  | cons a r =>
    rw [← hb]
    have h0 : (rd b 0 : R Err UInt8) = .ok (b.getD 0 0) := by rw [hb]; rfl
    simp only [h0, R.ok_bind]
    refine Errs_ite' (fun h4 => ?_) fun _ => .inl (.inl rfl)
    have h1 : (rd16 b 1 : R Err UInt16) = .ok (declLen b) := by
      simp only [rd16, rd_getD (show 1 < b.length by omega), rd_getD (show 1 + 1 < b.length by omega), R.ok_bind, R.pure_eq, declLen]
    rw [h1, R.ok_bind]
    refine Errs_bind Errs_rd fun _ => Errs_bind Errs_checkTliv fun _ => Errs_ite ?_ (.inl (.inl rfl))
    cases hs : slBody16 m b (declLen b) with
    | ok s =>
      obtain ⟨h2, h3⟩ := slBody16_body hs
      rw [R.ok_bind]
      refine Errs_bind ?_ fun _ => Errs_pure
      rw [h2]
      exact Errs.mono (hd h3) fun _ => .inr
    | err e =>
      have := Errs_slBody16 (P := fun _ => False) (m := m) (b := b) (l := declLen b)
      rw [hs] at this
      exact this.elim
    | _ => trivial

theorem listCheck_errs {α β : Type} {t : UInt8} {l : α → Option (List β)} {x : α} : (listCheck t l x).Errs (Err.Names t) := by
  unfold listCheck
  split
  · exact Errs_ite Errs_inc Errs_ok
  · exact Errs_ok

/-- Errors of an arm name one of the arm's types, or come from a member of a grouped IE. -/
theorem unmKind_errs {dec : Bytes → R Err (List IE)} {m : Mode} {b : Bytes} {P : Err → Prop}
    (hd : (declLen b).toNat + 4 ≤ b.length → (dec ((b.take ((declLen b).toNat + 4)).drop 4)).Errs P) (k : Kind) :
    (unmKind dec m b k).Errs fun e => Err.NamesAny (k.blames (b.getD 0 0)) e ∨ P e := by
  have hg : ∀ {α : Type} {mk : UInt8 → UInt16 → UInt8 → List IE → α} {l : List UInt8}, b.getD 0 0 ∈ l →
      (groupUnm dec mk m b).Errs fun e => Err.NamesAny l e ∨ P e :=
    fun hl => Errs.mono (groupUnm_errs hd) fun e he => he.imp (Names.any hl) id
  cases k with
  | Imsi => simp only [unmKind]; exact Errs_bind (Errs.mono (Imsi.errs m b) fun e he => .inl (Names.any (List.mem_singleton.mpr rfl) he)) fun _ => Errs_pure
  | Cause => simp only [unmKind]; exact Errs_bind (Errs.mono (Cause.errs m b) fun e he => .inl (Names.any (List.mem_singleton.mpr rfl) he)) fun _ => Errs_pure
  | Recovery => simp only [unmKind]; exact Errs_bind (Errs.mono (Recovery.errs m b) fun e he => .inl (Names.any (List.mem_singleton.mpr rfl) he)) fun _ => Errs_pure
  | StnSr => simp only [unmKind]; exact Errs_bind (Errs.mono (StnSr.errs m b) fun e he => .inl (Names.any (List.mem_singleton.mpr rfl) he)) fun _ => Errs_pure
  | SrvccCause => simp only [unmKind]; exact Errs_bind (Errs.mono (SrvccCause.errs m b) fun e he => .inl (Names.any (List.mem_singleton.mpr rfl) he)) fun _ => Errs_pure
  | Apn => simp only [unmKind]; exact Errs_bind (Errs.mono (Apn.errs m b) fun e he => .inl (Names.any (List.mem_singleton.mpr rfl) he)) fun _ => Errs_pure
  | ApnAmbr => simp only [unmKind]; exact Errs_bind (Errs.mono (Ambr.errs m b) fun e he => .inl (Names.any (List.mem_singleton.mpr rfl) he)) fun _ => Errs_pure
  | Ebi => simp only [unmKind]; exact Errs_bind (Errs.mono (Ebi.errs m b) fun e he => .inl (Names.any (List.mem_singleton.mpr rfl) he)) fun _ => Errs_pure
  | IpAddress => simp only [unmKind]; exact Errs_bind (Errs.mono (IpAddress.errs m b) fun e he => .inl (Names.any (List.mem_singleton.mpr rfl) he)) fun _ => Errs_pure
  | Mei => simp only [unmKind]; exact Errs_bind (Errs.mono (Mei.errs m b) fun e he => .inl (Names.any (List.mem_singleton.mpr rfl) he)) fun _ => Errs_pure
  | Msisdn => simp only [unmKind]; exact Errs_bind (Errs.mono (Msisdn.errs m b) fun e he => .inl (Names.any (List.mem_singleton.mpr rfl) he)) fun _ => Errs_pure
  | Indication => simp only [unmKind]; exact Errs_bind (Errs.mono (Indication.errs m b) fun e he => .inl (Names.any (List.mem_singleton.mpr rfl) he)) fun _ => Errs_pure
  | Pco => simp only [unmKind]; exact Errs_bind (Errs.mono (Pco.errs m b) fun e he => .inl (Names.any (List.mem_singleton.mpr rfl) he)) fun _ => Errs_pure
  | PdnAddressAllocation => simp only [unmKind]; exact Errs_bind (Errs.mono (PdnAddressAllocation.errs m b) fun e he => .inl (Names.any (List.mem_singleton.mpr rfl) he)) fun _ => Errs_pure
  | BearerQos => simp only [unmKind]; exact Errs_bind (Errs.mono (BearerQos.errs m b) fun e he => .inl (Names.any (List.mem_singleton.mpr rfl) he)) fun _ => Errs_pure
  | FlowQos => simp only [unmKind]; exact Errs_bind (Errs.mono (FlowQos.errs m b) fun e he => .inl (Names.any (List.mem_singleton.mpr rfl) he)) fun _ => Errs_pure
  | RatType => simp only [unmKind]; exact Errs_bind (Errs.mono (RatType.errs m b) fun e he => .inl (Names.any (List.mem_singleton.mpr rfl) he)) fun _ => Errs_pure
  | ServingNetwork => simp only [unmKind]; exact Errs_bind (Errs.mono (ServingNetwork.errs m b) fun e he => .inl (Names.any (List.mem_singleton.mpr rfl) he)) fun _ => Errs_pure
  | BearerTft => simp only [unmKind]; exact Errs_bind (Errs.mono (BearerTft.errs m b) fun e he => .inl (Names.any (List.mem_singleton.mpr rfl) he)) fun _ => Errs_pure
  | TrafficAggregateDescription => simp only [unmKind]; exact Errs_bind (Errs.mono (TrafficAggregateDescription.errs m b) fun e he => .inl (Names.any (List.mem_singleton.mpr rfl) he)) fun _ => Errs_pure
  | Uli =>
    simp only [unmKind]
    refine Errs_bind (Errs.mono (Uli.errs m b) fun e he => .inl ?_) fun _ => Errs_pure
    rcases he with he | he
    · exact Names.any (by simp [Kind.blames]) he
    · exact Names.any (t := 0) (by simp [Kind.blames]) (.inr he)
  | Fteid => simp only [unmKind]; exact Errs_bind (Errs.mono (Fteid.errs m b) fun e he => .inl (Names.any (List.mem_singleton.mpr rfl) he)) fun _ => Errs_pure
  | Tmsi => simp only [unmKind]; exact Errs_bind (Errs.mono (Tmsi.errs m b) fun e he => .inl (Names.any (List.mem_singleton.mpr rfl) he)) fun _ => Errs_pure
  | GlobalCnId => simp only [unmKind]; exact Errs_bind (Errs.mono (GlobalCnId.errs m b) fun e he => .inl (Names.any (List.mem_singleton.mpr rfl) he)) fun _ => Errs_pure
  | S103pdf => simp only [unmKind]; exact Errs_bind (Errs.mono (S103pdf.errs m b) fun e he => .inl (Names.any (List.mem_singleton.mpr rfl) he)) fun _ => Errs_pure
  | S1udf => simp only [unmKind]; exact Errs_bind (Errs.mono (S1udf.errs m b) fun e he => .inl (Names.any (List.mem_singleton.mpr rfl) he)) fun _ => Errs_pure
  | DelayValue => simp only [unmKind]; exact Errs_bind (Errs.mono (DelayValue.errs m b) fun e he => .inl (Names.any (List.mem_singleton.mpr rfl) he)) fun _ => Errs_pure
  | BearerContext => simp only [unmKind]; exact Errs_bind (hg (by simp [Kind.blames])) fun _ => Errs_pure
  | ChargingId => simp only [unmKind]; exact Errs_bind (Errs.mono (ChargingId.errs m b) fun e he => .inl (Names.any (List.mem_singleton.mpr rfl) he)) fun _ => Errs_pure
  | ChargingCharacteristics => simp only [unmKind]; exact Errs_bind (Errs.mono (ChargingCharacteristics.errs m b) fun e he => .inl (Names.any (List.mem_singleton.mpr rfl) he)) fun _ => Errs_pure
  | TraceInformation => simp only [unmKind]; exact Errs_bind (Errs.mono (TraceInformation.errs m b) fun e he => .inl (Names.any (List.mem_singleton.mpr rfl) he)) fun _ => Errs_pure
  | BearerFlags => simp only [unmKind]; exact Errs_bind (Errs.mono (BearerFlags.errs m b) fun e he => .inl (Names.any (List.mem_singleton.mpr rfl) he)) fun _ => Errs_pure
  | PdnType => simp only [unmKind]; exact Errs_bind (Errs.mono (PdnType.errs m b) fun e he => .inl (Names.any (List.mem_singleton.mpr rfl) he)) fun _ => Errs_pure
  | Pti => simp only [unmKind]; exact Errs_bind (Errs.mono (Pti.errs m b) fun e he => .inl (Names.any (List.mem_singleton.mpr rfl) he)) fun _ => Errs_pure
  | MmContext => simp only [unmKind]; exact Errs_bind (Errs.mono (MmContext.errs m b) fun e he => .inl (Names.any (List.mem_singleton.mpr rfl) he)) fun _ => Errs_pure
  | PdnConnections => simp only [unmKind]; exact Errs_bind (hg (by simp [Kind.blames])) fun _ => Errs_pure
  | PduNumbers => simp only [unmKind]; exact Errs_bind (Errs.mono (PduNumbers.errs m b) fun e he => .inl (Names.any (List.mem_singleton.mpr rfl) he)) fun _ => Errs_pure
  | Ptmsi => simp only [unmKind]; exact Errs_bind (Errs.mono (Ptmsi.errs m b) fun e he => .inl (Names.any (List.mem_singleton.mpr rfl) he)) fun _ => Errs_pure
  | PtmsiSignature => simp only [unmKind]; exact Errs_bind (Errs.mono (PtmsiSignature.errs m b) fun e he => .inl (Names.any (List.mem_singleton.mpr rfl) he)) fun _ => Errs_pure
  | HopCounter => simp only [unmKind]; exact Errs_bind (Errs.mono (HopCounter.errs m b) fun e he => .inl (Names.any (List.mem_singleton.mpr rfl) he)) fun _ => Errs_pure
  | UeTimeZone => simp only [unmKind]; exact Errs_bind (Errs.mono (UeTimeZone.errs m b) fun e he => .inl (Names.any (List.mem_singleton.mpr rfl) he)) fun _ => Errs_pure
  | TraceReference => simp only [unmKind]; exact Errs_bind (Errs.mono (TraceReference.errs m b) fun e he => .inl (Names.any (List.mem_singleton.mpr rfl) he)) fun _ => Errs_pure
  | CompleteRequestMessage => simp only [unmKind]; exact Errs_bind (Errs.mono (CompleteRequestMessage.errs m b) fun e he => .inl (Names.any (List.mem_singleton.mpr rfl) he)) fun _ => Errs_pure
  | Guti => simp only [unmKind]; exact Errs_bind (Errs.mono (Guti.errs m b) fun e he => .inl (Names.any (List.mem_singleton.mpr rfl) he)) fun _ => Errs_pure
  | Fcontainer => simp only [unmKind]; exact Errs_bind (Errs.mono (Fcontainer.errs m b) fun e he => .inl (Names.any (List.mem_singleton.mpr rfl) he)) fun _ => Errs_pure
  | Fcause => simp only [unmKind]; exact Errs_bind (Errs.mono (Fcause.errs m b) fun e he => .inl (Names.any (List.mem_singleton.mpr rfl) he)) fun _ => Errs_pure
  | PlmnId => simp only [unmKind]; exact Errs_bind (Errs.mono (PlmnId.errs m b) fun e he => .inl (Names.any (List.mem_singleton.mpr rfl) he)) fun _ => Errs_pure
  | TargetIdentification => simp only [unmKind]; exact Errs_bind (Errs.mono (TargetIdentification.errs m b) fun e he => .inl (Names.any (List.mem_singleton.mpr rfl) he)) fun _ => Errs_pure
  | PacketFlowId => simp only [unmKind]; exact Errs_bind (Errs.mono (PacketFlowId.errs m b) fun e he => .inl (Names.any (List.mem_singleton.mpr rfl) he)) fun _ => Errs_pure
  | RabContext => simp only [unmKind]; exact Errs_bind (Errs.mono (RabContext.errs m b) fun e he => .inl (Names.any (List.mem_singleton.mpr rfl) he)) fun _ => Errs_pure
  | SrcRncPdcpCtxInfo => simp only [unmKind]; exact Errs_bind (Errs.mono (SourceRncPdcpContextInfo.errs m b) fun e he => .inl (Names.any (List.mem_singleton.mpr rfl) he)) fun _ => Errs_pure
  | PortNumber => simp only [unmKind]; exact Errs_bind (Errs.mono (PortNumber.errs m b) fun e he => .inl (Names.any (List.mem_singleton.mpr rfl) he)) fun _ => Errs_pure
  | ApnRestriction => simp only [unmKind]; exact Errs_bind (Errs.mono (ApnRestriction.errs m b) fun e he => .inl (Names.any (List.mem_singleton.mpr rfl) he)) fun _ => Errs_pure
  | SelectionMode => simp only [unmKind]; exact Errs_bind (Errs.mono (SelectionMode.errs m b) fun e he => .inl (Names.any (List.mem_singleton.mpr rfl) he)) fun _ => Errs_pure
  | SourceIdentification => simp only [unmKind]; exact Errs_bind (Errs.mono (SourceIdentification.errs m b) fun e he => .inl (Names.any (List.mem_singleton.mpr rfl) he)) fun _ => Errs_pure
  | ChangeReportingAction => simp only [unmKind]; exact Errs_bind (Errs.mono (ChangeReportingAction.errs m b) fun e he => .inl (Names.any (List.mem_singleton.mpr rfl) he)) fun _ => Errs_pure
  | Fqcsid => simp only [unmKind]; exact Errs_bind (Errs.mono (Fqcsid.errs m b) fun e he => .inl (Names.any (List.mem_singleton.mpr rfl) he)) fun _ => Errs_pure
  | ChannelNeeded => simp only [unmKind]; exact Errs_bind (Errs.mono (ChannelNeeded.errs m b) fun e he => .inl (Names.any (List.mem_singleton.mpr rfl) he)) fun _ => Errs_pure
  | EmlppPriority => simp only [unmKind]; exact Errs_bind (Errs.mono (EmlppPriority.errs m b) fun e he => .inl (Names.any (List.mem_singleton.mpr rfl) he)) fun _ => Errs_pure
  | NodeType => simp only [unmKind]; exact Errs_bind (Errs.mono (NodeType.errs m b) fun e he => .inl (Names.any (List.mem_singleton.mpr rfl) he)) fun _ => Errs_pure
  | Fqdn => simp only [unmKind]; exact Errs_bind (Errs.mono (Fqdn.errs m b) fun e he => .inl (Names.any (List.mem_singleton.mpr rfl) he)) fun _ => Errs_pure
  | TransactionIdentifier => simp only [unmKind]; exact Errs_bind (Errs.mono (TransactionIdentifier.errs m b) fun e he => .inl (Names.any (List.mem_singleton.mpr rfl) he)) fun _ => Errs_pure
  | MbmsSa => simp only [unmKind]; exact Errs_bind (Errs.mono (MbmsServiceArea.errs m b) fun e he => .inl (Names.any (List.mem_singleton.mpr rfl) he)) fun _ => Errs_pure
  | MbmsSd => simp only [unmKind]; exact Errs_bind (Errs.mono (MbmsSessionDuration.errs m b) fun e he => .inl (Names.any (List.mem_singleton.mpr rfl) he)) fun _ => Errs_pure
  | MbmsSessionId => simp only [unmKind]; exact Errs_bind (Errs.mono (MbmsSessionId.errs m b) fun e he => .inl (Names.any (List.mem_singleton.mpr rfl) he)) fun _ => Errs_pure
  | MbmsFlowId => simp only [unmKind]; exact Errs_bind (Errs.mono (MbmsFlowId.errs m b) fun e he => .inl (Names.any (List.mem_singleton.mpr rfl) he)) fun _ => Errs_pure
  | MbmsIpMulticastDistribution => simp only [unmKind]; exact Errs_bind (Errs.mono (MbmsIpMulticastDistribution.errs m b) fun e he => .inl (Names.any (List.mem_singleton.mpr rfl) he)) fun _ => Errs_pure
  | MbmsDistributionAck => simp only [unmKind]; exact Errs_bind (Errs.mono (MbmsDistributionAck.errs m b) fun e he => .inl (Names.any (List.mem_singleton.mpr rfl) he)) fun _ => Errs_pure
  | RfspIndex => simp only [unmKind]; exact Errs_bind (Errs.mono (RfspIndex.errs m b) fun e he => .inl (Names.any (List.mem_singleton.mpr rfl) he)) fun _ => Errs_pure
  | Uci => simp only [unmKind]; exact Errs_bind (Errs.mono (Uci.errs m b) fun e he => .inl (Names.any (List.mem_singleton.mpr rfl) he)) fun _ => Errs_pure
  | CSGInformationReportingAction => simp only [unmKind]; exact Errs_bind (Errs.mono (CSGInformationReportingAction.errs m b) fun e he => .inl (Names.any (List.mem_singleton.mpr rfl) he)) fun _ => Errs_pure
  | CsgId => simp only [unmKind]; exact Errs_bind (Errs.mono (CsgId.errs m b) fun e he => .inl (Names.any (List.mem_singleton.mpr rfl) he)) fun _ => Errs_pure
  | CsgMembershipIndication => simp only [unmKind]; exact Errs_bind (Errs.mono (CsgMembershipIndication.errs m b) fun e he => .inl (Names.any (List.mem_singleton.mpr rfl) he)) fun _ => Errs_pure
  | ServiceIndicator => simp only [unmKind]; exact Errs_bind (Errs.mono (ServiceIndicator.errs m b) fun e he => .inl (Names.any (List.mem_singleton.mpr rfl) he)) fun _ => Errs_pure
  | DetachType => simp only [unmKind]; exact Errs_bind (Errs.mono (DetachType.errs m b) fun e he => .inl (Names.any (List.mem_singleton.mpr rfl) he)) fun _ => Errs_pure
  | Ldn => simp only [unmKind]; exact Errs_bind (Errs.mono (Ldn.errs m b) fun e he => .inl (Names.any (List.mem_singleton.mpr rfl) he)) fun _ => Errs_pure
  | NodeFeatures => simp only [unmKind]; exact Errs_bind (Errs.mono (NodeFeatures.errs m b) fun e he => .inl (Names.any (List.mem_singleton.mpr rfl) he)) fun _ => Errs_pure
  | MbmsTimeToDataTransfer => simp only [unmKind]; exact Errs_bind (Errs.mono (MbmsTimeToDataTransfer.errs m b) fun e he => .inl (Names.any (List.mem_singleton.mpr rfl) he)) fun _ => Errs_pure
  | Throttling => simp only [unmKind]; exact Errs_bind (Errs.mono (Throttling.errs m b) fun e he => .inl (Names.any (List.mem_singleton.mpr rfl) he)) fun _ => Errs_pure
  | Arp => simp only [unmKind]; exact Errs_bind (Errs.mono (Arp.errs m b) fun e he => .inl (Names.any (List.mem_singleton.mpr rfl) he)) fun _ => Errs_pure
  | EpcTimer => simp only [unmKind]; exact Errs_bind (Errs.mono (EpcTimer.errs m b) fun e he => .inl (Names.any (List.mem_singleton.mpr rfl) he)) fun _ => Errs_pure
  | Spi => simp only [unmKind]; exact Errs_bind (Errs.mono (Spi.errs m b) fun e he => .inl (Names.any (List.mem_singleton.mpr rfl) he)) fun _ => Errs_pure
  | Tmgi => simp only [unmKind]; exact Errs_bind (Errs.mono (Tmgi.errs m b) fun e he => .inl (Names.any (List.mem_singleton.mpr rfl) he)) fun _ => Errs_pure
  | AdditionalMmContextForSrvcc => simp only [unmKind]; exact Errs_bind (Errs.mono (AdditionalMmContextForSrvcc.errs m b) fun e he => .inl (Names.any (List.mem_singleton.mpr rfl) he)) fun _ => Errs_pure
  | AdditionalFlagsSrvcc => simp only [unmKind]; exact Errs_bind (Errs.mono (AdditionalFlagsSrvcc.errs m b) fun e he => .inl (Names.any (List.mem_singleton.mpr rfl) he)) fun _ => Errs_pure
  | MdtConfiguration => simp only [unmKind]; exact Errs_bind (Errs.mono (MdtConfiguration.errs m b) fun e he => .inl (Names.any (List.mem_singleton.mpr rfl) he)) fun _ => Errs_pure
  | Apco => simp only [unmKind]; exact Errs_bind (Errs.mono (Apco.errs m b) fun e he => .inl (Names.any (List.mem_singleton.mpr rfl) he)) fun _ => Errs_pure
  | AbsoluteTimeMbmsDataTransfer => simp only [unmKind]; exact Errs_bind (Errs.mono (AbsoluteTimeMbmsDataTransfer.errs m b) fun e he => .inl (Names.any (List.mem_singleton.mpr rfl) he)) fun _ => Errs_pure
  | HenbInfoReporting => simp only [unmKind]; exact Errs_bind (Errs.mono (HenbInfoReporting.errs m b) fun e he => .inl (Names.any (List.mem_singleton.mpr rfl) he)) fun _ => Errs_pure
  | Ip4Cp => simp only [unmKind]; exact Errs_bind (Errs.mono (Ip4Cp.errs m b) fun e he => .inl (Names.any (List.mem_singleton.mpr rfl) he)) fun _ => Errs_pure
  | ChangeToReportFlags => simp only [unmKind]; exact Errs_bind (Errs.mono (ChangeToReportFlags.errs m b) fun e he => .inl (Names.any (List.mem_singleton.mpr rfl) he)) fun _ => Errs_pure
  | ActionIndication => simp only [unmKind]; exact Errs_bind (Errs.mono (ActionIndication.errs m b) fun e he => .inl (Names.any (List.mem_singleton.mpr rfl) he)) fun _ => Errs_pure
  | TwanId => simp only [unmKind]; exact Errs_bind (Errs.mono (TwanId.errs m b) fun e he => .inl (Names.any (List.mem_singleton.mpr rfl) he)) fun _ => Errs_pure
  | UliTimestamp => simp only [unmKind]; exact Errs_bind (Errs.mono (UliTimestamp.errs m b) fun e he => .inl (Names.any (List.mem_singleton.mpr rfl) he)) fun _ => Errs_pure
  | MbmsFlags => simp only [unmKind]; exact Errs_bind (Errs.mono (MbmsFlags.errs m b) fun e he => .inl (Names.any (List.mem_singleton.mpr rfl) he)) fun _ => Errs_pure
  | RanNasCause => simp only [unmKind]; exact Errs_bind (Errs.mono (RanNasCause.errs m b) fun e he => .inl (Names.any (List.mem_singleton.mpr rfl) he)) fun _ => Errs_pure
  | CnOperatorSelectionEntity => simp only [unmKind]; exact Errs_bind (Errs.mono (CnOperatorSelectionEntity.errs m b) fun e he => .inl (Names.any (List.mem_singleton.mpr rfl) he)) fun _ => Errs_pure
  | Twmi => simp only [unmKind]; exact Errs_bind (Errs.mono (Twmi.errs m b) fun e he => .inl (Names.any (List.mem_singleton.mpr rfl) he)) fun _ => Errs_pure
  | NodeNumber => simp only [unmKind]; exact Errs_bind (Errs.mono (NodeNumber.errs m b) fun e he => .inl (Names.any (List.mem_singleton.mpr rfl) he)) fun _ => Errs_pure
  | NodeIdentifier => simp only [unmKind]; exact Errs_bind (Errs.mono (NodeIdentifier.errs m b) fun e he => .inl (Names.any (List.mem_singleton.mpr rfl) he)) fun _ => Errs_pure
  | PresenceReportingAreaAction => simp only [unmKind]; exact Errs_bind (Errs.mono (PresenceReportingAreaAction.errs m b) fun e he => .inl (Names.any (List.mem_singleton.mpr rfl) he)) fun _ => Errs_pure
  | PresenceReportingAreaInformation => simp only [unmKind]; exact Errs_bind (Errs.mono (PresenceReportingAreaInformation.errs m b) fun e he => .inl (Names.any (List.mem_singleton.mpr rfl) he)) fun _ => Errs_pure
  | TwanIdTimeStamp => simp only [unmKind]; exact Errs_bind (Errs.mono (TwanIdTimeStamp.errs m b) fun e he => .inl (Names.any (List.mem_singleton.mpr rfl) he)) fun _ => Errs_pure
  | OverloadControlInfo =>
    simp only [unmKind]
    exact Errs_bind (hg (by simp [Kind.blames])) fun _ => Errs_bind (Errs.mono listCheck_errs fun e he => .inl (Names.any (by simp [Kind.blames]) he)) fun _ => Errs_pure
  | LoadControlInfo =>
    simp only [unmKind]
    exact Errs_bind (hg (by simp [Kind.blames])) fun _ => Errs_bind (Errs.mono listCheck_errs fun e he => .inl (Names.any (by simp [Kind.blames]) he)) fun _ => Errs_pure
  | Metric => simp only [unmKind]; exact Errs_bind (Errs.mono (Metric.errs m b) fun e he => .inl (Names.any (List.mem_singleton.mpr rfl) he)) fun _ => Errs_pure
  | Sqn => simp only [unmKind]; exact Errs_bind (Errs.mono (Sqn.errs m b) fun e he => .inl (Names.any (List.mem_singleton.mpr rfl) he)) fun _ => Errs_pure
  | ApnRelativeCapacity => simp only [unmKind]; exact Errs_bind (Errs.mono (ApnRelativeCapacity.errs m b) fun e he => .inl (Names.any (List.mem_singleton.mpr rfl) he)) fun _ => Errs_pure
  | WlanOffloadIndication => simp only [unmKind]; exact Errs_bind (Errs.mono (WlanOffloadIndication.errs m b) fun e he => .inl (Names.any (List.mem_singleton.mpr rfl) he)) fun _ => Errs_pure
  | PagingServiceInfo => simp only [unmKind]; exact Errs_bind (Errs.mono (PagingServiceInfo.errs m b) fun e he => .inl (Names.any (List.mem_singleton.mpr rfl) he)) fun _ => Errs_pure
  | IntegerNumber => simp only [unmKind]; exact Errs_bind (Errs.mono (IntegerNumber.errs m b) fun e he => .inl (Names.any (List.mem_singleton.mpr rfl) he)) fun _ => Errs_pure
  | MilliSecondTimeStamp => simp only [unmKind]; exact Errs_bind (Errs.mono (MilliSecondTimeStamp.errs m b) fun e he => .inl (Names.any (List.mem_singleton.mpr rfl) he)) fun _ => Errs_pure
  | MonitoringEventInformation => simp only [unmKind]; exact Errs_bind (Errs.mono (MonitoringEventInformation.errs m b) fun e he => .inl (Names.any (List.mem_singleton.mpr rfl) he)) fun _ => Errs_pure
  | EcgiList => simp only [unmKind]; exact Errs_bind (Errs.mono (EcgiList.errs m b) fun e he => .inl (Names.any (List.mem_singleton.mpr rfl) he)) fun _ => Errs_pure
  | RemoteUeContext => simp only [unmKind]; exact Errs_bind (hg (by simp [Kind.blames])) fun _ => Errs_pure
  | RemoteUserId => simp only [unmKind]; exact Errs_bind (Errs.mono (RemoteUserId.errs m b) fun e he => .inl (Names.any (List.mem_singleton.mpr rfl) he)) fun _ => Errs_pure
  | RemoteUeIpInformation => simp only [unmKind]; exact Errs_bind (Errs.mono (RemoteUeIpInformation.errs m b) fun e he => .inl (Names.any (List.mem_singleton.mpr rfl) he)) fun _ => Errs_pure
  | CIoTOptimizationSupportIndication => simp only [unmKind]; exact Errs_bind (Errs.mono (CIoTOptimizationSupportIndication.errs m b) fun e he => .inl (Names.any (List.mem_singleton.mpr rfl) he)) fun _ => Errs_pure
  | ScefPdnConnections => simp only [unmKind]; exact Errs_bind (hg (by simp [Kind.blames])) fun _ => Errs_pure
  | HeaderCompressionConfiguration => simp only [unmKind]; exact Errs_bind (Errs.mono (HeaderCompressionConfiguration.errs m b) fun e he => .inl (Names.any (List.mem_singleton.mpr rfl) he)) fun _ => Errs_pure
  | Epco => simp only [unmKind]; exact Errs_bind (Errs.mono (Epco.errs m b) fun e he => .inl (Names.any (List.mem_singleton.mpr rfl) he)) fun _ => Errs_pure
  | ServingPlmnRateControl => simp only [unmKind]; exact Errs_bind (Errs.mono (ServingPlmnRateControl.errs m b) fun e he => .inl (Names.any (List.mem_singleton.mpr rfl) he)) fun _ => Errs_pure
  | Counter => simp only [unmKind]; exact Errs_bind (Errs.mono (Counter.errs m b) fun e he => .inl (Names.any (List.mem_singleton.mpr rfl) he)) fun _ => Errs_pure
  | MappedUeUsageType => simp only [unmKind]; exact Errs_bind (Errs.mono (MappedUeUsageType.errs m b) fun e he => .inl (Names.any (List.mem_singleton.mpr rfl) he)) fun _ => Errs_pure
  | SecondaryRatUsageDataReport => simp only [unmKind]; exact Errs_bind (Errs.mono (SecondaryRatUsageDataReport.errs m b) fun e he => .inl (Names.any (List.mem_singleton.mpr rfl) he)) fun _ => Errs_pure
  | UpFunctionSelectionIndicationFlags => simp only [unmKind]; exact Errs_bind (Errs.mono (UpFunctionSelectionIndicationFlags.errs m b) fun e he => .inl (Names.any (List.mem_singleton.mpr rfl) he)) fun _ => Errs_pure
  | MaxPacketLossRate => simp only [unmKind]; exact Errs_bind (Errs.mono (MaxPacketLossRate.errs m b) fun e he => .inl (Names.any (List.mem_singleton.mpr rfl) he)) fun _ => Errs_pure
  | ApnRateControlStatus => simp only [unmKind]; exact Errs_bind (Errs.mono (ApnRateControlStatus.errs m b) fun e he => .inl (Names.any (List.mem_singleton.mpr rfl) he)) fun _ => Errs_pure
  | ExtendedTraceInformation => simp only [unmKind]; exact Errs_bind (Errs.mono (ExtendedTraceInformation.errs m b) fun e he => .inl (Names.any (List.mem_singleton.mpr rfl) he)) fun _ => Errs_pure
  | MonitoringEventExtensionInfo => simp only [unmKind]; exact Errs_bind (Errs.mono (MonitoringEventExtensionInfo.errs m b) fun e he => .inl (Names.any (List.mem_singleton.mpr rfl) he)) fun _ => Errs_pure
  | AdditionalRrmPolicyIndex => simp only [unmKind]; exact Errs_bind (Errs.mono (AdditionalRrmPolicyIndex.errs m b) fun e he => .inl (Names.any (List.mem_singleton.mpr rfl) he)) fun _ => Errs_pure
  | V2xInformation => simp only [unmKind]; exact Errs_bind (hg (by simp [Kind.blames])) fun _ => Errs_pure
  | PC5QosParameters =>
    simp only [unmKind]
    exact Errs_bind (hg (by simp [Kind.blames])) fun _ => Errs_ite (.inl (Names.any (t := 209) (by simp [Kind.blames]) (.inr rfl))) Errs_pure
  | ServicesAuthorized => simp only [unmKind]; exact Errs_bind (Errs.mono (ServicesAuthorized.errs m b) fun e he => .inl (Names.any (List.mem_singleton.mpr rfl) he)) fun _ => Errs_pure
  | BitRate => simp only [unmKind]; exact Errs_bind (Errs.mono (BitRate.errs m b) fun e he => .inl (Names.any (List.mem_singleton.mpr rfl) he)) fun _ => Errs_pure
  | PC5QosFlow => simp only [unmKind]; exact Errs_bind (Errs.mono (PC5QosFlow.errs m b) fun e he => .inl (Names.any (List.mem_singleton.mpr rfl) he)) fun _ => Errs_pure
  | SgiPtpTunnelAddress => simp only [unmKind]; exact Errs_bind (Errs.mono (SgiPtpTunnelAddress.errs m b) fun e he => .inl (Names.any (List.mem_singleton.mpr rfl) he)) fun _ => Errs_pure
  | PgwChangeInfo => simp only [unmKind]; exact Errs_bind (hg (by simp [Kind.blames])) fun _ => Errs_pure
  | PgwFqdn => simp only [unmKind]; exact Errs_bind (Errs.mono (PgwFqdn.errs m b) fun e he => .inl (Names.any (List.mem_singleton.mpr rfl) he)) fun _ => Errs_pure
  | GroupId => simp only [unmKind]; exact Errs_bind (Errs.mono (GroupId.errs m b) fun e he => .inl (Names.any (List.mem_singleton.mpr rfl) he)) fun _ => Errs_pure
  | PSCellId => simp only [unmKind]; exact Errs_bind (Errs.mono (PSCellId.errs m b) fun e he => .inl (Names.any (List.mem_singleton.mpr rfl) he)) fun _ => Errs_pure
  | UpSecurityPolicy => simp only [unmKind]; exact Errs_bind (Errs.mono (UpSecurityPolicy.errs m b) fun e he => .inl (Names.any (List.mem_singleton.mpr rfl) he)) fun _ => Errs_pure
  | AlternativeImsi => simp only [unmKind]; exact Errs_bind (Errs.mono (AlternativeImsi.errs m b) fun e he => .inl (Names.any (List.mem_singleton.mpr rfl) he)) fun _ => Errs_pure
  | SpecialIEWithTypeExt => simp only [unmKind]; exact Errs_bind (Errs.mono (SpecialIEWithTypeExt.errs m b) fun e he => .inl (Names.any (List.mem_singleton.mpr rfl) he)) fun _ => Errs_pure
  | PrivateExtension => simp only [unmKind]; exact Errs_bind (Errs.mono (PrivateExtension.errs m b) fun e he => .inl (Names.any (List.mem_singleton.mpr rfl) he)) fun _ => Errs_pure
  | Unknown =>
    simp only [unmKind]
    refine Errs_bind (Errs.mono (Unknown.errs m b) fun e he => .inl ?_) fun _ => Errs_pure
    rcases he with he | he
    · exact Names.any (by simp [Kind.blames]) he
    · exact Names.any (t := 0) (by simp [Kind.blames]) (.inl he)

/-- `len` returns no error. -/
theorem IE.len_errs {m : Mode} {P : Err → Prop} (x : IE) : (x.len m).Errs P := by
  cases x <;> simp only [IE.len] <;> first
    | exact Errs_ok
    | exact Errs_bind Errs_add16 fun _ => Errs_pure
    | (unfold EcgiList.len; split <;> exact Errs_ok)
    | (unfold MmContext.len; split <;> first | exact Errs_ok | exact Errs_bind Errs_add16 fun _ => Errs_pure)

/-- The type octets whose errors name another IE type: 86 (ULI), 115 (Trace Reference), 169 (TWAN Identifier), and the types
without an arm of their own. -/
def Misnamed (t : UInt8) : Bool := t = 86 || t = 115 || t = 169 || kindOf t = .Unknown

theorem Kind.blames_table : ∀ p ∈ kindTable, p.1 = 86 ∨ p.1 = 115 ∨ p.1 = 169 ∨ ∀ n ∈ p.2.blames p.1, n = p.1 := by
  have h : (kindTable.all fun p => p.1 == 86 || p.1 == 115 || p.1 == 169 || (p.2.blames p.1).all (· == p.1)) = true := by
    decide +kernel
  intro p hp
  have := List.all_eq_true.mp h p hp
  simpa [or_assoc] using this

theorem mem_of_lookup {α : Type} {t : UInt8} {k : α} : ∀ {l : List (UInt8 × α)}, l.lookup t = some k → (t, k) ∈ l
  | [], h => by cases h
  | (a, b) :: l, h => by
    rw [List.lookup_cons] at h
    split at h
    · rename_i ht
      injection h with h
      rw [eq_of_beq ht, h]
      exact List.mem_cons_self ..
    · exact List.mem_cons_of_mem _ (mem_of_lookup h)

theorem Kind.blames_own (t : UInt8) (h : Misnamed t = false) : ∀ n ∈ (kindOf t).blames t, n = t := by
  simp only [Misnamed, Bool.or_eq_false_iff, decide_eq_false_iff_not] at h
  obtain ⟨⟨⟨h1, h2⟩, h3⟩, h4⟩ := h
  unfold kindOf at h4 ⊢
  cases hl : kindTable.lookup t with
  | none => rw [hl] at h4; exact absurd rfl h4
  | some k =>
    rcases Kind.blames_table _ (mem_of_lookup hl) with h | h | h | h
    · exact absurd h h1
    · exact absurd h h2
    · exact absurd h h3
    · exact h

theorem decoder_errs_aux {m : Mode} : ∀ (k : Nat) (b : Bytes), b.length < k →
    (decoder m b).Errs fun e => ∃ s, Visits m b s ∧ decodeOne (decoder m) m s = .err e ∧
      Err.NamesAny ((kindOf (s.getD 0 0)).blames (s.getD 0 0)) e
  | k + 1, b, hk => by
    rw [decoder_eq]
    refine Errs_ite' (fun _ => trivial) fun hb => ?_
    have h0 : 0 < b.length := List.length_pos_iff.mpr hb
    have h1 := unmKind_errs (dec := decoder m) (m := m) (b := b) (k := kindOf (b.getD 0 0)) (P := fun e => ∃ s, Visits m b s ∧
        decodeOne (decoder m) m s = .err e ∧ Err.NamesAny ((kindOf (s.getD 0 0)).blames (s.getD 0 0)) e) fun hl =>
      Errs.mono (decoder_errs_aux k _ (by simp; omega)) fun e he => by
        obtain ⟨s, hs, h⟩ := he
        exact ⟨s, .inside b s hl hs, h⟩
    cases hp : decodeOne (decoder m) m b with
    | ok p =>
      obtain ⟨x, n⟩ := p
      rw [R.ok_bind]
      refine Errs_ite' (fun _ => trivial) fun hn => Errs_bind (Errs.mono (decoder_errs_aux k _ (by simp; omega)) fun e he => ?_)
        fun _ => Errs_pure
      obtain ⟨s, hs, h⟩ := he
      exact ⟨s, .next b s x n hp hs, h⟩
    | err e =>
      have h2 := hp
      unfold decodeOne at h2
      rw [rd_getD h0, R.ok_bind] at h2
      cases hu : unmKind (decoder m) m b (kindOf (b.getD 0 0)) with
      | ok x =>
        rw [hu, R.ok_bind] at h2
        have h3 := IE.len_errs (m := m) (P := fun _ => False) x
        cases hl : x.len m with
        | err e' => rw [hl] at h3; exact h3.elim
        | _ => rw [hl] at h2; cases h2
      | err e' =>
        rw [hu] at h1 h2
        injection h2 with h2
        subst h2
        rcases h1 with h1 | h1
        · exact ⟨b, .here b hb, hp, h1⟩
        · exact h1
      | _ => rw [hu] at h2; cases h2
    | _ => trivial

/-- An error of the decoder is the error of one of the IEs it comes across. -/
theorem decoder_errs {m : Mode} {b : Bytes} {e : Err} (h : decoder m b = .err e) :
    ∃ s, Visits m b s ∧ decodeOne (decoder m) m s = .err e ∧ Err.NamesAny ((kindOf (s.getD 0 0)).blames (s.getD 0 0)) e := by
  have := decoder_errs_aux (m := m) (b.length + 1) b (by omega)
  rw [h] at this
  exact this

end Gtp.V2
