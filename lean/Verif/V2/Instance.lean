import Verif.V2.ParBase

/-!
# The instance octet of a GTPv2-C information element

What each decoder makes of the fourth octet of an IE. Expanded by `scripts/gen_instance.py`.
-/

namespace Gtp.V2
set_option linter.unusedSimpArgs false
set_option linter.unusedVariables false

/-- `self.ins = n`. -/
def MmContext.setIns (n : UInt8) : MmContext → MmContext
  | .MmContextEpsSecurityContextQuadruplets x => .MmContextEpsSecurityContextQuadruplets { x with ins := n }
  | .MmContextUmtsKeyQuintuplets x => .MmContextUmtsKeyQuintuplets { x with ins := n }
  | .MmContextUmtsKeyQuadrupletsQuintuplets x => .MmContextUmtsKeyQuadrupletsQuintuplets { x with ins := n }
  | .MmContextUmtsKeyCipherQuintuplets x => .MmContextUmtsKeyCipherQuintuplets { x with ins := n }
  | .MmContextGsmKeyTriplets x => .MmContextGsmKeyTriplets { x with ins := n }
  | .MmContextGsmKeyCipherQuintuplets x => .MmContextGsmKeyCipherQuintuplets { x with ins := n }

/-- `self.ins = n`. -/
def IE.setIns (n : UInt8) : IE → IE
  | .Imsi x => .Imsi { x with ins := n }
  | .Cause x => .Cause { x with ins := n }
  | .Recovery x => .Recovery { x with ins := n }
  | .StnSr x => .StnSr { x with ins := n }
  | .SrvccCause x => .SrvccCause { x with ins := n }
  | .Apn x => .Apn { x with ins := n }
  | .ApnAmbr x => .ApnAmbr { x with ins := n }
  | .Ebi x => .Ebi { x with ins := n }
  | .IpAddress x => .IpAddress { x with ins := n }
  | .Mei x => .Mei { x with ins := n }
  | .Msisdn x => .Msisdn { x with ins := n }
  | .Indication x => .Indication { x with ins := n }
  | .Pco x => .Pco { x with ins := n }
  | .PdnAddressAllocation x => .PdnAddressAllocation { x with ins := n }
  | .BearerQos x => .BearerQos { x with ins := n }
  | .FlowQos x => .FlowQos { x with ins := n }
  | .RatType x => .RatType { x with ins := n }
  | .ServingNetwork x => .ServingNetwork { x with ins := n }
  | .BearerTft x => .BearerTft { x with ins := n }
  | .TrafficAggregateDescription x => .TrafficAggregateDescription { x with ins := n }
  | .Uli x => .Uli { x with ins := n }
  | .Fteid x => .Fteid { x with ins := n }
  | .Tmsi x => .Tmsi { x with ins := n }
  | .GlobalCnId x => .GlobalCnId { x with ins := n }
  | .S103pdf x => .S103pdf { x with ins := n }
  | .S1udf x => .S1udf { x with ins := n }
  | .DelayValue x => .DelayValue { x with ins := n }
  | .BearerContext x => .BearerContext { x with ins := n }
  | .ChargingId x => .ChargingId { x with ins := n }
  | .ChargingCharacteristics x => .ChargingCharacteristics { x with ins := n }
  | .TraceInformation x => .TraceInformation { x with ins := n }
  | .BearerFlags x => .BearerFlags { x with ins := n }
  | .PdnType x => .PdnType { x with ins := n }
  | .Pti x => .Pti { x with ins := n }
  | .MmContext x => .MmContext (x.setIns n)
  | .PdnConnections x => .PdnConnections { x with ins := n }
  | .PduNumbers x => .PduNumbers { x with ins := n }
  | .Ptmsi x => .Ptmsi { x with ins := n }
  | .PtmsiSignature x => .PtmsiSignature { x with ins := n }
  | .HopCounter x => .HopCounter { x with ins := n }
  | .UeTimeZone x => .UeTimeZone { x with ins := n }
  | .TraceReference x => .TraceReference { x with ins := n }
  | .CompleteRequestMessage x => .CompleteRequestMessage { x with ins := n }
  | .Guti x => .Guti { x with ins := n }
  | .Fcontainer x => .Fcontainer { x with ins := n }
  | .Fcause x => .Fcause { x with ins := n }
  | .PlmnId x => .PlmnId { x with ins := n }
  | .TargetIdentification x => .TargetIdentification { x with ins := n }
  | .PacketFlowId x => .PacketFlowId { x with ins := n }
  | .RabContext x => .RabContext { x with ins := n }
  | .SrcRncPdcpCtxInfo x => .SrcRncPdcpCtxInfo { x with ins := n }
  | .PortNumber x => .PortNumber { x with ins := n }
  | .ApnRestriction x => .ApnRestriction { x with ins := n }
  | .SelectionMode x => .SelectionMode { x with ins := n }
  | .SourceIdentification x => .SourceIdentification { x with ins := n }
  | .ChangeReportingAction x => .ChangeReportingAction { x with ins := n }
  | .Fqcsid x => .Fqcsid { x with ins := n }
  | .ChannelNeeded x => .ChannelNeeded { x with ins := n }
  | .EmlppPriority x => .EmlppPriority { x with ins := n }
  | .NodeType x => .NodeType { x with ins := n }
  | .Fqdn x => .Fqdn { x with ins := n }
  | .TransactionIdentifier x => .TransactionIdentifier { x with ins := n }
  | .MbmsSa x => .MbmsSa { x with ins := n }
  | .MbmsSd x => .MbmsSd { x with ins := n }
  | .MbmsSessionId x => .MbmsSessionId { x with ins := n }
  | .MbmsFlowId x => .MbmsFlowId { x with ins := n }
  | .MbmsIpMulticastDistribution x => .MbmsIpMulticastDistribution { x with ins := n }
  | .MbmsDistributionAck x => .MbmsDistributionAck { x with ins := n }
  | .RfspIndex x => .RfspIndex { x with ins := n }
  | .Uci x => .Uci { x with ins := n }
  | .CSGInformationReportingAction x => .CSGInformationReportingAction { x with ins := n }
  | .CsgId x => .CsgId { x with ins := n }
  | .CsgMembershipIndication x => .CsgMembershipIndication { x with ins := n }
  | .ServiceIndicator x => .ServiceIndicator { x with ins := n }
  | .DetachType x => .DetachType { x with ins := n }
  | .Ldn x => .Ldn { x with ins := n }
  | .NodeFeatures x => .NodeFeatures { x with ins := n }
  | .MbmsTimeToDataTransfer x => .MbmsTimeToDataTransfer { x with ins := n }
  | .Throttling x => .Throttling { x with ins := n }
  | .Arp x => .Arp { x with ins := n }
  | .EpcTimer x => .EpcTimer { x with ins := n }
  | .Spi x => .Spi { x with ins := n }
  | .Tmgi x => .Tmgi { x with ins := n }
  | .AdditionalMmContextForSrvcc x => .AdditionalMmContextForSrvcc { x with ins := n }
  | .AdditionalFlagsSrvcc x => .AdditionalFlagsSrvcc { x with ins := n }
  | .MdtConfiguration x => .MdtConfiguration { x with ins := n }
  | .Apco x => .Apco { x with ins := n }
  | .AbsoluteTimeMbmsDataTransfer x => .AbsoluteTimeMbmsDataTransfer { x with ins := n }
  | .HenbInfoReporting x => .HenbInfoReporting { x with ins := n }
  | .Ip4Cp x => .Ip4Cp { x with ins := n }
  | .ChangeToReportFlags x => .ChangeToReportFlags { x with ins := n }
  | .ActionIndication x => .ActionIndication { x with ins := n }
  | .TwanId x => .TwanId { x with ins := n }
  | .UliTimestamp x => .UliTimestamp { x with ins := n }
  | .MbmsFlags x => .MbmsFlags { x with ins := n }
  | .RanNasCause x => .RanNasCause { x with ins := n }
  | .CnOperatorSelectionEntity x => .CnOperatorSelectionEntity { x with ins := n }
  | .Twmi x => .Twmi { x with ins := n }
  | .NodeNumber x => .NodeNumber { x with ins := n }
  | .NodeIdentifier x => .NodeIdentifier { x with ins := n }
  | .PresenceReportingAreaAction x => .PresenceReportingAreaAction { x with ins := n }
  | .PresenceReportingAreaInformation x => .PresenceReportingAreaInformation { x with ins := n }
  | .TwanIdTimeStamp x => .TwanIdTimeStamp { x with ins := n }
  | .OverloadControlInfo x => .OverloadControlInfo { x with ins := n }
  | .LoadControlInfo x => .LoadControlInfo { x with ins := n }
  | .Metric x => .Metric { x with ins := n }
  | .Sqn x => .Sqn { x with ins := n }
  | .ApnRelativeCapacity x => .ApnRelativeCapacity { x with ins := n }
  | .WlanOffloadIndication x => .WlanOffloadIndication { x with ins := n }
  | .PagingServiceInfo x => .PagingServiceInfo { x with ins := n }
  | .IntegerNumber x => .IntegerNumber { x with ins := n }
  | .MilliSecondTimeStamp x => .MilliSecondTimeStamp { x with ins := n }
  | .MonitoringEventInformation x => .MonitoringEventInformation { x with ins := n }
  | .EcgiList x => .EcgiList { x with ins := n }
  | .RemoteUeContext x => .RemoteUeContext { x with ins := n }
  | .RemoteUserId x => .RemoteUserId { x with ins := n }
  | .RemoteUeIpInformation x => .RemoteUeIpInformation { x with ins := n }
  | .CIoTOptimizationSupportIndication x => .CIoTOptimizationSupportIndication { x with ins := n }
  | .ScefPdnConnections x => .ScefPdnConnections { x with ins := n }
  | .HeaderCompressionConfiguration x => .HeaderCompressionConfiguration { x with ins := n }
  | .Epco x => .Epco { x with ins := n }
  | .ServingPlmnRateControl x => .ServingPlmnRateControl { x with ins := n }
  | .Counter x => .Counter { x with ins := n }
  | .MappedUeUsageType x => .MappedUeUsageType { x with ins := n }
  | .SecondaryRatUsageDataReport x => .SecondaryRatUsageDataReport { x with ins := n }
  | .UpFunctionSelectionIndicationFlags x => .UpFunctionSelectionIndicationFlags { x with ins := n }
  | .MaxPacketLossRate x => .MaxPacketLossRate { x with ins := n }
  | .ApnRateControlStatus x => .ApnRateControlStatus { x with ins := n }
  | .ExtendedTraceInformation x => .ExtendedTraceInformation { x with ins := n }
  | .MonitoringEventExtensionInfo x => .MonitoringEventExtensionInfo { x with ins := n }
  | .AdditionalRrmPolicyIndex x => .AdditionalRrmPolicyIndex { x with ins := n }
  | .V2xInformation x => .V2xInformation { x with ins := n }
  | .PC5QosParameters x => .PC5QosParameters { x with ins := n }
  | .ServicesAuthorized x => .ServicesAuthorized { x with ins := n }
  | .BitRate x => .BitRate { x with ins := n }
  | .PC5QosFlow x => .PC5QosFlow { x with ins := n }
  | .SgiPtpTunnelAddress x => .SgiPtpTunnelAddress { x with ins := n }
  | .PgwChangeInfo x => .PgwChangeInfo { x with ins := n }
  | .PgwFqdn x => .PgwFqdn { x with ins := n }
  | .GroupId x => .GroupId { x with ins := n }
  | .PSCellId x => .PSCellId { x with ins := n }
  | .UpSecurityPolicy x => .UpSecurityPolicy { x with ins := n }
  | .AlternativeImsi x => .AlternativeImsi { x with ins := n }
  | .SpecialIEWithTypeExt x => .SpecialIEWithTypeExt { x with ins := n }
  | .PrivateExtension x => .PrivateExtension { x with ins := n }
  | .Unknown x => .Unknown { x with ins := n }

theorem IE.ins_setIns (n : UInt8) (e : IE) : (e.setIns n).ins = n := by
  cases e with
  | MmContext x => cases x <;> rfl
  | _ => rfl

theorem IE.kind_setIns (n : UInt8) (e : IE) : (e.setIns n).kind = e.kind := by cases e <;> rfl

theorem IE.len_setIns (m : Mode) (n : UInt8) (e : IE) : (e.setIns n).len m = e.len m := by
  cases e with
  | MmContext x => cases x <;> rfl
  | _ => rfl

theorem IE.setIns_setIns (n l : UInt8) (e : IE) : (e.setIns n).setIns l = e.setIns l := by
  cases e with
  | MmContext x => cases x <;> rfl
  | _ => rfl

/-! ### Cursor readers -/

section
variable {α : Type} {i j : UInt8} {b b' : Bytes}

theorem Par.rdItem (h : Off i j b b') {unm : Bytes → R Err α} {len : α → Nat} {e : Err} {c : Nat} (hc : 4 ≤ c) :
    Par Cur (rdItem unm len e b c) (rdItem unm len e b' c) := by
  par_all [V2.rdItem]

theorem Par.rdItems (h : Off i j b b') {unm : Bytes → R Err α} {len : α → Nat} {e : Err} : ∀ {n c : Nat}, 4 ≤ c →
    Par Cur (rdItems unm len e b n c) (rdItems unm len e b' n c)
  | 0, c, hc => Par.cur hc
  | n + 1, c, hc => by
    unfold V2.rdItems
    refine (Par.rdItem h hc).bind_cur fun _ _ h1 => (Par.rdItems h h1).bind_cur fun _ _ h2 => Par.cur' h2

theorem Par.rdAuth (h : Off i j b b') {unm : Bytes → R Err α} {len : α → Nat} {e : Err} {n : UInt8} {c : Nat} (hc : 4 ≤ c) :
    Par Cur (rdAuth unm len e b n c) (rdAuth unm len e b' n c) := by
  unfold V2.rdAuth
  refine Par.ite (fun _ => Par.cur' hc) fun _ => Par.ite (fun _ => (Par.rdItems h hc).bind_cur fun _ _ h1 => Par.cur' h1) fun _ => Par.err _

theorem Par.rdAmbr (h : Off i j b b') {ty : UInt8} {c : Nat} (hc : 4 ≤ c) : Par Cur (rdAmbr ty b c) (rdAmbr ty b' c) := by
  unfold V2.rdAmbr
  rw [h.len]
  exact Par.ite (fun _ => Par.rdItem h hc) fun _ => Par.err _

theorem Par.rdRates (h : Off i j b b') : ∀ {n c : Nat}, 4 ≤ c → Par Cur (rdRates b n c) (rdRates b' n c)
  | 0, c, hc => trivial
  | n + 1, c, hc => by
    unfold V2.rdRates
    refine (Par.slFrom h hc).bind_eq fun s => ?_
    split
    · exact (Par.rdRates h (Nat.le_add_right_of_le hc)).bind_cur fun _ _ h2 => Par.cur' h2
    · exact Par.cur' hc
    · trivial
    · trivial

theorem Par.rdApnRates (h : Off i j b b') {e : Err} {c : Nat} (hc : 4 ≤ c) : Par Cur (rdApnRates e b c) (rdApnRates e b' c) := by
  unfold V2.rdApnRates
  rw [h.len]
  refine (Par.rd h (by omega)).bind_eq fun l => Par.ite (fun _ => Par.cur' hc) fun _ => Par.ite (fun _ =>
    (Par.rdRates h (by omega)).bind_cur fun _ _ h1 => Par.cur' h1) fun _ => Par.err _

theorem Par.rdDrx (h : Off i j b b') {f : Bool} {c : Nat} (hc : 4 ≤ c) : Par Cur (rdDrx f b c) (rdDrx f b' c) := by
  par_all [V2.rdDrx]

theorem Par.rdHigher (h : Off i j b b') {c : Nat} (hc : 4 ≤ c) : Par Cur (rdHigher b c) (rdHigher b' c) := by
  par_all [V2.rdHigher]

theorem Par.rdIov (h : Off i j b b') {f : Bool} {e : Err} {c : Nat} (hc : 4 ≤ c) : Par Cur (rdIov f e b c) (rdIov f e b' c) := by
  par_all [V2.rdIov]

theorem Par.rdExtAcc (h : Off i j b b') {e : Err} {c : Nat} (hc : 4 ≤ c) : Par Cur (rdExtAcc e b c) (rdExtAcc e b' c) := by
  par_all [V2.rdExtAcc]

theorem Par.rdTriplets (h : Off i j b b') {n : UInt8} {c : Nat} (hc : 4 ≤ c) : Par Cur (rdTriplets b n c) (rdTriplets b' n c) := by
  unfold V2.rdTriplets
  rw [h.len]
  exact Par.ite (fun _ => Par.err _) fun _ => Par.rdAuth h hc

theorem Par.rdNextHop (h : Off i j b b') {f : Bool} {c : Nat} (hc : 4 ≤ c) : Par Cur (rdNextHop f b c) (rdNextHop f b' c) := by
  par_all [V2.rdNextHop]

theorem Par.rdEnsct (h : Off i j b b') {c : Nat} (hc : 4 ≤ c) : Par Eq (rdEnsct b c) (rdEnsct b' c) := by
  par_all [V2.rdEnsct]

theorem Par.rdEpsTail (h : Off i j b b') {c : Nat} (hc : 4 ≤ c) : Par Eq (rdEpsTail b c) (rdEpsTail b' c) := by
  unfold V2.rdEpsTail
  refine (Par.rdApnRates h hc).bind_cur fun _ _ h1 => (Par.rdLv h h1).bind_cur fun _ _ h2 => (Par.rdLv h h2).bind_cur fun _ _ h3 =>
    (Par.rdEnsct h h3).bind_eq fun _ => Par.pure rfl

theorem Par.rdOpt8 (h : Off i j b b') {f : Bool} {c : Nat} (hc : 4 ≤ c) : Par Cur (rdOpt8 f b c) (rdOpt8 f b' c) := by
  par_all [V2.rdOpt8]

theorem Par.rdScope (h : Off i j b b') {c : Nat} (hc : 4 ≤ c) : Par Cur (MdtConfiguration.rdScope b c) (MdtConfiguration.rdScope b' c) := by
  par_all [MdtConfiguration.rdScope]

theorem Par.rdPlmnList (h : Off i j b b') {f : Bool} {c : Nat} (hc : 4 ≤ c) :
    Par Eq (MdtConfiguration.rdPlmnList f b c) (MdtConfiguration.rdPlmnList f b' c) := by
  par_all [MdtConfiguration.rdPlmnList]

theorem Par.rdLe (h : Off i j b b') {Q : α → α → Prop} {e : Err} {st st' : Nat → R Err α} {c : Nat} (hs : Par Q (st c) (st' c)) :
    Par Q (rdLe e b st c) (rdLe e b' st' c) := by
  unfold V2.rdLe
  rw [h.len]
  exact Par.ite (fun _ => hs) fun _ => Par.err _

theorem Par.rdPlmnS (h : Off i j b b') {c : Nat} (hc : 4 ≤ c) : Par Cur (rdPlmnS b c) (rdPlmnS b' c) := by
  par_all [V2.rdPlmnS]

theorem Par.rdName (h : Off i j b b') {c : Nat} (hc : 4 ≤ c) : Par Cur (TwanId.rdName b c) (TwanId.rdName b' c) := by
  par_all [TwanId.rdName]

theorem Par.rdRelay (h : Off i j b b') {f : Bool} {c : Nat} (hc : 4 ≤ c) : Par Eq (TwanId.rdRelay f b c) (TwanId.rdRelay f b' c) := by
  unfold TwanId.rdRelay
  rw [h.len]
  refine Par.ite (fun _ => Par.ite (fun _ => (Par.rd h (by omega)).bind_eq fun _ => (Par.rdLvC h (by omega)).bind_cur fun _ c h1 =>
    (Par.rdLe h (Par.rdLvC h h1)).bind_cur fun _ _ _ => Par.pure rfl) fun _ => Par.err _) fun _ => Par.pure rfl

theorem Par.rdStr (h : Off i j b b') {e : Err} {c : Nat} (hc : 5 ≤ c) : Par Eq (rdStr b c e) (rdStr b' c e) := by
  par_all [V2.rdStr]

theorem Par.rdElems (h : Off i j b b') {chk : Bool} {unm : Bytes → R Err α} {k : Nat} {e : Err} : ∀ {n c : Nat}, 4 ≤ c →
    Par Cur (rdElems chk unm k e b n c) (rdElems chk unm k e b' n c)
  | 0, c, hc => Par.cur hc
  | n + 1, c, hc => by
    unfold V2.rdElems
    rw [h.len]
    exact Par.ite (fun _ => Par.err _) fun _ => (Par.slFrom h hc).bind_eq fun _ => (Par.of_eq rfl).bind_eq fun _ =>
      (Par.rdElems h (Nat.le_add_right_of_le hc)).bind_cur fun _ _ h2 => Par.cur' h2

theorem Par.readAll (h : Off i j b b') : ∀ {ks : List Nat} {c : Nat}, 4 ≤ c →
    Par Eq (Location.readAll b ks c) (Location.readAll b' ks c)
  | [], c, hc => rfl
  | k :: ks, c, hc => by
    unfold Location.readAll
    exact (Par.slFrom h hc).bind_eq fun _ => (Par.of_eq rfl).bind_eq fun _ =>
      (Par.readAll h (Nat.le_add_right_of_le hc)).bind_eq fun _ => Par.pure rfl

theorem Par.container (h : Off i j b b') {v : UInt8} {n : Nat} : Par Eq (Container.read b v n) (Container.read b' v n) := by
  unfold Container.read
  par_steps

theorem Par.rdIp50 (h : Off i j b b') {c : Nat} (hc : 4 ≤ c) : Par Cur (rdIp50 b c) (rdIp50 b' c) := by
  par_all [V2.rdIp50]

end

macro_rules | `(tactic| par_leaf) => `(tactic| first
  | ((with_reducible refine Par.rdAuth (by assumption) ?_); omega)
  | ((with_reducible refine Par.rdAmbr (by assumption) ?_); omega)
  | ((with_reducible refine Par.rdItem (by assumption) ?_); omega)
  | ((with_reducible refine Par.rdApnRates (by assumption) ?_); omega)
  | ((with_reducible refine Par.rdDrx (by assumption) ?_); omega)
  | ((with_reducible refine Par.rdHigher (by assumption) ?_); omega)
  | ((with_reducible refine Par.rdIov (by assumption) ?_); omega)
  | ((with_reducible refine Par.rdExtAcc (by assumption) ?_); omega)
  | ((with_reducible refine Par.rdTriplets (by assumption) ?_); omega)
  | ((with_reducible refine Par.rdNextHop (by assumption) ?_); omega)
  | ((with_reducible refine Par.rdEpsTail (by assumption) ?_); omega)
  | ((with_reducible refine Par.rdOpt8 (by assumption) ?_); omega)
  | ((with_reducible refine Par.rdScope (by assumption) ?_); omega)
  | ((with_reducible refine Par.rdPlmnList (by assumption) ?_); omega)
  | ((with_reducible refine Par.rdPlmnS (by assumption) ?_); omega)
  | ((with_reducible refine Par.rdName (by assumption) ?_); omega)
  | ((with_reducible refine Par.rdRelay (by assumption) ?_); omega)
  | ((with_reducible refine Par.rdStr (by assumption) ?_); omega)
  | ((with_reducible refine Par.rdElems (by assumption) ?_); omega)
  | ((with_reducible refine Par.readAll (by assumption) ?_); omega)
  | (with_reducible exact Par.container (by assumption))
  | ((with_reducible refine Par.rdIp50 (by assumption) ?_); omega)
  | ((with_reducible refine Par.rdLe (by assumption) ?_); par_leaf))

/-! ### The decoders -/

section
variable {i j : UInt8} {b b' : Bytes}

theorem Imsi.par (h : Off i j b b') (m : Mode) :
    Par (fun x y => x = { y with ins := i &&& 0x0f }) (Imsi.unmarshal m b) (Imsi.unmarshal m b') := by
  par_all [Imsi.unmarshal]

theorem Cause.par (h : Off i j b b') (m : Mode) :
    Par (fun x y => x = { y with ins := i &&& 0x0f }) (Cause.unmarshal m b) (Cause.unmarshal m b') := by
  par_all [Cause.unmarshal]

theorem Recovery.par (h : Off i j b b') (m : Mode) :
    Par (fun x y => x = { y with ins := i &&& 0x0f }) (Recovery.unmarshal m b) (Recovery.unmarshal m b') := by
  par_all [Recovery.unmarshal]

theorem StnSr.par (h : Off i j b b') (m : Mode) :
    Par (fun x y => x = { y with ins := i &&& 0x0f }) (StnSr.unmarshal m b) (StnSr.unmarshal m b') := by
  par_all [StnSr.unmarshal]

theorem SrvccCause.par (h : Off i j b b') (m : Mode) :
    Par (fun x y => x = { y with ins := i &&& 0x0f }) (SrvccCause.unmarshal m b) (SrvccCause.unmarshal m b') := by
  par_all [SrvccCause.unmarshal]

theorem Apn.par (h : Off i j b b') (m : Mode) :
    Par (fun x y => x = { y with ins := i &&& 0x0f }) (Apn.unmarshal m b) (Apn.unmarshal m b') := by
  par_all [Apn.unmarshal]

theorem Ambr.par (h : Off i j b b') (m : Mode) :
    Par (fun x y => x = { y with ins := i &&& 0x0f }) (Ambr.unmarshal m b) (Ambr.unmarshal m b') := by
  par_all [Ambr.unmarshal]

theorem Ebi.par (h : Off i j b b') (m : Mode) :
    Par (fun x y => x = { y with ins := i &&& 0x0f }) (Ebi.unmarshal m b) (Ebi.unmarshal m b') := by
  par_all [Ebi.unmarshal]

theorem IpAddress.par (h : Off i j b b') (m : Mode) :
    Par (fun x y => x = { y with ins := i &&& 0x0f }) (IpAddress.unmarshal m b) (IpAddress.unmarshal m b') := by
  par_all [IpAddress.unmarshal]

theorem Mei.par (h : Off i j b b') (m : Mode) :
    Par (fun x y => x = { y with ins := i &&& 0x0f }) (Mei.unmarshal m b) (Mei.unmarshal m b') := by
  par_all [Mei.unmarshal]

theorem Msisdn.par (h : Off i j b b') (m : Mode) :
    Par (fun x y => x = { y with ins := i &&& 0x0f }) (Msisdn.unmarshal m b) (Msisdn.unmarshal m b') := by
  par_all [Msisdn.unmarshal]

theorem Indication.par (h : Off i j b b') (m : Mode) :
    Par (fun x y => x = { y with ins := i &&& 0x0f }) (Indication.unmarshal m b) (Indication.unmarshal m b') := by
  par_all [Indication.unmarshal]

theorem Pco.par (h : Off i j b b') (m : Mode) :
    Par (fun x y => x = { y with ins := i &&& 0x0f }) (Pco.unmarshal m b) (Pco.unmarshal m b') := by
  par_all [Pco.unmarshal]

theorem PdnAddressAllocation.par (h : Off i j b b') (m : Mode) :
    Par (fun x y => x = { y with ins := i &&& 0x0f }) (PdnAddressAllocation.unmarshal m b) (PdnAddressAllocation.unmarshal m b') := by
  par_all [PdnAddressAllocation.unmarshal]

theorem BearerQos.par (h : Off i j b b') (m : Mode) :
    Par (fun x y => x = { y with ins := i &&& 0x0f }) (BearerQos.unmarshal m b) (BearerQos.unmarshal m b') := by
  par_all [BearerQos.unmarshal]

theorem FlowQos.par (h : Off i j b b') (m : Mode) :
    Par (fun x y => x = { y with ins := i &&& 0x0f }) (FlowQos.unmarshal m b) (FlowQos.unmarshal m b') := by
  par_all [FlowQos.unmarshal]

theorem RatType.par (h : Off i j b b') (m : Mode) :
    Par (fun x y => x = { y with ins := i &&& 0x0f }) (RatType.unmarshal m b) (RatType.unmarshal m b') := by
  par_all [RatType.unmarshal]

theorem ServingNetwork.par (h : Off i j b b') (m : Mode) :
    Par (fun x y => x = { y with ins := i &&& 0x0f }) (ServingNetwork.unmarshal m b) (ServingNetwork.unmarshal m b') := by
  par_all [ServingNetwork.unmarshal]

theorem BearerTft.par (h : Off i j b b') (m : Mode) :
    Par (fun x y => x = { y with ins := i &&& 0x0f }) (BearerTft.unmarshal m b) (BearerTft.unmarshal m b') := by
  par_all [BearerTft.unmarshal]

theorem TrafficAggregateDescription.par (h : Off i j b b') (m : Mode) :
    Par (fun x y => x = { y with ins := i &&& 0x0f }) (TrafficAggregateDescription.unmarshal m b) (TrafficAggregateDescription.unmarshal m b') := by
  par_all [TrafficAggregateDescription.unmarshal]

theorem Uli.par (h : Off i j b b') (m : Mode) :
    Par (fun x y => x = { y with ins := i &&& 0x0f }) (Uli.unmarshal m b) (Uli.unmarshal m b') := by
  par_all [Uli.unmarshal]

theorem Fteid.par (h : Off i j b b') (m : Mode) :
    Par (fun x y => x = { y with ins := i &&& 0x0f }) (Fteid.unmarshal m b) (Fteid.unmarshal m b') := by
  par_all [Fteid.unmarshal]

theorem Tmsi.par (h : Off i j b b') (m : Mode) :
    Par (fun x y => x = { y with ins := i &&& 0x0f }) (Tmsi.unmarshal m b) (Tmsi.unmarshal m b') := by
  par_all [Tmsi.unmarshal]

theorem GlobalCnId.par (h : Off i j b b') (m : Mode) :
    Par (fun x y => x = { y with ins := i &&& 0x0f }) (GlobalCnId.unmarshal m b) (GlobalCnId.unmarshal m b') := by
  par_all [GlobalCnId.unmarshal]

theorem S103pdf.par (h : Off i j b b') (m : Mode) :
    Par (fun x y => x = { y with ins := i &&& 0x0f }) (S103pdf.unmarshal m b) (S103pdf.unmarshal m b') := by
  par_all [S103pdf.unmarshal]

theorem S1udf.par (h : Off i j b b') (m : Mode) :
    Par (fun x y => x = { y with ins := i &&& 0x0f }) (S1udf.unmarshal m b) (S1udf.unmarshal m b') := by
  par_all [S1udf.unmarshal]

theorem DelayValue.par (h : Off i j b b') (m : Mode) :
    Par (fun x y => x = { y with ins := i &&& 0x0f }) (DelayValue.unmarshal m b) (DelayValue.unmarshal m b') := by
  par_all [DelayValue.unmarshal]

theorem ChargingId.par (h : Off i j b b') (m : Mode) :
    Par (fun x y => x = { y with ins := i &&& 0x0f }) (ChargingId.unmarshal m b) (ChargingId.unmarshal m b') := by
  par_all [ChargingId.unmarshal]

theorem ChargingCharacteristics.par (h : Off i j b b') (m : Mode) :
    Par (fun x y => x = { y with ins := i &&& 0x0f }) (ChargingCharacteristics.unmarshal m b) (ChargingCharacteristics.unmarshal m b') := by
  par_all [ChargingCharacteristics.unmarshal]

theorem TraceInformation.par (h : Off i j b b') (m : Mode) :
    Par (fun x y => x = { y with ins := i &&& 0x0f }) (TraceInformation.unmarshal m b) (TraceInformation.unmarshal m b') := by
  par_all [TraceInformation.unmarshal]

theorem BearerFlags.par (h : Off i j b b') (m : Mode) :
    Par (fun x y => x = { y with ins := i &&& 0x0f }) (BearerFlags.unmarshal m b) (BearerFlags.unmarshal m b') := by
  par_all [BearerFlags.unmarshal]

theorem PdnType.par (h : Off i j b b') (m : Mode) :
    Par (fun x y => x = { y with ins := i &&& 0x0f }) (PdnType.unmarshal m b) (PdnType.unmarshal m b') := by
  par_all [PdnType.unmarshal]

theorem Pti.par (h : Off i j b b') (m : Mode) :
    Par (fun x y => x = { y with ins := i &&& 0x0f }) (Pti.unmarshal m b) (Pti.unmarshal m b') := by
  par_all [Pti.unmarshal]

theorem PduNumbers.par (h : Off i j b b') (m : Mode) :
    Par (fun x y => x = { y with ins := i &&& 0x0f }) (PduNumbers.unmarshal m b) (PduNumbers.unmarshal m b') := by
  par_all [PduNumbers.unmarshal]

theorem Ptmsi.par (h : Off i j b b') (m : Mode) :
    Par (fun x y => x = { y with ins := i }) (Ptmsi.unmarshal m b) (Ptmsi.unmarshal m b') := by
  par_all [Ptmsi.unmarshal]

theorem PtmsiSignature.par (h : Off i j b b') (m : Mode) :
    Par (fun x y => x = { y with ins := i &&& 0x0f }) (PtmsiSignature.unmarshal m b) (PtmsiSignature.unmarshal m b') := by
  par_all [PtmsiSignature.unmarshal]

theorem HopCounter.par (h : Off i j b b') (m : Mode) :
    Par (fun x y => x = { y with ins := i &&& 0x0f }) (HopCounter.unmarshal m b) (HopCounter.unmarshal m b') := by
  par_all [HopCounter.unmarshal]

theorem UeTimeZone.par (h : Off i j b b') (m : Mode) :
    Par (fun x y => x = { y with ins := i &&& 0x0f }) (UeTimeZone.unmarshal m b) (UeTimeZone.unmarshal m b') := by
  par_all [UeTimeZone.unmarshal]

theorem TraceReference.par (h : Off i j b b') (m : Mode) :
    Par (fun x y => x = { y with ins := i &&& 0x0f }) (TraceReference.unmarshal m b) (TraceReference.unmarshal m b') := by
  par_all [TraceReference.unmarshal]

theorem CompleteRequestMessage.par (h : Off i j b b') (m : Mode) :
    Par (fun x y => x = { y with ins := i &&& 0x0f }) (CompleteRequestMessage.unmarshal m b) (CompleteRequestMessage.unmarshal m b') := by
  par_all [CompleteRequestMessage.unmarshal]

theorem Guti.par (h : Off i j b b') (m : Mode) :
    Par (fun x y => x = { y with ins := i &&& 0x0f }) (Guti.unmarshal m b) (Guti.unmarshal m b') := by
  par_all [Guti.unmarshal]

theorem Fcontainer.par (h : Off i j b b') (m : Mode) :
    Par (fun x y => x = { y with ins := i &&& 0x0f }) (Fcontainer.unmarshal m b) (Fcontainer.unmarshal m b') := by
  par_all [Fcontainer.unmarshal]

theorem Fcause.par (h : Off i j b b') (m : Mode) :
    Par (fun x y => x = { y with ins := i &&& 0x0f }) (Fcause.unmarshal m b) (Fcause.unmarshal m b') := by
  par_all [Fcause.unmarshal]

theorem PlmnId.par (h : Off i j b b') (m : Mode) :
    Par (fun x y => x = { y with ins := i &&& 0x0f }) (PlmnId.unmarshal m b) (PlmnId.unmarshal m b') := by
  par_all [PlmnId.unmarshal]

theorem TargetIdentification.par (h : Off i j b b') (m : Mode) :
    Par (fun x y => x = { y with ins := i }) (TargetIdentification.unmarshal m b) (TargetIdentification.unmarshal m b') := by
  par_all [TargetIdentification.unmarshal]

theorem PacketFlowId.par (h : Off i j b b') (m : Mode) :
    Par (fun x y => x = { y with ins := i &&& 0x0f }) (PacketFlowId.unmarshal m b) (PacketFlowId.unmarshal m b') := by
  par_all [PacketFlowId.unmarshal]

theorem RabContext.par (h : Off i j b b') (m : Mode) :
    Par (fun x y => x = { y with ins := i &&& 0x0f }) (RabContext.unmarshal m b) (RabContext.unmarshal m b') := by
  par_all [RabContext.unmarshal]

theorem SourceRncPdcpContextInfo.par (h : Off i j b b') (m : Mode) :
    Par (fun x y => x = { y with ins := i &&& 0x0f }) (SourceRncPdcpContextInfo.unmarshal m b) (SourceRncPdcpContextInfo.unmarshal m b') := by
  par_all [SourceRncPdcpContextInfo.unmarshal]

theorem PortNumber.par (h : Off i j b b') (m : Mode) :
    Par (fun x y => x = { y with ins := i &&& 0x0f }) (PortNumber.unmarshal m b) (PortNumber.unmarshal m b') := by
  par_all [PortNumber.unmarshal]

theorem ApnRestriction.par (h : Off i j b b') (m : Mode) :
    Par (fun x y => x = { y with ins := i &&& 0x0f }) (ApnRestriction.unmarshal m b) (ApnRestriction.unmarshal m b') := by
  par_all [ApnRestriction.unmarshal]

theorem SelectionMode.par (h : Off i j b b') (m : Mode) :
    Par (fun x y => x = { y with ins := i &&& 0x0f }) (SelectionMode.unmarshal m b) (SelectionMode.unmarshal m b') := by
  par_all [SelectionMode.unmarshal]

theorem SourceIdentification.par (h : Off i j b b') (m : Mode) :
    Par (fun x y => x = { y with ins := i }) (SourceIdentification.unmarshal m b) (SourceIdentification.unmarshal m b') := by
  par_all [SourceIdentification.unmarshal]

theorem ChangeReportingAction.par (h : Off i j b b') (m : Mode) :
    Par (fun x y => x = { y with ins := i &&& 0x0f }) (ChangeReportingAction.unmarshal m b) (ChangeReportingAction.unmarshal m b') := by
  par_all [ChangeReportingAction.unmarshal]

theorem Fqcsid.par (h : Off i j b b') (m : Mode) :
    Par (fun x y => x = { y with ins := i &&& 0x0f }) (Fqcsid.unmarshal m b) (Fqcsid.unmarshal m b') := by
  par_all [Fqcsid.unmarshal]

theorem ChannelNeeded.par (h : Off i j b b') (m : Mode) :
    Par (fun x y => x = { y with ins := i &&& 0x0f }) (ChannelNeeded.unmarshal m b) (ChannelNeeded.unmarshal m b') := by
  par_all [ChannelNeeded.unmarshal]

theorem EmlppPriority.par (h : Off i j b b') (m : Mode) :
    Par (fun x y => x = { y with ins := i &&& 0x0f }) (EmlppPriority.unmarshal m b) (EmlppPriority.unmarshal m b') := by
  par_all [EmlppPriority.unmarshal]

theorem NodeType.par (h : Off i j b b') (m : Mode) :
    Par (fun x y => x = { y with ins := i }) (NodeType.unmarshal m b) (NodeType.unmarshal m b') := by
  par_all [NodeType.unmarshal]

theorem Fqdn.par (h : Off i j b b') (m : Mode) :
    Par (fun x y => x = { y with ins := i &&& 0x0f }) (Fqdn.unmarshal m b) (Fqdn.unmarshal m b') := by
  par_all [Fqdn.unmarshal]

theorem TransactionIdentifier.par (h : Off i j b b') (m : Mode) :
    Par (fun x y => x = { y with ins := i &&& 0x0f }) (TransactionIdentifier.unmarshal m b) (TransactionIdentifier.unmarshal m b') := by
  par_all [TransactionIdentifier.unmarshal]

theorem MbmsServiceArea.par (h : Off i j b b') (m : Mode) :
    Par (fun x y => x = { y with ins := i &&& 0x0f }) (MbmsServiceArea.unmarshal m b) (MbmsServiceArea.unmarshal m b') := by
  par_all [MbmsServiceArea.unmarshal]

theorem MbmsSessionDuration.par (h : Off i j b b') (m : Mode) :
    Par (fun x y => x = { y with ins := i &&& 0x0f }) (MbmsSessionDuration.unmarshal m b) (MbmsSessionDuration.unmarshal m b') := by
  par_all [MbmsSessionDuration.unmarshal]

theorem MbmsSessionId.par (h : Off i j b b') (m : Mode) :
    Par (fun x y => x = { y with ins := i &&& 0x0f }) (MbmsSessionId.unmarshal m b) (MbmsSessionId.unmarshal m b') := by
  par_all [MbmsSessionId.unmarshal]

theorem MbmsFlowId.par (h : Off i j b b') (m : Mode) :
    Par (fun x y => x = { y with ins := i &&& 0x0f }) (MbmsFlowId.unmarshal m b) (MbmsFlowId.unmarshal m b') := by
  par_all [MbmsFlowId.unmarshal]

theorem MbmsIpMulticastDistribution.par (h : Off i j b b') (m : Mode) :
    Par (fun x y => x = { y with ins := i }) (MbmsIpMulticastDistribution.unmarshal m b) (MbmsIpMulticastDistribution.unmarshal m b') := by
  par_all [MbmsIpMulticastDistribution.unmarshal]

theorem MbmsDistributionAck.par (h : Off i j b b') (m : Mode) :
    Par (fun x y => x = { y with ins := i &&& 0x0f }) (MbmsDistributionAck.unmarshal m b) (MbmsDistributionAck.unmarshal m b') := by
  par_all [MbmsDistributionAck.unmarshal]

theorem RfspIndex.par (h : Off i j b b') (m : Mode) :
    Par (fun x y => x = { y with ins := i &&& 0x0f }) (RfspIndex.unmarshal m b) (RfspIndex.unmarshal m b') := by
  par_all [RfspIndex.unmarshal]

theorem Uci.par (h : Off i j b b') (m : Mode) :
    Par (fun x y => x = { y with ins := i &&& 0x0f }) (Uci.unmarshal m b) (Uci.unmarshal m b') := by
  par_all [Uci.unmarshal]

theorem CSGInformationReportingAction.par (h : Off i j b b') (m : Mode) :
    Par (fun x y => x = { y with ins := i &&& 0x0f }) (CSGInformationReportingAction.unmarshal m b) (CSGInformationReportingAction.unmarshal m b') := by
  par_all [CSGInformationReportingAction.unmarshal]

theorem CsgId.par (h : Off i j b b') (m : Mode) :
    Par (fun x y => x = { y with ins := i &&& 0x0f }) (CsgId.unmarshal m b) (CsgId.unmarshal m b') := by
  par_all [CsgId.unmarshal]

theorem CsgMembershipIndication.par (h : Off i j b b') (m : Mode) :
    Par (fun x y => x = { y with ins := i }) (CsgMembershipIndication.unmarshal m b) (CsgMembershipIndication.unmarshal m b') := by
  par_all [CsgMembershipIndication.unmarshal]

theorem ServiceIndicator.par (h : Off i j b b') (m : Mode) :
    Par (fun x y => x = { y with ins := i &&& 0x0f }) (ServiceIndicator.unmarshal m b) (ServiceIndicator.unmarshal m b') := by
  par_all [ServiceIndicator.unmarshal]

theorem DetachType.par (h : Off i j b b') (m : Mode) :
    Par (fun x y => x = { y with ins := i &&& 0x0f }) (DetachType.unmarshal m b) (DetachType.unmarshal m b') := by
  par_all [DetachType.unmarshal]

theorem Ldn.par (h : Off i j b b') (m : Mode) :
    Par (fun x y => x = { y with ins := i &&& 0x0f }) (Ldn.unmarshal m b) (Ldn.unmarshal m b') := by
  par_all [Ldn.unmarshal]

theorem NodeFeatures.par (h : Off i j b b') (m : Mode) :
    Par (fun x y => x = { y with ins := i &&& 0x0f }) (NodeFeatures.unmarshal m b) (NodeFeatures.unmarshal m b') := by
  par_all [NodeFeatures.unmarshal]

theorem MbmsTimeToDataTransfer.par (h : Off i j b b') (m : Mode) :
    Par (fun x y => x = { y with ins := i }) (MbmsTimeToDataTransfer.unmarshal m b) (MbmsTimeToDataTransfer.unmarshal m b') := by
  par_all [MbmsTimeToDataTransfer.unmarshal]

theorem Throttling.par (h : Off i j b b') (m : Mode) :
    Par (fun x y => x = { y with ins := i &&& 0x0f }) (Throttling.unmarshal m b) (Throttling.unmarshal m b') := by
  par_all [Throttling.unmarshal]

theorem Arp.par (h : Off i j b b') (m : Mode) :
    Par (fun x y => x = { y with ins := i &&& 0x0f }) (Arp.unmarshal m b) (Arp.unmarshal m b') := by
  par_all [Arp.unmarshal]

theorem EpcTimer.par (h : Off i j b b') (m : Mode) :
    Par (fun x y => x = { y with ins := i &&& 0x0f }) (EpcTimer.unmarshal m b) (EpcTimer.unmarshal m b') := by
  par_all [EpcTimer.unmarshal]

theorem Spi.par (h : Off i j b b') (m : Mode) :
    Par (fun x y => x = { y with ins := i &&& 0x0f }) (Spi.unmarshal m b) (Spi.unmarshal m b') := by
  par_all [Spi.unmarshal]

theorem Tmgi.par (h : Off i j b b') (m : Mode) :
    Par (fun x y => x = { y with ins := i }) (Tmgi.unmarshal m b) (Tmgi.unmarshal m b') := by
  par_all [Tmgi.unmarshal]

theorem AdditionalMmContextForSrvcc.par (h : Off i j b b') (m : Mode) :
    Par (fun x y => x = { y with ins := i &&& 0x0f }) (AdditionalMmContextForSrvcc.unmarshal m b) (AdditionalMmContextForSrvcc.unmarshal m b') := by
  par_all [AdditionalMmContextForSrvcc.unmarshal]

theorem AdditionalFlagsSrvcc.par (h : Off i j b b') (m : Mode) :
    Par (fun x y => x = { y with ins := i &&& 0x0f }) (AdditionalFlagsSrvcc.unmarshal m b) (AdditionalFlagsSrvcc.unmarshal m b') := by
  par_all [AdditionalFlagsSrvcc.unmarshal]

theorem MdtConfiguration.par (h : Off i j b b') (m : Mode) :
    Par (fun x y => x = { y with ins := i &&& 0x0f }) (MdtConfiguration.unmarshal m b) (MdtConfiguration.unmarshal m b') := by
  par_all [MdtConfiguration.unmarshal]

theorem Apco.par (h : Off i j b b') (m : Mode) :
    Par (fun x y => x = { y with ins := i &&& 0x0f }) (Apco.unmarshal m b) (Apco.unmarshal m b') := by
  par_all [Apco.unmarshal]

theorem AbsoluteTimeMbmsDataTransfer.par (h : Off i j b b') (m : Mode) :
    Par (fun x y => x = { y with ins := i &&& 0x0f }) (AbsoluteTimeMbmsDataTransfer.unmarshal m b) (AbsoluteTimeMbmsDataTransfer.unmarshal m b') := by
  par_all [AbsoluteTimeMbmsDataTransfer.unmarshal]

theorem HenbInfoReporting.par (h : Off i j b b') (m : Mode) :
    Par (fun x y => x = { y with ins := i &&& 0x0f }) (HenbInfoReporting.unmarshal m b) (HenbInfoReporting.unmarshal m b') := by
  par_all [HenbInfoReporting.unmarshal]

theorem Ip4Cp.par (h : Off i j b b') (m : Mode) :
    Par (fun x y => x = { y with ins := i &&& 0x0f }) (Ip4Cp.unmarshal m b) (Ip4Cp.unmarshal m b') := by
  par_all [Ip4Cp.unmarshal]

theorem ChangeToReportFlags.par (h : Off i j b b') (m : Mode) :
    Par (fun x y => x = { y with ins := i &&& 0x0f }) (ChangeToReportFlags.unmarshal m b) (ChangeToReportFlags.unmarshal m b') := by
  par_all [ChangeToReportFlags.unmarshal]

theorem ActionIndication.par (h : Off i j b b') (m : Mode) :
    Par (fun x y => x = { y with ins := i &&& 0x0f }) (ActionIndication.unmarshal m b) (ActionIndication.unmarshal m b') := by
  par_all [ActionIndication.unmarshal]

theorem TwanId.par (h : Off i j b b') (m : Mode) :
    Par (fun x y => x = { y with ins := i &&& 0x0f }) (TwanId.unmarshal m b) (TwanId.unmarshal m b') := by
  par_all [TwanId.unmarshal]

theorem UliTimestamp.par (h : Off i j b b') (m : Mode) :
    Par (fun x y => x = { y with ins := i &&& 0x0f }) (UliTimestamp.unmarshal m b) (UliTimestamp.unmarshal m b') := by
  par_all [UliTimestamp.unmarshal]

theorem MbmsFlags.par (h : Off i j b b') (m : Mode) :
    Par (fun x y => x = { y with ins := i &&& 0x0f }) (MbmsFlags.unmarshal m b) (MbmsFlags.unmarshal m b') := by
  par_all [MbmsFlags.unmarshal]

theorem RanNasCause.par (h : Off i j b b') (m : Mode) :
    Par (fun x y => x = { y with ins := i &&& 0x0f }) (RanNasCause.unmarshal m b) (RanNasCause.unmarshal m b') := by
  par_all [RanNasCause.unmarshal]

theorem CnOperatorSelectionEntity.par (h : Off i j b b') (m : Mode) :
    Par (fun x y => x = { y with ins := i &&& 0x0f }) (CnOperatorSelectionEntity.unmarshal m b) (CnOperatorSelectionEntity.unmarshal m b') := by
  par_all [CnOperatorSelectionEntity.unmarshal]

theorem Twmi.par (h : Off i j b b') (m : Mode) :
    Par (fun x y => x = { y with ins := i &&& 0x0f }) (Twmi.unmarshal m b) (Twmi.unmarshal m b') := by
  par_all [Twmi.unmarshal]

theorem NodeNumber.par (h : Off i j b b') (m : Mode) :
    Par (fun x y => x = { y with ins := i &&& 0x0f }) (NodeNumber.unmarshal m b) (NodeNumber.unmarshal m b') := by
  par_all [NodeNumber.unmarshal]

theorem NodeIdentifier.par (h : Off i j b b') (m : Mode) :
    Par (fun x y => x = { y with ins := i &&& 0x0f }) (NodeIdentifier.unmarshal m b) (NodeIdentifier.unmarshal m b') := by
  par_all [NodeIdentifier.unmarshal]

theorem PresenceReportingAreaAction.par (h : Off i j b b') (m : Mode) :
    Par (fun x y => x = { y with ins := i &&& 0x0f }) (PresenceReportingAreaAction.unmarshal m b) (PresenceReportingAreaAction.unmarshal m b') := by
  par_all [PresenceReportingAreaAction.unmarshal]

theorem PresenceReportingAreaInformation.par (h : Off i j b b') (m : Mode) :
    Par (fun x y => x = { y with ins := i &&& 0x0f }) (PresenceReportingAreaInformation.unmarshal m b) (PresenceReportingAreaInformation.unmarshal m b') := by
  par_all [PresenceReportingAreaInformation.unmarshal]

theorem TwanIdTimeStamp.par (h : Off i j b b') (m : Mode) :
    Par (fun x y => x = { y with ins := i &&& 0x0f }) (TwanIdTimeStamp.unmarshal m b) (TwanIdTimeStamp.unmarshal m b') := by
  par_all [TwanIdTimeStamp.unmarshal]

theorem Metric.par (h : Off i j b b') (m : Mode) :
    Par (fun x y => x = { y with ins := i &&& 0x0f }) (Metric.unmarshal m b) (Metric.unmarshal m b') := by
  par_all [Metric.unmarshal]

theorem Sqn.par (h : Off i j b b') (m : Mode) :
    Par (fun x y => x = { y with ins := i &&& 0x0f }) (Sqn.unmarshal m b) (Sqn.unmarshal m b') := by
  par_all [Sqn.unmarshal]

theorem ApnRelativeCapacity.par (h : Off i j b b') (m : Mode) :
    Par (fun x y => x = { y with ins := i &&& 0x0f }) (ApnRelativeCapacity.unmarshal m b) (ApnRelativeCapacity.unmarshal m b') := by
  par_all [ApnRelativeCapacity.unmarshal]

theorem WlanOffloadIndication.par (h : Off i j b b') (m : Mode) :
    Par (fun x y => x = { y with ins := i &&& 0x0f }) (WlanOffloadIndication.unmarshal m b) (WlanOffloadIndication.unmarshal m b') := by
  par_all [WlanOffloadIndication.unmarshal]

theorem PagingServiceInfo.par (h : Off i j b b') (m : Mode) :
    Par (fun x y => x = { y with ins := i &&& 0x0f }) (PagingServiceInfo.unmarshal m b) (PagingServiceInfo.unmarshal m b') := by
  par_all [PagingServiceInfo.unmarshal]

theorem IntegerNumber.par (h : Off i j b b') (m : Mode) :
    Par (fun x y => x = { y with ins := i &&& 0x0f }) (IntegerNumber.unmarshal m b) (IntegerNumber.unmarshal m b') := by
  par_all [IntegerNumber.unmarshal]

theorem MilliSecondTimeStamp.par (h : Off i j b b') (m : Mode) :
    Par (fun x y => x = { y with ins := i &&& 0x0f }) (MilliSecondTimeStamp.unmarshal m b) (MilliSecondTimeStamp.unmarshal m b') := by
  par_all [MilliSecondTimeStamp.unmarshal]

theorem EcgiList.par (h : Off i j b b') (m : Mode) :
    Par (fun x y => x = { y with ins := i &&& 0x0f }) (EcgiList.unmarshal m b) (EcgiList.unmarshal m b') := by
  par_all [EcgiList.unmarshal]

theorem RemoteUserId.par (h : Off i j b b') (m : Mode) :
    Par (fun x y => x = { y with ins := i &&& 0x0f }) (RemoteUserId.unmarshal m b) (RemoteUserId.unmarshal m b') := by
  par_all [RemoteUserId.unmarshal]

theorem RemoteUeIpInformation.par (h : Off i j b b') (m : Mode) :
    Par (fun x y => x = { y with ins := i &&& 0x0f }) (RemoteUeIpInformation.unmarshal m b) (RemoteUeIpInformation.unmarshal m b') := by
  par_all [RemoteUeIpInformation.unmarshal]

theorem CIoTOptimizationSupportIndication.par (h : Off i j b b') (m : Mode) :
    Par (fun x y => x = { y with ins := i &&& 0x0f }) (CIoTOptimizationSupportIndication.unmarshal m b) (CIoTOptimizationSupportIndication.unmarshal m b') := by
  par_all [CIoTOptimizationSupportIndication.unmarshal]

theorem HeaderCompressionConfiguration.par (h : Off i j b b') (m : Mode) :
    Par (fun x y => x = { y with ins := i &&& 0x0f }) (HeaderCompressionConfiguration.unmarshal m b) (HeaderCompressionConfiguration.unmarshal m b') := by
  par_all [HeaderCompressionConfiguration.unmarshal]

theorem Epco.par (h : Off i j b b') (m : Mode) :
    Par (fun x y => x = { y with ins := i &&& 0x0f }) (Epco.unmarshal m b) (Epco.unmarshal m b') := by
  par_all [Epco.unmarshal]

theorem ServingPlmnRateControl.par (h : Off i j b b') (m : Mode) :
    Par (fun x y => x = { y with ins := i &&& 0x0f }) (ServingPlmnRateControl.unmarshal m b) (ServingPlmnRateControl.unmarshal m b') := by
  par_all [ServingPlmnRateControl.unmarshal]

theorem Counter.par (h : Off i j b b') (m : Mode) :
    Par (fun x y => x = { y with ins := i &&& 0x0f }) (Counter.unmarshal m b) (Counter.unmarshal m b') := by
  par_all [Counter.unmarshal]

theorem MappedUeUsageType.par (h : Off i j b b') (m : Mode) :
    Par (fun x y => x = { y with ins := i &&& 0x0f }) (MappedUeUsageType.unmarshal m b) (MappedUeUsageType.unmarshal m b') := by
  par_all [MappedUeUsageType.unmarshal]

theorem SecondaryRatUsageDataReport.par (h : Off i j b b') (m : Mode) :
    Par (fun x y => x = { y with ins := i &&& 0x0f }) (SecondaryRatUsageDataReport.unmarshal m b) (SecondaryRatUsageDataReport.unmarshal m b') := by
  par_all [SecondaryRatUsageDataReport.unmarshal]

theorem UpFunctionSelectionIndicationFlags.par (h : Off i j b b') (m : Mode) :
    Par (fun x y => x = { y with ins := i &&& 0x0f }) (UpFunctionSelectionIndicationFlags.unmarshal m b) (UpFunctionSelectionIndicationFlags.unmarshal m b') := by
  par_all [UpFunctionSelectionIndicationFlags.unmarshal]

theorem MaxPacketLossRate.par (h : Off i j b b') (m : Mode) :
    Par (fun x y => x = { y with ins := i &&& 0x0f }) (MaxPacketLossRate.unmarshal m b) (MaxPacketLossRate.unmarshal m b') := by
  par_all [MaxPacketLossRate.unmarshal]

theorem ApnRateControlStatus.par (h : Off i j b b') (m : Mode) :
    Par (fun x y => x = { y with ins := i &&& 0x0f }) (ApnRateControlStatus.unmarshal m b) (ApnRateControlStatus.unmarshal m b') := by
  par_all [ApnRateControlStatus.unmarshal]

theorem ExtendedTraceInformation.par (h : Off i j b b') (m : Mode) :
    Par (fun x y => x = { y with ins := i }) (ExtendedTraceInformation.unmarshal m b) (ExtendedTraceInformation.unmarshal m b') := by
  par_all [ExtendedTraceInformation.unmarshal]

theorem MonitoringEventExtensionInfo.par (h : Off i j b b') (m : Mode) :
    Par (fun x y => x = { y with ins := i &&& 0x0f }) (MonitoringEventExtensionInfo.unmarshal m b) (MonitoringEventExtensionInfo.unmarshal m b') := by
  par_all [MonitoringEventExtensionInfo.unmarshal]

theorem AdditionalRrmPolicyIndex.par (h : Off i j b b') (m : Mode) :
    Par (fun x y => x = { y with ins := i &&& 0x0f }) (AdditionalRrmPolicyIndex.unmarshal m b) (AdditionalRrmPolicyIndex.unmarshal m b') := by
  par_all [AdditionalRrmPolicyIndex.unmarshal]

theorem ServicesAuthorized.par (h : Off i j b b') (m : Mode) :
    Par (fun x y => x = { y with ins := i &&& 0x0f }) (ServicesAuthorized.unmarshal m b) (ServicesAuthorized.unmarshal m b') := by
  par_all [ServicesAuthorized.unmarshal]

theorem BitRate.par (h : Off i j b b') (m : Mode) :
    Par (fun x y => x = { y with ins := i &&& 0x0f }) (BitRate.unmarshal m b) (BitRate.unmarshal m b') := by
  par_all [BitRate.unmarshal]

theorem PC5QosFlow.par (h : Off i j b b') (m : Mode) :
    Par (fun x y => x = { y with ins := i &&& 0x0f }) (PC5QosFlow.unmarshal m b) (PC5QosFlow.unmarshal m b') := by
  par_all [PC5QosFlow.unmarshal]

theorem SgiPtpTunnelAddress.par (h : Off i j b b') (m : Mode) :
    Par (fun x y => x = { y with ins := i &&& 0x0f }) (SgiPtpTunnelAddress.unmarshal m b) (SgiPtpTunnelAddress.unmarshal m b') := by
  par_all [SgiPtpTunnelAddress.unmarshal]

theorem PgwFqdn.par (h : Off i j b b') (m : Mode) :
    Par (fun x y => x = { y with ins := i &&& 0x0f }) (PgwFqdn.unmarshal m b) (PgwFqdn.unmarshal m b') := by
  par_all [PgwFqdn.unmarshal]

theorem GroupId.par (h : Off i j b b') (m : Mode) :
    Par (fun x y => x = { y with ins := i &&& 0x0f }) (GroupId.unmarshal m b) (GroupId.unmarshal m b') := by
  par_all [GroupId.unmarshal]

theorem PSCellId.par (h : Off i j b b') (m : Mode) :
    Par (fun x y => x = { y with ins := i &&& 0x0f }) (PSCellId.unmarshal m b) (PSCellId.unmarshal m b') := by
  par_all [PSCellId.unmarshal]

theorem UpSecurityPolicy.par (h : Off i j b b') (m : Mode) :
    Par (fun x y => x = { y with ins := i &&& 0x0f }) (UpSecurityPolicy.unmarshal m b) (UpSecurityPolicy.unmarshal m b') := by
  par_all [UpSecurityPolicy.unmarshal]

theorem AlternativeImsi.par (h : Off i j b b') (m : Mode) :
    Par (fun x y => x = { y with ins := i &&& 0x0f }) (AlternativeImsi.unmarshal m b) (AlternativeImsi.unmarshal m b') := by
  par_all [AlternativeImsi.unmarshal]

theorem SpecialIEWithTypeExt.par (h : Off i j b b') (m : Mode) :
    Par (fun x y => x = { y with ins := i &&& 0x0f }) (SpecialIEWithTypeExt.unmarshal m b) (SpecialIEWithTypeExt.unmarshal m b') := by
  par_all [SpecialIEWithTypeExt.unmarshal]

theorem PrivateExtension.par (h : Off i j b b') (m : Mode) :
    Par (fun x y => x = { y with ins := i &&& 0x0f }) (PrivateExtension.unmarshal m b) (PrivateExtension.unmarshal m b') := by
  par_all [PrivateExtension.unmarshal]

theorem Unknown.par (h : Off i j b b') (m : Mode) :
    Par (fun x y => x = { y with ins := i }) (Unknown.unmarshal m b) (Unknown.unmarshal m b') := by
  par_all [Unknown.unmarshal]

theorem MmContextEpsSecurityContextQuadruplets.par (h : Off i j b b') (m : Mode) :
    Par (fun x y => x = { y with ins := i &&& 0x0f }) (MmContextEpsSecurityContextQuadruplets.unmarshal m b) (MmContextEpsSecurityContextQuadruplets.unmarshal m b') := by
  par_all [MmContextEpsSecurityContextQuadruplets.unmarshal]

theorem MmContextUmtsKeyQuintuplets.par (h : Off i j b b') (m : Mode) :
    Par (fun x y => x = { y with ins := i &&& 0x0f }) (MmContextUmtsKeyQuintuplets.unmarshal m b) (MmContextUmtsKeyQuintuplets.unmarshal m b') := by
  par_all [MmContextUmtsKeyQuintuplets.unmarshal]

theorem MmContextUmtsKeyQuadrupletsQuintuplets.par (h : Off i j b b') (m : Mode) :
    Par (fun x y => x = { y with ins := i &&& 0x0f }) (MmContextUmtsKeyQuadrupletsQuintuplets.unmarshal m b) (MmContextUmtsKeyQuadrupletsQuintuplets.unmarshal m b') := by
  par_all [MmContextUmtsKeyQuadrupletsQuintuplets.unmarshal]

theorem MmContextUmtsKeyCipherQuintuplets.par (h : Off i j b b') (m : Mode) :
    Par (fun x y => x = { y with ins := i &&& 0x0f }) (MmContextUmtsKeyCipherQuintuplets.unmarshal m b) (MmContextUmtsKeyCipherQuintuplets.unmarshal m b') := by
  par_all [MmContextUmtsKeyCipherQuintuplets.unmarshal]

theorem MmContextGsmKeyTriplets.par (h : Off i j b b') (m : Mode) :
    Par (fun x y => x = { y with ins := i &&& 0x0f }) (MmContextGsmKeyTriplets.unmarshal m b) (MmContextGsmKeyTriplets.unmarshal m b') := by
  par_all [MmContextGsmKeyTriplets.unmarshal]

theorem MmContextGsmKeyCipherQuintuplets.par (h : Off i j b b') (m : Mode) :
    Par (fun x y => x = { y with ins := i &&& 0x0f }) (MmContextGsmKeyCipherQuintuplets.unmarshal m b) (MmContextGsmKeyCipherQuintuplets.unmarshal m b') := by
  par_all [MmContextGsmKeyCipherQuintuplets.unmarshal]

theorem MmContext.par (h : Off i j b b') (m : Mode) :
    Par (fun x y => x = y.setIns (i &&& 0x0f)) (MmContext.unmarshal m b) (MmContext.unmarshal m b') := by
  unfold MmContext.unmarshal
  refine (Par.rd h (by omega)).bind_eq fun t => ?_
  refine Par.ite (fun _ => (MmContextEpsSecurityContextQuadruplets.par h m).bind fun x y e => Par.pure (by rw [e]; rfl)) fun _ => ?_
  refine Par.ite (fun _ => (MmContextUmtsKeyQuintuplets.par h m).bind fun x y e => Par.pure (by rw [e]; rfl)) fun _ => ?_
  refine Par.ite (fun _ => (MmContextUmtsKeyQuadrupletsQuintuplets.par h m).bind fun x y e => Par.pure (by rw [e]; rfl)) fun _ => ?_
  refine Par.ite (fun _ => (MmContextUmtsKeyCipherQuintuplets.par h m).bind fun x y e => Par.pure (by rw [e]; rfl)) fun _ => ?_
  refine Par.ite (fun _ => (MmContextGsmKeyTriplets.par h m).bind fun x y e => Par.pure (by rw [e]; rfl)) fun _ => ?_
  refine Par.ite (fun _ => (MmContextGsmKeyCipherQuintuplets.par h m).bind fun x y e => Par.pure (by rw [e]; rfl)) fun _ => ?_
  exact Par.err _

/-- Its upper half also carries flags. -/
theorem MonitoringEventInformation.par (h : Off i j b b') (hf : i &&& 0xf0 = j &&& 0xf0) (m : Mode) :
    Par (fun x y => x = { y with ins := i &&& 0x0f }) (MonitoringEventInformation.unmarshal m b) (MonitoringEventInformation.unmarshal m b') := by
  have key : ∀ x : UInt8, (x &&& 0x80 = (x &&& 0xf0) &&& 0x80 ∧ hasBits x 0x20 = hasBits (x &&& 0xf0) 0x20) ∧
      hasBits x 0x10 = hasBits (x &&& 0xf0) 0x10 ∧ hasBits x 0x40 = hasBits (x &&& 0xf0) 0x40 := by decide +kernel
  obtain ⟨⟨a1, a2⟩, a3, a4⟩ := key i
  obtain ⟨⟨b1, b2⟩, b3, b4⟩ := key j
  simp only [MonitoringEventInformation.unmarshal, h.len]
  refine Par.ite (fun _ => ?_) fun _ => Par.err _
  refine (Par.rd16 h (by omega)).bind_eq fun _ => Par.bind_rd3 h ?_
  rw [a1, a2, a3, a4, b1, b2, b3, b4, hf]
  par_steps

theorem BearerContext.step_ins (s : BearerContext × Bool) (n : UInt8) (e : IE) :
    step ({ s.1 with ins := n }, s.2) e = ({ (step s e).1 with ins := n }, (step s e).2) := by
  unfold step
  split <;> (repeat' split) <;> rfl

theorem BearerContext.ofGroup_ins (t : UInt8) (n : UInt16) (i j : UInt8) (l : List IE) : ofGroup t n i l = { ofGroup t n j l with ins := i } := by
  suffices h : ∀ (l : List IE) (s : BearerContext × Bool), l.foldl step ({ s.1 with ins := i }, s.2) = ({ (l.foldl step s).1 with ins := i }, (l.foldl step s).2) from
    congrArg Prod.fst (h l (init t n j, false))
  intro l
  induction l with
  | nil => intro s; rfl
  | cons e l ih => intro s; rw [List.foldl_cons, List.foldl_cons, step_ins, ih]

theorem LoadControl.step_ins (s : LoadControl) (n : UInt8) (e : IE) : step { s with ins := n } e = { step s e with ins := n } := by
  unfold step
  split <;> (repeat' split) <;> rfl

theorem LoadControl.ofGroup_ins (t : UInt8) (n : UInt16) (i j : UInt8) (l : List IE) : ofGroup t n i l = { ofGroup t n j l with ins := i } := by
  suffices h : ∀ (l : List IE) (s : LoadControl), l.foldl step { s with ins := i } = { l.foldl step s with ins := i } from h l (init t n j)
  intro l
  induction l with
  | nil => intro s; rfl
  | cons e l ih => intro s; rw [List.foldl_cons, List.foldl_cons, step_ins, ih]

theorem OverloadControlInfo.step_ins (s : OverloadControlInfo) (n : UInt8) (e : IE) : step { s with ins := n } e = { step s e with ins := n } := by
  unfold step
  split <;> (repeat' split) <;> rfl

theorem OverloadControlInfo.ofGroup_ins (t : UInt8) (n : UInt16) (i j : UInt8) (l : List IE) : ofGroup t n i l = { ofGroup t n j l with ins := i } := by
  suffices h : ∀ (l : List IE) (s : OverloadControlInfo), l.foldl step { s with ins := i } = { l.foldl step s with ins := i } from h l (init t n j)
  intro l
  induction l with
  | nil => intro s; rfl
  | cons e l ih => intro s; rw [List.foldl_cons, List.foldl_cons, step_ins, ih]

theorem RemoteUeContext.step_ins (s : RemoteUeContext) (n : UInt8) (e : IE) : step { s with ins := n } e = { step s e with ins := n } := by
  unfold step
  split <;> (repeat' split) <;> rfl

theorem RemoteUeContext.ofGroup_ins (t : UInt8) (n : UInt16) (i j : UInt8) (l : List IE) : ofGroup t n i l = { ofGroup t n j l with ins := i } := by
  suffices h : ∀ (l : List IE) (s : RemoteUeContext), l.foldl step { s with ins := i } = { l.foldl step s with ins := i } from h l (init t n j)
  intro l
  induction l with
  | nil => intro s; rfl
  | cons e l ih => intro s; rw [List.foldl_cons, List.foldl_cons, step_ins, ih]

theorem ScefPdnConnections.step_ins (s : ScefPdnConnections) (n : UInt8) (e : IE) : step { s with ins := n } e = { step s e with ins := n } := by
  unfold step
  split <;> (repeat' split) <;> rfl

theorem ScefPdnConnections.ofGroup_ins (t : UInt8) (n : UInt16) (i j : UInt8) (l : List IE) : ofGroup t n i l = { ofGroup t n j l with ins := i } := by
  suffices h : ∀ (l : List IE) (s : ScefPdnConnections), l.foldl step { s with ins := i } = { l.foldl step s with ins := i } from h l (init t n j)
  intro l
  induction l with
  | nil => intro s; rfl
  | cons e l ih => intro s; rw [List.foldl_cons, List.foldl_cons, step_ins, ih]

theorem PC5QosParameters.step_ins (s : PC5QosParameters) (n : UInt8) (e : IE) : step { s with ins := n } e = { step s e with ins := n } := by
  unfold step
  split <;> (repeat' split) <;> rfl

theorem PC5QosParameters.ofGroup_ins (t : UInt8) (n : UInt16) (i j : UInt8) (l : List IE) : ofGroup t n i l = { ofGroup t n j l with ins := i } := by
  suffices h : ∀ (l : List IE) (s : PC5QosParameters), l.foldl step { s with ins := i } = { l.foldl step s with ins := i } from h l (init t n j)
  intro l
  induction l with
  | nil => intro s; rfl
  | cons e l ih => intro s; rw [List.foldl_cons, List.foldl_cons, step_ins, ih]

theorem PgwChangeInfo.step_ins (s : PgwChangeInfo) (n : UInt8) (e : IE) : step { s with ins := n } e = { step s e with ins := n } := by
  unfold step
  split <;> (repeat' split) <;> rfl

theorem PgwChangeInfo.ofGroup_ins (t : UInt8) (n : UInt16) (i j : UInt8) (l : List IE) : ofGroup t n i l = { ofGroup t n j l with ins := i } := by
  suffices h : ∀ (l : List IE) (s : PgwChangeInfo), l.foldl step { s with ins := i } = { l.foldl step s with ins := i } from h l (init t n j)
  intro l
  induction l with
  | nil => intro s; rfl
  | cons e l ih => intro s; rw [List.foldl_cons, List.foldl_cons, step_ins, ih]

theorem PdnConnections.step_ins (s : PdnConnections) (n : UInt8) (e : IE) : step { s with ins := n } e = { step s e with ins := n } := by
  unfold step
  split <;> (repeat' split) <;> rfl

theorem PdnConnections.ofGroup_ins (t : UInt8) (n : UInt16) (i j : UInt8) (l : List IE) : ofGroup t n i l = { ofGroup t n j l with ins := i } := by
  suffices h : ∀ (l : List IE) (s : PdnConnections), l.foldl step { s with ins := i } = { l.foldl step s with ins := i } from h l (init t n j)
  intro l
  induction l with
  | nil => intro s; rfl
  | cons e l ih => intro s; rw [List.foldl_cons, List.foldl_cons, step_ins, ih]

theorem V2xInformation.step_ins (s : V2xInformation) (n : UInt8) (e : IE) : step { s with ins := n } e = { step s e with ins := n } := by
  unfold step
  split <;> (repeat' split) <;> rfl

theorem V2xInformation.ofGroup_ins (t : UInt8) (n : UInt16) (i j : UInt8) (l : List IE) : ofGroup t n i l = { ofGroup t n j l with ins := i } := by
  suffices h : ∀ (l : List IE) (s : V2xInformation), l.foldl step { s with ins := i } = { l.foldl step s with ins := i } from h l (init t n j)
  intro l
  induction l with
  | nil => intro s; rfl
  | cons e l ih => intro s; rw [List.foldl_cons, List.foldl_cons, step_ins, ih]

theorem groupUnm.par {α : Type} {dec : Bytes → R Err (List IE)} {mk : UInt8 → UInt16 → UInt8 → List IE → α} {f : UInt8 → α → α}
    (hm : ∀ t n i j l, mk t n i l = f i (mk t n j l)) (h : Off i j b b') (m : Mode) :
    Par (fun x y => x = f i y) (groupUnm dec mk m b) (groupUnm dec mk m b') := by
  unfold groupUnm
  rw [h.len]
  refine Par.ite (fun _ => ?_) fun _ => (Par.rd h (by omega)).bind_eq fun _ => Par.err _
  refine (Par.rd h (by omega)).bind_eq fun _ => (Par.rd16 h (by omega)).bind_eq fun _ => Par.bind_rd3 h ?_
  refine (Par.checkTliv h _ _).bind_eq fun _ => Par.ite (fun _ => ?_) fun _ => Par.err _
  exact (Par.slBody16 h _ _).bind_eq fun _ => (Par.of_eq rfl).bind_eq fun _ => Par.pure (hm _ _ _ _ _)

/-- The kinds of IE of which the decoder keeps the whole octet as the instance (`ins: buffer[3]`): cmi.rs:83,
extendedtraceinfo.rs:94, groupedie.rs:42 (all grouped IEs), mbmsipmulticastdistribution.rs:94, mbmstimetodatatransfer.rs:56,
nodetype.rs:83, ptmsi.rs:60, sourceid.rs:213, targetid.rs:702, tmgi.rs:56, unknown.rs:42. -/
def Kind.keepsSpare : Kind → Bool
  | .BearerContext
  | .PdnConnections
  | .Ptmsi
  | .TargetIdentification
  | .SourceIdentification
  | .NodeType
  | .MbmsIpMulticastDistribution
  | .CsgMembershipIndication
  | .MbmsTimeToDataTransfer
  | .Tmgi
  | .OverloadControlInfo
  | .LoadControlInfo
  | .RemoteUeContext
  | .ScefPdnConnections
  | .ExtendedTraceInformation
  | .V2xInformation
  | .PC5QosParameters
  | .PgwChangeInfo
  | .Unknown => true
  | _ => false

/-- The instance read from the fourth octet. -/
def Kind.insOf (k : Kind) (i : UInt8) : UInt8 := if k.keepsSpare then i else i &&& 0x0f

theorem unmKind.par (dec : Bytes → R Err (List IE)) (h : Off i j b b') (m : Mode) (k : Kind)
    (hf : k = .MonitoringEventInformation → i &&& 0xf0 = j &&& 0xf0) :
    Par (fun x y => x = y.setIns (k.insOf i)) (unmKind dec m b k) (unmKind dec m b' k) := by
  cases k with
  | Imsi => exact (Imsi.par h m).bind fun x y e => Par.pure (by rw [e]; rfl)
  | Cause => exact (Cause.par h m).bind fun x y e => Par.pure (by rw [e]; rfl)
  | Recovery => exact (Recovery.par h m).bind fun x y e => Par.pure (by rw [e]; rfl)
  | StnSr => exact (StnSr.par h m).bind fun x y e => Par.pure (by rw [e]; rfl)
  | SrvccCause => exact (SrvccCause.par h m).bind fun x y e => Par.pure (by rw [e]; rfl)
  | Apn => exact (Apn.par h m).bind fun x y e => Par.pure (by rw [e]; rfl)
  | ApnAmbr => exact (Ambr.par h m).bind fun x y e => Par.pure (by rw [e]; rfl)
  | Ebi => exact (Ebi.par h m).bind fun x y e => Par.pure (by rw [e]; rfl)
  | IpAddress => exact (IpAddress.par h m).bind fun x y e => Par.pure (by rw [e]; rfl)
  | Mei => exact (Mei.par h m).bind fun x y e => Par.pure (by rw [e]; rfl)
  | Msisdn => exact (Msisdn.par h m).bind fun x y e => Par.pure (by rw [e]; rfl)
  | Indication => exact (Indication.par h m).bind fun x y e => Par.pure (by rw [e]; rfl)
  | Pco => exact (Pco.par h m).bind fun x y e => Par.pure (by rw [e]; rfl)
  | PdnAddressAllocation => exact (PdnAddressAllocation.par h m).bind fun x y e => Par.pure (by rw [e]; rfl)
  | BearerQos => exact (BearerQos.par h m).bind fun x y e => Par.pure (by rw [e]; rfl)
  | FlowQos => exact (FlowQos.par h m).bind fun x y e => Par.pure (by rw [e]; rfl)
  | RatType => exact (RatType.par h m).bind fun x y e => Par.pure (by rw [e]; rfl)
  | ServingNetwork => exact (ServingNetwork.par h m).bind fun x y e => Par.pure (by rw [e]; rfl)
  | BearerTft => exact (BearerTft.par h m).bind fun x y e => Par.pure (by rw [e]; rfl)
  | TrafficAggregateDescription => exact (TrafficAggregateDescription.par h m).bind fun x y e => Par.pure (by rw [e]; rfl)
  | Uli => exact (Uli.par h m).bind fun x y e => Par.pure (by rw [e]; rfl)
  | Fteid => exact (Fteid.par h m).bind fun x y e => Par.pure (by rw [e]; rfl)
  | Tmsi => exact (Tmsi.par h m).bind fun x y e => Par.pure (by rw [e]; rfl)
  | GlobalCnId => exact (GlobalCnId.par h m).bind fun x y e => Par.pure (by rw [e]; rfl)
  | S103pdf => exact (S103pdf.par h m).bind fun x y e => Par.pure (by rw [e]; rfl)
  | S1udf => exact (S1udf.par h m).bind fun x y e => Par.pure (by rw [e]; rfl)
  | DelayValue => exact (DelayValue.par h m).bind fun x y e => Par.pure (by rw [e]; rfl)
  | BearerContext => exact (groupUnm.par (f := fun i x => { x with ins := i }) BearerContext.ofGroup_ins h m).bind fun x y e => Par.pure (by rw [e]; rfl)
  | ChargingId => exact (ChargingId.par h m).bind fun x y e => Par.pure (by rw [e]; rfl)
  | ChargingCharacteristics => exact (ChargingCharacteristics.par h m).bind fun x y e => Par.pure (by rw [e]; rfl)
  | TraceInformation => exact (TraceInformation.par h m).bind fun x y e => Par.pure (by rw [e]; rfl)
  | BearerFlags => exact (BearerFlags.par h m).bind fun x y e => Par.pure (by rw [e]; rfl)
  | PdnType => exact (PdnType.par h m).bind fun x y e => Par.pure (by rw [e]; rfl)
  | Pti => exact (Pti.par h m).bind fun x y e => Par.pure (by rw [e]; rfl)
  | MmContext => exact (MmContext.par h m).bind fun x y e => Par.pure (by rw [e]; rfl)
  | PdnConnections => exact (groupUnm.par (f := fun i x => { x with ins := i }) PdnConnections.ofGroup_ins h m).bind fun x y e => Par.pure (by rw [e]; rfl)
  | PduNumbers => exact (PduNumbers.par h m).bind fun x y e => Par.pure (by rw [e]; rfl)
  | Ptmsi => exact (Ptmsi.par h m).bind fun x y e => Par.pure (by rw [e]; rfl)
  | PtmsiSignature => exact (PtmsiSignature.par h m).bind fun x y e => Par.pure (by rw [e]; rfl)
  | HopCounter => exact (HopCounter.par h m).bind fun x y e => Par.pure (by rw [e]; rfl)
  | UeTimeZone => exact (UeTimeZone.par h m).bind fun x y e => Par.pure (by rw [e]; rfl)
  | TraceReference => exact (TraceReference.par h m).bind fun x y e => Par.pure (by rw [e]; rfl)
  | CompleteRequestMessage => exact (CompleteRequestMessage.par h m).bind fun x y e => Par.pure (by rw [e]; rfl)
  | Guti => exact (Guti.par h m).bind fun x y e => Par.pure (by rw [e]; rfl)
  | Fcontainer => exact (Fcontainer.par h m).bind fun x y e => Par.pure (by rw [e]; rfl)
  | Fcause => exact (Fcause.par h m).bind fun x y e => Par.pure (by rw [e]; rfl)
  | PlmnId => exact (PlmnId.par h m).bind fun x y e => Par.pure (by rw [e]; rfl)
  | TargetIdentification => exact (TargetIdentification.par h m).bind fun x y e => Par.pure (by rw [e]; rfl)
  | PacketFlowId => exact (PacketFlowId.par h m).bind fun x y e => Par.pure (by rw [e]; rfl)
  | RabContext => exact (RabContext.par h m).bind fun x y e => Par.pure (by rw [e]; rfl)
  | SrcRncPdcpCtxInfo => exact (SourceRncPdcpContextInfo.par h m).bind fun x y e => Par.pure (by rw [e]; rfl)
  | PortNumber => exact (PortNumber.par h m).bind fun x y e => Par.pure (by rw [e]; rfl)
  | ApnRestriction => exact (ApnRestriction.par h m).bind fun x y e => Par.pure (by rw [e]; rfl)
  | SelectionMode => exact (SelectionMode.par h m).bind fun x y e => Par.pure (by rw [e]; rfl)
  | SourceIdentification => exact (SourceIdentification.par h m).bind fun x y e => Par.pure (by rw [e]; rfl)
  | ChangeReportingAction => exact (ChangeReportingAction.par h m).bind fun x y e => Par.pure (by rw [e]; rfl)
  | Fqcsid => exact (Fqcsid.par h m).bind fun x y e => Par.pure (by rw [e]; rfl)
  | ChannelNeeded => exact (ChannelNeeded.par h m).bind fun x y e => Par.pure (by rw [e]; rfl)
  | EmlppPriority => exact (EmlppPriority.par h m).bind fun x y e => Par.pure (by rw [e]; rfl)
  | NodeType => exact (NodeType.par h m).bind fun x y e => Par.pure (by rw [e]; rfl)
  | Fqdn => exact (Fqdn.par h m).bind fun x y e => Par.pure (by rw [e]; rfl)
  | TransactionIdentifier => exact (TransactionIdentifier.par h m).bind fun x y e => Par.pure (by rw [e]; rfl)
  | MbmsSa => exact (MbmsServiceArea.par h m).bind fun x y e => Par.pure (by rw [e]; rfl)
  | MbmsSd => exact (MbmsSessionDuration.par h m).bind fun x y e => Par.pure (by rw [e]; rfl)
  | MbmsSessionId => exact (MbmsSessionId.par h m).bind fun x y e => Par.pure (by rw [e]; rfl)
  | MbmsFlowId => exact (MbmsFlowId.par h m).bind fun x y e => Par.pure (by rw [e]; rfl)
  | MbmsIpMulticastDistribution => exact (MbmsIpMulticastDistribution.par h m).bind fun x y e => Par.pure (by rw [e]; rfl)
  | MbmsDistributionAck => exact (MbmsDistributionAck.par h m).bind fun x y e => Par.pure (by rw [e]; rfl)
  | RfspIndex => exact (RfspIndex.par h m).bind fun x y e => Par.pure (by rw [e]; rfl)
  | Uci => exact (Uci.par h m).bind fun x y e => Par.pure (by rw [e]; rfl)
  | CSGInformationReportingAction => exact (CSGInformationReportingAction.par h m).bind fun x y e => Par.pure (by rw [e]; rfl)
  | CsgId => exact (CsgId.par h m).bind fun x y e => Par.pure (by rw [e]; rfl)
  | CsgMembershipIndication => exact (CsgMembershipIndication.par h m).bind fun x y e => Par.pure (by rw [e]; rfl)
  | ServiceIndicator => exact (ServiceIndicator.par h m).bind fun x y e => Par.pure (by rw [e]; rfl)
  | DetachType => exact (DetachType.par h m).bind fun x y e => Par.pure (by rw [e]; rfl)
  | Ldn => exact (Ldn.par h m).bind fun x y e => Par.pure (by rw [e]; rfl)
  | NodeFeatures => exact (NodeFeatures.par h m).bind fun x y e => Par.pure (by rw [e]; rfl)
  | MbmsTimeToDataTransfer => exact (MbmsTimeToDataTransfer.par h m).bind fun x y e => Par.pure (by rw [e]; rfl)
  | Throttling => exact (Throttling.par h m).bind fun x y e => Par.pure (by rw [e]; rfl)
  | Arp => exact (Arp.par h m).bind fun x y e => Par.pure (by rw [e]; rfl)
  | EpcTimer => exact (EpcTimer.par h m).bind fun x y e => Par.pure (by rw [e]; rfl)
  | Spi => exact (Spi.par h m).bind fun x y e => Par.pure (by rw [e]; rfl)
  | Tmgi => exact (Tmgi.par h m).bind fun x y e => Par.pure (by rw [e]; rfl)
  | AdditionalMmContextForSrvcc => exact (AdditionalMmContextForSrvcc.par h m).bind fun x y e => Par.pure (by rw [e]; rfl)
  | AdditionalFlagsSrvcc => exact (AdditionalFlagsSrvcc.par h m).bind fun x y e => Par.pure (by rw [e]; rfl)
  | MdtConfiguration => exact (MdtConfiguration.par h m).bind fun x y e => Par.pure (by rw [e]; rfl)
  | Apco => exact (Apco.par h m).bind fun x y e => Par.pure (by rw [e]; rfl)
  | AbsoluteTimeMbmsDataTransfer => exact (AbsoluteTimeMbmsDataTransfer.par h m).bind fun x y e => Par.pure (by rw [e]; rfl)
  | HenbInfoReporting => exact (HenbInfoReporting.par h m).bind fun x y e => Par.pure (by rw [e]; rfl)
  | Ip4Cp => exact (Ip4Cp.par h m).bind fun x y e => Par.pure (by rw [e]; rfl)
  | ChangeToReportFlags => exact (ChangeToReportFlags.par h m).bind fun x y e => Par.pure (by rw [e]; rfl)
  | ActionIndication => exact (ActionIndication.par h m).bind fun x y e => Par.pure (by rw [e]; rfl)
  | TwanId => exact (TwanId.par h m).bind fun x y e => Par.pure (by rw [e]; rfl)
  | UliTimestamp => exact (UliTimestamp.par h m).bind fun x y e => Par.pure (by rw [e]; rfl)
  | MbmsFlags => exact (MbmsFlags.par h m).bind fun x y e => Par.pure (by rw [e]; rfl)
  | RanNasCause => exact (RanNasCause.par h m).bind fun x y e => Par.pure (by rw [e]; rfl)
  | CnOperatorSelectionEntity => exact (CnOperatorSelectionEntity.par h m).bind fun x y e => Par.pure (by rw [e]; rfl)
  | Twmi => exact (Twmi.par h m).bind fun x y e => Par.pure (by rw [e]; rfl)
  | NodeNumber => exact (NodeNumber.par h m).bind fun x y e => Par.pure (by rw [e]; rfl)
  | NodeIdentifier => exact (NodeIdentifier.par h m).bind fun x y e => Par.pure (by rw [e]; rfl)
  | PresenceReportingAreaAction => exact (PresenceReportingAreaAction.par h m).bind fun x y e => Par.pure (by rw [e]; rfl)
  | PresenceReportingAreaInformation => exact (PresenceReportingAreaInformation.par h m).bind fun x y e => Par.pure (by rw [e]; rfl)
  | TwanIdTimeStamp => exact (TwanIdTimeStamp.par h m).bind fun x y e => Par.pure (by rw [e]; rfl)
  | OverloadControlInfo =>
    refine (groupUnm.par (f := fun i x => { x with ins := i }) OverloadControlInfo.ofGroup_ins h m).bind fun x y e => ?_
    subst e
    unfold listCheck
    dsimp only
    split
    · exact Par.bind (Q := fun x y => x = { y with ins := i }) (Par.ite (fun _ => Par.err _) fun _ => Par.ok rfl) fun x y e => Par.pure (by rw [e]; rfl)
    · exact Par.pure rfl
  | LoadControlInfo =>
    refine (groupUnm.par (f := fun i x => { x with ins := i }) LoadControl.ofGroup_ins h m).bind fun x y e => ?_
    subst e
    unfold listCheck
    dsimp only
    split
    · exact Par.bind (Q := fun x y => x = { y with ins := i }) (Par.ite (fun _ => Par.err _) fun _ => Par.ok rfl) fun x y e => Par.pure (by rw [e]; rfl)
    · exact Par.pure rfl
  | Metric => exact (Metric.par h m).bind fun x y e => Par.pure (by rw [e]; rfl)
  | Sqn => exact (Sqn.par h m).bind fun x y e => Par.pure (by rw [e]; rfl)
  | ApnRelativeCapacity => exact (ApnRelativeCapacity.par h m).bind fun x y e => Par.pure (by rw [e]; rfl)
  | WlanOffloadIndication => exact (WlanOffloadIndication.par h m).bind fun x y e => Par.pure (by rw [e]; rfl)
  | PagingServiceInfo => exact (PagingServiceInfo.par h m).bind fun x y e => Par.pure (by rw [e]; rfl)
  | IntegerNumber => exact (IntegerNumber.par h m).bind fun x y e => Par.pure (by rw [e]; rfl)
  | MilliSecondTimeStamp => exact (MilliSecondTimeStamp.par h m).bind fun x y e => Par.pure (by rw [e]; rfl)
  | MonitoringEventInformation => exact (MonitoringEventInformation.par h (hf rfl) m).bind fun x y e => Par.pure (by rw [e]; rfl)
  | EcgiList => exact (EcgiList.par h m).bind fun x y e => Par.pure (by rw [e]; rfl)
  | RemoteUeContext => exact (groupUnm.par (f := fun i x => { x with ins := i }) RemoteUeContext.ofGroup_ins h m).bind fun x y e => Par.pure (by rw [e]; rfl)
  | RemoteUserId => exact (RemoteUserId.par h m).bind fun x y e => Par.pure (by rw [e]; rfl)
  | RemoteUeIpInformation => exact (RemoteUeIpInformation.par h m).bind fun x y e => Par.pure (by rw [e]; rfl)
  | CIoTOptimizationSupportIndication => exact (CIoTOptimizationSupportIndication.par h m).bind fun x y e => Par.pure (by rw [e]; rfl)
  | ScefPdnConnections => exact (groupUnm.par (f := fun i x => { x with ins := i }) ScefPdnConnections.ofGroup_ins h m).bind fun x y e => Par.pure (by rw [e]; rfl)
  | HeaderCompressionConfiguration => exact (HeaderCompressionConfiguration.par h m).bind fun x y e => Par.pure (by rw [e]; rfl)
  | Epco => exact (Epco.par h m).bind fun x y e => Par.pure (by rw [e]; rfl)
  | ServingPlmnRateControl => exact (ServingPlmnRateControl.par h m).bind fun x y e => Par.pure (by rw [e]; rfl)
  | Counter => exact (Counter.par h m).bind fun x y e => Par.pure (by rw [e]; rfl)
  | MappedUeUsageType => exact (MappedUeUsageType.par h m).bind fun x y e => Par.pure (by rw [e]; rfl)
  | SecondaryRatUsageDataReport => exact (SecondaryRatUsageDataReport.par h m).bind fun x y e => Par.pure (by rw [e]; rfl)
  | UpFunctionSelectionIndicationFlags => exact (UpFunctionSelectionIndicationFlags.par h m).bind fun x y e => Par.pure (by rw [e]; rfl)
  | MaxPacketLossRate => exact (MaxPacketLossRate.par h m).bind fun x y e => Par.pure (by rw [e]; rfl)
  | ApnRateControlStatus => exact (ApnRateControlStatus.par h m).bind fun x y e => Par.pure (by rw [e]; rfl)
  | ExtendedTraceInformation => exact (ExtendedTraceInformation.par h m).bind fun x y e => Par.pure (by rw [e]; rfl)
  | MonitoringEventExtensionInfo => exact (MonitoringEventExtensionInfo.par h m).bind fun x y e => Par.pure (by rw [e]; rfl)
  | AdditionalRrmPolicyIndex => exact (AdditionalRrmPolicyIndex.par h m).bind fun x y e => Par.pure (by rw [e]; rfl)
  | V2xInformation => exact (groupUnm.par (f := fun i x => { x with ins := i }) V2xInformation.ofGroup_ins h m).bind fun x y e => Par.pure (by rw [e]; rfl)
  | PC5QosParameters =>
    refine (groupUnm.par (f := fun i x => { x with ins := i }) PC5QosParameters.ofGroup_ins h m).bind fun x y e => ?_
    subst e
    exact Par.ite (fun _ => Par.err _) fun _ => Par.pure rfl
  | ServicesAuthorized => exact (ServicesAuthorized.par h m).bind fun x y e => Par.pure (by rw [e]; rfl)
  | BitRate => exact (BitRate.par h m).bind fun x y e => Par.pure (by rw [e]; rfl)
  | PC5QosFlow => exact (PC5QosFlow.par h m).bind fun x y e => Par.pure (by rw [e]; rfl)
  | SgiPtpTunnelAddress => exact (SgiPtpTunnelAddress.par h m).bind fun x y e => Par.pure (by rw [e]; rfl)
  | PgwChangeInfo => exact (groupUnm.par (f := fun i x => { x with ins := i }) PgwChangeInfo.ofGroup_ins h m).bind fun x y e => Par.pure (by rw [e]; rfl)
  | PgwFqdn => exact (PgwFqdn.par h m).bind fun x y e => Par.pure (by rw [e]; rfl)
  | GroupId => exact (GroupId.par h m).bind fun x y e => Par.pure (by rw [e]; rfl)
  | PSCellId => exact (PSCellId.par h m).bind fun x y e => Par.pure (by rw [e]; rfl)
  | UpSecurityPolicy => exact (UpSecurityPolicy.par h m).bind fun x y e => Par.pure (by rw [e]; rfl)
  | AlternativeImsi => exact (AlternativeImsi.par h m).bind fun x y e => Par.pure (by rw [e]; rfl)
  | SpecialIEWithTypeExt => exact (SpecialIEWithTypeExt.par h m).bind fun x y e => Par.pure (by rw [e]; rfl)
  | PrivateExtension => exact (PrivateExtension.par h m).bind fun x y e => Par.pure (by rw [e]; rfl)
  | Unknown => exact (Unknown.par h m).bind fun x y e => Par.pure (by rw [e]; rfl)

end

end Gtp.V2
