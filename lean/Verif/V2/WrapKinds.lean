import Verif.V2.WrapHard

/-!
# The decoders of the kinds in a release build

`same`: for a declared length below 65532 as in a debug build. `wrap`: for the other lengths, the conditions of `Kind.WrapCrash` and
`Kind.Spin`. Expanded by `scripts/gen_wrap.py`.
-/

namespace Gtp.V2

set_option linter.unusedSimpArgs false
set_option linter.unusedVariables false

variable {b : Bytes} {z : Prop}

theorem Imsi.same (h : declN b < 65532) : Imsi.unmarshal .release b = Imsi.unmarshal .debug b := by
  same_mode b, Imsi.unmarshal, h

theorem StnSr.same (h : declN b < 65532) : StnSr.unmarshal .release b = StnSr.unmarshal .debug b := by
  same_mode b, StnSr.unmarshal, h

theorem Apn.same (h : declN b < 65532) : Apn.unmarshal .release b = Apn.unmarshal .debug b := by
  same_mode b, Apn.unmarshal, h

theorem IpAddress.same (h : declN b < 65532) : IpAddress.unmarshal .release b = IpAddress.unmarshal .debug b := by
  same_mode b, IpAddress.unmarshal, h

theorem Mei.same (h : declN b < 65532) : Mei.unmarshal .release b = Mei.unmarshal .debug b := by
  same_mode b, Mei.unmarshal, h

theorem Msisdn.same (h : declN b < 65532) : Msisdn.unmarshal .release b = Msisdn.unmarshal .debug b := by
  same_mode b, Msisdn.unmarshal, h

theorem Pco.same (h : declN b < 65532) : Pco.unmarshal .release b = Pco.unmarshal .debug b := by
  same_mode b, Pco.unmarshal, h

theorem PdnAddressAllocation.same (h : declN b < 65532) : PdnAddressAllocation.unmarshal .release b = PdnAddressAllocation.unmarshal .debug b := by
  same_mode b, PdnAddressAllocation.unmarshal, h

theorem BearerTft.same (h : declN b < 65532) : BearerTft.unmarshal .release b = BearerTft.unmarshal .debug b := by
  same_mode b, BearerTft.unmarshal, h

theorem TrafficAggregateDescription.same (h : declN b < 65532) : TrafficAggregateDescription.unmarshal .release b = TrafficAggregateDescription.unmarshal .debug b := by
  same_mode b, TrafficAggregateDescription.unmarshal, h

theorem Uli.same (h : declN b < 65532) : Uli.unmarshal .release b = Uli.unmarshal .debug b := by
  same_mode b, Uli.unmarshal, h

theorem Fteid.same (h : declN b < 65532) : Fteid.unmarshal .release b = Fteid.unmarshal .debug b := by
  same_mode b, Fteid.unmarshal, h

theorem S103pdf.same (h : declN b < 65532) : S103pdf.unmarshal .release b = S103pdf.unmarshal .debug b := by
  same_mode b, S103pdf.unmarshal, h

theorem S1udf.same (h : declN b < 65532) : S1udf.unmarshal .release b = S1udf.unmarshal .debug b := by
  same_mode b, S1udf.unmarshal, h

theorem CompleteRequestMessage.same (h : declN b < 65532) : CompleteRequestMessage.unmarshal .release b = CompleteRequestMessage.unmarshal .debug b := by
  same_mode b, CompleteRequestMessage.unmarshal, h

theorem Fcontainer.same (h : declN b < 65532) : Fcontainer.unmarshal .release b = Fcontainer.unmarshal .debug b := by
  same_mode b, Fcontainer.unmarshal, h

theorem Fcause.same (h : declN b < 65532) : Fcause.unmarshal .release b = Fcause.unmarshal .debug b := by
  same_mode b, Fcause.unmarshal, h

theorem SourceRncPdcpContextInfo.same (h : declN b < 65532) : SourceRncPdcpContextInfo.unmarshal .release b = SourceRncPdcpContextInfo.unmarshal .debug b := by
  same_mode b, SourceRncPdcpContextInfo.unmarshal, h

theorem Fqcsid.same (h : declN b < 65532) : Fqcsid.unmarshal .release b = Fqcsid.unmarshal .debug b := by
  have h1 : ∀ x : UInt8, (UInt16.ofNat (9 + 2 * (x &&& 15).toNat - 4)).toNat < 65532 := by decide +kernel
  have h2 : ∀ x : UInt8, (UInt16.ofNat (21 + 2 * (x &&& 15).toNat - 4)).toNat < 65532 := by decide +kernel
  simp only [Fqcsid.unmarshal, checkTliv_same (h1 _), checkTliv_same (h2 _)]
  same_mode0 b, h

theorem Fqdn.same (h : declN b < 65532) : Fqdn.unmarshal .release b = Fqdn.unmarshal .debug b := by
  same_mode b, Fqdn.unmarshal, h

theorem MbmsServiceArea.same (h : declN b < 65532) : MbmsServiceArea.unmarshal .release b = MbmsServiceArea.unmarshal .debug b := by
  same_mode b, MbmsServiceArea.unmarshal, h

theorem MbmsIpMulticastDistribution.same (h : declN b < 65532) : MbmsIpMulticastDistribution.unmarshal .release b = MbmsIpMulticastDistribution.unmarshal .debug b := by
  same_mode b, MbmsIpMulticastDistribution.unmarshal, h

theorem Ldn.same (h : declN b < 65532) : Ldn.unmarshal .release b = Ldn.unmarshal .debug b := by
  same_mode b, Ldn.unmarshal, h

theorem Apco.same (h : declN b < 65532) : Apco.unmarshal .release b = Apco.unmarshal .debug b := by
  same_mode b, Apco.unmarshal, h

theorem RanNasCause.same (h : declN b < 65532) : RanNasCause.unmarshal .release b = RanNasCause.unmarshal .debug b := by
  same_mode b, RanNasCause.unmarshal, h

theorem NodeNumber.same (h : declN b < 65532) : NodeNumber.unmarshal .release b = NodeNumber.unmarshal .debug b := by
  same_mode b, NodeNumber.unmarshal, h

theorem NodeIdentifier.same (h : declN b < 65532) : NodeIdentifier.unmarshal .release b = NodeIdentifier.unmarshal .debug b := by
  same_mode b, NodeIdentifier.unmarshal, h

theorem PresenceReportingAreaAction.same (h : declN b < 65532) : PresenceReportingAreaAction.unmarshal .release b = PresenceReportingAreaAction.unmarshal .debug b := by
  same_mode b, PresenceReportingAreaAction.unmarshal, h

theorem ApnRelativeCapacity.same (h : declN b < 65532) : ApnRelativeCapacity.unmarshal .release b = ApnRelativeCapacity.unmarshal .debug b := by
  same_mode b, ApnRelativeCapacity.unmarshal, h

theorem IntegerNumber.same (h : declN b < 65532) : IntegerNumber.unmarshal .release b = IntegerNumber.unmarshal .debug b := by
  same_mode b, IntegerNumber.unmarshal, h

theorem RemoteUeIpInformation.same (h : declN b < 65532) : RemoteUeIpInformation.unmarshal .release b = RemoteUeIpInformation.unmarshal .debug b := by
  same_mode b, RemoteUeIpInformation.unmarshal, h

theorem Epco.same (h : declN b < 65532) : Epco.unmarshal .release b = Epco.unmarshal .debug b := by
  same_mode b, Epco.unmarshal, h

theorem MaxPacketLossRate.same (h : declN b < 65532) : MaxPacketLossRate.unmarshal .release b = MaxPacketLossRate.unmarshal .debug b := by
  have h1 : (3 : UInt16).toNat < 65532 := by decide
  have h2 : (5 : UInt16).toNat < 65532 := by decide
  simp only [MaxPacketLossRate.unmarshal, checkTliv_same h1, checkTliv_same h2]

theorem MonitoringEventExtensionInfo.same (h : declN b < 65532) : MonitoringEventExtensionInfo.unmarshal .release b = MonitoringEventExtensionInfo.unmarshal .debug b := by
  same_mode b, MonitoringEventExtensionInfo.unmarshal, h

theorem PC5QosFlow.same (h : declN b < 65532) : PC5QosFlow.unmarshal .release b = PC5QosFlow.unmarshal .debug b := by
  same_mode b, PC5QosFlow.unmarshal, h

theorem SgiPtpTunnelAddress.same (h : declN b < 65532) : SgiPtpTunnelAddress.unmarshal .release b = SgiPtpTunnelAddress.unmarshal .debug b := by
  same_mode b, SgiPtpTunnelAddress.unmarshal, h

theorem PgwFqdn.same (h : declN b < 65532) : PgwFqdn.unmarshal .release b = PgwFqdn.unmarshal .debug b := by
  same_mode b, PgwFqdn.unmarshal, h

theorem GroupId.same (h : declN b < 65532) : GroupId.unmarshal .release b = GroupId.unmarshal .debug b := by
  same_mode b, GroupId.unmarshal, h

theorem AlternativeImsi.same (h : declN b < 65532) : AlternativeImsi.unmarshal .release b = AlternativeImsi.unmarshal .debug b := by
  same_mode b, AlternativeImsi.unmarshal, h

theorem SpecialIEWithTypeExt.same (h : declN b < 65532) : SpecialIEWithTypeExt.unmarshal .release b = SpecialIEWithTypeExt.unmarshal .debug b := by
  same_mode b, SpecialIEWithTypeExt.unmarshal, h

theorem PrivateExtension.same (h : declN b < 65532) : PrivateExtension.unmarshal .release b = PrivateExtension.unmarshal .debug b := by
  same_mode b, PrivateExtension.unmarshal, h

theorem Imsi.wrap (h : 65532 ≤ declN b) :
    ((Imsi.unmarshal .release b).Safe fun x => (Imsi.len .release x).Safe fun n => z → n ≠ 0) ↔
      ¬ (5 ≤ b.length ∧ b.length < declN b + 4) ∧ (z → ¬ False) := by
  have h1 := (declLen b).toNat_lt
  crash_unfold
  safe_simp [Imsi.unmarshal, Imsi.len, Safe_checkTliv_wrap h, Safe_ieLen16_wrap h, Safe_slBody16_wrap h, Safe_add4_wrap, wrap4 h, ieLenU, size_ne, ← UInt8.toNat_inj, ← UInt16.toNat_inj, UInt8.reduceToNat, UInt16.reduceToNat]
  by_cases hz : z
  · simp only [hz, decide_eq_true_eq, ne_eq, and_false, not_false_eq_true, implies_true, and_true, imp_false, true_implies, false_and, not_true, true_and, iff_true, or_false, false_or]
    try omega
  · simp only [hz, false_implies, implies_true, and_true, imp_false, decide_eq_true_eq, not_false_eq_true, true_and, iff_true, or_false, false_or]
    try omega

theorem Cause.wrap (h : 65532 ≤ declN b) :
    ((Cause.unmarshal .release b).Safe fun x => (Cause.len .release x).Safe fun n => z → n ≠ 0) ↔
      ¬ (False) ∧ (z → ¬ False) := by
  have h1 := (declLen b).toNat_lt
  crash_unfold
  safe_simp [Cause.unmarshal, Cause.len, Safe_checkTliv_wrap h, Safe_ieLen16_wrap h, Safe_slBody16_wrap h, Safe_add4_wrap, wrap4 h, ieLenU, size_ne, ← UInt8.toNat_inj, ← UInt16.toNat_inj, UInt8.reduceToNat, UInt16.reduceToNat]
  by_cases hz : z
  · simp only [hz, decide_eq_true_eq, ne_eq, and_false, not_false_eq_true, implies_true, and_true, imp_false, true_implies, false_and, not_true, true_and, iff_true, or_false, false_or]
    try omega
  · simp only [hz, false_implies, implies_true, and_true, imp_false, decide_eq_true_eq, not_false_eq_true, true_and, iff_true, or_false, false_or]
    try omega

theorem StnSr.wrap (h : 65532 ≤ declN b) :
    ((StnSr.unmarshal .release b).Safe fun x => (StnSr.len .release x).Safe fun n => z → n ≠ 0) ↔
      ¬ (4 ≤ b.length) ∧ (z → ¬ False) := by
  have h1 := (declLen b).toNat_lt
  crash_unfold
  safe_simp [StnSr.unmarshal, StnSr.len, Safe_checkTliv_wrap h, Safe_ieLen16_wrap h, Safe_slBody16_wrap h, Safe_add4_wrap, wrap4 h, ieLenU, size_ne, ← UInt8.toNat_inj, ← UInt16.toNat_inj, UInt8.reduceToNat, UInt16.reduceToNat]
  by_cases hz : z
  · simp only [hz, decide_eq_true_eq, ne_eq, and_false, not_false_eq_true, implies_true, and_true, imp_false, true_implies, false_and, not_true, true_and, iff_true, or_false, false_or]
    try omega
  · simp only [hz, false_implies, implies_true, and_true, imp_false, decide_eq_true_eq, not_false_eq_true, true_and, iff_true, or_false, false_or]
    try omega

theorem IpAddress.wrap (h : 65532 ≤ declN b) :
    ((IpAddress.unmarshal .release b).Safe fun x => (IpAddress.len .release x).Safe fun n => z → n ≠ 0) ↔
      ¬ (False) ∧ (z → ¬ False) := by
  have h1 := (declLen b).toNat_lt
  crash_unfold
  safe_simp [IpAddress.unmarshal, IpAddress.len, Safe_checkTliv_wrap h, Safe_ieLen16_wrap h, Safe_slBody16_wrap h, Safe_add4_wrap, wrap4 h, ieLenU, size_ne, ← UInt8.toNat_inj, ← UInt16.toNat_inj, UInt8.reduceToNat, UInt16.reduceToNat]
  by_cases hz : z
  · simp only [hz, decide_eq_true_eq, ne_eq, and_false, not_false_eq_true, implies_true, and_true, imp_false, true_implies, false_and, not_true, true_and, iff_true, or_false, false_or]
    try omega
  · simp only [hz, false_implies, implies_true, and_true, imp_false, decide_eq_true_eq, not_false_eq_true, true_and, iff_true, or_false, false_or]
    try omega

theorem Mei.wrap (h : 65532 ≤ declN b) :
    ((Mei.unmarshal .release b).Safe fun x => (Mei.len .release x).Safe fun n => z → n ≠ 0) ↔
      ¬ (4 ≤ b.length) ∧ (z → ¬ False) := by
  have h1 := (declLen b).toNat_lt
  crash_unfold
  safe_simp [Mei.unmarshal, Mei.len, Safe_checkTliv_wrap h, Safe_ieLen16_wrap h, Safe_slBody16_wrap h, Safe_add4_wrap, wrap4 h, ieLenU, size_ne, ← UInt8.toNat_inj, ← UInt16.toNat_inj, UInt8.reduceToNat, UInt16.reduceToNat]
  by_cases hz : z
  · simp only [hz, decide_eq_true_eq, ne_eq, and_false, not_false_eq_true, implies_true, and_true, imp_false, true_implies, false_and, not_true, true_and, iff_true, or_false, false_or]
    try omega
  · simp only [hz, false_implies, implies_true, and_true, imp_false, decide_eq_true_eq, not_false_eq_true, true_and, iff_true, or_false, false_or]
    try omega

theorem Msisdn.wrap (h : 65532 ≤ declN b) :
    ((Msisdn.unmarshal .release b).Safe fun x => (Msisdn.len .release x).Safe fun n => z → n ≠ 0) ↔
      ¬ (4 ≤ b.length) ∧ (z → ¬ False) := by
  have h1 := (declLen b).toNat_lt
  crash_unfold
  safe_simp [Msisdn.unmarshal, Msisdn.len, Safe_checkTliv_wrap h, Safe_ieLen16_wrap h, Safe_slBody16_wrap h, Safe_add4_wrap, wrap4 h, ieLenU, size_ne, ← UInt8.toNat_inj, ← UInt16.toNat_inj, UInt8.reduceToNat, UInt16.reduceToNat]
  by_cases hz : z
  · simp only [hz, decide_eq_true_eq, ne_eq, and_false, not_false_eq_true, implies_true, and_true, imp_false, true_implies, false_and, not_true, true_and, iff_true, or_false, false_or]
    try omega
  · simp only [hz, false_implies, implies_true, and_true, imp_false, decide_eq_true_eq, not_false_eq_true, true_and, iff_true, or_false, false_or]
    try omega

theorem Pco.wrap (h : 65532 ≤ declN b) :
    ((Pco.unmarshal .release b).Safe fun x => (Pco.len .release x).Safe fun n => z → n ≠ 0) ↔
      ¬ (4 ≤ b.length) ∧ (z → ¬ False) := by
  have h1 := (declLen b).toNat_lt
  crash_unfold
  safe_simp [Pco.unmarshal, Pco.len, Safe_checkTliv_wrap h, Safe_ieLen16_wrap h, Safe_slBody16_wrap h, Safe_add4_wrap, wrap4 h, ieLenU, size_ne, ← UInt8.toNat_inj, ← UInt16.toNat_inj, UInt8.reduceToNat, UInt16.reduceToNat]
  by_cases hz : z
  · simp only [hz, decide_eq_true_eq, ne_eq, and_false, not_false_eq_true, implies_true, and_true, imp_false, true_implies, false_and, not_true, true_and, iff_true, or_false, false_or]
    try omega
  · simp only [hz, false_implies, implies_true, and_true, imp_false, decide_eq_true_eq, not_false_eq_true, true_and, iff_true, or_false, false_or]
    try omega

theorem PdnAddressAllocation.wrap (h : 65532 ≤ declN b) :
    ((PdnAddressAllocation.unmarshal .release b).Safe fun x => (PdnAddressAllocation.len .release x).Safe fun n => z → n ≠ 0) ↔
      ¬ (5 ≤ b.length ∧ (octAt b 4 = 1 ∧ b.length < 9 ∨ octAt b 4 = 2 ∧ b.length < 22 ∨ octAt b 4 = 3 ∧ b.length < 26)) ∧ (z → ¬ False) := by
  have h1 := (declLen b).toNat_lt
  crash_unfold
  safe_simp [PdnAddressAllocation.unmarshal, PdnAddressAllocation.len, Safe_checkTliv_wrap h, Safe_ieLen16_wrap h, Safe_slBody16_wrap h, Safe_add4_wrap, wrap4 h, ieLenU, size_ne, ← UInt8.toNat_inj, ← UInt16.toNat_inj, UInt8.reduceToNat, UInt16.reduceToNat]
  by_cases hz : z
  · simp only [hz, decide_eq_true_eq, ne_eq, and_false, not_false_eq_true, implies_true, and_true, imp_false, true_implies, false_and, not_true, true_and, iff_true, or_false, false_or]
    try omega
  · simp only [hz, false_implies, implies_true, and_true, imp_false, decide_eq_true_eq, not_false_eq_true, true_and, iff_true, or_false, false_or]
    try omega

theorem BearerTft.wrap (h : 65532 ≤ declN b) :
    ((BearerTft.unmarshal .release b).Safe fun x => (BearerTft.len .release x).Safe fun n => z → n ≠ 0) ↔
      ¬ (4 ≤ b.length ∧ b.length < declN b + 4) ∧ (z → ¬ False) := by
  have h1 := (declLen b).toNat_lt
  crash_unfold
  safe_simp [BearerTft.unmarshal, BearerTft.len, Safe_checkTliv_wrap h, Safe_ieLen16_wrap h, Safe_slBody16_wrap h, Safe_add4_wrap, wrap4 h, ieLenU, size_ne, ← UInt8.toNat_inj, ← UInt16.toNat_inj, UInt8.reduceToNat, UInt16.reduceToNat]
  by_cases hz : z
  · simp only [hz, decide_eq_true_eq, ne_eq, and_false, not_false_eq_true, implies_true, and_true, imp_false, true_implies, false_and, not_true, true_and, iff_true, or_false, false_or]
    try omega
  · simp only [hz, false_implies, implies_true, and_true, imp_false, decide_eq_true_eq, not_false_eq_true, true_and, iff_true, or_false, false_or]
    try omega

theorem TrafficAggregateDescription.wrap (h : 65532 ≤ declN b) :
    ((TrafficAggregateDescription.unmarshal .release b).Safe fun x => (TrafficAggregateDescription.len .release x).Safe fun n => z → n ≠ 0) ↔
      ¬ (4 ≤ b.length ∧ b.length < declN b + 4) ∧ (z → ¬ False) := by
  have h1 := (declLen b).toNat_lt
  crash_unfold
  safe_simp [TrafficAggregateDescription.unmarshal, TrafficAggregateDescription.len, Safe_checkTliv_wrap h, Safe_ieLen16_wrap h, Safe_slBody16_wrap h, Safe_add4_wrap, wrap4 h, ieLenU, size_ne, ← UInt8.toNat_inj, ← UInt16.toNat_inj, UInt8.reduceToNat, UInt16.reduceToNat]
  by_cases hz : z
  · simp only [hz, decide_eq_true_eq, ne_eq, and_false, not_false_eq_true, implies_true, and_true, imp_false, true_implies, false_and, not_true, true_and, iff_true, or_false, false_or]
    try omega
  · simp only [hz, false_implies, implies_true, and_true, imp_false, decide_eq_true_eq, not_false_eq_true, true_and, iff_true, or_false, false_or]
    try omega

theorem S103pdf.wrap (h : 65532 ≤ declN b) :
    ((S103pdf.unmarshal .release b).Safe fun x => (S103pdf.len .release x).Safe fun n => z → n ≠ 0) ↔
      ¬ (4 ≤ b.length ∧ (b.length = 4 ∨ octAt b 4 = 4 ∧ b.length < 14 ∨ octAt b 4 = 16 ∧ (b.length = 25 ∨ 25 < b.length ∧ b.length = 25 + octAt b 25))) ∧ (z → ¬ False) := by
  have h1 := (declLen b).toNat_lt
  crash_unfold
  safe_simp [S103pdf.unmarshal, S103pdf.len, Safe_checkTliv_wrap h, Safe_ieLen16_wrap h, Safe_slBody16_wrap h, Safe_add4_wrap, wrap4 h, ieLenU, size_ne, ← UInt8.toNat_inj, ← UInt16.toNat_inj, UInt8.reduceToNat, UInt16.reduceToNat]
  by_cases hz : z
  · simp only [hz, decide_eq_true_eq, ne_eq, and_false, not_false_eq_true, implies_true, and_true, imp_false, true_implies, false_and, not_true, true_and, iff_true, or_false, false_or]
    try omega
  · simp only [hz, false_implies, implies_true, and_true, imp_false, decide_eq_true_eq, not_false_eq_true, true_and, iff_true, or_false, false_or]
    try omega

theorem S1udf.wrap (h : 65532 ≤ declN b) :
    ((S1udf.unmarshal .release b).Safe fun x => (S1udf.len .release x).Safe fun n => z → n ≠ 0) ↔
      ¬ (4 ≤ b.length ∧ (b.length < 6 ∨ octAt b 5 = 4 ∧ b.length < 14 ∨ octAt b 5 = 16 ∧ 22 ≤ b.length ∧ b.length < 26)) ∧ (z → ¬ False) := by
  have h1 := (declLen b).toNat_lt
  crash_unfold
  safe_simp [S1udf.unmarshal, S1udf.len, Safe_checkTliv_wrap h, Safe_ieLen16_wrap h, Safe_slBody16_wrap h, Safe_add4_wrap, wrap4 h, ieLenU, size_ne, ← UInt8.toNat_inj, ← UInt16.toNat_inj, UInt8.reduceToNat, UInt16.reduceToNat]
  by_cases hz : z
  · simp only [hz, decide_eq_true_eq, ne_eq, and_false, not_false_eq_true, implies_true, and_true, imp_false, true_implies, false_and, not_true, true_and, iff_true, or_false, false_or]
    try omega
  · simp only [hz, false_implies, implies_true, and_true, imp_false, decide_eq_true_eq, not_false_eq_true, true_and, iff_true, or_false, false_or]
    try omega

theorem CompleteRequestMessage.wrap (h : 65532 ≤ declN b) :
    ((CompleteRequestMessage.unmarshal .release b).Safe fun x => (CompleteRequestMessage.len .release x).Safe fun n => z → n ≠ 0) ↔
      ¬ (5 ≤ b.length ∧ octAt b 4 < 2 ∧ b.length < declN b + 4) ∧ (z → ¬ (declN b = 65532 ∧ 5 ≤ b.length ∧ (2 ≤ octAt b 4 ∨ 65536 ≤ b.length))) := by
  have h1 := (declLen b).toNat_lt
  crash_unfold
  safe_simp [CompleteRequestMessage.unmarshal, CompleteRequestMessage.len, Safe_checkTliv_wrap h, Safe_ieLen16_wrap h, Safe_slBody16_wrap h, Safe_add4_wrap, wrap4 h, ieLenU, size_ne, ← UInt8.toNat_inj, ← UInt16.toNat_inj, UInt8.reduceToNat, UInt16.reduceToNat]
  by_cases hz : z
  · simp only [hz, decide_eq_true_eq, ne_eq, and_false, not_false_eq_true, implies_true, and_true, imp_false, true_implies, false_and, not_true, true_and, iff_true, or_false, false_or]
    try omega
  · simp only [hz, false_implies, implies_true, and_true, imp_false, decide_eq_true_eq, not_false_eq_true, true_and, iff_true, or_false, false_or]
    try omega

theorem Fcause.wrap (h : 65532 ≤ declN b) :
    ((Fcause.unmarshal .release b).Safe fun x => (Fcause.len .release x).Safe fun n => z → n ≠ 0) ↔
      ¬ (5 ≤ b.length ∧ b.length < declN b + 4) ∧ (z → ¬ False) := by
  have h1 := (declLen b).toNat_lt
  crash_unfold
  safe_simp [Fcause.unmarshal, Fcause.len, Safe_checkTliv_wrap h, Safe_ieLen16_wrap h, Safe_slBody16_wrap h, Safe_add4_wrap, wrap4 h, ieLenU, size_ne, ← UInt8.toNat_inj, ← UInt16.toNat_inj, UInt8.reduceToNat, UInt16.reduceToNat]
  by_cases hz : z
  · simp only [hz, decide_eq_true_eq, ne_eq, and_false, not_false_eq_true, implies_true, and_true, imp_false, true_implies, false_and, not_true, true_and, iff_true, or_false, false_or]
    try omega
  · simp only [hz, false_implies, implies_true, and_true, imp_false, decide_eq_true_eq, not_false_eq_true, true_and, iff_true, or_false, false_or]
    try omega

theorem SourceRncPdcpContextInfo.wrap (h : 65532 ≤ declN b) :
    ((SourceRncPdcpContextInfo.unmarshal .release b).Safe fun x => (SourceRncPdcpContextInfo.len .release x).Safe fun n => z → n ≠ 0) ↔
      ¬ (4 ≤ b.length) ∧ (z → ¬ False) := by
  have h1 := (declLen b).toNat_lt
  crash_unfold
  safe_simp [SourceRncPdcpContextInfo.unmarshal, SourceRncPdcpContextInfo.len, Safe_checkTliv_wrap h, Safe_ieLen16_wrap h, Safe_slBody16_wrap h, Safe_add4_wrap, wrap4 h, ieLenU, size_ne, ← UInt8.toNat_inj, ← UInt16.toNat_inj, UInt8.reduceToNat, UInt16.reduceToNat]
  by_cases hz : z
  · simp only [hz, decide_eq_true_eq, ne_eq, and_false, not_false_eq_true, implies_true, and_true, imp_false, true_implies, false_and, not_true, true_and, iff_true, or_false, false_or]
    try omega
  · simp only [hz, false_implies, implies_true, and_true, imp_false, decide_eq_true_eq, not_false_eq_true, true_and, iff_true, or_false, false_or]
    try omega

theorem MbmsServiceArea.wrap (h : 65532 ≤ declN b) :
    ((MbmsServiceArea.unmarshal .release b).Safe fun x => (MbmsServiceArea.len .release x).Safe fun n => z → n ≠ 0) ↔
      ¬ (b.length = 4) ∧ (z → ¬ False) := by
  have h1 := (declLen b).toNat_lt
  crash_unfold
  safe_simp [MbmsServiceArea.unmarshal, MbmsServiceArea.len, Safe_checkTliv_wrap h, Safe_ieLen16_wrap h, Safe_slBody16_wrap h, Safe_add4_wrap, wrap4 h, ieLenU, size_ne, ← UInt8.toNat_inj, ← UInt16.toNat_inj, UInt8.reduceToNat, UInt16.reduceToNat]
  by_cases hz : z
  · simp only [hz, decide_eq_true_eq, ne_eq, and_false, not_false_eq_true, implies_true, and_true, imp_false, true_implies, false_and, not_true, true_and, iff_true, or_false, false_or]
    try omega
  · simp only [hz, false_implies, implies_true, and_true, imp_false, decide_eq_true_eq, not_false_eq_true, true_and, iff_true, or_false, false_or]
    try omega

theorem Ldn.wrap (h : 65532 ≤ declN b) :
    ((Ldn.unmarshal .release b).Safe fun x => (Ldn.len .release x).Safe fun n => z → n ≠ 0) ↔
      ¬ (4 ≤ b.length ∧ b.length < declN b + 4) ∧ (z → ¬ (declN b = 65532 ∧ 65536 ≤ b.length)) := by
  have h1 := (declLen b).toNat_lt
  crash_unfold
  safe_simp [Ldn.unmarshal, Ldn.len, Safe_checkTliv_wrap h, Safe_ieLen16_wrap h, Safe_slBody16_wrap h, Safe_add4_wrap, wrap4 h, ieLenU, size_ne, ← UInt8.toNat_inj, ← UInt16.toNat_inj, UInt8.reduceToNat, UInt16.reduceToNat]
  by_cases hz : z
  · simp only [hz, decide_eq_true_eq, ne_eq, and_false, not_false_eq_true, implies_true, and_true, imp_false, true_implies, false_and, not_true, true_and, iff_true, or_false, false_or]
    try omega
  · simp only [hz, false_implies, implies_true, and_true, imp_false, decide_eq_true_eq, not_false_eq_true, true_and, iff_true, or_false, false_or]
    try omega

theorem Apco.wrap (h : 65532 ≤ declN b) :
    ((Apco.unmarshal .release b).Safe fun x => (Apco.len .release x).Safe fun n => z → n ≠ 0) ↔
      ¬ (4 ≤ b.length ∧ b.length < declN b + 4) ∧ (z → ¬ False) := by
  have h1 := (declLen b).toNat_lt
  crash_unfold
  safe_simp [Apco.unmarshal, Apco.len, Safe_checkTliv_wrap h, Safe_ieLen16_wrap h, Safe_slBody16_wrap h, Safe_add4_wrap, wrap4 h, ieLenU, size_ne, ← UInt8.toNat_inj, ← UInt16.toNat_inj, UInt8.reduceToNat, UInt16.reduceToNat]
  by_cases hz : z
  · simp only [hz, decide_eq_true_eq, ne_eq, and_false, not_false_eq_true, implies_true, and_true, imp_false, true_implies, false_and, not_true, true_and, iff_true, or_false, false_or]
    try omega
  · simp only [hz, false_implies, implies_true, and_true, imp_false, decide_eq_true_eq, not_false_eq_true, true_and, iff_true, or_false, false_or]
    try omega

theorem RanNasCause.wrap (h : 65532 ≤ declN b) :
    ((RanNasCause.unmarshal .release b).Safe fun x => (RanNasCause.len .release x).Safe fun n => z → n ≠ 0) ↔
      ¬ (False) ∧ (z → ¬ False) := by
  have h1 := (declLen b).toNat_lt
  crash_unfold
  safe_simp [RanNasCause.unmarshal, RanNasCause.len, Safe_checkTliv_wrap h, Safe_ieLen16_wrap h, Safe_slBody16_wrap h, Safe_add4_wrap, wrap4 h, ieLenU, size_ne, ← UInt8.toNat_inj, ← UInt16.toNat_inj, UInt8.reduceToNat, UInt16.reduceToNat]
  by_cases hz : z
  · simp only [hz, decide_eq_true_eq, ne_eq, and_false, not_false_eq_true, implies_true, and_true, imp_false, true_implies, false_and, not_true, true_and, iff_true, or_false, false_or]
    try omega
  · simp only [hz, false_implies, implies_true, and_true, imp_false, decide_eq_true_eq, not_false_eq_true, true_and, iff_true, or_false, false_or]
    try omega

theorem NodeIdentifier.wrap (h : 65532 ≤ declN b) :
    ((NodeIdentifier.unmarshal .release b).Safe fun x => (NodeIdentifier.len .release x).Safe fun n => z → n ≠ 0) ↔
      ¬ (False) ∧ (z → ¬ False) := by
  have h1 := (declLen b).toNat_lt
  crash_unfold
  safe_simp [NodeIdentifier.unmarshal, NodeIdentifier.len, Safe_checkTliv_wrap h, Safe_ieLen16_wrap h, Safe_slBody16_wrap h, Safe_add4_wrap, wrap4 h, ieLenU, size_ne, ← UInt8.toNat_inj, ← UInt16.toNat_inj, UInt8.reduceToNat, UInt16.reduceToNat]
  by_cases hz : z
  · simp only [hz, decide_eq_true_eq, ne_eq, and_false, not_false_eq_true, implies_true, and_true, imp_false, true_implies, false_and, not_true, true_and, iff_true, or_false, false_or]
    try omega
  · simp only [hz, false_implies, implies_true, and_true, imp_false, decide_eq_true_eq, not_false_eq_true, true_and, iff_true, or_false, false_or]
    try omega

theorem IntegerNumber.wrap (h : 65532 ≤ declN b) :
    ((IntegerNumber.unmarshal .release b).Safe fun x => (IntegerNumber.len .release x).Safe fun n => z → n ≠ 0) ↔
      ¬ (4 ≤ b.length ∧ b.length < declN b + 4) ∧ (z → ¬ False) := by
  have h1 := (declLen b).toNat_lt
  crash_unfold
  safe_simp [IntegerNumber.unmarshal, IntegerNumber.len, Safe_checkTliv_wrap h, Safe_ieLen16_wrap h, Safe_slBody16_wrap h, Safe_add4_wrap, wrap4 h, ieLenU, size_ne, ← UInt8.toNat_inj, ← UInt16.toNat_inj, UInt8.reduceToNat, UInt16.reduceToNat]
  by_cases hz : z
  · simp only [hz, decide_eq_true_eq, ne_eq, and_false, not_false_eq_true, implies_true, and_true, imp_false, true_implies, false_and, not_true, true_and, iff_true, or_false, false_or]
    try omega
  · simp only [hz, false_implies, implies_true, and_true, imp_false, decide_eq_true_eq, not_false_eq_true, true_and, iff_true, or_false, false_or]
    try omega

theorem RemoteUeIpInformation.wrap (h : 65532 ≤ declN b) :
    ((RemoteUeIpInformation.unmarshal .release b).Safe fun x => (RemoteUeIpInformation.len .release x).Safe fun n => z → n ≠ 0) ↔
      ¬ (5 ≤ b.length ∧ (octAt b 4 = 1 ∧ b.length < 9 ∨ octAt b 4 = 2 ∧ b.length < 13)) ∧ (z → ¬ (declN b = 65532 ∧ 5 ≤ b.length ∧ (octAt b 4 = 0 ∨ octAt b 4 = 1 ∧ 9 ≤ b.length ∨ octAt b 4 = 2 ∧ 13 ≤ b.length))) := by
  have h1 := (declLen b).toNat_lt
  crash_unfold
  safe_simp [RemoteUeIpInformation.unmarshal, RemoteUeIpInformation.len, Safe_checkTliv_wrap h, Safe_ieLen16_wrap h, Safe_slBody16_wrap h, Safe_add4_wrap, wrap4 h, ieLenU, size_ne, ← UInt8.toNat_inj, ← UInt16.toNat_inj, UInt8.reduceToNat, UInt16.reduceToNat]
  by_cases hz : z
  · simp only [hz, decide_eq_true_eq, ne_eq, and_false, not_false_eq_true, implies_true, and_true, imp_false, true_implies, false_and, not_true, true_and, iff_true, or_false, false_or]
    try omega
  · simp only [hz, false_implies, implies_true, and_true, imp_false, decide_eq_true_eq, not_false_eq_true, true_and, iff_true, or_false, false_or]
    try omega

theorem Epco.wrap (h : 65532 ≤ declN b) :
    ((Epco.unmarshal .release b).Safe fun x => (Epco.len .release x).Safe fun n => z → n ≠ 0) ↔
      ¬ (4 ≤ b.length) ∧ (z → ¬ False) := by
  have h1 := (declLen b).toNat_lt
  crash_unfold
  safe_simp [Epco.unmarshal, Epco.len, Safe_checkTliv_wrap h, Safe_ieLen16_wrap h, Safe_slBody16_wrap h, Safe_add4_wrap, wrap4 h, ieLenU, size_ne, ← UInt8.toNat_inj, ← UInt16.toNat_inj, UInt8.reduceToNat, UInt16.reduceToNat]
  by_cases hz : z
  · simp only [hz, decide_eq_true_eq, ne_eq, and_false, not_false_eq_true, implies_true, and_true, imp_false, true_implies, false_and, not_true, true_and, iff_true, or_false, false_or]
    try omega
  · simp only [hz, false_implies, implies_true, and_true, imp_false, decide_eq_true_eq, not_false_eq_true, true_and, iff_true, or_false, false_or]
    try omega

theorem PC5QosFlow.wrap (h : 65532 ≤ declN b) :
    ((PC5QosFlow.unmarshal .release b).Safe fun x => (PC5QosFlow.len .release x).Safe fun n => z → n ≠ 0) ↔
      ¬ (4 ≤ b.length ∧ (b.length < 14 ∨ b.getD 4 0 &&& 1 = 1 ∧ b.length < 15)) ∧ (z → ¬ False) := by
  have h1 := (declLen b).toNat_lt
  crash_unfold
  safe_simp [PC5QosFlow.unmarshal, PC5QosFlow.len, Safe_checkTliv_wrap h, Safe_ieLen16_wrap h, Safe_slBody16_wrap h, Safe_add4_wrap, wrap4 h, ieLenU, size_ne, ← UInt8.toNat_inj, ← UInt16.toNat_inj, UInt8.reduceToNat, UInt16.reduceToNat]
  by_cases hz : z
  · simp only [hz, decide_eq_true_eq, ne_eq, and_false, not_false_eq_true, implies_true, and_true, imp_false, true_implies, false_and, not_true, true_and, iff_true, or_false, false_or]
    try omega
  · simp only [hz, false_implies, implies_true, and_true, imp_false, decide_eq_true_eq, not_false_eq_true, true_and, iff_true, or_false, false_or]
    try omega

theorem SgiPtpTunnelAddress.wrap (h : 65532 ≤ declN b) :
    ((SgiPtpTunnelAddress.unmarshal .release b).Safe fun x => (SgiPtpTunnelAddress.len .release x).Safe fun n => z → n ≠ 0) ↔
      ¬ (False) ∧ (z → ¬ False) := by
  have h1 := (declLen b).toNat_lt
  crash_unfold
  safe_simp [SgiPtpTunnelAddress.unmarshal, SgiPtpTunnelAddress.len, Safe_checkTliv_wrap h, Safe_ieLen16_wrap h, Safe_slBody16_wrap h, Safe_add4_wrap, wrap4 h, ieLenU, size_ne, ← UInt8.toNat_inj, ← UInt16.toNat_inj, UInt8.reduceToNat, UInt16.reduceToNat]
  by_cases hz : z
  · simp only [hz, decide_eq_true_eq, ne_eq, and_false, not_false_eq_true, implies_true, and_true, imp_false, true_implies, false_and, not_true, true_and, iff_true, or_false, false_or]
    try omega
  · simp only [hz, false_implies, implies_true, and_true, imp_false, decide_eq_true_eq, not_false_eq_true, true_and, iff_true, or_false, false_or]
    try omega

theorem GroupId.wrap (h : 65532 ≤ declN b) :
    ((GroupId.unmarshal .release b).Safe fun x => (GroupId.len .release x).Safe fun n => z → n ≠ 0) ↔
      ¬ (4 ≤ b.length ∧ b.length < declN b + 4) ∧ (z → ¬ False) := by
  have h1 := (declLen b).toNat_lt
  crash_unfold
  safe_simp [GroupId.unmarshal, GroupId.len, Safe_checkTliv_wrap h, Safe_ieLen16_wrap h, Safe_slBody16_wrap h, Safe_add4_wrap, wrap4 h, ieLenU, size_ne, ← UInt8.toNat_inj, ← UInt16.toNat_inj, UInt8.reduceToNat, UInt16.reduceToNat]
  by_cases hz : z
  · simp only [hz, decide_eq_true_eq, ne_eq, and_false, not_false_eq_true, implies_true, and_true, imp_false, true_implies, false_and, not_true, true_and, iff_true, or_false, false_or]
    try omega
  · simp only [hz, false_implies, implies_true, and_true, imp_false, decide_eq_true_eq, not_false_eq_true, true_and, iff_true, or_false, false_or]
    try omega

theorem AlternativeImsi.wrap (h : 65532 ≤ declN b) :
    ((AlternativeImsi.unmarshal .release b).Safe fun x => (AlternativeImsi.len .release x).Safe fun n => z → n ≠ 0) ↔
      ¬ (5 ≤ b.length ∧ b.length < declN b + 4) ∧ (z → ¬ False) := by
  have h1 := (declLen b).toNat_lt
  crash_unfold
  safe_simp [AlternativeImsi.unmarshal, AlternativeImsi.len, Safe_checkTliv_wrap h, Safe_ieLen16_wrap h, Safe_slBody16_wrap h, Safe_add4_wrap, wrap4 h, ieLenU, size_ne, ← UInt8.toNat_inj, ← UInt16.toNat_inj, UInt8.reduceToNat, UInt16.reduceToNat]
  by_cases hz : z
  · simp only [hz, decide_eq_true_eq, ne_eq, and_false, not_false_eq_true, implies_true, and_true, imp_false, true_implies, false_and, not_true, true_and, iff_true, or_false, false_or]
    try omega
  · simp only [hz, false_implies, implies_true, and_true, imp_false, decide_eq_true_eq, not_false_eq_true, true_and, iff_true, or_false, false_or]
    try omega

theorem SpecialIEWithTypeExt.wrap (h : 65532 ≤ declN b) :
    ((SpecialIEWithTypeExt.unmarshal .release b).Safe fun x => (SpecialIEWithTypeExt.len .release x).Safe fun n => z → n ≠ 0) ↔
      ¬ (5 ≤ b.length ∧ b.length < declN b + 4) ∧ (z → ¬ False) := by
  have h1 := (declLen b).toNat_lt
  crash_unfold
  safe_simp [SpecialIEWithTypeExt.unmarshal, SpecialIEWithTypeExt.len, Safe_checkTliv_wrap h, Safe_ieLen16_wrap h, Safe_slBody16_wrap h, Safe_add4_wrap, wrap4 h, ieLenU, size_ne, ← UInt8.toNat_inj, ← UInt16.toNat_inj, UInt8.reduceToNat, UInt16.reduceToNat]
  by_cases hz : z
  · simp only [hz, decide_eq_true_eq, ne_eq, and_false, not_false_eq_true, implies_true, and_true, imp_false, true_implies, false_and, not_true, true_and, iff_true, or_false, false_or]
    try omega
  · simp only [hz, false_implies, implies_true, and_true, imp_false, decide_eq_true_eq, not_false_eq_true, true_and, iff_true, or_false, false_or]
    try omega

theorem PrivateExtension.wrap (h : 65532 ≤ declN b) :
    ((PrivateExtension.unmarshal .release b).Safe fun x => (PrivateExtension.len .release x).Safe fun n => z → n ≠ 0) ↔
      ¬ (7 ≤ b.length) ∧ (z → ¬ False) := by
  have h1 := (declLen b).toNat_lt
  crash_unfold
  safe_simp [PrivateExtension.unmarshal, PrivateExtension.len, Safe_checkTliv_wrap h, Safe_ieLen16_wrap h, Safe_slBody16_wrap h, Safe_add4_wrap, wrap4 h, ieLenU, size_ne, ← UInt8.toNat_inj, ← UInt16.toNat_inj, UInt8.reduceToNat, UInt16.reduceToNat]
  by_cases hz : z
  · simp only [hz, decide_eq_true_eq, ne_eq, and_false, not_false_eq_true, implies_true, and_true, imp_false, true_implies, false_and, not_true, true_and, iff_true, or_false, false_or]
    try omega
  · simp only [hz, false_implies, implies_true, and_true, imp_false, decide_eq_true_eq, not_false_eq_true, true_and, iff_true, or_false, false_or]
    try omega

end Gtp.V2
