import Verif.V2.PanicHard

/-!
# When the decoder of an information element panics: the kinds without a cursor

Expanded by `scripts/gen_panic.py`.
-/

namespace Gtp.V2

set_option linter.unusedSimpArgs false

theorem Imsi.quiet (b : Bytes) : Quiet Imsi.unmarshal Imsi.len b ↔ ¬ Over 5 b := by
  by_cases hl : (declLen b).toNat < 65532
  · exact iff_of_true (quiet_of (Imsi.safe .debug b hl trivial)) fun h => absurd hl (Nat.not_lt.mpr h.2)
  · crash_unfold
    safe_simp [Imsi.unmarshal, Imsi.len, Safe_checkTliv_debug, Safe_add4_debug, Safe_ieLen16_debug, Safe_slBody16_debug, hl, false_and, and_false, imp_false, or_false]
    omega

theorem Cause.quiet (b : Bytes) : Quiet Cause.unmarshal Cause.len b := by
  by_cases hl : (declLen b).toNat < 65532
  · exact quiet_of (Cause.safe .debug b hl trivial)
  · unfold declLen at *
    unfold Quiet
    safe_simp [Cause.unmarshal, Cause.len, Safe_checkTliv_debug, Safe_add4_debug, Safe_ieLen16_debug, Safe_slBody16_debug, hl, false_and, and_false, imp_false, or_false]
    first | omega | safe_fin

theorem StnSr.quiet (b : Bytes) : Quiet StnSr.unmarshal StnSr.len b ↔ ¬ Over 4 b := by
  by_cases hl : (declLen b).toNat < 65532
  · exact iff_of_true (quiet_of (StnSr.safe .debug b hl trivial)) fun h => absurd hl (Nat.not_lt.mpr h.2)
  · crash_unfold
    safe_simp [StnSr.unmarshal, StnSr.len, Safe_checkTliv_debug, Safe_add4_debug, Safe_ieLen16_debug, Safe_slBody16_debug, hl, false_and, and_false, imp_false, or_false]
    omega

theorem Apn.quiet (b : Bytes) : Quiet Apn.unmarshal Apn.len b ↔
    ¬ (Over 4 b ∨ Full b ∧ ¬ Labels ((b.take (4 + declN b)).drop 4)) := by
  by_cases hl : declN b < 65532
  · crash_unfold
    safe_simp [Apn.unmarshal, Apn.len, Safe_checkTliv_debug, Safe_add4_debug, Safe_ieLen16_debug, Safe_slBody16_debug, hl, Safe_decName]
    by_cases hb : Labels ((b.take (4 + (of16 (b.getD 1 0) (b.getD 2 0)).toNat)).drop 4)
    · simp only [hb, not_true, and_false, or_false, and_true]
      omega
    · simp only [hb, not_false_eq_true, and_true, and_false, imp_false]
      omega
  · crash_unfold
    safe_simp [Apn.unmarshal, Apn.len, Safe_checkTliv_debug, Safe_add4_debug, Safe_ieLen16_debug, Safe_slBody16_debug, hl, false_and, and_false, imp_false, or_false]
    omega

theorem IpAddress.quiet (b : Bytes) : Quiet IpAddress.unmarshal IpAddress.len b ↔ ¬ Over 4 b := by
  by_cases hl : (declLen b).toNat < 65532
  · exact iff_of_true (quiet_of (IpAddress.safe .debug b hl trivial)) fun h => absurd hl (Nat.not_lt.mpr h.2)
  · crash_unfold
    safe_simp [IpAddress.unmarshal, IpAddress.len, Safe_checkTliv_debug, Safe_add4_debug, Safe_ieLen16_debug, Safe_slBody16_debug, hl, false_and, and_false, imp_false, or_false]
    omega

theorem Mei.quiet (b : Bytes) : Quiet Mei.unmarshal Mei.len b ↔ ¬ Over 4 b := by
  by_cases hl : (declLen b).toNat < 65532
  · exact iff_of_true (quiet_of (Mei.safe .debug b hl)) fun h => absurd hl (Nat.not_lt.mpr h.2)
  · crash_unfold
    safe_simp [Mei.unmarshal, Mei.len, Safe_checkTliv_debug, Safe_add4_debug, Safe_ieLen16_debug, Safe_slBody16_debug, hl, false_and, and_false, imp_false, or_false]
    omega

theorem Msisdn.quiet (b : Bytes) : Quiet Msisdn.unmarshal Msisdn.len b ↔ ¬ Over 4 b := by
  by_cases hl : (declLen b).toNat < 65532
  · exact iff_of_true (quiet_of (Msisdn.safe .debug b hl trivial)) fun h => absurd hl (Nat.not_lt.mpr h.2)
  · crash_unfold
    safe_simp [Msisdn.unmarshal, Msisdn.len, Safe_checkTliv_debug, Safe_add4_debug, Safe_ieLen16_debug, Safe_slBody16_debug, hl, false_and, and_false, imp_false, or_false]
    omega

theorem Indication.quiet (b : Bytes) : Quiet Indication.unmarshal Indication.len b ↔
    ¬ (4 ≤ b.length ∧ b.length < declN b + 4) := by
  crash_unfold
  have h4 : (4 : UInt16).toNat = 4 := rfl
  safe_simp [Indication.unmarshal, Indication.len, Safe_checkTliv_debug, Safe_add4_debug, Safe_ieLen16_debug, Safe_slBody16_debug, ← UInt8.toNat_inj, UInt8.reduceToNat, UInt16.toNat_add, h4, List.length_drop, List.length_take]
  omega

theorem Pco.quiet (b : Bytes) : Quiet Pco.unmarshal Pco.len b ↔ ¬ Over 4 b := by
  by_cases hl : (declLen b).toNat < 65532
  · exact iff_of_true (quiet_of (Pco.safe .debug b hl trivial)) fun h => absurd hl (Nat.not_lt.mpr h.2)
  · crash_unfold
    safe_simp [Pco.unmarshal, Pco.len, Safe_checkTliv_debug, Safe_add4_debug, Safe_ieLen16_debug, Safe_slBody16_debug, hl, false_and, and_false, imp_false, or_false]
    omega

theorem PdnAddressAllocation.quiet (b : Bytes) : Quiet PdnAddressAllocation.unmarshal PdnAddressAllocation.len b ↔ ¬ Over 5 b := by
  by_cases hl : (declLen b).toNat < 65532
  · exact iff_of_true (quiet_of (PdnAddressAllocation.safe .debug b hl trivial)) fun h => absurd hl (Nat.not_lt.mpr h.2)
  · crash_unfold
    safe_simp [PdnAddressAllocation.unmarshal, PdnAddressAllocation.len, Safe_checkTliv_debug, Safe_add4_debug, Safe_ieLen16_debug, Safe_slBody16_debug, hl, false_and, and_false, imp_false, or_false]
    omega

theorem BearerTft.quiet (b : Bytes) : Quiet BearerTft.unmarshal BearerTft.len b ↔ ¬ Over 4 b := by
  by_cases hl : (declLen b).toNat < 65532
  · exact iff_of_true (quiet_of (BearerTft.safe .debug b hl trivial)) fun h => absurd hl (Nat.not_lt.mpr h.2)
  · crash_unfold
    safe_simp [BearerTft.unmarshal, BearerTft.len, Safe_checkTliv_debug, Safe_add4_debug, Safe_ieLen16_debug, Safe_slBody16_debug, hl, false_and, and_false, imp_false, or_false]
    omega

theorem TrafficAggregateDescription.quiet (b : Bytes) : Quiet TrafficAggregateDescription.unmarshal TrafficAggregateDescription.len b ↔ ¬ Over 4 b := by
  by_cases hl : (declLen b).toNat < 65532
  · exact iff_of_true (quiet_of (TrafficAggregateDescription.safe .debug b hl trivial)) fun h => absurd hl (Nat.not_lt.mpr h.2)
  · crash_unfold
    safe_simp [TrafficAggregateDescription.unmarshal, TrafficAggregateDescription.len, Safe_checkTliv_debug, Safe_add4_debug, Safe_ieLen16_debug, Safe_slBody16_debug, hl, false_and, and_false, imp_false, or_false]
    omega

theorem Tmsi.quiet (b : Bytes) : Quiet Tmsi.unmarshal Tmsi.len b := by
  by_cases hl : (declLen b).toNat < 65532
  · exact quiet_of (Tmsi.safe .debug b hl trivial)
  · unfold declLen at *
    unfold Quiet
    safe_simp [Tmsi.unmarshal, Tmsi.len, Safe_checkTliv_debug, Safe_add4_debug, Safe_ieLen16_debug, Safe_slBody16_debug, hl, false_and, and_false, imp_false, or_false]
    first | omega | safe_fin

theorem S103pdf.quiet (b : Bytes) : Quiet S103pdf.unmarshal S103pdf.len b ↔
    ¬ (Over 4 b ∨ Full b ∧ (octAt b 4 = 4 ∧ b.length < 14 ∨ octAt b 4 = 16 ∧ (b.length = 25 ∨ 25 < b.length ∧ b.length = 25 + octAt b 25))) := by
  crash_unfold
  have h4 : (4 : UInt16).toNat = 4 := rfl
  safe_simp [S103pdf.unmarshal, S103pdf.len, Safe_checkTliv_debug, Safe_add4_debug, Safe_ieLen16_debug, Safe_slBody16_debug, ← UInt8.toNat_inj, UInt8.reduceToNat, UInt16.toNat_add, h4, List.length_drop, List.length_take]
  omega

theorem S1udf.quiet (b : Bytes) : Quiet S1udf.unmarshal S1udf.len b ↔
    ¬ (Over 4 b ∨ Full b ∧ (b.length < 6 ∨ octAt b 5 = 4 ∧ b.length < 14 ∨ octAt b 5 = 16 ∧ 22 ≤ b.length ∧ b.length < 26)) := by
  crash_unfold
  have h4 : (4 : UInt16).toNat = 4 := rfl
  safe_simp [S1udf.unmarshal, S1udf.len, Safe_checkTliv_debug, Safe_add4_debug, Safe_ieLen16_debug, Safe_slBody16_debug, ← UInt8.toNat_inj, UInt8.reduceToNat, UInt16.toNat_add, h4, List.length_drop, List.length_take]
  omega

theorem BearerFlags.quiet (b : Bytes) : Quiet BearerFlags.unmarshal BearerFlags.len b := by
  by_cases hl : (declLen b).toNat < 65532
  · exact quiet_of (BearerFlags.safe .debug b hl trivial)
  · unfold declLen at *
    unfold Quiet
    safe_simp [BearerFlags.unmarshal, BearerFlags.len, Safe_checkTliv_debug, Safe_add4_debug, Safe_ieLen16_debug, Safe_slBody16_debug, hl, false_and, and_false, imp_false, or_false]
    first | omega | safe_fin

theorem PduNumbers.quiet (b : Bytes) : Quiet PduNumbers.unmarshal PduNumbers.len b := by
  by_cases hl : (declLen b).toNat < 65532
  · exact quiet_of (PduNumbers.safe .debug b hl trivial)
  · unfold declLen at *
    unfold Quiet
    safe_simp [PduNumbers.unmarshal, PduNumbers.len, Safe_checkTliv_debug, Safe_add4_debug, Safe_ieLen16_debug, Safe_slBody16_debug, hl, false_and, and_false, imp_false, or_false]
    first | omega | safe_fin

theorem HopCounter.quiet (b : Bytes) : Quiet HopCounter.unmarshal HopCounter.len b := by
  by_cases hl : (declLen b).toNat < 65532
  · exact quiet_of (HopCounter.safe .debug b hl trivial)
  · unfold declLen at *
    unfold Quiet
    safe_simp [HopCounter.unmarshal, HopCounter.len, Safe_checkTliv_debug, Safe_add4_debug, Safe_ieLen16_debug, Safe_slBody16_debug, hl, false_and, and_false, imp_false, or_false]
    first | omega | safe_fin

theorem CompleteRequestMessage.quiet (b : Bytes) : Quiet CompleteRequestMessage.unmarshal CompleteRequestMessage.len b ↔ ¬ Over 5 b := by
  by_cases hl : (declLen b).toNat < 65532
  · exact iff_of_true (quiet_of (CompleteRequestMessage.safe .debug b hl trivial)) fun h => absurd hl (Nat.not_lt.mpr h.2)
  · crash_unfold
    safe_simp [CompleteRequestMessage.unmarshal, CompleteRequestMessage.len, Safe_checkTliv_debug, Safe_add4_debug, Safe_ieLen16_debug, Safe_slBody16_debug, hl, false_and, and_false, imp_false, or_false]
    omega

theorem Fcontainer.quiet (b : Bytes) : Quiet Fcontainer.unmarshal Fcontainer.len b ↔ ¬ Over 5 b := by
  by_cases hl : (declLen b).toNat < 65532
  · exact iff_of_true (quiet_of (Fcontainer.safe .debug b hl trivial)) fun h => absurd hl (Nat.not_lt.mpr h.2)
  · crash_unfold
    safe_simp [Fcontainer.unmarshal, Fcontainer.len, Safe_checkTliv_debug, Safe_add4_debug, Safe_ieLen16_debug, Safe_slBody16_debug, hl, false_and, and_false, imp_false, or_false]
    omega

theorem Fcause.quiet (b : Bytes) : Quiet Fcause.unmarshal Fcause.len b ↔ ¬ Over 5 b := by
  by_cases hl : (declLen b).toNat < 65532
  · exact iff_of_true (quiet_of (Fcause.safe .debug b hl trivial)) fun h => absurd hl (Nat.not_lt.mpr h.2)
  · crash_unfold
    safe_simp [Fcause.unmarshal, Fcause.len, Safe_checkTliv_debug, Safe_add4_debug, Safe_ieLen16_debug, Safe_slBody16_debug, hl, false_and, and_false, imp_false, or_false]
    omega

theorem SourceRncPdcpContextInfo.quiet (b : Bytes) : Quiet SourceRncPdcpContextInfo.unmarshal SourceRncPdcpContextInfo.len b ↔ ¬ Over 4 b := by
  by_cases hl : (declLen b).toNat < 65532
  · exact iff_of_true (quiet_of (SourceRncPdcpContextInfo.safe .debug b hl trivial)) fun h => absurd hl (Nat.not_lt.mpr h.2)
  · crash_unfold
    safe_simp [SourceRncPdcpContextInfo.unmarshal, SourceRncPdcpContextInfo.len, Safe_checkTliv_debug, Safe_add4_debug, Safe_ieLen16_debug, Safe_slBody16_debug, hl, false_and, and_false, imp_false, or_false]
    omega

theorem Fqcsid.quiet (b : Bytes) : Quiet Fqcsid.unmarshal Fqcsid.len b ↔ ¬ Over 5 b := by
  by_cases hl : (declLen b).toNat < 65532
  · exact iff_of_true (quiet_of (Fqcsid.safe .debug b hl trivial)) fun h => absurd hl (Nat.not_lt.mpr h.2)
  · crash_unfold
    safe_simp [Fqcsid.unmarshal, Fqcsid.len, Safe_checkTliv_debug, Safe_add4_debug, Safe_ieLen16_debug, Safe_slBody16_debug, hl, false_and, and_false, imp_false, or_false]
    omega

theorem Fqdn.quiet (b : Bytes) : Quiet Fqdn.unmarshal Fqdn.len b ↔
    ¬ (Over 4 b ∨ Full b ∧ ¬ Labels ((b.take (4 + declN b)).drop 4)) := by
  by_cases hl : declN b < 65532
  · crash_unfold
    safe_simp [Fqdn.unmarshal, Fqdn.len, Safe_checkTliv_debug, Safe_add4_debug, Safe_ieLen16_debug, Safe_slBody16_debug, hl, Safe_decName]
    by_cases hb : Labels ((b.take (4 + (of16 (b.getD 1 0) (b.getD 2 0)).toNat)).drop 4)
    · simp only [hb, not_true, and_false, or_false, and_true]
      omega
    · simp only [hb, not_false_eq_true, and_true, and_false, imp_false]
      omega
  · crash_unfold
    safe_simp [Fqdn.unmarshal, Fqdn.len, Safe_checkTliv_debug, Safe_add4_debug, Safe_ieLen16_debug, Safe_slBody16_debug, hl, false_and, and_false, imp_false, or_false]
    omega

theorem TransactionIdentifier.quiet (b : Bytes) : Quiet TransactionIdentifier.unmarshal TransactionIdentifier.len b := by
  by_cases hl : (declLen b).toNat < 65532
  · exact quiet_of (TransactionIdentifier.safe .debug b hl trivial)
  · unfold declLen at *
    unfold Quiet
    safe_simp [TransactionIdentifier.unmarshal, TransactionIdentifier.len, Safe_checkTliv_debug, Safe_add4_debug, Safe_ieLen16_debug, Safe_slBody16_debug, hl, false_and, and_false, imp_false, or_false]
    first | omega | safe_fin

theorem MbmsServiceArea.quiet (b : Bytes) : Quiet MbmsServiceArea.unmarshal MbmsServiceArea.len b ↔ ¬ Over 4 b := by
  by_cases hl : (declLen b).toNat < 65532
  · exact iff_of_true (quiet_of (MbmsServiceArea.safe .debug b hl trivial)) fun h => absurd hl (Nat.not_lt.mpr h.2)
  · crash_unfold
    safe_simp [MbmsServiceArea.unmarshal, MbmsServiceArea.len, Safe_checkTliv_debug, Safe_add4_debug, Safe_ieLen16_debug, Safe_slBody16_debug, hl, false_and, and_false, imp_false, or_false]
    omega

theorem Ldn.quiet (b : Bytes) : Quiet Ldn.unmarshal Ldn.len b ↔ ¬ Over 4 b := by
  by_cases hl : (declLen b).toNat < 65532
  · exact iff_of_true (quiet_of (Ldn.safe .debug b hl trivial)) fun h => absurd hl (Nat.not_lt.mpr h.2)
  · crash_unfold
    safe_simp [Ldn.unmarshal, Ldn.len, Safe_checkTliv_debug, Safe_add4_debug, Safe_ieLen16_debug, Safe_slBody16_debug, hl, false_and, and_false, imp_false, or_false]
    omega

theorem Arp.quiet (b : Bytes) : Quiet Arp.unmarshal Arp.len b := by
  by_cases hl : (declLen b).toNat < 65532
  · exact quiet_of (Arp.safe .debug b hl trivial)
  · unfold declLen at *
    unfold Quiet
    safe_simp [Arp.unmarshal, Arp.len, Safe_checkTliv_debug, Safe_add4_debug, Safe_ieLen16_debug, Safe_slBody16_debug, hl, false_and, and_false, imp_false, or_false]
    first | omega | safe_fin

theorem Apco.quiet (b : Bytes) : Quiet Apco.unmarshal Apco.len b ↔ ¬ Over 4 b := by
  by_cases hl : (declLen b).toNat < 65532
  · exact iff_of_true (quiet_of (Apco.safe .debug b hl trivial)) fun h => absurd hl (Nat.not_lt.mpr h.2)
  · crash_unfold
    safe_simp [Apco.unmarshal, Apco.len, Safe_checkTliv_debug, Safe_add4_debug, Safe_ieLen16_debug, Safe_slBody16_debug, hl, false_and, and_false, imp_false, or_false]
    omega

theorem ActionIndication.quiet (b : Bytes) : Quiet ActionIndication.unmarshal ActionIndication.len b := by
  by_cases hl : (declLen b).toNat < 65532
  · exact quiet_of (ActionIndication.safe .debug b hl trivial)
  · unfold declLen at *
    unfold Quiet
    safe_simp [ActionIndication.unmarshal, ActionIndication.len, Safe_checkTliv_debug, Safe_add4_debug, Safe_ieLen16_debug, Safe_slBody16_debug, hl, false_and, and_false, imp_false, or_false]
    first | omega | safe_fin

theorem RanNasCause.quiet (b : Bytes) : Quiet RanNasCause.unmarshal RanNasCause.len b ↔ ¬ Over 6 b := by
  by_cases hl : (declLen b).toNat < 65532
  · exact iff_of_true (quiet_of (RanNasCause.safe .debug b hl trivial)) fun h => absurd hl (Nat.not_lt.mpr h.2)
  · crash_unfold
    safe_simp [RanNasCause.unmarshal, RanNasCause.len, Safe_checkTliv_debug, Safe_add4_debug, Safe_ieLen16_debug, Safe_slBody16_debug, hl, false_and, and_false, imp_false, or_false]
    omega

theorem NodeNumber.quiet (b : Bytes) : Quiet NodeNumber.unmarshal NodeNumber.len b ↔
    ¬ (Over 5 b ∨ 5 ≤ b.length ∧ Full b ∧ (octAt b 4 = 0 ∨ b.length < octAt b 4 + 5)) := by
  crash_unfold
  have h4 : (4 : UInt16).toNat = 4 := rfl
  safe_simp [NodeNumber.unmarshal, NodeNumber.len, Safe_checkTliv_debug, Safe_add4_debug, Safe_ieLen16_debug, Safe_slBody16_debug, ← UInt8.toNat_inj, UInt8.reduceToNat, UInt16.toNat_add, h4, List.length_drop, List.length_take]
  omega

theorem NodeIdentifier.quiet (b : Bytes) : Quiet NodeIdentifier.unmarshal NodeIdentifier.len b ↔ ¬ Over 5 b := by
  by_cases hl : (declLen b).toNat < 65532
  · exact iff_of_true (quiet_of (NodeIdentifier.safe .debug b hl trivial)) fun h => absurd hl (Nat.not_lt.mpr h.2)
  · crash_unfold
    safe_simp [NodeIdentifier.unmarshal, NodeIdentifier.len, Safe_checkTliv_debug, Safe_add4_debug, Safe_ieLen16_debug, Safe_slBody16_debug, hl, false_and, and_false, imp_false, or_false]
    omega

theorem ApnRelativeCapacity.quiet (b : Bytes) : Quiet ApnRelativeCapacity.unmarshal ApnRelativeCapacity.len b ↔
    ¬ (Over 4 b ∨ Full b ∧ ¬ Labels ((b.take (4 + declN b)).drop 5)) := by
  by_cases hl : declN b < 65532
  · crash_unfold
    safe_simp [ApnRelativeCapacity.unmarshal, ApnRelativeCapacity.len, Safe_checkTliv_debug, Safe_add4_debug, Safe_ieLen16_debug, Safe_slBody16_debug, hl, Safe_decName]
    by_cases hb : Labels ((b.take (4 + (of16 (b.getD 1 0) (b.getD 2 0)).toNat)).drop 5)
    · simp only [hb, not_true, and_false, or_false, and_true]
      omega
    · simp only [hb, not_false_eq_true, and_true, and_false, imp_false]
      omega
  · crash_unfold
    safe_simp [ApnRelativeCapacity.unmarshal, ApnRelativeCapacity.len, Safe_checkTliv_debug, Safe_add4_debug, Safe_ieLen16_debug, Safe_slBody16_debug, hl, false_and, and_false, imp_false, or_false]
    omega

theorem PagingServiceInfo.quiet (b : Bytes) : Quiet PagingServiceInfo.unmarshal PagingServiceInfo.len b ↔
    ¬ (b.length = 6 ∧ octAt b 5 = 1) := by
  crash_unfold
  have h4 : (4 : UInt16).toNat = 4 := rfl
  safe_simp [PagingServiceInfo.unmarshal, PagingServiceInfo.len, Safe_checkTliv_debug, Safe_add4_debug, Safe_ieLen16_debug, Safe_slBody16_debug, ← UInt8.toNat_inj, UInt8.reduceToNat, UInt16.toNat_add, h4, List.length_drop, List.length_take]
  omega

theorem IntegerNumber.quiet (b : Bytes) : Quiet IntegerNumber.unmarshal IntegerNumber.len b ↔ ¬ Over 4 b := by
  by_cases hl : (declLen b).toNat < 65532
  · exact iff_of_true (quiet_of (IntegerNumber.safe .debug b hl trivial)) fun h => absurd hl (Nat.not_lt.mpr h.2)
  · crash_unfold
    safe_simp [IntegerNumber.unmarshal, IntegerNumber.len, Safe_checkTliv_debug, Safe_add4_debug, Safe_ieLen16_debug, Safe_slBody16_debug, hl, false_and, and_false, imp_false, or_false]
    omega

theorem MonitoringEventInformation.quiet (b : Bytes) : Quiet MonitoringEventInformation.unmarshal MonitoringEventInformation.len b := by
  by_cases hl : (declLen b).toNat < 65532
  · exact quiet_of (MonitoringEventInformation.safe .debug b hl trivial)
  · unfold declLen at *
    unfold Quiet
    safe_simp [MonitoringEventInformation.unmarshal, MonitoringEventInformation.len, Safe_checkTliv_debug, Safe_add4_debug, Safe_ieLen16_debug, Safe_slBody16_debug, hl, false_and, and_false, imp_false, or_false]
    first | omega | safe_fin

theorem EcgiList.quiet (b : Bytes) : Quiet EcgiList.unmarshal EcgiList.len b := by
  unfold Quiet
  safe_simp [EcgiList.unmarshal]
  refine fun _ => ⟨by omega, by omega, by omega, by omega, by omega, fun _ => trivial, fun _ hn => ?_⟩
  exact rdElems_safe' Ecgi.elem_safe 7 _ b _ 6 _ (by omega) fun l _ => trivial

theorem RemoteUeIpInformation.quiet (b : Bytes) : Quiet RemoteUeIpInformation.unmarshal RemoteUeIpInformation.len b ↔ ¬ Over 5 b := by
  by_cases hl : (declLen b).toNat < 65532
  · exact iff_of_true (quiet_of (RemoteUeIpInformation.safe .debug b hl trivial)) fun h => absurd hl (Nat.not_lt.mpr h.2)
  · crash_unfold
    safe_simp [RemoteUeIpInformation.unmarshal, RemoteUeIpInformation.len, Safe_checkTliv_debug, Safe_add4_debug, Safe_ieLen16_debug, Safe_slBody16_debug, hl, false_and, and_false, imp_false, or_false]
    omega

theorem Epco.quiet (b : Bytes) : Quiet Epco.unmarshal Epco.len b ↔ ¬ Over 4 b := by
  by_cases hl : (declLen b).toNat < 65532
  · exact iff_of_true (quiet_of (Epco.safe .debug b hl trivial)) fun h => absurd hl (Nat.not_lt.mpr h.2)
  · crash_unfold
    safe_simp [Epco.unmarshal, Epco.len, Safe_checkTliv_debug, Safe_add4_debug, Safe_ieLen16_debug, Safe_slBody16_debug, hl, false_and, and_false, imp_false, or_false]
    omega

theorem SecondaryRatUsageDataReport.quiet (b : Bytes) : Quiet SecondaryRatUsageDataReport.unmarshal SecondaryRatUsageDataReport.len b := by
  by_cases hl : (declLen b).toNat < 65532
  · exact quiet_of (SecondaryRatUsageDataReport.safe .debug b hl trivial)
  · unfold declLen at *
    unfold Quiet
    safe_simp [SecondaryRatUsageDataReport.unmarshal, SecondaryRatUsageDataReport.len, Safe_checkTliv_debug, Safe_add4_debug, Safe_ieLen16_debug, Safe_slBody16_debug, hl, false_and, and_false, imp_false, or_false]
    first | omega | safe_fin

theorem MaxPacketLossRate.quiet (b : Bytes) : Quiet MaxPacketLossRate.unmarshal MaxPacketLossRate.len b := by
  have h3 : (3 : UInt16).toNat = 3 := rfl
  have h5 : (5 : UInt16).toNat = 5 := rfl
  unfold Quiet
  safe_simp [MaxPacketLossRate.unmarshal, MaxPacketLossRate.len, Safe_checkTliv_debug, h3, h5]
  safe_fin

theorem ApnRateControlStatus.quiet (b : Bytes) : Quiet ApnRateControlStatus.unmarshal ApnRateControlStatus.len b := by
  by_cases hl : (declLen b).toNat < 65532
  · exact quiet_of (ApnRateControlStatus.safe .debug b hl trivial)
  · unfold declLen at *
    unfold Quiet
    safe_simp [ApnRateControlStatus.unmarshal, ApnRateControlStatus.len, Safe_checkTliv_debug, Safe_add4_debug, Safe_ieLen16_debug, Safe_slBody16_debug, hl, false_and, and_false, imp_false, or_false]
    first | omega | safe_fin

theorem PC5QosFlow.quiet (b : Bytes) : Quiet PC5QosFlow.unmarshal PC5QosFlow.len b ↔
    ¬ (Over 4 b ∨ Full b ∧ (b.length < 14 ∨ b.getD 4 0 &&& 1 = 1 ∧ b.length < 15)) := by
  crash_unfold
  have h4 : (4 : UInt16).toNat = 4 := rfl
  safe_simp [PC5QosFlow.unmarshal, PC5QosFlow.len, Safe_checkTliv_debug, Safe_add4_debug, Safe_ieLen16_debug, Safe_slBody16_debug, ← UInt8.toNat_inj, UInt8.reduceToNat, UInt16.toNat_add, h4, List.length_drop, List.length_take]
  omega

theorem SgiPtpTunnelAddress.quiet (b : Bytes) : Quiet SgiPtpTunnelAddress.unmarshal SgiPtpTunnelAddress.len b ↔ ¬ Over 5 b := by
  by_cases hl : (declLen b).toNat < 65532
  · exact iff_of_true (quiet_of (SgiPtpTunnelAddress.safe .debug b hl trivial)) fun h => absurd hl (Nat.not_lt.mpr h.2)
  · crash_unfold
    safe_simp [SgiPtpTunnelAddress.unmarshal, SgiPtpTunnelAddress.len, Safe_checkTliv_debug, Safe_add4_debug, Safe_ieLen16_debug, Safe_slBody16_debug, hl, false_and, and_false, imp_false, or_false]
    omega

theorem PgwFqdn.quiet (b : Bytes) : Quiet PgwFqdn.unmarshal PgwFqdn.len b ↔
    ¬ (Over 4 b ∨ Full b ∧ ¬ Labels ((b.take (4 + declN b)).drop 4)) := by
  by_cases hl : declN b < 65532
  · crash_unfold
    safe_simp [PgwFqdn.unmarshal, PgwFqdn.len, Safe_checkTliv_debug, Safe_add4_debug, Safe_ieLen16_debug, Safe_slBody16_debug, hl, Safe_decName]
    by_cases hb : Labels ((b.take (4 + (of16 (b.getD 1 0) (b.getD 2 0)).toNat)).drop 4)
    · simp only [hb, not_true, and_false, or_false, and_true]
      omega
    · simp only [hb, not_false_eq_true, and_true, and_false, imp_false]
      omega
  · crash_unfold
    safe_simp [PgwFqdn.unmarshal, PgwFqdn.len, Safe_checkTliv_debug, Safe_add4_debug, Safe_ieLen16_debug, Safe_slBody16_debug, hl, false_and, and_false, imp_false, or_false]
    omega

theorem GroupId.quiet (b : Bytes) : Quiet GroupId.unmarshal GroupId.len b ↔ ¬ Over 4 b := by
  by_cases hl : (declLen b).toNat < 65532
  · exact iff_of_true (quiet_of (GroupId.safe .debug b hl trivial)) fun h => absurd hl (Nat.not_lt.mpr h.2)
  · crash_unfold
    safe_simp [GroupId.unmarshal, GroupId.len, Safe_checkTliv_debug, Safe_add4_debug, Safe_ieLen16_debug, Safe_slBody16_debug, hl, false_and, and_false, imp_false, or_false]
    omega

theorem AlternativeImsi.quiet (b : Bytes) : Quiet AlternativeImsi.unmarshal AlternativeImsi.len b ↔ ¬ Over 5 b := by
  by_cases hl : (declLen b).toNat < 65532
  · exact iff_of_true (quiet_of (AlternativeImsi.safe .debug b hl trivial)) fun h => absurd hl (Nat.not_lt.mpr h.2)
  · crash_unfold
    safe_simp [AlternativeImsi.unmarshal, AlternativeImsi.len, Safe_checkTliv_debug, Safe_add4_debug, Safe_ieLen16_debug, Safe_slBody16_debug, hl, false_and, and_false, imp_false, or_false]
    omega

theorem SpecialIEWithTypeExt.quiet (b : Bytes) : Quiet SpecialIEWithTypeExt.unmarshal SpecialIEWithTypeExt.len b ↔
    ¬ (5 ≤ b.length ∧ (b.length = 5 ∨ 65532 ≤ declN b ∨ declN b = 1)) := by
  crash_unfold
  have h4 : (4 : UInt16).toNat = 4 := rfl
  safe_simp [SpecialIEWithTypeExt.unmarshal, SpecialIEWithTypeExt.len, Safe_checkTliv_debug, Safe_add4_debug, Safe_ieLen16_debug, Safe_slBody16_debug, ← UInt8.toNat_inj, UInt8.reduceToNat, UInt16.toNat_add, h4, List.length_drop, List.length_take]
  omega

theorem PrivateExtension.quiet (b : Bytes) : Quiet PrivateExtension.unmarshal PrivateExtension.len b ↔
    ¬ (7 ≤ b.length ∧ (65532 ≤ declN b ∨ declN b = 1)) := by
  crash_unfold
  have h4 : (4 : UInt16).toNat = 4 := rfl
  safe_simp [PrivateExtension.unmarshal, PrivateExtension.len, Safe_checkTliv_debug, Safe_add4_debug, Safe_ieLen16_debug, Safe_slBody16_debug, ← UInt8.toNat_inj, UInt8.reduceToNat, UInt16.toNat_add, h4, List.length_drop, List.length_take]
  omega

end Gtp.V2
