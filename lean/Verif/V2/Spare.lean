import Verif.V2.SpareBase

/-!
# Decoders that ignore the spare bits of their information element

Expanded by `scripts/gen_spare.py`.
-/

namespace Gtp.V2
set_option linter.unusedSimpArgs false
set_option linter.unusedVariables false

variable {m : Mode} {u : Nat → UInt8} {b : Bytes}

theorem Cause.spare (hu : ∀ k, k ≠ 5 → u k = 255) (h5 : u 5 = 7) :
    Cause.unmarshal m (cut u b) = Cause.unmarshal m b := by
  have k1 : ∀ v : UInt8, bitOn (v &&& (7 : UInt8)) 2 = bitOn v 2 := by decide +kernel
  have k2 : ∀ v : UInt8, bitOn (v &&& (7 : UInt8)) 1 = bitOn v 1 := by decide +kernel
  have k3 : ∀ v : UInt8, ((v &&& (7 : UInt8)) &&& 1 == 1) = (v &&& 1 == 1) := by decide +kernel
  simp only [Cause.unmarshal, bind_def, cut_length, checkTliv_cut, rd16_keep (j := 1) (hu 1 (by decide)) (hu 2 (by decide))]
  simp [rd_cut, rbind_assoc, rbind_ok, hu, and_ff, h5, k1, k2, k3]

theorem Ebi.spare (hu : ∀ k, k ≠ 4 → u k = 255) (h4 : u 4 = 15) :
    Ebi.unmarshal m (cut u b) = Ebi.unmarshal m b := by
  have k1 : ∀ v : UInt8, (v &&& (15 : UInt8)) &&& 0x0f = v &&& 0x0f := by decide +kernel
  simp only [Ebi.unmarshal, bind_def, cut_length, checkTliv_cut, rd16_keep (j := 1) (hu 1 (by decide)) (hu 2 (by decide))]
  simp [rd_cut, rbind_assoc, rbind_ok, hu, and_ff, h4, k1]

theorem BearerQos.spare (hu : ∀ k, k ≠ 4 → u k = 255) (h4 : u 4 = 125) :
    BearerQos.unmarshal m (cut u b) = BearerQos.unmarshal m b := by
  have k1 : ∀ v : UInt8, ((v &&& (125 : UInt8)) >>> (6 : UInt8)) &&& (0x01 : UInt8) = (v >>> (6 : UInt8)) &&& (0x01 : UInt8) := by decide +kernel
  have k2 : ∀ v : UInt8, ((v &&& (125 : UInt8)) >>> (2 : UInt8)) &&& (0x0f : UInt8) = (v >>> (2 : UInt8)) &&& (0x0f : UInt8) := by decide +kernel
  have k3 : ∀ v : UInt8, (v &&& (125 : UInt8)) &&& 0x01 = v &&& 0x01 := by decide +kernel
  simp only [BearerQos.unmarshal, bind_def, cut_length, checkTliv_cut, rd40_keep (j := 6) (fun k hk => hu k (by omega)), rd40_keep (j := 11) (fun k hk => hu k (by omega)), rd40_keep (j := 16) (fun k hk => hu k (by omega)), rd40_keep (j := 21) (fun k hk => hu k (by omega)), rd16_keep (j := 1) (hu 1 (by decide)) (hu 2 (by decide))]
  simp [rd_cut, rbind_assoc, rbind_ok, hu, and_ff, h4, k1, k2, k3]

theorem S1udf.spare (hu : ∀ k, k ≠ 4 → u k = 255) (h4 : u 4 = 15) :
    S1udf.unmarshal m (cut u b) = S1udf.unmarshal m b := by
  have k1 : ∀ v : UInt8, (v &&& (15 : UInt8)) &&& 0x0f = v &&& 0x0f := by decide +kernel
  simp only [S1udf.unmarshal, bind_def, cut_length, checkTliv_cut, rd32_keep (j := 6) (fun k hk => hu k (by omega)), rd32_keep (j := 10) (fun k hk => hu k (by omega)), rdIp6_keep (j := 6) (fun k hk => hu k (by omega)), rd32_keep (j := 22) (fun k hk => hu k (by omega)), rd16_keep (j := 1) (hu 1 (by decide)) (hu 2 (by decide))]
  simp [rd_cut, rbind_assoc, rbind_ok, hu, and_ff, h4, k1]

theorem BearerFlags.spare (hu : ∀ k, k ≠ 4 → u k = 255) (h4 : u 4 = 15) :
    BearerFlags.unmarshal m (cut u b) = BearerFlags.unmarshal m b := by
  have k1 : ∀ v : UInt8, hasBits (v &&& (15 : UInt8)) 0x08 = hasBits v 0x08 := by decide +kernel
  have k2 : ∀ v : UInt8, hasBits (v &&& (15 : UInt8)) 0x04 = hasBits v 0x04 := by decide +kernel
  have k3 : ∀ v : UInt8, hasBits (v &&& (15 : UInt8)) 0x02 = hasBits v 0x02 := by decide +kernel
  have k4 : ∀ v : UInt8, hasBits (v &&& (15 : UInt8)) 0x01 = hasBits v 0x01 := by decide +kernel
  simp only [BearerFlags.unmarshal, bind_def, cut_length, checkTliv_cut, rd16_keep (j := 1) (hu 1 (by decide)) (hu 2 (by decide))]
  simp [rd_cut, rbind_assoc, rbind_ok, hu, and_ff, h4, k1, k2, k3, k4]

theorem PduNumbers.spare (hu : ∀ k, k ≠ 4 → u k = 255) (h4 : u 4 = 15) :
    PduNumbers.unmarshal m (cut u b) = PduNumbers.unmarshal m b := by
  have k1 : ∀ v : UInt8, (v &&& (15 : UInt8)) &&& 0x0f = v &&& 0x0f := by decide +kernel
  simp only [PduNumbers.unmarshal, bind_def, cut_length, checkTliv_cut, rd16_keep (j := 1) (hu 1 (by decide)) (hu 2 (by decide)), rd16_keep (j := 5) (hu 5 (by decide)) (hu 6 (by decide)), rd16_keep (j := 7) (hu 7 (by decide)) (hu 8 (by decide)), rd16_keep (j := 9) (hu 9 (by decide)) (hu 10 (by decide)), rd16_keep (j := 11) (hu 11 (by decide)) (hu 12 (by decide))]
  simp [rd_cut, rbind_assoc, rbind_ok, hu, and_ff, h4, k1]

theorem UeTimeZone.spare (hu : ∀ k, k ≠ 5 → u k = 255) (h5 : u 5 = 3) :
    UeTimeZone.unmarshal m (cut u b) = UeTimeZone.unmarshal m b := by
  have k1 : ∀ v : UInt8, (v &&& (3 : UInt8)) &&& 0x03 = v &&& 0x03 := by decide +kernel
  simp only [UeTimeZone.unmarshal, bind_def, cut_length, checkTliv_cut, rd16_keep (j := 1) (hu 1 (by decide)) (hu 2 (by decide))]
  simp [rd_cut, rbind_assoc, rbind_ok, hu, and_ff, h5, k1]

theorem Fcause.spare (hu : ∀ k, k ≠ 4 → u k = 255) (h4 : u 4 = 15) :
    Fcause.unmarshal m (cut u b) = Fcause.unmarshal m b := by
  have k1 : ∀ v : UInt8, (v &&& (15 : UInt8)) &&& 0x0f = v &&& 0x0f := by decide +kernel
  simp only [Fcause.unmarshal, bind_def, cut_length, checkTliv_cut, sl_keep (i := 5) (fun k hk => hu k (by omega)), rd16_keep (j := 1) (hu 1 (by decide)) (hu 2 (by decide))]
  simp [rd_cut, rbind_assoc, rbind_ok, hu, and_ff, h4, k1]

theorem PacketFlowId.spare (hu : ∀ k, k ≠ 4 → u k = 255) (h4 : u 4 = 15) :
    PacketFlowId.unmarshal m (cut u b) = PacketFlowId.unmarshal m b := by
  have k1 : ∀ v : UInt8, (v &&& (15 : UInt8)) &&& 0x0f = v &&& 0x0f := by decide +kernel
  simp only [PacketFlowId.unmarshal, bind_def, cut_length, checkTliv_cut, rd32_keep (j := 5) (fun k hk => hu k (by omega)), rd16_keep (j := 1) (hu 1 (by decide)) (hu 2 (by decide))]
  simp [rd_cut, rbind_assoc, rbind_ok, hu, and_ff, h4, k1]

theorem SelectionMode.spare (hu : ∀ k, k ≠ 4 → u k = 255) (h4 : u 4 = 3) :
    SelectionMode.unmarshal m (cut u b) = SelectionMode.unmarshal m b := by
  have k1 : ∀ v : UInt8, (v &&& (3 : UInt8)) &&& 0x03 = v &&& 0x03 := by decide +kernel
  simp only [SelectionMode.unmarshal, bind_def, cut_length, checkTliv_cut, rd16_keep (j := 1) (hu 1 (by decide)) (hu 2 (by decide))]
  simp [rd_cut, rbind_assoc, rbind_ok, hu, and_ff, h4, k1]

theorem TransactionIdentifier.spare (hu : ∀ k, k ≠ 4 → u k = 255) (h4 : u 4 = 240) :
    TransactionIdentifier.unmarshal m (cut u b) = TransactionIdentifier.unmarshal m b := by
  have k1 : ∀ v : UInt8, (v &&& (240 : UInt8)) >>> 7 = v >>> 7 := by decide +kernel
  have k2 : ∀ v : UInt8, ((v &&& (240 : UInt8)) >>> (4 : UInt8)) &&& (0x07 : UInt8) = (v >>> (4 : UInt8)) &&& (0x07 : UInt8) := by decide +kernel
  simp only [TransactionIdentifier.unmarshal, bind_def, cut_length, checkTliv_cut, rd16_keep (j := 1) (hu 1 (by decide)) (hu 2 (by decide))]
  simp [rd_cut, rbind_assoc, rbind_ok, hu, and_ff, h4, k1, k2]

theorem MbmsDistributionAck.spare (hu : ∀ k, k ≠ 4 → u k = 255) (h4 : u 4 = 3) :
    MbmsDistributionAck.unmarshal m (cut u b) = MbmsDistributionAck.unmarshal m b := by
  have k1 : ∀ v : UInt8, (v &&& (3 : UInt8)) &&& 0x03 = v &&& 0x03 := by decide +kernel
  simp only [MbmsDistributionAck.unmarshal, bind_def, cut_length, checkTliv_cut, rd16_keep (j := 1) (hu 1 (by decide)) (hu 2 (by decide))]
  simp [rd_cut, rbind_assoc, rbind_ok, hu, and_ff, h4, k1]

theorem CSGInformationReportingAction.spare (hu : ∀ k, k ≠ 4 → u k = 255) (h4 : u 4 = 7) :
    CSGInformationReportingAction.unmarshal m (cut u b) = CSGInformationReportingAction.unmarshal m b := by
  have k1 : ∀ v : UInt8, (v &&& (7 : UInt8)) &&& 0x07 = v &&& 0x07 := by decide +kernel
  simp only [CSGInformationReportingAction.unmarshal, bind_def, cut_length, checkTliv_cut, rd16_keep (j := 1) (hu 1 (by decide)) (hu 2 (by decide))]
  simp [rd_cut, rbind_assoc, rbind_ok, hu, and_ff, h4, k1]

theorem AdditionalFlagsSrvcc.spare (hu : ∀ k, k ≠ 4 → u k = 255) (h4 : u 4 = 3) :
    AdditionalFlagsSrvcc.unmarshal m (cut u b) = AdditionalFlagsSrvcc.unmarshal m b := by
  have k1 : ∀ v : UInt8, bitOn (v &&& (3 : UInt8)) 0 = bitOn v 0 := by decide +kernel
  have k2 : ∀ v : UInt8, bitOn (v &&& (3 : UInt8)) 1 = bitOn v 1 := by decide +kernel
  simp only [AdditionalFlagsSrvcc.unmarshal, bind_def, cut_length, checkTliv_cut, rd16_keep (j := 1) (hu 1 (by decide)) (hu 2 (by decide))]
  simp [rd_cut, rbind_assoc, rbind_ok, hu, and_ff, h4, k1, k2]

theorem ChangeToReportFlags.spare (hu : ∀ k, k ≠ 4 → u k = 255) (h4 : u 4 = 3) :
    ChangeToReportFlags.unmarshal m (cut u b) = ChangeToReportFlags.unmarshal m b := by
  have k1 : ∀ v : UInt8, bitOn (v &&& (3 : UInt8)) 0 = bitOn v 0 := by decide +kernel
  have k2 : ∀ v : UInt8, bitOn (v &&& (3 : UInt8)) 1 = bitOn v 1 := by decide +kernel
  simp only [ChangeToReportFlags.unmarshal, bind_def, cut_length, checkTliv_cut, rd16_keep (j := 1) (hu 1 (by decide)) (hu 2 (by decide))]
  simp [rd_cut, rbind_assoc, rbind_ok, hu, and_ff, h4, k1, k2]

theorem ActionIndication.spare (hu : ∀ k, k ≠ 4 → u k = 255) (h4 : u 4 = 7) :
    ActionIndication.unmarshal m (cut u b) = ActionIndication.unmarshal m b := by
  have k1 : ∀ v : UInt8, (v &&& (7 : UInt8)) &&& 0x07 = v &&& 0x07 := by decide +kernel
  simp only [ActionIndication.unmarshal, bind_def, cut_length, checkTliv_cut, rd16_keep (j := 1) (hu 1 (by decide)) (hu 2 (by decide))]
  simp [rd_cut, rbind_assoc, rbind_ok, hu, and_ff, h4, k1]

theorem MbmsFlags.spare (hu : ∀ k, k ≠ 4 → u k = 255) (h4 : u 4 = 3) :
    MbmsFlags.unmarshal m (cut u b) = MbmsFlags.unmarshal m b := by
  have k1 : ∀ v : UInt8, bitOn (v &&& (3 : UInt8)) 0 = bitOn v 0 := by decide +kernel
  have k2 : ∀ v : UInt8, bitOn (v &&& (3 : UInt8)) 1 = bitOn v 1 := by decide +kernel
  simp only [MbmsFlags.unmarshal, bind_def, cut_length, checkTliv_cut, rd16_keep (j := 1) (hu 1 (by decide)) (hu 2 (by decide))]
  simp [rd_cut, rbind_assoc, rbind_ok, hu, and_ff, h4, k1, k2]

theorem Twmi.spare (hu : ∀ k, k ≠ 4 → u k = 255) (h4 : u 4 = 3) :
    Twmi.unmarshal m (cut u b) = Twmi.unmarshal m b := by
  have k1 : ∀ v : UInt8, bitOn (v &&& (3 : UInt8)) 0 = bitOn v 0 := by decide +kernel
  have k2 : ∀ v : UInt8, bitOn (v &&& (3 : UInt8)) 1 = bitOn v 1 := by decide +kernel
  simp only [Twmi.unmarshal, bind_def, cut_length, checkTliv_cut, rd16_keep (j := 1) (hu 1 (by decide)) (hu 2 (by decide))]
  simp [rd_cut, rbind_assoc, rbind_ok, hu, and_ff, h4, k1, k2]

theorem WlanOffloadIndication.spare (hu : ∀ k, k ≠ 4 → u k = 255) (h4 : u 4 = 3) :
    WlanOffloadIndication.unmarshal m (cut u b) = WlanOffloadIndication.unmarshal m b := by
  have k1 : ∀ v : UInt8, bitOn (v &&& (3 : UInt8)) 0 = bitOn v 0 := by decide +kernel
  have k2 : ∀ v : UInt8, bitOn (v &&& (3 : UInt8)) 1 = bitOn v 1 := by decide +kernel
  simp only [WlanOffloadIndication.unmarshal, bind_def, cut_length, checkTliv_cut, rd16_keep (j := 1) (hu 1 (by decide)) (hu 2 (by decide))]
  simp [rd_cut, rbind_assoc, rbind_ok, hu, and_ff, h4, k1, k2]

theorem CIoTOptimizationSupportIndication.spare (hu : ∀ k, k ≠ 4 → u k = 255) (h4 : u 4 = 15) :
    CIoTOptimizationSupportIndication.unmarshal m (cut u b) = CIoTOptimizationSupportIndication.unmarshal m b := by
  have k1 : ∀ v : UInt8, bitOn (v &&& (15 : UInt8)) 0 = bitOn v 0 := by decide +kernel
  have k2 : ∀ v : UInt8, bitOn (v &&& (15 : UInt8)) 1 = bitOn v 1 := by decide +kernel
  have k3 : ∀ v : UInt8, bitOn (v &&& (15 : UInt8)) 2 = bitOn v 2 := by decide +kernel
  have k4 : ∀ v : UInt8, bitOn (v &&& (15 : UInt8)) 3 = bitOn v 3 := by decide +kernel
  simp only [CIoTOptimizationSupportIndication.unmarshal, bind_def, cut_length, checkTliv_cut, rd16_keep (j := 1) (hu 1 (by decide)) (hu 2 (by decide))]
  simp [rd_cut, rbind_assoc, rbind_ok, hu, and_ff, h4, k1, k2, k3, k4]

theorem HeaderCompressionConfiguration.spare (hu : ∀ k, k ≠ 4 → k ≠ 5 → u k = 255) (h4 : u 4 = 127) (h5 : u 5 = 0) :
    HeaderCompressionConfiguration.unmarshal m (cut u b) = HeaderCompressionConfiguration.unmarshal m b := by
  have k1 : ∀ v : UInt8, HeaderCompressionConfiguration.profilesOf (v &&& (127 : UInt8)) = HeaderCompressionConfiguration.profilesOf v := by decide +kernel
  simp only [HeaderCompressionConfiguration.unmarshal, bind_def, cut_length, checkTliv_cut, rd16_keep (j := 1) (hu 1 (by decide) (by decide)) (hu 2 (by decide) (by decide)), rd16_keep (j := 6) (hu 6 (by decide) (by decide)) (hu 7 (by decide) (by decide))]
  simp [rd_cut, rbind_assoc, rbind_ok, hu, and_ff, h4, h5, k1]

theorem SecondaryRatUsageDataReport.spare (hu : ∀ k, k ≠ 4 → k ≠ 6 → u k = 255) (h4 : u 4 = 7) (h6 : u 6 = 15) :
    SecondaryRatUsageDataReport.unmarshal m (cut u b) = SecondaryRatUsageDataReport.unmarshal m b := by
  have k1 : ∀ v : UInt8, (v &&& (7 : UInt8)) &&& 0x03 = v &&& 0x03 := by decide +kernel
  have k2 : ∀ v : UInt8, (v &&& (7 : UInt8)) &&& 0x04 = v &&& 0x04 := by decide +kernel
  have k3 : ∀ v : UInt8, (v &&& (15 : UInt8)) &&& 0x0f = v &&& 0x0f := by decide +kernel
  simp only [SecondaryRatUsageDataReport.unmarshal, bind_def, cut_length, checkTliv_cut, rd32_keep (j := 7) (fun k hk => hu k (by omega) (by omega)), rd32_keep (j := 11) (fun k hk => hu k (by omega) (by omega)), rd64_keep (j := 15) (fun k hk => hu k (by omega) (by omega)), rd64_keep (j := 23) (fun k hk => hu k (by omega) (by omega)), sl_keep (i := 32) (fun k hk => hu k (by omega) (by omega)), rd16_keep (j := 1) (hu 1 (by decide) (by decide)) (hu 2 (by decide) (by decide))]
  simp [rd_cut, rbind_assoc, rbind_ok, hu, and_ff, h4, h6, k1, k2, k3]

theorem MaxPacketLossRate.spare (hu : ∀ k, k ≠ 4 → u k = 255) (h4 : u 4 = 3) :
    MaxPacketLossRate.unmarshal m (cut u b) = MaxPacketLossRate.unmarshal m b := by
  have k1 : ∀ v : UInt8, (v &&& (3 : UInt8)) &&& 0x03 = v &&& 0x03 := by decide +kernel
  simp only [MaxPacketLossRate.unmarshal, bind_def, cut_length, checkTliv_cut, rd16_keep (j := 1) (hu 1 (by decide)) (hu 2 (by decide)), rd16_keep (j := 5) (hu 5 (by decide)) (hu 6 (by decide)), rd16_keep (j := 7) (hu 7 (by decide)) (hu 8 (by decide))]
  simp [rd_cut, rbind_assoc, rbind_ok, hu, and_ff, h4, k1]

theorem RemoteUserId.spare (hu : ∀ k, k ≠ 4 → u k = 255) (h4 : u 4 = 3) :
    RemoteUserId.unmarshal m (cut u b) = RemoteUserId.unmarshal m b := by
  have k1 : ∀ v : UInt8, (v &&& (3 : UInt8)) &&& 0x03 = v &&& 0x03 := by decide +kernel
  have e1 : ∀ (l : Nat) (e : Err), rdStr (cut u b) (6 + l + 1) e = rdStr b (6 + l + 1) e := fun l e => rdStr_keep fun k hk => hu k (by omega)
  have e2 : ∀ (l n : Nat) (e : Err), rdStr (cut u b) (6 + l + 1 + n + 1) e = rdStr b (6 + l + 1 + n + 1) e := fun l n e =>
    rdStr_keep fun k hk => hu k (by omega)
  simp only [RemoteUserId.unmarshal, bind_def, cut_length, checkTliv_cut, sl_keep (i := 6) (fun k hk => hu k (by omega)), rd16_keep (j := 1) (hu 1 (by decide)) (hu 2 (by decide)), e1, e2]
  simp [rd_cut, rbind_assoc, rbind_ok, hu, and_ff, h4, k1]

theorem PC5QosFlow.spare (hu : ∀ k, k ≠ 4 → u k = 255) (h4 : u 4 = 1) :
    PC5QosFlow.unmarshal m (cut u b) = PC5QosFlow.unmarshal m b := by
  have k1 : ∀ v : UInt8, (v &&& (1 : UInt8)) &&& 0x01 = v &&& 0x01 := by decide +kernel
  simp only [PC5QosFlow.unmarshal, bind_def, cut_length, checkTliv_cut, rd32_keep (j := 6) (fun k hk => hu k (by omega)), rd32_keep (j := 10) (fun k hk => hu k (by omega)), rd16_keep (j := 1) (hu 1 (by decide)) (hu 2 (by decide))]
  simp [rd_cut, rbind_assoc, rbind_ok, hu, and_ff, h4, k1]

theorem SgiPtpTunnelAddress.spare (hu : ∀ k, k ≠ 4 → u k = 255) (h4 : u 4 = 7) :
    SgiPtpTunnelAddress.unmarshal m (cut u b) = SgiPtpTunnelAddress.unmarshal m b := by
  have k1 : ∀ v : UInt8, (v &&& (7 : UInt8)) &&& 0x03 = v &&& 0x03 := by decide +kernel
  have k2 : ∀ v : UInt8, (v &&& (7 : UInt8)) &&& 0x04 = v &&& 0x04 := by decide +kernel
  simp only [SgiPtpTunnelAddress.unmarshal, bind_def, cut_length, checkTliv_cut, rd32_keep (j := 5) (fun k hk => hu k (by omega)), rdIp6_keep (j := 5) (fun k hk => hu k (by omega)), rd16_keep (j := 1) (hu 1 (by decide)) (hu 2 (by decide)), rd16_keep (j := 9) (hu 9 (by decide)) (hu 10 (by decide)), rd16_keep (j := 21) (hu 21 (by decide)) (hu 22 (by decide))]
  simp [rd_cut, rbind_assoc, rbind_ok, hu, and_ff, h4, k1, k2]

theorem UpSecurityPolicy.spare (hu : ∀ k, k ≠ 4 → u k = 255) (h4 : u 4 = 3) :
    UpSecurityPolicy.unmarshal m (cut u b) = UpSecurityPolicy.unmarshal m b := by
  have k1 : ∀ v : UInt8, (v &&& (3 : UInt8)) &&& 0x03 = v &&& 0x03 := by decide +kernel
  simp only [UpSecurityPolicy.unmarshal, bind_def, cut_length, checkTliv_cut, rd16_keep (j := 1) (hu 1 (by decide)) (hu 2 (by decide))]
  simp [rd_cut, rbind_assoc, rbind_ok, hu, and_ff, h4, k1]

theorem MonitoringEventExtensionInfo.spare (hu : ∀ k, k ≠ 4 → u k = 255) (h4 : u 4 = 3) :
    MonitoringEventExtensionInfo.unmarshal m (cut u b) = MonitoringEventExtensionInfo.unmarshal m b := by
  have k1 : ∀ v : UInt8, (v &&& (3 : UInt8)) &&& 0x01 = v &&& 0x01 := by decide +kernel
  have k2 : ∀ v : UInt8, (v &&& (3 : UInt8)) &&& 0x02 = v &&& 0x02 := by decide +kernel
  have e1 : ∀ n : Nat, (rd24 (cut u b) (10 + n) : R Err UInt32) = rd24 b (10 + n) := fun n => rd24_keep fun k hk => hu k (by omega)
  have e2 : ∀ n : Nat, (rd64 (cut u b) (10 + n) : R Err UInt64) = rd64 b (10 + n) := fun n => rd64_keep fun k hk => hu k (by omega)
  have e3 : ∀ n : Nat, (rd64 (cut u b) (10 + n + 3) : R Err UInt64) = rd64 b (10 + n + 3) := fun n => rd64_keep fun k hk => hu k (by omega)
  simp only [MonitoringEventExtensionInfo.unmarshal, bind_def, cut_length, checkTliv_cut, rd16_keep (j := 1) (hu 1 (by decide)) (hu 2 (by decide)),
    rd_keep (j := 3) (hu 3 (by decide)), rd_keep (j := 9) (hu 9 (by decide)), rd_cut (j := 4), h4,
    rd32_keep (j := 5) (fun k hk => hu k (by omega)), sl_keep (i := 10) (fun k hk => hu k (by omega)), e1, rbind_assoc, rbind_ok, k1, k2]
  split
  · refine rbind_ext rfl fun length _ => rbind_ext rfl fun ins _ => rbind_ext rfl fun ck _ => ?_
    split
    · refine rbind_ext rfl fun ref _ => rbind_ext rfl fun n _ => ?_
      split
      · refine rbind_ext rfl fun s _ => rbind_ext rfl fun id _ => rbind_ext rfl fun f _ => rbind_ext rfl fun p hp => ?_
        have hc : 10 ≤ p.2 := by
          split at hp
          · split at hp
            · cases h : (rd24 b (10 + n.toNat) : R Err UInt32) with
              | ok r => rw [h] at hp; cases hp; exact Nat.le_trans (by omega) (Nat.le_add_right (10 + n.toNat) 3)
              | _ => rw [h] at hp; cases hp
            · cases hp
          · cases hp; exact Nat.le_add_right 10 _
        rw [rd64_keep fun k hk => hu k (by omega)]
      · rfl
    · rfl
  · rfl

theorem Indication.spare (hu : ∀ k, k ≠ 13 → u k = 255) (h13 : u 13 = 7) : Indication.unmarshal m (cut u b) = Indication.unmarshal m b := by
  have k0 : ∀ v : UInt8, bitAt 0 (v &&& 7) = bitAt 0 v := by decide +kernel
  have k1 : ∀ v : UInt8, bitAt 1 (v &&& 7) = bitAt 1 v := by decide +kernel
  have k2 : ∀ v : UInt8, bitAt 2 (v &&& 7) = bitAt 2 v := by decide +kernel
  have g : ∀ (j : Nat) (s : Bytes), (cut (fun k => u (4 + k)) s).getD j 0 = s.getD j 0 &&& u (4 + j) := by
    intro j s
    simp only [List.getD_eq_getElem?_getD, cut_get]
    cases s[j]? <;> simp
  simp only [Indication.unmarshal, bind_def, cut_length, rd16_keep (j := 1) (hu 1 (by decide)) (hu 2 (by decide)), rd_keep (j := 3) (hu 3 (by decide)),
    sl_cut, rbind_assoc, rbind_ok]
  simp only [convert, g, Nat.reduceAdd, hu _ (show 4 + 0 ≠ 13 by decide), hu _ (show 4 + 1 ≠ 13 by decide)]
  simp only [hu 5 (by decide), hu 4 (by decide), hu 6 (by decide), hu 7 (by decide), hu 8 (by decide), hu 9 (by decide), hu 10 (by decide), hu 11 (by decide),
    hu 12 (by decide), h13, and_ff, k0, k1, k2]

theorem TwanId.spare (hu : ∀ k, k ≠ 4 → u k = 255) (h4 : u 4 = 0x1f) : TwanId.unmarshal m (cut u b) = TwanId.unmarshal m b := by
  have h : ∀ k, 5 ≤ k → u k = 255 := fun k hk => hu k (by omega)
  have key : ∀ v : UInt8, (v &&& (0x1f : UInt8)) &&& (1 : UInt8) = v &&& 1 ∧ (v &&& (0x1f : UInt8)) >>> (1 : UInt8) &&& (1 : UInt8) = v >>> 1 &&& 1 ∧ (v &&& (0x1f : UInt8)) >>> (2 : UInt8) &&& (1 : UInt8) = v >>> 2 &&& 1 ∧
      (v &&& (0x1f : UInt8)) >>> (3 : UInt8) &&& (1 : UInt8) = v >>> 3 &&& 1 ∧ (v &&& (0x1f : UInt8)) >>> (4 : UInt8) &&& (1 : UInt8) = v >>> 4 &&& 1 := by decide +kernel
  unfold TwanId.unmarshal
  rw [cut_length, rd16_keep (j := 1) (hu 1 (by decide)) (hu 2 (by decide)), rd_keep (j := 3) (hu 3 (by decide)), rd_cut (j := 4), h4]
  split
  · refine rbind_ext rfl fun length _ => rbind_ext rfl fun ins _ => ?_
    simp only [bind_def, rbind_assoc, rbind_ok, key]
    refine rbind_ext rfl fun fl _ => ?_
    refine (Steps.rdLvU h).bind (by decide) fun p hp => ?_
    refine (Steps.rdIf (Steps.rdN h)).bind hp fun p hp => ?_
    refine (Steps.rdIf (Steps.rdLe (Steps.rdLvU h))).bind hp fun p hp => ?_
    refine (Steps.rdIf (Steps.rdPlmnS h)).bind hp fun p hp => ?_
    refine (Steps.rdIf (Steps.rdLe (Steps.rdName h))).bind hp fun p hp => ?_
    exact rbind_ext (rdRelay_keep fun k hk => h k (Nat.le_trans hp hk)) fun _ _ => rfl
  · rfl

theorem PresenceReportingAreaAction.spare (hu : ∀ k, k ≠ 4 → k ≠ 9 → k ≠ 10 → k ≠ 11 → k ≠ 12 → k ≠ 13 → u k = 255) (h4 : u 4 = 0x0f)
    (h9 : u 9 = 0x3f) (h10 : u 10 = 0x3f) (h11 : u 11 = 0x3f) (h12 : u 12 = 0x3f) (h13 : u 13 = 0x3f) :
    PresenceReportingAreaAction.unmarshal m (cut u b) = PresenceReportingAreaAction.unmarshal m b := by
  have h : ∀ k, 14 ≤ k → u k = 255 := fun k hk => hu k (by omega) (by omega) (by omega) (by omega) (by omega) (by omega)
  have hl : ∀ k, k < 9 → k ≠ 4 → u k = 255 := fun k hk h => hu k (by omega) (by omega) (by omega) (by omega) (by omega) (by omega)
  have k1 : ∀ v : UInt8, (v &&& (0x3f : UInt8)) &&& (0x3f : UInt8) = v &&& 0x3f := by decide +kernel
  have k2 : ∀ v : UInt8, (v &&& (0x0f : UInt8)) >>> (3 : UInt8) &&& (0x01 : UInt8) = v >>> 3 &&& 0x01 ∧ (v &&& (0x0f : UInt8)) &&& (0x07 : UInt8) = v &&& 0x07 := by decide +kernel
  simp only [PresenceReportingAreaAction.unmarshal, bind_def, cut_length, checkTliv_cut,
    rd16_keep (j := 1) (hl 1 (by decide) (by decide)) (hl 2 (by decide) (by decide)), rd_keep (j := 3) (hl 3 (by decide) (by decide)),
    rd24_keep' (j := 5) (hl 5 (by decide) (by decide)) (hl 6 (by decide) (by decide)) (hl 7 (by decide) (by decide)),
    rd_keep (j := 8) (hl 8 (by decide) (by decide)), rd_cut (j := 4), rd_cut (j := 9), rd_cut (j := 10), rd_cut (j := 11), rd_cut (j := 12),
    rd_cut (j := 13), h4, h9, h10, h11, h12, h13, rbind_assoc, rbind_ok, k1, k2]
  split
  · refine rbind_ext rfl fun length _ => rbind_ext rfl fun ins _ => rbind_ext rfl fun ck _ => ?_
    split
    · refine rbind_ext rfl fun f _ => rbind_ext rfl fun prai _ => rbind_ext rfl fun n0 _ => rbind_ext rfl fun n1 _ => rbind_ext rfl fun n2 _ =>
        rbind_ext rfl fun n3 _ => rbind_ext rfl fun n4 _ => rbind_ext rfl fun n5 _ => ?_
      split
      · rfl
      · refine (Steps.rdElems h).bind (by decide) fun p hp => ?_
        refine (Steps.rdElems h).bind hp fun p hp => ?_
        refine (Steps.rdElems h).bind hp fun p hp => ?_
        refine (Steps.rdElems h).bind hp fun p hp => ?_
        refine (Steps.rdElems h).bind hp fun p hp => ?_
        refine (Steps.rdElems h).bind hp fun p hp => ?_
        refine (Steps.rdElems h).bind hp fun p hp => ?_
        rw [rd_keep (h _ hp)]
        refine rbind_ext ?_ fun _ _ => rfl
        split
        · refine rbind_ext rfl fun n _ => ?_
          exact (Steps.rdElems h).bind (Nat.le_succ_of_le hp) fun p hp => rfl
        · rfl
    · rfl
  · rfl

end Gtp.V2
