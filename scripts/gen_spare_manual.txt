theorem MonitoringEventExtensionInfo.spare (hu : ∀ k, k ≠ 4 → u k = 255) (h4 : u 4 = 3) :
    MonitoringEventExtensionInfo.unmarshal m (cut u b) = MonitoringEventExtensionInfo.unmarshal m b := by
  have k1 : ∀ v : UInt8, (v &&& (3 : UInt8)) &&& 0x01 = v &&& 0x01 := by decide +kernel
  have k2 : ∀ v : UInt8, (v &&& (3 : UInt8)) &&& 0x02 = v &&& 0x02 := by decide +kernel
  have e1 : ∀ n : Nat, (rd24 (cut u b) (10 + n) : R Err UInt32) = rd24 b (10 + n) := fun n => rd24_keep fun k hk => hu k (by omega)
  have e2 : ∀ n : Nat, (rd64 (cut u b) (10 + n) : R Err UInt64) = rd64 b (10 + n) := fun n => rd64_keep fun k hk => hu k (by omega)
  have e3 : ∀ n : Nat, (rd64 (cut u b) (10 + n + 3) : R Err UInt64) = rd64 b (10 + n + 3) := fun n => rd64_keep fun k hk => hu k (by omega)
  simp only [MonitoringEventExtensionInfo.unmarshal, bind_def, cut_length, checkTliv_cut, rd16_keep (j := 1) (hu 1 (by decide)) (hu 2 (by decide)),
    rd_keep (j := 3) (hu 3 (by decide)), rd_keep (j := 9) (hu 9 (by decide)), rd_cut (j := 4), h4,
    rd32_keep (j := 5) (fun k hk => hu k (by omega)), sl_keep (i := 10) (fun k hk => hu k (by omega)), e1, rbind_assoc, rbind_ok, k1, k2]
  split
  · refine rbind_ext rfl fun length _ => rbind_ext rfl fun ins _ => rbind_ext rfl fun ck _ => ?_
    split
    · refine rbind_ext rfl fun ref _ => rbind_ext rfl fun n _ => ?_
      split
      · refine rbind_ext rfl fun s _ => rbind_ext rfl fun id _ => rbind_ext rfl fun f _ => rbind_ext rfl fun p hp => ?_
        have hc : 10 ≤ p.2 := by
          split at hp
          · split at hp
            · cases h : (rd24 b (10 + n.toNat) : R Err UInt32) with
              | ok r => rw [h] at hp; cases hp; exact Nat.le_trans (by omega) (Nat.le_add_right (10 + n.toNat) 3)
              | _ => rw [h] at hp; cases hp
            · cases hp
          · cases hp; exact Nat.le_add_right 10 _
        rw [rd64_keep fun k hk => hu k (by omega)]
      · rfl
    · rfl
  · rfl

theorem Indication.spare (hu : ∀ k, k ≠ 13 → u k = 255) (h13 : u 13 = 7) : Indication.unmarshal m (cut u b) = Indication.unmarshal m b := by
  have k0 : ∀ v : UInt8, bitAt 0 (v &&& 7) = bitAt 0 v := by decide +kernel
  have k1 : ∀ v : UInt8, bitAt 1 (v &&& 7) = bitAt 1 v := by decide +kernel
  have k2 : ∀ v : UInt8, bitAt 2 (v &&& 7) = bitAt 2 v := by decide +kernel
  have g : ∀ (j : Nat) (s : Bytes), (cut (fun k => u (4 + k)) s).getD j 0 = s.getD j 0 &&& u (4 + j) := by
    intro j s
    simp only [List.getD_eq_getElem?_getD, cut_get]
    cases s[j]? <;> simp
  simp only [Indication.unmarshal, bind_def, cut_length, rd16_keep (j := 1) (hu 1 (by decide)) (hu 2 (by decide)), rd_keep (j := 3) (hu 3 (by decide)),
    sl_cut, rbind_assoc, rbind_ok]
  simp only [convert, g, Nat.reduceAdd, hu _ (show 4 + 0 ≠ 13 by decide), hu _ (show 4 + 1 ≠ 13 by decide)]
  simp only [hu 5 (by decide), hu 4 (by decide), hu 6 (by decide), hu 7 (by decide), hu 8 (by decide), hu 9 (by decide), hu 10 (by decide), hu 11 (by decide),
    hu 12 (by decide), h13, and_ff, k0, k1, k2]

theorem TwanId.spare (hu : ∀ k, k ≠ 4 → u k = 255) (h4 : u 4 = 0x1f) : TwanId.unmarshal m (cut u b) = TwanId.unmarshal m b := by
  have h : ∀ k, 5 ≤ k → u k = 255 := fun k hk => hu k (by omega)
  have key : ∀ v : UInt8, (v &&& (0x1f : UInt8)) &&& (1 : UInt8) = v &&& 1 ∧ (v &&& (0x1f : UInt8)) >>> (1 : UInt8) &&& (1 : UInt8) = v >>> 1 &&& 1 ∧ (v &&& (0x1f : UInt8)) >>> (2 : UInt8) &&& (1 : UInt8) = v >>> 2 &&& 1 ∧
      (v &&& (0x1f : UInt8)) >>> (3 : UInt8) &&& (1 : UInt8) = v >>> 3 &&& 1 ∧ (v &&& (0x1f : UInt8)) >>> (4 : UInt8) &&& (1 : UInt8) = v >>> 4 &&& 1 := by decide +kernel
  unfold TwanId.unmarshal
  rw [cut_length, rd16_keep (j := 1) (hu 1 (by decide)) (hu 2 (by decide)), rd_keep (j := 3) (hu 3 (by decide)), rd_cut (j := 4), h4]
  split
  · refine rbind_ext rfl fun length _ => rbind_ext rfl fun ins _ => ?_
    simp only [bind_def, rbind_assoc, rbind_ok, key]
    refine rbind_ext rfl fun fl _ => ?_
    refine (Steps.rdLvU h).bind (by decide) fun p hp => ?_
    refine (Steps.rdIf (Steps.rdN h)).bind hp fun p hp => ?_
    refine (Steps.rdIf (Steps.rdLe (Steps.rdLvU h))).bind hp fun p hp => ?_
    refine (Steps.rdIf (Steps.rdPlmnS h)).bind hp fun p hp => ?_
    refine (Steps.rdIf (Steps.rdLe (Steps.rdName h))).bind hp fun p hp => ?_
    exact rbind_ext (rdRelay_keep fun k hk => h k (Nat.le_trans hp hk)) fun _ _ => rfl
  · rfl

theorem PresenceReportingAreaAction.spare (hu : ∀ k, k ≠ 4 → k ≠ 9 → k ≠ 10 → k ≠ 11 → k ≠ 12 → k ≠ 13 → u k = 255) (h4 : u 4 = 0x0f)
    (h9 : u 9 = 0x3f) (h10 : u 10 = 0x3f) (h11 : u 11 = 0x3f) (h12 : u 12 = 0x3f) (h13 : u 13 = 0x3f) :
    PresenceReportingAreaAction.unmarshal m (cut u b) = PresenceReportingAreaAction.unmarshal m b := by
  have h : ∀ k, 14 ≤ k → u k = 255 := fun k hk => hu k (by omega) (by omega) (by omega) (by omega) (by omega) (by omega)
  have hl : ∀ k, k < 9 → k ≠ 4 → u k = 255 := fun k hk h => hu k (by omega) (by omega) (by omega) (by omega) (by omega) (by omega)
  have k1 : ∀ v : UInt8, (v &&& (0x3f : UInt8)) &&& (0x3f : UInt8) = v &&& 0x3f := by decide +kernel
  have k2 : ∀ v : UInt8, (v &&& (0x0f : UInt8)) >>> (3 : UInt8) &&& (0x01 : UInt8) = v >>> 3 &&& 0x01 ∧ (v &&& (0x0f : UInt8)) &&& (0x07 : UInt8) = v &&& 0x07 := by decide +kernel
  simp only [PresenceReportingAreaAction.unmarshal, bind_def, cut_length, checkTliv_cut,
    rd16_keep (j := 1) (hl 1 (by decide) (by decide)) (hl 2 (by decide) (by decide)), rd_keep (j := 3) (hl 3 (by decide) (by decide)),
    rd24_keep' (j := 5) (hl 5 (by decide) (by decide)) (hl 6 (by decide) (by decide)) (hl 7 (by decide) (by decide)),
    rd_keep (j := 8) (hl 8 (by decide) (by decide)), rd_cut (j := 4), rd_cut (j := 9), rd_cut (j := 10), rd_cut (j := 11), rd_cut (j := 12),
    rd_cut (j := 13), h4, h9, h10, h11, h12, h13, rbind_assoc, rbind_ok, k1, k2]
  split
  · refine rbind_ext rfl fun length _ => rbind_ext rfl fun ins _ => rbind_ext rfl fun ck _ => ?_
    split
    · refine rbind_ext rfl fun f _ => rbind_ext rfl fun prai _ => rbind_ext rfl fun n0 _ => rbind_ext rfl fun n1 _ => rbind_ext rfl fun n2 _ =>
        rbind_ext rfl fun n3 _ => rbind_ext rfl fun n4 _ => rbind_ext rfl fun n5 _ => ?_
      split
      · rfl
      · refine (Steps.rdElems h).bind (by decide) fun p hp => ?_
        refine (Steps.rdElems h).bind hp fun p hp => ?_
        refine (Steps.rdElems h).bind hp fun p hp => ?_
        refine (Steps.rdElems h).bind hp fun p hp => ?_
        refine (Steps.rdElems h).bind hp fun p hp => ?_
        refine (Steps.rdElems h).bind hp fun p hp => ?_
        refine (Steps.rdElems h).bind hp fun p hp => ?_
        rw [rd_keep (h _ hp)]
        refine rbind_ext ?_ fun _ _ => rfl
        split
        · refine rbind_ext rfl fun n _ => ?_
          exact (Steps.rdElems h).bind (Nat.le_succ_of_le hp) fun p hp => rfl
        · rfl
    · rfl
  · rfl

