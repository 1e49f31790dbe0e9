import Verif.V2.PanicBase

/-!
# When the decoder of an information element panics: the kinds with a cursor

For each kind the condition on the octets is the one of `Kind.Crash` (V2/Crash.lean).
-/

namespace Gtp.V2

set_option linter.unusedSimpArgs false
set_option linter.unusedVariables false

theorem Fteid.quiet (b : Bytes) : Quiet Fteid.unmarshal Fteid.len b ↔ ¬ (Over 4 b ∨ Full b ∧ b.length < Fteid.need (b.getD 4 0)) := by
  have e01 : ((0 : UInt8) = 1) = False := by decide
  crash_unfold
  safe_simp [Fteid.unmarshal, Fteid.len, Safe_checkTliv_debug, Safe_add4_debug, Safe_ieLen16_debug, Safe_slBody16_debug, Fteid.need]
  by_cases h1 : b.getD 4 0 >>> 7 = 1 ∧ b.getD 4 0 >>> 6 &&& 1 = 1
  · simp only [h1, and_self, if_true, not_true, true_implies, false_implies, and_true]
    omega
  · by_cases h2 : b.getD 4 0 >>> 7 = 1 ∧ b.getD 4 0 >>> 6 &&& 1 = 0
    · simp only [h1, h2, and_self, if_true, if_false, not_true, not_false_eq_true, true_implies, false_implies, and_true, true_and, e01, and_false, false_and]
      omega
    · by_cases h3 : b.getD 4 0 >>> 7 = 0 ∧ b.getD 4 0 >>> 6 &&& 1 = 1
      · simp only [h1, h2, h3, and_self, if_true, if_false, not_true, not_false_eq_true, true_implies, false_implies, and_true, true_and, e01, and_false, false_and]
        omega
      · simp only [h1, h2, h3, if_false, not_true, not_false_eq_true, true_implies, false_implies, and_true, true_and, e01, and_false, false_and]
        omega

theorem MonitoringEventExtensionInfo.quiet (b : Bytes) : Quiet MonitoringEventExtensionInfo.unmarshal MonitoringEventExtensionInfo.len b ↔ ¬ (Over 4 b ∨ Full b ∧ (b.length < 10 ∨ b.length = 9 + octAt b 9)) := by
  crash_unfold
  safe_simp [MonitoringEventExtensionInfo.unmarshal, MonitoringEventExtensionInfo.len, Safe_checkTliv_debug, Safe_add4_debug, Safe_ieLen16_debug, Safe_slBody16_debug]
  constructor
  · rintro h (⟨h1, h2⟩ | ⟨h1, h2⟩)
    · obtain ⟨_, _, _, h3, _⟩ := h h1
      omega
    · obtain ⟨_, _, _, _, h3⟩ := h (by omega)
      obtain ⟨_, _, _, _, h4, h5⟩ := h3 ⟨h1.1, h1.2.2⟩
      rcases h2 with h2 | h2
      · omega
      · have := (h5 (by omega)).1
        omega
  · intro hc h4
    refine ⟨by omega, by omega, by omega, by omega, fun hf => ?_⟩
    refine ⟨by omega, by omega, by omega, by omega, by omega, fun h9 => ⟨⟨by omega, by omega⟩, fun _ _ => ⟨by omega, ?_, ?_⟩⟩⟩
    · intro _ _
      refine ⟨by omega, by omega, by omega, fun _ _ => ?_⟩
      omega
    · intro _ _ _
      omega

theorem RemoteUserId.rdStr_safe' {b : Bytes} {c : Nat} {e : Err} (h : 1 ≤ c) : (rdStr b c e).Safe fun s => True := by
  safe_simp [rdStr]
  omega

theorem RemoteUserId.quiet (b : Bytes) : Quiet RemoteUserId.unmarshal RemoteUserId.len b ↔ ¬ (6 ≤ b.length ∧ b.length < 6 + octAt b 5) := by
  have hs : ∀ c e, ((rdStr b (c + 1) e).Safe fun _ => True) = True := fun c e => eq_true (rdStr_safe' (by omega))
  have hs' : ∀ c e, ((rdStr b (c + 1) e).Safe fun a => (rdStr b (c + 1 + List.length a + 1) (Err.ieInvalidLength 192)).Safe fun _ => True) = True :=
    fun c e => eq_true (Safe.mono (rdStr_safe' (by omega)) fun _ _ => rdStr_safe' (by omega))
  have h3 : ∀ x : UInt8, x &&& 3 = 0 ∨ x &&& 3 = 1 ∨ x &&& 3 = 2 ∨ x &&& 3 = 3 := by decide +kernel
  have h3 := h3 (b.getD 4 0)
  crash_unfold
  safe_simp [RemoteUserId.unmarshal, RemoteUserId.len, hs, hs', ← UInt8.toNat_inj, UInt8.reduceToNat]
  simp only [← UInt8.toNat_inj, UInt8.reduceToNat] at h3
  omega

theorem SourceIdentification.quiet (b : Bytes) : Quiet SourceIdentification.unmarshal SourceIdentification.len b ↔
    ¬ (13 ≤ b.length ∧ b.length < 18 ∧ octAt b 12 = 1) := by
  crash_unfold
  safe_simp [SourceIdentification.unmarshal, SourceIdentification.len, CellIdentifier.unmarshal, SourceType.unmarshal, SourceRncIdentifier.unmarshal, mccMncDecode, List.length_drop, List.length_take, ← UInt8.toNat_inj, UInt8.reduceToNat]
  have : (List.drop 12 b).getD 0 0 = b.getD 12 0 := by simp
  rw [this]
  omega

theorem AdditionalMmContextForSrvcc.quiet (b : Bytes) : Quiet AdditionalMmContextForSrvcc.unmarshal AdditionalMmContextForSrvcc.len b ↔
    ¬ (5 ≤ b.length ∧ ¬ checksLv0 b 1 4 fun c => checksLv0 b 1 c fun c => c < b.length) := by
  have : (Quiet AdditionalMmContextForSrvcc.unmarshal AdditionalMmContextForSrvcc.len b) ↔ (5 ≤ b.length →
      checksLv0 b 1 4 fun c => checksLv0 b 1 c fun c => c < b.length) := by
    unfold Quiet
    safe_simp [AdditionalMmContextForSrvcc.unmarshal, AdditionalMmContextForSrvcc.len]
    refine imp_congr_right fun h5 => ?_
    simp only [show 1 < b.length by omega, show 2 < b.length by omega, show 3 < b.length by omega, true_and]
    refine (Moves.lv 1 _ b).then fun a => (Moves.lv 1 _ b).then fun a => ?_
    rw [Moves.then (Moves.lv 0 _ b) (rest := fun _ => True) fun _ => Iff.rfl]
    simp [checksLv0]
  rw [this]
  simp only [Classical.not_and_iff_not_or_not, Classical.not_not, Decidable.imp_iff_not_or]

theorem MbmsIpMulticastDistribution.quiet (b : Bytes) : Quiet MbmsIpMulticastDistribution.unmarshal MbmsIpMulticastDistribution.len b ↔
    ¬ (Over 8 b ∨ 8 ≤ b.length ∧ Full b ∧ ¬ checksIp b 8 fun c => checksIp b c fun c => c ≠ b.length) := by
  have : (Quiet MbmsIpMulticastDistribution.unmarshal MbmsIpMulticastDistribution.len b) ↔ (8 ≤ b.length → declN b < 65532 ∧ (0 < declN b ∧ declN b + 4 ≤ b.length →
      checksIp b 8 fun c => checksIp b c fun c => c ≠ b.length)) := by
    unfold Quiet declN declLen
    safe_simp [MbmsIpMulticastDistribution.unmarshal, MbmsIpMulticastDistribution.len, Safe_checkTliv_debug, Safe_add4_debug, Safe_ieLen16_debug, Safe_slBody16_debug]
    refine imp_congr_right fun h5 => ?_
    simp only [show 1 < b.length by omega, show 2 < b.length by omega, show 3 < b.length by omega, show 4 < b.length by omega, show 5 < b.length by omega, show 6 < b.length by omega, show 7 < b.length by omega, true_and]
    refine and_congr_right fun _ => imp_congr_right fun _ => ?_
    refine (Moves.ip b).then fun a => (Moves.ip b).then fun a => ?_
    omega
  rw [this]
  crash_unfold
  generalize checksIp b 8 _ = p
  by_cases hp : p
  · simp only [hp, implies_true, and_true, not_true, and_false, or_false]
    omega
  · simp only [hp, imp_false, not_false_eq_true, and_true]
    omega

theorem Moves.scope (b : Bytes) : Moves (MdtConfiguration.rdScope b) (takesLv b) := by
  intro c rest
  safe_simp [MdtConfiguration.rdScope, takesLv, octAt]
  refine and_congr_right fun hc => ?_
  by_cases h : (b.getD c 0).toNat = 0
  · simp only [h, true_implies, not_true, false_implies, and_true, Nat.add_zero, iff_and_self]
    omega
  · simp only [h, false_implies, not_false_eq_true, true_implies, true_and]
    exact and_congr_left_iff.mpr fun _ => by omega

theorem rdMdtPlmns_quiet : ∀ s : Bytes, (rdMdtPlmns s).Safe fun _ => True
  | [] => trivial
  | [_] => trivial
  | [_, _] => trivial
  | p0 :: p1 :: p2 :: r => by
    have ih := rdMdtPlmns_quiet r
    rw [rdMdtPlmns, Safe_bind]
    refine mccMncDecode_safe (by simp) fun x => ?_
    rw [Safe_bind]
    exact Safe.mono ih fun _ _ => trivial

theorem rdPlmnList_quiet (f : Bool) (b : Bytes) (c : Nat) :
    ((MdtConfiguration.rdPlmnList f b c).Safe fun _ => True) ↔ (f = true → c < b.length) := by
  cases f
  · simp [MdtConfiguration.rdPlmnList, R.Safe]
  · safe_simp [MdtConfiguration.rdPlmnList]
    constructor
    · exact fun h _ => h.1
    · intro h
      exact ⟨h trivial, fun _ h1 => ⟨by omega, rdMdtPlmns_quiet _⟩⟩

theorem shift3 : ∀ x : UInt8, (x >>> 3 == 1) = true ↔ x.toNat / 8 = 1 := by decide +kernel

theorem MdtConfiguration.quiet (b : Bytes) : Quiet MdtConfiguration.unmarshal MdtConfiguration.len b ↔
    ¬ (15 ≤ b.length ∧ ¬ takesLv b 14 fun p => p < b.length ∧ maybe8 b (b.getD p 0 &&& 1 == 1) (p + 1) fun c =>
      maybe8 b (b.getD p 0 >>> 1 &&& 1 == 1) c fun c => maybe8 b (b.getD p 0 >>> 2 &&& 1 == 1) c fun c =>
      octAt b p / 8 = 1 → c < b.length) := by
  rw [Classical.not_and_iff_not_or_not, Classical.not_not, ← Decidable.imp_iff_not_or]
  unfold Quiet
  safe_simp [MdtConfiguration.unmarshal, MdtConfiguration.len]
  refine imp_congr_right fun h5 => ?_
  simp only [show 1 < b.length by omega, show 2 < b.length by omega, show 3 < b.length by omega, show 4 < b.length by omega,
    show 9 < b.length by omega, show 10 < b.length by omega, show 11 < b.length by omega, show 12 < b.length by omega,
    show 13 < b.length by omega, show 9 ≤ b.length by omega, show 5 ≤ 9 by omega, true_and]
  refine (Moves.scope b).then fun a => and_congr_right fun _ => ?_
  refine (Moves.opt8 b _).then fun a1 => (Moves.opt8 b _).then fun a2 => (Moves.opt8 b _).then fun a3 => ?_
  rw [rdPlmnList_quiet, shift3]

theorem rdRelay_quiet (f : Bool) (b : Bytes) (c : Nat) :
    ((TwanId.rdRelay f b c).Safe fun _ => True) ↔ (f = true → c < b.length → checksLv b (c + 1) fun c => c ≠ b.length) := by
  cases f
  · simp [TwanId.rdRelay, R.Safe]
  · safe_simp [TwanId.rdRelay]
    simp only [true_implies]
    refine imp_congr_right fun hc => ?_
    simp only [hc, true_and]
    refine (Moves.lvC _ b).then fun a => ?_
    rw [Moves.then ((Moves.lvC _ b).le _ b) (rest := fun _ => True) fun _ => Iff.rfl]
    simp only [guarded, checksLv, implies_true, and_true]
    omega

theorem TwanId.quiet (b : Bytes) : Quiet TwanId.unmarshal TwanId.len b ↔
    ¬ (6 ≤ b.length ∧ ¬ takesLv b 5 fun c => flagged (b.getD 4 0 &&& 1 == 1) (takes b 6) c fun c =>
      flagged (b.getD 4 0 >>> 1 &&& 1 == 1) (guarded b (takesLv b)) c fun c => flagged (b.getD 4 0 >>> 2 &&& 1 == 1) (takes b 3) c fun c =>
      flagged (b.getD 4 0 >>> 3 &&& 1 == 1) (guarded b (takesText b)) c fun c =>
      b.getD 4 0 >>> 4 &&& 1 = 1 → c < b.length → checksLv b (c + 1) fun c => c ≠ b.length) := by
  rw [Classical.not_and_iff_not_or_not, Classical.not_not, ← Decidable.imp_iff_not_or]
  unfold Quiet
  safe_simp [TwanId.unmarshal, TwanId.len]
  refine imp_congr_right fun h5 => ?_
  simp only [show 1 < b.length by omega, show 2 < b.length by omega, show 3 < b.length by omega, show 4 < b.length by omega, true_and]
  refine (Moves.lvU b).then fun a => ((Moves.n b 6).cond _).then fun a1 => (((Moves.lvU b).le _ b).cond _).then fun a2 =>
    ((Moves.plmn b).cond _).then fun a3 => (((Moves.name b).le _ b).cond _).then fun a4 => ?_
  rw [rdRelay_quiet, beq_iff_eq]

theorem ExtendedTraceInformation.quiet (b : Bytes) : Quiet ExtendedTraceInformation.unmarshal ExtendedTraceInformation.len b ↔
    ¬ (11 ≤ b.length ∧ ¬ checksLv b 10 fun c => checksLv b c fun c => c < b.length → checksLv b (c + 1) fun c =>
      c < b.length ∧ (octAt b c = 4 → c + 5 ≤ b.length → declN b < 65532) ∧ (octAt b c = 16 → c + 17 ≤ b.length → declN b < 65532)) := by
  rw [Classical.not_and_iff_not_or_not, Classical.not_not, ← Decidable.imp_iff_not_or]
  unfold Quiet declN declLen octAt
  safe_simp [ExtendedTraceInformation.unmarshal, ExtendedTraceInformation.len, Safe_checkTliv_debug, Safe_add4_debug, Safe_ieLen16_debug, Safe_slBody16_debug, mccMncDecode, List.length_drop, List.length_take, ← UInt8.toNat_inj, UInt8.reduceToNat]
  refine imp_congr_right fun h5 => ?_
  simp only [show 1 < b.length by omega, show 2 < b.length by omega, show 3 < b.length by omega, show 7 < b.length by omega,
    show 8 < b.length by omega, show 9 < b.length by omega, show 7 ≤ b.length by omega, show 4 ≤ 7 by omega,
    show min 7 b.length - 4 = 3 by omega, show 0 < 3 by omega, show 1 < 3 by omega, show 2 < 3 by omega, true_and]
  refine (Moves.lvC _ b).then fun a => (Moves.lvC _ b).then fun a1 => ?_
  rw [show (¬ b.length < a1.2 + 1) = (a1.2 < b.length) from propext (by omega)]
  refine imp_congr_right fun hc => ?_
  simp only [hc, true_and]
  refine (Moves.lvC _ b).then fun a2 => and_congr_right fun _ => ?_
  omega

/-! ### Elements of lists -/

theorem mccMncDecode_ok {s : Bytes} (h : 3 ≤ s.length) : ∃ p, (mccMncDecode s : R Err _) = .ok p := by
  match s, h with
  | p0 :: p1 :: p2 :: r, _ => exact ⟨_, by simp [mccMncDecode, rd]; rfl⟩

theorem sl3_ok {s : Bytes} (h : 3 ≤ s.length) : ∃ t, (sl s 0 3 : R Err Bytes) = .ok t ∧ 3 ≤ t.length := by
  refine ⟨(s.take 3).drop 0, ?_, by simp; omega⟩
  rw [sl, if_pos ⟨by omega, h⟩]

/-- With enough octets an element is decoded. -/
def ElemFits {α : Type} (k : Nat) (unm : Bytes → R Err α) : Prop := ∀ s : Bytes, k ≤ s.length → ∃ x, unm s = .ok x


/-- Evaluate the decoder of an element on enough octets. -/
macro "fits" k:term "," u:ident : tactic => `(tactic| (
  intro s hs
  have hs' : $k ≤ s.length := hs
  obtain ⟨t, h1, h2⟩ := sl3_ok (s := s) (by omega)
  obtain ⟨⟨p, q, r⟩, h3⟩ := mccMncDecode_ok h2
  simp only [$u:ident, if_pos hs', h1, R.ok_bind, h3, rd16, rd24, rd32]
  simp (disch := omega) only [rd_getD, R.ok_bind, R.pure_eq]
  exact ⟨_, rfl⟩))

theorem Tai.fits : ElemFits 5 Tai.unmarshal := by fits 5, Tai.unmarshal
theorem Lai.fits : ElemFits 5 Lai.unmarshal := by fits 5, Lai.unmarshal
theorem MacroEnbId.fits : ElemFits 6 MacroEnbId.unmarshal := by fits 6, MacroEnbId.unmarshal
theorem ExtMacroEnbId.fits : ElemFits 6 ExtMacroEnbId.unmarshal := by
  intro s hs
  obtain ⟨t, h1, h2⟩ := sl3_ok (s := s) (by omega)
  obtain ⟨⟨p, q, r⟩, h3⟩ := mccMncDecode_ok h2
  simp only [ExtMacroEnbId.unmarshal, if_pos hs, h1, R.ok_bind, h3]
  simp (disch := omega) only [rd_getD, R.ok_bind, R.pure_eq]
  exact ⟨_, rfl⟩
theorem Ecgi.fits : ElemFits 7 Ecgi.unmarshal := by fits 7, Ecgi.unmarshal
theorem Rai.fits : ElemFits 6 Rai.unmarshal := by fits 6, Rai.unmarshal
theorem Sai.fits : ElemFits 7 Sai.unmarshal := by fits 7, Sai.unmarshal
theorem Cgi.fits : ElemFits 7 Cgi.unmarshal := by fits 7, Cgi.unmarshal

theorem rdElems_fits {α : Type} {k lo : Nat} {unm : Bytes → R Err α} (hu : ElemFits lo unm) (hlo : lo ≤ k) (e : Err) (b : Bytes) :
    ∀ n c, c + k * n ≤ b.length → ∃ l, rdElems true unm k e b n c = .ok (l, c + k * n)
  | 0, c, _ => ⟨[], rfl⟩
  | n + 1, c, h => by
    have hm : c + k * (n + 1) = c + k + k * n := by rw [Nat.mul_add]; omega
    rw [hm] at h ⊢
    obtain ⟨x, hx⟩ := hu (b.drop c) (by simp; omega)
    obtain ⟨l, hl⟩ := rdElems_fits hu hlo e b n (c + k) h
    refine ⟨x :: l, ?_⟩
    rw [rdElems, if_neg (by simp; omega)]
    have : (slFrom b c : R Err Bytes) = .ok (b.drop c) := by rw [slFrom, if_pos (by omega)]
    rw [this, R.ok_bind, hx]
    show (rdElems true unm k e b n (c + k) >>= _) = _
    rw [hl]
    rfl

theorem PresenceReportingAreaAction.quiet (b : Bytes) : Quiet PresenceReportingAreaAction.unmarshal PresenceReportingAreaAction.len b ↔
    ¬ (Over 4 b ∨ Full b ∧ (b.length < 14 ∨ PresenceReportingAreaAction.extPos b = b.length)) := by
  have : Quiet PresenceReportingAreaAction.unmarshal PresenceReportingAreaAction.len b ↔ (4 ≤ b.length → declN b < 65532 ∧ (0 < declN b ∧ declN b + 4 ≤ b.length →
     14 ≤ b.length ∧ PresenceReportingAreaAction.extPos b ≠ b.length)) := by
    unfold Quiet declN declLen
    safe_simp [PresenceReportingAreaAction.unmarshal, PresenceReportingAreaAction.len, Safe_checkTliv_debug, Safe_add4_debug, Safe_ieLen16_debug, Safe_slBody16_debug]
    refine imp_congr_right fun h5 => ?_
    simp only [show 1 < b.length by omega, show 2 < b.length by omega, show 3 < b.length by omega, true_and]
    refine and_congr_right fun _ => imp_congr_right fun hf => ?_
    by_cases h14 : 14 ≤ b.length
    · simp only [show 4 < b.length by omega, show 5 < b.length by omega, show 6 < b.length by omega, show 7 < b.length by omega,
        show 8 < b.length by omega, show 9 < b.length by omega, show 10 < b.length by omega, show 11 < b.length by omega,
        show 12 < b.length by omega, show 13 < b.length by omega, show ¬ b.length < 14 by omega, not_false_eq_true, true_implies, true_and, h14]
      by_cases hp : PresenceReportingAreaAction.extPos b ≤ b.length
      · unfold PresenceReportingAreaAction.extPos at hp ⊢
        obtain ⟨l1, e1⟩ := rdElems_fits (k := 5) Tai.fits (by omega) (.ieInvalidLength 177) b (b.getD 8 0 >>> 4).toNat 14 (by omega)
        obtain ⟨l2, e2⟩ := rdElems_fits (k := 6) MacroEnbId.fits (by omega) (.ieInvalidLength 177) b (b.getD 9 0 &&& 0x3f).toNat
          (14 + 5 * (b.getD 8 0 >>> 4).toNat) (by omega)
        obtain ⟨l3, e3⟩ := rdElems_fits (k := 6) MacroEnbId.fits (by omega) (.ieInvalidLength 177) b (b.getD 10 0 &&& 0x3f).toNat
          (14 + 5 * (b.getD 8 0 >>> 4).toNat + 6 * (b.getD 9 0 &&& 0x3f).toNat) (by omega)
        obtain ⟨l4, e4⟩ := rdElems_fits (k := 7) Ecgi.fits (by omega) (.ieInvalidLength 177) b (b.getD 11 0 &&& 0x3f).toNat
          (14 + 5 * (b.getD 8 0 >>> 4).toNat + 6 * (b.getD 9 0 &&& 0x3f).toNat + 6 * (b.getD 10 0 &&& 0x3f).toNat) (by omega)
        obtain ⟨l5, e5⟩ := rdElems_fits (k := 7) Rai.fits (by omega) (.ieInvalidLength 177) b (b.getD 8 0 &&& 0x0f).toNat
          (14 + 5 * (b.getD 8 0 >>> 4).toNat + 6 * (b.getD 9 0 &&& 0x3f).toNat + 6 * (b.getD 10 0 &&& 0x3f).toNat + 7 * (b.getD 11 0 &&& 0x3f).toNat) (by omega)
        obtain ⟨l6, e6⟩ := rdElems_fits (k := 7) Sai.fits (by omega) (.ieInvalidLength 177) b (b.getD 12 0 &&& 0x3f).toNat
          (14 + 5 * (b.getD 8 0 >>> 4).toNat + 6 * (b.getD 9 0 &&& 0x3f).toNat + 6 * (b.getD 10 0 &&& 0x3f).toNat + 7 * (b.getD 11 0 &&& 0x3f).toNat + 7 * (b.getD 8 0 &&& 0x0f).toNat) (by omega)
        obtain ⟨l7, e7⟩ := rdElems_fits (k := 7) Cgi.fits (by omega) (.ieInvalidLength 177) b (b.getD 13 0 &&& 0x3f).toNat
          (14 + 5 * (b.getD 8 0 >>> 4).toNat + 6 * (b.getD 9 0 &&& 0x3f).toNat + 6 * (b.getD 10 0 &&& 0x3f).toNat + 7 * (b.getD 11 0 &&& 0x3f).toNat + 7 * (b.getD 8 0 &&& 0x0f).toNat + 7 * (b.getD 12 0 &&& 0x3f).toNat) (by omega)
        simp only [e1, e2, e3, e4, e5, e6, e7, Safe_ok]
        rw [and_congr_right fun _ => iff_true_intro (rdElems_safe ExtMacroEnbId.elem_safe 6 _ b _ _ (fun _ => True) fun _ => trivial)]
        simp only [and_true]
        omega
      · simp only [show ¬ PresenceReportingAreaAction.extPos b = b.length by omega, ne_eq, not_false_eq_true, iff_true]
        unfold PresenceReportingAreaAction.extPos at hp
        refine rdElems_safe Tai.elem_safe 5 _ b _ _ _ fun _ => rdElems_safe MacroEnbId.elem_safe 6 _ b _ _ _ fun _ =>
          rdElems_safe MacroEnbId.elem_safe 6 _ b _ _ _ fun _ => rdElems_safe Ecgi.elem_safe 7 _ b _ _ _ fun _ =>
          rdElems_safe Rai.elem_safe 7 _ b _ _ _ fun _ => rdElems_safe Sai.elem_safe 7 _ b _ _ _ fun _ =>
          rdElems_safe Cgi.elem_safe 7 _ b _ _ _ fun _ h => absurd h ?_
        omega
    · simp only [h14, false_and, iff_false]
      omega
  rw [this]
  crash_unfold
  omega

namespace Location

/-- The octets that have to be there, and those by which the cursor advances. -/
def needs : Nat → Nat | 1 => 7 | 2 => 7 | 3 => 6 | 4 => 5 | 5 => 7 | 6 => 5 | _ => 6
def steps : Nat → Nat | 1 => 7 | 2 => 7 | 3 => 7 | 4 => 5 | 5 => 7 | 6 => 5 | _ => 6

theorem elem_quiet {α β : Type} {lo : Nat} {unm : Bytes → R Err α} (he : ElemSafe lo unm) (hf : ElemFits lo unm) (f : α → β)
    (n : Nat) (s : Bytes) (rest : Nat → Prop) :
    ((unm s >>= fun i => (pure (f i, n) : R Err (β × Nat))).Safe fun p => rest p.2) ↔ (lo ≤ s.length → rest n) := by
  by_cases h : lo ≤ s.length
  · obtain ⟨x, hx⟩ := hf s h
    rw [hx, R.ok_bind, Safe_pure]
    simp [h]
  · simp only [h, false_implies, iff_true]
    have := he s
    rw [Safe_bind]
    exact Safe.mono this fun _ hl => absurd hl h

theorem read_quiet (k : Nat) (s : Bytes) (hk : 1 ≤ k ∧ k ≤ 8) (rest : Nat → Prop) :
    ((read k s).Safe fun p => rest p.2) ↔ (needs k ≤ s.length → rest (steps k)) := by
  unfold read
  have : k = 1 ∨ k = 2 ∨ k = 3 ∨ k = 4 ∨ k = 5 ∨ k = 6 ∨ k = 7 ∨ k = 8 := by omega
  rcases this with rfl | rfl | rfl | rfl | rfl | rfl | rfl | rfl
  · exact elem_quiet V2.Cgi.elem_safe V2.Cgi.fits _ _ s rest
  · exact elem_quiet V2.Sai.elem_safe V2.Sai.fits _ _ s rest
  · exact elem_quiet V2.Rai.elem_safe V2.Rai.fits _ _ s rest
  · exact elem_quiet V2.Tai.elem_safe V2.Tai.fits _ _ s rest
  · exact elem_quiet V2.Ecgi.elem_safe V2.Ecgi.fits _ _ s rest
  · exact elem_quiet V2.Lai.elem_safe V2.Lai.fits _ _ s rest
  · exact elem_quiet V2.MacroEnbId.elem_safe V2.MacroEnbId.fits _ _ s rest
  · exact elem_quiet V2.ExtMacroEnbId.elem_safe V2.ExtMacroEnbId.fits _ _ s rest

theorem readAll_cons (b : Bytes) (k : Nat) (ks : List Nat) (c : Nat) (hk : 1 ≤ k ∧ k ≤ 8) :
    ((readAll b (k :: ks) c).Safe fun _ => True) ↔
      c ≤ b.length ∧ (c + needs k ≤ b.length → (readAll b ks (c + steps k)).Safe fun _ => True) := by
  rw [readAll, Safe_bind, Safe_slFrom]
  refine and_congr_right fun hc => ?_
  rw [Safe_bind]
  rw [Safe_congr (Q := fun p => (fun n => (readAll b ks (c + n)).Safe fun _ => True) p.2) fun ⟨l, n⟩ => by
    show ((readAll b ks (c + n) >>= _).Safe _ ↔ _)
    rw [Safe_bind]
    exact Safe_congr fun _ => Iff.rfl]
  rw [read_quiet k _ hk fun n => (readAll b ks (c + n)).Safe fun _ => True]
  rw [List.length_drop, show (needs k ≤ b.length - c) = (c + needs k ≤ b.length) from propext (by omega)]

theorem readAll_tail (b : Bytes) : ∀ (ks : List Nat) (c : Nat), c ≤ b.length → (∀ k ∈ ks, 4 ≤ k ∧ k ≤ 8) →
    (readAll b ks c).Safe fun _ => True
  | [], _, _, _ => trivial
  | k :: ks, c, hc, hk => by
    have h1 := hk k (by simp)
    rw [readAll_cons b k ks c (by omega)]
    refine ⟨hc, fun h => readAll_tail b ks _ ?_ fun j hj => hk j (by simp [hj])⟩
    have : k = 4 ∨ k = 5 ∨ k = 6 ∨ k = 7 ∨ k = 8 := by omega
    rcases this with rfl | rfl | rfl | rfl | rfl <;> exact h

/-- Behind the routing area. -/
theorem readAll_tail_iff (b : Bytes) (ks : List Nat) (c : Nat) (hk : ∀ k ∈ ks, 4 ≤ k ∧ k ≤ 8) :
    ((readAll b ks c).Safe fun _ => True) ↔ ks = [] ∨ c ≤ b.length := by
  constructor
  · intro h
    cases ks with
    | nil => exact .inl rfl
    | cons k ks =>
      have h1 := hk k (by simp)
      rw [readAll_cons b k ks c (by omega)] at h
      exact .inr h.1
  · rintro (rfl | h)
    · trivial
    · exact readAll_tail b ks c h hk

theorem order_eq : ∀ fl : UInt8, order fl = (if fl.toNat % 2 = 1 then [1] else []) ++ (if fl.toNat / 2 % 2 = 1 then [2] else []) ++
    (if fl &&& 4 = 4 then [3] else []) ++ [4, 5, 6, 7, 8].filter (fun k => fl &&& bit k == bit k) := by decide +kernel

theorem order_tail : ∀ fl : UInt8, [4, 5, 6, 7, 8].filter (fun k => fl &&& bit k == bit k) = [] ↔ fl.toNat < 8 := by decide +kernel

theorem readAll_order (b : Bytes) (fl : UInt8) (h5 : 5 ≤ b.length) : ((readAll b (order fl) 5).Safe fun _ => True) ↔
    ¬ (fl &&& 4 = 4 ∧ 8 ≤ fl.toNat ∧ b.length = 11 + 7 * (fl.toNat % 2) + 7 * (fl.toNat / 2 % 2)) := by
  have ht : ∀ k ∈ [4, 5, 6, 7, 8].filter (fun k => fl &&& bit k == bit k), 4 ≤ k ∧ k ≤ 8 := by
    intro k hk
    have := (List.mem_filter.mp hk).1
    simp only [List.mem_cons, List.not_mem_nil, or_false] at this
    omega
  have hn := order_tail fl
  rw [order_eq]
  generalize [4, 5, 6, 7, 8].filter (fun k => fl &&& bit k == bit k) = ts at ht hn
  have h1 : fl.toNat % 2 = 0 ∨ fl.toNat % 2 = 1 := by omega
  have h2 : fl.toNat / 2 % 2 = 0 ∨ fl.toNat / 2 % 2 = 1 := by omega
  by_cases h4 : fl &&& 4 = 4 <;> rcases h1 with h1 | h1 <;> rcases h2 with h2 | h2 <;>
    simp only [h1, h2, h4, if_true, if_false, List.cons_append, List.nil_append, Nat.zero_ne_one, true_and, false_and, not_false_eq_true, iff_true,
      readAll_cons _ _ _ _ (show 1 ≤ 1 ∧ 1 ≤ 8 by omega), readAll_cons _ _ _ _ (show 1 ≤ 2 ∧ 2 ≤ 8 by omega), readAll_cons _ _ _ _ (show 1 ≤ 3 ∧ 3 ≤ 8 by omega),
      readAll_tail_iff b ts _ ht, needs, steps, hn] <;>
    omega

end Location

theorem Uli.quiet (b : Bytes) : Quiet Uli.unmarshal Uli.len b ↔
    ¬ (Over 4 b ∨ Full b ∧ b.getD 4 0 &&& 4 = 4 ∧ 8 ≤ octAt b 4 ∧ b.length = 11 + 7 * (octAt b 4 % 2) + 7 * (octAt b 4 / 2 % 2)) := by
  have : Quiet Uli.unmarshal Uli.len b ↔ (4 ≤ b.length → declN b < 65532 ∧ (0 < declN b ∧ declN b + 4 ≤ b.length →
     ¬ (b.getD 4 0 &&& 4 = 4 ∧ 8 ≤ octAt b 4 ∧ b.length = 11 + 7 * (octAt b 4 % 2) + 7 * (octAt b 4 / 2 % 2)))) := by
    unfold Quiet declN declLen octAt
    safe_simp [Uli.unmarshal, Uli.len, Safe_checkTliv_debug, Safe_add4_debug, Safe_ieLen16_debug, Safe_slBody16_debug]
    refine imp_congr_right fun h5 => ?_
    simp only [show 1 < b.length by omega, show 2 < b.length by omega, show 3 < b.length by omega, true_and]
    refine and_congr_right fun _ => imp_congr_right fun hf => ?_
    rw [Location.readAll_order b _ (by omega)]
    simp only [show 4 < b.length by omega, true_and]
  rw [this]
  crash_unfold
  by_cases h4 : b.getD 4 0 &&& 4 = 4
  · simp only [h4, true_and]
    omega
  · simp only [h4, false_and, and_false, or_false, not_false_eq_true, implies_true, and_true]
    omega

end Gtp.V2
