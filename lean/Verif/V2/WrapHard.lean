import Verif.V2.WrapBase

/-!
# A declared length of 65532 or more in a release build: the kinds with names, lists or a cursor

For each kind the conditions on the octets are those of `Kind.WrapCrash` and `Kind.Spin` (V2/WrapCrash.lean).
-/

namespace Gtp.V2

set_option linter.unusedSimpArgs false
set_option linter.unusedVariables false

variable {b : Bytes} {z : Prop}

theorem size_ne (n : Nat) : (z → n + 4 ≠ 0) = True := eq_true fun _ => by omega

theorem decLabels_err : ∀ (f : Nat) (d : Bytes) (e : Err), (decLabels f d : R Err Str) ≠ .err e
  | _, [], _ => by intro h; cases ‹Nat› <;> cases h
  | 0, _ :: _, _ => by intro h; cases h
  | f + 1, n :: r, e => by
    intro h
    simp only [decLabels] at h
    split at h
    · have ih := decLabels_err f (r.drop n.toNat)
      cases hx : (decLabels f (r.drop n.toNat) : R Err Str) with
      | err e' => exact ih e' hx
      | ok a => rw [hx] at h; cases h
      | panic => rw [hx] at h; cases h
      | diverge => rw [hx] at h; cases h
    · cases h

theorem Safe_name {d : Bytes} {p : Prop} : ((decName d : R Err Str).Safe fun _ => p) = (Labels d ∧ p) := by
  by_cases hd : Labels d
  · have h1 := decLabels_safe (ε := Err) d.length d (Nat.le_refl _) hd
    have h2 := decLabels_err d.length d
    rw [decName, Safe_bind]
    cases hx : (decLabels d.length d : R Err Str) with
    | err e => exact absurd hx (h2 e)
    | ok a => rw [Safe_ok, Safe_pure]; simp [hd]
    | panic => rw [hx] at h1; exact absurd h1 id
    | diverge => rw [hx] at h1; exact absurd h1 id
  · rw [decName_panic hd, Safe_panic]
    simp [hd]

/-- The equations of a decoder with a wrapping length. -/
macro "wrap_simp" u:ident "," l:ident "," h:ident : tactic => `(tactic|
  safe_simp [$u:ident, $l:ident, Safe_checkTliv_wrap $h, Safe_ieLen16_wrap $h, Safe_slBody16_wrap $h, Safe_add4_wrap, wrap4 $h, ieLenU,
    Safe_name, size_ne])

theorem Apn.wrap (h : 65532 ≤ declN b) :
    ((Apn.unmarshal .release b).Safe fun x => (Apn.len .release x).Safe fun n => z → n ≠ 0) ↔
      ¬ (4 ≤ b.length ∧ (b.length < declN b + 4 ∨ ¬ Labels ((b.take (4 + declN b)).drop 4))) ∧
      (z → ¬ (declN b = 65532 ∧ 65536 ≤ b.length ∧ Labels ((b.take 65536).drop 4))) := by
  have h1 := (declLen b).toNat_lt
  crash_unfold
  wrap_simp Apn.unmarshal, Apn.len, h
  generalize hn : (of16 (b.getD 1 0) (b.getD 2 0)).toNat = n at *
  have e : n = 65532 → b.take 65536 = b.take (4 + n) := by rintro rfl; rfl
  by_cases hl : Labels ((b.take (4 + n)).drop 4)
  · by_cases hz : z
    · by_cases h2 : n = 65532
      · simp only [e h2, hl, hz, decide_eq_true_eq, not_true, or_false, true_and, and_true, true_implies, ne_eq]
        omega
      · simp only [hl, hz, h2, decide_eq_true_eq, not_true, not_false_eq_true, or_false, true_and, and_true, true_implies, ne_eq, false_and]
        omega
    · simp only [hl, hz, decide_eq_true_eq, not_true, or_false, true_and, and_true, false_implies]
      omega
  · have h3 : ¬ (n = 65532 ∧ 65536 ≤ b.length ∧ Labels ((b.take 65536).drop 4)) := fun ⟨h2, _, h3⟩ => hl (by rw [← e h2]; exact h3)
    simp only [hl, h3, decide_eq_true_eq, not_false_eq_true, or_true, and_true, implies_true, false_and, and_false, imp_false]
    omega

theorem Fqdn.wrap (h : 65532 ≤ declN b) :
    ((Fqdn.unmarshal .release b).Safe fun x => (Fqdn.len .release x).Safe fun n => z → n ≠ 0) ↔
      ¬ (4 ≤ b.length ∧ (b.length < declN b + 4 ∨ ¬ Labels ((b.take (4 + declN b)).drop 4))) ∧
      (z → ¬ (declN b = 65532 ∧ 65536 ≤ b.length ∧ Labels ((b.take 65536).drop 4))) := by
  have h1 := (declLen b).toNat_lt
  crash_unfold
  wrap_simp Fqdn.unmarshal, Fqdn.len, h
  generalize hn : (of16 (b.getD 1 0) (b.getD 2 0)).toNat = n at *
  have e : n = 65532 → b.take 65536 = b.take (4 + n) := by rintro rfl; rfl
  by_cases hl : Labels ((b.take (4 + n)).drop 4)
  · by_cases hz : z
    · by_cases h2 : n = 65532
      · simp only [e h2, hl, hz, decide_eq_true_eq, not_true, or_false, true_and, and_true, true_implies, ne_eq]
        omega
      · simp only [hl, hz, h2, decide_eq_true_eq, not_true, not_false_eq_true, or_false, true_and, and_true, true_implies, ne_eq, false_and]
        omega
    · simp only [hl, hz, decide_eq_true_eq, not_true, or_false, true_and, and_true, false_implies]
      omega
  · have h3 : ¬ (n = 65532 ∧ 65536 ≤ b.length ∧ Labels ((b.take 65536).drop 4)) := fun ⟨h2, _, h3⟩ => hl (by rw [← e h2]; exact h3)
    simp only [hl, h3, decide_eq_true_eq, not_false_eq_true, or_true, and_true, implies_true, false_and, and_false, imp_false]
    omega

theorem PgwFqdn.wrap (h : 65532 ≤ declN b) :
    ((PgwFqdn.unmarshal .release b).Safe fun x => (PgwFqdn.len .release x).Safe fun n => z → n ≠ 0) ↔
      ¬ (4 ≤ b.length ∧ (b.length < declN b + 4 ∨ ¬ Labels ((b.take (4 + declN b)).drop 4))) ∧ (z → ¬ False) := by
  have h1 := (declLen b).toNat_lt
  crash_unfold
  wrap_simp PgwFqdn.unmarshal, PgwFqdn.len, h
  by_cases hl : Labels ((b.take (4 + (of16 (b.getD 1 0) (b.getD 2 0)).toNat)).drop 4)
  · simp only [hl, decide_eq_true_eq, not_true, not_false_eq_true, implies_true, or_false, and_true]
    omega
  · simp only [hl, decide_eq_true_eq, not_false_eq_true, or_true, and_true, implies_true, and_false, imp_false]
    omega

theorem ApnRelativeCapacity.wrap (h : 65532 ≤ declN b) :
    ((ApnRelativeCapacity.unmarshal .release b).Safe fun x => (ApnRelativeCapacity.len .release x).Safe fun n => z → n ≠ 0) ↔
      ¬ (4 ≤ b.length ∧ (b.length < declN b + 4 ∨ ¬ Labels ((b.take (4 + declN b)).drop 5))) ∧ (z → ¬ False) := by
  have h1 := (declLen b).toNat_lt
  crash_unfold
  wrap_simp ApnRelativeCapacity.unmarshal, ApnRelativeCapacity.len, h
  by_cases hl : Labels ((b.take (4 + (of16 (b.getD 1 0) (b.getD 2 0)).toNat)).drop 5)
  · simp only [hl, decide_eq_true_eq, not_true, not_false_eq_true, implies_true, or_false, and_true]
    omega
  · simp only [hl, decide_eq_true_eq, not_false_eq_true, or_true, and_true, implies_true, and_false, imp_false]
    omega

theorem Uli.wrap (h : 65532 ≤ declN b) :
    ((Uli.unmarshal .release b).Safe fun x => (Uli.len .release x).Safe fun n => z → n ≠ 0) ↔
      ¬ (4 ≤ b.length ∧ (b.length = 4 ∨ b.getD 4 0 &&& 4 = 4 ∧ 8 ≤ octAt b 4 ∧ b.length = 11 + 7 * (octAt b 4 % 2) + 7 * (octAt b 4 / 2 % 2))) ∧
      (z → ¬ False) := by
  have h1 := (declLen b).toNat_lt
  crash_unfold
  wrap_simp Uli.unmarshal, Uli.len, h
  by_cases h5 : 5 ≤ b.length
  · rw [Location.readAll_order b _ h5]
    by_cases h4 : b.getD 4 0 &&& 4 = 4
    · simp only [h4, decide_eq_true_eq, not_false_eq_true, implies_true, and_true, true_and]
      omega
    · simp only [h4, decide_eq_true_eq, not_false_eq_true, implies_true, and_true, true_and, false_and, or_false]
      omega
  · simp only [show ¬ 4 < b.length by omega, decide_eq_true_eq, false_and, imp_false, not_false_eq_true, implies_true, and_true]
    by_cases h4 : 4 ≤ b.length
    · exact iff_of_false (fun hx => (hx h4).2.2.2 (by omega)) fun hx => hx ⟨h4, .inl (by omega)⟩
    · simp only [h4, false_and, false_implies, not_false_eq_true]

theorem flags67 : ∀ x : UInt8, 64 ≤ x.toNat ↔ (x >>> 7 = 1 ∧ x >>> 6 &&& 1 = 1) ∨ (x >>> 7 = 1 ∧ x >>> 6 &&& 1 = 0) ∨
    (x >>> 7 = 0 ∧ x >>> 6 &&& 1 = 1) := by decide +kernel

theorem Fteid.wrap (h : 65532 ≤ declN b) :
    ((Fteid.unmarshal .release b).Safe fun x => (Fteid.len .release x).Safe fun n => z → n ≠ 0) ↔
      ¬ (4 ≤ b.length ∧ b.length < Fteid.need (b.getD 4 0)) ∧
      (z → ¬ (declN b = 65532 ∧ 64 ≤ octAt b 4 ∧ Fteid.need (b.getD 4 0) ≤ b.length)) := by
  have h1 := (declLen b).toNat_lt
  have e01 : ((0 : UInt8) = 1) = False := by decide
  have e10 : ((1 : UInt8) = 0) = False := by decide
  crash_unfold
  simp only [flags67]
  wrap_simp Fteid.unmarshal, Fteid.len, h
  unfold Fteid.need
  by_cases hz : z <;> simp only [hz, true_implies, false_implies, implies_true, and_true, decide_eq_true_eq]
  all_goals
    by_cases h1 : b.getD 4 0 >>> 7 = 1 ∧ b.getD 4 0 >>> 6 &&& 1 = 1
    · simp only [h1, and_self, if_true, not_true, true_implies, false_implies, and_true, true_or, true_and, ne_eq]
      omega
    · by_cases h2 : b.getD 4 0 >>> 7 = 1 ∧ b.getD 4 0 >>> 6 &&& 1 = 0
      · simp only [h1, h2, and_self, if_true, if_false, not_true, not_false_eq_true, true_implies, false_implies, and_true, true_and, e01, e10, and_false, false_and, or_false, false_or, true_or, ne_eq]
        omega
      · by_cases h3 : b.getD 4 0 >>> 7 = 0 ∧ b.getD 4 0 >>> 6 &&& 1 = 1
        · simp only [h1, h2, h3, and_self, if_true, if_false, not_true, not_false_eq_true, true_implies, false_implies, and_true, true_and, e01, e10, and_false, false_and, or_false, false_or, true_or, ne_eq]
          omega
        · simp only [h1, h2, h3, if_false, not_true, not_false_eq_true, true_implies, false_implies, and_true, true_and, e01, e10, and_false, false_and, or_false, false_or, ne_eq]
          omega

theorem Fcontainer.wrap (h : 65532 ≤ declN b) :
    ((Fcontainer.unmarshal .release b).Safe fun x => (Fcontainer.len .release x).Safe fun n => z → n ≠ 0) ↔
      ¬ (5 ≤ b.length ∧ octAt b 4 ≠ 0 ∧ b.length < declN b + 4) ∧
      (z → ¬ (declN b = 65532 ∧ 5 ≤ b.length ∧ (octAt b 4 = 0 ∨ 65536 ≤ b.length))) := by
  have h1 := (declLen b).toNat_lt
  crash_unfold
  safe_simp [Fcontainer.unmarshal, Fcontainer.len, Safe_checkTliv_wrap h, Safe_ieLen16_wrap h, Container.read, ← UInt8.toNat_inj, UInt8.reduceToNat]
  by_cases hz : z <;> simp only [hz, true_implies, false_implies, implies_true, and_true, true_and, decide_eq_true_eq, ne_eq] <;> omega

theorem lo4 (x : UInt8) : (x &&& 15).toNat = x.toNat % 16 := by
  have : ∀ x : UInt8, (x &&& 15).toNat = x.toNat % 16 := by decide +kernel
  exact this x

theorem hi4 (x : UInt8) : (x >>> 4).toNat = x.toNat / 16 := by
  have : ∀ x : UInt8, (x >>> 4).toNat = x.toNat / 16 := by decide +kernel
  exact this x

theorem Safe_checkTliv_small {l : UInt16} {P : Bool → Prop} (h : l.toNat < 65532) :
    (checkTliv .release l b : R Err Bool).Safe P = P (decide (0 < l.toNat ∧ l.toNat + 4 ≤ b.length)) := by
  rw [checkTliv_same h, Safe_checkTliv_debug]
  simp [h]

theorem Fqcsid.wrap (h : 65532 ≤ declN b) :
    ((Fqcsid.unmarshal .release b).Safe fun x => (Fqcsid.len .release x).Safe fun n => z → n ≠ 0) ↔
      ¬ False ∧ (z → ¬ (declN b = 65532 ∧ 5 ≤ b.length ∧ (octAt b 4 / 16 = 0 ∧ 9 + 2 * (octAt b 4 % 16) ≤ b.length ∨
        octAt b 4 / 16 = 1 ∧ 21 + 2 * (octAt b 4 % 16) ≤ b.length ∨ octAt b 4 / 16 = 2 ∧ 9 + 2 * (octAt b 4 % 16) ≤ b.length))) := by
  have h1 := (declLen b).toNat_lt
  have h2 : ∀ x : UInt8, (UInt16.ofNat (9 + 2 * (x &&& 15).toNat - 4)).toNat = 5 + 2 * (x.toNat % 16) := by decide +kernel
  have h3 : ∀ x : UInt8, (UInt16.ofNat (21 + 2 * (x &&& 15).toNat - 4)).toNat = 17 + 2 * (x.toNat % 16) := by decide +kernel
  have h4 : ∀ x : UInt8, (UInt16.ofNat (9 + 2 * (x &&& 15).toNat - 4)).toNat < 65532 := by decide +kernel
  have h5 : ∀ x : UInt8, (UInt16.ofNat (21 + 2 * (x &&& 15).toNat - 4)).toNat < 65532 := by decide +kernel
  crash_unfold
  safe_simp [Fqcsid.unmarshal, Fqcsid.len, Safe_checkTliv_wrap h, Safe_ieLen16_wrap h, Safe_checkTliv_small (h4 _), Safe_checkTliv_small (h5 _), h2, h3,
    ← UInt8.toNat_inj, UInt8.reduceToNat]
  simp only [lo4, hi4]
  by_cases hz : z <;> simp only [hz, true_implies, false_implies, implies_true, and_true, decide_eq_true_eq, not_false_eq_true, true_and, ne_eq, iff_true] <;> omega

theorem MaxPacketLossRate.wrap (h : 65532 ≤ declN b) :
    ((MaxPacketLossRate.unmarshal .release b).Safe fun x => (MaxPacketLossRate.len .release x).Safe fun n => z → n ≠ 0) ↔
      ¬ False ∧ (z → ¬ False) := by
  have h3 : (3 : UInt16).toNat < 65532 := by decide
  have h5 : (5 : UInt16).toNat < 65532 := by decide
  have e3 : (3 : UInt16).toNat = 3 := rfl
  have e5 : (5 : UInt16).toNat = 5 := rfl
  safe_simp [MaxPacketLossRate.unmarshal, MaxPacketLossRate.len, Safe_checkTliv_small h3, Safe_checkTliv_small h5, e3, e5, ieLenU, size_ne]
  simp only [decide_eq_true_eq, not_false_eq_true, implies_true, and_true, iff_true]
  omega

theorem MbmsIpMulticastDistribution.wrap (h : 65532 ≤ declN b) :
    ((MbmsIpMulticastDistribution.unmarshal .release b).Safe fun x => (MbmsIpMulticastDistribution.len .release x).Safe fun n => z → n ≠ 0) ↔
      ¬ (8 ≤ b.length ∧ ¬ checksIp b 8 fun c => checksIp b c fun c => c ≠ b.length) ∧ (z → ¬ False) := by
  have h1 := (declLen b).toNat_lt
  rw [Classical.not_and_iff_not_or_not, Classical.not_not, ← Decidable.imp_iff_not_or]
  unfold declN declLen at h h1
  wrap_simp MbmsIpMulticastDistribution.unmarshal, MbmsIpMulticastDistribution.len, h
  simp only [decide_eq_true_eq, not_false_eq_true, implies_true, and_true]
  refine imp_congr_right fun h5 => ?_
  simp only [show 1 < b.length by omega, show 2 < b.length by omega, show 3 < b.length by omega, show 4 < b.length by omega,
    show 5 < b.length by omega, show 6 < b.length by omega, show 7 < b.length by omega,
    show (of16 (b.getD 1 0) (b.getD 2 0)).toNat - 65532 ≤ b.length by omega, true_and, true_implies]
  refine (Moves.ip b).then fun a => (Moves.ip b).then fun a => ?_
  omega

theorem NodeNumber.wrap (h : 65532 ≤ declN b) :
    ((NodeNumber.unmarshal .release b).Safe fun x => (NodeNumber.len .release x).Safe fun n => z → n ≠ 0) ↔
      ¬ (5 ≤ b.length ∧ (octAt b 4 = 0 ∨ b.length < octAt b 4 + 5)) ∧ (z → ¬ False) := by
  have h1 := (declLen b).toNat_lt
  crash_unfold
  safe_simp [NodeNumber.unmarshal, NodeNumber.len, Safe_checkTliv_wrap h, ieLenU, size_ne, List.length_drop, List.length_take]
  simp only [decide_eq_true_eq, not_false_eq_true, implies_true, and_true]
  omega

theorem PresenceReportingAreaAction.readLists (h14 : 14 ≤ b.length) :
    ((rdElems true Tai.unmarshal 5 (.ieInvalidLength 177) b (b.getD 8 0 >>> 4).toNat 14).Safe fun a =>
      (rdElems true MacroEnbId.unmarshal 6 (.ieInvalidLength 177) b (b.getD 9 0 &&& 63).toNat a.2).Safe fun a =>
      (rdElems true MacroEnbId.unmarshal 6 (.ieInvalidLength 177) b (b.getD 10 0 &&& 63).toNat a.2).Safe fun a =>
      (rdElems true Ecgi.unmarshal 7 (.ieInvalidLength 177) b (b.getD 11 0 &&& 63).toNat a.2).Safe fun a =>
      (rdElems true Rai.unmarshal 7 (.ieInvalidLength 177) b (b.getD 8 0 &&& 15).toNat a.2).Safe fun a =>
      (rdElems true Sai.unmarshal 7 (.ieInvalidLength 177) b (b.getD 12 0 &&& 63).toNat a.2).Safe fun a =>
      (rdElems true Cgi.unmarshal 7 (.ieInvalidLength 177) b (b.getD 13 0 &&& 63).toNat a.2).Safe fun a =>
      a.2 ≤ b.length → a.2 < b.length ∧
        (rdElems true ExtMacroEnbId.unmarshal 6 (.ieInvalidLength 177) b (b.getD a.2 0).toNat (a.2 + 1)).Safe fun _ => True) ↔
      PresenceReportingAreaAction.extPos b ≠ b.length := by
  by_cases hp : PresenceReportingAreaAction.extPos b ≤ b.length
  · unfold PresenceReportingAreaAction.extPos at hp ⊢
    obtain ⟨l1, e1⟩ := rdElems_fits (k := 5) Tai.fits (by omega) (.ieInvalidLength 177) b (b.getD 8 0 >>> 4).toNat 14 (by omega)
    obtain ⟨l2, e2⟩ := rdElems_fits (k := 6) MacroEnbId.fits (by omega) (.ieInvalidLength 177) b (b.getD 9 0 &&& 0x3f).toNat
      (14 + 5 * (b.getD 8 0 >>> 4).toNat) (by omega)
    obtain ⟨l3, e3⟩ := rdElems_fits (k := 6) MacroEnbId.fits (by omega) (.ieInvalidLength 177) b (b.getD 10 0 &&& 0x3f).toNat
      (14 + 5 * (b.getD 8 0 >>> 4).toNat + 6 * (b.getD 9 0 &&& 0x3f).toNat) (by omega)
    obtain ⟨l4, e4⟩ := rdElems_fits (k := 7) Ecgi.fits (by omega) (.ieInvalidLength 177) b (b.getD 11 0 &&& 0x3f).toNat
      (14 + 5 * (b.getD 8 0 >>> 4).toNat + 6 * (b.getD 9 0 &&& 0x3f).toNat + 6 * (b.getD 10 0 &&& 0x3f).toNat) (by omega)
    obtain ⟨l5, e5⟩ := rdElems_fits (k := 7) Rai.fits (by omega) (.ieInvalidLength 177) b (b.getD 8 0 &&& 0x0f).toNat
      (14 + 5 * (b.getD 8 0 >>> 4).toNat + 6 * (b.getD 9 0 &&& 0x3f).toNat + 6 * (b.getD 10 0 &&& 0x3f).toNat + 7 * (b.getD 11 0 &&& 0x3f).toNat) (by omega)
    obtain ⟨l6, e6⟩ := rdElems_fits (k := 7) Sai.fits (by omega) (.ieInvalidLength 177) b (b.getD 12 0 &&& 0x3f).toNat
      (14 + 5 * (b.getD 8 0 >>> 4).toNat + 6 * (b.getD 9 0 &&& 0x3f).toNat + 6 * (b.getD 10 0 &&& 0x3f).toNat + 7 * (b.getD 11 0 &&& 0x3f).toNat + 7 * (b.getD 8 0 &&& 0x0f).toNat) (by omega)
    obtain ⟨l7, e7⟩ := rdElems_fits (k := 7) Cgi.fits (by omega) (.ieInvalidLength 177) b (b.getD 13 0 &&& 0x3f).toNat
      (14 + 5 * (b.getD 8 0 >>> 4).toNat + 6 * (b.getD 9 0 &&& 0x3f).toNat + 6 * (b.getD 10 0 &&& 0x3f).toNat + 7 * (b.getD 11 0 &&& 0x3f).toNat + 7 * (b.getD 8 0 &&& 0x0f).toNat + 7 * (b.getD 12 0 &&& 0x3f).toNat) (by omega)
    simp only [e1, e2, e3, e4, e5, e6, e7, Safe_ok]
    rw [and_congr_right fun _ => iff_true_intro (rdElems_safe ExtMacroEnbId.elem_safe 6 _ b _ _ (fun _ => True) fun _ => trivial)]
    simp only [and_true]
    omega
  · simp only [show ¬ PresenceReportingAreaAction.extPos b = b.length by omega, ne_eq, not_false_eq_true, iff_true]
    unfold PresenceReportingAreaAction.extPos at hp
    refine rdElems_safe Tai.elem_safe 5 _ b _ _ _ fun _ => rdElems_safe MacroEnbId.elem_safe 6 _ b _ _ _ fun _ =>
      rdElems_safe MacroEnbId.elem_safe 6 _ b _ _ _ fun _ => rdElems_safe Ecgi.elem_safe 7 _ b _ _ _ fun _ =>
      rdElems_safe Rai.elem_safe 7 _ b _ _ _ fun _ => rdElems_safe Sai.elem_safe 7 _ b _ _ _ fun _ =>
      rdElems_safe Cgi.elem_safe 7 _ b _ _ _ fun _ h => absurd h ?_
    omega

theorem PresenceReportingAreaAction.wrap (h : 65532 ≤ declN b) :
    ((PresenceReportingAreaAction.unmarshal .release b).Safe fun x => (PresenceReportingAreaAction.len .release x).Safe fun n => z → n ≠ 0) ↔
      ¬ (4 ≤ b.length ∧ (b.length < 14 ∨ PresenceReportingAreaAction.extPos b = b.length)) ∧ (z → ¬ False) := by
  have h1 := (declLen b).toNat_lt
  crash_unfold
  wrap_simp PresenceReportingAreaAction.unmarshal, PresenceReportingAreaAction.len, h
  simp only [decide_eq_true_eq, not_false_eq_true, implies_true, and_true]
  by_cases h14 : 14 ≤ b.length
  · simp only [PresenceReportingAreaAction.readLists h14]
    omega
  · omega

theorem MonitoringEventExtensionInfo.wrap (h : 65532 ≤ declN b) :
    ((MonitoringEventExtensionInfo.unmarshal .release b).Safe fun x => (MonitoringEventExtensionInfo.len .release x).Safe fun n => z → n ≠ 0) ↔
      ¬ (4 ≤ b.length ∧ (b.length < 10 ∨ b.length = 9 + octAt b 9)) ∧ (z → ¬ False) := by
  have h1 := (declLen b).toNat_lt
  crash_unfold
  wrap_simp MonitoringEventExtensionInfo.unmarshal, MonitoringEventExtensionInfo.len, h
  simp only [decide_eq_true_eq, not_false_eq_true, implies_true, and_true]
  constructor
  · rintro h ⟨h1, h2⟩
    obtain ⟨_, _, _, h3⟩ := h h1
    obtain ⟨_, _, _, _, h4, h5⟩ := h3 (by omega)
    rcases h2 with h2 | h2
    · omega
    · have := (h5 (by omega)).1
      omega
  · intro hc h4
    refine ⟨by omega, by omega, by omega, fun hf => ?_⟩
    refine ⟨by omega, by omega, by omega, by omega, by omega, fun h9 => ⟨⟨by omega, by omega⟩, fun _ _ => ⟨by omega, ?_, ?_⟩⟩⟩
    · intro _ _
      refine ⟨by omega, by omega, by omega, fun _ _ => ?_⟩
      omega
    · intro _ _ _
      omega

namespace ExtendedTraceInformation

/-- The position behind a length octet and that many octets. -/
abbrev behind (b : Bytes) (c : Nat) : Nat := c + 1 + octAt b c

/-- The cursor before the interface list, behind the trigger events, the list of network elements and the depth; and behind that. -/
abbrev cur1 (b : Bytes) : Nat := behind b 10
abbrev cur2 (b : Bytes) : Nat := behind b (cur1 b)
abbrev cur3 (b : Bytes) : Nat := behind b (cur2 b + 1)

/-- Everything up to and including the address is there. -/
def Whole (b : Bytes) : Prop :=
  cur1 b < b.length ∧ cur2 b + 1 < b.length ∧ cur3 b < b.length ∧
    (octAt b (cur3 b) = 4 ∧ cur3 b + 5 ≤ b.length ∨ octAt b (cur3 b) = 16 ∧ cur3 b + 17 ≤ b.length)

instance (b : Bytes) : Decidable (Whole b) := by unfold Whole; infer_instance

theorem wrap (h : 65532 ≤ declN b) :
    ((unmarshal .release b).Safe fun x => (len .release x).Safe fun n => z → n ≠ 0) ↔
      ¬ (11 ≤ b.length ∧ ¬ checksLv b 10 fun c => checksLv b c fun c => c < b.length → checksLv b (c + 1) fun c => c < b.length) ∧
      (z → ¬ (declN b = 65532 ∧ 11 ≤ b.length ∧ Whole b)) := by
  have h1 := (declLen b).toNat_lt
  have key : ((unmarshal .release b).Safe fun x => (len .release x).Safe fun n => z → n ≠ 0) ↔
      (11 ≤ b.length → checksLv b 10 fun c => checksLv b c fun c => c < b.length → checksLv b (c + 1) fun c => c < b.length ∧
        (octAt b c = 4 → c + 5 ≤ b.length → z → declN b ≠ 65532) ∧ (octAt b c = 16 → c + 17 ≤ b.length → z → declN b ≠ 65532)) := by
    unfold declN declLen octAt at *
    safe_simp [unmarshal, len, Safe_ieLen16_wrap h, mccMncDecode, List.length_drop, List.length_take, ← UInt8.toNat_inj, UInt8.reduceToNat]
    refine imp_congr_right fun h5 => ?_
    simp only [show 1 < b.length by omega, show 2 < b.length by omega, show 3 < b.length by omega, show 7 < b.length by omega,
      show 8 < b.length by omega, show 9 < b.length by omega, show 7 ≤ b.length by omega, show 4 ≤ 7 by omega,
      show min 7 b.length - 4 = 3 by omega, show 0 < 3 by omega, show 1 < 3 by omega, show 2 < 3 by omega, true_and]
    refine (Moves.lvC _ b).then fun a => (Moves.lvC _ b).then fun a1 => ?_
    rw [show (¬ b.length < a1.2 + 1) = (a1.2 < b.length) from propext (by omega)]
    refine imp_congr_right fun hc => ?_
    simp only [hc, true_and]
    refine (Moves.lvC _ b).then fun a2 => and_congr_right fun _ => ?_
    by_cases hz : z <;> simp only [hz, true_implies, false_implies, implies_true, and_true, true_and, iff_true, ne_eq] <;> omega
  rw [key]
  simp only [checksLv, Whole, cur3, cur2, cur1, behind]
  generalize 10 + 1 + octAt b 10 = c1
  generalize c1 + 1 + octAt b c1 = c2
  generalize c2 + 1 + 1 + octAt b (c2 + 1) = c3
  generalize octAt b c3 = k
  generalize declN b = n at *
  by_cases hz : z <;> simp only [hz, true_implies, false_implies, implies_true, and_true, true_and, iff_true, ne_eq] <;> omega

end ExtendedTraceInformation

end Gtp.V2
