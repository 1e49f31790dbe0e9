import Verif.V2.PanicBase

/-!
# When the decoder of an MM Context panics

The six decoders of gtpv2/messages/ies/mmctx*.rs as chains of stages (see V2/PanicBase.lean).
-/

namespace Gtp.V2

set_option linter.unusedSimpArgs false

/-- A stage `n` times. -/
def repeats (st : Stage) : Nat → Stage
  | 0 => fun c rest => rest c
  | n + 1 => fun c rest => st c fun c => repeats st n c rest

/-- `k` octets, or else an error. -/
def checks (b : Bytes) (k : Nat) : Stage := fun c rest => c + k ≤ b.length → rest (c + k)

/-- `k` octets if the flag is set and they are there. -/
def maybe (b : Bytes) (f : Bool) (k : Nat) : Stage := fun c rest =>
  if f = true ∧ c + k ≤ b.length then rest (c + k) else rest c

/-- An item, decoded from the rest of the buffer; it says how far the cursor moves. -/
def item (b : Bytes) (st : Bytes → (Nat → Prop) → Prop) : Stage := fun c rest =>
  c ≤ b.length ∧ st (b.drop c) fun n => rest (c + n)

/-- Up to five items; more are an error. -/
def upTo5 (n : Nat) (st : Stage) : Stage := fun c rest => n ≤ 5 → repeats st n c rest

/-- A quintuplet: 16 octets, a length octet and as many octets, 32 octets, a length octet and as many octets. -/
def quint (s : Bytes) (rest : Nat → Prop) : Prop :=
  16 ≤ s.length → checksLv s 16 fun c => c + 32 ≤ s.length → checksLv s (c + 32) rest

/-- A quadruplet: 16 octets, twice a length octet and as many octets, 32 octets. -/
def quad (s : Bytes) (rest : Nat → Prop) : Prop :=
  17 ≤ s.length → checksLv s 16 fun c => checksLv s c fun c => checks s 32 c rest

/-- An old EPS security context: a flag octet, then 32 or 64 octets. -/
def oldEps (s : Bytes) (rest : Nat → Prop) : Prop :=
  0 < s.length ∧ (octAt s 0 < 128 → 33 ≤ s.length → rest 33) ∧ (128 ≤ octAt s 0 → 65 ≤ s.length → rest 65)

/-- Triplets of 28 octets. -/
def triplets (b : Bytes) (n : Nat) : Stage := fun c rest => n ≤ 5 → n = 0 ∨ c + n * 28 ≤ b.length → rest (c + n * 28)

/-- The octet for `higher_than_16_mbps`: its length is looked at, then the octet behind it. -/
def higher (b : Bytes) : Stage := fun c rest =>
  c < b.length ∧ if c + 1 + octAt b c ≤ b.length then c + 1 < b.length ∧ rest (c + 1 + octAt b c) else rest (c + 1)

/-- The IOV updates counter; without the flag an error. -/
def iov (b : Bytes) (f : Bool) : Stage := fun c rest => f = true → c ≤ b.length → c < b.length ∧ rest (c + 1)

/-- The extended access restriction. -/
def extAcc (b : Bytes) : Stage := fun c rest =>
  c < b.length ∧ (octAt b c = 1 → c + 1 < b.length ∧ rest (c + 2)) ∧ (octAt b c = 0 → rest c)

/-- The length that an APN rate control status at the front of `s` declares, and that of its APN. -/
abbrev rateLen (s : Bytes) : Nat := (of16 (s.getD 0 0) (s.getD 1 0)).toNat
abbrev rateApn (s : Bytes) : Nat := (of16 (s.getD 2 0) (s.getD 3 0)).toNat

/-- An APN rate control status is at the front of `s`. -/
def RateFits (s : Bytes) : Prop :=
  2 ≤ s.length ∧ rateLen s + 2 ≤ s.length ∧ rateApn s + 4 ≤ s.length ∧ 4 + rateApn s + 20 ≤ s.length

instance (s : Bytes) : Decidable (RateFits s) := by unfold RateFits; infer_instance

/-- How far the cursor moves behind it: the octets of the APN are counted after malformed UTF-8 has been replaced. -/
def rateSize (s : Bytes) : Nat := 24 + (utf8 (fromUtf8Lossy ((s.take (4 + rateApn s)).drop 4))).length

/-- Statuses as long as there are any; the number of octets bounds the number of turns. -/
def rates (b : Bytes) : Nat → Stage
  | 0 => fun _ _ => False
  | f + 1 => fun c rest =>
    c ≤ b.length ∧ ¬ (2 ≤ (b.drop c).length ∧ rateLen (b.drop c) + 2 ≤ (b.drop c).length ∧ (b.drop c).length < 4) ∧
    if RateFits (b.drop c) then rates b f (c + rateSize (b.drop c)) rest else rest c

/-- The APN rate control statuses. -/
def apnRates (b : Bytes) : Stage := fun c rest =>
  c < b.length ∧ (octAt b c = 0 → rest c) ∧
    (octAt b c ≠ 0 → c + 1 + octAt b c ≤ b.length → rates b (b.length + 1) (c + 1) rest)

/-! ### The decoders move their cursors like this -/

theorem Moves.item {α : Type} {unm : Bytes → R Err α} {len : α → Nat} {st : Bytes → (Nat → Prop) → Prop}
    (h : ∀ s rest, ((unm s).Safe fun v => rest (len v)) ↔ st s rest) (e : Err) (b : Bytes) :
    Moves (rdItem unm len e b) (item b st) := by
  intro c rest
  safe_simp [rdItem, V2.item]
  exact and_congr_right fun _ => h (b.drop c) fun n => rest (c + n)

theorem Moves.repeats {α : Type} {unm : Bytes → R Err α} {len : α → Nat} {e : Err} {b : Bytes} {st : Stage}
    (h : Moves (rdItem unm len e b) st) : ∀ n, Moves (rdItems unm len e b n) (repeats st n)
  | 0 => fun c rest => by simp only [rdItems, V2.repeats, Safe_ok]
  | n + 1 => fun c rest => by
    simp only [rdItems, V2.repeats]
    rw [Safe_bind]
    refine h.then fun a => ?_
    simp only [Safe_bind, Safe_pure]
    exact Moves.repeats h n a.2 rest

theorem le5 {n : UInt8} : n ≤ 5 ↔ n.toNat ≤ 5 := UInt8.le_iff_toNat_le

theorem Moves.auth {α : Type} {unm : Bytes → R Err α} {len : α → Nat} {e : Err} {b : Bytes} {st : Stage}
    (h : Moves (rdItem unm len e b) st) (n : UInt8) : Moves (rdAuth unm len e b n) (upTo5 n.toNat st) := by
  intro c rest
  unfold rdAuth upTo5
  by_cases h0 : n = 0
  · subst h0
    simp only [if_true, Safe_pure]
    exact ⟨fun h _ => h, fun h => h (by decide)⟩
  · simp only [if_neg h0]
    by_cases h5 : n ≤ 5
    · simp only [if_pos h5, le5.mp h5, true_implies]
      rw [Safe_bind]
      simp only [Safe_pure]
      exact h.repeats n.toNat c rest
    · simp only [if_neg h5, Safe_err, true_iff]
      exact fun h => absurd (le5.mpr h) h5

theorem AuthQuintuplet.moves (s : Bytes) (rest : Nat → Prop) :
    ((AuthQuintuplet.unm s).Safe fun v => rest (AuthQuintuplet.size v)) ↔ quint s rest := by
  unfold quint checksLv octAt
  safe_simp [AuthQuintuplet.unm, AuthQuintuplet.size, rdLvC, rdN, List.length_drop, List.length_take]
  refine imp_congr_right fun h16 => ?_
  rw [and_iff_right (by omega)]
  refine and_congr_right fun _ => imp_congr_right fun h1 => ?_
  rw [and_iff_right (by omega)]
  refine imp_congr_right fun h2 => ?_
  rw [and_iff_right (by omega), and_iff_right (by omega), Nat.add_assoc (17 + (s.getD 16 0).toNat) 16 16]
  refine and_congr_right fun _ => imp_congr_right fun h3 => ?_
  rw [and_iff_right (by omega)]
  generalize (s.getD (17 + (s.getD 16 0).toNat + (16 + 16)) 0).toNat = n at *
  rw [Nat.min_eq_left (by omega), Nat.min_eq_left (by omega)]
  refine iff_of_eq (congrArg rest ?_)
  omega

theorem AuthQuadruplet.moves (s : Bytes) (rest : Nat → Prop) :
    ((AuthQuadruplet.unm s).Safe fun v => rest (AuthQuadruplet.size v)) ↔ quad s rest := by
  unfold quad checksLv checks octAt
  safe_simp [AuthQuadruplet.unm, AuthQuadruplet.size, rdLvC, rdN, List.length_drop, List.length_take]
  refine imp_congr_right fun h16 => ?_
  rw [and_iff_right (by omega)]
  refine and_congr_right fun _ => imp_congr_right fun h1 => ?_
  rw [and_iff_right (by omega)]
  refine and_congr_right fun _ => imp_congr_right fun h2 => ?_
  rw [and_iff_right (by omega)]
  refine imp_congr_right fun h3 => ?_
  rw [and_iff_right (by omega)]
  generalize (s.getD (17 + (s.getD 16 0).toNat) 0).toNat = n at *
  rw [Nat.min_eq_left (by omega), Nat.min_eq_left (by omega)]
  refine iff_of_eq (congrArg rest ?_)
  omega

theorem AuthTriplet.moves (s : Bytes) (rest : Nat → Prop) :
    ((AuthTriplet.unm s).Safe fun v => rest (AuthTriplet.size v)) ↔ (28 ≤ s.length → rest 28) := by
  safe_simp [AuthTriplet.unm, AuthTriplet.size]
  refine imp_congr_right fun h => ?_
  rw [and_iff_right (by omega), and_iff_right (by omega), and_iff_right (by omega)]

theorem triplets_run {b : Bytes} {rest : Nat → Prop} : ∀ {n c : Nat}, c + n * 28 ≤ b.length →
    (repeats (item b fun s rest => 28 ≤ s.length → rest 28) n c rest ↔ rest (c + n * 28))
  | 0, c, _ => by simp only [repeats, Nat.zero_mul, Nat.add_zero]
  | n + 1, c, h => by
    rw [Nat.add_mul, Nat.one_mul] at h
    simp only [repeats, item, List.length_drop]
    rw [and_iff_right (by omega), triplets_run (by omega), Nat.add_mul, Nat.one_mul]
    rw [show c + 28 + n * 28 = c + (n * 28 + 28) by omega]
    exact ⟨fun h1 => h1 (by omega), fun h1 _ => h1⟩

theorem Moves.triplets (b : Bytes) (n : UInt8) : Moves (rdTriplets b n) (triplets b n.toNat) := by
  intro c rest
  unfold rdTriplets V2.triplets
  have h0 : 0 < n ↔ 0 < n.toNat := UInt8.lt_iff_toNat_lt
  simp only [h0, le5]
  by_cases h5 : n.toNat ≤ 5
  · by_cases hf : n.toNat = 0 ∨ c + n.toNat * 28 ≤ b.length
    · rw [if_neg (by omega)]
      simp only [h5, hf, true_implies]
      rw [Moves.auth (Moves.item AuthTriplet.moves (.ieIncorrect 103) b) n c rest]
      simp only [upTo5, h5, true_implies]
      rcases hf with hf | hf
      · rw [hf]
        simp only [V2.repeats, Nat.zero_mul, Nat.add_zero]
      · exact triplets_run hf
    · rw [if_pos (by omega)]
      simp only [Safe_err, hf, false_implies, implies_true]
  · rw [if_neg (by omega)]
    rw [Moves.auth (Moves.item AuthTriplet.moves (.ieIncorrect 103) b) n c rest]
    simp only [upTo5, h5, false_implies]

theorem Moves.ambr (ty : UInt8) (b : Bytes) : Moves (rdAmbr ty b) (checks b 8) := by
  intro c rest
  unfold rdAmbr checks
  by_cases h : c + 8 ≤ b.length
  · simp only [if_pos h, h, true_implies]
    safe_simp [rdItem, AmbrMM.unm, List.length_drop]
    constructor
    · rintro ⟨_, h2⟩
      exact (h2 (by omega)).2.2.2.2.2.2.2.2
    · intro h2
      exact ⟨by omega, fun _ => ⟨by omega, by omega, by omega, by omega, by omega, by omega, by omega, by omega, h2⟩⟩
  · rw [if_neg h]
    simp only [h, Safe_err, false_implies]

theorem Moves.drx (f : Bool) (b : Bytes) : Moves (rdDrx f b) (maybe b f 2) := by
  intro c rest
  safe_simp [rdDrx, maybe]
  by_cases h : f = true ∧ c + 2 ≤ b.length
  · simp only [h, and_self, if_true, true_implies, true_and, not_true, false_implies, and_true]
    rw [and_iff_right (by omega)]
  · simp only [h, if_false, false_implies, true_and, not_false_eq_true, true_implies]

theorem Moves.nextHop (f : Bool) (b : Bytes) : Moves (rdNextHop f b) (maybe b f 33) := by
  intro c rest
  safe_simp [rdNextHop, maybe]
  by_cases h : f = true ∧ c + 33 ≤ b.length
  · simp only [h, and_self, if_true, true_implies, true_and, not_true, false_implies, and_true]
    rw [and_iff_right (by omega), and_iff_right (by omega)]
  · simp only [h, if_false, false_implies, true_and, not_false_eq_true, true_implies]

theorem Moves.octet (b : Bytes) : Moves (rd8s b) (takes b 1) := by
  intro c rest
  safe_simp [rd8s, takes]
  exact Iff.rfl

theorem Moves.higher (b : Bytes) : Moves (rdHigher b) (higher b) := by
  intro c rest
  safe_simp [rdHigher, V2.higher, octAt]
  refine and_congr_right fun _ => ?_
  by_cases h : c + 1 + (b.getD c 0).toNat ≤ b.length
  · simp only [h, if_true, true_implies, not_true, false_implies, and_true]
  · simp only [h, if_false, false_implies, true_and, not_false_eq_true, true_implies]

theorem Moves.iov (f : Bool) (e : Err) (b : Bytes) : Moves (rdIov f e b) (iov b f) := by
  intro c rest
  safe_simp [rdIov, V2.iov]
  exact and_imp

theorem octAt_eq {b : Bytes} {c : Nat} {n : UInt8} : b.getD c 0 = n ↔ octAt b c = n.toNat := UInt8.toNat_inj.symm

theorem Moves.extAcc (e : Err) (b : Bytes) : Moves (rdExtAcc e b) (extAcc b) := by
  intro c rest
  safe_simp [rdExtAcc, V2.extAcc]
  refine and_congr_right fun hc => ?_
  simp only [octAt_eq, UInt8.reduceToNat]
  by_cases h1 : octAt b c = 1
  · simp only [h1, true_implies, not_true, false_implies, and_true]
    simp only [show c + 1 ≤ b.length by omega, true_implies, Nat.one_ne_zero, false_implies, and_true]
  · simp only [h1, false_implies, not_false_eq_true, true_implies, true_and]

theorem OldEps.moves (s : Bytes) (rest : Nat → Prop) :
    ((OldEpsSecurityContext.unm s).Safe fun v => rest (OldEpsSecurityContext.size v)) ↔ oldEps s rest := by
  unfold oldEps
  safe_simp [OldEpsSecurityContext.unm, OldEpsSecurityContext.size]
  refine and_congr_right fun _ => ?_
  have h7 : ((s.getD 0 0) >>> 7 = 0 ↔ octAt s 0 < 128) ∧ ((s.getD 0 0) >>> 7 = 1 ↔ 128 ≤ octAt s 0) := by
    unfold octAt
    generalize s.getD 0 0 = x
    revert x
    decide +kernel
  rw [h7.1, h7.2]
  by_cases h : octAt s 0 < 128
  · have h2 : ¬ 128 ≤ octAt s 0 := by omega
    simp only [h, h2, true_implies, not_true, false_implies, and_true]
    refine imp_congr_right fun _ => ?_
    rw [and_iff_right (by omega)]
    simp
  · have h2 : 128 ≤ octAt s 0 := by omega
    simp only [h, h2, true_implies, not_false_eq_true, false_implies, true_and]
    refine imp_congr_right fun _ => ?_
    rw [and_iff_right (by omega), and_iff_right (by omega)]
    simp

/-- The octets at which the decoder of an APN rate control status panics: too few for the length of the APN. -/
abbrev RateCrash (s : Bytes) : Prop := 2 ≤ s.length ∧ rateLen s + 2 ≤ s.length ∧ s.length < 4

theorem rd16_ok {s : Bytes} {i : Nat} (h : i + 1 < s.length) :
    (rd16 s i : R Err UInt16) = .ok (of16 (s.getD i 0) (s.getD (i + 1) 0)) := by
  unfold rd16
  rw [rd_lt (by omega), rd_lt h]
  simp [List.getD, List.getElem?_eq_getElem, h, show i < s.length by omega]

theorem rd32_ok {s : Bytes} {i : Nat} (h : i + 3 < s.length) : ∃ v, (rd32 s i : R Err UInt32) = .ok v := by
  unfold rd32
  rw [rd_lt (by omega), rd_lt (by omega), rd_lt (by omega), rd_lt h]
  exact ⟨_, rfl⟩

theorem sl_ok {s : Bytes} {i j : Nat} (h : i ≤ j) (h2 : j ≤ s.length) :
    (sl s i j : R Err Bytes) = .ok ((s.take j).drop i) := by
  unfold sl
  rw [if_pos ⟨h, h2⟩]

theorem rate_cases (s : Bytes) :
    (RateCrash s ∧ ApnRateControlStatusMM.unm s = .panic) ∨
    (¬ RateCrash s ∧ RateFits s ∧ ∃ v, ApnRateControlStatusMM.unm s = .ok v ∧ v.size = rateSize s) ∨
    (¬ RateCrash s ∧ ¬ RateFits s ∧ ∃ e, ApnRateControlStatusMM.unm s = .err e) := by
  unfold RateCrash RateFits ApnRateControlStatusMM.unm
  by_cases h2 : 2 ≤ s.length
  · rw [if_pos h2, rd16_ok (by omega)]
    simp only [R.ok_bind]
    by_cases hl : rateLen s + 2 ≤ s.length
    · rw [if_pos hl]
      by_cases h4 : s.length < 4
      · refine Or.inl ⟨⟨h2, hl, h4⟩, ?_⟩
        unfold rd16
        by_cases h3 : s.length = 3
        · rw [rd_lt (by omega), rd_ge (by omega)]
          rfl
        · rw [rd_ge (by omega)]
          rfl
      · refine Or.inr ?_
        rw [rd16_ok (by omega)]
        simp only [R.ok_bind]
        by_cases ha : rateApn s + 4 ≤ s.length
        · rw [if_pos ha]
          by_cases h20 : 4 + rateApn s + 20 ≤ s.length
          · refine Or.inl ⟨by omega, ⟨h2, hl, ha, h20⟩, ?_⟩
            obtain ⟨v1, e1⟩ := rd32_ok (s := s) (i := 4 + rateApn s) (by omega)
            obtain ⟨v2, e2⟩ := rd32_ok (s := s) (i := 4 + rateApn s + 4) (by omega)
            obtain ⟨v3, e3⟩ := rd32_ok (s := s) (i := 4 + rateApn s + 4 + 4) (by omega)
            rw [sl_ok (Nat.le_add_right ..) (show 4 + rateApn s ≤ s.length by omega)]
            simp only [R.ok_bind]
            rw [if_pos h20, e1, e2, e3, sl_ok (by omega) (by omega)]
            exact ⟨_, rfl, rfl⟩
          · refine Or.inr ⟨by omega, by omega, .ieIncorrect 0, ?_⟩
            rw [sl_ok (Nat.le_add_right ..) (show 4 + rateApn s ≤ s.length by omega)]
            simp only [R.ok_bind]
            rw [if_neg h20]
        · refine Or.inr ⟨by omega, by omega, .ieIncorrect 0, ?_⟩
          rw [if_neg ha]
    · exact Or.inr (Or.inr ⟨by omega, by omega, .ieIncorrect 0, by rw [if_neg hl]⟩)
  · exact Or.inr (Or.inr ⟨by omega, by omega, .ieIncorrect 0, by rw [if_neg h2]⟩)

theorem Moves.rates (b : Bytes) : ∀ f, Moves (rdRates b f) (rates b f)
  | 0 => fun c rest => by simp only [rdRates, V2.rates, Safe_diverge]
  | f + 1 => fun c rest => by
    unfold rdRates V2.rates
    rw [Safe_bind, Safe_slFrom]
    refine and_congr_right fun _ => ?_
    rcases rate_cases (b.drop c) with ⟨h1, h2⟩ | ⟨h1, h2, v, h3, h4⟩ | ⟨h1, h2, e, h3⟩
    · simp only [h2, Safe_panic, h1, and_self, not_true, false_and]
    · simp only [h3, h1, not_false_eq_true, true_and, if_pos h2]
      rw [Safe_bind, ← h4]
      simp only [Safe_pure]
      exact Moves.rates b f (c + v.size) rest
    · simp only [h3, h1, not_false_eq_true, true_and, if_neg h2, Safe_pure]

theorem Moves.apnRates (e : Err) (b : Bytes) : Moves (rdApnRates e b) (apnRates b) := by
  intro c rest
  unfold rdApnRates V2.apnRates
  rw [Safe_bind, Safe_rd]
  refine and_congr_right fun _ => ?_
  rw [Safe_ite]
  simp only [octAt_eq, UInt8.reduceToNat, Safe_pure]
  refine and_congr_right fun _ => imp_congr_right fun _ => ?_
  rw [Safe_ite]
  simp only [Safe_err, implies_true, and_true]
  refine imp_congr_right fun _ => ?_
  rw [Safe_bind]
  simp only [Safe_pure]
  exact Moves.rates b _ (c + 1) rest

/-! ### The six contexts -/

/-- A bit of an octet, counted from 0. -/
def flagAt (b : Bytes) (c i : Nat) : Bool := octAt b c / 2 ^ i % 2 == 1

/-- What the contexts have in common behind the authentication vectors: two AMBRs, each behind a flag, three lists of
octets, one octet. -/
def mmMiddle (b : Bytes) (f : Bool) : Stage := fun c rest =>
  flagged f (checks b 8) c fun c => flagged (flagAt b 5 1) (checks b 8) c fun c => checksLv0 b 1 c fun c =>
  checksLv0 b 1 c fun c => checksLv0 b 1 c fun c => takes b 1 c rest

/-- GSM key and triplets (103). -/
def mm103 (b : Bytes) : Prop :=
  20 ≤ b.length → triplets b (octAt b 5 / 32) 15 fun c => maybe b (flagAt b 4 3) 2 c fun c =>
  mmMiddle b (flagAt b 5 0) c fun c => checksLv0 b 0 c fun _ => True

/-- UMTS key, used cipher and quintuplets (104). -/
def mm104 (b : Bytes) : Prop :=
  40 ≤ b.length → upTo5 (octAt b 5 / 32) (item b quint) 39 fun c => maybe b (flagAt b 4 3) 2 c fun c =>
  mmMiddle b (flagAt b 5 0) c fun c => checksLv0 b 1 c fun c => higher b c fun c => iov b (flagAt b 5 4) c fun _ => True

/-- GSM key, used cipher and quintuplets (105). -/
def mm105 (b : Bytes) : Prop :=
  20 ≤ b.length → upTo5 (octAt b 5 / 32) (item b quint) 15 fun c => maybe b (flagAt b 4 3) 2 c fun c =>
  mmMiddle b (flagAt b 5 0) c fun c => checksLv0 b 0 c fun c => higher b c fun _ => True

/-- UMTS key and quintuplets (106). -/
def mm106 (b : Bytes) : Prop :=
  41 ≤ b.length → upTo5 (octAt b 5 / 32) (item b quint) 39 fun c => maybe b (flagAt b 4 3) 2 c fun c =>
  mmMiddle b (flagAt b 5 0) c fun c => checksLv0 b 1 c fun c => higher b c fun c => iov b (flagAt b 5 4) c fun c =>
  extAcc b c fun _ => True

/-- EPS security context, quadruplets and quintuplets (107). -/
def mm107 (b : Bytes) : Prop :=
  46 ≤ b.length → upTo5 (octAt b 5 / 4 % 8) (item b quad) 45 fun c => upTo5 (octAt b 5 / 32) (item b quint) c fun c =>
  maybe b (flagAt b 4 3) 2 c fun c => maybe b (flagAt b 4 4) 33 c fun c => mmMiddle b (flagAt b 6 7) c fun c =>
  flagged (flagAt b 5 0) (item b oldEps) c fun c => checksLv0 b 0 c fun c => checksLv0 b 0 c fun c => extAcc b c fun c =>
  checksLv0 b 0 c fun c => checksLv0 b 0 c fun c => apnRates b c fun c => checksLv0 b 0 c fun c => checksLv0 b 0 c fun c =>
  c ≠ b.length

/-- UMTS key, quadruplets and quintuplets (108). -/
def mm108 (b : Bytes) : Prop :=
  43 ≤ b.length → upTo5 (octAt b 5 / 4 % 8) (item b quad) 39 fun c => upTo5 (octAt b 5 / 32) (item b quint) c fun c =>
  maybe b (flagAt b 4 3) 2 c fun c => mmMiddle b (flagAt b 5 0) c fun c => checksLv0 b 0 c fun c => apnRates b c fun _ => True

/-- The octets at which the decoder of an MM Context panics. -/
def MmCrash (b : Bytes) : Prop :=
  b = [] ∨ (octAt b 0 = 103 ∧ ¬ mm103 b) ∨ (octAt b 0 = 104 ∧ ¬ mm104 b) ∨ (octAt b 0 = 105 ∧ ¬ mm105 b) ∨
  (octAt b 0 = 106 ∧ ¬ mm106 b) ∨ (octAt b 0 = 107 ∧ ¬ mm107 b) ∨ (octAt b 0 = 108 ∧ ¬ mm108 b)

theorem bit0 (b : Bytes) (c : Nat) : hasBits (b.getD c 0) 0x01 = flagAt b c 0 := by
  unfold flagAt octAt
  generalize b.getD c 0 = x
  revert x
  decide +kernel

theorem bit1 (b : Bytes) (c : Nat) : hasBits (b.getD c 0) 0x02 = flagAt b c 1 := by
  unfold flagAt octAt
  generalize b.getD c 0 = x
  revert x
  decide +kernel

theorem bit3 (b : Bytes) (c : Nat) : hasBits (b.getD c 0) 0x08 = flagAt b c 3 := by
  unfold flagAt octAt
  generalize b.getD c 0 = x
  revert x
  decide +kernel

theorem bit4 (b : Bytes) (c : Nat) : hasBits (b.getD c 0) 0x10 = flagAt b c 4 := by
  unfold flagAt octAt
  generalize b.getD c 0 = x
  revert x
  decide +kernel

theorem bit7 (b : Bytes) (c : Nat) : (b.getD c 0 >>> 7 == 1) = flagAt b c 7 := by
  unfold flagAt octAt
  generalize b.getD c 0 = x
  revert x
  decide +kernel

theorem top3 : ∀ x : UInt8, (x >>> 5).toNat = x.toNat / 32 := by decide +kernel
theorem mid3 : ∀ x : UInt8, ((x &&& 0x1c) >>> 2).toNat = x.toNat / 4 % 8 := by decide +kernel

theorem Moves.triplets' (b : Bytes) : Moves (rdTriplets b (b.getD 5 0 >>> 5)) (V2.triplets b (octAt b 5 / 32)) := by
  have h := Moves.triplets b (b.getD 5 0 >>> 5)
  rwa [top3] at h

theorem Moves.quints (e : Err) (b : Bytes) :
    Moves (rdAuth AuthQuintuplet.unm AuthQuintuplet.size e b (b.getD 5 0 >>> 5)) (upTo5 (octAt b 5 / 32) (V2.item b quint)) := by
  have h := Moves.auth (Moves.item AuthQuintuplet.moves e b) (b.getD 5 0 >>> 5)
  rwa [top3] at h

theorem Moves.quads (e : Err) (b : Bytes) :
    Moves (rdAuth AuthQuadruplet.unm AuthQuadruplet.size e b ((b.getD 5 0 &&& 0x1c) >>> 2))
      (upTo5 (octAt b 5 / 4 % 8) (V2.item b quad)) := by
  have h := Moves.auth (Moves.item AuthQuadruplet.moves e b) ((b.getD 5 0 &&& 0x1c) >>> 2)
  rwa [mid3] at h

/-- The octets in front of the first stage are there. -/
macro "mm_head" b:term "," n:num "," u:ident "," l:ident "," d:ident : tactic => `(tactic| (
  unfold Quiet $d mmMiddle
  unfold $u $l
  rw [Safe_ite]
  simp only [Safe_err, implies_true, and_true]
  refine imp_congr_right fun h5 => ?_
  have hlt : ∀ i, i < $n → i < List.length $b := fun i hi => Nat.lt_of_lt_of_le hi h5
  have hle : ∀ i, i ≤ $n → i ≤ List.length $b := fun i hi => Nat.le_trans hi h5
  simp only [rd16, rd24, rd64, Safe_bind, Safe_rd, Safe_sl, Safe_pure, ieLenU, Safe_ok, Nat.reduceAdd, Nat.reduceLT,
    Nat.reduceLeDiff, hlt, hle, true_and, and_self, bit0, bit1, bit3, bit4, bit7]))

theorem quiet103 (b : Bytes) : Quiet MmContextGsmKeyTriplets.unmarshal MmContextGsmKeyTriplets.len b ↔ mm103 b := by
  mm_head b, 20, MmContextGsmKeyTriplets.unmarshal, MmContextGsmKeyTriplets.len, mm103
  exact (Moves.triplets' b).then fun a => (Moves.drx _ b).then fun a => ((Moves.ambr _ b).cond _).then fun a =>
    ((Moves.ambr _ b).cond _).then fun a => (Moves.lv 1 _ b).then fun a => (Moves.lv 1 _ b).then fun a =>
    (Moves.lv 1 _ b).then fun a => (Moves.octet b).then fun a => (Moves.lv 0 _ b).then fun a => Iff.rfl

theorem quiet104 (b : Bytes) :
    Quiet MmContextUmtsKeyCipherQuintuplets.unmarshal MmContextUmtsKeyCipherQuintuplets.len b ↔ mm104 b := by
  mm_head b, 40, MmContextUmtsKeyCipherQuintuplets.unmarshal, MmContextUmtsKeyCipherQuintuplets.len, mm104
  exact (Moves.quints _ b).then fun a => (Moves.drx _ b).then fun a => ((Moves.ambr _ b).cond _).then fun a =>
    ((Moves.ambr _ b).cond _).then fun a => (Moves.lv 1 _ b).then fun a => (Moves.lv 1 _ b).then fun a =>
    (Moves.lv 1 _ b).then fun a => (Moves.octet b).then fun a => (Moves.lv 1 _ b).then fun a =>
    (Moves.higher b).then fun a => (Moves.iov _ _ b).then fun a => Iff.rfl

theorem quiet105 (b : Bytes) :
    Quiet MmContextGsmKeyCipherQuintuplets.unmarshal MmContextGsmKeyCipherQuintuplets.len b ↔ mm105 b := by
  mm_head b, 20, MmContextGsmKeyCipherQuintuplets.unmarshal, MmContextGsmKeyCipherQuintuplets.len, mm105
  exact (Moves.quints _ b).then fun a => (Moves.drx _ b).then fun a => ((Moves.ambr _ b).cond _).then fun a =>
    ((Moves.ambr _ b).cond _).then fun a => (Moves.lv 1 _ b).then fun a => (Moves.lv 1 _ b).then fun a =>
    (Moves.lv 1 _ b).then fun a => (Moves.octet b).then fun a => (Moves.lv 0 _ b).then fun a =>
    (Moves.higher b).then fun a => Iff.rfl

theorem quiet106 (b : Bytes) :
    Quiet MmContextUmtsKeyQuintuplets.unmarshal MmContextUmtsKeyQuintuplets.len b ↔ mm106 b := by
  mm_head b, 41, MmContextUmtsKeyQuintuplets.unmarshal, MmContextUmtsKeyQuintuplets.len, mm106
  exact (Moves.quints _ b).then fun a => (Moves.drx _ b).then fun a => ((Moves.ambr _ b).cond _).then fun a =>
    ((Moves.ambr _ b).cond _).then fun a => (Moves.lv 1 _ b).then fun a => (Moves.lv 1 _ b).then fun a =>
    (Moves.lv 1 _ b).then fun a => (Moves.octet b).then fun a => (Moves.lv 1 _ b).then fun a =>
    (Moves.higher b).then fun a => (Moves.iov _ _ b).then fun a => (Moves.extAcc _ b).then fun a => Iff.rfl

theorem ensct_quiet (b : Bytes) (c : Nat) : ((rdEnsct b c).Safe fun _ => True) ↔ c ≠ b.length := by
  safe_simp [rdEnsct]
  omega

theorem quiet107 (b : Bytes) :
    Quiet MmContextEpsSecurityContextQuadruplets.unmarshal MmContextEpsSecurityContextQuadruplets.len b ↔ mm107 b := by
  mm_head b, 46, MmContextEpsSecurityContextQuadruplets.unmarshal, MmContextEpsSecurityContextQuadruplets.len, mm107
  refine (Moves.quads _ b).then fun a => (Moves.quints _ b).then fun a => (Moves.drx _ b).then fun a =>
    (Moves.nextHop _ b).then fun a => ((Moves.ambr _ b).cond _).then fun a =>
    ((Moves.ambr _ b).cond _).then fun a => (Moves.lv 1 _ b).then fun a => (Moves.lv 1 _ b).then fun a =>
    (Moves.lv 1 _ b).then fun a => (Moves.octet b).then fun a => ((Moves.item OldEps.moves _ b).cond _).then fun a =>
    (Moves.lv 0 _ b).then fun a => (Moves.lv 0 _ b).then fun a => (Moves.extAcc _ b).then fun a =>
    (Moves.lv 0 _ b).then fun a => (Moves.lv 0 _ b).then fun a => ?_
  unfold rdEpsTail
  simp only [Safe_bind, Safe_pure]
  exact (Moves.apnRates _ b).then fun a => (Moves.lv 0 _ b).then fun a => (Moves.lv 0 _ b).then fun a => ensct_quiet b a.2

theorem quiet108 (b : Bytes) :
    Quiet MmContextUmtsKeyQuadrupletsQuintuplets.unmarshal MmContextUmtsKeyQuadrupletsQuintuplets.len b ↔ mm108 b := by
  mm_head b, 43, MmContextUmtsKeyQuadrupletsQuintuplets.unmarshal, MmContextUmtsKeyQuadrupletsQuintuplets.len, mm108
  exact (Moves.quads _ b).then fun a => (Moves.quints _ b).then fun a => (Moves.drx _ b).then fun a =>
    ((Moves.ambr _ b).cond _).then fun a => ((Moves.ambr _ b).cond _).then fun a => (Moves.lv 1 _ b).then fun a =>
    (Moves.lv 1 _ b).then fun a => (Moves.lv 1 _ b).then fun a => (Moves.octet b).then fun a => (Moves.lv 0 _ b).then fun a =>
    (Moves.apnRates _ b).then fun a => Iff.rfl

theorem MmContext.quiet (b : Bytes) : Quiet MmContext.unmarshal MmContext.len b ↔ ¬ MmCrash b := by
  unfold MmCrash
  by_cases hb : b = []
  · subst hb
    simp [Quiet, MmContext.unmarshal, rd_ge, R.Safe]
  · have h0 : 0 < b.length := List.length_pos_iff.mpr hb
    rw [← quiet103, ← quiet104, ← quiet105, ← quiet106, ← quiet107, ← quiet108]
    unfold Quiet MmContext.unmarshal
    rw [Safe_bind, Safe_rd]
    simp only [h0, true_and, hb, false_or, Safe_ite, Safe_bind, Safe_pure, Safe_err, octAt_eq, UInt8.reduceToNat, MmContext.len,
      implies_true, and_true]
    generalize octAt b 0 = t
    by_cases h7 : t = 107
    · subst h7; simp
    by_cases h6 : t = 106
    · subst h6; simp
    by_cases h8 : t = 108
    · subst h8; simp
    by_cases h4 : t = 104
    · subst h4; simp
    by_cases h3 : t = 103
    · subst h3; simp
    by_cases h5 : t = 105
    · subst h5; simp
    simp [h3, h4, h5, h6, h7, h8]

end Gtp.V2
