import Verif.V2.IESafe

/-!
# When the decoder of an information element panics in a debug build

`R.Safe` is computed by equations, so a decoder's exact panic condition comes out by rewriting; here are the equations for
the `u16` additions, which panic in a debug build when they overflow.
-/

namespace Gtp.V2

theorem Safe_add4_debug {l : UInt16} {P : UInt16 → Prop} :
    (add16 .debug l 4 : R Err UInt16).Safe P = (l.toNat < 65532 ∧ P (l + 4)) := by
  have h4 : (4 : UInt16).toNat = 4 := rfl
  rw [add16]
  by_cases h : l.toNat < 65532
  · simp only [h, true_and]
    rw [if_pos (by omega), Safe_ok]
  · simp only [h, false_and]
    rw [if_neg (by omega), Safe_panic]

theorem Safe_checkTliv_debug {l : UInt16} {b : Bytes} {P : Bool → Prop} :
    (checkTliv .debug l b : R Err Bool).Safe P =
      (l.toNat < 65532 ∧ P (decide (0 < l.toNat ∧ l.toNat + 4 ≤ b.length))) := by
  by_cases h : l.toNat < 65532
  · rw [Safe_checkTliv h]
    simp [h]
  · have h0 : l ≠ 0 := by
      intro hx
      subst hx
      exact h (by decide)
    rw [checkTliv, if_neg h0, Safe_bind, Safe_add4_debug]
    simp [h]

theorem Safe_ieLen16_debug {l : UInt16} {P : Nat → Prop} :
    (ieLen16 .debug l : R Err Nat).Safe P = (l.toNat < 65532 ∧ P (l + 4).toNat) := by
  rw [ieLen16, Safe_bind, Safe_add4_debug]
  simp only [Safe_pure]

theorem Safe_slBody16_debug {l : UInt16} {b : Bytes} {P : Bytes → Prop} :
    (slBody16 .debug b l : R Err Bytes).Safe P =
      (l.toNat < 65532 ∧ l.toNat + 4 ≤ b.length ∧ P ((b.take (l.toNat + 4)).drop 4)) := by
  rw [slBody16, Safe_bind, Safe_add4_debug]
  by_cases h : l.toNat < 65532
  · have h4 : (4 : UInt16).toNat = 4 := rfl
    have e : (l + 4).toNat = l.toNat + 4 := by
      rw [UInt16.toNat_add, h4]
      omega
    rw [Safe_sl, e]
    simp [h]
  · simp [h]

/-- The decoder of one kind and the size of what it decoded: no panic. -/
abbrev Quiet {α : Type} (unm : Mode → Bytes → R Err α) (len : Mode → α → R Err Nat) (b : Bytes) : Prop :=
  (unm .debug b).Safe fun x => (len .debug x).Safe fun _ => True

theorem quiet_of {α : Type} {x : R Err α} {l : α → R Err Nat} {P : Nat → Prop} (h : x.Safe fun a => (l a).Safe P) :
    x.Safe fun a => (l a).Safe fun _ => True := Safe.mono h fun _ ha => Safe.mono ha fun _ _ => trivial

/-- The octet at position `c`. -/
abbrev octAt (b : Bytes) (c : Nat) : Nat := (b.getD c 0).toNat

/-- The length that the information element at the front of `b` declares. -/
abbrev declN (b : Bytes) : Nat := (declLen b).toNat

/-- At least `n` octets, and a declared length whose sum with 4 overflows `u16`. -/
abbrev Over (n : Nat) (b : Bytes) : Prop := n ≤ b.length ∧ 65532 ≤ declN b

/-- The check of the declared length lets the buffer pass. -/
abbrev Full (b : Bytes) : Prop := 0 < declN b ∧ declN b < 65532 ∧ declN b + 4 ≤ b.length

/-! ### Cursors

What a decoder does with its cursor, without the values that it reads: a stage takes the position at which it begins and
the condition under which the rest of the decoder does not panic, as a condition on the position at which the rest begins. -/

/-- A stage. -/
abbrev Stage := Nat → (Nat → Prop) → Prop

/-- `k` octets, taken without looking whether they are there. -/
def takes (b : Bytes) (k : Nat) : Stage := fun c rest => c + k ≤ b.length ∧ rest (c + k)

/-- A length octet and that many octets, taken without looking whether they are there. -/
def takesLv (b : Bytes) : Stage := fun c rest =>
  c < b.length ∧ c + 1 + octAt b c ≤ b.length ∧ rest (c + 1 + octAt b c)

/-- A length octet, taken without looking whether it is there, and that many octets, or else an error. -/
def checksLv (b : Bytes) : Stage := fun c rest =>
  c < b.length ∧ (c + 1 + octAt b c ≤ b.length → rest (c + 1 + octAt b c))

/-- The same; for the length 0 the cursor advances by `skip` octets more. -/
def checksLv0 (b : Bytes) (skip : Nat) : Stage := fun c rest =>
  c < b.length ∧ (c + 1 + octAt b c ≤ b.length → rest (if octAt b c = 0 then c + 1 + skip else c + 1 + octAt b c))

/-- A length octet and a text of that length; an error if it is not UTF-8. -/
def takesText (b : Bytes) : Stage := fun c rest =>
  c < b.length ∧ c + 1 + octAt b c ≤ b.length ∧
    ((fromUtf8 ((b.take (c + 1 + octAt b c)).drop (c + 1))).isSome → rest (c + 1 + octAt b c))

/-- A stage behind a flag. -/
def flagged (f : Bool) (st : Stage) : Stage := fun c rest => if f then st c rest else rest c

/-- A stage that begins with a look whether the cursor is inside the buffer or at its end. -/
def guarded (b : Bytes) (st : Stage) : Stage := fun c rest => c ≤ b.length → st c rest

/-- One octet if the flag is set and the octet is there. -/
def maybe8 (b : Bytes) (f : Bool) : Stage := fun c rest => if f = true ∧ c < b.length then rest (c + 1) else rest c

/-- An address behind the octet 0x04 or 0x50, or else an error. -/
def checksIp (b : Bytes) : Stage := fun c rest =>
  c < b.length ∧ (b.getD c 0 = 0x04 → c + 5 ≤ b.length → rest (c + 5)) ∧
    (b.getD c 0 = 0x50 → c + 17 ≤ b.length → rest (c + 17))

/-- The decoder moves its cursor like the stage. -/
def Moves {α : Type} (rd : Nat → R Err (α × Nat)) (st : Stage) : Prop :=
  ∀ c rest, (rd c).Safe (fun a => rest a.2) ↔ st c rest

theorem Moves.n (b : Bytes) (k : Nat) : Moves (rdN k b) (takes b k) := by
  intro c rest
  safe_simp [rdN, takes]
  simp only [and_congr_left_iff]
  omega

theorem Moves.lvU (b : Bytes) : Moves (rdLvU b) (takesLv b) := by
  intro c rest
  safe_simp [rdLvU, takesLv, octAt]
  refine and_congr_right fun _ => and_congr_left_iff.mpr fun _ => ?_
  omega

theorem Moves.lvC (e : Err) (b : Bytes) : Moves (rdLvC e b) (checksLv b) := by
  intro c rest
  safe_simp [rdLvC, checksLv, octAt]
  refine and_congr_right fun _ => imp_congr_right fun h => ?_
  simp only [h, and_true, and_iff_right_iff_imp]
  omega

theorem Moves.lv (skip : Nat) (e : Err) (b : Bytes) : Moves (rdLv skip e b) (checksLv0 b skip) := by
  intro c rest
  safe_simp [rdLv, checksLv0, octAt]
  refine and_congr_right fun hc => ?_
  by_cases h : (b.getD c 0).toNat = 0
  · have h1 : c + 1 ≤ b.length := hc
    simp only [h, Nat.lt_irrefl, false_implies, true_and, not_false_eq_true, true_implies, Nat.add_zero, h1, if_true]
  · have h1 : 0 < (b.getD c 0).toNat := by omega
    simp only [h1, if_neg h, true_implies, not_true, false_implies, and_true]
    refine imp_congr_right fun h2 => ?_
    simp only [h2, and_true, and_iff_right_iff_imp]
    omega

theorem Moves.name (b : Bytes) : Moves (TwanId.rdName b) (takesText b) := by
  intro c rest
  unfold TwanId.rdName takesText
  rw [Safe_bind]
  safe_simp [rdLvU, octAt]
  refine and_congr_right fun _ => ?_
  rw [and_assoc]
  constructor
  · rintro ⟨_, h1, h2⟩
    refine ⟨h1, fun h => ?_⟩
    obtain ⟨s, hs⟩ := Option.isSome_iff_exists.mp h
    exact h2 s hs
  · rintro ⟨h1, h2⟩
    exact ⟨by omega, h1, fun s hs => h2 (by rw [hs]; rfl)⟩

theorem Moves.plmn (b : Bytes) : Moves (rdPlmnS b) (takes b 3) := by
  intro c rest
  safe_simp [rdPlmnS, takes, mccMncDecode]
  simp only [List.length_drop, List.length_take]
  constructor
  · rintro ⟨⟨_, h1⟩, _, _, _, h2⟩
    exact ⟨h1, h2⟩
  · rintro ⟨h1, h2⟩
    exact ⟨⟨by omega, h1⟩, by omega, by omega, by omega, h2⟩

theorem Moves.opt8 (b : Bytes) (f : Bool) : Moves (rdOpt8 f b) (maybe8 b f) := by
  intro c rest
  safe_simp [rdOpt8, maybe8]
  by_cases h : f = true ∧ c < b.length
  · simp only [h, and_self, if_true, true_implies, true_and, not_true, false_implies, and_true]
  · simp only [h, if_false, false_implies, true_and, not_false_eq_true, true_implies]

theorem Moves.ip (b : Bytes) : Moves (rdIp50 b) (checksIp b) := by
  intro c rest
  safe_simp [rdIp50, checksIp]
  refine and_congr_right fun _ => ?_
  by_cases h4 : b.getD c 0 = 4
  · simp only [h4, true_implies, not_true, false_implies, and_true]
    have : ((4 : UInt8) = 0x50) = False := by decide
    simp only [this, false_implies, and_true]
    constructor
    · intro h h1; exact (h h1).2.2.2.2
    · intro h h1; exact ⟨by omega, by omega, by omega, by omega, h h1⟩
  · simp only [h4, false_implies, not_false_eq_true, true_implies, true_and]
    refine imp_congr_right fun _ => ?_
    constructor
    · intro h h1; exact (h h1).2.2.2.2.2.2.2.2.2.2.2.2.2.2.2.2
    · intro h h1
      refine ⟨by omega, by omega, by omega, by omega, by omega, by omega, by omega, by omega, by omega, by omega, by omega,
        by omega, by omega, by omega, by omega, by omega, h h1⟩

theorem Moves.le {α : Type} {rd : Nat → R Err (α × Nat)} {st : Stage} (e : Err) (b : Bytes) (h : Moves rd st) :
    Moves (rdLe e b rd) (guarded b st) := by
  intro c rest
  unfold rdLe
  rw [Safe_ite]
  simp only [Safe_err, implies_true, and_true]
  exact imp_congr_right fun _ => h c rest

theorem Moves.cond {α : Type} {rd : Nat → R Err (α × Nat)} {st : Stage} (f : Bool) (h : Moves rd st) :
    Moves (rdIf f rd) (flagged f st) := by
  intro c rest
  unfold rdIf flagged
  cases f
  · simp only [Bool.false_eq_true, if_false, Safe_pure]
  · simp only [if_true]
    rw [Safe_bind]
    simp only [Safe_pure]
    exact h c rest

theorem Safe_congr {α : Type} {x : R Err α} {P Q : α → Prop} (h : ∀ a, P a ↔ Q a) : x.Safe P ↔ x.Safe Q := by
  have : P = Q := funext fun a => propext (h a)
  rw [this]

theorem Moves.then {α : Type} {rd : Nat → R Err (α × Nat)} {st : Stage} (h : Moves rd st) {c : Nat} {P : α × Nat → Prop}
    {rest : Nat → Prop} (hp : ∀ a, P a ↔ rest a.2) : (rd c).Safe P ↔ st c rest :=
  (Safe_congr hp).trans (h c rest)

theorem Safe_decName {d : Bytes} : ((decName d : R Err Str).Safe fun _ => True) = Labels d := by
  refine propext ⟨fun h => ?_, fun h => decName_safe h fun _ => trivial⟩
  refine Classical.byContradiction fun hn => ?_
  rw [decName_panic hn] at h
  exact h

/-- Take the conditions apart. -/
macro "crash_unfold" : tactic =>
  `(tactic| simp only [Quiet, Over, Full, declN, octAt, declLen] at *)

end Gtp.V2
