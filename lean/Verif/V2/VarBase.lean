import Verif.V2.IeBase
import Verif.Str

/-!
# Reading at computed positions, lists of integers, IP addresses

Shared by the information elements of variable layout.
-/

namespace Gtp

section
variable {ε : Type}

theorem rd_skip (a : UInt8) (l : Bytes) (i : Nat) (h : 0 < i) :
    (rd (a :: l) i : R ε UInt8) = rd l (i - 1) := by
  obtain ⟨k, rfl⟩ : ∃ k, i = k + 1 := ⟨i - 1, by omega⟩
  simp

theorem rd_here (a : UInt8) (l : Bytes) (i : Nat) (h : i = 0) :
    (rd (a :: l) i : R ε UInt8) = .ok a := by
  subst h; rfl

theorem rd_over (s l : Bytes) (i : Nat) (h : s.length ≤ i) :
    (rd (s ++ l) i : R ε UInt8) = rd l (i - s.length) := rd_append_right h

theorem sl_skip (a : UInt8) (l : Bytes) (i j : Nat) (h : 0 < i ∧ 0 < j) :
    (sl (a :: l) i j : R ε Bytes) = sl l (i - 1) (j - 1) := by
  obtain ⟨k, rfl⟩ : ∃ k, i = k + 1 := ⟨i - 1, by omega⟩
  obtain ⟨k', rfl⟩ : ∃ k', j = k' + 1 := ⟨j - 1, by omega⟩
  simp

theorem sl_over (s l : Bytes) (i j : Nat) (h : s.length ≤ i ∧ s.length ≤ j) :
    (sl (s ++ l) i j : R ε Bytes) = sl l (i - s.length) (j - s.length) := by
  have h1 : (i ≤ j ∧ j ≤ (s ++ l).length) ↔ (i - s.length ≤ j - s.length ∧ j - s.length ≤ l.length) := by
    rw [List.length_append]; omega
  simp only [sl, h1]
  congr 1
  rw [List.take_append, List.drop_append, List.take_of_length_le (by omega)]
  rw [List.drop_eq_nil_of_le (by omega : s.length ≤ i), List.nil_append]

theorem sl_here (s l : Bytes) (i j : Nat) (h : i = 0 ∧ j = s.length) :
    (sl (s ++ l) i j : R ε Bytes) = .ok s := by
  obtain ⟨rfl, rfl⟩ := h
  simp [sl]

theorem sl_empty (l : Bytes) (i j : Nat) (h : i = 0 ∧ j = 0) : (sl l i j : R ε Bytes) = .ok [] := by
  obtain ⟨rfl, rfl⟩ := h
  simp [sl]

theorem slFrom_skip (a : UInt8) (l : Bytes) (i : Nat) (h : 0 < i) :
    (slFrom (a :: l) i : R ε Bytes) = slFrom l (i - 1) := by
  obtain ⟨k, rfl⟩ : ∃ k, i = k + 1 := ⟨i - 1, by omega⟩
  simp

theorem slFrom_here (l : Bytes) (i : Nat) (h : i = 0) : (slFrom l i : R ε Bytes) = .ok l := by
  subst h; simp

theorem slFrom_over (s l : Bytes) (i : Nat) (h : s.length ≤ i) :
    (slFrom (s ++ l) i : R ε Bytes) = slFrom l (i - s.length) := by
  have h1 : (i ≤ (s ++ l).length) ↔ (i - s.length ≤ l.length) := by
    rw [List.length_append]; omega
  simp only [slFrom, h1]
  congr 1
  rw [List.drop_append, List.drop_eq_nil_of_le h, List.nil_append]

theorem take_here {α : Type} (s l : List α) (n : Nat) (h : n = s.length) : (s ++ l).take n = s := by
  subst h; simp

/-- The length check against a computed length. -/
theorem checkTliv_nat {m : Mode} {b : Bytes} (n : Nat) (h : n < 65532) :
    (checkTliv m (UInt16.ofNat n) b : R ε Bool) = .ok (decide (0 < n ∧ n + 4 ≤ b.length)) := by
  have hn : (UInt16.ofNat n).toNat = n := by simp; omega
  rw [checkTliv_ok (by omega), hn]

theorem and15_le (f : UInt8) : (f &&& 0x0f).toNat ≤ 15 := by
  rw [UInt8.toNat_and]; exact Nat.and_le_right

theorem rd16_skip (a : UInt8) (l : Bytes) (i : Nat) (h : 0 < i) :
    (rd16 (a :: l) i : R ε UInt16) = rd16 l (i - 1) := by
  obtain ⟨k, rfl⟩ : ∃ k, i = k + 1 := ⟨i - 1, by omega⟩
  simp [rd16, Nat.add_right_comm]

theorem rd16_over (s l : Bytes) (i : Nat) (h : s.length ≤ i) :
    (rd16 (s ++ l) i : R ε UInt16) = rd16 l (i - s.length) := by
  obtain ⟨k, rfl⟩ : ∃ k, i = s.length + k := ⟨i - s.length, by omega⟩
  simp only [rd16]
  repeat rw [rd_append_right (by omega)]
  simp only [Nat.add_assoc, Nat.add_sub_cancel_left]

theorem rd16_here (a0 a1 : UInt8) (l : Bytes) (i : Nat) (h : i = 0) :
    (rd16 (a0 :: a1 :: l) i : R ε UInt16) = .ok (of16 a0 a1) := by
  subst h; rfl

theorem rd24_skip (a : UInt8) (l : Bytes) (i : Nat) (h : 0 < i) :
    (rd24 (a :: l) i : R ε UInt32) = rd24 l (i - 1) := by
  obtain ⟨k, rfl⟩ : ∃ k, i = k + 1 := ⟨i - 1, by omega⟩
  simp [rd24, Nat.add_right_comm]

theorem rd24_over (s l : Bytes) (i : Nat) (h : s.length ≤ i) :
    (rd24 (s ++ l) i : R ε UInt32) = rd24 l (i - s.length) := by
  obtain ⟨k, rfl⟩ : ∃ k, i = s.length + k := ⟨i - s.length, by omega⟩
  simp only [rd24]
  repeat rw [rd_append_right (by omega)]
  simp only [Nat.add_assoc, Nat.add_sub_cancel_left]

theorem rd24_here (a0 a1 a2 : UInt8) (l : Bytes) (i : Nat) (h : i = 0) :
    (rd24 (a0 :: a1 :: a2 :: l) i : R ε UInt32) = .ok (of32 0 a0 a1 a2) := by
  subst h; rfl

theorem rd32_skip (a : UInt8) (l : Bytes) (i : Nat) (h : 0 < i) :
    (rd32 (a :: l) i : R ε UInt32) = rd32 l (i - 1) := by
  obtain ⟨k, rfl⟩ : ∃ k, i = k + 1 := ⟨i - 1, by omega⟩
  simp [rd32, Nat.add_right_comm]

theorem rd32_over (s l : Bytes) (i : Nat) (h : s.length ≤ i) :
    (rd32 (s ++ l) i : R ε UInt32) = rd32 l (i - s.length) := by
  obtain ⟨k, rfl⟩ : ∃ k, i = s.length + k := ⟨i - s.length, by omega⟩
  simp only [rd32]
  repeat rw [rd_append_right (by omega)]
  simp only [Nat.add_assoc, Nat.add_sub_cancel_left]

theorem rd32_here (a0 a1 a2 a3 : UInt8) (l : Bytes) (i : Nat) (h : i = 0) :
    (rd32 (a0 :: a1 :: a2 :: a3 :: l) i : R ε UInt32) = .ok (of32 a0 a1 a2 a3) := by
  subst h; rfl

theorem rd64_skip (a : UInt8) (l : Bytes) (i : Nat) (h : 0 < i) :
    (rd64 (a :: l) i : R ε UInt64) = rd64 l (i - 1) := by
  obtain ⟨k, rfl⟩ : ∃ k, i = k + 1 := ⟨i - 1, by omega⟩
  simp [rd64, Nat.add_right_comm]

theorem rd64_over (s l : Bytes) (i : Nat) (h : s.length ≤ i) :
    (rd64 (s ++ l) i : R ε UInt64) = rd64 l (i - s.length) := by
  obtain ⟨k, rfl⟩ : ∃ k, i = s.length + k := ⟨i - s.length, by omega⟩
  simp only [rd64]
  repeat rw [rd_append_right (by omega)]
  simp only [Nat.add_assoc, Nat.add_sub_cancel_left]

theorem rd64_here (a0 a1 a2 a3 a4 a5 a6 a7 : UInt8) (l : Bytes) (i : Nat) (h : i = 0) :
    (rd64 (a0 :: a1 :: a2 :: a3 :: a4 :: a5 :: a6 :: a7 :: l) i : R ε UInt64) = .ok (of64 a0 a1 a2 a3 a4 a5 a6 a7) := by
  subst h; rfl

end

/-- `iter().flat_map(|x| x.to_be_bytes())`. -/
def be16s : List UInt16 → Bytes
  | [] => []
  | x :: r => hi16 x :: lo16 x :: be16s r

/-- `chunks(2).map(|x| u16::from_be_bytes([x[0], x[1]]))`, for an even number of octets. -/
def rd16s : Bytes → List UInt16
  | a :: b :: r => of16 a b :: rd16s r
  | _ => []

@[simp, gtplen] theorem be16s_length (l : List UInt16) : (be16s l).length = 2 * l.length := by
  induction l with
  | nil => rfl
  | cons x r ih => simp only [be16s, List.length_cons, ih]; omega

@[simp, gtp] theorem rd16s_be16s (l : List UInt16) : rd16s (be16s l) = l := by
  induction l with
  | nil => rfl
  | cons x r ih => simp [be16s, rd16s, ih]

theorem lenU8_toNat {α : Type} {l : List α} (h : l.length < 256) : (lenU8 l).toNat = l.length := by
  simp [lenU8]; omega

namespace V2

/-- `std::net::IpAddr`. -/
inductive IpAddr where
  | V4 (i : UInt32) | V6 (i : Ip6)
deriving DecidableEq, Repr

/-- `octets` of either kind of address. -/
def IpAddr.octets : IpAddr → Bytes
  | .V4 i => be32 i
  | .V6 i => i.octets

/-- Number of octets of the address. -/
def IpAddr.size : IpAddr → Nat
  | .V4 _ => 4
  | .V6 _ => 16

/-- `rtv_simp` with reads at computed positions. -/
macro "var_simp" "[" ls:Lean.Parser.Tactic.simpLemma,* "]" : tactic =>
  `(tactic| simp -implicitDefEqProofs (disch := gtp_disch) [gtp, if_pos, if_neg, checkTliv_ok,
      ↓rdLit, ↓rd16Lit, ↓rd24Lit, ↓rd32Lit, ↓rd40Lit, ↓rd48Lit, ↓rd64Lit, ↓lenLit,
      ↓sl_from5, ↓sl_from6, ↓sl_here, ↓sl_empty, ↓sl_over, ↓sl_skip, ↓rd_here, ↓rd_over, ↓rd_skip, ↓slFrom_here,
      ↓slFrom_over, ↓slFrom_skip, ↓take_here, ↓checkTliv_nat,
      ↓rd16_here, ↓rd16_over, ↓rd16_skip, ↓rd24_here, ↓rd24_over, ↓rd24_skip, ↓rd32_here, ↓rd32_over, ↓rd32_skip, ↓rd64_here, ↓rd64_over, ↓rd64_skip, $ls,*])

end V2

end Gtp
