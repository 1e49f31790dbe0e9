import Verif.Basic

/-!
# Lemmas about the basic operations (helpers, not properties)
-/

namespace Gtp

/-! ### Exhaustive reasoning over octets -/

/-- A decidable statement about octets holds for all octets if it holds for 0..255. -/
theorem forall_u8 {P : UInt8 → Prop} (h : ∀ n : Fin 256, P (UInt8.ofNat n.val)) : ∀ x, P x := by
  intro x
  have := h ⟨x.toNat, x.toNat_lt⟩
  simpa using this

instance decForallU8 (P : UInt8 → Prop) [DecidablePred P] : Decidable (∀ x, P x) :=
  decidable_of_iff (∀ n : Fin 256, P (UInt8.ofNat n.val))
    ⟨forall_u8, fun h _ => h _⟩

@[gtp] theorem and3 {x : UInt8} (h : x < 4) : x &&& 3 = x := by
  revert x; decide +kernel

@[gtp] theorem and7 {x : UInt8} (h : x < 8) : x &&& 7 = x := by
  revert x; decide +kernel

@[gtp] theorem and31 {x : UInt8} (h : x < 32) : x &&& 31 = x := by
  revert x; decide +kernel

@[gtp] theorem and63 {x : UInt8} (h : x < 64) : x &&& 63 = x := by
  revert x; decide +kernel

@[gtp] theorem and127 {x : UInt8} (h : x < 128) : x &&& 127 = x := by
  revert x; decide +kernel

@[gtp] theorem and15 {x : UInt8} (h : x < 16) : x &&& 15 = x := by
  revert x; decide +kernel

/-- Peel one element off a list known to be long enough. -/
theorem exists_cons {α : Type} {n : Nat} {b : List α} (h : n + 1 ≤ b.length) :
    ∃ a l, b = a :: l ∧ n ≤ l.length := by
  cases b with
  | nil => simp at h
  | cons a l => exact ⟨a, l, rfl, by simpa using h⟩

theorem exists_cons4 {α : Type} {n : Nat} {b : List α} (h : n + 4 ≤ b.length) :
    ∃ a0 a1 a2 a3 l, b = a0 :: a1 :: a2 :: a3 :: l ∧ n ≤ l.length := by
  obtain ⟨a0, l0, rfl, h0⟩ := exists_cons (n := n + 3) h
  obtain ⟨a1, l1, rfl, h1⟩ := exists_cons (n := n + 2) h0
  obtain ⟨a2, l2, rfl, h2⟩ := exists_cons (n := n + 1) h1
  obtain ⟨a3, l3, rfl, h3⟩ := exists_cons (n := n) h2
  exact ⟨a0, a1, a2, a3, l3, rfl, h3⟩

theorem exists_cons_eq {α : Type} {n : Nat} {b : List α} (h : b.length = n + 1) :
    ∃ a l, b = a :: l ∧ l.length = n := by
  cases b with
  | nil => simp at h
  | cons a l => exact ⟨a, l, rfl, by simpa using h⟩

theorem exists_list5 {α : Type} {b : List α} (h : b.length = 5) :
    ∃ a0 a1 a2 a3 a4, b = [a0, a1, a2, a3, a4] := by
  obtain ⟨a0, l0, rfl, h0⟩ := exists_cons_eq (n := 4) h
  obtain ⟨a1, l1, rfl, h1⟩ := exists_cons_eq (n := 3) h0
  obtain ⟨a2, l2, rfl, h2⟩ := exists_cons_eq (n := 2) h1
  obtain ⟨a3, l3, rfl, h3⟩ := exists_cons_eq (n := 1) h2
  obtain ⟨a4, l4, rfl, h4⟩ := exists_cons_eq (n := 0) h3
  cases List.length_eq_zero_iff.mp h4
  exact ⟨a0, a1, a2, a3, a4, rfl⟩

theorem exists_list6 {α : Type} {b : List α} (h : b.length = 6) :
    ∃ a0 a1 a2 a3 a4 a5, b = [a0, a1, a2, a3, a4, a5] := by
  obtain ⟨a0, l0, rfl, h0⟩ := exists_cons_eq (n := 5) h
  obtain ⟨a1, l1, rfl, h1⟩ := exists_cons_eq (n := 4) h0
  obtain ⟨a2, l2, rfl, h2⟩ := exists_cons_eq (n := 3) h1
  obtain ⟨a3, l3, rfl, h3⟩ := exists_cons_eq (n := 2) h2
  obtain ⟨a4, l4, rfl, h4⟩ := exists_cons_eq (n := 1) h3
  obtain ⟨a5, l5, rfl, h5⟩ := exists_cons_eq (n := 0) h4
  cases List.length_eq_zero_iff.mp h5
  exact ⟨a0, a1, a2, a3, a4, a5, rfl⟩

theorem exists_list8 {α : Type} {b : List α} (h : b.length = 8) :
    ∃ a0 a1 a2 a3 a4 a5 a6 a7, b = [a0, a1, a2, a3, a4, a5, a6, a7] := by
  obtain ⟨a0, l0, rfl, h0⟩ := exists_cons_eq (n := 7) h
  obtain ⟨a1, l1, rfl, h1⟩ := exists_cons_eq (n := 6) h0
  obtain ⟨a2, l2, rfl, h2⟩ := exists_cons_eq (n := 5) h1
  obtain ⟨a3, l3, rfl, h3⟩ := exists_cons_eq (n := 4) h2
  obtain ⟨a4, l4, rfl, h4⟩ := exists_cons_eq (n := 3) h3
  obtain ⟨a5, l5, rfl, h5⟩ := exists_cons_eq (n := 2) h4
  obtain ⟨a6, l6, rfl, h6⟩ := exists_cons_eq (n := 1) h5
  obtain ⟨a7, l7, rfl, h7⟩ := exists_cons_eq (n := 0) h6
  cases List.length_eq_zero_iff.mp h7
  exact ⟨a0, a1, a2, a3, a4, a5, a6, a7, rfl⟩

theorem exists_list9 {α : Type} {b : List α} (h : b.length = 9) :
    ∃ a0 a1 a2 a3 a4 a5 a6 a7 a8, b = [a0, a1, a2, a3, a4, a5, a6, a7, a8] := by
  obtain ⟨a0, l0, rfl, h0⟩ := exists_cons_eq (n := 8) h
  obtain ⟨a1, l1, rfl, h1⟩ := exists_cons_eq (n := 7) h0
  obtain ⟨a2, l2, rfl, h2⟩ := exists_cons_eq (n := 6) h1
  obtain ⟨a3, l3, rfl, h3⟩ := exists_cons_eq (n := 5) h2
  obtain ⟨a4, l4, rfl, h4⟩ := exists_cons_eq (n := 4) h3
  obtain ⟨a5, l5, rfl, h5⟩ := exists_cons_eq (n := 3) h4
  obtain ⟨a6, l6, rfl, h6⟩ := exists_cons_eq (n := 2) h5
  obtain ⟨a7, l7, rfl, h7⟩ := exists_cons_eq (n := 1) h6
  obtain ⟨a8, l8, rfl, h8⟩ := exists_cons_eq (n := 0) h7
  cases List.length_eq_zero_iff.mp h8
  exact ⟨a0, a1, a2, a3, a4, a5, a6, a7, a8, rfl⟩

theorem exists_list12 {α : Type} {b : List α} (h : b.length = 12) :
    ∃ a0 a1 a2 a3 a4 a5 a6 a7 a8 a9 a10 a11, b = [a0, a1, a2, a3, a4, a5, a6, a7, a8, a9, a10, a11] := by
  obtain ⟨a0, l0, rfl, h0⟩ := exists_cons_eq (n := 11) h
  obtain ⟨a1, l1, rfl, h1⟩ := exists_cons_eq (n := 10) h0
  obtain ⟨a2, l2, rfl, h2⟩ := exists_cons_eq (n := 9) h1
  obtain ⟨a3, l3, rfl, h3⟩ := exists_cons_eq (n := 8) h2
  obtain ⟨a4, l4, rfl, h4⟩ := exists_cons_eq (n := 7) h3
  obtain ⟨a5, l5, rfl, h5⟩ := exists_cons_eq (n := 6) h4
  obtain ⟨a6, l6, rfl, h6⟩ := exists_cons_eq (n := 5) h5
  obtain ⟨a7, l7, rfl, h7⟩ := exists_cons_eq (n := 4) h6
  obtain ⟨a8, l8, rfl, h8⟩ := exists_cons_eq (n := 3) h7
  obtain ⟨a9, l9, rfl, h9⟩ := exists_cons_eq (n := 2) h8
  obtain ⟨a10, l10, rfl, h10⟩ := exists_cons_eq (n := 1) h9
  obtain ⟨a11, l11, rfl, h11⟩ := exists_cons_eq (n := 0) h10
  cases List.length_eq_zero_iff.mp h11
  exact ⟨a0, a1, a2, a3, a4, a5, a6, a7, a8, a9, a10, a11, rfl⟩

theorem exists_list16 {α : Type} {b : List α} (h : b.length = 16) :
    ∃ a0 a1 a2 a3 a4 a5 a6 a7 a8 a9 a10 a11 a12 a13 a14 a15, b = [a0, a1, a2, a3, a4, a5, a6, a7, a8, a9, a10, a11, a12, a13, a14, a15] := by
  obtain ⟨a0, l0, rfl, h0⟩ := exists_cons_eq (n := 15) h
  obtain ⟨a1, l1, rfl, h1⟩ := exists_cons_eq (n := 14) h0
  obtain ⟨a2, l2, rfl, h2⟩ := exists_cons_eq (n := 13) h1
  obtain ⟨a3, l3, rfl, h3⟩ := exists_cons_eq (n := 12) h2
  obtain ⟨a4, l4, rfl, h4⟩ := exists_cons_eq (n := 11) h3
  obtain ⟨a5, l5, rfl, h5⟩ := exists_cons_eq (n := 10) h4
  obtain ⟨a6, l6, rfl, h6⟩ := exists_cons_eq (n := 9) h5
  obtain ⟨a7, l7, rfl, h7⟩ := exists_cons_eq (n := 8) h6
  obtain ⟨a8, l8, rfl, h8⟩ := exists_cons_eq (n := 7) h7
  obtain ⟨a9, l9, rfl, h9⟩ := exists_cons_eq (n := 6) h8
  obtain ⟨a10, l10, rfl, h10⟩ := exists_cons_eq (n := 5) h9
  obtain ⟨a11, l11, rfl, h11⟩ := exists_cons_eq (n := 4) h10
  obtain ⟨a12, l12, rfl, h12⟩ := exists_cons_eq (n := 3) h11
  obtain ⟨a13, l13, rfl, h13⟩ := exists_cons_eq (n := 2) h12
  obtain ⟨a14, l14, rfl, h14⟩ := exists_cons_eq (n := 1) h13
  obtain ⟨a15, l15, rfl, h15⟩ := exists_cons_eq (n := 0) h14
  cases List.length_eq_zero_iff.mp h15
  exact ⟨a0, a1, a2, a3, a4, a5, a6, a7, a8, a9, a10, a11, a12, a13, a14, a15, rfl⟩

/-! ### Big-endian round trips -/

@[simp, gtp] theorem of16_be (x : UInt16) : of16 (hi16 x) (lo16 x) = x := by
  apply UInt16.toNat_inj.mp
  have := x.toNat_lt
  simp [of16, hi16, lo16]
  omega

@[simp, gtp] theorem of32_be (x : UInt32) :
    of32 (oct32 3 x) (oct32 2 x) (oct32 1 x) (oct32 0 x) = x := by
  apply UInt32.toNat_inj.mp
  have := x.toNat_lt
  simp [of32, oct32]
  omega

theorem of24_be {x : UInt32} (h : x.toNat < 16777216) :
    of32 0 (oct32 2 x) (oct32 1 x) (oct32 0 x) = x := by
  apply UInt32.toNat_inj.mp
  simp [of32, oct32]
  omega

@[simp, gtp] theorem of64_be (x : UInt64) :
    of64 (oct64 7 x) (oct64 6 x) (oct64 5 x) (oct64 4 x) (oct64 3 x) (oct64 2 x) (oct64 1 x)
      (oct64 0 x) = x := by
  apply UInt64.toNat_inj.mp
  have := x.toNat_lt
  simp [of64, oct64]
  omega

theorem of40_be {x : UInt64} (h : x.toNat < 1099511627776) :
    of64 0 0 0 (oct64 4 x) (oct64 3 x) (oct64 2 x) (oct64 1 x) (oct64 0 x) = x := by
  apply UInt64.toNat_inj.mp
  simp [of64, oct64]
  omega

theorem of48_be {x : UInt64} (h : x.toNat < 281474976710656) :
    of64 0 0 (oct64 5 x) (oct64 4 x) (oct64 3 x) (oct64 2 x) (oct64 1 x) (oct64 0 x) = x := by
  apply UInt64.toNat_inj.mp
  simp [of64, oct64]
  omega

theorem of16_toNat (a b : UInt8) : (of16 a b).toNat = a.toNat * 256 + b.toNat := by
  have := a.toNat_lt
  have := b.toNat_lt
  simp [of16]
  omega

theorem be_of16 (a b : UInt8) : hi16 (of16 a b) = a ∧ lo16 (of16 a b) = b := by
  have ha := a.toNat_lt
  have hb := b.toNat_lt
  constructor <;> apply UInt8.toNat_inj.mp <;> simp [hi16, lo16, of16_toNat] <;> omega

@[gtp] theorem hi16_of16 (a b : UInt8) : hi16 (of16 a b) = a := (be_of16 a b).1
@[gtp] theorem lo16_of16 (a b : UInt8) : lo16 (of16 a b) = b := (be_of16 a b).2

theorem of32_toNat (a b c d : UInt8) : (of32 a b c d).toNat =
    ((a.toNat * 256 + b.toNat) * 256 + c.toNat) * 256 + d.toNat := by
  have := a.toNat_lt
  have := b.toNat_lt
  have := c.toNat_lt
  have := d.toNat_lt
  simp [of32]
  omega

@[gtp] theorem be32_of32 (a b c d : UInt8) : be32 (of32 a b c d) = [a, b, c, d] := by
  have ha := a.toNat_lt
  have hb := b.toNat_lt
  have hc := c.toNat_lt
  have hd := d.toNat_lt
  simp only [be32, oct32, of32_toNat, List.cons.injEq, and_true]
  refine ⟨?_, ?_, ?_, ?_⟩ <;> apply UInt8.toNat_inj.mp <;> simp <;> omega

/-! ### Reading explicit lists -/

section
variable {ε : Type}

@[simp, gtp] theorem rd_zero (a : UInt8) (l : Bytes) : (rd (a :: l) 0 : R ε UInt8) = .ok a := rfl
@[simp, gtp] theorem rd_succ (a : UInt8) (l : Bytes) (n : Nat) :
    (rd (a :: l) (n + 1) : R ε UInt8) = rd l n := by simp [rd]
@[simp, gtp] theorem rd_nil (n : Nat) : (rd [] n : R ε UInt8) = .panic := by simp [rd]

theorem rd_lt {b : Bytes} {i : Nat} (h : i < b.length) : (rd b i : R ε UInt8) = .ok b[i] := by
  simp [rd, h]

theorem rd_ge {b : Bytes} {i : Nat} (h : b.length ≤ i) : (rd b i : R ε UInt8) = .panic := by
  simp [rd, h]

theorem rd_append_left {b c : Bytes} {i : Nat} (h : i < b.length) :
    (rd (b ++ c) i : R ε UInt8) = rd b i := by
  simp [rd, List.getElem?_append, h]

theorem rd_append_right {b c : Bytes} {i : Nat} (h : b.length ≤ i) :
    (rd (b ++ c) i : R ε UInt8) = rd c (i - b.length) := by
  simp [rd, List.getElem?_append, Nat.not_lt.mpr h]

/-- Slicing out a middle part. -/
theorem sl_mid (a b c : Bytes) (i j : Nat) (hi : i = a.length) (hj : j = a.length + b.length) :
    (sl (a ++ b ++ c) i j : R ε Bytes) = .ok b := by
  subst hi hj
  simp [sl, List.take_append]

@[simp, gtp] theorem sl_zero (l : Bytes) (j : Nat) :
    (sl l 0 j : R ε Bytes) = if j ≤ l.length then .ok (l.take j) else .panic := by
  simp [sl]

@[simp, gtp] theorem sl_succ_succ (a : UInt8) (l : Bytes) (i j : Nat) :
    (sl (a :: l) (i + 1) (j + 1) : R ε Bytes) = sl l i j := by
  simp [sl]

@[simp, gtp] theorem sl_succ_zero (l : Bytes) (i : Nat) :
    (sl l (i + 1) 0 : R ε Bytes) = .panic := by
  simp [sl]

@[simp, gtp] theorem slFrom_zero (l : Bytes) : (slFrom l 0 : R ε Bytes) = .ok l := by
  simp [slFrom]

@[simp, gtp] theorem slFrom_succ (a : UInt8) (l : Bytes) (i : Nat) :
    (slFrom (a :: l) (i + 1) : R ε Bytes) = slFrom l i := by
  simp [slFrom]

theorem sl_ok {b : Bytes} {i j : Nat} (h1 : i ≤ j) (h2 : j ≤ b.length) :
    (sl b i j : R ε Bytes) = .ok ((b.take j).drop i) := by
  simp [sl, h1, h2]

theorem slFrom_ok {b : Bytes} {i : Nat} (h1 : i ≤ b.length) :
    (slFrom b i : R ε Bytes) = .ok (b.drop i) := by
  simp [slFrom, h1]

theorem add16_ok {m : Mode} {a b : UInt16} (h : a.toNat + b.toNat < 65536) :
    (add16 m a b : R ε UInt16) = .ok (a + b) := by
  cases m <;> simp [add16, h]

theorem add8_ok {m : Mode} {a b : UInt8} (h : a.toNat + b.toNat < 256) :
    (add8 m a b : R ε UInt8) = .ok (a + b) := by
  cases m <;> simp [add8, h]

theorem mul8_ok {m : Mode} {a b : UInt8} (h : a.toNat * b.toNat < 256) :
    (mul8 m a b : R ε UInt8) = .ok (a * b) := by
  cases m <;> simp [mul8, h]

end

/-- Walk `n` elements along a list built with `::`. -/
partial def Tac.consNth (l : Lean.Expr) : Nat → Option Lean.Expr
  | 0 => if l.isAppOfArity ``List.cons 3 then some l.appFn!.appArg! else none
  | n + 1 => if l.isAppOfArity ``List.cons 3 then Tac.consNth l.appArg! n else none

/-- Number of leading `::` and the rest of a list. -/
partial def Tac.consCount (l : Lean.Expr) (n : Nat := 0) : Nat × Lean.Expr :=
  if l.isAppOfArity ``List.cons 3 then Tac.consCount l.appArg! (n + 1) else (n, l)

open Lean Meta Simp in
/-- `rd (a₀ :: a₁ :: …) i` for a literal `i` evaluates to `.ok aᵢ`. -/
simproc_decl rdLit (rd _ _) := fun e => do
  let_expr rd ε l i := e | return .continue
  let some n ← Nat.fromExpr? i | return .continue
  let some a := Tac.consNth l n | return .continue
  return .visit (← Tac.reflStep e (mkApp3 (mkConst ``R.ok) ε (mkConst ``UInt8) a))

/-- Elements `n`, …, `n + k - 1` of a list built with `::`. -/
def Tac.consSlice (l : Lean.Expr) (n k : Nat) : Option (Array Lean.Expr) :=
  ((List.range k).mapM fun j => Tac.consNth l (n + j)).map List.toArray

open Lean Meta Simp in
/-- Evaluate a multi-octet read at a literal position of an explicit list. -/
def Tac.readLit (k : Nat) (ty fn : Name) (pad : Nat) (e : Expr) : SimpM Step := do
  unless e.isAppOfArity (e.getAppFn.constName?.getD .anonymous) 3 do return .continue
  let ε := e.appFn!.appFn!.appArg!
  let some n ← Nat.fromExpr? e.appArg! | return .continue
  let some as := Tac.consSlice e.appFn!.appArg! n k | return .continue
  let as := Array.replicate pad (toExpr (0 : UInt8)) ++ as
  return .visit (← Tac.reflStep e (mkApp3 (mkConst ``R.ok) ε (mkConst ty) (mkAppN (mkConst fn) as)))

simproc_decl rd16Lit (rd16 _ _) := Tac.readLit 2 ``UInt16 ``of16 0
simproc_decl rd24Lit (rd24 _ _) := Tac.readLit 3 ``UInt32 ``of32 1
simproc_decl rd32Lit (rd32 _ _) := Tac.readLit 4 ``UInt32 ``of32 0
simproc_decl rd40Lit (rd40 _ _) := Tac.readLit 5 ``UInt64 ``of64 3
simproc_decl rd48Lit (rd48 _ _) := Tac.readLit 6 ``UInt64 ``of64 2
simproc_decl rd64Lit (rd64 _ _) := Tac.readLit 8 ``UInt64 ``of64 0

open Lean Meta Simp in
/-- `(a₀ :: … :: aₖ :: l).length = l.length + (k + 1)`. -/
simproc_decl lenLit (List.length _) := fun e => do
  let_expr List.length α l := e | return .continue
  let (k, r) := Tac.consCount l
  if k == 0 then return .continue
  if r.isAppOfArity ``List.nil 1 then return .done (← Tac.reflStep e (toExpr k))
  return .visit (← Tac.reflStep e (mkNatAdd (mkApp2 (mkConst ``List.length [0]) α r) (toExpr k)))

attribute [gtp] be16 be32 be24 be64 be40 be48 rd16 rd24 rd32 rd40 rd48 rd64

end Gtp
