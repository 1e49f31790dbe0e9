import Verif.SimpAttr

/-!
# Outcomes, build mode, byte access, big-endian integers

Everything in the model is a total function.  A Rust function returning `Result<T, E>` becomes a
Lean function returning `R E T`, where a Rust panic is the explicit outcome `R.panic` and a loop
that does not finish within its fuel is `R.diverge`.
-/

namespace Gtp

/-- A buffer (`Vec<u8>` / `&[u8]`). -/
abbrev Bytes := List UInt8

/-- A Rust `String` as the list of its characters. -/
abbrev Str := List Char

/-- Compilation profile: `debug` has overflow checks (panic), `release` wraps. -/
inductive Mode where
  | debug
  | release
deriving DecidableEq, Repr

/-- Outcome of running a Rust function. -/
inductive R (ε : Type) (α : Type) where
  | ok (a : α)
  | err (e : ε)
  | panic
  | diverge
deriving DecidableEq, Repr

namespace R

variable {ε α β : Type}

/-- Sequencing; errors, panics and divergence propagate (`?`, early `return Err`, unwinding). -/
@[inline] def bind (x : R ε α) (f : α → R ε β) : R ε β :=
  match x with
  | .ok a => f a
  | .err e => .err e
  | .panic => .panic
  | .diverge => .diverge

instance : Monad (R ε) where
  pure := .ok
  bind := R.bind

@[simp, gtp] theorem ok_bind (a : α) (f : α → R ε β) : (R.ok a >>= f) = f a := rfl
@[simp, gtp] theorem err_bind (e : ε) (f : α → R ε β) : ((R.err e : R ε α) >>= f) = .err e := rfl
@[simp, gtp] theorem panic_bind (f : α → R ε β) : ((R.panic : R ε α) >>= f) = .panic := rfl
@[simp, gtp] theorem diverge_bind (f : α → R ε β) : ((R.diverge : R ε α) >>= f) = .diverge := rfl
@[simp, gtp] theorem pure_eq (a : α) : (pure a : R ε α) = .ok a := rfl

/-- Simplify only the first computation of a sequence (evaluation order). -/
@[congr] theorem bind_congr_left {x x' : R ε α} (h : x = x') (f : α → R ε β) :
    (x >>= f) = (x' >>= f) := by rw [h]

/-- The outcome is a value or an error. -/
def NoPanic (x : R ε α) : Prop := x ≠ .panic

/-- `match f(..) { Ok(i) => Ok(i), Err(_) => Err(e) }`. -/
def mapErr (x : R ε α) (e : ε) : R ε α :=
  match x with
  | .err _ => .err e
  | y => y

@[simp, gtp] theorem mapErr_ok (a : α) (e : ε) : mapErr (.ok a) e = .ok a := rfl
@[simp, gtp] theorem mapErr_err (e' e : ε) : mapErr (.err e' : R ε α) e = .err e := rfl
@[simp, gtp] theorem mapErr_panic (e : ε) : mapErr (.panic : R ε α) e = .panic := rfl

end R

section access
variable {ε : Type}

/-- `buffer[i]`: panics out of range. -/
def rd (b : Bytes) (i : Nat) : R ε UInt8 :=
  match b[i]? with
  | some x => .ok x
  | none => .panic

/-- `buffer[i..j]`: panics unless `i ≤ j ≤ len`. -/
def sl (b : Bytes) (i j : Nat) : R ε Bytes :=
  if i ≤ j ∧ j ≤ b.length then .ok ((b.take j).drop i) else .panic

/-- `buffer[i..]`: panics unless `i ≤ len`. -/
def slFrom (b : Bytes) (i : Nat) : R ε Bytes :=
  if i ≤ b.length then .ok (b.drop i) else .panic

end access

/-! ## Integers in network byte order -/

/-- High octet of a `u16`. -/
def hi16 (x : UInt16) : UInt8 := UInt8.ofNat (x.toNat / 256)
/-- Low octet of a `u16`. -/
def lo16 (x : UInt16) : UInt8 := UInt8.ofNat x.toNat

/-- `u16::to_be_bytes`. -/
def be16 (x : UInt16) : Bytes := [hi16 x, lo16 x]

/-- `u16::from_be_bytes`. -/
def of16 (a b : UInt8) : UInt16 := UInt16.ofNat (a.toNat * 256 + b.toNat)

/-- Octet `k` (0 = least significant) of a `u32`. -/
def oct32 (k : Nat) (x : UInt32) : UInt8 := UInt8.ofNat (x.toNat / 256 ^ k)
/-- `u32::to_be_bytes`. -/
def be32 (x : UInt32) : Bytes := [oct32 3 x, oct32 2 x, oct32 1 x, oct32 0 x]
/-- `u32::to_be_bytes()[1..]`. -/
def be24 (x : UInt32) : Bytes := [oct32 2 x, oct32 1 x, oct32 0 x]
/-- `u32::from_be_bytes`. -/
def of32 (a b c d : UInt8) : UInt32 :=
  UInt32.ofNat (((a.toNat * 256 + b.toNat) * 256 + c.toNat) * 256 + d.toNat)

/-- Octet `k` (0 = least significant) of a `u64`. -/
def oct64 (k : Nat) (x : UInt64) : UInt8 := UInt8.ofNat (x.toNat / 256 ^ k)
/-- `u64::to_be_bytes`. -/
def be64 (x : UInt64) : Bytes :=
  [oct64 7 x, oct64 6 x, oct64 5 x, oct64 4 x, oct64 3 x, oct64 2 x, oct64 1 x, oct64 0 x]
/-- `u64::to_be_bytes()[3..]`. -/
def be40 (x : UInt64) : Bytes := [oct64 4 x, oct64 3 x, oct64 2 x, oct64 1 x, oct64 0 x]
/-- `u64::to_be_bytes()[2..]`. -/
def be48 (x : UInt64) : Bytes :=
  [oct64 5 x, oct64 4 x, oct64 3 x, oct64 2 x, oct64 1 x, oct64 0 x]
/-- `u64::from_be_bytes`. -/
def of64 (a b c d e f g h : UInt8) : UInt64 :=
  UInt64.ofNat (((((((a.toNat * 256 + b.toNat) * 256 + c.toNat) * 256 + d.toNat) * 256
    + e.toNat) * 256 + f.toNat) * 256 + g.toNat) * 256 + h.toNat)

section rdint
variable {ε : Type}

/-- `u16::from_be_bytes([buffer[i], buffer[i+1]])`. -/
def rd16 (b : Bytes) (i : Nat) : R ε UInt16 := do
  let x ← rd b i
  let y ← rd b (i + 1)
  return of16 x y

/-- `u32::from_be_bytes([0, buffer[i], buffer[i+1], buffer[i+2]])`. -/
def rd24 (b : Bytes) (i : Nat) : R ε UInt32 := do
  let x ← rd b i
  let y ← rd b (i + 1)
  let z ← rd b (i + 2)
  return of32 0 x y z

/-- `u32::from_be_bytes([buffer[i], .., buffer[i+3]])`. -/
def rd32 (b : Bytes) (i : Nat) : R ε UInt32 := do
  let x ← rd b i
  let y ← rd b (i + 1)
  let z ← rd b (i + 2)
  let w ← rd b (i + 3)
  return of32 x y z w

/-- `u64::from_be_bytes([0, 0, 0, buffer[i], .., buffer[i+4]])`. -/
def rd40 (b : Bytes) (i : Nat) : R ε UInt64 := do
  let x ← rd b i
  let y ← rd b (i + 1)
  let z ← rd b (i + 2)
  let w ← rd b (i + 3)
  let v ← rd b (i + 4)
  return of64 0 0 0 x y z w v

/-- `u64::from_be_bytes([0, 0, buffer[i], .., buffer[i+5]])`. -/
def rd48 (b : Bytes) (i : Nat) : R ε UInt64 := do
  let x ← rd b i
  let y ← rd b (i + 1)
  let z ← rd b (i + 2)
  let w ← rd b (i + 3)
  let v ← rd b (i + 4)
  let u ← rd b (i + 5)
  return of64 0 0 x y z w v u

/-- `u64::from_be_bytes([buffer[i], .., buffer[i+7]])`. -/
def rd64 (b : Bytes) (i : Nat) : R ε UInt64 := do
  let x0 ← rd b i
  let x1 ← rd b (i + 1)
  let x2 ← rd b (i + 2)
  let x3 ← rd b (i + 3)
  let x4 ← rd b (i + 4)
  let x5 ← rd b (i + 5)
  let x6 ← rd b (i + 6)
  let x7 ← rd b (i + 7)
  return of64 x0 x1 x2 x3 x4 x5 x6 x7

end rdint

/-! ## Checked arithmetic -/

section arith
variable {ε : Type}

/-- `a + b` on `u16`. -/
def add16 (m : Mode) (a b : UInt16) : R ε UInt16 :=
  match m with
  | .debug => if a.toNat + b.toNat < 65536 then .ok (a + b) else .panic
  | .release => .ok (a + b)

/-- `a + b` on `u8`. -/
def add8 (m : Mode) (a b : UInt8) : R ε UInt8 :=
  match m with
  | .debug => if a.toNat + b.toNat < 256 then .ok (a + b) else .panic
  | .release => .ok (a + b)

/-- `a * b` on `u8`. -/
def mul8 (m : Mode) (a b : UInt8) : R ε UInt8 :=
  match m with
  | .debug => if a.toNat * b.toNat < 256 then .ok (a * b) else .panic
  | .release => .ok (a * b)

end arith

/-- `bool as u8`. -/
def b2u (b : Bool) : UInt8 := if b then 1 else 0

/-- `len as u8` for a `usize`. -/
def lenU8 (l : List α) : UInt8 := UInt8.ofNat l.length
/-- `len as u16` for a `usize`. -/
def lenU16 (l : List α) : UInt16 := UInt16.ofNat l.length

end Gtp
