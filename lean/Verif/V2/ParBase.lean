import Verif.V2.StableBase

/-!
# Two buffers that differ in one octet

Tools for `Verif/V2/Instance.lean`: reading from two buffers that agree everywhere but in the fourth octet.
-/

namespace Gtp.V2
set_option linter.unusedSimpArgs false

/-- Both outcomes are of the same form: the same error, or values related by `Q`. -/
def Par {α : Type} (Q : α → α → Prop) : R Err α → R Err α → Prop
  | .ok a, .ok a' => Q a a'
  | .err e, .err e' => e = e'
  | .panic, .panic => True
  | .diverge, .diverge => True
  | _, _ => False

/-- The same value, with a cursor behind the instance octet. -/
def Cur {α : Type} (p q : α × Nat) : Prop := p = q ∧ 4 ≤ p.2

/-- The buffers `b` and `b'` have the same octets but for the fourth, which is `i` and `j`. -/
structure Off (i j : UInt8) (b b' : Bytes) : Prop where
  len : b.length = b'.length
  get : ∀ k, k ≠ 3 → b[k]? = b'[k]?
  at3 : b[3]? = some i
  at3' : b'[3]? = some j

section
variable {α β : Type} {i j : UInt8} {b b' : Bytes} {Q : α → α → Prop} {S : β → β → Prop}

theorem Par.bind {x y : R Err α} {g g' : α → R Err β} (h : Par Q x y) (hg : ∀ a a', Q a a' → Par S (g a) (g' a')) :
    Par S (x >>= g) (y >>= g') := by
  cases x <;> cases y <;> first | exact h.elim | (subst (show _ = _ from h); rfl) | trivial | exact hg _ _ h

theorem Par.inv {x y : R Err α} (h : Par Q x y) :
    (∃ a a', x = .ok a ∧ y = .ok a' ∧ Q a a') ∨ (∃ e, x = .err e ∧ y = .err e) ∨ (x = .panic ∧ y = .panic) ∨ (x = .diverge ∧ y = .diverge) := by
  cases x <;> cases y <;> first
    | exact h.elim
    | exact .inl ⟨_, _, rfl, rfl, h⟩
    | exact .inr (.inl ⟨_, rfl, by rw [show _ = _ from h]⟩)
    | exact .inr (.inr (.inl ⟨rfl, rfl⟩))
    | exact .inr (.inr (.inr ⟨rfl, rfl⟩))

theorem Par.eq_of {x y : R Err α} (h : Par Eq x y) : x = y := by
  cases x <;> cases y <;> first | exact h.elim | (rw [show _ = _ from h]) | rfl

theorem Par.of_eq {x y : R Err α} (h : x = y) : Par Eq x y := by
  subst h
  cases x <;> first | rfl | trivial

theorem Par.bind_eq {x y : R Err α} {g g' : α → R Err β} (h : Par Eq x y) (hg : ∀ a, Par S (g a) (g' a)) :
    Par S (x >>= g) (y >>= g') := h.bind fun a _ e => e ▸ hg a

theorem Par.bind_cur {x y : R Err (α × Nat)} {g g' : α × Nat → R Err β} (h : Par Cur x y)
    (hg : ∀ a c, 4 ≤ c → Par S (g (a, c)) (g' (a, c))) : Par S (x >>= g) (y >>= g') :=
  h.bind fun a a' e => by
    obtain ⟨e1, e2⟩ := e
    subst e1
    exact hg a.1 a.2 e2

theorem Par.ite {c : Prop} [Decidable c] {x y x' y' : R Err α} (h1 : c → Par Q x x') (h2 : ¬ c → Par Q y y') :
    Par Q (if c then x else y) (if c then x' else y') := by
  split
  · exact h1 ‹_›
  · exact h2 ‹_›

theorem Par.err (e : Err) : Par Q (.err e) (.err e) := rfl
theorem Par.panic : Par Q .panic .panic := trivial
theorem Par.ok {a a' : α} (h : Q a a') : Par Q (.ok a) (.ok a') := h
theorem Par.pure {a a' : α} (h : Q a a') : Par Q (Pure.pure a) (Pure.pure a') := h
theorem Par.cur {a : α} {c : Nat} (h : 4 ≤ c) : Par Cur (.ok (a, c)) (.ok (a, c)) := ⟨rfl, h⟩
theorem Par.cur' {a : α} {c : Nat} (h : 4 ≤ c) : Par Cur (Pure.pure (a, c)) (Pure.pure (a, c)) := ⟨rfl, h⟩

theorem rd_def (b : Bytes) (k : Nat) : (rd b k : R Err UInt8) = match b[k]? with | some x => .ok x | none => .panic := by
  unfold rd
  rfl

theorem Par.rd (h : Off i j b b') {k : Nat} (hk : k ≠ 3) : Par Eq (rd b k) (rd b' k) := by
  apply Par.of_eq
  rw [rd_def, rd_def, h.get k hk]

/-- Reading the fourth octet. -/
theorem Par.bind_rd3 (h : Off i j b b') {g g' : UInt8 → R Err α} (hg : Par Q (g i) (g' j)) :
    Par Q (Gtp.rd b 3 >>= g) (Gtp.rd b' 3 >>= g') := by
  rw [rd_def, rd_def, h.at3, h.at3']
  exact hg

theorem Off.drop (h : Off i j b b') {k : Nat} (hk : 4 ≤ k) : b.drop k = b'.drop k := by
  apply List.ext_getElem?
  intro n
  rw [List.getElem?_drop, List.getElem?_drop, h.get _ (by omega)]

theorem Par.slFrom (h : Off i j b b') {k : Nat} (hk : 4 ≤ k) : Par Eq (slFrom b k) (slFrom b' k) := by
  apply Par.of_eq
  unfold Gtp.slFrom
  rw [h.len, h.drop hk]

theorem Par.sl (h : Off i j b b') {k n : Nat} (hk : 4 ≤ k) : Par Eq (sl b k n) (sl b' k n) := by
  apply Par.of_eq
  unfold Gtp.sl
  simp only [h.len, h.drop hk, List.drop_take]

theorem Par.checkTliv (h : Off i j b b') (m : Mode) (l : UInt16) : Par Eq (checkTliv m l b) (checkTliv m l b') := by
  apply Par.of_eq
  unfold Gtp.checkTliv
  rw [h.len]

end

/-- A step through two computations that read from two such buffers. -/
syntax "par_leaf" : tactic
syntax "par_steps" : tactic
syntax "par_step" : tactic

macro_rules | `(tactic| par_leaf) => `(tactic| first
  | with_reducible exact Par.err _
  | with_reducible exact Par.panic
  | ((with_reducible refine Par.cur ?_) <;> omega)
  | ((with_reducible refine Par.cur' ?_) <;> omega)
  | (with_reducible exact Par.of_eq rfl)
  | ((with_reducible refine Par.rd (by assumption) ?_); omega)
  | ((with_reducible refine Par.sl (by assumption) ?_); omega)
  | ((with_reducible refine Par.slFrom (by assumption) ?_); omega)
  | (with_reducible exact Par.checkTliv (by assumption) _ _))

macro_rules | `(tactic| par_step) => `(tactic| first
  | (with_reducible refine Par.ite (fun _ => ?_) (fun _ => ?_))
  | (with_reducible refine Par.bind_rd3 (by assumption) ?_)
  | ((with_reducible refine Par.bind_eq ?_ (fun _ => ?_)); focus (par_leaf; done))
  | ((with_reducible refine Par.bind_cur ?_ (fun _ _ _ => ?_)); focus (par_leaf; done); try dsimp only)
  | par_leaf
  | exact Par.ok rfl
  | exact Par.pure rfl
  | ((with_reducible refine Par.bind_cur ?_ (fun _ _ _ => ?_)); focus (par_steps; done); try dsimp only)
  | ((with_reducible refine Par.bind_eq ?_ (fun _ => ?_)); focus (par_steps; done); try dsimp only))

macro_rules | `(tactic| par_steps) => `(tactic| (repeat' par_step) <;> done)

/-- The whole of a decoder whose body reads from two such buffers; the lengths are those of one of them. -/
macro "par_all" "[" ls:Lean.Parser.Tactic.simpLemma,* "]" : tactic =>
  `(tactic| (simp only [$ls,*, Off.len (by assumption)]; par_steps))

section
variable {α : Type} {i j : UInt8} {b b' : Bytes}

theorem Par.rd16 (h : Off i j b b') {k : Nat} (hk : k + 1 < 3 ∨ 4 ≤ k) : Par Eq (rd16 b k) (rd16 b' k) := by
  unfold Gtp.rd16
  par_steps

theorem Par.rd24 (h : Off i j b b') {k : Nat} (hk : 4 ≤ k) : Par Eq (rd24 b k) (rd24 b' k) := by
  unfold Gtp.rd24
  par_steps

theorem Par.rd32 (h : Off i j b b') {k : Nat} (hk : 4 ≤ k) : Par Eq (rd32 b k) (rd32 b' k) := by
  unfold Gtp.rd32
  par_steps

theorem Par.rd40 (h : Off i j b b') {k : Nat} (hk : 4 ≤ k) : Par Eq (rd40 b k) (rd40 b' k) := by
  unfold Gtp.rd40
  par_steps

theorem Par.rd48 (h : Off i j b b') {k : Nat} (hk : 4 ≤ k) : Par Eq (rd48 b k) (rd48 b' k) := by
  unfold Gtp.rd48
  par_steps

theorem Par.rd64 (h : Off i j b b') {k : Nat} (hk : 4 ≤ k) : Par Eq (rd64 b k) (rd64 b' k) := by
  unfold Gtp.rd64
  par_steps

end

macro_rules | `(tactic| par_leaf) => `(tactic| first
  | ((with_reducible refine Par.rd16 (by assumption) ?_); omega)
  | ((with_reducible refine Par.rd24 (by assumption) ?_); omega)
  | ((with_reducible refine Par.rd32 (by assumption) ?_); omega)
  | ((with_reducible refine Par.rd40 (by assumption) ?_); omega)
  | ((with_reducible refine Par.rd48 (by assumption) ?_); omega)
  | ((with_reducible refine Par.rd64 (by assumption) ?_); omega))

section
variable {α : Type} {i j : UInt8} {b b' : Bytes}

theorem Par.rdIp6 (h : Off i j b b') {k : Nat} (hk : 4 ≤ k) : Par Eq (rdIp6 b k) (rdIp6 b' k) := by
  unfold V2.rdIp6
  par_steps

theorem Par.slBody16 (h : Off i j b b') (m : Mode) (l : UInt16) : Par Eq (slBody16 m b l) (slBody16 m b' l) := by
  unfold V2.slBody16
  par_steps

theorem Par.rdLv (h : Off i j b b') {s : Nat} {e : Err} {c : Nat} (hc : 4 ≤ c) : Par Cur (rdLv s e b c) (rdLv s e b' c) := by
  par_all [V2.rdLv]

theorem Par.rdIf {st st' : Nat → R Err (α × Nat)} {f : Bool} {c : Nat} (hc : 4 ≤ c) (hs : Par Cur (st c) (st' c)) :
    Par Cur (rdIf f st c) (rdIf f st' c) := by
  unfold V2.rdIf
  refine Par.ite (fun _ => hs.bind_cur fun _ _ _ => ?_) fun _ => ?_ <;> par_leaf

theorem Par.rd8s (h : Off i j b b') {c : Nat} (hc : 4 ≤ c) : Par Cur (rd8s b c) (rd8s b' c) := by
  unfold V2.rd8s
  par_steps

theorem Par.rdN (h : Off i j b b') {k c : Nat} (hc : 4 ≤ c) : Par Cur (rdN k b c) (rdN k b' c) := by
  unfold V2.rdN
  par_steps

theorem Par.rdLvU (h : Off i j b b') {c : Nat} (hc : 4 ≤ c) : Par Cur (rdLvU b c) (rdLvU b' c) := by
  unfold V2.rdLvU
  par_steps

theorem Par.rdLvC (h : Off i j b b') {e : Err} {c : Nat} (hc : 4 ≤ c) : Par Cur (rdLvC e b c) (rdLvC e b' c) := by
  par_all [V2.rdLvC]

end

macro_rules | `(tactic| par_leaf) => `(tactic| first
  | ((with_reducible refine Par.rdIp6 (by assumption) ?_); omega)
  | (with_reducible exact Par.slBody16 (by assumption) _ _)
  | ((with_reducible refine Par.rdLv (by assumption) ?_); omega)
  | ((with_reducible refine Par.rd8s (by assumption) ?_); omega)
  | ((with_reducible refine Par.rdN (by assumption) ?_); omega)
  | ((with_reducible refine Par.rdLvU (by assumption) ?_); omega)
  | ((with_reducible refine Par.rdLvC (by assumption) ?_); omega)
  | ((with_reducible refine Par.rdIf ?_ ?_) <;> first | omega | par_leaf))

end Gtp.V2
