import Verif.BasicLemmas
import Verif.UtilsLemmas

/-!
# A buffer and the same buffer with more octets behind it

Tools for `Verif/V2/Append.lean` and `Verif/C1/Append.lean`: reading from a buffer `b` and from `b ++ r`.
-/

namespace Gtp
set_option linter.unusedSimpArgs false

/-- What the first computation yields, the second yields too. -/
def Ext {ε α : Type} (x y : R ε α) : Prop := ∀ a, x = .ok a → y = .ok a

section
variable {ε α β : Type} {b r : Bytes}

theorem Ext.refl (x : R ε α) : Ext x x := fun _ h => h
theorem Ext.err {e : ε} {y : R ε α} : Ext (.err e) y := fun _ h => by cases h
theorem Ext.panic {y : R ε α} : Ext .panic y := fun _ h => by cases h
theorem Ext.diverge {y : R ε α} : Ext .diverge y := fun _ h => by cases h

theorem Ext.bind {x y : R ε α} {g g' : α → R ε β} (h : Ext x y) (hg : ∀ a, Ext (g a) (g' a)) : Ext (x >>= g) (y >>= g') := by
  intro a ha
  cases x with
  | ok v =>
    rw [h v rfl]
    exact hg v a ha
  | _ => cases ha

theorem Ext.bind_pair {γ : Type} {x y : R ε (α × γ)} {g g' : α × γ → R ε β} (h : Ext x y) (hg : ∀ a c, Ext (g (a, c)) (g' (a, c))) :
    Ext (x >>= g) (y >>= g') := h.bind fun a => hg a.1 a.2

theorem Ext.mapErr {x y : R ε α} {e : ε} (h : Ext x y) : Ext (x.mapErr e) (y.mapErr e) := by
  intro a ha
  cases x with
  | ok v => rw [h v rfl]; exact ha
  | _ => cases ha

theorem Ext.ite {c : Prop} [Decidable c] {x y x' y' : R ε α} (h1 : c → Ext x x') (h2 : ¬ c → Ext y y') :
    Ext (if c then x else y) (if c then x' else y') := by
  split
  · exact h1 ‹_›
  · exact h2 ‹_›

/-- A check that `b ++ r` passes if `b` does. -/
theorem Ext.iteT {c c' : Prop} [Decidable c] [Decidable c'] {x x' y' : R ε α} {e : ε} (hc : c → c') (h : c → Ext x x') :
    Ext (if c then x else .err e) (if c' then x' else y') := by
  split
  · rename_i h1
    rw [if_pos (hc h1)]
    exact h h1
  · exact Ext.err

theorem Ext.iteF {c c' : Prop} [Decidable c] [Decidable c'] {x x' y' : R ε α} {e : ε} (hc : c' → c) (h : ¬ c → Ext x x') :
    Ext (if c then .err e else x) (if c' then y' else x') := by
  split
  · exact Ext.err
  · rename_i h1
    rw [if_neg fun h2 => h1 (hc h2)]
    exact h h1

/-- The same, with another way to fail. -/
theorem Ext.iteT' {c c' : Prop} [Decidable c] [Decidable c'] {x x' y y' : R ε α} (hc : c → c') (h : c → Ext x x') (hy : ∀ a, y ≠ .ok a) :
    Ext (if c then x else y) (if c' then x' else y') := by
  split
  · rename_i h1
    rw [if_pos (hc h1)]
    exact h h1
  · exact fun a ha => absurd ha (hy a)

theorem bind_err_ne {x : R ε α} {f : α → ε} {a : β} : (x >>= fun v => (.err (f v) : R ε β)) ≠ .ok a := by
  cases x <;> exact fun h => by cases h

theorem Ext.rd {k : Nat} : Ext (rd b k : R ε _) (rd (b ++ r) k) := by
  intro a h
  unfold Gtp.rd at h ⊢
  cases hb : b[k]? with
  | some v =>
    rw [hb] at h
    rw [List.getElem?_append_left (List.getElem?_eq_some_iff.mp hb).1, hb]
    exact h
  | none => rw [hb] at h; cases h

theorem Ext.sl {i j : Nat} : Ext (sl b i j : R ε _) (sl (b ++ r) i j) := by
  intro a h
  unfold Gtp.sl at h ⊢
  split at h
  · rename_i h1
    rw [if_pos ⟨h1.1, by rw [List.length_append]; omega⟩, List.take_append_of_le_length h1.2]
    exact h
  · cases h

/-- `buffer[c..]`, handed on. -/
theorem Ext.slFrom {c : Nat} {g g' : Bytes → R ε α} (hg : ∀ s, Ext (g s) (g' (s ++ r))) :
    Ext (slFrom b c >>= g) (slFrom (b ++ r) c >>= g') := by
  unfold Gtp.slFrom
  by_cases h : c ≤ b.length
  · rw [if_pos h, if_pos (by rw [List.length_append]; omega), List.drop_append_of_le_length h]
    exact hg _
  · rw [if_neg h]
    exact Ext.panic

theorem Ext.checkTliv {m : Mode} {l : UInt16} {g g' : Bool → R ε α} (ht : Ext (g true) (g' true)) {e : ε} (hf : g false = .err e) :
    Ext (checkTliv m l b >>= g) (checkTliv m l (b ++ r) >>= g') := by
  unfold Gtp.checkTliv
  by_cases h : l = 0
  · rw [if_pos h, R.ok_bind, hf]
    exact Ext.err
  · rw [if_neg h, if_neg h]
    cases add16 m l 4 with
    | ok n =>
      simp only [R.ok_bind, R.pure_eq]
      by_cases h1 : n.toNat ≤ b.length
      · rw [decide_eq_true h1, decide_eq_true (by rw [List.length_append]; omega)]
        exact ht
      · rw [decide_eq_false h1, hf]
        exact Ext.err
    | _ => exact fun _ h => by cases h

end

/-- A step through two computations that read from such buffers. -/
syntax "ext_leaf" : tactic
syntax "ext_steps" : tactic
syntax "ext_step" : tactic
syntax "ext_cond" : tactic

macro_rules | `(tactic| ext_cond) => `(tactic| first
  | (intro h; simp only [List.length_append] at h ⊢; omega)
  | (intro h; simp only [List.length_append] at h ⊢; exact ⟨h.1, by omega⟩))

macro_rules | `(tactic| ext_leaf) => `(tactic| first
  | with_reducible exact Ext.err
  | with_reducible exact Ext.panic
  | with_reducible exact Ext.refl _
  | with_reducible exact Ext.rd
  | with_reducible exact Ext.sl)

macro_rules | `(tactic| ext_step) => `(tactic| first
  | ext_leaf
  | (with_reducible refine Ext.mapErr ?_)
  | (with_reducible refine Ext.ite (fun _ => ?_) (fun _ => ?_))
  | ((with_reducible refine Ext.iteT ?_ (fun _ => ?_)); focus (ext_cond; done))
  | ((with_reducible refine Ext.iteF ?_ (fun _ => ?_)); focus (ext_cond; done))
  | ((with_reducible refine Ext.iteT' ?_ (fun _ => ?_) (fun _ => bind_err_ne)); focus (ext_cond; done))
  | (refine Ext.checkTliv ?_ rfl; simp only [if_true])
  | (with_reducible refine Ext.slFrom (fun _ => ?_))
  | ((with_reducible refine Ext.bind ?_ (fun _ => ?_)); focus (ext_leaf; done))
  | ((with_reducible refine Ext.bind_pair ?_ (fun _ _ => ?_)); focus (ext_leaf; done); try dsimp only)
  | ((with_reducible refine Ext.bind_pair ?_ (fun _ _ => ?_)); focus (ext_steps; done); try dsimp only)
  | ((with_reducible refine Ext.bind ?_ (fun _ => ?_)); focus (ext_steps; done); try dsimp only))

macro_rules | `(tactic| ext_steps) => `(tactic| (repeat' ext_step) <;> done)

/-- The whole of a decoder. -/
macro "ext_all" "[" ls:Lean.Parser.Tactic.simpLemma,* "]" : tactic =>
  `(tactic| (simp only [$ls,*, R.err_bind]; ext_steps))

section
variable {ε α : Type} {b r : Bytes}

theorem Ext.rd16 {k : Nat} : Ext (rd16 b k : R ε _) (rd16 (b ++ r) k) := by unfold Gtp.rd16; ext_steps
theorem Ext.rd24 {k : Nat} : Ext (rd24 b k : R ε _) (rd24 (b ++ r) k) := by unfold Gtp.rd24; ext_steps
theorem Ext.rd32 {k : Nat} : Ext (rd32 b k : R ε _) (rd32 (b ++ r) k) := by unfold Gtp.rd32; ext_steps
theorem Ext.rd40 {k : Nat} : Ext (rd40 b k : R ε _) (rd40 (b ++ r) k) := by unfold Gtp.rd40; ext_steps
theorem Ext.rd48 {k : Nat} : Ext (rd48 b k : R ε _) (rd48 (b ++ r) k) := by unfold Gtp.rd48; ext_steps
theorem Ext.rd64 {k : Nat} : Ext (rd64 b k : R ε _) (rd64 (b ++ r) k) := by unfold Gtp.rd64; ext_steps

end

macro_rules | `(tactic| ext_leaf) => `(tactic| first
  | with_reducible exact Ext.rd16
  | with_reducible exact Ext.rd24
  | with_reducible exact Ext.rd32
  | with_reducible exact Ext.rd40
  | with_reducible exact Ext.rd48
  | with_reducible exact Ext.rd64)

end Gtp
