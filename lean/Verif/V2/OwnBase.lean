import Verif.Ext
import Verif.V2.IeBase

/-!
# Reading from the first octets of a buffer

Tools for `Verif/V2/Own.lean` and `Verif/C1/Own.lean`: reading from a buffer `b` and from `b.take n`.
-/

namespace Gtp.V2
set_option linter.unusedSimpArgs false
set_option linter.unusedVariables false

section
variable {ε α β : Type} {b : Bytes} {n : Nat}

/-! ### Computations without a result -/

theorem ext_never_ite {c : Prop} [Decidable c] {x y z : R ε α} (h1 : c → Ext x z) (h2 : ¬ c → Ext y z) :
    Ext (if c then x else y) z := by
  split
  · exact h1 ‹_›
  · exact h2 ‹_›

theorem ext_never_bind {x : R ε α} {g : α → R ε β} {z : R ε β} (h : ∀ a, Ext (g a) z) : Ext (x >>= g) z := by
  intro a ha
  cases x with
  | ok v => exact h v a ha
  | _ => cases ha

theorem rd16_1 : (rd16 b 1 : R ε UInt16) = .ok (declLen b) ∨ (rd16 b 1 : R ε UInt16) = .panic := by
  unfold Gtp.rd16 rd declLen
  cases h1 : b[1]? with
  | none => exact .inr rfl
  | some x =>
    cases h2 : b[2]? with
    | none => exact .inr (by simp [h2])
    | some y => exact .inl (by simp [List.getD, h1, h2])

theorem ext_never_rd16 {g : UInt16 → R ε α} {z : R ε α} (h : Ext (g (declLen b)) z) : Ext (rd16 b 1 >>= g) z := by
  rcases @rd16_1 ε b with e | e <;> rw [e]
  · exact h
  · exact Ext.panic

theorem ext_never_check {m : Mode} {l : UInt16} {g : Bool → R ε α} {z : R ε α} (hl : l = 0) (h : Ext (g false) z) :
    Ext (checkTliv m l b >>= g) z := by
  unfold Gtp.checkTliv
  rw [if_pos hl]
  exact h

/-! ### Reading within the first `n` octets -/

theorem take_getElem? {k : Nat} (hk : k < n) : (b.take n)[k]? = b[k]? := by
  rw [List.getElem?_take, if_pos hk]

theorem ext_rdT {k : Nat} (hk : k < n) : Ext (rd b k : R ε _) (rd (b.take n) k) := by
  unfold Gtp.rd
  rw [take_getElem? hk]
  exact Ext.refl _

theorem ext_slT {i j : Nat} (hj : j ≤ n) : Ext (sl b i j : R ε _) (sl (b.take n) i j) := by
  intro a h
  unfold Gtp.sl at h ⊢
  split at h
  · rename_i h1
    rw [if_pos ⟨h1.1, by rw [List.length_take]; omega⟩, List.take_take, Nat.min_eq_left hj]
    exact h
  · cases h

theorem ext_rd16T (hn : 3 ≤ n) {g g' : UInt16 → R ε α} (h : Ext (g (declLen b)) (g' (declLen b))) :
    Ext (rd16 b 1 >>= g) (rd16 (b.take n) 1 >>= g') := by
  have e : (rd16 (b.take n) 1 : R ε UInt16) = rd16 b 1 := by
    unfold Gtp.rd16 Gtp.rd
    rw [take_getElem? (by omega), take_getElem? (by omega)]
  rw [e]
  rcases @rd16_1 ε b with e | e <;> rw [e]
  · exact h
  · exact Ext.panic

theorem ext_rd16T' {k : Nat} (hk : k + 1 < n) : Ext (rd16 b k : R ε _) (rd16 (b.take n) k) := by
  unfold Gtp.rd16
  exact (ext_rdT (by omega)).bind fun _ => (ext_rdT hk).bind fun _ => Ext.refl _

theorem ext_rd32T {k : Nat} (hk : k + 3 < n) : Ext (rd32 b k : R ε _) (rd32 (b.take n) k) := by
  unfold Gtp.rd32
  exact (ext_rdT (by omega)).bind fun _ => (ext_rdT (by omega)).bind fun _ => (ext_rdT (by omega)).bind fun _ =>
    (ext_rdT hk).bind fun _ => Ext.refl _

theorem ext_rd64T {k : Nat} (hk : k + 7 < n) : Ext (rd64 b k : R ε _) (rd64 (b.take n) k) := by
  unfold Gtp.rd64
  iterate 8 refine (ext_rdT (by omega)).bind fun _ => ?_
  exact Ext.refl _

theorem ext_rdIp6T {k : Nat} (hk : k + 15 < n) : Ext (rdIp6 b k : R ε _) (rdIp6 (b.take n) k) := by
  unfold V2.rdIp6
  exact (ext_rd64T (by omega)).bind fun _ => (ext_rd64T (by omega)).bind fun _ => Ext.refl _

theorem add16_le {m : Mode} {l v k : UInt16} (h : (add16 m l k : R ε UInt16) = .ok v) : v.toNat ≤ l.toNat + k.toNat := by
  have key : (l + k).toNat ≤ l.toNat + k.toNat := by
    rw [UInt16.toNat_add]
    exact Nat.mod_le _ _
  cases m with
  | debug =>
    simp only [add16] at h
    split at h
    · injection h with h
      rw [← h]
      exact key
    · cases h
  | release =>
    simp only [add16] at h
    injection h with h
    rw [← h]
    exact key

theorem ext_add16T {m : Mode} {l k : UInt16} {g g' : UInt16 → R ε α} (h : ∀ v, v.toNat ≤ l.toNat + k.toNat → Ext (g v) (g' v)) :
    Ext (add16 m l k >>= g) (add16 m l k >>= g') := by
  cases hv : (add16 m l k : R ε UInt16) with
  | ok v => exact h v (add16_le hv)
  | _ => exact fun _ h => by cases h

theorem ext_add4T {m : Mode} {l : UInt16} {g g' : UInt16 → R ε α} (h : ∀ v, v.toNat ≤ l.toNat + 4 → Ext (g v) (g' v)) :
    Ext (add16 m l 4 >>= g) (add16 m l 4 >>= g') := ext_add16T h

theorem ext_add3T {m : Mode} {l : UInt16} {g g' : UInt16 → R ε α} (h : ∀ v, v.toNat ≤ l.toNat + 3 → Ext (g v) (g' v)) :
    Ext (add16 m l 3 >>= g) (add16 m l 3 >>= g') := ext_add16T h

theorem ext_never_sl {i j : Nat} (h : j < i) {g : Bytes → R ε α} {y : R ε α} : Ext (sl b i j >>= g) y := by
  unfold Gtp.sl
  rw [if_neg (by omega)]
  exact fun _ h => by cases h

theorem ext_checkT {m : Mode} {l : UInt16} {g g' : Bool → R ε α} (hl : l.toNat + 4 ≤ n) (ht : Ext (g true) (g' true)) {e : ε}
    (hf : g false = .err e) : Ext (checkTliv m l b >>= g) (checkTliv m l (b.take n) >>= g') := by
  unfold Gtp.checkTliv
  by_cases h : l = 0
  · rw [if_pos h, R.ok_bind, hf]
    exact Ext.err
  · rw [if_neg h, if_neg h]
    cases hv : (add16 m l 4 : R ε UInt16) with
    | ok v =>
      have : v.toNat ≤ l.toNat + 4 := add16_le hv
      simp only [R.ok_bind, R.pure_eq]
      by_cases h1 : v.toNat ≤ b.length
      · rw [decide_eq_true h1, decide_eq_true (by rw [List.length_take]; omega)]
        exact ht
      · rw [decide_eq_false h1, hf]
        exact Ext.err
    | _ => exact fun _ h => by cases h

end

/-- A step through a computation that yields nothing. -/
macro "never_step" : tactic => `(tactic| first
  | with_reducible exact Ext.err
  | contradiction
  | (with_reducible refine ext_never_ite (fun _ => ?_) (fun _ => ?_))
  | (with_reducible refine ext_never_rd16 ?_)
  | (refine ext_never_check (by assumption) ?_)
  | (with_reducible refine ext_never_bind (fun _ => ?_)))

macro "own_cond" : tactic => `(tactic| (intro h; simp only [List.length_take] at h ⊢; omega))

syntax "own_leaf" : tactic
macro_rules | `(tactic| own_leaf) => `(tactic| first
  | with_reducible exact Ext.err
  | with_reducible exact Ext.refl _
  | ((with_reducible refine ext_rdT ?_); omega)
  | ((with_reducible refine ext_slT ?_); omega)
  | ((with_reducible refine ext_rd16T' ?_); omega)
  | ((with_reducible refine ext_rd32T ?_); omega)
  | ((with_reducible refine ext_rd64T ?_); omega)
  | ((with_reducible refine ext_rdIp6T ?_); omega))

/-- A step through a decoder that reads only what belongs to the IE. -/
macro "own_step" : tactic => `(tactic| first
  | own_leaf
  | (with_reducible refine Ext.ite (fun _ => ?_) (fun _ => ?_))
  | ((with_reducible refine Ext.iteT ?_ (fun _ => ?_)); focus (own_cond; done))
  | ((with_reducible refine Ext.iteT' ?_ (fun _ => ?_) (fun _ => bind_err_ne)); focus (own_cond; done))
  | ((refine ext_checkT (by omega) ?_ rfl); simp only [if_true])
  | (with_reducible refine ext_rd16T (by omega) ?_)
  | (with_reducible refine ext_add4T fun _ _ => ?_)
  | (with_reducible refine ext_add3T fun _ _ => ?_)
  | ((with_reducible refine Ext.bind ?_ (fun _ => ?_)); focus (own_leaf; done)))

theorem toNat_pos_of_ne {l : UInt16} (h : ¬ l = 0) : 1 ≤ l.toNat := by
  rcases Nat.eq_zero_or_pos l.toNat with h1 | h1
  · exact absurd (UInt16.toNat_inj.mp h1) h
  · exact h1

end Gtp.V2
