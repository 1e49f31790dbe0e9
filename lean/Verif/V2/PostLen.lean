import Verif.V2.IEThm

/-! # The length field of a decoded IE is the one found in the buffer -/

namespace Gtp.V2

theorem rd_getD {ε : Type} {b : Bytes} {i : Nat} (h : i < b.length) : (rd b i : R ε UInt8) = .ok (b.getD i 0) := by
  simp [rd_lt h, List.getD, h]

section
variable {α β : Type} {P : α → Prop}

theorem Post_bind_any {x : R Err β} {f : β → R Err α} (h : ∀ a, (f a).Post P) : (x >>= f).Post P := by
  cases x with
  | ok a => exact h a
  | _ => trivial

theorem Post_bind_len {b : Bytes} {f : UInt16 → R Err α} (h : (f (declLen b)).Post P) : (rd16 b 1 >>= f).Post P := by
  rw [Post_bind]
  refine Post.intro fun a ha => ?_
  have e : (rd16 b 1 : R Err UInt16).Post fun l => l = declLen b := by
    simp only [rd16, Post_bind, Post_rd, Post_pure]
    intro _ _
    rfl
  rw [Post.elim e ha]
  exact h

theorem Post_ite_any {c : Prop} [Decidable c] {x y : R Err α} (hx : x.Post P) (hy : y.Post P) :
    (if c then x else y).Post P := by
  split
  · exact hx
  · exact hy

theorem Post_err' {e : Err} : (R.err e : R Err α).Post P := trivial
theorem Post_panic' : (R.panic : R Err α).Post P := trivial
theorem Post_diverge' : (R.diverge : R Err α).Post P := trivial
theorem Post_mapErr_any {x : R Err α} {e : Err} (h : x.Post P) : (x.mapErr e).Post P := by
  rw [Post_mapErr]; exact h

end

/-- Follow a decoder to its results. -/
macro "post_len" : tactic => `(tactic| repeat' first
  | exact Post_err'
  | exact Post_panic'
  | (with_reducible refine Post_bind_len ?_)
  | (with_reducible refine Post_bind_any fun _ => ?_)
  | (with_reducible refine Post_ite_any ?_ ?_)
  | exact (rfl : declLen _ = declLen _)
  | (show R.Post (R.ok _) _; exact (rfl : declLen _ = declLen _))
  | split)

end Gtp.V2
