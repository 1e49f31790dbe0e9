import Verif.V2.StableBase
import Verif.C1.Kind

/-!
# Tools for `Verif/C1/Stable.lean`

What the reading functions guarantee about the values they produce, as in Verif/V2/StableBase.lean but for the errors of GTPv1.
-/

namespace Gtp.C1
open Gtp.V1
open Gtp.V2 (declLen)
set_option linter.unusedSimpArgs false
section
variable {α β : Type} {P : α → Prop}

theorem Post_any {x : R Err β} {f : β → R Err α} (h : ∀ a, (f a).Post P) : (x >>= f).Post P := by
  cases x <;> first | exact h _ | trivial

theorem Post_if {c : Prop} [Decidable c] {x y : R Err α} (hx : c → x.Post P) (hy : ¬ c → y.Post P) :
    (if c then x else y).Post P := by
  split
  · exact hx ‹_›
  · exact hy ‹_›

theorem Post_e {e : Err} : (R.err e : R Err α).Post P := trivial
theorem Post_p {a : α} (h : P a) : (pure a : R Err α).Post P := h
theorem Post_k {a : α} (h : P a) : (R.ok a : R Err α).Post P := h

theorem Post_sl {b : Bytes} {i j : Nat} {f : Bytes → R Err α} (h : ∀ s : Bytes, s.length = j - i → (f s).Post P) :
    (sl b i j >>= f).Post P := by
  rw [Gtp.Post_bind, Gtp.Post_sl]
  intro h1 h2
  exact h _ (by simp; omega)

theorem Post_slFrom {b : Bytes} {i : Nat} {f : Bytes → R Err α} (h : ∀ s : Bytes, s.length = b.length - i → (f s).Post P) :
    (slFrom b i >>= f).Post P := by
  rw [Gtp.Post_bind, Gtp.Post_slFrom]
  intro h1
  exact h _ (by simp)

theorem Post_mcc {s : Bytes} {f : UInt16 × UInt16 × Bool → R Err α}
    (h : ∀ (a b : UInt16) (c : Bool), a.toNat < 1000 → b.toNat < 1000 → (c = false → b.toNat < 100) → (f (a, b, c)).Post P) :
    (mccMncDecode s >>= f).Post P := by
  unfold mccMncDecode
  simp only [Gtp.Post_bind, Gtp.Post_rd, Gtp.Post_pure]
  intro _ _ _
  obtain ⟨h1, h2, h3⟩ := V2.decode3_ok (s.getD 0 0) (s.getD 1 0) (s.getD 2 0)
  exact h _ _ _ h1 h2 h3

theorem Post_opt {o : Option β} {e : Err} {f : β → R Err α} (h : ∀ a, o = some a → (f a).Post P) : (R.ofOption o e >>= f).Post P := by
  cases o with
  | none => trivial
  | some a => exact h a rfl

theorem Post_rd24 {b : Bytes} {i : Nat} {f : UInt32 → R Err α} (h : ∀ v : UInt32, v.toNat < 16777216 → (f v).Post P) :
    (rd24 b i >>= f).Post P := by
  unfold rd24
  simp only [Gtp.Post_bind, Gtp.Post_rd, Gtp.Post_pure]
  intro _ _ _
  exact h _ (V2.of32_lt _ _ _)

theorem Post_tlv {m : Mode} {b : Bytes} {f : UInt16 → R Err α} (h : ∀ l : UInt16, 0 < l.toNat → (f l).Post P) : (withTlv m b f).Post P := by
  rw [withTlv_eq]
  refine Post_if (fun _ => trivial) fun _ => Post_if (fun h1 => Post_if (fun _ => trivial) fun _ => h _ (by omega)) fun _ => ?_
  exact Post_if (fun h1 => h _ h1.1) fun _ => trivial

theorem Post_body3 {m : Mode} {b : Bytes} {l : UInt16} {f : Bytes → R Err α} (h : ∀ s : Bytes, s.length = l.toNat → (f s).Post P) :
    (slBody3 m b l >>= f).Post P := by
  by_cases hl : l.toNat < 65533
  · rw [slBody3_ok hl]
    exact Post_sl fun s hs => h s (by omega)
  · rw [slBody3_panic (by omega)]
    trivial

end

macro "c1_steps" : tactic => `(tactic| repeat' first
  | exact Post_e
  | (with_reducible refine Post_tlv fun _ _ => ?_)
  | (with_reducible refine Post_body3 fun _ _ => ?_)
  | (with_reducible refine Post_sl fun _ _ => ?_)
  | (with_reducible refine Post_slFrom fun _ _ => ?_)
  | (with_reducible refine Post_rd24 fun _ _ => ?_)
  | (with_reducible refine Post_mcc fun _ _ _ _ _ _ => ?_; try dsimp only)
  | (with_reducible refine Post_opt fun _ _ => ?_)
  | (with_reducible refine Post_any fun _ => ?_)
  | (with_reducible refine Post_if (fun _ => ?_) (fun _ => ?_))
  | (with_reducible refine Post_p ?_)
  | (with_reducible refine Post_k ?_))

theorem bit7 (v : UInt8) : (v &&& 128) >>> 7 < 2 := by revert v; decide +kernel
theorem bits654 (v : UInt8) : (v &&& 112) >>> 4 < 8 := by revert v; decide +kernel

macro "c1_fin" : tactic => `(tactic| (
  (repeat' apply And.intro)
  all_goals first
    | rfl
    | trivial
    | exact V2.and1 _
    | exact V2.and3 _
    | exact V2.and7 _
    | exact V2.and15 _
    | exact V2.and31 _
    | exact bit7 _
    | exact bits654 _
    | exact tbcdDecode_digits _
    | assumption
    | omega
    | (apply UInt16.toNat_inj.mp; simp; omega)
    | skip))

end Gtp.C1
