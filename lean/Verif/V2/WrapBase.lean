import Verif.V2.PanicArm
import Verif.V2.OwnBase

/-!
# The decoders of information elements in a release build

In a release build the sum `length + 4` of type `u16` wraps where it panics in a debug build. For declared lengths below 65532
there is no difference (`same`); for the others the equations `wrap` say what the arithmetic yields.
-/

namespace Gtp.V2

set_option linter.unusedSimpArgs false

theorem add4_same {l : UInt16} (h : l.toNat < 65532) : (add16 .release l 4 : R Err UInt16) = add16 .debug l 4 := by
  have h4 : (4 : UInt16).toNat = 4 := rfl
  simp only [add16]
  rw [if_pos (by omega)]

theorem checkTliv_same {l : UInt16} {b : Bytes} (h : l.toNat < 65532) :
    (checkTliv .release l b : R Err Bool) = checkTliv .debug l b := by
  simp only [checkTliv, add4_same h]

theorem slBody16_same {l : UInt16} {b : Bytes} (h : l.toNat < 65532) :
    (slBody16 .release b l : R Err Bytes) = slBody16 .debug b l := by
  simp only [slBody16, add4_same h]

theorem ieLen16_same {l : UInt16} (h : l.toNat < 65532) : (ieLen16 .release l : R Err Nat) = ieLen16 .debug l := by
  simp only [ieLen16, add4_same h]

/-- As below, with the decoder taken apart already. -/
macro "same_mode0" b:term "," h:ident : tactic => `(tactic| (
  rcases @rd16_1 Err $b with e | e
  · simp only [e, R.ok_bind, checkTliv_same $h, slBody16_same $h, add4_same $h]
  · simp only [e, R.panic_bind]))

/-- The length is the declared one; nothing overflows. -/
macro "same_mode" b:term "," u:ident "," h:ident : tactic => `(tactic| (
  unfold $u
  rcases @rd16_1 Err $b with e | e
  · simp only [e, R.ok_bind, checkTliv_same $h, slBody16_same $h, add4_same $h]
  · simp only [e, R.panic_bind]))

theorem wrap4 {l : UInt16} (h : 65532 ≤ l.toNat) : (l + 4).toNat = l.toNat - 65532 := by
  have h4 : (4 : UInt16).toNat = 4 := rfl
  have := l.toNat_lt
  rw [UInt16.toNat_add, h4]
  omega

theorem Safe_add4_wrap {l : UInt16} {P : UInt16 → Prop} : (add16 .release l 4 : R Err UInt16).Safe P = P (l + 4) := rfl

theorem Safe_checkTliv_wrap {l : UInt16} {b : Bytes} {P : Bool → Prop} (h : 65532 ≤ l.toNat) :
    (checkTliv .release l b : R Err Bool).Safe P = P (decide (l.toNat - 65532 ≤ b.length)) := by
  have h0 : l ≠ 0 := by rintro rfl; exact absurd h (by decide)
  rw [checkTliv, if_neg h0, Safe_bind, Safe_add4_wrap, wrap4 h]
  rfl

theorem Safe_ieLen16_wrap {l : UInt16} {P : Nat → Prop} (h : 65532 ≤ l.toNat) :
    (ieLen16 .release l : R Err Nat).Safe P = P (l.toNat - 65532) := by
  rw [ieLen16, Safe_bind, Safe_add4_wrap, Safe_pure, wrap4 h]

theorem Safe_slBody16_wrap {l : UInt16} {b : Bytes} {P : Bytes → Prop} (h : 65532 ≤ l.toNat) :
    (slBody16 .release b l : R Err Bytes).Safe P = False := by
  have := l.toNat_lt
  rw [slBody16, Safe_bind, Safe_add4_wrap, Safe_sl, wrap4 h]
  simp
  omega

end Gtp.V2
