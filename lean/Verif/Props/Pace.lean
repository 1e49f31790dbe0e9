import Verif.Props.Own
import Verif.Props.Ie

/-!
# C11 for each of the 256 types

`C11_declared_length_partial` and `C11_fixed` speak about kinds. Here: the list of the types after which the decoder goes on where the IE
ends, and for each type outside the list an accepted IE after which it does not.
-/

namespace Gtp.Props
open Gtp.V2

/-- IE types after which the decoder goes on at some other octet than the one behind the declared end. -/
def ownPace : List UInt8 :=
  [3, 56, 72, 73, 75, 80, 81, 82, 83, 89, 92, 94, 95, 96, 99, 100, 111, 112, 114, 115, 117, 120, 121, 123, 124, 126, 127, 128, 129, 131, 133,
   134, 135, 138, 140, 141, 143, 144, 145, 146, 147, 148, 149, 150, 152, 153, 154, 156, 157, 158, 160, 164, 165, 166, 167, 170, 171, 173,
   174, 178, 179, 182, 183, 185, 186, 188, 190, 194, 196, 198, 199, 200, 202, 207, 210, 211, 217, 218]

theorem ownPace_kind : ∀ t : UInt8, (kindOf t).exact = !decide (t ∈ ownPace) := by decide +kernel

/-- C11: after an IE of a type outside `ownPace` the decoder goes on behind the declared end. Missing: the types of `ownPace`, each of which
violates it (`C11_violation_types`); overflowing lengths in release builds (`C11_violation_release`). -/
theorem C11_types_partial (m : Mode) (b : Bytes) (x : IE) (n : Nat) (ht : b.getD 0 0 ∉ ownPace)
    (h : decodeOne (decoder m) m b = .ok (x, n)) (hm : m = .debug ∨ declared b < 65532) : n = declared b + 4 :=
  C11_declared_length_partial m b x n h (by rw [ownPace_kind, decide_eq_false ht]; rfl) hm

/-- An IE that declares no octets (an MEI: one) and zeros behind it. -/
def lingering (t : UInt8) : Bytes := [t, 0, if t = 75 then 1 else 0, 0] ++ zeros 90

def strays (m : Mode) (b : Bytes) : Bool :=
  match decodeOne (decoder m) m b with
  | .ok (_, n) => n != declared b + 4
  | _ => false

theorem ownPace_strays : (ownPace.all fun t => strays .debug (lingering t) && strays .release (lingering t)) = true := by decide +kernel

/-- C11 violated: of every type of `ownPace` there is an accepted IE after which the decoder does not go on behind the declared end. -/
theorem C11_violation_types (m : Mode) (t : UInt8) (ht : t ∈ ownPace) :
    ∃ b x n, b.head? = some t ∧ decodeOne (decoder m) m b = .ok (x, n) ∧ n ≠ declared b + 4 := by
  have hs := List.all_eq_true.mp ownPace_strays t ht
  simp only [Bool.and_eq_true] at hs
  have h : strays m (lingering t) = true := by cases m <;> simp only [hs]
  unfold strays at h
  split at h
  · next x n hd => exact ⟨_, x, n, rfl, hd, by simpa using h⟩
  · cases h

/-- C11 violated in release builds: an F-Container that declares 65535 octets counts as one of three octets. -/
theorem C11_violation_release : ∃ x n, decodeOne (decoder .release) .release ([118, 0xff, 0xff, 0] ++ zeros 4) = .ok (x, n) ∧
    n ≠ declared ([118, 0xff, 0xff, 0] ++ zeros 4) + 4 := by
  have h : strays .release ([118, 0xff, 0xff, 0] ++ zeros 4) = true := by decide +kernel
  unfold strays at h
  split at h
  · next x n hd => exact ⟨x, n, hd, by simpa using h⟩
  · cases h

example : (1 : UInt8) ∉ ownPace ∧ strays .debug ([1, 0, 1, 0, 0x21] ++ zeros 4) = false ∧ accepts .debug ([1, 0, 1, 0, 0x21] ++ zeros 4) = true := by
  decide +kernel

end Gtp.Props
