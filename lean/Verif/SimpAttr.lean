import Lean

/-!
The simp set `gtp` collects the evaluation rules of the model, together with simplification
procedures that evaluate the bit operations on octet literals.
-/

register_simp_attr gtp
register_simp_attr gtps
register_simp_attr gtplen

namespace Gtp.Tac
open Lean Meta Simp

/-- A simplification step justified by a small, local `rfl`. -/
def reflStep (e r : Expr) : SimpM Simp.Result := do
  let p ← mkExpectedTypeHint (← mkEqRefl r) (← mkEq e r)
  return { expr := r, proof? := some p }

/-- Evaluate a binary operation on `UInt8` literals. -/
def reduceBin8 (op : UInt8 → UInt8 → UInt8) (e : Expr) : SimpM Step := do
  unless e.isAppOfArity (e.getAppFn.constName?.getD .anonymous) 6 do return .continue
  let some (x, _) ← getOfNatValue? e.appFn!.appArg! ``UInt8 | return .continue
  let some (y, _) ← getOfNatValue? e.appArg! ``UInt8 | return .continue
  return .done (← reflStep e (toExpr (op (UInt8.ofNat x) (UInt8.ofNat y))))

end Gtp.Tac

open Gtp.Tac

simproc u8And ((_ : UInt8) &&& (_ : UInt8)) := reduceBin8 (· &&& ·)
simproc u8Or ((_ : UInt8) ||| (_ : UInt8)) := reduceBin8 (· ||| ·)
simproc u8Xor ((_ : UInt8) ^^^ (_ : UInt8)) := reduceBin8 (· ^^^ ·)
simproc u8Shl ((_ : UInt8) <<< (_ : UInt8)) := reduceBin8 (· <<< ·)
simproc u8Shr ((_ : UInt8) >>> (_ : UInt8)) := reduceBin8 (· >>> ·)
