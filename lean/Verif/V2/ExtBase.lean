import Verif.V2.StableBase
import Verif.Ext

/-!
# A buffer and the same buffer with more octets behind it: readers of GTPv2-C
-/

namespace Gtp.V2
set_option linter.unusedSimpArgs false

section
variable {α : Type} {b r : Bytes}

theorem Ext.rdIp6 {ε : Type} {k : Nat} : Ext (rdIp6 b k : R ε _) (rdIp6 (b ++ r) k) := by unfold V2.rdIp6; ext_steps
theorem Ext.slBody16 {m : Mode} {l : UInt16} : Ext (slBody16 m b l) (slBody16 m (b ++ r) l) := by unfold V2.slBody16; ext_steps
theorem Ext.rdLv {s : Nat} {e : Err} {c : Nat} : Ext (rdLv s e b c) (rdLv s e (b ++ r) c) := by unfold V2.rdLv; ext_steps
theorem Ext.rdIf {st st' : Nat → R Err (α × Nat)} {f : Bool} {c : Nat} (hs : Ext (st c) (st' c)) : Ext (rdIf f st c) (rdIf f st' c) := by
  unfold V2.rdIf
  exact Ext.ite (fun _ => hs.bind fun _ => Ext.refl _) fun _ => Ext.refl _
theorem Ext.rd8s {c : Nat} : Ext (rd8s b c) (rd8s (b ++ r) c) := by unfold V2.rd8s; ext_steps
theorem Ext.rdN {k c : Nat} : Ext (rdN k b c) (rdN k (b ++ r) c) := by unfold V2.rdN; ext_steps
theorem Ext.rdLvU {c : Nat} : Ext (rdLvU b c) (rdLvU (b ++ r) c) := by unfold V2.rdLvU; ext_steps
theorem Ext.rdLvC {e : Err} {c : Nat} : Ext (rdLvC e b c) (rdLvC e (b ++ r) c) := by unfold V2.rdLvC; ext_steps

end

macro_rules | `(tactic| ext_leaf) => `(tactic| first
  | with_reducible exact Ext.rdIp6
  | with_reducible exact Ext.slBody16
  | with_reducible exact Ext.rdLv
  | with_reducible exact Ext.rd8s
  | with_reducible exact Ext.rdN
  | with_reducible exact Ext.rdLvU
  | with_reducible exact Ext.rdLvC
  | ((with_reducible refine Ext.rdIf ?_); ext_leaf))

end Gtp.V2
