import Verif.C1.Append
import Verif.V2.OwnBase

/-!
# The octets that a GTPv1-C element declares as its own

The decoders that read nothing but these. Expanded by `scripts/gen_c1_append.py`.
-/

namespace Gtp.C1
open Gtp.V1
open Gtp.V2 (declLen ext_rd16T ext_rdT add16_le ext_never_bind)
set_option linter.unusedSimpArgs false
set_option linter.unusedVariables false

section
variable {α : Type} {b : Bytes} {n : Nat}

theorem ext_checkTlvT {m : Mode} {l : UInt16} {g g' : Bool → R Err α} (hl : l.toNat + 3 ≤ n) (ht : l ≠ 0 → Ext (g true) (g' true)) {e : Err}
    (hf : g false = .err e) : Ext (checkTlv m l b >>= g) (checkTlv m l (b.take n) >>= g') := by
  unfold Gtp.checkTlv
  by_cases h : l = 0
  · rw [if_pos h, R.ok_bind, hf]
    exact Ext.err
  · rw [if_neg h, if_neg h]
    cases hv : (add16 m l 3 : R Err UInt16) with
    | ok v =>
      have : v.toNat ≤ l.toNat + 3 := add16_le hv
      simp only [R.ok_bind, R.pure_eq]
      by_cases h1 : v.toNat ≤ b.length
      · rw [decide_eq_true h1, decide_eq_true (by rw [List.length_take]; omega)]
        exact ht h
      · rw [decide_eq_false h1, hf]
        exact Ext.err
    | _ => exact fun _ h => by cases h

theorem ext_withTlvT {m : Mode} {f f' : UInt16 → R Err α} (hn : n = (declLen b).toNat + 3)
    (h : 1 ≤ (declLen b).toNat → Ext (f (declLen b)) (f' (declLen b))) : Ext (withTlv m b f) (withTlv m (b.take n) f') := by
  unfold withTlv
  refine Ext.iteT (by own_cond) fun _ => ext_rd16T (by omega) (ext_checkTlvT ?_ (fun hz => ?_) rfl)
  · omega
  simp only [if_true]
  refine h ?_
  rcases Nat.eq_zero_or_pos (declLen b).toNat with h1 | h1
  · exact absurd (UInt16.toNat_inj.mp h1) hz
  · exact h1

theorem ext_slBody3T {m : Mode} {l : UInt16} (hl : l.toNat + 3 ≤ n) : Ext (slBody3 m b l) (slBody3 m (b.take n) l) := by
  unfold slBody3
  repeat' own_step

theorem ext_ipBodyT {l : UInt16} (hl : l.toNat + 3 ≤ n) : Ext (ipBody b l) (ipBody (b.take n) l) := by
  unfold ipBody
  refine Ext.ite (fun h => ?_) fun _ => Ext.ite (fun h => ?_) fun _ => Ext.refl _
  · have hz : l.toNat = 4 := by rw [h]; rfl
    repeat' own_step
  · have hz : l.toNat = 16 := by rw [h]; rfl
    repeat' own_step

end

section
variable {b : Bytes} {n : Nat}

theorem Cause.own (m : Mode) (hn : n = 2) : Ext (Cause.unmarshal m b) (Cause.unmarshal m (b.take n)) := by
  subst hn
  simp only [Cause.unmarshal]
  repeat' own_step

theorem Imsi.own (m : Mode) (hn : n = 9) : Ext (Imsi.unmarshal m b) (Imsi.unmarshal m (b.take n)) := by
  subst hn
  simp only [Imsi.unmarshal]
  repeat' own_step

theorem Rai.own (m : Mode) (hn : n = 7) : Ext (Rai.unmarshal m b) (Rai.unmarshal m (b.take n)) := by
  subst hn
  simp only [Rai.unmarshal]
  repeat' own_step

theorem ReorderingRequired.own (m : Mode) (hn : n = 2) : Ext (ReorderingRequired.unmarshal m b) (ReorderingRequired.unmarshal m (b.take n)) := by
  subst hn
  simp only [ReorderingRequired.unmarshal]
  repeat' own_step

theorem Recovery.own (m : Mode) (hn : n = 2) : Ext (Recovery.unmarshal m b) (Recovery.unmarshal m (b.take n)) := by
  subst hn
  simp only [Recovery.unmarshal]
  repeat' own_step

theorem SelectionMode.own (m : Mode) (hn : n = 2) : Ext (SelectionMode.unmarshal m b) (SelectionMode.unmarshal m (b.take n)) := by
  subst hn
  simp only [SelectionMode.unmarshal]
  repeat' own_step

theorem Teid.own (m : Mode) (hn : n = 5) : Ext (Teid.unmarshal m b) (Teid.unmarshal m (b.take n)) := by
  subst hn
  simp only [Teid.unmarshal]
  repeat' own_step

theorem TeardownInd.own (m : Mode) (hn : n = 2) : Ext (TeardownInd.unmarshal m b) (TeardownInd.unmarshal m (b.take n)) := by
  subst hn
  simp only [TeardownInd.unmarshal]
  repeat' own_step

theorem Nsapi.own (m : Mode) (hn : n = 2) : Ext (Nsapi.unmarshal m b) (Nsapi.unmarshal m (b.take n)) := by
  subst hn
  simp only [Nsapi.unmarshal]
  repeat' own_step

theorem ChargingCharacteristics.own (m : Mode) (hn : n = 3) : Ext (ChargingCharacteristics.unmarshal m b) (ChargingCharacteristics.unmarshal m (b.take n)) := by
  subst hn
  simp only [ChargingCharacteristics.unmarshal]
  repeat' own_step

theorem TraceReference.own (m : Mode) (hn : n = 3) : Ext (TraceReference.unmarshal m b) (TraceReference.unmarshal m (b.take n)) := by
  subst hn
  simp only [TraceReference.unmarshal]
  repeat' own_step

theorem TraceType.own (m : Mode) (hn : n = 3) : Ext (TraceType.unmarshal m b) (TraceType.unmarshal m (b.take n)) := by
  subst hn
  simp only [TraceType.unmarshal]
  repeat' own_step

theorem ChargingID.own (m : Mode) (hn : n = 5) : Ext (ChargingID.unmarshal m b) (ChargingID.unmarshal m (b.take n)) := by
  subst hn
  simp only [ChargingID.unmarshal]
  repeat' own_step

theorem Pco.own (m : Mode) (hn : n = (declLen b).toNat + 3) : Ext (Pco.unmarshal m b) (Pco.unmarshal m (b.take n)) := by
  refine ext_withTlvT hn fun hz => ?_
  refine (ext_slBody3T ?_).bind fun _ => Ext.refl _
  omega

theorem Tft.own (m : Mode) (hn : n = (declLen b).toNat + 3) : Ext (Tft.unmarshal m b) (Tft.unmarshal m (b.take n)) := by
  refine ext_withTlvT hn fun hz => ?_
  refine (ext_slBody3T ?_).bind fun _ => Ext.refl _
  omega

theorem TriggerId.own (m : Mode) (hn : n = (declLen b).toNat + 3) : Ext (TriggerId.unmarshal m b) (TriggerId.unmarshal m (b.take n)) := by
  refine ext_withTlvT hn fun hz => ?_
  refine (ext_slBody3T ?_).bind fun _ => Ext.refl _
  omega

theorem OmcId.own (m : Mode) (hn : n = (declLen b).toNat + 3) : Ext (OmcId.unmarshal m b) (OmcId.unmarshal m (b.take n)) := by
  refine ext_withTlvT hn fun hz => ?_
  refine (ext_slBody3T ?_).bind fun _ => Ext.refl _
  omega

theorem Apn.own (m : Mode) (hn : n = (declLen b).toNat + 3) : Ext (Apn.unmarshal m b) (Apn.unmarshal m (b.take n)) := by
  refine ext_withTlvT hn fun hz => ?_
  simp only [Apn.body]
  repeat' own_step

theorem Qos.own (m : Mode) (hn : n = (declLen b).toNat + 3) : Ext (Qos.unmarshal m b) (Qos.unmarshal m (b.take n)) := by
  refine ext_withTlvT hn fun hz => ?_
  simp only [Qos.body]
  repeat' own_step

theorem GsnAddress.own (m : Mode) (hn : n = (declLen b).toNat + 3) : Ext (GsnAddress.unmarshal m b) (GsnAddress.unmarshal m (b.take n)) := by
  refine ext_withTlvT hn fun hz => (ext_ipBodyT ?_).bind fun _ => Ext.refl _
  omega

theorem ChargingGWAddress.own (m : Mode) (hn : n = (declLen b).toNat + 3) : Ext (ChargingGWAddress.unmarshal m b) (ChargingGWAddress.unmarshal m (b.take n)) := by
  refine ext_withTlvT hn fun hz => (ext_ipBodyT ?_).bind fun _ => Ext.refl _
  omega

theorem CamelChargingInfoContainer.own (m : Mode) (hn : n = (declLen b).toNat + 3) :
    Ext (CamelChargingInfoContainer.unmarshal m b) (CamelChargingInfoContainer.unmarshal m (b.take n)) := by
  simp only [CamelChargingInfoContainer.unmarshal]
  repeat' own_step

theorem EndUserAddress.own (m : Mode) (hn : n = (declLen b).toNat + 3) : Ext (EndUserAddress.unmarshal m b) (EndUserAddress.unmarshal m (b.take n)) := by
  refine ext_withTlvT hn fun hz => ?_
  by_cases h2 : 2 ≤ (declLen b).toNat
  · simp only [EndUserAddress.body]
    refine (ext_rdT (by omega)).bind fun v => (ext_rdT (by omega)).bind fun w => ?_
    refine Ext.ite (fun _ => Ext.refl _) fun _ => Ext.ite (fun h => ?_) fun _ => Ext.ite (fun h => ?_) fun _ => Ext.ite (fun h => ?_) fun _ =>
      Ext.refl _
    · have hz : (declLen b).toNat = 6 := by rw [h.1]; rfl
      repeat' own_step
    · have hz : (declLen b).toNat = 18 := by rw [h.1]; rfl
      repeat' own_step
    · have hz : (declLen b).toNat = 22 := by rw [h.1]; rfl
      repeat' own_step
  · simp only [EndUserAddress.body]
    refine ext_never_bind fun v => ext_never_bind fun w => ?_
    rw [if_neg fun h => h2 (by rw [h.1]; decide), if_neg fun h => h2 (by rw [h.1]; decide), if_neg fun h => h2 (by rw [h.1]; decide),
      if_neg fun h => h2 (by rw [h.1]; decide)]
    exact Ext.err

/-- The size of an element without length field. -/
def Kind.tvSize : Kind → Option Nat
  | .Cause => some 2
  | .Imsi => some 9
  | .Rai => some 7
  | .ReorderingRequired => some 2
  | .Recovery => some 2
  | .SelectionMode => some 2
  | .Teid => some 5
  | .TeardownInd => some 2
  | .Nsapi => some 2
  | .ChargingCharacteristics => some 3
  | .TraceReference => some 3
  | .TraceType => some 3
  | .ChargingID => some 5
  | _ => none

/-- The kinds with length field that are read within it. -/
def Kind.contained : Kind → Bool
  | .Pco | .Tft | .TriggerId | .OmcId | .Apn | .Qos | .CamelChargingInfoContainer | .GsnAddress | .ChargingGWAddress | .EndUserAddress => true
  | _ => false

theorem Kind.own_tv (m : Mode) (k : Kind) (hk : k.tvSize = some n) : Ext (k.codec.unm m b) (k.codec.unm m (b.take n)) := by
  cases k with
  | Cause => exact Cause.own m (Option.some.inj hk).symm
  | Imsi => exact Imsi.own m (Option.some.inj hk).symm
  | Rai => exact Rai.own m (Option.some.inj hk).symm
  | ReorderingRequired => exact ReorderingRequired.own m (Option.some.inj hk).symm
  | Recovery => exact Recovery.own m (Option.some.inj hk).symm
  | SelectionMode => exact SelectionMode.own m (Option.some.inj hk).symm
  | Teid => exact Teid.own m (Option.some.inj hk).symm
  | TeardownInd => exact TeardownInd.own m (Option.some.inj hk).symm
  | Nsapi => exact Nsapi.own m (Option.some.inj hk).symm
  | ChargingCharacteristics => exact ChargingCharacteristics.own m (Option.some.inj hk).symm
  | TraceReference => exact TraceReference.own m (Option.some.inj hk).symm
  | TraceType => exact TraceType.own m (Option.some.inj hk).symm
  | ChargingID => exact ChargingID.own m (Option.some.inj hk).symm
  | _ => cases hk

theorem Kind.own_tlv (m : Mode) (k : Kind) (hk : k.contained = true) (hn : n = (declLen b).toNat + 3) :
    Ext (k.codec.unm m b) (k.codec.unm m (b.take n)) := by
  cases k with
  | Pco => exact Pco.own m hn
  | Tft => exact Tft.own m hn
  | TriggerId => exact TriggerId.own m hn
  | OmcId => exact OmcId.own m hn
  | Apn => exact Apn.own m hn
  | Qos => exact Qos.own m hn
  | CamelChargingInfoContainer => exact CamelChargingInfoContainer.own m hn
  | GsnAddress => exact GsnAddress.own m hn
  | ChargingGWAddress => exact ChargingGWAddress.own m hn
  | EndUserAddress => exact EndUserAddress.own m hn
  | _ => cases hk

end

end Gtp.C1
