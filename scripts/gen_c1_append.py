#!/usr/bin/env python3
"""Writes lean/Verif/C1/Append.lean and lean/Verif/C1/Own.lean: what octets behind a GTPv1-C element mean to its decoder."""
import os
import re

HERE = os.path.dirname(os.path.abspath(__file__))
LEAN = f'{HERE}/../lean/Verif/C1'
ks = re.findall(r'^  \| (\w+)$', open(f'{LEAN}/Kind.lean').read().split('deriving')[0], re.M)
# decoders that take the rest of the buffer
OPEN = ['PrivateExtension', 'ExtensionHeaderTypeList']
# decoders whose part behind the length field is a definition of its own
BODY = {'EndUserAddress': 'body b', 'Apn': 'body b', 'Msisdn': 'body b', 'Qos': 'body m b'}
# elements without length field and their sizes
TV = {'Cause': 2, 'Imsi': 9, 'Rai': 7, 'ReorderingRequired': 2, 'Recovery': 2, 'SelectionMode': 2, 'Teid': 5, 'TeardownInd': 2, 'Nsapi': 2,
      'ChargingCharacteristics': 3, 'TraceReference': 3, 'TraceType': 3, 'ChargingID': 5}
# elements with length field that are read within it
OWN = ['Pco', 'Tft', 'TriggerId', 'OmcId', 'Apn', 'Qos']
SPECIAL = ['CamelChargingInfoContainer', 'GsnAddress', 'ChargingGWAddress', 'EndUserAddress']

o = '''import Verif.C1.Kind
import Verif.Ext

/-!
# Octets behind a GTPv1-C information element

The decoder of a kind, on a buffer and on the same buffer with more octets behind it. Expanded by `scripts/gen_c1_append.py`.
-/

namespace Gtp.C1
open Gtp.V1
set_option linter.unusedSimpArgs false
set_option linter.unusedVariables false

section
variable {α : Type} {b r : Bytes}

theorem ext_checkTlv {m : Mode} {l : UInt16} {g g' : Bool → R Err α} (ht : Ext (g true) (g' true)) {e : Err} (hf : g false = .err e) :
    Ext (checkTlv m l b >>= g) (checkTlv m l (b ++ r) >>= g') := by
  unfold Gtp.checkTlv
  by_cases h : l = 0
  · rw [if_pos h, R.ok_bind, hf]
    exact Ext.err
  · rw [if_neg h, if_neg h]
    cases add16 m l 3 with
    | ok n =>
      simp only [R.ok_bind, R.pure_eq]
      by_cases h1 : n.toNat ≤ b.length
      · rw [decide_eq_true h1, decide_eq_true (by rw [List.length_append]; omega)]
        exact ht
      · rw [decide_eq_false h1, hf]
        exact Ext.err
    | _ => exact fun _ h => by cases h

theorem ext_withTlv {m : Mode} {f f' : UInt16 → R Err α} (h : ∀ l, Ext (f l) (f' l)) : Ext (withTlv m b f) (withTlv m (b ++ r) f') := by
  unfold withTlv
  refine Ext.iteT (by ext_cond) fun _ => Ext.rd16.bind fun l => ext_checkTlv ?_ rfl
  simp only [if_true]
  exact h l

theorem ext_slBody3 {m : Mode} {l : UInt16} : Ext (slBody3 m b l) (slBody3 m (b ++ r) l) := by unfold slBody3; ext_steps
theorem ext_rdIp6 {k : Nat} : Ext (Gtp.V2.rdIp6 b k : R Err _) (Gtp.V2.rdIp6 (b ++ r) k) := by unfold Gtp.V2.rdIp6; ext_steps
theorem ext_ipBody {l : UInt16} : Ext (ipBody b l) (ipBody (b ++ r) l) := by
  unfold ipBody
  refine Ext.ite (fun _ => Ext.rd32.bind fun _ => Ext.refl _) fun _ => Ext.ite (fun _ => ?_) fun _ => Ext.refl _
  exact Ext.iteT (by ext_cond) fun _ => ext_rdIp6.bind fun _ => Ext.refl _

end

macro_rules | `(tactic| ext_leaf) => `(tactic| first
  | with_reducible exact ext_slBody3
  | with_reducible exact ext_rdIp6
  | with_reducible exact ext_ipBody)

macro_rules | `(tactic| ext_step) => `(tactic| first
  | (with_reducible refine ext_withTlv fun _ => ?_)
  | (refine ext_checkTlv ?_ rfl; simp only [if_true]))

section
variable {b r : Bytes}

'''
for k in ks:
    if k in OPEN:
        continue
    o += f'theorem {k}.ext (m : Mode) : Ext ({k}.unmarshal m b) ({k}.unmarshal m (b ++ r)) := by\n'
    if k in BODY:
        o += f'  refine ext_withTlv fun l => ?_\n  ext_all [{k}.body]\n\n'
    else:
        o += f'  ext_all [{k}.unmarshal]\n\n'
o += '''/-- The kinds whose decoders take the rest of the buffer (privateextension.rs:41-57, extensionheadertypelist.rs:38-49). -/
def Kind.openEnded : Kind → Bool
  | .PrivateExtension | .ExtensionHeaderTypeList => true
  | _ => false

theorem Kind.ext (m : Mode) (k : Kind) (hk : k.openEnded = false) : Ext (k.codec.unm m b) (k.codec.unm m (b ++ r)) := by
  cases k with
'''
for k in ks:
    o += f'  | {k} => ' + ('cases hk' if k in OPEN else f'exact {k}.ext m') + '\n'
o += '''
end

end Gtp.C1
'''
open(f'{LEAN}/Append.lean', 'w').write(o)

o = '''import Verif.C1.Append
import Verif.V2.OwnBase

/-!
# The octets that a GTPv1-C element declares as its own

The decoders that read nothing but these. Expanded by `scripts/gen_c1_append.py`.
-/

namespace Gtp.C1
open Gtp.V1
open Gtp.V2 (declLen ext_rd16T ext_rdT add16_le ext_never_bind)
set_option linter.unusedSimpArgs false
set_option linter.unusedVariables false

section
variable {α : Type} {b : Bytes} {n : Nat}

theorem ext_checkTlvT {m : Mode} {l : UInt16} {g g' : Bool → R Err α} (hl : l.toNat + 3 ≤ n) (ht : l ≠ 0 → Ext (g true) (g' true)) {e : Err}
    (hf : g false = .err e) : Ext (checkTlv m l b >>= g) (checkTlv m l (b.take n) >>= g') := by
  unfold Gtp.checkTlv
  by_cases h : l = 0
  · rw [if_pos h, R.ok_bind, hf]
    exact Ext.err
  · rw [if_neg h, if_neg h]
    cases hv : (add16 m l 3 : R Err UInt16) with
    | ok v =>
      have : v.toNat ≤ l.toNat + 3 := add16_le hv
      simp only [R.ok_bind, R.pure_eq]
      by_cases h1 : v.toNat ≤ b.length
      · rw [decide_eq_true h1, decide_eq_true (by rw [List.length_take]; omega)]
        exact ht h
      · rw [decide_eq_false h1, hf]
        exact Ext.err
    | _ => exact fun _ h => by cases h

theorem ext_withTlvT {m : Mode} {f f' : UInt16 → R Err α} (hn : n = (declLen b).toNat + 3)
    (h : 1 ≤ (declLen b).toNat → Ext (f (declLen b)) (f' (declLen b))) : Ext (withTlv m b f) (withTlv m (b.take n) f') := by
  unfold withTlv
  refine Ext.iteT (by own_cond) fun _ => ext_rd16T (by omega) (ext_checkTlvT ?_ (fun hz => ?_) rfl)
  · omega
  simp only [if_true]
  refine h ?_
  rcases Nat.eq_zero_or_pos (declLen b).toNat with h1 | h1
  · exact absurd (UInt16.toNat_inj.mp h1) hz
  · exact h1

theorem ext_slBody3T {m : Mode} {l : UInt16} (hl : l.toNat + 3 ≤ n) : Ext (slBody3 m b l) (slBody3 m (b.take n) l) := by
  unfold slBody3
  repeat' own_step

theorem ext_ipBodyT {l : UInt16} (hl : l.toNat + 3 ≤ n) : Ext (ipBody b l) (ipBody (b.take n) l) := by
  unfold ipBody
  refine Ext.ite (fun h => ?_) fun _ => Ext.ite (fun h => ?_) fun _ => Ext.refl _
  · have hz : l.toNat = 4 := by rw [h]; rfl
    repeat' own_step
  · have hz : l.toNat = 16 := by rw [h]; rfl
    repeat' own_step

end

section
variable {b : Bytes} {n : Nat}

'''
for k, v in TV.items():
    o += f'''theorem {k}.own (m : Mode) (hn : n = {v}) : Ext ({k}.unmarshal m b) ({k}.unmarshal m (b.take n)) := by
  subst hn
  simp only [{k}.unmarshal]
  repeat' own_step

'''
H = '(m : Mode) (hn : n = (declLen b).toNat + 3)'
for k in OWN:
    o += f'''theorem {k}.own {H} : Ext ({k}.unmarshal m b) ({k}.unmarshal m (b.take n)) := by
  refine ext_withTlvT hn fun hz => ?_
'''
    if k in BODY:
        o += f'  simp only [{k}.body]\n  repeat\' own_step\n\n'
    else:
        o += '  refine (ext_slBody3T ?_).bind fun _ => Ext.refl _\n  omega\n\n'
for k in ['GsnAddress', 'ChargingGWAddress']:
    o += f'''theorem {k}.own {H} : Ext ({k}.unmarshal m b) ({k}.unmarshal m (b.take n)) := by
  refine ext_withTlvT hn fun hz => (ext_ipBodyT ?_).bind fun _ => Ext.refl _
  omega

'''
o += f'''theorem CamelChargingInfoContainer.own {H} :
    Ext (CamelChargingInfoContainer.unmarshal m b) (CamelChargingInfoContainer.unmarshal m (b.take n)) := by
  simp only [CamelChargingInfoContainer.unmarshal]
  repeat' own_step

theorem EndUserAddress.own {H} : Ext (EndUserAddress.unmarshal m b) (EndUserAddress.unmarshal m (b.take n)) := by
  refine ext_withTlvT hn fun hz => ?_
  by_cases h2 : 2 ≤ (declLen b).toNat
  · simp only [EndUserAddress.body]
    refine (ext_rdT (by omega)).bind fun v => (ext_rdT (by omega)).bind fun w => ?_
    refine Ext.ite (fun _ => Ext.refl _) fun _ => Ext.ite (fun h => ?_) fun _ => Ext.ite (fun h => ?_) fun _ => Ext.ite (fun h => ?_) fun _ =>
      Ext.refl _
    · have hz : (declLen b).toNat = 6 := by rw [h.1]; rfl
      repeat' own_step
    · have hz : (declLen b).toNat = 18 := by rw [h.1]; rfl
      repeat' own_step
    · have hz : (declLen b).toNat = 22 := by rw [h.1]; rfl
      repeat' own_step
  · simp only [EndUserAddress.body]
    refine ext_never_bind fun v => ext_never_bind fun w => ?_
    rw [if_neg fun h => h2 (by rw [h.1]; decide), if_neg fun h => h2 (by rw [h.1]; decide), if_neg fun h => h2 (by rw [h.1]; decide),
      if_neg fun h => h2 (by rw [h.1]; decide)]
    exact Ext.err

/-- The size of an element without length field. -/
def Kind.tvSize : Kind → Option Nat
'''
for k, v in TV.items():
    o += f'  | .{k} => some {v}\n'
o += '''  | _ => none

/-- The kinds with length field that are read within it. -/
def Kind.contained : Kind → Bool
  | ''' + ' | '.join('.' + k for k in OWN + SPECIAL) + ''' => true
  | _ => false

theorem Kind.own_tv (m : Mode) (k : Kind) (hk : k.tvSize = some n) : Ext (k.codec.unm m b) (k.codec.unm m (b.take n)) := by
  cases k with
'''
for k in TV:
    o += f'  | {k} => exact {k}.own m (Option.some.inj hk).symm\n'
o += '''  | _ => cases hk

theorem Kind.own_tlv (m : Mode) (k : Kind) (hk : k.contained = true) (hn : n = (declLen b).toNat + 3) :
    Ext (k.codec.unm m b) (k.codec.unm m (b.take n)) := by
  cases k with
'''
for k in OWN + SPECIAL:
    o += f'  | {k} => exact {k}.own m hn\n'
o += '''  | _ => cases hk

end

end Gtp.C1
'''
open(f'{LEAN}/Own.lean', 'w').write(o)
