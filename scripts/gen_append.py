#!/usr/bin/env python3
"""Writes lean/Verif/V2/Append.lean: what octets behind an IE mean to its decoder."""
import os

HERE = os.path.dirname(os.path.abspath(__file__))
exec(open(f'{HERE}/gen_sum.py').read().split('def check_table')[0])
MM = ['MmContextEpsSecurityContextQuadruplets', 'MmContextUmtsKeyQuintuplets', 'MmContextUmtsKeyQuadrupletsQuintuplets',
      'MmContextUmtsKeyCipherQuintuplets', 'MmContextGsmKeyTriplets', 'MmContextGsmKeyCipherQuintuplets']
GROUPS = ['BearerContext', 'LoadControl', 'OverloadControlInfo', 'RemoteUeContext', 'ScefPdnConnections', 'PC5QosParameters',
          'PgwChangeInfo', 'PdnConnections', 'V2xInformation']
# decoders that look for the end of the buffer
OPEN = ['TargetIdentification', 'SourceIdentification', 'MdtConfiguration', 'PresenceReportingAreaAction', 'PresenceReportingAreaInformation',
        'MmContext']
ELEMS = ['Cgi', 'Sai', 'Rai', 'Tai', 'Ecgi', 'Lai', 'MacroEnbId', 'ExtMacroEnbId', 'CellIdentifier', 'GNbIdentifier', 'MacroEnbIdentifier',
         'ExtendedMacroEnbIdentifier', 'MacronGeNbIdentifier', 'ExtendedGeNbIdentifier', 'EnGNbIdentifier']
ITEMS = ['AuthTriplet', 'AuthQuintuplet', 'AuthQuadruplet', 'AmbrMM', 'OldEpsSecurityContext', 'ApnRateControlStatusMM']

o = '''import Verif.V2.ExtBase

/-!
# Octets behind an IE

The decoder of a kind, on a buffer and on the same buffer with more octets behind it. Expanded by `scripts/gen_append.py`.
-/

namespace Gtp.V2
set_option linter.unusedSimpArgs false
set_option linter.unusedVariables false

/-! ### Parts of IEs -/

section
variable {α : Type} {b r : Bytes}

'''
def leaf(*ns):
    return 'macro_rules | `(tactic| ext_leaf) => `(tactic| first\n' + '\n'.join(f'  | with_reducible exact {n}' for n in ns) + ')\n\n'
for s in ELEMS:
    o += f'theorem {s}.ext : Ext ({s}.unmarshal b) ({s}.unmarshal (b ++ r)) := by ext_all [{s}.unmarshal]\n'
for s in ITEMS:
    o += f'theorem {s}.ext : Ext ({s}.unm b) ({s}.unm (b ++ r)) := by ext_all [{s}.unm]\n'
o += '\n' + leaf(*[f'{s}.ext' for s in ELEMS + ITEMS])
o += '''theorem Ext.rdItem {unm : Bytes → R Err α} {len : α → Nat} {e : Err} {c : Nat} (hu : ∀ s, Ext (unm s) (unm (s ++ r))) :
    Ext (rdItem unm len e b c) (rdItem unm len e (b ++ r) c) := by
  unfold V2.rdItem
  exact Ext.slFrom fun s => (hu s).mapErr.bind fun _ => Ext.refl _

theorem Ext.rdItems {unm : Bytes → R Err α} {len : α → Nat} {e : Err} (hu : ∀ s, Ext (unm s) (unm (s ++ r))) :
    ∀ {n c : Nat}, Ext (rdItems unm len e b n c) (rdItems unm len e (b ++ r) n c)
  | 0, c => Ext.refl _
  | n + 1, c => by
    unfold V2.rdItems
    exact (Ext.rdItem hu).bind fun _ => (Ext.rdItems hu).bind fun _ => Ext.refl _

theorem Ext.rdAuth {unm : Bytes → R Err α} {len : α → Nat} {e : Err} {n : UInt8} {c : Nat} (hu : ∀ s, Ext (unm s) (unm (s ++ r))) :
    Ext (rdAuth unm len e b n c) (rdAuth unm len e (b ++ r) n c) := by
  unfold V2.rdAuth
  exact Ext.ite (fun _ => Ext.refl _) fun _ => Ext.ite (fun _ => (Ext.rdItems hu).bind fun _ => Ext.refl _) fun _ => Ext.err

theorem Ext.rdAmbr {ty : UInt8} {c : Nat} : Ext (rdAmbr ty b c) (rdAmbr ty (b ++ r) c) := by
  unfold V2.rdAmbr
  exact Ext.iteT (by ext_cond) fun _ => Ext.rdItem fun s => AmbrMM.ext

theorem Ext.rdIov {f : Bool} {e : Err} {c : Nat} : Ext (rdIov f e b c) (rdIov f e (b ++ r) c) := by
  ext_all [V2.rdIov]

theorem Ext.rdExtAcc {e : Err} {c : Nat} : Ext (rdExtAcc e b c) (rdExtAcc e (b ++ r) c) := by
  ext_all [V2.rdExtAcc]

theorem Ext.rdTriplets {n : UInt8} {c : Nat} : Ext (rdTriplets b n c) (rdTriplets (b ++ r) n c) := by
  unfold V2.rdTriplets
  refine Ext.iteF (fun h => ⟨h.1, h.2.1, fun h1 => h.2.2 ?_⟩) fun _ => Ext.rdAuth fun s => AuthTriplet.ext
  rw [List.length_append]
  omega

theorem Ext.rdScope {c : Nat} : Ext (MdtConfiguration.rdScope b c) (MdtConfiguration.rdScope (b ++ r) c) := by
  ext_all [MdtConfiguration.rdScope]

theorem Ext.rdLe {e : Err} {st st' : Nat → R Err α} {c : Nat} (hs : Ext (st c) (st' c)) :
    Ext (rdLe e b st c) (rdLe e (b ++ r) st' c) := by
  unfold V2.rdLe
  exact Ext.iteT (by ext_cond) fun _ => hs

theorem Ext.rdPlmnS {c : Nat} : Ext (rdPlmnS b c) (rdPlmnS (b ++ r) c) := by
  ext_all [V2.rdPlmnS]

theorem Ext.rdName {c : Nat} : Ext (TwanId.rdName b c) (TwanId.rdName (b ++ r) c) := by
  ext_all [TwanId.rdName]

theorem Ext.rdRelay {f : Bool} {c : Nat} : Ext (TwanId.rdRelay f b c) (TwanId.rdRelay f (b ++ r) c) := by
  unfold TwanId.rdRelay
  exact Ext.ite (fun _ => Ext.iteT (by ext_cond) fun _ => Ext.rd.bind fun _ => Ext.rdLvC.bind fun _ => (Ext.rdLe Ext.rdLvC).bind fun _ =>
    Ext.refl _) fun _ => Ext.refl _

theorem Ext.rdStr {e : Err} {c : Nat} : Ext (rdStr b c e) (rdStr (b ++ r) c e) := by
  ext_all [V2.rdStr]

theorem Ext.rdElems {chk : Bool} {unm : Bytes → R Err α} {k : Nat} {e : Err} (hu : ∀ s, Ext (unm s) (unm (s ++ r))) :
    ∀ {n c : Nat}, Ext (rdElems chk unm k e b n c) (rdElems chk unm k e (b ++ r) n c)
  | 0, c => Ext.refl _
  | n + 1, c => by
    unfold V2.rdElems
    exact Ext.iteF (by ext_cond) fun _ => Ext.slFrom fun s => (hu s).mapErr.bind fun _ => (Ext.rdElems hu).bind fun _ => Ext.refl _

theorem Location.ext {k : Nat} : Ext (Location.read k b) (Location.read k (b ++ r)) := by
  ext_all [Location.read]

theorem Ext.readAll : ∀ {ks : List Nat} {c : Nat}, Ext (Location.readAll b ks c) (Location.readAll (b ++ r) ks c)
  | [], c => Ext.refl _
  | k :: ks, c => by
    unfold Location.readAll
    exact Ext.slFrom fun s => Location.ext.bind fun _ => Ext.readAll.bind fun _ => Ext.refl _

theorem Ext.container {v : UInt8} {n : Nat} : Ext (Container.read b v n) (Container.read (b ++ r) v n) := by
  unfold Container.read
  ext_steps

theorem Ext.rdIp50 {c : Nat} : Ext (rdIp50 b c) (rdIp50 (b ++ r) c) := by
  ext_all [V2.rdIp50]

end

macro_rules | `(tactic| ext_leaf) => `(tactic| first
  | ((with_reducible refine Ext.rdAuth fun _ => ?_); ext_leaf)
  | ((with_reducible refine Ext.rdItem fun _ => ?_); ext_leaf)
  | ((with_reducible refine Ext.rdElems fun _ => ?_); ext_leaf)
  | ((with_reducible refine Ext.rdLe ?_); ext_leaf)
  | with_reducible exact Ext.rdAmbr
  | with_reducible exact Ext.rdIov
  | with_reducible exact Ext.rdExtAcc
  | with_reducible exact Ext.rdTriplets
  | with_reducible exact Ext.rdScope
  | with_reducible exact Ext.rdPlmnS
  | with_reducible exact Ext.rdName
  | with_reducible exact Ext.rdRelay
  | with_reducible exact Ext.rdStr
  | with_reducible exact Ext.readAll
  | with_reducible exact Ext.container
  | with_reducible exact Ext.rdIp50)

/-! ### The decoders -/

section
variable {b r : Bytes}

'''
for c, s, _ in KINDS:
    if s == 'MmContext' or s in GROUPS or s in OPEN: continue
    o += f'theorem {s}.ext (m : Mode) : Ext ({s}.unmarshal m b) ({s}.unmarshal m (b ++ r)) := by\n  ext_all [{s}.unmarshal]\n\n'
o += '''theorem groupUnm.ext {α : Type} {dec : Bytes → R Err (List IE)} {mk : UInt8 → UInt16 → UInt8 → List IE → α} (m : Mode) :
    Ext (groupUnm dec mk m b) (groupUnm dec mk m (b ++ r)) := by
  ext_all [groupUnm]

/-- The kinds whose decoders look for the end of the buffer: targetid.rs:37, sourceid.rs:39, mdtconfiguration.rs:204-226,
praa.rs:319, prai.rs:120 and the MM contexts (src/gtpv2/messages/ies). -/
def Kind.openEnded : Kind → Bool
'''
o += '  | ' + ' | '.join('.' + c for c, s, _ in KINDS if s in OPEN) + ' => true\n  | _ => false\n\n'
o += '''theorem unmKind.ext (dec : Bytes → R Err (List IE)) (m : Mode) (k : Kind) (hk : k.openEnded = false) :
    Ext (unmKind dec m b k) (unmKind dec m (b ++ r) k) := by
  cases k with
'''
for c, s, _ in KINDS:
    if s in OPEN: o += f'  | {c} => cases hk\n'
    elif s in ('LoadControl', 'OverloadControlInfo'): o += f'  | {c} => exact (groupUnm.ext m).bind fun _ => Ext.refl _\n'
    elif s in GROUPS: o += f'  | {c} => exact (groupUnm.ext m).bind fun _ => Ext.refl _\n'
    else: o += f'  | {c} => exact ({s}.ext m).bind fun _ => Ext.refl _\n'
o += '\n'
o += '''end

end Gtp.V2
'''
import sys
open(sys.argv[1] if len(sys.argv) > 1 else f'{V2}/Append.lean', 'w').write(o)
