#!/usr/bin/env python3
"""Writes lean/Verif/V2/Instance.lean: what the decoders do with the instance octet of an IE."""
import os

HERE = os.path.dirname(os.path.abspath(__file__))
exec(open(f'{HERE}/gen_sum.py').read().split('def check_table')[0])
MM = ['MmContextEpsSecurityContextQuadruplets', 'MmContextUmtsKeyQuintuplets', 'MmContextUmtsKeyQuadrupletsQuintuplets',
      'MmContextUmtsKeyCipherQuintuplets', 'MmContextGsmKeyTriplets', 'MmContextGsmKeyCipherQuintuplets']
GROUPS = ['BearerContext', 'LoadControl', 'OverloadControlInfo', 'RemoteUeContext', 'ScefPdnConnections', 'PC5QosParameters',
          'PgwChangeInfo', 'PdnConnections', 'V2xInformation']
# the whole octet is kept (cmi.rs:83, extendedtraceinfo.rs:94, groupedie.rs:42, ...)
RAW = ['MbmsIpMulticastDistribution', 'ExtendedTraceInformation', 'NodeType', 'CsgMembershipIndication', 'Tmgi', 'Ptmsi',
       'TargetIdentification', 'SourceIdentification', 'MbmsTimeToDataTransfer', 'Unknown'] + GROUPS

o = '''import Verif.V2.ParBase

/-!
# The instance octet of a GTPv2-C information element

What each decoder makes of the fourth octet of an IE. Expanded by `scripts/gen_instance.py`.
-/

namespace Gtp.V2
set_option linter.unusedSimpArgs false
set_option linter.unusedVariables false

/-- `self.ins = n`. -/
def MmContext.setIns (n : UInt8) : MmContext → MmContext
'''
for v in MM:
    o += f'  | .{v} x => .{v} {{ x with ins := n }}\n'
o += '''
/-- `self.ins = n`. -/
def IE.setIns (n : UInt8) : IE → IE
'''
for c, s, _ in KINDS:
    o += f'  | .{c} x => .{c} ' + ('(x.setIns n)' if s == 'MmContext' else '{ x with ins := n }') + '\n'
o += '''
theorem IE.ins_setIns (n : UInt8) (e : IE) : (e.setIns n).ins = n := by
  cases e with
  | MmContext x => cases x <;> rfl
  | _ => rfl

theorem IE.kind_setIns (n : UInt8) (e : IE) : (e.setIns n).kind = e.kind := by cases e <;> rfl

theorem IE.len_setIns (m : Mode) (n : UInt8) (e : IE) : (e.setIns n).len m = e.len m := by
  cases e with
  | MmContext x => cases x <;> rfl
  | _ => rfl

theorem IE.setIns_setIns (n l : UInt8) (e : IE) : (e.setIns n).setIns l = e.setIns l := by
  cases e with
  | MmContext x => cases x <;> rfl
  | _ => rfl

/-! ### Cursor readers -/

section
variable {α : Type} {i j : UInt8} {b b' : Bytes}

theorem Par.rdItem (h : Off i j b b') {unm : Bytes → R Err α} {len : α → Nat} {e : Err} {c : Nat} (hc : 4 ≤ c) :
    Par Cur (rdItem unm len e b c) (rdItem unm len e b' c) := by
  par_all [V2.rdItem]

theorem Par.rdItems (h : Off i j b b') {unm : Bytes → R Err α} {len : α → Nat} {e : Err} : ∀ {n c : Nat}, 4 ≤ c →
    Par Cur (rdItems unm len e b n c) (rdItems unm len e b' n c)
  | 0, c, hc => Par.cur hc
  | n + 1, c, hc => by
    unfold V2.rdItems
    refine (Par.rdItem h hc).bind_cur fun _ _ h1 => (Par.rdItems h h1).bind_cur fun _ _ h2 => Par.cur' h2

theorem Par.rdAuth (h : Off i j b b') {unm : Bytes → R Err α} {len : α → Nat} {e : Err} {n : UInt8} {c : Nat} (hc : 4 ≤ c) :
    Par Cur (rdAuth unm len e b n c) (rdAuth unm len e b' n c) := by
  unfold V2.rdAuth
  refine Par.ite (fun _ => Par.cur' hc) fun _ => Par.ite (fun _ => (Par.rdItems h hc).bind_cur fun _ _ h1 => Par.cur' h1) fun _ => Par.err _

theorem Par.rdAmbr (h : Off i j b b') {ty : UInt8} {c : Nat} (hc : 4 ≤ c) : Par Cur (rdAmbr ty b c) (rdAmbr ty b' c) := by
  unfold V2.rdAmbr
  rw [h.len]
  exact Par.ite (fun _ => Par.rdItem h hc) fun _ => Par.err _

theorem Par.rdRates (h : Off i j b b') : ∀ {n c : Nat}, 4 ≤ c → Par Cur (rdRates b n c) (rdRates b' n c)
  | 0, c, hc => trivial
  | n + 1, c, hc => by
    unfold V2.rdRates
    refine (Par.slFrom h hc).bind_eq fun s => ?_
    split
    · exact (Par.rdRates h (Nat.le_add_right_of_le hc)).bind_cur fun _ _ h2 => Par.cur' h2
    · exact Par.cur' hc
    · trivial
    · trivial

theorem Par.rdApnRates (h : Off i j b b') {e : Err} {c : Nat} (hc : 4 ≤ c) : Par Cur (rdApnRates e b c) (rdApnRates e b' c) := by
  unfold V2.rdApnRates
  rw [h.len]
  refine (Par.rd h (by omega)).bind_eq fun l => Par.ite (fun _ => Par.cur' hc) fun _ => Par.ite (fun _ =>
    (Par.rdRates h (by omega)).bind_cur fun _ _ h1 => Par.cur' h1) fun _ => Par.err _

theorem Par.rdDrx (h : Off i j b b') {f : Bool} {c : Nat} (hc : 4 ≤ c) : Par Cur (rdDrx f b c) (rdDrx f b' c) := by
  par_all [V2.rdDrx]

theorem Par.rdHigher (h : Off i j b b') {c : Nat} (hc : 4 ≤ c) : Par Cur (rdHigher b c) (rdHigher b' c) := by
  par_all [V2.rdHigher]

theorem Par.rdIov (h : Off i j b b') {f : Bool} {e : Err} {c : Nat} (hc : 4 ≤ c) : Par Cur (rdIov f e b c) (rdIov f e b' c) := by
  par_all [V2.rdIov]

theorem Par.rdExtAcc (h : Off i j b b') {e : Err} {c : Nat} (hc : 4 ≤ c) : Par Cur (rdExtAcc e b c) (rdExtAcc e b' c) := by
  par_all [V2.rdExtAcc]

theorem Par.rdTriplets (h : Off i j b b') {n : UInt8} {c : Nat} (hc : 4 ≤ c) : Par Cur (rdTriplets b n c) (rdTriplets b' n c) := by
  unfold V2.rdTriplets
  rw [h.len]
  exact Par.ite (fun _ => Par.err _) fun _ => Par.rdAuth h hc

theorem Par.rdNextHop (h : Off i j b b') {f : Bool} {c : Nat} (hc : 4 ≤ c) : Par Cur (rdNextHop f b c) (rdNextHop f b' c) := by
  par_all [V2.rdNextHop]

theorem Par.rdEnsct (h : Off i j b b') {c : Nat} (hc : 4 ≤ c) : Par Eq (rdEnsct b c) (rdEnsct b' c) := by
  par_all [V2.rdEnsct]

theorem Par.rdEpsTail (h : Off i j b b') {c : Nat} (hc : 4 ≤ c) : Par Eq (rdEpsTail b c) (rdEpsTail b' c) := by
  unfold V2.rdEpsTail
  refine (Par.rdApnRates h hc).bind_cur fun _ _ h1 => (Par.rdLv h h1).bind_cur fun _ _ h2 => (Par.rdLv h h2).bind_cur fun _ _ h3 =>
    (Par.rdEnsct h h3).bind_eq fun _ => Par.pure rfl

theorem Par.rdOpt8 (h : Off i j b b') {f : Bool} {c : Nat} (hc : 4 ≤ c) : Par Cur (rdOpt8 f b c) (rdOpt8 f b' c) := by
  par_all [V2.rdOpt8]

theorem Par.rdScope (h : Off i j b b') {c : Nat} (hc : 4 ≤ c) : Par Cur (MdtConfiguration.rdScope b c) (MdtConfiguration.rdScope b' c) := by
  par_all [MdtConfiguration.rdScope]

theorem Par.rdPlmnList (h : Off i j b b') {f : Bool} {c : Nat} (hc : 4 ≤ c) :
    Par Eq (MdtConfiguration.rdPlmnList f b c) (MdtConfiguration.rdPlmnList f b' c) := by
  par_all [MdtConfiguration.rdPlmnList]

theorem Par.rdLe (h : Off i j b b') {Q : α → α → Prop} {e : Err} {st st' : Nat → R Err α} {c : Nat} (hs : Par Q (st c) (st' c)) :
    Par Q (rdLe e b st c) (rdLe e b' st' c) := by
  unfold V2.rdLe
  rw [h.len]
  exact Par.ite (fun _ => hs) fun _ => Par.err _

theorem Par.rdPlmnS (h : Off i j b b') {c : Nat} (hc : 4 ≤ c) : Par Cur (rdPlmnS b c) (rdPlmnS b' c) := by
  par_all [V2.rdPlmnS]

theorem Par.rdName (h : Off i j b b') {c : Nat} (hc : 4 ≤ c) : Par Cur (TwanId.rdName b c) (TwanId.rdName b' c) := by
  par_all [TwanId.rdName]

theorem Par.rdRelay (h : Off i j b b') {f : Bool} {c : Nat} (hc : 4 ≤ c) : Par Eq (TwanId.rdRelay f b c) (TwanId.rdRelay f b' c) := by
  unfold TwanId.rdRelay
  rw [h.len]
  refine Par.ite (fun _ => Par.ite (fun _ => (Par.rd h (by omega)).bind_eq fun _ => (Par.rdLvC h (by omega)).bind_cur fun _ c h1 =>
    (Par.rdLe h (Par.rdLvC h h1)).bind_cur fun _ _ _ => Par.pure rfl) fun _ => Par.err _) fun _ => Par.pure rfl

theorem Par.rdStr (h : Off i j b b') {e : Err} {c : Nat} (hc : 5 ≤ c) : Par Eq (rdStr b c e) (rdStr b' c e) := by
  par_all [V2.rdStr]

theorem Par.rdElems (h : Off i j b b') {chk : Bool} {unm : Bytes → R Err α} {k : Nat} {e : Err} : ∀ {n c : Nat}, 4 ≤ c →
    Par Cur (rdElems chk unm k e b n c) (rdElems chk unm k e b' n c)
  | 0, c, hc => Par.cur hc
  | n + 1, c, hc => by
    unfold V2.rdElems
    rw [h.len]
    exact Par.ite (fun _ => Par.err _) fun _ => (Par.slFrom h hc).bind_eq fun _ => (Par.of_eq rfl).bind_eq fun _ =>
      (Par.rdElems h (Nat.le_add_right_of_le hc)).bind_cur fun _ _ h2 => Par.cur' h2

theorem Par.readAll (h : Off i j b b') : ∀ {ks : List Nat} {c : Nat}, 4 ≤ c →
    Par Eq (Location.readAll b ks c) (Location.readAll b' ks c)
  | [], c, hc => rfl
  | k :: ks, c, hc => by
    unfold Location.readAll
    exact (Par.slFrom h hc).bind_eq fun _ => (Par.of_eq rfl).bind_eq fun _ =>
      (Par.readAll h (Nat.le_add_right_of_le hc)).bind_eq fun _ => Par.pure rfl

theorem Par.container (h : Off i j b b') {v : UInt8} {n : Nat} : Par Eq (Container.read b v n) (Container.read b' v n) := by
  unfold Container.read
  par_steps

theorem Par.rdIp50 (h : Off i j b b') {c : Nat} (hc : 4 ≤ c) : Par Cur (rdIp50 b c) (rdIp50 b' c) := by
  par_all [V2.rdIp50]

end

macro_rules | `(tactic| par_leaf) => `(tactic| first
  | ((with_reducible refine Par.rdAuth (by assumption) ?_); omega)
  | ((with_reducible refine Par.rdAmbr (by assumption) ?_); omega)
  | ((with_reducible refine Par.rdItem (by assumption) ?_); omega)
  | ((with_reducible refine Par.rdApnRates (by assumption) ?_); omega)
  | ((with_reducible refine Par.rdDrx (by assumption) ?_); omega)
  | ((with_reducible refine Par.rdHigher (by assumption) ?_); omega)
  | ((with_reducible refine Par.rdIov (by assumption) ?_); omega)
  | ((with_reducible refine Par.rdExtAcc (by assumption) ?_); omega)
  | ((with_reducible refine Par.rdTriplets (by assumption) ?_); omega)
  | ((with_reducible refine Par.rdNextHop (by assumption) ?_); omega)
  | ((with_reducible refine Par.rdEpsTail (by assumption) ?_); omega)
  | ((with_reducible refine Par.rdOpt8 (by assumption) ?_); omega)
  | ((with_reducible refine Par.rdScope (by assumption) ?_); omega)
  | ((with_reducible refine Par.rdPlmnList (by assumption) ?_); omega)
  | ((with_reducible refine Par.rdPlmnS (by assumption) ?_); omega)
  | ((with_reducible refine Par.rdName (by assumption) ?_); omega)
  | ((with_reducible refine Par.rdRelay (by assumption) ?_); omega)
  | ((with_reducible refine Par.rdStr (by assumption) ?_); omega)
  | ((with_reducible refine Par.rdElems (by assumption) ?_); omega)
  | ((with_reducible refine Par.readAll (by assumption) ?_); omega)
  | (with_reducible exact Par.container (by assumption))
  | ((with_reducible refine Par.rdIp50 (by assumption) ?_); omega)
  | ((with_reducible refine Par.rdLe (by assumption) ?_); par_leaf))

/-! ### The decoders -/

section
variable {i j : UInt8} {b b' : Bytes}

'''
def f(s): return 'i' if s in RAW else 'i &&& 0x0f'
for c, s, _ in KINDS:
    if s == 'MmContext' or s in GROUPS or s == 'MonitoringEventInformation': continue
    o += f'theorem {s}.par (h : Off i j b b\') (m : Mode) :\n    Par (fun x y => x = {{ y with ins := {f(s)} }}) ({s}.unmarshal m b) ({s}.unmarshal m b\') := by\n  par_all [{s}.unmarshal]\n\n'
for s in MM:
    o += f'theorem {s}.par (h : Off i j b b\') (m : Mode) :\n    Par (fun x y => x = {{ y with ins := {f(s)} }}) ({s}.unmarshal m b) ({s}.unmarshal m b\') := by\n  par_all [{s}.unmarshal]\n\n'

o += '''theorem MmContext.par (h : Off i j b b') (m : Mode) :
    Par (fun x y => x = y.setIns (i &&& 0x0f)) (MmContext.unmarshal m b) (MmContext.unmarshal m b') := by
  unfold MmContext.unmarshal
  refine (Par.rd h (by omega)).bind_eq fun t => ?_
'''
for s, t in zip(MM, [107, 106, 108, 104, 103, 105]):
    o += f'  refine Par.ite (fun _ => ({s}.par h m).bind fun x y e => Par.pure (by rw [e]; rfl)) fun _ => ?_\n'
o += '  exact Par.err _\n\n'
o += '''/-- Its upper half also carries flags. -/
theorem MonitoringEventInformation.par (h : Off i j b b') (hf : i &&& 0xf0 = j &&& 0xf0) (m : Mode) :
    Par (fun x y => x = { y with ins := i &&& 0x0f }) (MonitoringEventInformation.unmarshal m b) (MonitoringEventInformation.unmarshal m b') := by
  have key : ∀ x : UInt8, (x &&& 0x80 = (x &&& 0xf0) &&& 0x80 ∧ hasBits x 0x20 = hasBits (x &&& 0xf0) 0x20) ∧
      hasBits x 0x10 = hasBits (x &&& 0xf0) 0x10 ∧ hasBits x 0x40 = hasBits (x &&& 0xf0) 0x40 := by decide +kernel
  obtain ⟨⟨a1, a2⟩, a3, a4⟩ := key i
  obtain ⟨⟨b1, b2⟩, b3, b4⟩ := key j
  simp only [MonitoringEventInformation.unmarshal, h.len]
  refine Par.ite (fun _ => ?_) fun _ => Par.err _
  refine (Par.rd16 h (by omega)).bind_eq fun _ => Par.bind_rd3 h ?_
  rw [a1, a2, a3, a4, b1, b2, b3, b4, hf]
  par_steps

'''
for s in GROUPS:
    pair = s == 'BearerContext'
    P = '.1' if pair else ''
    if pair:
        o += f'theorem {s}.step_ins (s : {s} × Bool) (n : UInt8) (e : IE) :\n    step ({{ s.1 with ins := n }}, s.2) e = ({{ (step s e).1 with ins := n }}, (step s e).2) := by\n  unfold step\n  split <;> (repeat\' split) <;> rfl\n\n'
        o += f'theorem {s}.ofGroup_ins (t : UInt8) (n : UInt16) (i j : UInt8) (l : List IE) : ofGroup t n i l = {{ ofGroup t n j l with ins := i }} := by\n'
        o += f'  suffices h : ∀ (l : List IE) (s : {s} × Bool), l.foldl step ({{ s.1 with ins := i }}, s.2) = ({{ (l.foldl step s).1 with ins := i }}, (l.foldl step s).2) from\n    congrArg Prod.fst (h l (init t n j, false))\n'
    else:
        o += f'theorem {s}.step_ins (s : {s}) (n : UInt8) (e : IE) : step {{ s with ins := n }} e = {{ step s e with ins := n }} := by\n  unfold step\n  split <;> (repeat\' split) <;> rfl\n\n'
        o += f'theorem {s}.ofGroup_ins (t : UInt8) (n : UInt16) (i j : UInt8) (l : List IE) : ofGroup t n i l = {{ ofGroup t n j l with ins := i }} := by\n'
        o += f'  suffices h : ∀ (l : List IE) (s : {s}), l.foldl step {{ s with ins := i }} = {{ l.foldl step s with ins := i }} from h l (init t n j)\n'
    o += '  intro l\n  induction l with\n  | nil => intro s; rfl\n  | cons e l ih => intro s; rw [List.foldl_cons, List.foldl_cons, step_ins, ih]\n\n'
o += '''theorem groupUnm.par {α : Type} {dec : Bytes → R Err (List IE)} {mk : UInt8 → UInt16 → UInt8 → List IE → α} {f : UInt8 → α → α}
    (hm : ∀ t n i j l, mk t n i l = f i (mk t n j l)) (h : Off i j b b') (m : Mode) :
    Par (fun x y => x = f i y) (groupUnm dec mk m b) (groupUnm dec mk m b') := by
  unfold groupUnm
  rw [h.len]
  refine Par.ite (fun _ => ?_) fun _ => (Par.rd h (by omega)).bind_eq fun _ => Par.err _
  refine (Par.rd h (by omega)).bind_eq fun _ => (Par.rd16 h (by omega)).bind_eq fun _ => Par.bind_rd3 h ?_
  refine (Par.checkTliv h _ _).bind_eq fun _ => Par.ite (fun _ => ?_) fun _ => Par.err _
  exact (Par.slBody16 h _ _).bind_eq fun _ => (Par.of_eq rfl).bind_eq fun _ => Par.pure (hm _ _ _ _ _)

/-- The kinds of IE of which the decoder keeps the whole octet as the instance (`ins: buffer[3]`): cmi.rs:83,
extendedtraceinfo.rs:94, groupedie.rs:42 (all grouped IEs), mbmsipmulticastdistribution.rs:94, mbmstimetodatatransfer.rs:56,
nodetype.rs:83, ptmsi.rs:60, sourceid.rs:213, targetid.rs:702, tmgi.rs:56, unknown.rs:42. -/
def Kind.keepsSpare : Kind → Bool
'''
RK = [c for c, s, _ in KINDS if s in RAW]
o += '  | ' + '\n  | '.join('.' + c for c in RK) + ' => true\n  | _ => false\n\n'
o += '''/-- The instance read from the fourth octet. -/
def Kind.insOf (k : Kind) (i : UInt8) : UInt8 := if k.keepsSpare then i else i &&& 0x0f

theorem unmKind.par (dec : Bytes → R Err (List IE)) (h : Off i j b b') (m : Mode) (k : Kind)
    (hf : k = .MonitoringEventInformation → i &&& 0xf0 = j &&& 0xf0) :
    Par (fun x y => x = y.setIns (k.insOf i)) (unmKind dec m b k) (unmKind dec m b' k) := by
  cases k with
'''
for c, s, _ in KINDS:
    if s in ('LoadControl', 'OverloadControlInfo'):
        o += f'  | {c} =>\n    refine (groupUnm.par (f := fun i x => {{ x with ins := i }}) {s}.ofGroup_ins h m).bind fun x y e => ?_\n    subst e\n    unfold listCheck\n    dsimp only\n    split\n    · exact Par.bind (Q := fun x y => x = {{ y with ins := i }}) (Par.ite (fun _ => Par.err _) fun _ => Par.ok rfl) fun x y e => Par.pure (by rw [e]; rfl)\n    · exact Par.pure rfl\n'
    elif s == 'PC5QosParameters':
        o += f'  | {c} =>\n    refine (groupUnm.par (f := fun i x => {{ x with ins := i }}) {s}.ofGroup_ins h m).bind fun x y e => ?_\n    subst e\n    exact Par.ite (fun _ => Par.err _) fun _ => Par.pure rfl\n'
    elif s in GROUPS:
        o += f'  | {c} => exact (groupUnm.par (f := fun i x => {{ x with ins := i }}) {s}.ofGroup_ins h m).bind fun x y e => Par.pure (by rw [e]; rfl)\n'
    elif s == 'MonitoringEventInformation':
        o += f'  | {c} => exact ({s}.par h (hf rfl) m).bind fun x y e => Par.pure (by rw [e]; rfl)\n'
    else:
        o += f'  | {c} => exact ({s}.par h m).bind fun x y e => Par.pure (by rw [e]; rfl)\n'
o += '''
end

end Gtp.V2
'''
open(f'{V2}/Instance.lean', 'w').write(o)
