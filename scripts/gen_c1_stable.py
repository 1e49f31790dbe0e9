#!/usr/bin/env python3
"""Writes lean/Verif/C1/Stable.lean: the length field of GTPv1-C IEs, and what a decoded IE looks like, kind by kind."""
import re

src = open('lean/Verif/C1/Kind.lean').read()
KINDS = re.findall(r'^  \| (\w+)$', src.split('inductive Kind where')[1].split('deriving')[0], re.M)
TV = 'Cause Imsi Rai ReorderingRequired Recovery SelectionMode Teid TeardownInd Nsapi ChargingCharacteristics TraceReference TraceType ChargingID'.split()
assert len(KINDS) == 49 and all(k in KINDS for k in TV)
EH = 'ExtensionHeaderTypeList'

o = ['''import Verif.C1.StableBase

/-!
# Decoded GTPv1-C IEs

Expanded by `scripts/gen_c1_stable.py`. The length field of an IE, that encoding does not look at it, and, for every kind: once its
length field is set to the length it is encoded with, a decoded value satisfies `WF`. For some kinds this takes a condition, which is
stated in front of the conclusion and collected in `Kind.Faithful`.
-/

namespace Gtp.C1
open Gtp.V1
set_option linter.unusedSimpArgs false
set_option linter.unusedVariables false

theorem tlv_length_field (t : UInt8) (n l : UInt16) (body : Bytes) : tlv t n body = tlv t l body := by
  rw [tlv_eq, tlv_eq]

theorem tlvLen {t : UInt8} {l : UInt16} {body : Bytes} (h : (tlv t l body).length < 65536) :
    (UInt16.ofNat ((tlv t l body).length - 3)).toNat + 3 = (tlv t l body).length := by
  rw [tlv_length] at *
  rw [UInt16.toNat_ofNat']
  omega

theorem tlvLen_lt {t : UInt8} {l : UInt16} {body : Bytes} (h : (tlv t l body).length < 65536) :
    (UInt16.ofNat ((tlv t l body).length - 3)).toNat < 65533 := by
  have := tlvLen h
  omega

theorem ehLen (x : ExtensionHeaderTypeList) (h : x.list.length < 254) :
    (UInt8.ofNat (x.marshal.length - 2)).toNat + 2 = x.marshal.length := by
  rw [UInt8.toNat_ofNat']
  simp only [ExtensionHeaderTypeList.marshal, List.length_set, List.length_cons]
  omega

theorem zoneOf_ne : ∀ v : UInt8, MsTimeZone.zoneOf v ≠ -128 := by decide +kernel
theorem unitOf_ok : ∀ v : UInt8, GGSNBackOffTime.unitOf v ≤ 4 ∨ GGSNBackOffTime.unitOf v = 7 := by decide +kernel
theorem locBody_length (l : Location) : (Uli.locBody l).length = 2 := by cases l <;> rfl

namespace Kind

/-- The number of octets in front of the body: the type, and the length if the kind has one. -/
def head : Kind → Nat
''']
for k in KINDS:
    if k in TV:
        o.append('  | .%s => 1\n' % k)
o.append('  | .%s => 2\n  | _ => 3\n\n' % EH)
o.append('/-- The field `t`. -/\ndef tOf : (k : Kind) → k.Ty → UInt8\n')
for k in KINDS:
    o.append('  | .%s => fun (x : C1.%s) => x.t\n' % (k, k))
o.append('\n/-- The field `length`, for the kinds that have one. -/\ndef lengthOf : (k : Kind) → k.Ty → Option Nat\n')
for k in KINDS:
    o.append('  | .%s => fun (x : C1.%s) => %s\n' % (k, k, 'none' if k in TV else 'some x.length.toNat'))
o.append('\n/-- `self.length = n`, for the kinds that have a length. -/\ndef setLength (n : Nat) : (k : Kind) → k.Ty → k.Ty\n')
for k in KINDS:
    ty = 'UInt8' if k == EH else 'UInt16'
    o.append('  | .%s => fun (x : C1.%s) => %s\n' % (k, k, 'x' if k in TV else '({ x with length := %s.ofNat n } : C1.%s)' % (ty, k)))
o.append('''
/-- The value with the length field it is encoded with. -/
def norm (k : Kind) (x : k.Ty) : k.Ty := k.setLength ((k.codec.mar x).length - k.head) x

theorem mar_setLength (n : Nat) (k : Kind) (x : k.Ty) : k.codec.mar (k.setLength n x) = k.codec.mar x := by
  cases k
''')
for k in KINDS:
    if k in TV:
        o.append('  case %s => rfl\n' % k)
    elif k == EH:
        o.append('  case %s => rfl\n' % k)
    else:
        o.append('  case %s => exact tlv_length_field ..\n' % k)
o.append('\nend Kind\n\n')

HYP = {'Imsi': '(x.imsi.length + 1) / 2 = 8', 'Imei': '(x.imei.length + 1) / 2 = 8', 'Msisdn': '(x.msisdn.length + 1) / 2 = 8',
       'Uci': 'x.csgid.toNat < 2 ^ 27', 'Apn': 'Gtp.V2.NameOk x.name', EH: 'x.list.length < 254'}
PROOF = {}
exec(open('scripts/gen_c1_stable_proofs.py').read())
for k in KINDS:
    h = HYP.get(k)
    if k == 'Teid':
        o.append(PROOF[k])
        continue
    if k in TV:
        o.append('theorem %s.stable (m : Mode) (b : Bytes) : (%s.unmarshal m b).Post fun x => %s%s.WF x := by\n' % (k, k, h + ' → ' if h else '', k))
    else:
        ty, hd, mx = ('UInt8', 2, 256) if k == EH else ('UInt16', 3, 65533)
        o.append('theorem %s.stable (m : Mode) (b : Bytes) : (%s.unmarshal m b).Post fun x => %s∀ n : %s,\n    n.toNat + %d = x.marshal.length → n.toNat < %d → %s.WF { x with length := n } := by\n'
                 % (k, k, h + ' → ' if h else '', ty, hd, mx, k))
    if k in PROOF:
        o.append(PROOF[k])
        continue
    o.append('  unfold %s.unmarshal\n' % k)
    if k in BODY:
        o.append('  unfold %s.body\n' % k)
    o.append('  c1_steps\n')
    if k not in TV:
        o.append('  all_goals (intro %sn hn hN)\n' % ('h0 ' if h else ''))
        o.append('  all_goals (simp only [%s.marshal, tlv_length] at hn)\n' % k)
        o.append('  all_goals (try simp [gtp%s] at hn)\n' % ''.join(', ' + a for a in FIN.get(k, ('', ''))[0].split()))
    elif h:
        o.append('  all_goals (intro h0)\n')
    o.append('  all_goals (simp only [%s.WF])\n' % k)
    o.append('  all_goals c1_fin\n')
    o.append(FIN.get(k, ('', ''))[1])
    o.append('\n')
o.append('/-- What a decoded value must satisfy so that its encoding is decoded to the same value. -/\ndef Kind.Faithful : (k : Kind) → k.Ty → Prop\n')
for k in KINDS:
    o.append('  | .%s => fun (x : C1.%s) => %s\n' % (k, k, HYP.get(k, 'True')))
o.append('''
/-- A decoded value, with the length it is encoded with, is a value which the encoding represents. -/
theorem Kind.norm_WF {m : Mode} {b : Bytes} {k : Kind} {x : k.Ty} (h : k.codec.unm m b = .ok x) (hf : k.Faithful x)
    (ht : k = .Teid → b.head? = some 16 ∨ b.head? = some 17) (hl : (k.codec.mar x).length < 65536) : k.codec.WF (k.norm x) := by
  cases k
''')
for k in KINDS:
    if k == 'Teid':
        o.append('  case Teid => exact Post.elim (Teid.stable m b) h (ht rfl)\n')
    elif k in TV:
        o.append('  case %s => exact Post.elim (%s.stable m b) h%s\n' % (k, k, ' hf' if k in HYP else ''))
    else:
        if k == EH:
            o.append('  case %s =>\n    have e := hf\n    exact Post.elim (%s.stable m b) h hf _ (ehLen x hf) (by rw [UInt8.toNat_ofNat\']; omega)\n' % (k, k))
        else:
            o.append('  case %s => exact Post.elim (%s.stable m b) h%s _ (tlvLen hl) (tlvLen_lt hl)\n' % (k, k, ' hf' if k in HYP else ''))
o.append('\nend Gtp.C1\n')
open('lean/Verif/C1/Stable.lean', 'w').write(''.join(o))
