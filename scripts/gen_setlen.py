#!/usr/bin/env python3
"""Writes lean/Verif/V2/SetLen.lean: the `length` field of an IE, and that encoding does not look at it."""
import os

HERE = os.path.dirname(os.path.abspath(__file__))
exec(open(f'{HERE}/gen_sum.py').read().split('def check_table')[0])
MM = ['MmContextEpsSecurityContextQuadruplets', 'MmContextUmtsKeyQuintuplets', 'MmContextUmtsKeyQuadrupletsQuintuplets',
      'MmContextUmtsKeyCipherQuintuplets', 'MmContextGsmKeyTriplets', 'MmContextGsmKeyCipherQuintuplets']

o = '''import Verif.V2.Decoder

/-!
# The `length` field of a GTPv2-C information element

Expanded by `scripts/gen_setlen.py`.
-/

namespace Gtp.V2

/-- `self.length = n`. -/
def MmContext.setLength (n : UInt16) : MmContext → MmContext
'''
for v in MM:
    o += f'  | .{v} x => .{v} {{ x with length := n }}\n'
o += '''
/-- `self.length = n`. -/
def IE.setLength (n : UInt16) : IE → IE
'''
for c, s, _ in KINDS:
    o += f'  | .{c} x => .{c} ' + ('(x.setLength n)' if s == 'MmContext' else '{ x with length := n }') + '\n'
o += '''
/-- Encoding overwrites the length field. -/
theorem tliv_length_field (t : UInt8) (n l : UInt16) (i : UInt8) (body : Bytes) : tliv t n i body = tliv t l i body := by
  rw [tliv_eq, tliv_eq]

theorem groupMar_length_field (enc : IE → Bytes) (t : UInt8) (n l : UInt16) (i : UInt8) (v : List IE) :
    IE.groupMar enc t n i v = IE.groupMar enc t l i v := tliv_length_field ..

'''
o += 'theorem IE.marshalWith_setLength (enc : IE → Bytes) (n : UInt16) (e : IE) : (e.setLength n).marshalWith enc = e.marshalWith enc := by\n  cases e with\n'
for c, s, _ in KINDS:
    if s == 'MmContext':
        o += f'  | {c} x => cases x <;> exact tliv_length_field ..\n'
    else:
        o += f'  | {c} x => exact tliv_length_field ..\n'
o += '''
theorem IE.marshal_setLength (n : UInt16) (e : IE) : (e.setLength n).marshal = e.marshal := IE.marshalWith_setLength _ n e

theorem IE.length_setLength (n : UInt16) (e : IE) : (e.setLength n).length = n := by
  cases e with
  | MmContext x => cases x <;> rfl
  | _ => rfl

theorem IE.kind_setLength (n : UInt16) (e : IE) : (e.setLength n).kind = e.kind := by cases e <;> rfl

theorem IE.setLength_setLength (n l : UInt16) (e : IE) : (e.setLength n).setLength l = e.setLength l := by
  cases e with
  | MmContext x => cases x <;> rfl
  | _ => rfl

theorem IE.setLength_self (e : IE) : e.setLength e.length = e := by
  cases e with
  | MmContext x => cases x <;> rfl
  | _ => rfl

/-- The number of octets behind the first four. -/
def IE.bodyLen (e : IE) : UInt16 := UInt16.ofNat (e.marshal.length - 4)

/-- The IE with the length field that it is encoded with. -/
def IE.norm (e : IE) : IE := e.setLength e.bodyLen

end Gtp.V2
'''
open(f'{os.path.dirname(HERE)}/lean/Verif/V2/SetLen.lean', 'w').write(o)
