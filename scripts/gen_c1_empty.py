#!/usr/bin/env python3
"""`is_empty` of the GTPv1-C information elements: lean/Verif/C1/Empty.lean"""
import glob, os, re
from gen_c1_kinds import T
HERE = os.path.dirname(os.path.abspath(__file__))
SRC = '/repo/src/gtpv1/gtpc/messages/ies/*.rs'
found = {}
for f in sorted(glob.glob(SRC)):
    lines = open(f).read().split('\n')
    for i, l in enumerate(lines):
        m = re.match(r'impl IEs for (\w+)', l)
        if m:
            name = m.group(1)
        if l.strip() == 'fn is_empty(&self) -> bool {':
            found[name] = (os.path.basename(f), i + 1, lines[i + 1].strip())
            assert lines[i + 2].strip() == '}', f
assert set(found) == {t[0] for t in T}
RHS = {'self.length == 0': 'x.length == 0', 'false': 'false', 'self.imsi == *"0"': "x.imsi == ['0']"}
o = ['''import Verif.C1.Kind
import Verif.Props.Decode1

/-!
# `is_empty` of the GTPv1-C information elements

Expanded by `scripts/gen_c1_empty.py`: the third function of `trait IEs` (ies/commons.rs:8-13) for each structure, and what it says about
a decoded element.
-/

namespace Gtp.C1
open Gtp.V1 Gtp.Props
open Gtp.V2 (declLen)

theorem rd16_one {b : Bytes} {l : UInt16} (h : (rd16 b 1 : R Err UInt16) = .ok l) : l = declLen b := by
  match b with
  | [] => cases h
  | [_] => cases h
  | [_, _] => cases h
  | _ :: _ :: _ :: _ => cases h; rfl

theorem withTlv_inv {α : Type} {m : Mode} {b : Bytes} {f : UInt16 → R Err α} {x : α} (h : withTlv m b f = .ok x) : f (declLen b) = .ok x := by
  unfold withTlv at h
  split at h
  · obtain ⟨l, hl, h⟩ := ok_bind_inv h
    obtain ⟨c, -, h⟩ := ok_bind_inv h
    rw [rd16_one hl] at h
    split at h
    · exact h
    · cases h
  · cases h

/-- Takes apart a successful decoder until its result is seen. -/
macro "open_ok" h:ident : tactic => `(tactic| repeat' (first
  | (obtain ⟨_, _, $h⟩ := ok_bind_inv $h)
  | (cases $h:ident; done)
  | split at $h:ident))

namespace Kind
''']
o.append('/-- `is_empty`. -/\ndef isEmpty : (k : Kind) → k.Ty → Bool')
for t in T:
    f, n, r = found[t[0]]
    rhs = RHS[r]
    o.append(f"  | .{t[0]} => fun ({'_' if rhs == 'false' else 'x'} : C1.{t[0]}) => {rhs}  -- {f}:{n}-{n + 2}")
o.append('''
/-- Whether `is_empty` looks at a length that is read from the two octets behind the type. -/
def hasLength : Kind → Bool''')
for t in T:
    if found[t[0]][2] == 'self.length == 0' and t[0] not in ('Imei', 'ExtensionHeaderTypeList'):
        o.append(f'  | .{t[0]} => true')
o.append('''  | _ => false

/-- The length field of a decoded element is what was received. -/
theorem isEmpty_length (k : Kind) (hk : k.hasLength = true) (m : Mode) (b : Bytes) (x : k.Ty) (h : k.codec.unm m b = .ok x) :
    k.isEmpty x = (declLen b == 0) := by
  cases k <;> first | (cases hk; done) | skip''')
for t in T:
    if not(found[t[0]][2] == 'self.length == 0' and t[0] not in ('Imei', 'ExtensionHeaderTypeList')): continue
    n = t[0]
    o.append(f'''  case {n} =>
    change C1.{n}.unmarshal m b = .ok x at h
    change (C1.{n}.length x == 0) = _
    refine congrArg (· == 0) ?_
    unfold C1.{n}.unmarshal at h
    by_len h''')
o.append('''
end Kind

end Gtp.C1''')
s='\n'.join(o)+'\n'
s=s.replace('namespace Kind\n','''/-- The length of the result of a decoder is the declared one. -/
macro "by_len" h:ident : tactic => `(tactic| (
  first
  | replace $h := withTlv_inv $h
  | skip
  open_ok $h
  all_goals first
  | (cases $h:ident; first | rfl | exact rd16_one (by assumption))
  | (simp only [R.pure_eq, R.ok.injEq] at $h:ident; subst $h; first | rfl | exact rd16_one (by assumption))))

namespace Kind
''',1)
open(os.path.join(HERE, '..', 'lean', 'Verif', 'C1', 'Empty.lean'),'w').write(s)
