#!/usr/bin/env python3
"""Writes lean/Verif/V2/PostType.lean: the type that a decoded GTPv2-C IE reports (`get_type`), kind by kind.
The statements are taken from the constants in the decoders of the model; Lean checks them."""
import re, glob
base = '/verif/lean/Verif/V2/'
const = {}
for f in glob.glob(base + 'Ies/*.lean'):
    s = open(f).read()
    for m in re.finditer(r'namespace (\w+)\n(.*?)\nend \1', s, re.S):
        u = re.search(r'def unmarshal .*?(?=\n\n|\ntheorem|\n/--)', m.group(2), re.S)
        if u:
            ts = set(x for x in re.findall(r'⟨(\w+), length', u.group(0)) + re.findall(r't := (\w+)', u.group(0)) if x.isdigit())
            if len(ts) == 1: const[m.group(1)] = ts.pop()
const['Unknown'] = '0'
const['Indication'] = '77'
ie = open(base + 'IE.lean').read()
arms = re.findall(r'^  \| \.(\w+) => do let x ← (.*?); return \.(\w+) (.*)$', ie[ie.index('def unmKind'):ie.index('def decodeOne')], re.M)
unm = ie[ie.index('def unmKind'):ie.index('def decodeOne')]
out = ['import Verif.V2.Deep', 'import Verif.V2.IESafe', '', '''/-!
# The type of a decoded IE

`get_type` of what a decoder returns, for every kind. Generated by scripts/gen_posttype.py.
-/

namespace Gtp.V2

/-- Follow a decoder to its results. -/
macro "post_t" : tactic => `(tactic| repeat' first
  | exact Post_err'
  | exact Post_panic'
  | (with_reducible refine Post_bind_any fun _ => ?_)
  | (with_reducible refine Post_ite_any ?_ ?_)
  | exact (rfl : (_ : UInt8) = _)
  | (show R.Post (R.ok _) _; exact (rfl : (_ : UInt8) = _))
  | split)
''']
done = set()
case = []
for m in re.finditer(r'^  \| \.(\w+) => (.*?)(?=^  \| |\Z|^/--)', unm, re.M | re.S):
    kind, body = m.group(1), m.group(2)
    g = re.search(r'groupUnm dec (\w+)\.ofGroup', body)
    if g:
        case.append((kind, 'group', g.group(1), body.strip()))
        continue
    st = re.search(r'let x ← (\w+)\.unmarshal m b', body).group(1)
    case.append((kind, 'plain', st, body.strip()))
    if st in done or st == 'MmContext': continue
    done.add(st)
    out.append(f'''theorem {st}.postT (m : Mode) (b : Bytes) : ({st}.unmarshal m b).Post fun x => x.t = {const[st]} := by
  unfold {st}.unmarshal
  post_t
''')
out.append('''theorem MmContext.postT (m : Mode) (b : Bytes) : (MmContext.unmarshal m b).Post fun x => x.t = b.getD 0 0 := by
  unfold MmContext.unmarshal
  rw [Post_bind, Post_rd]
  intro _
  generalize b.getD 0 0 = u
  repeat' first
    | exact Post_err'
    | (rw [Post_ite]; refine ⟨fun h => Post_bind_any fun _ => h.symm, fun _ => ?_⟩)

theorem groupUnm_postT {α : Type} {dec : Bytes → R Err (List IE)} {mk : UInt8 → UInt16 → UInt8 → List IE → α} {m : Mode}
    {b : Bytes} {P : α → Prop} (h : ∀ n i l, P (mk (b.getD 0 0) n i l)) : (groupUnm dec mk m b).Post P := by
  unfold groupUnm
  refine Post_ite_any ?_ (Post_bind_any fun _ => Post_err')
  rw [Post_bind, Post_rd]
  intro _
  refine Post_bind_any fun n => Post_bind_any fun i => Post_bind_any fun ok => Post_ite_any ?_ Post_err'
  exact Post_bind_any fun _ => Post_bind_any fun l => h n i l
''')
out.append('''/-- The type that the decoder of a kind puts into its result: a constant, or the type octet of the buffer (grouped IEs and
MM contexts). -/
def Kind.typed (t : UInt8) : Kind → UInt8''')
for kind, how, st, body in case:
    out.append(f"  | .{kind} => {'t' if how == 'group' or st == 'MmContext' else const[st]}")
out.append('''
theorem unmKind_typed (dec : Bytes → R Err (List IE)) (m : Mode) (b : Bytes) (k : Kind) :
    (unmKind dec m b k).Post fun x => x.t = k.typed (b.getD 0 0) := by
  cases k with''')
for kind, how, st, body in case:
    if how == 'plain':
        out.append(f'  | {kind} => simp only [unmKind]; rw [Post_bind]; exact Post.mono ({st}.postT m b) fun _ h => h')
        continue
    out.append(f'''  | {kind} =>
    simp only [unmKind]
    rw [Post_bind]''')
    if 'listCheck' in body:
        out.append(f'''    refine groupUnm_postT fun n i l => ?_
    have h := {st}.ofGroup_t (b.getD 0 0) n i l
    generalize {st}.ofGroup (b.getD 0 0) n i l = x at h
    unfold listCheck
    split
    · split
      · trivial
      · exact h
    · exact h''')
    elif 'ieIncorrect' in body:
        out.append(f"    exact groupUnm_postT fun n i l => Post_ite_any Post_err' ({st}.ofGroup_t (b.getD 0 0) n i l)")
    else:
        out.append(f'    exact groupUnm_postT fun n i l => {st}.ofGroup_t (b.getD 0 0) n i l')
out.append('\nend Gtp.V2\n')
open(base + 'PostType.lean', 'w').write('\n'.join(out))
