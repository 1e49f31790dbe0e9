#!/usr/bin/env python3
"""Writes lean/Verif/V2/Defaults.lean: the `Default` value of every GTPv2-C IE, read from the Rust source."""
import glob, os, re
import gen_tests as g

exec(open(os.path.join(os.path.dirname(os.path.abspath(__file__)), 'gen_sum.py')).read().split('def check_table')[0])


def where():
    """type -> file:lines of `impl Default` or of the derive"""
    out = {}
    for f in sorted(glob.glob(f'{g.REPO}/gtpv2/messages/ies/**/*.rs', recursive=True)):
        s = open(f).read()
        for m in re.finditer(r'impl Default for (\w+)', s):
            a = s[:m.start()].count('\n') + 1
            b = s[:g.balanced(s, s.index('{', m.end()))].count('\n') + 1
            out[m.group(1)] = f'{os.path.basename(f)}:{a}-{b}'
        for m in re.finditer(r'derive\([^)]*\bDefault\b[^)]*\)\]\s*pub (?:struct|enum) (\w+)', s):
            a = s[:m.start()].count('\n') + 1
            out.setdefault(m.group(1), f'{os.path.basename(f)}:{a}')
    return out


def main():
    a = [x for x in g.AREAS if x['name'] == 'V2Ies'][0]
    crate = g.Crate(sorted(glob.glob(f'{g.REPO}/{a["crate"]}', recursive=True)))
    side = g.Side([f for q in a['lean'] for f in sorted(glob.glob(f'{g.LEAN}/{q}', recursive=True))])
    em = g.Emit(side, a, crate)
    w = where()
    o = '''import Verif.V2.IE

/-!
# The `Default` values of the GTPv2-C information elements

Generated by `scripts/gen_defaults.py`; the citations refer to `/repo/src/gtpv2/messages/ies`.
-/

namespace Gtp.V2

'''
    for c, s, _ in KINDS:
        o += f'/-- `{s}::default` ({w[s]}). -/\ndef dflt{c} : {s} := {em.emit(crate.default(s), s)}\n\n'
    o += '/-- The default of each kind. -/\ndef Kind.dflt : Kind → IE\n'
    for c, s, _ in KINDS:
        o += f'  | .{c} => .{c} dflt{c}\n'
    o += '\n/-- All kinds. -/\ndef Kind.list : List Kind := [\n  ' + ',\n  '.join(
        ', '.join(f'.{c}' for c, _, _ in KINDS[i:i + 6]) for i in range(0, len(KINDS), 6)) + ']\n\nend Gtp.V2\n'
    open(f'{g.LEAN}/V2/Defaults.lean', 'w').write(o)


main()
