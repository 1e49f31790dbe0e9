#!/usr/bin/env python3
"""Expand the IE tables (scripts/ies_*.py) to Lean modules under lean/Verif/V2/Ies.

Every entry transcribes one `impl IEs for X` of /repo by hand; the generator only supplies the
surrounding boilerplate (structure, skeleton, citation of the source lines, standard proofs)."""
import re, sys, os, glob

REPO = '/repo/src/gtpv2/messages/ies/'
OUT = os.path.join(os.path.dirname(os.path.abspath(__file__)), '..', 'lean', 'Verif', 'V2', 'Ies')
MODULES = []
cur = None


def block(lines, start):
    """last line (1-based) of the brace block starting at line `start`"""
    d = 0
    seen = False
    for i in range(start - 1, len(lines)):
        d += lines[i].count('{') - lines[i].count('}')
        if '{' in lines[i]:
            seen = True
        if seen and d <= 0:
            return i + 1
    raise Exception('no block')


def cite(file, pat, name=None):
    lines = open(REPO + file).read().split('\n')
    start = 1
    if name is not None:
        for i, l in enumerate(lines):
            if re.match(r'impl IEs for %s\b' % name, l):
                start = i + 1
                break
        else:
            raise Exception('no impl for ' + name + ' in ' + file)
    for i in range(start - 1, len(lines)):
        if re.search(pat, lines[i]):
            return '%s:%d-%d' % (file, i + 1, block(lines, i + 1))
    raise Exception('no %s in %s' % (pat, file))


def module(name, doc, imports=('Verif.V2.IeBase',)):
    global cur
    cur = dict(name=name, doc=doc, imports=imports, parts=[])
    MODULES.append(cur)


def raw(s):
    cur['parts'].append(s.strip('\n') + '\n')


def ind(s, n):
    return '\n'.join((' ' * n + l) if l.strip() else l for l in s.strip('\n').split('\n'))


def ie(name, file, ty, fields, enc, dec='', ret='', size=None, minlen=None, check=False, length=None,
       wf=(), mask=True, len=None, errShort=None, errLen=None, unm=None, rtpre='', rtsimp='',
       rt=None, lenok=None, safe=None, safecond=None, safepost=None, safesimp='', rtv=None, aux='',
       lendef=None, sname=None, note='', bound=None, usesM=None, rust=None, decn='', insenc='x.ins', aux2='', tyenc=None):
    """fields: list of (name, type); enc: Lean body octets; dec: do-statements after length/ins;
    ret: record fields; size: fixed body size; check: has check_tliv; length: Lean expression for the
    body length of x; len: 'fixed' | 'U' | '16'."""
    rust = rust or name
    decl = int(re.search(r'(?m)^pub const [A-Z_0-9]+: u8 = (\d+);', open(REPO + file).read()).group(1))
    ty = ty or decl
    assert ty == decl, (name, ty, decl)
    fixed = size is not None
    if len is None:
        len = 'fixed' if fixed else 'U'
    if minlen is None:
        minlen = 4 + size if fixed else 4
    if length is None:
        length = str(size)
    eS = errShort or '.ieInvalidLength %d' % ty
    eL = errLen or '.ieInvalidLength %d' % ty
    if bound is None:
        bound = check or len == '16'
    if fixed and bound is True and not check:
        bound = False
    out = []
    out.append('/-- `%s` (%s)%s. -/' % (rust, cite(file, r'pub struct %s\b' % rust), note))
    out.append('structure %s where' % name)
    for f, t in [('t', 'UInt8'), ('length', 'UInt16'), ('ins', 'UInt8')] + list(fields):
        out.append('  %s : %s' % (f, t))
    out.append('deriving DecidableEq, Repr\n')
    out.append('namespace %s\n' % name)
    if aux:
        out.append(aux.strip('\n') + '\n')
    out.append('/-- `marshal` (%s). -/' % cite(file, r'fn marshal\(', rust))
    tye = tyenc or str(ty)
    one = 'tliv %s x.length %s %s' % (tye, insenc, enc if '\n' not in enc else '')
    out.append('def marshal (x : %s) : Bytes :=' % name)
    if '\n' in enc:
        out.append('  tliv %s x.length %s <|' % (tye, insenc))
        out.append(ind(enc, 4))
    else:
        out.append('  tliv %s x.length %s (%s)' % (tye, insenc, enc) if not re.fullmatch(r'\[[^\]]*\]', enc) else '  ' + one)
    out.append('')
    M = 'm' if (check or usesM) else '_m'
    out.append('/-- `unmarshal` (%s)%s. -/' % (cite(file, r'fn unmarshal\(', rust), decn))
    insx = 'ins := ins &&& 0x0f' if mask else 'ins'
    if unm is not None:
        M = 'm' if re.search(r'\bm\b', unm) else '_m'
        out.append('def unmarshal (%s : Mode) (b : Bytes) : R Err %s := do' % (M, name))
        out.append(ind(unm, 2))
    else:
        rets = ', '.join(['t := %d' % ty, 'length', insx] + ([ret] if ret else []))
        out.append('def unmarshal (%s : Mode) (b : Bytes) : R Err %s := do' % (M, name))
        out.append('  if %d ≤ b.length then' % minlen)
        out.append('    let length ← rd16 b 1')
        out.append('    let ins ← rd b 3')
        n = 4
        if check:
            out.append('    if ← checkTliv m length b then')
            n = 6
        if dec:
            out.append(ind(dec, n))
        r = ' ' * n + 'return { ' + rets + ' }'
        if globals()['len_'](r) > 100:
            r = ' ' * n + 'return { ' + (',\n' + ' ' * (n + 9)).join(split_top(rets)) + ' }'
        out.append(r)
        if check:
            out.append('    else .err (%s)' % eL)
        out.append('  else .err (%s)' % eS)
    out.append('')
    out.append('/-- `len` (%s). -/' % cite(file, r'fn len\(', rust))
    if lendef:
        out.append(lendef.strip('\n'))
    elif len == 'fixed':
        out.append('def len (_m : Mode) (_x : %s) : R Err Nat := .ok %d' % (name, 4 + size))
    elif len == 'U':
        out.append('def len (_m : Mode) (x : %s) : R Err Nat := ieLenU x.length' % name)
    else:
        out.append('def len (m : Mode) (x : %s) : R Err Nat := ieLen16 m x.length' % name)
    out.append('')
    conds = ['x.t = %d' % ty, 'x.length.toNat = ' + length] + ([] if not mask else ['x.ins < 16'])
    hs = ['ht', 'hl'] + ([] if not mask else ['hi'])
    if bound:
        conds.append('x.length.toNat < 65532')
        hs.append('hbd')
    for w in wf:
        if isinstance(w, tuple):
            conds.append('(%s)' % w[1] if re.search('[∀∃∨→]|match', w[1]) else w[1]); hs.append(w[0])
        else:
            assert not re.search('[∀∃∨→]|match', w)
            conds.append(w); hs.append('hv%d' % globals()['len_'](hs))
    out.append('/-- Field values that the encoding of a `%s` can represent. -/' % name)
    one = 'def WF (x : %s) : Prop := %s' % (name, ' ∧ '.join(conds))
    if globals()['len_'](one) <= 100:
        out.append(one)
    else:
        out.append('def WF (x : %s) : Prop :=\n  %s' % (name, ' ∧\n  '.join(conds)))
    out.append('')
    out.append('instance (x : %s) : Decidable x.WF := by unfold WF; infer_instance\n' % name)
    des = '  obtain ⟨%s⟩ := x\n  obtain ⟨%s⟩ := h\n  simp only at %s' % (
        ', '.join(['t', 'length', 'ins'] + [f for f, _ in fields]), ', '.join(hs), ' '.join(hs))
    if aux2:
        out.append(aux2.strip('\n') + '\n')
    out.append('theorem rt : RoundTrips WF marshal unmarshal := by')
    out.append('  intro m x tail h')
    out.append(des)
    hset = ', '.join(h for h in hs)
    if rt is not None:
        out.append(ind(rt, 2))
    else:
        if rtpre:
            out.append(ind(rtpre, 2))
        v = check if rtv is None else rtv
        out.append('  enc_simp [marshal%s]' % ((', ' + rtsimp) if rtsimp else ''))
        out.append('  %s [unmarshal, %s%s]' % ('var_simp' if v == 'var' else 'rtv_simp' if v else 'rt_simp', ', '.join(hs), (', ' + rtsimp) if rtsimp else ''))
    out.append('')
    out.append('theorem len_ok : LenOk WF marshal len := by')
    out.append('  intro m x h')
    if lenok is not None:
        out.append(des)
        out.append(ind(lenok, 2))
    elif len == 'fixed':
        out.append('  have hm : x.marshal.length = %d := by\n%s\n%s    enc_simp [marshal%s]\n    simp [gtp]' % (
            4 + size, ind(des, 2), (ind(rtpre, 4) + '\n') if rtpre else '', (', ' + rtsimp) if rtsimp else ''))
        out.append('  rw [hm]; rfl')
    else:
        if len == '16':
            bpos = hs.index('hbd') if 'hbd' in hs else None
        out.append(des)
        if rtpre:
            out.append(ind(rtpre, 2))
        if len == '16':
            out.append('  simp only [len]')
            out.append('  rw [ieLen16_ok (by omega)]')
            out.append('  enc_simp [marshal%s]' % ((', ' + rtsimp) if rtsimp else ''))
        else:
            out.append('  enc_simp [marshal%s]' % ((', ' + rtsimp) if rtsimp else ''))
            out.append('  simp only [len, ieLenU]')
        out.append('  congr 1')
        out.append('  simp only [List.length_cons, List.length_append, List.length_nil, gtplen]')
        out.append('  try omega')
    out.append('')
    kind = sname or ('FixedSafe %d' % (4 + size) if len == 'fixed' else ('SafeIf (%s)' % safecond if safecond else 'ExactSafe'))
    out.append('theorem safe : %s unmarshal len := by' % kind)
    if safe is not None:
        out.append(ind(safe, 2))
    else:
        if kind.startswith('Fixed'):
            out.append('  intro m b')
            ss = 'unmarshal, len'
        else:
            out.append('  intro m b hb hc')
            out.append('  unfold declLen at *')
            ss = 'unmarshal, len'
            if safecond:
                out.append('  try simp only at hc')
            if check:
                ss += ', Safe_checkTliv hb'
            if len == '16':
                ss += ', ieLen16_ok hb'
        out.append('  safe_simp [%s%s]' % (ss, (', ' + safesimp) if safesimp else ''))
        out.append(ind(safepost, 2) if safepost is not None else '  safe_fin')
    out.append('')
    out.append('end %s' % name)
    cur['parts'].append('\n'.join(out) + '\n')


def enum(name, file, to, frm, els, doc='', ctors=None):
    """to: list of (constructor, octet); frm: list of (octets, constructor); els: catch-all (None: error)"""
    ctors = ctors or [c for c, _ in to]
    o = ['/-- `enum %s` (%s)%s. -/' % (name, cite(file, r'pub enum %s\b' % name), doc)]
    o.append('inductive %s where' % name)
    l = ' '
    for c in ctors:
        if (l + ' | ' + c).__len__() > 98:
            o.append(l); l = ' '
        l += ' | ' + c if l.strip() else ' | ' + c
    o.append(l)
    o.append('deriving DecidableEq, Repr\n')
    o.append('namespace %s\n' % name)
    if name in ctors:
        name = 'V2.' + name
    o.append('/-- The code written for a `%s` (%s). -/' % (name, file))
    o.append('def toU8 : %s → UInt8' % name)
    for c, n in to:
        o.append('  | .%s => %s' % (c, n))
    o.append('')
    o.append('/-- The `%s` read from a code (%s). -/' % (name, file))
    o.append('def ofU8 (i : UInt8) : %s :=' % (name if els else 'Option ' + name))
    first = True
    for n, c in frm:
        ns = n if isinstance(n, (list, tuple)) else [n]
        cond = ' ∨ '.join('i = %s' % k for k in ns)
        o.append('  %sif %s then %s' % ('' if first else 'else ', cond, ('.' + c) if els else 'some .' + c))
        first = False
    o.append('  else %s' % (('.' + els) if els else 'none'))
    o.append('')
    o.append('@[gtp] theorem ofU8_toU8 (v : %s) : ofU8 v.toU8 = %s := by cases v <;> rfl\n' % (name, 'v' if els else 'some v'))
    o.append('end %s' % name.replace('V2.', ''))
    cur['parts'].append('\n'.join(o) + '\n')


def len_(x):
    return x.__len__()


def split_top(s):
    res, d, c = [], 0, ''
    for ch in s:
        if ch in '([{⟨':
            d += 1
        if ch in ')]}⟩':
            d -= 1
        if ch == ',' and d == 0:
            res.append(c.strip()); c = ''
        else:
            c += ch
    res.append(c.strip())
    # join short ones
    out = []
    for r in res:
        if out and out[-1].__len__() + r.__len__() < 80:
            out[-1] += ', ' + r
        else:
            out.append(r)
    return out


def main():
    here = os.path.dirname(os.path.abspath(__file__))
    for f in sorted(glob.glob(os.path.join(here, 'ies_*.py'))):
        exec(compile(open(f).read(), f, 'exec'), globals())
    os.makedirs(OUT, exist_ok=True)
    for mo in MODULES:
        s = ''.join('import %s\n' % i for i in mo['imports'])
        s += '\n/-!\n# %s\n\nExpanded by `scripts/gen_ies.py`; the citations refer to `/repo/src/gtpv2/messages/ies`.\n-/\n\nnamespace Gtp.V2\n\nset_option linter.unusedSimpArgs false\n\n' % mo['doc']
        s += '\n'.join(mo['parts'])
        s += '\nend Gtp.V2\n'
        p = os.path.join(OUT, mo['name'] + '.lean')
        if not os.path.exists(p) or open(p).read() != s:
            open(p, 'w').write(s)
            print('wrote', mo['name'])


main()
