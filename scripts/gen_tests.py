#!/usr/bin/env python3
"""Translate the unit tests of /repo into Lean examples about the model.

Every `assert_eq!` of a `#[test]` function that compares the result of `marshal` or `unmarshal` with a literal becomes one
`example`, checked by the kernel.  The values are read from the Rust text: struct literals, defaults (from the
`impl Default` blocks), constants, addresses, vectors.  Nothing is taken from the Lean model except the names and types of
fields and constructors, which decide how a Rust value is written down in Lean.

    python3 scripts/gen_tests.py            writes lean/Verif/Tests/*.lean
"""
import collections, glob, os, re, sys

REPO = '/repo/src'
LEAN = os.path.join(os.path.dirname(os.path.abspath(__file__)), '..', 'lean', 'Verif')

# ---------------------------------------------------------------- Rust: tokens

TOK = re.compile(r'''\s+|//[^\n]*|/\*.*?\*/|b?"(?:[^"\\]|\\.)*"|b?'(?:[^'\\]|\\.)'|0x[0-9a-fA-F_]+(?:[ui]\d+)?|0b[01_]+(?:[ui]\d+)?|\d[\d_]*(?:[ui]\d+|usize)?|'[a-z]+\b|[A-Za-z_]\w*!?(?!=)|[A-Za-z_]\w*|\.\.=|\.\.|::|->|=>|==|!=|<=|>=|<<|>>|&&|\|\||.''', re.S)

def tokens(s):
    out = []
    for m in TOK.finditer(s):
        t = m.group(0)
        if t[0].isspace() or t.startswith('//') or t.startswith('/*'):
            continue
        out.append(t)
    return out

class Bad(Exception):
    pass

class P:
    """Recursive descent over the expressions that occur in tests and in `Default` blocks."""
    def __init__(self, toks):
        self.t, self.i = toks, 0
    def peek(self, k=0):
        return self.t[self.i + k] if self.i + k < len(self.t) else ''
    def next(self):
        x = self.peek()
        self.i += 1
        return x
    def eat(self, x):
        if self.peek() != x:
            raise Bad(f'expected {x} got {self.peek()} near {" ".join(self.t[self.i-3:self.i+5])}')
        self.i += 1
    def expr(self):
        return self.binor()
    def binor(self):
        a = self.binshift()
        while self.peek() in ('|', '+', '-', '*'):
            o = self.next()
            a = ('bin', o, a, self.binshift())
        return a
    def binshift(self):
        a = self.cast()
        while self.peek() in ('<<', '>>'):
            o = self.next()
            a = ('bin', o, a, self.cast())
        return a
    def cast(self):
        a = self.unary()
        while self.peek() == 'as':
            self.next()
            self.next()
        return a
    def unary(self):
        if self.peek() == '&':
            self.next()
            if self.peek() == 'mut':
                self.next()
            return self.unary()
        if self.peek() == '*':
            self.next()
            return self.unary()
        if self.peek() == '-':
            self.next()
            return ('neg', self.unary())
        return self.postfix()
    def args(self, close):
        out = []
        while self.peek() != close:
            out.append(self.expr())
            if self.peek() == ',':
                self.next()
        self.eat(close)
        return out
    def postfix(self):
        a = self.atom()
        while True:
            if self.peek() == '.':
                self.next()
                f = self.next()
                if self.peek() == '(':
                    self.next()
                    a = ('method', a, f, self.args(')'))
                else:
                    a = ('field', a, f)
            elif self.peek() == '[':
                self.next()
                while self.peek() != ']':
                    self.next()
                self.eat(']')
            else:
                return a
    def atom(self):
        t = self.next()
        if re.match(r'0x|0b|\d', t):
            return ('int', int(re.sub(r'_?(?:[ui](8|16|32|64|128)|usize)$', '', t) if not t.startswith('0x') else t, 0))
        if t.startswith('b"'):
            return ('list', [('int', ord(c)) for c in eval(t[1:])])
        if t.startswith('"'):
            return ('str', eval(t))
        if t.startswith("b'"):
            return ('int', ord(eval(t[1:])))
        if t == '(':
            xs = self.args(')')
            return xs[0] if len(xs) == 1 else ('tuple', xs)
        if t == '[':
            return self.brackets()
        if t == 'vec!':
            self.eat('[')
            return self.brackets()
        if t in ('true', 'false'):
            return ('bool', t == 'true')
        if re.match(r'[A-Za-z_]', t):
            path = [t]
            while self.peek() == '::':
                self.next()
                if self.peek() == '<':
                    while self.next() != '>':
                        pass
                else:
                    path.append(self.next())
            if self.peek() == '(':
                self.next()
                return ('call', path, self.args(')'))
            if self.peek() == '{' and path[-1][0].isupper():
                self.next()
                fs, base = collections.OrderedDict(), None
                while self.peek() != '}':
                    if self.peek() == '..':
                        self.next()
                        base = self.expr()
                    else:
                        f = self.next()
                        if self.peek() == ':':
                            self.next()
                            fs[f] = self.expr()
                        else:
                            fs[f] = ('path', [f])
                    if self.peek() == ',':
                        self.next()
                self.eat('}')
                return ('struct', path, fs, base)
            return ('path', path)
        raise Bad(f'atom {t!r} near {" ".join(self.t[self.i-4:self.i+4])}')
    def brackets(self):
        xs = []
        while self.peek() != ']':
            xs.append(self.expr())
            if self.peek() == ';':
                self.next()
                n = self.expr()
                self.eat(']')
                return ('rep', xs[0], n)
            if self.peek() == ',':
                self.next()
        self.eat(']')
        return ('list', xs)

# ---------------------------------------------------------------- Rust: items

def balanced(s, i, o='{', c='}'):
    """Index just after the bracket that closes the one at `i`."""
    d, j = 0, i
    while j < len(s):
        if s[j] == o:
            d += 1
        elif s[j] == c:
            d -= 1
            if d == 0:
                return j + 1
        j += 1
    raise Bad('unbalanced')

def strip(s):
    """Blank out comments, which nest; the length is kept."""
    out, i, d = [], 0, 0
    while i < len(s):
        two = s[i:i + 2]
        if two == '/*':
            d += 1
            out.append('  ')
            i += 2
        elif d and two == '*/':
            d -= 1
            out.append('  ')
            i += 2
        elif d:
            out.append('\n' if s[i] == '\n' else ' ')
            i += 1
        elif two == '//':
            while i < len(s) and s[i] != '\n':
                out.append(' ')
                i += 1
        elif s[i] == '"':
            m = re.compile(r'"(?:[^"\\]|\\.)*"').match(s, i)
            out.append(m.group(0))
            i = m.end()
        else:
            out.append(s[i])
            i += 1
    return ''.join(out)

class Crate:
    """Constants, struct declarations, defaults and enums of one protocol."""
    def __init__(self, files):
        self.consts, self.structs, self.defaults, self.enums, self.derived = {}, {}, {}, {}, {}
        for f in files:
            s = strip(open(f).read())
            for m in re.finditer(r'(?:pub )?const (\w+): [^=;]+ = ([^;]+);', s):
                self.consts[m.group(1)] = m.group(2)
            for m in re.finditer(r'((?:#\[[^\]]*\]\s*)*)(?:pub )?struct (\w+)\s*\{([^{}]*)\}', s):
                fs = collections.OrderedDict()
                for x in re.finditer(r'(?:pub )?(\w+): ([^\n]+?),?[ \t]*(?:\n|$)', m.group(3)):
                    fs[x.group(1)] = x.group(2).strip()
                self.structs[m.group(2)] = fs
                if re.search(r'derive\([^)]*\bDefault\b', m.group(1)):
                    self.derived[m.group(2)] = True
            for m in re.finditer(r'(?:pub )?enum (\w+)\s*\{', s):
                e = balanced(s, m.end() - 1)
                body = s[m.end():e - 1]
                self.enums[m.group(1)] = body
            for m in re.finditer(r'impl Default for (\w+)\s*\{', s):
                e = balanced(s, m.end() - 1)
                b = s[m.end():e - 1]
                k = b.index('{')
                self.defaults[m.group(1)] = b[k + 1:balanced(b, k) - 1]

    def run(self, body, self_name=None, want=None):
        """The value of a block: `let`s and a final expression."""
        env, toks = {}, tokens(body)
        p = P(toks)
        while p.peek() == 'let':
            p.next()
            if p.peek() == 'mut':
                p.next()
            n = p.next()
            ty = None
            if p.peek() == ':':
                p.next()
                while p.peek() != '=':
                    ty = p.next()
            p.eat('=')
            env[n] = self.ev(p.expr(), env, self_name, ty)
            p.eat(';')
        return self.ev(p.expr(), env, self_name, want)

    def default(self, n):
        if n == 'self':
            raise Bad('self')
        if n in self.defaults:
            return self.run(self.defaults[n], n)
        if n in self.derived:
            fs = collections.OrderedDict()
            for f, t in self.structs[n].items():
                fs[f] = self.default_ty(t)
            return ('struct', n, fs)
        if n in self.enums:
            m = re.search(r'#\[default\]\s*(\w+)', self.enums[n])
            if m:
                return ('enum', n, m.group(1), [])
        raise Bad(f'no default for {n}')

    def default_ty(self, t):
        if re.match(r'[ui]\d+$|usize$', t):
            return ('int', 0)
        if t == 'bool':
            return ('bool', False)
        if t.startswith('Option'):
            return ('none',)
        if t.startswith('Vec'):
            return ('list', [])
        if t == 'String':
            return ('str', '')
        m = re.match(r'\[(\w+);\s*(\d+)\]', t)
        if m:
            return ('list', [('int', 0)] * int(m.group(2)))
        return self.default(t)

    def ev(self, e, env, me=None, want=None):
        want = re.sub(r'Box<([^<>]*)>', r'\1', want) if want else want
        return self.ev1(e, env, me, want)

    def ev1(self, e, env, me, want):
        """Expression to value.  `want` is the Rust type expected, when known."""
        k = e[0]
        if k in ('int', 'bool', 'str'):
            return e
        if k == 'neg':
            return ('int', -self.ev(e[1], env, me)[1])
        if k == 'bin':
            a, b = self.ev(e[2], env, me)[1], self.ev(e[3], env, me)[1]
            return ('int', {'|': a | b, '+': a + b, '-': a - b, '*': a * b, '<<': a << b, '>>': a >> b}[e[1]])
        if k == 'list':
            w = None
            m = re.match(r'Vec<(.*)>$', want or '')
            if m:
                w = m.group(1)
            return ('list', [self.ev(x, env, me, w) for x in e[1]])
        if k == 'rep':
            return ('list', [self.ev(e[1], env, me)] * self.ev(e[2], env, me)[1])
        if k == 'tuple':
            return ('tuple', [self.ev(x, env, me) for x in e[1]])
        if k == 'struct':
            n = e[1][-1]
            if n == 'Self':
                n = me
            decl = self.structs.get(n)
            if decl is None:
                # a struct-like enum variant
                return ('enum', e[1][-2], e[1][-1], [self.ev(x, env, me) for x in e[2].values()])
            got = {}
            for f, x in e[2].items():
                got[f] = self.ev(x, env, me, decl.get(f))
            if e[3] is not None:
                base = self.ev(e[3], env, me, n)
                for f in decl:
                    if f not in got:
                        got[f] = base[2][f]
            if set(got) != set(decl):
                raise Bad(f'fields of {n}: {set(decl) ^ set(got)}')
            return ('struct', n, collections.OrderedDict((f, got[f]) for f in decl))
        if k == 'path':
            p = e[1]
            if p == ['None']:
                return ('none',)
            if len(p) == 1:
                if p[0] in env:
                    return env[p[0]]
                if p[0] in self.consts:
                    return self.ev(P(tokens(self.consts[p[0]])).expr(), {}, me)
            if len(p) >= 2 and p[-2] in self.enums:
                return ('enum', p[-2], p[-1], [])
            if len(p) >= 2 and p[-2] == 'Self' and me in self.enums:
                return ('enum', me, p[-1], [])
            if p[-1] in ('MAX', 'MIN') and re.match(r'u\d+', p[-2]):
                return ('int', 2 ** int(p[-2][1:]) - 1 if p[-1] == 'MAX' else 0)
            if p[-1] == 'UNSPECIFIED':
                return ('ip4', 0) if p[-2] == 'Ipv4Addr' else ('ip6', [0] * 8)
            if p[-1] in self.consts:
                return self.ev(P(tokens(self.consts[p[-1]])).expr(), {}, me)
            raise Bad(f'path {p}')
        if k == 'call':
            p, a = e[1], e[2]
            if p == ['Some']:
                m = re.match(r'Option<(.*)>$', want or '')
                return ('some', self.ev(a[0], env, me, m.group(1) if m else None))
            if p in (['Ok'], ['Err']):
                return (p[0].lower(), self.ev(a[0], env, me))
            if p == ['Box', 'new'] or p[-1] == 'from' and len(p) == 2 and p[0] in ('String', 'Vec'):
                return self.ev(a[0], env, me)
            if p[-2:] == ['Ipv4Addr', 'new']:
                v = 0
                for x in a:
                    v = v * 256 + self.ev(x, env, me)[1]
                return ('ip4', v)
            if p[-2:] == ['Ipv6Addr', 'new']:
                return ('ip6', [self.ev(x, env, me)[1] for x in a])
            if p[-2:] == ['Ipv4Addr', 'from']:
                x = self.ev(a[0], env, me)
                return ('ip4', x[1]) if x[0] == 'int' else ('ip4', int.from_bytes(bytes(y[1] for y in x[1]), 'big'))
            if p[-2:] == ['Ipv6Addr', 'from']:
                x = self.ev(a[0], env, me)
                v = x[1] if x[0] == 'int' else int.from_bytes(bytes(y[1] for y in x[1]), 'big')
                return ('ip6', [(v >> (16 * (7 - j))) & 0xffff for j in range(8)])
            if p[-2:] in (['IpAddr', 'V4'], ['IpAddr', 'V6']):
                return ('enum', 'IpAddr', p[-1], [self.ev(a[0], env, me)])
            if p[-1] == 'default':
                n = p[-2]
                if n in ('Default', 'Box'):
                    n = want
                if n == 'Self':
                    n = me
                if n is None:
                    raise Bad('default of unknown type')
                return self.default(n)
            if p == ['Vec', 'new'] or p == ['String', 'new'] or p == ['Vec', 'with_capacity']:
                return ('list', []) if p[0] == 'Vec' else ('str', '')
            if len(p) >= 2 and p[-2] in self.enums:
                m = re.search(rf'\b{p[-1]}\(([^()]*)\)', self.enums[p[-2]])
                w = m.group(1).split(',') if m else []
                return ('enum', p[-2], p[-1], [self.ev(x, env, me, w[i].strip() if i < len(w) else None) for i, x in enumerate(a)])
            if p == ['u8', 'from']:
                return ('fromu8', self.ev(a[0], env, me))
            if p[-1] == 'from' and p[-2] in self.structs:
                return ('from', p[-2], self.ev(a[0], env, me))
            if p[-1] == 'unmarshal':
                x = self.ev(a[0], env, me)
                return ('unmarshal', p[-2], x)
            if len(p) == 1 and p[0] in ('tbcd_encode', 'tbcd_decode', 'mcc_mnc_encode', 'mcc_mnc_decode'):
                return ('fn', p[0], [self.ev(x, env, me) for x in a])
            raise Bad(f'call {p}')
        if k == 'method':
            a = self.ev(e[1], env, me)
            f = e[2]
            if f in ('to_string', 'to_owned', 'to_vec', 'clone', 'into', 'to_be_bytes', 'as_slice', 'as_str'):
                return a
            if f == 'unwrap':
                return ('unwrap', a)
            if f == 'unwrap_err':
                return ('unwrap_err', a)
            if f == 'octets':
                return a
            raise Bad(f'method {f}')
        if k == 'field':
            a = self.ev(e[1], env, me)
            return a[2][e[2]]
        raise Bad(f'expr {k}')

# ---------------------------------------------------------------- Lean: names and types

class Side:
    """Structures and inductive types of one namespace of the model."""
    def __init__(self, files):
        self.structs, self.inds, self.abbrev = {}, {}, {}
        for f in files:
            s = open(f).read()
            s = re.sub(r'/-.*?-/', '', s, flags=re.S)
            L = s.split('\n')
            ns = []
            i = 0
            while i < len(L):
                l = L[i]
                m = re.match(r'namespace (\S+)', l)
                if m:
                    ns += m.group(1).split('.')
                m = re.match(r'end (\S+)', l)
                if m:
                    for x in reversed(m.group(1).split('.')):
                        if ns and ns[-1] == x:
                            ns.pop()
                m = re.match(r'(?:private )?structure (\S+)(?: \([^)]*\))? where', l)
                if m:
                    fs, j = collections.OrderedDict(), i + 1
                    while j < len(L) and L[j].startswith('  '):
                        x = re.match(r'  ([\w« »]+) : (.*?)(?: := .*)?$', L[j].split(' --')[0])
                        if x:
                            for n in x.group(1).split():
                                fs[n] = x.group(2).strip()
                        j += 1
                    self.structs['.'.join(ns + [m.group(1)])] = fs
                m = re.match(r'inductive (\S+) where(.*)', l)
                if m:
                    j, body = i + 1, m.group(2)
                    while j < len(L) and L[j].startswith('  '):
                        body += ' ' + L[j].strip()
                        j += 1
                    cs = collections.OrderedDict()
                    for c in body.split('|')[1:]:
                        n = c.split()[0]
                        tys = []
                        for x in re.finditer(r'\(([\w ]+) : ([^()]*(?:\([^()]*\)[^()]*)*)\)', c):
                            tys += [x.group(2).strip()] * len(x.group(1).split())
                        cs[n] = tys
                    self.inds['.'.join(ns + [m.group(1)])] = cs
                m = re.match(r'abbrev (\S+) : Type := (.*)|abbrev (\S+) := (.*)', l)
                if m:
                    self.abbrev['.'.join(ns + [m.group(1) or m.group(3)])] = (m.group(2) or m.group(4))
                i += 1

    def find(self, table, name, spaces):
        for ns in spaces:
            k = ns + '.' + name if ns else name
            if k in table:
                return k
        return None

RENAME = {}

def squash(s):
    return re.sub(r'[^a-z0-9]', '', s.lower())

class Emit:
    def __init__(self, side, a, crate):
        self.s, self.sp, self.c, self.a = side, a['spaces'], crate, a

    def emit(self, v, ty):
        ty = ty.strip()
        while ty.startswith('(') and ty.endswith(')') and balanced(ty, 0, '(', ')') == len(ty):
            ty = ty[1:-1].strip()
        if ty.startswith('Option '):
            if v[0] == 'none':
                return 'none'
            if v[0] != 'some':
                raise Bad(f'{v[0]} as {ty}')
            return f'(some {self.emit(v[1], ty[7:])})'
        if v[0] in ('some', 'none'):
            raise Bad(f'option as {ty}')
        if ty in ('Bytes', 'List UInt8', 'List Octet'):
            if v[0] == 'marshal':
                t, how = target(self, self.a, v[1][1])
                return f'({marshal_fn(self.a, t, how)} ({self.emit(v[1], t)} : {t}))'
            if v[0] == 'ip4':
                return '[' + ', '.join(str(x) for x in v[1].to_bytes(4, 'big')) + ']'
            if v[0] == 'str':
                return '[' + ', '.join(str(ord(c)) for c in v[1]) + ']'
            if v[0] == 'ip6':
                return '[' + ', '.join(f'{x >> 8}, {x & 255}' for x in v[1]) + ']'
            return '[' + ', '.join(str(self.num(x)) for x in v[1]) + ']'
        if ty.startswith('List ') and ty != 'List Char':
            return '[' + ', '.join(self.emit(x, ty[5:]) for x in v[1]) + ']'
        if ty in ('Str', 'List Char'):
            if v[0] == 'list':
                return '[' + ', '.join(f'Char.ofNat {self.num(x)}' for x in v[1]) + ']'
            assert v[0] == 'str', (v, ty)
            return '[' + ', '.join("'" + ('\\' if c in "'\\" else '') + c + "'" for c in v[1]) + ']'
        if ty in ('UInt8', 'UInt16', 'UInt32', 'UInt64', 'Nat', 'Int8'):
            if v[0] == 'ip4':
                return str(v[1])
            n = self.num(v)
            return f'({n})' if n < 0 else str(n)
        if ty == 'Bool':
            if v[0] != 'bool':
                raise Bad(f'{v} as Bool')
            return 'true' if v[1] else 'false'
        parts = ty.split(' × ')
        if len(parts) > 1:
            if v[0] != 'tuple':
                raise Bad(f'{v[0]} as {ty}')
            return '(' + ', '.join(self.emit(x, t) for x, t in zip(v[1], parts)) + ')'
        if ty == 'Ip6' or ty.endswith('.Ip6'):
            b = b''.join(x.to_bytes(2, 'big') for x in v[1])
            return IP6(b)
        sp = self.sp
        k = self.s.find(self.s.abbrev, ty, sp)
        if k:
            return self.emit(v, self.s.abbrev[k])
        k = self.s.find(self.s.structs, ty, sp)
        if k:
            fs = self.s.structs[k]
            if v[0] == 'enum' and len(v[3]) == 1 and v[3][0][0] == 'struct':
                raise Bad(f'enum {v[1]} for struct {ty}')
            if v[0] == 'from':
                return f'({v[1]}.ofU8 {self.num(v[2])})'
            if v[0] != 'struct':
                raise Bad(f'{v[:2]} as struct {ty}')
            out = []
            rf = {squash(f): f for f in v[2]}
            used = set()
            rk = list(v[2])
            for q, (f, t) in enumerate(fs.items()):
                g = rf.get(squash(f))
                if g is None:
                    g = ALIAS.get((v[1], f))
                if g is None and len(fs) == len(rk) and squash(rk[q]) not in [squash(z) for z in fs]:
                    g = rk[q]
                if g is None:
                    raise Bad(f'field {f} of {ty} not among {list(v[2])}')
                used.add(g)
                x = v[2][g]
                if g == 'exts' or t == 'Option (List ExtHdr)':
                    pass
                out.append(f'{f} := {self.emit(x, t)}')
            miss = [g for g in v[2] if g not in used]
            if miss:
                raise Bad(f'Rust fields {miss} of {v[1]} not in the model')
            return '{ ' + ', '.join(out) + ' }'
        k = self.s.find(self.s.inds, ty, sp)
        if k:
            cs = {squash(c): c for c in self.s.inds[k]}
            if v[0] == 'enum':
                if v[1] == 'Error' or True:
                    c = cs.get(squash(v[2])) or cs.get(squash(CTOR.get((v[1], v[2]), '')))
                if c is None:
                    raise Bad(f'{v[1]}::{v[2]} not in {ty}: {list(self.s.inds[k])}')
                tys = self.s.inds[k][c]
                if len(tys) != len(v[3]):
                    raise Bad(f'{v[1]}::{v[2]} arity {len(v[3])} vs {tys}')
                return f'.{c}' if not tys else '(.' + c + ''.join(' ' + self.par(self.emit(x, t)) for x, t in zip(v[3], tys)) + ')'
            if v[0] in ('ip4', 'ip6') and 'v4' in cs:
                return f"(.{cs['v4' if v[0] == 'ip4' else 'v6']} {self.emit(v, self.s.inds[k][cs['v4' if v[0] == 'ip4' else 'v6']][0])})"
            if v[0] == 'struct' and squash(v[1]) in cs:
                c = cs[squash(v[1])]
                return f'(.{c} {self.emit(v, self.s.inds[k][c][0])})'
            if v[0] == 'int' and ty == 'NodeId':
                return f'(.NwAddr {v[1]})'
            raise Bad(f'{v[:2]} as {ty}')
        raise Bad(f'unknown Lean type {ty}')

    def par(self, s):
        return s if re.match(r'^[\w.]+$|^[\[({⟨]', s) else f'({s})'

    def num(self, v):
        if v[0] == 'int':
            return v[1]
        if v[0] == 'bool':
            return int(v[1])
        if v[0] == 'enum':
            m = re.search(rf'\b{v[2]}\s*=\s*(\w+)', self.c.enums[v[1]])
            if m:
                return int(m.group(1), 0)
            names = [x.strip().split('(')[0].strip() for x in re.sub(r'#\[[^\]]*\]', '', self.c.enums[v[1]]).split(',') if x.strip()]
            if all('=' not in x for x in names):
                return names.index(v[2])
        raise Bad(f'{v[:3]} as number')

ALIAS, CTOR = {('Gtpv2Header', 'prio'): 'message_prio'}, {
    ('ExtensionHeader', 'MBMSSupportIndication'): 'mbmsSupport', ('ExtensionHeader', 'MSInfoChangeReportingSupportIndication'): 'msInfoChange'}

def IP6(b):
    return f'⟨{int.from_bytes(b[:8], "big")}, {int.from_bytes(b[8:], "big")}⟩'

# ---------------------------------------------------------------- tests

def tests(f):
    s = open(f).read()
    for m in re.finditer(r'#\[test\]\s*(?:#\[[^\]]*\]\s*)*fn (\w+)\(\)\s*\{', s):
        t = strip(s)
        e = balanced(t, m.end() - 1) if len(t) == len(s) else None
        if e is None:
            # comments were removed: find the function again in the stripped text
            k = re.search(rf'fn {m.group(1)}\(\)\s*\{{', t)
            e = balanced(t, k.end() - 1)
            body = t[k.end():e - 1]
        else:
            body = t[m.end():e - 1]
        yield m.group(1), s[:m.start()].count('\n') + 1, body

def statements(crate, body):
    """Run a test; yield the comparisons."""
    env, p = {}, P(tokens(body))
    while p.i < len(p.t):
        if p.peek() == 'use':
            while p.next() != ';':
                pass
            continue
        if p.peek() == 'let':
            p.next()
            if p.peek() == 'mut':
                p.next()
            n = p.next()
            ty = None
            if p.peek() == ':':
                p.next()
                ty = ''
                d = 0
                while p.peek() != '=' or d:
                    x = p.next()
                    d += {'[': 1, ']': -1}.get(x, 0)
                    ty += x
            p.eat('=')
            env[n] = crate.ev(p.expr(), env, None, ty)
            p.eat(';')
            if n == '_result':
                yield env[n], ('nopanic',)
            continue
        if p.peek() == 'assert_eq!':
            p.next()
            p.eat('(')
            a, b = p.args(')')[:2]
            if p.peek() == ';':
                p.next()
            yield crate.ev(a, env), crate.ev(b, env)
            continue
        if p.peek() == 'buffer' and p.peek(2) == 'iter':
            while p.next() != ';':
                pass
            continue
        # x.marshal(&mut buffer); x.f = e; other statements
        e = p.expr()
        if p.peek() == '=':
            p.next()
            r = p.expr()
            assert e[0] == 'field' and e[1][0] == 'path'
            old = env[e[1][1][0]]
            fs = collections.OrderedDict(old[2])
            fs[e[2]] = crate.ev(r, env)
            env[e[1][1][0]] = ('struct', old[1], fs)
        elif e[0] == 'method' and e[2] == 'marshal':
            env[e[3][0][1][0]] = ('marshal', crate.ev(e[1], env))
        else:
            raise Bad(f'statement {e[:3]}')
        p.eat(';')

AREAS = [
    # name, Rust files, crate files, Lean files, namespaces, target of messages
    dict(name='V2Ies', rust='gtpv2/messages/ies/**/*.rs', crate='gtpv2/**/*.rs', lean=['V2/**/*.lean', 'Basic.lean', 'Utils.lean'],
         spaces=['Gtp.V2', 'Gtp'], err='Err'),
    dict(name='V2Msg', rust='gtpv2/messages/*.rs', crate='gtpv2/**/*.rs', lean=['V2/**/*.lean', 'Basic.lean', 'Utils.lean'],
         spaces=['Gtp.V2.Msg', 'Gtp.V2', 'Gtp'], err='Err'),
    dict(name='V2Other', rust='gtpv2/*.rs', crate='gtpv2/**/*.rs', lean=['V2/**/*.lean', 'Basic.lean', 'Utils.lean'],
         spaces=['Gtp.V2', 'Gtp'], err='Err'),
    dict(name='V1Other', rust='gtpv1/*.rs', crate='gtpv1/*.rs', lean=['V1/*.lean', 'Basic.lean', 'Utils.lean'],
         spaces=['Gtp.V1', 'Gtp'], err='Err'),
    dict(name='C1', rust='gtpv1/gtpc/**/*.rs', crate='gtpv1/**/*.rs', lean=['C1/**/*.lean', 'V1/*.lean', 'Basic.lean', 'Utils.lean'],
         spaces=['Gtp.C1', 'Gtp.V1', 'Gtp'], err='Err'),
    dict(name='U', rust='gtpv1/gtpu/**/*.rs', crate='gtpv1/**/*.rs', lean=['U/**/*.lean', 'V1/*.lean', 'Basic.lean', 'Utils.lean'],
         spaces=['Gtp.U', 'Gtp.V1', 'Gtp'], err='Err'),
]

def main():
    only = sys.argv[1:]
    for a in AREAS:
        if only and a['name'] not in only:
            continue
        sub = a['crate']
        files = sorted(glob.glob(f'{REPO}/{sub}', recursive=True))
        if a['name'] in ('C1', 'U'):
            other = 'gtpu' if a['name'] == 'C1' else 'gtpc'
            files = [f for f in files if f'/{other}/' not in f]
        crate = Crate(files)
        side = Side([f for g in a['lean'] for f in sorted(glob.glob(f'{LEAN}/{g}', recursive=True))])
        em = Emit(side, a, crate)
        out, bad, n = [], [], 0
        for f in sorted(glob.glob(f'{REPO}/{a["rust"]}', recursive=True)):
            rel = os.path.relpath(f, '/repo/src')
            for name, line, body in tests(f):
                k = 0
                try:
                    for x, y in statements(crate, body):
                        out.append(lemma(em, a, rel, name, line, x, y))
                        k += 1
                    if k == 0:
                        bad.append((rel, name, 'no comparison'))
                except (Bad, AssertionError, KeyError, IndexError, TypeError, ValueError) as e:
                    bad.append((rel, name, f'{type(e).__name__}: {e}'[:300]))
                n += k
        print(a['name'], 'examples', n, 'untranslated', len(bad))
        for b in bad:
            print('   ', *b)
        write(a, out)

GROUPED = {'BearerContext', 'LoadControl', 'OverloadControlInfo', 'RemoteUeContext', 'ScefPdnConnections', 'PC5QosParameters',
           'PgwChangeInfo', 'PdnConnections', 'V2xInformation'}

def target(em, a, n):
    """(Lean name, how it is called) of a Rust type with `marshal`/`unmarshal`."""
    if n in ('Gtpv2Header', 'Gtpv1Header'):
        return 'Header', 'hdr'
    n = TYPES.get((a['name'], n), n)
    if n == 'GroupedIe':
        return n, 'group'
    if n in GROUPED and a['name'].startswith('V2'):
        return n, 'grouped'
    if n in ('AuthTriplet', 'AuthQuintuplet', 'AuthQuadruplet', 'AmbrMM', 'OldEpsSecurityContext', 'ApnRateControlStatusMM'):
        return n, 'part'
    k = em.s.find(em.s.structs, n, a['spaces']) or em.s.find(em.s.inds, n, a['spaces'])
    if not k:
        raise Bad(f'no model of {n}')
    if k.startswith('Gtp.V2.Msg.'):
        return n, 'codec'
    return n, 'plain'

# Comparisons whose expected value is not what the code computes.
WRONG = {
    ('mcc_mnc_encode', 88): lambda x, y: x[2][1] == ('int', 12),
    ('mcc_mnc_decode', 152): lambda x, y: y[1][1] == ('int', 12),
    ('mcc_mnc_encode', 83): lambda x, y: x[2][1] == ('int', 12),
    ('mcc_mnc_decode', 147): lambda x, y: y[1][1] == ('int', 12),
}

FNS = {
    'tbcd_encode': ('tbcdEncode', ['Str'], ('', 'Bytes')),
    'tbcd_decode': ('tbcdDecode', ['Bytes'], ('', 'Str')),
    'mcc_mnc_encode': ('(mccMncEncodeR (ε := Unit))', ['UInt16', 'UInt16', 'Bool'], ('.ok ', 'Bytes')),
    'mcc_mnc_decode': ('(mccMncDecode (ε := Unit))', ['Bytes'], ('.ok ', 'UInt16 × UInt16 × Bool')),
}

TYPES = {
    ('C1', 'PDCPPDUNumber'): 'Fixed', ('C1', 'SuspendRequest'): 'Fixed', ('C1', 'SuspendResponse'): 'Fixed',
    ('C1', 'MBMSSupportIndication'): 'Fixed', ('C1', 'MSInfoChangeReportingSupportIndication'): 'Fixed',
    ('U', 'PDCPPDUNumber'): 'PdcpPduNumber', ('U', 'UDPPort'): 'UdpPort', ('U', 'LongPDCPPDUNumber'): 'LongPdcpPduNumber',
    ('U', 'RanContainer'): 'Container', ('U', 'XwRanContainer'): 'Container', ('U', 'NrRanContainer'): 'Container',
    ('U', 'PduSessionContainer'): 'Container', ('U', 'Unknown'): 'Container',
    ('U', 'ExtensionHeaderTypeList'): 'ExtTypeList', ('U', 'SupportedExtensionHeadersNotification'): 'SupportedExt',
}

def lemma(em, a, rel, name, line, x, y):
    head = f'-- `{name}` ({rel}:{line})\n'
    if x[0] == 'marshal' and x[1][1] == 'GroupedIe':
        g = x[1][2]
        return head + f'example : IE.groupMar IE.marshal {em.num(g["t"])} {em.num(g["length"])} {em.num(g["ins"])} {em.emit(g["elements"], "List IE")} = {em.emit(y, "Bytes")} := by\n  decide +kernel\n'
    if x[0] == 'unwrap' and x[1][0] == 'unmarshal' and x[1][1] == 'GroupedIe':
        g = y[2]
        return head + f'example : groupUnm (decoder .debug) (fun t l i e => (t, l, i, e)) .debug {em.emit(x[1][2], "Bytes")} = .ok ({em.num(g["t"])}, {em.num(g["length"])}, {em.num(g["ins"])}, {em.emit(g["elements"], "List IE")}) := by\n  decide +kernel\n'
    if x[0] == 'marshal':
        v = x[1]
        t, how = target(em, a, v[1])
        val = em.emit(v, t)
        enc = em.emit(y, 'Bytes')
        fn = marshal_fn(a, t, how)
        return head + f'example : {fn} ({val} : {t}) = {enc} := by\n  decide +kernel\n'
    if x[0] == 'unwrap' and x[1][0] == 'unmarshal':
        t, how = target(em, a, x[1][1])
        enc = em.emit(x[1][2], 'Bytes')
        return head + f'example : {unmarshal_fn(a, t, how, x[1][1], em)} {enc} = .ok {em.emit(y, t)} := by\n  decide +kernel\n'
    if x[0] == 'unmarshal' and y[0] == 'nopanic':
        t, how = target(em, a, x[1])
        return head + f'example : {unmarshal_fn(a, t, how, x[1], em)} {em.emit(x[2], "Bytes")} ≠ .panic := by\n  decide +kernel\n'
    if x[0] == 'fn':
        lean, tys, res = FNS[x[1]]
        if (x[1], line) in WRONG:
            return head + '-- The expectation in the repository does not hold of the code: the test fails.\n' + f'example : {lean} ' + ' '.join(em.par(em.emit(v, t)) for v, t in zip(x[2], tys)) + f' ≠ {res[0]}{em.par(em.emit(y, res[1]))} := by\n  decide +kernel\n' if WRONG[x[1], line](x, y) else head + f'example : {lean} ' + ' '.join(em.par(em.emit(v, t)) for v, t in zip(x[2], tys)) + f' = {res[0]}{em.par(em.emit(y, res[1]))} := by\n  decide +kernel\n'
        return head + f'example : {lean} ' + ' '.join(em.par(em.emit(v, t)) for v, t in zip(x[2], tys)) + f' = {res[0]}{em.par(em.emit(y, res[1]))} := by\n  decide +kernel\n'
    if x[0] == 'from' and y[0] == 'struct':
        return head + f'example : {x[1]}.ofU8 {em.num(x[2])} = {em.emit(y, x[1])} := by\n  decide +kernel\n'
    if x[0] == 'fromu8' and y[0] == 'int':
        return head + f'example : {x[1][1]}.toU8 {em.emit(x[1], x[1][1])} = {y[1]} := by\n  decide +kernel\n'
    if x[0] == 'unwrap_err':
        x, y = x[1], ('err', y)
    if x[0] == 'unmarshal' and y[0] in ('ok', 'err'):
        t, how = target(em, a, x[1])
        enc = em.emit(x[2], 'Bytes')
        r = f'.ok {em.emit(y[1], t)}' if y[0] == 'ok' else f'.err {em.emit(y[1], "Err")}'
        return head + f'example : {unmarshal_fn(a, t, how, x[1], em)} {enc} = {r} := by\n  decide +kernel\n'
    raise Bad(f'comparison {x[0]} {y[0]}')

def marshal_fn(a, t, how):
    if how == 'codec':
        return f'{t}.codec.marshal'
    if how == 'grouped' or t == 'Unknown' and a['name'] == 'V2Ies':
        return f'(fun x => IE.marshal (.{ {"LoadControl": "LoadControlInfo"}.get(t, t) } x))'
    if how == 'part':
        return f'{t}.octets'
    if a['name'] == 'C1' and (t.endswith('Request') or t.endswith('Response') or t.endswith('GGSN')) and t not in C1SIMPLE:
        return f'{t}.desc.marshalInto []'
    if a['name'] in ('U', 'C1') and t in INTO[a['name']]:
        return f'{t}.marshalInto []'
    return f'{t}.marshal'

C1SIMPLE = {'EchoRequest', 'EchoResponse'}
INTO = {'U': {'EchoRequest', 'EchoResponse', 'EndMarker', 'ErrorIndication', 'Gpdu', 'SupportedExt'},
        'C1': {'EchoRequest', 'EchoResponse', 'VersionNotSupported', 'SupportedExtensionHeadersNotification'}}
NOMODE = {('U', 'Recovery'), ('U', 'Teid')}

def unmarshal_fn(a, t, how, n, em):
    if how == 'codec':
        return f'{t}.codec.unmarshal .debug'
    if how == 'grouped':
        return f'groupUnm (decoder .debug) {t}.ofGroup .debug'
    if how == 'part':
        return f'{t}.unm'
    if t == 'Container':
        return f'Container.unmarshal .debug {em.num(em.c.default(n)[2]["extension_header_type"])}' if n != 'Unknown' else 'unknownUnmarshal .debug'
    if t == 'Fixed':
        return f'Fixed.unmarshal {em.num(em.c.default(n)[2]["extension_header_type"])} .debug'
    if t == 'Header' and a['name'].startswith('V2'):
        return 'Header.unmarshal'
    if (a['name'], t) in NOMODE:
        return f'{t}.unmarshal'
    return f'{t}.unmarshal .debug'

def write(a, out):
    per = 120
    parts = [out[i:i + per] for i in range(0, len(out), per)]
    imp = {'V2Ies': ['Verif.V2.IE'], 'V2Msg': ['Verif.V2.Msg.All'], 'V2Other': ['Verif.V2.Header'], 'V1Other': ['Verif.Utils', 'Verif.V1.Err'],
           'C1': ['Verif.C1.Msgs', 'Verif.C1.Simple'], 'U': ['Verif.U.Msgs']}[a['name']]
    for i, p in enumerate(parts):
        fn = f'{LEAN}/Tests/{a["name"]}_{i + 1}.lean'
        s = ''.join(f'import {x}\n' for x in imp)
        s += f'\n/-!\n# The unit tests under `src/{a["rust"].split("*")[0]}`, run on the model ({i + 1} of {len(parts)})\n\n'
        s += 'Generated by `scripts/gen_tests.py`.  These are tests of the model against the expectations written in the\nrepository, not proofs of properties.\n-/\n\n'
        s += f'namespace {a["spaces"][0]}\n' + ''.join(f'open {x}\n' for x in a['spaces'][1:]) + 'set_option maxRecDepth 100000\n\n'
        s += '\n'.join(p)
        s += f'\nend {a["spaces"][0]}\n'
        open(fn, 'w').write(s)

if __name__ == '__main__':
    main()
