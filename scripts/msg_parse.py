"""Parses the message files of /repo/src/gtpv2/messages: struct fields, tovec, fromvec.

Used by gen_msgs.py. Everything that does not have one of the known forms raises an error."""
import os, re

D = '/repo/src/gtpv2/messages'
# Not listed in messages/mod.rs and not compilable (refers to fields that do not exist).
SKIP = {'configurationtransfertunnel.rs'}


def block(s, i):
    """The brace (or bracket) block starting at s[i]."""
    o = s[i]
    c = {'{': '}', '(': ')', '[': ']'}[o]
    d = 0
    for j in range(i, len(s)):
        if s[j] == o:
            d += 1
        elif s[j] == c:
            d -= 1
            if d == 0:
                return s[i:j + 1]
    raise ValueError(s[i:i + 60])


def norm(x):
    return re.sub(r'\s+', ' ', x).strip()


def split_top(s, seps):
    out, d, cur = [], 0, ''
    for ch in s:
        if ch in '{([':
            d += 1
        if ch in '})]':
            d -= 1
        if ch in seps and d == 0:
            out.append(cur.strip())
            cur = ''
        else:
            cur += ch
    if cur.strip():
        out.append(cur.strip())
    return out


def statements(s):
    """Statements of a block body (without braces)."""
    out, d, cur = [], 0, ''
    for i, ch in enumerate(s):
        if ch in '{([':
            d += 1
        if ch in '})]':
            d -= 1
        if ch == ';' and d == 0:
            if cur.strip():
                out.append(cur.strip())
            cur = ''
            continue
        cur += ch
        if ch == '}' and d == 0:
            rest = s[i + 1:].lstrip()
            if not rest.startswith('else') and not rest.startswith(')') and not rest.startswith('.'):
                out.append(cur.strip())
                cur = ''
    if cur.strip():
        out.append(cur.strip())
    return out


def match_arms(inner):
    arms, pos = [], 0
    while pos < len(inner):
        m = re.match(r'\s*(.*?) => ', inner[pos:])
        if not m:
            assert not inner[pos:].strip(), inner[pos:]
            break
        pat = m.group(1)
        pos += m.end()
        if inner[pos] == '{':
            b = block(inner, pos)
            pos += len(b)
            if inner[pos:].lstrip().startswith(','):
                pos = inner.index(',', pos) + 1
        else:
            d, st = 0, pos
            while pos < len(inner):
                ch = inner[pos]
                if ch in '{([':
                    d += 1
                if ch in '})]':
                    d -= 1
                if ch == ',' and d == 0:
                    break
                pos += 1
            b = inner[st:pos].strip()
            pos += 1
        arms.append((pat.strip(), b))
    return arms


J = r'(?:j|j\.clone\(\)|\*j|i|i\.clone\(\))'


def cond_of(expr, val):
    """The condition `expr` matches the pattern `val`."""
    expr, val = expr.strip(), val.strip()
    if val == '_':
        return []
    if expr in ('j.ins', 'j.get_ins()'):
        if val.isdigit():
            return [('ins', '=', int(val))]
        m = re.fullmatch(r'i if i < (\d+)', val)
        if m:
            return [('ins', '<', int(m.group(1)))]
    m = re.fullmatch(r'self ?\.(\w+) ?\.is_none\(\)', expr)
    if m and val == 'true':
        return [('none', m.group(1))]
    m = re.fullmatch(r'self ?\.(\w+) ?\.is_some\(\)', expr)
    if m and val == 'false':
        return [('none', m.group(1))]
    m = re.fullmatch(r'mandatory(?:\[(\d+)\])?', expr)
    if m and val == 'false':
        return [('flag', int(m.group(1) or 0))]
    m = re.fullmatch(r'mandatory\.iter\(\)\.find\(\|&&x\| x == (\w+)\)', expr)
    if m and val == 'None':
        return [('absent', m.group(1))]
    raise ValueError((expr, val))


def tuple_of(e):
    e = e.strip()
    if e.startswith('(') and len(block(e, 0)) == len(e):
        return split_top(e[1:-1], ',')
    return [e]


def conds(exprs, pats):
    exprs, pats = tuple_of(exprs), tuple_of(pats)
    assert len(exprs) == len(pats), (exprs, pats)
    out = []
    for e, p in zip(exprs, pats):
        out += cond_of(e, p)
    return out


def run(stmt, cs):
    """Rules (conditions, actions) of a statement."""
    stmt = stmt.strip()
    if stmt == '' or stmt == '()':
        return []
    if stmt.startswith('{'):
        b = block(stmt, 0)
        assert len(b) == len(stmt), stmt
        return run_seq(statements(b[1:-1]), cs)
    m = re.match(r'if let (.*?) = (.*?) \{', stmt)
    if m and not stmt.startswith('if let Some'):
        k = stmt.index('{', m.end() - 1)
        b = block(stmt, k)
        assert k + len(b) == len(stmt), stmt
        return run(b, cs + conds(m.group(2), m.group(1)))
    m = re.match(r'if (.*?) \{', stmt)
    if m:
        b = block(stmt, m.end() - 1)
        assert m.end() - 1 + len(b) == len(stmt), stmt
        c = []
        for p in m.group(1).split('&&'):
            p = p.strip()
            a = re.fullmatch(r'j\.ins (==|<) (\d+)', p)
            if a:
                c.append(('ins', '=' if a.group(1) == '==' else '<', int(a.group(2))))
                continue
            a = re.fullmatch(r'!mandatory\[(\d+)\]', p)
            if a:
                c.append(('flag', int(a.group(1))))
                continue
            a = re.fullmatch(r'self ?\.(\w+)\.is_none\(\)', p)
            if a:
                c.append(('none', a.group(1)))
                continue
            raise ValueError(p)
        return run(b, cs + c)
    m = re.match(r'match (.*?) \{', stmt)
    if m:
        b = block(stmt, m.end() - 1)
        assert m.end() - 1 + len(b) == len(stmt), stmt
        out = []
        for p, a in match_arms(b[1:-1]):
            if p == '_' or re.fullmatch(r'\((_, )*_\)', p):
                assert a == '()', a
                continue
            out += run(a, cs + conds(m.group(1), p))
        return out
    return run_seq([stmt], cs)


def action(s):
    m = re.fullmatch(r'self ?\.(\w+) ?= ?Some\(' + J + r'\)', s)
    if m:
        return [('some', m.group(1))]
    m = re.fullmatch(r'self ?\.(\w+) ?= ?' + J, s)
    if m:
        return [('set', m.group(1))]
    m = re.fullmatch(r'self ?\.(\w+) ?\.push\(' + J + r'\)', s)
    if m:
        return [('push', m.group(1))]
    m = re.fullmatch(r'mandatory(?:\[(\d+)\])? = true', s)
    if m:
        return [('flag', int(m.group(1) or 0))]
    m = re.fullmatch(r'\(self ?\.(\w+), mandatory(?:\[(\d+)\])?\) = \(' + J + r', true\)', s)
    if m:
        return [('set', m.group(1)), ('flag', int(m.group(2) or 0))]
    if s == 'mandatory.push(j.t)':
        return [('pusht',)]
    return None


def run_seq(ss, cs):
    acts, out = [], []
    for s in ss:
        if re.match(r'(if|match) ', s) or s.startswith('{'):
            out += run(s, cs)
        else:
            a = action(s)
            if a is None:
                raise ValueError(s)
            acts += a
    if acts:
        assert not out, ss
        out = [(cs, acts)]
    return out


UNM = ('{ let mut message = X::default(); match Gtpv2Header::unmarshal(buffer) { Ok(i) => message.header = i, Err(j) => return Err(j), } '
       'if message.header.msgtype != CONST { return Err(GTPV2Error::MessageIncorrectMessageType); } '
       'let offset = message.header.length as usize + MANDATORY_HDR_LENGTH; if buffer.len() >= offset { '
       'match InformationElement::decoder(&buffer[START..offset]) { Ok(i) => match message.fromvec(i) { Ok(_) => Ok(message), Err(j) => Err(j), }, '
       'Err(j) => Err(j), } } else { Err(GTPV2Error::MessageInvalidMessageFormat) } }')
UNM0 = ('{ let mut message = X::default(); match Gtpv2Header::unmarshal(buffer) { Ok(i) => message.header = i, Err(j) => return Err(j), } '
        'if message.header.msgtype != CONST { return Err(GTPV2Error::MessageIncorrectMessageType); } Ok(message) }')
MAR = ('{ self.header.marshal(buffer); let elements = self.tovec(); elements.into_iter().for_each(|k| k.marshal(buffer)); '
       'set_msg_length(buffer); }')
MAR0 = '{ self.header.marshal(buffer); set_msg_length(buffer); }'


class Msg:
    pass


def load():
    consts = {}
    for root, _, fs in os.walk('/repo/src/gtpv2'):
        for f in fs:
            for n, v in re.findall(r'pub const (\w+): u8 = (\d+);', open(os.path.join(root, f)).read()):
                assert consts.get(n, int(v)) == int(v), n
                consts[n] = int(v)
    into = {}
    for f in os.listdir(D + '/ies'):
        s = open(D + '/ies/' + f).read()
        for m in re.finditer(r'impl From<(\w+)> for InformationElement \{\s*fn from\(\w+: \w+\) -> Self \{\s*(.*?)\s*\}', s, re.S):
            a = re.fullmatch(r'InformationElement::(\w+)\(\w+(?:\.into\(\))?\)', norm(m.group(2)))
            assert a, m.group(0)
            into[m.group(1)] = a.group(1)
    into['MmContext'] = 'MmContext'
    variants = {}
    s = open(D + '/ies/ie.rs').read()
    m = re.search(r'pub enum InformationElement \{', s)
    for n, t in re.findall(r'(\w+)\((?:Box<)?(\w+)>?\)', block(s, m.end() - 1)):
        variants[n] = t
    out = []
    for f in sorted(os.listdir(D)):
        if not f.endswith('.rs') or f in ('mod.rs', 'commons.rs') or f in SKIP:
            continue
        raw = open(D + '/' + f).read()
        s = re.sub(r'//[^\n]*', lambda m: ' ' * len(m.group(0)), raw)
        i = s.find('#[test]')
        if i >= 0:
            s = s[:i]
        x = Msg()
        m = re.search(r'impl Messages for (\w+) \{', s)
        x.name, x.file = m.group(1), f
        imp0 = m.end() - 1

        def fn(name, start=0):
            m = re.search(r'fn %s\b[^{]*\{' % name, s[start:])
            a = start + m.start()
            b = block(s, start + m.end() - 1)
            e = start + m.end() - 1 + len(b)
            return norm(b), (s[:a].count('\n') + 1, s[:e].count('\n') + 1)
        m = re.search(r'pub struct %s \{' % x.name, s)
        st = block(s, m.end() - 1)
        x.struct_lines = (s[:m.start()].count('\n') + 1, s[:m.end() - 1 + len(st)].count('\n') + 1)
        x.fields = []
        for fd in split_top(st[1:-1], ','):
            a = re.fullmatch(r'pub (\w+): (\S+)', norm(fd))
            n, t = a.groups()
            if n == 'header':
                assert t == 'Gtpv2Header'
                continue
            a = re.fullmatch(r'(Option|Vec)<(\w+)>', t)
            x.fields.append((n, a.group(1) if a else 'One', a.group(2) if a else t))
        cs = re.findall(r'const (\w+): u8 = (\d+);', s)
        assert len(cs) == 1
        x.const, x.msgtype = cs[0][0], int(cs[0][1])
        mar, x.marshal_lines = fn('marshal', imp0)
        unm, x.unmarshal_lines = fn('unmarshal', imp0)
        tov, x.tovec_lines = fn('tovec', imp0)
        frv, x.fromvec_lines = fn('fromvec', imp0)
        dfl, x.default_lines = fn('default')
        u = re.sub(r'\b%s\b' % x.name, 'X', unm)
        u = re.sub(r'\b%s\b' % x.const, 'CONST', u)
        a = re.search(r'buffer\[(\w+)\.\.offset\]', u)
        x.start = None
        if a:
            x.start = {'MIN_HEADER_LENGTH': 8, 'MAX_HEADER_LENGTH': 12}[a.group(1)]
            u = u.replace(a.group(1) + '..offset', 'START..offset')
            assert u == UNM, f
        else:
            assert u == UNM0, f
        if mar == MAR0:
            assert tov == '{ vec![] }', f
        else:
            assert mar == MAR, f
        # default: every field None / empty / the default of its type
        for n, c, t in x.fields:
            v = {'One': t + '::default()', 'Option': 'None', 'Vec': '(vec!\\[\\]|Vec::new\\(\\))'}[c]
            assert re.search(r'\b%s: %s' % (n, v), dfl) or re.search(r'\.\.Default', dfl), (f, n)
        # tovec
        order = []
        for q in statements(tov[1:-1]):
            if q in ('elements', 'let mut elements: Vec<InformationElement> = vec![]', 'let mut elements = Vec::new()', 'vec![]'):
                continue
            a = re.fullmatch(r'(?:let mut elements: Vec<InformationElement> = )?vec!\[ ?(.*?),? ?\]', q)
            if a:
                for p in split_top(a.group(1), ','):
                    n = re.fullmatch(r'self ?\.(\w+) ?\.clone\(\) ?\.into\(\)', p)
                    order.append((n.group(1), 'One', None))
                continue
            a = re.fullmatch(r'if let Some\(i\) = self ?\.(\w+) ?\.clone\(\) \{ elements\.push\((?:i\.into\(\)|InformationElement::(\w+)\(i(?:\.clone\(\))?\))\);? \}', q)
            if a:
                order.append((a.group(1), 'Option', a.group(2)))
                continue
            a = re.fullmatch(r'elements\.push\((?:self\.(\w+)\.clone\(\)\.into\(\)|InformationElement::(\w+)\(self\.(\w+)\.clone\(\)\))\)', q)
            if a:
                order.append((a.group(1) or a.group(3), 'One', a.group(2)))
                continue
            a = re.fullmatch(r'self ?\.(\w+) ?\.iter\(\) ?\.for_each\(\|x\| (?:\{ )?elements\.push\((?:x\.clone\(\)\.into\(\)|InformationElement::(\w+)\((?:Box::new\()?x\.clone\(\)\)?\))\)(?: \})?\)', q)
            if a:
                order.append((a.group(1), 'Vec', a.group(2)))
                continue
            raise ValueError((f, q))
        fd = {n: (c, t) for n, c, t in x.fields}
        x.tovec = []
        for n, c, v in order:
            assert fd[n][0] == c, (f, n)
            v = v or into[fd[n][1]]
            assert variants[v] == fd[n][1], (f, n, v)
            x.tovec.append((n, v))
        # fromvec
        x.rules = []
        t = frv
        a = None
        for mm in re.finditer(r'match (\w+) \{', t):
            if t[mm.end():].strip().startswith('InformationElement'):
                a = mm
                break
        if a:
            assert a.group(1) == 'e'
            b = block(t, a.end() - 1)
            arms = match_arms(b[1:-1].strip())
            assert arms[-1] == ('_', '()'), (f, arms[-1])
            arms = arms[:-1]
            head, tail = t[:a.start()], t[a.end() - 1 + len(b):]
        else:
            a = re.search(r'if let (InformationElement::\w+\(j\)) = e \{', t)
            if a:
                b = block(t, a.end() - 1)
                arms = [(a.group(1), b)]
                head, tail = t[:a.start()], t[a.end() - 1 + len(b):]
            else:
                assert t == '{ Ok(true) }', (f, t)
                arms, head, tail = [], '{ for e in elements.iter() { ', ' } Ok(true) }'
        a = re.fullmatch(r'\{ (?:let mut mandatory(.*?); )?(?:for e in elements\.(?:iter|into_iter)\(\) \{|elements\.iter\(\)\.for_each\(\|e\| \{) ?', head)
        assert a, (f, head)
        x.mand = a.group(1)
        a = re.match(r' ?\} ?(?:\); )?(.*) \}$', tail)
        x.tail = a.group(1)
        seen = set()
        for p, b in arms:
            a = re.fullmatch(r'InformationElement::(\w+)\(j\)', p)
            v = a.group(1)
            assert v not in seen, (f, v)
            seen.add(v)
            if not b.startswith('{'):
                b = '{ ' + b + ' }' if not b.startswith('match') else '{ ' + b + ' }'
            x.rules.append((v, run(b, [])))
        out.append(x)
    return out, consts, into, variants


if __name__ == '__main__':
    import collections
    ms, consts, into, variants = load()
    print(len(ms), sum(len(m.fields) for m in ms))
    c = collections.Counter()
    for m in ms:
        for v, rs in m.rules:
            for cs, acts in rs:
                c[(tuple(x[:2] if x[0] == 'ins' else x[0] for x in cs), tuple(a[0] for a in acts))] += 1
    for k, v in c.most_common():
        print(v, k)
    print(collections.Counter(m.mand for m in ms))
    print(collections.Counter(re.sub(r'[A-Z][A-Z0-9_]{2,}(?!rror)', 'K', m.tail) for m in ms))
