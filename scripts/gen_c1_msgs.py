#!/usr/bin/env python3
"""The GTPv1-C messages that carry a list of information elements: reads
/repo/src/gtpv1/gtpc/messages/*.rs and writes lean/Verif/C1/Msgs/*.lean and lean/Verif/C1/Msgs.lean.
Every arm of the decoders is compared with one of the known shapes; an unknown shape is an error."""
import os, re, glob
SRC = '/repo/src/gtpv1/gtpc/messages/'
LEAN = os.path.join(os.path.dirname(os.path.abspath(__file__)), '..', 'lean', 'Verif', 'C1')
FILES = ['createpdpctxreq', 'createpdpctxresp', 'updatepdpctxreq', 'updatepdpctxresp', 'updatepdpctxreq_ggsn',
         'updatepdpctxresp_ggsn', 'deletepdpctxreq', 'deletepdpctxresp', 'initiatepdpctxactivationreq',
         'initiatepdpctxactivationresp', 'pdunotificationreq', 'pdunotificationresp', 'pdunotificationrejectreq',
         'pdunotificationrejectresp', 'msinfochangenotifreq', 'msinfochangenotifresp']
CONST = {}
for f in glob.glob(SRC + 'ies/*.rs'):
    for m in re.finditer(r'pub const (\w+): u8 = (\w+);', open(f).read()):
        CONST[m[1]] = int(m[2], 0)

def squash(t):
    return re.sub(r'\s+', ' ', t).strip()

FIRST = ('if !msg_hash.contains_key(&buffer[cursor]) { increment = buffer[cursor]; msg_hash.insert(buffer[cursor], 1); '
         'cursor += i.len(); message.(\\w+) = (Some\\(i\\)|i); } else { ')
def rx(t):
    # FIRST is a regex already in its groups; escape the rest
    out, pos = '', 0
    for m in re.finditer(r'\(\\w\+\)|\(Some\\\(i\\\)\|i\)', t):
        out += re.escape(t[pos:m.start()]) + m[0]
        pos = m.end()
    return re.compile(out + re.escape(t[pos:]) + r'$')
STORE = 'msg_hash.insert(buffer[cursor], n + 1); increment = buffer[cursor]; cursor += i.len(); message.(\\w+) = (Some\\(i\\)|i);'
SKIP = 'msg_hash.insert(buffer[cursor], n + 1); increment = buffer[cursor]; cursor += i.len();'
ERR = ' Err(_) => return Err(GTPV1Error::(\\w+)),'
ONE = rx('Ok(i) => { ' + FIRST + 'let n = *msg_hash.get(&buffer[cursor]).unwrap() + 1; msg_hash.insert(buffer[cursor], n); '
         'increment = buffer[cursor]; cursor += i.len(); } }' + ERR)
ENTRY = rx('Ok(i) => { cursor += i.len(); msg_hash .entry(current_byte) .and_modify(|e| *e += 1) .or_insert_with(|| { '
           'message.(\\w+) = (Some\\(i\\)|i); 1 }); }' + ERR)
TWO = 'Ok(i) => { ' + FIRST + 'let n = *msg_hash.get(&buffer[cursor]).unwrap(); if n < 2 { ' + STORE + ' } else { ' + SKIP + ' } } }'
NSAPI = (' Err(_) => { if increment != NSAPI { return Err(GTPV1Error::MessageMandatoryIEMissing); } else { '
         'return Err(GTPV1Error::MessageOptionalIEIncorrect); } }')
FOUR = ('Ok(i) => { ' + FIRST + 'let n = *msg_hash.get(&buffer[cursor]).unwrap(); match n { 1 => { ' + STORE + ' } 2 => { ' +
        STORE + ' } 3 => { ' + STORE + ' } _ => { ' + SKIP + ' } } } }')
UNWRAP = (' Err(_) => match *msg_hash.get(&buffer[cursor]).unwrap() { i if i < 3 => return Err(GTPV1Error::MessageMandatoryIEMissing), '
          '_ => return Err(GTPV1Error::MessageOptionalIEIncorrect), },')
SHAPES = [('ONE', ONE), ('ENTRY', ENTRY), ('TWO', rx(TWO + ERR)), ('TWO_NSAPI', rx(TWO + NSAPI)), ('FOUR', rx(FOUR + ERR)),
          ('FOUR_UNWRAP', rx(FOUR + UNWRAP))]
BAD = {'MessageMandatoryIEMissing': 'badMandatory', 'MessageOptionalIEIncorrect': 'badOptional'}

def parse(f):
    raw = open(SRC + f + '.rs').read()
    raw = re.split(r'#\[test\]|#\[cfg\(test\)\]', raw)[0]
    raw = re.sub(r'//[^\n]*', '', raw)
    raw = raw.replace('dbg!(current_byte);', '')
    ln = lambda pos: raw.count('\n', 0, pos) + 1
    r = {'file': f + '.rs'}
    m = re.search(r'pub const (\w+): u8 = (\d+);', raw)
    if m:
        r['const'], r['code'] = m[1], int(m[2])
    m = re.search(r'pub struct (\w+) \{(.*?)\n\}', raw, re.S)
    r['name'] = m[1]
    r['structlines'] = (ln(m.start()), ln(m.end()))
    r['fields'] = [(a, b.startswith('Option<'), re.sub(r'Option<(\w+)>', r'\1', b)) for a, b in re.findall(r'pub (\w+): ([\w<>]+),', m[2])]
    assert r['fields'][0] == ('header', False, 'Gtpv1Header')
    r['fields'] = r['fields'][1:]
    # default
    m = re.search(r'impl Default for \w+ \{(.*?)\n\}', raw, re.S)
    r['dfltlines'] = (ln(m.start()), ln(m.end()))
    d = squash(m[1])
    mm = re.search(r'msgtype: (\w+),? ?(\w*)', d)
    r['const'] = mm[1]
    assert re.search(r'Gtpv1Header \{ msgtype: \w+, \.\.(Default::default\(\)|Gtpv1Header::default\(\)) \}', d), d[:300]
    dd = dict(re.findall(r'(\w+): ([\w:()]+?),', d[d.rindex(r['name'] + ' {') if r['name'] + ' {' in d else d.rindex('Self {'):]))
    for a, o, k in r['fields']:
        assert dd[a] == ('None' if o else k + '::default()'), (f, a, dd[a])
    # marshal
    m = re.search(r'fn marshal\(self, buffer: &mut Vec<u8>\) \{(.*?)\n    \}\n', raw, re.S)
    r['marlines'] = (ln(m.start()), ln(m.end()) - 1)
    t = squash(m[1])
    assert t.startswith('self.header.marshal(buffer);') and t.endswith('set_length(buffer);'), t
    t = t[len('self.header.marshal(buffer);'):-len('set_length(buffer);')].strip()
    order = []
    opt = {a: o for a, o, k in r['fields']}
    while t:
        m1 = re.match(r'self\.(\w+)\.marshal\(buffer\); ?', t)
        m2 = re.match(r'if let Some\((\w+)\) = self\.(\w+) \{ \1\.marshal\(buffer\);? \};? ?', t)
        if m1:
            order.append(m1[1]); assert not opt[m1[1]]; t = t[m1.end():]
        elif m2:
            order.append(m2[2]); assert opt[m2[2]]; t = t[m2.end():]
        else:
            raise Exception(f + ': ' + t[:100])
    assert sorted(order) == sorted(a for a, _, _ in r['fields']), (f, set(opt) - set(order))
    r['order'] = order
    # unmarshal
    m = re.search(r'fn unmarshal\(buffer: &\[u8\]\) -> Result<Self, GTPV1Error> \{(.*?)\n    \}\n', raw, re.S)
    r['unmlines'] = (ln(m.start()), ln(m.end()) - 1)
    u, off = m[1], m.start(1)
    sq = squash(u)
    head = (r"let mut msg_hash: HashMap<u8, u8> = HashMap::new\(\); let mut message = %s::default\(\); match Gtpv1Header::unmarshal\(buffer\) \{ "
            r"Ok\((\w)\) => message.header = \1, Err\((\w)\) => return Err\(\2\), \} if message.header.msgtype != %s \{ "
            r"return Err\(GTPV1Error::MessageIncorrectMessageType\); \} " % (r['name'], r['const']))
    h1 = (r"if \(message.header.length \+ 8\) as usize <= buffer.len\(\) \{ let mut cursor = message.header.len\(\); let mut increment: u8 = 0; loop \{ "
          r"if cursor >= buffer.len\(\) \{ break; \} if buffer\[cursor\] >= increment \{ match buffer\[cursor\] \{ ")
    h2 = (r"if \(message.header.length \+ 8\) as usize > buffer.len\(\) \{ return Err\(GTPV1Error::MessageLengthError\); \} "
          r"let mut cursor = message.header.len\(\); let mut prev_ie: u8 = 0; loop \{ "
          r"if cursor >= buffer.len\(\) \{ break; \} if buffer\[cursor\] < prev_ie \{ return Err\(GTPV1Error::MessageInvalidMessageFormat\); \} "
          r"prev_ie = buffer\[cursor\]; let current_byte = buffer\[cursor\]; match current_byte \{ ")
    new = False
    mh = re.match(head + h1, sq)
    if not mh:
        mh = re.match(head + h2, sq)
        new = True
    assert mh, (f, sq[:900])
    m = re.search(r'_ => return Err\(GTPV1Error::MessageInvalidMessageFormat\),', u)
    tail = squash(u[m.end():])
    if new:
        assert tail.startswith('} } '), tail
        tail = tail[len('} } '):]
    else:
        a = '} } else { return Err(GTPV1Error::MessageInvalidMessageFormat); } } '
        z = ' } else { Err(GTPV1Error::MessageLengthError) }'
        assert tail.startswith(a) and tail.endswith(z), (f, tail)
        tail = tail[len(a):-len(z)]
    mm = re.match(r'match \(?((?: ?msg_hash\.get\(&\w+\),?)+) ?\)? \{ \(?((?:Some\(_\)(?:, )?)+)\)? => Ok\(message\), _ => Err\(GTPV1Error::MessageMandatoryIEMissing\), \}$', tail)
    m3 = re.match(r'if msg_hash\.contains_key\(&(\w+)\) \{ Ok\(message\) \} else \{ Err\(GTPV1Error::MessageMandatoryIEMissing\) \}$', tail)
    assert mm or m3, (f, tail)
    if mm:
        r['mandatory'] = re.findall(r'get\(&(\w+)\)', mm[1])
        assert len(r['mandatory']) == mm[2].count('Some')
    else:
        r['mandatory'] = [m3[1]]
    # arms
    starts = [(x.start(), x.end(), x[1], x[3], bool(x[2])) for x in
              re.finditer(r'\b([A-Z][A-Z0-9_]+) => (\{\s*)?match (\w+)::unmarshal\(&buffer\[cursor\.\.\]\) \{', u)]
    ends = [s[0] for s in starts[1:]] + [m.start()]
    first = re.search(r'match (buffer\[cursor\]|current_byte) \{\s*', u)
    assert first.end() == starts[0][0], f
    r['arms'] = []
    for (s0, s1, c, k, br), e in zip(starts, ends):
        body = squash(u[s1:e])
        endl = ln(off + s1 + len(u[s1:e].rstrip()))
        if br:
            assert body.endswith('} }'), body[-40:]
            body = body[:-3].strip()
        else:
            assert body.endswith('},'), body[-40:]
            body = body[:-2].strip()
        for nm, sh in SHAPES:
            g = sh.match(body)
            if g:
                break
        else:
            raise Exception(f'{f} {c}: {body}')
        gs = list(g.groups())
        slots = []
        while len(gs) >= 2:
            fld, how = gs[0], gs[1]
            assert opt[fld] == (how == 'Some(i)'), (f, fld)
            assert dict((a, kk) for a, o, kk in r['fields'])[fld] == k, (f, fld, k)
            slots.append(fld)
            gs = gs[2:]
        if nm.endswith('NSAPI'):
            assert c == 'NSAPI'
            bad = '(badIfFirst %d)' % CONST['NSAPI']
        elif nm.endswith('UNWRAP'):
            bad = 'badUnwrap'
        else:
            bad = BAD[gs[0]]
        r['arms'].append((CONST[c], c, k, slots, nm.startswith('TWO'), bad, ln(off + s0), endl))
    seen = [a for arm in r['arms'] for a in arm[3]]
    assert sorted(seen) == sorted(order), (f, set(order) ^ set(seen))
    assert len(set(a[0] for a in r['arms'])) == len(r['arms'])
    r['mandcodes'] = [CONST[c] for c in r['mandatory']]
    return r

def lean(r, code):
    n, F = r['name'], r['fields']
    o = []
    w = o.append
    w(f'''import Verif.C1.MsgBase

/-!
# Model of `src/gtpv1/gtpc/messages/{r['file']}`

Expanded by `scripts/gen_c1_msgs.py`.
-/

namespace Gtp.C1
open Gtp.V1

/-- `{n}` ({r['file']}:{r['structlines'][0]}-{r['structlines'][1]}). -/
structure {n} where
  header : Header''')
    for a, op, k in F:
        w(f'  {a} : ' + (f'Option {k}' if op else k))
    w(f'deriving DecidableEq, Repr\n\nnamespace {n}\n')
    w('/-- The fields other than the header. -/\ninductive S where')
    for a, _, _ in F:
        w(f'  | {a}')
    w('deriving DecidableEq, Repr\n')
    w('/-- The kind of each field. -/\ndef S.kind : S → Kind')
    for a, _, k in F:
        w(f'  | .{a} => .{k}')
    w('\n/-- The fields that are not `Option`s. -/\ndef S.mand : S → Bool')
    for a, op, k in F:
        if not op:
            w(f'  | .{a} => true')
    w('  | _ => false\n')
    w(f'''/-- `default` ({r['file']}:{r['dfltlines'][0]}-{r['dfltlines'][1]}). -/
def dflt : {n} where
  header := {{ Header.dflt with msgtype := {code} }}''')
    for a, op, k in F:
        w(f'  {a} := ' + ('none' if op else f'(Kind.codec .{k}).dflt'))
    w(f'\n/-- Assignment to a field. -/\ndef put : (s : S) → s.kind.Ty → {n} → {n}')
    for a, op, k in F:
        w(f'  | .{a}, i, x => {{ x with {a} := ' + ('some i' if op else 'i') + ' }')
    w(f'\n/-- The contents of a field. -/\ndef view (x : {n}) : (s : S) → Option s.kind.Ty')
    for a, op, k in F:
        w(f'  | .{a} => ' + (f'x.{a}' if op else f'some x.{a}'))
    w(f'''
/-- `marshal` without the header and `set_length` ({r['file']}:{r['marlines'][0]}-{r['marlines'][1]}). -/
def body (x : {n}) : Bytes := List.flatten [''')
    D = {a: (op, k) for a, op, k in F}
    w(',\n'.join('  ' + (f'optOctets {D[a][1]}.marshal x.{a}' if D[a][0] else f'x.{a}.marshal') for a in r['order']) + ']\n')
    w('/-- The fields in the order in which `marshal` writes them. -/\ndef order : List S := [')
    w(',\n'.join('  ' + ', '.join('.' + a for a in r['order'][i:i + 6]) for i in range(0, len(r['order']), 6)) + ']\n')
    w(f'''/-- The arms of `unmarshal` ({r['file']}:{r['unmlines'][0]}-{r['unmlines'][1]}). -/
def arms : List (UInt8 × Arm S) := [''')
    A = r['arms']
    for i, (c, cn, k, sl, lt2, bad, l0, l1) in enumerate(A):
        sep = ',' if i + 1 < len(A) else ']'
        w(f"  ({c}, ⟨.{k}, [{', '.join('.' + s for s in sl)}], {'true' if lt2 else 'false'}, {bad}⟩){sep} -- {cn}, lines {l0}-{l1}")
    place = {s: (a[0], i) for a in A for i, s in enumerate(a[3])}
    w('\n/-- Type octet and place of each field. -/\ndef place : S → UInt8 × Nat')
    for a, _, _ in F:
        w(f'  | .{a} => ({place[a][0]}, {place[a][1]})')
    w(f'''
/-- The message, as a description. -/
def desc : Desc where
  X := {n}
  S := S
  code := {code}
  kind := S.kind
  mand := S.mand
  arms := arms
  mandatory := [{', '.join(map(str, r['mandcodes']))}]
  dflt := dflt
  header := header
  setHeader := fun h x => {{ x with header := h }}
  put := put
  view := view
  body := body
  order := order
  place := place

/-- `{n}::marshal` ({r['file']}:{r['marlines'][0]}-{r['marlines'][1]}). -/
def marshalInto (buf : Bytes) (x : {n}) : Bytes := desc.marshalInto buf x

/-- `{n}::unmarshal` ({r['file']}:{r['unmlines'][0]}-{r['unmlines'][1]}). -/
def unmarshal (m : Mode) (b : Bytes) : R Err {n} := desc.unmarshal m b

theorem mem_order (s : S) : s ∈ order := by cases s <;> decide

theorem lawful : desc.Lawful where
  view_put := by intro s i x; cases s <;> rfl
  view_put_ne := by intro s t i x h; cases s <;> cases t <;> first | rfl | exact absurd rfl h
  header_put := by intro s i x; cases s <;> rfl
  header_set := fun _ _ => rfl
  view_set := by intro h x s; cases s <;> rfl
  set_header := fun _ => rfl
  ext := by
    intro x y h hv
    have h_hdr : x.header = y.header := h''')
    for a, op, k in F:
        w(f'    have h_{a} : x.{a} = y.{a} := ' + (f'hv .{a}' if op else f'Option.some.inj (hv .{a})'))
    w(f'''    cases x; cases y
    show ({n}.mk .. = {n}.mk ..)
    rw [{n}.mk.injEq]
    exact ⟨h_hdr, {', '.join('h_' + a for a, _, _ in F)}⟩
  mand_view := by intro x s h; cases s <;> first | rfl | cases h
  dflt_view := by intro s h; cases s <;> first | rfl | cases h
  body_eq := fun _ => rfl
  order_all := mem_order
  order_nodup := by show order.Nodup; decide
  arm_place := by
    have : ∀ s ∈ order, (((arms.lookup (place s).1).map fun a => a.slots[(place s).2]?).getD none) = some s := by decide +kernel
    exact fun s => this s (mem_order s)
  arm_slots := by
    show ∀ p ∈ arms, order.filter (fun s => (place s).1 == p.1) = p.2.slots
    decide +kernel
  arm_kind := by
    show ∀ p ∈ arms, (∀ s ∈ p.2.slots, s.kind = p.2.kind) ∧ (p.2.kind.code = p.1 ∨ p.2.kind = .Teid ∧ p.1 = 17) ∧
      0 < p.2.slots.length ∧ p.2.slots.length < 256 ∧ (p.2.lt2 = true → p.2.slots.length = 2) ∧
      ∀ i < p.2.slots.length, (p.2.slots[i]?).map place = some (p.1, i)
    decide +kernel

end {n}
end Gtp.C1''')
    return '\n'.join(o) + '\n'

if __name__ == '__main__':
    os.makedirs(os.path.join(LEAN, 'Msgs'), exist_ok=True)
    allsrc = ''.join(open(p).read() for p in glob.glob(SRC + '*.rs'))
    rs = []
    for f in FILES:
        r = parse(f)
        code = int(re.search(r'pub const %s: u8 = (\d+);' % r['const'], allsrc)[1])
        rs.append(r['name'])
        open(os.path.join(LEAN, 'Msgs', r['name'] + '.lean'), 'w').write(lean(r, code))
        print(r['name'], code, len(r['fields']), len(r['arms']), r['mandcodes'])
    o = []
    w = o.append
    for n in rs:
        w(f'import Verif.C1.Msgs.{n}')
    w('''
/-!
# The GTPv1-C messages that carry information elements

Expanded by `scripts/gen_c1_msgs.py`.
-/

namespace Gtp.C1

/-- The message types. -/
inductive Msg where''')
    for n in rs:
        w(f'  | {n}')
    w('deriving DecidableEq, Repr\n\nnamespace Msg\n\n/-- All message types. -/\ndef all : List Msg := [')
    w(',\n'.join('  .' + n for n in rs) + ']\n')
    w('theorem mem_all (t : Msg) : t ∈ all := by cases t <;> decide\n')
    w('/-- The description of a message type. -/\ndef desc : Msg → Desc')
    for n in rs:
        w(f'  | .{n} => C1.{n}.desc')
    w('\ntheorem lawful : (t : Msg) → t.desc.Lawful')
    for n in rs:
        w(f'  | .{n} => C1.{n}.lawful')
    w('\nend Msg\nend Gtp.C1')
    open(os.path.join(LEAN, 'Msgs.lean'), 'w').write('\n'.join(o) + '\n')
