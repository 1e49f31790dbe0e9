"""Generates lean/Verif/V2/Msg/M*.lean and All.lean from the Rust message files (msg_parse.py).

Per message: structure, default, tovec, the loop body and the end of fromvec, the schema, and the proofs that the schema
describes the message.  Run from /verif: python3 scripts/gen_msgs.py"""
import itertools, os, re, sys
sys.path.insert(0, os.path.dirname(os.path.abspath(__file__)))
import msg_parse
from msg_parse import match_arms, block, split_top

OUT = os.path.join(os.path.dirname(os.path.dirname(os.path.abspath(__file__))), 'lean/Verif/V2/Msg')
# These report a wrong type for some missing mandatory IE (Props/Msg.lean has the witnesses).
WRONG_REPORT = ('CreateIndirectDataForwardingTunnelResponse', 'MbmsSessionStartRequest',
                'CreateForwardingTunnelResponse', 'ForwardRelocationRequest')
LAST = {'one': 'oneLast', 'opt': 'optLast'}


def errc(s, consts):
    m = re.fullmatch(r'Err\(GTPV2Error::MessageMandatoryIEMissing\((\w+)\)\)', s.strip())
    if m:
        c = m.group(1)
        v = int(c) if c.isdigit() else consts[c]
        return '.err (.messageMandatoryIEMissing %d)' % v
    assert s.strip() == 'Ok(true)', s
    return '.ok s.x'


def tail_lean(m, consts):
    """The end of fromvec as a Lean term in `s : St`."""
    t = m.tail
    if t == 'Ok(true)':
        return '.ok s.x'
    a = re.fullmatch(r'if mandatory \{ (.*?) \} else \{ (.*?) \}', t)
    if a:
        return 'if s.m0 then %s else %s' % (errc(a.group(1), consts), errc(a.group(2), consts))
    a = re.fullmatch(r'if mandatory\[0\] && mandatory\[1\] \{ (.*?) \} else \{ (.*?) \}', t)
    if a:
        return 'if s.m0 && s.m1 then %s else %s' % (errc(a.group(1), consts), errc(a.group(2), consts))
    a = re.match(r'if let Some\(j\) = mandatory\.iter\(\)\.position\(\|&x\| !x\) \{ match j \{', t)
    if a:
        b = block(t, a.end() - 1)
        assert t[a.end() - 1 + len(b):] == ' } else { Ok(true) }', t
        r = ''
        for p, e in match_arms(b[1:-1]):
            if p != '_':
                r += 'if s.m%s = false then %s else ' % (p, errc(e, consts))
        # the arm `_` cannot be reached: there are as many numbered arms as flags
        assert len(match_arms(b[1:-1])) == m.nflags + 1
        return r + '.ok s.x'
    a = re.match(r'match (.*?) \{', t)
    assert a, t
    b = block(t, a.end() - 1)
    assert a.end() - 1 + len(b) == len(t), t
    e = a.group(1).strip()
    if e == 'mandatory':
        scrut = ['s.m%d' % i for i in range(m.nflags)]
    else:
        scrut = []
        for x in split_top(e[1:-1], ','):
            q = re.fullmatch(r'mandatory(?:\[(\d+)\])?', x)
            if q:
                scrut.append('s.m%d' % int(q.group(1) or 0))
                continue
            q = re.fullmatch(r'self\.(\w+)\.is_empty\(\)', x)
            if q:
                scrut.append('s.x.%s.isEmpty' % q.group(1))
                continue
            q = re.fullmatch(r'mandatory\.iter\(\)\.find\(\|&&x\| x == (\w+)\)', x)
            assert q, x
            scrut.append('s.mand.find? (· == %d)' % consts[q.group(1)])
    r = 'match %s with' % ', '.join(scrut)
    for p, x in match_arms(b[1:-1]):
        p = p.replace('None', 'none').replace('Some(_)', 'some _').strip()
        assert p[0] in '([', p
        ps = split_top(p[1:-1], ',')
        r += '\n  | %s => %s' % (', '.join(ps), errc(x, consts))
    return r


def ins_of(cs):
    i = [c for c in cs if c[0] == 'ins']
    if not i:
        return '.any', None
    assert len(i) == 1
    _, op, k = i[0]
    return ('.is %d' % k, 'j.ins = %d' % k) if op == '=' else ('.lt %d' % k, 'j.ins < %d' % k)


def prep(m, consts):
    """Slots: name -> dict(kind, ins, card, flag)."""
    m.custom = m.mand is not None and 'Vec<u8>' in m.mand
    a = re.search(r'bool; (\d+)\]', m.mand or '')
    m.nflags = 0 if m.custom or m.mand is None else int(a.group(1)) if a else 1
    m.slots = {}
    for v, rs in m.rules:
        for cs, acts in rs:
            f = [a[1] for a in acts if a[0] in ('some', 'set', 'push')][0]
            act = [a[0] for a in acts if a[0] in ('some', 'set', 'push')][0]
            flag = [a[1] for a in acts if a[0] == 'flag']
            flag = flag[0] if flag else None
            guard = [c for c in cs if c[0] in ('none', 'flag', 'absent')]
            ins, _ = ins_of(cs)
            if m.custom and f == 'bearer_ctxs':
                ins, card = '.lt 2', '.many1 (.is 0)'
            elif act == 'some':
                card = '.opt' if guard else '.optLast'
            elif act == 'set':
                card = '.one' if guard else '.oneLast'
            elif guard:
                card = '.manyFirst'
            else:
                card = '.many1 (%s)' % ins if flag is not None else '.many'
            # DeleteBearerFailureInd, UpdateBearerRequest: the list itself is inspected at the end
            if act == 'push' and 'self.%s.is_empty()' % f in m.tail:
                assert card == '.many'
                card = '.many1 (%s)' % ins
            m.slots[f] = dict(kind=v, ins=ins, card=card, flag=flag)
    for n, c, t in m.fields:
        s = m.slots[n]
        if m.name == 'IdentificationResponse' and n == 'cause':
            assert s['flag'] == 0
    m.ctor = dict(m.tovec)


def lty(c, t):
    t = 'V2.' + t
    return {'One': t, 'Option': 'Option ' + t, 'Vec': 'List ' + t}[c]


def view(m, pre, n, c, s):
    k = m.ctor[n]
    if c == 'One':
        return '[.%s %s.%s]' % (k, pre, n)
    if c == 'Option':
        return 'optV .%s %s.%s' % (k, pre, n)
    return '%s.%s.map .%s' % (pre, n, k)


def gen(m, consts):
    o = []
    L = lambda p: '%s:%d-%d' % ((m.file,) + p)
    X = m.name
    o.append('/-- `%s` (%s). -/\nstructure %s where\n  header : Header' % (X, L(m.struct_lines), X))
    for n, c, t in m.fields:
        o.append('  %s : %s' % (n, lty(c, t)))
    o.append('deriving DecidableEq\n')
    o.append('namespace %s\n' % X)
    d = {'One': lambda t: 'V2.%s.dflt' % t, 'Option': lambda t: 'none', 'Vec': lambda t: '[]'}
    teid = '' if m.start == 8 or m.start is None else ', teid := some 0'
    o.append('/-- `default` (%s). -/\ndef dflt : %s :=\n  { header := { Header.default with msgtype := %d%s }' % (L(m.default_lines), X, m.msgtype, teid))
    for n, c, t in m.fields:
        o[-1] += ', %s := %s' % (n, d[c](t))
    o[-1] += ' }\n'
    o.append('/-- `tovec` (%s). -/\ndef tovec (x : %s) : List IE :=\n  %s\n' % (L(m.tovec_lines), X,
        ' ++ (\n  '.join(view(m, 'x', n, {a: b for a, b, _ in m.fields}[n], None) for n, _ in m.tovec) + ')' * (len(m.tovec) - 1) if m.tovec else '[]'))
    flags = ['m%d' % i for i in range(m.nflags)]
    o.append('/-- The variables of `fromvec`: the message and the array `mandatory` (%s). -/\nstructure St where\n  x : %s' % (L(m.fromvec_lines), X))
    if flags:
        o += ['  %s : Bool' % f for f in flags]
    if m.custom:
        o.append('  mand : List UInt8')
    o.append('')
    o.append('/-- One turn of the loop of `fromvec` (%s). -/\ndef step (s : St) : IE → St' % L(m.fromvec_lines))
    for v, rs in m.rules:
        r = ''
        final = 's'
        for cs, acts in rs:
            ps = []
            for c in cs:
                if c[0] == 'ins':
                    ps.append('j.ins %s %d' % (c[1], c[2]))
                elif c[0] == 'none':
                    ps.append('s.x.%s.isNone = true' % c[1])
                elif c[0] == 'flag':
                    ps.append('s.m%d = false' % c[1])
                else:
                    ps.append('(s.mand.find? (· == %d)).isNone = true' % consts[c[1]])
            if v == 'MmContext':
                ps = [p.replace('j.ins', 'j.ins') for p in ps]
            up, extra = None, ''
            for a in acts:
                if a[0] == 'some':
                    up = '%s := some j' % a[1]
                elif a[0] == 'set':
                    up = '%s := j' % a[1]
                elif a[0] == 'push':
                    up = '%s := s.x.%s ++ [j]' % (a[1], a[1])
                elif a[0] == 'flag':
                    extra = ', m%d := true' % a[1]
                elif a[0] == 'pusht':
                    extra = ', mand := s.mand ++ [j.t]'
            upd = '{ s with x := { s.x with %s }%s }' % (up, extra)
            if ps:
                r += 'if %s then %s else ' % (' ∧ '.join(ps), upd)
            else:
                final = upd
        o.append('  | .%s j => %s%s' % (v, r, final))
    if not (len(m.rules) == 0):
        o.append('  | _ => s\n')
    else:
        o[-1] = o[-1].replace('def step (s : St) : IE → St', 'def step (s : St) (_ : IE) : St := s')
        o.append('')
    init = '⟨%s⟩' % ', '.join(['x'] + ['false'] * m.nflags + (['[]'] if m.custom else []))
    tail = tail_lean(m, consts)
    o.append('/-- The end of `fromvec` (%s). -/\ndef finish (s : St) : R Err %s :=\n  %s\n' % (L(m.fromvec_lines), X, tail))
    o.append('/-- `fromvec` (%s). -/\ndef fromvec (x : %s) (els : List IE) : R Err %s := finish (els.foldl step %s)\n' % (L(m.fromvec_lines), X, X, init))
    o.append('/-- The message type (%s). -/\ndef codec : Codec %s :=\n  { msgtype := %d, start := %s, dflt, header := header, setHeader := fun x h => { x with header := h }, tovec, fromvec }\n' %
             (L((m.marshal_lines[0], m.unmarshal_lines[1])), X, m.msgtype, 'none' if m.start is None else 'some %d' % m.start))
    o.append('/-- One slot per field. -/\ndef schema : Schema :=\n  [%s]\n' % (',\n   '.join('⟨.%s, %s, %s⟩' % (m.slots[n]['kind'], m.slots[n]['ins'], m.slots[n]['card']) for n, c, t in m.fields)))
    o.append('/-- The fields as lists of IEs. -/\ndef fields (x : %s) : List (List IE) :=\n  [%s]\n' % (X, ',\n   '.join(view(m, 'x', n, c, None) for n, c, t in m.fields)))
    return o


CS_T = {'RatType': 82, 'Fteid': 87, 'Apn': 71, 'BearerContext': 93}


def proofs(m, consts):
    o = []
    X = m.name
    nf = m.nflags

    def sv(n, c):
        s = m.slots[n]
        if m.custom and c == 'One':
            return 'if has s.mand %d then %s else []' % (CS_T[s['kind']], view(m, 's.x', n, c, s))
        if c == 'One':
            return 'if s.m%d then %s else []' % (s['flag'], view(m, 's.x', n, c, s))
        if s['card'] == '.manyFirst':
            return view(m, 's.x', n, c, s)
        return view(m, 's.x', n, c, s)
    o.append('/-- What the state has collected so far. -/\ndef St.view (s : St) : List (List IE) :=\n  [%s]\n' % (',\n   '.join(sv(n, c) for n, c, t in m.fields)))
    # invariant: list flags
    inv = []
    for n, c, t in m.fields:
        s = m.slots[n]
        if m.custom and n == 'bearer_ctxs':
            inv.append('has s.mand 93 = s.x.bearer_ctxs.any (fun j => j.ins == 0)')
        elif c == 'Vec' and s['flag'] is not None:
            inv.append('s.m%d = !s.x.%s.isEmpty' % (s['flag'], n))
    o.append('/-- The header is left alone; flags of mandatory lists tell whether the list is empty. -/\ndef St.Inv (h : Header) (s : St) : Prop :=\n  s.x.header = h%s\n' % ''.join(' ∧ ' + i for i in inv))
    used = [v for v, rs in m.rules]
    if m.custom:
        o.append('set_option maxHeartbeats 1000000 in')
    o.append('theorem step_view (h : Header) (s : St) (e : IE) (hi : s.Inv h)%s : (step s e).view = Schema.step schema s.view e ∧ (step s e).Inv h := by' % (' (hq : TypeOk e)' if m.custom else ''))
    if not used:
        o.append('  exact ⟨rfl, hi⟩\n')
    else:
        o.append('  cases e')
        for v in used:
            o.append('  case %s j =>' % v)
            rs = dict(m.rules)[v]
            cond = [bool(cs) for cs, _ in rs]
            aff = [m.slots[n]['kind'] == v or (m.custom and v in CS_T and c == 'One') for n, c, t in m.fields]
            last = max(i for i, a in enumerate(aff) if a)
            term = 'rfl' if last + 1 == len(aff) else '(Schema.step_other rfl rfl).symm'
            for a in reversed(aff[:last + 1]):
                term = 'cons_congr %s (%s)' % ('?_' if a else '(Slot.step_ne rfl).symm', term)
            if any(m.slots[n]['card'] == '.manyFirst' and m.slots[n]['kind'] == v for n in m.slots):
                o.append('    have hi2 := hi.2')
            if m.custom and v in CS_T:
                o.append('    have ht : j.t = %d := hq (by simp [IE.kind])' % CS_T[v])
                o.append('    have hi2 := hi.2')
            o.append('    simp only [step%s]' % (', isNone_has' if m.custom and v in CS_T else ''))
            if any(cond):
                o.append('    repeat\' split')
            o.append('    all_goals refine ⟨%s, ?_⟩' % term)
            hs = inv_names = ''
            if m.custom and v in CS_T:
                o.append('    all_goals first | exact hi | exact Eq.symm (Slot.step_ins (ins_lt2 _ (by assumption) (by assumption))) | (simp_all [Slot.step, Slot.accepts, Ins.mem, IE.kind, IE.ins, optV_isEmpty, optV_some, has_append, St.Inv]; done)')
            else:
                o.append('    all_goals first | exact hi | msg_field | (simp_all [St.Inv]; done)')
        o.append('  all_goals exact ⟨(Schema.step_other rfl rfl).symm, hi⟩\n')
    # result of the loop
    init = '⟨{ dflt with header := h }%s⟩' % (', []' if m.custom else ', false' * nf)
    o.append('theorem loop (h : Header) (els : List IE)' + (' (hq : ∀ e ∈ els, TypeOk e)' if m.custom else '') + ' :\n    (els.foldl step %s).view = schema.map (·.select els) ∧ (els.foldl step %s).Inv h := by' % (init, init))
    if m.custom:
        o.append('  have := foldl_view (Q := TypeOk) (fun s e hp hq => step_view h s e hp hq) els %s hq (by simp [St.Inv, dflt, has_nil])' % init)
    else:
        o.append('  have := foldl_view (Q := fun _ => True) (fun s e hp _ => step_view h s e hp) els %s (fun _ _ => trivial) (by simp [St.Inv%s])' % (init, ', dflt' if inv else ''))
    o.append('  rw [show St.view %s = schema.map (fun _ => []) from rfl, Schema.foldl_nil] at this' % init)
    o.append('  exact this\n')
    # ext
    o.append('theorem ext {x y : %s} (hh : x.header = y.header) (h : fields x = fields y) : x = y := by' % X)
    o.append('  cases x; cases y')
    o.append('  simp only at hh')
    o.append('  subst hh')
    names = []
    for i, (n, c, t) in enumerate(m.fields):
        o.append('  injection h with h%d h' % i)
        k = m.ctor[n]
        inj = '(fun _ _ h => IE.%s.inj h)' % k
        if c == 'One':
            o.append('  cases h%d' % i)
        elif c == 'Option':
            o.append('  cases optV_inj %s h%d' % (inj, i))
        else:
            o.append('  cases map_inj %s h%d' % (inj, i))
    o.append('  rfl\n')
    # describes
    mand = [(i, n, c, m.slots[n]) for i, (n, c, t) in enumerate(m.fields) if m.slots[n]['card'] in ('.one', '.oneLast', '.manyFirst') or m.slots[n]['card'].startswith('.many1')]
    sl = lambda s: '(⟨.%s, %s, %s⟩ : Slot)' % (s['kind'], s['ins'], s['card'])
    o.append('theorem mand : schema.filter (·.card.mandatory) = [%s] := rfl\n' % ', '.join(sl(s) for _, _, _, s in mand))
    if m.custom:
        sh = ' <| '.join({'One': 'Aligned.one', 'Option': 'Aligned.opt', 'Vec': 'Aligned.many'}[c] + ' (fun _ => rfl)' for n, c, t in m.fields) + ' <| trivial'
        o.append(CS_B.replace('@SHAPE@', sh))
        return o
    reports = m.name != 'IdentificationResponse'
    rtype = reports and m.name not in WRONG_REPORT
    goal = '∃ y, fromvec { dflt with header := h } els = .ok y ∧ y.header = h ∧ fields y = schema.map (·.select els)'
    vs = ', '.join(['x'] + ['m%d' % i for i in range(nf)])
    pre = ['  obtain ⟨hv, hi⟩ := loop h els',
           '  generalize els.foldl step %s = s at hv hi ⊢' % init,
           '  obtain ⟨%s⟩ := s' % vs,
           '  simp only [St.Inv] at hi']
    lacks = []
    for q, (i, n, c, s) in enumerate(mand):
        if c == 'One':
            mv = '!m%d' % s['flag']
        elif s['flag'] is not None:
            mv = '!m%d' % s['flag']
        else:
            mv = 'x.%s.isEmpty' % n
        lacks.append('%s.lacks els = (%s)' % (sl(s), mv))
        pre.append('  have l%d : %s.lacks els = %s := by' % (q, sl(s), '(%s)' % mv))
        pre.append('    rw [Slot.lacks_eq els rfl]')
        pre.append('    have e := congrArg (fun l => l.getD %d []) hv' % i)
        if c == 'One':
            pre.append('    rw [show %s.select els = if m%d then [.%s x.%s] else [] from e.symm]' % (sl(s), s['flag'], m.ctor[n], n))
            pre.append('    cases m%d <;> rfl' % s['flag'])
        else:
            pre.append('    rw [show %s.select els = x.%s.map .%s from e.symm]' % (sl(s), n, m.ctor[n]))
            if s['flag'] is not None:
                k = inv.index('s.m%d = !s.x.%s.isEmpty' % (s['flag'], n))
                proj = 'hi.2' + '.2' * k + ('.1' if k + 1 < len(inv) else '')
                pre.append('    rw [%s, Bool.not_not]' % proj)
            pre.append('    cases x.%s <;> rfl' % n)
    ls = ', '.join('l%d' % q for q in range(len(mand)))
    hdr = 'hi' if not inv else 'hi.1'
    ems = [n for _, n, c, s in mand if c != 'One' and s['flag'] is None]
    assert len(ems) <= 1
    post = []
    if mand:
        post.append('  dsimp only [finish]')
        for n in ems:
            post.append('  generalize x.%s.isEmpty = b at *' % n)
    neg = lambda s: ('!m%d' % s['flag']) if s['flag'] is not None else 'b'
    path = lambda q: '(by simp)'
    o.append('/-- The flags tell which mandatory IEs are absent. -/\ntheorem flags (h : Header) (els : List IE) : ∃ x %s, els.foldl step %s = ⟨%s⟩ ∧ St.view ⟨%s⟩ = schema.map (·.select els) ∧ x.header = h%s := by' %
             (' '.join('m%d' % i for i in range(nf)) + '', init, vs, vs, ''.join(' ∧\n    ' + l for l in lacks)))
    o += pre
    o.append('  exact ⟨%s, rfl, hv, %s⟩\n' % (vs, ', '.join([hdr] + ['l%d' % q for q in range(len(mand))])))
    use = ['  obtain ⟨%s⟩ := flags h els' % ', '.join([vs, 'hs', 'hv', 'hh'] + ['l%d' % q for q in range(len(mand))]),
           '  unfold fromvec',
           '  rw [hs]']
    fl = ['m%d' % i for i in range(nf)] + ['b' for _ in ems]
    o.append('theorem complete (h : Header) (els : List IE) (' + ('hm' if mand else '_hm') + ' : schema.missing els = []) : %s := by' % goal)
    o += use
    if mand:
        o += post
        for q, (i, n, c, sx) in enumerate(mand):
            o.append('  have f%d := l%d.symm.trans (Schema.of_missing_nil mand (by simp) hm)' % (q, q))
        o.append('  ' + ' <;> '.join('cases %s' % f for f in fl) + ' <;> first | exact ⟨x, rfl, hh, hv⟩ | contradiction\n')
    else:
        o.append('  exact ⟨x, rfl, hh, hv⟩\n')
    o.append('theorem describes : Describes codec schema fields where')
    o.append('  header_set _ _ := rfl\n  fields_set _ _ := rfl\n  ext _ _ hh h := ext hh h')
    if m.fields:
        sh = []
        for n, c, t in m.fields:
            s = m.slots[n]
            a = {'One': 'Aligned.one', 'Option': 'Aligned.opt', 'Vec': 'Aligned.many'}[c]
            sh.append('%s (fun _ => rfl)' % a)
        o.append('  shape x := ' + ' <| '.join('%s' % a for a in sh) + ' <| trivial')
        o.append('  tovec x := by simp [codec, tovec, fields]')
    else:
        o.append('  shape x := trivial\n  tovec x := rfl')
    o.append('  complete h els _ hm := complete h els hm\n')
    if reports and mand:
        stmt = '∃ t, fromvec { dflt with header := h } els = .err (.messageMandatoryIEMissing t)'
        if rtype:
            stmt = '∃ s ∈ schema.missing els, ∃ t, fromvec { dflt with header := h } els = .err (.messageMandatoryIEMissing t) ∧ kindOf t = s.kind'
        o.append('theorem reports (h : Header) (els : List IE) (hm : schema.missing els ≠ []) :\n    %s := by' % stmt)
        o += use
        o += post
        if rtype:
            alts = ' | '.join('exact ⟨_, Schema.mem_missing mand (by simp) l%d, _, rfl, rfl⟩' % q for q in range(len(mand)))
        else:
            alts = 'exact ⟨_, rfl⟩'
        alts = 'first | ' + alts + ' | exact absurd (Schema.missing_nil mand (by simp [%s])) hm' % ls
        o.append('  ' + ' <;> '.join('cases %s' % f for f in fl) + ' <;>\n    ' + alts + '\n')
        o.append('theorem settled (h : Header) (els els\' : List IE) (he : ∀ s ∈ schema, s.card.mandatory = true → s.lacks els = s.lacks els\')\n    (hm : schema.missing els ≠ []) : fromvec { dflt with header := h } els = fromvec { dflt with header := h } els\' := by')
        pr = lambda t: "%s'" % t
        o.append(use[0])
        o.append('  obtain ⟨%s⟩ := flags h els\'' % ', '.join([', '.join(["x'"] + ["m%d'" % i for i in range(nf)]), "hs'", "hv'", "hh'"] + ["l%d'" % q for q in range(len(mand))]))
        o.append('  unfold fromvec')
        o.append("  rw [hs, hs']")
        for q, (i, n, c, sx) in enumerate(mand):
            e = "l%d.symm.trans ((he _ (by decide) rfl).trans l%d')" % (q, q)
            if sx['flag'] is not None:
                o.append("  obtain rfl := Bool.not_inj (%s)" % e)
            else:
                o.append("  have e%d := %s" % (q, e))
        o.append('  dsimp only [finish]')
        for n in ems:
            q = [w for w, y in enumerate(mand) if y[1] == n][0]
            o.append("  rw [← e%d]\n  clear e%d l%d' hv' hs'\n  generalize x.%s.isEmpty = b at *" % (q, q, q, n))
        o.append('  ' + ' <;> '.join('cases %s' % f for f in fl) + ' <;>')
        o.append('    first | rfl | exact absurd (Schema.missing_nil mand (by simp [%s])) hm\n' % ls)
    elif not mand:
        pass
    return o


# Hand-written proofs for the one message that keeps a list of the type octets seen.
CS_HEAD = """import Verif.V2.Msg.Tactic

/-!
# GTPv2-C messages: `CreateSessionRequest`

The model is generated by `scripts/gen_msgs.py` like those of the other messages; the proofs differ because `fromvec`
keeps track of the mandatory IEs by a list of the type octets it has seen.
-/

namespace Gtp.V2.Msg
"""

CS_A = """/-- A type octet has been pushed. -/
def has (l : List UInt8) (t : UInt8) : Bool := (l.find? (· == t)).isSome

theorem has_nil (t : UInt8) : has [] t = false := rfl

theorem has_append (l : List UInt8) (a t : UInt8) : has (l ++ [a]) t = (has l t || a == t) := by
  induction l with
  | nil => cases h : a == t <;> simp [has, h]
  | cons b l ih =>
    simp only [has, List.cons_append, List.find?_cons] at ih ⊢
    cases b == t <;> simp_all

theorem isNone_has (l : List UInt8) (t : UInt8) : (l.find? (· == t)).isNone = !has l t := by
  cases h : l.find? (· == t) <;> simp [has, h]

theorem ins_lt2 : ∀ i : UInt8, ¬ i = 0 → ¬ i = 1 → decide (i < 2) = false := by decide +kernel
"""

CS_B = """theorem finish_eq (s : St) : finish s =
    if has s.mand 82 = false then .err (.messageMandatoryIEMissing 82) else if has s.mand 87 = false then .err (.messageMandatoryIEMissing 87)
    else if has s.mand 71 = false then .err (.messageMandatoryIEMissing 71) else if has s.mand 93 = false then .err (.messageMandatoryIEMissing 93)
    else .ok s.x := by
  unfold finish has
  cases s.mand.find? (· == 82) <;> cases s.mand.find? (· == 87) <;> cases s.mand.find? (· == 71) <;> cases s.mand.find? (· == 93) <;> rfl

theorem lacks_bearer (els : List IE) : (⟨.BearerContext, .lt 2, .many1 (.is 0)⟩ : Slot).lacks els =
    !((⟨.BearerContext, .lt 2, .many1 (.is 0)⟩ : Slot).select els).any (fun e => e.ins == 0) := by
  simp only [Slot.lacks, Slot.needed, Slot.select, List.any_filter]
  congr 2
  funext e
  simp only [Slot.accepts, Ins.mem]
  cases h : e.ins == 0
  · simp
  · rw [eq_of_beq h]; simp

theorem facts (h : Header) (els : List IE) (hq : ∀ e ∈ els, TypeOk e) : ∃ s : St, els.foldl step ⟨{ dflt with header := h }, []⟩ = s ∧
    s.view = schema.map (·.select els) ∧ s.x.header = h ∧
    (⟨.RatType, .is 0, .one⟩ : Slot).lacks els = !has s.mand 82 ∧ (⟨.Fteid, .is 0, .one⟩ : Slot).lacks els = !has s.mand 87 ∧
    (⟨.Apn, .is 0, .one⟩ : Slot).lacks els = !has s.mand 71 ∧
    (⟨.BearerContext, .lt 2, .many1 (.is 0)⟩ : Slot).lacks els = !has s.mand 93 := by
  obtain ⟨hv, hi⟩ := loop h els hq
  generalize els.foldl step ⟨{ dflt with header := h }, []⟩ = s at hv hi
  refine ⟨s, rfl, hv, hi.1, ?_, ?_, ?_, ?_⟩
  · rw [Slot.lacks_eq els rfl]
    have e := congrArg (fun l => l.getD 5 []) hv
    rw [show (⟨.RatType, .is 0, .one⟩ : Slot).select els = if has s.mand 82 then [.RatType s.x.rattype] else [] from e.symm]
    cases has s.mand 82 <;> rfl
  · rw [Slot.lacks_eq els rfl]
    have e := congrArg (fun l => l.getD 7 []) hv
    rw [show (⟨.Fteid, .is 0, .one⟩ : Slot).select els = if has s.mand 87 then [.Fteid s.x.fteid_control] else [] from e.symm]
    cases has s.mand 87 <;> rfl
  · rw [Slot.lacks_eq els rfl]
    have e := congrArg (fun l => l.getD 9 []) hv
    rw [show (⟨.Apn, .is 0, .one⟩ : Slot).select els = if has s.mand 71 then [.Apn s.x.apn] else [] from e.symm]
    cases has s.mand 71 <;> rfl
  · have e := congrArg (fun l => l.getD 18 []) hv
    rw [lacks_bearer, show (⟨.BearerContext, .lt 2, .many1 (.is 0)⟩ : Slot).select els = s.x.bearer_ctxs.map .BearerContext from e.symm,
      hi.2, List.any_map]
    rfl

theorem complete (h : Header) (els : List IE) (hq : ∀ e ∈ els, TypeOk e) (hm : schema.missing els = []) :
    ∃ y, fromvec { dflt with header := h } els = .ok y ∧ y.header = h ∧ fields y = schema.map (·.select els) := by
  obtain ⟨s, hs, hv, hh, l0, l1, l2, l3⟩ := facts h els hq
  have f0 := l0.symm.trans (Schema.of_missing_nil mand (by simp) hm)
  have f1 := l1.symm.trans (Schema.of_missing_nil mand (by simp) hm)
  have f2 := l2.symm.trans (Schema.of_missing_nil mand (by simp) hm)
  have f3 := l3.symm.trans (Schema.of_missing_nil mand (by simp) hm)
  simp only [Bool.not_eq_false'] at f0 f1 f2 f3
  refine ⟨s.x, ?_, hh, ?_⟩
  · rw [fromvec, hs, finish_eq]
    simp [f0, f1, f2, f3]
  · rw [← hv]
    simp only [St.view, f0, f1, f2, if_true]
    rfl

theorem describes : Describes codec schema fields where
  header_set _ _ := rfl
  fields_set _ _ := rfl
  ext _ _ hh h := ext hh h
  shape x := @SHAPE@
  tovec x := by simp [codec, tovec, fields]
  complete h els hq hm := complete h els hq hm

theorem reports (h : Header) (els : List IE) (hq : ∀ e ∈ els, TypeOk e) (hm : schema.missing els ≠ []) :
    ∃ s ∈ schema.missing els, ∃ t, fromvec { dflt with header := h } els = .err (.messageMandatoryIEMissing t) ∧ kindOf t = s.kind := by
  obtain ⟨s, hs, hv, hh, l0, l1, l2, l3⟩ := facts h els hq
  rw [fromvec, hs, finish_eq]
  by_cases f0 : has s.mand 82 = false
  · exact ⟨_, Schema.mem_missing mand (by simp) (l0.trans (by rw [f0]; rfl)), 82, by simp [f0], rfl⟩
  by_cases f1 : has s.mand 87 = false
  · exact ⟨_, Schema.mem_missing mand (by simp) (l1.trans (by rw [f1]; rfl)), 87, by simp [f0, f1], rfl⟩
  by_cases f2 : has s.mand 71 = false
  · exact ⟨_, Schema.mem_missing mand (by simp) (l2.trans (by rw [f2]; rfl)), 71, by simp [f0, f1, f2], rfl⟩
  by_cases f3 : has s.mand 93 = false
  · exact ⟨_, Schema.mem_missing mand (by simp) (l3.trans (by rw [f3]; rfl)), 93, by simp [f0, f1, f2, f3], rfl⟩
  simp only [Bool.not_eq_false] at f0 f1 f2 f3
  exact absurd (Schema.missing_nil mand (by simp [l0, l1, l2, l3, f0, f1, f2, f3])) hm

theorem settled (h : Header) (els els' : List IE) (hq : ∀ e ∈ els, TypeOk e) (hq' : ∀ e ∈ els', TypeOk e)
    (he : ∀ s ∈ schema, s.card.mandatory = true → s.lacks els = s.lacks els') (hm : schema.missing els ≠ []) :
    fromvec { dflt with header := h } els = fromvec { dflt with header := h } els' := by
  obtain ⟨s, hs, hv, hh, l0, l1, l2, l3⟩ := facts h els hq
  obtain ⟨s', hs', hv', hh', l0', l1', l2', l3'⟩ := facts h els' hq'
  have e0 := Bool.not_inj (l0.symm.trans ((he _ (by decide) rfl).trans l0'))
  have e1 := Bool.not_inj (l1.symm.trans ((he _ (by decide) rfl).trans l1'))
  have e2 := Bool.not_inj (l2.symm.trans ((he _ (by decide) rfl).trans l2'))
  have e3 := Bool.not_inj (l3.symm.trans ((he _ (by decide) rfl).trans l3'))
  rw [fromvec, fromvec, hs, hs', finish_eq, finish_eq, e0, e1, e2, e3]
  rw [e0] at l0
  rw [e1] at l1
  rw [e2] at l2
  rw [e3] at l3
  cases f0 : has s'.mand 82
  · rfl
  cases f1 : has s'.mand 87
  · rfl
  cases f2 : has s'.mand 71
  · rfl
  cases f3 : has s'.mand 93
  · rfl
  exact absurd (Schema.missing_nil mand (by simp [l0, l1, l2, l3, f0, f1, f2, f3])) hm

"""

def cs_main(m, consts):
    o = [CS_HEAD] + gen(m, consts) + [CS_A]
    p = proofs(m, consts)
    return o + p + ['end %s\n' % m.name, 'end Gtp.V2.Msg']


def write_all(ms, nfiles):
    o = ['import Verif.V2.Msg.CreateSession'] + ['import Verif.V2.Msg.M%02d' % i for i in range(1, nfiles + 1)]
    o.append("""
/-!
# All GTPv2-C message types

Generated by `scripts/gen_msgs.py`: the 83 message types as one family, so that properties can be stated for all of them.
-/

namespace Gtp.V2

/-- The message types (src/gtpv2/messages/mod.rs). -/
inductive MsgKind where""")
    for m in ms:
        o.append('  | %s' % m.name)
    o.append('deriving DecidableEq, Repr\n')
    o.append('namespace MsgKind\n')
    o.append('/-- All of them. -/\ndef all : List MsgKind :=\n  [%s]\n' % ', '.join('.' + m.name for m in ms))
    o.append('theorem mem_all : ∀ k : MsgKind, k ∈ all := by intro k; cases k <;> simp [all]\n')
    def fn(doc, name, ty, f):
        o.append('/-- %s -/\ndef %s : %s' % (doc, name, ty))
        for m in ms:
            o.append('  | .%s => %s' % (m.name, f(m)))
        o.append('')
    fn('The Rust struct.', 'T', 'MsgKind → Type', lambda m: 'Msg.' + m.name)
    fn('Encoder and decoder.', 'codec', '(k : MsgKind) → Codec k.T', lambda m: 'Msg.%s.codec' % m.name)
    fn('The slots, one per field.', 'schema', 'MsgKind → Schema', lambda m: 'Msg.%s.schema' % m.name)
    fn('The fields, as lists of IEs.', 'fields', '(k : MsgKind) → k.T → List (List IE)', lambda m: 'Msg.%s.fields' % m.name)
    o.append('theorem describes : (k : MsgKind) → Describes k.codec k.schema k.fields')
    for m in ms:
        o.append('  | .%s => Msg.%s.describes' % (m.name, m.name))
    o.append('')
    o.append('/-- Message types that do not look for their mandatory IEs. -/\ndef unchecked : List MsgKind := [.IdentificationResponse]\n')
    o.append('/-- Message types that report a missing IE by a wrong type. -/\ndef misreporting : List MsgKind := [%s]\n' % ', '.join('.' + m.name for m in ms if m.name in WRONG_REPORT))
    nomand = lambda m: not any(x['card'] in ('.one', '.oneLast', '.manyFirst') or x['card'].startswith('.many1') for x in m.slots.values())
    o.append('theorem reportsType : (k : MsgKind) → k ∉ unchecked → k ∉ misreporting → ReportsType k.codec k.schema')
    for m in ms:
        n = m.name
        if n == 'IdentificationResponse':
            o.append('  | .%s, h, _ => absurd (by simp [unchecked]) h' % n)
        elif n in WRONG_REPORT:
            o.append('  | .%s, _, h => absurd (by simp [misreporting]) h' % n)
        elif nomand(m):
            o.append('  | .%s, _, _ => fun _ _ _ hm => absurd (Schema.missing_nil (l := []) rfl (by simp)) hm' % n)
        elif m.custom:
            o.append('  | .%s, _, _ => fun h els hq hm => Msg.%s.reports h els hq hm' % (n, n))
        else:
            o.append('  | .%s, _, _ => fun h els _ hm => Msg.%s.reports h els hm' % (n, n))
    o.append('')
    o.append('theorem settled : (k : MsgKind) → k ∉ unchecked → Settled k.codec k.schema')
    for m in ms:
        n = m.name
        if n == 'IdentificationResponse':
            o.append('  | .%s, h => absurd (by simp [unchecked]) h' % n)
        elif nomand(m):
            o.append('  | .%s, _ => fun _ _ _ _ _ _ hm => absurd (Schema.missing_nil (l := []) rfl (by simp)) hm' % n)
        elif m.custom:
            o.append('  | .%s, _ => fun h els els\' hq hq\' he hm => Msg.%s.settled h els els\' hq hq\' he hm' % (n, n))
        else:
            o.append('  | .%s, _ => fun h els els\' _ _ he hm => Msg.%s.settled h els els\' he hm' % (n, n))
    o.append('')
    o.append('theorem reports (k : MsgKind) (hk : k ∉ unchecked) : Reports k.codec k.schema := by')
    o.append('  by_cases h : k ∈ misreporting')
    o.append('  · simp only [misreporting, List.mem_cons, List.not_mem_nil, or_false] at h')
    wr = [m.name for m in ms if m.name in WRONG_REPORT]
    o.append('    rcases h with %s' % ' | '.join('rfl' for _ in wr))
    for n in wr:
        o.append('    · exact fun h els _ hm => Msg.%s.reports h els hm' % n)
    o.append('  · intro h\' els hq hm\n    obtain ⟨_, _, t, ht, _⟩ := reportsType k hk h h\' els hq hm\n    exact ⟨t, ht⟩\n')
    o.append('end MsgKind\n\nend Gtp.V2')
    open(os.path.join(OUT, 'All.lean'), 'w').write('\n'.join(o) + '\n')


def main():
    ms, consts, into, variants = msg_parse.load()
    for m in ms:
        prep(m, consts)
    only = sys.argv[1:]
    if only:
        ms = [m for m in ms if m.name in only]
    custom = [m for m in ms if m.custom]
    ms2 = [m for m in ms if not m.custom]
    # files of roughly equal weight
    files, cur, w = [], [], 0
    for m in ms2:
        k = len(m.fields) ** 2 + 40
        if cur and w + k > 1700:
            files.append(cur)
            cur, w = [], 0
        cur.append(m)
        w += k
    files.append(cur)
    for f in os.listdir(OUT):
        if re.fullmatch(r'M\d+\.lean', f) and not only:
            os.remove(os.path.join(OUT, f))
    for i, fs in enumerate(files, 1):
        o = ['import Verif.V2.Msg.Tactic\n',
             '/-!\n# GTPv2-C messages, part %d\n\nGenerated by `scripts/gen_msgs.py` from the Rust sources: %s.\n-/\n' % (i, ', '.join('`%s`' % m.name for m in fs)),
             'namespace Gtp.V2.Msg\n']
        for m in fs:
            o += gen(m, consts)
            o += proofs(m, consts)
            o.append('end %s\n' % m.name)
        o.append('end Gtp.V2.Msg')
        open(os.path.join(OUT, ('M%02d.lean' % i) if not only else 'T.lean'), 'w').write('\n'.join(o) + '\n')
    for m in custom:
        open(os.path.join(OUT, 'CreateSession.lean'), 'w').write('\n'.join(cs_main(m, consts)) + '\n')
    if not only:
        write_all(ms, len(files))
    print(len(files), [len(f) for f in files])


if __name__ == '__main__':
    main()
