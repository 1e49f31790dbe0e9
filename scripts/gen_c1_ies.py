#!/usr/bin/env python3
"""Expand the tables below to Lean modules under lean/Verif/C1/Ies (GTPv1-C information elements).

Every entry transcribes one `impl IEs for X` of /repo by hand; the generator only supplies the
surrounding boilerplate (structure, skeleton, citation of the source lines, standard proofs)."""
import re, os

REPO = '/repo/src/gtpv1/gtpc/messages/ies/'
OUT = os.path.join(os.path.dirname(os.path.abspath(__file__)), '..', 'lean', 'Verif', 'C1', 'Ies')
MODULES = []


def block(lines, start):
    d, seen = 0, False
    for i in range(start - 1, len(lines)):
        d += lines[i].count('{') - lines[i].count('}')
        seen = seen or '{' in lines[i]
        if seen and d <= 0:
            return i + 1
    raise Exception('no block')


def cite(file, pat):
    lines = open(REPO + file).read().split('\n')
    for i, l in enumerate(lines):
        if re.search(pat, l):
            return '%s:%d-%d' % (file, i + 1, block(lines, i + 1))
    raise Exception('no %s in %s' % (pat, file))


def module(name, doc):
    MODULES.append(dict(name=name, doc=doc, parts=[]))


def raw(s):
    MODULES[-1]['parts'].append(s.strip('\n') + '\n')


def ind(s, n):
    return '\n'.join((' ' * n + l) if l.strip() else l for l in s.strip('\n').split('\n'))


def ie(name, file, code, fields, enc, dec='', ret='', size=None, kind='tlv', wf=(), lenk='fixed', minlen=None,
       rust=None, aux='', rtpre='', rtsimp='', safesimp='', readlen=True, reclen=None, tlit=None, note='', dnote='',
       dlen=None, safe=None):
    """fields: (name, type, default); enc: body octets; size: body size; lenk: 'fixed' | 'L' (length + 3);
    kind: 'tv' (no length field) | 'tlv'; reclen: the constant returned by len() when it is not the size"""
    rust = rust or name
    src = open(REPO + file).read()
    assert code in [int(x) for x in re.findall(r'(?m)^pub const [A-Z_0-9]+: u8 = (\d+);', src)], name
    tv = kind == 'tv'
    head = 1 if tv else 3
    minlen = minlen or head + size
    dlen = size if dlen is None else dlen
    fs = [('t', 'UInt8', str(code))] + ([] if tv else [('length', 'UInt16', str(dlen))]) + list(fields)
    o = ['/-- `%s` (%s)%s. -/' % (rust, cite(file, r'pub struct %s\b' % rust), note), 'structure %s where' % name]
    o += ['  %s : %s' % (f, t) for f, t, _ in fs]
    o.append('deriving DecidableEq, Repr\n\nnamespace %s\n' % name)
    if aux:
        o.append(aux.strip('\n') + '\n')
    o.append('/-- `default` (%s). -/' % cite(file, r'fn default\('))
    o.append('def dflt : %s := ⟨%s⟩\n' % (name, ', '.join(d for _, _, d in fs)))
    o.append('/-- `marshal` (%s). -/' % cite(file, r'fn marshal\('))
    t = tlit or 'x.t'
    if tv:
        o.append('def marshal (x : %s) : Bytes := %s :: (%s)\n' % (name, t, enc))
    else:
        o.append('def marshal (x : %s) : Bytes := tlv %s x.length (%s)\n' % (name, t, enc))
    o.append('/-- `unmarshal` (%s)%s. -/' % (cite(file, r'fn unmarshal\('), dnote))
    o.append('def unmarshal (_m : Mode) (b : Bytes) : R Err %s := do' % name)
    o.append('  if %d ≤ b.length then' % minlen)
    if not tv and readlen:
        o.append('    let length ← rd16 b 1')
    if dec:
        o.append(ind(dec, 4))
    keep = ret.startswith('t, ')
    hd = [] if keep else ['t := %d' % code]
    if not tv:
        hd.append('length' if readlen else 'length := %d' % dlen)
    o.append('    return { %s }' % ', '.join(hd + ([ret] if ret else [])))
    o.append('  else .err .ieInvalidLength\n')
    o.append('/-- `len` (%s). -/' % cite(file, r'fn len\('))
    k = reclen or head + size
    if lenk == 'fixed':
        o.append('def len (_m : Mode) (_x : %s) : R Err Nat := .ok %d\n' % (name, k))
    else:
        o.append('def len (m : Mode) (x : %s) : R Err Nat := len3 m x.length\n' % name)
    conds, hs = [], []
    if not keep:
        conds.append('x.t = %d' % code); hs.append('ht')
    if not tv:
        conds.append('x.length = %d' % size); hs.append('hl')
    for h, w in wf:
        conds.append('(%s)' % w if re.search('[∀∃∨→]|match', w) else w); hs.append(h)
    o.append('/-- Field values that the encoding of `%s` can represent. -/' % name)
    o.append('def WF (x : %s) : Prop :=\n  %s\n' % (name, ' ∧\n  '.join(conds)))
    o.append('instance (x : %s) : Decidable x.WF := by unfold WF; infer_instance\n' % name)
    des = '  obtain ⟨%s⟩ := x\n  obtain ⟨%s⟩ := h\n  simp only at %s' % (', '.join(f for f, _, _ in fs), ', '.join(hs), ' '.join(hs))
    if len_(hs) == 1:
        des = '  obtain ⟨%s⟩ := x\n  have %s := h\n  simp only [WF] at %s' % (', '.join(f for f, _, _ in fs), hs[0], hs[0])
    sub = ' '.join(h for h in hs if h in ('ht', 'hl'))
    des += '\n  subst %s' % sub if sub else ''
    rest = [h for h in hs if h not in ('ht', 'hl')]
    rs = (', ' + rtsimp) if rtsimp else ''
    o.append('theorem rt : RoundTrips WF marshal unmarshal := by\n  intro m x tail h\n' + des)
    if rtpre:
        o.append(ind(rtpre, 2))
    o.append('  all_goals enc_simp [marshal%s]' % rs)
    o.append('  all_goals rt_simp [unmarshal%s%s]\n' % (''.join(', ' + h for h in rest), rs))
    o.append('theorem size_eq {x : %s} (h : x.WF) : x.marshal.length = %d := by\n%s' % (name, head + size, des))
    if rtpre:
        o.append(ind(rtpre, 2))
    o.append('  all_goals enc_simp [marshal%s]\n  all_goals simp [gtp]\n' % rs)
    if reclen is None:
        o.append('theorem len_ok : LenOk WF marshal len := by\n  intro m x h')
        if lenk == 'fixed':
            o.append('  rw [size_eq h]; rfl\n')
        else:
            o.append('  rw [size_eq h, len, h.2.1]; exact len3_ok (by decide)\n' if wf else '  rw [size_eq h, len, h.2]; exact len3_ok (by decide)\n')
    if lenk == 'fixed':
        o.append('theorem safe : FixedSafe %d unmarshal len := by\n  intro m b' % k)
        o.append('  safe_simp [unmarshal, len%s]' % ((', ' + safesimp) if safesimp else ''))
        o.append('  safe_fin\n' if safe is None else ind(safe, 2) + '\n')
        o.append('theorem panics : PanicsIff Never unmarshal := safe.panics\n')
    else:
        o.append('theorem safe (m : Mode) (b : Bytes) : (unmarshal m b).Safe fun x => x.length = declLen b ∧ %d ≤ b.length := by' % (head + size))
        o.append('  safe_simp [unmarshal, declLen%s]' % ((', ' + safesimp) if safesimp else ''))
        o.append('  safe_fin\n')
        o.append('theorem panics : PanicsIff Never unmarshal := fun m b =>\n  have h := Safe.noPanic (safe m b)\n  ⟨⟨fun e => absurd e h.1, fun e => e.elim⟩, h.2⟩\n')
        o.append('theorem declared : Declared unmarshal len := by\n  intro m b x e\n  have h := safe m b\n  rw [e] at h\n  rw [len, h.1]\n')
    o.append('end %s' % name)
    MODULES[-1]['parts'].append('\n'.join(o) + '\n')


def len_(x):
    return x.__len__()


def enum(name, file, tbl, els=None, doc=''):
    o = ['/-- `enum %s` (%s)%s. -/' % (name, cite(file, r'pub enum %s\b' % name), doc), 'inductive %s where' % name]
    o += ['  | %s' % c for c, _ in tbl]
    o.append('deriving DecidableEq, Repr\n\nnamespace %s\n' % name)
    o.append('/-- The code written (%s). -/\ndef toU8 : %s → UInt8' % (file, name))
    o += ['  | .%s => %d' % (c, ns[0]) for c, ns in tbl]
    o.append('\n/-- The value read from a code (%s); `none` is `IEIncorrect`. -/\ndef ofU8? (i : UInt8) : Option %s :=' % (file, name))
    for j, (c, ns) in enumerate(tbl):
        o.append('  %sif %s then some .%s' % ('else ' if j else '', ' ∨ '.join('i = %d' % n for n in ns), c))
    o.append('  else none\n')
    o.append('@[gtp] theorem ofU8_toU8 (v : %s) : ofU8? v.toU8 = some v := by cases v <;> rfl\n' % name)
    o.append('end %s' % name)
    MODULES[-1]['parts'].append('\n'.join(o) + '\n')


PF = [('mcc', 'UInt16', '0'), ('mnc', 'UInt16', '0'), ('mnc_is_three_digits', 'Bool', 'false')]
PENC = 'mccMncEncode x.mcc x.mnc x.mnc_is_three_digits'
PRET = 'mcc, mnc, mnc_is_three_digits'
PWF = [('hp', 'PlmnOk x.mcc x.mnc x.mnc_is_three_digits')]
PPRE = 'obtain ⟨p0, p1, p2, e1, e2⟩ := mccMnc_roundtrip3 hp'
PS = 'e1, e2, mccMncDecode'
PSAFE = 'mccMncDecode, List.length_drop, List.length_take'


def pdec(i):
    return 'let s ← sl b %d %d\nlet (mcc, mnc, mnc_is_three_digits) ← mccMncDecode s\n' % (i, i + 3)


TB = dict(wf=lambda f: [('hd', '∀ c ∈ x.%s, IsDigit c' % f), ('hn', '(x.%s.length + 1) / 2 = 8' % f)])
TBPRE = '''have hb := tbcd_length _ hd
have hr := tbcd_roundtrip _ hd
rw [hn] at hb
obtain ⟨s0, s1, s2, s3, s4, s5, s6, s7, he⟩ := exists_list8 hb
rw [he] at hr'''

# ---------------------------------------------------------------------------------------------
module('Tv', 'Information elements without a length field (TV)')
ie('Cause', 'cause.rs', 1, [('value', 'UInt8', '0')], '[x.value]', 'let value ← rd b 1', 'value', 1, 'tv')
ie('Imsi', 'imsi.rs', 2, [('imsi', 'Str', "['0']")], 'tbcdEncode x.imsi', 'let s ← sl b 1 9', 'imsi := tbcdDecode s', 8, 'tv',
   wf=TB['wf']('imsi'), rtpre=TBPRE, rtsimp='he, hr')
ie('Rai', 'rai.rs', 3, PF + [('lac', 'UInt16', '0'), ('rac', 'UInt8', '0')], PENC + ' ++ be16 x.lac ++ [x.rac]',
   pdec(1) + 'let lac ← rd16 b 4\nlet rac ← rd b 6', PRET + ', lac, rac', 6, 'tv', wf=PWF, rtpre=PPRE, rtsimp=PS, safesimp=PSAFE)
ie('ReorderingRequired', 'reorderingreq.rs', 8, [('req', 'Bool', 'false')], '[if x.req then 0xff else 0xfe]',
   'let v ← rd b 1', 'req := v &&& 1 != 0', 1, 'tv', rtpre='cases req')
ie('Recovery', 'recovery.rs', 14, [('value', 'UInt8', '0')], '[x.value]', 'let value ← rd b 1', 'value', 1, 'tv', tlit='14')
ie('SelectionMode', 'selectionmode.rs', 15, [('value', 'UInt8', '0')], '[0xfc ||| x.value]', 'let v ← rd b 1', 'value := v &&& 3', 1, 'tv',
   wf=[('hv', 'x.value < 4')], aux='''
theorem low2 {v : UInt8} (h : v < 4) : ((0xfc ||| v) &&& 3) = v := by revert v; decide +kernel
''', rtpre='have hm := low2 hv', rtsimp='hm')
ie('Teid', 'teid.rs', 16, [('teid', 'UInt32', '0')], 'be32 x.teid', 'let t ← rd b 0\nlet teid ← rd32 b 1', 't, teid', 4, 'tv',
   wf=[('hv', 'x.t = 16 ∨ x.t = 17')], dnote='; the type octet is kept, so that one kind serves TEID Data I (16) and TEID Control Plane (17)')
ie('TeardownInd', 'teardownind.rs', 19, [('teardown', 'Bool', 'true')], '[if x.teardown then 0xff else 0xfe]',
   'let v ← rd b 1\nlet teardown ← R.ofOption (ofU8? v) .ieIncorrect', 'teardown', 1, 'tv', aux='''
/-- teardownind.rs:39-43. -/
def ofU8? (v : UInt8) : Option Bool := if v = 0xfe then some false else if v = 0xff then some true else none
''', rtpre='cases teardown', rtsimp='ofU8?')
ie('Nsapi', 'nsapi.rs', 20, [('value', 'UInt8', '0')], '[x.value]', 'let v ← rd b 1', 'value := v &&& 0x0f', 1, 'tv', wf=[('hv', 'x.value < 16')])
ie('ChargingCharacteristics', 'chargingcharateristics.rs', 26, [('value', 'UInt8', '0')], '[x.value, 0]', 'let v ← rd b 1', 'value := v &&& 0x0f', 2, 'tv',
   wf=[('hv', 'x.value < 16')])
ie('TraceReference', 'tracereference.rs', 27, [('value', 'UInt16', '0')], 'be16 x.value', 'let value ← rd16 b 1', 'value', 2, 'tv')
ie('TraceType', 'tracetype.rs', 28, [('value', 'UInt16', '0')], 'be16 x.value', 'let value ← rd16 b 1', 'value', 2, 'tv')
ie('ChargingID', 'chargingid.rs', 127, [('value', 'UInt32', '0')], 'be32 x.value', 'let v ← rd32 b 1\nlet value ← R.ofOption (if v = 0 then none else some v) .ieIncorrect', 'value', 4, 'tv',
   wf=[('hv', 'x.value ≠ 0')])

module('Fixed', 'TLV information elements of fixed size')
enum('Restriction', 'apnrestriction.rs', [('noApnRestriction', [0]), ('public1', [1]), ('public2', [2]), ('private1', [3]), ('private2', [4])])
ie('ApnRestriction', 'apnrestriction.rs', 149, [('restriction_type', 'Restriction', '.noApnRestriction')], '[x.restriction_type.toU8]',
   'let v ← rd b 3\nlet restriction_type ← R.ofOption (Restriction.ofU8? v) .ieIncorrect', 'restriction_type', 1, reclen=2,
   note='; its `len` is 2, although 4 octets are written')
enum('Rat', 'rattype.rs', [('utran', [1]), ('geran', [2]), ('wlan', [3]), ('gan', [4]), ('hspaevo', [5]), ('eutran', [6])])
ie('RatType', 'rattype.rs', 151, [('rat_type', 'Rat', '.geran')], '[x.rat_type.toU8]',
   'let v ← rd b 3\nlet rat_type ← R.ofOption (Rat.ofU8? v) .ieIncorrect', 'rat_type', 1)
raw('''
/-- `enum Location` (%s). -/
inductive Location where
  | ci (v : UInt16)
  | sac (v : UInt16)
  | rac (v : UInt8)
deriving DecidableEq, Repr
''' % cite('uli.rs', 'pub enum Location'))
ie('Uli', 'uli.rs', 152, PF + [('lac', 'UInt16', '0'), ('loc', 'Location', '.ci 0')],
   '[locType x.loc] ++ ' + PENC + ' ++ be16 x.lac ++ locBody x.loc',
   '''let k ← rd b 3
let k ← R.ofOption (if k ≤ 2 then some k else none) .ieIncorrect
''' + pdec(4) + '''let lac ← rd16 b 7
let v ← rd16 b 9
let w ← rd b 9''', PRET + ', lac, loc := locOf k v w', 8, wf=PWF, rtpre=PPRE + '\ncases loc', aux='''
/-- The location type octet (uli.rs:52, 62, 72). -/
def locType : Location → UInt8
  | .ci _ => 0
  | .sac _ => 1
  | .rac _ => 2

/-- Octets 10 and 11 (uli.rs:59, 69, 79-80). -/
def locBody : Location → Bytes
  | .ci v => be16 v
  | .sac v => be16 v
  | .rac v => [v, 0xff]

/-- The location read for type octet `k` from the two octets `v`, the first of which is `w`
(uli.rs:103, 111, 119). -/
def locOf (k : UInt8) (v : UInt16) (w : UInt8) : Location :=
  if k = 0 then .ci v else if k = 1 then .sac v else .rac w
''', rtsimp='locType, locBody, locOf, ' + PS, safesimp=PSAFE)
ie('MsTimeZone', 'mstimezone.rs', 153, [('time_zone', 'Int8', '0'), ('dst', 'UInt8', '0')], '[zoneOctet x.time_zone, x.dst]',
   'let v ← rd b 3\nlet d ← rd b 4', 'time_zone := zoneOf v, dst := d &&& 3', 2, wf=[('hz', 'x.time_zone ≠ -128'), ('hd', 'x.dst < 4')], aux='''
/-- Octet 4 (mstimezone.rs:36-40); `unsigned_abs` of an `i8`. -/
def zoneOctet (z : Int8) : UInt8 :=
  if 0 ≤ z then UInt8.ofNat z.toInt.natAbs else (0x80 : UInt8) ||| UInt8.ofNat z.toInt.natAbs

/-- Time zone read from octet 4 (mstimezone.rs:55-59). -/
def zoneOf (v : UInt8) : Int8 :=
  if v >>> 7 = 0 then (v &&& 0x7f).toInt8 else if v >>> 7 = 1 then -(v &&& 0x7f).toInt8 else 0

theorem zone_dec {z : Int8} (h : z ≠ -128) : zoneOf (zoneOctet z) = z := by
  have key : ∀ n : UInt8, n.toInt8 ≠ -128 → zoneOf (zoneOctet n.toInt8) = n.toInt8 := by
    decide +kernel
  have := key z.toUInt8
  simp only [Int8.toInt8_toUInt8] at this
  exact this h
''', rtpre='have hp := zone_dec hz', rtsimp='hp')
ie('Imei', 'imei.rs', 154, [('imei', 'Str', "['0']")], 'tbcdEncode x.imei', 'let s ← sl b 3 11', 'imei := tbcdDecode s', 8, readlen=False,
   wf=TB['wf']('imei'), rtpre=TBPRE, rtsimp='he, hr', dnote='; the length field is not read')
ie('AdditionalTraceInfo', 'additionaltraceinfo.rs', 162, [('trace_ref', 'UInt32', '0'), ('trace_rec_session_ref', 'UInt16', '0'), ('triggering_events', 'UInt8', '0'),
   ('trace_depth', 'UInt8', '0'), ('interface_list', 'UInt8', '0'), ('trace_activity_control', 'UInt8', '0')],
   'be24 x.trace_ref ++ be16 x.trace_rec_session_ref ++\n    [x.triggering_events, x.trace_depth, x.interface_list, x.trace_activity_control]',
   'let trace_ref ← rd24 b 3\nlet trace_rec_session_ref ← rd16 b 6\nlet triggering_events ← rd b 8\nlet trace_depth ← rd b 9\nlet interface_list ← rd b 10\nlet trace_activity_control ← rd b 11',
   'trace_ref, trace_rec_session_ref, triggering_events, trace_depth,\n             interface_list, trace_activity_control', 9, wf=[('h24', 'x.trace_ref.toNat < 16777216')], rtsimp='of24_be h24')
ie('MSInfoChangeReportingAction', 'msinfochange.rs', 181, [('action', 'UInt8', '0')], '[x.action]',
   'let v ← rd b 3\nlet action ← R.ofOption (if v ≤ 2 then some v else none) .ieIncorrect', 'action', 1, wf=[('hv', 'x.action ≤ 2')])
ie('CorrelationId', 'correlationid.rs', 183, [('correlation_id', 'UInt8', '0')], '[x.correlation_id]', 'let correlation_id ← rd b 3', 'correlation_id', 1)
ie('BearerControlMode', 'bearercontrolmode.rs', 184, [('bearer_ctrl_mode', 'UInt8', '0')], '[x.bearer_ctrl_mode]',
   'let v ← rd b 3\nlet bearer_ctrl_mode ← R.ofOption (if v ≤ 1 then some v else none) .ieIncorrect', 'bearer_ctrl_mode', 1, wf=[('hv', 'x.bearer_ctrl_mode ≤ 1')])
ie('EvolvedAllocationRetentionI', 'evolvedallocretentioni.rs', 191, [('pre_emption_vulnerability', 'UInt8', '0'), ('priority_level', 'UInt8', '0'), ('pre_emption_capability', 'UInt8', '0')],
   '[octet x.pre_emption_capability x.priority_level x.pre_emption_vulnerability]', 'let v ← rd b 3',
   'pre_emption_vulnerability := v &&& 1, priority_level := (v >>> 2) &&& 0x0f,\n             pre_emption_capability := (v >>> 6) &&& 1', 1,
   wf=[('hv', 'x.pre_emption_vulnerability < 2'), ('hp', 'x.priority_level < 16'), ('hc', 'x.pre_emption_capability < 2')], aux='''
/-- evolvedallocretentioni.rs:39-41. -/
def octet (c p v : UInt8) : UInt8 := (c <<< 6) ||| (p <<< 2) ||| v

theorem octet_dec {c p v : UInt8} (hc : c < 2) (hp : p < 16) (hv : v < 2) :
    octet c p v &&& 1 = v ∧ (octet c p v >>> 2) &&& 0x0f = p ∧ (octet c p v >>> 6) &&& 1 = c := by
  have c2 : ∀ x : UInt8, x < 2 → x = 0 ∨ x = 1 := by decide +kernel
  rcases c2 c hc with rfl | rfl <;> rcases c2 v hv with rfl | rfl <;> revert p <;> decide +kernel
''', rtpre='have hm := octet_dec hc hp hv', rtsimp='hm')
raw('''
/-- `enum AccessMode` (%s). -/
inductive AccessMode where
  | closedMode
  | hybridMode
  | reserved
deriving DecidableEq, Repr

/-- `enum Cmi` (%s). -/
inductive Cmi where
  | csgMembership
  | nonCsgMembership
deriving DecidableEq, Repr
''' % (cite('uci.rs', 'pub enum AccessMode'), cite('uci.rs', 'pub enum Cmi')))
ie('Uci', 'uci.rs', 194, PF + [('csgid', 'UInt32', '0'), ('access_mode', 'AccessMode', '.closedMode'), ('cmi', 'Cmi', '.csgMembership')],
   PENC + ' ++ be32 (x.csgid &&& 0x07ffffff) ++ [modes x.access_mode x.cmi]', pdec(3) + 'let csgid ← rd32 b 6\nlet v ← rd b 10',
   PRET + ', csgid,\n             access_mode := modeOf v, cmi := cmiOf v', 8, wf=PWF + [('hc', 'x.csgid.toNat < 2 ^ 27')], aux='''
/-- The last octet (uci.rs:67-74). -/
def modes : AccessMode → Cmi → UInt8
  | .closedMode, .csgMembership => 0x00
  | .closedMode, .nonCsgMembership => 0x01
  | .hybridMode, .csgMembership => 0x40
  | .hybridMode, .nonCsgMembership => 0x41
  | .reserved, .csgMembership => 0x80
  | .reserved, .nonCsgMembership => 0x81

/-- uci.rs:93-97. -/
def modeOf (v : UInt8) : AccessMode :=
  if (v &&& 0xc0) >>> 6 = 0 then .closedMode else if (v &&& 0xc0) >>> 6 = 1 then .hybridMode else .reserved

/-- uci.rs:98-102; the catch-all (keep the default) is not reachable. -/
def cmiOf (v : UInt8) : Cmi := if v &&& 1 = 1 then .nonCsgMembership else .csgMembership

theorem modes_dec (a : AccessMode) (c : Cmi) : modeOf (modes a c) = a ∧ cmiOf (modes a c) = c := by
  cases a <;> cases c <;> decide

theorem and27 {x : UInt32} (h : x.toNat < 2 ^ 27) : x &&& 0x07ffffff = x := by
  apply UInt32.toNat_inj.mp
  have : (0x07ffffff : UInt32).toNat = 2 ^ 27 - 1 := rfl
  rw [UInt32.toNat_and, this, Nat.and_two_pow_sub_one_eq_mod, Nat.mod_eq_of_lt h]
''', rtpre=PPRE + '\nhave hm := modes_dec access_mode cmi\nhave h27 := and27 hc', rtsimp=PS + ', hm, h27', safesimp=PSAFE)
ie('ApnAmbr', 'apnambr.rs', 198, [('ambr_ul', 'UInt32', '0'), ('ambr_dl', 'UInt32', '0')], 'be32 x.ambr_ul ++ be32 x.ambr_dl',
   'let ambr_ul ← rd32 b 3\nlet ambr_dl ← rd32 b 7', 'ambr_ul, ambr_dl', 8)
BOOL01 = '''
/-- %s. -/
def ofU8? (v : UInt8) : Option Bool := if v = 0 then some false else if v = 1 then some true else none
'''
ie('Spi', 'spi.rs', 203, [('lapi', 'Bool', 'false')], '[if x.lapi then 1 else 0]', 'let v ← rd b 3\nlet lapi ← R.ofOption (ofU8? v) .ieIncorrect', 'lapi', 1,
   aux=BOOL01 % 'spi.rs:49-53', rtpre='cases lapi', rtsimp='ofU8?')
ie('UliTimestamp', 'ulitimestamp.rs', 214, [('timestamp', 'UInt32', '0')], 'be32 x.timestamp', 'let timestamp ← rd32 b 3', 'timestamp', 4)
enum('SelectMode', 'cnose.rs', [('servingNetworkSelectedbyUE', [0]), ('servingNetworkSelectedbyNetwork', [1, 2, 3])])
ie('CnOperatorSelectionEntity', 'cnose.rs', 216, [('selection_entity', 'SelectMode', '.servingNetworkSelectedbyUE')], '[x.selection_entity.toU8]',
   'let v ← rd b 3\nlet selection_entity ← R.ofOption (SelectMode.ofU8? v) .ieIncorrect', 'selection_entity', 1)
ie('MappedUeUsageType', 'mueut.rs', 223, [('usage_type', 'UInt16', '0')], 'be16 x.usage_type', 'let usage_type ← rd16 b 3', 'usage_type', 2)
ie('UpFunctionSelectionIndicationFlags', 'upfsif.rs', 224, [('dcnr', 'Bool', 'false')], '[if x.dcnr then 1 else 0]',
   'let v ← rd b 3\nlet dcnr ← R.ofOption (ofU8? v) .ieIncorrect', 'dcnr', 1, aux=BOOL01 % 'upfsif.rs:49-53', rtpre='cases dcnr', rtsimp='ofU8?')

module('Flags', 'TLV information elements of one octet whose `len` uses the declared length')


def flags8(name, file, code, order, decl):
    ie(name, file, code, [(f, 'Bool', 'false') for f in decl],
       'flagOctet %s' % ('\n    ' + ' '.join('x.' + f for f in order)) if 0 else '[flagOctet ' + ' '.join('x.' + f for f in order[:4]) + '\n    ' + ' '.join('x.' + f for f in order[4:]) + ']',
       'let v ← rd b 3', ',\n             '.join('%s := flagAt v %d' % (f, order.index(f)) for f in decl), 1, lenk='L',
       rtpre='have hf := flagAt_octet ' + ' '.join(order), rtsimp='hf')


raw('''
/-- `[f0, .., f7].iter().map(|x| if *x {1} else {0}).enumerate().map(|(i, x)| x << (7 - i)).sum()`
(commonflags.rs:48-57, extendedcommonflags.rs:48-57); the sum of distinct powers of two never overflows. -/
def flagOctet (f0 f1 f2 f3 f4 f5 f6 f7 : Bool) : UInt8 :=
  (b2u f0 <<< 7) + (b2u f1 <<< 6) + (b2u f2 <<< 5) + (b2u f3 <<< 4) +
  (b2u f4 <<< 3) + (b2u f5 <<< 2) + (b2u f6 <<< 1) + b2u f7

/-- `(v & (0b10000000 >> i)) >> (7 - i) == 1` (commonflags.rs:72-77, extendedcommonflags.rs:72-77). -/
def flagAt (v i : UInt8) : Bool := (v &&& ((0x80 : UInt8) >>> i)) >>> (7 - i) == 1

theorem flagAt_octet (f0 f1 f2 f3 f4 f5 f6 f7 : Bool) :
    flagAt (flagOctet f0 f1 f2 f3 f4 f5 f6 f7) 0 = f0 ∧ flagAt (flagOctet f0 f1 f2 f3 f4 f5 f6 f7) 1 = f1 ∧
    flagAt (flagOctet f0 f1 f2 f3 f4 f5 f6 f7) 2 = f2 ∧ flagAt (flagOctet f0 f1 f2 f3 f4 f5 f6 f7) 3 = f3 ∧
    flagAt (flagOctet f0 f1 f2 f3 f4 f5 f6 f7) 4 = f4 ∧ flagAt (flagOctet f0 f1 f2 f3 f4 f5 f6 f7) 5 = f5 ∧
    flagAt (flagOctet f0 f1 f2 f3 f4 f5 f6 f7) 6 = f6 ∧ flagAt (flagOctet f0 f1 f2 f3 f4 f5 f6 f7) 7 = f7 := by
  revert f0 f1 f2 f3 f4 f5 f6 f7; decide +kernel
''')
flags8('CommonFlags', 'commonflags.rs', 148,
       ['dual_addr_bearer', 'upgrade_qos_support', 'nrsn', 'no_qos_negotiation', 'mbms_counting_info', 'ran_procedures_ready', 'mbms_service_type', 'prohibit_payload_compr'],
       ['dual_addr_bearer', 'upgrade_qos_support', 'nrsn', 'no_qos_negotiation', 'mbms_counting_info', 'ran_procedures_ready', 'mbms_service_type', 'prohibit_payload_compr'])


def flags3(name, file, code, lo, mid, hi):
    ie(name, file, code, [(lo, 'Bool', 'false'), (mid, 'Bool', 'false'), (hi, 'Bool', 'false')],
       '[(b2u x.%s <<< 2) ||| (b2u x.%s <<< 1) ||| b2u x.%s]' % (hi, mid, lo), 'let v ← rd b 3',
       '%s := v &&& 1 == 1, %s := (v >>> 1) &&& 1 == 1, %s := (v >>> 2) &&& 1 == 1' % (lo, mid, hi), 1, lenk='L',
       rtpre='cases %s <;> cases %s <;> cases %s' % (lo, mid, hi), rtsimp='b2u')


flags3('DirectTunnelFlags', 'directtunnelflags.rs', 182, 'dti', 'gcsi', 'ei')
flags8('ExtendedCommonFlags', 'extendedcommonflags.rs', 193, ['uasi', 'bdwi', 'pcri', 'vb', 'retloc', 'cpsr', 'ccrsi', 'unauthenticated_imsi'],
       ['unauthenticated_imsi', 'ccrsi', 'cpsr', 'retloc', 'vb', 'pcri', 'bdwi', 'uasi'])
ie('CSGInformationReportingAction', 'csginforeporting.rs', 195, [('action', 'UInt8', '0')], '[x.action]', 'let v ← rd b 3', 'action := v &&& 7', 1, lenk='L',
   wf=[('hv', 'x.action < 8')], aux='''
theorem low3 {v : UInt8} (h : v < 8) : v &&& 7 = v := by revert v; decide +kernel
''', rtpre='have hm := low3 hv', rtsimp='hm')
flags3('ExtendedCommonFlagsII', 'extendedcommonflagsii.rs', 218, 'pnsi', 'dtci', 'pmtsmi')

module('Octets', 'TLV information elements holding octets')


def octets(name, file, code, field):
    raw('''
/-- `%(name)s` (%(cs)s). -/
structure %(name)s where
  t : UInt8
  length : UInt16
  %(f)s : Bytes
deriving DecidableEq, Repr

namespace %(name)s

/-- `default` (%(cd)s). -/
def dflt : %(name)s := ⟨%(code)d, 0, []⟩

/-- `marshal` (%(cm)s). -/
def marshal (x : %(name)s) : Bytes := tlv x.t x.length x.%(f)s

/-- `unmarshal` (%(cu)s). -/
def unmarshal (m : Mode) (b : Bytes) : R Err %(name)s :=
  withTlv m b fun length => do
    let %(f)s ← slBody3 m b length
    return { t := %(code)d, length, %(f)s }

/-- `len` (%(cl)s). -/
def len (m : Mode) (x : %(name)s) : R Err Nat := len3 m x.length

/-- Field values that the encoding of `%(name)s` can represent. -/
def WF (x : %(name)s) : Prop :=
  x.t = %(code)d ∧ x.length.toNat = x.%(f)s.length ∧ 0 < x.length.toNat ∧ x.length.toNat < 65533

instance (x : %(name)s) : Decidable x.WF := by unfold WF; infer_instance

theorem rt : RoundTrips WF marshal unmarshal := by
  intro m x tail h
  obtain ⟨t, length, s⟩ := x
  obtain ⟨ht, hl, h0, hb⟩ := h
  simp only at ht hl h0 hb
  subst ht
  simp only [marshal, tlv_wf hl, List.cons_append, unmarshal]
  rw [withTlv_cons h0 hb (by simp; omega), slBody3_ok hb, sl_body3 _ _ _ _ _ _ hl]
  rfl

theorem len_ok : LenOk WF marshal len := by
  intro m x h
  rw [marshal, tlv_length, len, len3_ok h.2.2.2, h.2.1]

theorem panics : PanicsIff Overflows unmarshal := by
  intro m b
  unfold unmarshal Overflows
  rw [withTlv_eq]
  exact octets_panics m b _

theorem declared : Declared unmarshal len := by
  intro m b x e
  unfold unmarshal at e
  have : x.length = declLen b := withTlv_post (P := fun x => x.length = declLen b) m b _ (by
    intro y hy
    cases hs : slBody3 m b (declLen b) <;> simp [hs] at hy
    subst hy; rfl) e
  rw [len, this]

end %(name)s
''' % dict(name=name, f=field, code=code, cs=cite(file, r'pub struct %s\b' % name), cd=cite(file, r'fn default\('),
           cm=cite(file, r'fn marshal\('), cu=cite(file, r'fn unmarshal\('), cl=cite(file, r'fn len\(')))


raw('''
/-- The panics of the decoders in this file: only when `length + 3` does not fit in a `u16`. -/
theorem octets_panics {α : Type} (m : Mode) (b : Bytes) (k : UInt16 → Bytes → α) :
    ((if b.length < 3 then .err .ieInvalidLength
      else if 65533 ≤ (declLen b).toNat then
        (if m = .debug then .panic else slBody3 m b (declLen b) >>= fun s => .ok (k (declLen b) s))
      else if 0 < (declLen b).toNat ∧ (declLen b).toNat + 3 ≤ b.length then
        slBody3 m b (declLen b) >>= fun s => .ok (k (declLen b) s)
      else .err .ieInvalidLength : R Err α) = .panic ↔ 3 ≤ b.length ∧ 65533 ≤ (declLen b).toNat) ∧
    (if b.length < 3 then .err .ieInvalidLength
      else if 65533 ≤ (declLen b).toNat then
        (if m = .debug then .panic else slBody3 m b (declLen b) >>= fun s => .ok (k (declLen b) s))
      else if 0 < (declLen b).toNat ∧ (declLen b).toNat + 3 ≤ b.length then
        slBody3 m b (declLen b) >>= fun s => .ok (k (declLen b) s)
      else .err .ieInvalidLength : R Err α) ≠ .diverge := by
  by_cases h : b.length < 3
  · simp [h, Nat.not_le.mpr h]
  · by_cases h1 : 65533 ≤ (declLen b).toNat
    · rw [if_neg h, if_pos h1, slBody3_panic h1]
      have h3 : 3 ≤ b.length := by omega
      cases m <;> simp [h1, h3]
    · rw [if_neg h, if_neg h1]
      by_cases h2 : 0 < (declLen b).toNat ∧ (declLen b).toNat + 3 ≤ b.length
      · rw [if_pos h2, slBody3_ok (by omega), sl_ok (by omega) (by omega)]
        simp [h1]
      · rw [if_neg h2]
        simp [h1]
''')
octets('Pco', 'pco.rs', 132, 'pco')
octets('Tft', 'tft.rs', 137, 'tft')
octets('TriggerId', 'triggerid.rs', 142, 'triggerid')
octets('OmcId', 'omcid.rs', 143, 'omcid')


def main():
    os.makedirs(OUT, exist_ok=True)
    for mo in MODULES:
        s = 'import Verif.C1.IeBase\n\n/-!\n# %s\n\nExpanded by `scripts/gen_c1_ies.py`; the citations refer to\n`/repo/src/gtpv1/gtpc/messages/ies`.\n-/\n\nnamespace Gtp.C1\nopen Gtp.V1\nopen Gtp.U (len3)\nopen Gtp.V2 (declLen)\n\nset_option linter.unusedSimpArgs false\n\n' % mo['doc']
        s += '\n'.join(mo['parts']) + '\nend Gtp.C1\n'
        p = os.path.join(OUT, mo['name'] + '.lean')
        if not os.path.exists(p) or open(p).read() != s:
            open(p, 'w').write(s)
            print('wrote', mo['name'])


main()
