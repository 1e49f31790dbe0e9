module('Octets', 'Information elements carrying opaque octets', ('Verif.V2.IeBase',))


def octets(name, file, f, u16=False, len='U'):
    ie(name, file, 0, [(f, 'Bytes')], 'x.' + f,
       ('let %s ← slBody16 m b length' if u16 else 'let %s ← sl b 4 (length.toNat + 4)') % f, f,
       check=True, len=len, length='x.%s.length' % f, wf=[('hne', 'x.%s ≠ []' % f)],
       rtpre='have hpos := List.length_pos_iff.mpr hne', rtsimp='slBody16_ok' if u16 else '',
       safesimp='slBody16_ok hb' if u16 else '')


octets('GroupId', 'groupid.rs', 'groupid')
octets('IntegerNumber', 'integernumber.rs', 'number')
octets('BearerTft', 'bearertft.rs', 'tft')
octets('TrafficAggregateDescription', 'tad.rs', 'tad')
octets('Apco', 'apco.rs', 'apco')
octets('Pco', 'pco.rs', 'pco', True)
octets('Epco', 'epco.rs', 'epco', True)
octets('SourceRncPdcpContextInfo', 'srcrncpdcpctxinfo.rs', 'rrc_container', True, '16')
ie('SpecialIEWithTypeExt', 'specialiewithtypeext.rs', 0, [('ie_type_ext', 'UInt16'), ('ie_data', 'Bytes')], 'be16 x.ie_type_ext ++ x.ie_data',
   check=True, length='x.ie_data.length + 2', unm='''
if 5 ≤ b.length then
  let length ← rd16 b 1
  let ins ← rd b 3
  let ie_type_ext ← rd16 b 4
  if ← checkTliv m length b then
    let ie_data ← sl b 6 (length.toNat + 4)
    return { t := 254, length, ins := ins &&& 0x0f, ie_type_ext, ie_data }
  else .err (.ieInvalidLength 254)
else .err (.ieInvalidLength 254)''', safecond='fun b => b.length ≠ 5 ∧ (declLen b).toNat ≠ 1',
   rtsimp='')
ie('PrivateExtension', 'privateextension.rs', 0, [('enterprise_id', 'UInt16'), ('value', 'Bytes')], 'be16 x.enterprise_id ++ x.value',
   '''let enterprise_id ← rd16 b 4
let l ← add16 m length 4
let value ← sl b 6 l.toNat''', 'enterprise_id, value', check=True, minlen=7, length='x.value.length + 2',
   wf=[('hne', 'x.value ≠ []')], rtpre='have hpos := List.length_pos_iff.mpr hne', rtsimp='add16_four, toNat_add4',
   safecond='fun b => (declLen b).toNat ≠ 1', safesimp='Safe_add4 hb, toNat_add4 hb')
ie('Fcause', 'fcause.rs', 0, [('cause_type', 'CauseType'), ('cause_field', 'Bytes')], '[x.cause_type.toU8] ++ x.cause_field',
   '''let c ← rd b 4
let cause_field ← sl b 5 (length.toNat + 4)''', 'cause_type := .ofU8 (c &&& 0x0f), cause_field', check=True, minlen=5,
   length='x.cause_field.length + 1', rtsimp='CauseType.toU8_and')
ie('CompleteRequestMessage', 'completereqmessage.rs', 0, [('message', 'RequestMessage')], 'x.message.octets',
   check=True, length='x.message.octets.length', len='16', unm='''
if 5 ≤ b.length then
  let length ← rd16 b 1
  let ins ← rd b 3
  if ← checkTliv m length b then
    let c ← rd b 4
    if c = 0 then
      let s ← sl b 5 (length.toNat + 4)
      return { t := 116, length, ins := ins &&& 0x0f, message := .AttachRequest s }
    else if c = 1 then
      let s ← sl b 5 (length.toNat + 4)
      return { t := 116, length, ins := ins &&& 0x0f, message := .TauRequest s }
    else return { t := 116, length, ins := ins &&& 0x0f, message := .Spare }
  else .err (.ieInvalidLength 116)
else .err (.ieInvalidLength 116)''',
   rt='''cases message <;> simp only [RequestMessage.octets, List.length_append, List.length_cons, List.length_nil] at hl <;>
  enc_simp [marshal, RequestMessage.octets] <;> rtv_simp [unmarshal, ht, hi, hbd]''')
# helpers come first
parts = cur['parts']
enum('CauseType', 'fcause.rs', [('Spare', 5), ('RadioNetworkLayer', 0), ('TransportLayer', 1), ('Nas', 2), ('Protocol', 3), ('Misc', 4)],
     [(5, 'Spare'), (0, 'RadioNetworkLayer'), (1, 'TransportLayer'), (2, 'Nas'), (3, 'Protocol'), (4, 'Misc')], 'Spare')
raw('''
theorem CauseType.toU8_and (c : CauseType) : c.toU8 &&& 15 = c.toU8 := by cases c <;> rfl

/-- `enum RequestMessage` (completereqmessage.rs:15-19). -/
inductive RequestMessage where
  | Spare | AttachRequest (i : Bytes) | TauRequest (i : Bytes)
deriving DecidableEq, Repr

/-- Body written for a `RequestMessage` (completereqmessage.rs:54-65). -/
def RequestMessage.octets : RequestMessage → Bytes
  | .Spare => [2]
  | .AttachRequest i => [0] ++ i
  | .TauRequest i => [1] ++ i
''')
parts[:0] = parts[-2:]
del parts[-2:]

module('Strings', 'Information elements carrying digit strings or text', ('Verif.V2.IeBase', 'Verif.Str'))


def tbcd(name, file, f, dec, **kw):
    ie(name, file, 0, [(f, 'Str')], 'tbcdEncode x.' + f, dec, '%s := tbcdDecode s' % f, check=True,
       length=kw.pop('length', '(x.%s.length + 1) / 2' % f), wf=[('hd', '∀ c ∈ x.%s, IsDigit c' % f), ('hne', 'x.%s ≠ []' % f)],
       rtpre='have hpos := List.length_pos_iff.mpr hne\nhave hb := tbcd_length _ hd', rtsimp='tbcd_roundtrip _ hd, slBody16_ok',
       safesimp='slBody16_ok hb' if 'Body16' in dec else '', **kw)


tbcd('Imsi', 'imsi.rs', 'imsi', 'let s ← sl b 4 (length.toNat + 4)', minlen=5, errShort='.ieIncorrect 1')
tbcd('AlternativeImsi', 'alternativeimsi.rs', 'imsi', 'let s ← sl b 4 (length.toNat + 4)', minlen=5, errShort='.ieIncorrect 219')
tbcd('Msisdn', 'msisdn.rs', 'msisdn', 'let s ← slBody16 m b length')
ie('Mei', 'mei.rs', 0, [('mei', 'Str')], 'tbcdEncode x.mei', 'let s ← slBody16 m b length', 'mei := tbcdDecode s', check=True,
   length='8', wf=[('hd', '∀ c ∈ x.mei, IsDigit c'), ('hne', '(x.mei.length + 1) / 2 = 8')],
   rtpre='have hb := tbcd_length _ hd', rtsimp='tbcd_roundtrip _ hd, slBody16_ok',
   lendef='def len (_m : Mode) (_x : Mei) : R Err Nat := .ok 12',
   lenok='have hb := tbcd_length _ hd\nenc_simp [marshal]\nsimp only [len]\ncongr 1\nsimp only [List.length_cons]\nomega',
   sname='ConstSafe 12', safe='''intro m b hb
unfold declLen at hb
safe_simp [unmarshal, len, Safe_checkTliv hb, slBody16_ok hb]
safe_fin''', note='; `len()` is the constant 12')
ie('StnSr', 'stnsr.rs', 0, [('nanpi', 'UInt8'), ('msisdn', 'Str')], '[x.nanpi] ++ tbcdEncode x.msisdn',
   'let nanpi ← rd b 4\nlet l ← add16 m length 4\nlet s ← sl b 5 l.toNat', 'nanpi, msisdn := tbcdDecode s', check=True,
   length='(x.msisdn.length + 1) / 2 + 1', wf=[('hd', '∀ c ∈ x.msisdn, IsDigit c')],
   rtpre='have hb := tbcd_length _ hd', rtsimp='tbcd_roundtrip _ hd, add16_four, toNat_add4', safesimp='Safe_add4 hb, toNat_add4 hb')
ie('Ldn', 'ldn.rs', 0, [('name', 'Str')], 'utf8 x.name', 'let s ← sl b 4 (length.toNat + 4)', 'name := latin1 s', check=True, len='16',
   length='x.name.length', wf=[('ha', '∀ c ∈ x.name, IsAscii c'), ('hne', 'x.name ≠ []')],
   rtpre='have hpos := List.length_pos_iff.mpr hne\nhave hu := utf8_length ha', rtsimp='latin1_utf8 ha')
