module('Loc', 'Location identities and the information elements made of them', ('Verif.V2.VarBase', 'Verif.UtilsLemmas'))

raw('''
/-- An element without type and length: `unm` reads back what `oct` writes, whatever follows, and the
element takes `k` octets. -/
def ElemOk {α : Type} (WF : α → Prop) (oct : α → Bytes) (unm : Bytes → R Err α) (k : Nat) : Prop :=
  ∀ x, WF x → (oct x).length = k ∧ ∀ tail, unm (oct x ++ tail) = .ok x

/-- An element decoder never panics, and succeeds only with at least `lo` octets. -/
def ElemSafe {α : Type} (lo : Nat) (unm : Bytes → R Err α) : Prop :=
  ∀ b, (unm b).Safe fun _ => lo ≤ b.length

/-- `for _ in 0..n { match X::unmarshal(&buffer[cursor..]) { Ok(j) => { v.push(j); cursor += k }
Err(_) => return Err(e) } }` returning the list and the final cursor. With `chk` every round begins
with `if cursor > buffer.len() { return Err(e) }`. -/
def rdElems {α : Type} (chk : Bool) (unm : Bytes → R Err α) (k : Nat) (e : Err) (b : Bytes) :
    Nat → Nat → R Err (List α × Nat)
  | 0, c => .ok ([], c)
  | n + 1, c =>
    if chk = true ∧ b.length < c then .err e
    else do
      let s ← slFrom b c
      let x ← (unm s).mapErr e
      let (l, c') ← rdElems chk unm k e b n (c + k)
      return (x :: l, c')

theorem rdElems_ok {α : Type} {chk : Bool} {WF : α → Prop} {oct : α → Bytes} {unm : Bytes → R Err α} {k : Nat}
    (he : ElemOk WF oct unm k) (e : Err) (b : Bytes) :
    ∀ (l : List α) (c : Nat) (tail : Bytes), (∀ x ∈ l, WF x) → c ≤ b.length → b.drop c = l.flatMap oct ++ tail →
      rdElems chk unm k e b l.length c = .ok (l, c + k * l.length) ∧
      b.drop (c + k * l.length) = tail ∧ c + k * l.length ≤ b.length
  | [], c, tail, _, hc, hd => ⟨rfl, by simpa using hd, by simpa using hc⟩
  | x :: l, c, tail, hw, hc, hd => by
    obtain ⟨hk, hr⟩ := he x (hw x (by simp))
    have hlen : b.length = c + (k + ((l.flatMap oct).length + tail.length)) := by
      have := congrArg List.length hd
      simp only [List.length_drop, List.flatMap_cons, List.length_append, hk] at this
      omega
    have hd2 : b.drop (c + k) = l.flatMap oct ++ tail := by
      rw [← List.drop_drop, hd, List.flatMap_cons, List.append_assoc, ← hk, List.drop_left]
    obtain ⟨h1, h2, h3⟩ := rdElems_ok (chk := chk) he e b l (c + k) tail (fun y hy => hw y (by simp [hy])) (by omega) hd2
    have hm : c + k * (x :: l).length = c + k + k * l.length := by
      simp only [List.length_cons, Nat.mul_add]; omega
    refine ⟨?_, by rw [hm]; exact h2, by rw [hm]; exact h3⟩
    rw [List.length_cons, rdElems, if_neg (by omega)]
    simp only [slFrom, hc, if_true, R.ok_bind, hd, List.flatMap_cons, List.append_assoc, hr, R.mapErr_ok, h1]
    rw [← List.length_cons (a := x), hm]
    rfl

theorem rdElems_safe {α : Type} {lo : Nat} {unm : Bytes → R Err α} (he : ElemSafe lo unm) (k : Nat) (e : Err) (b : Bytes) :
    ∀ (n c : Nat) (P : List α × Nat → Prop), (∀ l, P (l, c + k * n)) →
      (rdElems true unm k e b n c).Safe P
  | 0, c, P, h => h []
  | n + 1, c, P, h => by
    rw [rdElems]
    by_cases hc : b.length < c
    · rw [if_pos ⟨rfl, hc⟩]; trivial
    · rw [if_neg (by simp [hc]), Safe_bind, Safe_slFrom]
      refine ⟨by omega, ?_⟩
      rw [Safe_bind, Safe_mapErr]
      have := he (b.drop c)
      cases hu : unm (b.drop c) <;> rw [hu] at this <;> simp only [R.Safe] at this ⊢
      rename_i x
      show (rdElems true unm k e b n (c + k) >>= _).Safe _
      rw [Safe_bind]
      refine rdElems_safe he k e b n (c + k) _ (fun l => ?_)
      have := h (x :: l)
      rw [show c + k * (n + 1) = c + k + k * n by rw [Nat.mul_add]; omega] at this
      exact this

/-- Without the check, the elements must fit. -/
theorem rdElems_safe' {α : Type} {lo : Nat} {unm : Bytes → R Err α} (he : ElemSafe lo unm) (k : Nat) (e : Err) (b : Bytes) :
    ∀ (n c : Nat) (P : List α × Nat → Prop), c + k * n ≤ b.length → (∀ l, l.length = n → P (l, c + k * n)) →
      (rdElems false unm k e b n c).Safe P
  | 0, c, P, _, h => h [] rfl
  | n + 1, c, P, hn, h => by
    have hm : c + k * (n + 1) = c + k + k * n := by rw [Nat.mul_add]; omega
    rw [rdElems, if_neg (by simp), Safe_bind, Safe_slFrom]
    refine ⟨by omega, ?_⟩
    rw [Safe_bind, Safe_mapErr]
    have := he (b.drop c)
    cases hu : unm (b.drop c) <;> rw [hu] at this <;> simp only [R.Safe] at this ⊢
    rename_i x
    show (rdElems false unm k e b n (c + k) >>= _).Safe _
    rw [Safe_bind]
    refine rdElems_safe' he k e b n (c + k) _ (by omega) (fun l hl => ?_)
    have := h (x :: l) (by simp [hl])
    rw [hm] at this
    exact this
''')

LOCS = []


def loc(name, lines, fields, enc, dec, ret, k, lo, wf=(), rtpre='', rtsimp='', aux=''):
    st, mar, un = lines
    fs = [('mcc', 'UInt16'), ('mnc', 'UInt16'), ('mnc_is_three_digits', 'Bool')] + fields
    o = ['/-- `%s` (commons.rs:%s). -/' % (name, st), 'structure %s where' % name]
    o += ['  %s : %s' % f for f in fs]
    o += ['deriving DecidableEq, Repr\n', 'namespace %s\n' % name]
    if aux:
        o.append(aux.strip('\n') + '\n')
    o.append('/-- `marshal` (commons.rs:%s). -/' % mar)
    o.append('def octets (x : %s) : Bytes :=\n  mccMncEncode x.mcc x.mnc x.mnc_is_three_digits%s\n' % (name, enc))
    o.append('/-- `unmarshal` (commons.rs:%s). -/' % un)
    o.append('def unmarshal (b : Bytes) : R Err %s := do\n  if %d ≤ b.length then\n    let s ← sl b 0 3\n    let (mcc, mnc, mnc_is_three_digits) ← mccMncDecode s' % (name, lo))
    o.append(ind(dec, 4))
    o.append('    return { mcc, mnc, mnc_is_three_digits, %s }\n  else .err (.ieIncorrect 0)\n' % ret)
    cs = ['PlmnOk x.mcc x.mnc x.mnc_is_three_digits'] + [c for _, c in wf]
    o.append('/-- Values that the encoding represents. -/')
    o.append('def WF (x : %s) : Prop := %s\n' % (name, ' ∧ '.join('(%s)' % c if '→' in c else c for c in cs)))
    o.append('instance (x : %s) : Decidable x.WF := by unfold WF; infer_instance\n' % name)
    hs = ['hp'] + [h for h, _ in wf]
    o.append('theorem elem : ElemOk WF octets unmarshal %d := by' % k)
    o.append('  rintro ⟨%s⟩ %s' % (', '.join(f for f, _ in fs), '⟨%s⟩' % ', '.join(hs) if wf else 'hp'))
    o.append('  simp only %sat %s' % ('' if wf else '[WF] ', ' '.join(hs)))
    o.append('  obtain ⟨p0, p1, p2, e1, e2⟩ := mccMnc_roundtrip3 hp')
    if rtpre:
        o.append(ind(rtpre, 2))
    rs = (', ' + rtsimp) if rtsimp else ''
    o.append('  constructor\n  · simp [octets, e1, be16, be32, be24%s]' % rs)
    o.append('  · intro tail\n    enc_simp [octets, e1, be16, be32, be24%s]\n    rt_simp [unmarshal, e2, mccMncDecode, sl%s]\n' % (rs, rs))
    o.append('theorem elem_safe : ElemSafe %d unmarshal := by\n  intro b\n  safe_simp [unmarshal, mccMncDecode, List.length_drop, List.length_take]\n  safe_fin\n' % lo)
    o.append('end %s' % name)
    raw('\n'.join(o))
    LOCS.append(name)


loc('Cgi', ('22-28', '31-39', '41-54'), [('lac', 'UInt16'), ('ci', 'UInt16')], ' ++ be16 x.lac ++ be16 x.ci', 'let lac ← rd16 b 3\nlet ci ← rd16 b 5', 'lac, ci', 7, 7)
loc('Sai', ('70-76', '79-87', '89-102'), [('lac', 'UInt16'), ('sac', 'UInt16')], ' ++ be16 x.lac ++ be16 x.sac', 'let lac ← rd16 b 3\nlet sac ← rd16 b 5', 'lac, sac', 7, 7)
loc('Rai', ('118-124', '127-136', '138-151'), [('lac', 'UInt16'), ('rac', 'UInt8')], ' ++ be16 x.lac ++ [x.rac, 0xff]', 'let lac ← rd16 b 3\nlet rac ← rd b 5', 'lac, rac', 7, 6)
loc('Tai', ('167-172', '175-182', '184-196'), [('tac', 'UInt16')], ' ++ be16 x.tac', 'let tac ← rd16 b 3', 'tac', 5, 5)
loc('Ecgi', ('212-217', '220-227', '229-241'), [('eci', 'UInt32')], ' ++ be32 x.eci', 'let eci ← rd32 b 3', 'eci', 7, 7)
loc('Lai', ('257-262', '265-272', '274-286'), [('lac', 'UInt16')], ' ++ be16 x.lac', 'let lac ← rd16 b 3', 'lac', 5, 5)
loc('MacroEnbId', ('302-307', '310-317', '319-331'), [('macro_id', 'UInt32')], ' ++ be24 x.macro_id', 'let macro_id ← rd24 b 3', 'macro_id', 6, 6,
    wf=[('h24', 'x.macro_id.toNat < 16777216')], rtsimp='of24_be h24')
loc('ExtMacroEnbId', ('347-353', '356-370', '372-395'), [('smenb', 'Bool'), ('ext_macro_id', 'UInt32')],
    ''' ++
    (if x.smenb then [(oct32 2 x.ext_macro_id ||| 0x80) &&& 0x83, oct32 1 x.ext_macro_id, oct32 0 x.ext_macro_id]
     else be24 x.ext_macro_id)''',
    '''let a ← rd b 3
let c ← rd b 4
let d ← rd b 5
let (smenb, ext_macro_id) := if a >>> 7 = 0 then (false, of32 0 a c d) else (true, of32 0 (a &&& 0x03) c d)''', 'smenb, ext_macro_id', 6, 6,
    wf=[('hid', 'if x.smenb then x.ext_macro_id.toNat < 262144 else x.ext_macro_id.toNat < 8388608')],
    aux='''
theorem short_dec {i : UInt32} (h : i.toNat < 262144) :
    ((oct32 2 i ||| 0x80) &&& 0x83) >>> 7 ≠ 0 ∧ ((oct32 2 i ||| 0x80) &&& 0x83) &&& 0x03 = oct32 2 i := by
  have hk : oct32 2 i < 4 := by
    rw [UInt8.lt_iff_toNat_lt]
    simp [oct32]
    omega
  have key : ∀ a : UInt8, a < 4 → ((a ||| 0x80) &&& 0x83) >>> 7 ≠ 0 ∧ ((a ||| 0x80) &&& 0x83) &&& 0x03 = a := by
    decide +kernel
  exact key _ hk

theorem long_dec {i : UInt32} (h : i.toNat < 8388608) : oct32 2 i >>> 7 = 0 := by
  have hk : oct32 2 i < 128 := by
    rw [UInt8.lt_iff_toNat_lt]
    simp [oct32]
    omega
  have key : ∀ a : UInt8, a < 128 → a >>> 7 = 0 := by decide +kernel
  exact key _ hk
''',
    rtpre='''
have fin : ((oct32 2 ext_macro_id, oct32 1 ext_macro_id, oct32 0 ext_macro_id) =
    (oct32 2 ext_macro_id, oct32 1 ext_macro_id, oct32 0 ext_macro_id)) := rfl
cases smenb with
| true =>
  simp only [if_true] at hid
  obtain ⟨s1, s2⟩ := short_dec hid
  have s3 := of24_be (show ext_macro_id.toNat < 16777216 by omega)
  constructor
  · simp [octets, e1]
  · intro tail
    enc_simp [octets, e1, if_true]
    generalize (oct32 2 ext_macro_id ||| 0x80) &&& 0x83 = v at *
    rt_simp [unmarshal, e2, mccMncDecode, sl, s1, s2, s3]
| false =>
  simp only [if_false, Bool.false_eq_true] at hid
  have s1 := long_dec hid
  have s3 := of24_be (show ext_macro_id.toNat < 16777216 by omega)
  constructor
  · simp [octets, e1, be24]
  · intro tail
    enc_simp [octets, e1, if_false, Bool.false_eq_true, be24]
    rt_simp [unmarshal, e2, mccMncDecode, sl, s1, s3]
/-''')
# the case split replaces the standard proof
cur['parts'][-1] = cur['parts'][-1].replace('''  have fin : ((oct32 2 ext_macro_id, oct32 1 ext_macro_id, oct32 0 ext_macro_id) =
      (oct32 2 ext_macro_id, oct32 1 ext_macro_id, oct32 0 ext_macro_id)) := rfl
''', '')
_a = cur['parts'][-1].index('  /-\n'); _b = cur['parts'][-1].index('theorem elem_safe')
cur['parts'][-1] = cur['parts'][-1][:_a].rstrip() + '\n\n' + cur['parts'][-1][_b:]

ie('EcgiList', 'ecgilist.rs', 0, [('ecgi_list', 'Option (List Ecgi)')],
   '''match x.ecgi_list with
| some i => be16 (lenU16 i) ++ i.flatMap Ecgi.octets
| none => [0, 0]''', length='2 + 7 * (x.ecgi_list.getD []).length', len='U', bound=False,
   wf=[('hw', '∀ y ∈ x.ecgi_list.getD [], y.WF'), ('hne', 'x.ecgi_list ≠ some []')], minlen=6, unm='''
if 6 ≤ b.length then
  let length ← rd16 b 1
  let ins ← rd b 3
  let n ← rd16 b 4
  if n = 0 then return { t := 190, length, ins := ins &&& 0x0f, ecgi_list := none }
  else if 6 + 7 * n.toNat ≤ b.length then
    let (l, _) ← rdElems false Ecgi.unmarshal 7 (.ieIncorrect 190) b n.toNat 6
    return { t := 190, length, ins := ins &&& 0x0f, ecgi_list := some l }
  else .err (.ieInvalidLength 190)
else .err (.ieInvalidLength 190)''',
   lendef='''
def len (_m : Mode) (x : EcgiList) : R Err Nat :=
  match x.ecgi_list with
  | some i => .ok (4 + 2 + i.length * 7)
  | none => .ok (4 + 2)''',
   aux='''
theorem flat_length : ∀ l : List Ecgi, (∀ y ∈ l, y.WF) → (l.flatMap Ecgi.octets).length = 7 * l.length
  | [], _ => rfl
  | y :: l, h => by
    have := flat_length l (fun z hz => h z (by simp [hz]))
    have e := (Ecgi.elem y (h y (by simp))).1
    simp only [List.flatMap_cons, List.length_append, e, this, List.length_cons]
    omega
''',
   rt='''
rcases ecgi_list with _ | l
· simp only [Option.getD_none, List.length_nil] at hl
  enc_simp [marshal]
  have z : of16 0 0 = 0 := rfl
  rt_simp [unmarshal, ht, hi, z]
· simp only [Option.getD_some] at hl hw
  have hlt := length.toNat_lt
  have hf := flat_length l hw
  have hn : (lenU16 l).toNat = l.length := by simp [lenU16]; omega
  have hpos : 0 < l.length := by
    rcases l with _ | ⟨a, l⟩
    · simp at hne
    · simp
  have hn0 : lenU16 l ≠ 0 := by
    intro h0; rw [h0] at hn; simp at hn; omega
  have hb : (190 :: hi16 length :: lo16 length :: ins :: hi16 (lenU16 l) :: lo16 (lenU16 l) ::
      (l.flatMap Ecgi.octets ++ tail)).drop 6 = l.flatMap Ecgi.octets ++ tail := by simp
  obtain ⟨h1, _, _⟩ := rdElems_ok (chk := false) Ecgi.elem (.ieIncorrect 190) _ l 6 tail hw (by simp) hb
  enc_simp [marshal, be16]
  simp only [← hn] at h1
  generalize l.flatMap Ecgi.octets = s at *
  var_simp [unmarshal, ht, hi, hn0, h1]''',
   lenok='''
rcases ecgi_list with _ | l
· simp [marshal, tliv_eq, len]
· simp only [Option.getD_some] at hl hw
  have hf := flat_length l hw
  simp only [marshal, tliv_eq, len, List.length_cons, List.length_append, hf, be16, List.length_nil]
  congr 1; omega''',
   sname='OwnSafe 6 (fun _ => True)',
   safe='''
intro m b hb hc
safe_simp [unmarshal, len]
repeat' first | with_reducible apply And.intro | intro _
all_goals first | omega | skip
apply rdElems_safe' Ecgi.elem_safe
· omega
· intro l hl
  safe_simp [hl]
  omega''')

ie('PresenceReportingAreaAction', 'praa.rs', 0,
   [('inapra', 'Bool'), ('action', 'UInt8'), ('prai', 'UInt32'), ('tai', 'List Tai'), ('rai', 'List Rai'), ('macro_enb', 'List MacroEnbId'),
    ('home_enb', 'List MacroEnbId'), ('ecgi', 'List Ecgi'), ('sai', 'List Sai'), ('cgi', 'List Cgi'), ('ext_macro_enb', 'List ExtMacroEnbId')],
   '''[if x.inapra then 0x08 ||| x.action else x.action] ++ be24 x.prai ++
  [(capLen x.tai 15 <<< 4) ||| capLen x.rai 15, capLen x.macro_enb 63, capLen x.home_enb 63, capLen x.ecgi 63,
   capLen x.sai 63, capLen x.cgi 63] ++
  (x.tai.take 15).flatMap Tai.octets ++ (x.macro_enb.take 63).flatMap MacroEnbId.octets ++
  (x.home_enb.take 63).flatMap MacroEnbId.octets ++ (x.ecgi.take 63).flatMap Ecgi.octets ++
  (x.rai.take 15).flatMap Rai.octets ++ (x.sai.take 63).flatMap Sai.octets ++
  (x.cgi.take 63).flatMap Cgi.octets ++ [capLen x.ext_macro_enb 63] ++
  (x.ext_macro_enb.take 63).flatMap ExtMacroEnbId.octets''',
   check=True, bound=True,
   length='''11 + 5 * x.tai.length + 6 * x.macro_enb.length + 6 * x.home_enb.length + 7 * x.ecgi.length +
    7 * x.rai.length + 7 * x.sai.length + 7 * x.cgi.length + 6 * x.ext_macro_enb.length''',
   wf=[('hact', 'x.action < 8'), ('hprai', 'x.prai.toNat < 16777216'),
       ('ntai', 'x.tai.length ≤ 15'), ('nrai', 'x.rai.length ≤ 15'), ('nmac', 'x.macro_enb.length ≤ 63'), ('nhome', 'x.home_enb.length ≤ 63'),
       ('necgi', 'x.ecgi.length ≤ 63'), ('nsai', 'x.sai.length ≤ 63'), ('ncgi', 'x.cgi.length ≤ 63'), ('next', 'x.ext_macro_enb.length ≤ 63'),
       ('wtai', '∀ y ∈ x.tai, y.WF'), ('wrai', '∀ y ∈ x.rai, y.WF'), ('wmac', '∀ y ∈ x.macro_enb, y.WF'), ('whome', '∀ y ∈ x.home_enb, y.WF'),
       ('wecgi', '∀ y ∈ x.ecgi, y.WF'), ('wsai', '∀ y ∈ x.sai, y.WF'), ('wcgi', '∀ y ∈ x.cgi, y.WF'), ('wext', '∀ y ∈ x.ext_macro_enb, y.WF')],
   unm='''
if 4 ≤ b.length then
  let length ← rd16 b 1
  let ins ← rd b 3
  let e := Err.ieInvalidLength 177
  if ← checkTliv m length b then
    let f ← rd b 4
    let prai ← rd24 b 5
    let n0 ← rd b 8
    let n1 ← rd b 9
    let n2 ← rd b 10
    let n3 ← rd b 11
    let n4 ← rd b 12
    let n5 ← rd b 13
    if b.length < 14 then .err e
    else
      let (tai, c) ← rdElems true Tai.unmarshal 5 e b (n0 >>> 4).toNat 14
      let (macro_enb, c) ← rdElems true MacroEnbId.unmarshal 6 e b (n1 &&& 0x3f).toNat c
      let (home_enb, c) ← rdElems true MacroEnbId.unmarshal 6 e b (n2 &&& 0x3f).toNat c
      let (ecgi, c) ← rdElems true Ecgi.unmarshal 7 e b (n3 &&& 0x3f).toNat c
      let (rai, c) ← rdElems true Rai.unmarshal 7 e b (n0 &&& 0x0f).toNat c
      let (sai, c) ← rdElems true Sai.unmarshal 7 e b (n4 &&& 0x3f).toNat c
      let (cgi, c) ← rdElems true Cgi.unmarshal 7 e b (n5 &&& 0x3f).toNat c
      let ext_macro_enb ← (if c ≤ b.length then do
          let n ← rd b c
          let (l, _) ← rdElems true ExtMacroEnbId.unmarshal 6 e b n.toNat (c + 1)
          pure l
        else pure [])
      return { t := 177, length, ins := ins &&& 0x0f, inapra := (f >>> 3) &&& 0x01 != 0, action := f &&& 0x07,
               prai, tai, rai, macro_enb, home_enb, ecgi, sai, cgi, ext_macro_enb }
  else .err e
else .err (.ieInvalidLength 177)''',
   aux='''
/-- The number of elements written (praa.rs:78-84, 95-98): at most `k`. -/
def capLen {α : Type} (l : List α) (k : Nat) : UInt8 := UInt8.ofNat (min l.length k)

/-- Where the decoder looks for the number of extended macro eNodeB identities. -/
def extPos (b : Bytes) : Nat :=
  14 + 5 * (b.getD 8 0 >>> 4).toNat + 6 * (b.getD 9 0 &&& 0x3f).toNat + 6 * (b.getD 10 0 &&& 0x3f).toNat +
    7 * (b.getD 11 0 &&& 0x3f).toNat + 7 * (b.getD 8 0 &&& 0x0f).toNat + 7 * (b.getD 12 0 &&& 0x3f).toNat +
    7 * (b.getD 13 0 &&& 0x3f).toNat

theorem capLen_le {α : Type} {l : List α} {k : Nat} (h : l.length ≤ k) : capLen l k = UInt8.ofNat l.length := by
  simp [capLen, h]

theorem flag_dec (i : Bool) (a : UInt8) (h : a < 8) :
    (((if i then 0x08 ||| a else a) >>> 3) &&& 0x01 != 0) = i ∧ (if i then 0x08 ||| a else a) &&& 0x07 = a := by
  have key : ∀ a : UInt8, a < 8 → ∀ i : Bool,
      (((if i then 0x08 ||| a else a) >>> 3) &&& 0x01 != 0) = i ∧ (if i then 0x08 ||| a else a) &&& 0x07 = a := by
    decide +kernel
  exact key a h i

theorem two_dec (n k : Nat) (hn : n ≤ 15) (hk : k ≤ 15) :
    (((UInt8.ofNat n <<< 4) ||| UInt8.ofNat k) >>> 4).toNat = n ∧
    (((UInt8.ofNat n <<< 4) ||| UInt8.ofNat k) &&& 0x0f).toNat = k := by
  have a : UInt8.ofNat n < 16 := by rw [UInt8.lt_iff_toNat_lt]; simp; omega
  have b : UInt8.ofNat k < 16 := by rw [UInt8.lt_iff_toNat_lt]; simp; omega
  rw [nib_hi b a, nib_lo b a]
  constructor <;> simp <;> omega

theorem six_dec (n : Nat) (h : n ≤ 63) : (UInt8.ofNat n &&& 0x3f).toNat = n := by
  have key : ∀ a : UInt8, a < 64 → a &&& 0x3f = a := by decide +kernel
  have : UInt8.ofNat n < 64 := by rw [UInt8.lt_iff_toNat_lt]; simp; omega
  rw [key _ this]
  simp; omega

theorem flat_length {α : Type} {WF : α → Prop} {oct : α → Bytes} {unm : Bytes → R Err α} {k : Nat}
    (he : ElemOk WF oct unm k) : ∀ l : List α, (∀ y ∈ l, WF y) → (l.flatMap oct).length = k * l.length
  | [], _ => rfl
  | y :: l, h => by
    have := flat_length he l (fun z hz => h z (by simp [hz]))
    have e := (he y (h y (by simp))).1
    simp only [List.flatMap_cons, List.length_append, e, this, List.length_cons, Nat.mul_add]
    omega
''',
   aux2='''
theorem unm_eq {m : Mode} {b : Bytes} {length : UInt16} {ins f n0 n1 n2 n3 n4 n5 : UInt8} {prai : UInt32} {tail : Bytes}
    {tai : List Tai} {rai : List Rai} {macro_enb home_enb : List MacroEnbId} {ecgi : List Ecgi} {sai : List Sai}
    {cgi : List Cgi} {ext_macro_enb : List ExtMacroEnbId} {n6 : UInt8}
    (rl : (rd16 b 1 : R Err UInt16) = .ok length) (ri : (rd b 3 : R Err UInt8) = .ok ins)
    (ck : checkTliv (ε := Err) m length b = .ok true)
    (x4 : (rd b 4 : R Err UInt8) = .ok f) (rp : (rd24 b 5 : R Err UInt32) = .ok prai)
    (x8 : (rd b 8 : R Err UInt8) = .ok n0) (x9 : (rd b 9 : R Err UInt8) = .ok n1)
    (x10 : (rd b 10 : R Err UInt8) = .ok n2) (x11 : (rd b 11 : R Err UInt8) = .ok n3)
    (x12 : (rd b 12 : R Err UInt8) = .ok n4) (x13 : (rd b 13 : R Err UInt8) = .ok n5) (h14 : 14 ≤ b.length)
    (d1 : (n0 >>> 4).toNat = tai.length) (d2 : (n1 &&& 0x3f).toNat = macro_enb.length)
    (d3 : (n2 &&& 0x3f).toNat = home_enb.length) (d4 : (n3 &&& 0x3f).toNat = ecgi.length)
    (d5 : (n0 &&& 0x0f).toNat = rai.length) (d6 : (n4 &&& 0x3f).toNat = sai.length)
    (d7 : (n5 &&& 0x3f).toNat = cgi.length) (d8 : n6.toNat = ext_macro_enb.length)
    (wtai : ∀ y ∈ tai, y.WF) (wrai : ∀ y ∈ rai, y.WF) (wmac : ∀ y ∈ macro_enb, y.WF) (whome : ∀ y ∈ home_enb, y.WF)
    (wecgi : ∀ y ∈ ecgi, y.WF) (wsai : ∀ y ∈ sai, y.WF) (wcgi : ∀ y ∈ cgi, y.WF) (wext : ∀ y ∈ ext_macro_enb, y.WF)
    (r0 : b.drop 14 = tai.flatMap Tai.octets ++ (macro_enb.flatMap MacroEnbId.octets ++
      (home_enb.flatMap MacroEnbId.octets ++ (ecgi.flatMap Ecgi.octets ++ (rai.flatMap Rai.octets ++
      (sai.flatMap Sai.octets ++ (cgi.flatMap Cgi.octets ++ (n6 :: (ext_macro_enb.flatMap ExtMacroEnbId.octets ++ tail))))))))) :
    unmarshal m b = .ok { t := 177, length, ins := ins &&& 0x0f, inapra := (f >>> 3) &&& 0x01 != 0,
                          action := f &&& 0x07, prai, tai, rai, macro_enb, home_enb, ecgi, sai, cgi, ext_macro_enb } := by
  obtain ⟨q1, r1, c1⟩ := rdElems_ok (chk := true) Tai.elem (.ieInvalidLength 177) b tai 14 _ wtai (by omega) r0
  obtain ⟨q2, r2, c2⟩ := rdElems_ok (chk := true) MacroEnbId.elem (.ieInvalidLength 177) b macro_enb _ _ wmac c1 r1
  obtain ⟨q3, r3, c3⟩ := rdElems_ok (chk := true) MacroEnbId.elem (.ieInvalidLength 177) b home_enb _ _ whome c2 r2
  obtain ⟨q4, r4, c4⟩ := rdElems_ok (chk := true) Ecgi.elem (.ieInvalidLength 177) b ecgi _ _ wecgi c3 r3
  obtain ⟨q5, r5, c5⟩ := rdElems_ok (chk := true) Rai.elem (.ieInvalidLength 177) b rai _ _ wrai c4 r4
  obtain ⟨q6, r6, c6⟩ := rdElems_ok (chk := true) Sai.elem (.ieInvalidLength 177) b sai _ _ wsai c5 r5
  obtain ⟨q7, r7, c7⟩ := rdElems_ok (chk := true) Cgi.elem (.ieInvalidLength 177) b cgi _ _ wcgi c6 r6
  generalize 14 + 5 * tai.length + 6 * macro_enb.length + 6 * home_enb.length + 7 * ecgi.length + 7 * rai.length +
    7 * sai.length + 7 * cgi.length = c at *
  have r8 : b.drop (c + 1) = ext_macro_enb.flatMap ExtMacroEnbId.octets ++ tail := by
    rw [← List.drop_drop, r7]; rfl
  have hcl : c + 1 ≤ b.length := by
    have := congrArg List.length r7
    simp only [List.length_drop, List.length_append, List.length_cons] at this
    omega
  have rn : (rd b c : R Err UInt8) = .ok n6 := by
    have : b[c]? = some n6 := by
      have := congrArg (fun l : Bytes => l[0]?) r7
      simpa using this
    simp [rd, this]
  obtain ⟨q8, _, _⟩ := rdElems_ok (chk := true) ExtMacroEnbId.elem (.ieInvalidLength 177) b ext_macro_enb _ _ wext hcl r8
  have g4 : ¬ b.length < 14 := by omega
  have gc : 4 ≤ b.length := by omega
  simp -implicitDefEqProofs only [unmarshal, rl, ri, rp, x4, x8, x9, x10, x11, x12, x13, ck, g4, gc, if_true, if_false, R.ok_bind, R.pure_eq,
    d1, d2, d3, d4, d5, d6, d7, d8, q1, q2, q3, q4, q5, q6, q7, q8, c7, rn]
''',
   rt='''
have l1 := flat_length Tai.elem _ wtai
have l2 := flat_length MacroEnbId.elem _ wmac
have l3 := flat_length MacroEnbId.elem _ whome
have l4 := flat_length Ecgi.elem _ wecgi
have l5 := flat_length Rai.elem _ wrai
have l6 := flat_length Sai.elem _ wsai
have l7 := flat_length Cgi.elem _ wcgi
have l8 := flat_length ExtMacroEnbId.elem _ wext
obtain ⟨f1, f2⟩ := flag_dec inapra action hact
obtain ⟨d1, d5⟩ := two_dec _ _ ntai nrai
have d2 := six_dec _ nmac
have d3 := six_dec _ nhome
have d4 := six_dec _ necgi
have d6 := six_dec _ nsai
have d7 := six_dec _ ncgi
have d8 : (UInt8.ofNat ext_macro_enb.length).toNat = ext_macro_enb.length := by simp; omega
have hp := of24_be hprai
simp only [marshal, List.take_of_length_le, ntai, nrai, nmac, nhome, necgi, nsai, ncgi, next, capLen_le]
rw [tliv_wf (by simp only [List.length_append, List.length_cons, List.length_nil, be24, l1, l2, l3, l4, l5, l6, l7, l8]; omega)]
simp only [be24, List.cons_append, List.nil_append, List.append_assoc]
generalize (if inapra then 0x08 ||| action else action) = f at f1 f2 ⊢
generalize (UInt8.ofNat tai.length <<< 4) ||| UInt8.ofNat rai.length = n0 at d1 d5 ⊢
generalize UInt8.ofNat macro_enb.length = n1 at d2 ⊢
generalize UInt8.ofNat home_enb.length = n2 at d3 ⊢
generalize UInt8.ofNat ecgi.length = n3 at d4 ⊢
generalize UInt8.ofNat sai.length = n4 at d6 ⊢
generalize UInt8.ofNat cgi.length = n5 at d7 ⊢
generalize UInt8.ofNat ext_macro_enb.length = n6 at d8 ⊢
generalize hb : (177 :: hi16 length :: lo16 length :: ins :: f :: oct32 2 prai :: oct32 1 prai :: oct32 0 prai ::
  n0 :: n1 :: n2 :: n3 :: n4 :: n5 :: _ : Bytes) = b
have r0 := congrArg (List.drop 14) hb
simp only [List.drop_succ_cons, List.drop_zero] at r0
have hlen := congrArg List.length hb
simp only [List.length_cons, List.length_append, l1, l2, l3, l4, l5, l6, l7, l8] at hlen
have ck : checkTliv (ε := Err) m length b = .ok true := by
  rw [checkTliv_ok hbd]
  have : 0 < length.toNat ∧ length.toNat + 4 ≤ b.length := by omega
  simp [this]
have rl : (rd16 b 1 : R Err UInt16) = .ok length := by rw [← hb]; rt_simp []
have rp : (rd24 b 5 : R Err UInt32) = .ok prai := by rw [← hb]; rt_simp [hp]
have h14 : 14 ≤ b.length := by omega
rw [unm_eq rl (by rw [← hb]; rfl) ck (by rw [← hb]; rfl) rp (by rw [← hb]; rfl) (by rw [← hb]; rfl) (by rw [← hb]; rfl)
  (by rw [← hb]; rfl) (by rw [← hb]; rfl) (by rw [← hb]; rfl) h14 d1 d2 d3 d4 d5 d6 d7 d8 wtai wrai wmac whome wecgi wsai
  wcgi wext r0.symm, f1, f2, and15 hi, ht]''',
   lenok='''
simp only [marshal, List.take_of_length_le, ntai, nrai, nmac, nhome, necgi, nsai, ncgi, next, tliv_eq, len, ieLenU,
  List.length_cons, List.length_append, List.length_nil, be24, flat_length Tai.elem _ wtai, flat_length MacroEnbId.elem _ wmac,
  flat_length MacroEnbId.elem _ whome, flat_length Ecgi.elem _ wecgi, flat_length Rai.elem _ wrai, flat_length Sai.elem _ wsai,
  flat_length Cgi.elem _ wcgi, flat_length ExtMacroEnbId.elem _ wext, hl]
congr 1; omega''',
   safecond='fun b => 14 ≤ b.length ∧ extPos b ≠ b.length',
   safe='''
intro m b hb ⟨h14, hx⟩
unfold declLen extPos at *
safe_simp [unmarshal, len, Safe_checkTliv hb]
repeat' first | with_reducible apply And.intro | intro _
all_goals first | omega | skip
apply rdElems_safe Tai.elem_safe; intro _
safe_simp []
apply rdElems_safe MacroEnbId.elem_safe; intro _
safe_simp []
apply rdElems_safe MacroEnbId.elem_safe; intro _
safe_simp []
apply rdElems_safe Ecgi.elem_safe; intro _
safe_simp []
apply rdElems_safe Rai.elem_safe; intro _
safe_simp []
apply rdElems_safe Sai.elem_safe; intro _
safe_simp []
apply rdElems_safe Cgi.elem_safe; intro _
safe_simp []
constructor
· intro hle
  refine ⟨by omega, ?_⟩
  apply rdElems_safe ExtMacroEnbId.elem_safe; intro _
  omega
· intro _
  omega''')
