module('Bits', 'Information elements with packed bit fields', ('Verif.V2.IeBase',))
ie('EpcTimer', 'epctimer.rs', 0, [('timer_unit', 'UInt8'), ('timer_value', 'UInt8')], '[pack x.timer_unit x.timer_value]',
   'let v ← rd b 4', 'timer_unit := unitOf (v >>> 5), timer_value := v &&& 0x1f', size=1,
   wf=[('hu', 'x.timer_unit < 5 ∨ x.timer_unit = 7'), ('hv', 'x.timer_value < 32')],
   aux='''
/-- Octet 5 (epctimer.rs:49-52). -/
def pack (unit value : UInt8) : UInt8 :=
  if value < 0x7f then (unit <<< 5) ||| value else (unit <<< 5) ||| 0x7f

/-- Unit read from three bits (epctimer.rs:62-66). -/
def unitOf (i : UInt8) : UInt8 := if i ≤ 4 then i else if i = 7 then 7 else 1

theorem pack_dec {u v : UInt8} (hu : u < 5 ∨ u = 7) (hv : v < 32) :
    unitOf (pack u v >>> 5) = u ∧ pack u v &&& 0x1f = v := by
  have key : ∀ u : UInt8, u < 5 ∨ u = 7 → ∀ v : UInt8, v < 32 →
      unitOf (pack u v >>> 5) = u ∧ pack u v &&& 0x1f = v := by decide +kernel
  exact key u hu v hv
''', rtpre='have hp := pack_dec hu hv', rtsimp='hp')
ie('Throttling', 'throttling.rs', 0, [('delay_unit', 'UInt8'), ('delay_value', 'UInt8'), ('factor', 'UInt8')],
   '[(x.delay_unit <<< 5) ||| x.delay_value, x.factor]',
   'let v ← rd b 4\nlet f ← rd b 5', 'delay_unit := unitOf (v >>> 5), delay_value := v &&& 0x1f, factor := factorOf f', size=2,
   wf=[('hu', 'x.delay_unit < 5'), ('hv', 'x.delay_value < 32'), ('hf', 'x.factor ≤ 100')],
   aux='''
/-- Unit read from three bits (throttling.rs:77-81). -/
def unitOf (i : UInt8) : UInt8 := if i < 5 then i else if i = 7 then 0 else 1

/-- Factor read from an octet (throttling.rs:83-86). -/
def factorOf (i : UInt8) : UInt8 := if i < 101 then i else 0

theorem pack_dec {u v : UInt8} (hu : u < 5) (hv : v < 32) :
    unitOf (((u <<< 5) ||| v) >>> 5) = u ∧ ((u <<< 5) ||| v) &&& 0x1f = v := by
  have key : ∀ u : UInt8, u < 5 → ∀ v : UInt8, v < 32 →
      unitOf (((u <<< 5) ||| v) >>> 5) = u ∧ ((u <<< 5) ||| v) &&& 0x1f = v := by decide +kernel
  exact key u hu v hv

theorem factorOf_id {f : UInt8} (hf : f ≤ 100) : factorOf f = f := by
  revert f
  decide +kernel
''', rtpre='have hp := pack_dec hu hv\nhave hf := factorOf_id hf', rtsimp='hp')
ie('UeTimeZone', 'uetimezone.rs', 0, [('time_zone', 'Int8'), ('dst', 'UInt8')], '[zoneOctet x.time_zone, x.dst]',
   'let v ← rd b 4\nlet d ← rd b 5', 'time_zone := zoneOf v, dst := d &&& 0x03', size=2,
   wf=[('hz', 'x.time_zone ≠ -128'), ('hd', 'x.dst < 4')],
   aux='''
/-- Octet 5 (uetimezone.rs:49-53); `unsigned_abs` of an `i8`. -/
def zoneOctet (z : Int8) : UInt8 :=
  if 0 ≤ z then UInt8.ofNat z.toInt.natAbs else (0x80 : UInt8) ||| UInt8.ofNat z.toInt.natAbs

/-- Time zone read from octet 5 (uetimezone.rs:66-70). -/
def zoneOf (v : UInt8) : Int8 :=
  if v >>> 7 = 0 then (v &&& 0x7f).toInt8 else if v >>> 7 = 1 then -(v &&& 0x7f).toInt8 else 0

theorem zone_dec {z : Int8} (h : z ≠ -128) : zoneOf (zoneOctet z) = z := by
  have key : ∀ n : UInt8, n.toInt8 ≠ -128 → zoneOf (zoneOctet n.toInt8) = n.toInt8 := by
    decide +kernel
  have := key z.toUInt8
  simp only [Int8.toInt8_toUInt8] at this
  exact this h
''', rtpre='have hp := zone_dec hz', rtsimp='hp')
ie('Arp', 'arp.rs', 0, [('pci', 'Bool'), ('pl', 'UInt8'), ('pvi', 'Bool')], '[pack x.pci x.pl x.pvi]', size=1, len='U', sname='LooseSafe (fun _ => True)',
   unm='''
if 5 ≤ b.length then
  let length ← rd16 b 1
  let ins ← rd b 3
  let v ← rd b 4
  if v >>> 6 = 0 ∨ v >>> 6 = 1 then
    return { t := 155, length, ins := ins &&& 0x0f, pci := decide (v >>> 6 = 1), pl := (v >>> 2) &&& 0x0f,
             pvi := decide (v &&& 1 = 1) }
  else .err (.ieIncorrect 155)
else .err (.ieInvalidLength 155)''', decn=': `b[4] & 1` is 0 or 1', bound=False,
   wf=[('hp', 'x.pl < 16')],
   aux='''
/-- Octet 5 (arp.rs:51-56). -/
def pack (pci : Bool) (pl : UInt8) (pvi : Bool) : UInt8 :=
  match pci, pvi with
  | false, false => pl <<< 2
  | false, true => (pl <<< 2) ||| 0x01
  | true, false => (0x40 : UInt8) ||| (pl <<< 2)
  | true, true => (0x40 : UInt8) ||| (pl <<< 2) ||| 0x01

theorem pack_dec {pci pvi : Bool} {pl : UInt8} (h : pl < 16) :
    (pack pci pl pvi >>> 6 = 0 ∨ pack pci pl pvi >>> 6 = 1) ∧
    decide (pack pci pl pvi >>> 6 = 1) = pci ∧ (pack pci pl pvi >>> 2) &&& 0x0f = pl ∧
    decide (pack pci pl pvi &&& 1 = 1) = pvi := by
  revert pl pci pvi
  decide +kernel
''', rt='''
have ⟨h1, h2, h3, h4⟩ := pack_dec (pci := pci) (pvi := pvi) hp
enc_simp [marshal]
rt_simp [unmarshal, ht, hl, hi, h3, -decide_eq_true_eq]
refine ⟨by simpa using h2, by simpa using h4⟩''' if False else '''
have h := pack_dec (pci := pci) (pvi := pvi) hp
enc_simp [marshal]
generalize pack pci pl pvi = v at h ⊢
obtain ⟨h1, rfl, rfl, rfl⟩ := h
rt_simp [unmarshal, ht, hl, hi, h1]''')
RATES = ['maxbr_ul', 'maxbr_dl', 'gbr_ul', 'gbr_dl']
ie('BearerQos', 'bearerqos.rs', 0, [('pre_emption_vulnerability', 'UInt8'), ('priority_level', 'UInt8'), ('pre_emption_capability', 'UInt8'), ('qci', 'UInt8')] + [(r, 'UInt64') for r in RATES],
   '''[(x.pre_emption_capability <<< 6) ||| (x.priority_level <<< 2) ||| x.pre_emption_vulnerability, x.qci] ++
  be40 x.maxbr_ul ++ be40 x.maxbr_dl ++ be40 x.gbr_ul ++ be40 x.gbr_dl''',
   'let v ← rd b 4\nlet qci ← rd b 5\n' + '\n'.join('let %s ← rd40 b %d' % (r, 6 + 5 * i) for i, r in enumerate(RATES)),
   'pre_emption_capability := (v >>> 6) &&& 0x01, priority_level := (v >>> 2) &&& 0x0f, pre_emption_vulnerability := v &&& 0x01, qci, ' + ', '.join(RATES), size=22,
   wf=[('hv', 'x.pre_emption_vulnerability < 2'), ('hp', 'x.priority_level < 16'), ('hc', 'x.pre_emption_capability < 2')] +
      [('h%d' % i, 'x.%s.toNat < 1099511627776' % r) for i, r in enumerate(RATES)],
   aux='''
theorem pack_dec {c p v : UInt8} (hc : c < 2) (hp : p < 16) (hv : v < 2) :
    (((c <<< 6) ||| (p <<< 2) ||| v) >>> 6) &&& 1 = c ∧ (((c <<< 6) ||| (p <<< 2) ||| v) >>> 2) &&& 15 = p ∧
    ((c <<< 6) ||| (p <<< 2) ||| v) &&& 1 = v := by
  have key : ∀ c : UInt8, c < 2 → ∀ v : UInt8, v < 2 → ∀ p : UInt8, p < 16 → (((c <<< 6) ||| (p <<< 2) ||| v) >>> 6) &&& 1 = c ∧
      (((c <<< 6) ||| (p <<< 2) ||| v) >>> 2) &&& 15 = p ∧
      ((c <<< 6) ||| (p <<< 2) ||| v) &&& 1 = (v : UInt8) := by decide +kernel
  exact key c hc v hv p hp
''', rtpre='have hq := pack_dec hc hp hv', rtsimp='hq, of40_be h0, of40_be h1, of40_be h2, of40_be h3')
ie('FlowQos', 'flowqos.rs', 0, [('qci', 'UInt8')] + [(r, 'UInt64') for r in RATES],
   '[x.qci] ++ be40 x.maxbr_ul ++ be40 x.maxbr_dl ++ be40 x.gbr_ul ++ be40 x.gbr_dl',
   'let qci ← rd b 4\n' + '\n'.join('let %s ← rd40 b %d' % (r, 5 + 5 * i) for i, r in enumerate(RATES)),
   'qci, ' + ', '.join(RATES), size=21,
   wf=[('h%d' % i, 'x.%s.toNat < 1099511627776' % r) for i, r in enumerate(RATES)],
   rtsimp='of40_be h0, of40_be h1, of40_be h2, of40_be h3')
ie('MbmsSessionDuration', 'mbmssd.rs', 0, [('seconds', 'UInt32'), ('days', 'UInt8')], 'be24 ((x.seconds <<< 7) ||| x.days.toUInt32)',
   'let v ← rd24 b 4\nlet d ← rd b 6', 'seconds := v >>> 7, days := d &&& 0x7f', size=3,
   wf=[('hs', 'x.seconds.toNat < 131072'), ('hd', 'x.days < 128')],
   aux='''
theorem pack_nat {s : UInt32} {d : UInt8} (hs : s.toNat < 131072) (hd : d < 128) :
    ((s <<< 7) ||| d.toUInt32).toNat = s.toNat * 128 + d.toNat := by
  have hd' : d.toNat < 128 := hd
  have h7 : ((7 : UInt32).toNat % 32) = 7 := rfl
  rw [UInt32.toNat_or, UInt32.toNat_shiftLeft, h7, UInt8.toNat_toUInt32, Nat.shiftLeft_eq]
  have e : s.toNat * 2 ^ 7 % 2 ^ 32 = s.toNat * 2 ^ 7 := Nat.mod_eq_of_lt (by omega)
  rw [e, Nat.mul_comm, ← Nat.two_pow_add_eq_or_of_lt (i := 7) hd', Nat.mul_comm]

theorem pack_dec {s : UInt32} {d : UInt8} (hs : s.toNat < 131072) (hd : d < 128) :
    ((s <<< 7) ||| d.toUInt32) >>> 7 = s ∧ oct32 0 ((s <<< 7) ||| d.toUInt32) &&& 127 = d := by
  have hd' : d.toNat < 128 := hd
  have h := pack_nat hs hd
  constructor
  · apply UInt32.toNat_inj.mp
    have h7 : ((7 : UInt32).toNat % 32) = 7 := rfl
    rw [UInt32.toNat_shiftRight, h, h7, Nat.shiftRight_eq_div_pow]
    omega
  · apply UInt8.toNat_inj.mp
    have h127 : (127 : UInt8).toNat = 2 ^ 7 - 1 := rfl
    rw [UInt8.toNat_and, h127, Nat.and_two_pow_sub_one_eq_mod, oct32, h]
    simp
    omega
''', rtpre='''have hp := pack_dec hs hd
have h24 : ((seconds <<< 7) ||| days.toUInt32).toNat < 16777216 := by
  have hd' : days.toNat < 128 := hd
  rw [pack_nat hs hd]; omega''', rtsimp='of24_be h24, hp')
ie('Tmgi', 'tmgi.rs', 0, [('tmgi', 'Bytes')], 'x.tmgi', 'let tmgi ← sl b 4 10', 'tmgi', size=6, mask=False,
   wf=[('h6', 'x.tmgi.length = 6')], rtpre='obtain ⟨n0, n1, n2, n3, n4, n5, rfl⟩ := exists_list6 h6',
   note='; the array `tmgi: [u8; 6]` is a list, of length 6 when well formed')
ie('PduNumbers', 'pdunumbers.rs', 0, [('nsapi', 'UInt8'), ('dl_gtpu_sqn', 'UInt16'), ('ul_gtpu_sqn', 'UInt16'), ('send_npdu', 'UInt16'), ('receive_npdu', 'UInt16')],
   '[x.nsapi] ++ be16 x.dl_gtpu_sqn ++ be16 x.ul_gtpu_sqn ++ be16 x.send_npdu ++ be16 x.receive_npdu',
   'let n ← rd b 4\nlet dl_gtpu_sqn ← rd16 b 5\nlet ul_gtpu_sqn ← rd16 b 7\nlet send_npdu ← rd16 b 9\nlet receive_npdu ← rd16 b 11',
   'nsapi := n &&& 0x0f, dl_gtpu_sqn, ul_gtpu_sqn, send_npdu, receive_npdu', size=9, len='U', sname='LooseSafe (fun _ => True)', wf=[('hn', 'x.nsapi < 16')])
ie('RabContext', 'rabcontext.rs', 0, [('nsapi', 'UInt8'), ('dl_gtpu_sqn', 'UInt16'), ('ul_gtpu_sqn', 'UInt16'), ('dl_pdcp_sqn', 'UInt16'), ('ul_pdcp_sqn', 'UInt16')],
   '''[flag (x.ul_pdcp_sqn == 0) (x.dl_pdcp_sqn == 0) (x.ul_gtpu_sqn == 0) (x.dl_gtpu_sqn == 0) x.nsapi] ++
  be16 x.dl_gtpu_sqn ++ be16 x.ul_gtpu_sqn ++ be16 x.dl_pdcp_sqn ++ be16 x.ul_pdcp_sqn''',
   'let n ← rd b 4\nlet dl_gtpu_sqn ← rd16 b 5\nlet ul_gtpu_sqn ← rd16 b 7\nlet dl_pdcp_sqn ← rd16 b 9\nlet ul_pdcp_sqn ← rd16 b 11',
   'nsapi := n &&& 0x0f, dl_gtpu_sqn, ul_gtpu_sqn, dl_pdcp_sqn, ul_pdcp_sqn', size=9, wf=[('hn', 'x.nsapi < 16')],
   aux='''
/-- Octet 5 (rabcontext.rs:55-59). -/
def flag (a b c d : Bool) (nsapi : UInt8) : UInt8 :=
  (b2u a <<< 7) ||| (b2u b <<< 6) ||| (b2u c <<< 5) ||| (b2u d <<< 4) ||| nsapi

theorem flag_dec (a b c d : Bool) {n : UInt8} (h : n < 16) : flag a b c d n &&& 15 = n := by
  revert n a b c d
  decide +kernel
''', rtsimp='flag_dec _ _ _ _ hn')
ie('ApnRateControlStatus', 'apnratecontrolstatus.rs', 0, [('ul_packets_allowed', 'UInt32'), ('nmbr_add_exception_reports', 'UInt32'), ('dl_packets_allowed', 'UInt32'), ('validity_time', 'UInt64')],
   '''be32 x.ul_packets_allowed ++ be32 x.nmbr_add_exception_reports ++
  be32 x.dl_packets_allowed ++ be64 x.validity_time''',
   'let ul_packets_allowed ← rd32 b 4\nlet nmbr_add_exception_reports ← rd32 b 8\nlet dl_packets_allowed ← rd32 b 12\nlet validity_time ← rd64 b 16',
   'ul_packets_allowed, nmbr_add_exception_reports, dl_packets_allowed, validity_time', size=20, len='U', sname='LooseSafe (fun _ => True)')
ie('HeaderCompressionConfiguration', 'hdrcomprconfig.rs', 0, [('rohc_profiles', 'List UInt16'), ('max_cid', 'UInt16')],
   '[profileBits x.rohc_profiles, 0] ++ be16 x.max_cid',
   'let v ← rd b 4\nlet max_cid ← rd16 b 6', 'rohc_profiles := profilesOf v, max_cid', size=4,
   wf=[('h0', 'x.rohc_profiles.head? = some 0'), ('hs', 'x.rohc_profiles.tail.Sublist rohcTable')],
   decn=': the profiles are pushed to the default `vec![0]`',
   aux='''
/-- Bit of a profile (hdrcomprconfig.rs:51-88). -/
def profileBit (p : UInt16) : UInt8 :=
  if p = 0x0002 then 0x01 else if p = 0x0003 then 0x02 else if p = 0x0004 then 0x04
  else if p = 0x0006 then 0x08 else if p = 0x0102 then 0x10 else if p = 0x0103 then 0x20
  else if p = 0x0104 then 0x40 else 0

/-- Octet 5: every bit is added once (hdrcomprconfig.rs:49-89). -/
def profileBits (l : List UInt16) : UInt8 :=
  l.foldl (fun i p => if i &&& profileBit p = 0 then i + profileBit p else i) 0

/-- Profile pushed for the single bit `1 << i` (hdrcomprconfig.rs:104-115). -/
def profileAt (bit : UInt8) : List UInt16 :=
  if bit = 0x01 then [0x0002] else if bit = 0x02 then [0x0003] else if bit = 0x04 then [0x0004]
  else if bit = 0x08 then [0x0006] else if bit = 0x10 then [0x0102] else if bit = 0x20 then [0x0103]
  else if bit = 0x40 then [0x0104] else []

/-- Profiles read from octet 5, after the default element 0. -/
def profilesOf (v : UInt8) : List UInt16 :=
  0 :: [1, 2, 4, 8, 16, 32, 64, 128].flatMap fun (k : UInt8) => profileAt (v &&& k)

/-- The profiles of TS 36.323 in the order of their bits. -/
def rohcTable : List UInt16 := [0x0002, 0x0003, 0x0004, 0x0006, 0x0102, 0x0103, 0x0104]

theorem profiles_dec {l : List UInt16} (h0 : l.head? = some 0) (hs : l.tail.Sublist rohcTable) :
    profilesOf (profileBits l) = l := by
  obtain ⟨a, l, rfl⟩ : ∃ a t, l = a :: t := by
    cases l with
    | nil => simp at h0
    | cons a t => exact ⟨a, t, rfl⟩
  simp only [List.head?_cons, Option.some.injEq] at h0
  simp only [List.tail_cons, rohcTable, List.sublist_cons_iff, List.sublist_nil] at hs
  subst h0
  have key : ∀ c : Fin 128, profilesOf (profileBits (0 :: ((List.range 7).filterMap fun i =>
      if c.val.testBit i then rohcTable[i]? else none))) =
      0 :: ((List.range 7).filterMap fun i => if c.val.testBit i then rohcTable[i]? else none) := by
    decide +kernel
  clear key
  rcases hs with hs | ⟨l, rfl, hs⟩ <;> rcases hs with hs | ⟨l, rfl, hs⟩ <;>
    rcases hs with hs | ⟨l, rfl, hs⟩ <;> rcases hs with hs | ⟨l, rfl, hs⟩ <;>
    rcases hs with hs | ⟨l, rfl, hs⟩ <;> rcases hs with hs | ⟨l, rfl, hs⟩ <;>
    rcases hs with hs | ⟨l, rfl, hs⟩ <;> subst hs <;> decide +kernel
'''.replace('''  have key : ∀ c : Fin 128, profilesOf (profileBits (0 :: ((List.range 7).filterMap fun i =>
      if c.val.testBit i then rohcTable[i]? else none))) =
      0 :: ((List.range 7).filterMap fun i => if c.val.testBit i then rohcTable[i]? else none) := by
    decide +kernel
  clear key
''', ''), rtpre='have hp := profiles_dec h0 hs', rtsimp='hp')
