module('Var3', 'Containers, causes and multicast information', ('Verif.V2.Cursor',))

raw('''
/-- `enum Container` (fcontainer.rs:14-24). The first octet of `Unknown` is the container type. -/
inductive Container where
  | Reserved | Utran (i : Bytes) | Bss (i : Bytes) | Eutran (i : Bytes) | Nbifom (i : Bytes)
  | EnDc (i : Bytes) | InterSystemSON (i : Bytes) | Unknown (i : Bytes)
deriving DecidableEq, Repr

namespace Container

/-- The octets written for a container (fcontainer.rs:59-89). For an empty `Unknown` the Rust code panics
(`i[0]`), which is not represented here; `Ok` excludes it. -/
def octets : Container → Bytes
  | .Reserved => [0]
  | .Utran i => 1 :: i
  | .Bss i => 2 :: i
  | .Eutran i => 3 :: i
  | .Nbifom i => 4 :: i
  | .EnDc i => 5 :: i
  | .InterSystemSON i => 6 :: i
  | .Unknown i => i

/-- The container with type octet `v` and content up to `n` (fcontainer.rs:102-136). -/
def read (b : Bytes) (v : UInt8) (n : Nat) : R Err Container := do
  if v = 0 then return .Reserved
  else if v = 1 then return .Utran (← sl b 5 n)
  else if v = 2 then return .Bss (← sl b 5 n)
  else if v = 3 then return .Eutran (← sl b 5 n)
  else if v = 4 then return .Nbifom (← sl b 5 n)
  else if v = 5 then return .EnDc (← sl b 5 n)
  else if v = 6 then return .InterSystemSON (← sl b 5 n)
  else return .Unknown (← sl b 4 n)

/-- An unknown container has a type octet, different from the known ones. -/
def Ok : Container → Prop
  | .Unknown i => 6 < (i.headD 0).toNat
  | _ => True

instance (c : Container) : Decidable c.Ok := by cases c <;> unfold Ok <;> infer_instance

theorem read_safe {b : Bytes} {v : UInt8} {n : Nat} {P : Container → Prop} (h1 : 5 ≤ n) (h2 : n ≤ b.length) (h : ∀ c, P c) :
    (read b v n).Safe P := by
  safe_simp [read, h]
  omega

theorem read_octets {c : Container} {b tail : Bytes} (hc : c.Ok) (h : At b 4 (c.octets ++ tail)) :
    ∃ v, (rd b 4 : R Err UInt8) = .ok v ∧ read b v (4 + c.octets.length) = .ok c := by
  cases c with
  | Reserved => exact ⟨0, h.rd, rfl⟩
  | Unknown i =>
    cases i with
    | nil => simp [Ok] at hc
    | cons a i =>
      refine ⟨a, h.rd, ?_⟩
      simp only [Ok, List.headD_cons] at hc
      have hs : sl b 4 (4 + (a :: i).length) = (.ok (a :: i) : R Err Bytes) := h.sl rfl
      have e : ∀ k : UInt8, k.toNat ≤ 6 → a ≠ k := by rintro k hk rfl; omega
      simp only [read, octets, e 0 (by decide), e 1 (by decide), e 2 (by decide), e 3 (by decide), e 4 (by decide),
        e 5 (by decide), e 6 (by decide), if_false, hs, R.ok_bind, R.pure_eq]
  | _ i =>
    refine ⟨_, h.rd, ?_⟩
    have hs : ∀ n, n = 5 + i.length → sl b 5 n = (.ok i : R Err Bytes) := fun n hn => h.next.sl hn
    simp [read, octets, hs (4 + (i.length + 1)) (by omega)]

end Container
''')
ie('Fcontainer', 'fcontainer.rs', 0, [('container', 'Container')], 'x.container.octets', 
   length='x.container.octets.length', len='16', check=True, minlen=5, bound=True,
   wf=[('hok', 'x.container.Ok')],
   dec='''
let v ← rd b 4
let container ← Container.read b v (4 + length.toNat)''', ret='container',
   rt='''
simp only [marshal]
obtain ⟨b, hb, h1, h2, h3, h4⟩ := tliv_at (ty := 118) (ins := ins) tail hl
obtain ⟨v, e1, e2⟩ := Container.read_octets hok h3
have hp : 0 < container.octets.length := by
  cases container <;> simp [Container.octets, Container.Ok] at hok ⊢
  rename_i i; cases i <;> simp at hok ⊢
rw [← hl] at e2
simp only [hb]
cur_simp [unmarshal, h1, h2, e1, e2, ht, hi]''',
   lenok='''
simp only [marshal, len]
rw [ieLen16_ok hbd, tliv_eq]
simp [hl]''',
   safe='''
intro m b hb hc
unfold declLen at *
safe_simp [unmarshal, len, Safe_checkTliv hb, ieLen16_ok hb]
refine fun h1 => ⟨by omega, by omega, by omega, fun h2 => ⟨by omega, ?_⟩⟩
exact Container.read_safe (by omega) (by omega) (fun _ => h2.2)''')

ie('PC5QosFlow', 'pc5qosflow.rs', 0, [('pqi_label', 'UInt8'), ('gfbr', 'UInt32'), ('mfbr', 'UInt32'), ('range', 'Option UInt8')],
   '[b2u x.range.isSome, x.pqi_label] ++ be32 x.gfbr ++ be32 x.mfbr ++ x.range.toList',
   length='10 + (if x.range.isSome then 1 else 0)', check=True, len='U', bound=False,
   dec='''
let pqi_label ← rd b 5
let gfbr ← rd32 b 6
let mfbr ← rd32 b 10
let v ← rd b 4
let range ← if v &&& 0x01 = 1 then do
    let r ← rd b 14
    pure (some r)
  else pure none''', ret='pqi_label, gfbr, mfbr, range',
   rt='''
cases range <;> simp only [Option.isSome, if_true, if_false, Bool.false_eq_true, Nat.reduceAdd] at hl <;>
  (enc_simp [marshal, Option.toList, be32, Option.isSome, b2u]; rtv_simp [unmarshal, ht, hi, b2u])''',
   lenok='''
cases range <;> simp only [Option.isSome, if_true, if_false, Bool.false_eq_true, Nat.reduceAdd] at hl <;>
  simp [marshal, tliv_eq, len, ieLenU, hl, be32]''',
   safecond='fun b => 14 ≤ b.length ∧ (b.getD 4 0 &&& 0x01 = 1 → 15 ≤ b.length)',
   safe='''
intro m b hb hc
unfold declLen at *
try simp only at hc
safe_simp [unmarshal, len, Safe_checkTliv hb]
by_cases h : b.getD 4 0 &&& 0x01 = 1
· have hc2 := hc.2 h
  simp only [h, if_true, Safe_bind, Safe_rd, Safe_pure, Safe_ite, forall_const, true_and]
  safe_fin
· simp only [h, if_false, Safe_bind, Safe_rd, Safe_pure, Safe_ite, forall_const, true_and, false_implies, not_false_eq_true]
  safe_fin''')

raw('''
/-- `enum S1APCause` (rannascause.rs:15-23). -/
inductive S1APCause where
  | RadioLayer (i : UInt8) | TransportLayer (i : UInt8) | Nas (i : UInt8) | Protocol (i : UInt8) | Misc (i : UInt8)
  | Spare (i : UInt8)
deriving DecidableEq, Repr

/-- `to_u8` (rannascause.rs:26-35). -/
def S1APCause.to_u8 : S1APCause → Bytes
  | .RadioLayer i => [0x10, i]
  | .TransportLayer i => [0x11, i]
  | .Nas i => [0x12, i]
  | .Protocol i => [0x13, i]
  | .Misc i => [0x14, i]
  | .Spare i => [0x15, i]

/-- `from_u8` (rannascause.rs:36-46). -/
def S1APCause.from_u8 (i j : UInt8) : S1APCause :=
  if i = 0 then .RadioLayer j else if i = 1 then .TransportLayer j else if i = 2 then .Nas j
  else if i = 3 then .Protocol j else if i = 4 then .Misc j else .Spare j

/-- `enum CauseValue` (rannascause.rs:50-58). -/
inductive CauseValue where
  | S1ap (i : S1APCause) | Emm (i : UInt8) | Esm (i : UInt8) | Diameter (i : UInt16) | Ikev2 (i : UInt16) | Spare
deriving DecidableEq, Repr

/-- The octets written for a cause (rannascause.rs:93-115). -/
def CauseValue.octets : CauseValue → Bytes
  | .S1ap i => i.to_u8
  | .Emm i => [0x20, i]
  | .Esm i => [0x30, i]
  | .Diameter i => 0x40 :: be16 i
  | .Ikev2 i => 0x50 :: be16 i
  | .Spare => [0x60, 0]

/-- The number of octets written for a cause. -/
def CauseValue.size : CauseValue → Nat
  | .Diameter _ | .Ikev2 _ => 3
  | _ => 2
''')
ie('RanNasCause', 'rannascause.rs', 0, [('cause', 'CauseValue')], 'x.cause.octets',
   length='x.cause.size', check=True, len='U', minlen=6, bound=False,
   dec='''
let v ← rd b 4
let cause ←
  if v >>> 4 = 1 then do
    let j ← rd b 5
    pure (.S1ap (S1APCause.from_u8 (v &&& 0x0f) j))
  else if v >>> 4 = 2 then do
    let i ← rd b 5
    pure (.Emm i)
  else if v >>> 4 = 3 then do
    let i ← rd b 5
    pure (.Esm i)
  else if v >>> 4 = 4 then
    if 7 ≤ b.length then do
      let i ← rd16 b 5
      pure (.Diameter i)
    else .err (.ieInvalidLength 172)
  else if v >>> 4 = 5 then
    if 7 ≤ b.length then do
      let i ← rd16 b 5
      pure (.Ikev2 i)
    else .err (.ieInvalidLength 172)
  else pure .Spare''', ret='cause',
   rt='''
cases cause with
| S1ap i =>
  cases i <;> simp only [CauseValue.size] at hl <;>
  (enc_simp [marshal, CauseValue.octets, S1APCause.to_u8]; rtv_simp [unmarshal, ht, hi, S1APCause.from_u8])
| _ =>
  simp only [CauseValue.size] at hl
  enc_simp [marshal, CauseValue.octets, be16]; rtv_simp [unmarshal, ht, hi]''',
   lenok='''
cases cause with
| S1ap i => cases i <;> simp only [CauseValue.size] at hl <;> simp [marshal, tliv_eq, len, ieLenU, hl, CauseValue.octets, S1APCause.to_u8]
| _ => simp only [CauseValue.size] at hl; simp [marshal, tliv_eq, len, ieLenU, hl, CauseValue.octets, be16]''',
   safepost='''
repeat' first | with_reducible apply And.intro | intro _
all_goals omega''')

enum('MbmsHc', 'mbmsipmulticastdistribution.rs', [('UncompressedHeader', 0), ('CompressedHeader', 1)], [(0, 'UncompressedHeader'), (1, 'CompressedHeader')], None)
raw('''
/-- An address preceded by its tag octet (mbmsipmulticastdistribution.rs:62-81). -/
def ip50 : IpAddr → Bytes
  | .V4 i => 0x04 :: be32 i
  | .V6 i => 0x50 :: i.octets

/-- An address preceded by its tag octet, read (mbmsipmulticastdistribution.rs:100-129, 130-159). -/
def rdIp50 (b : Bytes) (c : Nat) : R Err (IpAddr × Nat) := do
  let v ← rd b c
  if v = 0x04 then
    if c + 1 + 4 ≤ b.length then
      let i ← rd32 b (c + 1)
      return (.V4 i, c + 1 + 4)
    else .err (.ieInvalidLength 142)
  else if v = 0x50 then
    if c + 1 + 16 ≤ b.length then
      let i ← rdIp6 b (c + 1)
      return (.V6 i, c + 1 + 16)
    else .err (.ieInvalidLength 142)
  else .err (.ieIncorrect 142)

theorem rdIp50_at {b r : Bytes} {c : Nat} {a : IpAddr} (h : At b c (ip50 a ++ r)) :
    ∃ c', rdIp50 b c = .ok (a, c') ∧ At b c' r := by
  have hl := h.length
  cases a with
  | V4 i =>
    simp only [ip50, List.cons_append, List.length_cons, List.length_append, be32, List.length_nil] at h hl
    have h1 : At b (c + 1) (be32 i ++ r) := by simpa [be32] using h.next
    refine ⟨c + 1 + 4, ?_, h1.skip (by simp [be32])⟩
    simp only [rdIp50, h.rd, R.ok_bind, if_true, h1.rd32, R.pure_eq]
    rw [if_pos (by omega)]
  | V6 i =>
    simp only [ip50, List.cons_append] at h
    have h1 := h.next
    have hs : i.octets.length = 16 := by simp [Ip6.octets, be64]
    simp only [ip50, List.cons_append, List.length_cons, List.length_append, hs] at hl
    refine ⟨c + 1 + 16, ?_, h1.skip (by rw [hs])⟩
    simp only [rdIp50, h.rd, R.ok_bind, if_true, h1.rdIp6, R.pure_eq, show ((0x50 : UInt8) = 0x04) = False by decide, if_false]
    rw [if_pos (by omega)]

theorem rdIp50_safe {b : Bytes} {c : Nat} (h : c < b.length) : (rdIp50 b c).Safe fun p => p.2 ≤ c + 17 := by
  safe_simp [rdIp50]
  safe_fin
''')
ie('MbmsIpMulticastDistribution', 'mbmsipmulticastdistribution.rs', 0,
   [('common_teid', 'UInt32'), ('ip_multicast_address_1', 'IpAddr'), ('ip_multicast_address_2', 'IpAddr'), ('mbms_hc', 'MbmsHc')],
   'be32 x.common_teid ++ (ip50 x.ip_multicast_address_1 ++ (ip50 x.ip_multicast_address_2 ++ [x.mbms_hc.toU8]))', mask=False,
   length='7 + x.ip_multicast_address_1.size + x.ip_multicast_address_2.size', len='U', bound=False,
   unm='''
if 8 ≤ b.length then
  let length ← rd16 b 1
  let ins ← rd b 3
  let common_teid ← rd32 b 4
  if ← checkTliv m length b then
    let (ip_multicast_address_1, c) ← rdIp50 b 8
    let (ip_multicast_address_2, c) ← rdIp50 b c
    if c ≤ b.length then
      let v ← rd b c
      let mbms_hc ← R.ofOption (MbmsHc.ofU8 v) (.ieIncorrect 142)
      return { t := 142, length, ins, common_teid, ip_multicast_address_1, ip_multicast_address_2, mbms_hc }
    else .err (.ieInvalidLength 142)
  else .err (.ieInvalidLength 142)
else .err (.ieInvalidLength 142)''',
   aux='''
theorem body_length (a : UInt32) (i j : IpAddr) (h : MbmsHc) :
    (be32 a ++ (ip50 i ++ (ip50 j ++ [h.toU8]))).length = 7 + i.size + j.size := by
  cases i <;> cases j <;> simp [ip50, be32, Ip6.octets, be64, IpAddr.size]
''',
   rt='''
have hl2 := hl
rw [← body_length common_teid _ _ mbms_hc] at hl2
have hz : ∀ a : IpAddr, a.size ≤ 16 := by intro a; cases a <;> simp [IpAddr.size]
have hz1 := hz ip_multicast_address_1
have hz2 := hz ip_multicast_address_2
simp only [marshal]
obtain ⟨b, hb, e1, e2, h3, h4⟩ := tliv_at (ty := 142) (ins := ins) tail hl2
simp only [List.append_assoc] at h3
have h5 : At b 8 _ := h3.skip (by simp [be32])
obtain ⟨c1, e3, h6⟩ := rdIp50_at h5
obtain ⟨c2, e4, h7⟩ := rdIp50_at h6
have h8 := h7.le
simp only [List.cons_append] at h7
simp only [hb]
cur_simp [unmarshal, e1, e2, h3.rd32, e3, e4, h7.rd, MbmsHc.ofU8_toU8, ht]''',
   lenok='''
have hb := body_length common_teid ip_multicast_address_1 ip_multicast_address_2 mbms_hc
simp only [marshal, len, ieLenU, tliv_eq, List.length_cons, hb, hl]''',
   safecond='fun b => 43 ≤ b.length',
   safe='''
intro m b hb hc
unfold declLen at *
try simp only at hc
safe_simp [unmarshal, len, Safe_checkTliv hb]
refine fun h1 => ⟨by omega, by omega, by omega, by omega, by omega, by omega, by omega, fun h2 => ?_⟩
refine Safe.mono (rdIp50_safe (by omega)) fun ⟨a, c⟩ h3 => ?_
simp only [Safe_bind] at h3 ⊢
refine Safe.mono (rdIp50_safe (by omega)) fun ⟨a2, c2⟩ h4 => ?_
try safe_simp []
refine fun h5 => ⟨by simp only at h4; omega, fun _ _ => h2.2⟩''')

ie('ExtendedTraceInformation', 'extendedtraceinfo.rs', 0,
   [('mcc', 'UInt16'), ('mnc', 'UInt16'), ('mnc_is_three_digits', 'Bool'), ('trace_id', 'UInt32'), ('trigger_events', 'Bytes'),
    ('list_ne_types', 'Bytes'), ('session_trace_depth', 'UInt8'), ('list_interfaces', 'Bytes'), ('trace_collection_ip', 'IpAddr')],
   '''mccMncEncode x.mcc x.mnc x.mnc_is_three_digits ++ (be24 x.trace_id ++ (lenU8 x.trigger_events :: (x.trigger_events ++
  (lenU8 x.list_ne_types :: (x.list_ne_types ++ (x.session_trace_depth :: (lenU8 x.list_interfaces :: (x.list_interfaces ++
  (UInt8.ofNat x.trace_collection_ip.size :: x.trace_collection_ip.octets)))))))))''', mask=False, len='16', bound=True,
   length='11 + x.trigger_events.length + x.list_ne_types.length + x.list_interfaces.length + x.trace_collection_ip.size',
   wf=[('hp', 'PlmnOk x.mcc x.mnc x.mnc_is_three_digits'), ('h24', 'x.trace_id.toNat < 16777216'), ('hv1', 'x.trigger_events.length < 256'), ('hv2', 'x.list_ne_types.length < 256'), ('hv3', 'x.list_interfaces.length < 256')],
   unm='''
if 11 ≤ b.length then
  let length ← rd16 b 1
  let ins ← rd b 3
  let trace_id ← rd24 b 7
  let s ← sl b 4 7
  let (mcc, mnc, mnc_is_three_digits) ← mccMncDecode s
  let (trigger_events, c) ← rdLvC (.ieInvalidLength 205) b 10
  let (list_ne_types, c) ← rdLvC (.ieInvalidLength 205) b c
  if b.length < c + 1 then .err (.ieInvalidLength 205)
  else
    let session_trace_depth ← rd b c
    let (list_interfaces, c) ← rdLvC (.ieInvalidLength 205) b (c + 1)
    let v ← rd b c
    let trace_collection_ip ←
      if v = 4 then
        if b.length < c + 5 then .err (.ieInvalidLength 205)
        else do
          let i ← rd32 b (c + 1)
          pure (.V4 i)
      else if v = 16 then
        if b.length < c + 17 then .err (.ieInvalidLength 205)
        else do
          let i ← rdIp6 b (c + 1)
          pure (.V6 i)
      else .err (.ieInvalidLength 205)
    return { t := 205, length, ins, mcc, mnc, mnc_is_three_digits, trace_id, trigger_events, list_ne_types,
             session_trace_depth, list_interfaces, trace_collection_ip }
else .err (.ieInvalidLength 205)''',
   rt='''
obtain ⟨p0, p1, p2, q1, q2⟩ := mccMnc_roundtrip3 hp
simp only [marshal]
obtain ⟨b, hb, e1, e2, h3, h4⟩ := tliv_at (ty := 205) (ins := ins) (l := length) tail (body := mccMncEncode mcc mnc mnc_is_three_digits ++
  (be24 trace_id ++ (lenU8 trigger_events :: (trigger_events ++
  (lenU8 list_ne_types :: (list_ne_types ++ (session_trace_depth :: (lenU8 list_interfaces :: (list_interfaces ++
  (UInt8.ofNat trace_collection_ip.size :: trace_collection_ip.octets))))))))))
  (by cases trace_collection_ip <;> simp [q1, be24, IpAddr.octets, IpAddr.size, be32, Ip6.octets, be64] at hl ⊢ <;> omega)
simp only [hb]
simp only [q1, List.append_assoc, List.cons_append, List.nil_append] at h3
have hs : (sl b 4 7 : R Err Bytes) = .ok [p0, p1, p2] := h3.sl (p := [p0, p1, p2]) rfl
have h7 : At b 7 _ := h3.next.next.next
have h10 : At b 10 _ := h7.skip (by simp [be24])
obtain ⟨c1, a1, h11⟩ := rdLvC_at (e := .ieInvalidLength 205) h10 hv1
obtain ⟨c2, a2, h12⟩ := rdLvC_at (e := .ieInvalidLength 205) h11 hv2
obtain ⟨c3, a3, h13⟩ := rdLvC_at (e := .ieInvalidLength 205) h12.next hv3
have hlen := h12.length
have hlen3 := h13.length
simp only [List.length_cons, List.length_append] at hlen hlen3
have q3 : (mccMncDecode [p0, p1, p2] : R Err (UInt16 × UInt16 × Bool)) = .ok (mcc, mnc, mnc_is_three_digits) := by
  simp [mccMncDecode, q2]
cases trace_collection_ip with
| V4 i =>
  simp only [IpAddr.size, IpAddr.octets] at h13 hlen3
  have e5 := h13.next.rd32 (ε := Err)
  simp only [be32, List.length_cons, List.length_nil] at hlen3
  cur_simp [unmarshal, e1, e2, h7.rd24 h24, hs, q3, a1, a2, a3, h12.rd, h13.rd, e5, ht]
| V6 i =>
  simp only [IpAddr.size, IpAddr.octets] at h13 hlen3
  have e5 := h13.next.rdIp6 (ε := Err)
  simp only [Ip6.octets, be64, List.length_append, List.length_cons, List.length_nil] at hlen3
  cur_simp [unmarshal, e1, e2, h7.rd24 h24, hs, q3, a1, a2, a3, h12.rd, h13.rd, e5, ht]''',
   lenok='''
obtain ⟨p0, p1, p2, q1, q2⟩ := mccMnc_roundtrip3 hp
cases trace_collection_ip <;>
simp [marshal, len, ieLen16_ok hbd, tliv_eq, q1, be24, IpAddr.octets, IpAddr.size, be32, Ip6.octets, be64] at hl ⊢ <;> omega''',
   sname='LooseSafe (fun b => 800 ≤ b.length)',
   safe='''
intro m b hb hc
unfold declLen at *
try simp only at hc
safe_simp [unmarshal, len, ieLen16_ok hb]
refine fun h1 => ⟨by omega, by omega, by omega, by omega, by omega, by omega, ⟨by omega, by omega⟩, ?_⟩
refine mccMncDecode_safe (by simp; omega) fun ⟨mcc, mnc, three⟩ => ?_
try safe_simp []
refine Safe.mono (rdLvC_safe (by omega)) fun ⟨v1, c1⟩ h2 => ?_
try safe_simp []
simp only at h2
refine Safe.mono (rdLvC_safe (by omega)) fun ⟨v2, c2⟩ h3 => ?_
try safe_simp []
simp only at h3
refine fun h4 => ⟨by omega, ?_⟩
refine Safe.mono (rdLvC_safe (by omega)) fun ⟨v3, c3⟩ h5 => ?_
try safe_simp []
simp only at h5
refine ⟨by omega, ?_⟩
safe_fin''')
