module('Var1', 'Information elements with optional and alternative parts', ('Verif.V2.VarBase',))

ie('NodeIdentifier', 'nodeidentifier.rs', 0, [('node_name', 'Str'), ('node_realm', 'Str')],
   '[lenU8 (utf8 x.node_name)] ++ utf8 x.node_name ++ [lenU8 (utf8 x.node_realm)] ++ utf8 x.node_realm',
   check=True, length='x.node_name.length + x.node_realm.length + 2',
   wf=[('ha', '∀ c ∈ x.node_name, IsAscii c'), ('hb', '∀ c ∈ x.node_realm, IsAscii c'),
       ('hna', 'x.node_name.length < 256'), ('hnb', 'x.node_realm.length < 256')],
   unm='''
if 5 ≤ b.length then
  let length ← rd16 b 1
  let ins ← rd b 3
  if ← checkTliv m length b then
    let n ← rd b 4
    if 5 + n.toNat + 1 ≤ b.length then
      let name ← sl b 5 (5 + n.toNat)
      let k ← rd b (5 + n.toNat)
      if 5 + n.toNat + 1 + k.toNat ≤ b.length then
        let realm ← sl b (5 + n.toNat + 1) (5 + n.toNat + 1 + k.toNat)
        return { t := 176, length, ins := ins &&& 0x0f, node_name := latin1 name,
                 node_realm := latin1 realm }
      else .err (.ieInvalidLength 176)
    else .err (.ieInvalidLength 176)
  else .err (.ieInvalidLength 176)
else .err (.ieInvalidLength 176)''',
   rtpre='''have la := utf8_length ha
have lb := utf8_length hb
have l1 := lenU8_toNat (l := utf8 node_name) (by omega)
have l2 := lenU8_toNat (l := utf8 node_realm) (by omega)''', rtsimp='l1, l2, latin1_utf8 ha, latin1_utf8 hb, la, lb', rtv='var')

raw('''
/-- `struct TransactionId` (transactionid.rs:16-19). -/
structure TransactionId where
  flag : Bool
  id : UInt8
deriving DecidableEq, Repr
''')
ie('TransactionIdentifier', 'transactionid.rs', 0, [('tid', 'TransactionId')],
   '''let f : UInt8 := if x.tid.flag then 0x80 else 0x00
if x.tid.id < 7 then [f ||| ((x.tid.id <<< 4) &&& 0x70)] else [f, x.tid.id]''',
   length='(if x.tid.id < 7 then 1 else 2)', bound=False, unm='''
if 5 ≤ b.length then
  let length ← rd16 b 1
  let ins ← rd b 3
  let v ← rd b 4
  let flag := decide (v >>> 7 = 1)
  if length > 1 then
    if 6 ≤ b.length then
      let id ← rd b 5
      return { t := 137, length, ins := ins &&& 0x0f, tid := ⟨flag, id⟩ }
    else .err (.ieInvalidLength 137)
  else return { t := 137, length, ins := ins &&& 0x0f, tid := ⟨flag, (v >>> 4) &&& 0x07⟩ }
else .err (.ieInvalidLength 137)''',
   aux='''
theorem pack_dec : ∀ i : UInt8, i < 7 → (((0x80 : UInt8) ||| ((i <<< 4) &&& 0x70)) >>> 7 = (1 : UInt8) ∧
    (((0x00 : UInt8) ||| ((i <<< 4) &&& 0x70)) >>> 7 ≠ (1 : UInt8)) ∧
    (((0x80 : UInt8) ||| ((i <<< 4) &&& 0x70)) >>> 4) &&& 0x07 = i ∧
    (((0x00 : UInt8) ||| ((i <<< 4) &&& 0x70)) >>> 4) &&& 0x07 = i) := by decide +kernel
''',
   rt='''
obtain ⟨flag, id⟩ := tid
simp only at hl
by_cases h7 : id < 7
· obtain ⟨h1, h2, h3, h4⟩ := pack_dec id h7
  have h5 := h2
  have h6 := h4
  rw [UInt8.zero_or] at h5 h6
  have hl1 : ¬ length > 1 := by
    simp only [h7, if_true] at hl
    simp only [gt_iff_lt, UInt16.lt_iff_toNat_lt, hl]; decide
  cases flag <;> simp only [marshal, h7, if_true, if_false, Bool.false_eq_true] at hl ⊢ <;>
    enc_simp [] <;> rt_simp [unmarshal, ht, hi, h1, h2, h3, h4, hl1, h5, h6]
· have hl1 : length > 1 := by
    simp only [h7, if_false] at hl
    simp only [gt_iff_lt, UInt16.lt_iff_toNat_lt, hl]; decide
  cases flag <;> simp only [marshal, h7, if_true, if_false, Bool.false_eq_true] at hl ⊢ <;>
    enc_simp [] <;> rt_simp [unmarshal, ht, hi, hl1]''',
   lenok='''
obtain ⟨flag, id⟩ := tid
simp only at hl
by_cases h7 : id < 7 <;> simp only [h7, if_true, if_false] at hl <;>
  simp [marshal, h7, tliv_eq, len, ieLenU, hl]''',
   sname='LooseSafe (fun _ => True)')

ie('PagingServiceInfo', 'pagingserviceinfo.rs', 0, [('ebi', 'UInt8'), ('paging_policy', 'Option UInt8')],
   '[x.ebi] ++ (match x.paging_policy with | some i => [0x01, i] | none => [0x00])',
   length='(if x.paging_policy.isSome then 3 else 2)', bound=False, unm='''
if 6 ≤ b.length then
  let length ← rd16 b 1
  let ins ← rd b 3
  let ebi ← rd b 4
  let f ← rd b 5
  if f = 0 then return { t := 186, length, ins := ins &&& 0x0f, ebi, paging_policy := none }
  else if f = 1 then
    let p ← rd b 6
    return { t := 186, length, ins := ins &&& 0x0f, ebi, paging_policy := some p }
  else .err (.ieIncorrect 186)
else .err (.ieInvalidLength 186)''',
   lendef='def len (_m : Mode) (x : PagingServiceInfo) : R Err Nat :=\n  .ok (if x.paging_policy.isSome then 7 else 6)',
   rt='''cases paging_policy <;> simp only [Option.isSome] at hl <;> enc_simp [marshal] <;>
  rt_simp [unmarshal, ht, hi, hl]''',
   lenok='cases paging_policy <;> simp [marshal, tliv_eq, len]',
   sname='OwnSafe 6 (fun b => 7 ≤ b.length ∨ b.getD 5 0 ≠ 1)', safesimp='Option.isSome', safepost='''
rcases hc with hc | hc
· safe_fin
· simp only [hc, false_implies]; safe_fin''')

ie('Cause', 'cause.rs', 0, [('value', 'UInt8'), ('pce', 'Bool'), ('bce', 'Bool'), ('cs', 'Bool'), ('offend_ie_type', 'Option UInt8')],
   '''[x.value, (b2u x.pce <<< 2) ||| (b2u x.bce <<< 1) ||| b2u x.cs] ++
  (match x.offend_ie_type with | some i => [i, 0, 0, 0] | none => [])''',
   length='(if x.offend_ie_type.isSome then 6 else 2)', len='16', bound=False, unm='''
if 5 ≤ b.length then
  let length ← rd16 b 1
  let ins ← rd b 3
  if length = 2 then
    if 6 ≤ b.length then
      let value ← rd b 4
      let f ← rd b 5
      return { t := 2, length, ins := ins &&& 0x0f, value, pce := bitOn f 2, bce := bitOn f 1,
               cs := f &&& 1 == 1, offend_ie_type := none }
    else .err (.ieIncorrect 2)
  else if length = 6 then
    if 10 ≤ b.length then
      let value ← rd b 4
      let f ← rd b 5
      let i ← rd b 6
      return { t := 2, length, ins := ins &&& 0x0f, value, pce := bitOn f 2, bce := bitOn f 1,
               cs := f &&& 1 == 1, offend_ie_type := some i }
    else .err (.ieIncorrect 2)
  else .err (.ieIncorrect 2)
else .err (.ieInvalidLength 2)''',
   aux='''
theorem flags_dec : ∀ a b c : Bool, let v := (b2u a <<< 2) ||| (b2u b <<< 1) ||| b2u c
    bitOn v 2 = a ∧ bitOn v 1 = b ∧ (v &&& 1 == 1) = c := by decide +kernel
''',
   rt='''
obtain ⟨h1, h2, h3⟩ := flags_dec pce bce cs
cases offend_ie_type with
| none =>
  have hl2 : length = 2 := UInt16.toNat_inj.mp hl
  subst hl2
  enc_simp [marshal]
  rt_simp [unmarshal, ht, hi, h1, h2, h3]
| some i =>
  have hl2 : length = 6 := UInt16.toNat_inj.mp hl
  subst hl2
  enc_simp [marshal]
  rt_simp [unmarshal, ht, hi, h1, h2, h3]''',
   lenok='''cases offend_ie_type <;> simp only [Option.isSome, if_true, if_false, Bool.false_eq_true] at hl <;>
  simp [marshal, tliv_eq, len, ieLen16_ok (by omega : length.toNat < 65532), hl]''',
   safepost='''
have e2 : (2 : UInt16).toNat = 2 := rfl
have e6 : (6 : UInt16).toNat = 6 := rfl
simp only [← UInt16.toNat_inj, e2, e6]
omega''')

ie('Fteid', 'fteid.rs', 0, [('interface', 'UInt8'), ('teid', 'UInt32'), ('ipv4', 'Option UInt32'), ('ipv6', 'Option Ip6')],
   '''(match x.ipv4.isSome, x.ipv6.isSome with
  | true, true => [0xc0 ||| x.interface]
  | true, false => [0x80 ||| x.interface]
  | false, true => [0x40 ||| x.interface]
  | false, false => [0xc0 ||| x.interface]) ++ be32 x.teid ++
  (match x.ipv4 with | some i => be32 i | none => []) ++
  (match x.ipv6 with | some i => i.octets | none => [])''',
   check=True, len='16', length='5 + (if x.ipv4.isSome then 4 else 0) + (if x.ipv6.isSome then 16 else 0)', bound=False,
   wf=[('h6', 'x.interface < 64'), ('hp', 'x.ipv4 = none → x.ipv6 ≠ none')], unm='''
if 4 ≤ b.length then
  let length ← rd16 b 1
  let ins ← rd b 3
  if ← checkTliv m length b then
    let f ← rd b 4
    let teid ← rd32 b 5
    if f >>> 7 = 1 ∧ (f >>> 6) &&& 1 = 1 then
      let v4 ← rd32 b 9
      let v6 ← rdIp6 b 13
      return { t := 87, length, ins := ins &&& 0x0f, interface := f &&& 0x3f, teid,
               ipv4 := some v4, ipv6 := some v6 }
    else if f >>> 7 = 1 ∧ (f >>> 6) &&& 1 = 0 then
      let v4 ← rd32 b 9
      return { t := 87, length, ins := ins &&& 0x0f, interface := f &&& 0x3f, teid,
               ipv4 := some v4, ipv6 := none }
    else if f >>> 7 = 0 ∧ (f >>> 6) &&& 1 = 1 then
      let v6 ← rdIp6 b 9
      return { t := 87, length, ins := ins &&& 0x0f, interface := f &&& 0x3f, teid,
               ipv4 := none, ipv6 := some v6 }
    else .err (.ieIncorrect 87)
  else .err (.ieInvalidLength 87)
else .err (.ieInvalidLength 87)''',
   aux='''
theorem flags_dec : ∀ i : UInt8, i < 64 →
    (0xc0 ||| i) >>> 7 = 1 ∧ ((0xc0 ||| i) >>> 6) &&& 1 = 1 ∧ (0xc0 ||| i) &&& 0x3f = i ∧
    (0x80 ||| i) >>> 7 = 1 ∧ ((0x80 ||| i) >>> 6) &&& 1 = 0 ∧ (0x80 ||| i) &&& 0x3f = i ∧
    (0x40 ||| i) >>> 7 = 0 ∧ ((0x40 ||| i) >>> 6) &&& 1 = 1 ∧ (0x40 ||| i) &&& 0x3f = i := by
  decide +kernel

/-- Number of octets the decoder reads, given the octet with the address flags. -/
def need (f : UInt8) : Nat :=
  if f >>> 7 = 1 ∧ (f >>> 6) &&& 1 = 1 then 29
  else if f >>> 7 = 1 ∧ (f >>> 6) &&& 1 = 0 then 13
  else if f >>> 7 = 0 ∧ (f >>> 6) &&& 1 = 1 then 25
  else 9
''',
   rt='''
have hb := flags_dec _ h6
rcases ipv4 with _ | ipv4 <;> rcases ipv6 with _ | ipv6 <;>
  simp only [Option.isSome, if_true, if_false, Bool.false_eq_true, Nat.reduceAdd, ne_eq, not_true, imp_false] at hl hp <;>
  (enc_simp [marshal, Option.isSome]; rtv_simp [unmarshal, ht, hi, hb])''',
   lenok='''rcases ipv4 with _ | ipv4 <;> rcases ipv6 with _ | ipv6 <;>
  simp only [Option.isSome, if_true, if_false, Bool.false_eq_true, Nat.reduceAdd] at hl <;>
  simp [marshal, tliv_eq, len, ieLen16_ok (by omega : length.toNat < 65532), hl, be32, be64, Ip6.octets]''',
   safecond='fun b => need (b.getD 4 0) ≤ b.length', safepost='''
have bits : ∀ f : UInt8, (f >>> 7 = 0 ∨ f >>> 7 = 1) ∧ ((f >>> 6) &&& 1 = 0 ∨ (f >>> 6) &&& 1 = 1) := by decide +kernel
obtain ⟨hA, hB⟩ := bits (b.getD 4 0)
unfold need at hc
rcases hA with hA | hA <;> rcases hB with hB | hB <;> simp [hA, hB, -List.getD_eq_getElem?_getD] at hc ⊢ <;> omega''')

ie('IpAddress', 'ipaddress.rs', 0, [('ip', 'IpAddr')], 'x.ip.octets', check=True, length='x.ip.size', bound=False, unm='''
if 4 ≤ b.length then
  let length ← rd16 b 1
  let ins ← rd b 3
  if ← checkTliv m length b then
    if length = 0x04 then
      let v4 ← rd32 b 4
      return { t := 74, length, ins := ins &&& 0x0f, ip := .V4 v4 }
    else if length = 0x10 then
      if 0x14 ≤ b.length then
        let v6 ← rdIp6 b 4
        return { t := 74, length, ins := ins &&& 0x0f, ip := .V6 v6 }
      else .err (.ieInvalidLength 74)
    else .err (.ieIncorrect 74)
  else .err (.ieInvalidLength 74)
else .err (.ieInvalidLength 74)''',
   rt='''
cases ip with
| V4 i =>
  simp only [IpAddr.size] at hl
  have c4 : (length = 4) = True := by simp [← UInt16.toNat_inj, hl]
  enc_simp [marshal, IpAddr.octets]
  rtv_simp [unmarshal, ht, hi, c4]
| V6 i =>
  simp only [IpAddr.size] at hl
  have c4 : (length = 4) = False := by simp [← UInt16.toNat_inj, hl]
  have c16 : (length = 16) = True := by simp [← UInt16.toNat_inj, hl]
  enc_simp [marshal, IpAddr.octets]
  rtv_simp [unmarshal, ht, hi, c4, c16]''',
   lenok='cases ip <;> simp only [IpAddr.size] at hl <;> simp [marshal, tliv_eq, len, ieLenU, hl, IpAddr.octets, Ip6.octets, be32, be64]',
   safepost='''
have e2 : (4 : UInt16).toNat = 4 := rfl
have e6 : (16 : UInt16).toNat = 16 := rfl
simp only [← UInt16.toNat_inj, e2, e6]
omega''')

ie('SgiPtpTunnelAddress', 'sgiptptunneladdress.rs', 0, [('ip', 'IpAddr'), ('port', 'Option UInt16')],
   '''(match x.port.isSome, x.ip with
  | true, .V4 _ => [0x05]
  | true, .V6 _ => [0x06]
  | false, .V4 _ => [0x01]
  | false, .V6 _ => [0x02]) ++ x.ip.octets ++ (match x.port with | some p => be16 p | none => [])''',
   check=True, length='1 + x.ip.size + (if x.port.isSome then 2 else 0)', bound=False, unm='''
if 5 ≤ b.length then
  let length ← rd16 b 1
  let ins ← rd b 3
  if ← checkTliv m length b then
    let f ← rd b 4
    if f &&& 0x03 = 0x01 then
      if 9 ≤ b.length then
        let v4 ← rd32 b 5
        if f &&& 0x04 = 0x04 then
          if 11 ≤ b.length then
            let p ← rd16 b 9
            return { t := 213, length, ins := ins &&& 0x0f, ip := .V4 v4, port := some p }
          else .err (.ieInvalidLength 213)
        else return { t := 213, length, ins := ins &&& 0x0f, ip := .V4 v4, port := none }
      else .err (.ieInvalidLength 213)
    else if f &&& 0x03 = 0x02 then
      if 21 ≤ b.length then
        let v6 ← rdIp6 b 5
        if f &&& 0x04 = 0x04 then
          if 23 ≤ b.length then
            let p ← rd16 b 21
            return { t := 213, length, ins := ins &&& 0x0f, ip := .V6 v6, port := some p }
          else .err (.ieInvalidLength 213)
        else return { t := 213, length, ins := ins &&& 0x0f, ip := .V6 v6, port := none }
      else .err (.ieInvalidLength 213)
    else .err (.ieIncorrect 213)
  else .err (.ieInvalidLength 213)
else .err (.ieInvalidLength 213)''', decn='; the test for the port is written out in both branches',
   rt='''
cases ip <;> cases port <;>
  simp only [Option.isSome, IpAddr.size, if_true, if_false, Bool.false_eq_true, Nat.reduceAdd] at hl <;>
  (enc_simp [marshal, Option.isSome, IpAddr.octets]; rtv_simp [unmarshal, ht, hi])''',
   lenok='''cases ip <;> cases port <;>
  simp only [Option.isSome, IpAddr.size, if_true, if_false, Bool.false_eq_true, Nat.reduceAdd] at hl <;>
  simp [marshal, tliv_eq, len, ieLenU, hl, IpAddr.octets, Ip6.octets, be32, be64, be16]''')

raw('''
/-- `enum PdnAddress` (paa.rs:17-23). -/
inductive PdnAddress where
  | V4 (i : UInt32) | V6 (i : Ip6) (prefix_ : UInt8) | DualStack (i : UInt32) (j : Ip6) (n : UInt8)
  | NonIp | Ethernet
deriving DecidableEq, Repr

/-- The octets written for a `PdnAddress` (paa.rs:58-76). -/
def PdnAddress.octets : PdnAddress → Bytes
  | .V4 i => [0x01] ++ be32 i
  | .V6 i j => [0x02, j] ++ i.octets
  | .DualStack i j n => [0x03, n] ++ j.octets ++ be32 i
  | .NonIp => [0x04]
  | .Ethernet => [0x05]
''')
ie('PdnAddressAllocation', 'paa.rs', 0, [('ip', 'PdnAddress')], 'x.ip.octets', check=True, length='x.ip.octets.length', bound=False, unm='''
if 5 ≤ b.length then
  let length ← rd16 b 1
  let ins ← rd b 3
  if ← checkTliv m length b then
    let k ← rd b 4
    if k = 0x01 then
      if 5 ≤ length.toNat then
        let v4 ← rd32 b 5
        return { t := 79, length, ins := ins &&& 0x0f, ip := .V4 v4 }
      else .err (.ieInvalidLength 79)
    else if k = 0x02 then
      if 18 ≤ length.toNat then
        let p ← rd b 5
        let v6 ← rdIp6 b 6
        return { t := 79, length, ins := ins &&& 0x0f, ip := .V6 v6 p }
      else .err (.ieInvalidLength 79)
    else if k = 0x03 then
      if 22 ≤ length.toNat then
        let p ← rd b 5
        let v6 ← rdIp6 b 6
        let v4 ← rd32 b 22
        return { t := 79, length, ins := ins &&& 0x0f, ip := .DualStack v4 v6 p }
      else .err (.ieInvalidLength 79)
    else if k = 0x04 then return { t := 79, length, ins := ins &&& 0x0f, ip := .NonIp }
    else if k = 0x05 then return { t := 79, length, ins := ins &&& 0x0f, ip := .Ethernet }
    else .err (.ieIncorrect 79)
  else .err (.ieInvalidLength 79)
else .err (.ieInvalidLength 79)''',
   rt='''
cases ip <;>
  simp only [PdnAddress.octets, Ip6.octets, be32, be64, List.length_append, List.length_cons, List.length_nil, Nat.reduceAdd] at hl <;>
  (enc_simp [marshal, PdnAddress.octets]; rtv_simp [unmarshal, ht, hi])''',
   lenok='simp only [marshal, tliv_eq, len, ieLenU, hl, List.length_cons]')

ie('MaxPacketLossRate', 'maxpacketlossrate.rs', 0, [('max_packet_loss_ul', 'Option UInt16'), ('max_packet_loss_dl', 'Option UInt16')],
   '''match x.max_packet_loss_dl, x.max_packet_loss_ul with
| none, none => [0x00]
| none, some u => [0x01] ++ be16 u
| some d, none => [0x02] ++ be16 d
| some d, some u => [0x03] ++ be16 u ++ be16 d''',
   length='1 + (if x.max_packet_loss_ul.isSome then 2 else 0) + (if x.max_packet_loss_dl.isSome then 2 else 0)', bound=False, unm='''
if 5 ≤ b.length then
  let length ← rd16 b 1
  let ins ← rd b 3
  let f ← rd b 4
  if f &&& 0x03 = 0 then
    return { t := 203, length, ins := ins &&& 0x0f, max_packet_loss_ul := none, max_packet_loss_dl := none }
  else if f &&& 0x03 = 1 then
    if ← checkTliv m 3 b then
      let u ← rd16 b 5
      return { t := 203, length, ins := ins &&& 0x0f, max_packet_loss_ul := some u, max_packet_loss_dl := none }
    else .err (.ieInvalidLength 203)
  else if f &&& 0x03 = 2 then
    if ← checkTliv m 3 b then
      let d ← rd16 b 5
      return { t := 203, length, ins := ins &&& 0x0f, max_packet_loss_ul := none, max_packet_loss_dl := some d }
    else .err (.ieInvalidLength 203)
  else if f &&& 0x03 = 3 then
    if ← checkTliv m 5 b then
      let u ← rd16 b 5
      let d ← rd16 b 7
      return { t := 203, length, ins := ins &&& 0x0f, max_packet_loss_ul := some u, max_packet_loss_dl := some d }
    else .err (.ieInvalidLength 203)
  else .err (.ieIncorrect 203)
else .err (.ieInvalidLength 203)''',
   rt='''
cases max_packet_loss_ul <;> cases max_packet_loss_dl <;>
  simp only [Option.isSome, if_true, if_false, Bool.false_eq_true, Nat.reduceAdd] at hl <;>
  (enc_simp [marshal]; rtv_simp [unmarshal, ht, hi, checkTliv_ok (show (3 : UInt16).toNat < 65532 by decide), checkTliv_ok (show (5 : UInt16).toNat < 65532 by decide)])''',
   lenok='''cases max_packet_loss_ul <;> cases max_packet_loss_dl <;>
  simp only [Option.isSome, if_true, if_false, Bool.false_eq_true, Nat.reduceAdd] at hl <;>
  simp [marshal, tliv_eq, len, ieLenU, hl, be16]''',
   sname='LooseSafe (fun _ => True)', safesimp='Safe_checkTliv (show (3 : UInt16).toNat < 65532 by decide), Safe_checkTliv (show (5 : UInt16).toNat < 65532 by decide)',
   safepost='''
have e2 : (3 : UInt16).toNat = 3 := rfl
have e6 : (5 : UInt16).toNat = 5 := rfl
simp only [e2, e6]
safe_fin''')

ie('NodeNumber', 'nodenumber.rs', 0, [('node_number', 'Str')],
   '[lenU8 (0x91 :: tbcdEncode x.node_number)] ++ (0x91 :: tbcdEncode x.node_number)', check=True, minlen=5,
   dec='''let k ← rd b 4
let n ← sl b 5 (k.toNat + 5)
let d ← slFrom n 1''', ret='node_number := tbcdDecode d', errShort='.ieIncorrect 175',
   length='(x.node_number.length + 1) / 2 + 2', wf=[('hd', '∀ c ∈ x.node_number, IsDigit c'), ('hn', 'x.node_number.length ≤ 508')],
   rtpre='''have hb := tbcd_length _ hd
have hk : (lenU8 (0x91 :: tbcdEncode node_number)).toNat = (tbcdEncode node_number).length + 1 := by
  rw [lenU8_toNat] <;> simp only [List.length_cons] <;> omega
have hs : ∀ a b c d e : UInt8, (sl (a :: b :: c :: d :: e :: 0x91 :: (tbcdEncode node_number ++ tail)) 5
    ((tbcdEncode node_number).length + 1 + 5) : R Err Bytes) = .ok (0x91 :: tbcdEncode node_number) := by
  intro a b c d e; exact sl_from5 a b c d e (0x91 :: tbcdEncode node_number) tail _ (by simp)''',
   rtsimp='hk, hs, tbcd_roundtrip _ hd', rtv=True,
   lenok='''have hb := tbcd_length _ hd
simp only [marshal, tliv_eq, len, ieLenU, hl, List.length_cons, List.length_append, List.length_nil, hb]
try (congr 1; omega)''',
   safecond='fun b => 1 ≤ (b.getD 4 0).toNat ∧ (b.getD 4 0).toNat + 5 ≤ b.length', safesimp='List.length_drop, List.length_take')

ie('MbmsServiceArea', 'mbmssa.rs', 0, [('mbms_sa', 'List UInt16')],
   '''if x.mbms_sa.length = 0 then [0x00, 0x00, 0x00]
else [UInt8.ofNat (x.mbms_sa.length - 1)] ++ be16s x.mbms_sa''', check=True, length='2 * x.mbms_sa.length + 1',
   wf=[('h1', '1 ≤ x.mbms_sa.length'), ('h2', 'x.mbms_sa.length ≤ 256')], unm='''
if 4 ≤ b.length then
  let length ← rd16 b 1
  let ins ← rd b 3
  if ← checkTliv m length b then
    let n ← rd b 4
    if 5 + (n.toNat + 1) * 2 ≤ b.length then
      let s ← sl b 5 (5 + (n.toNat + 1) * 2)
      return { t := 139, length, ins := ins &&& 0x0f, mbms_sa := rd16s s }
    else .err (.ieInvalidLength 139)
  else .err (.ieInvalidLength 139)
else .err (.ieInvalidLength 139)''',
   rtpre='''have h0 : ¬ mbms_sa.length = 0 := by omega
have hk : (UInt8.ofNat (mbms_sa.length - 1)).toNat = mbms_sa.length - 1 := by simp; omega''', rtsimp='h0, hk, if_false', rtv='var')

raw('''
/-- `enum NodeId` (fqcsid.rs:17-21). -/
inductive NodeId where
  | V4 (i : UInt32) | V6 (i : Ip6) | NwAddr (i : UInt32)
deriving DecidableEq, Repr
''')
ie('Fqcsid', 'fqcsid.rs', 0, [('nodeid', 'NodeId'), ('csid', 'List UInt16')],
   '''(match x.nodeid with
  | .V4 i => [lenU8 x.csid &&& 0x0f] ++ be32 i
  | .V6 i => [0x10 ||| (lenU8 x.csid &&& 0x0f)] ++ i.octets
  | .NwAddr i => [0x20 ||| (lenU8 x.csid &&& 0x0f)] ++ be32 i) ++ be16s x.csid''', check=True, len='16',
   length='(match x.nodeid with | .V6 _ => 17 | _ => 5) + 2 * x.csid.length', bound=False, wf=[('hc', 'x.csid.length < 16')], unm='''
if 5 ≤ b.length then
  let length ← rd16 b 1
  let ins ← rd b 3
  if ← checkTliv m length b then
    let f ← rd b 4
    let n := (f &&& 0x0f).toNat
    if f >>> 4 = 0 then
      if ← checkTliv m (UInt16.ofNat (9 + 2 * n - 4)) b then
        let v4 ← rd32 b 5
        let s ← sl b 9 (9 + 2 * n)
        return { t := 132, length, ins := ins &&& 0x0f, nodeid := .V4 v4, csid := rd16s s }
      else .err (.ieInvalidLength 132)
    else if f >>> 4 = 1 then
      if ← checkTliv m (UInt16.ofNat (21 + 2 * n - 4)) b then
        let v6 ← rdIp6 b 5
        let s ← sl b 21 (21 + 2 * n)
        return { t := 132, length, ins := ins &&& 0x0f, nodeid := .V6 v6, csid := rd16s s }
      else .err (.ieInvalidLength 132)
    else if f >>> 4 = 2 then
      if ← checkTliv m (UInt16.ofNat (9 + 2 * n - 4)) b then
        let w ← rd32 b 5
        let s ← sl b 9 (9 + 2 * n)
        return { t := 132, length, ins := ins &&& 0x0f, nodeid := .NwAddr w, csid := rd16s s }
      else .err (.ieInvalidLength 132)
    else .err (.ieIncorrect 132)
  else .err (.ieInvalidLength 132)
else .err (.ieInvalidLength 132)''', decn='; the `u8` sum `21 + 2 * (octet & 0x0f)` is at most 51',
   aux='''
theorem flags_dec (k : Nat) (h : k < 16) :
    (UInt8.ofNat k &&& 0x0f) >>> 4 = 0 ∧ ((UInt8.ofNat k &&& 0x0f) &&& 0x0f).toNat = k ∧
    (0x10 ||| (UInt8.ofNat k &&& 0x0f)) >>> 4 = 1 ∧ ((0x10 ||| (UInt8.ofNat k &&& 0x0f)) &&& 0x0f).toNat = k ∧
    (0x20 ||| (UInt8.ofNat k &&& 0x0f)) >>> 4 = 2 ∧ ((0x20 ||| (UInt8.ofNat k &&& 0x0f)) &&& 0x0f).toNat = k := by
  have key : ∀ k : Fin 16, 
    (UInt8.ofNat k &&& 0x0f) >>> 4 = 0 ∧ ((UInt8.ofNat k &&& 0x0f) &&& 0x0f).toNat = k ∧
    (0x10 ||| (UInt8.ofNat k &&& 0x0f)) >>> 4 = 1 ∧ ((0x10 ||| (UInt8.ofNat k &&& 0x0f)) &&& 0x0f).toNat = k ∧
    (0x20 ||| (UInt8.ofNat k &&& 0x0f)) >>> 4 = 2 ∧ ((0x20 ||| (UInt8.ofNat k &&& 0x0f)) &&& 0x0f).toNat = k := by
    decide +kernel
  exact key ⟨k, h⟩
''',
   rt='''
obtain ⟨f1, f2, f3, f4, f5, f6⟩ := flags_dec _ hc
cases nodeid <;> simp only at hl <;> (enc_simp [marshal, lenU8]; var_simp [unmarshal, ht, hi, f1, f2, f3, f4, f5, f6])''',
   lenok='''have hb : length.toNat < 65532 := by cases nodeid <;> simp only at hl <;> omega
cases nodeid <;> simp only at hl <;> simp [len, ieLen16_ok hb, marshal, tliv_eq, hl, Ip6.octets, be32, be64] <;> omega''',
   safe='''
intro m b hb _
unfold declLen at *
have h15 := and15_le (b.getD 4 0)
have c9 := checkTliv_nat (ε := Err) (m := m) (b := b) (9 + 2 * (b.getD 4 0 &&& 0x0f).toNat - 4) (by omega)
have c21 := checkTliv_nat (ε := Err) (m := m) (b := b) (21 + 2 * (b.getD 4 0 &&& 0x0f).toNat - 4) (by omega)
safe_simp [unmarshal, len, Safe_checkTliv hb, ieLen16_ok hb, c9, c21]
safe_fin''')
