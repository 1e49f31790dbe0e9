import Verif.V2.VarBase
import Verif.UtilsLemmas

/-!
# Information elements with several variable parts

Expanded by `scripts/gen_ies.py`; the citations refer to `/repo/src/gtpv2/messages/ies`.
-/

namespace Gtp.V2

set_option linter.unusedSimpArgs false

/-- `enum PresenceReportingArea` (prai.rs:17-22). -/
inductive PresenceReportingArea where
  | Ipra (i : UInt32) | Opra (i : UInt32) | Inapra (i : UInt32)
deriving DecidableEq, Repr

namespace PresenceReportingArea

/-- The identifier. -/
def val : PresenceReportingArea → UInt32
  | .Ipra i | .Opra i | .Inapra i => i

/-- The flag octet (prai.rs:27-40). -/
def code : PresenceReportingArea → UInt8
  | .Inapra _ => 0x08 | .Ipra _ => 0x01 | .Opra _ => 0x02

/-- `From<PresenceReportingArea> for Vec<u8>` (prai.rs:24-43). -/
def octets (p : PresenceReportingArea) : Bytes := be24 p.val ++ [p.code]

/-- `From<&[u8]> for PresenceReportingArea` (prai.rs:45-53), on four octets. -/
def ofOctets (a b c d : UInt8) : PresenceReportingArea :=
  if (d >>> 3) &&& 0x01 = 0 ∧ (d >>> 1) &&& 0x01 = 1 ∧ d &&& 0x01 = 0 then .Opra (of32 0 a b c)
  else if (d >>> 3) &&& 0x01 = 0 ∧ (d >>> 1) &&& 0x01 = 0 ∧ d &&& 0x01 = 1 then .Ipra (of32 0 a b c)
  else .Inapra (of32 0 a b c)

/-- The first area and the additional ones, every flag octet but the last with bit 2 set
(prai.rs:91-103). -/
def chain : List PresenceReportingArea → Bytes
  | [] => []
  | [p] => be24 p.val ++ [(p.code ||| 0x04) &&& 0x0b]
  | p :: q :: r => be24 p.val ++ [p.code ||| 0x04] ++ chain (q :: r)

/-- The loop over additional areas (prai.rs:119-129), on the octets from the cursor on. -/
def more : Bytes → List PresenceReportingArea
  | a :: b :: c :: d :: r => ofOctets a b c d :: (if (d >>> 2) &&& 0x01 = 0 then [] else more r)
  | _ => []

theorem dec_last (p : PresenceReportingArea) (h : p.val.toNat < 16777216) :
    ofOctets (oct32 2 p.val) (oct32 1 p.val) (oct32 0 p.val) ((p.code ||| 0x04) &&& 0x0b) = p := by
  cases p <;> simp [val, code, ofOctets] at h ⊢ <;> exact of24_be h

theorem dec_more (p : PresenceReportingArea) (h : p.val.toNat < 16777216) :
    ofOctets (oct32 2 p.val) (oct32 1 p.val) (oct32 0 p.val) (p.code ||| 0x04) = p := by
  cases p <;> simp [val, code, ofOctets] at h ⊢ <;> exact of24_be h

theorem code_last (p : PresenceReportingArea) : (((p.code ||| 0x04) &&& 0x0b) >>> 2) &&& 0x01 = 0 := by
  cases p <;> simp only [code] <;> decide

theorem code_more (p : PresenceReportingArea) : ((p.code ||| 0x04) >>> 2) &&& 0x01 = 1 := by
  cases p <;> simp only [code] <;> decide

theorem more_chain : ∀ (l : List PresenceReportingArea) (tail : Bytes), l ≠ [] →
    (∀ p ∈ l, p.val.toNat < 16777216) → more (chain l ++ tail) = l
  | [], _, h, _ => absurd rfl h
  | [p], tail, _, h => by
    simp [chain, be24, more, dec_last p (h p (by simp)), code_last]
  | p :: q :: r, tail, _, h => by
    have ih := more_chain (q :: r) tail (by simp) (fun x hx => h x (List.mem_cons_of_mem _ hx))
    simp [chain, be24, more, dec_more p (h p (by simp)), code_more]
    exact ih

@[gtplen] theorem chain_length : ∀ l : List PresenceReportingArea, (chain l).length = 4 * l.length
  | [] => rfl
  | [p] => by simp [chain, be24]
  | p :: q :: r => by
    have ih := chain_length (q :: r)
    simp [chain, be24] at ih ⊢
    omega

end PresenceReportingArea

/-- `PresenceReportingAreaInformation` (prai.rs:58-64). -/
structure PresenceReportingAreaInformation where
  t : UInt8
  length : UInt16
  ins : UInt8
  prai : PresenceReportingArea
  add_prai : Option (List PresenceReportingArea)
deriving DecidableEq, Repr

namespace PresenceReportingAreaInformation

open PresenceReportingArea in
theorem enc_some {length : UInt16} {ins : UInt8} {p : PresenceReportingArea} {l : List PresenceReportingArea}
    (hl : length.toNat = 4 * (l.length + 1)) (hne : l ≠ []) :
    tliv 178 length ins (chain (p :: l)) =
      178 :: hi16 length :: lo16 length :: ins :: oct32 2 p.val :: oct32 1 p.val :: oct32 0 p.val ::
        (p.code ||| 0x04) :: chain l := by
  rw [tliv_wf (by rw [chain_length, List.length_cons, hl])]
  obtain ⟨q, r, rfl⟩ := List.exists_cons_of_ne_nil hne
  simp [chain, be24]

/-- `marshal` (prai.rs:85-106). -/
def marshal (x : PresenceReportingAreaInformation) : Bytes :=
  tliv 178 x.length x.ins <|
    match x.add_prai with
    | none => x.prai.octets
    | some l => PresenceReportingArea.chain (x.prai :: l)

/-- `unmarshal` (prai.rs:108-136). -/
def unmarshal (_m : Mode) (b : Bytes) : R Err PresenceReportingAreaInformation := do
  if 12 ≤ b.length then
    let length ← rd16 b 1
    let ins ← rd b 3
    let a0 ← rd b 4
    let a1 ← rd b 5
    let a2 ← rd b 6
    let a3 ← rd b 7
    let prai := PresenceReportingArea.ofOctets a0 a1 a2 a3
    if (a3 >>> 2) &&& 0x01 = 1 then
      let r ← slFrom b 8
      return { t := 178, length, ins := ins &&& 0x0f, prai, add_prai := some (PresenceReportingArea.more r) }
    else return { t := 178, length, ins := ins &&& 0x0f, prai, add_prai := none }
  else .err (.ieInvalidLength 178)

/-- `len` (prai.rs:138-140). -/
def len (_m : Mode) (_x : PresenceReportingAreaInformation) : R Err Nat := .ok 12

/-- Field values that the encoding of a `PresenceReportingAreaInformation` can represent. -/
def WF (x : PresenceReportingAreaInformation) : Prop :=
  x.t = 178 ∧
  x.length.toNat = 8 ∧
  x.ins < 16 ∧
  (∃ q ∈ x.add_prai.getD [], x.add_prai = some [q]) ∧
  (∀ p ∈ x.prai :: x.add_prai.getD [], p.val.toNat < 16777216)

instance (x : PresenceReportingAreaInformation) : Decidable x.WF := by unfold WF; infer_instance

theorem rt : RoundTrips WF marshal unmarshal := by
  intro m x tail h
  obtain ⟨t, length, ins, prai, add_prai⟩ := x
  obtain ⟨ht, hl, hi, hone, hv⟩ := h
  simp only at ht hl hi hone hv
  obtain ⟨q, hq, rfl⟩ := hone
  simp only [Option.getD_some, List.mem_cons, forall_eq_or_imp] at hv
  obtain ⟨hp, hq, _⟩ := hv
  have d1 := PresenceReportingArea.dec_more prai hp
  have d2 := PresenceReportingArea.code_more prai
  have d3 := PresenceReportingArea.more_chain [q] tail (by simp) (by simpa using hq)
  have hlen : (PresenceReportingArea.chain [q]).length = 4 := PresenceReportingArea.chain_length [q]
  simp only [marshal]
  rw [enc_some (by simpa using hl) (by simp)]
  simp only [List.cons_append]
  generalize PresenceReportingArea.chain [q] = c at d3 hlen
  rtv_simp [unmarshal, ht, hi, d1, d2, d3]

theorem len_ok : LenOk WF marshal len := by
  intro m x h
  obtain ⟨t, length, ins, prai, add_prai⟩ := x
  obtain ⟨ht, hl, hi, hone, hv⟩ := h
  simp only at ht hl hi hone hv
  obtain ⟨q, hq, rfl⟩ := hone
  simp only [marshal]
  rw [enc_some (by simpa using hl) (by simp)]
  simp [len, PresenceReportingArea.chain_length]

theorem safe : FixedSafe 12 unmarshal len := by
  intro m b
  safe_simp [unmarshal, len]
  safe_fin

end PresenceReportingAreaInformation

/-- `enum RemoteIpAddress` (remoteueip.rs:17-21). -/
inductive RemoteIpAddress where
  | V4 (i : UInt32) | V6 (i : Ip6) | NonIp
deriving DecidableEq, Repr

/-- The octets written for a `RemoteIpAddress` (remoteueip.rs:56-66): of an IPv6 address, the first
eight octets only. -/
def RemoteIpAddress.octets : RemoteIpAddress → Bytes
  | .V4 i => [0x01] ++ be32 i
  | .V6 i => [0x02] ++ be64 i.hi
  | .NonIp => [0x00]

/-- The half of an IPv6 address that is not written is zero. -/
def RemoteIpAddress.lowZero : RemoteIpAddress → Prop
  | .V6 i => i.lo = 0
  | _ => True

instance : (x : RemoteIpAddress) → Decidable x.lowZero
  | .V6 i => inferInstanceAs (Decidable (i.lo = 0))
  | .V4 _ => isTrue trivial
  | .NonIp => isTrue trivial

/-- `RemoteUeIpInformation` (remoteueip.rs:26-31). -/
structure RemoteUeIpInformation where
  t : UInt8
  length : UInt16
  ins : UInt8
  ip : RemoteIpAddress
deriving DecidableEq, Repr

namespace RemoteUeIpInformation

/-- `marshal` (remoteueip.rs:51-69). -/
def marshal (x : RemoteUeIpInformation) : Bytes :=
  tliv 193 x.length x.ins (x.ip.octets)

/-- `unmarshal` (remoteueip.rs:71-114). -/
def unmarshal (m : Mode) (b : Bytes) : R Err RemoteUeIpInformation := do
  if 5 ≤ b.length then
    let length ← rd16 b 1
    let ins ← rd b 3
    if ← checkTliv m length b then
      let k ← rd b 4
      if k = 0x01 then
        if 5 ≤ length.toNat then
          let v4 ← rd32 b 5
          return { t := 193, length, ins := ins &&& 0x0f, ip := .V4 v4 }
        else .err (.ieInvalidLength 193)
      else if k = 0x02 then
        if 9 ≤ length.toNat then
          let hi ← rd64 b 5
          return { t := 193, length, ins := ins &&& 0x0f, ip := .V6 ⟨hi, 0⟩ }
        else .err (.ieInvalidLength 193)
      else if k = 0x00 then return { t := 193, length, ins := ins &&& 0x0f, ip := .NonIp }
      else .err (.ieIncorrect 193)
    else .err (.ieInvalidLength 193)
  else .err (.ieInvalidLength 193)

/-- `len` (remoteueip.rs:116-118). -/
def len (m : Mode) (x : RemoteUeIpInformation) : R Err Nat := ieLen16 m x.length

/-- Field values that the encoding of a `RemoteUeIpInformation` can represent. -/
def WF (x : RemoteUeIpInformation) : Prop :=
  x.t = 193 ∧
  x.length.toNat = x.ip.octets.length ∧
  x.ins < 16 ∧
  x.ip.lowZero

instance (x : RemoteUeIpInformation) : Decidable x.WF := by unfold WF; infer_instance

theorem rt : RoundTrips WF marshal unmarshal := by
  intro m x tail h
  obtain ⟨t, length, ins, ip⟩ := x
  obtain ⟨ht, hl, hi, h6⟩ := h
  simp only at ht hl hi h6
  have key : ip.octets.length ≤ 9 := by cases ip <;> simp [RemoteIpAddress.octets, be32, be64]
  cases ip with
  | V6 i =>
    obtain ⟨hi6, lo6⟩ := i
    simp only [RemoteIpAddress.lowZero] at h6
    subst h6
    simp only [RemoteIpAddress.octets, be64, List.length_append, List.length_cons, List.length_nil, Nat.reduceAdd] at hl
    enc_simp [marshal, RemoteIpAddress.octets]
    rtv_simp [unmarshal, ht, hi]
  | V4 i =>
    simp only [RemoteIpAddress.octets, be32, List.length_append, List.length_cons, List.length_nil, Nat.reduceAdd] at hl
    enc_simp [marshal, RemoteIpAddress.octets]
    rtv_simp [unmarshal, ht, hi]
  | NonIp =>
    simp only [RemoteIpAddress.octets, List.length_cons, List.length_nil, Nat.reduceAdd] at hl
    enc_simp [marshal, RemoteIpAddress.octets]
    rtv_simp [unmarshal, ht, hi]

theorem len_ok : LenOk WF marshal len := by
  intro m x h
  obtain ⟨t, length, ins, ip⟩ := x
  obtain ⟨ht, hl, hi, h6⟩ := h
  simp only at ht hl hi h6
  have key : ip.octets.length ≤ 9 := by cases ip <;> simp [RemoteIpAddress.octets, be32, be64]
  simp only [marshal, tliv_eq, len, ieLen16_ok (by omega : length.toNat < 65532), hl, List.length_cons]

theorem safe : ExactSafe unmarshal len := by
  intro m b hb hc
  unfold declLen at *
  safe_simp [unmarshal, len, Safe_checkTliv hb, ieLen16_ok hb]
  safe_fin

end RemoteUeIpInformation

/-- A length octet at `c - 1` and that many octets from `c` on
(remoteuserid.rs:125-133, 142-150, 159-167, 168-176). -/
def rdStr (b : Bytes) (c : Nat) (e : Err) : R Err Bytes := do
  if c > b.length then .err e
  else
    let l ← rd b (c - 1)
    if c + l.toNat > b.length then .err e
    else sl b c (c + l.toNat)

/-- `RemoteUserId` (remoteuserid.rs:16-23). -/
structure RemoteUserId where
  t : UInt8
  length : UInt16
  ins : UInt8
  imsi : Str
  msisdn : Option Str
  imei : Option Str
deriving DecidableEq, Repr

namespace RemoteUserId

/-- Digits preceded by the octet count. -/
def lv (pre : Bytes) (s : Str) : Bytes := pre ++ [lenU8 (tbcdEncode s)] ++ tbcdEncode s

theorem rdStr_ok (pre s tail : Bytes) (c : Nat) (e : Err) (hs : s.length < 256) (hc : c = pre.length + 1) :
    rdStr (pre ++ lenU8 s :: (s ++ tail)) c e = .ok s := by
  subst hc
  have hk : (lenU8 s).toNat = s.length := lenU8_toNat hs
  simp only [rdStr, List.length_append, List.length_cons, Nat.add_sub_cancel]
  rw [if_neg (by omega), rd_append_right (Nat.le_refl _), Nat.sub_self, rd_zero, R.ok_bind, hk, if_neg (by omega)]
  rw [show pre ++ lenU8 s :: (s ++ tail) = (pre ++ [lenU8 s]) ++ s ++ tail by simp]
  exact sl_mid _ _ _ _ _ (by simp) (by simp)

/-- `marshal` (remoteuserid.rs:45-98). -/
def marshal (x : RemoteUserId) : Bytes :=
  tliv 192 x.length x.ins <|
    lv [match x.imei.isSome, x.msisdn.isSome with
        | false, false => 0x00
        | false, true => 0x01
        | true, false => 0x02
        | true, true => 0x03] x.imsi ++
      (match x.msisdn with | some i => lv [] i | none => []) ++
      (match x.imei with | some i => lv [] i | none => [])

/-- `unmarshal` (remoteuserid.rs:100-184). -/
def unmarshal (_m : Mode) (b : Bytes) : R Err RemoteUserId := do
  if 6 ≤ b.length then
    let length ← rd16 b 1
    let ins ← rd b 3
    let f ← rd b 4
    let l ← rd b 5
    let e := Err.ieInvalidLength 192
    if f &&& 0x03 = 0 then
      let i ← sl b 6 (6 + l.toNat)
      return { t := 192, length, ins := ins &&& 0x0f, imsi := tbcdDecode i, msisdn := none, imei := none }
    else if f &&& 0x03 = 1 then
      let i ← sl b 6 (6 + l.toNat)
      let ms ← rdStr b (6 + l.toNat + 1) e
      return { t := 192, length, ins := ins &&& 0x0f, imsi := tbcdDecode i, msisdn := some (tbcdDecode ms),
               imei := none }
    else if f &&& 0x03 = 2 then
      let i ← sl b 6 (6 + l.toNat)
      let im ← rdStr b (6 + l.toNat + 1) e
      return { t := 192, length, ins := ins &&& 0x0f, imsi := tbcdDecode i, msisdn := none,
               imei := some (tbcdDecode im) }
    else if f &&& 0x03 = 3 then
      let i ← sl b 6 (6 + l.toNat)
      let ms ← rdStr b (6 + l.toNat + 1) e
      let im ← rdStr b (6 + l.toNat + 1 + ms.length + 1) e
      return { t := 192, length, ins := ins &&& 0x0f, imsi := tbcdDecode i, msisdn := some (tbcdDecode ms),
               imei := some (tbcdDecode im) }
    else .err (.ieIncorrect 192)
  else .err (.ieInvalidLength 192)

/-- `len` (remoteuserid.rs:186-188). -/
def len (_m : Mode) (x : RemoteUserId) : R Err Nat := ieLenU x.length

/-- Field values that the encoding of a `RemoteUserId` can represent. -/
def WF (x : RemoteUserId) : Prop :=
  x.t = 192 ∧
  x.length.toNat = 2 + (x.imsi.length + 1) / 2 + (match x.msisdn with | some i => 1 + (i.length + 1) / 2 | none => 0) +
    (match x.imei with | some i => 1 + (i.length + 1) / 2 | none => 0) ∧
  x.ins < 16 ∧
  (∀ c ∈ x.imsi, IsDigit c) ∧
  (∀ i ∈ x.msisdn, (∀ c ∈ i, IsDigit c) ∧ i.length ≤ 510) ∧
  (∀ i ∈ x.imei, (∀ c ∈ i, IsDigit c) ∧ i.length ≤ 510) ∧
  x.imsi.length ≤ 510

instance (x : RemoteUserId) : Decidable x.WF := by unfold WF; infer_instance

theorem rt : RoundTrips WF marshal unmarshal := by
  intro m x tail h
  obtain ⟨t, length, ins, imsi, msisdn, imei⟩ := x
  obtain ⟨ht, hl, hi, hd, hm, he, hn⟩ := h
  simp only at ht hl hi hd hm he hn
  have hbi := tbcd_length _ hd
  have k1 := lenU8_toNat (l := tbcdEncode imsi) (by omega)
  have r1 := tbcd_roundtrip _ hd
  rcases msisdn with _ | ms
  · rcases imei with _ | im
    · simp only at hl
      enc_simp [marshal, lv, Option.isSome]
      var_simp [unmarshal, ht, hi, k1, r1]
    · simp only at hl
      obtain ⟨hd2, hn2⟩ := he im rfl
      have hb2 := tbcd_length _ hd2
      have r2 := tbcd_roundtrip _ hd2
      have e2 := rdStr_ok (192 :: hi16 length :: lo16 length :: ins :: 2 :: lenU8 (tbcdEncode imsi) :: tbcdEncode imsi)
        (tbcdEncode im) tail (6 + (tbcdEncode imsi).length + 1) (.ieInvalidLength 192) (by omega) (by simp; omega)
      simp only [List.cons_append] at e2
      enc_simp [marshal, lv, Option.isSome]
      var_simp [unmarshal, ht, hi, k1, r1, r2, e2]
  · rcases imei with _ | im
    · simp only at hl
      obtain ⟨hd2, hn2⟩ := hm ms rfl
      have hb2 := tbcd_length _ hd2
      have r2 := tbcd_roundtrip _ hd2
      have e2 := rdStr_ok (192 :: hi16 length :: lo16 length :: ins :: 1 :: lenU8 (tbcdEncode imsi) :: tbcdEncode imsi)
        (tbcdEncode ms) tail (6 + (tbcdEncode imsi).length + 1) (.ieInvalidLength 192) (by omega) (by simp; omega)
      simp only [List.cons_append] at e2
      enc_simp [marshal, lv, Option.isSome]
      var_simp [unmarshal, ht, hi, k1, r1, r2, e2]
    · simp only at hl
      obtain ⟨hd2, hn2⟩ := hm ms rfl
      have hb2 := tbcd_length _ hd2
      have r2 := tbcd_roundtrip _ hd2
      obtain ⟨hd3, hn3⟩ := he im rfl
      have hb3 := tbcd_length _ hd3
      have r3 := tbcd_roundtrip _ hd3
      have e2 := rdStr_ok (192 :: hi16 length :: lo16 length :: ins :: 3 :: lenU8 (tbcdEncode imsi) :: tbcdEncode imsi)
        (tbcdEncode ms) (lenU8 (tbcdEncode im) :: (tbcdEncode im ++ tail)) (6 + (tbcdEncode imsi).length + 1) (.ieInvalidLength 192) (by omega) (by simp; omega)
      have e3 := rdStr_ok (192 :: hi16 length :: lo16 length :: ins :: 3 :: lenU8 (tbcdEncode imsi) ::
          (tbcdEncode imsi ++ lenU8 (tbcdEncode ms) :: tbcdEncode ms))
        (tbcdEncode im) tail (6 + (tbcdEncode imsi).length + 1 + (tbcdEncode ms).length + 1) (.ieInvalidLength 192) (by omega) (by simp; omega)
      simp only [List.cons_append, List.append_assoc] at e2 e3
      enc_simp [marshal, lv, Option.isSome]
      var_simp [unmarshal, ht, hi, k1, r1, r2, r3, e2, e3]

theorem len_ok : LenOk WF marshal len := by
  intro m x h
  obtain ⟨t, length, ins, imsi, msisdn, imei⟩ := x
  obtain ⟨ht, hl, hi, hd, hm, he, hn⟩ := h
  simp only at ht hl hi hd hm he hn
  have hbi := tbcd_length _ hd
  rcases msisdn with _ | ms <;> rcases imei with _ | im <;> simp only at hl
  · simp only [marshal, lv, tliv_eq, len, ieLenU, hl, List.length_cons, List.length_append, List.length_nil, hbi]
    try (congr 1; omega)
  · have h2 := tbcd_length _ (he im rfl).1
    simp only [marshal, lv, tliv_eq, len, ieLenU, hl, List.length_cons, List.length_append, List.length_nil, hbi, h2]
    try (congr 1; omega)
  · have h2 := tbcd_length _ (hm ms rfl).1
    simp only [marshal, lv, tliv_eq, len, ieLenU, hl, List.length_cons, List.length_append, List.length_nil, hbi, h2]
    try (congr 1; omega)
  · have h2 := tbcd_length _ (hm ms rfl).1
    have h3 := tbcd_length _ (he im rfl).1
    simp only [marshal, lv, tliv_eq, len, ieLenU, hl, List.length_cons, List.length_append, List.length_nil, hbi, h2, h3]
    try (congr 1; omega)

theorem safe : LooseSafe (fun b => 6 + (b.getD 5 0).toNat ≤ b.length) unmarshal len := by
  intro m b hb hc
  unfold declLen at *
  safe_simp [unmarshal, len, rdStr]
  safe_fin

end RemoteUserId

/-- `SecondaryRatUsageDataReport` (secondaryratudr.rs:21-34). -/
structure SecondaryRatUsageDataReport where
  t : UInt8
  length : UInt16
  ins : UInt8
  irsgw : Bool
  irpgw : Bool
  rat_type : UInt8
  ebi : UInt8
  start_timestamp : UInt32
  end_timestamp : UInt32
  usg_data_dl : UInt64
  usg_data_ul : UInt64
  second_rat_dur_tansfer : Option Bytes
deriving DecidableEq, Repr

namespace SecondaryRatUsageDataReport

/-- The flag octet (secondaryratudr.rs:67-71). -/
def flags (t irsgw irpgw : Bool) : UInt8 :=
  if t then (0x04 : UInt8) ||| (b2u irsgw <<< 1) ||| b2u irpgw else (b2u irsgw <<< 1) ||| b2u irpgw

theorem flags_dec : ∀ t a b : Bool, (flags t a b &&& 0x04 = 0x04 ↔ t = true) ∧
    (flags t a b &&& 0x03 == 2 || flags t a b &&& 0x03 == 3) = a ∧
    (flags t a b &&& 0x03 == 1 || flags t a b &&& 0x03 == 3) = b := by decide +kernel

/-- `marshal` (secondaryratudr.rs:62-85). -/
def marshal (x : SecondaryRatUsageDataReport) : Bytes :=
  tliv 201 x.length x.ins <|
    [flags x.second_rat_dur_tansfer.isSome x.irsgw x.irpgw, x.rat_type, x.ebi] ++ be32 x.start_timestamp ++
      be32 x.end_timestamp ++ be64 x.usg_data_dl ++ be64 x.usg_data_ul ++
      (match x.second_rat_dur_tansfer with | some i => [lenU8 i] ++ i | none => [])

/-- `unmarshal` (secondaryratudr.rs:87-127). -/
def unmarshal (_m : Mode) (b : Bytes) : R Err SecondaryRatUsageDataReport := do
  if 31 ≤ b.length then
    let length ← rd16 b 1
    let ins ← rd b 3
    let f ← rd b 4
    let rat_type ← rd b 5
    let ebi ← rd b 6
    let start_timestamp ← rd32 b 7
    let end_timestamp ← rd32 b 11
    let usg_data_dl ← rd64 b 15
    let usg_data_ul ← rd64 b 23
    let irsgw := f &&& 0x03 == 2 || f &&& 0x03 == 3
    let irpgw := f &&& 0x03 == 1 || f &&& 0x03 == 3
    if f &&& 0x04 = 0x04 then
      if 31 < b.length then
        let l ← rd b 31
        if 31 + l.toNat < b.length then
          let s ← sl b 32 (32 + l.toNat)
          return { t := 201, length, ins := ins &&& 0x0f, irsgw, irpgw, rat_type, ebi := ebi &&& 0x0f,
                   start_timestamp, end_timestamp, usg_data_dl, usg_data_ul, second_rat_dur_tansfer := some s }
        else .err (.ieIncorrect 201)
      else .err (.ieIncorrect 201)
    else
      return { t := 201, length, ins := ins &&& 0x0f, irsgw, irpgw, rat_type, ebi := ebi &&& 0x0f,
               start_timestamp, end_timestamp, usg_data_dl, usg_data_ul, second_rat_dur_tansfer := none }
  else .err (.ieInvalidLength 201)

/-- `len` (secondaryratudr.rs:129-131). -/
def len (_m : Mode) (x : SecondaryRatUsageDataReport) : R Err Nat := ieLenU x.length

/-- Field values that the encoding of a `SecondaryRatUsageDataReport` can represent. -/
def WF (x : SecondaryRatUsageDataReport) : Prop :=
  x.t = 201 ∧
  x.length.toNat = 27 + (match x.second_rat_dur_tansfer with | some i => 1 + i.length | none => 0) ∧
  x.ins < 16 ∧
  x.ebi < 16 ∧
  (∀ i ∈ x.second_rat_dur_tansfer, i.length < 256)

instance (x : SecondaryRatUsageDataReport) : Decidable x.WF := by unfold WF; infer_instance

theorem rt : RoundTrips WF marshal unmarshal := by
  intro m x tail h
  obtain ⟨t, length, ins, irsgw, irpgw, rat_type, ebi, start_timestamp, end_timestamp, usg_data_dl, usg_data_ul, second_rat_dur_tansfer⟩ := x
  obtain ⟨ht, hl, hi, he, hs⟩ := h
  simp only at ht hl hi he hs
  rcases second_rat_dur_tansfer with _ | s
  · obtain ⟨f1, f2, f3⟩ := flags_dec false irsgw irpgw
    simp only at hl
    enc_simp [marshal, Option.isSome]
    generalize flags false irsgw irpgw = v at *
    rt_simp [unmarshal, ht, hi, f1, f2, f3, he]
  · obtain ⟨f1, f2, f3⟩ := flags_dec true irsgw irpgw
    have hk := lenU8_toNat (hs s rfl)
    simp only at hl
    enc_simp [marshal, Option.isSome]
    generalize flags true irsgw irpgw = v at *
    var_simp [unmarshal, ht, hi, f1, f2, f3, he, hk]

theorem len_ok : LenOk WF marshal len := by
  intro m x h
  obtain ⟨t, length, ins, irsgw, irpgw, rat_type, ebi, start_timestamp, end_timestamp, usg_data_dl, usg_data_ul, second_rat_dur_tansfer⟩ := x
  obtain ⟨ht, hl, hi, he, hs⟩ := h
  simp only at ht hl hi he hs
  rcases second_rat_dur_tansfer with _ | s <;> simp only at hl <;>
    simp [marshal, tliv_eq, len, ieLenU, hl, be32, be64] <;> omega

theorem safe : LooseSafe (fun _ => True) unmarshal len := by
  intro m b hb hc
  unfold declLen at *
  safe_simp [unmarshal, len]
  safe_fin

end SecondaryRatUsageDataReport

/-- `S1udf` (s1udf.rs:17-24). -/
structure S1udf where
  t : UInt8
  length : UInt16
  ins : UInt8
  ebi : UInt8
  sgw_ip : IpAddr
  sgw_s1u_teid : UInt32
deriving DecidableEq, Repr

namespace S1udf

/-- `marshal` (s1udf.rs:46-65). -/
def marshal (x : S1udf) : Bytes :=
  tliv 91 x.length x.ins <|
    [x.ebi &&& 0x0f] ++
      (match x.sgw_ip with
        | .V4 i => [0x04] ++ be32 i
        | .V6 i => [0x10] ++ i.octets) ++ be32 x.sgw_s1u_teid

/-- `unmarshal` (s1udf.rs:67-104). -/
def unmarshal (m : Mode) (b : Bytes) : R Err S1udf := do
  if 4 ≤ b.length then
    let length ← rd16 b 1
    let ins ← rd b 3
    if ← checkTliv m length b then
      let ebi ← rd b 4
      let k ← rd b 5
      if k = 0x04 then
        let v4 ← rd32 b 6
        let teid ← rd32 b 10
        return { t := 91, length, ins := ins &&& 0x0f, ebi := ebi &&& 0x0f, sgw_ip := .V4 v4, sgw_s1u_teid := teid }
      else if k = 0x10 then
        if 0x16 ≤ b.length then
          let v6 ← rdIp6 b 6
          let teid ← rd32 b 22
          return { t := 91, length, ins := ins &&& 0x0f, ebi := ebi &&& 0x0f, sgw_ip := .V6 v6, sgw_s1u_teid := teid }
        else .err (.ieInvalidLength 91)
      else .err (.ieIncorrect 91)
    else .err (.ieInvalidLength 91)
  else .err (.ieInvalidLength 91)

/-- `len` (s1udf.rs:106-108). -/
def len (_m : Mode) (x : S1udf) : R Err Nat := ieLenU x.length

/-- Field values that the encoding of a `S1udf` can represent. -/
def WF (x : S1udf) : Prop := x.t = 91 ∧ x.length.toNat = 6 + x.sgw_ip.size ∧ x.ins < 16 ∧ x.ebi < 16

instance (x : S1udf) : Decidable x.WF := by unfold WF; infer_instance

theorem rt : RoundTrips WF marshal unmarshal := by
  intro m x tail h
  obtain ⟨t, length, ins, ebi, sgw_ip, sgw_s1u_teid⟩ := x
  obtain ⟨ht, hl, hi, he⟩ := h
  simp only at ht hl hi he
  cases sgw_ip <;> simp only [IpAddr.size, Nat.reduceAdd] at hl <;> (enc_simp [marshal]; rtv_simp [unmarshal, ht, hi, he])

theorem len_ok : LenOk WF marshal len := by
  intro m x h
  obtain ⟨t, length, ins, ebi, sgw_ip, sgw_s1u_teid⟩ := x
  obtain ⟨ht, hl, hi, he⟩ := h
  simp only at ht hl hi he
  cases sgw_ip <;> simp only [IpAddr.size, Nat.reduceAdd] at hl <;> simp [marshal, tliv_eq, len, ieLenU, hl, Ip6.octets, be32, be64]

theorem safe : SafeIf (fun b => 6 ≤ b.length ∧ (b.getD 5 0 = 0x04 → 14 ≤ b.length) ∧ (b.getD 5 0 = 0x10 → 26 ≤ b.length)) unmarshal len := by
  intro m b hb hc
  unfold declLen at *
  try simp only at hc
  safe_simp [unmarshal, len, Safe_checkTliv hb]
  obtain ⟨h6, h14, h26⟩ := hc
  by_cases k4 : b.getD 5 0 = 0x04
  · have := h14 k4
    simp only [k4]; safe_fin
  · by_cases k10 : b.getD 5 0 = 0x10
    · have := h26 k10
      simp only [k10]; safe_fin
    · simp only [k4, k10, false_implies]; safe_fin

end S1udf

/-- `S103pdf` (s103pdf.rs:17-24). -/
structure S103pdf where
  t : UInt8
  length : UInt16
  ins : UInt8
  hsgw_ip : IpAddr
  gre_key : UInt32
  eps_bearer_ids : Bytes
deriving DecidableEq, Repr

namespace S103pdf

/-- `marshal` (s103pdf.rs:46-66). -/
def marshal (x : S103pdf) : Bytes :=
  tliv 90 x.length x.ins <|
    (match x.hsgw_ip with
        | .V4 i => [0x04] ++ be32 i
        | .V6 i => [0x10] ++ i.octets) ++ be32 x.gre_key ++ [lenU8 x.eps_bearer_ids] ++ x.eps_bearer_ids

/-- `unmarshal` (s103pdf.rs:68-116). -/
def unmarshal (m : Mode) (b : Bytes) : R Err S103pdf := do
  if 4 ≤ b.length then
    let length ← rd16 b 1
    let ins ← rd b 3
    if ← checkTliv m length b then
      let k ← rd b 4
      if k = 0x04 then
        let v4 ← rd32 b 5
        let gre_key ← rd32 b 9
        let n ← rd b 13
        if 0x0e + n.toNat ≤ b.length then
          let s ← sl b 14 (14 + n.toNat)
          return { t := 90, length, ins := ins &&& 0x0f, hsgw_ip := .V4 v4, gre_key, eps_bearer_ids := s }
        else .err (.ieInvalidLength 90)
      else if k = 0x10 then
        if 25 ≤ b.length then
          let v6 ← rdIp6 b 5
          let gre_key ← rd32 b 21
          let n ← rd b 25
          if 25 + n.toNat ≤ b.length then
            let s ← sl b 26 (26 + n.toNat)
            return { t := 90, length, ins := ins &&& 0x0f, hsgw_ip := .V6 v6, gre_key, eps_bearer_ids := s }
          else .err (.ieInvalidLength 90)
        else .err (.ieInvalidLength 90)
      else .err (.ieIncorrect 90)
    else .err (.ieInvalidLength 90)
  else .err (.ieInvalidLength 90)

/-- `len` (s103pdf.rs:118-120). -/
def len (_m : Mode) (x : S103pdf) : R Err Nat := ieLenU x.length

/-- Field values that the encoding of a `S103pdf` can represent. -/
def WF (x : S103pdf) : Prop :=
  x.t = 90 ∧
  x.length.toNat = 6 + x.hsgw_ip.size + x.eps_bearer_ids.length ∧
  x.ins < 16 ∧
  x.eps_bearer_ids.length < 256

instance (x : S103pdf) : Decidable x.WF := by unfold WF; infer_instance

theorem rt : RoundTrips WF marshal unmarshal := by
  intro m x tail h
  obtain ⟨t, length, ins, hsgw_ip, gre_key, eps_bearer_ids⟩ := x
  obtain ⟨ht, hl, hi, he⟩ := h
  simp only at ht hl hi he
  have hk := lenU8_toNat he
  cases hsgw_ip <;> simp only [IpAddr.size, Nat.reduceAdd] at hl <;> (enc_simp [marshal]; var_simp [unmarshal, ht, hi, hk])

theorem len_ok : LenOk WF marshal len := by
  intro m x h
  obtain ⟨t, length, ins, hsgw_ip, gre_key, eps_bearer_ids⟩ := x
  obtain ⟨ht, hl, hi, he⟩ := h
  simp only at ht hl hi he
  cases hsgw_ip <;> simp only [IpAddr.size, Nat.reduceAdd] at hl <;> simp [marshal, tliv_eq, len, ieLenU, hl, Ip6.octets, be32, be64] <;> omega

theorem safe : SafeIf (fun b => 5 ≤ b.length ∧ (b.getD 4 0 = 0x04 → 14 ≤ b.length) ∧ (b.getD 4 0 = 0x10 → 26 + (b.getD 25 0).toNat ≤ b.length)) unmarshal len := by
  intro m b hb hc
  unfold declLen at *
  try simp only at hc
  safe_simp [unmarshal, len, Safe_checkTliv hb]
  obtain ⟨h6, h14, h26⟩ := hc
  by_cases k4 : b.getD 4 0 = 0x04
  · have := h14 k4
    simp only [k4]; safe_fin
  · by_cases k10 : b.getD 4 0 = 0x10
    · have := h26 k10
      simp only [k10]; safe_fin
    · simp only [k4, k10, false_implies]; safe_fin

end S103pdf

/-- `MonitoringEventInformation` (monitoringeventinfo.rs:16-27). -/
structure MonitoringEventInformation where
  t : UInt8
  length : UInt16
  ins : UInt8
  nsui : Bool
  nsur : Bool
  nscf : Bool
  scef_ref_id : UInt32
  scef_id : Str
  rem_nbr_reports : UInt16
  ext_scef_ref_id : Option UInt64
deriving DecidableEq, Repr

namespace MonitoringEventInformation

/-- The octet with the flags and the instance (monitoringeventinfo.rs:57-61). -/
def flags (e nscf nsui nsur : Bool) (ins : UInt8) : UInt8 :=
  (b2u e <<< 7) ||| (b2u nscf <<< 6) ||| (b2u nsui <<< 5) ||| (b2u nsur <<< 4) ||| (ins &&& 0x0f)

theorem flags_dec (e a b c : Bool) (i : UInt8) (h : i < 16) :
    (flags e a b c i &&& 0x80 = 0x80 ↔ e = true) ∧ hasBits (flags e a b c i) 0x40 = a ∧
    hasBits (flags e a b c i) 0x20 = b ∧ hasBits (flags e a b c i) 0x10 = c ∧ flags e a b c i &&& 0x0f = i := by
  have key : ∀ i : UInt8, i < 16 → ∀ e a b c : Bool,
    (flags e a b c i &&& 0x80 = 0x80 ↔ e = true) ∧ hasBits (flags e a b c i) 0x40 = a ∧
    hasBits (flags e a b c i) 0x20 = b ∧ hasBits (flags e a b c i) 0x10 = c ∧ flags e a b c i &&& 0x0f = i := by
    decide +kernel
  exact key i h e a b c

/-- `marshal` (monitoringeventinfo.rs:53-72). -/
def marshal (x : MonitoringEventInformation) : Bytes :=
  tliv 189 x.length (flags x.ext_scef_ref_id.isSome x.nscf x.nsui x.nsur x.ins) <|
    be32 x.scef_ref_id ++ [lenU8 (utf8 x.scef_id)] ++ utf8 x.scef_id ++ be16 x.rem_nbr_reports ++
      (match x.ext_scef_ref_id with | some i => be64 i | none => [])

/-- `unmarshal` (monitoringeventinfo.rs:74-126). -/
def unmarshal (_m : Mode) (b : Bytes) : R Err MonitoringEventInformation := do
  if 9 ≤ b.length then
    let length ← rd16 b 1
    let f ← rd b 3
    let scef_ref_id ← rd32 b 4
    let n ← rd b 8
    if 9 + n.toNat ≤ b.length then
      let s ← sl b 9 (9 + n.toNat)
      let scef_id ← R.ofOption (fromUtf8 s) (Err.ieIncorrect 189)
      if 9 + n.toNat + 2 ≤ b.length then
        let rem_nbr_reports ← rd16 b (9 + n.toNat)
        if f &&& 0x80 = 0x80 then
          if 9 + n.toNat + 2 + 8 ≤ b.length then
            let e ← rd64 b (9 + n.toNat + 2)
            return { t := 189, length, ins := f &&& 0x0f, nsui := hasBits f 0x20, nsur := hasBits f 0x10,
                     nscf := hasBits f 0x40, scef_ref_id, scef_id, rem_nbr_reports, ext_scef_ref_id := some e }
          else .err (.ieInvalidLength 189)
        else
          return { t := 189, length, ins := f &&& 0x0f, nsui := hasBits f 0x20, nsur := hasBits f 0x10,
                   nscf := hasBits f 0x40, scef_ref_id, scef_id, rem_nbr_reports, ext_scef_ref_id := none }
      else .err (.ieInvalidLength 189)
    else .err (.ieInvalidLength 189)
  else .err (.ieInvalidLength 189)

/-- `len` (monitoringeventinfo.rs:128-130). -/
def len (_m : Mode) (x : MonitoringEventInformation) : R Err Nat := ieLenU x.length

/-- Field values that the encoding of a `MonitoringEventInformation` can represent. -/
def WF (x : MonitoringEventInformation) : Prop :=
  x.t = 189 ∧
  x.length.toNat = 7 + (utf8 x.scef_id).length + (if x.ext_scef_ref_id.isSome then 8 else 0) ∧
  x.ins < 16 ∧
  (utf8 x.scef_id).length < 256

instance (x : MonitoringEventInformation) : Decidable x.WF := by unfold WF; infer_instance

theorem rt : RoundTrips WF marshal unmarshal := by
  intro m x tail h
  obtain ⟨t, length, ins, nsui, nsur, nscf, scef_ref_id, scef_id, rem_nbr_reports, ext_scef_ref_id⟩ := x
  obtain ⟨ht, hl, hi, hs⟩ := h
  simp only at ht hl hi hs
  have hk := lenU8_toNat hs
  have hu := fromUtf8_utf8 scef_id
  rcases ext_scef_ref_id with _ | e
  · obtain ⟨f1, f2, f3, f4, f5⟩ := flags_dec false nscf nsui nsur ins hi
    simp only [Option.isSome, if_false, Bool.false_eq_true] at hl
    enc_simp [marshal, Option.isSome]
    generalize flags false nscf nsui nsur ins = v at *
    generalize utf8 scef_id = s at *
    var_simp [unmarshal, ht, f1, f2, f3, f4, f5, hk, hu]
  · obtain ⟨f1, f2, f3, f4, f5⟩ := flags_dec true nscf nsui nsur ins hi
    simp only [Option.isSome, if_true] at hl
    enc_simp [marshal, Option.isSome]
    generalize flags true nscf nsui nsur ins = v at *
    generalize utf8 scef_id = s at *
    var_simp [unmarshal, ht, f1, f2, f3, f4, f5, hk, hu]

theorem len_ok : LenOk WF marshal len := by
  intro m x h
  obtain ⟨t, length, ins, nsui, nsur, nscf, scef_ref_id, scef_id, rem_nbr_reports, ext_scef_ref_id⟩ := x
  obtain ⟨ht, hl, hi, hs⟩ := h
  simp only at ht hl hi hs
  rcases ext_scef_ref_id with _ | e <;> simp only [Option.isSome, if_true, if_false, Bool.false_eq_true] at hl <;>
    simp [marshal, tliv_eq, len, ieLenU, hl, be32, be64, be16] <;> omega

theorem safe : LooseSafe (fun _ => True) unmarshal len := by
  intro m b hb hc
  unfold declLen at *
  safe_simp [unmarshal, len]
  safe_fin

end MonitoringEventInformation

/-- `MonitoringEventExtensionInfo` (monitoringeventextinfo.rs:16-24). -/
structure MonitoringEventExtensionInfo where
  t : UInt8
  length : UInt16
  ins : UInt8
  scef_ref_id : UInt32
  scef_id : Str
  rmplrt : Option UInt32
  ext_scef_ref_id : Option UInt64
deriving DecidableEq, Repr

namespace MonitoringEventExtensionInfo

/-- `marshal` (monitoringeventextinfo.rs:47-65). -/
def marshal (x : MonitoringEventExtensionInfo) : Bytes :=
  tliv 206 x.length x.ins <|
    [(b2u x.ext_scef_ref_id.isSome <<< 1) ||| b2u x.rmplrt.isSome] ++ be32 x.scef_ref_id ++
      [lenU8 (utf8 x.scef_id)] ++ utf8 x.scef_id ++
      (match x.rmplrt with | some i => be24 i | none => []) ++
      (match x.ext_scef_ref_id with | some i => be64 i | none => [])

/-- `unmarshal` (monitoringeventextinfo.rs:67-131). -/
def unmarshal (m : Mode) (b : Bytes) : R Err MonitoringEventExtensionInfo := do
  if 4 ≤ b.length then
    let length ← rd16 b 1
    let ins ← rd b 3
    if ← checkTliv m length b then
      let scef_ref_id ← rd32 b 5
      let n ← rd b 9
      if 9 + n.toNat ≤ b.length then
        let s ← sl b 10 (10 + n.toNat)
        let scef_id ← R.ofOption (fromUtf8 s) (Err.ieIncorrect 206)
        let f ← rd b 4
        let (rmplrt, c) ← (if f &&& 0x01 = 0x01 then
            if 10 + n.toNat + 3 ≤ b.length then do
              let r ← rd24 b (10 + n.toNat)
              pure (some r, 10 + n.toNat + 3)
            else .err (.ieInvalidLength 206)
          else pure (none, 10 + n.toNat))
        if f &&& 0x02 = 0x02 then
          if c + 8 ≤ b.length then
            let e ← rd64 b c
            return { t := 206, length, ins := ins &&& 0x0f, scef_ref_id, scef_id, rmplrt, ext_scef_ref_id := some e }
          else .err (.ieInvalidLength 206)
        else return { t := 206, length, ins := ins &&& 0x0f, scef_ref_id, scef_id, rmplrt, ext_scef_ref_id := none }
      else .err (.ieInvalidLength 206)
    else .err (.ieInvalidLength 206)
  else .err (.ieInvalidLength 206)

/-- `len` (monitoringeventextinfo.rs:133-135). -/
def len (_m : Mode) (x : MonitoringEventExtensionInfo) : R Err Nat := ieLenU x.length

/-- Field values that the encoding of a `MonitoringEventExtensionInfo` can represent. -/
def WF (x : MonitoringEventExtensionInfo) : Prop :=
  x.t = 206 ∧
  x.length.toNat = 6 + (utf8 x.scef_id).length + (if x.rmplrt.isSome then 3 else 0) + (if x.ext_scef_ref_id.isSome then 8 else 0) ∧
  x.ins < 16 ∧
  (utf8 x.scef_id).length < 256 ∧
  (∀ i ∈ x.rmplrt, i.toNat < 16777216)

instance (x : MonitoringEventExtensionInfo) : Decidable x.WF := by unfold WF; infer_instance

theorem rt : RoundTrips WF marshal unmarshal := by
  intro m x tail h
  obtain ⟨t, length, ins, scef_ref_id, scef_id, rmplrt, ext_scef_ref_id⟩ := x
  obtain ⟨ht, hl, hi, hs, h24⟩ := h
  simp only at ht hl hi hs h24
  have hk := lenU8_toNat hs
  have hu := fromUtf8_utf8 scef_id
  rcases ext_scef_ref_id with _ | e <;> rcases rmplrt with _ | r <;>
    simp only [Option.isSome, if_true, if_false, Bool.false_eq_true] at hl
  · enc_simp [marshal, Option.isSome, b2u]
    generalize utf8 scef_id = s at *
    var_simp [unmarshal, ht, hi, hk, hu, b2u]
  · have hr := of24_be (h24 r rfl)
    enc_simp [marshal, Option.isSome, b2u]
    generalize utf8 scef_id = s at *
    var_simp [unmarshal, ht, hi, hk, hu, b2u, hr]
  · enc_simp [marshal, Option.isSome, b2u]
    generalize utf8 scef_id = s at *
    var_simp [unmarshal, ht, hi, hk, hu, b2u]
  · have hr := of24_be (h24 r rfl)
    enc_simp [marshal, Option.isSome, b2u]
    generalize utf8 scef_id = s at *
    var_simp [unmarshal, ht, hi, hk, hu, b2u, hr]

theorem len_ok : LenOk WF marshal len := by
  intro m x h
  obtain ⟨t, length, ins, scef_ref_id, scef_id, rmplrt, ext_scef_ref_id⟩ := x
  obtain ⟨ht, hl, hi, hs, h24⟩ := h
  simp only at ht hl hi hs h24
  rcases ext_scef_ref_id with _ | e <;> rcases rmplrt with _ | r <;>
    simp only [Option.isSome, if_true, if_false, Bool.false_eq_true] at hl <;>
    simp [marshal, tliv_eq, len, ieLenU, hl, be32, be64, be24] <;> omega

theorem safe : SafeIf (fun b => 10 + (b.getD 9 0).toNat ≤ b.length) unmarshal len := by
  intro m b hb hc
  unfold declLen at *
  try simp only at hc
  safe_simp [unmarshal, len, Safe_checkTliv hb]
  safe_fin

end MonitoringEventExtensionInfo

end Gtp.V2
