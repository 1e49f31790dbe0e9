import Verif.BasicLemmas

/-!
# Model of `src/gtpv2/utils.rs` and `src/gtpv1/utils.rs`
-/

namespace Gtp

/-- `char::to_digit(10)` followed by `as u8` (utils.rs:14-15). -/
def toDigit (c : Char) : Option UInt8 :=
  if 48 ≤ c.toNat ∧ c.toNat ≤ 57 then some (UInt8.ofNat (c.toNat - 48)) else none

/-- `char::from_digit(d, 10)` (utils.rs:46). -/
def fromDigit (d : UInt8) : Option Char :=
  if d < 10 then some (Char.ofNat (48 + d.toNat)) else none

/-- `iter().step_by(2).zip(iter().skip(1).step_by(2)).map(|(a,b)| (b << 4) | a)`
(gtpv2/utils.rs:20-25). -/
def packNibbles : List UInt8 → Bytes
  | a :: b :: r => ((b <<< 4) ||| a) :: packNibbles r
  | _ => []

/-- `chr` after the odd-length padding (gtpv2/utils.rs:12-19). -/
def tbcdNibbles (s : Str) : List UInt8 :=
  let chr := s.filterMap toDigit
  if chr.length % 2 ≠ 0 then chr ++ [0x0f] else chr

/-- `tbcd_encode` (gtpv2/utils.rs:11-27, identical gtpv1/utils.rs). -/
def tbcdEncode (s : Str) : Bytes := packNibbles (tbcdNibbles s)

/-- `tbcd_decode` (gtpv2/utils.rs:38-49). -/
def tbcdDecode (b : Bytes) : Str :=
  (b.flatMap fun (x : UInt8) => [x &&& 0x0f, x >>> 4]).filterMap fromDigit

/-- Decimal digits of a number, most significant first (`to_string().chars()`); the fuel is the
number of digits that can occur (5 for a `u16`). -/
def decDigits : Nat → Nat → List UInt8
  | 0, _ => []
  | f + 1, n => if n < 10 then [UInt8.ofNat n] else decDigits f (n / 10) ++ [UInt8.ofNat (n % 10)]

/-- `to_digits` for a `u16` (gtpv2/utils.rs:178-189): at least two digits. -/
def toDigits (i : UInt16) : List UInt8 :=
  let r := decDigits 5 i.toNat
  if r.length = 1 then 0 :: r else r

/-- `while v.len() < 3 { v.insert(0, 0) }` (gtpv2/utils.rs:62-64). -/
def padTo3 (l : List UInt8) : List UInt8 := List.replicate (3 - l.length) 0 ++ l

/-- `mcc_mnc_encode` with its indexing operations (gtpv2/utils.rs:60-81). -/
def mccMncEncodeR {ε : Type} (mcc mnc : UInt16) (three : Bool) : R ε Bytes := do
  let mccd := padTo3 (toDigits mcc)
  let three' := three || decide (mnc ≥ 100)
  let mncd0 := toDigits mnc
  let mncd := if three' = true ∧ mncd0.length < 3 then 0 :: mncd0 else mncd0
  let c0 ← rd mccd 0
  let c1 ← rd mccd 1
  let c2 ← rd mccd 2
  let o1 ← if three' then (do let n2 ← rd mncd 2; pure ((n2 <<< 4) ||| c2))
           else pure (((0x0f : UInt8) <<< 4) ||| c2)
  let n0 ← rd mncd 0
  let n1 ← rd mncd 1
  return [(c1 <<< 4) ||| c0, o1, (n1 <<< 4) ||| n0]

/-- Value of `mccMncEncodeR`, which never panics (`mccMncEncodeR_ok`). -/
def mccMncEncode (mcc mnc : UInt16) (three : Bool) : Bytes :=
  match (mccMncEncodeR mcc mnc three : R Unit Bytes) with
  | .ok b => b
  | _ => []

/-- `digits.flat_map(from_digit).collect::<String>().parse::<u16>()`, 0 when it fails, for at most
three digits (gtpv2/utils.rs:127-143); digits ≥ 10 are dropped, the empty string does not parse. -/
def digitsVal (ds : List UInt8) : UInt16 :=
  UInt16.ofNat ((ds.filter (· < 10)).foldl (fun acc d => acc * 10 + d.toNat) 0)

/-- `mcc_mnc_decode` on three octets (gtpv2/utils.rs:114-145). -/
def mccMncDecode3 (b0 b1 b2 : UInt8) : UInt16 × UInt16 × Bool :=
  let third := b1 >>> 4
  let three := decide (third ≠ 0x0f)
  let mncd := [b2 &&& 0x0f, b2 >>> 4] ++ (if three then [third] else [])
  (digitsVal [b0 &&& 0x0f, b0 >>> 4, b1 &&& 0x0f], digitsVal mncd, three)

/-- `mcc_mnc_decode(&buffer[..])`: indexes 0, 1 and 2 (gtpv2/utils.rs:114-145). -/
def mccMncDecode {ε : Type} (b : Bytes) : R ε (UInt16 × UInt16 × Bool) := do
  let b0 ← rd b 0
  let b1 ← rd b 1
  let b2 ← rd b 2
  return mccMncDecode3 b0 b1 b2

/-- Replace octets `i` and `i+1` by the big-endian `x`. -/
def put16 (b : Bytes) (i : Nat) (x : UInt16) : Bytes := (b.set i (hi16 x)).set (i + 1) (lo16 x)

/-- `set_msg_length` (gtpv2/utils.rs:193-197); callers always pass at least 8 octets. -/
def setMsgLength (b : Bytes) : Bytes := put16 b 2 (UInt16.ofNat (b.length - 4))

/-- `set_tliv_ie_length` (gtpv2/utils.rs:201-205); callers always pass at least 4 octets. -/
def setTlivIeLength (b : Bytes) : Bytes := put16 b 1 (UInt16.ofNat (b.length - 4))

/-- `check_tliv_ie_buffer` (gtpv2/utils.rs:209-215): the `u16` addition overflows for lengths
≥ 65532. -/
def checkTliv {ε : Type} (m : Mode) (length : UInt16) (b : Bytes) : R ε Bool :=
  if length = 0 then .ok false
  else do
    let l ← add16 m length 4
    return decide (l.toNat ≤ b.length)

/-- gtpv1 `set_msg_length` (gtpv1/utils.rs): length after the 8-octet header. -/
def setMsgLength1 (b : Bytes) : Bytes := put16 b 2 (UInt16.ofNat (b.length - 8))

/-- gtpv1 `set_tlv_ie_length` (gtpv1/utils.rs). -/
def setTlvIeLength (b : Bytes) : Bytes := put16 b 1 (UInt16.ofNat (b.length - 3))

/-- gtpv1 `check_tlv_ie_buffer` (gtpv1/utils.rs). -/
def checkTlv {ε : Type} (m : Mode) (length : UInt16) (b : Bytes) : R ε Bool :=
  if length = 0 then .ok false
  else do
    let l ← add16 m length 3
    return decide (l.toNat ≤ b.length)

end Gtp
