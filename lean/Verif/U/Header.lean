import Verif.U.ExtHdr

/-!
# Model of `Gtpv1Header` in `src/gtpv1/gtpu/header.rs`
-/

namespace Gtp.U
open Gtp.V1

/-- `Gtpv1Header` (gtpu/header.rs:120-128). -/
structure Header where
  msgtype : UInt8
  length : UInt16
  teid : UInt32
  sqn : Option UInt16
  npdu : Option UInt8
  exts : Option (List ExtHdr)
deriving DecidableEq, Repr

namespace Header

/-- `Gtpv1Header::default` (gtpu/header.rs:130-141) with the message type of a message
(`..Default::default()` in each message's `Default`). -/
def default (t : UInt8) : Header := ⟨t, 8, 0, none, none, none⟩

/-- `construct_flags` (gtpu/header.rs:304-316). -/
def flags (h : Header) : UInt8 :=
  let f : UInt8 := if h.exts.isSome then 0x04 else 0
  let f := if h.sqn.isSome then f ||| 0x02 else f
  let f := if h.npdu.isSome then f ||| 0x01 else f
  f ||| 0x30

/-- `marshal_ext_hdr` (gtpu/header.rs:318-331). -/
def marshalExts (h : Header) : Bytes :=
  match h.exts with
  | some (i :: r) => (i :: r).flatMap ExtHdr.marshal ++ [0]
  | some [] => [0]
  | none => [0]

/-- `Gtpv1Header::marshal` (gtpu/header.rs:144-191): the octets appended to the buffer. -/
def marshal (h : Header) : Bytes :=
  [h.flags, h.msgtype] ++ be16 h.length ++ be32 h.teid ++
  (match h.sqn, h.npdu, h.exts with
   | some s, some n, some _ => be16 s ++ [n] ++ h.marshalExts
   | some s, some n, none => be16 s ++ [n] ++ [0]
   | some s, none, none => be16 s ++ [0] ++ [0]
   | some s, none, some _ => be16 s ++ [0] ++ h.marshalExts
   | none, none, none => []
   | none, none, some _ => [0, 0, 0] ++ h.marshalExts
   | none, some n, some _ => [0, 0] ++ [n] ++ h.marshalExts
   | none, some n, none => [0, 0] ++ [n] ++ [0])

/-- The loop of `unmarshal_ext_hdr` (gtpu/header.rs:333-349) from the position where `b` starts;
`fuel` bounds the number of iterations. -/
def extLoop (m : Mode) : Nat → Bytes → R Err (List ExtHdr)
  | 0, _ => .diverge
  | fuel + 1, b => do
    let i ← ExtHdr.unmarshal m b
    if i = .noMore then return []
    else
      let n ← i.len m
      let b' ← slFrom b n
      let rest ← extLoop m fuel b'
      return i :: rest

/-- `unmarshal_ext_hdr` (gtpu/header.rs:333-349).  Every iteration that makes progress consumes at
least one octet, so running out of this fuel means an iteration without progress, that is, the Rust
loop never ends. -/
def unmarshalExts (m : Mode) (b : Bytes) : R Err (List ExtHdr) := extLoop m (b.length + 1) b

/-- `Gtpv1Header::unmarshal` (gtpu/header.rs:193-300).  The arm `_ => ()` (line 292) of the match on
three masked bits is unreachable. -/
def unmarshal (m : Mode) (b : Bytes) : R Err Header := do
  if 8 ≤ b.length then
    let b0 ← rd b 0
    if b0 >>> 5 = 1 ∧ (b0 &&& 0x10) >>> 4 = 1 then
      let msgtype ← rd b 1
      let length ← rd16 b 2
      if length = 0 then .err .headerInvalidLength
      else
        let teid ← rd32 b 4
        let s := decide ((b0 &&& 0x02) >>> 1 = 1)
        let pn := decide (b0 &&& 0x01 = 1)
        let e := decide ((b0 &&& 0x04) >>> 2 = 1)
        if s = false ∧ pn = false ∧ e = false then
          return ⟨msgtype, length, teid, none, none, none⟩
        else if 4 ≤ b.length - 8 then
          let sqn ← rd16 b 8
          let n ← rd b 10
          let chain ← slFrom b 11
          match s, pn, e with
          | true, true, true =>
            let x ← unmarshalExts m chain
            return ⟨msgtype, length, teid, some sqn, some n, some x⟩
          | true, true, false => return ⟨msgtype, length, teid, some sqn, some n, none⟩
          | true, false, false => return ⟨msgtype, length, teid, some sqn, none, none⟩
          | true, false, true =>
            let x ← unmarshalExts m chain
            return ⟨msgtype, length, teid, some sqn, none, some x⟩
          | _, _, _ =>
            let x ← unmarshalExts m chain
            return ⟨msgtype, length, teid, some sqn, some n, some x⟩
        else .err .headerInvalidLength
    else .err .headerVersionNotSupported
  else .err .headerInvalidLength

/-- `.into_iter().map(|x| x.len()).sum::<usize>()` (e.g. gtpu/header.rs:366). -/
def extsLen (m : Mode) : List ExtHdr → R Err Nat
  | [] => .ok 0
  | i :: r => do
    let n ← i.len m
    let s ← extsLen m r
    return n + s

/-- `get_header_size` (gtpu/header.rs:351-420): 8, or 12 plus the extension headers. -/
def size (m : Mode) (h : Header) : R Err Nat :=
  match h.sqn, h.npdu, h.exts with
  | none, none, none => .ok 8
  | _, _, none => .ok (8 + 2 + 1 + 1)
  | _, _, some x => do
    let n ← extsLen m x
    return 8 + 2 + 1 + n + 1

end Header

end Gtp.U
