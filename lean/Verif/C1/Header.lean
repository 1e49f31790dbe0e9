import Verif.C1.ExtHdr

/-!
# Model of `src/gtpv1/gtpc/header.rs`
-/

namespace Gtp.C1
open Gtp.V1

/-- `Gtpv1Header` (gtpc/header.rs:88-95). -/
structure Header where
  msgtype : UInt8
  length : UInt16
  teid : UInt32
  sqn : Option UInt16
  npdu : Option UInt8
  exts : Option (List ExtHdr)
deriving DecidableEq, Repr

namespace Header

/-- `impl Default for Gtpv1Header` (gtpc/header.rs:97-108). -/
def dflt : Header := ⟨0, 8, 0, none, none, none⟩

/-- `construct_flags` (gtpc/header.rs:189-201). -/
def flags (h : Header) : UInt8 :=
  let f : UInt8 := if h.exts.isSome then 0x04 else 0
  let f := if h.sqn.isSome then f ||| 0x02 else f
  let f := if h.npdu.isSome then f ||| 0x01 else f
  f ||| 0x30

/-- `marshal_ext_hdr` (gtpc/header.rs:203-216). -/
def marshalExts (h : Header) : Bytes :=
  match h.exts with
  | some [] => [0]
  | some l => l.flatMap ExtHdr.marshal ++ [0]
  | none => [0]

/-- `Gtpv1Header::marshal` (gtpc/header.rs:111-130). -/
def marshal (h : Header) : Bytes :=
  [h.flags, h.msgtype] ++ be16 h.length ++ be32 h.teid ++
  (if h.sqn.isNone ∧ h.exts.isNone ∧ h.npdu.isNone then []
   else be16 (h.sqn.getD 0) ++ [h.npdu.getD 0] ++
     (if h.exts.isSome then h.marshalExts else [0]))

/-- The loop of `unmarshal_ext_hdr` (gtpc/header.rs:218-234) from the position where `b` starts;
`fuel` bounds the number of iterations. -/
def extLoop (m : Mode) : Nat → Bytes → R Err (List ExtHdr)
  | 0, _ => .diverge
  | fuel + 1, b => do
    let i ← ExtHdr.unmarshal m b
    if i = .noMore then return []
    else
      let n ← i.len m
      let b' ← slFrom b n
      let rest ← extLoop m fuel b'
      return i :: rest

/-- `unmarshal_ext_hdr` (gtpc/header.rs:218-234).  Every iteration that makes progress consumes at
least one octet, so running out of this fuel means an iteration without progress, that is, the Rust
loop never ends. -/
def unmarshalExts (m : Mode) (b : Bytes) : R Err (List ExtHdr) := extLoop m (b.length + 1) b

/-- The sequence number (gtpc/header.rs:162-167); `s` is the flag S. -/
def rdSqn (s : UInt8) (b : Bytes) : R Err (Option UInt16) :=
  if s = 1 then
    if b.length - 8 < 2 then .err .headerInvalidLength
    else rd16 b 8 >>= fun v => .ok (some v)
  else .ok none

/-- The N-PDU number (gtpc/header.rs:169-174); `pn` is the flag PN. -/
def rdNpdu (pn : UInt8) (b : Bytes) : R Err (Option UInt8) :=
  if pn = 1 then
    if b.length - 8 < 3 then .err .headerInvalidLength
    else rd b 10 >>= fun v => .ok (some v)
  else .ok none

/-- The extension headers (gtpc/header.rs:176-182); `e` is the flag E. -/
def rdExts (m : Mode) (e : UInt8) (b : Bytes) : R Err (Option (List ExtHdr)) :=
  if e = 1 then
    if b.length - 8 < 4 then .err .headerInvalidLength
    else slFrom b 11 >>= fun c => unmarshalExts m c >>= fun v => .ok (some v)
  else .ok none

/-- `Gtpv1Header::unmarshal` (gtpc/header.rs:132-185). -/
def unmarshal (m : Mode) (b : Bytes) : R Err Header := do
  if b.length < 8 then .err .headerInvalidLength
  else
    let b0 ← rd b 0
    if b0 >>> 5 = 1 ∧ (b0 >>> 4) &&& 1 = 1 then
      let msgtype ← rd b 1
      let length ← rd16 b 2
      let teid ← rd32 b 4
      if b0 &&& 7 = 0 then return ⟨msgtype, length, teid, none, none, none⟩
      else
        let sqn ← rdSqn ((b0 >>> 1) &&& 1) b
        let npdu ← rdNpdu (b0 &&& 1) b
        let exts ← rdExts m ((b0 >>> 2) &&& 1) b
        return ⟨msgtype, length, teid, sqn, npdu, exts⟩
    else .err .headerVersionNotSupported

/-- `.into_iter().map(|x| x.len()).sum::<usize>()` (e.g. gtpc/header.rs:246-252). -/
def extsLen (m : Mode) : List ExtHdr → R Err Nat
  | [] => .ok 0
  | i :: r => do
    let n ← i.len m
    let s ← extsLen m r
    return n + s

/-- `Gtpv1Header::len` (gtpc/header.rs:236-299): 8, or 12 plus the extension headers. -/
def len (m : Mode) (h : Header) : R Err Nat :=
  match h.sqn, h.npdu, h.exts with
  | none, none, none => .ok 8
  | _, _, none => .ok (8 + 2 + 1 + 1)
  | _, _, some x => do
    let n ← extsLen m x
    return 8 + 2 + 1 + n + 1

/-- `Gtpv1Header::is_empty` (gtpc/header.rs:301-308). -/
def isEmpty (h : Header) : Bool :=
  h.msgtype == 0 && h.length == 8 && h.teid == 0 && h.sqn.isNone && h.npdu.isNone && h.exts.isNone

end Header

end Gtp.C1
