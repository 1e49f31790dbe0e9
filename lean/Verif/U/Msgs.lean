import Verif.U.Ies

/-!
# Model of `src/gtpv1/gtpu/messages/*.rs`

`marshalInto buf x` is the contents of the caller's buffer after `x.marshal(&mut buf)`; `set_length`
(gtpv1/utils.rs:198-202) patches octets 2 and 3 of the whole buffer.
-/

namespace Gtp.U
open Gtp.V1

/-- `header.length + 8` in `u16` (gpdu.rs:49, errorindication.rs:61,
supportedexthdrnotification.rs:54). -/
def len8 (m : Mode) (length : UInt16) : R Err Nat := do
  let l ← add16 m length 8
  return l.toNat

/-- `match Gtpv1Header::unmarshal(buffer) { Ok(i) => .., Err(j) => return Err(j) }` and the check of
the message type, common to all messages. -/
def readHeader (m : Mode) (ty : UInt8) (b : Bytes) : R Err Header := do
  let h ← Header.unmarshal m b
  if h.msgtype ≠ ty then .err .messageIncorrectMessageType
  else return h

/-- `if let Ok(i) = PrivateExtension::unmarshal(..) { private_ext = Some(i) }`: errors are dropped,
a panic is not. -/
def optPrivate (m : Mode) (b : Bytes) : R Err (Option PrivateExtension) :=
  match PrivateExtension.unmarshal m b with
  | .ok i => .ok (some i)
  | .err _ => .ok none
  | .panic => .panic
  | .diverge => .diverge

/-- Octets of an optional private extension. -/
def privOctets : Option PrivateExtension → Bytes
  | some i => i.marshal
  | none => []

/-- `Gpdu` (gpdu.rs:13-16). -/
structure Gpdu where
  header : Header
  tpdu : Bytes
deriving DecidableEq, Repr

namespace Gpdu
/-- `Gpdu::marshal` (gpdu.rs:32-36). -/
def marshalInto (buf : Bytes) (x : Gpdu) : Bytes :=
  setMsgLength1 (buf ++ x.header.marshal ++ x.tpdu)
/-- `Gpdu::unmarshal` (gpdu.rs:38-57). -/
def unmarshal (m : Mode) (b : Bytes) : R Err Gpdu := do
  let h ← readHeader m 255 b
  let n ← len8 m h.length
  if n ≤ b.length then
    let s ← h.size m
    let v ← sl b s n
    return ⟨h, v⟩
  else .err .messageLengthError
end Gpdu

/-- `EndMarker` (endmarker.rs:14-17). -/
structure EndMarker where
  header : Header
  priv : Option PrivateExtension
deriving DecidableEq, Repr

namespace EndMarker
/-- `EndMarker::marshal` (endmarker.rs:33-41). -/
def marshalInto (buf : Bytes) (x : EndMarker) : Bytes :=
  setMsgLength1 (buf ++ x.header.marshal ++ privOctets x.priv)
/-- `EndMarker::unmarshal` (endmarker.rs:43-61). -/
def unmarshal (m : Mode) (b : Bytes) : R Err EndMarker := do
  let h ← readHeader m 254 b
  if h.length.toNat < b.length then
    let s ← h.size m
    let r ← slFrom b s
    let p ← optPrivate m r
    return ⟨h, p⟩
  else return ⟨h, none⟩
end EndMarker

/-- `EchoRequest` (echoreq.rs:14-17). -/
structure EchoRequest where
  header : Header
  priv : Option PrivateExtension
deriving DecidableEq, Repr

namespace EchoRequest
/-- `EchoRequest::marshal` (echoreq.rs:33-41). -/
def marshalInto (buf : Bytes) (x : EchoRequest) : Bytes :=
  setMsgLength1 (buf ++ x.header.marshal ++ privOctets x.priv)
/-- `EchoRequest::unmarshal` (echoreq.rs:43-61). -/
def unmarshal (m : Mode) (b : Bytes) : R Err EchoRequest := do
  let h ← readHeader m 1 b
  if h.length.toNat < b.length then
    let s ← h.size m
    let r ← slFrom b s
    let p ← optPrivate m r
    return ⟨h, p⟩
  else return ⟨h, none⟩
end EchoRequest

/-- `EchoResponse` (echoresp.rs:14-18). -/
structure EchoResponse where
  header : Header
  recovery : Recovery
  priv : Option PrivateExtension
deriving DecidableEq, Repr

namespace EchoResponse
/-- `EchoResponse::marshal` (echoresp.rs:35-48). -/
def marshalInto (buf : Bytes) (x : EchoResponse) : Bytes :=
  setMsgLength1 (buf ++ x.header.marshal ++ x.recovery.marshal ++ privOctets x.priv)
/-- `EchoResponse::unmarshal` (echoresp.rs:50-85). -/
def unmarshal (m : Mode) (b : Bytes) : R Err EchoResponse := do
  let h ← readHeader m 2 b
  if h.length.toNat + 4 < b.length then
    let cursor ← h.size m
    if cursor < b.length then
      let t ← rd b cursor
      if t = 14 then
        let r ← slFrom b cursor
        let rec ← Recovery.unmarshal r
        let cursor := cursor + rec.len
        if cursor < b.length then
          let r ← slFrom b cursor
          let p ← optPrivate m r
          return ⟨h, rec, p⟩
        else return ⟨h, rec, none⟩
      else .err .messageMandatoryIEMissing
    else .err .messageMandatoryIEMissing
  else .err .messageLengthError
end EchoResponse

/-- `SupportedExtensionHeadersNotification` (supportedexthdrnotification.rs:14-17). -/
structure SupportedExt where
  header : Header
  list : ExtTypeList
deriving DecidableEq, Repr

namespace SupportedExt
/-- `SupportedExtensionHeadersNotification::marshal` (supportedexthdrnotification.rs:33-41). -/
def marshalInto (buf : Bytes) (x : SupportedExt) : Bytes :=
  setMsgLength1 (buf ++ x.header.marshal ++ x.list.marshal)
/-- `SupportedExtensionHeadersNotification::unmarshal` (supportedexthdrnotification.rs:43-73). -/
def unmarshal (m : Mode) (b : Bytes) : R Err SupportedExt := do
  let h ← readHeader m 31 b
  let n ← len8 m h.length
  if n ≤ b.length then
    let s ← h.size m
    if s = b.length then .err .messageMandatoryIEMissing
    else
      let t ← rd b s
      if t = 141 then
        let r ← slFrom b s
        let l ← (ExtTypeList.unmarshal m r).mapErr .messageMandatoryIEMissing
        return ⟨h, l⟩
      else .err .messageInvalidMessageFormat
  else .err .messageLengthError
end SupportedExt

/-- `ErrorIndication` (errorindication.rs:13-18). -/
structure ErrorIndication where
  header : Header
  teid : Teid
  peer : GsnAddress
  priv : Option PrivateExtension
deriving DecidableEq, Repr

namespace ErrorIndication
/-- `ErrorIndication::marshal` (errorindication.rs:36-46). -/
def marshalInto (buf : Bytes) (x : ErrorIndication) : Bytes :=
  setMsgLength1 (buf ++ x.header.marshal ++ x.teid.marshal ++ x.peer.marshal ++ privOctets x.priv)

/-- The state of the decoding loop: the map `msg_hash` restricted to the three keys that are ever
inserted (`none` = absent), `increment`, and the message under construction
(errorindication.rs:49-63). -/
structure St where
  teidN : Option UInt8
  peerN : Option UInt8
  privN : Option UInt8
  increment : UInt8
  x : ErrorIndication
deriving DecidableEq, Repr

/-- `msg_hash.insert(k, 1)` for a new key, otherwise `*msg_hash.get(k).unwrap() + 1` in `u8`
(errorindication.rs:72-79). -/
def count (m : Mode) (n : Option UInt8) : R Err UInt8 :=
  match n with
  | none => .ok 1
  | some k => add8 m k 1

/-- One iteration of the loop at the position where `b` starts (`b` not empty); returns the new state
and how far the cursor moves (errorindication.rs:68-122). -/
def step (m : Mode) (s : St) (b : Bytes) : R Err (St × Nat) := do
  let t ← rd b 0
  if s.increment ≤ t then
    if t = 16 then
      let i ← (Teid.unmarshal b).mapErr .messageMandatoryIEMissing
      let k ← count m s.teidN
      let x := if s.teidN = none then { s.x with teid := i } else s.x
      return ({ s with teidN := some k, increment := t, x }, i.len)
    else if t = 133 then
      let i ← (GsnAddress.unmarshal m b).mapErr .messageMandatoryIEMissing
      let k ← count m s.peerN
      let n ← i.len m
      let x := if s.peerN = none then { s.x with peer := i } else s.x
      return ({ s with peerN := some k, increment := t, x }, n)
    else if t = 255 then
      let i ← (PrivateExtension.unmarshal m b).mapErr .messageOptionalIEIncorrect
      let k ← count m s.privN
      let n ← i.len m
      let x := if s.privN = none then { s.x with priv := some i } else s.x
      return ({ s with privN := some k, increment := t, x }, n)
    else .err .messageInvalidMessageFormat
  else .err .messageInvalidMessageFormat

/-- The decoding loop (errorindication.rs:64-123): `b` is the part of the buffer from the cursor on,
empty once the cursor has reached the end. -/
def loop (m : Mode) : Nat → St → Bytes → R Err St
  | 0, _, _ => .diverge
  | fuel + 1, s, b =>
    if b = [] then .ok s
    else do
      let (s', n) ← step m s b
      loop m fuel s' (b.drop n)

/-- `ErrorIndication::unmarshal` (errorindication.rs:48-131). -/
def unmarshal (m : Mode) (b : Bytes) : R Err ErrorIndication := do
  let h ← readHeader m 26 b
  let n ← len8 m h.length
  if n ≤ b.length then
    let cursor ← h.size m
    let s ← loop m (b.length + 1) ⟨none, none, none, 0, ⟨h, Teid.default, GsnAddress.default, none⟩⟩
      (b.drop cursor)
    if s.teidN.isSome ∧ s.peerN.isSome then return s.x
    else .err .messageMandatoryIEMissing
  else .err .messageLengthError
end ErrorIndication

end Gtp.U
