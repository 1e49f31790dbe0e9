import Verif.C1.MsgBase

/-!
# Model of the four GTPv1-C messages without a loop over information elements

`src/gtpv1/gtpc/messages/{echoreq,echoresp,versionnotsupported,supportedexthdrnotification}.rs`
-/

namespace Gtp.C1
open Gtp.V1

/-- Header and check of the message type, common to the four (e.g. echoreq.rs:45-52). -/
def readHeader (m : Mode) (ty : UInt8) (b : Bytes) : R Err Header := do
  let h ← Header.unmarshal m b
  if h.msgtype ≠ ty then .err .messageIncorrectMessageType
  else return h

/-- `if let Ok(i) = PrivateExtension::unmarshal(..) { message.private_ext = Some(i) }`: errors are dropped,
a panic is not (echoreq.rs:55-57). -/
def optPrivate (m : Mode) (b : Bytes) : R Err (Option PrivateExtension) :=
  match PrivateExtension.unmarshal m b with
  | .ok i => .ok (some i)
  | .err _ => .ok none
  | .panic => .panic
  | .diverge => .diverge

/-- `EchoRequest` (echoreq.rs:13-17). -/
structure EchoRequest where
  header : Header
  private_ext : Option PrivateExtension
deriving DecidableEq, Repr

namespace EchoRequest
/-- The buffer after `marshal` (echoreq.rs:33-41). -/
def marshalInto (buf : Bytes) (x : EchoRequest) : Bytes :=
  setMsgLength1 (buf ++ x.header.marshal ++ optOctets PrivateExtension.marshal x.private_ext)
/-- `unmarshal` (echoreq.rs:43-60). -/
def unmarshal (m : Mode) (b : Bytes) : R Err EchoRequest := do
  let h ← readHeader m 1 b
  if h.length.toNat < b.length then
    let n ← h.len m
    let r ← slFrom b n
    let p ← optPrivate m r
    return ⟨h, p⟩
  else return ⟨h, none⟩
end EchoRequest

/-- `EchoResponse` (echoresp.rs:13-18). -/
structure EchoResponse where
  header : Header
  recovery : Recovery
  private_ext : Option PrivateExtension
deriving DecidableEq, Repr

namespace EchoResponse
/-- The buffer after `marshal` (echoresp.rs:35-48). -/
def marshalInto (buf : Bytes) (x : EchoResponse) : Bytes :=
  setMsgLength1 (buf ++ x.header.marshal ++ (x.recovery.marshal ++ optOctets PrivateExtension.marshal x.private_ext))
/-- `unmarshal` (echoresp.rs:50-84). -/
def unmarshal (m : Mode) (b : Bytes) : R Err EchoResponse := do
  let h ← readHeader m 2 b
  if h.length.toNat + 4 < b.length then
    let cursor ← h.len m
    if cursor < b.length then
      let t ← rd b cursor
      if t = 14 then
        let r ← slFrom b cursor
        let rec ← Recovery.unmarshal m r
        let n ← rec.len m
        if cursor + n < b.length then
          let r ← slFrom b (cursor + n)
          let p ← optPrivate m r
          return ⟨h, rec, p⟩
        else return ⟨h, rec, none⟩
      else .err .messageMandatoryIEMissing
    else .err .messageMandatoryIEMissing
  else .err .messageLengthError
end EchoResponse

/-- `VersionNotSupported` (versionnotsupported.rs:12-15). -/
structure VersionNotSupported where
  header : Header
deriving DecidableEq, Repr

namespace VersionNotSupported
/-- The buffer after `marshal` (versionnotsupported.rs:28-31). -/
def marshalInto (buf : Bytes) (x : VersionNotSupported) : Bytes := setMsgLength1 (buf ++ x.header.marshal)
/-- `unmarshal` (versionnotsupported.rs:33-43). -/
def unmarshal (m : Mode) (b : Bytes) : R Err VersionNotSupported := do
  let h ← readHeader m 3 b
  return ⟨h⟩
end VersionNotSupported

/-- `SupportedExtensionHeadersNotification` (supportedexthdrnotification.rs:13-17). -/
structure SupportedExtensionHeadersNotification where
  header : Header
  list : ExtensionHeaderTypeList
deriving DecidableEq, Repr

namespace SupportedExtensionHeadersNotification
/-- The buffer after `marshal` (supportedexthdrnotification.rs:33-41). -/
def marshalInto (buf : Bytes) (x : SupportedExtensionHeadersNotification) : Bytes :=
  setMsgLength1 (buf ++ x.header.marshal ++ x.list.marshal)
/-- `unmarshal` (supportedexthdrnotification.rs:43-71). -/
def unmarshal (m : Mode) (b : Bytes) : R Err SupportedExtensionHeadersNotification := do
  let h ← readHeader m 31 b
  let n ← Gtp.U.len8 m h.length
  if n ≤ b.length then
    let s ← h.len m
    if s = b.length then .err .messageMandatoryIEMissing
    else
      let t ← rd b s
      if t = 141 then
        let r ← slFrom b s
        let l ← (ExtensionHeaderTypeList.unmarshal m r).mapErr .messageMandatoryIEMissing
        return ⟨h, l⟩
      else .err .messageInvalidMessageFormat
  else .err .messageLengthError
end SupportedExtensionHeadersNotification

end Gtp.C1
