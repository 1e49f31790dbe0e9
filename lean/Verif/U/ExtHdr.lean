import Verif.V1.Err

/-!
# Model of `src/gtpv1/gtpu/extensionheaders/*.rs` and of `enum ExtensionHeader`

`marshal` is the list of octets appended to the buffer.  The product `self.length * 4` is computed
in `u8`, so `unmarshal` and `len` take the build mode.
-/

namespace Gtp.U
open Gtp.V1

/-- `(self.length * 4) as usize`, computed in `u8` (e.g. udpport.rs:40, 49). -/
def len4 (m : Mode) (length : UInt8) : R Err Nat := do
  let n ← mul8 m length 4
  return n.toNat

/-- `PDCPPDUNumber` (pdcppdunumber.rs:9-13). -/
structure PdcpPduNumber where
  t : UInt8
  length : UInt8
  number : UInt16
deriving DecidableEq, Repr

/-- `PDCPPDUNumber::marshal` (pdcppdunumber.rs:26-30). -/
def PdcpPduNumber.marshal (x : PdcpPduNumber) : Bytes := [x.t, x.length] ++ be16 x.number

/-- `PDCPPDUNumber::unmarshal` (pdcppdunumber.rs:32-46). -/
def PdcpPduNumber.unmarshal (m : Mode) (b : Bytes) : R Err PdcpPduNumber := do
  let l ← rd b 1
  if l = 0 then .err .extHeaderInvalidLength
  else
    let n ← len4 m l
    if n ≤ b.length then
      let v ← rd16 b 2
      return ⟨0xc0, l, v⟩
    else .err .extHeaderInvalidLength

/-- `UDPPort` (udpport.rs:9-13). -/
structure UdpPort where
  t : UInt8
  length : UInt8
  port : UInt16
deriving DecidableEq, Repr

/-- `UDPPort::marshal` (udpport.rs:26-30). -/
def UdpPort.marshal (x : UdpPort) : Bytes := [x.t, x.length] ++ be16 x.port

/-- `UDPPort::unmarshal` (udpport.rs:32-46). -/
def UdpPort.unmarshal (m : Mode) (b : Bytes) : R Err UdpPort := do
  let l ← rd b 1
  if l = 0 then .err .extHeaderInvalidLength
  else
    let n ← len4 m l
    if n ≤ b.length then
      let v ← rd16 b 2
      return ⟨0x40, l, v⟩
    else .err .extHeaderInvalidLength

/-- `LongPDCPPDUNumber` (longpdcppdunumber.rs:10-14). -/
structure LongPdcpPduNumber where
  t : UInt8
  length : UInt8
  number : UInt32
deriving DecidableEq, Repr

/-- `LongPDCPPDUNumber::marshal` (longpdcppdunumber.rs:27-33). -/
def LongPdcpPduNumber.marshal (x : LongPdcpPduNumber) : Bytes :=
  [x.t, x.length] ++ be32 (x.number <<< 8) ++ [0, 0]

/-- `LongPDCPPDUNumber::unmarshal` (longpdcppdunumber.rs:35-54). -/
def LongPdcpPduNumber.unmarshal (m : Mode) (b : Bytes) : R Err LongPdcpPduNumber := do
  let t ← rd b 0
  if t = 0x03 ∨ t = 0x82 then
    let l ← rd b 1
    if l = 0 then .err .extHeaderInvalidLength
    else
      let n ← len4 m l
      if n ≤ b.length then
        let v ← rd24 b 2
        return ⟨t, l, v⟩
      else .err .extHeaderInvalidLength
  else .err .extHeaderUnknown

/-- `Sci` (sci.rs:9-13). -/
structure Sci where
  t : UInt8
  length : UInt8
  sci : UInt8
deriving DecidableEq, Repr

/-- `Sci::marshal` (sci.rs:26-31). -/
def Sci.marshal (x : Sci) : Bytes := [x.t, x.length, x.sci, 0]

/-- `Sci::unmarshal` (sci.rs:33-47). -/
def Sci.unmarshal (m : Mode) (b : Bytes) : R Err Sci := do
  let l ← rd b 1
  if l = 0 then .err .extHeaderInvalidLength
  else
    let n ← len4 m l
    if n ≤ b.length then
      let v ← rd b 2
      return ⟨0x20, l, v⟩
    else .err .extHeaderInvalidLength

/-- `RanContainer`, `XwRanContainer`, `NrRanContainer`, `PduSessionContainer`, `Unknown`: five files
with the same structure (rancontainer.rs:9-13 etc., unknown.rs:6-10). -/
structure Container where
  t : UInt8
  length : UInt8
  container : Bytes
deriving DecidableEq, Repr

/-- `marshal` of the five container kinds (rancontainer.rs:26-30, xwrancontainer.rs:26-30,
nrrancontainer.rs:26-30, pdusessioncontainer.rs:26-30, unknown.rs:23-27). -/
def Container.marshal (x : Container) : Bytes := [x.t, x.length] ++ x.container

/-- `unmarshal` of the four container kinds with type constant `ty` (rancontainer.rs:32-47,
xwrancontainer.rs:32-47, nrrancontainer.rs:32-47, pdusessioncontainer.rs:32-47). -/
def Container.unmarshal (m : Mode) (ty : UInt8) (b : Bytes) : R Err Container := do
  let l ← rd b 1
  if l = 0 then .err .extHeaderInvalidLength
  else
    let n ← len4 m l
    if n ≤ b.length then
      let v ← sl b 2 n
      return ⟨ty, l, v⟩
    else .err .extHeaderInvalidLength

/-- `Unknown::unmarshal` (unknown.rs:29-45): the type octet is taken from the buffer. -/
def unknownUnmarshal (m : Mode) (b : Bytes) : R Err Container := do
  let t ← rd b 0
  let l ← rd b 1
  if l = 0 then .err .extHeaderInvalidLength
  else
    let n ← len4 m l
    if n ≤ b.length then
      let v ← sl b 2 n
      return ⟨t, l, v⟩
    else .err .extHeaderInvalidLength

/-- `enum ExtensionHeader` (gtpu/header.rs:9-20). -/
inductive ExtHdr where
  | noMore
  | pdcpPduNumber (x : PdcpPduNumber)
  | udpPort (x : UdpPort)
  | longPdcpPduNumber (x : LongPdcpPduNumber)
  | sci (x : Sci)
  | ranContainer (x : Container)
  | xwRanContainer (x : Container)
  | nrRanContainer (x : Container)
  | pduSessionContainer (x : Container)
  | unknown (x : Container)
deriving DecidableEq, Repr

/-- `ExtensionHeader::unmarshal` (gtpu/header.rs:23-67). -/
def ExtHdr.unmarshal (m : Mode) (b : Bytes) : R Err ExtHdr := do
  let t ← rd b 0
  if t = 0 then return .noMore
  else if t = 0xc0 then return .pdcpPduNumber (← PdcpPduNumber.unmarshal m b)
  else if t = 0x40 then return .udpPort (← UdpPort.unmarshal m b)
  else if t = 0x03 then return .longPdcpPduNumber (← LongPdcpPduNumber.unmarshal m b)
  else if t = 0x82 then return .longPdcpPduNumber (← LongPdcpPduNumber.unmarshal m b)
  else if t = 0x20 then return .sci (← Sci.unmarshal m b)
  else if t = 0x81 then return .ranContainer (← Container.unmarshal m 0x81 b)
  else if t = 0x83 then return .xwRanContainer (← Container.unmarshal m 0x83 b)
  else if t = 0x84 then return .nrRanContainer (← Container.unmarshal m 0x84 b)
  else if t = 0x85 then return .pduSessionContainer (← Container.unmarshal m 0x85 b)
  else return .unknown (← unknownUnmarshal m b)

/-- `ExtensionHeader::marshal` (gtpu/header.rs:69-82). -/
def ExtHdr.marshal : ExtHdr → Bytes
  | .noMore => []
  | .pdcpPduNumber x => x.marshal
  | .udpPort x => x.marshal
  | .longPdcpPduNumber x => x.marshal
  | .sci x => x.marshal
  | .ranContainer x => x.marshal
  | .xwRanContainer x => x.marshal
  | .nrRanContainer x => x.marshal
  | .pduSessionContainer x => x.marshal
  | .unknown x => x.marshal

/-- The `length` field of an extension header (none for `NoMoreExtensionHeaders`). -/
def ExtHdr.length? : ExtHdr → Option UInt8
  | .noMore => none
  | .pdcpPduNumber x => some x.length
  | .udpPort x => some x.length
  | .longPdcpPduNumber x => some x.length
  | .sci x => some x.length
  | .ranContainer x => some x.length
  | .xwRanContainer x => some x.length
  | .nrRanContainer x => some x.length
  | .pduSessionContainer x => some x.length
  | .unknown x => some x.length

/-- `ExtensionHeader::len` (gtpu/header.rs:84-97) with the nine `fn len` it calls, all
`(self.length * 4) as usize`. -/
def ExtHdr.len (m : Mode) (x : ExtHdr) : R Err Nat :=
  match x.length? with
  | none => .ok 1
  | some l => len4 m l

end Gtp.U
