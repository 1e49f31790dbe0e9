import Verif.U.Lemmas

/-!
# Model of `src/gtpv1/gtpc/extensionheaders/*.rs` and of the GTPv1-C `enum ExtensionHeader`

The five known extension headers have the same shape (type, length, a 16-bit value) and the same
code except for the type constant; they share one structure here.  `marshal` is the list of octets
appended to the buffer.  `self.length * 4` is computed in `u8` (`Gtp.U.len4`).
-/

namespace Gtp.C1
open Gtp.V1
open Gtp.U (len4)

/-- `PDCPPDUNumber`, `SuspendRequest`, `SuspendResponse`, `MBMSSupportIndication` and
`MSInfoChangeReportingSupportIndication` (pdcppdunumber.rs:9-13 and lines 9-13 of suspendrequest.rs,
suspendresponse.rs, mbmssupportindication.rs, msicrsi.rs). -/
structure Fixed where
  t : UInt8
  length : UInt8
  value : UInt16
deriving DecidableEq, Repr

/-- `marshal` (lines 26-30 of each of the five files). -/
def Fixed.marshal (x : Fixed) : Bytes := [x.t, x.length] ++ be16 x.value

/-- `unmarshal` (lines 32-46 of each of the five files); `code` is the type constant of the file's
`Default`. -/
def Fixed.unmarshal (code : UInt8) (m : Mode) (b : Bytes) : R Err Fixed := do
  let l ← rd b 1
  if l = 0 then .err .extHeaderInvalidLength
  else
    let n ← len4 m l
    if n ≤ b.length then
      let v ← rd16 b 2
      return ⟨code, l, v⟩
    else .err .extHeaderInvalidLength

/-- `Unknown` (unknown.rs:6-10). -/
structure Unknown where
  t : UInt8
  length : UInt8
  value : Bytes
deriving DecidableEq, Repr

/-- `Unknown::marshal` (unknown.rs:23-27). -/
def Unknown.marshal (x : Unknown) : Bytes := [x.t, x.length] ++ x.value

/-- `Unknown::unmarshal` (unknown.rs:29-45). -/
def Unknown.unmarshal (m : Mode) (b : Bytes) : R Err Unknown := do
  let t ← rd b 0
  let l ← rd b 1
  if l = 0 then .err .extHeaderInvalidLength
  else
    let n ← len4 m l
    if n ≤ b.length then
      let v ← sl b 2 n
      return ⟨t, l, v⟩
    else .err .extHeaderInvalidLength

/-- `enum ExtensionHeader` (gtpc/header.rs:9-17). -/
inductive ExtHdr where
  | noMore
  | pdcpPduNumber (x : Fixed)
  | suspendRequest (x : Fixed)
  | suspendResponse (x : Fixed)
  | mbmsSupport (x : Fixed)
  | msInfoChange (x : Fixed)
  | unknown (x : Unknown)
deriving DecidableEq, Repr

namespace ExtHdr

/-- `ExtensionHeader::unmarshal` (gtpc/header.rs:20-50); constants: pdcppdunumber.rs:3,
suspendrequest.rs:3, suspendresponse.rs:3, mbmssupportindication.rs:3, msicrsi.rs:3, commons.rs:11. -/
def unmarshal (m : Mode) (b : Bytes) : R Err ExtHdr := do
  let t ← rd b 0
  if t = 0 then return .noMore
  else if t = 0xc0 then return .pdcpPduNumber (← Fixed.unmarshal 0xc0 m b)
  else if t = 0xc1 then return .suspendRequest (← Fixed.unmarshal 0xc1 m b)
  else if t = 0xc2 then return .suspendResponse (← Fixed.unmarshal 0xc2 m b)
  else if t = 1 then return .mbmsSupport (← Fixed.unmarshal 1 m b)
  else if t = 2 then return .msInfoChange (← Fixed.unmarshal 2 m b)
  else return .unknown (← Unknown.unmarshal m b)

/-- `ExtensionHeader::marshal` (gtpc/header.rs:52-62). -/
def marshal : ExtHdr → Bytes
  | .noMore => []
  | .pdcpPduNumber x => x.marshal
  | .suspendRequest x => x.marshal
  | .suspendResponse x => x.marshal
  | .mbmsSupport x => x.marshal
  | .msInfoChange x => x.marshal
  | .unknown x => x.marshal

/-- The length field, if the variant has one. -/
def length? : ExtHdr → Option UInt8
  | .noMore => none
  | .pdcpPduNumber x => some x.length
  | .suspendRequest x => some x.length
  | .suspendResponse x => some x.length
  | .mbmsSupport x => some x.length
  | .msInfoChange x => some x.length
  | .unknown x => some x.length

/-- `ExtensionHeader::len` (gtpc/header.rs:64-74, `(self.length * 4) as usize` in each file). -/
def len (m : Mode) (x : ExtHdr) : R Err Nat :=
  match x.length? with
  | none => .ok 1
  | some l => len4 m l

end ExtHdr

end Gtp.C1
