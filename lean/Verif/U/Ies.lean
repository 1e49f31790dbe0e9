import Verif.U.Header

/-!
# Model of `src/gtpv1/gtpu/messages/ies/*.rs`
-/

namespace Gtp.U
open Gtp.V1

/-- `Recovery` (recovery.rs:13-16). -/
structure Recovery where
  t : UInt8
  value : UInt8
deriving DecidableEq, Repr

namespace Recovery
/-- `Recovery::default` (recovery.rs:18-25). -/
def default : Recovery := ⟨14, 0⟩
/-- `Recovery::marshal` (recovery.rs:28-31): writes the constant type, not `self.t`. -/
def marshal (x : Recovery) : Bytes := [14, x.value]
/-- `Recovery::unmarshal` (recovery.rs:33-42). -/
def unmarshal (b : Bytes) : R Err Recovery := do
  if 1 < b.length then
    let t ← rd b 0
    let v ← rd b 1
    return ⟨t, v⟩
  else .err .ieInvalidLength
/-- `Recovery::len` (recovery.rs:44-46). -/
def len (_ : Recovery) : Nat := 2
end Recovery

/-- `Teid` (teid.rs:13-16). -/
structure Teid where
  t : UInt8
  teid : UInt32
deriving DecidableEq, Repr

namespace Teid
/-- `Teid::default` (teid.rs:18-25). -/
def default : Teid := ⟨16, 0⟩
/-- `Teid::marshal` (teid.rs:28-31). -/
def marshal (x : Teid) : Bytes := [16] ++ be32 x.teid
/-- `Teid::unmarshal` (teid.rs:33-43). -/
def unmarshal (b : Bytes) : R Err Teid := do
  if 4 < b.length then
    let t ← rd b 0
    let v ← rd32 b 1
    return ⟨t, v⟩
  else .err .ieInvalidLength
/-- `Teid::len` (teid.rs:45-47). -/
def len (_ : Teid) : Nat := 5
end Teid

/-- `(self.length + 3) as usize`, computed in `u16` (gsnaddress.rs:75, privateextension.rs:63). -/
def len3 (m : Mode) (length : UInt16) : R Err Nat := do
  let l ← add16 m length 3
  return l.toNat

/-- `GsnAddress` (gsnaddress.rs:13-17). -/
structure GsnAddress where
  t : UInt8
  length : UInt16
  ip : IpAddr
deriving DecidableEq, Repr

namespace GsnAddress
/-- `GsnAddress::default` (gsnaddress.rs:19-27). -/
def default : GsnAddress := ⟨133, 4, .v4 0⟩
/-- `GsnAddress::marshal` (gsnaddress.rs:30-40). -/
def marshal (x : GsnAddress) : Bytes := setTlvIeLength ([x.t] ++ be16 x.length ++ x.ip.octets)
/-- `GsnAddress::unmarshal` (gsnaddress.rs:42-72). -/
def unmarshal (m : Mode) (b : Bytes) : R Err GsnAddress := do
  if 3 ≤ b.length then
    let l ← rd16 b 1
    if l = 0 then .err .ieInvalidLength
    else
      let c ← checkTlv m l b
      if c then
        if l = 4 then
          let a ← rd32 b 3
          return ⟨133, l, .v4 a⟩
        else if l = 16 then
          if 19 ≤ b.length then
            let a ← Gtp.V2.rdIp6 b 3
            return ⟨133, l, .v6 a⟩
          else .err .ieInvalidLength
        else .err .ieIncorrect
      else .err .ieInvalidLength
  else .err .ieInvalidLength
/-- `GsnAddress::len` (gsnaddress.rs:74-76). -/
def len (m : Mode) (x : GsnAddress) : R Err Nat := len3 m x.length
end GsnAddress

/-- `PrivateExtension` (privateextension.rs:12-17). -/
structure PrivateExtension where
  t : UInt8
  length : UInt16
  id : UInt16
  value : Bytes
deriving DecidableEq, Repr

namespace PrivateExtension
/-- `PrivateExtension::marshal` (privateextension.rs:31-39). -/
def marshal (x : PrivateExtension) : Bytes :=
  setTlvIeLength ([x.t] ++ be16 x.length ++ be16 x.id ++ x.value)
/-- `PrivateExtension::unmarshal` (privateextension.rs:41-60): the value extends to the end of the
buffer, and the type octet is not looked at. -/
def unmarshal (m : Mode) (b : Bytes) : R Err PrivateExtension := do
  if 3 ≤ b.length then
    let l ← rd16 b 1
    if l = 0 then .err .ieInvalidLength
    else
      let c ← checkTlv m l b
      if c then
        let i ← rd16 b 3
        let v ← slFrom b 5
        return ⟨255, l, i, v⟩
      else .err .ieInvalidLength
  else .err .ieInvalidLength
/-- `PrivateExtension::len` (privateextension.rs:62-64). -/
def len (m : Mode) (x : PrivateExtension) : R Err Nat := len3 m x.length
end PrivateExtension

/-- `ExtensionHeaderTypeList` (extensionheadertypelist.rs:12-16). -/
structure ExtTypeList where
  t : UInt8
  length : UInt8
  list : Bytes
deriving DecidableEq, Repr

namespace ExtTypeList
/-- `ExtensionHeaderTypeList::default` (extensionheadertypelist.rs:18-26). -/
def default : ExtTypeList := ⟨141, 0, []⟩
/-- `ExtensionHeaderTypeList::marshal` (extensionheadertypelist.rs:29-36). -/
def marshal (x : ExtTypeList) : Bytes :=
  let b := [x.t, x.length] ++ x.list
  b.set 1 (UInt8.ofNat (b.length - 2))
/-- `ExtensionHeaderTypeList::unmarshal` (extensionheadertypelist.rs:38-52): `length + 2` in `u8`,
and the list extends to the end of the buffer. -/
def unmarshal (m : Mode) (b : Bytes) : R Err ExtTypeList := do
  let l ← rd b 1
  if l = 0 then .err .extHeaderInvalidLength
  else
    let n ← add8 m l 2
    if n.toNat ≤ b.length then
      let v ← slFrom b 2
      return ⟨141, l, v⟩
    else .err .ieInvalidLength
end ExtTypeList

end Gtp.U
