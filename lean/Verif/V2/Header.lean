import Verif.UtilsLemmas

/-!
# Model of `src/gtpv2/header.rs` and `src/gtpv2/errors.rs`
-/

namespace Gtp.V2

/-- `GTPV2Error` (gtpv2/errors.rs:5-22). -/
inductive Err where
  | headerInvalidLength
  | headerVersionNotSupported
  | headerFlagError
  | headerTypeMismatch
  | mandatoryHeaderFlagError
  | ieInvalidLength (t : UInt8)
  | ieIncorrect (t : UInt8)
  | messageInvalidLength (t : UInt8)
  | messageNotSupported
  | messageMandatoryIEMissing (t : UInt8)
  | messageOptionalIEIncorrect (t : UInt8)
  | messageInvalidMessageFormat
  | messageIncorrectMessageType
deriving DecidableEq, Repr

/-- `Gtpv2Header` (gtpv2/header.rs:12-19). -/
structure Header where
  msgtype : UInt8
  piggyback : Bool
  prio : Option UInt8
  length : UInt16
  teid : Option UInt32
  sqn : UInt32
deriving DecidableEq, Repr

namespace Header

/-- `Gtpv2Header::default` (header.rs:23-34). -/
def default : Header := ⟨0, false, none, 8, none, 0⟩

/-- `construct_flags` (header.rs:106-118). -/
def flags (h : Header) : UInt8 :=
  let f : UInt8 := if h.prio.isSome then 0x04 else 0
  let f := if h.teid.isSome then f ||| 0x08 else f
  let f := if h.piggyback then f ||| 0x10 else f
  f ||| 0x40

/-- `Gtpv2Header::marshal` (header.rs:37-49): the octets appended to the buffer. -/
def marshal (h : Header) : Bytes :=
  [h.flags, h.msgtype] ++ be16 h.length ++
  (match h.teid with | some i => be32 i | none => []) ++
  be24 h.sqn ++
  (match h.prio with | some i => [i <<< 4] | none => [0])

/-- `Gtpv2Header::unmarshal` (header.rs:51-102). The arm `_ =>` of the match on one masked bit
(line 96) is unreachable and folded into the `1` arm. -/
def unmarshal (b : Bytes) : R Err Header := do
  if 8 ≤ b.length then
    let b0 ← rd b 0
    if b0 >>> 5 ≠ 2 then .err .headerVersionNotSupported
    else if (b0 >>> 3) &&& 1 = 0 then
      let piggyback := decide ((b0 >>> 4) &&& 1 ≠ 0)
      let msgtype ← rd b 1
      let length ← rd16 b 2
      if length = 0 then .err .headerInvalidLength
      else if length < 4 then .err (.messageInvalidLength 0)
      else
        let sqn ← rd24 b 4
        return { default with msgtype, piggyback, length, sqn }
    else
      if 12 ≤ b.length then
        let piggyback := decide ((b0 >>> 4) &&& 1 ≠ 0)
        let msgtype ← rd b 1
        let length ← rd16 b 2
        if length < 8 then .err (.messageInvalidLength 0)
        else
          let teid ← rd32 b 4
          let sqn ← rd24 b 8
          let p ← rd b 11
          let prio := if (b0 >>> 2) &&& 1 = 0 then none else some (p >>> 4)
          return { msgtype, piggyback, prio, length, teid := some teid, sqn }
      else .err (.messageInvalidLength 0)
  else .err (.messageInvalidLength 0)

end Header

end Gtp.V2
