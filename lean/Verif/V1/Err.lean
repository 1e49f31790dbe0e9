import Verif.V2.IeBase

/-!
# `src/gtpv1/errors.rs` and helpers shared by GTPv1-U and GTPv1-C
-/

namespace Gtp.V1

/-- `GTPV1Error` (gtpv1/errors.rs:5-26). -/
inductive Err where
  | headerInvalidLength
  | headerVersionNotSupported
  | headerFlagError
  | headerTypeMismatch
  | mandatoryHeaderFlagError
  | extHeaderInvalidLength
  | extHeaderUnknown
  | ieTypeMismatch
  | ieInvalidLength
  | ieIncorrect
  | messageLengthError
  | messageNotSupported
  | messageMandatoryIEMissing
  | messageOptionalIEIncorrect
  | messageInvalidMessageFormat
  | messageIncorrectMessageType
deriving DecidableEq, Repr

/-- `std::net::IpAddr`. -/
inductive IpAddr where
  | v4 (a : UInt32)
  | v6 (a : Gtp.V2.Ip6)
deriving DecidableEq, Repr

/-- `octets()` of either kind of address. -/
def IpAddr.octets : IpAddr → Bytes
  | .v4 a => be32 a
  | .v6 a => a.octets

end Gtp.V1
