import Verif.V1.Err
import Verif.V2.Header

/-!
# The texts of errors: `impl Display` in `gtpv1/errors.rs` and `gtpv2/errors.rs`
-/

namespace Gtp

/-- The characters of a literal (kept folded by the elaborator, for speed). -/
@[irreducible] def txt (s : String) : List Char := s.toList

/-- The digit `n` as a character. -/
def digitChar (n : Nat) : Char := Char.ofNat (48 + n)

/-- `{}` for a `u8`: decimal without leading zeros (`impl Display for u8` of the standard library). -/
def fmtU8 (n : UInt8) : List Char :=
  if n.toNat < 10 then [digitChar n.toNat]
  else if n.toNat < 100 then [digitChar (n.toNat / 10), digitChar (n.toNat % 10)]
  else [digitChar (n.toNat / 100), digitChar (n.toNat / 10 % 10), digitChar (n.toNat % 10)]

/-- `impl Display for GTPV1Error` (gtpv1/errors.rs:30-58). -/
def V1.Err.text : V1.Err → List Char
  | .headerInvalidLength => txt "Invalid Header length"
  | .headerVersionNotSupported => txt "GTP Version not supported"
  | .headerFlagError => txt "Header flag error"
  | .headerTypeMismatch => txt "Header type mismatch"
  | .mandatoryHeaderFlagError => txt "Mandatory header flag is not properly set for the particular GTP message"
  | .extHeaderInvalidLength => txt "Invalid Extension Header length"
  | .extHeaderUnknown => txt "Incorrect Extension Header"
  | .ieTypeMismatch => txt "IE type mismatch"
  | .ieInvalidLength => txt "Invalid IE length"
  | .ieIncorrect => txt "Incorrect IE"
  | .messageLengthError => txt "Message length error"
  | .messageMandatoryIEMissing => txt "Mandatory IE missing"
  | .messageNotSupported => txt "Message not supported"
  | .messageOptionalIEIncorrect => txt "Optional IE incorrect"
  | .messageInvalidMessageFormat => txt "Invalid Mesage format"
  | .messageIncorrectMessageType => txt "Incorrect Message type"

/-- `impl Display for GTPV2Error` (gtpv2/errors.rs:26-54). -/
def V2.Err.text : V2.Err → List Char
  | .headerInvalidLength => txt "Invalid Header length"
  | .headerVersionNotSupported => txt "GTP Version not supported"
  | .headerFlagError => txt "Header flag error"
  | .headerTypeMismatch => txt "Header type mismatch"
  | .mandatoryHeaderFlagError => txt "Mandatory header flag is not properly set for the particular GTP message"
  | .ieInvalidLength i => txt "Invalid IE type " ++ (fmtU8 i ++ txt " length")
  | .ieIncorrect i => txt "Incorrect IE type " ++ fmtU8 i
  | .messageInvalidLength i => txt "Message invalid length " ++ fmtU8 i
  | .messageMandatoryIEMissing i => txt "Mandatory IE of type " ++ (fmtU8 i ++ txt " missing")
  | .messageNotSupported => txt "Message not supported"
  | .messageOptionalIEIncorrect i => txt "Optional IE of type " ++ (fmtU8 i ++ txt " incorrect")
  | .messageInvalidMessageFormat => txt "Invalid Mesage format"
  | .messageIncorrectMessageType => txt "Incorrect Message type"

end Gtp
