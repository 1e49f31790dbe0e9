import Verif.V2.Header

/-!
# The unit tests under `src/gtpv2/`, run on the model (1 of 1)

Generated by `scripts/gen_tests.py`.  These are tests of the model against the expectations written in the
repository, not proofs of properties.
-/

namespace Gtp.V2
open Gtp
set_option maxRecDepth 100000

-- `test_gtpv2_hdr_t0_unmarshal` (gtpv2/header.rs:121)
example : Header.unmarshal [64, 1, 0, 8, 109, 61, 124, 0] = .ok { msgtype := 1, piggyback := false, prio := none, length := 8, teid := none, sqn := 7159164 } := by
  decide +kernel

-- `test_gtpv2_hdr_t0_version_incorrect_unmarshal` (gtpv2/header.rs:135)
example : Header.unmarshal [32, 1, 0, 6, 109, 61, 124, 0] = .err .headerVersionNotSupported := by
  decide +kernel

-- `test_gtpv2_hdr_t0_invalid_length_unmarshal` (gtpv2/header.rs:144)
example : Header.unmarshal [64, 1, 0, 2, 109, 61, 124, 0] = .err (.messageInvalidLength 0) := by
  decide +kernel

-- `test_gtpv2_hdr_t0_marshal` (gtpv2/header.rs:153)
example : Header.marshal ({ msgtype := 1, piggyback := false, prio := none, length := 8, teid := none, sqn := 7159164 } : Header) = [64, 1, 0, 8, 109, 61, 124, 0] := by
  decide +kernel

-- `test_gtpv2_hdr_t1_unmarshal` (gtpv2/header.rs:169)
example : Header.unmarshal [72, 52, 0, 12, 65, 118, 246, 30, 60, 234, 87, 0] = .ok { msgtype := 52, piggyback := false, prio := none, length := 12, teid := (some 1098315294), sqn := 3992151 } := by
  decide +kernel

-- `test_gtpv2_hdr_t1_invalid_length_unmarshal` (gtpv2/header.rs:185)
example : Header.unmarshal [72, 52, 0, 6, 65, 118, 246, 30, 60, 234, 87, 0] = .err (.messageInvalidLength 0) := by
  decide +kernel

-- `test_gtpv2_hdr_t1_marshal` (gtpv2/header.rs:196)
example : Header.marshal ({ msgtype := 52, piggyback := false, prio := none, length := 12, teid := (some 1098315294), sqn := 3992151 } : Header) = [72, 52, 0, 12, 65, 118, 246, 30, 60, 234, 87, 0] := by
  decide +kernel

-- `test_gtpv2_hdr_t1_with_msg_prio_unmarshal` (gtpv2/header.rs:214)
example : Header.unmarshal [76, 52, 0, 12, 65, 118, 246, 30, 60, 234, 87, 240] = .ok { msgtype := 52, piggyback := false, prio := (some 15), length := 12, teid := (some 1098315294), sqn := 3992151 } := by
  decide +kernel

-- `test_gtpv2_hdr_t1_with_msg_prio_marshal` (gtpv2/header.rs:230)
example : Header.marshal ({ msgtype := 52, piggyback := false, prio := (some 15), length := 12, teid := (some 1098315294), sqn := 3992151 } : Header) = [76, 52, 0, 12, 65, 118, 246, 30, 60, 234, 87, 240] := by
  decide +kernel

-- `tbcd_encode_test` (gtpv2/utils.rs:29)
example : tbcdEncode ['9', '8', '7', '4', '3', '2', '1', '0', '1', '3', '1', '4', '0', '6', '3'] = [137, 71, 35, 1, 49, 65, 96, 243] := by
  decide +kernel

-- `tbcd_decode_test` (gtpv2/utils.rs:51)
example : tbcdDecode [137, 71, 35, 1, 49, 65, 96, 243] = ['9', '8', '7', '4', '3', '2', '1', '0', '1', '3', '1', '4', '0', '6', '3'] := by
  decide +kernel

-- `mcc_mnc_encode_test` (gtpv2/utils.rs:83)
example : (mccMncEncodeR (ε := Unit)) 262 1 false = .ok [98, 242, 16] := by
  decide +kernel

-- `mcc_mnc_encode_test` (gtpv2/utils.rs:83)
example : (mccMncEncodeR (ε := Unit)) 310 123 false = .ok [19, 48, 33] := by
  decide +kernel

-- `mcc_mnc_encode_test` (gtpv2/utils.rs:83)
-- The expectation in the repository does not hold of the code: the test fails.
example : (mccMncEncodeR (ε := Unit)) 310 12 true ≠ .ok [19, 0, 33] := by
  decide +kernel

-- `mcc_mnc_decode_test` (gtpv2/utils.rs:147)
example : (mccMncDecode (ε := Unit)) [98, 242, 16] = .ok (262, 1, false) := by
  decide +kernel

-- `mcc_mnc_decode_test` (gtpv2/utils.rs:147)
example : (mccMncDecode (ε := Unit)) [19, 48, 33] = .ok (310, 123, true) := by
  decide +kernel

-- `mcc_mnc_decode_test` (gtpv2/utils.rs:147)
-- The expectation in the repository does not hold of the code: the test fails.
example : (mccMncDecode (ε := Unit)) [19, 0, 33] ≠ .ok (310, 12, true) := by
  decide +kernel

end Gtp.V2
