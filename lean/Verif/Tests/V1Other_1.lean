import Verif.Utils
import Verif.V1.Err

/-!
# The unit tests under `src/gtpv1/`, run on the model (1 of 1)

Generated by `scripts/gen_tests.py`.  These are tests of the model against the expectations written in the
repository, not proofs of properties.
-/

namespace Gtp.V1
open Gtp
set_option maxRecDepth 100000

-- `tbcd_encode_test` (gtpv1/utils.rs:34)
example : tbcdEncode ['9', '8', '7', '4', '3', '2', '1', '0', '1', '3', '1', '4', '0', '6', '3'] = [137, 71, 35, 1, 49, 65, 96, 243] := by
  decide +kernel

-- `tbcd_decode_test` (gtpv1/utils.rs:56)
example : tbcdDecode [137, 71, 35, 1, 49, 65, 96, 243] = ['9', '8', '7', '4', '3', '2', '1', '0', '1', '3', '1', '4', '0', '6', '3'] := by
  decide +kernel

-- `mcc_mnc_encode_test` (gtpv1/utils.rs:88)
example : (mccMncEncodeR (ε := Unit)) 262 1 false = .ok [98, 242, 16] := by
  decide +kernel

-- `mcc_mnc_encode_test` (gtpv1/utils.rs:88)
example : (mccMncEncodeR (ε := Unit)) 310 123 false = .ok [19, 48, 33] := by
  decide +kernel

-- `mcc_mnc_encode_test` (gtpv1/utils.rs:88)
-- The expectation in the repository does not hold of the code: the test fails.
example : (mccMncEncodeR (ε := Unit)) 310 12 true ≠ .ok [19, 0, 33] := by
  decide +kernel

-- `mcc_mnc_decode_test` (gtpv1/utils.rs:152)
example : (mccMncDecode (ε := Unit)) [98, 242, 16] = .ok (262, 1, false) := by
  decide +kernel

-- `mcc_mnc_decode_test` (gtpv1/utils.rs:152)
example : (mccMncDecode (ε := Unit)) [19, 48, 33] = .ok (310, 123, true) := by
  decide +kernel

-- `mcc_mnc_decode_test` (gtpv1/utils.rs:152)
-- The expectation in the repository does not hold of the code: the test fails.
example : (mccMncDecode (ε := Unit)) [19, 0, 33] ≠ .ok (310, 12, true) := by
  decide +kernel

end Gtp.V1
