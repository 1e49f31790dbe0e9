import Verif.V2.IE

/-!
# The unit tests under `src/gtpv2/messages/ies/`, run on the model (4 of 4)

Generated by `scripts/gen_tests.py`.  These are tests of the model against the expectations written in the
repository, not proofs of properties.
-/

namespace Gtp.V2
open Gtp
set_option maxRecDepth 100000

-- `trace_info_ie_marshal_test` (gtpv2/messages/ies/traceinfo.rs:118)
example : TraceInformation.marshal ({ t := 96, length := 34, ins := 0, mcc := 999, mnc := 1, mnc_is_three_digits := false, trace_id := 16777210, trigger_events := [0, 0, 0, 0, 0, 0, 0, 0, 0], list_ne_types := 43690, trace_depth := 9, list_interfaces := [0, 0, 0, 0, 0, 0, 0, 0, 0, 0, 0, 0], trace_collection_ip := 2332526008 } : TraceInformation) = [96, 0, 34, 0, 153, 249, 16, 255, 255, 250, 0, 0, 0, 0, 0, 0, 0, 0, 0, 170, 170, 9, 0, 0, 0, 0, 0, 0, 0, 0, 0, 0, 0, 0, 139, 7, 133, 184] := by
  decide +kernel

-- `trace_info_ie_unmarshal_test` (gtpv2/messages/ies/traceinfo.rs:144)
example : TraceInformation.unmarshal .debug [96, 0, 34, 0, 153, 249, 16, 255, 255, 250, 0, 0, 0, 0, 0, 0, 0, 0, 0, 170, 170, 9, 0, 0, 0, 0, 0, 0, 0, 0, 0, 0, 0, 0, 139, 7, 133, 184] = .ok { t := 96, length := 34, ins := 0, mcc := 999, mnc := 1, mnc_is_three_digits := false, trace_id := 16777210, trigger_events := [0, 0, 0, 0, 0, 0, 0, 0, 0], list_ne_types := 43690, trace_depth := 9, list_interfaces := [0, 0, 0, 0, 0, 0, 0, 0, 0, 0, 0, 0], trace_collection_ip := 2332526008 } := by
  decide +kernel

-- `trace_ref_ie_marshal_test` (gtpv2/messages/ies/tracereference.rs:96)
example : TraceReference.marshal ({ t := 83, length := 6, ins := 0, mcc := 999, mnc := 1, mnc_is_three_digits := false, trace_id := 16777215 } : TraceReference) = [83, 0, 6, 0, 153, 249, 16, 255, 255, 255] := by
  decide +kernel

-- `trace_ref_ie_unmarshal_test` (gtpv2/messages/ies/tracereference.rs:113)
example : TraceReference.unmarshal .debug [83, 0, 6, 0, 153, 249, 16, 255, 255, 255] = .ok { t := 83, length := 6, ins := 0, mcc := 999, mnc := 1, mnc_is_three_digits := false, trace_id := 16777215 } := by
  decide +kernel

-- `transaction_id_ie_marshal_test` (gtpv2/messages/ies/transactionid.rs:106)
example : TransactionIdentifier.marshal ({ t := 137, length := 2, ins := 0, tid := { flag := true, id := 7 } } : TransactionIdentifier) = [137, 0, 2, 0, 128, 7] := by
  decide +kernel

-- `transaction_id_ie_unmarshal_test` (gtpv2/messages/ies/transactionid.rs:120)
example : TransactionIdentifier.unmarshal .debug [137, 0, 2, 0, 128, 7] = .ok { t := 137, length := 2, ins := 0, tid := { flag := true, id := 7 } } := by
  decide +kernel

-- `twan_id_ie_unmarshal_test` (gtpv2/messages/ies/twanid.rs:216)
example : TwanId.unmarshal .debug [169, 0, 33, 0, 31, 3, 0, 0, 0, 255, 255, 255, 255, 255, 255, 3, 0, 0, 0, 153, 249, 16, 4, 116, 101, 115, 116, 0, 4, 255, 255, 255, 255, 3, 170, 170, 170] = .ok { t := 169, length := 33, ins := 0, ssid := [0, 0, 0], bssid := (some [255, 255, 255, 255, 255, 255]), civic_address := (some [0, 0, 0]), twan_plmnid := (some (999, 1, false)), twan_op_name := (some ['t', 'e', 's', 't']), relay_id := (some (0, [255, 255, 255, 255])), circuit_id := (some [170, 170, 170]) } := by
  decide +kernel

-- `twan_id_ie_marshal_test` (gtpv2/messages/ies/twanid.rs:239)
example : TwanId.marshal ({ t := 169, length := 33, ins := 0, ssid := [0, 0, 0], bssid := (some [255, 255, 255, 255, 255, 255]), civic_address := (some [0, 0, 0]), twan_plmnid := (some (999, 1, false)), twan_op_name := (some ['t', 'e', 's', 't']), relay_id := (some (0, [255, 255, 255, 255])), circuit_id := (some [170, 170, 170]) } : TwanId) = [169, 0, 33, 0, 31, 3, 0, 0, 0, 255, 255, 255, 255, 255, 255, 3, 0, 0, 0, 153, 249, 16, 4, 116, 101, 115, 116, 0, 4, 255, 255, 255, 255, 3, 170, 170, 170] := by
  decide +kernel

-- `twan_id_timestamp_ie_unmarshal_test` (gtpv2/messages/ies/twanidtimestamp.rs:81)
example : TwanIdTimeStamp.unmarshal .debug [179, 0, 4, 0, 238, 107, 40, 0] = .ok { t := 179, length := 4, ins := 0, timestamp := 4000000000 } := by
  decide +kernel

-- `twan_id_timestamp_ie_marshal_test` (gtpv2/messages/ies/twanidtimestamp.rs:94)
example : TwanIdTimeStamp.marshal ({ t := 179, length := 4, ins := 0, timestamp := 4000000000 } : TwanIdTimeStamp) = [179, 0, 4, 0, 238, 107, 40, 0] := by
  decide +kernel

-- `twmi_ie_unmarshal_test` (gtpv2/messages/ies/twmi.rs:94)
example : Twmi.unmarshal .debug [174, 0, 1, 0, 2] = .ok { t := 174, length := 1, ins := 0, mcm := true, scm := false } := by
  decide +kernel

-- `twmi_ie_marshal_test` (gtpv2/messages/ies/twmi.rs:108)
example : Twmi.marshal ({ t := 174, length := 1, ins := 0, mcm := true, scm := false } : Twmi) = [174, 0, 1, 0, 2] := by
  decide +kernel

-- `uci_ie_marshal_test` (gtpv2/messages/ies/uci.rs:176)
example : Uci.marshal ({ t := 145, length := 8, ins := 0, mcc := 262, mnc := 3, mnc_is_three_digits := false, csgid := 48190, access_mode := .ClosedMode, lcsg := false, cmi := .CsgMembership } : Uci) = [145, 0, 8, 0, 98, 242, 48, 0, 0, 188, 62, 1] := by
  decide +kernel

-- `uci_ie_unmarshal_test` (gtpv2/messages/ies/uci.rs:198)
example : Uci.unmarshal .debug [145, 0, 8, 0, 98, 242, 48, 0, 0, 188, 62, 1] = .ok { t := 145, length := 8, ins := 0, mcc := 262, mnc := 3, mnc_is_three_digits := false, csgid := 48190, access_mode := .ClosedMode, lcsg := false, cmi := .CsgMembership } := by
  decide +kernel

-- `uetimezone_ie_marshal_test` (gtpv2/messages/ies/uetimezone.rs:93)
example : UeTimeZone.marshal ({ t := 114, length := 2, ins := 0, time_zone := 4, dst := 1 } : UeTimeZone) = [114, 0, 2, 0, 4, 1] := by
  decide +kernel

-- `uetimezone_ie_unmarshal_test` (gtpv2/messages/ies/uetimezone.rs:108)
example : UeTimeZone.unmarshal .debug [114, 0, 2, 0, 4, 1] = .ok { t := 114, length := 2, ins := 0, time_zone := 4, dst := 1 } := by
  decide +kernel

-- `uli_ie_marshal_test_tai_ecgi` (gtpv2/messages/ies/uli.rs:232)
example : Uli.marshal ({ t := 86, length := 13, ins := 0, loc := [(.Ecgi { mcc := 262, mnc := 1, mnc_is_three_digits := false, eci := 28983298 }), (.Tai { mcc := 262, mnc := 1, mnc_is_three_digits := false, tac := 3033 })] } : Uli) = [86, 0, 13, 0, 24, 98, 242, 16, 11, 217, 98, 242, 16, 1, 186, 64, 2] := by
  decide +kernel

-- `uli_ie_unmarshal_test_tai_ecgi` (gtpv2/messages/ies/uli.rs:262)
example : Uli.unmarshal .debug [86, 0, 13, 0, 24, 98, 242, 16, 11, 217, 98, 242, 16, 1, 186, 64, 2] = .ok { t := 86, length := 13, ins := 0, loc := [(.Tai { mcc := 262, mnc := 1, mnc_is_three_digits := false, tac := 3033 }), (.Ecgi { mcc := 262, mnc := 1, mnc_is_three_digits := false, eci := 28983298 })] } := by
  decide +kernel

-- `uli_ie_unmarshal_test_tai_ecgi_invalid_length` (gtpv2/messages/ies/uli.rs:290)
example : Uli.unmarshal .debug [86, 0, 13, 0, 24, 98, 242, 16, 11, 217, 98, 242, 1, 186, 64, 2] = .err (.ieInvalidLength 86) := by
  decide +kernel

-- `uli_timestamp_ie_unmarshal_test` (gtpv2/messages/ies/ulitimestamp.rs:81)
example : UliTimestamp.unmarshal .debug [170, 0, 4, 0, 238, 107, 40, 0] = .ok { t := 170, length := 4, ins := 0, timestamp := 4000000000 } := by
  decide +kernel

-- `uli_timestamp_ie_marshal_test` (gtpv2/messages/ies/ulitimestamp.rs:94)
example : UliTimestamp.marshal ({ t := 170, length := 4, ins := 0, timestamp := 4000000000 } : UliTimestamp) = [170, 0, 4, 0, 238, 107, 40, 0] := by
  decide +kernel

-- `unknown_ie_marshal_test` (gtpv2/messages/ies/unknown.rs:70)
example : (fun x => IE.marshal (.Unknown x)) ({ t := 0, length := 3, ins := 0, value := [0, 15, 255] } : Unknown) = [0, 0, 3, 0, 0, 15, 255] := by
  decide +kernel

-- `unknown_ie_unmarshal_test` (gtpv2/messages/ies/unknown.rs:84)
example : Unknown.unmarshal .debug [0, 0, 3, 0, 0, 15, 255] = .ok { t := 0, length := 3, ins := 0, value := [0, 15, 255] } := by
  decide +kernel

-- `upfsif_ie_unmarshal_test` (gtpv2/messages/ies/upfsif.rs:88)
example : UpFunctionSelectionIndicationFlags.unmarshal .debug [202, 0, 1, 0, 1] = .ok { t := 202, length := 1, ins := 0, dcnr := true } := by
  decide +kernel

-- `upfsif_ie_marshal_test` (gtpv2/messages/ies/upfsif.rs:101)
example : UpFunctionSelectionIndicationFlags.marshal ({ t := 202, length := 1, ins := 0, dcnr := true } : UpFunctionSelectionIndicationFlags) = [202, 0, 1, 0, 1] := by
  decide +kernel

-- `upsp_ie_unmarshal_test` (gtpv2/messages/ies/upsp.rs:114)
example : UpSecurityPolicy.unmarshal .debug [218, 0, 1, 0, 1] = .ok { t := 218, length := 1, ins := 0, up_ip_policy := .Preferred } := by
  decide +kernel

-- `upsp_ie_marshal_test` (gtpv2/messages/ies/upsp.rs:127)
example : UpSecurityPolicy.marshal ({ t := 218, length := 1, ins := 0, up_ip_policy := .Preferred } : UpSecurityPolicy) = [218, 0, 1, 0, 1] := by
  decide +kernel

-- `v2x_info_ie_unmarshal_test` (gtpv2/messages/ies/v2xinformation.rs:116)
example : groupUnm (decoder .debug) V2xInformation.ofGroup .debug [208, 0, 70, 0, 210, 0, 2, 0, 0, 1, 210, 0, 2, 1, 0, 1, 211, 0, 4, 0, 170, 255, 255, 255, 211, 0, 4, 1, 255, 255, 255, 170, 209, 0, 38, 0, 212, 0, 11, 0, 1, 5, 0, 0, 170, 170, 0, 0, 255, 255, 1, 212, 0, 11, 0, 1, 6, 0, 0, 170, 170, 0, 0, 255, 255, 1, 211, 0, 4, 0, 255, 255, 255, 255] = .ok { t := 208, length := 70, ins := 0, services_auth := [{ t := 210, length := 2, ins := 0, vehicle_ue_auth := false, pedestrian_ue_auth := true }, { t := 210, length := 2, ins := 1, vehicle_ue_auth := false, pedestrian_ue_auth := true }], sidelink_max_brs := [{ t := 211, length := 4, ins := 0, bitrate := 2868903935 }, { t := 211, length := 4, ins := 1, bitrate := 4294967210 }], pc5_qos_params := (some { t := 209, length := 38, ins := 0, pc5_qos_flows := [{ t := 212, length := 11, ins := 0, pqi_label := 5, gfbr := 43690, mfbr := 65535, range := (some 1) }, { t := 212, length := 11, ins := 0, pqi_label := 6, gfbr := 43690, mfbr := 65535, range := (some 1) }], pc5_link_abrs := (some { t := 211, length := 4, ins := 0, bitrate := 4294967295 }) }) } := by
  decide +kernel

-- `v2x_info_ie_marshal_test` (gtpv2/messages/ies/v2xinformation.rs:188)
example : (fun x => IE.marshal (.V2xInformation x)) ({ t := 208, length := 70, ins := 0, services_auth := [{ t := 210, length := 2, ins := 0, vehicle_ue_auth := false, pedestrian_ue_auth := true }, { t := 210, length := 2, ins := 1, vehicle_ue_auth := false, pedestrian_ue_auth := true }], sidelink_max_brs := [{ t := 211, length := 4, ins := 0, bitrate := 2868903935 }, { t := 211, length := 4, ins := 1, bitrate := 4294967210 }], pc5_qos_params := (some { t := 209, length := 38, ins := 0, pc5_qos_flows := [{ t := 212, length := 11, ins := 0, pqi_label := 5, gfbr := 43690, mfbr := 65535, range := (some 1) }, { t := 212, length := 11, ins := 0, pqi_label := 6, gfbr := 43690, mfbr := 65535, range := (some 1) }], pc5_link_abrs := (some { t := 211, length := 4, ins := 0, bitrate := 4294967295 }) }) } : V2xInformation) = [208, 0, 70, 0, 210, 0, 2, 0, 0, 1, 210, 0, 2, 1, 0, 1, 211, 0, 4, 0, 170, 255, 255, 255, 211, 0, 4, 1, 255, 255, 255, 170, 209, 0, 38, 0, 212, 0, 11, 0, 1, 5, 0, 0, 170, 170, 0, 0, 255, 255, 1, 212, 0, 11, 0, 1, 6, 0, 0, 170, 170, 0, 0, 255, 255, 1, 211, 0, 4, 0, 255, 255, 255, 255] := by
  decide +kernel

-- `wlan_offload_ind_ie_unmarshal_test` (gtpv2/messages/ies/wlanoffloadindication.rs:99)
example : WlanOffloadIndication.unmarshal .debug [185, 0, 1, 0, 2] = .ok { t := 185, length := 1, ins := 0, eutran_ind := true, utran_ind := false } := by
  decide +kernel

-- `wlan_offload_ind_ie_marshal_test` (gtpv2/messages/ies/wlanoffloadindication.rs:113)
example : WlanOffloadIndication.marshal ({ t := 185, length := 1, ins := 0, eutran_ind := true, utran_ind := false } : WlanOffloadIndication) = [185, 0, 1, 0, 2] := by
  decide +kernel

end Gtp.V2
