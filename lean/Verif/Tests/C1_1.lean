import Verif.C1.Msgs
import Verif.C1.Simple

/-!
# The unit tests under `src/gtpv1/gtpc/`, run on the model (1 of 2)

Generated by `scripts/gen_tests.py`.  These are tests of the model against the expectations written in the
repository, not proofs of properties.
-/

namespace Gtp.C1
open Gtp.V1
open Gtp
set_option maxRecDepth 100000

-- `mbmssupport_ind_exthdr_unmarshal_test` (gtpv1/gtpc/extensionheaders/mbmssupportindication.rs:56)
example : Fixed.unmarshal 1 .debug [1, 1, 255, 255] = .ok { t := 1, length := 1, value := 65535 } := by
  decide +kernel

-- `mbmssupport_ind_exthdr_marshal_test` (gtpv1/gtpc/extensionheaders/mbmssupportindication.rs:68)
example : Fixed.marshal ({ t := 1, length := 1, value := 65535 } : Fixed) = [1, 1, 255, 255] := by
  decide +kernel

-- `msicrsi_exthdr_unmarshal_test` (gtpv1/gtpc/extensionheaders/msicrsi.rs:56)
example : Fixed.unmarshal 2 .debug [2, 1, 255, 255] = .ok { t := 2, length := 1, value := 65535 } := by
  decide +kernel

-- `msicrsi_exthdr_marshal_test` (gtpv1/gtpc/extensionheaders/msicrsi.rs:68)
example : Fixed.marshal ({ t := 2, length := 1, value := 65535 } : Fixed) = [2, 1, 255, 255] := by
  decide +kernel

-- `pdcp_exthdr_unmarshal_test` (gtpv1/gtpc/extensionheaders/pdcppdunumber.rs:56)
example : Fixed.unmarshal 192 .debug [192, 1, 16, 0] = .ok { t := 192, length := 1, value := 4096 } := by
  decide +kernel

-- `pdcp_exthdr_marshal_test` (gtpv1/gtpc/extensionheaders/pdcppdunumber.rs:68)
example : Fixed.marshal ({ t := 192, length := 1, value := 4096 } : Fixed) = [192, 1, 16, 0] := by
  decide +kernel

-- `suspend_req_exthdr_unmarshal_test` (gtpv1/gtpc/extensionheaders/suspendrequest.rs:56)
example : Fixed.unmarshal 193 .debug [193, 1, 255, 255] = .ok { t := 193, length := 1, value := 65535 } := by
  decide +kernel

-- `suspend_req_exthdr_marshal_test` (gtpv1/gtpc/extensionheaders/suspendrequest.rs:68)
example : Fixed.marshal ({ t := 193, length := 1, value := 65535 } : Fixed) = [193, 1, 255, 255] := by
  decide +kernel

-- `suspend_resp_exthdr_unmarshal_test` (gtpv1/gtpc/extensionheaders/suspendresponse.rs:56)
example : Fixed.unmarshal 194 .debug [194, 1, 255, 255] = .ok { t := 194, length := 1, value := 65535 } := by
  decide +kernel

-- `suspend_resp_exthdr_marshal_test` (gtpv1/gtpc/extensionheaders/suspendresponse.rs:68)
example : Fixed.marshal ({ t := 194, length := 1, value := 65535 } : Fixed) = [194, 1, 255, 255] := by
  decide +kernel

-- `unknown_exthdr_unmarshal_test` (gtpv1/gtpc/extensionheaders/unknown.rs:55)
example : Unknown.unmarshal .debug [250, 1, 255, 255] = .ok { t := 250, length := 1, value := [255, 255] } := by
  decide +kernel

-- `unknown_ind_exthdr_marshal_test` (gtpv1/gtpc/extensionheaders/unknown.rs:67)
example : Unknown.marshal ({ t := 250, length := 1, value := [255, 255] } : Unknown) = [250, 1, 255, 255] := by
  decide +kernel

-- `test_gtpv1_hdr_bare_unmarshal` (gtpv1/gtpc/header.rs:311)
example : Header.unmarshal .debug [48, 255, 0, 52, 22, 98, 103, 25] = .ok { msgtype := 255, length := 52, teid := 375547673, sqn := none, npdu := none, exts := none } := by
  decide +kernel

-- `test_gtpv1_hdr_bare_marshal` (gtpv1/gtpc/header.rs:325)
example : Header.marshal ({ msgtype := 255, length := 52, teid := 375547673, sqn := none, npdu := none, exts := none } : Header) = [48, 255, 0, 52, 22, 98, 103, 25] := by
  decide +kernel

-- `test_gtpv1_hdr_with_sqn_unmarshal` (gtpv1/gtpc/header.rs:341)
example : Header.unmarshal .debug [50, 2, 0, 6, 0, 0, 0, 0, 246, 78, 0, 0] = .ok { msgtype := 2, length := 6, teid := 0, sqn := (some 63054), npdu := none, exts := none } := by
  decide +kernel

-- `test_gtpv1_hdr_with_sqn_marshal` (gtpv1/gtpc/header.rs:357)
example : Header.marshal ({ msgtype := 2, length := 6, teid := 0, sqn := (some 63054), npdu := none, exts := none } : Header) = [50, 2, 0, 6, 0, 0, 0, 0, 246, 78, 0, 0] := by
  decide +kernel

-- `test_gtpv1_hdr_with_sqn_and_one_ext_header_unmarshal` (gtpv1/gtpc/header.rs:375)
example : Header.unmarshal .debug [54, 2, 0, 8, 0, 0, 0, 0, 246, 78, 0, 1, 1, 255, 255, 0] = .ok { msgtype := 2, length := 8, teid := 0, sqn := (some 63054), npdu := none, exts := (some [(.mbmsSupport { t := 1, length := 1, value := 65535 })]) } := by
  decide +kernel

-- `test_gtpv1_hdr_with_sqn_and_one_ext_header_marshal` (gtpv1/gtpc/header.rs:398)
example : Header.marshal ({ msgtype := 2, length := 8, teid := 0, sqn := (some 63054), npdu := none, exts := (some [(.mbmsSupport { t := 1, length := 1, value := 65535 })]) } : Header) = [54, 2, 0, 8, 0, 0, 0, 0, 246, 78, 0, 1, 1, 255, 255, 0] := by
  decide +kernel

-- `test_gtpv1_hdr_with_sqn_and_two_ext_header_unmarshal` (gtpv1/gtpc/header.rs:423)
example : Header.unmarshal .debug [54, 2, 0, 12, 0, 0, 0, 0, 246, 78, 0, 1, 1, 255, 255, 192, 1, 16, 0, 0] = .ok { msgtype := 2, length := 12, teid := 0, sqn := (some 63054), npdu := none, exts := (some [(.mbmsSupport { t := 1, length := 1, value := 65535 }), (.pdcpPduNumber { t := 192, length := 1, value := 4096 })]) } := by
  decide +kernel

-- `test_gtpv1_hdr_with_sqn_and_two_ext_header_marshal` (gtpv1/gtpc/header.rs:451)
example : Header.marshal ({ msgtype := 2, length := 12, teid := 0, sqn := (some 63054), npdu := none, exts := (some [(.mbmsSupport { t := 1, length := 1, value := 65535 }), (.pdcpPduNumber { t := 192, length := 1, value := 4096 })]) } : Header) = [54, 2, 0, 12, 0, 0, 0, 0, 246, 78, 0, 1, 1, 255, 255, 192, 1, 16, 0, 0] := by
  decide +kernel

-- `test_gtpv1_hdr_with_sqn_npdu_and_two_ext_header_unmarshal` (gtpv1/gtpc/header.rs:481)
example : Header.unmarshal .debug [55, 2, 0, 12, 0, 0, 0, 0, 246, 78, 255, 1, 1, 255, 255, 192, 1, 16, 0, 0] = .ok { msgtype := 2, length := 12, teid := 0, sqn := (some 63054), npdu := (some 255), exts := (some [(.mbmsSupport { t := 1, length := 1, value := 65535 }), (.pdcpPduNumber { t := 192, length := 1, value := 4096 })]) } := by
  decide +kernel

-- `test_gtpv1_hdr_with_sqn_npdu_and_two_ext_header_marshal` (gtpv1/gtpc/header.rs:509)
example : Header.marshal ({ msgtype := 2, length := 12, teid := 0, sqn := (some 63054), npdu := (some 255), exts := (some [(.mbmsSupport { t := 1, length := 1, value := 65535 }), (.pdcpPduNumber { t := 192, length := 1, value := 4096 })]) } : Header) = [55, 2, 0, 12, 0, 0, 0, 0, 246, 78, 255, 1, 1, 255, 255, 192, 1, 16, 0, 0] := by
  decide +kernel

-- `create_pdp_ctx_unmarshal_test` (gtpv1/gtpc/messages/createpdpctxreq.rs:1008)
example : CreatePDPContextRequest.unmarshal .debug [50, 16, 0, 167, 0, 0, 0, 0, 90, 252, 255, 0, 2, 9, 65, 80, 1, 113, 68, 69, 246, 3, 19, 0, 98, 255, 254, 255, 14, 14, 15, 252, 16, 0, 4, 114, 213, 17, 215, 8, 97, 2, 20, 5, 128, 0, 2, 241, 33, 131, 0, 13, 3, 105, 111, 116, 4, 49, 110, 99, 101, 3, 110, 101, 116, 132, 0, 32, 128, 128, 33, 16, 1, 0, 0, 16, 129, 6, 0, 0, 0, 0, 131, 6, 0, 0, 0, 0, 0, 13, 0, 0, 10, 0, 0, 5, 0, 0, 17, 0, 133, 0, 4, 172, 57, 43, 204, 133, 0, 4, 172, 57, 43, 205, 134, 0, 9, 145, 136, 34, 88, 1, 113, 68, 69, 246, 135, 0, 15, 3, 27, 99, 31, 115, 150, 115, 115, 116, 255, 255, 255, 0, 0, 0, 151, 0, 1, 2, 152, 0, 8, 0, 19, 0, 98, 83, 23, 4, 39, 153, 0, 2, 0, 0, 154, 0, 8, 104, 153, 21, 48, 145, 100, 16, 16] = .ok { header := { msgtype := 16, length := 167, teid := 0, sqn := (some 23292), npdu := none, exts := none }, imsi := (some { t := 2, imsi := ['9', '0', '1', '4', '0', '5', '1', '0', '1', '7', '4', '4', '5', '4', '6'] }), rai := (some { t := 3, mcc := 310, mnc := 260, mnc_is_three_digits := true, lac := 65534, rac := 255 }), recovery := (some { t := 14, value := 14 }), selectionmode := (some { t := 15, value := 0 }), teid_data := { t := 16, teid := 291541 }, teid_control := (some { t := 17, teid := 3607650562 }), nsapi := { t := 20, value := 5 }, linked_nsapi := none, charging_char := none, trace_ref := none, trace_type := none, end_user_address := (some { t := 128, length := 2, pdp_type_org := 1, pdp_type_nbr := 33, ipv4 := none, ipv6 := none }), apn := (some { t := 131, length := 13, name := ['i', 'o', 't', '.', '1', 'n', 'c', 'e', '.', 'n', 'e', 't'] }), pco := (some { t := 132, length := 32, pco := [128, 128, 33, 16, 1, 0, 0, 16, 129, 6, 0, 0, 0, 0, 131, 6, 0, 0, 0, 0, 0, 13, 0, 0, 10, 0, 0, 5, 0, 0, 17, 0] }), sgsn_ip_control := { t := 133, length := 4, ip := (.v4 2889427916) }, sgsn_ip_user := { t := 133, length := 4, ip := (.v4 2889427917) }, msisdn := (some { t := 134, length := 9, extension := 1, number_nature := 1, number_plan := 1, msisdn := ['8', '8', '2', '2', '8', '5', '1', '0', '1', '7', '4', '4', '5', '4', '6'] }), qos := { t := 135, length := 15, arp := 3, qos := [27, 99, 31, 115, 150, 115, 115, 116, 255, 255, 255, 0, 0, 0] }, tft := none, trigger_id := none, omc_id := none, common_flags := none, apn_restriction := none, rat_type := (some { t := 151, length := 1, rat_type := .geran }), uli := (some { t := 152, length := 8, mcc := 310, mnc := 260, mnc_is_three_digits := true, lac := 21271, loc := (.ci 1063) }), ms_timezone := (some { t := 153, length := 2, time_zone := 0, dst := 0 }), imei := (some { t := 154, length := 8, imei := ['8', '6', '9', '9', '5', '1', '0', '3', '1', '9', '4', '6', '0', '1', '0', '1'] }), camel_cic := none, add_trace_info := none, correlation_id := none, evolved_alloc := none, ext_common_flags := none, user_csg_info := none, apn_ambr := none, signalling_prio := none, cnose := none, mapped_ue_usage_type := none, up_func_selection_flags := none, private_extension := none } := by
  decide +kernel

-- `create_pdp_ctx_marshal_test` (gtpv1/gtpc/messages/createpdpctxreq.rs:1167)
example : CreatePDPContextRequest.desc.marshalInto [] ({ header := { msgtype := 16, length := 167, teid := 0, sqn := (some 23292), npdu := none, exts := none }, imsi := (some { t := 2, imsi := ['9', '0', '1', '4', '0', '5', '1', '0', '1', '7', '4', '4', '5', '4', '6'] }), rai := (some { t := 3, mcc := 310, mnc := 260, mnc_is_three_digits := true, lac := 65534, rac := 255 }), recovery := (some { t := 14, value := 14 }), selectionmode := (some { t := 15, value := 0 }), teid_data := { t := 16, teid := 291541 }, teid_control := (some { t := 17, teid := 3607650562 }), nsapi := { t := 20, value := 5 }, linked_nsapi := none, charging_char := none, trace_ref := none, trace_type := none, end_user_address := (some { t := 128, length := 2, pdp_type_org := 1, pdp_type_nbr := 33, ipv4 := none, ipv6 := none }), apn := (some { t := 131, length := 13, name := ['i', 'o', 't', '.', '1', 'n', 'c', 'e', '.', 'n', 'e', 't'] }), pco := (some { t := 132, length := 32, pco := [128, 128, 33, 16, 1, 0, 0, 16, 129, 6, 0, 0, 0, 0, 131, 6, 0, 0, 0, 0, 0, 13, 0, 0, 10, 0, 0, 5, 0, 0, 17, 0] }), sgsn_ip_control := { t := 133, length := 4, ip := (.v4 2889427916) }, sgsn_ip_user := { t := 133, length := 4, ip := (.v4 2889427916) }, msisdn := (some { t := 134, length := 9, extension := 1, number_nature := 1, number_plan := 1, msisdn := ['8', '8', '2', '2', '8', '5', '1', '0', '1', '7', '4', '4', '5', '4', '6'] }), qos := { t := 135, length := 15, arp := 3, qos := [27, 99, 31, 115, 150, 115, 115, 116, 255, 255, 255, 0, 0, 0] }, tft := none, trigger_id := none, omc_id := none, common_flags := none, apn_restriction := none, rat_type := (some { t := 151, length := 1, rat_type := .geran }), uli := (some { t := 152, length := 8, mcc := 310, mnc := 260, mnc_is_three_digits := true, lac := 21271, loc := (.ci 1063) }), ms_timezone := (some { t := 153, length := 2, time_zone := 0, dst := 0 }), imei := (some { t := 154, length := 8, imei := ['8', '6', '9', '9', '5', '1', '0', '3', '1', '9', '4', '6', '0', '1', '0', '1'] }), camel_cic := none, add_trace_info := none, correlation_id := none, evolved_alloc := none, ext_common_flags := none, user_csg_info := none, apn_ambr := none, signalling_prio := none, cnose := none, mapped_ue_usage_type := none, up_func_selection_flags := none, private_extension := none } : CreatePDPContextRequest) = [50, 16, 0, 167, 0, 0, 0, 0, 90, 252, 0, 0, 2, 9, 65, 80, 1, 113, 68, 69, 246, 3, 19, 0, 98, 255, 254, 255, 14, 14, 15, 252, 16, 0, 4, 114, 213, 17, 215, 8, 97, 2, 20, 5, 128, 0, 2, 241, 33, 131, 0, 13, 3, 105, 111, 116, 4, 49, 110, 99, 101, 3, 110, 101, 116, 132, 0, 32, 128, 128, 33, 16, 1, 0, 0, 16, 129, 6, 0, 0, 0, 0, 131, 6, 0, 0, 0, 0, 0, 13, 0, 0, 10, 0, 0, 5, 0, 0, 17, 0, 133, 0, 4, 172, 57, 43, 204, 133, 0, 4, 172, 57, 43, 204, 134, 0, 9, 145, 136, 34, 88, 1, 113, 68, 69, 246, 135, 0, 15, 3, 27, 99, 31, 115, 150, 115, 115, 116, 255, 255, 255, 0, 0, 0, 151, 0, 1, 2, 152, 0, 8, 0, 19, 0, 98, 83, 23, 4, 39, 153, 0, 2, 0, 0, 154, 0, 8, 104, 153, 21, 48, 145, 100, 16, 16] := by
  decide +kernel

-- `create_pdp_ctx_unmarshal_with_linked_nsapi_test` (gtpv1/gtpc/messages/createpdpctxreq.rs:1324)
example : CreatePDPContextRequest.unmarshal .debug [50, 16, 0, 169, 0, 0, 0, 0, 90, 252, 255, 0, 2, 9, 65, 80, 1, 113, 68, 69, 246, 3, 19, 0, 98, 255, 254, 255, 14, 14, 15, 252, 16, 0, 4, 114, 213, 17, 215, 8, 97, 2, 20, 5, 20, 1, 128, 0, 2, 241, 33, 131, 0, 13, 3, 105, 111, 116, 4, 49, 110, 99, 101, 3, 110, 101, 116, 132, 0, 32, 128, 128, 33, 16, 1, 0, 0, 16, 129, 6, 0, 0, 0, 0, 131, 6, 0, 0, 0, 0, 0, 13, 0, 0, 10, 0, 0, 5, 0, 0, 17, 0, 133, 0, 4, 172, 57, 43, 204, 133, 0, 4, 172, 57, 43, 204, 134, 0, 9, 145, 136, 34, 88, 1, 113, 68, 69, 246, 135, 0, 15, 3, 27, 99, 31, 115, 150, 115, 115, 116, 255, 255, 255, 0, 0, 0, 151, 0, 1, 2, 152, 0, 8, 0, 19, 0, 98, 83, 23, 4, 39, 153, 0, 2, 0, 0, 154, 0, 8, 104, 153, 21, 48, 145, 100, 16, 16] = .ok { header := { msgtype := 16, length := 169, teid := 0, sqn := (some 23292), npdu := none, exts := none }, imsi := (some { t := 2, imsi := ['9', '0', '1', '4', '0', '5', '1', '0', '1', '7', '4', '4', '5', '4', '6'] }), rai := (some { t := 3, mcc := 310, mnc := 260, mnc_is_three_digits := true, lac := 65534, rac := 255 }), recovery := (some { t := 14, value := 14 }), selectionmode := (some { t := 15, value := 0 }), teid_data := { t := 16, teid := 291541 }, teid_control := (some { t := 17, teid := 3607650562 }), nsapi := { t := 20, value := 5 }, linked_nsapi := (some { t := 20, value := 1 }), charging_char := none, trace_ref := none, trace_type := none, end_user_address := (some { t := 128, length := 2, pdp_type_org := 1, pdp_type_nbr := 33, ipv4 := none, ipv6 := none }), apn := (some { t := 131, length := 13, name := ['i', 'o', 't', '.', '1', 'n', 'c', 'e', '.', 'n', 'e', 't'] }), pco := (some { t := 132, length := 32, pco := [128, 128, 33, 16, 1, 0, 0, 16, 129, 6, 0, 0, 0, 0, 131, 6, 0, 0, 0, 0, 0, 13, 0, 0, 10, 0, 0, 5, 0, 0, 17, 0] }), sgsn_ip_control := { t := 133, length := 4, ip := (.v4 2889427916) }, sgsn_ip_user := { t := 133, length := 4, ip := (.v4 2889427916) }, msisdn := (some { t := 134, length := 9, extension := 1, number_nature := 1, number_plan := 1, msisdn := ['8', '8', '2', '2', '8', '5', '1', '0', '1', '7', '4', '4', '5', '4', '6'] }), qos := { t := 135, length := 15, arp := 3, qos := [27, 99, 31, 115, 150, 115, 115, 116, 255, 255, 255, 0, 0, 0] }, tft := none, trigger_id := none, omc_id := none, common_flags := none, apn_restriction := none, rat_type := (some { t := 151, length := 1, rat_type := .geran }), uli := (some { t := 152, length := 8, mcc := 310, mnc := 260, mnc_is_three_digits := true, lac := 21271, loc := (.ci 1063) }), ms_timezone := (some { t := 153, length := 2, time_zone := 0, dst := 0 }), imei := (some { t := 154, length := 8, imei := ['8', '6', '9', '9', '5', '1', '0', '3', '1', '9', '4', '6', '0', '1', '0', '1'] }), camel_cic := none, add_trace_info := none, correlation_id := none, evolved_alloc := none, ext_common_flags := none, user_csg_info := none, apn_ambr := none, signalling_prio := none, cnose := none, mapped_ue_usage_type := none, up_func_selection_flags := none, private_extension := none } := by
  decide +kernel

-- `create_pdp_ctx_wrong_ie_order_unmarshal_test` (gtpv1/gtpc/messages/createpdpctxreq.rs:1482)
example : CreatePDPContextRequest.unmarshal .debug [50, 16, 0, 167, 0, 0, 0, 0, 90, 252, 255, 0, 2, 9, 65, 80, 1, 113, 68, 69, 246, 14, 14, 3, 19, 0, 98, 255, 254, 255, 15, 252, 16, 0, 4, 114, 213, 17, 215, 8, 97, 2, 20, 5, 128, 0, 2, 241, 33, 131, 0, 13, 3, 105, 111, 116, 4, 49, 110, 99, 101, 3, 110, 101, 116, 132, 0, 32, 128, 128, 33, 16, 1, 0, 0, 16, 129, 6, 0, 0, 0, 0, 131, 6, 0, 0, 0, 0, 0, 13, 0, 0, 10, 0, 0, 5, 0, 0, 17, 0, 133, 0, 4, 172, 57, 43, 205, 133, 0, 4, 172, 57, 43, 204, 134, 0, 9, 145, 136, 34, 88, 1, 113, 68, 69, 246, 135, 0, 15, 3, 27, 99, 31, 115, 150, 115, 115, 116, 255, 255, 255, 0, 0, 0, 151, 0, 1, 2, 152, 0, 8, 0, 19, 0, 98, 83, 23, 4, 39, 153, 0, 2, 0, 0, 154, 0, 8, 104, 153, 21, 48, 145, 100, 16, 16] = .err .messageInvalidMessageFormat := by
  decide +kernel

-- `create_pdp_ctx_missing_mandatory_ie_unmarshal_test` (gtpv1/gtpc/messages/createpdpctxreq.rs:1516)
example : CreatePDPContextRequest.unmarshal .debug [50, 16, 0, 162, 0, 0, 0, 0, 90, 252, 255, 0, 2, 9, 65, 80, 1, 113, 68, 69, 246, 3, 19, 0, 98, 255, 254, 255, 14, 14, 15, 252, 17, 215, 8, 97, 2, 20, 5, 128, 0, 2, 241, 33, 131, 0, 13, 3, 105, 111, 116, 4, 49, 110, 99, 101, 3, 110, 101, 116, 132, 0, 32, 128, 128, 33, 16, 1, 0, 0, 16, 129, 6, 0, 0, 0, 0, 131, 6, 0, 0, 0, 0, 0, 13, 0, 0, 10, 0, 0, 5, 0, 0, 17, 0, 133, 0, 4, 172, 57, 43, 205, 133, 0, 4, 172, 57, 43, 204, 134, 0, 9, 145, 136, 34, 88, 1, 113, 68, 69, 246, 135, 0, 15, 3, 27, 99, 31, 115, 150, 115, 115, 116, 255, 255, 255, 0, 0, 0, 151, 0, 1, 2, 152, 0, 8, 0, 19, 0, 98, 83, 23, 4, 39, 153, 0, 2, 0, 0, 154, 0, 8, 104, 153, 21, 48, 145, 100, 16, 16] = .err .messageMandatoryIEMissing := by
  decide +kernel

-- `create_pdp_ctx_resp_unmarshal_test` (gtpv1/gtpc/messages/createpdpctxresp.rs:705)
example : CreatePDPContextResponse.unmarshal .debug [50, 17, 0, 86, 112, 11, 12, 96, 116, 23, 0, 0, 1, 128, 8, 254, 14, 6, 16, 243, 195, 231, 249, 17, 31, 75, 242, 244, 127, 5, 235, 107, 179, 128, 0, 6, 241, 33, 10, 219, 59, 48, 132, 0, 20, 128, 128, 33, 16, 2, 0, 0, 16, 129, 6, 8, 8, 8, 8, 131, 6, 8, 8, 4, 4, 133, 0, 4, 62, 153, 137, 65, 133, 0, 4, 62, 153, 137, 75, 135, 0, 12, 3, 27, 147, 31, 115, 150, 151, 151, 68, 251, 16, 64] = .ok { header := { msgtype := 17, length := 86, teid := 1879772256, sqn := (some 29719), npdu := none, exts := none }, cause := { t := 1, value := 128 }, reordering_req := (some { t := 8, req := false }), recovery := (some { t := 14, value := 6 }), teid_data := (some { t := 16, teid := 4089702393 }), teid_control := (some { t := 17, teid := 525071092 }), nsapi := none, charging_id := (some { t := 127, value := 99314611 }), end_user_address := (some { t := 128, length := 6, pdp_type_org := 1, pdp_type_nbr := 33, ipv4 := (some 182139696), ipv6 := none }), pco := (some { t := 132, length := 20, pco := [128, 128, 33, 16, 2, 0, 0, 16, 129, 6, 8, 8, 8, 8, 131, 6, 8, 8, 4, 4] }), ggsn_ip_control := (some { t := 133, length := 4, ip := (.v4 1050249537) }), ggsn_ip_user := (some { t := 133, length := 4, ip := (.v4 1050249547) }), alt_ggsn_ip_control := none, alt_ggsn_ip_user := none, qos := (some { t := 135, length := 12, arp := 3, qos := [27, 147, 31, 115, 150, 151, 151, 68, 251, 16, 64] }), charging_gw_addr := none, alt_charging_gw_addr := none, common_flags := none, apn_restriction := none, ms_info_change := none, bearer_ctrl_mode := none, evolved_alloc := none, ext_common_flags := none, csg_info_report := none, apn_ambr := none, ggsn_backoff_time := none, ext_common_flags_ii := none, private_extension := none } := by
  decide +kernel

-- `create_pdp_ctx_response_marshal_test` (gtpv1/gtpc/messages/createpdpctxresp.rs:801)
example : CreatePDPContextResponse.desc.marshalInto [] ({ header := { msgtype := 17, length := 86, teid := 1879772256, sqn := (some 29719), npdu := none, exts := none }, cause := { t := 1, value := 128 }, reordering_req := (some { t := 8, req := false }), recovery := (some { t := 14, value := 6 }), teid_data := (some { t := 16, teid := 4089702393 }), teid_control := (some { t := 17, teid := 525071092 }), nsapi := none, charging_id := (some { t := 127, value := 99314611 }), end_user_address := (some { t := 128, length := 6, pdp_type_org := 1, pdp_type_nbr := 33, ipv4 := (some 182139696), ipv6 := none }), pco := (some { t := 132, length := 20, pco := [128, 128, 33, 16, 2, 0, 0, 16, 129, 6, 8, 8, 8, 8, 131, 6, 8, 8, 4, 4] }), ggsn_ip_control := (some { t := 133, length := 4, ip := (.v4 1050249537) }), ggsn_ip_user := (some { t := 133, length := 4, ip := (.v4 1050249547) }), alt_ggsn_ip_control := none, alt_ggsn_ip_user := none, qos := (some { t := 135, length := 12, arp := 3, qos := [27, 147, 31, 115, 150, 151, 151, 68, 251, 16, 64] }), charging_gw_addr := none, alt_charging_gw_addr := none, common_flags := none, apn_restriction := none, ms_info_change := none, bearer_ctrl_mode := none, evolved_alloc := none, ext_common_flags := none, csg_info_report := none, apn_ambr := none, ggsn_backoff_time := none, ext_common_flags_ii := none, private_extension := none } : CreatePDPContextResponse) = [50, 17, 0, 86, 112, 11, 12, 96, 116, 23, 0, 0, 1, 128, 8, 254, 14, 6, 16, 243, 195, 231, 249, 17, 31, 75, 242, 244, 127, 5, 235, 107, 179, 128, 0, 6, 241, 33, 10, 219, 59, 48, 132, 0, 20, 128, 128, 33, 16, 2, 0, 0, 16, 129, 6, 8, 8, 8, 8, 131, 6, 8, 8, 4, 4, 133, 0, 4, 62, 153, 137, 65, 133, 0, 4, 62, 153, 137, 75, 135, 0, 12, 3, 27, 147, 31, 115, 150, 151, 151, 68, 251, 16, 64] := by
  decide +kernel

-- `create_pdp_ctx_resp_unmarshal_with_repetitive_fields_ggsn_addr_charging_gw` (gtpv1/gtpc/messages/createpdpctxresp.rs:895)
example : CreatePDPContextResponse.unmarshal .debug [50, 17, 0, 114, 112, 11, 12, 96, 116, 23, 0, 0, 1, 128, 8, 254, 14, 6, 16, 243, 195, 231, 249, 17, 31, 75, 242, 244, 127, 5, 235, 107, 179, 128, 0, 6, 241, 33, 10, 219, 59, 48, 132, 0, 20, 128, 128, 33, 16, 2, 0, 0, 16, 129, 6, 8, 8, 8, 8, 131, 6, 8, 8, 4, 4, 133, 0, 4, 62, 153, 137, 65, 133, 0, 4, 62, 153, 137, 75, 133, 0, 4, 62, 153, 137, 76, 133, 0, 4, 62, 153, 137, 77, 135, 0, 12, 3, 27, 147, 31, 115, 150, 151, 151, 68, 251, 16, 64, 251, 0, 4, 62, 153, 137, 78, 251, 0, 4, 62, 153, 137, 79] = .ok { header := { msgtype := 17, length := 114, teid := 1879772256, sqn := (some 29719), npdu := none, exts := none }, cause := { t := 1, value := 128 }, reordering_req := (some { t := 8, req := false }), recovery := (some { t := 14, value := 6 }), teid_data := (some { t := 16, teid := 4089702393 }), teid_control := (some { t := 17, teid := 525071092 }), nsapi := none, charging_id := (some { t := 127, value := 99314611 }), end_user_address := (some { t := 128, length := 6, pdp_type_org := 1, pdp_type_nbr := 33, ipv4 := (some 182139696), ipv6 := none }), pco := (some { t := 132, length := 20, pco := [128, 128, 33, 16, 2, 0, 0, 16, 129, 6, 8, 8, 8, 8, 131, 6, 8, 8, 4, 4] }), ggsn_ip_control := (some { t := 133, length := 4, ip := (.v4 1050249537) }), ggsn_ip_user := (some { t := 133, length := 4, ip := (.v4 1050249547) }), alt_ggsn_ip_control := (some { t := 133, length := 4, ip := (.v4 1050249548) }), alt_ggsn_ip_user := (some { t := 133, length := 4, ip := (.v4 1050249549) }), qos := (some { t := 135, length := 12, arp := 3, qos := [27, 147, 31, 115, 150, 151, 151, 68, 251, 16, 64] }), charging_gw_addr := (some { t := 251, length := 4, ip := (.v4 1050249550) }), alt_charging_gw_addr := (some { t := 251, length := 4, ip := (.v4 1050249551) }), common_flags := none, apn_restriction := none, ms_info_change := none, bearer_ctrl_mode := none, evolved_alloc := none, ext_common_flags := none, csg_info_report := none, apn_ambr := none, ggsn_backoff_time := none, ext_common_flags_ii := none, private_extension := none } := by
  decide +kernel

-- `create_pdp_ctx_resp_wrong_ie_order_unmarshal_test` (gtpv1/gtpc/messages/createpdpctxresp.rs:1011)
example : CreatePDPContextResponse.unmarshal .debug [50, 17, 0, 86, 112, 11, 12, 96, 116, 23, 0, 0, 8, 254, 1, 128, 14, 6, 16, 243, 195, 231, 249, 17, 31, 75, 242, 244, 127, 5, 235, 107, 179, 128, 0, 6, 241, 33, 10, 219, 59, 48, 132, 0, 20, 128, 128, 33, 16, 2, 0, 0, 16, 129, 6, 8, 8, 8, 8, 131, 6, 8, 8, 4, 4, 133, 0, 4, 62, 153, 137, 65, 133, 0, 4, 62, 153, 137, 75, 135, 0, 12, 3, 27, 147, 31, 115, 150, 151, 151, 68, 251, 16, 64] = .err .messageInvalidMessageFormat := by
  decide +kernel

-- `create_pdp_ctx_resp_missing_mandatory_ie_unmarshal_test` (gtpv1/gtpc/messages/createpdpctxresp.rs:1033)
example : CreatePDPContextResponse.unmarshal .debug [50, 17, 0, 84, 112, 11, 12, 96, 116, 23, 0, 0, 8, 254, 14, 6, 16, 243, 195, 231, 249, 17, 31, 75, 242, 244, 127, 5, 235, 107, 179, 128, 0, 6, 241, 33, 10, 219, 59, 48, 132, 0, 20, 128, 128, 33, 16, 2, 0, 0, 16, 129, 6, 8, 8, 8, 8, 131, 6, 8, 8, 4, 4, 133, 0, 4, 62, 153, 137, 65, 133, 0, 4, 62, 153, 137, 75, 135, 0, 12, 3, 27, 147, 31, 115, 150, 151, 151, 68, 251, 16, 64] = .err .messageMandatoryIEMissing := by
  decide +kernel

-- `delete_pdp_ctx_req_unmarshal_test` (gtpv1/gtpc/messages/deletepdpctxreq.rs:294)
example : DeletePDPContextRequest.unmarshal .debug [50, 20, 0, 8, 133, 146, 198, 74, 7, 231, 0, 0, 19, 255, 20, 6] = .ok { header := { msgtype := 20, length := 8, teid := 2240988746, sqn := (some 2023), npdu := none, exts := none }, cause := none, teardown := (some { t := 19, teardown := true }), nsapi := { t := 20, value := 6 }, pco := none, uli := none, ms_timezone := none, ext_common_flags := none, uli_timestamp := none, private_extension := none } := by
  decide +kernel

-- `delete_pdp_ctx_req_marshal_test` (gtpv1/gtpc/messages/deletepdpctxreq.rs:328)
example : DeletePDPContextRequest.desc.marshalInto [] ({ header := { msgtype := 20, length := 8, teid := 2240988746, sqn := (some 2023), npdu := none, exts := none }, cause := none, teardown := (some { t := 19, teardown := true }), nsapi := { t := 20, value := 6 }, pco := none, uli := none, ms_timezone := none, ext_common_flags := none, uli_timestamp := none, private_extension := none } : DeletePDPContextRequest) = [50, 20, 0, 8, 133, 146, 198, 74, 7, 231, 0, 0, 19, 255, 20, 6] := by
  decide +kernel

-- `delete_pdp_ctx_req_wrong_ie_order_unmarshal_test` (gtpv1/gtpc/messages/deletepdpctxreq.rs:361)
example : DeletePDPContextRequest.unmarshal .debug [50, 20, 0, 8, 133, 146, 198, 74, 7, 231, 0, 0, 20, 6, 19, 255] = .err .messageInvalidMessageFormat := by
  decide +kernel

-- `delete_pdp_ctx_req_missing_mandatory_ie_unmarshal_test` (gtpv1/gtpc/messages/deletepdpctxreq.rs:373)
example : DeletePDPContextRequest.unmarshal .debug [50, 20, 0, 6, 133, 146, 198, 74, 7, 231, 0, 0, 19, 255] = .err .messageMandatoryIEMissing := by
  decide +kernel

-- `delete_pdp_ctx_resp_unmarshal_test` (gtpv1/gtpc/messages/deletepdpctxresp.rs:222)
example : DeletePDPContextResponse.unmarshal .debug [50, 21, 0, 6, 12, 191, 10, 80, 7, 231, 0, 0, 1, 128] = .ok { header := { msgtype := 21, length := 6, teid := 213846608, sqn := (some 2023), npdu := none, exts := none }, cause := { t := 1, value := 128 }, pco := none, uli := none, ms_timezone := none, uli_timestamp := none, private_extension := none } := by
  decide +kernel

-- `delete_pdp_ctx_resp_marshal_test` (gtpv1/gtpc/messages/deletepdpctxresp.rs:252)
example : DeletePDPContextResponse.desc.marshalInto [] ({ header := { msgtype := 21, length := 6, teid := 213846608, sqn := (some 2023), npdu := none, exts := none }, cause := { t := 1, value := 128 }, pco := none, uli := none, ms_timezone := none, uli_timestamp := none, private_extension := none } : DeletePDPContextResponse) = [50, 21, 0, 6, 12, 191, 10, 80, 7, 231, 0, 0, 1, 128] := by
  decide +kernel

-- `delete_pdp_ctx_resp_wrong_ie_order_unmarshal_test` (gtpv1/gtpc/messages/deletepdpctxresp.rs:281)
example : DeletePDPContextResponse.unmarshal .debug [50, 21, 0, 13, 12, 191, 10, 80, 7, 231, 0, 0, 214, 0, 4, 238, 107, 40, 0, 1, 128] = .err .messageInvalidMessageFormat := by
  decide +kernel

-- `delete_pdp_ctx_resp_missing_mandatory_ie_unmarshal_test` (gtpv1/gtpc/messages/deletepdpctxresp.rs:293)
example : DeletePDPContextResponse.unmarshal .debug [50, 21, 0, 11, 12, 191, 10, 80, 7, 231, 0, 0, 214, 0, 4, 238, 107, 40, 0] = .err .messageMandatoryIEMissing := by
  decide +kernel

-- `test_echo_req_unmarshal` (gtpv1/gtpc/messages/echoreq.rs:63)
example : EchoRequest.unmarshal .debug [50, 1, 0, 4, 0, 0, 0, 0, 73, 202, 0, 0] = .ok { header := { msgtype := 1, length := 4, teid := 0, sqn := (some 18890), npdu := none, exts := none }, private_ext := none } := by
  decide +kernel

-- `test_echo_req_marshal` (gtpv1/gtpc/messages/echoreq.rs:82)
example : EchoRequest.marshalInto [] ({ header := { msgtype := 1, length := 4, teid := 0, sqn := (some 18890), npdu := none, exts := none }, private_ext := none } : EchoRequest) = [50, 1, 0, 4, 0, 0, 0, 0, 73, 202, 0, 0] := by
  decide +kernel

-- `test_echo_req_with_private_ext_unmarshal` (gtpv1/gtpc/messages/echoreq.rs:103)
example : EchoRequest.unmarshal .debug [50, 1, 0, 12, 0, 0, 0, 0, 73, 202, 0, 0, 255, 0, 5, 0, 8, 1, 2, 3] = .ok { header := { msgtype := 1, length := 12, teid := 0, sqn := (some 18890), npdu := none, exts := none }, private_ext := (some { t := 255, length := 5, extension_id := 8, extension_value := [1, 2, 3] }) } := by
  decide +kernel

-- `test_echo_req_with_private_ext_marshal` (gtpv1/gtpc/messages/echoreq.rs:128)
example : EchoRequest.marshalInto [] ({ header := { msgtype := 1, length := 12, teid := 0, sqn := (some 18890), npdu := none, exts := none }, private_ext := (some { t := 255, length := 5, extension_id := 8, extension_value := [1, 2, 3] }) } : EchoRequest) = [50, 1, 0, 12, 0, 0, 0, 0, 73, 202, 0, 0, 255, 0, 5, 0, 8, 1, 2, 3] := by
  decide +kernel

-- `test_echo_req_with_incorrect_private_ext_unmarshal` (gtpv1/gtpc/messages/echoreq.rs:155)
example : EchoRequest.unmarshal .debug [50, 1, 0, 12, 0, 0, 0, 0, 73, 202, 0, 0, 255, 0, 5, 0, 8, 1, 2] = .ok { header := { msgtype := 1, length := 12, teid := 0, sqn := (some 18890), npdu := none, exts := none }, private_ext := none } := by
  decide +kernel

-- `test_echo_resp_unmarshal` (gtpv1/gtpc/messages/echoresp.rs:88)
example : EchoResponse.unmarshal .debug [50, 2, 0, 6, 0, 0, 0, 0, 246, 75, 0, 0, 14, 0] = .ok { header := { msgtype := 2, length := 6, teid := 0, sqn := (some 63051), npdu := none, exts := none }, recovery := { t := 14, value := 0 }, private_ext := none } := by
  decide +kernel

-- `test_echo_resp_marshal` (gtpv1/gtpc/messages/echoresp.rs:111)
example : EchoResponse.marshalInto [] ({ header := { msgtype := 2, length := 6, teid := 0, sqn := (some 63051), npdu := none, exts := none }, recovery := { t := 14, value := 0 }, private_ext := none } : EchoResponse) = [50, 2, 0, 6, 0, 0, 0, 0, 246, 75, 0, 0, 14, 0] := by
  decide +kernel

-- `test_echo_resp_without_mandatory_ie_unmarshal` (gtpv1/gtpc/messages/echoresp.rs:136)
example : EchoResponse.unmarshal .debug [50, 2, 0, 6, 0, 0, 0, 0, 246, 75, 0, 0] = .err .messageMandatoryIEMissing := by
  decide +kernel

-- `test_echo_resp_with_incorrect_mandatory_ie_unmarshal` (gtpv1/gtpc/messages/echoresp.rs:147)
example : EchoResponse.unmarshal .debug [50, 2, 0, 6, 0, 0, 0, 0, 246, 75, 0, 0, 15, 38] = .err .messageMandatoryIEMissing := by
  decide +kernel

-- `test_echo_resp_with_private_ext_unmarshal` (gtpv1/gtpc/messages/echoresp.rs:158)
example : EchoResponse.unmarshal .debug [50, 2, 0, 14, 0, 0, 0, 0, 246, 75, 0, 0, 14, 0, 255, 0, 5, 0, 8, 1, 2, 3] = .ok { header := { msgtype := 2, length := 14, teid := 0, sqn := (some 63051), npdu := none, exts := none }, recovery := { t := 14, value := 0 }, private_ext := (some { t := 255, length := 5, extension_id := 8, extension_value := [1, 2, 3] }) } := by
  decide +kernel

-- `test_echo_resp_with_private_ext_marshal` (gtpv1/gtpc/messages/echoresp.rs:187)
example : EchoResponse.marshalInto [] ({ header := { msgtype := 2, length := 14, teid := 0, sqn := (some 63051), npdu := none, exts := none }, recovery := { t := 14, value := 0 }, private_ext := (some { t := 255, length := 5, extension_id := 8, extension_value := [1, 2, 3] }) } : EchoResponse) = [50, 2, 0, 14, 0, 0, 0, 0, 246, 75, 0, 0, 14, 0, 255, 0, 5, 0, 8, 1, 2, 3] := by
  decide +kernel

-- `test_echo_resp_with_with_incorrect_mandatory_ie_and_private_ext_unmarshal` (gtpv1/gtpc/messages/echoresp.rs:218)
example : EchoResponse.unmarshal .debug [50, 2, 0, 14, 0, 0, 0, 0, 246, 75, 0, 0, 15, 38, 255, 0, 5, 0, 8, 1, 2, 3] = .err .messageMandatoryIEMissing := by
  decide +kernel

-- `test_echo_resp_with_with_missing_mandatory_ie_and_private_ext_unmarshal` (gtpv1/gtpc/messages/echoresp.rs:230)
example : EchoResponse.unmarshal .debug [50, 2, 0, 12, 0, 0, 0, 0, 246, 75, 0, 0, 255, 0, 5, 0, 8, 1, 2, 3] = .err .messageMandatoryIEMissing := by
  decide +kernel

-- `test_echo_resp_with_incorrect_private_ext_unmarshal` (gtpv1/gtpc/messages/echoresp.rs:242)
example : EchoResponse.unmarshal .debug [50, 2, 0, 14, 0, 0, 0, 0, 246, 75, 0, 0, 14, 38, 255, 0, 5, 0, 8, 1, 2] = .ok { header := { msgtype := 2, length := 14, teid := 0, sqn := (some 63051), npdu := none, exts := none }, recovery := { t := 14, value := 38 }, private_ext := none } := by
  decide +kernel

-- `additionaltraceinfo_ie_marshal_test` (gtpv1/gtpc/messages/ies/additionaltraceinfo.rs:87)
example : AdditionalTraceInfo.marshal ({ t := 162, length := 9, trace_ref := 65535, trace_rec_session_ref := 255, triggering_events := 1, trace_depth := 1, interface_list := 1, trace_activity_control := 1 } : AdditionalTraceInfo) = [162, 0, 9, 0, 255, 255, 0, 255, 1, 1, 1, 1] := by
  decide +kernel

-- `additionaltraceinfo_ie_unmarshal_test` (gtpv1/gtpc/messages/ies/additionaltraceinfo.rs:107)
example : AdditionalTraceInfo.unmarshal .debug [162, 0, 9, 0, 255, 255, 0, 255, 1, 1, 1, 1] = .ok { t := 162, length := 9, trace_ref := 65535, trace_rec_session_ref := 255, triggering_events := 1, trace_depth := 1, interface_list := 1, trace_activity_control := 1 } := by
  decide +kernel

-- `apn_ie_marshal_test` (gtpv1/gtpc/messages/ies/apn.rs:94)
example : Apn.marshal ({ t := 131, length := 13, name := ['t', 'e', 's', 't', '.', 'n', 'e', 't', '.', 'c', 'o', 'm'] } : Apn) = [131, 0, 13, 4, 116, 101, 115, 116, 3, 110, 101, 116, 3, 99, 111, 109] := by
  decide +kernel

-- `apn_ie_unmarshal_test` (gtpv1/gtpc/messages/ies/apn.rs:110)
example : Apn.unmarshal .debug [131, 0, 13, 4, 116, 101, 115, 116, 3, 110, 101, 116, 3, 99, 111, 109] = .ok { t := 131, length := 13, name := ['t', 'e', 's', 't', '.', 'n', 'e', 't', '.', 'c', 'o', 'm'] } := by
  decide +kernel

-- `apnambr_ie_marshal_test` (gtpv1/gtpc/messages/ies/apnambr.rs:67)
example : ApnAmbr.marshal ({ t := 198, length := 8, ambr_ul := 2000, ambr_dl := 8000 } : ApnAmbr) = [198, 0, 8, 0, 0, 7, 208, 0, 0, 31, 64] := by
  decide +kernel

-- `apnambr_ie_unmarshal_test` (gtpv1/gtpc/messages/ies/apnambr.rs:83)
example : ApnAmbr.unmarshal .debug [198, 0, 8, 0, 0, 7, 208, 0, 0, 31, 64] = .ok { t := 198, length := 8, ambr_ul := 2000, ambr_dl := 8000 } := by
  decide +kernel

-- `apnrestriction_ie_marshal_test` (gtpv1/gtpc/messages/ies/apnrestriction.rs:99)
example : ApnRestriction.marshal ({ t := 149, length := 1, restriction_type := .noApnRestriction } : ApnRestriction) = [149, 0, 1, 0] := by
  decide +kernel

-- `apnrestriciton_ie_unmarshal_test` (gtpv1/gtpc/messages/ies/apnrestriction.rs:112)
example : ApnRestriction.unmarshal .debug [149, 0, 1, 0] = .ok { t := 149, length := 1, restriction_type := .noApnRestriction } := by
  decide +kernel

-- `bearer_ctrl_mode_ie_unmarshal_test` (gtpv1/gtpc/messages/ies/bearercontrolmode.rs:63)
example : BearerControlMode.unmarshal .debug [184, 0, 1, 0] = .ok { t := 184, length := 1, bearer_ctrl_mode := 0 } := by
  decide +kernel

-- `bearer_ctrl_mode_ie_marshal_test` (gtpv1/gtpc/messages/ies/bearercontrolmode.rs:75)
example : BearerControlMode.marshal ({ t := 184, length := 1, bearer_ctrl_mode := 0 } : BearerControlMode) = [184, 0, 1, 0] := by
  decide +kernel

-- `camelcic_ie_marshal_test` (gtpv1/gtpc/messages/ies/camelcic.rs:67)
example : CamelChargingInfoContainer.marshal ({ t := 155, length := 4, camel_cic := [0, 0, 0, 0] } : CamelChargingInfoContainer) = [155, 0, 4, 0, 0, 0, 0] := by
  decide +kernel

-- `camelcic_ie_unmarshal_test` (gtpv1/gtpc/messages/ies/camelcic.rs:80)
example : CamelChargingInfoContainer.unmarshal .debug [155, 0, 4, 0, 0, 0, 0] = .ok { t := 155, length := 4, camel_cic := [0, 0, 0, 0] } := by
  decide +kernel

-- `cause_ie_marshal_test` (gtpv1/gtpc/messages/ies/cause.rs:51)
example : Cause.marshal ({ t := 1, value := 128 } : Cause) = [1, 128] := by
  decide +kernel

-- `cause_ie_unmarshal_test` (gtpv1/gtpc/messages/ies/cause.rs:63)
example : Cause.unmarshal .debug [1, 128] = .ok { t := 1, value := 128 } := by
  decide +kernel

-- `charging_characteristics_ie_marshal_test` (gtpv1/gtpc/messages/ies/chargingcharateristics.rs:59)
example : ChargingCharacteristics.marshal ({ t := 26, value := 8 } : ChargingCharacteristics) = [26, 8, 0] := by
  decide +kernel

-- `charging_characteristics_ie_unmarshal_test` (gtpv1/gtpc/messages/ies/chargingcharateristics.rs:71)
example : ChargingCharacteristics.unmarshal .debug [26, 8, 0] = .ok { t := 26, value := 8 } := by
  decide +kernel

-- `charging_gw_address_ie_ipv4_unmarshal_test` (gtpv1/gtpc/messages/ies/charginggwaddress.rs:79)
example : ChargingGWAddress.unmarshal .debug [251, 0, 4, 0, 0, 0, 0] = .ok { t := 251, length := 4, ip := (.v4 0) } := by
  decide +kernel

-- `charging_gw_address_ie_ipv6_unmarshal_test` (gtpv1/gtpc/messages/ies/charginggwaddress.rs:91)
example : ChargingGWAddress.unmarshal .debug [251, 0, 16, 0, 0, 0, 0, 0, 0, 0, 0, 0, 0, 0, 0, 0, 0, 0, 0] = .ok { t := 251, length := 16, ip := (.v6 ⟨0, 0⟩) } := by
  decide +kernel

-- `charging_gw_address_ie_ipv4_marshal_test` (gtpv1/gtpc/messages/ies/charginggwaddress.rs:107)
example : ChargingGWAddress.marshal ({ t := 251, length := 4, ip := (.v4 0) } : ChargingGWAddress) = [251, 0, 4, 0, 0, 0, 0] := by
  decide +kernel

-- `charging_gw_address_ie_ipv6_marshal_test` (gtpv1/gtpc/messages/ies/charginggwaddress.rs:120)
example : ChargingGWAddress.marshal ({ t := 251, length := 16, ip := (.v6 ⟨0, 0⟩) } : ChargingGWAddress) = [251, 0, 16, 0, 0, 0, 0, 0, 0, 0, 0, 0, 0, 0, 0, 0, 0, 0, 0] := by
  decide +kernel

-- `charging_id_ie_marshal_test` (gtpv1/gtpc/messages/ies/chargingid.rs:57)
example : ChargingID.marshal ({ t := 127, value := 255 } : ChargingID) = [127, 0, 0, 0, 255] := by
  decide +kernel

-- `charging_id_ie_unmarshal_test` (gtpv1/gtpc/messages/ies/chargingid.rs:69)
example : ChargingID.unmarshal .debug [127, 0, 0, 0, 255] = .ok { t := 127, value := 255 } := by
  decide +kernel

-- `cnose_ie_unmarshal_test` (gtpv1/gtpc/messages/ies/cnose.rs:80)
example : CnOperatorSelectionEntity.unmarshal .debug [216, 0, 1, 1] = .ok { t := 216, length := 1, selection_entity := .servingNetworkSelectedbyNetwork } := by
  decide +kernel

-- `cnose_ie_marshal_test` (gtpv1/gtpc/messages/ies/cnose.rs:92)
example : CnOperatorSelectionEntity.marshal ({ t := 216, length := 1, selection_entity := .servingNetworkSelectedbyNetwork } : CnOperatorSelectionEntity) = [216, 0, 1, 1] := by
  decide +kernel

-- `commonflags_ie_marshal_test` (gtpv1/gtpc/messages/ies/commonflags.rs:115)
example : CommonFlags.marshal ({ t := 148, length := 1, dual_addr_bearer := false, upgrade_qos_support := true, nrsn := true, no_qos_negotiation := false, mbms_counting_info := false, ran_procedures_ready := false, mbms_service_type := false, prohibit_payload_compr := false } : CommonFlags) = [148, 0, 1, 96] := by
  decide +kernel

-- `commonflags_ie_unmarshal_test` (gtpv1/gtpc/messages/ies/commonflags.rs:135)
example : CommonFlags.unmarshal .debug [148, 0, 1, 96] = .ok { t := 148, length := 1, dual_addr_bearer := false, upgrade_qos_support := true, nrsn := true, no_qos_negotiation := false, mbms_counting_info := false, ran_procedures_ready := false, mbms_service_type := false, prohibit_payload_compr := false } := by
  decide +kernel

-- `correlationid_ie_unmarshal_test` (gtpv1/gtpc/messages/ies/correlationid.rs:63)
example : CorrelationId.unmarshal .debug [183, 0, 1, 255] = .ok { t := 183, length := 1, correlation_id := 255 } := by
  decide +kernel

-- `correlationid_ie_marshal_test` (gtpv1/gtpc/messages/ies/correlationid.rs:75)
example : CorrelationId.marshal ({ t := 183, length := 1, correlation_id := 255 } : CorrelationId) = [183, 0, 1, 255] := by
  decide +kernel

-- `csg_info_reporting_ie_unmarshal_test` (gtpv1/gtpc/messages/ies/csginforeporting.rs:62)
example : CSGInformationReportingAction.unmarshal .debug [195, 0, 1, 7] = .ok { t := 195, length := 1, action := 7 } := by
  decide +kernel

-- `csg_info_reporting_ie_marshal_test` (gtpv1/gtpc/messages/ies/csginforeporting.rs:74)
example : CSGInformationReportingAction.marshal ({ t := 195, length := 1, action := 7 } : CSGInformationReportingAction) = [195, 0, 1, 7] := by
  decide +kernel

-- `dtf_ie_marshal_test` (gtpv1/gtpc/messages/ies/directtunnelflags.rs:75)
example : DirectTunnelFlags.marshal ({ t := 182, length := 1, dti := true, gcsi := true, ei := false } : DirectTunnelFlags) = [182, 0, 1, 3] := by
  decide +kernel

-- `dtf_ie_unmarshal_test` (gtpv1/gtpc/messages/ies/directtunnelflags.rs:90)
example : DirectTunnelFlags.unmarshal .debug [182, 0, 1, 3] = .ok { t := 182, length := 1, dti := true, gcsi := true, ei := false } := by
  decide +kernel

-- `end_user_address_ipv4_with_ip_ie_marshal_test` (gtpv1/gtpc/messages/ies/enduseraddress.rs:142)
example : EndUserAddress.marshal ({ t := 128, length := 6, pdp_type_org := 1, pdp_type_nbr := 33, ipv4 := (some 1685422645), ipv6 := none } : EndUserAddress) = [128, 0, 6, 241, 33, 100, 117, 130, 53] := by
  decide +kernel

-- `end_user_address_ipv4_with_ip_ie_unmarshal_test` (gtpv1/gtpc/messages/ies/enduseraddress.rs:158)
example : EndUserAddress.unmarshal .debug [128, 0, 6, 241, 33, 100, 117, 130, 53] = .ok { t := 128, length := 6, pdp_type_org := 1, pdp_type_nbr := 33, ipv4 := (some 1685422645), ipv6 := none } := by
  decide +kernel

-- `end_user_address_ipv4_without_ip_ie_marshal_test` (gtpv1/gtpc/messages/ies/enduseraddress.rs:175)
example : EndUserAddress.marshal ({ t := 128, length := 2, pdp_type_org := 1, pdp_type_nbr := 33, ipv4 := none, ipv6 := none } : EndUserAddress) = [128, 0, 2, 241, 33] := by
  decide +kernel

-- `end_user_address_ipv4_without_ip_ie_unmarshal_test` (gtpv1/gtpc/messages/ies/enduseraddress.rs:191)
example : EndUserAddress.unmarshal .debug [128, 0, 2, 241, 33] = .ok { t := 128, length := 2, pdp_type_org := 1, pdp_type_nbr := 33, ipv4 := none, ipv6 := none } := by
  decide +kernel

-- `end_user_address_ipv6_with_ip_ie_marshal_test` (gtpv1/gtpc/messages/ies/enduseraddress.rs:208)
example : EndUserAddress.marshal ({ t := 128, length := 18, pdp_type_org := 1, pdp_type_nbr := 87, ipv4 := none, ipv6 := (some ⟨0, 4294967295⟩) } : EndUserAddress) = [128, 0, 18, 241, 87, 0, 0, 0, 0, 0, 0, 0, 0, 0, 0, 0, 0, 255, 255, 255, 255] := by
  decide +kernel

-- `end_user_address_ipv6_with_ip_ie_unmarshal_test` (gtpv1/gtpc/messages/ies/enduseraddress.rs:227)
example : EndUserAddress.unmarshal .debug [128, 0, 18, 241, 87, 0, 0, 0, 0, 0, 0, 0, 0, 0, 0, 0, 0, 255, 255, 255, 255] = .ok { t := 128, length := 18, pdp_type_org := 1, pdp_type_nbr := 87, ipv4 := none, ipv6 := (some ⟨0, 4294967295⟩) } := by
  decide +kernel

-- `end_user_address_ipv6_without_ip_ie_marshal_test` (gtpv1/gtpc/messages/ies/enduseraddress.rs:247)
example : EndUserAddress.marshal ({ t := 128, length := 2, pdp_type_org := 1, pdp_type_nbr := 87, ipv4 := none, ipv6 := none } : EndUserAddress) = [128, 0, 2, 241, 87] := by
  decide +kernel

-- `end_user_address_ipv6_without_ip_ie_unmarshal_test` (gtpv1/gtpc/messages/ies/enduseraddress.rs:263)
example : EndUserAddress.unmarshal .debug [128, 0, 2, 241, 87] = .ok { t := 128, length := 2, pdp_type_org := 1, pdp_type_nbr := 87, ipv4 := none, ipv6 := none } := by
  decide +kernel

-- `end_user_address_ipv46_with_ip_ie_marshal_test` (gtpv1/gtpc/messages/ies/enduseraddress.rs:280)
example : EndUserAddress.marshal ({ t := 128, length := 22, pdp_type_org := 1, pdp_type_nbr := 141, ipv4 := (some 1685422645), ipv6 := (some ⟨0, 4294967295⟩) } : EndUserAddress) = [128, 0, 22, 241, 141, 100, 117, 130, 53, 0, 0, 0, 0, 0, 0, 0, 0, 0, 0, 0, 0, 255, 255, 255, 255] := by
  decide +kernel

-- `end_user_address_ipv46_with_ip_ie_unmarshal_test` (gtpv1/gtpc/messages/ies/enduseraddress.rs:299)
example : EndUserAddress.unmarshal .debug [128, 0, 22, 241, 141, 100, 117, 130, 53, 0, 0, 0, 0, 0, 0, 0, 0, 0, 0, 0, 0, 255, 255, 255, 255] = .ok { t := 128, length := 22, pdp_type_org := 1, pdp_type_nbr := 141, ipv4 := (some 1685422645), ipv6 := (some ⟨0, 4294967295⟩) } := by
  decide +kernel

-- `end_user_address_ipv46_without_ip_ie_marshal_test` (gtpv1/gtpc/messages/ies/enduseraddress.rs:319)
example : EndUserAddress.marshal ({ t := 128, length := 2, pdp_type_org := 1, pdp_type_nbr := 141, ipv4 := none, ipv6 := none } : EndUserAddress) = [128, 0, 2, 241, 141] := by
  decide +kernel

-- `end_user_address_ipv46_without_ip_ie_unmarshal_test` (gtpv1/gtpc/messages/ies/enduseraddress.rs:335)
example : EndUserAddress.unmarshal .debug [128, 0, 2, 241, 141] = .ok { t := 128, length := 2, pdp_type_org := 1, pdp_type_nbr := 141, ipv4 := none, ipv6 := none } := by
  decide +kernel

-- `end_user_address_etsi_ppp_ie_marshal_test` (gtpv1/gtpc/messages/ies/enduseraddress.rs:352)
example : EndUserAddress.marshal ({ t := 128, length := 2, pdp_type_org := 0, pdp_type_nbr := 1, ipv4 := none, ipv6 := none } : EndUserAddress) = [128, 0, 2, 240, 1] := by
  decide +kernel

-- `end_user_address_etsi_ppp_ie_unmarshal_test` (gtpv1/gtpc/messages/ies/enduseraddress.rs:368)
example : EndUserAddress.unmarshal .debug [128, 0, 2, 240, 1] = .ok { t := 128, length := 2, pdp_type_org := 0, pdp_type_nbr := 1, ipv4 := none, ipv6 := none } := by
  decide +kernel

-- `end_user_address_etsi_nonip_ie_marshal_test` (gtpv1/gtpc/messages/ies/enduseraddress.rs:385)
example : EndUserAddress.marshal ({ t := 128, length := 2, pdp_type_org := 0, pdp_type_nbr := 2, ipv4 := none, ipv6 := none } : EndUserAddress) = [128, 0, 2, 240, 2] := by
  decide +kernel

-- `end_user_address_etsi_nonip_ie_unmarshal_test` (gtpv1/gtpc/messages/ies/enduseraddress.rs:401)
example : EndUserAddress.unmarshal .debug [128, 0, 2, 240, 2] = .ok { t := 128, length := 2, pdp_type_org := 0, pdp_type_nbr := 2, ipv4 := none, ipv6 := none } := by
  decide +kernel

-- `evolvedallocretentioni_ie_unmarshal_test` (gtpv1/gtpc/messages/ies/evolvedallocretentioni.rs:73)
example : EvolvedAllocationRetentionI.unmarshal .debug [191, 0, 1, 100] = .ok { t := 191, length := 1, pre_emption_vulnerability := 0, priority_level := 9, pre_emption_capability := 1 } := by
  decide +kernel

-- `evolvedallocretentioni_ie_marshal_test` (gtpv1/gtpc/messages/ies/evolvedallocretentioni.rs:87)
example : EvolvedAllocationRetentionI.marshal ({ t := 191, length := 1, pre_emption_vulnerability := 0, priority_level := 9, pre_emption_capability := 1 } : EvolvedAllocationRetentionI) = [191, 0, 1, 100] := by
  decide +kernel

-- `extcommonflags_ie_marshal_test` (gtpv1/gtpc/messages/ies/extendedcommonflags.rs:115)
example : ExtendedCommonFlags.marshal ({ t := 193, length := 1, unauthenticated_imsi := true, ccrsi := false, cpsr := false, retloc := false, vb := false, pcri := true, bdwi := true, uasi := false } : ExtendedCommonFlags) = [193, 0, 1, 97] := by
  decide +kernel

-- `extcommonflags_ie_unmarshal_test` (gtpv1/gtpc/messages/ies/extendedcommonflags.rs:135)
example : ExtendedCommonFlags.unmarshal .debug [193, 0, 1, 97] = .ok { t := 193, length := 1, unauthenticated_imsi := true, ccrsi := false, cpsr := false, retloc := false, vb := false, pcri := true, bdwi := true, uasi := false } := by
  decide +kernel

-- `extcommonflagsii_ie_marshal_test` (gtpv1/gtpc/messages/ies/extendedcommonflagsii.rs:78)
example : ExtendedCommonFlagsII.marshal ({ t := 218, length := 1, pnsi := true, dtci := true, pmtsmi := false } : ExtendedCommonFlagsII) = [218, 0, 1, 3] := by
  decide +kernel

-- `extcommonflagsii_ie_unmarshal_test` (gtpv1/gtpc/messages/ies/extendedcommonflagsii.rs:93)
example : ExtendedCommonFlagsII.unmarshal .debug [218, 0, 1, 3] = .ok { t := 218, length := 1, pnsi := true, dtci := true, pmtsmi := false } := by
  decide +kernel

-- `extension_header_type_list_ie_marshal_test` (gtpv1/gtpc/messages/ies/extensionheadertypelist.rs:59)
example : ExtensionHeaderTypeList.marshal ({ t := 141, length := 5, list := [0, 1, 2, 3, 4] } : ExtensionHeaderTypeList) = [141, 5, 0, 1, 2, 3, 4] := by
  decide +kernel

-- `extension_header_type_list_ie_unmarshal_test` (gtpv1/gtpc/messages/ies/extensionheadertypelist.rs:72)
example : ExtensionHeaderTypeList.unmarshal .debug [141, 5, 0, 1, 2, 3, 4] = .ok { t := 141, length := 5, list := [0, 1, 2, 3, 4] } := by
  decide +kernel

-- `ggsn_backoff_ie_marshal_test` (gtpv1/gtpc/messages/ies/ggsnbackofftime.rs:70)
example : GGSNBackOffTime.marshal ({ t := 202, length := 1, timer_unit := 3, timer_value := 31 } : GGSNBackOffTime) = [202, 0, 1, 127] := by
  decide +kernel

-- `ggsn_backoff_ie_unmarshal_test` (gtpv1/gtpc/messages/ies/ggsnbackofftime.rs:84)
example : GGSNBackOffTime.unmarshal .debug [202, 0, 1, 127] = .ok { t := 202, length := 1, timer_unit := 3, timer_value := 31 } := by
  decide +kernel

-- `gsn_address_ie_ipv4_unmarshal_test` (gtpv1/gtpc/messages/ies/gsnaddress.rs:79)
example : GsnAddress.unmarshal .debug [133, 0, 4, 0, 0, 0, 0] = .ok { t := 133, length := 4, ip := (.v4 0) } := by
  decide +kernel

-- `gsn_address_ie_ipv6_unmarshal_test` (gtpv1/gtpc/messages/ies/gsnaddress.rs:91)
example : GsnAddress.unmarshal .debug [133, 0, 16, 0, 0, 0, 0, 0, 0, 0, 0, 0, 0, 0, 0, 0, 0, 0, 0] = .ok { t := 133, length := 16, ip := (.v6 ⟨0, 0⟩) } := by
  decide +kernel

-- `gsn_address_ie_ipv4_marshal_test` (gtpv1/gtpc/messages/ies/gsnaddress.rs:107)
example : GsnAddress.marshal ({ t := 133, length := 4, ip := (.v4 0) } : GsnAddress) = [133, 0, 4, 0, 0, 0, 0] := by
  decide +kernel

-- `gsn_address_ie_ipv6_marshal_test` (gtpv1/gtpc/messages/ies/gsnaddress.rs:120)
example : GsnAddress.marshal ({ t := 133, length := 16, ip := (.v6 ⟨0, 0⟩) } : GsnAddress) = [133, 0, 16, 0, 0, 0, 0, 0, 0, 0, 0, 0, 0, 0, 0, 0, 0, 0, 0] := by
  decide +kernel

-- `imei_ie_unmarshal_test` (gtpv1/gtpc/messages/ies/imei.rs:63)
example : Imei.unmarshal .debug [154, 0, 8, 83, 119, 105, 1, 22, 115, 6, 240] = .ok { t := 154, length := 8, imei := ['3', '5', '7', '7', '9', '6', '1', '0', '6', '1', '3', '7', '6', '0', '0'] } := by
  decide +kernel

-- `imei_ie_marshal_test` (gtpv1/gtpc/messages/ies/imei.rs:77)
example : Imei.marshal ({ t := 154, length := 8, imei := ['3', '5', '7', '7', '9', '6', '1', '0', '6', '1', '3', '7', '6', '0', '0'] } : Imei) = [154, 0, 8, 83, 119, 105, 1, 22, 115, 6, 240] := by
  decide +kernel

-- `imsi_ie_marshal_test` (gtpv1/gtpc/messages/ies/imsi.rs:57)
example : Imsi.unmarshal .debug [2, 9, 65, 80, 1, 49, 114, 148, 246] = .ok { t := 2, imsi := ['9', '0', '1', '4', '0', '5', '1', '0', '1', '3', '2', '7', '4', '9', '6'] } := by
  decide +kernel

-- `imsi_ie_unmarshal_test` (gtpv1/gtpc/messages/ies/imsi.rs:68)
example : Imsi.marshal ({ t := 2, imsi := ['9', '0', '1', '4', '0', '5', '1', '0', '1', '3', '2', '7', '4', '9', '6'] } : Imsi) = [2, 9, 65, 80, 1, 49, 114, 148, 246] := by
  decide +kernel

end Gtp.C1
