import Verif.U.Msgs

/-!
# The unit tests under `src/gtpv1/gtpu/`, run on the model (1 of 1)

Generated by `scripts/gen_tests.py`.  These are tests of the model against the expectations written in the
repository, not proofs of properties.
-/

namespace Gtp.U
open Gtp.V1
open Gtp
set_option maxRecDepth 100000

-- `long_pdcp_exthdr_unmarshal_test` (gtpv1/gtpu/extensionheaders/longpdcppdunumber.rs:65)
example : LongPdcpPduNumber.unmarshal .debug [3, 2, 3, 255, 255, 0, 0, 0] = .ok { t := 3, length := 2, number := 262143 } := by
  decide +kernel

-- `long_pdcp_exthdr_marshal_test` (gtpv1/gtpu/extensionheaders/longpdcppdunumber.rs:77)
example : LongPdcpPduNumber.marshal ({ t := 3, length := 2, number := 262143 } : LongPdcpPduNumber) = [3, 2, 3, 255, 255, 0, 0, 0] := by
  decide +kernel

-- `nr_ran_container_exthdr_unmarshal_test` (gtpv1/gtpu/extensionheaders/nrrancontainer.rs:58)
example : Container.unmarshal .debug 132 [132, 2, 0, 1, 2, 3, 4, 5] = .ok { t := 132, length := 2, container := [0, 1, 2, 3, 4, 5] } := by
  decide +kernel

-- `nr_ran_container_exthdr_marshal_test` (gtpv1/gtpu/extensionheaders/nrrancontainer.rs:70)
example : Container.marshal ({ t := 132, length := 2, container := [0, 1, 2, 3, 4, 5] } : Container) = [132, 2, 0, 1, 2, 3, 4, 5] := by
  decide +kernel

-- `pdcp_exthdr_unmarshal_test` (gtpv1/gtpu/extensionheaders/pdcppdunumber.rs:57)
example : PdcpPduNumber.unmarshal .debug [192, 1, 16, 0] = .ok { t := 192, length := 1, number := 4096 } := by
  decide +kernel

-- `pdcp_exthdr_marshal_test` (gtpv1/gtpu/extensionheaders/pdcppdunumber.rs:69)
example : PdcpPduNumber.marshal ({ t := 192, length := 1, number := 4096 } : PdcpPduNumber) = [192, 1, 16, 0] := by
  decide +kernel

-- `pdu_session_container_exthdr_unmarshal_test` (gtpv1/gtpu/extensionheaders/pdusessioncontainer.rs:58)
example : Container.unmarshal .debug 133 [133, 2, 0, 1, 2, 3, 4, 5] = .ok { t := 133, length := 2, container := [0, 1, 2, 3, 4, 5] } := by
  decide +kernel

-- `pdu_session_container_exthdr_marshal_test` (gtpv1/gtpu/extensionheaders/pdusessioncontainer.rs:70)
example : Container.marshal ({ t := 133, length := 2, container := [0, 1, 2, 3, 4, 5] } : Container) = [133, 2, 0, 1, 2, 3, 4, 5] := by
  decide +kernel

-- `ran_container_exthdr_unmarshal_test` (gtpv1/gtpu/extensionheaders/rancontainer.rs:58)
example : Container.unmarshal .debug 129 [129, 2, 0, 1, 2, 3, 4, 5] = .ok { t := 129, length := 2, container := [0, 1, 2, 3, 4, 5] } := by
  decide +kernel

-- `ran_container_exthdr_marshal_test` (gtpv1/gtpu/extensionheaders/rancontainer.rs:70)
example : Container.marshal ({ t := 129, length := 2, container := [0, 1, 2, 3, 4, 5] } : Container) = [129, 2, 0, 1, 2, 3, 4, 5] := by
  decide +kernel

-- `sci_exthdr_unmarshal_test` (gtpv1/gtpu/extensionheaders/sci.rs:58)
example : Sci.unmarshal .debug [32, 1, 9, 0] = .ok { t := 32, length := 1, sci := 9 } := by
  decide +kernel

-- `sci_exthdr_marshal_test` (gtpv1/gtpu/extensionheaders/sci.rs:70)
example : Sci.marshal ({ t := 32, length := 1, sci := 9 } : Sci) = [32, 1, 9, 0] := by
  decide +kernel

-- `udp_port_exthdr_unmarshal_test` (gtpv1/gtpu/extensionheaders/udpport.rs:57)
example : UdpPort.unmarshal .debug [64, 1, 16, 0] = .ok { t := 64, length := 1, port := 4096 } := by
  decide +kernel

-- `udp_port_exthdr_marshal_test` (gtpv1/gtpu/extensionheaders/udpport.rs:69)
example : UdpPort.marshal ({ t := 64, length := 1, port := 4096 } : UdpPort) = [64, 1, 16, 0] := by
  decide +kernel

-- `unknown_exthdr_unmarshal_test` (gtpv1/gtpu/extensionheaders/unknown.rs:56)
example : unknownUnmarshal .debug [250, 1, 255, 255] = .ok { t := 250, length := 1, container := [255, 255] } := by
  decide +kernel

-- `unknown_ind_exthdr_marshal_test` (gtpv1/gtpu/extensionheaders/unknown.rs:68)
example : Container.marshal ({ t := 250, length := 1, container := [255, 255] } : Container) = [250, 1, 255, 255] := by
  decide +kernel

-- `xw_ran_container_exthdr_unmarshal_test` (gtpv1/gtpu/extensionheaders/xwrancontainer.rs:58)
example : Container.unmarshal .debug 131 [131, 2, 0, 1, 2, 3, 4, 5] = .ok { t := 131, length := 2, container := [0, 1, 2, 3, 4, 5] } := by
  decide +kernel

-- `xw_ran_container_exthdr_marshal_test` (gtpv1/gtpu/extensionheaders/xwrancontainer.rs:70)
example : Container.marshal ({ t := 131, length := 2, container := [0, 1, 2, 3, 4, 5] } : Container) = [131, 2, 0, 1, 2, 3, 4, 5] := by
  decide +kernel

-- `test_gtpv1_hdr_bare_unmarshal` (gtpv1/gtpu/header.rs:419)
example : Header.unmarshal .debug [48, 255, 0, 52, 22, 98, 103, 25] = .ok { msgtype := 255, length := 52, teid := 375547673, sqn := none, npdu := none, exts := none } := by
  decide +kernel

-- `test_gtpv1_hdr_bare_marshal` (gtpv1/gtpu/header.rs:433)
example : Header.marshal ({ msgtype := 255, length := 52, teid := 375547673, sqn := none, npdu := none, exts := none } : Header) = [48, 255, 0, 52, 22, 98, 103, 25] := by
  decide +kernel

-- `test_gtpv1_hdr_with_sqn_unmarshal` (gtpv1/gtpu/header.rs:449)
example : Header.unmarshal .debug [50, 2, 0, 6, 0, 0, 0, 0, 246, 78, 0, 0] = .ok { msgtype := 2, length := 6, teid := 0, sqn := (some 63054), npdu := none, exts := none } := by
  decide +kernel

-- `test_gtpv1_hdr_with_sqn_marshal` (gtpv1/gtpu/header.rs:465)
example : Header.marshal ({ msgtype := 2, length := 6, teid := 0, sqn := (some 63054), npdu := none, exts := none } : Header) = [50, 2, 0, 6, 0, 0, 0, 0, 246, 78, 0, 0] := by
  decide +kernel

-- `test_gtpv1_hdr_with_sqn_and_one_ext_header_unmarshal` (gtpv1/gtpu/header.rs:483)
example : Header.unmarshal .debug [54, 2, 0, 8, 0, 0, 0, 0, 246, 78, 0, 64, 1, 16, 0, 0] = .ok { msgtype := 2, length := 8, teid := 0, sqn := (some 63054), npdu := none, exts := (some [(.udpPort { t := 64, length := 1, port := 4096 })]) } := by
  decide +kernel

-- `test_gtpv1_hdr_with_sqn_and_one_ext_header_marshal` (gtpv1/gtpu/header.rs:504)
example : Header.marshal ({ msgtype := 2, length := 8, teid := 0, sqn := (some 63054), npdu := none, exts := (some [(.udpPort { t := 64, length := 1, port := 4096 })]) } : Header) = [54, 2, 0, 8, 0, 0, 0, 0, 246, 78, 0, 64, 1, 16, 0, 0] := by
  decide +kernel

-- `test_gtpv1_hdr_with_sqn_and_two_ext_header_unmarshal` (gtpv1/gtpu/header.rs:527)
example : Header.unmarshal .debug [54, 2, 0, 12, 0, 0, 0, 0, 246, 78, 0, 64, 1, 16, 0, 192, 1, 16, 0, 0] = .ok { msgtype := 2, length := 12, teid := 0, sqn := (some 63054), npdu := none, exts := (some [(.udpPort { t := 64, length := 1, port := 4096 }), (.pdcpPduNumber { t := 192, length := 1, number := 4096 })]) } := by
  decide +kernel

-- `test_gtpv1_hdr_with_sqn_and_two_ext_header_marshal` (gtpv1/gtpu/header.rs:555)
example : Header.marshal ({ msgtype := 2, length := 12, teid := 0, sqn := (some 63054), npdu := none, exts := (some [(.udpPort { t := 64, length := 1, port := 4096 }), (.pdcpPduNumber { t := 192, length := 1, number := 4096 })]) } : Header) = [54, 2, 0, 12, 0, 0, 0, 0, 246, 78, 0, 64, 1, 16, 0, 192, 1, 16, 0, 0] := by
  decide +kernel

-- `test_gtpv1_hdr_with_sqn_npdu_and_two_ext_header_unmarshal` (gtpv1/gtpu/header.rs:585)
example : Header.unmarshal .debug [54, 2, 0, 8, 0, 0, 0, 0, 246, 78, 0, 64, 1, 16, 0, 192, 1, 16, 0, 0] = .ok { msgtype := 2, length := 8, teid := 0, sqn := (some 63054), npdu := none, exts := (some [(.udpPort { t := 64, length := 1, port := 4096 }), (.pdcpPduNumber { t := 192, length := 1, number := 4096 })]) } := by
  decide +kernel

-- `test_gtpv1_hdr_with_sqn_npdu_and_two_ext_header_marshal` (gtpv1/gtpu/header.rs:613)
example : Header.marshal ({ msgtype := 2, length := 8, teid := 0, sqn := (some 63054), npdu := none, exts := (some [(.udpPort { t := 64, length := 1, port := 4096 }), (.pdcpPduNumber { t := 192, length := 1, number := 4096 })]) } : Header) = [54, 2, 0, 8, 0, 0, 0, 0, 246, 78, 0, 64, 1, 16, 0, 192, 1, 16, 0, 0] := by
  decide +kernel

-- `infinite_loop_issue_2` (gtpv1/gtpu/header.rs:643)
example : Header.unmarshal .debug (Header.marshal ({ msgtype := 0, length := 8, teid := 0, sqn := none, npdu := none, exts := (some [(.udpPort { t := 64, length := 0, port := 0 })]) } : Header)) = .err .extHeaderInvalidLength := by
  decide +kernel

-- `test_echo_req_unmarshal` (gtpv1/gtpu/messages/echoreq.rs:64)
example : EchoRequest.unmarshal .debug [50, 1, 0, 4, 0, 0, 0, 0, 73, 202, 0, 0] = .ok { header := { msgtype := 1, length := 4, teid := 0, sqn := (some 18890), npdu := none, exts := none }, priv := none } := by
  decide +kernel

-- `test_echo_req_marshal` (gtpv1/gtpu/messages/echoreq.rs:83)
example : EchoRequest.marshalInto [] ({ header := { msgtype := 1, length := 4, teid := 0, sqn := (some 18890), npdu := none, exts := none }, priv := none } : EchoRequest) = [50, 1, 0, 4, 0, 0, 0, 0, 73, 202, 0, 0] := by
  decide +kernel

-- `test_echo_req_with_private_ext_unmarshal` (gtpv1/gtpu/messages/echoreq.rs:104)
example : EchoRequest.unmarshal .debug [50, 1, 0, 12, 0, 0, 0, 0, 73, 202, 0, 0, 255, 0, 5, 0, 8, 1, 2, 3] = .ok { header := { msgtype := 1, length := 12, teid := 0, sqn := (some 18890), npdu := none, exts := none }, priv := (some { t := 255, length := 5, id := 8, value := [1, 2, 3] }) } := by
  decide +kernel

-- `test_echo_req_with_private_ext_marshal` (gtpv1/gtpu/messages/echoreq.rs:129)
example : EchoRequest.marshalInto [] ({ header := { msgtype := 1, length := 12, teid := 0, sqn := (some 18890), npdu := none, exts := none }, priv := (some { t := 255, length := 5, id := 8, value := [1, 2, 3] }) } : EchoRequest) = [50, 1, 0, 12, 0, 0, 0, 0, 73, 202, 0, 0, 255, 0, 5, 0, 8, 1, 2, 3] := by
  decide +kernel

-- `test_echo_req_with_incorrect_private_ext_unmarshal` (gtpv1/gtpu/messages/echoreq.rs:156)
example : EchoRequest.unmarshal .debug [50, 1, 0, 12, 0, 0, 0, 0, 73, 202, 0, 0, 255, 0, 5, 0, 8, 1, 2] = .ok { header := { msgtype := 1, length := 12, teid := 0, sqn := (some 18890), npdu := none, exts := none }, priv := none } := by
  decide +kernel

-- `test_echo_resp_unmarshal` (gtpv1/gtpu/messages/echoresp.rs:88)
example : EchoResponse.unmarshal .debug [50, 2, 0, 6, 0, 0, 0, 0, 246, 75, 0, 0, 14, 0] = .ok { header := { msgtype := 2, length := 6, teid := 0, sqn := (some 63051), npdu := none, exts := none }, recovery := { t := 14, value := 0 }, priv := none } := by
  decide +kernel

-- `test_echo_resp_marshal` (gtpv1/gtpu/messages/echoresp.rs:111)
example : EchoResponse.marshalInto [] ({ header := { msgtype := 2, length := 6, teid := 0, sqn := (some 63051), npdu := none, exts := none }, recovery := { t := 14, value := 0 }, priv := none } : EchoResponse) = [50, 2, 0, 6, 0, 0, 0, 0, 246, 75, 0, 0, 14, 0] := by
  decide +kernel

-- `test_echo_resp_without_mandatory_ie_unmarshal` (gtpv1/gtpu/messages/echoresp.rs:136)
example : EchoResponse.unmarshal .debug [50, 2, 0, 6, 0, 0, 0, 0, 246, 75, 0, 0] = .err .messageMandatoryIEMissing := by
  decide +kernel

-- `test_echo_resp_with_incorrect_mandatory_ie_unmarshal` (gtpv1/gtpu/messages/echoresp.rs:147)
example : EchoResponse.unmarshal .debug [50, 2, 0, 6, 0, 0, 0, 0, 246, 75, 0, 0, 15, 38] = .err .messageMandatoryIEMissing := by
  decide +kernel

-- `test_echo_resp_with_private_ext_unmarshal` (gtpv1/gtpu/messages/echoresp.rs:158)
example : EchoResponse.unmarshal .debug [50, 2, 0, 14, 0, 0, 0, 0, 246, 75, 0, 0, 14, 0, 255, 0, 5, 0, 8, 1, 2, 3] = .ok { header := { msgtype := 2, length := 14, teid := 0, sqn := (some 63051), npdu := none, exts := none }, recovery := { t := 14, value := 0 }, priv := (some { t := 255, length := 5, id := 8, value := [1, 2, 3] }) } := by
  decide +kernel

-- `test_echo_resp_with_private_ext_marshal` (gtpv1/gtpu/messages/echoresp.rs:187)
example : EchoResponse.marshalInto [] ({ header := { msgtype := 2, length := 14, teid := 0, sqn := (some 63051), npdu := none, exts := none }, recovery := { t := 14, value := 0 }, priv := (some { t := 255, length := 5, id := 8, value := [1, 2, 3] }) } : EchoResponse) = [50, 2, 0, 14, 0, 0, 0, 0, 246, 75, 0, 0, 14, 0, 255, 0, 5, 0, 8, 1, 2, 3] := by
  decide +kernel

-- `test_echo_resp_with_with_incorrect_mandatory_ie_and_private_ext_unmarshal` (gtpv1/gtpu/messages/echoresp.rs:218)
example : EchoResponse.unmarshal .debug [50, 2, 0, 14, 0, 0, 0, 0, 246, 75, 0, 0, 15, 38, 255, 0, 5, 0, 8, 1, 2, 3] = .err .messageMandatoryIEMissing := by
  decide +kernel

-- `test_echo_resp_with_with_missing_mandatory_ie_and_private_ext_unmarshal` (gtpv1/gtpu/messages/echoresp.rs:230)
example : EchoResponse.unmarshal .debug [50, 2, 0, 12, 0, 0, 0, 0, 246, 75, 0, 0, 255, 0, 5, 0, 8, 1, 2, 3] = .err .messageMandatoryIEMissing := by
  decide +kernel

-- `test_echo_resp_with_incorrect_private_ext_unmarshal` (gtpv1/gtpu/messages/echoresp.rs:242)
example : EchoResponse.unmarshal .debug [50, 2, 0, 14, 0, 0, 0, 0, 246, 75, 0, 0, 14, 38, 255, 0, 5, 0, 8, 1, 2] = .ok { header := { msgtype := 2, length := 14, teid := 0, sqn := (some 63051), npdu := none, exts := none }, recovery := { t := 14, value := 38 }, priv := none } := by
  decide +kernel

-- `test_end_marker_unmarshal` (gtpv1/gtpu/messages/endmarker.rs:64)
example : EndMarker.unmarshal .debug [50, 254, 0, 4, 0, 0, 0, 2, 73, 202, 0, 0] = .ok { header := { msgtype := 254, length := 4, teid := 2, sqn := (some 18890), npdu := none, exts := none }, priv := none } := by
  decide +kernel

-- `test_end_marker_marshal` (gtpv1/gtpu/messages/endmarker.rs:83)
example : EndMarker.marshalInto [] ({ header := { msgtype := 254, length := 4, teid := 2, sqn := (some 18890), npdu := none, exts := none }, priv := none } : EndMarker) = [50, 254, 0, 4, 0, 0, 0, 2, 73, 202, 0, 0] := by
  decide +kernel

-- `test_end_marker_with_private_ext_unmarshal` (gtpv1/gtpu/messages/endmarker.rs:104)
example : EndMarker.unmarshal .debug [50, 254, 0, 12, 0, 0, 0, 0, 73, 202, 0, 0, 255, 0, 5, 0, 8, 1, 2, 3] = .ok { header := { msgtype := 254, length := 12, teid := 0, sqn := (some 18890), npdu := none, exts := none }, priv := (some { t := 255, length := 5, id := 8, value := [1, 2, 3] }) } := by
  decide +kernel

-- `test_end_marker_with_private_ext_marshal` (gtpv1/gtpu/messages/endmarker.rs:129)
example : EndMarker.marshalInto [] ({ header := { msgtype := 254, length := 12, teid := 0, sqn := (some 18890), npdu := none, exts := none }, priv := (some { t := 255, length := 5, id := 8, value := [1, 2, 3] }) } : EndMarker) = [50, 254, 0, 12, 0, 0, 0, 0, 73, 202, 0, 0, 255, 0, 5, 0, 8, 1, 2, 3] := by
  decide +kernel

-- `test_error_indication_unmarshal` (gtpv1/gtpu/messages/errorindication.rs:134)
example : ErrorIndication.unmarshal .debug [54, 26, 0, 20, 0, 0, 0, 0, 73, 202, 0, 64, 1, 16, 0, 0, 16, 0, 0, 255, 255, 133, 0, 4, 100, 117, 130, 53] = .ok { header := { msgtype := 26, length := 20, teid := 0, sqn := (some 18890), npdu := none, exts := (some [(.udpPort { t := 64, length := 1, port := 4096 })]) }, teid := { t := 16, teid := 65535 }, peer := { t := 133, length := 4, ip := (.v4 1685422645) }, priv := none } := by
  decide +kernel

-- `test_error_indication_marshal` (gtpv1/gtpu/messages/errorindication.rs:168)
example : ErrorIndication.marshalInto [] ({ header := { msgtype := 26, length := 20, teid := 0, sqn := (some 18890), npdu := none, exts := (some [(.udpPort { t := 64, length := 1, port := 4096 })]) }, teid := { t := 16, teid := 65535 }, peer := { t := 133, length := 4, ip := (.v4 1685422645) }, priv := none } : ErrorIndication) = [54, 26, 0, 20, 0, 0, 0, 0, 73, 202, 0, 64, 1, 16, 0, 0, 16, 0, 0, 255, 255, 133, 0, 4, 100, 117, 130, 53] := by
  decide +kernel

-- `test_error_indication_without_mandatory_ie_unmarshal` (gtpv1/gtpu/messages/errorindication.rs:204)
example : ErrorIndication.unmarshal .debug [54, 26, 0, 15, 0, 0, 0, 0, 73, 202, 0, 64, 1, 16, 0, 0, 133, 0, 4, 100, 117, 130, 53] = .err .messageMandatoryIEMissing := by
  decide +kernel

-- `overflow_test` (gtpv1/gtpu/messages/errorindication.rs:216)
example : ErrorIndication.unmarshal .debug (ErrorIndication.marshalInto [] ({ header := { msgtype := 26, length := 8, teid := 0, sqn := none, npdu := none, exts := none }, teid := { t := 255, teid := 4294967295 }, peer := { t := 133, length := 4, ip := (.v4 0) }, priv := none } : ErrorIndication)) ≠ .panic := by
  decide +kernel

-- `test_gpdu_unmarshal` (gtpv1/gtpu/messages/gpdu.rs:60)
example : Gpdu.unmarshal .debug [50, 255, 0, 5, 0, 0, 0, 0, 73, 202, 0, 0, 1] = .ok { header := { msgtype := 255, length := 5, teid := 0, sqn := (some 18890), npdu := none, exts := none }, tpdu := [1] } := by
  decide +kernel

-- `test_gpdu_marshal` (gtpv1/gtpu/messages/gpdu.rs:79)
example : Gpdu.marshalInto [] ({ header := { msgtype := 255, length := 5, teid := 0, sqn := (some 18890), npdu := none, exts := none }, tpdu := [1] } : Gpdu) = [50, 255, 0, 5, 0, 0, 0, 0, 73, 202, 0, 0, 1] := by
  decide +kernel

-- `test_gpdu_missing_tpdu_unmarshal` (gtpv1/gtpu/messages/gpdu.rs:100)
example : Gpdu.unmarshal .debug [50, 255, 0, 5, 0, 0, 0, 0, 73, 202, 0, 0] = .err .messageLengthError := by
  decide +kernel

-- `extension_header_type_list_ie_marshal_test` (gtpv1/gtpu/messages/ies/extensionheadertypelist.rs:63)
example : ExtTypeList.marshal ({ t := 141, length := 5, list := [0, 1, 2, 3, 4] } : ExtTypeList) = [141, 5, 0, 1, 2, 3, 4] := by
  decide +kernel

-- `extension_header_type_list_ie_unmarshal_test` (gtpv1/gtpu/messages/ies/extensionheadertypelist.rs:76)
example : ExtTypeList.unmarshal .debug [141, 5, 0, 1, 2, 3, 4] = .ok { t := 141, length := 5, list := [0, 1, 2, 3, 4] } := by
  decide +kernel

-- `gsn_address_ie_ipv4_unmarshal_test` (gtpv1/gtpu/messages/ies/gsnaddress.rs:83)
example : GsnAddress.unmarshal .debug [133, 0, 4, 0, 0, 0, 0] = .ok { t := 133, length := 4, ip := (.v4 0) } := by
  decide +kernel

-- `gsn_address_ie_ipv6_unmarshal_test` (gtpv1/gtpu/messages/ies/gsnaddress.rs:95)
example : GsnAddress.unmarshal .debug [133, 0, 16, 0, 0, 0, 0, 0, 0, 0, 0, 0, 0, 0, 0, 0, 0, 0, 0] = .ok { t := 133, length := 16, ip := (.v6 ⟨0, 0⟩) } := by
  decide +kernel

-- `gsn_address_ie_ipv4_marshal_test` (gtpv1/gtpu/messages/ies/gsnaddress.rs:111)
example : GsnAddress.marshal ({ t := 133, length := 4, ip := (.v4 0) } : GsnAddress) = [133, 0, 4, 0, 0, 0, 0] := by
  decide +kernel

-- `gsn_address_ie_ipv6_marshal_test` (gtpv1/gtpu/messages/ies/gsnaddress.rs:124)
example : GsnAddress.marshal ({ t := 133, length := 16, ip := (.v6 ⟨0, 0⟩) } : GsnAddress) = [133, 0, 16, 0, 0, 0, 0, 0, 0, 0, 0, 0, 0, 0, 0, 0, 0, 0, 0] := by
  decide +kernel

-- `private_extension_ie_marshal_test` (gtpv1/gtpu/messages/ies/privateextension.rs:71)
example : PrivateExtension.marshal ({ t := 255, length := 5, id := 8, value := [1, 2, 3] } : PrivateExtension) = [255, 0, 5, 0, 8, 1, 2, 3] := by
  decide +kernel

-- `private_extension_ie_unmarshal_test` (gtpv1/gtpu/messages/ies/privateextension.rs:85)
example : PrivateExtension.unmarshal .debug [255, 0, 5, 0, 8, 1, 2, 3] = .ok { t := 255, length := 5, id := 8, value := [1, 2, 3] } := by
  decide +kernel

-- `recovery_ie_marshal_test` (gtpv1/gtpu/messages/ies/recovery.rs:53)
example : Recovery.marshal ({ t := 14, value := 99 } : Recovery) = [14, 99] := by
  decide +kernel

-- `recovery_ie_unmarshal_test` (gtpv1/gtpu/messages/ies/recovery.rs:65)
example : Recovery.unmarshal [14, 99] = .ok { t := 14, value := 99 } := by
  decide +kernel

-- `teid_ie_marshal_test` (gtpv1/gtpu/messages/ies/teid.rs:54)
example : Teid.marshal ({ t := 16, teid := 1665249239 } : Teid) = [16, 99, 65, 175, 215] := by
  decide +kernel

-- `teid_ie_unmarshal_test` (gtpv1/gtpu/messages/ies/teid.rs:66)
example : Teid.unmarshal [16, 99, 65, 175, 215] = .ok { t := 16, teid := 1665249239 } := by
  decide +kernel

-- `test_supported_ext_hdr_notification_unmarshal` (gtpv1/gtpu/messages/supportedexthdrnotification.rs:76)
example : SupportedExt.unmarshal .debug [50, 31, 0, 11, 0, 0, 0, 0, 246, 75, 0, 0, 141, 1, 0, 1, 2, 3, 4] = .ok { header := { msgtype := 31, length := 11, teid := 0, sqn := (some 63051), npdu := none, exts := none }, list := { t := 141, length := 1, list := [0, 1, 2, 3, 4] } } := by
  decide +kernel

-- `test_supported_ext_hdr_notification_marshal` (gtpv1/gtpu/messages/supportedexthdrnotification.rs:103)
example : SupportedExt.marshalInto [] ({ header := { msgtype := 31, length := 11, teid := 0, sqn := (some 63051), npdu := none, exts := none }, list := { t := 141, length := 1, list := [0, 1, 2, 3, 4] } } : SupportedExt) = [50, 31, 0, 11, 0, 0, 0, 0, 246, 75, 0, 0, 141, 5, 0, 1, 2, 3, 4] := by
  decide +kernel

-- `test_supported_ext_hdr_notification_resp_without_mandatory_ie_unmarshal` (gtpv1/gtpu/messages/supportedexthdrnotification.rs:129)
example : SupportedExt.unmarshal .debug [50, 31, 0, 4, 0, 0, 0, 0, 246, 75, 0, 0] = .err .messageMandatoryIEMissing := by
  decide +kernel

-- `test_supported_ext_hdr_notification_with_incorrect_mandatory_ie_unmarshal` (gtpv1/gtpu/messages/supportedexthdrnotification.rs:140)
example : SupportedExt.unmarshal .debug [50, 31, 0, 9, 0, 0, 0, 0, 246, 75, 0, 0, 141, 5, 0, 1, 2] = .err .messageMandatoryIEMissing := by
  decide +kernel

end Gtp.U
