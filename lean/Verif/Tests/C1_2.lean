import Verif.C1.Msgs
import Verif.C1.Simple

/-!
# The unit tests under `src/gtpv1/gtpc/`, run on the model (2 of 2)

Generated by `scripts/gen_tests.py`.  These are tests of the model against the expectations written in the
repository, not proofs of properties.
-/

namespace Gtp.C1
open Gtp.V1
open Gtp
set_option maxRecDepth 100000

-- `ms_info_change_ie_unmarshal_test` (gtpv1/gtpc/messages/ies/msinfochange.rs:63)
example : MSInfoChangeReportingAction.unmarshal .debug [181, 0, 1, 1] = .ok { t := 181, length := 1, action := 1 } := by
  decide +kernel

-- `ms_info_change_ie_marshal_test` (gtpv1/gtpc/messages/ies/msinfochange.rs:75)
example : MSInfoChangeReportingAction.marshal ({ t := 181, length := 1, action := 1 } : MSInfoChangeReportingAction) = [181, 0, 1, 1] := by
  decide +kernel

-- `msisdn_ie_marshal_test` (gtpv1/gtpc/messages/ies/msisdn.rs:83)
example : Msisdn.unmarshal .debug [134, 0, 9, 145, 153, 136, 88, 1, 81, 136, 22, 245] = .ok { t := 134, length := 9, extension := 1, number_nature := 1, number_plan := 1, msisdn := ['9', '9', '8', '8', '8', '5', '1', '0', '1', '5', '8', '8', '6', '1', '5'] } := by
  decide +kernel

-- `msisdn_ie_unmarshal_test` (gtpv1/gtpc/messages/ies/msisdn.rs:100)
example : Msisdn.marshal ({ t := 134, length := 9, extension := 1, number_nature := 1, number_plan := 1, msisdn := ['9', '9', '8', '8', '8', '5', '1', '0', '1', '5', '8', '8', '6', '1', '5'] } : Msisdn) = [134, 0, 9, 145, 153, 136, 88, 1, 81, 136, 22, 245] := by
  decide +kernel

-- `mstimezone_ie_marshal_test` (gtpv1/gtpc/messages/ies/mstimezone.rs:75)
example : MsTimeZone.marshal ({ t := 153, length := 2, time_zone := 4, dst := 0 } : MsTimeZone) = [153, 0, 2, 4, 0] := by
  decide +kernel

-- `mstimezone_ie_unmarshal_test` (gtpv1/gtpc/messages/ies/mstimezone.rs:89)
example : MsTimeZone.unmarshal .debug [153, 0, 2, 132, 0] = .ok { t := 153, length := 2, time_zone := (-4), dst := 0 } := by
  decide +kernel

-- `mueut_ie_unmarshal_test` (gtpv1/gtpc/messages/ies/mueut.rs:63)
example : MappedUeUsageType.unmarshal .debug [223, 0, 2, 0, 15] = .ok { t := 223, length := 2, usage_type := 15 } := by
  decide +kernel

-- `mueut_ie_marshal_test` (gtpv1/gtpc/messages/ies/mueut.rs:75)
example : MappedUeUsageType.marshal ({ t := 223, length := 2, usage_type := 15 } : MappedUeUsageType) = [223, 0, 2, 0, 15] := by
  decide +kernel

-- `nsapi_ie_marshal_test` (gtpv1/gtpc/messages/ies/nsapi.rs:54)
example : Nsapi.marshal ({ t := 20, value := 5 } : Nsapi) = [20, 5] := by
  decide +kernel

-- `nsapi_ie_unmarshal_test` (gtpv1/gtpc/messages/ies/nsapi.rs:63)
example : Nsapi.unmarshal .debug [20, 5] = .ok { t := 20, value := 5 } := by
  decide +kernel

-- `omcid_ie_marshal_test` (gtpv1/gtpc/messages/ies/omcid.rs:67)
example : OmcId.marshal ({ t := 143, length := 2, omcid := [128, 128] } : OmcId) = [143, 0, 2, 128, 128] := by
  decide +kernel

-- `omcid_ie_unmarshal_test` (gtpv1/gtpc/messages/ies/omcid.rs:80)
example : OmcId.unmarshal .debug [143, 0, 2, 128, 128] = .ok { t := 143, length := 2, omcid := [128, 128] } := by
  decide +kernel

-- `pco_ie_marshal_test` (gtpv1/gtpc/messages/ies/pco.rs:67)
example : Pco.marshal ({ t := 132, length := 20, pco := [128, 128, 33, 16, 1, 1, 0, 16, 129, 6, 0, 0, 0, 0, 131, 6, 0, 0, 0, 0] } : Pco) = [132, 0, 20, 128, 128, 33, 16, 1, 1, 0, 16, 129, 6, 0, 0, 0, 0, 131, 6, 0, 0, 0, 0] := by
  decide +kernel

-- `pco_ie_unmarshal_test` (gtpv1/gtpc/messages/ies/pco.rs:86)
example : Pco.unmarshal .debug [132, 0, 20, 128, 128, 33, 16, 1, 1, 0, 16, 129, 6, 0, 0, 0, 0, 131, 6, 0, 0, 0, 0] = .ok { t := 132, length := 20, pco := [128, 128, 33, 16, 1, 1, 0, 16, 129, 6, 0, 0, 0, 0, 131, 6, 0, 0, 0, 0] } := by
  decide +kernel

-- `private_extension_ie_marshal_test` (gtpv1/gtpc/messages/ies/privateextension.rs:67)
example : PrivateExtension.marshal ({ t := 255, length := 5, extension_id := 8, extension_value := [1, 2, 3] } : PrivateExtension) = [255, 0, 5, 0, 8, 1, 2, 3] := by
  decide +kernel

-- `private_extension_ie_unmarshal_test` (gtpv1/gtpc/messages/ies/privateextension.rs:81)
example : PrivateExtension.unmarshal .debug [255, 0, 5, 0, 8, 1, 2, 3] = .ok { t := 255, length := 5, extension_id := 8, extension_value := [1, 2, 3] } := by
  decide +kernel

-- `pco_ie_marshal_test` (gtpv1/gtpc/messages/ies/qos.rs:75)
example : Qos.marshal ({ t := 135, length := 12, arp := 3, qos := [27, 147, 31, 115, 150, 151, 151, 68, 251, 16, 64] } : Qos) = [135, 0, 12, 3, 27, 147, 31, 115, 150, 151, 151, 68, 251, 16, 64] := by
  decide +kernel

-- `pco_ie_unmarshal_test` (gtpv1/gtpc/messages/ies/qos.rs:93)
example : Qos.unmarshal .debug [135, 0, 12, 3, 27, 147, 31, 115, 150, 151, 151, 68, 251, 16, 64] = .ok { t := 135, length := 12, arp := 3, qos := [27, 147, 31, 115, 150, 151, 151, 68, 251, 16, 64] } := by
  decide +kernel

-- `rai_ie_marshal_test` (gtpv1/gtpc/messages/ies/rai.rs:75)
example : Rai.marshal ({ t := 3, mcc := 999, mnc := 1, mnc_is_three_digits := false, lac := 999, rac := 67 } : Rai) = [3, 153, 249, 16, 3, 231, 67] := by
  decide +kernel

-- `rai_ie_unmarshal_test` (gtpv1/gtpc/messages/ies/rai.rs:91)
example : Rai.unmarshal .debug [3, 153, 249, 16, 3, 231, 67] = .ok { t := 3, mcc := 999, mnc := 1, mnc_is_three_digits := false, lac := 999, rac := 67 } := by
  decide +kernel

-- `rattype_ie_marshal_test` (gtpv1/gtpc/messages/ies/rattype.rs:101)
example : RatType.marshal ({ t := 151, length := 1, rat_type := .geran } : RatType) = [151, 0, 1, 2] := by
  decide +kernel

-- `rattype_ie_unmarshal_test` (gtpv1/gtpc/messages/ies/rattype.rs:114)
example : RatType.unmarshal .debug [151, 0, 1, 2] = .ok { t := 151, length := 1, rat_type := .geran } := by
  decide +kernel

-- `recovery_ie_marshal_test` (gtpv1/gtpc/messages/ies/recovery.rs:52)
example : Recovery.marshal ({ t := 14, value := 99 } : Recovery) = [14, 99] := by
  decide +kernel

-- `recovery_ie_unmarshal_test` (gtpv1/gtpc/messages/ies/recovery.rs:64)
example : Recovery.unmarshal .debug [14, 99] = .ok { t := 14, value := 99 } := by
  decide +kernel

-- `reordering_required_ie_marshal_test` (gtpv1/gtpc/messages/ies/reorderingreq.rs:57)
example : ReorderingRequired.marshal ({ t := 8, req := true } : ReorderingRequired) = [8, 255] := by
  decide +kernel

-- `reordering_required_ie_unmarshal_test` (gtpv1/gtpc/messages/ies/reorderingreq.rs:69)
example : ReorderingRequired.unmarshal .debug [8, 255] = .ok { t := 8, req := true } := by
  decide +kernel

-- `selectionmode_ie_marshal_test` (gtpv1/gtpc/messages/ies/selectionmode.rs:56)
example : SelectionMode.marshal ({ t := 15, value := 2 } : SelectionMode) = [15, 254] := by
  decide +kernel

-- `selectionmode_ie_unmarshal_test` (gtpv1/gtpc/messages/ies/selectionmode.rs:68)
example : SelectionMode.unmarshal .debug [15, 252] = .ok { t := 15, value := 0 } := by
  decide +kernel

-- `spi_ie_unmarshal_test` (gtpv1/gtpc/messages/ies/spi.rs:70)
example : Spi.unmarshal .debug [203, 0, 1, 1] = .ok { t := 203, length := 1, lapi := true } := by
  decide +kernel

-- `spi_ie_marshal_test` (gtpv1/gtpc/messages/ies/spi.rs:82)
example : Spi.marshal ({ t := 203, length := 1, lapi := true } : Spi) = [203, 0, 1, 1] := by
  decide +kernel

-- `teardown_ind_ie_unmarshal_test` (gtpv1/gtpc/messages/ies/teardownind.rs:60)
example : TeardownInd.unmarshal .debug [19, 255] = .ok { t := 19, teardown := true } := by
  decide +kernel

-- `teardown_ind_ie_marshal_test` (gtpv1/gtpc/messages/ies/teardownind.rs:71)
example : TeardownInd.marshal ({ t := 19, teardown := false } : TeardownInd) = [19, 254] := by
  decide +kernel

-- `teid_ie_marshal_test` (gtpv1/gtpc/messages/ies/teid.rs:54)
example : Teid.marshal ({ t := 16, teid := 1665249239 } : Teid) = [16, 99, 65, 175, 215] := by
  decide +kernel

-- `teid_ie_unmarshal_test` (gtpv1/gtpc/messages/ies/teid.rs:66)
example : Teid.unmarshal .debug [17, 99, 65, 175, 215] = .ok { t := 17, teid := 1665249239 } := by
  decide +kernel

-- `tft_ie_marshal_test` (gtpv1/gtpc/messages/ies/tft.rs:67)
example : Tft.marshal ({ t := 137, length := 2, tft := [128, 128] } : Tft) = [137, 0, 2, 128, 128] := by
  decide +kernel

-- `tft_ie_unmarshal_test` (gtpv1/gtpc/messages/ies/tft.rs:80)
example : Tft.unmarshal .debug [137, 0, 2, 128, 128] = .ok { t := 137, length := 2, tft := [128, 128] } := by
  decide +kernel

-- `trace_reference_ie_marshal_test` (gtpv1/gtpc/messages/ies/tracereference.rs:57)
example : TraceReference.marshal ({ t := 27, value := 1010 } : TraceReference) = [27, 3, 242] := by
  decide +kernel

-- `trace_reference_ie_unmarshal_test` (gtpv1/gtpc/messages/ies/tracereference.rs:69)
example : TraceReference.unmarshal .debug [27, 3, 242] = .ok { t := 27, value := 1010 } := by
  decide +kernel

-- `trace_type_ie_marshal_test` (gtpv1/gtpc/messages/ies/tracetype.rs:57)
example : TraceType.marshal ({ t := 28, value := 2 } : TraceType) = [28, 0, 2] := by
  decide +kernel

-- `trace_type_ie_unmarshal_test` (gtpv1/gtpc/messages/ies/tracetype.rs:69)
example : TraceType.unmarshal .debug [28, 0, 2] = .ok { t := 28, value := 2 } := by
  decide +kernel

-- `triggerid_ie_marshal_test` (gtpv1/gtpc/messages/ies/triggerid.rs:67)
example : TriggerId.marshal ({ t := 142, length := 2, triggerid := [128, 128] } : TriggerId) = [142, 0, 2, 128, 128] := by
  decide +kernel

-- `triggerid_ie_unmarshal_test` (gtpv1/gtpc/messages/ies/triggerid.rs:80)
example : TriggerId.unmarshal .debug [142, 0, 2, 128, 128] = .ok { t := 142, length := 2, triggerid := [128, 128] } := by
  decide +kernel

-- `uci_ie_marshal_test` (gtpv1/gtpc/messages/ies/uci.rs:117)
example : Uci.marshal ({ t := 194, length := 8, mcc := 262, mnc := 3, mnc_is_three_digits := false, csgid := 48190, access_mode := .closedMode, cmi := .nonCsgMembership } : Uci) = [194, 0, 8, 98, 242, 48, 0, 0, 188, 62, 1] := by
  decide +kernel

-- `uci_ie_unmarshal_test` (gtpv1/gtpc/messages/ies/uci.rs:137)
example : Uci.unmarshal .debug [194, 0, 8, 98, 242, 48, 0, 0, 188, 62, 65] = .ok { t := 194, length := 8, mcc := 262, mnc := 3, mnc_is_three_digits := false, csgid := 48190, access_mode := .hybridMode, cmi := .nonCsgMembership } := by
  decide +kernel

-- `uci_ie_three_digit_mnc_roundtrip_test` (gtpv1/gtpc/messages/ies/uci.rs:155)
example : Uci.marshal ({ t := 194, length := 8, mcc := 262, mnc := 10, mnc_is_three_digits := true, csgid := 48190, access_mode := .closedMode, cmi := .csgMembership } : Uci) = [194, 0, 8, 98, 2, 16, 0, 0, 188, 62, 0] := by
  decide +kernel

-- `uci_ie_three_digit_mnc_roundtrip_test` (gtpv1/gtpc/messages/ies/uci.rs:155)
example : Uci.unmarshal .debug [194, 0, 8, 98, 2, 16, 0, 0, 188, 62, 0] = .ok { t := 194, length := 8, mcc := 262, mnc := 10, mnc_is_three_digits := true, csgid := 48190, access_mode := .closedMode, cmi := .csgMembership } := by
  decide +kernel

-- `uci_ie_three_digit_mnc_roundtrip_test` (gtpv1/gtpc/messages/ies/uci.rs:155)
example : Uci.marshal ({ t := 194, length := 8, mcc := 262, mnc := 742, mnc_is_three_digits := true, csgid := 48190, access_mode := .closedMode, cmi := .csgMembership } : Uci) = [194, 0, 8, 98, 34, 71, 0, 0, 188, 62, 0] := by
  decide +kernel

-- `uci_ie_three_digit_mnc_roundtrip_test` (gtpv1/gtpc/messages/ies/uci.rs:155)
example : Uci.unmarshal .debug [194, 0, 8, 98, 34, 71, 0, 0, 188, 62, 0] = .ok { t := 194, length := 8, mcc := 262, mnc := 742, mnc_is_three_digits := true, csgid := 48190, access_mode := .closedMode, cmi := .csgMembership } := by
  decide +kernel

-- `uli_ie_marshal_test_cgi` (gtpv1/gtpc/messages/ies/uli.rs:139)
example : Uli.marshal ({ t := 152, length := 8, mcc := 262, mnc := 3, mnc_is_three_digits := false, lac := 48190, loc := (.ci 14076) } : Uli) = [152, 0, 8, 0, 98, 242, 48, 188, 62, 54, 252] := by
  decide +kernel

-- `uli_ie_unmarshal_test_cgi` (gtpv1/gtpc/messages/ies/uli.rs:158)
example : Uli.unmarshal .debug [152, 0, 8, 0, 98, 242, 48, 188, 62, 54, 252] = .ok { t := 152, length := 8, mcc := 262, mnc := 3, mnc_is_three_digits := false, lac := 48190, loc := (.ci 14076) } := by
  decide +kernel

-- `uli_ie_marshal_test_sai` (gtpv1/gtpc/messages/ies/uli.rs:175)
example : Uli.marshal ({ t := 152, length := 8, mcc := 262, mnc := 3, mnc_is_three_digits := false, lac := 48190, loc := (.sac 14076) } : Uli) = [152, 0, 8, 1, 98, 242, 48, 188, 62, 54, 252] := by
  decide +kernel

-- `uli_ie_unmarshal_test_sai` (gtpv1/gtpc/messages/ies/uli.rs:194)
example : Uli.unmarshal .debug [152, 0, 8, 1, 98, 242, 48, 188, 62, 54, 252] = .ok { t := 152, length := 8, mcc := 262, mnc := 3, mnc_is_three_digits := false, lac := 48190, loc := (.sac 14076) } := by
  decide +kernel

-- `uli_ie_marshal_test_rai` (gtpv1/gtpc/messages/ies/uli.rs:211)
example : Uli.marshal ({ t := 152, length := 8, mcc := 262, mnc := 3, mnc_is_three_digits := false, lac := 48190, loc := (.rac 16) } : Uli) = [152, 0, 8, 2, 98, 242, 48, 188, 62, 16, 255] := by
  decide +kernel

-- `uli_ie_unmarshal_test_rai` (gtpv1/gtpc/messages/ies/uli.rs:230)
example : Uli.unmarshal .debug [152, 0, 8, 2, 98, 242, 48, 188, 62, 16, 255] = .ok { t := 152, length := 8, mcc := 262, mnc := 3, mnc_is_three_digits := false, lac := 48190, loc := (.rac 16) } := by
  decide +kernel

-- `uli_timestamp_ie_unmarshal_test` (gtpv1/gtpc/messages/ies/ulitimestamp.rs:60)
example : UliTimestamp.unmarshal .debug [214, 0, 4, 238, 107, 40, 0] = .ok { t := 214, length := 4, timestamp := 4000000000 } := by
  decide +kernel

-- `uli_timestamp_ie_marshal_test` (gtpv1/gtpc/messages/ies/ulitimestamp.rs:72)
example : UliTimestamp.marshal ({ t := 214, length := 4, timestamp := 4000000000 } : UliTimestamp) = [214, 0, 4, 238, 107, 40, 0] := by
  decide +kernel

-- `upfsif_ie_unmarshal_test` (gtpv1/gtpc/messages/ies/upfsif.rs:70)
example : UpFunctionSelectionIndicationFlags.unmarshal .debug [224, 0, 1, 1] = .ok { t := 224, length := 1, dcnr := true } := by
  decide +kernel

-- `upfsif_ie_marshal_test` (gtpv1/gtpc/messages/ies/upfsif.rs:82)
example : UpFunctionSelectionIndicationFlags.marshal ({ t := 224, length := 1, dcnr := true } : UpFunctionSelectionIndicationFlags) = [224, 0, 1, 1] := by
  decide +kernel

-- `init_pdp_ctx_activation_req_unmarshal_test` (gtpv1/gtpc/messages/initiatepdpctxactivationreq.rs:247)
example : InitiatePDPContextActivationRequest.unmarshal .debug [50, 22, 0, 28, 55, 56, 191, 122, 155, 207, 0, 0, 20, 5, 135, 0, 15, 3, 27, 99, 31, 115, 150, 115, 115, 116, 255, 255, 255, 0, 0, 0, 183, 0, 1, 255] = .ok { header := { msgtype := 22, length := 28, teid := 926465914, sqn := (some 39887), npdu := none, exts := none }, linked_nsapi := { t := 20, value := 5 }, pco := none, qos := { t := 135, length := 15, arp := 3, qos := [27, 99, 31, 115, 150, 115, 115, 116, 255, 255, 255, 0, 0, 0] }, tft := none, correlation_id := { t := 183, length := 1, correlation_id := 255 }, evolved_alloc := none, private_extension := none } := by
  decide +kernel

-- `init_pdp_ctx_activation_req_marshal_test` (gtpv1/gtpc/messages/initiatepdpctxactivationreq.rs:286)
example : InitiatePDPContextActivationRequest.desc.marshalInto [] ({ header := { msgtype := 22, length := 28, teid := 926465914, sqn := (some 39887), npdu := none, exts := none }, linked_nsapi := { t := 20, value := 5 }, pco := none, qos := { t := 135, length := 15, arp := 3, qos := [27, 99, 31, 115, 150, 115, 115, 116, 255, 255, 255, 0, 0, 0] }, tft := none, correlation_id := { t := 183, length := 1, correlation_id := 255 }, evolved_alloc := none, private_extension := none } : InitiatePDPContextActivationRequest) = [50, 22, 0, 28, 55, 56, 191, 122, 155, 207, 0, 0, 20, 5, 135, 0, 15, 3, 27, 99, 31, 115, 150, 115, 115, 116, 255, 255, 255, 0, 0, 0, 183, 0, 1, 255] := by
  decide +kernel

-- `init_pdp_ctx_activation_req_wrong_ie_order_unmarshal_test` (gtpv1/gtpc/messages/initiatepdpctxactivationreq.rs:324)
example : InitiatePDPContextActivationRequest.unmarshal .debug [50, 22, 0, 28, 55, 56, 191, 122, 155, 207, 0, 0, 183, 0, 1, 255, 20, 5, 135, 0, 15, 3, 27, 99, 31, 115, 150, 115, 115, 116, 255, 255, 255, 0, 0, 0] = .err .messageInvalidMessageFormat := by
  decide +kernel

-- `init_pdp_ctx_activation_req_missing_mandatory_ie_unmarshal_test` (gtpv1/gtpc/messages/initiatepdpctxactivationreq.rs:337)
example : InitiatePDPContextActivationRequest.unmarshal .debug [50, 22, 0, 24, 55, 56, 191, 122, 155, 207, 0, 0, 20, 5, 135, 0, 15, 3, 27, 99, 31, 115, 150, 115, 115, 116, 255, 255, 255, 0, 0, 0] = .err .messageMandatoryIEMissing := by
  decide +kernel

-- `init_pdp_ctx_activ_resp_unmarshal_test` (gtpv1/gtpc/messages/initiatepdpctxactivationresp.rs:150)
example : InitiatePDPContextActivationResponse.unmarshal .debug [50, 23, 0, 6, 55, 56, 191, 122, 155, 207, 0, 0, 1, 128] = .ok { header := { msgtype := 23, length := 6, teid := 926465914, sqn := (some 39887), npdu := none, exts := none }, cause := { t := 1, value := 128 }, pco := none, private_extension := none } := by
  decide +kernel

-- `init_pdp_ctx_activ_resp_marshal_test` (gtpv1/gtpc/messages/initiatepdpctxactivationresp.rs:174)
example : InitiatePDPContextActivationResponse.desc.marshalInto [] ({ header := { msgtype := 23, length := 6, teid := 926465914, sqn := (some 39887), npdu := none, exts := none }, cause := { t := 1, value := 128 }, pco := none, private_extension := none } : InitiatePDPContextActivationResponse) = [50, 23, 0, 6, 55, 56, 191, 122, 155, 207, 0, 0, 1, 128] := by
  decide +kernel

-- `init_pdp_ctx_activ_resp_wrong_ie_order_unmarshal_test` (gtpv1/gtpc/messages/initiatepdpctxactivationresp.rs:197)
example : InitiatePDPContextActivationResponse.unmarshal .debug [50, 23, 0, 8, 55, 56, 191, 122, 155, 207, 0, 0, 8, 254, 1, 128] = .err .messageInvalidMessageFormat := by
  decide +kernel

-- `init_pdp_ctx_activ_resp_missing_mandatory_ie_unmarshal_test` (gtpv1/gtpc/messages/initiatepdpctxactivationresp.rs:208)
example : InitiatePDPContextActivationResponse.unmarshal .debug [50, 23, 0, 4, 55, 56, 191, 122, 155, 207, 0, 0] = .err .messageMandatoryIEMissing := by
  decide +kernel

-- `ms_info_change_notification_req_unmarshal_test` (gtpv1/gtpc/messages/msinfochangenotifreq.rs:234)
example : MSInfoChangeNotificationRequest.unmarshal .debug [50, 128, 0, 41, 55, 56, 191, 122, 155, 207, 0, 0, 2, 9, 65, 80, 1, 113, 68, 69, 246, 20, 0, 151, 0, 1, 2, 152, 0, 8, 0, 19, 0, 98, 83, 23, 4, 39, 154, 0, 8, 104, 153, 21, 48, 145, 100, 16, 16] = .ok { header := { msgtype := 128, length := 41, teid := 926465914, sqn := (some 39887), npdu := none, exts := none }, imsi := (some { t := 2, imsi := ['9', '0', '1', '4', '0', '5', '1', '0', '1', '7', '4', '4', '5', '4', '6'] }), linked_nsapi := (some { t := 20, value := 0 }), rat_type := { t := 151, length := 1, rat_type := .geran }, uli := (some { t := 152, length := 8, mcc := 310, mnc := 260, mnc_is_three_digits := true, lac := 21271, loc := (.ci 1063) }), imei := (some { t := 154, length := 8, imei := ['8', '6', '9', '9', '5', '1', '0', '3', '1', '9', '4', '6', '0', '1', '0', '1'] }), ext_common_flags := none, user_csg_info := none, private_extension := none } := by
  decide +kernel

-- `ms_info_change_notification_req_marshal_test` (gtpv1/gtpc/messages/msinfochangenotifreq.rs:280)
example : MSInfoChangeNotificationRequest.desc.marshalInto [] ({ header := { msgtype := 128, length := 0, teid := 926465914, sqn := (some 39887), npdu := none, exts := none }, imsi := (some { t := 2, imsi := ['9', '0', '1', '4', '0', '5', '1', '0', '1', '7', '4', '4', '5', '4', '6'] }), linked_nsapi := (some { t := 20, value := 0 }), rat_type := { t := 151, length := 1, rat_type := .geran }, uli := (some { t := 152, length := 8, mcc := 310, mnc := 260, mnc_is_three_digits := true, lac := 21271, loc := (.ci 1063) }), imei := (some { t := 154, length := 8, imei := ['8', '6', '9', '9', '5', '1', '0', '3', '1', '9', '4', '6', '0', '1', '0', '1'] }), ext_common_flags := none, user_csg_info := none, private_extension := none } : MSInfoChangeNotificationRequest) = [50, 128, 0, 41, 55, 56, 191, 122, 155, 207, 0, 0, 2, 9, 65, 80, 1, 113, 68, 69, 246, 20, 0, 151, 0, 1, 2, 152, 0, 8, 0, 19, 0, 98, 83, 23, 4, 39, 154, 0, 8, 104, 153, 21, 48, 145, 100, 16, 16] := by
  decide +kernel

-- `ms_info_change_notification_req_wrong_ie_order_unmarshal_test` (gtpv1/gtpc/messages/msinfochangenotifreq.rs:324)
example : MSInfoChangeNotificationRequest.unmarshal .debug [50, 128, 0, 41, 55, 56, 191, 122, 155, 207, 0, 0, 2, 9, 65, 80, 1, 113, 68, 69, 246, 151, 0, 1, 2, 20, 0, 152, 0, 8, 0, 19, 0, 98, 83, 23, 4, 39, 154, 0, 8, 104, 153, 21, 48, 145, 100, 16, 16] = .err .messageInvalidMessageFormat := by
  decide +kernel

-- `ms_info_change_notification_req_missing_mandatory_ie_unmarshal_test` (gtpv1/gtpc/messages/msinfochangenotifreq.rs:338)
example : MSInfoChangeNotificationRequest.unmarshal .debug [50, 128, 0, 37, 55, 56, 191, 122, 155, 207, 0, 0, 2, 9, 65, 80, 1, 113, 68, 69, 246, 20, 0, 152, 0, 8, 0, 19, 0, 98, 83, 23, 4, 39, 154, 0, 8, 104, 153, 21, 48, 145, 100, 16, 16] = .err .messageMandatoryIEMissing := by
  decide +kernel

-- `ms_info_change_notification_resp_unmarshal_test` (gtpv1/gtpc/messages/msinfochangenotifresp.rs:215)
example : MSInfoChangeNotificationResponse.unmarshal .debug [50, 129, 0, 28, 55, 56, 191, 122, 155, 207, 0, 0, 1, 128, 2, 9, 65, 80, 1, 113, 68, 69, 246, 20, 0, 154, 0, 8, 104, 153, 21, 48, 145, 100, 16, 16] = .ok { header := { msgtype := 129, length := 28, teid := 926465914, sqn := (some 39887), npdu := none, exts := none }, cause := { t := 1, value := 128 }, imsi := (some { t := 2, imsi := ['9', '0', '1', '4', '0', '5', '1', '0', '1', '7', '4', '4', '5', '4', '6'] }), linked_nsapi := (some { t := 20, value := 0 }), imei := (some { t := 154, length := 8, imei := ['8', '6', '9', '9', '5', '1', '0', '3', '1', '9', '4', '6', '0', '1', '0', '1'] }), ms_info_change := none, csg_info_report := none, private_extension := none } := by
  decide +kernel

-- `ms_info_change_notification_resp_marshal_test` (gtpv1/gtpc/messages/msinfochangenotifresp.rs:255)
example : MSInfoChangeNotificationResponse.desc.marshalInto [] ({ header := { msgtype := 129, length := 0, teid := 926465914, sqn := (some 39887), npdu := none, exts := none }, cause := { t := 1, value := 128 }, imsi := (some { t := 2, imsi := ['9', '0', '1', '4', '0', '5', '1', '0', '1', '7', '4', '4', '5', '4', '6'] }), linked_nsapi := (some { t := 20, value := 0 }), imei := (some { t := 154, length := 8, imei := ['8', '6', '9', '9', '5', '1', '0', '3', '1', '9', '4', '6', '0', '1', '0', '1'] }), ms_info_change := none, csg_info_report := none, private_extension := none } : MSInfoChangeNotificationResponse) = [50, 129, 0, 28, 55, 56, 191, 122, 155, 207, 0, 0, 1, 128, 2, 9, 65, 80, 1, 113, 68, 69, 246, 20, 0, 154, 0, 8, 104, 153, 21, 48, 145, 100, 16, 16] := by
  decide +kernel

-- `ms_info_change_notification_resp_wrong_ie_order_unmarshal_test` (gtpv1/gtpc/messages/msinfochangenotifresp.rs:293)
example : MSInfoChangeNotificationResponse.unmarshal .debug [50, 129, 0, 28, 55, 56, 191, 122, 155, 207, 0, 0, 2, 9, 65, 80, 1, 113, 68, 69, 246, 1, 128, 20, 0, 154, 0, 8, 104, 153, 21, 48, 145, 100, 16, 16] = .err .messageInvalidMessageFormat := by
  decide +kernel

-- `ms_info_change_notification_resp_missing_mandatory_ie_unmarshal_test` (gtpv1/gtpc/messages/msinfochangenotifresp.rs:306)
example : MSInfoChangeNotificationResponse.unmarshal .debug [50, 129, 0, 26, 55, 56, 191, 122, 155, 207, 0, 0, 2, 9, 65, 80, 1, 113, 68, 69, 246, 20, 0, 154, 0, 8, 104, 153, 21, 48, 145, 100, 16, 16] = .err .messageMandatoryIEMissing := by
  decide +kernel

-- `pdu_notification_reject_req_unmarshal_test` (gtpv1/gtpc/messages/pdunotificationrejectreq.rs:219)
example : PDUNotificationRejectRequest.unmarshal .debug [50, 29, 0, 36, 55, 56, 191, 122, 155, 207, 0, 0, 1, 5, 17, 166, 151, 73, 244, 128, 0, 6, 241, 33, 10, 219, 59, 48, 131, 0, 13, 3, 105, 111, 116, 4, 49, 110, 99, 101, 3, 110, 101, 116] = .ok { header := { msgtype := 29, length := 36, teid := 926465914, sqn := (some 39887), npdu := none, exts := none }, cause := { t := 1, value := 5 }, teid_control := { t := 17, teid := 2794932724 }, end_user_address := { t := 128, length := 6, pdp_type_org := 1, pdp_type_nbr := 33, ipv4 := (some 182139696), ipv6 := none }, apn := { t := 131, length := 13, name := ['i', 'o', 't', '.', '1', 'n', 'c', 'e', '.', 'n', 'e', 't'] }, pco := none, private_extension := none } := by
  decide +kernel

-- `pdu_notification_reject_req_marshal_test` (gtpv1/gtpc/messages/pdunotificationrejectreq.rs:264)
example : PDUNotificationRejectRequest.desc.marshalInto [] ({ header := { msgtype := 29, length := 36, teid := 926465914, sqn := (some 39887), npdu := none, exts := none }, cause := { t := 1, value := 5 }, teid_control := { t := 17, teid := 2794932724 }, end_user_address := { t := 128, length := 6, pdp_type_org := 1, pdp_type_nbr := 33, ipv4 := (some 182139696), ipv6 := none }, apn := { t := 131, length := 13, name := ['i', 'o', 't', '.', '1', 'n', 'c', 'e', '.', 'n', 'e', 't'] }, pco := none, private_extension := none } : PDUNotificationRejectRequest) = [50, 29, 0, 36, 55, 56, 191, 122, 155, 207, 0, 0, 1, 5, 17, 166, 151, 73, 244, 128, 0, 6, 241, 33, 10, 219, 59, 48, 131, 0, 13, 3, 105, 111, 116, 4, 49, 110, 99, 101, 3, 110, 101, 116] := by
  decide +kernel

-- `pdu_notification_reject_req_wrong_ie_order_unmarshal_test` (gtpv1/gtpc/messages/pdunotificationrejectreq.rs:307)
example : PDUNotificationRejectRequest.unmarshal .debug [50, 29, 0, 36, 55, 56, 191, 122, 155, 207, 0, 0, 17, 166, 151, 73, 244, 1, 5, 128, 0, 6, 241, 33, 10, 219, 59, 48, 131, 0, 13, 3, 105, 111, 116, 4, 49, 110, 99, 101, 3, 110, 101, 116] = .err .messageInvalidMessageFormat := by
  decide +kernel

-- `pdu_notification_reject_req_missing_mandatory_ie_unmarshal_test` (gtpv1/gtpc/messages/pdunotificationrejectreq.rs:320)
example : PDUNotificationRejectRequest.unmarshal .debug [50, 29, 0, 34, 55, 56, 191, 122, 155, 207, 0, 0, 17, 166, 151, 73, 244, 128, 0, 6, 241, 33, 10, 219, 59, 48, 131, 0, 13, 3, 105, 111, 116, 4, 49, 110, 99, 101, 3, 110, 101, 116] = .err .messageMandatoryIEMissing := by
  decide +kernel

-- `pdu_notification_reject_resp_unmarshal_test` (gtpv1/gtpc/messages/pdunotificationrejectresp.rs:125)
example : PDUNotificationRejectResponse.unmarshal .debug [50, 30, 0, 6, 55, 56, 191, 122, 155, 207, 0, 0, 1, 128] = .ok { header := { msgtype := 30, length := 6, teid := 926465914, sqn := (some 39887), npdu := none, exts := none }, cause := { t := 1, value := 128 }, private_extension := none } := by
  decide +kernel

-- `pdu_notification_reject_resp_marshal_test` (gtpv1/gtpc/messages/pdunotificationrejectresp.rs:148)
example : PDUNotificationRejectResponse.desc.marshalInto [] ({ header := { msgtype := 30, length := 6, teid := 926465914, sqn := (some 39887), npdu := none, exts := none }, cause := { t := 1, value := 128 }, private_extension := none } : PDUNotificationRejectResponse) = [50, 30, 0, 6, 55, 56, 191, 122, 155, 207, 0, 0, 1, 128] := by
  decide +kernel

-- `pdu_notification_reject_resp_wrong_ie_order_unmarshal_test` (gtpv1/gtpc/messages/pdunotificationrejectresp.rs:170)
example : PDUNotificationRejectResponse.unmarshal .debug [50, 30, 0, 12, 55, 56, 191, 122, 155, 207, 0, 0, 255, 0, 3, 0, 1, 0, 1, 128] = .err .messageInvalidMessageFormat := by
  decide +kernel

-- `pdu_notification_reject_resp_missing_mandatory_ie_unmarshal_test` (gtpv1/gtpc/messages/pdunotificationrejectresp.rs:182)
example : PDUNotificationRejectResponse.unmarshal .debug [50, 30, 0, 10, 55, 56, 191, 122, 155, 207, 0, 0, 255, 0, 3, 0, 1, 0] = .err .messageMandatoryIEMissing := by
  decide +kernel

-- `pdu_notification_req_unmarshal_test` (gtpv1/gtpc/messages/pdunotificationreq.rs:242)
example : PDUNotificationRequest.unmarshal .debug [50, 27, 0, 85, 55, 56, 191, 122, 155, 207, 0, 0, 2, 9, 65, 80, 1, 113, 68, 69, 246, 17, 166, 151, 73, 244, 128, 0, 6, 241, 33, 10, 219, 59, 48, 131, 0, 13, 3, 105, 111, 116, 4, 49, 110, 99, 101, 3, 110, 101, 116, 132, 0, 32, 128, 128, 33, 16, 1, 0, 0, 16, 129, 6, 0, 0, 0, 0, 131, 6, 0, 0, 0, 0, 0, 13, 0, 0, 10, 0, 0, 5, 0, 0, 17, 0, 133, 0, 4, 62, 153, 137, 96] = .ok { header := { msgtype := 27, length := 85, teid := 926465914, sqn := (some 39887), npdu := none, exts := none }, imsi := { t := 2, imsi := ['9', '0', '1', '4', '0', '5', '1', '0', '1', '7', '4', '4', '5', '4', '6'] }, teid_control := { t := 17, teid := 2794932724 }, end_user_address := { t := 128, length := 6, pdp_type_org := 1, pdp_type_nbr := 33, ipv4 := (some 182139696), ipv6 := none }, apn := { t := 131, length := 13, name := ['i', 'o', 't', '.', '1', 'n', 'c', 'e', '.', 'n', 'e', 't'] }, pco := (some { t := 132, length := 32, pco := [128, 128, 33, 16, 1, 0, 0, 16, 129, 6, 0, 0, 0, 0, 131, 6, 0, 0, 0, 0, 0, 13, 0, 0, 10, 0, 0, 5, 0, 0, 17, 0] }), ggsn_ip_control := { t := 133, length := 4, ip := (.v4 1050249568) }, private_extension := none } := by
  decide +kernel

-- `pdu_notification_req_marshal_test` (gtpv1/gtpc/messages/pdunotificationreq.rs:304)
example : PDUNotificationRequest.desc.marshalInto [] ({ header := { msgtype := 27, length := 85, teid := 926465914, sqn := (some 39887), npdu := none, exts := none }, imsi := { t := 2, imsi := ['9', '0', '1', '4', '0', '5', '1', '0', '1', '7', '4', '4', '5', '4', '6'] }, teid_control := { t := 17, teid := 2794932724 }, end_user_address := { t := 128, length := 6, pdp_type_org := 1, pdp_type_nbr := 33, ipv4 := (some 182139696), ipv6 := none }, apn := { t := 131, length := 13, name := ['i', 'o', 't', '.', '1', 'n', 'c', 'e', '.', 'n', 'e', 't'] }, pco := (some { t := 132, length := 32, pco := [128, 128, 33, 16, 1, 0, 0, 16, 129, 6, 0, 0, 0, 0, 131, 6, 0, 0, 0, 0, 0, 13, 0, 0, 10, 0, 0, 5, 0, 0, 17, 0] }), ggsn_ip_control := { t := 133, length := 4, ip := (.v4 1050249568) }, private_extension := none } : PDUNotificationRequest) = [50, 27, 0, 85, 55, 56, 191, 122, 155, 207, 0, 0, 2, 9, 65, 80, 1, 113, 68, 69, 246, 17, 166, 151, 73, 244, 128, 0, 6, 241, 33, 10, 219, 59, 48, 131, 0, 13, 3, 105, 111, 116, 4, 49, 110, 99, 101, 3, 110, 101, 116, 132, 0, 32, 128, 128, 33, 16, 1, 0, 0, 16, 129, 6, 0, 0, 0, 0, 131, 6, 0, 0, 0, 0, 0, 13, 0, 0, 10, 0, 0, 5, 0, 0, 17, 0, 133, 0, 4, 62, 153, 137, 96] := by
  decide +kernel

-- `pdu_notification_req_wrong_ie_order_unmarshal_test` (gtpv1/gtpc/messages/pdunotificationreq.rs:365)
example : PDUNotificationRequest.unmarshal .debug [50, 27, 0, 85, 55, 56, 191, 122, 155, 207, 0, 0, 2, 9, 65, 80, 1, 113, 68, 69, 246, 17, 166, 151, 73, 244, 128, 0, 6, 241, 33, 10, 219, 59, 48, 131, 0, 13, 3, 105, 111, 116, 4, 49, 110, 99, 101, 3, 110, 101, 116, 133, 0, 4, 62, 153, 137, 96, 132, 0, 32, 128, 128, 33, 16, 1, 0, 0, 16, 129, 6, 0, 0, 0, 0, 131, 6, 0, 0, 0, 0, 0, 13, 0, 0, 10, 0, 0, 5, 0, 0, 17, 0] = .err .messageInvalidMessageFormat := by
  decide +kernel

-- `pdu_notification_req_missing_mandatory_ie_unmarshal_test` (gtpv1/gtpc/messages/pdunotificationreq.rs:381)
example : PDUNotificationRequest.unmarshal .debug [50, 27, 0, 78, 55, 56, 191, 122, 155, 207, 0, 0, 2, 9, 65, 80, 1, 113, 68, 69, 246, 17, 166, 151, 73, 244, 128, 0, 6, 241, 33, 10, 219, 59, 48, 131, 0, 13, 3, 105, 111, 116, 4, 49, 110, 99, 101, 3, 110, 101, 116, 132, 0, 32, 128, 128, 33, 16, 1, 0, 0, 16, 129, 6, 0, 0, 0, 0, 131, 6, 0, 0, 0, 0, 0, 13, 0, 0, 10, 0, 0, 5, 0, 0, 17, 0] = .err .messageMandatoryIEMissing := by
  decide +kernel

-- `pdu_notification_resp_unmarshal_test` (gtpv1/gtpc/messages/pdunotificationresp.rs:125)
example : PDUNotificationResponse.unmarshal .debug [50, 28, 0, 6, 55, 56, 191, 122, 155, 207, 0, 0, 1, 128] = .ok { header := { msgtype := 28, length := 6, teid := 926465914, sqn := (some 39887), npdu := none, exts := none }, cause := { t := 1, value := 128 }, private_extension := none } := by
  decide +kernel

-- `pdu_notification_resp_marshal_test` (gtpv1/gtpc/messages/pdunotificationresp.rs:148)
example : PDUNotificationResponse.desc.marshalInto [] ({ header := { msgtype := 28, length := 6, teid := 926465914, sqn := (some 39887), npdu := none, exts := none }, cause := { t := 1, value := 128 }, private_extension := none } : PDUNotificationResponse) = [50, 28, 0, 6, 55, 56, 191, 122, 155, 207, 0, 0, 1, 128] := by
  decide +kernel

-- `pdu_notification_resp_wrong_ie_order_unmarshal_test` (gtpv1/gtpc/messages/pdunotificationresp.rs:170)
example : PDUNotificationResponse.unmarshal .debug [50, 28, 0, 8, 55, 56, 191, 122, 155, 207, 0, 0, 8, 254, 1, 128] = .err .messageInvalidMessageFormat := by
  decide +kernel

-- `pdu_notification_resp_missing_mandatory_ie_unmarshal_test` (gtpv1/gtpc/messages/pdunotificationresp.rs:181)
example : PDUNotificationResponse.unmarshal .debug [50, 28, 0, 12, 55, 56, 191, 122, 155, 207, 0, 0, 255, 0, 5, 0, 8, 1, 2, 3] = .err .messageMandatoryIEMissing := by
  decide +kernel

-- `test_supported_ext_hdr_notification_unmarshal` (gtpv1/gtpc/messages/supportedexthdrnotification.rs:74)
example : SupportedExtensionHeadersNotification.unmarshal .debug [50, 31, 0, 11, 0, 0, 0, 0, 246, 75, 0, 0, 141, 1, 0, 1, 2, 3, 4] = .ok { header := { msgtype := 31, length := 11, teid := 0, sqn := (some 63051), npdu := none, exts := none }, list := { t := 141, length := 1, list := [0, 1, 2, 3, 4] } } := by
  decide +kernel

-- `test_supported_ext_hdr_notification_marshal` (gtpv1/gtpc/messages/supportedexthdrnotification.rs:101)
example : SupportedExtensionHeadersNotification.marshalInto [] ({ header := { msgtype := 31, length := 11, teid := 0, sqn := (some 63051), npdu := none, exts := none }, list := { t := 141, length := 1, list := [0, 1, 2, 3, 4] } } : SupportedExtensionHeadersNotification) = [50, 31, 0, 11, 0, 0, 0, 0, 246, 75, 0, 0, 141, 5, 0, 1, 2, 3, 4] := by
  decide +kernel

-- `test_supported_ext_hdr_notification_resp_without_mandatory_ie_unmarshal` (gtpv1/gtpc/messages/supportedexthdrnotification.rs:127)
example : SupportedExtensionHeadersNotification.unmarshal .debug [50, 31, 0, 4, 0, 0, 0, 0, 246, 75, 0, 0] = .err .messageMandatoryIEMissing := by
  decide +kernel

-- `test_supported_ext_hdr_notification_with_incorrect_mandatory_ie_unmarshal` (gtpv1/gtpc/messages/supportedexthdrnotification.rs:138)
example : SupportedExtensionHeadersNotification.unmarshal .debug [50, 31, 0, 9, 0, 0, 0, 0, 246, 75, 0, 0, 141, 5, 0, 1, 2] = .err .messageMandatoryIEMissing := by
  decide +kernel

-- `update_pdp_ctx_req_unmarshal_test` (gtpv1/gtpc/messages/updatepdpctxreq.rs:799)
example : UpdatePDPContextRequest.unmarshal .debug [50, 18, 0, 96, 16, 43, 223, 35, 192, 134, 0, 0, 2, 9, 65, 80, 1, 114, 103, 53, 249, 3, 34, 246, 1, 255, 254, 255, 14, 191, 16, 47, 60, 64, 199, 17, 47, 60, 64, 200, 20, 5, 133, 0, 4, 62, 217, 200, 4, 133, 0, 4, 62, 217, 200, 40, 135, 0, 17, 3, 35, 115, 31, 147, 150, 134, 134, 116, 131, 255, 255, 0, 0, 0, 0, 0, 148, 0, 1, 64, 151, 0, 1, 1, 152, 0, 8, 1, 34, 246, 1, 6, 84, 60, 169, 153, 0, 2, 2, 32, 191, 0, 1, 100] = .ok { header := { msgtype := 18, length := 96, teid := 271310627, sqn := (some 49286), npdu := none, exts := none }, imsi := (some { t := 2, imsi := ['9', '0', '1', '4', '0', '5', '1', '0', '2', '7', '7', '6', '5', '3', '9'] }), rai := (some { t := 3, mcc := 226, mnc := 10, mnc_is_three_digits := false, lac := 65534, rac := 255 }), recovery := (some { t := 14, value := 191 }), teid_data := { t := 16, teid := 792477895 }, teid_control := (some { t := 17, teid := 792477896 }), nsapi := { t := 20, value := 5 }, trace_ref := none, trace_type := none, pco := none, sgsn_ip_control := { t := 133, length := 4, ip := (.v4 1054459908) }, sgsn_ip_user := { t := 133, length := 4, ip := (.v4 1054459944) }, alt_sgsn_ip_control := none, alt_sgsn_ip_user := none, qos := { t := 135, length := 17, arp := 3, qos := [35, 115, 31, 147, 150, 134, 134, 116, 131, 255, 255, 0, 0, 0, 0, 0] }, tft := none, trigger_id := none, omc_id := none, common_flags := (some { t := 148, length := 1, dual_addr_bearer := false, upgrade_qos_support := true, nrsn := false, no_qos_negotiation := false, mbms_counting_info := false, ran_procedures_ready := false, mbms_service_type := false, prohibit_payload_compr := false }), rat_type := (some { t := 151, length := 1, rat_type := .utran }), uli := (some { t := 152, length := 8, mcc := 226, mnc := 10, mnc_is_three_digits := false, lac := 1620, loc := (.sac 15529) }), ms_timezone := (some { t := 153, length := 2, time_zone := 2, dst := 0 }), imei := none, add_trace_info := none, dtf := none, evolved_alloc := (some { t := 191, length := 1, pre_emption_vulnerability := 0, priority_level := 9, pre_emption_capability := 1 }), ext_common_flags := none, user_csg_info := none, apn_ambr := none, signalling_prio := none, cnose := none, private_extension := none } := by
  decide +kernel

-- `update_pdp_ctx_req_marshal_test` (gtpv1/gtpc/messages/updatepdpctxreq.rs:930)
example : UpdatePDPContextRequest.desc.marshalInto [] ({ header := { msgtype := 18, length := 96, teid := 271310627, sqn := (some 49286), npdu := none, exts := none }, imsi := (some { t := 2, imsi := ['9', '0', '1', '4', '0', '5', '1', '0', '2', '7', '7', '6', '5', '3', '9'] }), rai := (some { t := 3, mcc := 226, mnc := 10, mnc_is_three_digits := false, lac := 65534, rac := 255 }), recovery := (some { t := 14, value := 191 }), teid_data := { t := 16, teid := 792477895 }, teid_control := (some { t := 17, teid := 792477896 }), nsapi := { t := 20, value := 5 }, trace_ref := none, trace_type := none, pco := none, sgsn_ip_control := { t := 133, length := 4, ip := (.v4 1054459908) }, sgsn_ip_user := { t := 133, length := 4, ip := (.v4 1054459944) }, alt_sgsn_ip_control := none, alt_sgsn_ip_user := none, qos := { t := 135, length := 17, arp := 3, qos := [35, 115, 31, 147, 150, 134, 134, 116, 131, 255, 255, 0, 0, 0, 0, 0] }, tft := none, trigger_id := none, omc_id := none, common_flags := (some { t := 148, length := 1, dual_addr_bearer := false, upgrade_qos_support := true, nrsn := false, no_qos_negotiation := false, mbms_counting_info := false, ran_procedures_ready := false, mbms_service_type := false, prohibit_payload_compr := false }), rat_type := (some { t := 151, length := 1, rat_type := .utran }), uli := (some { t := 152, length := 8, mcc := 226, mnc := 10, mnc_is_three_digits := false, lac := 1620, loc := (.sac 15529) }), ms_timezone := (some { t := 153, length := 2, time_zone := 2, dst := 0 }), imei := none, add_trace_info := none, dtf := none, evolved_alloc := (some { t := 191, length := 1, pre_emption_vulnerability := 0, priority_level := 9, pre_emption_capability := 1 }), ext_common_flags := none, user_csg_info := none, apn_ambr := none, signalling_prio := none, cnose := none, private_extension := none } : UpdatePDPContextRequest) = [50, 18, 0, 96, 16, 43, 223, 35, 192, 134, 0, 0, 2, 9, 65, 80, 1, 114, 103, 53, 249, 3, 34, 246, 1, 255, 254, 255, 14, 191, 16, 47, 60, 64, 199, 17, 47, 60, 64, 200, 20, 5, 133, 0, 4, 62, 217, 200, 4, 133, 0, 4, 62, 217, 200, 40, 135, 0, 17, 3, 35, 115, 31, 147, 150, 134, 134, 116, 131, 255, 255, 0, 0, 0, 0, 0, 148, 0, 1, 64, 151, 0, 1, 1, 152, 0, 8, 1, 34, 246, 1, 6, 84, 60, 169, 153, 0, 2, 2, 0, 191, 0, 1, 100] := by
  decide +kernel

-- `update_pdp_ctx_req_unmarshal_with_alt_sgsn_addr_test` (gtpv1/gtpc/messages/updatepdpctxreq.rs:1060)
example : UpdatePDPContextRequest.unmarshal .debug [50, 18, 0, 110, 16, 43, 223, 35, 192, 134, 0, 0, 2, 9, 65, 80, 1, 114, 103, 53, 249, 3, 34, 246, 1, 255, 254, 255, 14, 191, 16, 47, 60, 64, 199, 17, 47, 60, 64, 200, 20, 5, 133, 0, 4, 62, 217, 200, 4, 133, 0, 4, 62, 217, 200, 40, 133, 0, 4, 62, 217, 200, 41, 133, 0, 4, 62, 217, 200, 42, 135, 0, 17, 3, 35, 115, 31, 147, 150, 134, 134, 116, 131, 255, 255, 0, 0, 0, 0, 0, 148, 0, 1, 64, 151, 0, 1, 1, 152, 0, 8, 1, 34, 246, 1, 6, 84, 60, 169, 153, 0, 2, 2, 0, 191, 0, 1, 100] = .ok { header := { msgtype := 18, length := 110, teid := 271310627, sqn := (some 49286), npdu := none, exts := none }, imsi := (some { t := 2, imsi := ['9', '0', '1', '4', '0', '5', '1', '0', '2', '7', '7', '6', '5', '3', '9'] }), rai := (some { t := 3, mcc := 226, mnc := 10, mnc_is_three_digits := false, lac := 65534, rac := 255 }), recovery := (some { t := 14, value := 191 }), teid_data := { t := 16, teid := 792477895 }, teid_control := (some { t := 17, teid := 792477896 }), nsapi := { t := 20, value := 5 }, trace_ref := none, trace_type := none, pco := none, sgsn_ip_control := { t := 133, length := 4, ip := (.v4 1054459908) }, sgsn_ip_user := { t := 133, length := 4, ip := (.v4 1054459944) }, alt_sgsn_ip_control := (some { t := 133, length := 4, ip := (.v4 1054459945) }), alt_sgsn_ip_user := (some { t := 133, length := 4, ip := (.v4 1054459946) }), qos := { t := 135, length := 17, arp := 3, qos := [35, 115, 31, 147, 150, 134, 134, 116, 131, 255, 255, 0, 0, 0, 0, 0] }, tft := none, trigger_id := none, omc_id := none, common_flags := (some { t := 148, length := 1, dual_addr_bearer := false, upgrade_qos_support := true, nrsn := false, no_qos_negotiation := false, mbms_counting_info := false, ran_procedures_ready := false, mbms_service_type := false, prohibit_payload_compr := false }), rat_type := (some { t := 151, length := 1, rat_type := .utran }), uli := (some { t := 152, length := 8, mcc := 226, mnc := 10, mnc_is_three_digits := false, lac := 1620, loc := (.sac 15529) }), ms_timezone := (some { t := 153, length := 2, time_zone := 2, dst := 0 }), imei := none, add_trace_info := none, dtf := none, evolved_alloc := (some { t := 191, length := 1, pre_emption_vulnerability := 0, priority_level := 9, pre_emption_capability := 1 }), ext_common_flags := none, user_csg_info := none, apn_ambr := none, signalling_prio := none, cnose := none, private_extension := none } := by
  decide +kernel

-- `update_pdp_ctx_req_wrong_ie_order_unmarshal_test` (gtpv1/gtpc/messages/updatepdpctxreq.rs:1201)
example : UpdatePDPContextRequest.unmarshal .debug [50, 18, 0, 96, 16, 43, 223, 35, 192, 134, 0, 0, 2, 9, 65, 80, 1, 114, 103, 53, 249, 3, 34, 246, 1, 255, 254, 255, 14, 191, 17, 47, 60, 64, 200, 16, 47, 60, 64, 199, 20, 5, 133, 0, 4, 62, 217, 200, 4, 133, 0, 4, 62, 217, 200, 40, 135, 0, 17, 3, 35, 115, 31, 147, 150, 134, 134, 116, 131, 255, 255, 0, 0, 0, 0, 0, 148, 0, 1, 64, 151, 0, 1, 1, 152, 0, 8, 1, 34, 246, 1, 6, 84, 60, 169, 153, 0, 2, 2, 0, 191, 0, 1, 100] = .err .messageInvalidMessageFormat := by
  decide +kernel

-- `update_pdp_ctx_req_missing_mandatory_ie_unmarshal_test` (gtpv1/gtpc/messages/updatepdpctxreq.rs:1226)
example : UpdatePDPContextRequest.unmarshal .debug [50, 18, 0, 94, 16, 43, 223, 35, 192, 134, 0, 0, 2, 9, 65, 80, 1, 114, 103, 53, 249, 3, 34, 246, 1, 255, 254, 255, 14, 191, 16, 47, 60, 64, 199, 17, 47, 60, 64, 200, 133, 0, 4, 62, 217, 200, 4, 133, 0, 4, 62, 217, 200, 40, 135, 0, 17, 3, 35, 115, 31, 147, 150, 134, 134, 116, 131, 255, 255, 0, 0, 0, 0, 0, 148, 0, 1, 64, 151, 0, 1, 1, 152, 0, 8, 1, 34, 246, 1, 6, 84, 60, 169, 153, 0, 2, 2, 0, 191, 0, 1, 100] = .err .messageMandatoryIEMissing := by
  decide +kernel

-- `update_pdp_ctx_req_ggsn_unmarshal_test` (gtpv1/gtpc/messages/updatepdpctxreq_ggsn.rs:491)
example : UpdatePDPContextRequestGGSN.unmarshal .debug [50, 18, 0, 70, 16, 43, 223, 35, 192, 134, 0, 0, 2, 9, 65, 80, 1, 114, 103, 53, 249, 14, 191, 20, 5, 128, 0, 22, 241, 141, 100, 117, 130, 53, 0, 0, 0, 0, 0, 0, 0, 0, 0, 0, 0, 0, 255, 255, 255, 255, 135, 0, 17, 3, 35, 115, 31, 147, 150, 134, 134, 116, 131, 255, 255, 0, 0, 0, 0, 0, 148, 0, 1, 64, 191, 0, 1, 100] = .ok { header := { msgtype := 18, length := 70, teid := 271310627, sqn := (some 49286), npdu := none, exts := none }, imsi := (some { t := 2, imsi := ['9', '0', '1', '4', '0', '5', '1', '0', '2', '7', '7', '6', '5', '3', '9'] }), recovery := (some { t := 14, value := 191 }), nsapi := { t := 20, value := 5 }, end_user_address := (some { t := 128, length := 22, pdp_type_org := 1, pdp_type_nbr := 141, ipv4 := (some 1685422645), ipv6 := (some ⟨0, 4294967295⟩) }), pco := none, qos := (some { t := 135, length := 17, arp := 3, qos := [35, 115, 31, 147, 150, 134, 134, 116, 131, 255, 255, 0, 0, 0, 0, 0] }), tft := none, common_flags := (some { t := 148, length := 1, dual_addr_bearer := false, upgrade_qos_support := true, nrsn := false, no_qos_negotiation := false, mbms_counting_info := false, ran_procedures_ready := false, mbms_service_type := false, prohibit_payload_compr := false }), apn_restriction := none, ms_info_change := none, dtf := none, bearer_ctrl_mode := none, evolved_alloc := (some { t := 191, length := 1, pre_emption_vulnerability := 0, priority_level := 9, pre_emption_capability := 1 }), ext_common_flags := none, user_csg_info := none, apn_ambr := none, private_extension := none } := by
  decide +kernel

-- `update_pdp_ctx_req_ggsn_marshal_test` (gtpv1/gtpc/messages/updatepdpctxreq_ggsn.rs:569)
example : UpdatePDPContextRequestGGSN.desc.marshalInto [] ({ header := { msgtype := 18, length := 70, teid := 271310627, sqn := (some 49286), npdu := none, exts := none }, imsi := (some { t := 2, imsi := ['9', '0', '1', '4', '0', '5', '1', '0', '2', '7', '7', '6', '5', '3', '9'] }), recovery := (some { t := 14, value := 191 }), nsapi := { t := 20, value := 5 }, end_user_address := (some { t := 128, length := 22, pdp_type_org := 1, pdp_type_nbr := 141, ipv4 := (some 1685422645), ipv6 := (some ⟨0, 4294967295⟩) }), pco := none, qos := (some { t := 135, length := 17, arp := 3, qos := [35, 115, 31, 147, 150, 134, 134, 116, 131, 255, 255, 0, 0, 0, 0, 0] }), tft := none, common_flags := (some { t := 148, length := 1, dual_addr_bearer := false, upgrade_qos_support := true, nrsn := false, no_qos_negotiation := false, mbms_counting_info := false, ran_procedures_ready := false, mbms_service_type := false, prohibit_payload_compr := false }), apn_restriction := none, ms_info_change := none, dtf := none, bearer_ctrl_mode := none, evolved_alloc := (some { t := 191, length := 1, pre_emption_vulnerability := 0, priority_level := 9, pre_emption_capability := 1 }), ext_common_flags := none, user_csg_info := none, apn_ambr := none, private_extension := none } : UpdatePDPContextRequestGGSN) = [50, 18, 0, 70, 16, 43, 223, 35, 192, 134, 0, 0, 2, 9, 65, 80, 1, 114, 103, 53, 249, 14, 191, 20, 5, 128, 0, 22, 241, 141, 100, 117, 130, 53, 0, 0, 0, 0, 0, 0, 0, 0, 0, 0, 0, 0, 255, 255, 255, 255, 135, 0, 17, 3, 35, 115, 31, 147, 150, 134, 134, 116, 131, 255, 255, 0, 0, 0, 0, 0, 148, 0, 1, 64, 191, 0, 1, 100] := by
  decide +kernel

-- `update_pdp_ctx_req_ggsn_wrong_ie_order_unmarshal_test` (gtpv1/gtpc/messages/updatepdpctxreq_ggsn.rs:646)
example : UpdatePDPContextRequestGGSN.unmarshal .debug [50, 18, 0, 70, 16, 43, 223, 35, 192, 134, 0, 0, 2, 9, 65, 80, 1, 114, 103, 53, 249, 20, 5, 14, 191, 128, 0, 22, 241, 141, 100, 117, 130, 53, 0, 0, 0, 0, 0, 0, 0, 0, 0, 0, 0, 0, 255, 255, 255, 255, 135, 0, 17, 3, 35, 115, 31, 147, 150, 134, 134, 116, 131, 255, 255, 0, 0, 0, 0, 0, 148, 0, 1, 64, 191, 0, 1, 100] = .err .messageInvalidMessageFormat := by
  decide +kernel

-- `update_pdp_ctx_req_ggsn_missing_mandatory_ie_unmarshal_test` (gtpv1/gtpc/messages/updatepdpctxreq_ggsn.rs:662)
example : UpdatePDPContextRequestGGSN.unmarshal .debug [50, 18, 0, 68, 16, 43, 223, 35, 192, 134, 0, 0, 2, 9, 65, 80, 1, 114, 103, 53, 249, 14, 191, 128, 0, 22, 241, 141, 100, 117, 130, 53, 0, 0, 0, 0, 0, 0, 0, 0, 0, 0, 0, 0, 255, 255, 255, 255, 135, 0, 17, 3, 35, 115, 31, 147, 150, 134, 134, 116, 131, 255, 255, 0, 0, 0, 0, 0, 148, 0, 1, 64, 191, 0, 1, 100] = .err .messageMandatoryIEMissing := by
  decide +kernel

-- `update_pdp_ctx_resp_unmarshal_test` (gtpv1/gtpc/messages/updatepdpctxresp.rs:557)
example : UpdatePDPContextResponse.unmarshal .debug [50, 19, 0, 52, 55, 56, 191, 122, 155, 207, 0, 0, 1, 128, 14, 5, 16, 166, 151, 73, 244, 17, 9, 134, 187, 159, 127, 3, 148, 56, 125, 133, 0, 4, 62, 153, 137, 95, 133, 0, 4, 62, 153, 137, 96, 135, 0, 12, 3, 19, 131, 31, 113, 150, 135, 135, 116, 250, 255, 255] = .ok { header := { msgtype := 19, length := 52, teid := 926465914, sqn := (some 39887), npdu := none, exts := none }, cause := { t := 1, value := 128 }, recovery := (some { t := 14, value := 5 }), teid_data := (some { t := 16, teid := 2794932724 }), teid_control := (some { t := 17, teid := 159824799 }), charging_id := (some { t := 127, value := 60045437 }), pco := none, ggsn_ip_control := (some { t := 133, length := 4, ip := (.v4 1050249567) }), ggsn_ip_user := (some { t := 133, length := 4, ip := (.v4 1050249568) }), alt_ggsn_ip_control := none, alt_ggsn_ip_user := none, qos := (some { t := 135, length := 12, arp := 3, qos := [19, 131, 31, 113, 150, 135, 135, 116, 250, 255, 255] }), charging_gw_addr := none, alt_charging_gw_addr := none, common_flags := none, apn_restriction := none, ms_info_change := none, bearer_ctrl_mode := none, evolved_alloc := none, csg_info_report := none, apn_ambr := none, private_extension := none } := by
  decide +kernel

-- `update_pdp_ctx_response_marshal_test` (gtpv1/gtpc/messages/updatepdpctxresp.rs:629)
example : UpdatePDPContextResponse.desc.marshalInto [] ({ header := { msgtype := 19, length := 52, teid := 926465914, sqn := (some 39887), npdu := none, exts := none }, cause := { t := 1, value := 128 }, recovery := (some { t := 14, value := 5 }), teid_data := (some { t := 16, teid := 2794932724 }), teid_control := (some { t := 17, teid := 159824799 }), charging_id := (some { t := 127, value := 60045437 }), pco := none, ggsn_ip_control := (some { t := 133, length := 4, ip := (.v4 1050249567) }), ggsn_ip_user := (some { t := 133, length := 4, ip := (.v4 1050249568) }), alt_ggsn_ip_control := none, alt_ggsn_ip_user := none, qos := (some { t := 135, length := 12, arp := 3, qos := [19, 131, 31, 113, 150, 135, 135, 116, 250, 255, 255] }), charging_gw_addr := none, alt_charging_gw_addr := none, common_flags := none, apn_restriction := none, ms_info_change := none, bearer_ctrl_mode := none, evolved_alloc := none, csg_info_report := none, apn_ambr := none, private_extension := none } : UpdatePDPContextResponse) = [50, 19, 0, 52, 55, 56, 191, 122, 155, 207, 0, 0, 1, 128, 14, 5, 16, 166, 151, 73, 244, 17, 9, 134, 187, 159, 127, 3, 148, 56, 125, 133, 0, 4, 62, 153, 137, 95, 133, 0, 4, 62, 153, 137, 96, 135, 0, 12, 3, 19, 131, 31, 113, 150, 135, 135, 116, 250, 255, 255] := by
  decide +kernel

-- `create_pdp_ctx_resp_unmarshal_with_repetitive_fields_ggsn_addr_charging_gw` (gtpv1/gtpc/messages/updatepdpctxresp.rs:700)
example : UpdatePDPContextResponse.unmarshal .debug [50, 19, 0, 80, 55, 56, 191, 122, 155, 207, 0, 0, 1, 128, 14, 5, 16, 166, 151, 73, 244, 17, 9, 134, 187, 159, 127, 3, 148, 56, 125, 133, 0, 4, 62, 153, 137, 95, 133, 0, 4, 62, 153, 137, 96, 133, 0, 4, 62, 153, 137, 97, 133, 0, 4, 62, 153, 137, 98, 135, 0, 12, 3, 19, 131, 31, 113, 150, 135, 135, 116, 250, 255, 255, 251, 0, 4, 62, 153, 137, 78, 251, 0, 4, 62, 153, 137, 79] = .ok { header := { msgtype := 19, length := 80, teid := 926465914, sqn := (some 39887), npdu := none, exts := none }, cause := { t := 1, value := 128 }, recovery := (some { t := 14, value := 5 }), teid_data := (some { t := 16, teid := 2794932724 }), teid_control := (some { t := 17, teid := 159824799 }), charging_id := (some { t := 127, value := 60045437 }), pco := none, ggsn_ip_control := (some { t := 133, length := 4, ip := (.v4 1050249567) }), ggsn_ip_user := (some { t := 133, length := 4, ip := (.v4 1050249568) }), alt_ggsn_ip_control := (some { t := 133, length := 4, ip := (.v4 1050249569) }), alt_ggsn_ip_user := (some { t := 133, length := 4, ip := (.v4 1050249570) }), qos := (some { t := 135, length := 12, arp := 3, qos := [19, 131, 31, 113, 150, 135, 135, 116, 250, 255, 255] }), charging_gw_addr := (some { t := 251, length := 4, ip := (.v4 1050249550) }), alt_charging_gw_addr := (some { t := 251, length := 4, ip := (.v4 1050249551) }), common_flags := none, apn_restriction := none, ms_info_change := none, bearer_ctrl_mode := none, evolved_alloc := none, csg_info_report := none, apn_ambr := none, private_extension := none } := by
  decide +kernel

-- `update_pdp_ctx_resp_wrong_ie_order_unmarshal_test` (gtpv1/gtpc/messages/updatepdpctxresp.rs:791)
example : UpdatePDPContextResponse.unmarshal .debug [50, 19, 0, 52, 55, 56, 191, 122, 155, 207, 0, 0, 1, 128, 14, 5, 16, 166, 151, 73, 244, 17, 9, 134, 187, 159, 127, 3, 148, 56, 125, 135, 0, 12, 3, 19, 131, 31, 113, 150, 135, 135, 116, 250, 255, 255, 133, 0, 4, 62, 153, 137, 95, 133, 0, 4, 62, 153, 137, 96] = .err .messageInvalidMessageFormat := by
  decide +kernel

-- `update_pdp_ctx_resp_missing_mandatory_ie_unmarshal_test` (gtpv1/gtpc/messages/updatepdpctxresp.rs:810)
example : UpdatePDPContextResponse.unmarshal .debug [50, 19, 0, 50, 55, 56, 191, 122, 155, 207, 0, 0, 14, 5, 16, 166, 151, 73, 244, 17, 9, 134, 187, 159, 127, 3, 148, 56, 125, 133, 0, 4, 62, 153, 137, 95, 133, 0, 4, 62, 153, 137, 96, 135, 0, 12, 3, 19, 131, 31, 113, 150, 135, 135, 116, 250, 255, 255] = .err .messageMandatoryIEMissing := by
  decide +kernel

-- `update_pdp_ctx_resp_ggsn_unmarshal_test` (gtpv1/gtpc/messages/updatepdpctxresp_ggsn.rs:365)
example : UpdatePDPContextResponseGGSN.unmarshal .debug [50, 19, 0, 51, 55, 56, 191, 122, 155, 207, 0, 0, 1, 128, 14, 5, 16, 166, 151, 73, 244, 133, 0, 4, 62, 153, 137, 96, 135, 0, 12, 3, 19, 131, 31, 113, 150, 135, 135, 116, 250, 255, 255, 152, 0, 8, 1, 34, 246, 1, 6, 84, 60, 169, 153, 0, 2, 2, 0] = .ok { header := { msgtype := 19, length := 51, teid := 926465914, sqn := (some 39887), npdu := none, exts := none }, cause := { t := 1, value := 128 }, recovery := (some { t := 14, value := 5 }), teid_data := (some { t := 16, teid := 2794932724 }), pco := none, sgsn_ip_user := (some { t := 133, length := 4, ip := (.v4 1050249568) }), qos := (some { t := 135, length := 12, arp := 3, qos := [19, 131, 31, 113, 150, 135, 135, 116, 250, 255, 255] }), uli := (some { t := 152, length := 8, mcc := 226, mnc := 10, mnc_is_three_digits := false, lac := 1620, loc := (.sac 15529) }), ms_timezone := (some { t := 153, length := 2, time_zone := 2, dst := 0 }), dtf := none, evolved_alloc := none, apn_ambr := none, private_extension := none } := by
  decide +kernel

-- `update_pdp_ctx_response_ggsn_marshal_test` (gtpv1/gtpc/messages/updatepdpctxresp_ggsn.rs:427)
example : UpdatePDPContextResponseGGSN.desc.marshalInto [] ({ header := { msgtype := 19, length := 51, teid := 926465914, sqn := (some 39887), npdu := none, exts := none }, cause := { t := 1, value := 128 }, recovery := (some { t := 14, value := 5 }), teid_data := (some { t := 16, teid := 2794932724 }), pco := none, sgsn_ip_user := (some { t := 133, length := 4, ip := (.v4 1050249568) }), qos := (some { t := 135, length := 12, arp := 3, qos := [19, 131, 31, 113, 150, 135, 135, 116, 250, 255, 255] }), uli := (some { t := 152, length := 8, mcc := 226, mnc := 10, mnc_is_three_digits := false, lac := 1620, loc := (.sac 15529) }), ms_timezone := (some { t := 153, length := 2, time_zone := 2, dst := 0 }), dtf := none, evolved_alloc := none, apn_ambr := none, private_extension := none } : UpdatePDPContextResponseGGSN) = [50, 19, 0, 51, 55, 56, 191, 122, 155, 207, 0, 0, 1, 128, 14, 5, 16, 166, 151, 73, 244, 133, 0, 4, 62, 153, 137, 96, 135, 0, 12, 3, 19, 131, 31, 113, 150, 135, 135, 116, 250, 255, 255, 152, 0, 8, 1, 34, 246, 1, 6, 84, 60, 169, 153, 0, 2, 2, 0] := by
  decide +kernel

-- `update_pdp_ctx_resp_ggsn_wrong_ie_order_unmarshal_test` (gtpv1/gtpc/messages/updatepdpctxresp_ggsn.rs:488)
example : UpdatePDPContextResponseGGSN.unmarshal .debug [50, 19, 0, 51, 55, 56, 191, 122, 155, 207, 0, 0, 14, 5, 1, 128, 16, 166, 151, 73, 244, 133, 0, 4, 62, 153, 137, 96, 135, 0, 12, 3, 19, 131, 31, 113, 150, 135, 135, 116, 250, 255, 255, 152, 0, 8, 1, 34, 246, 1, 6, 84, 60, 169, 153, 0, 2, 2, 0] = .err .messageInvalidMessageFormat := by
  decide +kernel

-- `update_pdp_ctx_resp_ggsn_missing_mandatory_ie_unmarshal_test` (gtpv1/gtpc/messages/updatepdpctxresp_ggsn.rs:502)
example : UpdatePDPContextResponseGGSN.unmarshal .debug [50, 19, 0, 49, 55, 56, 191, 122, 155, 207, 0, 0, 14, 5, 16, 166, 151, 73, 244, 133, 0, 4, 62, 153, 137, 96, 135, 0, 12, 3, 19, 131, 31, 113, 150, 135, 135, 116, 250, 255, 255, 152, 0, 8, 1, 34, 246, 1, 6, 84, 60, 169, 153, 0, 2, 2, 0] = .err .messageMandatoryIEMissing := by
  decide +kernel

-- `test_version_not_supported_unmarshal` (gtpv1/gtpc/messages/versionnotsupported.rs:46)
example : VersionNotSupported.unmarshal .debug [50, 3, 0, 4, 0, 0, 0, 0, 73, 202, 0, 0] = .ok { header := { msgtype := 3, length := 4, teid := 0, sqn := (some 18890), npdu := none, exts := none } } := by
  decide +kernel

-- `test_version_not_supported_marshal` (gtpv1/gtpc/messages/versionnotsupported.rs:64)
example : VersionNotSupported.marshalInto [] ({ header := { msgtype := 3, length := 4, teid := 0, sqn := (some 18890), npdu := none, exts := none } } : VersionNotSupported) = [50, 3, 0, 4, 0, 0, 0, 0, 73, 202, 0, 0] := by
  decide +kernel

end Gtp.C1
