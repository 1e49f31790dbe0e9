import Verif.V2.IE

/-!
# The unit tests under `src/gtpv2/messages/ies/`, run on the model (3 of 4)

Generated by `scripts/gen_tests.py`.  These are tests of the model against the expectations written in the
repository, not proofs of properties.
-/

namespace Gtp.V2
open Gtp
set_option maxRecDepth 100000

-- `plmnid_ie_marshal_test` (gtpv2/messages/ies/plmnid.rs:92)
example : PlmnId.marshal ({ t := 120, length := 3, ins := 0, mcc := 999, mnc := 1, mnc_is_three_digits := false } : PlmnId) = [120, 0, 3, 0, 153, 249, 16] := by
  decide +kernel

-- `plmnid_ie_unmarshal_test` (gtpv2/messages/ies/plmnid.rs:108)
example : PlmnId.unmarshal .debug [120, 0, 3, 0, 153, 249, 16] = .ok { t := 120, length := 3, ins := 0, mcc := 999, mnc := 1, mnc_is_three_digits := false } := by
  decide +kernel

-- `plmnid_ie_three_digit_mnc_roundtrip_test` (gtpv2/messages/ies/plmnid.rs:122)
example : PlmnId.marshal ({ t := 120, length := 3, ins := 0, mcc := 999, mnc := 10, mnc_is_three_digits := true } : PlmnId) = [120, 0, 3, 0, 153, 9, 16] := by
  decide +kernel

-- `plmnid_ie_three_digit_mnc_roundtrip_test` (gtpv2/messages/ies/plmnid.rs:122)
example : PlmnId.unmarshal .debug [120, 0, 3, 0, 153, 9, 16] = .ok { t := 120, length := 3, ins := 0, mcc := 999, mnc := 10, mnc_is_three_digits := true } := by
  decide +kernel

-- `plmnid_ie_three_digit_mnc_roundtrip_test` (gtpv2/messages/ies/plmnid.rs:122)
example : PlmnId.marshal ({ t := 120, length := 3, ins := 0, mcc := 999, mnc := 742, mnc_is_three_digits := true } : PlmnId) = [120, 0, 3, 0, 153, 41, 71] := by
  decide +kernel

-- `plmnid_ie_three_digit_mnc_roundtrip_test` (gtpv2/messages/ies/plmnid.rs:122)
example : PlmnId.unmarshal .debug [120, 0, 3, 0, 153, 41, 71] = .ok { t := 120, length := 3, ins := 0, mcc := 999, mnc := 742, mnc_is_three_digits := true } := by
  decide +kernel

-- `port_number_ie_marshal_test` (gtpv2/messages/ies/portnumber.rs:81)
example : PortNumber.marshal ({ t := 126, length := 2, ins := 0, port := 65535 } : PortNumber) = [126, 0, 2, 0, 255, 255] := by
  decide +kernel

-- `port_number_ie_unmarshal_test` (gtpv2/messages/ies/portnumber.rs:95)
example : PortNumber.unmarshal .debug [126, 0, 2, 0, 255, 255] = .ok { t := 126, length := 2, ins := 0, port := 65535 } := by
  decide +kernel

-- `praa_ie_marshal_test` (gtpv2/messages/ies/praa.rs:361)
example : PresenceReportingAreaAction.marshal ({ t := 177, length := 62, ins := 0, inapra := false, action := 1, prai := 16777215, tai := [{ mcc := 262, mnc := 1, mnc_is_three_digits := false, tac := 3033 }], rai := [{ mcc := 262, mnc := 1, mnc_is_three_digits := false, lac := 65535, rac := 170 }], macro_enb := [{ mcc := 262, mnc := 1, mnc_is_three_digits := false, macro_id := 1048575 }], home_enb := [{ mcc := 262, mnc := 1, mnc_is_three_digits := false, macro_id := 1048575 }], ecgi := [{ mcc := 262, mnc := 1, mnc_is_three_digits := false, eci := 28983298 }], sai := [{ mcc := 262, mnc := 1, mnc_is_three_digits := false, lac := 65535, sac := 56797 }], cgi := [{ mcc := 262, mnc := 1, mnc_is_three_digits := false, lac := 65535, ci := 43690 }], ext_macro_enb := [{ mcc := 262, mnc := 1, mnc_is_three_digits := false, smenb := false, ext_macro_id := 1048575 }] } : PresenceReportingAreaAction) = [177, 0, 62, 0, 1, 255, 255, 255, 17, 1, 1, 1, 1, 1, 98, 242, 16, 11, 217, 98, 242, 16, 15, 255, 255, 98, 242, 16, 15, 255, 255, 98, 242, 16, 1, 186, 64, 2, 98, 242, 16, 255, 255, 170, 255, 98, 242, 16, 255, 255, 221, 221, 98, 242, 16, 255, 255, 170, 170, 1, 98, 242, 16, 15, 255, 255] := by
  decide +kernel

-- `praa_ie_unmarshal_test` (gtpv2/messages/ies/praa.rs:441)
example : PresenceReportingAreaAction.unmarshal .debug [177, 0, 62, 0, 1, 255, 255, 255, 17, 1, 1, 1, 1, 1, 98, 242, 16, 11, 217, 98, 242, 16, 255, 255, 255, 98, 242, 16, 255, 255, 255, 98, 242, 16, 1, 186, 64, 2, 98, 242, 16, 255, 255, 170, 255, 98, 242, 16, 255, 255, 221, 221, 98, 242, 16, 255, 255, 170, 170, 1, 98, 242, 16, 15, 255, 255] = .ok { t := 177, length := 62, ins := 0, inapra := false, action := 1, prai := 16777215, tai := [{ mcc := 262, mnc := 1, mnc_is_three_digits := false, tac := 3033 }], rai := [{ mcc := 262, mnc := 1, mnc_is_three_digits := false, lac := 65535, rac := 170 }], macro_enb := [{ mcc := 262, mnc := 1, mnc_is_three_digits := false, macro_id := 16777215 }], home_enb := [{ mcc := 262, mnc := 1, mnc_is_three_digits := false, macro_id := 16777215 }], ecgi := [{ mcc := 262, mnc := 1, mnc_is_three_digits := false, eci := 28983298 }], sai := [{ mcc := 262, mnc := 1, mnc_is_three_digits := false, lac := 65535, sac := 56797 }], cgi := [{ mcc := 262, mnc := 1, mnc_is_three_digits := false, lac := 65535, ci := 43690 }], ext_macro_enb := [{ mcc := 262, mnc := 1, mnc_is_three_digits := false, smenb := false, ext_macro_id := 1048575 }] } := by
  decide +kernel

-- `prai_ie_marshal_test` (gtpv2/messages/ies/prai.rs:153)
example : PresenceReportingAreaInformation.marshal ({ t := 178, length := 8, ins := 0, prai := (.Ipra 0), add_prai := (some [(.Opra 255)]) } : PresenceReportingAreaInformation) = [178, 0, 8, 0, 0, 0, 0, 5, 0, 0, 255, 2] := by
  decide +kernel

-- `prai_ie_unmarshal_test` (gtpv2/messages/ies/prai.rs:170)
example : PresenceReportingAreaInformation.unmarshal .debug [178, 0, 8, 0, 0, 0, 0, 5, 0, 0, 255, 2] = .ok { t := 178, length := 8, ins := 0, prai := (.Ipra 0), add_prai := (some [(.Opra 255)]) } := by
  decide +kernel

-- `private_ext_ie_marshal_test` (gtpv2/messages/ies/privateextension.rs:89)
example : PrivateExtension.marshal ({ t := 255, length := 3, ins := 0, enterprise_id := 2815, value := [0] } : PrivateExtension) = [255, 0, 3, 0, 10, 255, 0] := by
  decide +kernel

-- `private_ext_ie_unmarshal_test` (gtpv2/messages/ies/privateextension.rs:104)
example : PrivateExtension.unmarshal .debug [255, 0, 3, 0, 10, 255, 0] = .ok { t := 255, length := 3, ins := 0, enterprise_id := 2815, value := [0] } := by
  decide +kernel

-- `private_ext_ie_wrong_size_unmarshal_test` (gtpv2/messages/ies/privateextension.rs:117)
example : PrivateExtension.unmarshal .debug [255, 0, 2, 0, 10, 0] = .err (.ieInvalidLength 255) := by
  decide +kernel

-- `pscellid_ie_marshal_test` (gtpv2/messages/ies/pscellid.rs:96)
example : PSCellId.marshal ({ t := 217, length := 8, ins := 0, mcc := 999, mnc := 1, mnc_is_three_digits := false, nr_cgi := [170, 252, 253, 254, 255] } : PSCellId) = [217, 0, 8, 0, 153, 249, 16, 170, 252, 253, 254, 255] := by
  decide +kernel

-- `pscellid_ie_unmarshal_test` (gtpv2/messages/ies/pscellid.rs:113)
example : PSCellId.unmarshal .debug [217, 0, 8, 0, 153, 249, 16, 170, 252, 253, 254, 255] = .ok { t := 217, length := 8, ins := 0, mcc := 999, mnc := 1, mnc_is_three_digits := false, nr_cgi := [170, 252, 253, 254, 255] } := by
  decide +kernel

-- `pti_ie_marshal_test` (gtpv2/messages/ies/pti.rs:81)
example : Pti.marshal ({ t := 100, length := 1, ins := 0, pti := 1 } : Pti) = [100, 0, 1, 0, 1] := by
  decide +kernel

-- `pti_ie_unmarshal_test` (gtpv2/messages/ies/pti.rs:95)
example : Pti.unmarshal .debug [100, 0, 1, 0, 1] = .ok { t := 100, length := 1, ins := 0, pti := 1 } := by
  decide +kernel

-- `ptmsi_ie_marshal_test` (gtpv2/messages/ies/ptmsi.rs:83)
example : Ptmsi.marshal ({ t := 111, length := 4, ins := 0, ptmsi := 4294967295 } : Ptmsi) = [111, 0, 4, 0, 255, 255, 255, 255] := by
  decide +kernel

-- `ptmsi_ie_unmarshal_test` (gtpv2/messages/ies/ptmsi.rs:97)
example : Ptmsi.unmarshal .debug [111, 0, 4, 0, 255, 255, 255, 255] = .ok { t := 111, length := 4, ins := 0, ptmsi := 4294967295 } := by
  decide +kernel

-- `ptmsi_sig_ie_marshal_test` (gtpv2/messages/ies/ptmsisignature.rs:81)
example : PtmsiSignature.marshal ({ t := 112, length := 4, ins := 0, ptmsi_sig := 4294967295 } : PtmsiSignature) = [112, 0, 4, 0, 255, 255, 255, 255] := by
  decide +kernel

-- `ptmsi_ie_unmarshal_test` (gtpv2/messages/ies/ptmsisignature.rs:95)
example : PtmsiSignature.unmarshal .debug [112, 0, 4, 0, 255, 255, 255, 255] = .ok { t := 112, length := 4, ins := 0, ptmsi_sig := 4294967295 } := by
  decide +kernel

-- `rab_context_ie_marshal_test` (gtpv2/messages/ies/rabcontext.rs:102)
example : RabContext.marshal ({ t := 124, length := 9, ins := 0, nsapi := 5, dl_gtpu_sqn := 65280, ul_gtpu_sqn := 255, dl_pdcp_sqn := 43520, ul_pdcp_sqn := 170 } : RabContext) = [124, 0, 9, 0, 5, 255, 0, 0, 255, 170, 0, 0, 170] := by
  decide +kernel

-- `rab_context_ie_unmarshal_test` (gtpv2/messages/ies/rabcontext.rs:122)
example : RabContext.unmarshal .debug [124, 0, 9, 0, 5, 255, 0, 0, 255, 170, 0, 0, 170] = .ok { t := 124, length := 9, ins := 0, nsapi := 5, dl_gtpu_sqn := 65280, ul_gtpu_sqn := 255, dl_pdcp_sqn := 43520, ul_pdcp_sqn := 170 } := by
  decide +kernel

-- `ran_nas_cause_ie_short_marshal_test` (gtpv2/messages/ies/rannascause.rs:175)
example : RanNasCause.marshal ({ t := 172, length := 2, ins := 0, cause := (.S1ap (.RadioLayer 26)) } : RanNasCause) = [172, 0, 2, 0, 16, 26] := by
  decide +kernel

-- `ran_nas_cause_ie_short_unmarshal_test` (gtpv2/messages/ies/rannascause.rs:189)
example : RanNasCause.unmarshal .debug [172, 0, 2, 0, 16, 26] = .ok { t := 172, length := 2, ins := 0, cause := (.S1ap (.RadioLayer 26)) } := by
  decide +kernel

-- `cause_ie_incorrect_length_unmarshal_test` (gtpv2/messages/ies/rannascause.rs:201)
example : RanNasCause.unmarshal .debug [172, 0, 1, 0, 16] = .err (.ieInvalidLength 172) := by
  decide +kernel

-- `rattype_ie_marshal_test` (gtpv2/messages/ies/rattype.rs:200)
example : RatType.marshal ({ t := 82, length := 1, ins := 0, rat_type := .Eutran } : RatType) = [82, 0, 1, 0, 6] := by
  decide +kernel

-- `rattype_ie_unmarshal_test` (gtpv2/messages/ies/rattype.rs:214)
example : RatType.unmarshal .debug [82, 0, 1, 0, 6] = .ok { t := 82, length := 1, ins := 0, rat_type := .Eutran } := by
  decide +kernel

-- `rattype_ie_unknown_rattype_unmarshal_test` (gtpv2/messages/ies/rattype.rs:226)
example : RatType.unmarshal .debug [82, 0, 1, 0, 255] = .ok { t := 82, length := 1, ins := 0, rat_type := .Spare } := by
  decide +kernel

-- `recovery_ie_marshal_test` (gtpv2/messages/ies/recovery.rs:80)
example : Recovery.marshal ({ t := 3, length := 1, ins := 0, recovery := 4 } : Recovery) = [3, 0, 1, 0, 4] := by
  decide +kernel

-- `recovery_ie_unmarshal_test` (gtpv2/messages/ies/recovery.rs:94)
example : Recovery.unmarshal .debug [3, 0, 1, 0, 4] = .ok { t := 3, length := 1, ins := 0, recovery := 4 } := by
  decide +kernel

-- `recovery_ie_unmarshal_fail_test` (gtpv2/messages/ies/recovery.rs:106)
example : Recovery.unmarshal .debug [3, 0, 1, 0] = .err (.ieInvalidLength 3) := by
  decide +kernel

-- `remote_ue_ctx_ie_unmarshal_test` (gtpv2/messages/ies/remoteuecontext.rs:96)
example : groupUnm (decoder .debug) RemoteUeContext.ofGroup .debug [191, 0, 41, 0, 192, 0, 28, 0, 3, 8, 9, 65, 80, 1, 145, 22, 120, 243, 8, 136, 34, 88, 1, 16, 82, 17, 242, 8, 104, 103, 132, 64, 16, 35, 3, 48, 193, 0, 5, 0, 1, 10, 194, 186, 52] = .ok { t := 191, length := 41, ins := 0, user_id := { t := 192, length := 28, ins := 0, imsi := ['9', '0', '1', '4', '0', '5', '1', '0', '1', '9', '6', '1', '8', '7', '3'], msisdn := (some ['8', '8', '2', '2', '8', '5', '1', '0', '0', '1', '2', '5', '1', '1', '2']), imei := (some ['8', '6', '7', '6', '4', '8', '0', '4', '0', '1', '3', '2', '3', '0', '0', '3']) }, ue_ip := (some { t := 193, length := 5, ins := 0, ip := (.V4 180533812) }) } := by
  decide +kernel

-- `remote_ue_ctx_ie_marshal_test` (gtpv2/messages/ies/remoteuecontext.rs:127)
example : (fun x => IE.marshal (.RemoteUeContext x)) ({ t := 191, length := 41, ins := 0, user_id := { t := 192, length := 28, ins := 0, imsi := ['9', '0', '1', '4', '0', '5', '1', '0', '1', '9', '6', '1', '8', '7', '3'], msisdn := (some ['8', '8', '2', '2', '8', '5', '1', '0', '0', '1', '2', '5', '1', '1', '2']), imei := (some ['8', '6', '7', '6', '4', '8', '0', '4', '0', '1', '3', '2', '3', '0', '0', '3']) }, ue_ip := (some { t := 193, length := 5, ins := 0, ip := (.V4 180533812) }) } : RemoteUeContext) = [191, 0, 41, 0, 192, 0, 28, 0, 3, 8, 9, 65, 80, 1, 145, 22, 120, 243, 8, 136, 34, 88, 1, 16, 82, 17, 242, 8, 104, 103, 132, 64, 16, 35, 3, 48, 193, 0, 5, 0, 1, 10, 194, 186, 52] := by
  decide +kernel

-- `remote_ue_ip_ie_nonip_unmarshal_test` (gtpv2/messages/ies/remoteueip.rs:131)
example : RemoteUeIpInformation.unmarshal .debug [193, 0, 1, 0, 0] = .ok { t := 193, length := 1, ins := 0, ip := .NonIp } := by
  decide +kernel

-- `remote_ue_ip_ie_ipv4_unmarshal_test` (gtpv2/messages/ies/remoteueip.rs:144)
example : RemoteUeIpInformation.unmarshal .debug [193, 0, 5, 0, 1, 10, 194, 186, 52] = .ok { t := 193, length := 5, ins := 0, ip := (.V4 180533812) } := by
  decide +kernel

-- `remote_ue_ip_ie_ipv6_unmarshal_test` (gtpv2/messages/ies/remoteueip.rs:157)
example : RemoteUeIpInformation.unmarshal .debug [193, 0, 9, 0, 2, 0, 0, 0, 0, 0, 0, 0, 0] = .ok { t := 193, length := 9, ins := 0, ip := (.V6 ⟨0, 0⟩) } := by
  decide +kernel

-- `remote_ue_ip_ie_ipv4_marshal_test` (gtpv2/messages/ies/remoteueip.rs:172)
example : RemoteUeIpInformation.marshal ({ t := 193, length := 5, ins := 0, ip := (.V4 180533812) } : RemoteUeIpInformation) = [193, 0, 5, 0, 1, 10, 194, 186, 52] := by
  decide +kernel

-- `remote_ue_ip_ie_ipv6_marshal_test` (gtpv2/messages/ies/remoteueip.rs:186)
example : RemoteUeIpInformation.marshal ({ t := 193, length := 9, ins := 0, ip := (.V6 ⟨0, 0⟩) } : RemoteUeIpInformation) = [193, 0, 9, 0, 2, 0, 0, 0, 0, 0, 0, 0, 0] := by
  decide +kernel

-- `remote_ue_ip_ie_nonip_marshal_test` (gtpv2/messages/ies/remoteueip.rs:202)
example : RemoteUeIpInformation.marshal ({ t := 193, length := 1, ins := 0, ip := .NonIp } : RemoteUeIpInformation) = [193, 0, 1, 0, 0] := by
  decide +kernel

-- `remote_user_id_ie_unmarshal_test` (gtpv2/messages/ies/remoteuserid.rs:201)
example : RemoteUserId.unmarshal .debug [192, 0, 28, 0, 3, 8, 9, 65, 80, 1, 145, 22, 120, 243, 8, 136, 34, 88, 1, 16, 82, 17, 242, 8, 104, 103, 132, 64, 16, 35, 3, 48] = .ok { t := 192, length := 28, ins := 0, imsi := ['9', '0', '1', '4', '0', '5', '1', '0', '1', '9', '6', '1', '8', '7', '3'], msisdn := (some ['8', '8', '2', '2', '8', '5', '1', '0', '0', '1', '2', '5', '1', '1', '2']), imei := (some ['8', '6', '7', '6', '4', '8', '0', '4', '0', '1', '3', '2', '3', '0', '0', '3']) } := by
  decide +kernel

-- `remote_user_id_ie_marshal_test` (gtpv2/messages/ies/remoteuserid.rs:220)
example : RemoteUserId.marshal ({ t := 192, length := 28, ins := 0, imsi := ['9', '0', '1', '4', '0', '5', '1', '0', '1', '9', '6', '1', '8', '7', '3'], msisdn := (some ['8', '8', '2', '2', '8', '5', '1', '0', '0', '1', '2', '5', '1', '1', '2']), imei := (some ['8', '6', '7', '6', '4', '8', '0', '4', '0', '1', '3', '2', '3', '0', '0', '3']) } : RemoteUserId) = [192, 0, 28, 0, 3, 8, 9, 65, 80, 1, 145, 22, 120, 243, 8, 136, 34, 88, 1, 16, 82, 17, 242, 8, 104, 103, 132, 64, 16, 35, 3, 48] := by
  decide +kernel

-- `remote_user_id_ie_invalid_length_unmarshal_test` (gtpv2/messages/ies/remoteuserid.rs:240)
example : RemoteUserId.unmarshal .debug [192, 0, 28, 0, 1, 8, 9, 65, 80, 1, 145, 22, 120, 243, 8, 136, 34, 88, 1, 16, 82, 17] = .err (.ieInvalidLength 192) := by
  decide +kernel

-- `rfsp_index_ie_marshal_test` (gtpv2/messages/ies/rfspindex.rs:81)
example : RfspIndex.marshal ({ t := 144, length := 2, ins := 0, spid := 256 } : RfspIndex) = [144, 0, 2, 0, 1, 0] := by
  decide +kernel

-- `rfsp_index_ie_unmarshal_test` (gtpv2/messages/ies/rfspindex.rs:95)
example : RfspIndex.unmarshal .debug [144, 0, 2, 0, 1, 0] = .ok { t := 144, length := 2, ins := 0, spid := 256 } := by
  decide +kernel

-- `s103pdf_ie_ipv4_unmarshal_test` (gtpv2/messages/ies/s103pdf.rs:133)
example : S103pdf.unmarshal .debug [90, 0, 12, 0, 4, 0, 0, 0, 0, 0, 0, 0, 0, 2, 1, 2] = .ok { t := 90, length := 12, ins := 0, hsgw_ip := (.V4 0), gre_key := 0, eps_bearer_ids := [1, 2] } := by
  decide +kernel

-- `s103pdf_ie_ipv6_unmarshal_test` (gtpv2/messages/ies/s103pdf.rs:151)
example : S103pdf.unmarshal .debug [90, 0, 24, 0, 16, 0, 0, 0, 0, 0, 0, 0, 0, 0, 0, 0, 0, 0, 0, 0, 0, 0, 0, 0, 0, 2, 1, 2] = .ok { t := 90, length := 24, ins := 0, hsgw_ip := (.V6 ⟨0, 0⟩), gre_key := 0, eps_bearer_ids := [1, 2] } := by
  decide +kernel

-- `s103pdf_ie_ipv6_sic_unmarshal_test` (gtpv2/messages/ies/s103pdf.rs:170)
example : S103pdf.unmarshal .debug [90, 0, 23, 0, 16, 0, 0, 0, 0, 0, 0, 0, 0, 0, 0, 0, 0, 0, 0, 0, 0, 0, 0, 0, 0, 1, 6] = .ok { t := 90, length := 23, ins := 0, hsgw_ip := (.V6 ⟨0, 0⟩), gre_key := 0, eps_bearer_ids := [6] } := by
  decide +kernel

-- `s103pdf_ie_ipv4_marshal_test` (gtpv2/messages/ies/s103pdf.rs:189)
example : S103pdf.marshal ({ t := 90, length := 12, ins := 0, hsgw_ip := (.V4 0), gre_key := 0, eps_bearer_ids := [1, 2] } : S103pdf) = [90, 0, 12, 0, 4, 0, 0, 0, 0, 0, 0, 0, 0, 2, 1, 2] := by
  decide +kernel

-- `s103pdf_ie_ipv6_marshal_test` (gtpv2/messages/ies/s103pdf.rs:208)
example : S103pdf.marshal ({ t := 90, length := 24, ins := 0, hsgw_ip := (.V6 ⟨0, 0⟩), gre_key := 0, eps_bearer_ids := [1, 2] } : S103pdf) = [90, 0, 24, 0, 16, 0, 0, 0, 0, 0, 0, 0, 0, 0, 0, 0, 0, 0, 0, 0, 0, 0, 0, 0, 0, 2, 1, 2] := by
  decide +kernel

-- `s103pdf_ie_wrong_ip_address_type` (gtpv2/messages/ies/s103pdf.rs:228)
example : S103pdf.unmarshal .debug [90, 0, 11, 0, 5, 0, 0, 0, 0, 0, 0, 0, 0, 0, 0] = .err (.ieIncorrect 90) := by
  decide +kernel

-- `s1udf_ie_ipv4_unmarshal_test` (gtpv2/messages/ies/s1udf.rs:121)
example : S1udf.unmarshal .debug [91, 0, 10, 0, 1, 4, 0, 0, 0, 0, 0, 0, 0, 0] = .ok { t := 91, length := 10, ins := 0, ebi := 1, sgw_ip := (.V4 0), sgw_s1u_teid := 0 } := by
  decide +kernel

-- `s1udf_ie_ipv6_unmarshal_test` (gtpv2/messages/ies/s1udf.rs:138)
example : S1udf.unmarshal .debug [91, 0, 22, 0, 1, 16, 0, 0, 0, 0, 0, 0, 0, 0, 0, 0, 0, 0, 0, 0, 0, 0, 0, 0, 0, 0] = .ok { t := 91, length := 22, ins := 0, ebi := 1, sgw_ip := (.V6 ⟨0, 0⟩), sgw_s1u_teid := 0 } := by
  decide +kernel

-- `s1udf_ie_ipv4_marshal_test` (gtpv2/messages/ies/s1udf.rs:157)
example : S1udf.marshal ({ t := 91, length := 10, ins := 0, ebi := 1, sgw_ip := (.V4 0), sgw_s1u_teid := 0 } : S1udf) = [91, 0, 10, 0, 1, 4, 0, 0, 0, 0, 0, 0, 0, 0] := by
  decide +kernel

-- `s1udf_ie_ipv6_marshal_test` (gtpv2/messages/ies/s1udf.rs:175)
example : S1udf.marshal ({ t := 91, length := 22, ins := 0, ebi := 1, sgw_ip := (.V6 ⟨0, 0⟩), sgw_s1u_teid := 0 } : S1udf) = [91, 0, 22, 0, 1, 16, 0, 0, 0, 0, 0, 0, 0, 0, 0, 0, 0, 0, 0, 0, 0, 0, 0, 0, 0, 0] := by
  decide +kernel

-- `s1udf_ie_wrong_ip_address_type` (gtpv2/messages/ies/s1udf.rs:195)
example : S1udf.unmarshal .debug [91, 0, 10, 0, 1, 5, 0, 0, 0, 0, 0, 0, 0, 0] = .err (.ieIncorrect 91) := by
  decide +kernel

-- `scef_pdn_connection_ie_unmarshal_test` (gtpv2/messages/ies/scefpdnconnections.rs:110)
example : groupUnm (decoder .debug) ScefPdnConnections.ofGroup .debug [195, 0, 79, 0, 71, 0, 13, 0, 4, 116, 101, 115, 116, 3, 110, 101, 116, 3, 99, 111, 109, 73, 0, 1, 0, 5, 176, 0, 53, 0, 18, 115, 99, 101, 102, 46, 110, 111, 100, 101, 115, 46, 112, 103, 119, 46, 115, 101, 46, 33, 101, 112, 99, 46, 109, 110, 99, 48, 53, 46, 109, 99, 99, 50, 51, 52, 46, 51, 103, 112, 112, 110, 101, 116, 119, 111, 114, 107, 46, 111, 114, 103, 46] = .ok { t := 195, length := 79, ins := 0, apn := { t := 71, length := 13, ins := 0, name := ['t', 'e', 's', 't', '.', 'n', 'e', 't', '.', 'c', 'o', 'm'] }, default_ebi := { t := 73, length := 1, ins := 0, value := 5 }, scef_id := { t := 176, length := 53, ins := 0, node_name := ['s', 'c', 'e', 'f', '.', 'n', 'o', 'd', 'e', 's', '.', 'p', 'g', 'w', '.', 's', 'e', '.'], node_realm := ['e', 'p', 'c', '.', 'm', 'n', 'c', '0', '5', '.', 'm', 'c', 'c', '2', '3', '4', '.', '3', 'g', 'p', 'p', 'n', 'e', 't', 'w', 'o', 'r', 'k', '.', 'o', 'r', 'g', '.'] } } := by
  decide +kernel

-- `scef_pdn_connection_ie_marshal_test` (gtpv2/messages/ies/scefpdnconnections.rs:145)
example : (fun x => IE.marshal (.ScefPdnConnections x)) ({ t := 195, length := 79, ins := 0, apn := { t := 71, length := 13, ins := 0, name := ['t', 'e', 's', 't', '.', 'n', 'e', 't', '.', 'c', 'o', 'm'] }, default_ebi := { t := 73, length := 1, ins := 0, value := 5 }, scef_id := { t := 176, length := 53, ins := 0, node_name := ['s', 'c', 'e', 'f', '.', 'n', 'o', 'd', 'e', 's', '.', 'p', 'g', 'w', '.', 's', 'e', '.'], node_realm := ['e', 'p', 'c', '.', 'm', 'n', 'c', '0', '5', '.', 'm', 'c', 'c', '2', '3', '4', '.', '3', 'g', 'p', 'p', 'n', 'e', 't', 'w', 'o', 'r', 'k', '.', 'o', 'r', 'g', '.'] } } : ScefPdnConnections) = [195, 0, 79, 0, 71, 0, 13, 0, 4, 116, 101, 115, 116, 3, 110, 101, 116, 3, 99, 111, 109, 73, 0, 1, 0, 5, 176, 0, 53, 0, 18, 115, 99, 101, 102, 46, 110, 111, 100, 101, 115, 46, 112, 103, 119, 46, 115, 101, 46, 33, 101, 112, 99, 46, 109, 110, 99, 48, 53, 46, 109, 99, 99, 50, 51, 52, 46, 51, 103, 112, 112, 110, 101, 116, 119, 111, 114, 107, 46, 111, 114, 103, 46] := by
  decide +kernel

-- `secondary_rat_udr_ie_unmarshal_test` (gtpv2/messages/ies/secondaryratudr.rs:144)
example : SecondaryRatUsageDataReport.unmarshal .debug [201, 0, 27, 0, 3, 0, 5, 0, 0, 0, 255, 0, 0, 255, 255, 0, 0, 0, 0, 255, 255, 255, 0, 0, 0, 0, 0, 0, 0, 255, 255] = .ok { t := 201, length := 27, ins := 0, irsgw := true, irpgw := true, rat_type := 0, ebi := 5, start_timestamp := 255, end_timestamp := 65535, usg_data_dl := 4294967040, usg_data_ul := 65535, second_rat_dur_tansfer := none } := by
  decide +kernel

-- `secondary_rat_udr_ie_marshal_test` (gtpv2/messages/ies/secondaryratudr.rs:169)
example : SecondaryRatUsageDataReport.marshal ({ t := 201, length := 27, ins := 0, irsgw := true, irpgw := true, rat_type := 0, ebi := 5, start_timestamp := 255, end_timestamp := 65535, usg_data_dl := 4294967040, usg_data_ul := 65535, second_rat_dur_tansfer := none } : SecondaryRatUsageDataReport) = [201, 0, 27, 0, 3, 0, 5, 0, 0, 0, 255, 0, 0, 255, 255, 0, 0, 0, 0, 255, 255, 255, 0, 0, 0, 0, 0, 0, 0, 255, 255] := by
  decide +kernel

-- `selection_mode_ie_marshal_test` (gtpv2/messages/ies/selectionmode.rs:81)
example : SelectionMode.marshal ({ t := 128, length := 1, ins := 0, mode := 0 } : SelectionMode) = [128, 0, 1, 0, 0] := by
  decide +kernel

-- `chargingchar_ie_unmarshal_test` (gtpv2/messages/ies/selectionmode.rs:95)
example : SelectionMode.unmarshal .debug [128, 0, 1, 0, 0] = .ok { t := 128, length := 1, ins := 0, mode := 0 } := by
  decide +kernel

-- `service_indicator_ie_marshal_test` (gtpv2/messages/ies/serviceindicator.rs:115)
example : ServiceIndicator.marshal ({ t := 149, length := 1, ins := 0, indicator := .SmsIndicator } : ServiceIndicator) = [149, 0, 1, 0, 2] := by
  decide +kernel

-- `service_indicator_ie_unmarshal_test` (gtpv2/messages/ies/serviceindicator.rs:129)
example : ServiceIndicator.unmarshal .debug [149, 0, 1, 0, 2] = .ok { t := 149, length := 1, ins := 0, indicator := .SmsIndicator } := by
  decide +kernel

-- `services_auth_ie_unmarshal_test` (gtpv2/messages/ies/servicesauthorized.rs:99)
example : ServicesAuthorized.unmarshal .debug [210, 0, 2, 0, 0, 1] = .ok { t := 210, length := 2, ins := 0, vehicle_ue_auth := false, pedestrian_ue_auth := true } := by
  decide +kernel

-- `services_auth_ie_marshal_test` (gtpv2/messages/ies/servicesauthorized.rs:113)
example : ServicesAuthorized.marshal ({ t := 210, length := 2, ins := 0, vehicle_ue_auth := false, pedestrian_ue_auth := true } : ServicesAuthorized) = [210, 0, 2, 0, 0, 1] := by
  decide +kernel

-- `serving_nw_ie_marshal_test` (gtpv2/messages/ies/servingnetwork.rs:92)
example : ServingNetwork.marshal ({ t := 83, length := 3, ins := 0, mcc := 999, mnc := 1, mnc_is_three_digits := false } : ServingNetwork) = [83, 0, 3, 0, 153, 249, 16] := by
  decide +kernel

-- `serving_nw_ie_unmarshal_test` (gtpv2/messages/ies/servingnetwork.rs:108)
example : ServingNetwork.unmarshal .debug [83, 0, 3, 0, 153, 249, 16] = .ok { t := 83, length := 3, ins := 0, mcc := 999, mnc := 1, mnc_is_three_digits := false } := by
  decide +kernel

-- `serving_nw_ie_three_digit_mnc_roundtrip_test` (gtpv2/messages/ies/servingnetwork.rs:122)
example : ServingNetwork.marshal ({ t := 83, length := 3, ins := 0, mcc := 999, mnc := 10, mnc_is_three_digits := true } : ServingNetwork) = [83, 0, 3, 0, 153, 9, 16] := by
  decide +kernel

-- `serving_nw_ie_three_digit_mnc_roundtrip_test` (gtpv2/messages/ies/servingnetwork.rs:122)
example : ServingNetwork.unmarshal .debug [83, 0, 3, 0, 153, 9, 16] = .ok { t := 83, length := 3, ins := 0, mcc := 999, mnc := 10, mnc_is_three_digits := true } := by
  decide +kernel

-- `serving_nw_ie_three_digit_mnc_roundtrip_test` (gtpv2/messages/ies/servingnetwork.rs:122)
example : ServingNetwork.marshal ({ t := 83, length := 3, ins := 0, mcc := 999, mnc := 742, mnc_is_three_digits := true } : ServingNetwork) = [83, 0, 3, 0, 153, 41, 71] := by
  decide +kernel

-- `serving_nw_ie_three_digit_mnc_roundtrip_test` (gtpv2/messages/ies/servingnetwork.rs:122)
example : ServingNetwork.unmarshal .debug [83, 0, 3, 0, 153, 41, 71] = .ok { t := 83, length := 3, ins := 0, mcc := 999, mnc := 742, mnc_is_three_digits := true } := by
  decide +kernel

-- `serving_plmn_rate_ctrl_ie_marshal_test` (gtpv2/messages/ies/servingplmnratecontrol.rs:85)
example : ServingPlmnRateControl.marshal ({ t := 198, length := 4, ins := 0, rate_ctrl_ul := 100, rate_ctrl_dl := 500 } : ServingPlmnRateControl) = [198, 0, 4, 0, 0, 100, 1, 244] := by
  decide +kernel

-- `serving_plmn_rate_ctrl_ie_unmarshal_test` (gtpv2/messages/ies/servingplmnratecontrol.rs:100)
example : ServingPlmnRateControl.unmarshal .debug [198, 0, 4, 0, 0, 100, 1, 244] = .ok { t := 198, length := 4, ins := 0, rate_ctrl_ul := 100, rate_ctrl_dl := 500 } := by
  decide +kernel

-- `sgi_ptp_tun_address_ie_ipv4_unmarshal_test` (gtpv2/messages/ies/sgiptptunneladdress.rs:133)
example : SgiPtpTunnelAddress.unmarshal .debug [213, 0, 7, 0, 5, 10, 100, 50, 10, 19, 136] = .ok { t := 213, length := 7, ins := 0, ip := (.V4 174338570), port := (some 5000) } := by
  decide +kernel

-- `sgi_ptp_tun_address_ie_ipv6_unmarshal_test` (gtpv2/messages/ies/sgiptptunneladdress.rs:148)
example : SgiPtpTunnelAddress.unmarshal .debug [213, 0, 17, 0, 2, 0, 255, 0, 255, 0, 255, 0, 255, 0, 255, 0, 255, 0, 255, 0, 255] = .ok { t := 213, length := 17, ins := 0, ip := (.V6 ⟨71777214294589695, 71777214294589695⟩), port := none } := by
  decide +kernel

-- `sgi_ptp_tun_address_ie_ipv4_marshal_test` (gtpv2/messages/ies/sgiptptunneladdress.rs:167)
example : SgiPtpTunnelAddress.marshal ({ t := 213, length := 7, ins := 0, ip := (.V4 174338570), port := (some 5000) } : SgiPtpTunnelAddress) = [213, 0, 7, 0, 5, 10, 100, 50, 10, 19, 136] := by
  decide +kernel

-- `sgi_ptp_tun_address_ie_ipv6_marshal_test` (gtpv2/messages/ies/sgiptptunneladdress.rs:184)
example : SgiPtpTunnelAddress.marshal ({ t := 213, length := 17, ins := 0, ip := (.V6 ⟨71777214294589695, 71777214294589695⟩), port := none } : SgiPtpTunnelAddress) = [213, 0, 17, 0, 2, 0, 255, 0, 255, 0, 255, 0, 255, 0, 255, 0, 255, 0, 255, 0, 255] := by
  decide +kernel

-- `source_id_ie_rnc_id_marshal_test` (gtpv2/messages/ies/sourceid.rs:249)
example : SourceIdentification.marshal ({ t := 129, length := 16, ins := 0, target_cell := { mcc := 263, mnc := 1, mnc_is_three_digits := false, lac := 65535, rac := 170, ci := 65450 }, source_type := (.SourceRncId { mcc := 263, mnc := 1, mnc_is_three_digits := false, rnc_id := 65450, ext_rnc_id := (some 4098) }) } : SourceIdentification) = [129, 0, 16, 0, 98, 243, 16, 255, 255, 170, 255, 170, 1, 98, 243, 16, 255, 170, 16, 2] := by
  decide +kernel

-- `source_id_ie_source_rnc_id_unmarshal_test` (gtpv2/messages/ies/sourceid.rs:280)
example : SourceIdentification.unmarshal .debug [129, 0, 16, 0, 98, 243, 16, 255, 255, 170, 255, 170, 1, 98, 243, 16, 255, 170, 16, 2] = .ok { t := 129, length := 16, ins := 0, target_cell := { mcc := 263, mnc := 1, mnc_is_three_digits := false, lac := 65535, rac := 170, ci := 65450 }, source_type := (.SourceRncId { mcc := 263, mnc := 1, mnc_is_three_digits := false, rnc_id := 65450, ext_rnc_id := (some 4098) }) } := by
  decide +kernel

-- `source_id_ie_cell_id_marshal_test` (gtpv2/messages/ies/sourceid.rs:311)
example : SourceIdentification.marshal ({ t := 129, length := 17, ins := 0, target_cell := { mcc := 263, mnc := 4, mnc_is_three_digits := false, lac := 4098, rac := 2, ci := 16 }, source_type := (.SourceCellId { mcc := 263, mnc := 4, mnc_is_three_digits := false, lac := 4098, rac := 2, ci := 16 }) } : SourceIdentification) = [129, 0, 17, 0, 98, 243, 64, 16, 2, 2, 0, 16, 0, 98, 243, 64, 16, 2, 2, 0, 16] := by
  decide +kernel

-- `source_id_ie_cell_id_unmarshal_test` (gtpv2/messages/ies/sourceid.rs:343)
example : SourceIdentification.unmarshal .debug [129, 0, 17, 0, 98, 243, 64, 16, 2, 2, 0, 16, 0, 98, 243, 64, 16, 2, 2, 0, 16] = .ok { t := 129, length := 17, ins := 0, target_cell := { mcc := 263, mnc := 4, mnc_is_three_digits := false, lac := 4098, rac := 2, ci := 16 }, source_type := (.SourceCellId { mcc := 263, mnc := 4, mnc_is_three_digits := false, lac := 4098, rac := 2, ci := 16 }) } := by
  decide +kernel

-- `iewithietypeext_ie_marshal_test` (gtpv2/messages/ies/specialiewithtypeext.rs:89)
example : SpecialIEWithTypeExt.marshal ({ t := 254, length := 4, ins := 0, ie_type_ext := 257, ie_data := [255, 255] } : SpecialIEWithTypeExt) = [254, 0, 4, 0, 1, 1, 255, 255] := by
  decide +kernel

-- `iewithietypeext_ie_unmarshal_test` (gtpv2/messages/ies/specialiewithtypeext.rs:104)
example : SpecialIEWithTypeExt.unmarshal .debug [254, 0, 4, 0, 1, 1, 255, 255] = .ok { t := 254, length := 4, ins := 0, ie_type_ext := 257, ie_data := [255, 255] } := by
  decide +kernel

-- `spi_ie_unmarshal_test` (gtpv2/messages/ies/spi.rs:88)
example : Spi.unmarshal .debug [157, 0, 1, 0, 1] = .ok { t := 157, length := 1, ins := 0, lapi := true } := by
  decide +kernel

-- `spi_ie_marshal_test` (gtpv2/messages/ies/spi.rs:101)
example : Spi.marshal ({ t := 157, length := 1, ins := 0, lapi := true } : Spi) = [157, 0, 1, 0, 1] := by
  decide +kernel

-- `sqn_ie_marshal_test` (gtpv2/messages/ies/sqn.rs:81)
example : Sqn.marshal ({ t := 183, length := 4, ins := 0, sqn := 4289392145 } : Sqn) = [183, 0, 4, 0, 255, 170, 238, 17] := by
  decide +kernel

-- `sqn_ie_unmarshal_test` (gtpv2/messages/ies/sqn.rs:95)
example : Sqn.unmarshal .debug [183, 0, 4, 0, 255, 170, 238, 17] = .ok { t := 183, length := 4, ins := 0, sqn := 4289392145 } := by
  decide +kernel

-- `src_rnc_pdcp_ctx_ie_marshal_test` (gtpv2/messages/ies/srcrncpdcpctxinfo.rs:85)
example : SourceRncPdcpContextInfo.marshal ({ t := 125, length := 20, ins := 0, rrc_container := [128, 128, 33, 16, 1, 1, 0, 16, 129, 6, 0, 0, 0, 0, 131, 6, 0, 0, 0, 0] } : SourceRncPdcpContextInfo) = [125, 0, 20, 0, 128, 128, 33, 16, 1, 1, 0, 16, 129, 6, 0, 0, 0, 0, 131, 6, 0, 0, 0, 0] := by
  decide +kernel

-- `src_rnc_pdcp_ie_unmarshal_test` (gtpv2/messages/ies/srcrncpdcpctxinfo.rs:105)
example : SourceRncPdcpContextInfo.unmarshal .debug [125, 0, 20, 0, 128, 128, 33, 16, 1, 1, 0, 16, 129, 6, 0, 0, 0, 0, 131, 6, 0, 0, 0, 0] = .ok { t := 125, length := 20, ins := 0, rrc_container := [128, 128, 33, 16, 1, 1, 0, 16, 129, 6, 0, 0, 0, 0, 131, 6, 0, 0, 0, 0] } := by
  decide +kernel

-- `srvcc_cause_ie_marshal_test` (gtpv2/messages/ies/srvcccause.rs:152)
example : SrvccCause.marshal ({ t := 56, length := 1, ins := 0, value := .UnknownTargetId } : SrvccCause) = [56, 0, 1, 0, 5] := by
  decide +kernel

-- `srvcc_cause_ie_unmarshal_test` (gtpv2/messages/ies/srvcccause.rs:166)
example : SrvccCause.unmarshal .debug [56, 0, 1, 0, 5] = .ok { t := 56, length := 1, ins := 0, value := .UnknownTargetId } := by
  decide +kernel

-- `stnsr_ie_unmarshal_test` (gtpv2/messages/ies/stnsr.rs:91)
example : StnSr.unmarshal .debug [51, 0, 9, 0, 4, 136, 34, 88, 1, 16, 82, 17, 242] = .ok { t := 51, length := 9, ins := 0, nanpi := 4, msisdn := ['8', '8', '2', '2', '8', '5', '1', '0', '0', '1', '2', '5', '1', '1', '2'] } := by
  decide +kernel

-- `stnsr_ie_marshal_test` (gtpv2/messages/ies/stnsr.rs:105)
example : StnSr.marshal ({ t := 51, length := 9, ins := 0, nanpi := 4, msisdn := ['8', '8', '2', '2', '8', '5', '1', '0', '0', '1', '2', '5', '1', '1', '2'] } : StnSr) = [51, 0, 9, 0, 4, 136, 34, 88, 1, 16, 82, 17, 242] := by
  decide +kernel

-- `tad_ie_marshal_test` (gtpv2/messages/ies/tad.rs:86)
example : TrafficAggregateDescription.marshal ({ t := 85, length := 4, ins := 0, tad := [0, 0, 0, 0] } : TrafficAggregateDescription) = [85, 0, 4, 0, 0, 0, 0, 0] := by
  decide +kernel

-- `tad_ie_unmarshal_test` (gtpv2/messages/ies/tad.rs:100)
example : TrafficAggregateDescription.unmarshal .debug [85, 0, 4, 0, 0, 0, 0, 0] = .ok { t := 85, length := 4, ins := 0, tad := [0, 0, 0, 0] } := by
  decide +kernel

-- `target_id_ie_rnc_id_marshal_test` (gtpv2/messages/ies/targetid.rs:733)
example : TargetIdentification.marshal ({ t := 121, length := 11, ins := 0, target_type := (.RncId { rai := { mcc := 263, mnc := 1, mnc_is_three_digits := false, lac := 65535, rac := 170 }, rnc_id := 65450, ext_rnc_id := (some 4098) }) } : TargetIdentification) = [121, 0, 11, 0, 0, 98, 243, 16, 255, 255, 170, 255, 170, 16, 2] := by
  decide +kernel

-- `target_id_ie_unmarshal_test` (gtpv2/messages/ies/targetid.rs:759)
example : TargetIdentification.unmarshal .debug [121, 0, 11, 0, 0, 98, 243, 16, 255, 255, 170, 255, 170, 16, 2] = .ok { t := 121, length := 11, ins := 0, target_type := (.RncId { rai := { mcc := 263, mnc := 1, mnc_is_three_digits := false, lac := 65535, rac := 170 }, rnc_id := 65450, ext_rnc_id := (some 4098) }) } := by
  decide +kernel

-- `target_id_ie_macro_enb_id_marshal_test` (gtpv2/messages/ies/targetid.rs:785)
example : TargetIdentification.marshal ({ t := 121, length := 9, ins := 0, target_type := (.MacroeNbId { macro_enb_id := { mcc := 263, mnc := 1, mnc_is_three_digits := false, macro_id := 65535 }, tac := 4098 }) } : TargetIdentification) = [121, 0, 9, 0, 1, 98, 243, 16, 0, 255, 255, 16, 2] := by
  decide +kernel

-- `target_id_ie_macro_enb_unmarshal_test` (gtpv2/messages/ies/targetid.rs:809)
example : TargetIdentification.unmarshal .debug [121, 0, 9, 0, 1, 98, 243, 16, 0, 255, 255, 16, 2] = .ok { t := 121, length := 9, ins := 0, target_type := (.MacroeNbId { macro_enb_id := { mcc := 263, mnc := 1, mnc_is_three_digits := false, macro_id := 65535 }, tac := 4098 }) } := by
  decide +kernel

-- `target_id_ie_ext_macro_enb_id_marshal_test` (gtpv2/messages/ies/targetid.rs:833)
example : TargetIdentification.marshal ({ t := 121, length := 9, ins := 0, target_type := (.ExtendedMacroeNbId { ext_macro_enb_id := { mcc := 263, mnc := 4, mnc_is_three_digits := false, smenb := false, ext_macro_id := 131072 }, tac := 4098 }) } : TargetIdentification) = [121, 0, 9, 0, 4, 98, 243, 64, 2, 0, 0, 16, 2] := by
  decide +kernel

-- `target_id_ie_ext_macro_enb_unmarshal_test` (gtpv2/messages/ies/targetid.rs:858)
example : TargetIdentification.unmarshal .debug [121, 0, 9, 0, 4, 98, 243, 64, 2, 0, 0, 16, 2] = .ok { t := 121, length := 9, ins := 0, target_type := (.ExtendedMacroeNbId { ext_macro_enb_id := { mcc := 263, mnc := 4, mnc_is_three_digits := false, smenb := false, ext_macro_id := 131072 }, tac := 4098 }) } := by
  decide +kernel

-- `target_id_ie_cell_id_marshal_test` (gtpv2/messages/ies/targetid.rs:883)
example : TargetIdentification.marshal ({ t := 121, length := 9, ins := 0, target_type := (.CellId { mcc := 263, mnc := 4, mnc_is_three_digits := false, lac := 4098, rac := 2, ci := 16 }) } : TargetIdentification) = [121, 0, 9, 0, 2, 98, 243, 64, 16, 2, 2, 0, 16] := by
  decide +kernel

-- `target_id_ie_cell_id_unmarshal_test` (gtpv2/messages/ies/targetid.rs:906)
example : TargetIdentification.unmarshal .debug [121, 0, 9, 0, 2, 98, 243, 64, 16, 2, 2, 0, 16] = .ok { t := 121, length := 9, ins := 0, target_type := (.CellId { mcc := 263, mnc := 4, mnc_is_three_digits := false, lac := 4098, rac := 2, ci := 16 }) } := by
  decide +kernel

-- `target_id_ie_gnodeb_id_marshal_test` (gtpv2/messages/ies/targetid.rs:929)
example : TargetIdentification.marshal ({ t := 121, length := 12, ins := 0, target_type := (.GNbId { mcc := 263, mnc := 4, mnc_is_three_digits := false, gnb_id_length := 22, gnb_id := 4098, etac := [0, 16, 2] }) } : TargetIdentification) = [121, 0, 12, 0, 5, 98, 243, 64, 22, 0, 0, 16, 2, 0, 16, 2] := by
  decide +kernel

-- `target_id_ie_gnodeb_id_unmarshal_test` (gtpv2/messages/ies/targetid.rs:953)
example : TargetIdentification.unmarshal .debug [121, 0, 12, 0, 5, 98, 243, 64, 22, 0, 0, 16, 2, 0, 16, 2] = .ok { t := 121, length := 12, ins := 0, target_type := (.GNbId { mcc := 263, mnc := 4, mnc_is_three_digits := false, gnb_id_length := 22, gnb_id := 4098, etac := [0, 16, 2] }) } := by
  decide +kernel

-- `target_id_ie_macro_gnodeb_id_marshal_test` (gtpv2/messages/ies/targetid.rs:977)
example : TargetIdentification.marshal ({ t := 121, length := 10, ins := 0, target_type := (.MacrongeNbId { macro_ng_enb_id := { mcc := 263, mnc := 4, mnc_is_three_digits := false, macro_id := 4098 }, etac := [0, 16, 2] }) } : TargetIdentification) = [121, 0, 10, 0, 6, 98, 243, 64, 0, 16, 2, 0, 16, 2] := by
  decide +kernel

-- `target_id_ie_macro_gnodeb_id_unmarshal_test` (gtpv2/messages/ies/targetid.rs:1001)
example : TargetIdentification.unmarshal .debug [121, 0, 10, 0, 6, 98, 243, 64, 0, 16, 2, 0, 16, 2] = .ok { t := 121, length := 10, ins := 0, target_type := (.MacrongeNbId { macro_ng_enb_id := { mcc := 263, mnc := 4, mnc_is_three_digits := false, macro_id := 4098 }, etac := [0, 16, 2] }) } := by
  decide +kernel

-- `target_id_ie_extended_macro_gnodeb_id_marshal_test` (gtpv2/messages/ies/targetid.rs:1025)
example : TargetIdentification.marshal ({ t := 121, length := 10, ins := 0, target_type := (.ExtendedngeNbId { macro_ng_enb_id := { mcc := 263, mnc := 4, mnc_is_three_digits := false, smenb := false, ext_macro_id := 4098 }, etac := [0, 16, 2] }) } : TargetIdentification) = [121, 0, 10, 0, 7, 98, 243, 64, 0, 16, 2, 0, 16, 2] := by
  decide +kernel

-- `target_id_ie_extended_macro_gnodeb_id_unmarshal_test` (gtpv2/messages/ies/targetid.rs:1050)
example : TargetIdentification.unmarshal .debug [121, 0, 10, 0, 7, 98, 243, 64, 0, 16, 2, 0, 16, 2] = .ok { t := 121, length := 10, ins := 0, target_type := (.ExtendedngeNbId { macro_ng_enb_id := { mcc := 263, mnc := 4, mnc_is_three_digits := false, smenb := false, ext_macro_id := 4098 }, etac := [0, 16, 2] }) } := by
  decide +kernel

-- `target_id_ie_engnodeb_id_marshal_test` (gtpv2/messages/ies/targetid.rs:1075)
example : TargetIdentification.marshal ({ t := 121, length := 14, ins := 0, target_type := (.EngNbId { mcc := 263, mnc := 4, mnc_is_three_digits := false, en_gnb_id_length := 22, en_gnb_id := 4098, tac := (some 4098), etac := (some [0, 16, 2]) }) } : TargetIdentification) = [121, 0, 14, 0, 8, 98, 243, 64, 214, 0, 0, 16, 2, 16, 2, 0, 16, 2] := by
  decide +kernel

-- `target_id_ie_engnodeb_id_unmarshal_test` (gtpv2/messages/ies/targetid.rs:1101)
example : TargetIdentification.unmarshal .debug [121, 0, 14, 0, 8, 98, 243, 64, 214, 0, 0, 16, 2, 16, 2, 0, 16, 2] = .ok { t := 121, length := 14, ins := 0, target_type := (.EngNbId { mcc := 263, mnc := 4, mnc_is_three_digits := false, en_gnb_id_length := 22, en_gnb_id := 4098, tac := (some 4098), etac := (some [0, 16, 2]) }) } := by
  decide +kernel

-- `throttling_ie_marshal_test` (gtpv2/messages/ies/throttling.rs:108)
example : Throttling.marshal ({ t := 154, length := 2, ins := 0, delay_unit := 3, delay_value := 5, factor := 100 } : Throttling) = [154, 0, 2, 0, 101, 100] := by
  decide +kernel

-- `throttling_ie_unmarshal_test` (gtpv2/messages/ies/throttling.rs:124)
example : Throttling.unmarshal .debug [154, 0, 2, 0, 101, 100] = .ok { t := 154, length := 2, ins := 0, delay_unit := 3, delay_value := 5, factor := 100 } := by
  decide +kernel

-- `tmgi_ie_marshal_test` (gtpv2/messages/ies/tmgi.rs:85)
example : Tmgi.marshal ({ t := 158, length := 6, ins := 0, tmgi := [0, 1, 2, 3, 4, 5] } : Tmgi) = [158, 0, 6, 0, 0, 1, 2, 3, 4, 5] := by
  decide +kernel

-- `tmgi_ie_unmarshal_test` (gtpv2/messages/ies/tmgi.rs:97)
example : Tmgi.unmarshal .debug [158, 0, 6, 0, 0, 1, 2, 3, 4, 5] = .ok { t := 158, length := 6, ins := 0, tmgi := [0, 1, 2, 3, 4, 5] } := by
  decide +kernel

-- `tmsi_ie_marshal_test` (gtpv2/messages/ies/tmsi.rs:81)
example : Tmsi.marshal ({ t := 88, length := 4, ins := 0, tmsi := 4294967290 } : Tmsi) = [88, 0, 4, 0, 255, 255, 255, 250] := by
  decide +kernel

-- `tmsi_ie_unmarshal_test` (gtpv2/messages/ies/tmsi.rs:95)
example : Tmsi.unmarshal .debug [88, 0, 4, 0, 255, 255, 255, 250] = .ok { t := 88, length := 4, ins := 0, tmsi := 4294967290 } := by
  decide +kernel

end Gtp.V2
