import Verif.V2.IE

/-!
# The unit tests under `src/gtpv2/messages/ies/`, run on the model (1 of 4)

Generated by `scripts/gen_tests.py`.  These are tests of the model against the expectations written in the
repository, not proofs of properties.
-/

namespace Gtp.V2
open Gtp
set_option maxRecDepth 100000

-- `abstime_mbmsdatatransfer_ie_marshal_test` (gtpv2/messages/ies/abstimembmsdatatransfer.rs:84)
example : AbsoluteTimeMbmsDataTransfer.marshal ({ t := 164, length := 8, ins := 0, seconds := 65535 } : AbsoluteTimeMbmsDataTransfer) = [164, 0, 8, 0, 0, 0, 0, 0, 0, 0, 255, 255] := by
  decide +kernel

-- `abstime_mbmsdatatransfer_ie_unmarshal_test` (gtpv2/messages/ies/abstimembmsdatatransfer.rs:100)
example : AbsoluteTimeMbmsDataTransfer.unmarshal .debug [164, 0, 8, 0, 0, 0, 0, 0, 0, 0, 255, 255] = .ok { t := 164, length := 8, ins := 0, seconds := 65535 } := by
  decide +kernel

-- `action_indication_ie_unmarshal_test` (gtpv2/messages/ies/actionindication.rs:123)
example : ActionIndication.unmarshal .debug [168, 0, 1, 0, 2] = .ok { t := 168, length := 1, ins := 0, indication := .PagingIndication } := by
  decide +kernel

-- `action_indication_ie_marshal_test` (gtpv2/messages/ies/actionindication.rs:136)
example : ActionIndication.marshal ({ t := 168, length := 1, ins := 0, indication := .PagingIndication } : ActionIndication) = [168, 0, 1, 0, 2] := by
  decide +kernel

-- `additionalflags_srvcc_ie_marshal_test` (gtpv2/messages/ies/addflagssrvcc.rs:109)
example : AdditionalFlagsSrvcc.marshal ({ t := 160, length := 1, ins := 0, ics := false, vf := true } : AdditionalFlagsSrvcc) = [160, 0, 1, 0, 2] := by
  decide +kernel

-- `additionalflags_srvcc_ie_unmarshal_test` (gtpv2/messages/ies/addflagssrvcc.rs:124)
example : AdditionalFlagsSrvcc.unmarshal .debug [160, 0, 1, 0, 2] = .ok { t := 160, length := 1, ins := 0, ics := false, vf := true } := by
  decide +kernel

-- `addmmctxsrvcc_ie_marshal_test` (gtpv2/messages/ies/additionalmmctxsrvcc.rs:142)
example : AdditionalMmContextForSrvcc.marshal ({ t := 159, length := 15, ins := 0, mobile_station_classmark2 := (some [1, 2, 3, 4]), mobile_station_classmark3 := (some [1, 2, 3, 4]), supported_codec_list := (some [1, 2, 3, 4]) } : AdditionalMmContextForSrvcc) = [159, 0, 15, 0, 4, 1, 2, 3, 4, 4, 1, 2, 3, 4, 4, 1, 2, 3, 4] := by
  decide +kernel

-- `addmmctxsrvcc_ie_unmarshal_test` (gtpv2/messages/ies/additionalmmctxsrvcc.rs:160)
example : AdditionalMmContextForSrvcc.unmarshal .debug [159, 0, 15, 0, 4, 1, 2, 3, 4, 4, 1, 2, 3, 4, 4, 1, 2, 3, 4] = .ok { t := 159, length := 15, ins := 0, mobile_station_classmark2 := (some [1, 2, 3, 4]), mobile_station_classmark3 := (some [1, 2, 3, 4]), supported_codec_list := (some [1, 2, 3, 4]) } := by
  decide +kernel

-- `alt_imsi_ie_unmarshal_test` (gtpv2/messages/ies/alternativeimsi.rs:87)
example : AlternativeImsi.unmarshal .debug [219, 0, 8, 0, 9, 65, 80, 1, 145, 22, 120, 243] = .ok { t := 219, length := 8, ins := 0, imsi := ['9', '0', '1', '4', '0', '5', '1', '0', '1', '9', '6', '1', '8', '7', '3'] } := by
  decide +kernel

-- `alt_imsi_ie_marshal_test` (gtpv2/messages/ies/alternativeimsi.rs:101)
example : AlternativeImsi.marshal ({ t := 219, length := 8, ins := 0, imsi := ['9', '0', '1', '4', '0', '5', '1', '0', '1', '9', '6', '1', '8', '7', '3'] } : AlternativeImsi) = [219, 0, 8, 0, 9, 65, 80, 1, 145, 22, 120, 243] := by
  decide +kernel

-- `imsi_ie_unmarshal_buffer_test` (gtpv2/messages/ies/alternativeimsi.rs:116)
example : AlternativeImsi.unmarshal .debug [219, 0, 8, 0, 9, 65, 80, 1, 145, 22, 120, 243] = .ok { t := 219, length := 8, ins := 0, imsi := ['9', '0', '1', '4', '0', '5', '1', '0', '1', '9', '6', '1', '8', '7', '3'] } := by
  decide +kernel

-- `apnambr_ie_marshal_test` (gtpv2/messages/ies/ambr.rs:85)
example : Ambr.marshal ({ t := 72, length := 8, ins := 0, ambr_ul := 2000, ambr_dl := 8000 } : Ambr) = [72, 0, 8, 0, 0, 0, 7, 208, 0, 0, 31, 64] := by
  decide +kernel

-- `apnambr_ie_unmarshal_test` (gtpv2/messages/ies/ambr.rs:102)
example : Ambr.unmarshal .debug [72, 0, 8, 0, 0, 0, 7, 208, 0, 0, 31, 64] = .ok { t := 72, length := 8, ins := 0, ambr_ul := 2000, ambr_dl := 8000 } := by
  decide +kernel

-- `apco_ie_marshal_test` (gtpv2/messages/ies/apco.rs:86)
example : Apco.marshal ({ t := 163, length := 20, ins := 0, apco := [128, 128, 33, 16, 1, 1, 0, 16, 129, 6, 0, 0, 0, 0, 131, 6, 0, 0, 0, 0] } : Apco) = [163, 0, 20, 0, 128, 128, 33, 16, 1, 1, 0, 16, 129, 6, 0, 0, 0, 0, 131, 6, 0, 0, 0, 0] := by
  decide +kernel

-- `apco_ie_unmarshal_test` (gtpv2/messages/ies/apco.rs:106)
example : Apco.unmarshal .debug [163, 0, 20, 0, 128, 128, 33, 16, 1, 1, 0, 16, 129, 6, 0, 0, 0, 0, 131, 6, 0, 0, 0, 0] = .ok { t := 163, length := 20, ins := 0, apco := [128, 128, 33, 16, 1, 1, 0, 16, 129, 6, 0, 0, 0, 0, 131, 6, 0, 0, 0, 0] } := by
  decide +kernel

-- `apn_ie_marshal_test` (gtpv2/messages/ies/apn.rs:108)
example : Apn.marshal ({ t := 71, length := 13, ins := 0, name := ['t', 'e', 's', 't', '.', 'n', 'e', 't', '.', 'c', 'o', 'm'] } : Apn) = [71, 0, 13, 0, 4, 116, 101, 115, 116, 3, 110, 101, 116, 3, 99, 111, 109] := by
  decide +kernel

-- `apn_ie_unmarshal_test` (gtpv2/messages/ies/apn.rs:125)
example : Apn.unmarshal .debug [71, 0, 13, 0, 4, 116, 101, 115, 116, 3, 110, 101, 116, 3, 99, 111, 109] = .ok { t := 71, length := 13, ins := 0, name := ['t', 'e', 's', 't', '.', 'n', 'e', 't', '.', 'c', 'o', 'm'] } := by
  decide +kernel

-- `apn_rate_control_status_ie_unmarshal_test` (gtpv2/messages/ies/apnratecontrolstatus.rs:95)
example : ApnRateControlStatus.unmarshal .debug [204, 0, 20, 0, 0, 0, 255, 255, 0, 0, 170, 170, 0, 0, 255, 255, 0, 0, 0, 0, 0, 78, 78, 78] = .ok { t := 204, length := 20, ins := 0, ul_packets_allowed := 65535, nmbr_add_exception_reports := 43690, dl_packets_allowed := 65535, validity_time := 5131854 } := by
  decide +kernel

-- `apn_rate_control_status_ie_marshal_test` (gtpv2/messages/ies/apnratecontrolstatus.rs:114)
example : ApnRateControlStatus.marshal ({ t := 204, length := 20, ins := 0, ul_packets_allowed := 65535, nmbr_add_exception_reports := 43690, dl_packets_allowed := 65535, validity_time := 5131854 } : ApnRateControlStatus) = [204, 0, 20, 0, 0, 0, 255, 255, 0, 0, 170, 170, 0, 0, 255, 255, 0, 0, 0, 0, 0, 78, 78, 78] := by
  decide +kernel

-- `apn_rel_cap_ie_marshal_test` (gtpv2/messages/ies/apnrelativecapacity.rs:114)
example : ApnRelativeCapacity.marshal ({ t := 184, length := 14, ins := 0, relative_cap := 100, name := ['t', 'e', 's', 't', '.', 'n', 'e', 't', '.', 'c', 'o', 'm'] } : ApnRelativeCapacity) = [184, 0, 14, 0, 100, 4, 116, 101, 115, 116, 3, 110, 101, 116, 3, 99, 111, 109] := by
  decide +kernel

-- `apn_rel_cap_ie_unmarshal_test` (gtpv2/messages/ies/apnrelativecapacity.rs:132)
example : ApnRelativeCapacity.unmarshal .debug [184, 0, 14, 0, 100, 4, 116, 101, 115, 116, 3, 110, 101, 116, 3, 99, 111, 109] = .ok { t := 184, length := 14, ins := 0, relative_cap := 100, name := ['t', 'e', 's', 't', '.', 'n', 'e', 't', '.', 'c', 'o', 'm'] } := by
  decide +kernel

-- `apnrestriction_ie_marshal_test` (gtpv2/messages/ies/apnrestriction.rs:118)
example : ApnRestriction.marshal ({ t := 127, length := 1, ins := 0, restriction_type := .NoApnRestriction } : ApnRestriction) = [127, 0, 1, 0, 0] := by
  decide +kernel

-- `apnrestriciton_ie_unmarshal_test` (gtpv2/messages/ies/apnrestriction.rs:132)
example : ApnRestriction.unmarshal .debug [127, 0, 1, 0, 0] = .ok { t := 127, length := 1, ins := 0, restriction_type := .NoApnRestriction } := by
  decide +kernel

-- `arp_ie_unmarshal_test` (gtpv2/messages/ies/arp.rs:100)
example : Arp.unmarshal .debug [155, 0, 1, 0, 84] = .ok { t := 155, length := 1, ins := 0, pci := true, pl := 5, pvi := false } := by
  decide +kernel

-- `arp_ie_marshal_test` (gtpv2/messages/ies/arp.rs:115)
example : Arp.marshal ({ t := 155, length := 1, ins := 0, pci := true, pl := 5, pvi := false } : Arp) = [155, 0, 1, 0, 84] := by
  decide +kernel

-- `arpi_ie_marshal_test` (gtpv2/messages/ies/arpi.rs:81)
example : AdditionalRrmPolicyIndex.marshal ({ t := 207, length := 4, ins := 0, arpi := 4294902015 } : AdditionalRrmPolicyIndex) = [207, 0, 4, 0, 255, 255, 0, 255] := by
  decide +kernel

-- `arpi_ie_unmarshal_test` (gtpv2/messages/ies/arpi.rs:95)
example : AdditionalRrmPolicyIndex.unmarshal .debug [207, 0, 4, 0, 255, 255, 0, 255] = .ok { t := 207, length := 4, ins := 0, arpi := 4294902015 } := by
  decide +kernel

-- `bearer_context_ie_unmarshal_test` (gtpv2/messages/ies/bearercontext.rs:228)
example : groupUnm (decoder .debug) BearerContext.ofGroup .debug [93, 0, 58, 0, 2, 0, 2, 0, 16, 0, 73, 0, 1, 0, 5, 87, 0, 9, 2, 132, 6, 209, 130, 76, 193, 254, 139, 45, 80, 0, 22, 0, 108, 9, 0, 0, 0, 0, 0, 0, 0, 0, 0, 0, 0, 0, 0, 0, 0, 0, 0, 0, 0, 0, 94, 0, 4, 0, 5, 67, 103, 223] = .ok { t := 93, length := 58, ins := 0, ebi := { t := 73, length := 1, ins := 0, value := 5 }, cause := (some { t := 2, length := 2, ins := 0, value := 16, pce := false, bce := false, cs := false, offend_ie_type := none }), tft := none, fteids := [{ t := 87, length := 9, ins := 2, interface := 4, teid := 114393676, ipv4 := (some 3254684461), ipv6 := none }], bearer_qos := (some { t := 80, length := 22, ins := 0, pre_emption_vulnerability := 0, priority_level := 11, pre_emption_capability := 1, qci := 9, maxbr_ul := 0, maxbr_dl := 0, gbr_ul := 0, gbr_dl := 0 }), charging_id := (some { t := 94, length := 4, ins := 0, charging_id := 88303583 }), bearer_flags := none, pco := none, apco := none, epco := none, max_packet_loss := none, ran_nas_cause := none, bss_container := none, transaction_id := none } := by
  decide +kernel

-- `bearer_context_ie_marshal_test` (gtpv2/messages/ies/bearercontext.rs:295)
example : (fun x => IE.marshal (.BearerContext x)) ({ t := 93, length := 58, ins := 0, ebi := { t := 73, length := 1, ins := 0, value := 5 }, cause := (some { t := 2, length := 2, ins := 0, value := 16, pce := false, bce := false, cs := false, offend_ie_type := none }), tft := none, fteids := [{ t := 87, length := 9, ins := 2, interface := 4, teid := 114393676, ipv4 := (some 3254684461), ipv6 := none }], bearer_qos := (some { t := 80, length := 22, ins := 0, pre_emption_vulnerability := 0, priority_level := 11, pre_emption_capability := 1, qci := 9, maxbr_ul := 0, maxbr_dl := 0, gbr_ul := 0, gbr_dl := 0 }), charging_id := (some { t := 94, length := 4, ins := 0, charging_id := 88303583 }), bearer_flags := none, pco := none, apco := none, epco := none, max_packet_loss := none, ran_nas_cause := none, bss_container := none, transaction_id := none } : BearerContext) = [93, 0, 58, 0, 2, 0, 2, 0, 16, 0, 73, 0, 1, 0, 5, 87, 0, 9, 2, 132, 6, 209, 130, 76, 193, 254, 139, 45, 80, 0, 22, 0, 108, 9, 0, 0, 0, 0, 0, 0, 0, 0, 0, 0, 0, 0, 0, 0, 0, 0, 0, 0, 0, 0, 94, 0, 4, 0, 5, 67, 103, 223] := by
  decide +kernel

-- `bearer_flags_ie_marshal_test` (gtpv2/messages/ies/bearerflags.rs:112)
example : BearerFlags.marshal ({ t := 97, length := 1, ins := 0, asi := true, vind := true, vb := false, ppc := true } : BearerFlags) = [97, 0, 1, 0, 13] := by
  decide +kernel

-- `bearer_flags_ie_unmarshal_test` (gtpv2/messages/ies/bearerflags.rs:129)
example : BearerFlags.unmarshal .debug [97, 0, 1, 0, 13] = .ok { t := 97, length := 1, ins := 0, asi := true, vind := true, vb := false, ppc := true } := by
  decide +kernel

-- `bearer_qos_ie_unmarshal_test` (gtpv2/messages/ies/bearerqos.rs:119)
example : BearerQos.unmarshal .debug [80, 0, 22, 0, 100, 9, 0, 0, 0, 0, 0, 0, 0, 0, 0, 0, 0, 0, 0, 0, 0, 0, 0, 0, 0, 0] = .ok { t := 80, length := 22, ins := 0, pre_emption_vulnerability := 0, priority_level := 9, pre_emption_capability := 1, qci := 9, maxbr_ul := 0, maxbr_dl := 0, gbr_ul := 0, gbr_dl := 0 } := by
  decide +kernel

-- `bearer_qos_ie_marshal_test` (gtpv2/messages/ies/bearerqos.rs:142)
example : BearerQos.marshal ({ t := 80, length := 22, ins := 0, pre_emption_vulnerability := 0, priority_level := 9, pre_emption_capability := 1, qci := 9, maxbr_ul := 0, maxbr_dl := 0, gbr_ul := 0, gbr_dl := 0 } : BearerQos) = [80, 0, 22, 0, 100, 9, 0, 0, 0, 0, 0, 0, 0, 0, 0, 0, 0, 0, 0, 0, 0, 0, 0, 0, 0, 0] := by
  decide +kernel

-- `bearertft_ie_marshal_test` (gtpv2/messages/ies/bearertft.rs:86)
example : BearerTft.marshal ({ t := 84, length := 4, ins := 0, tft := [0, 0, 0, 0] } : BearerTft) = [84, 0, 4, 0, 0, 0, 0, 0] := by
  decide +kernel

-- `bearertft_ie_unmarshal_test` (gtpv2/messages/ies/bearertft.rs:100)
example : BearerTft.unmarshal .debug [84, 0, 4, 0, 0, 0, 0, 0] = .ok { t := 84, length := 4, ins := 0, tft := [0, 0, 0, 0] } := by
  decide +kernel

-- `bitrate_ie_marshal_test` (gtpv2/messages/ies/bitrate.rs:81)
example : BitRate.marshal ({ t := 211, length := 4, ins := 0, bitrate := 4294967295 } : BitRate) = [211, 0, 4, 0, 255, 255, 255, 255] := by
  decide +kernel

-- `bitrate_ie_unmarshal_test` (gtpv2/messages/ies/bitrate.rs:95)
example : BitRate.unmarshal .debug [211, 0, 4, 0, 255, 255, 255, 255] = .ok { t := 211, length := 4, ins := 0, bitrate := 4294967295 } := by
  decide +kernel

-- `cause_ie_short_marshal_test` (gtpv2/messages/ies/cause.rs:128)
example : Cause.marshal ({ t := 2, length := 2, ins := 0, value := 16, pce := false, bce := false, cs := false, offend_ie_type := none } : Cause) = [2, 0, 2, 0, 16, 0] := by
  decide +kernel

-- `cause_ie_short_unmarshal_test` (gtpv2/messages/ies/cause.rs:146)
example : Cause.unmarshal .debug [2, 0, 2, 0, 16, 0] = .ok { t := 2, length := 2, ins := 0, value := 16, pce := false, bce := false, cs := false, offend_ie_type := none } := by
  decide +kernel

-- `cause_ie_long_marshal_test` (gtpv2/messages/ies/cause.rs:162)
example : Cause.marshal ({ t := 2, length := 6, ins := 0, value := 16, pce := false, bce := true, cs := false, offend_ie_type := (some 15) } : Cause) = [2, 0, 6, 0, 16, 2, 15, 0, 0, 0] := by
  decide +kernel

-- `cause_ie_long_unmarshal_test` (gtpv2/messages/ies/cause.rs:180)
example : Cause.unmarshal .debug [2, 0, 6, 0, 16, 2, 15, 0, 0, 0] = .ok { t := 2, length := 6, ins := 0, value := 16, pce := false, bce := true, cs := false, offend_ie_type := (some 15) } := by
  decide +kernel

-- `cause_ie_incorrect_length_unmarshal_test` (gtpv2/messages/ies/cause.rs:196)
example : Cause.unmarshal .debug [2, 0, 8, 0, 16, 2, 15, 0, 0, 0, 0, 0] = .err (.ieIncorrect 2) := by
  decide +kernel

-- `cause_ie_too_incorrect_length_too_small_unmarshal_test` (gtpv2/messages/ies/cause.rs:207)
example : Cause.unmarshal .debug [2, 0, 8, 0, 16, 2, 15, 0, 0, 0] = .err (.ieIncorrect 2) := by
  decide +kernel

-- `change_reporting_action_ie_marshal_test` (gtpv2/messages/ies/changereportingaction.rs:93)
example : ChangeReportingAction.marshal ({ t := 131, length := 1, ins := 0, action := 1 } : ChangeReportingAction) = [131, 0, 1, 0, 1] := by
  decide +kernel

-- `change_reporting_action_ie_unmarshal_test` (gtpv2/messages/ies/changereportingaction.rs:107)
example : ChangeReportingAction.unmarshal .debug [131, 0, 1, 0, 1] = .ok { t := 131, length := 1, ins := 0, action := 1 } := by
  decide +kernel

-- `change_to_report_flags_ie_unmarshal_test` (gtpv2/messages/ies/changetoreportflags.rs:97)
example : ChangeToReportFlags.unmarshal .debug [167, 0, 1, 0, 2] = .ok { t := 167, length := 1, ins := 0, tzcr := true, sncr := false } := by
  decide +kernel

-- `change_to_report_flags_ie_marshal_test` (gtpv2/messages/ies/changetoreportflags.rs:111)
example : ChangeToReportFlags.marshal ({ t := 167, length := 1, ins := 0, tzcr := true, sncr := false } : ChangeToReportFlags) = [167, 0, 1, 0, 2] := by
  decide +kernel

-- `channel_needed_ie_marshal_test` (gtpv2/messages/ies/channelneeded.rs:81)
example : ChannelNeeded.marshal ({ t := 133, length := 1, ins := 0, chnl_needed := 255 } : ChannelNeeded) = [133, 0, 1, 0, 255] := by
  decide +kernel

-- `channel_needed_ie_unmarshal_test` (gtpv2/messages/ies/channelneeded.rs:95)
example : ChannelNeeded.unmarshal .debug [133, 0, 1, 0, 255] = .ok { t := 133, length := 1, ins := 0, chnl_needed := 255 } := by
  decide +kernel

-- `chargingchar_ie_marshal_test` (gtpv2/messages/ies/chargingchar.rs:81)
example : ChargingCharacteristics.marshal ({ t := 95, length := 2, ins := 0, charging_char := 65535 } : ChargingCharacteristics) = [95, 0, 2, 0, 255, 255] := by
  decide +kernel

-- `chargingchar_ie_unmarshal_test` (gtpv2/messages/ies/chargingchar.rs:95)
example : ChargingCharacteristics.unmarshal .debug [95, 0, 2, 0, 255, 255] = .ok { t := 95, length := 2, ins := 0, charging_char := 65535 } := by
  decide +kernel

-- `chargingid_ie_marshal_test` (gtpv2/messages/ies/chargingid.rs:81)
example : ChargingId.marshal ({ t := 94, length := 4, ins := 0, charging_id := 4294902015 } : ChargingId) = [94, 0, 4, 0, 255, 255, 0, 255] := by
  decide +kernel

-- `chargingid_ie_unmarshal_test` (gtpv2/messages/ies/chargingid.rs:95)
example : ChargingId.unmarshal .debug [94, 0, 4, 0, 255, 255, 0, 255] = .ok { t := 94, length := 4, ins := 0, charging_id := 4294902015 } := by
  decide +kernel

-- `ciot_support_ie_marshal_test` (gtpv2/messages/ies/ciotoptimizationssupport.rs:94)
example : CIoTOptimizationSupportIndication.marshal ({ t := 194, length := 1, ins := 0, sgnipdn := true, scnipdn := false, awopdn := false, ihcsi := true } : CIoTOptimizationSupportIndication) = [194, 0, 1, 0, 9] := by
  decide +kernel

-- `ciot_support_ie_unmarshal_test` (gtpv2/messages/ies/ciotoptimizationssupport.rs:111)
example : CIoTOptimizationSupportIndication.unmarshal .debug [194, 0, 1, 0, 9] = .ok { t := 194, length := 1, ins := 0, sgnipdn := true, scnipdn := false, awopdn := false, ihcsi := true } := by
  decide +kernel

-- `cmi_ie_marshal_test` (gtpv2/messages/ies/cmi.rs:108)
example : CsgMembershipIndication.marshal ({ t := 148, length := 1, ins := 0, cmi := .NonCsgMembership } : CsgMembershipIndication) = [148, 0, 1, 0, 1] := by
  decide +kernel

-- `cmi_ie_unmarshal_test` (gtpv2/messages/ies/cmi.rs:120)
example : CsgMembershipIndication.unmarshal .debug [148, 0, 1, 0, 1] = .ok { t := 148, length := 1, ins := 0, cmi := .NonCsgMembership } := by
  decide +kernel

-- `cnose_ie_unmarshal_test` (gtpv2/messages/ies/cnose.rs:96)
example : CnOperatorSelectionEntity.unmarshal .debug [173, 0, 1, 0, 1] = .ok { t := 173, length := 1, ins := 0, selection_entity := .ServingNetworkSelectedbyNetwork } := by
  decide +kernel

-- `cnose_ie_marshal_test` (gtpv2/messages/ies/cnose.rs:109)
example : CnOperatorSelectionEntity.marshal ({ t := 173, length := 1, ins := 0, selection_entity := .ServingNetworkSelectedbyNetwork } : CnOperatorSelectionEntity) = [173, 0, 1, 0, 1] := by
  decide +kernel

-- `test_auth_triplet_marshal` (gtpv2/messages/ies/commons.rs:458)
example : AuthTriplet.octets ({ rand := [1, 2, 3, 4, 5, 6, 7, 8, 9, 10, 11, 12, 13, 14, 15, 16], sres := [17, 18, 19, 20], kc := [21, 22, 23, 24, 25, 26, 27, 28] } : AuthTriplet) = [1, 2, 3, 4, 5, 6, 7, 8, 9, 10, 11, 12, 13, 14, 15, 16, 17, 18, 19, 20, 21, 22, 23, 24, 25, 26, 27, 28] := by
  decide +kernel

-- `test_auth_triplet_unmarshal` (gtpv2/messages/ies/commons.rs:477)
example : AuthTriplet.unm [1, 2, 3, 4, 5, 6, 7, 8, 9, 10, 11, 12, 13, 14, 15, 16, 17, 18, 19, 20, 21, 22, 23, 24, 25, 26, 27, 28] = .ok { rand := [1, 2, 3, 4, 5, 6, 7, 8, 9, 10, 11, 12, 13, 14, 15, 16], sres := [17, 18, 19, 20], kc := [21, 22, 23, 24, 25, 26, 27, 28] } := by
  decide +kernel

-- `test_auth_quintuplet_marshal` (gtpv2/messages/ies/commons.rs:569)
example : AuthQuintuplet.octets ({ rand := [1, 2, 3, 4, 5, 6, 7, 8, 9, 10, 11, 12, 13, 14, 15, 16], xres := [2, 7, 8], ck := [1, 2, 3, 4, 5, 6, 7, 8, 9, 10, 11, 12, 13, 14, 15, 16], ik := [1, 2, 3, 4, 5, 6, 7, 8, 9, 10, 11, 12, 13, 14, 15, 16], autn := [3, 9, 10] } : AuthQuintuplet) = [1, 2, 3, 4, 5, 6, 7, 8, 9, 10, 11, 12, 13, 14, 15, 16, 3, 2, 7, 8, 1, 2, 3, 4, 5, 6, 7, 8, 9, 10, 11, 12, 13, 14, 15, 16, 1, 2, 3, 4, 5, 6, 7, 8, 9, 10, 11, 12, 13, 14, 15, 16, 3, 3, 9, 10] := by
  decide +kernel

-- `test_auth_quintuplet_unmarshal` (gtpv2/messages/ies/commons.rs:599)
example : AuthQuintuplet.unm [1, 2, 3, 4, 5, 6, 7, 8, 9, 10, 11, 12, 13, 14, 15, 16, 3, 2, 7, 8, 1, 2, 3, 4, 5, 6, 7, 8, 9, 10, 11, 12, 13, 14, 15, 16, 1, 2, 3, 4, 5, 6, 7, 8, 9, 10, 11, 12, 13, 14, 15, 16, 3, 3, 9, 10] = .ok { rand := [1, 2, 3, 4, 5, 6, 7, 8, 9, 10, 11, 12, 13, 14, 15, 16], xres := [2, 7, 8], ck := [1, 2, 3, 4, 5, 6, 7, 8, 9, 10, 11, 12, 13, 14, 15, 16], ik := [1, 2, 3, 4, 5, 6, 7, 8, 9, 10, 11, 12, 13, 14, 15, 16], autn := [3, 9, 10] } := by
  decide +kernel

-- `test_auth_quadruplet_marshal` (gtpv2/messages/ies/commons.rs:698)
example : AuthQuadruplet.octets ({ rand := [1, 2, 3, 4, 5, 6, 7, 8, 9, 10, 11, 12, 13, 14, 15, 16], xres := [2, 7, 8], autn := [3, 9, 10], kasme := [11, 12, 13, 14, 15, 0, 0, 0, 0, 0, 0, 0, 0, 0, 0, 0, 0, 0, 0, 0, 0, 0, 0, 0, 0, 0, 0, 0, 0, 0, 0, 0] } : AuthQuadruplet) = [1, 2, 3, 4, 5, 6, 7, 8, 9, 10, 11, 12, 13, 14, 15, 16, 3, 2, 7, 8, 3, 3, 9, 10, 11, 12, 13, 14, 15, 0, 0, 0, 0, 0, 0, 0, 0, 0, 0, 0, 0, 0, 0, 0, 0, 0, 0, 0, 0, 0, 0, 0, 0, 0, 0, 0] := by
  decide +kernel

-- `test_auth_quadruplet_unmarshal` (gtpv2/messages/ies/commons.rs:724)
example : AuthQuadruplet.unm [1, 2, 3, 4, 5, 6, 7, 8, 9, 10, 11, 12, 13, 14, 15, 16, 3, 2, 7, 8, 3, 3, 9, 10, 11, 12, 13, 14, 15, 0, 0, 0, 0, 0, 0, 0, 0, 0, 0, 0, 0, 0, 0, 0, 0, 0, 0, 0, 0, 0, 0, 0, 0, 0, 0, 0] = .ok { rand := [1, 2, 3, 4, 5, 6, 7, 8, 9, 10, 11, 12, 13, 14, 15, 16], xres := [2, 7, 8], autn := [3, 9, 10], kasme := [11, 12, 13, 14, 15, 0, 0, 0, 0, 0, 0, 0, 0, 0, 0, 0, 0, 0, 0, 0, 0, 0, 0, 0, 0, 0, 0, 0, 0, 0, 0, 0] } := by
  decide +kernel

-- `test_apn_rate_control_status_marshal` (gtpv2/messages/ies/commons.rs:842)
example : ApnRateControlStatusMM.octets ({ apn := ['a', 'p', 'n'], uplink_rate_limit := 305419896, nbr_of_exception_reports := 305419896, downlink_rate_limit := 305419896, apn_rate_control_status_validity := [1, 2, 3, 4, 5, 6, 7, 8] } : ApnRateControlStatusMM) = [0, 25, 0, 3, 97, 112, 110, 18, 52, 86, 120, 18, 52, 86, 120, 18, 52, 86, 120, 1, 2, 3, 4, 5, 6, 7, 8] := by
  decide +kernel

-- `test_apn_rate_control_status_unmarshal` (gtpv2/messages/ies/commons.rs:861)
example : ApnRateControlStatusMM.unm [0, 25, 0, 3, 97, 112, 110, 18, 52, 86, 120, 18, 52, 86, 120, 18, 52, 86, 120, 1, 2, 3, 4, 5, 6, 7, 8] = .ok { apn := ['a', 'p', 'n'], uplink_rate_limit := 305419896, nbr_of_exception_reports := 305419896, downlink_rate_limit := 305419896, apn_rate_control_status_validity := [1, 2, 3, 4, 5, 6, 7, 8] } := by
  decide +kernel

-- `test_access_restriction_mm` (gtpv2/messages/ies/commons.rs:1122)
example : AccessRestrictionMM.ofU8 127 = { una := true, gena := true, gana := true, ina := true, ena := true, hnna := true, nbna := true, ecna := false } := by
  decide +kernel

-- `test_access_restriction_mm` (gtpv2/messages/ies/commons.rs:1122)
example : AccessRestrictionMM.toU8 { una := true, gena := true, gana := true, ina := true, ena := true, hnna := true, nbna := true, ecna := false } = 127 := by
  decide +kernel

-- `test_old_eps_security_context_short_marshal` (gtpv2/messages/ies/commons.rs:1289)
example : OldEpsSecurityContext.octets ({ old_ksi := 5, old_ncc := none, old_kasme := [255, 255, 255, 255, 255, 255, 255, 255, 255, 255, 255, 255, 255, 255, 255, 255, 255, 255, 255, 255, 255, 255, 255, 255, 255, 255, 255, 255, 255, 255, 255, 255], old_next_hop := none } : OldEpsSecurityContext) = [40, 255, 255, 255, 255, 255, 255, 255, 255, 255, 255, 255, 255, 255, 255, 255, 255, 255, 255, 255, 255, 255, 255, 255, 255, 255, 255, 255, 255, 255, 255, 255, 255] := by
  decide +kernel

-- `test_old_eps_security_context_short_unmarshal` (gtpv2/messages/ies/commons.rs:1307)
example : OldEpsSecurityContext.unm [40, 255, 255, 255, 255, 255, 255, 255, 255, 255, 255, 255, 255, 255, 255, 255, 255, 255, 255, 255, 255, 255, 255, 255, 255, 255, 255, 255, 255, 255, 255, 255, 255] = .ok { old_ksi := 5, old_ncc := none, old_kasme := [255, 255, 255, 255, 255, 255, 255, 255, 255, 255, 255, 255, 255, 255, 255, 255, 255, 255, 255, 255, 255, 255, 255, 255, 255, 255, 255, 255, 255, 255, 255, 255], old_next_hop := none } := by
  decide +kernel

-- `test_old_eps_security_context_long_marshal` (gtpv2/messages/ies/commons.rs:1326)
example : OldEpsSecurityContext.octets ({ old_ksi := 5, old_ncc := (some 5), old_kasme := [255, 255, 255, 255, 255, 255, 255, 255, 255, 255, 255, 255, 255, 255, 255, 255, 255, 255, 255, 255, 255, 255, 255, 255, 255, 255, 255, 255, 255, 255, 255, 255], old_next_hop := (some [255, 255, 255, 255, 255, 255, 255, 255, 255, 255, 255, 255, 255, 255, 255, 255, 255, 255, 255, 255, 255, 255, 255, 255, 255, 255, 255, 255, 255, 255, 255, 255]) } : OldEpsSecurityContext) = [173, 255, 255, 255, 255, 255, 255, 255, 255, 255, 255, 255, 255, 255, 255, 255, 255, 255, 255, 255, 255, 255, 255, 255, 255, 255, 255, 255, 255, 255, 255, 255, 255, 255, 255, 255, 255, 255, 255, 255, 255, 255, 255, 255, 255, 255, 255, 255, 255, 255, 255, 255, 255, 255, 255, 255, 255, 255, 255, 255, 255, 255, 255, 255, 255] := by
  decide +kernel

-- `test_old_eps_security_context_long_unmarshal` (gtpv2/messages/ies/commons.rs:1346)
example : OldEpsSecurityContext.unm [173, 255, 255, 255, 255, 255, 255, 255, 255, 255, 255, 255, 255, 255, 255, 255, 255, 255, 255, 255, 255, 255, 255, 255, 255, 255, 255, 255, 255, 255, 255, 255, 255, 255, 255, 255, 255, 255, 255, 255, 255, 255, 255, 255, 255, 255, 255, 255, 255, 255, 255, 255, 255, 255, 255, 255, 255, 255, 255, 255, 255, 255, 255, 255, 255] = .ok { old_ksi := 5, old_ncc := (some 5), old_kasme := [255, 255, 255, 255, 255, 255, 255, 255, 255, 255, 255, 255, 255, 255, 255, 255, 255, 255, 255, 255, 255, 255, 255, 255, 255, 255, 255, 255, 255, 255, 255, 255], old_next_hop := (some [255, 255, 255, 255, 255, 255, 255, 255, 255, 255, 255, 255, 255, 255, 255, 255, 255, 255, 255, 255, 255, 255, 255, 255, 255, 255, 255, 255, 255, 255, 255, 255]) } := by
  decide +kernel

-- `complete_request_msg_ie_marshal_test` (gtpv2/messages/ies/completereqmessage.rs:114)
example : CompleteRequestMessage.marshal ({ t := 116, length := 6, ins := 0, message := (.AttachRequest [170, 187, 204, 221, 238]) } : CompleteRequestMessage) = [116, 0, 6, 0, 0, 170, 187, 204, 221, 238] := by
  decide +kernel

-- `complete_request_msg_ie_unmarshal_test` (gtpv2/messages/ies/completereqmessage.rs:128)
example : CompleteRequestMessage.unmarshal .debug [116, 0, 6, 0, 0, 170, 187, 204, 221, 238] = .ok { t := 116, length := 6, ins := 0, message := (.AttachRequest [170, 187, 204, 221, 238]) } := by
  decide +kernel

-- `counter_ie_unmarshal_test` (gtpv2/messages/ies/counter.rs:85)
example : Counter.unmarshal .debug [199, 0, 5, 0, 238, 107, 40, 0, 9] = .ok { t := 199, length := 5, ins := 0, timestamp := 4000000000, counter := 9 } := by
  decide +kernel

-- `counter_ie_marshal_test` (gtpv2/messages/ies/counter.rs:99)
example : Counter.marshal ({ t := 199, length := 5, ins := 0, timestamp := 4000000000, counter := 9 } : Counter) = [199, 0, 5, 0, 238, 107, 40, 0, 9] := by
  decide +kernel

-- `csgid_ie_marshal_test` (gtpv2/messages/ies/csgid.rs:81)
example : CsgId.marshal ({ t := 147, length := 4, ins := 0, csgid := 134217727 } : CsgId) = [147, 0, 4, 0, 7, 255, 255, 255] := by
  decide +kernel

-- `csgid_ie_unmarshal_test` (gtpv2/messages/ies/csgid.rs:95)
example : CsgId.unmarshal .debug [147, 0, 4, 0, 7, 255, 255, 255] = .ok { t := 147, length := 4, ins := 0, csgid := 134217727 } := by
  decide +kernel

-- `csg_info_reporting_ie_unmarshal_test` (gtpv2/messages/ies/csginforeporting.rs:84)
example : CSGInformationReportingAction.unmarshal .debug [146, 0, 1, 0, 7] = .ok { t := 146, length := 1, ins := 0, action := 7 } := by
  decide +kernel

-- `csg_info_reporting_ie_marshal_test` (gtpv2/messages/ies/csginforeporting.rs:97)
example : CSGInformationReportingAction.marshal ({ t := 146, length := 1, ins := 0, action := 7 } : CSGInformationReportingAction) = [146, 0, 1, 0, 7] := by
  decide +kernel

-- `delay_value_ie_marshal_test` (gtpv2/messages/ies/delayvalue.rs:81)
example : DelayValue.marshal ({ t := 92, length := 1, ins := 0, value := 255 } : DelayValue) = [92, 0, 1, 0, 255] := by
  decide +kernel

-- `delay_value_ie_unmarshal_test` (gtpv2/messages/ies/delayvalue.rs:95)
example : DelayValue.unmarshal .debug [92, 0, 1, 0, 255] = .ok { t := 92, length := 1, ins := 0, value := 255 } := by
  decide +kernel

-- `detach_type_ie_marshal_test` (gtpv2/messages/ies/detachtype.rs:118)
example : DetachType.marshal ({ t := 150, length := 1, ins := 0, detach_type := .CombinedPsCsDetach } : DetachType) = [150, 0, 1, 0, 2] := by
  decide +kernel

-- `detach_type_ie_unmarshal_test` (gtpv2/messages/ies/detachtype.rs:132)
example : DetachType.unmarshal .debug [150, 0, 1, 0, 2] = .ok { t := 150, length := 1, ins := 0, detach_type := .CombinedPsCsDetach } := by
  decide +kernel

-- `ebi_ie_marshal_test` (gtpv2/messages/ies/ebi.rs:80)
example : Ebi.marshal ({ t := 73, length := 1, ins := 0, value := 5 } : Ebi) = [73, 0, 1, 0, 5] := by
  decide +kernel

-- `ebi_ie_unmarshal_test` (gtpv2/messages/ies/ebi.rs:94)
example : Ebi.unmarshal .debug [73, 0, 1, 0, 5] = .ok { t := 73, length := 1, ins := 0, value := 5 } := by
  decide +kernel

-- `ecgilist_ie_marshal_test` (gtpv2/messages/ies/ecgilist.rs:112)
example : EcgiList.marshal ({ t := 190, length := 23, ins := 0, ecgi_list := (some [{ mcc := 262, mnc := 1, mnc_is_three_digits := false, eci := 28983298 }, { mcc := 262, mnc := 1, mnc_is_three_digits := false, eci := 28983299 }, { mcc := 262, mnc := 1, mnc_is_three_digits := false, eci := 28983297 }]) } : EcgiList) = [190, 0, 23, 0, 0, 3, 98, 242, 16, 1, 186, 64, 2, 98, 242, 16, 1, 186, 64, 3, 98, 242, 16, 1, 186, 64, 1] := by
  decide +kernel

-- `ecgilist_ie_unmarshal_test` (gtpv2/messages/ies/ecgilist.rs:147)
example : EcgiList.unmarshal .debug [190, 0, 23, 0, 0, 3, 98, 242, 16, 1, 186, 64, 2, 98, 242, 16, 1, 186, 64, 3, 98, 242, 16, 1, 186, 64, 1] = .ok { t := 190, length := 23, ins := 0, ecgi_list := (some [{ mcc := 262, mnc := 1, mnc_is_three_digits := false, eci := 28983298 }, { mcc := 262, mnc := 1, mnc_is_three_digits := false, eci := 28983299 }, { mcc := 262, mnc := 1, mnc_is_three_digits := false, eci := 28983297 }]) } := by
  decide +kernel

-- `emlpp_ie_marshal_test` (gtpv2/messages/ies/emlppprio.rs:80)
example : EmlppPriority.marshal ({ t := 134, length := 1, ins := 0, priority := 0 } : EmlppPriority) = [134, 0, 1, 0, 0] := by
  decide +kernel

-- `emlpp_ie_unmarshal_test` (gtpv2/messages/ies/emlppprio.rs:94)
example : EmlppPriority.unmarshal .debug [134, 0, 1, 0, 0] = .ok { t := 134, length := 1, ins := 0, priority := 0 } := by
  decide +kernel

-- `epco_ie_marshal_test` (gtpv2/messages/ies/epco.rs:86)
example : Epco.marshal ({ t := 197, length := 20, ins := 0, epco := [128, 128, 33, 16, 1, 1, 0, 16, 129, 6, 0, 0, 0, 0, 131, 6, 0, 0, 0, 0] } : Epco) = [197, 0, 20, 0, 128, 128, 33, 16, 1, 1, 0, 16, 129, 6, 0, 0, 0, 0, 131, 6, 0, 0, 0, 0] := by
  decide +kernel

-- `apco_ie_unmarshal_test` (gtpv2/messages/ies/epco.rs:106)
example : Epco.unmarshal .debug [197, 0, 20, 0, 128, 128, 33, 16, 1, 1, 0, 16, 129, 6, 0, 0, 0, 0, 131, 6, 0, 0, 0, 0] = .ok { t := 197, length := 20, ins := 0, epco := [128, 128, 33, 16, 1, 1, 0, 16, 129, 6, 0, 0, 0, 0, 131, 6, 0, 0, 0, 0] } := by
  decide +kernel

-- `epctimer_ie_marshal_test` (gtpv2/messages/ies/epctimer.rs:91)
example : EpcTimer.marshal ({ t := 156, length := 1, ins := 0, timer_unit := 3, timer_value := 31 } : EpcTimer) = [156, 0, 1, 0, 127] := by
  decide +kernel

-- `epctimer_ie_unmarshal_test` (gtpv2/messages/ies/epctimer.rs:106)
example : EpcTimer.unmarshal .debug [156, 0, 1, 0, 127] = .ok { t := 156, length := 1, ins := 0, timer_unit := 3, timer_value := 31 } := by
  decide +kernel

-- `ext_trace_info_ie_ipv4_marshal_test` (gtpv2/messages/ies/extendedtraceinfo.rs:190)
example : ExtendedTraceInformation.marshal ({ t := 205, length := 38, ins := 0, mcc := 999, mnc := 1, mnc_is_three_digits := false, trace_id := 16777210, trigger_events := [0, 0, 0, 0, 0, 0, 0, 0, 0], list_ne_types := [255, 255, 255, 255], session_trace_depth := 9, list_interfaces := [250, 250, 250, 250, 250, 250, 250, 250, 250, 250], trace_collection_ip := (.V4 2332526008) } : ExtendedTraceInformation) = [205, 0, 38, 0, 153, 249, 16, 255, 255, 250, 9, 0, 0, 0, 0, 0, 0, 0, 0, 0, 4, 255, 255, 255, 255, 9, 10, 250, 250, 250, 250, 250, 250, 250, 250, 250, 250, 4, 139, 7, 133, 184] := by
  decide +kernel

-- `ext_trace_info_ie_ipv4_unmarshal_test` (gtpv2/messages/ies/extendedtraceinfo.rs:215)
example : ExtendedTraceInformation.unmarshal .debug [205, 0, 38, 0, 153, 249, 16, 255, 255, 250, 9, 0, 0, 0, 0, 0, 0, 0, 0, 0, 4, 255, 255, 255, 255, 9, 10, 250, 250, 250, 250, 250, 250, 250, 250, 250, 250, 4, 139, 7, 133, 184] = .ok { t := 205, length := 38, ins := 0, mcc := 999, mnc := 1, mnc_is_three_digits := false, trace_id := 16777210, trigger_events := [0, 0, 0, 0, 0, 0, 0, 0, 0], list_ne_types := [255, 255, 255, 255], session_trace_depth := 9, list_interfaces := [250, 250, 250, 250, 250, 250, 250, 250, 250, 250], trace_collection_ip := (.V4 2332526008) } := by
  decide +kernel

-- `ext_trace_info_ie_ipv6_marshal_test` (gtpv2/messages/ies/extendedtraceinfo.rs:241)
example : ExtendedTraceInformation.marshal ({ t := 205, length := 50, ins := 0, mcc := 999, mnc := 1, mnc_is_three_digits := false, trace_id := 16777210, trigger_events := [0, 0, 0, 0, 0, 0, 0, 0, 0], list_ne_types := [255, 255, 255, 255], session_trace_depth := 9, list_interfaces := [250, 250, 250, 250, 250, 250, 250, 250, 250, 250], trace_collection_ip := (.V6 ⟨71213169107795968, 1⟩) } : ExtendedTraceInformation) = [205, 0, 50, 0, 153, 249, 16, 255, 255, 250, 9, 0, 0, 0, 0, 0, 0, 0, 0, 0, 4, 255, 255, 255, 255, 9, 10, 250, 250, 250, 250, 250, 250, 250, 250, 250, 250, 16, 0, 253, 0, 0, 0, 0, 0, 0, 0, 0, 0, 0, 0, 0, 0, 1] := by
  decide +kernel

-- `ext_trace_info_ie_ipv6_unmarshal_test` (gtpv2/messages/ies/extendedtraceinfo.rs:269)
example : ExtendedTraceInformation.unmarshal .debug [205, 0, 50, 0, 153, 249, 16, 255, 255, 250, 9, 0, 0, 0, 0, 0, 0, 0, 0, 0, 4, 255, 255, 255, 255, 9, 10, 250, 250, 250, 250, 250, 250, 250, 250, 250, 250, 16, 0, 253, 0, 0, 0, 0, 0, 0, 0, 0, 0, 0, 0, 0, 0, 1] = .ok { t := 205, length := 50, ins := 0, mcc := 999, mnc := 1, mnc_is_three_digits := false, trace_id := 16777210, trigger_events := [0, 0, 0, 0, 0, 0, 0, 0, 0], list_ne_types := [255, 255, 255, 255], session_trace_depth := 9, list_interfaces := [250, 250, 250, 250, 250, 250, 250, 250, 250, 250], trace_collection_ip := (.V6 ⟨71213169107795968, 1⟩) } := by
  decide +kernel

-- `fcause_ie_marshal_test` (gtpv2/messages/ies/fcause.rs:127)
example : Fcause.marshal ({ t := 119, length := 3, ins := 0, cause_type := .RadioNetworkLayer, cause_field := [255, 170] } : Fcause) = [119, 0, 3, 0, 0, 255, 170] := by
  decide +kernel

-- `fcause_ie_unmarshal_test` (gtpv2/messages/ies/fcause.rs:142)
example : Fcause.unmarshal .debug [119, 0, 3, 0, 0, 255, 170] = .ok { t := 119, length := 3, ins := 0, cause_type := .RadioNetworkLayer, cause_field := [255, 170] } := by
  decide +kernel

-- `fcontainer_ie_marshal_test` (gtpv2/messages/ies/fcontainer.rs:161)
example : Fcontainer.marshal ({ t := 118, length := 6, ins := 0, container := (.Eutran [170, 187, 204, 221, 238]) } : Fcontainer) = [118, 0, 6, 0, 3, 170, 187, 204, 221, 238] := by
  decide +kernel

-- `fcontainer_ie_unmarshal_test` (gtpv2/messages/ies/fcontainer.rs:175)
example : Fcontainer.unmarshal .debug [118, 0, 6, 0, 3, 170, 187, 204, 221, 238] = .ok { t := 118, length := 6, ins := 0, container := (.Eutran [170, 187, 204, 221, 238]) } := by
  decide +kernel

-- `flow_qos_ie_unmarshal_test` (gtpv2/messages/ies/flowqos.rs:104)
example : FlowQos.unmarshal .debug [81, 0, 21, 0, 9, 0, 0, 0, 0, 0, 0, 0, 0, 0, 0, 0, 0, 0, 0, 0, 0, 0, 0, 0, 0] = .ok { t := 81, length := 21, ins := 0, qci := 9, maxbr_ul := 0, maxbr_dl := 0, gbr_ul := 0, gbr_dl := 0 } := by
  decide +kernel

-- `bearer_qos_ie_marshal_test` (gtpv2/messages/ies/flowqos.rs:124)
example : FlowQos.marshal ({ t := 81, length := 21, ins := 0, qci := 9, maxbr_ul := 0, maxbr_dl := 0, gbr_ul := 0, gbr_dl := 0 } : FlowQos) = [81, 0, 21, 0, 9, 0, 0, 0, 0, 0, 0, 0, 0, 0, 0, 0, 0, 0, 0, 0, 0, 0, 0, 0, 0] := by
  decide +kernel

-- `fqcsid_ie_ipv4_unmarshal_test` (gtpv2/messages/ies/fqcsid.rs:181)
example : Fqcsid.unmarshal .debug [132, 0, 7, 0, 1, 139, 7, 133, 184, 255, 255] = .ok { t := 132, length := 7, ins := 0, nodeid := (.V4 2332526008), csid := [65535] } := by
  decide +kernel

-- `fqcsid_ie_ipv6_unmarshal_test` (gtpv2/messages/ies/fqcsid.rs:197)
example : Fqcsid.unmarshal .debug [132, 0, 21, 0, 18, 0, 1, 0, 0, 0, 0, 0, 0, 0, 0, 0, 0, 0, 0, 0, 0, 255, 255, 255, 170] = .ok { t := 132, length := 21, ins := 0, nodeid := (.V6 ⟨281474976710656, 0⟩), csid := [65535, 65450] } := by
  decide +kernel

-- `fqcsid_ie_nwaddr_unmarshal_test` (gtpv2/messages/ies/fqcsid.rs:214)
example : Fqcsid.unmarshal .debug [132, 0, 7, 0, 33, 139, 7, 133, 184, 255, 255] = .ok { t := 132, length := 7, ins := 0, nodeid := (.NwAddr 2332526008), csid := [65535] } := by
  decide +kernel

-- `fqcsid_ie_ipv4_marshal_test` (gtpv2/messages/ies/fqcsid.rs:230)
example : Fqcsid.marshal ({ t := 132, length := 7, ins := 0, nodeid := (.V4 2332526008), csid := [65535] } : Fqcsid) = [132, 0, 7, 0, 1, 139, 7, 133, 184, 255, 255] := by
  decide +kernel

-- `fqcsid_ie_ipv6_marshal_test` (gtpv2/messages/ies/fqcsid.rs:247)
example : Fqcsid.marshal ({ t := 132, length := 21, ins := 0, nodeid := (.V6 ⟨281474976710656, 0⟩), csid := [65535, 65450] } : Fqcsid) = [132, 0, 21, 0, 18, 0, 1, 0, 0, 0, 0, 0, 0, 0, 0, 0, 0, 0, 0, 0, 0, 255, 255, 255, 170] := by
  decide +kernel

-- `fqcsid_ie_nwaddr_marshal_test` (gtpv2/messages/ies/fqcsid.rs:265)
example : Fqcsid.marshal ({ t := 132, length := 7, ins := 0, nodeid := (.NwAddr 2332526008), csid := [65535] } : Fqcsid) = [132, 0, 7, 0, 33, 139, 7, 133, 184, 255, 255] := by
  decide +kernel

-- `fqdn_ie_marshal_test` (gtpv2/messages/ies/fqdn.rs:107)
example : Fqdn.marshal ({ t := 136, length := 53, ins := 0, name := ['t', 'o', 'p', 'o', 'n', '.', 'n', 'o', 'd', 'e', 's', '.', 'p', 'g', 'w', '.', 's', 'e', '.', 'e', 'p', 'c', '.', 'm', 'n', 'c', '0', '5', '.', 'm', 'c', 'c', '2', '3', '4', '.', '3', 'g', 'p', 'p', 'n', 'e', 't', 'w', 'o', 'r', 'k', '.', 'o', 'r', 'g', '.'] } : Fqdn) = [136, 0, 53, 0, 5, 116, 111, 112, 111, 110, 5, 110, 111, 100, 101, 115, 3, 112, 103, 119, 2, 115, 101, 3, 101, 112, 99, 5, 109, 110, 99, 48, 53, 6, 109, 99, 99, 50, 51, 52, 11, 51, 103, 112, 112, 110, 101, 116, 119, 111, 114, 107, 3, 111, 114, 103, 0] := by
  decide +kernel

-- `fqdn_ie_unmarshal_test` (gtpv2/messages/ies/fqdn.rs:126)
example : Fqdn.unmarshal .debug [136, 0, 53, 0, 5, 116, 111, 112, 111, 110, 5, 110, 111, 100, 101, 115, 3, 112, 103, 119, 2, 115, 101, 3, 101, 112, 99, 5, 109, 110, 99, 48, 53, 6, 109, 99, 99, 50, 51, 52, 11, 51, 103, 112, 112, 110, 101, 116, 119, 111, 114, 107, 3, 111, 114, 103, 0] = .ok { t := 136, length := 53, ins := 0, name := ['t', 'o', 'p', 'o', 'n', '.', 'n', 'o', 'd', 'e', 's', '.', 'p', 'g', 'w', '.', 's', 'e', '.', 'e', 'p', 'c', '.', 'm', 'n', 'c', '0', '5', '.', 'm', 'c', 'c', '2', '3', '4', '.', '3', 'g', 'p', 'p', 'n', 'e', 't', 'w', 'o', 'r', 'k', '.', 'o', 'r', 'g', '.'] } := by
  decide +kernel

-- `fteid_ie_ipv4_unmarshal_test` (gtpv2/messages/ies/fteid.rs:170)
example : Fteid.unmarshal .debug [87, 0, 9, 0, 134, 39, 137, 47, 112, 139, 7, 133, 184] = .ok { t := 87, length := 9, ins := 0, interface := 6, teid := 663302000, ipv4 := (some 2332526008), ipv6 := none } := by
  decide +kernel

-- `fteid_ie_ipv6_unmarshal_test` (gtpv2/messages/ies/fteid.rs:188)
example : Fteid.unmarshal .debug [87, 0, 21, 0, 70, 39, 137, 47, 112, 0, 1, 0, 0, 0, 0, 0, 0, 0, 0, 0, 0, 0, 0, 0, 0] = .ok { t := 87, length := 21, ins := 0, interface := 6, teid := 663302000, ipv4 := none, ipv6 := (some ⟨281474976710656, 0⟩) } := by
  decide +kernel

-- `fteid_ie_ipv46_unmarshal_test` (gtpv2/messages/ies/fteid.rs:207)
example : Fteid.unmarshal .debug [87, 0, 25, 0, 198, 39, 137, 47, 112, 139, 7, 133, 184, 0, 1, 0, 0, 0, 0, 0, 0, 0, 0, 0, 0, 0, 0, 0, 0] = .ok { t := 87, length := 25, ins := 0, interface := 6, teid := 663302000, ipv4 := (some 2332526008), ipv6 := (some ⟨281474976710656, 0⟩) } := by
  decide +kernel

-- `fteid_ie_wrong_flags_unmarshal_test` (gtpv2/messages/ies/fteid.rs:226)
example : Fteid.unmarshal .debug [87, 0, 25, 0, 6, 39, 137, 47, 112, 139, 7, 133, 184, 0, 1, 0, 0, 0, 0, 0, 0, 0, 0, 0, 0, 0, 0, 0, 0] = .err (.ieIncorrect 87) := by
  decide +kernel

-- `fteid_ie_ipv4_marshal_test` (gtpv2/messages/ies/fteid.rs:237)
example : Fteid.marshal ({ t := 87, length := 9, ins := 0, interface := 6, teid := 663302000, ipv4 := (some 2332526008), ipv6 := none } : Fteid) = [87, 0, 9, 0, 134, 39, 137, 47, 112, 139, 7, 133, 184] := by
  decide +kernel

-- `fteid_ie_ipv6_marshal_test` (gtpv2/messages/ies/fteid.rs:256)
example : Fteid.marshal ({ t := 87, length := 21, ins := 0, interface := 6, teid := 663302000, ipv4 := none, ipv6 := (some ⟨281474976710656, 0⟩) } : Fteid) = [87, 0, 21, 0, 70, 39, 137, 47, 112, 0, 1, 0, 0, 0, 0, 0, 0, 0, 0, 0, 0, 0, 0, 0, 0] := by
  decide +kernel

-- `fteid_ie_ipv46_marshal_test` (gtpv2/messages/ies/fteid.rs:276)
example : Fteid.marshal ({ t := 87, length := 25, ins := 0, interface := 6, teid := 663302000, ipv4 := (some 2332526008), ipv6 := (some ⟨281474976710656, 0⟩) } : Fteid) = [87, 0, 25, 0, 198, 39, 137, 47, 112, 139, 7, 133, 184, 0, 1, 0, 0, 0, 0, 0, 0, 0, 0, 0, 0, 0, 0, 0, 0] := by
  decide +kernel

end Gtp.V2
