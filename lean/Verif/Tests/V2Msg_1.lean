import Verif.V2.Msg.All

/-!
# The unit tests under `src/gtpv2/messages/`, run on the model (1 of 2)

Generated by `scripts/gen_tests.py`.  These are tests of the model against the expectations written in the
repository, not proofs of properties.
-/

namespace Gtp.V2.Msg
open Gtp.V2
open Gtp
set_option maxRecDepth 100000

-- `test_alert_mme_ack_unmarshal` (gtpv2/messages/alertmmeacknowledge.rs:102)
example : AlertMmeAcknowledge.codec.unmarshal .debug [72, 154, 0, 24, 164, 120, 149, 128, 75, 41, 30, 0, 2, 0, 2, 0, 16, 0, 255, 0, 6, 0, 7, 219, 7, 0, 1, 0] = .ok { header := { msgtype := 154, piggyback := false, prio := none, length := 24, teid := (some 2759366016), sqn := 4925726 }, cause := { t := 2, length := 2, ins := 0, value := 16, pce := false, bce := false, cs := false, offend_ie_type := none }, private_ext := [{ t := 255, length := 6, ins := 0, enterprise_id := 2011, value := [7, 0, 1, 0] }] } := by
  decide +kernel

-- `test_alert_mme_ack_marshal` (gtpv2/messages/alertmmeacknowledge.rs:139)
example : AlertMmeAcknowledge.codec.marshal ({ header := { msgtype := 154, piggyback := false, prio := none, length := 24, teid := (some 2759366016), sqn := 4925726 }, cause := { t := 2, length := 2, ins := 0, value := 16, pce := false, bce := false, cs := false, offend_ie_type := none }, private_ext := [{ t := 255, length := 6, ins := 0, enterprise_id := 2011, value := [7, 0, 1, 0] }] } : AlertMmeAcknowledge) = [72, 154, 0, 24, 164, 120, 149, 128, 75, 41, 30, 0, 2, 0, 2, 0, 16, 0, 255, 0, 6, 0, 7, 219, 7, 0, 1, 0] := by
  decide +kernel

-- `test_alert_mme_notification_unmarshal` (gtpv2/messages/alertmmenotification.rs:87)
example : AlertMmeNotification.codec.unmarshal .debug [72, 153, 0, 18, 164, 120, 149, 128, 75, 41, 30, 0, 255, 0, 6, 0, 7, 219, 7, 0, 1, 0] = .ok { header := { msgtype := 153, piggyback := false, prio := none, length := 18, teid := (some 2759366016), sqn := 4925726 }, private_ext := [{ t := 255, length := 6, ins := 0, enterprise_id := 2011, value := [7, 0, 1, 0] }] } := by
  decide +kernel

-- `test_alert_mme_notification_marshal` (gtpv2/messages/alertmmenotification.rs:114)
example : AlertMmeNotification.codec.marshal ({ header := { msgtype := 153, piggyback := false, prio := none, length := 18, teid := (some 2759366016), sqn := 4925726 }, private_ext := [{ t := 255, length := 6, ins := 0, enterprise_id := 2011, value := [7, 0, 1, 0] }] } : AlertMmeNotification) = [72, 153, 0, 18, 164, 120, 149, 128, 75, 41, 30, 0, 255, 0, 6, 0, 7, 219, 7, 0, 1, 0] := by
  decide +kernel

-- `test_bearer_resource_command_unmarshal` (gtpv2/messages/bearerresourcecommand.rs:278)
example : BearerResourceCommand.codec.unmarshal .debug [72, 68, 0, 151, 0, 0, 0, 0, 0, 0, 104, 0, 73, 0, 1, 0, 5, 100, 0, 1, 0, 255, 85, 0, 4, 0, 0, 0, 0, 0, 82, 0, 1, 0, 6, 83, 0, 3, 0, 98, 242, 16, 86, 0, 13, 0, 24, 98, 242, 16, 11, 217, 98, 242, 16, 1, 186, 64, 2, 78, 0, 35, 0, 128, 128, 33, 16, 1, 0, 0, 16, 129, 6, 0, 0, 0, 0, 131, 6, 0, 0, 0, 0, 0, 13, 0, 0, 3, 0, 0, 10, 0, 0, 5, 0, 0, 16, 0, 180, 0, 18, 0, 183, 0, 4, 0, 255, 170, 238, 17, 182, 0, 1, 0, 96, 156, 0, 1, 0, 127, 180, 0, 18, 1, 183, 0, 4, 0, 255, 170, 238, 34, 182, 0, 1, 0, 96, 156, 0, 1, 0, 126, 87, 0, 9, 2, 134, 6, 209, 130, 76, 193, 254, 139, 45] = .ok { header := { msgtype := 68, piggyback := false, prio := none, length := 151, teid := (some 0), sqn := 104 }, linked_ebi := { t := 73, length := 1, ins := 0, value := 5 }, pti := { t := 100, length := 1, ins := 0, pti := 255 }, flow_qos := none, tad := (some { t := 85, length := 4, ins := 0, tad := [0, 0, 0, 0] }), rattype := (some { t := 82, length := 1, ins := 0, rat_type := .Eutran }), servingnetwork := (some { t := 83, length := 3, ins := 0, mcc := 262, mnc := 1, mnc_is_three_digits := false }), uli := (some { t := 86, length := 13, ins := 0, loc := [(.Tai { mcc := 262, mnc := 1, mnc_is_three_digits := false, tac := 3033 }), (.Ecgi { mcc := 262, mnc := 1, mnc_is_three_digits := false, eci := 28983298 })] }), ebi := none, indication := none, sgsn_fteid := none, rnc_fteid := none, pco := (some { t := 78, length := 35, ins := 0, pco := [128, 128, 33, 16, 1, 0, 0, 16, 129, 6, 0, 0, 0, 0, 131, 6, 0, 0, 0, 0, 0, 13, 0, 0, 3, 0, 0, 10, 0, 0, 5, 0, 0, 16, 0] }), spi := none, overload_info := [{ t := 180, length := 18, ins := 0, sqn := { t := 183, length := 4, ins := 0, sqn := 4289392145 }, metric := { t := 182, length := 1, ins := 0, metric := 96 }, validity := { t := 156, length := 1, ins := 0, timer_unit := 3, timer_value := 31 }, list := none }, { t := 180, length := 18, ins := 1, sqn := { t := 183, length := 4, ins := 0, sqn := 4289392162 }, metric := { t := 182, length := 1, ins := 0, metric := 96 }, validity := { t := 156, length := 1, ins := 0, timer_unit := 3, timer_value := 30 }, list := none }], nbifom := none, epco := none, fteid_control := (some { t := 87, length := 9, ins := 2, interface := 6, teid := 114393676, ipv4 := (some 3254684461), ipv6 := none }), pscellid := none, private_ext := [] } := by
  decide +kernel

-- `test_bearer_resource_command_marshal` (gtpv2/messages/bearerresourcecommand.rs:431)
example : BearerResourceCommand.codec.marshal ({ header := { msgtype := 68, piggyback := false, prio := none, length := 151, teid := (some 0), sqn := 104 }, linked_ebi := { t := 73, length := 1, ins := 0, value := 5 }, pti := { t := 100, length := 1, ins := 0, pti := 255 }, flow_qos := none, tad := (some { t := 85, length := 4, ins := 0, tad := [0, 0, 0, 0] }), rattype := (some { t := 82, length := 1, ins := 0, rat_type := .Eutran }), servingnetwork := (some { t := 83, length := 3, ins := 0, mcc := 262, mnc := 1, mnc_is_three_digits := false }), uli := (some { t := 86, length := 13, ins := 0, loc := [(.Tai { mcc := 262, mnc := 1, mnc_is_three_digits := false, tac := 3033 }), (.Ecgi { mcc := 262, mnc := 1, mnc_is_three_digits := false, eci := 28983298 })] }), ebi := none, indication := none, sgsn_fteid := none, rnc_fteid := none, pco := (some { t := 78, length := 35, ins := 0, pco := [128, 128, 33, 16, 1, 0, 0, 16, 129, 6, 0, 0, 0, 0, 131, 6, 0, 0, 0, 0, 0, 13, 0, 0, 3, 0, 0, 10, 0, 0, 5, 0, 0, 16, 0] }), spi := none, overload_info := [{ t := 180, length := 22, ins := 0, sqn := { t := 183, length := 4, ins := 0, sqn := 4289392145 }, metric := { t := 182, length := 1, ins := 0, metric := 96 }, validity := { t := 156, length := 1, ins := 0, timer_unit := 3, timer_value := 31 }, list := none }, { t := 180, length := 22, ins := 1, sqn := { t := 183, length := 4, ins := 0, sqn := 4289392162 }, metric := { t := 182, length := 1, ins := 0, metric := 96 }, validity := { t := 156, length := 1, ins := 0, timer_unit := 3, timer_value := 30 }, list := none }], nbifom := none, epco := none, fteid_control := (some { t := 87, length := 9, ins := 2, interface := 6, teid := 114393676, ipv4 := (some 3254684461), ipv6 := none }), pscellid := none, private_ext := [] } : BearerResourceCommand) = [72, 68, 0, 151, 0, 0, 0, 0, 0, 0, 104, 0, 73, 0, 1, 0, 5, 100, 0, 1, 0, 255, 85, 0, 4, 0, 0, 0, 0, 0, 82, 0, 1, 0, 6, 83, 0, 3, 0, 98, 242, 16, 86, 0, 13, 0, 24, 98, 242, 16, 11, 217, 98, 242, 16, 1, 186, 64, 2, 78, 0, 35, 0, 128, 128, 33, 16, 1, 0, 0, 16, 129, 6, 0, 0, 0, 0, 131, 6, 0, 0, 0, 0, 0, 13, 0, 0, 3, 0, 0, 10, 0, 0, 5, 0, 0, 16, 0, 180, 0, 18, 0, 183, 0, 4, 0, 255, 170, 238, 17, 182, 0, 1, 0, 96, 156, 0, 1, 0, 127, 180, 0, 18, 1, 183, 0, 4, 0, 255, 170, 238, 34, 182, 0, 1, 0, 96, 156, 0, 1, 0, 126, 87, 0, 9, 2, 134, 6, 209, 130, 76, 193, 254, 139, 45] := by
  decide +kernel

-- `test_bearer_failure_ind_unmarshal` (gtpv2/messages/bearerresourcefailureind.rs:165)
example : BearerResourceFailureInd.codec.unmarshal .debug [72, 69, 0, 68, 0, 0, 0, 0, 0, 0, 104, 0, 2, 0, 2, 0, 77, 0, 73, 0, 1, 0, 5, 100, 0, 1, 0, 255, 180, 0, 18, 0, 183, 0, 4, 0, 255, 170, 238, 17, 182, 0, 1, 0, 96, 156, 0, 1, 0, 127, 180, 0, 18, 1, 183, 0, 4, 0, 255, 170, 238, 34, 182, 0, 1, 0, 96, 156, 0, 1, 0, 126] = .ok { header := { msgtype := 69, piggyback := false, prio := none, length := 68, teid := (some 0), sqn := 104 }, cause := { t := 2, length := 2, ins := 0, value := 77, pce := false, bce := false, cs := false, offend_ie_type := none }, linked_ebi := { t := 73, length := 1, ins := 0, value := 5 }, pti := { t := 100, length := 1, ins := 0, pti := 255 }, indication := none, overload_info := [{ t := 180, length := 18, ins := 0, sqn := { t := 183, length := 4, ins := 0, sqn := 4289392145 }, metric := { t := 182, length := 1, ins := 0, metric := 96 }, validity := { t := 156, length := 1, ins := 0, timer_unit := 3, timer_value := 31 }, list := none }, { t := 180, length := 18, ins := 1, sqn := { t := 183, length := 4, ins := 0, sqn := 4289392162 }, metric := { t := 182, length := 1, ins := 0, metric := 96 }, validity := { t := 156, length := 1, ins := 0, timer_unit := 3, timer_value := 30 }, list := none }], recovery := none, nbifom := none, private_ext := [] } := by
  decide +kernel

-- `test_bearer_failure_ind_marshal` (gtpv2/messages/bearerresourcefailureind.rs:263)
example : BearerResourceFailureInd.codec.marshal ({ header := { msgtype := 69, piggyback := false, prio := none, length := 68, teid := (some 0), sqn := 104 }, cause := { t := 2, length := 2, ins := 0, value := 77, pce := false, bce := false, cs := false, offend_ie_type := none }, linked_ebi := { t := 73, length := 1, ins := 0, value := 5 }, pti := { t := 100, length := 1, ins := 0, pti := 255 }, indication := none, overload_info := [{ t := 180, length := 18, ins := 0, sqn := { t := 183, length := 4, ins := 0, sqn := 4289392145 }, metric := { t := 182, length := 1, ins := 0, metric := 96 }, validity := { t := 156, length := 1, ins := 0, timer_unit := 3, timer_value := 31 }, list := none }, { t := 180, length := 18, ins := 1, sqn := { t := 183, length := 4, ins := 0, sqn := 4289392162 }, metric := { t := 182, length := 1, ins := 0, metric := 96 }, validity := { t := 156, length := 1, ins := 0, timer_unit := 3, timer_value := 30 }, list := none }], recovery := none, nbifom := none, private_ext := [] } : BearerResourceFailureInd) = [72, 69, 0, 68, 0, 0, 0, 0, 0, 0, 104, 0, 2, 0, 2, 0, 77, 0, 73, 0, 1, 0, 5, 100, 0, 1, 0, 255, 180, 0, 18, 0, 183, 0, 4, 0, 255, 170, 238, 17, 182, 0, 1, 0, 96, 156, 0, 1, 0, 127, 180, 0, 18, 1, 183, 0, 4, 0, 255, 170, 238, 34, 182, 0, 1, 0, 96, 156, 0, 1, 0, 126] := by
  decide +kernel

-- `test_change_notification_req_unmarshal` (gtpv2/messages/changenotificationreq.rs:216)
example : ChangeNotificationRequest.codec.unmarshal .debug [72, 38, 0, 121, 230, 77, 164, 239, 38, 0, 46, 0, 1, 0, 8, 0, 9, 65, 80, 1, 1, 55, 120, 244, 75, 0, 8, 0, 104, 73, 41, 80, 1, 80, 148, 112, 82, 0, 1, 0, 6, 86, 0, 13, 0, 24, 50, 244, 2, 13, 89, 50, 244, 2, 0, 197, 88, 2, 73, 0, 1, 0, 5, 178, 0, 8, 0, 0, 0, 0, 5, 0, 0, 255, 2, 199, 0, 5, 0, 238, 107, 40, 0, 9, 201, 0, 27, 0, 3, 0, 5, 0, 0, 0, 255, 0, 0, 255, 255, 0, 0, 0, 0, 255, 255, 255, 0, 0, 0, 0, 0, 0, 0, 255, 255, 255, 0, 6, 0, 7, 219, 7, 0, 1, 0] = .ok { header := { msgtype := 38, piggyback := false, prio := none, length := 121, teid := (some 3863848175), sqn := 2490414 }, imsi := (some { t := 1, length := 8, ins := 0, imsi := ['9', '0', '1', '4', '0', '5', '1', '0', '1', '0', '7', '3', '8', '7', '4'] }), mei := (some { t := 75, length := 8, ins := 0, mei := ['8', '6', '9', '4', '9', '2', '0', '5', '1', '0', '0', '5', '4', '9', '0', '7'] }), indication := none, rattype := { t := 82, length := 1, ins := 0, rat_type := .Eutran }, uli := (some { t := 86, length := 13, ins := 0, loc := [(.Tai { mcc := 234, mnc := 20, mnc_is_three_digits := false, tac := 3417 }), (.Ecgi { mcc := 234, mnc := 20, mnc_is_three_digits := false, eci := 12933122 })] }), uci := none, pgw_addr_control := none, linked_ebi := (some { t := 73, length := 1, ins := 0, value := 5 }), prai := (some { t := 178, length := 8, ins := 0, prai := (.Ipra 0), add_prai := (some [(.Opra 255)]) }), mo_exception_data_counter := (some { t := 199, length := 5, ins := 0, timestamp := 4000000000, counter := 9 }), secondary_rat_usage_report := [{ t := 201, length := 27, ins := 0, irsgw := true, irpgw := true, rat_type := 0, ebi := 5, start_timestamp := 255, end_timestamp := 65535, usg_data_dl := 4294967040, usg_data_ul := 65535, second_rat_dur_tansfer := none }], pscellid := none, private_ext := [{ t := 255, length := 6, ins := 0, enterprise_id := 2011, value := [7, 0, 1, 0] }] } := by
  decide +kernel

-- `test_change_notification_req_marshal` (gtpv2/messages/changenotificationreq.rs:322)
example : ChangeNotificationRequest.codec.marshal ({ header := { msgtype := 38, piggyback := false, prio := none, length := 121, teid := (some 3863848175), sqn := 2490414 }, imsi := (some { t := 1, length := 8, ins := 0, imsi := ['9', '0', '1', '4', '0', '5', '1', '0', '1', '0', '7', '3', '8', '7', '4'] }), mei := (some { t := 75, length := 8, ins := 0, mei := ['8', '6', '9', '4', '9', '2', '0', '5', '1', '0', '0', '5', '4', '9', '0', '7'] }), indication := none, rattype := { t := 82, length := 1, ins := 0, rat_type := .Eutran }, uli := (some { t := 86, length := 13, ins := 0, loc := [(.Tai { mcc := 234, mnc := 20, mnc_is_three_digits := false, tac := 3417 }), (.Ecgi { mcc := 234, mnc := 20, mnc_is_three_digits := false, eci := 12933122 })] }), uci := none, pgw_addr_control := none, linked_ebi := (some { t := 73, length := 1, ins := 0, value := 5 }), prai := (some { t := 178, length := 8, ins := 0, prai := (.Ipra 0), add_prai := (some [(.Opra 255)]) }), mo_exception_data_counter := (some { t := 199, length := 5, ins := 0, timestamp := 4000000000, counter := 9 }), secondary_rat_usage_report := [{ t := 201, length := 27, ins := 0, irsgw := true, irpgw := true, rat_type := 0, ebi := 5, start_timestamp := 255, end_timestamp := 65535, usg_data_dl := 4294967040, usg_data_ul := 65535, second_rat_dur_tansfer := none }], pscellid := none, private_ext := [{ t := 255, length := 6, ins := 0, enterprise_id := 2011, value := [7, 0, 1, 0] }] } : ChangeNotificationRequest) = [72, 38, 0, 121, 230, 77, 164, 239, 38, 0, 46, 0, 1, 0, 8, 0, 9, 65, 80, 1, 1, 55, 120, 244, 75, 0, 8, 0, 104, 73, 41, 80, 1, 80, 148, 112, 82, 0, 1, 0, 6, 86, 0, 13, 0, 24, 50, 244, 2, 13, 89, 50, 244, 2, 0, 197, 88, 2, 73, 0, 1, 0, 5, 178, 0, 8, 0, 0, 0, 0, 5, 0, 0, 255, 2, 199, 0, 5, 0, 238, 107, 40, 0, 9, 201, 0, 27, 0, 3, 0, 5, 0, 0, 0, 255, 0, 0, 255, 255, 0, 0, 0, 0, 255, 255, 255, 0, 0, 0, 0, 0, 0, 0, 255, 255, 255, 0, 6, 0, 7, 219, 7, 0, 1, 0] := by
  decide +kernel

-- `test_change_notification_resp_unmarshal` (gtpv2/messages/changenotificationresp.rs:155)
example : ChangeNotificationResponse.codec.unmarshal .debug [72, 39, 0, 114, 164, 120, 149, 128, 75, 41, 30, 0, 1, 0, 8, 0, 9, 65, 80, 1, 1, 55, 120, 244, 75, 0, 8, 0, 104, 73, 41, 80, 1, 80, 148, 112, 2, 0, 2, 0, 16, 0, 131, 0, 1, 0, 1, 146, 0, 1, 0, 7, 177, 0, 62, 0, 1, 255, 255, 255, 17, 1, 1, 1, 1, 1, 98, 242, 16, 11, 217, 98, 242, 16, 255, 255, 255, 98, 242, 16, 255, 255, 255, 98, 242, 16, 1, 186, 64, 2, 98, 242, 16, 255, 255, 170, 255, 98, 242, 16, 255, 255, 221, 221, 98, 242, 16, 255, 255, 170, 170, 1, 98, 242, 16, 15, 255, 255] = .ok { header := { msgtype := 39, piggyback := false, prio := none, length := 114, teid := (some 2759366016), sqn := 4925726 }, imsi := (some { t := 1, length := 8, ins := 0, imsi := ['9', '0', '1', '4', '0', '5', '1', '0', '1', '0', '7', '3', '8', '7', '4'] }), mei := (some { t := 75, length := 8, ins := 0, mei := ['8', '6', '9', '4', '9', '2', '0', '5', '1', '0', '0', '5', '4', '9', '0', '7'] }), cause := { t := 2, length := 2, ins := 0, value := 16, pce := false, bce := false, cs := false, offend_ie_type := none }, cra := (some { t := 131, length := 1, ins := 0, action := 1 }), csg_ira := (some { t := 146, length := 1, ins := 0, action := 7 }), praa := (some { t := 177, length := 62, ins := 0, inapra := false, action := 1, prai := 16777215, tai := [{ mcc := 262, mnc := 1, mnc_is_three_digits := false, tac := 3033 }], rai := [{ mcc := 262, mnc := 1, mnc_is_three_digits := false, lac := 65535, rac := 170 }], macro_enb := [{ mcc := 262, mnc := 1, mnc_is_three_digits := false, macro_id := 16777215 }], home_enb := [{ mcc := 262, mnc := 1, mnc_is_three_digits := false, macro_id := 16777215 }], ecgi := [{ mcc := 262, mnc := 1, mnc_is_three_digits := false, eci := 28983298 }], sai := [{ mcc := 262, mnc := 1, mnc_is_three_digits := false, lac := 65535, sac := 56797 }], cgi := [{ mcc := 262, mnc := 1, mnc_is_three_digits := false, lac := 65535, ci := 43690 }], ext_macro_enb := [{ mcc := 262, mnc := 1, mnc_is_three_digits := false, smenb := false, ext_macro_id := 1048575 }] }), private_ext := [] } := by
  decide +kernel

-- `test_change_notification_resp_marshal` (gtpv2/messages/changenotificationresp.rs:276)
example : ChangeNotificationResponse.codec.marshal ({ header := { msgtype := 39, piggyback := false, prio := none, length := 114, teid := (some 2759366016), sqn := 4925726 }, imsi := (some { t := 1, length := 8, ins := 0, imsi := ['9', '0', '1', '4', '0', '5', '1', '0', '1', '0', '7', '3', '8', '7', '4'] }), mei := (some { t := 75, length := 8, ins := 0, mei := ['8', '6', '9', '4', '9', '2', '0', '5', '1', '0', '0', '5', '4', '9', '0', '7'] }), cause := { t := 2, length := 2, ins := 0, value := 16, pce := false, bce := false, cs := false, offend_ie_type := none }, cra := (some { t := 131, length := 1, ins := 0, action := 1 }), csg_ira := (some { t := 146, length := 1, ins := 0, action := 7 }), praa := (some { t := 177, length := 62, ins := 0, inapra := false, action := 1, prai := 16777215, tai := [{ mcc := 262, mnc := 1, mnc_is_three_digits := false, tac := 3033 }], rai := [{ mcc := 262, mnc := 1, mnc_is_three_digits := false, lac := 65535, rac := 170 }], macro_enb := [{ mcc := 262, mnc := 1, mnc_is_three_digits := false, macro_id := 16777215 }], home_enb := [{ mcc := 262, mnc := 1, mnc_is_three_digits := false, macro_id := 16777215 }], ecgi := [{ mcc := 262, mnc := 1, mnc_is_three_digits := false, eci := 28983298 }], sai := [{ mcc := 262, mnc := 1, mnc_is_three_digits := false, lac := 65535, sac := 56797 }], cgi := [{ mcc := 262, mnc := 1, mnc_is_three_digits := false, lac := 65535, ci := 43690 }], ext_macro_enb := [{ mcc := 262, mnc := 1, mnc_is_three_digits := false, smenb := false, ext_macro_id := 1048575 }] }), private_ext := [] } : ChangeNotificationResponse) = [72, 39, 0, 114, 164, 120, 149, 128, 75, 41, 30, 0, 1, 0, 8, 0, 9, 65, 80, 1, 1, 55, 120, 244, 75, 0, 8, 0, 104, 73, 41, 80, 1, 80, 148, 112, 2, 0, 2, 0, 16, 0, 131, 0, 1, 0, 1, 146, 0, 1, 0, 7, 177, 0, 62, 0, 1, 255, 255, 255, 17, 1, 1, 1, 1, 1, 98, 242, 16, 11, 217, 98, 242, 16, 255, 255, 255, 98, 242, 16, 255, 255, 255, 98, 242, 16, 1, 186, 64, 2, 98, 242, 16, 255, 255, 170, 255, 98, 242, 16, 255, 255, 221, 221, 98, 242, 16, 255, 255, 170, 170, 1, 98, 242, 16, 15, 255, 255] := by
  decide +kernel

-- `test_fwd_access_ctx_notif_unmarshal` (gtpv2/messages/configurationtransfertunnel.rs:119)
example : ForwardAccessContextNotification.codec.unmarshal .debug [72, 137, 0, 112, 9, 9, 164, 86, 0, 0, 47, 0, 124, 0, 9, 0, 5, 255, 0, 0, 255, 170, 0, 0, 170, 124, 0, 9, 0, 6, 255, 0, 0, 255, 170, 0, 0, 170, 124, 0, 9, 0, 7, 255, 0, 0, 255, 170, 0, 0, 170, 125, 0, 20, 0, 128, 128, 33, 16, 1, 1, 0, 16, 129, 6, 0, 0, 0, 0, 131, 6, 0, 0, 0, 0, 110, 0, 9, 0, 5, 255, 0, 0, 255, 170, 0, 0, 170, 118, 0, 5, 0, 2, 1, 98, 156, 196, 118, 0, 5, 0, 2, 1, 98, 156, 196, 255, 0, 6, 0, 0, 0, 1, 98, 156, 196] = .ok { header := { msgtype := 137, piggyback := false, prio := none, length := 112, teid := (some 151626838), sqn := 47 }, rab_ctxs := [{ t := 124, length := 9, ins := 0, nsapi := 5, dl_gtpu_sqn := 65280, ul_gtpu_sqn := 255, dl_pdcp_sqn := 43520, ul_pdcp_sqn := 170 }, { t := 124, length := 9, ins := 0, nsapi := 6, dl_gtpu_sqn := 65280, ul_gtpu_sqn := 255, dl_pdcp_sqn := 43520, ul_pdcp_sqn := 170 }, { t := 124, length := 9, ins := 0, nsapi := 7, dl_gtpu_sqn := 65280, ul_gtpu_sqn := 255, dl_pdcp_sqn := 43520, ul_pdcp_sqn := 170 }], src_rnc_pdcp_ctx := (some { t := 125, length := 20, ins := 0, rrc_container := [128, 128, 33, 16, 1, 1, 0, 16, 129, 6, 0, 0, 0, 0, 131, 6, 0, 0, 0, 0] }), pdu_numbers := (some { t := 110, length := 9, ins := 0, nsapi := 5, dl_gtpu_sqn := 65280, ul_gtpu_sqn := 255, send_npdu := 43520, receive_npdu := 170 }), eutran_containers := [{ t := 118, length := 5, ins := 0, container := (.Bss [1, 98, 156, 196]) }, { t := 118, length := 5, ins := 0, container := (.Bss [1, 98, 156, 196]) }], private_ext := [{ t := 255, length := 6, ins := 0, enterprise_id := 0, value := [1, 98, 156, 196] }] } := by
  decide +kernel

-- `test_fwd_access_ctx_notif_marshal` (gtpv2/messages/configurationtransfertunnel.rs:209)
example : ForwardAccessContextNotification.codec.marshal ({ header := { msgtype := 137, piggyback := false, prio := none, length := 112, teid := (some 151626838), sqn := 47 }, rab_ctxs := [{ t := 124, length := 9, ins := 0, nsapi := 5, dl_gtpu_sqn := 65280, ul_gtpu_sqn := 255, dl_pdcp_sqn := 43520, ul_pdcp_sqn := 170 }, { t := 124, length := 9, ins := 0, nsapi := 6, dl_gtpu_sqn := 65280, ul_gtpu_sqn := 255, dl_pdcp_sqn := 43520, ul_pdcp_sqn := 170 }, { t := 124, length := 9, ins := 0, nsapi := 7, dl_gtpu_sqn := 65280, ul_gtpu_sqn := 255, dl_pdcp_sqn := 43520, ul_pdcp_sqn := 170 }], src_rnc_pdcp_ctx := (some { t := 125, length := 20, ins := 0, rrc_container := [128, 128, 33, 16, 1, 1, 0, 16, 129, 6, 0, 0, 0, 0, 131, 6, 0, 0, 0, 0] }), pdu_numbers := (some { t := 110, length := 9, ins := 0, nsapi := 5, dl_gtpu_sqn := 65280, ul_gtpu_sqn := 255, send_npdu := 43520, receive_npdu := 170 }), eutran_containers := [{ t := 118, length := 5, ins := 0, container := (.Bss [1, 98, 156, 196]) }, { t := 118, length := 5, ins := 0, container := (.Bss [1, 98, 156, 196]) }], private_ext := [{ t := 255, length := 6, ins := 0, enterprise_id := 0, value := [1, 98, 156, 196] }] } : ForwardAccessContextNotification) = [72, 137, 0, 112, 9, 9, 164, 86, 0, 0, 47, 0, 124, 0, 9, 0, 5, 255, 0, 0, 255, 170, 0, 0, 170, 124, 0, 9, 0, 6, 255, 0, 0, 255, 170, 0, 0, 170, 124, 0, 9, 0, 7, 255, 0, 0, 255, 170, 0, 0, 170, 125, 0, 20, 0, 128, 128, 33, 16, 1, 1, 0, 16, 129, 6, 0, 0, 0, 0, 131, 6, 0, 0, 0, 0, 110, 0, 9, 0, 5, 255, 0, 0, 255, 170, 0, 0, 170, 118, 0, 5, 0, 2, 1, 98, 156, 196, 118, 0, 5, 0, 2, 1, 98, 156, 196, 255, 0, 6, 0, 0, 0, 1, 98, 156, 196] := by
  decide +kernel

-- `test_ctx_ack_unmarshal` (gtpv2/messages/contextacknowledge.rs:158)
example : ContextAcknowledge.codec.unmarshal .debug [72, 132, 0, 125, 164, 120, 149, 128, 75, 41, 30, 0, 2, 0, 2, 0, 16, 0, 87, 0, 9, 0, 151, 39, 137, 47, 112, 139, 7, 133, 184, 93, 0, 31, 0, 73, 0, 1, 0, 5, 80, 0, 22, 0, 100, 9, 0, 0, 0, 0, 0, 0, 0, 0, 0, 0, 0, 0, 0, 0, 0, 0, 0, 0, 0, 0, 93, 0, 31, 0, 73, 0, 1, 0, 6, 80, 0, 22, 0, 100, 9, 0, 0, 0, 0, 0, 0, 0, 0, 0, 0, 0, 0, 0, 0, 0, 0, 0, 0, 0, 0, 175, 0, 10, 0, 9, 145, 153, 65, 80, 1, 145, 22, 120, 243, 175, 0, 10, 2, 9, 145, 153, 65, 80, 1, 145, 22, 120, 243] = .ok { header := { msgtype := 132, piggyback := false, prio := none, length := 125, teid := (some 2759366016), sqn := 4925726 }, cause := { t := 2, length := 2, ins := 0, value := 16, pce := false, bce := false, cs := false, offend_ie_type := none }, indication := none, fwd_fteid := (some { t := 87, length := 9, ins := 0, interface := 23, teid := 663302000, ipv4 := (some 2332526008), ipv6 := none }), bearer_ctxs := [{ t := 93, length := 31, ins := 0, ebi := { t := 73, length := 1, ins := 0, value := 5 }, cause := none, tft := none, fteids := [], bearer_qos := (some { t := 80, length := 22, ins := 0, pre_emption_vulnerability := 0, priority_level := 9, pre_emption_capability := 1, qci := 9, maxbr_ul := 0, maxbr_dl := 0, gbr_ul := 0, gbr_dl := 0 }), charging_id := none, bearer_flags := none, pco := none, apco := none, epco := none, max_packet_loss := none, ran_nas_cause := none, bss_container := none, transaction_id := none }, { t := 93, length := 31, ins := 0, ebi := { t := 73, length := 1, ins := 0, value := 6 }, cause := none, tft := none, fteids := [], bearer_qos := (some { t := 80, length := 22, ins := 0, pre_emption_vulnerability := 0, priority_level := 9, pre_emption_capability := 1, qci := 9, maxbr_ul := 0, maxbr_dl := 0, gbr_ul := 0, gbr_dl := 0 }), charging_id := none, bearer_flags := none, pco := none, apco := none, epco := none, max_packet_loss := none, ran_nas_cause := none, bss_container := none, transaction_id := none }], node_nbrs := [{ t := 175, length := 10, ins := 0, node_number := ['9', '9', '1', '4', '0', '5', '1', '0', '1', '9', '6', '1', '8', '7', '3'] }, { t := 175, length := 10, ins := 2, node_number := ['9', '9', '1', '4', '0', '5', '1', '0', '1', '9', '6', '1', '8', '7', '3'] }], node_ids := [], private_ext := [] } := by
  decide +kernel

-- `test_ctx_ack_marshal` (gtpv2/messages/contextacknowledge.rs:263)
example : ContextAcknowledge.codec.marshal ({ header := { msgtype := 132, piggyback := false, prio := none, length := 125, teid := (some 2759366016), sqn := 4925726 }, cause := { t := 2, length := 2, ins := 0, value := 16, pce := false, bce := false, cs := false, offend_ie_type := none }, indication := none, fwd_fteid := (some { t := 87, length := 9, ins := 0, interface := 23, teid := 663302000, ipv4 := (some 2332526008), ipv6 := none }), bearer_ctxs := [{ t := 93, length := 31, ins := 0, ebi := { t := 73, length := 1, ins := 0, value := 5 }, cause := none, tft := none, fteids := [], bearer_qos := (some { t := 80, length := 22, ins := 0, pre_emption_vulnerability := 0, priority_level := 9, pre_emption_capability := 1, qci := 9, maxbr_ul := 0, maxbr_dl := 0, gbr_ul := 0, gbr_dl := 0 }), charging_id := none, bearer_flags := none, pco := none, apco := none, epco := none, max_packet_loss := none, ran_nas_cause := none, bss_container := none, transaction_id := none }, { t := 93, length := 31, ins := 0, ebi := { t := 73, length := 1, ins := 0, value := 6 }, cause := none, tft := none, fteids := [], bearer_qos := (some { t := 80, length := 22, ins := 0, pre_emption_vulnerability := 0, priority_level := 9, pre_emption_capability := 1, qci := 9, maxbr_ul := 0, maxbr_dl := 0, gbr_ul := 0, gbr_dl := 0 }), charging_id := none, bearer_flags := none, pco := none, apco := none, epco := none, max_packet_loss := none, ran_nas_cause := none, bss_container := none, transaction_id := none }], node_nbrs := [{ t := 175, length := 10, ins := 0, node_number := ['9', '9', '1', '4', '0', '5', '1', '0', '1', '9', '6', '1', '8', '7', '3'] }, { t := 175, length := 10, ins := 2, node_number := ['9', '9', '1', '4', '0', '5', '1', '0', '1', '9', '6', '1', '8', '7', '3'] }], node_ids := [], private_ext := [] } : ContextAcknowledge) = [72, 132, 0, 125, 164, 120, 149, 128, 75, 41, 30, 0, 2, 0, 2, 0, 16, 0, 87, 0, 9, 0, 151, 39, 137, 47, 112, 139, 7, 133, 184, 93, 0, 31, 0, 73, 0, 1, 0, 5, 80, 0, 22, 0, 100, 9, 0, 0, 0, 0, 0, 0, 0, 0, 0, 0, 0, 0, 0, 0, 0, 0, 0, 0, 0, 0, 93, 0, 31, 0, 73, 0, 1, 0, 6, 80, 0, 22, 0, 100, 9, 0, 0, 0, 0, 0, 0, 0, 0, 0, 0, 0, 0, 0, 0, 0, 0, 0, 0, 0, 0, 175, 0, 10, 0, 9, 145, 153, 65, 80, 1, 145, 22, 120, 243, 175, 0, 10, 2, 9, 145, 153, 65, 80, 1, 145, 22, 120, 243] := by
  decide +kernel

-- `test_ctx_req_unmarshal` (gtpv2/messages/contextreq.rs:291)
example : ContextRequest.codec.unmarshal .debug [72, 130, 0, 74, 164, 120, 149, 128, 75, 41, 30, 0, 1, 0, 8, 0, 153, 65, 85, 1, 145, 22, 120, 243, 117, 0, 10, 0, 153, 249, 16, 1, 44, 10, 255, 255, 255, 255, 111, 0, 4, 0, 255, 255, 255, 255, 116, 0, 6, 0, 1, 170, 187, 204, 221, 238, 82, 0, 1, 0, 6, 83, 0, 3, 0, 153, 249, 16, 255, 0, 6, 0, 0, 0, 1, 98, 156, 196] = .ok { header := { msgtype := 130, piggyback := false, prio := none, length := 74, teid := (some 2759366016), sqn := 4925726 }, imsi := (some { t := 1, length := 8, ins := 0, imsi := ['9', '9', '1', '4', '5', '5', '1', '0', '1', '9', '6', '1', '8', '7', '3'] }), guti := (some { t := 117, length := 10, ins := 0, mcc := 999, mnc := 1, mnc_is_three_digits := false, mmegi := 300, mmec := 10, mtmsi := 4294967295 }), rai := none, ptmsi := (some { t := 111, length := 4, ins := 0, ptmsi := 4294967295 }), ptmsi_signature := none, complete_tau_req_msg := (some { t := 116, length := 6, ins := 0, message := (.TauRequest [170, 187, 204, 221, 238]) }), fteid_control := none, udp_src_port := none, rat_type := (some { t := 82, length := 1, ins := 0, rat_type := .Eutran }), indication := none, hop_counter := none, target_plmnid := (some { t := 83, length := 3, ins := 0, mcc := 999, mnc := 1, mnc_is_three_digits := false }), mme_sgsn_ldn := none, sgsn_fqdn := none, mme_fqdn := none, sgsn_number := none, sgsn_id := none, mme_id := none, ciot_optim_supp_ind := none, private_ext := [{ t := 255, length := 6, ins := 0, enterprise_id := 0, value := [1, 98, 156, 196] }] } := by
  decide +kernel

-- `test_ctx_req_marshal` (gtpv2/messages/contextreq.rs:354)
example : ContextRequest.codec.marshal ({ header := { msgtype := 130, piggyback := false, prio := none, length := 74, teid := (some 2759366016), sqn := 4925726 }, imsi := (some { t := 1, length := 8, ins := 0, imsi := ['9', '9', '1', '4', '5', '5', '1', '0', '1', '9', '6', '1', '8', '7', '3'] }), guti := (some { t := 117, length := 10, ins := 0, mcc := 999, mnc := 1, mnc_is_three_digits := false, mmegi := 300, mmec := 10, mtmsi := 4294967295 }), rai := none, ptmsi := (some { t := 111, length := 4, ins := 0, ptmsi := 4294967295 }), ptmsi_signature := none, complete_tau_req_msg := (some { t := 116, length := 6, ins := 0, message := (.TauRequest [170, 187, 204, 221, 238]) }), fteid_control := none, udp_src_port := none, rat_type := (some { t := 82, length := 1, ins := 0, rat_type := .Eutran }), indication := none, hop_counter := none, target_plmnid := (some { t := 83, length := 3, ins := 0, mcc := 999, mnc := 1, mnc_is_three_digits := false }), mme_sgsn_ldn := none, sgsn_fqdn := none, mme_fqdn := none, sgsn_number := none, sgsn_id := none, mme_id := none, ciot_optim_supp_ind := none, private_ext := [{ t := 255, length := 6, ins := 0, enterprise_id := 0, value := [1, 98, 156, 196] }] } : ContextRequest) = [72, 130, 0, 74, 164, 120, 149, 128, 75, 41, 30, 0, 1, 0, 8, 0, 153, 65, 85, 1, 145, 22, 120, 243, 117, 0, 10, 0, 153, 249, 16, 1, 44, 10, 255, 255, 255, 255, 111, 0, 4, 0, 255, 255, 255, 255, 116, 0, 6, 0, 1, 170, 187, 204, 221, 238, 82, 0, 1, 0, 6, 83, 0, 3, 0, 153, 249, 16, 255, 0, 6, 0, 0, 0, 1, 98, 156, 196] := by
  decide +kernel

-- `test_ctx_resp_unmarshal` (gtpv2/messages/contextresp.rs:391)
example : ContextResponse.codec.unmarshal .debug [72, 131, 1, 177, 164, 120, 149, 128, 75, 41, 30, 0, 2, 0, 2, 0, 22, 0, 107, 1, 136, 0, 152, 39, 129, 39, 0, 255, 255, 255, 255, 255, 255, 255, 255, 255, 255, 255, 255, 255, 255, 255, 255, 255, 255, 255, 255, 255, 255, 255, 255, 255, 255, 255, 255, 255, 255, 255, 255, 255, 255, 255, 255, 1, 2, 3, 4, 5, 6, 7, 8, 9, 10, 11, 12, 13, 14, 15, 16, 3, 2, 7, 8, 3, 3, 9, 10, 11, 12, 13, 14, 15, 0, 0, 0, 0, 0, 0, 0, 0, 0, 0, 0, 0, 0, 0, 0, 0, 0, 0, 0, 0, 0, 0, 0, 0, 0, 0, 0, 1, 2, 3, 4, 5, 6, 7, 8, 9, 10, 11, 12, 13, 14, 15, 16, 3, 2, 7, 8, 1, 2, 3, 4, 5, 6, 7, 8, 9, 10, 11, 12, 13, 14, 15, 16, 1, 2, 3, 4, 5, 6, 7, 8, 9, 10, 11, 12, 13, 14, 15, 16, 3, 3, 9, 10, 1, 2, 170, 170, 170, 170, 170, 170, 170, 170, 170, 170, 170, 170, 170, 170, 170, 170, 170, 170, 170, 170, 170, 170, 170, 170, 170, 170, 170, 170, 170, 170, 170, 170, 5, 0, 0, 7, 208, 0, 0, 31, 64, 0, 0, 7, 208, 0, 0, 31, 64, 4, 1, 2, 3, 4, 4, 1, 2, 3, 4, 4, 1, 2, 3, 4, 0, 173, 255, 255, 255, 255, 255, 255, 255, 255, 255, 255, 255, 255, 255, 255, 255, 255, 255, 255, 255, 255, 255, 255, 255, 255, 255, 255, 255, 255, 255, 255, 255, 255, 255, 255, 255, 255, 255, 255, 255, 255, 255, 255, 255, 255, 255, 255, 255, 255, 255, 255, 255, 255, 255, 255, 255, 255, 255, 255, 255, 255, 255, 255, 255, 255, 4, 1, 2, 3, 4, 4, 1, 2, 3, 4, 1, 3, 4, 1, 2, 3, 4, 4, 1, 2, 3, 4, 2, 0, 34, 0, 12, 116, 101, 115, 116, 46, 97, 112, 110, 46, 99, 111, 109, 18, 52, 86, 120, 18, 52, 86, 120, 18, 52, 86, 120, 1, 2, 3, 4, 5, 6, 7, 8, 0, 35, 0, 13, 116, 101, 115, 116, 50, 46, 97, 112, 110, 46, 99, 111, 109, 18, 52, 86, 120, 18, 52, 86, 120, 18, 52, 86, 120, 1, 2, 3, 4, 5, 6, 7, 8, 4, 1, 2, 3, 4, 4, 1, 2, 3, 4, 2, 87, 0, 9, 0, 134, 39, 137, 47, 112, 139, 7, 133, 184, 255, 0, 6, 0, 7, 219, 7, 0, 1, 0] = .ok { header := { msgtype := 131, piggyback := false, prio := none, length := 433, teid := (some 2759366016), sqn := 4925726 }, cause := { t := 2, length := 2, ins := 0, value := 22, pce := false, bce := false, cs := false, offend_ie_type := none }, imsi := none, mmctx := (some (.MmContextEpsSecurityContextQuadruplets { t := 107, length := 392, ins := 0, sec_mode := .EpsSecurityContextAndQuadruplets, ksi := 0, nas_integrity := .NoIntegrity, nas_cipher := .Eea1, nas_dl_count := 2556159, nas_ul_count := 16777215, kasme := [255, 255, 255, 255, 255, 255, 255, 255, 255, 255, 255, 255, 255, 255, 255, 255, 255, 255, 255, 255, 255, 255, 255, 255, 255, 255, 255, 255, 255, 255, 255, 255], auth_quadruplets := (some [{ rand := [1, 2, 3, 4, 5, 6, 7, 8, 9, 10, 11, 12, 13, 14, 15, 16], xres := [2, 7, 8], autn := [3, 9, 10], kasme := [11, 12, 13, 14, 15, 0, 0, 0, 0, 0, 0, 0, 0, 0, 0, 0, 0, 0, 0, 0, 0, 0, 0, 0, 0, 0, 0, 0, 0, 0, 0, 0] }]), auth_quintuplets := (some [{ rand := [1, 2, 3, 4, 5, 6, 7, 8, 9, 10, 11, 12, 13, 14, 15, 16], xres := [2, 7, 8], ck := [1, 2, 3, 4, 5, 6, 7, 8, 9, 10, 11, 12, 13, 14, 15, 16], ik := [1, 2, 3, 4, 5, 6, 7, 8, 9, 10, 11, 12, 13, 14, 15, 16], autn := [3, 9, 10] }]), drx_params := (some [1, 2]), next_hop := (some [170, 170, 170, 170, 170, 170, 170, 170, 170, 170, 170, 170, 170, 170, 170, 170, 170, 170, 170, 170, 170, 170, 170, 170, 170, 170, 170, 170, 170, 170, 170, 170]), ncc := (some 5), subscr_ue_ambr := (some { uplink := 2000, downlink := 8000 }), used_ue_ambr := (some { uplink := 2000, downlink := 8000 }), ue_ntwk_cap := (some [1, 2, 3, 4]), ms_ntwk_cap := (some [1, 2, 3, 4]), mei := (some [1, 2, 3, 4]), access_res := (AccessRestrictionMM.ofU8 0), old_eps_sec_ctx := (some { old_ksi := 5, old_ncc := (some 5), old_kasme := [255, 255, 255, 255, 255, 255, 255, 255, 255, 255, 255, 255, 255, 255, 255, 255, 255, 255, 255, 255, 255, 255, 255, 255, 255, 255, 255, 255, 255, 255, 255, 255], old_next_hop := (some [255, 255, 255, 255, 255, 255, 255, 255, 255, 255, 255, 255, 255, 255, 255, 255, 255, 255, 255, 255, 255, 255, 255, 255, 255, 255, 255, 255, 255, 255, 255, 255]) }), vdn_pref_ue_usage := (some [1, 2, 3, 4]), ue_radio_cap_for_paging := (some [1, 2, 3, 4]), ext_access_res := (some (ExtendedAccessRestrictionMM.ofU8 3)), ue_add_security_cap := (some [1, 2, 3, 4]), ue_nr_security_cap := (some [1, 2, 3, 4]), apn_rate_controls := (some [{ apn := ['t', 'e', 's', 't', '.', 'a', 'p', 'n', '.', 'c', 'o', 'm'], uplink_rate_limit := 305419896, nbr_of_exception_reports := 305419896, downlink_rate_limit := 305419896, apn_rate_control_status_validity := [1, 2, 3, 4, 5, 6, 7, 8] }, { apn := ['t', 'e', 's', 't', '2', '.', 'a', 'p', 'n', '.', 'c', 'o', 'm'], uplink_rate_limit := 305419896, nbr_of_exception_reports := 305419896, downlink_rate_limit := 305419896, apn_rate_control_status_validity := [1, 2, 3, 4, 5, 6, 7, 8] }]), core_nw_res := (some [1, 2, 3, 4]), ue_radio_cap_id := (some [1, 2, 3, 4]), ensct := (some 2) })), ue_eps_pdn := [], fteid_control := (some { t := 87, length := 9, ins := 0, interface := 6, teid := 663302000, ipv4 := (some 2332526008), ipv6 := none }), sgw_fteid := none, fqdns := [], indication := none, trace_info := none, ip_addresses := [], rfsp_indexes := [], ue_time_zone := none, mme_sgsn_ldn := none, mdt_cfg := none, uci := none, monitor_event_info := [], monitor_even_ext_info := [], ue_usage_type := none, scef_pdn_connections := [], rat_type := none, srv_plmn_rate_cntrl := none, mo_exception_data_cntr := none, rem_running_srvc_gap_timer := none, ext_trace_info := none, add_rrm_policy_index := [], iwk_scef_id := none, alt_imsi := none, private_ext := [{ t := 255, length := 6, ins := 0, enterprise_id := 2011, value := [7, 0, 1, 0] }] } := by
  decide +kernel

-- `test_ctx_resp_marshal` (gtpv2/messages/contextresp.rs:548)
example : ContextResponse.codec.marshal ({ header := { msgtype := 131, piggyback := false, prio := none, length := 433, teid := (some 2759366016), sqn := 4925726 }, cause := { t := 2, length := 2, ins := 0, value := 22, pce := false, bce := false, cs := false, offend_ie_type := none }, imsi := none, mmctx := (some (.MmContextEpsSecurityContextQuadruplets { t := 107, length := 392, ins := 0, sec_mode := .EpsSecurityContextAndQuadruplets, ksi := 0, nas_integrity := .NoIntegrity, nas_cipher := .Eea1, nas_dl_count := 2556159, nas_ul_count := 16777215, kasme := [255, 255, 255, 255, 255, 255, 255, 255, 255, 255, 255, 255, 255, 255, 255, 255, 255, 255, 255, 255, 255, 255, 255, 255, 255, 255, 255, 255, 255, 255, 255, 255], auth_quadruplets := (some [{ rand := [1, 2, 3, 4, 5, 6, 7, 8, 9, 10, 11, 12, 13, 14, 15, 16], xres := [2, 7, 8], autn := [3, 9, 10], kasme := [11, 12, 13, 14, 15, 0, 0, 0, 0, 0, 0, 0, 0, 0, 0, 0, 0, 0, 0, 0, 0, 0, 0, 0, 0, 0, 0, 0, 0, 0, 0, 0] }]), auth_quintuplets := (some [{ rand := [1, 2, 3, 4, 5, 6, 7, 8, 9, 10, 11, 12, 13, 14, 15, 16], xres := [2, 7, 8], ck := [1, 2, 3, 4, 5, 6, 7, 8, 9, 10, 11, 12, 13, 14, 15, 16], ik := [1, 2, 3, 4, 5, 6, 7, 8, 9, 10, 11, 12, 13, 14, 15, 16], autn := [3, 9, 10] }]), drx_params := (some [1, 2]), next_hop := (some [170, 170, 170, 170, 170, 170, 170, 170, 170, 170, 170, 170, 170, 170, 170, 170, 170, 170, 170, 170, 170, 170, 170, 170, 170, 170, 170, 170, 170, 170, 170, 170]), ncc := (some 5), subscr_ue_ambr := (some { uplink := 2000, downlink := 8000 }), used_ue_ambr := (some { uplink := 2000, downlink := 8000 }), ue_ntwk_cap := (some [1, 2, 3, 4]), ms_ntwk_cap := (some [1, 2, 3, 4]), mei := (some [1, 2, 3, 4]), access_res := (AccessRestrictionMM.ofU8 0), old_eps_sec_ctx := (some { old_ksi := 5, old_ncc := (some 5), old_kasme := [255, 255, 255, 255, 255, 255, 255, 255, 255, 255, 255, 255, 255, 255, 255, 255, 255, 255, 255, 255, 255, 255, 255, 255, 255, 255, 255, 255, 255, 255, 255, 255], old_next_hop := (some [255, 255, 255, 255, 255, 255, 255, 255, 255, 255, 255, 255, 255, 255, 255, 255, 255, 255, 255, 255, 255, 255, 255, 255, 255, 255, 255, 255, 255, 255, 255, 255]) }), vdn_pref_ue_usage := (some [1, 2, 3, 4]), ue_radio_cap_for_paging := (some [1, 2, 3, 4]), ext_access_res := (some (ExtendedAccessRestrictionMM.ofU8 3)), ue_add_security_cap := (some [1, 2, 3, 4]), ue_nr_security_cap := (some [1, 2, 3, 4]), apn_rate_controls := (some [{ apn := ['t', 'e', 's', 't', '.', 'a', 'p', 'n', '.', 'c', 'o', 'm'], uplink_rate_limit := 305419896, nbr_of_exception_reports := 305419896, downlink_rate_limit := 305419896, apn_rate_control_status_validity := [1, 2, 3, 4, 5, 6, 7, 8] }, { apn := ['t', 'e', 's', 't', '2', '.', 'a', 'p', 'n', '.', 'c', 'o', 'm'], uplink_rate_limit := 305419896, nbr_of_exception_reports := 305419896, downlink_rate_limit := 305419896, apn_rate_control_status_validity := [1, 2, 3, 4, 5, 6, 7, 8] }]), core_nw_res := (some [1, 2, 3, 4]), ue_radio_cap_id := (some [1, 2, 3, 4]), ensct := (some 2) })), ue_eps_pdn := [], fteid_control := (some { t := 87, length := 9, ins := 0, interface := 6, teid := 663302000, ipv4 := (some 2332526008), ipv6 := none }), sgw_fteid := none, fqdns := [], indication := none, trace_info := none, ip_addresses := [], rfsp_indexes := [], ue_time_zone := none, mme_sgsn_ldn := none, mdt_cfg := none, uci := none, monitor_event_info := [], monitor_even_ext_info := [], ue_usage_type := none, scef_pdn_connections := [], rat_type := none, srv_plmn_rate_cntrl := none, mo_exception_data_cntr := none, rem_running_srvc_gap_timer := none, ext_trace_info := none, add_rrm_policy_index := [], iwk_scef_id := none, alt_imsi := none, private_ext := [{ t := 255, length := 6, ins := 0, enterprise_id := 2011, value := [7, 0, 1, 0] }] } : ContextResponse) = [72, 131, 1, 177, 164, 120, 149, 128, 75, 41, 30, 0, 2, 0, 2, 0, 22, 0, 107, 1, 136, 0, 152, 39, 129, 39, 0, 255, 255, 255, 255, 255, 255, 255, 255, 255, 255, 255, 255, 255, 255, 255, 255, 255, 255, 255, 255, 255, 255, 255, 255, 255, 255, 255, 255, 255, 255, 255, 255, 255, 255, 255, 255, 1, 2, 3, 4, 5, 6, 7, 8, 9, 10, 11, 12, 13, 14, 15, 16, 3, 2, 7, 8, 3, 3, 9, 10, 11, 12, 13, 14, 15, 0, 0, 0, 0, 0, 0, 0, 0, 0, 0, 0, 0, 0, 0, 0, 0, 0, 0, 0, 0, 0, 0, 0, 0, 0, 0, 0, 1, 2, 3, 4, 5, 6, 7, 8, 9, 10, 11, 12, 13, 14, 15, 16, 3, 2, 7, 8, 1, 2, 3, 4, 5, 6, 7, 8, 9, 10, 11, 12, 13, 14, 15, 16, 1, 2, 3, 4, 5, 6, 7, 8, 9, 10, 11, 12, 13, 14, 15, 16, 3, 3, 9, 10, 1, 2, 170, 170, 170, 170, 170, 170, 170, 170, 170, 170, 170, 170, 170, 170, 170, 170, 170, 170, 170, 170, 170, 170, 170, 170, 170, 170, 170, 170, 170, 170, 170, 170, 5, 0, 0, 7, 208, 0, 0, 31, 64, 0, 0, 7, 208, 0, 0, 31, 64, 4, 1, 2, 3, 4, 4, 1, 2, 3, 4, 4, 1, 2, 3, 4, 0, 173, 255, 255, 255, 255, 255, 255, 255, 255, 255, 255, 255, 255, 255, 255, 255, 255, 255, 255, 255, 255, 255, 255, 255, 255, 255, 255, 255, 255, 255, 255, 255, 255, 255, 255, 255, 255, 255, 255, 255, 255, 255, 255, 255, 255, 255, 255, 255, 255, 255, 255, 255, 255, 255, 255, 255, 255, 255, 255, 255, 255, 255, 255, 255, 255, 4, 1, 2, 3, 4, 4, 1, 2, 3, 4, 1, 3, 4, 1, 2, 3, 4, 4, 1, 2, 3, 4, 2, 0, 34, 0, 12, 116, 101, 115, 116, 46, 97, 112, 110, 46, 99, 111, 109, 18, 52, 86, 120, 18, 52, 86, 120, 18, 52, 86, 120, 1, 2, 3, 4, 5, 6, 7, 8, 0, 35, 0, 13, 116, 101, 115, 116, 50, 46, 97, 112, 110, 46, 99, 111, 109, 18, 52, 86, 120, 18, 52, 86, 120, 18, 52, 86, 120, 1, 2, 3, 4, 5, 6, 7, 8, 4, 1, 2, 3, 4, 4, 1, 2, 3, 4, 2, 87, 0, 9, 0, 134, 39, 137, 47, 112, 139, 7, 133, 184, 255, 0, 6, 0, 7, 219, 7, 0, 1, 0] := by
  decide +kernel

-- `test_create_bearer_req_unmarshal` (gtpv2/messages/createbearerreq.rs:267)
example : CreateBearerRequest.codec.unmarshal .debug [72, 95, 0, 93, 9, 9, 164, 86, 0, 0, 47, 0, 73, 0, 1, 0, 5, 78, 0, 20, 0, 128, 128, 33, 16, 2, 0, 0, 16, 129, 6, 8, 8, 8, 8, 131, 6, 10, 64, 208, 97, 93, 0, 52, 0, 73, 0, 1, 0, 0, 87, 0, 9, 2, 133, 59, 149, 152, 90, 62, 153, 137, 85, 80, 0, 22, 0, 44, 9, 0, 0, 0, 0, 0, 0, 0, 0, 0, 0, 0, 0, 0, 0, 0, 0, 0, 0, 0, 0, 94, 0, 4, 0, 1, 98, 156, 196] = .ok { header := { msgtype := 95, piggyback := false, prio := none, length := 93, teid := (some 151626838), sqn := 47 }, pti := none, linked_ebi := { t := 73, length := 1, ins := 0, value := 5 }, pco := (some { t := 78, length := 20, ins := 0, pco := [128, 128, 33, 16, 2, 0, 0, 16, 129, 6, 8, 8, 8, 8, 131, 6, 10, 64, 208, 97] }), bearer_ctxs := [{ t := 93, length := 52, ins := 0, ebi := { t := 73, length := 1, ins := 0, value := 0 }, cause := none, tft := none, fteids := [{ t := 87, length := 9, ins := 2, interface := 5, teid := 999659610, ipv4 := (some 1050249557), ipv6 := none }], bearer_qos := (some { t := 80, length := 22, ins := 0, pre_emption_vulnerability := 0, priority_level := 11, pre_emption_capability := 0, qci := 9, maxbr_ul := 0, maxbr_dl := 0, gbr_ul := 0, gbr_dl := 0 }), charging_id := (some { t := 94, length := 4, ins := 0, charging_id := 23239876 }), bearer_flags := none, pco := none, apco := none, epco := none, max_packet_loss := none, ran_nas_cause := none, bss_container := none, transaction_id := none }], pgw_fqcsid := none, sgw_fqcsid := none, cra := none, csg_ira := none, henb_info_report := none, praa := none, indication := none, load_control := [], overload_info := [], nbifom := none, pgw_change_info := [], sender_fteid_cntrl_plane := none, private_ext := [] } := by
  decide +kernel

-- `test_create_bearer_req_marshal` (gtpv2/messages/createbearerreq.rs:359)
example : CreateBearerRequest.codec.marshal ({ header := { msgtype := 95, piggyback := false, prio := none, length := 93, teid := (some 151626838), sqn := 47 }, pti := none, linked_ebi := { t := 73, length := 1, ins := 0, value := 5 }, pco := (some { t := 78, length := 20, ins := 0, pco := [128, 128, 33, 16, 2, 0, 0, 16, 129, 6, 8, 8, 8, 8, 131, 6, 10, 64, 208, 97] }), bearer_ctxs := [{ t := 93, length := 52, ins := 0, ebi := { t := 73, length := 1, ins := 0, value := 0 }, cause := none, tft := none, fteids := [{ t := 87, length := 9, ins := 2, interface := 5, teid := 999659610, ipv4 := (some 1050249557), ipv6 := none }], bearer_qos := (some { t := 80, length := 22, ins := 0, pre_emption_vulnerability := 0, priority_level := 11, pre_emption_capability := 0, qci := 9, maxbr_ul := 0, maxbr_dl := 0, gbr_ul := 0, gbr_dl := 0 }), charging_id := (some { t := 94, length := 4, ins := 0, charging_id := 23239876 }), bearer_flags := none, pco := none, apco := none, epco := none, max_packet_loss := none, ran_nas_cause := none, bss_container := none, transaction_id := none }], pgw_fqcsid := none, sgw_fqcsid := none, cra := none, csg_ira := none, henb_info_report := none, praa := none, indication := none, load_control := [], overload_info := [], nbifom := none, pgw_change_info := [], sender_fteid_cntrl_plane := none, private_ext := [] } : CreateBearerRequest) = [72, 95, 0, 93, 9, 9, 164, 86, 0, 0, 47, 0, 73, 0, 1, 0, 5, 78, 0, 20, 0, 128, 128, 33, 16, 2, 0, 0, 16, 129, 6, 8, 8, 8, 8, 131, 6, 10, 64, 208, 97, 93, 0, 52, 0, 73, 0, 1, 0, 0, 87, 0, 9, 2, 133, 59, 149, 152, 90, 62, 153, 137, 85, 80, 0, 22, 0, 44, 9, 0, 0, 0, 0, 0, 0, 0, 0, 0, 0, 0, 0, 0, 0, 0, 0, 0, 0, 0, 0, 94, 0, 4, 0, 1, 98, 156, 196] := by
  decide +kernel

-- `test_create_bearer_resp_unmarshal` (gtpv2/messages/createbearerresp.rs:303)
example : CreateBearerResponse.codec.unmarshal .debug [72, 96, 0, 105, 9, 9, 164, 86, 0, 0, 47, 0, 2, 0, 2, 0, 16, 0, 93, 0, 58, 0, 2, 0, 2, 0, 16, 0, 73, 0, 1, 0, 5, 87, 0, 9, 2, 133, 59, 149, 152, 90, 62, 153, 137, 85, 80, 0, 22, 0, 44, 9, 0, 0, 0, 0, 0, 0, 0, 0, 0, 0, 0, 0, 0, 0, 0, 0, 0, 0, 0, 0, 94, 0, 4, 0, 1, 98, 156, 196, 3, 0, 1, 0, 17, 78, 0, 20, 0, 128, 128, 33, 16, 2, 0, 0, 16, 129, 6, 8, 8, 8, 8, 131, 6, 10, 64, 208, 97] = .ok { header := { msgtype := 96, piggyback := false, prio := none, length := 105, teid := (some 151626838), sqn := 47 }, cause := { t := 2, length := 2, ins := 0, value := 16, pce := false, bce := false, cs := false, offend_ie_type := none }, bearer_ctxs := [{ t := 93, length := 58, ins := 0, ebi := { t := 73, length := 1, ins := 0, value := 5 }, cause := (some { t := 2, length := 2, ins := 0, value := 16, pce := false, bce := false, cs := false, offend_ie_type := none }), tft := none, fteids := [{ t := 87, length := 9, ins := 2, interface := 5, teid := 999659610, ipv4 := (some 1050249557), ipv6 := none }], bearer_qos := (some { t := 80, length := 22, ins := 0, pre_emption_vulnerability := 0, priority_level := 11, pre_emption_capability := 0, qci := 9, maxbr_ul := 0, maxbr_dl := 0, gbr_ul := 0, gbr_dl := 0 }), charging_id := (some { t := 94, length := 4, ins := 0, charging_id := 23239876 }), bearer_flags := none, pco := none, apco := none, epco := none, max_packet_loss := none, ran_nas_cause := none, bss_container := none, transaction_id := none }], recovery := (some { t := 3, length := 1, ins := 0, recovery := 17 }), mme_fqcsid := none, sgw_fqcsid := none, epdg_fqcsid := none, twan_fqcsid := none, pco := (some { t := 78, length := 20, ins := 0, pco := [128, 128, 33, 16, 2, 0, 0, 16, 129, 6, 8, 8, 8, 8, 131, 6, 10, 64, 208, 97] }), uetimezone := none, uli := none, twan_id := none, overload_info := [], prai := none, ip := none, wlan_loc := none, wlan_loc_timestamp := none, ue_udpport := none, nbifom := none, ue_tcpport := none, pscellid := none, private_ext := [] } := by
  decide +kernel

-- `test_create_bearer_resp_marshal` (gtpv2/messages/createbearerresp.rs:415)
example : CreateBearerResponse.codec.marshal ({ header := { msgtype := 96, piggyback := false, prio := none, length := 105, teid := (some 151626838), sqn := 47 }, cause := { t := 2, length := 2, ins := 0, value := 16, pce := false, bce := false, cs := false, offend_ie_type := none }, bearer_ctxs := [{ t := 93, length := 58, ins := 0, ebi := { t := 73, length := 1, ins := 0, value := 5 }, cause := (some { t := 2, length := 2, ins := 0, value := 16, pce := false, bce := false, cs := false, offend_ie_type := none }), tft := none, fteids := [{ t := 87, length := 9, ins := 2, interface := 5, teid := 999659610, ipv4 := (some 1050249557), ipv6 := none }], bearer_qos := (some { t := 80, length := 22, ins := 0, pre_emption_vulnerability := 0, priority_level := 11, pre_emption_capability := 0, qci := 9, maxbr_ul := 0, maxbr_dl := 0, gbr_ul := 0, gbr_dl := 0 }), charging_id := (some { t := 94, length := 4, ins := 0, charging_id := 23239876 }), bearer_flags := none, pco := none, apco := none, epco := none, max_packet_loss := none, ran_nas_cause := none, bss_container := none, transaction_id := none }], recovery := (some { t := 3, length := 1, ins := 0, recovery := 17 }), mme_fqcsid := none, sgw_fqcsid := none, epdg_fqcsid := none, twan_fqcsid := none, pco := (some { t := 78, length := 20, ins := 0, pco := [128, 128, 33, 16, 2, 0, 0, 16, 129, 6, 8, 8, 8, 8, 131, 6, 10, 64, 208, 97] }), uetimezone := none, uli := none, twan_id := none, overload_info := [], prai := none, ip := none, wlan_loc := none, wlan_loc_timestamp := none, ue_udpport := none, nbifom := none, ue_tcpport := none, pscellid := none, private_ext := [] } : CreateBearerResponse) = [72, 96, 0, 105, 9, 9, 164, 86, 0, 0, 47, 0, 2, 0, 2, 0, 16, 0, 93, 0, 58, 0, 2, 0, 2, 0, 16, 0, 73, 0, 1, 0, 5, 87, 0, 9, 2, 133, 59, 149, 152, 90, 62, 153, 137, 85, 80, 0, 22, 0, 44, 9, 0, 0, 0, 0, 0, 0, 0, 0, 0, 0, 0, 0, 0, 0, 0, 0, 0, 0, 0, 0, 94, 0, 4, 0, 1, 98, 156, 196, 3, 0, 1, 0, 17, 78, 0, 20, 0, 128, 128, 33, 16, 2, 0, 0, 16, 129, 6, 8, 8, 8, 8, 131, 6, 10, 64, 208, 97] := by
  decide +kernel

-- `test_create_fwd_tunnel_req_unmarshal` (gtpv2/messages/createforwardingtunnelreq.rs:105)
example : CreateForwardingTunnelRequest.codec.unmarshal .debug [72, 160, 0, 72, 9, 9, 164, 86, 0, 0, 47, 0, 90, 0, 23, 0, 16, 0, 0, 0, 0, 0, 0, 0, 0, 0, 0, 0, 0, 0, 0, 0, 0, 0, 0, 0, 0, 1, 5, 90, 0, 23, 0, 16, 0, 0, 0, 0, 0, 0, 0, 0, 0, 0, 0, 0, 0, 0, 0, 0, 0, 0, 0, 0, 1, 6, 255, 0, 6, 0, 0, 0, 1, 98, 156, 196] = .ok { header := { msgtype := 160, piggyback := false, prio := none, length := 72, teid := (some 151626838), sqn := 47 }, s103_pdf := [{ t := 90, length := 23, ins := 0, hsgw_ip := (.V6 ⟨0, 0⟩), gre_key := 0, eps_bearer_ids := [5] }, { t := 90, length := 23, ins := 0, hsgw_ip := (.V6 ⟨0, 0⟩), gre_key := 0, eps_bearer_ids := [6] }], private_ext := [{ t := 255, length := 6, ins := 0, enterprise_id := 0, value := [1, 98, 156, 196] }] } := by
  decide +kernel

-- `test_create_fwd_tunnel_req_marshal` (gtpv2/messages/createforwardingtunnelreq.rs:151)
example : CreateForwardingTunnelRequest.codec.marshal ({ header := { msgtype := 160, piggyback := false, prio := none, length := 72, teid := (some 151626838), sqn := 47 }, s103_pdf := [{ t := 90, length := 23, ins := 0, hsgw_ip := (.V6 ⟨0, 0⟩), gre_key := 0, eps_bearer_ids := [5] }, { t := 90, length := 23, ins := 0, hsgw_ip := (.V6 ⟨0, 0⟩), gre_key := 0, eps_bearer_ids := [6] }], private_ext := [{ t := 255, length := 6, ins := 0, enterprise_id := 0, value := [1, 98, 156, 196] }] } : CreateForwardingTunnelRequest) = [72, 160, 0, 72, 9, 9, 164, 86, 0, 0, 47, 0, 90, 0, 23, 0, 16, 0, 0, 0, 0, 0, 0, 0, 0, 0, 0, 0, 0, 0, 0, 0, 0, 0, 0, 0, 0, 1, 5, 90, 0, 23, 0, 16, 0, 0, 0, 0, 0, 0, 0, 0, 0, 0, 0, 0, 0, 0, 0, 0, 0, 0, 0, 0, 1, 6, 255, 0, 6, 0, 0, 0, 1, 98, 156, 196] := by
  decide +kernel

-- `test_create_fwd_tunnel_resp_unmarshal` (gtpv2/messages/createforwardingtunnelresp.rs:114)
example : CreateForwardingTunnelResponse.codec.unmarshal .debug [72, 161, 0, 64, 9, 9, 164, 86, 0, 0, 47, 0, 2, 0, 2, 0, 16, 0, 91, 0, 10, 0, 5, 4, 10, 10, 10, 10, 0, 0, 255, 170, 91, 0, 22, 0, 6, 16, 0, 253, 0, 255, 0, 0, 0, 0, 0, 0, 0, 0, 0, 0, 0, 0, 0, 0, 170, 255, 255, 0, 6, 0, 0, 0, 1, 98, 156, 196] = .ok { header := { msgtype := 161, piggyback := false, prio := none, length := 64, teid := (some 151626838), sqn := 47 }, cause := { t := 2, length := 2, ins := 0, value := 16, pce := false, bce := false, cs := false, offend_ie_type := none }, s1udf := [{ t := 91, length := 10, ins := 0, ebi := 5, sgw_ip := (.V4 168430090), sgw_s1u_teid := 65450 }, { t := 91, length := 22, ins := 0, ebi := 6, sgw_ip := (.V6 ⟨71214264324456448, 0⟩), sgw_s1u_teid := 43775 }], private_ext := [{ t := 255, length := 6, ins := 0, enterprise_id := 0, value := [1, 98, 156, 196] }] } := by
  decide +kernel

-- `test_create_fwd_tunnel_resp_marshal` (gtpv2/messages/createforwardingtunnelresp.rs:165)
example : CreateForwardingTunnelResponse.codec.marshal ({ header := { msgtype := 161, piggyback := false, prio := none, length := 64, teid := (some 151626838), sqn := 47 }, cause := { t := 2, length := 2, ins := 0, value := 16, pce := false, bce := false, cs := false, offend_ie_type := none }, s1udf := [{ t := 91, length := 10, ins := 0, ebi := 5, sgw_ip := (.V4 168430090), sgw_s1u_teid := 65450 }, { t := 91, length := 22, ins := 0, ebi := 6, sgw_ip := (.V6 ⟨71214264324456448, 0⟩), sgw_s1u_teid := 43775 }], private_ext := [{ t := 255, length := 6, ins := 0, enterprise_id := 0, value := [1, 98, 156, 196] }] } : CreateForwardingTunnelResponse) = [72, 161, 0, 64, 9, 9, 164, 86, 0, 0, 47, 0, 2, 0, 2, 0, 16, 0, 91, 0, 10, 0, 5, 4, 10, 10, 10, 10, 0, 0, 255, 170, 91, 0, 22, 0, 6, 16, 0, 253, 0, 255, 0, 0, 0, 0, 0, 0, 0, 0, 0, 0, 0, 0, 0, 0, 170, 255, 255, 0, 6, 0, 0, 0, 1, 98, 156, 196] := by
  decide +kernel

-- `test_create_indirect_data_fw_tunnel_req_unmarshal` (gtpv2/messages/createindirectdatafwtunnelreq.rs:160)
example : CreateIndirectDataForwardingTunnelRequest.codec.unmarshal .debug [72, 166, 0, 135, 9, 9, 164, 86, 0, 0, 47, 0, 1, 0, 8, 0, 9, 65, 80, 1, 145, 22, 120, 243, 75, 0, 8, 0, 104, 103, 132, 64, 16, 35, 3, 48, 77, 0, 10, 0, 64, 0, 0, 0, 0, 0, 0, 0, 0, 0, 87, 0, 9, 0, 133, 59, 149, 152, 90, 62, 153, 137, 85, 93, 0, 57, 0, 73, 0, 1, 0, 5, 87, 0, 9, 0, 128, 59, 149, 152, 90, 62, 153, 137, 85, 87, 0, 9, 1, 132, 59, 149, 152, 90, 62, 153, 137, 86, 87, 0, 9, 2, 143, 59, 149, 152, 90, 62, 153, 137, 87, 87, 0, 9, 6, 166, 59, 149, 152, 90, 62, 153, 137, 89, 3, 0, 1, 0, 100, 255, 0, 6, 0, 0, 0, 1, 98, 156, 196] = .ok { header := { msgtype := 166, piggyback := false, prio := none, length := 135, teid := (some 151626838), sqn := 47 }, imsi := (some { t := 1, length := 8, ins := 0, imsi := ['9', '0', '1', '4', '0', '5', '1', '0', '1', '9', '6', '1', '8', '7', '3'] }), mei := (some { t := 75, length := 8, ins := 0, mei := ['8', '6', '7', '6', '4', '8', '0', '4', '0', '1', '3', '2', '3', '0', '0', '3'] }), indication := (some { t := 77, length := 10, ins := 0, daf := false, dtf := true, hi := false, dfi := false, oi := false, isrsi := false, israi := false, sgwci := false, sqci := false, uimsi := false, cfsi := false, crsi := false, ps := false, pt := false, si := false, msv := false, retloc := false, pbic := false, srni := false, s6af := false, s4af := false, mbmdt := false, israu := false, ccrsi := false, cprai := false, arrl := false, ppoff := false, ppon := false, ppsi := false, csfbi := false, clii := false, cpsr := false, nsi := false, uasi := false, dtci := false, bdwi := false, psci := false, pcri := false, aosi := false, aopi := false, roaai := false, epcosi := false, cpopci := false, pmtsmi := false, s11tf := false, pnsi := false, unaccsi := false, wpmsi := false, g5snn26 := false, reprefi := false, g5siwki := false, eevrsi := false, ltemui := false, ltempi := false, enbcrsi := false, tspcmi := false, csrmfi := false, mtedtn := false, mtedta := false, n5gnmi := false, g5cnrs := false, g5cnri := false, s5rho := false, ethpdn := false, nspusi := false, pgwrnsi := false, rppcsi := false, pgwchi := false, sissme := false, nsenbi := false, idfupf := false, emci := false, ltemsai := false, srtpi := false, upipsi := false }), fteid_control := (some { t := 87, length := 9, ins := 0, interface := 5, teid := 999659610, ipv4 := (some 1050249557), ipv6 := none }), bearer_ctxs := [{ t := 93, length := 57, ins := 0, ebi := { t := 73, length := 1, ins := 0, value := 5 }, cause := none, tft := none, fteids := [{ t := 87, length := 9, ins := 0, interface := 0, teid := 999659610, ipv4 := (some 1050249557), ipv6 := none }, { t := 87, length := 9, ins := 1, interface := 4, teid := 999659610, ipv4 := (some 1050249558), ipv6 := none }, { t := 87, length := 9, ins := 2, interface := 15, teid := 999659610, ipv4 := (some 1050249559), ipv6 := none }, { t := 87, length := 9, ins := 6, interface := 38, teid := 999659610, ipv4 := (some 1050249561), ipv6 := none }], bearer_qos := none, charging_id := none, bearer_flags := none, pco := none, apco := none, epco := none, max_packet_loss := none, ran_nas_cause := none, bss_container := none, transaction_id := none }], recovery := (some { t := 3, length := 1, ins := 0, recovery := 100 }), private_ext := [{ t := 255, length := 6, ins := 0, enterprise_id := 0, value := [1, 98, 156, 196] }] } := by
  decide +kernel

-- `test_create_indirect_data_fw_tunnel_req_marshal` (gtpv2/messages/createindirectdatafwtunnelreq.rs:266)
example : CreateIndirectDataForwardingTunnelRequest.codec.marshal ({ header := { msgtype := 166, piggyback := false, prio := none, length := 135, teid := (some 151626838), sqn := 47 }, imsi := (some { t := 1, length := 8, ins := 0, imsi := ['9', '0', '1', '4', '0', '5', '1', '0', '1', '9', '6', '1', '8', '7', '3'] }), mei := (some { t := 75, length := 8, ins := 0, mei := ['8', '6', '7', '6', '4', '8', '0', '4', '0', '1', '3', '2', '3', '0', '0', '3'] }), indication := (some { t := 77, length := 10, ins := 0, daf := false, dtf := true, hi := false, dfi := false, oi := false, isrsi := false, israi := false, sgwci := false, sqci := false, uimsi := false, cfsi := false, crsi := false, ps := false, pt := false, si := false, msv := false, retloc := false, pbic := false, srni := false, s6af := false, s4af := false, mbmdt := false, israu := false, ccrsi := false, cprai := false, arrl := false, ppoff := false, ppon := false, ppsi := false, csfbi := false, clii := false, cpsr := false, nsi := false, uasi := false, dtci := false, bdwi := false, psci := false, pcri := false, aosi := false, aopi := false, roaai := false, epcosi := false, cpopci := false, pmtsmi := false, s11tf := false, pnsi := false, unaccsi := false, wpmsi := false, g5snn26 := false, reprefi := false, g5siwki := false, eevrsi := false, ltemui := false, ltempi := false, enbcrsi := false, tspcmi := false, csrmfi := false, mtedtn := false, mtedta := false, n5gnmi := false, g5cnrs := false, g5cnri := false, s5rho := false, ethpdn := false, nspusi := false, pgwrnsi := false, rppcsi := false, pgwchi := false, sissme := false, nsenbi := false, idfupf := false, emci := false, ltemsai := false, srtpi := false, upipsi := false }), fteid_control := (some { t := 87, length := 9, ins := 0, interface := 5, teid := 999659610, ipv4 := (some 1050249557), ipv6 := none }), bearer_ctxs := [{ t := 93, length := 57, ins := 0, ebi := { t := 73, length := 1, ins := 0, value := 5 }, cause := none, tft := none, fteids := [{ t := 87, length := 9, ins := 0, interface := 0, teid := 999659610, ipv4 := (some 1050249557), ipv6 := none }, { t := 87, length := 9, ins := 1, interface := 4, teid := 999659610, ipv4 := (some 1050249558), ipv6 := none }, { t := 87, length := 9, ins := 2, interface := 15, teid := 999659610, ipv4 := (some 1050249559), ipv6 := none }, { t := 87, length := 9, ins := 6, interface := 38, teid := 999659610, ipv4 := (some 1050249561), ipv6 := none }], bearer_qos := none, charging_id := none, bearer_flags := none, pco := none, apco := none, epco := none, max_packet_loss := none, ran_nas_cause := none, bss_container := none, transaction_id := none }], recovery := (some { t := 3, length := 1, ins := 0, recovery := 100 }), private_ext := [{ t := 255, length := 6, ins := 0, enterprise_id := 0, value := [1, 98, 156, 196] }] } : CreateIndirectDataForwardingTunnelRequest) = [72, 166, 0, 135, 9, 9, 164, 86, 0, 0, 47, 0, 1, 0, 8, 0, 9, 65, 80, 1, 145, 22, 120, 243, 75, 0, 8, 0, 104, 103, 132, 64, 16, 35, 3, 48, 77, 0, 10, 0, 64, 0, 0, 0, 0, 0, 0, 0, 0, 0, 87, 0, 9, 0, 133, 59, 149, 152, 90, 62, 153, 137, 85, 93, 0, 57, 0, 73, 0, 1, 0, 5, 87, 0, 9, 0, 128, 59, 149, 152, 90, 62, 153, 137, 85, 87, 0, 9, 1, 132, 59, 149, 152, 90, 62, 153, 137, 86, 87, 0, 9, 2, 143, 59, 149, 152, 90, 62, 153, 137, 87, 87, 0, 9, 6, 166, 59, 149, 152, 90, 62, 153, 137, 89, 3, 0, 1, 0, 100, 255, 0, 6, 0, 0, 0, 1, 98, 156, 196] := by
  decide +kernel

-- `test_create_indirect_data_fw_tunnel_resp_unmarshal` (gtpv2/messages/createindirectdatafwtunnelresp.rs:138)
example : CreateIndirectDataForwardingTunnelResponse.codec.unmarshal .debug [72, 167, 0, 103, 9, 9, 164, 86, 0, 0, 47, 0, 2, 0, 2, 0, 16, 0, 87, 0, 9, 0, 133, 59, 149, 152, 90, 62, 153, 137, 85, 93, 0, 57, 0, 73, 0, 1, 0, 5, 87, 0, 9, 0, 128, 59, 149, 152, 90, 62, 153, 137, 85, 87, 0, 9, 1, 132, 59, 149, 152, 90, 62, 153, 137, 86, 87, 0, 9, 2, 143, 59, 149, 152, 90, 62, 153, 137, 87, 87, 0, 9, 6, 166, 59, 149, 152, 90, 62, 153, 137, 89, 3, 0, 1, 0, 100, 255, 0, 6, 0, 0, 0, 1, 98, 156, 196] = .ok { header := { msgtype := 167, piggyback := false, prio := none, length := 103, teid := (some 151626838), sqn := 47 }, cause := { t := 2, length := 2, ins := 0, value := 16, pce := false, bce := false, cs := false, offend_ie_type := none }, fteid_control := (some { t := 87, length := 9, ins := 0, interface := 5, teid := 999659610, ipv4 := (some 1050249557), ipv6 := none }), bearer_ctxs := [{ t := 93, length := 57, ins := 0, ebi := { t := 73, length := 1, ins := 0, value := 5 }, cause := none, tft := none, fteids := [{ t := 87, length := 9, ins := 0, interface := 0, teid := 999659610, ipv4 := (some 1050249557), ipv6 := none }, { t := 87, length := 9, ins := 1, interface := 4, teid := 999659610, ipv4 := (some 1050249558), ipv6 := none }, { t := 87, length := 9, ins := 2, interface := 15, teid := 999659610, ipv4 := (some 1050249559), ipv6 := none }, { t := 87, length := 9, ins := 6, interface := 38, teid := 999659610, ipv4 := (some 1050249561), ipv6 := none }], bearer_qos := none, charging_id := none, bearer_flags := none, pco := none, apco := none, epco := none, max_packet_loss := none, ran_nas_cause := none, bss_container := none, transaction_id := none }], recovery := (some { t := 3, length := 1, ins := 0, recovery := 100 }), private_ext := [{ t := 255, length := 6, ins := 0, enterprise_id := 0, value := [1, 98, 156, 196] }] } := by
  decide +kernel

-- `test_create_indirect_data_fw_tunnel_resp_marshal` (gtpv2/messages/createindirectdatafwtunnelresp.rs:233)
example : CreateIndirectDataForwardingTunnelResponse.codec.marshal ({ header := { msgtype := 167, piggyback := false, prio := none, length := 103, teid := (some 151626838), sqn := 47 }, cause := { t := 2, length := 2, ins := 0, value := 16, pce := false, bce := false, cs := false, offend_ie_type := none }, fteid_control := (some { t := 87, length := 9, ins := 0, interface := 5, teid := 999659610, ipv4 := (some 1050249557), ipv6 := none }), bearer_ctxs := [{ t := 93, length := 57, ins := 0, ebi := { t := 73, length := 1, ins := 0, value := 5 }, cause := none, tft := none, fteids := [{ t := 87, length := 9, ins := 0, interface := 0, teid := 999659610, ipv4 := (some 1050249557), ipv6 := none }, { t := 87, length := 9, ins := 1, interface := 4, teid := 999659610, ipv4 := (some 1050249558), ipv6 := none }, { t := 87, length := 9, ins := 2, interface := 15, teid := 999659610, ipv4 := (some 1050249559), ipv6 := none }, { t := 87, length := 9, ins := 6, interface := 38, teid := 999659610, ipv4 := (some 1050249561), ipv6 := none }], bearer_qos := none, charging_id := none, bearer_flags := none, pco := none, apco := none, epco := none, max_packet_loss := none, ran_nas_cause := none, bss_container := none, transaction_id := none }], recovery := (some { t := 3, length := 1, ins := 0, recovery := 100 }), private_ext := [{ t := 255, length := 6, ins := 0, enterprise_id := 0, value := [1, 98, 156, 196] }] } : CreateIndirectDataForwardingTunnelResponse) = [72, 167, 0, 103, 9, 9, 164, 86, 0, 0, 47, 0, 2, 0, 2, 0, 16, 0, 87, 0, 9, 0, 133, 59, 149, 152, 90, 62, 153, 137, 85, 93, 0, 57, 0, 73, 0, 1, 0, 5, 87, 0, 9, 0, 128, 59, 149, 152, 90, 62, 153, 137, 85, 87, 0, 9, 1, 132, 59, 149, 152, 90, 62, 153, 137, 86, 87, 0, 9, 2, 143, 59, 149, 152, 90, 62, 153, 137, 87, 87, 0, 9, 6, 166, 59, 149, 152, 90, 62, 153, 137, 89, 3, 0, 1, 0, 100, 255, 0, 6, 0, 0, 0, 1, 98, 156, 196] := by
  decide +kernel

-- `test_create_session_req_unmarshal` (gtpv2/messages/createsessionreq.rs:735)
example : CreateSessionRequest.codec.unmarshal .debug [72, 32, 1, 6, 0, 0, 0, 0, 0, 0, 104, 0, 1, 0, 8, 0, 9, 65, 80, 1, 1, 55, 120, 244, 76, 0, 8, 0, 136, 34, 88, 1, 1, 55, 120, 244, 75, 0, 8, 0, 104, 16, 89, 80, 70, 83, 24, 112, 86, 0, 13, 0, 24, 98, 242, 16, 11, 217, 98, 242, 16, 1, 186, 64, 2, 83, 0, 3, 0, 98, 242, 16, 82, 0, 1, 0, 6, 87, 0, 9, 0, 134, 6, 209, 130, 76, 193, 254, 139, 45, 71, 0, 32, 0, 3, 105, 111, 116, 4, 49, 110, 99, 101, 3, 110, 101, 116, 6, 109, 110, 99, 48, 52, 48, 6, 109, 99, 99, 57, 48, 49, 4, 103, 112, 114, 115, 128, 0, 1, 0, 0, 99, 0, 1, 0, 1, 79, 0, 5, 0, 1, 0, 0, 0, 0, 127, 0, 1, 0, 0, 72, 0, 8, 0, 0, 0, 3, 232, 0, 0, 3, 232, 78, 0, 35, 0, 128, 128, 33, 16, 1, 0, 0, 16, 129, 6, 0, 0, 0, 0, 131, 6, 0, 0, 0, 0, 0, 13, 0, 0, 3, 0, 0, 10, 0, 0, 5, 0, 0, 16, 0, 93, 0, 44, 0, 73, 0, 1, 0, 5, 87, 0, 9, 2, 132, 6, 209, 130, 76, 193, 254, 139, 45, 80, 0, 22, 0, 108, 9, 0, 0, 0, 0, 0, 0, 0, 0, 0, 0, 0, 0, 0, 0, 0, 0, 0, 0, 0, 0, 3, 0, 1, 0, 187, 114, 0, 2, 0, 2, 1, 95, 0, 2, 0, 8, 0] = .ok { header := { msgtype := 32, piggyback := false, prio := none, length := 262, teid := (some 0), sqn := 104 }, imsi := (some { t := 1, length := 8, ins := 0, imsi := ['9', '0', '1', '4', '0', '5', '1', '0', '1', '0', '7', '3', '8', '7', '4'] }), msisdn := (some { t := 76, length := 8, ins := 0, msisdn := ['8', '8', '2', '2', '8', '5', '1', '0', '1', '0', '7', '3', '8', '7', '4'] }), mei := (some { t := 75, length := 8, ins := 0, mei := ['8', '6', '0', '1', '9', '5', '0', '5', '6', '4', '3', '5', '8', '1', '0', '7'] }), uli := (some { t := 86, length := 13, ins := 0, loc := [(.Tai { mcc := 262, mnc := 1, mnc_is_three_digits := false, tac := 3033 }), (.Ecgi { mcc := 262, mnc := 1, mnc_is_three_digits := false, eci := 28983298 })] }), servingnetwork := (some { t := 83, length := 3, ins := 0, mcc := 262, mnc := 1, mnc_is_three_digits := false }), rattype := { t := 82, length := 1, ins := 0, rat_type := .Eutran }, indication := none, fteid_control := { t := 87, length := 9, ins := 0, interface := 6, teid := 114393676, ipv4 := (some 3254684461), ipv6 := none }, pgw_addr_control := none, apn := { t := 71, length := 32, ins := 0, name := ['i', 'o', 't', '.', '1', 'n', 'c', 'e', '.', 'n', 'e', 't', '.', 'm', 'n', 'c', '0', '4', '0', '.', 'm', 'c', 'c', '9', '0', '1', '.', 'g', 'p', 'r', 's'] }, selectionmode := (some { t := 128, length := 1, ins := 0, mode := 0 }), pdntype := (some { t := 99, length := 1, ins := 0, pdn_type := .Ipv4 }), paa := (some { t := 79, length := 5, ins := 0, ip := (.V4 0) }), max_apnrestriction := (some { t := 127, length := 1, ins := 0, restriction_type := .NoApnRestriction }), apnambr := (some { t := 72, length := 8, ins := 0, ambr_ul := 1000, ambr_dl := 1000 }), linked_ebi := none, twmi := none, pco := (some { t := 78, length := 35, ins := 0, pco := [128, 128, 33, 16, 1, 0, 0, 16, 129, 6, 0, 0, 0, 0, 131, 6, 0, 0, 0, 0, 0, 13, 0, 0, 3, 0, 0, 10, 0, 0, 5, 0, 0, 16, 0] }), bearer_ctxs := [{ t := 93, length := 44, ins := 0, ebi := { t := 73, length := 1, ins := 0, value := 5 }, cause := none, tft := none, fteids := [{ t := 87, length := 9, ins := 2, interface := 4, teid := 114393676, ipv4 := (some 3254684461), ipv6 := none }], bearer_qos := (some { t := 80, length := 22, ins := 0, pre_emption_vulnerability := 0, priority_level := 11, pre_emption_capability := 1, qci := 9, maxbr_ul := 0, maxbr_dl := 0, gbr_ul := 0, gbr_dl := 0 }), charging_id := none, bearer_flags := none, pco := none, apco := none, epco := none, max_packet_loss := none, ran_nas_cause := none, bss_container := none, transaction_id := none }], traceinfo := none, recovery := (some { t := 3, length := 1, ins := 0, recovery := 187 }), mme_fqcsid := none, sgw_fqcsid := none, epdg_fqcsid := none, twan_fqcsid := none, uetimezone := (some { t := 114, length := 2, ins := 0, time_zone := 2, dst := 1 }), uci := none, chargingchar := (some { t := 95, length := 2, ins := 0, charging_char := 2048 }), ldns := [], spi := none, ue_localip := none, ue_udpport := none, apco := none, henb_localip := none, henb_udpport := none, mme_id := none, twan_id := none, epdg_ip := none, cnose := none, prai := none, overload_info := [], origination_timestamp := none, max_waittime := none, wlan_loc := none, wlan_loc_timestamp := none, nbifom := none, remote_ue_ctx_connected := [], aaaserver_id := none, epco := none, srv_plmn_rate_cntrl := none, mo_exception_data_counter := none, ue_tcpport := none, mapped_ue_usage_type := none, uli_for_sgw := none, sgwu_node := none, secondary_rat_usage_report := [], up_function_selection_flags := none, apn_rate_control_status := none, pscellid := none, private_ext := [] } := by
  decide +kernel

-- `test_create_session_req_marshal` (gtpv2/messages/createsessionreq.rs:959)
example : CreateSessionRequest.codec.marshal ({ header := { msgtype := 32, piggyback := false, prio := none, length := 262, teid := (some 0), sqn := 104 }, imsi := (some { t := 1, length := 8, ins := 0, imsi := ['9', '0', '1', '4', '0', '5', '1', '0', '1', '0', '7', '3', '8', '7', '4'] }), msisdn := (some { t := 76, length := 8, ins := 0, msisdn := ['8', '8', '2', '2', '8', '5', '1', '0', '1', '0', '7', '3', '8', '7', '4'] }), mei := (some { t := 75, length := 8, ins := 0, mei := ['8', '6', '0', '1', '9', '5', '0', '5', '6', '4', '3', '5', '8', '1', '0', '7'] }), uli := (some { t := 86, length := 13, ins := 0, loc := [(.Tai { mcc := 262, mnc := 1, mnc_is_three_digits := false, tac := 3033 }), (.Ecgi { mcc := 262, mnc := 1, mnc_is_three_digits := false, eci := 28983298 })] }), servingnetwork := (some { t := 83, length := 3, ins := 0, mcc := 262, mnc := 1, mnc_is_three_digits := false }), rattype := { t := 82, length := 1, ins := 0, rat_type := .Eutran }, indication := none, fteid_control := { t := 87, length := 9, ins := 0, interface := 6, teid := 114393676, ipv4 := (some 3254684461), ipv6 := none }, pgw_addr_control := none, apn := { t := 71, length := 32, ins := 0, name := ['i', 'o', 't', '.', '1', 'n', 'c', 'e', '.', 'n', 'e', 't', '.', 'm', 'n', 'c', '0', '4', '0', '.', 'm', 'c', 'c', '9', '0', '1', '.', 'g', 'p', 'r', 's'] }, selectionmode := (some { t := 128, length := 1, ins := 0, mode := 0 }), pdntype := (some { t := 99, length := 1, ins := 0, pdn_type := .Ipv4 }), paa := (some { t := 79, length := 5, ins := 0, ip := (.V4 0) }), max_apnrestriction := (some { t := 127, length := 1, ins := 0, restriction_type := .NoApnRestriction }), apnambr := (some { t := 72, length := 8, ins := 0, ambr_ul := 1000, ambr_dl := 1000 }), linked_ebi := none, twmi := none, pco := (some { t := 78, length := 35, ins := 0, pco := [128, 128, 33, 16, 1, 0, 0, 16, 129, 6, 0, 0, 0, 0, 131, 6, 0, 0, 0, 0, 0, 13, 0, 0, 3, 0, 0, 10, 0, 0, 5, 0, 0, 16, 0] }), bearer_ctxs := [{ t := 93, length := 44, ins := 0, ebi := { t := 73, length := 1, ins := 0, value := 5 }, cause := none, tft := none, fteids := [{ t := 87, length := 9, ins := 2, interface := 4, teid := 114393676, ipv4 := (some 3254684461), ipv6 := none }], bearer_qos := (some { t := 80, length := 22, ins := 0, pre_emption_vulnerability := 0, priority_level := 11, pre_emption_capability := 1, qci := 9, maxbr_ul := 0, maxbr_dl := 0, gbr_ul := 0, gbr_dl := 0 }), charging_id := none, bearer_flags := none, pco := none, apco := none, epco := none, max_packet_loss := none, ran_nas_cause := none, bss_container := none, transaction_id := none }], traceinfo := none, recovery := (some { t := 3, length := 1, ins := 0, recovery := 187 }), mme_fqcsid := none, sgw_fqcsid := none, epdg_fqcsid := none, twan_fqcsid := none, uetimezone := (some { t := 114, length := 2, ins := 0, time_zone := 2, dst := 1 }), uci := none, chargingchar := (some { t := 95, length := 2, ins := 0, charging_char := 2048 }), ldns := [], spi := none, ue_localip := none, ue_udpport := none, apco := none, henb_localip := none, henb_udpport := none, mme_id := none, twan_id := none, epdg_ip := none, cnose := none, prai := none, overload_info := [], origination_timestamp := none, max_waittime := none, wlan_loc := none, wlan_loc_timestamp := none, nbifom := none, remote_ue_ctx_connected := [], aaaserver_id := none, epco := none, srv_plmn_rate_cntrl := none, mo_exception_data_counter := none, ue_tcpport := none, mapped_ue_usage_type := none, uli_for_sgw := none, sgwu_node := none, secondary_rat_usage_report := [], up_function_selection_flags := none, apn_rate_control_status := none, pscellid := none, private_ext := [] } : CreateSessionRequest) = [72, 32, 1, 6, 0, 0, 0, 0, 0, 0, 104, 0, 1, 0, 8, 0, 9, 65, 80, 1, 1, 55, 120, 244, 76, 0, 8, 0, 136, 34, 88, 1, 1, 55, 120, 244, 75, 0, 8, 0, 104, 16, 89, 80, 70, 83, 24, 112, 86, 0, 13, 0, 24, 98, 242, 16, 11, 217, 98, 242, 16, 1, 186, 64, 2, 83, 0, 3, 0, 98, 242, 16, 82, 0, 1, 0, 6, 87, 0, 9, 0, 134, 6, 209, 130, 76, 193, 254, 139, 45, 71, 0, 32, 0, 3, 105, 111, 116, 4, 49, 110, 99, 101, 3, 110, 101, 116, 6, 109, 110, 99, 48, 52, 48, 6, 109, 99, 99, 57, 48, 49, 4, 103, 112, 114, 115, 128, 0, 1, 0, 0, 99, 0, 1, 0, 1, 79, 0, 5, 0, 1, 0, 0, 0, 0, 127, 0, 1, 0, 0, 72, 0, 8, 0, 0, 0, 3, 232, 0, 0, 3, 232, 78, 0, 35, 0, 128, 128, 33, 16, 1, 0, 0, 16, 129, 6, 0, 0, 0, 0, 131, 6, 0, 0, 0, 0, 0, 13, 0, 0, 3, 0, 0, 10, 0, 0, 5, 0, 0, 16, 0, 93, 0, 44, 0, 73, 0, 1, 0, 5, 87, 0, 9, 2, 132, 6, 209, 130, 76, 193, 254, 139, 45, 80, 0, 22, 0, 108, 9, 0, 0, 0, 0, 0, 0, 0, 0, 0, 0, 0, 0, 0, 0, 0, 0, 0, 0, 0, 0, 3, 0, 1, 0, 187, 114, 0, 2, 0, 2, 1, 95, 0, 2, 0, 8, 0] := by
  decide +kernel

-- `test_create_session_resp_unmarshal` (gtpv2/messages/createsessionresp.rs:472)
example : CreateSessionResponse.codec.unmarshal .debug [72, 33, 0, 144, 9, 9, 164, 86, 0, 0, 47, 0, 2, 0, 2, 0, 16, 0, 87, 0, 9, 1, 135, 185, 123, 190, 7, 62, 153, 137, 78, 79, 0, 5, 0, 1, 10, 216, 113, 95, 127, 0, 1, 0, 0, 72, 0, 8, 0, 0, 0, 3, 232, 0, 0, 3, 232, 78, 0, 20, 0, 128, 128, 33, 16, 2, 0, 0, 16, 129, 6, 8, 8, 8, 8, 131, 6, 10, 64, 208, 97, 93, 0, 58, 0, 2, 0, 2, 0, 16, 0, 73, 0, 1, 0, 5, 87, 0, 9, 2, 133, 59, 149, 152, 90, 62, 153, 137, 85, 80, 0, 22, 0, 44, 9, 0, 0, 0, 0, 0, 0, 0, 0, 0, 0, 0, 0, 0, 0, 0, 0, 0, 0, 0, 0, 94, 0, 4, 0, 1, 98, 156, 196, 3, 0, 1, 0, 17] = .ok { header := { msgtype := 33, piggyback := false, prio := none, length := 144, teid := (some 151626838), sqn := 47 }, cause := { t := 2, length := 2, ins := 0, value := 16, pce := false, bce := false, cs := false, offend_ie_type := none }, cra := none, csg_ira := none, henb_info_report := none, fteid_control := none, fteid_pgw := (some { t := 87, length := 9, ins := 1, interface := 7, teid := 3111894535, ipv4 := (some 1050249550), ipv6 := none }), paa := (some { t := 79, length := 5, ins := 0, ip := (.V4 181956959) }), apn_restriction := (some { t := 127, length := 1, ins := 0, restriction_type := .NoApnRestriction }), apn_ambr := (some { t := 72, length := 8, ins := 0, ambr_ul := 1000, ambr_dl := 1000 }), linked_ebi := none, pco := (some { t := 78, length := 20, ins := 0, pco := [128, 128, 33, 16, 2, 0, 0, 16, 129, 6, 8, 8, 8, 8, 131, 6, 10, 64, 208, 97] }), bearer_ctxs := [{ t := 93, length := 58, ins := 0, ebi := { t := 73, length := 1, ins := 0, value := 5 }, cause := (some { t := 2, length := 2, ins := 0, value := 16, pce := false, bce := false, cs := false, offend_ie_type := none }), tft := none, fteids := [{ t := 87, length := 9, ins := 2, interface := 5, teid := 999659610, ipv4 := (some 1050249557), ipv6 := none }], bearer_qos := (some { t := 80, length := 22, ins := 0, pre_emption_vulnerability := 0, priority_level := 11, pre_emption_capability := 0, qci := 9, maxbr_ul := 0, maxbr_dl := 0, gbr_ul := 0, gbr_dl := 0 }), charging_id := (some { t := 94, length := 4, ins := 0, charging_id := 23239876 }), bearer_flags := none, pco := none, apco := none, epco := none, max_packet_loss := none, ran_nas_cause := none, bss_container := none, transaction_id := none }], recovery := (some { t := 3, length := 1, ins := 0, recovery := 17 }), charging_gw_name := none, charging_gw_ip := none, pgw_fqcsid := none, sgw_fqcsid := none, sgw_ldn := none, pgw_ldn := none, pgw_backoff_time := none, apco := none, twan_ip_params := none, indication := none, praa := none, load_control := [], overload_info := [], nbifom := none, charging_id := none, epco := none, pgw_node_name := none, sgi_ptp_tunnel_addr := none, pgw_chng_info := none, alt_pgw_smf_fqdn := [], alt_pgw_smf_ip := [], upsp := none, private_ext := [] } := by
  decide +kernel

-- `test_create_session_resp_marshal` (gtpv2/messages/createsessionresp.rs:614)
example : CreateSessionResponse.codec.marshal ({ header := { msgtype := 33, piggyback := false, prio := none, length := 144, teid := (some 151626838), sqn := 47 }, cause := { t := 2, length := 2, ins := 0, value := 16, pce := false, bce := false, cs := false, offend_ie_type := none }, cra := none, csg_ira := none, henb_info_report := none, fteid_control := none, fteid_pgw := (some { t := 87, length := 9, ins := 1, interface := 7, teid := 3111894535, ipv4 := (some 1050249550), ipv6 := none }), paa := (some { t := 79, length := 5, ins := 0, ip := (.V4 181956959) }), apn_restriction := (some { t := 127, length := 1, ins := 0, restriction_type := .NoApnRestriction }), apn_ambr := (some { t := 72, length := 8, ins := 0, ambr_ul := 1000, ambr_dl := 1000 }), linked_ebi := none, pco := (some { t := 78, length := 20, ins := 0, pco := [128, 128, 33, 16, 2, 0, 0, 16, 129, 6, 8, 8, 8, 8, 131, 6, 10, 64, 208, 97] }), bearer_ctxs := [{ t := 93, length := 58, ins := 0, ebi := { t := 73, length := 1, ins := 0, value := 5 }, cause := (some { t := 2, length := 2, ins := 0, value := 16, pce := false, bce := false, cs := false, offend_ie_type := none }), tft := none, fteids := [{ t := 87, length := 9, ins := 2, interface := 5, teid := 999659610, ipv4 := (some 1050249557), ipv6 := none }], bearer_qos := (some { t := 80, length := 22, ins := 0, pre_emption_vulnerability := 0, priority_level := 11, pre_emption_capability := 0, qci := 9, maxbr_ul := 0, maxbr_dl := 0, gbr_ul := 0, gbr_dl := 0 }), charging_id := (some { t := 94, length := 4, ins := 0, charging_id := 23239876 }), bearer_flags := none, pco := none, apco := none, epco := none, max_packet_loss := none, ran_nas_cause := none, bss_container := none, transaction_id := none }], recovery := (some { t := 3, length := 1, ins := 0, recovery := 17 }), charging_gw_name := none, charging_gw_ip := none, pgw_fqcsid := none, sgw_fqcsid := none, sgw_ldn := none, pgw_ldn := none, pgw_backoff_time := none, apco := none, twan_ip_params := none, indication := none, praa := none, load_control := [], overload_info := [], nbifom := none, charging_id := none, epco := none, pgw_node_name := none, sgi_ptp_tunnel_addr := none, pgw_chng_info := none, alt_pgw_smf_fqdn := [], alt_pgw_smf_ip := [], upsp := none, private_ext := [] } : CreateSessionResponse) = [72, 33, 0, 144, 9, 9, 164, 86, 0, 0, 47, 0, 2, 0, 2, 0, 16, 0, 87, 0, 9, 1, 135, 185, 123, 190, 7, 62, 153, 137, 78, 79, 0, 5, 0, 1, 10, 216, 113, 95, 127, 0, 1, 0, 0, 72, 0, 8, 0, 0, 0, 3, 232, 0, 0, 3, 232, 78, 0, 20, 0, 128, 128, 33, 16, 2, 0, 0, 16, 129, 6, 8, 8, 8, 8, 131, 6, 10, 64, 208, 97, 93, 0, 58, 0, 2, 0, 2, 0, 16, 0, 73, 0, 1, 0, 5, 87, 0, 9, 2, 133, 59, 149, 152, 90, 62, 153, 137, 85, 80, 0, 22, 0, 44, 9, 0, 0, 0, 0, 0, 0, 0, 0, 0, 0, 0, 0, 0, 0, 0, 0, 0, 0, 0, 0, 94, 0, 4, 0, 1, 98, 156, 196, 3, 0, 1, 0, 17] := by
  decide +kernel

-- `test_cs_paging_indication_unmarshal` (gtpv2/messages/cspagingindication.rs:176)
example : CsPagingIndication.codec.unmarshal .debug [72, 151, 0, 126, 164, 120, 149, 128, 75, 41, 30, 0, 1, 0, 8, 0, 153, 65, 85, 1, 145, 22, 120, 243, 136, 0, 53, 0, 5, 116, 111, 112, 111, 110, 5, 110, 111, 100, 101, 115, 3, 109, 115, 99, 2, 115, 101, 3, 101, 112, 99, 5, 109, 110, 99, 48, 53, 6, 109, 99, 99, 50, 51, 52, 11, 51, 103, 112, 112, 110, 101, 116, 119, 111, 114, 107, 3, 111, 114, 103, 0, 88, 0, 4, 0, 62, 107, 88, 94, 86, 0, 13, 0, 24, 66, 247, 16, 171, 234, 66, 247, 16, 0, 42, 70, 16, 89, 0, 5, 0, 153, 249, 16, 15, 160, 133, 0, 1, 0, 255, 134, 0, 1, 0, 0, 149, 0, 1, 0, 2] = .ok { header := { msgtype := 151, piggyback := false, prio := none, length := 126, teid := (some 2759366016), sqn := 4925726 }, imsi := { t := 1, length := 8, ins := 0, imsi := ['9', '9', '1', '4', '5', '5', '1', '0', '1', '9', '6', '1', '8', '7', '3'] }, vlr := { t := 136, length := 53, ins := 0, name := ['t', 'o', 'p', 'o', 'n', '.', 'n', 'o', 'd', 'e', 's', '.', 'm', 's', 'c', '.', 's', 'e', '.', 'e', 'p', 'c', '.', 'm', 'n', 'c', '0', '5', '.', 'm', 'c', 'c', '2', '3', '4', '.', '3', 'g', 'p', 'p', 'n', 'e', 't', 'w', 'o', 'r', 'k', '.', 'o', 'r', 'g', '.'] }, tmsi := (some { t := 88, length := 4, ins := 0, tmsi := 1047222366 }), lai := (some { t := 86, length := 13, ins := 0, loc := [(.Tai { mcc := 247, mnc := 1, mnc_is_three_digits := false, tac := 44010 }), (.Ecgi { mcc := 247, mnc := 1, mnc_is_three_digits := false, eci := 2770448 })] }), global_cnid := (some { t := 89, length := 5, ins := 0, mcc := 999, mnc := 1, mnc_is_three_digits := false, cnid := 4000 }), channel_needed := (some { t := 133, length := 1, ins := 0, chnl_needed := 255 }), emlpp_prio := (some { t := 134, length := 1, ins := 0, priority := 0 }), service_indicator := (some { t := 149, length := 1, ins := 0, indicator := .SmsIndicator }), private_ext := [] } := by
  decide +kernel

-- `test_cs_paging_indication_marshal` (gtpv2/messages/cspagingindication.rs:256)
example : CsPagingIndication.codec.marshal ({ header := { msgtype := 151, piggyback := false, prio := none, length := 126, teid := (some 2759366016), sqn := 4925726 }, imsi := { t := 1, length := 8, ins := 0, imsi := ['9', '9', '1', '4', '5', '5', '1', '0', '1', '9', '6', '1', '8', '7', '3'] }, vlr := { t := 136, length := 53, ins := 0, name := ['t', 'o', 'p', 'o', 'n', '.', 'n', 'o', 'd', 'e', 's', '.', 'm', 's', 'c', '.', 's', 'e', '.', 'e', 'p', 'c', '.', 'm', 'n', 'c', '0', '5', '.', 'm', 'c', 'c', '2', '3', '4', '.', '3', 'g', 'p', 'p', 'n', 'e', 't', 'w', 'o', 'r', 'k', '.', 'o', 'r', 'g', '.'] }, tmsi := (some { t := 88, length := 4, ins := 0, tmsi := 1047222366 }), lai := (some { t := 86, length := 13, ins := 0, loc := [(.Tai { mcc := 247, mnc := 1, mnc_is_three_digits := false, tac := 44010 }), (.Ecgi { mcc := 247, mnc := 1, mnc_is_three_digits := false, eci := 2770448 })] }), global_cnid := (some { t := 89, length := 5, ins := 0, mcc := 999, mnc := 1, mnc_is_three_digits := false, cnid := 4000 }), channel_needed := (some { t := 133, length := 1, ins := 0, chnl_needed := 255 }), emlpp_prio := (some { t := 134, length := 1, ins := 0, priority := 0 }), service_indicator := (some { t := 149, length := 1, ins := 0, indicator := .SmsIndicator }), private_ext := [] } : CsPagingIndication) = [72, 151, 0, 126, 164, 120, 149, 128, 75, 41, 30, 0, 1, 0, 8, 0, 153, 65, 85, 1, 145, 22, 120, 243, 136, 0, 53, 0, 5, 116, 111, 112, 111, 110, 5, 110, 111, 100, 101, 115, 3, 109, 115, 99, 2, 115, 101, 3, 101, 112, 99, 5, 109, 110, 99, 48, 53, 6, 109, 99, 99, 50, 51, 52, 11, 51, 103, 112, 112, 110, 101, 116, 119, 111, 114, 107, 3, 111, 114, 103, 0, 88, 0, 4, 0, 62, 107, 88, 94, 86, 0, 13, 0, 24, 66, 247, 16, 171, 234, 66, 247, 16, 0, 42, 70, 16, 89, 0, 5, 0, 153, 249, 16, 15, 160, 133, 0, 1, 0, 255, 134, 0, 1, 0, 0, 149, 0, 1, 0, 2] := by
  decide +kernel

-- `test_delete_bearer_cmd_unmarshal` (gtpv2/messages/deletebearercommand.rs:181)
example : DeleteBearerCommand.codec.unmarshal .debug [72, 66, 0, 152, 230, 77, 164, 239, 38, 0, 46, 0, 93, 0, 34, 0, 73, 0, 1, 0, 5, 87, 0, 25, 1, 196, 35, 237, 56, 37, 217, 171, 141, 243, 42, 4, 74, 69, 0, 4, 0, 0, 0, 0, 0, 0, 0, 0, 0, 40, 86, 0, 13, 0, 24, 50, 244, 2, 13, 89, 50, 244, 2, 0, 197, 88, 2, 114, 0, 2, 0, 0, 0, 180, 0, 18, 0, 183, 0, 4, 0, 255, 170, 238, 17, 182, 0, 1, 0, 96, 156, 0, 1, 0, 127, 180, 0, 18, 1, 183, 0, 4, 0, 255, 170, 238, 34, 182, 0, 1, 0, 96, 156, 0, 1, 0, 126, 87, 0, 25, 0, 198, 35, 237, 56, 32, 217, 171, 141, 242, 42, 4, 74, 69, 0, 4, 0, 0, 0, 0, 0, 0, 0, 0, 0, 39, 255, 0, 6, 0, 7, 219, 7, 0, 1, 0] = .ok { header := { msgtype := 66, piggyback := false, prio := none, length := 152, teid := (some 3863848175), sqn := 2490414 }, bearer_ctxs := [{ t := 93, length := 34, ins := 0, ebi := { t := 73, length := 1, ins := 0, value := 5 }, cause := none, tft := none, fteids := [{ t := 87, length := 25, ins := 1, interface := 4, teid := 602748965, ipv4 := (some 3651898867), ipv6 := (some ⟨3027626509713276928, 40⟩) }], bearer_qos := none, charging_id := none, bearer_flags := none, pco := none, apco := none, epco := none, max_packet_loss := none, ran_nas_cause := none, bss_container := none, transaction_id := none }], uli := (some { t := 86, length := 13, ins := 0, loc := [(.Tai { mcc := 234, mnc := 20, mnc_is_three_digits := false, tac := 3417 }), (.Ecgi { mcc := 234, mnc := 20, mnc_is_three_digits := false, eci := 12933122 })] }), uli_timestamp := none, uetimezone := (some { t := 114, length := 2, ins := 0, time_zone := 0, dst := 0 }), overload_info := [{ t := 180, length := 18, ins := 0, sqn := { t := 183, length := 4, ins := 0, sqn := 4289392145 }, metric := { t := 182, length := 1, ins := 0, metric := 96 }, validity := { t := 156, length := 1, ins := 0, timer_unit := 3, timer_value := 31 }, list := none }, { t := 180, length := 18, ins := 1, sqn := { t := 183, length := 4, ins := 0, sqn := 4289392162 }, metric := { t := 182, length := 1, ins := 0, metric := 96 }, validity := { t := 156, length := 1, ins := 0, timer_unit := 3, timer_value := 30 }, list := none }], fteid_control := (some { t := 87, length := 25, ins := 0, interface := 6, teid := 602748960, ipv4 := (some 3651898866), ipv6 := (some ⟨3027626509713276928, 39⟩) }), secondary_rat_usage_report := [], pscellid := none, private_ext := [{ t := 255, length := 6, ins := 0, enterprise_id := 2011, value := [7, 0, 1, 0] }] } := by
  decide +kernel

-- `test_delete_bearer_cmd_marshal` (gtpv2/messages/deletebearercommand.rs:337)
example : DeleteBearerCommand.codec.marshal ({ header := { msgtype := 66, piggyback := false, prio := none, length := 152, teid := (some 3863848175), sqn := 2490414 }, bearer_ctxs := [{ t := 93, length := 34, ins := 0, ebi := { t := 73, length := 1, ins := 0, value := 5 }, cause := none, tft := none, fteids := [{ t := 87, length := 25, ins := 1, interface := 4, teid := 602748965, ipv4 := (some 3651898867), ipv6 := (some ⟨3027626509713276928, 40⟩) }], bearer_qos := none, charging_id := none, bearer_flags := none, pco := none, apco := none, epco := none, max_packet_loss := none, ran_nas_cause := none, bss_container := none, transaction_id := none }], uli := (some { t := 86, length := 13, ins := 0, loc := [(.Tai { mcc := 234, mnc := 20, mnc_is_three_digits := false, tac := 3417 }), (.Ecgi { mcc := 234, mnc := 20, mnc_is_three_digits := false, eci := 12933122 })] }), uli_timestamp := none, uetimezone := (some { t := 114, length := 2, ins := 0, time_zone := 0, dst := 0 }), overload_info := [{ t := 180, length := 18, ins := 0, sqn := { t := 183, length := 4, ins := 0, sqn := 4289392145 }, metric := { t := 182, length := 1, ins := 0, metric := 96 }, validity := { t := 156, length := 1, ins := 0, timer_unit := 3, timer_value := 31 }, list := none }, { t := 180, length := 18, ins := 1, sqn := { t := 183, length := 4, ins := 0, sqn := 4289392162 }, metric := { t := 182, length := 1, ins := 0, metric := 96 }, validity := { t := 156, length := 1, ins := 0, timer_unit := 3, timer_value := 30 }, list := none }], fteid_control := (some { t := 87, length := 25, ins := 0, interface := 6, teid := 602748960, ipv4 := (some 3651898866), ipv6 := (some ⟨3027626509713276928, 39⟩) }), secondary_rat_usage_report := [], pscellid := none, private_ext := [{ t := 255, length := 6, ins := 0, enterprise_id := 2011, value := [7, 0, 1, 0] }] } : DeleteBearerCommand) = [72, 66, 0, 152, 230, 77, 164, 239, 38, 0, 46, 0, 93, 0, 34, 0, 73, 0, 1, 0, 5, 87, 0, 25, 1, 196, 35, 237, 56, 37, 217, 171, 141, 243, 42, 4, 74, 69, 0, 4, 0, 0, 0, 0, 0, 0, 0, 0, 0, 40, 86, 0, 13, 0, 24, 50, 244, 2, 13, 89, 50, 244, 2, 0, 197, 88, 2, 114, 0, 2, 0, 0, 0, 180, 0, 18, 0, 183, 0, 4, 0, 255, 170, 238, 17, 182, 0, 1, 0, 96, 156, 0, 1, 0, 127, 180, 0, 18, 1, 183, 0, 4, 0, 255, 170, 238, 34, 182, 0, 1, 0, 96, 156, 0, 1, 0, 126, 87, 0, 25, 0, 198, 35, 237, 56, 32, 217, 171, 141, 242, 42, 4, 74, 69, 0, 4, 0, 0, 0, 0, 0, 0, 0, 0, 0, 39, 255, 0, 6, 0, 7, 219, 7, 0, 1, 0] := by
  decide +kernel

-- `test_delete_bearer_failure_ind_unmarshal` (gtpv2/messages/deletebearerfailureind.rs:147)
example : DeleteBearerFailureInd.codec.unmarshal .debug [72, 67, 0, 73, 0, 0, 0, 0, 0, 0, 104, 0, 2, 0, 2, 0, 77, 0, 93, 0, 11, 0, 2, 0, 2, 0, 77, 0, 73, 0, 1, 0, 5, 180, 0, 18, 0, 183, 0, 4, 0, 255, 170, 238, 17, 182, 0, 1, 0, 96, 156, 0, 1, 0, 127, 180, 0, 18, 1, 183, 0, 4, 0, 255, 170, 238, 34, 182, 0, 1, 0, 96, 156, 0, 1, 0, 126] = .ok { header := { msgtype := 67, piggyback := false, prio := none, length := 73, teid := (some 0), sqn := 104 }, cause := { t := 2, length := 2, ins := 0, value := 77, pce := false, bce := false, cs := false, offend_ie_type := none }, bearer_ctxs := [{ t := 93, length := 11, ins := 0, ebi := { t := 73, length := 1, ins := 0, value := 5 }, cause := (some { t := 2, length := 2, ins := 0, value := 77, pce := false, bce := false, cs := false, offend_ie_type := none }), tft := none, fteids := [], bearer_qos := none, charging_id := none, bearer_flags := none, pco := none, apco := none, epco := none, max_packet_loss := none, ran_nas_cause := none, bss_container := none, transaction_id := none }], recovery := none, indication := none, overload_info := [{ t := 180, length := 18, ins := 0, sqn := { t := 183, length := 4, ins := 0, sqn := 4289392145 }, metric := { t := 182, length := 1, ins := 0, metric := 96 }, validity := { t := 156, length := 1, ins := 0, timer_unit := 3, timer_value := 31 }, list := none }, { t := 180, length := 18, ins := 1, sqn := { t := 183, length := 4, ins := 0, sqn := 4289392162 }, metric := { t := 182, length := 1, ins := 0, metric := 96 }, validity := { t := 156, length := 1, ins := 0, timer_unit := 3, timer_value := 30 }, list := none }], private_ext := [] } := by
  decide +kernel

-- `test_delete_bearer_failure_ind_marshal` (gtpv2/messages/deletebearerfailureind.rs:266)
example : DeleteBearerFailureInd.codec.marshal ({ header := { msgtype := 67, piggyback := false, prio := none, length := 73, teid := (some 0), sqn := 104 }, cause := { t := 2, length := 2, ins := 0, value := 77, pce := false, bce := false, cs := false, offend_ie_type := none }, bearer_ctxs := [{ t := 93, length := 11, ins := 0, ebi := { t := 73, length := 1, ins := 0, value := 5 }, cause := (some { t := 2, length := 2, ins := 0, value := 77, pce := false, bce := false, cs := false, offend_ie_type := none }), tft := none, fteids := [], bearer_qos := none, charging_id := none, bearer_flags := none, pco := none, apco := none, epco := none, max_packet_loss := none, ran_nas_cause := none, bss_container := none, transaction_id := none }], recovery := none, indication := none, overload_info := [{ t := 180, length := 18, ins := 0, sqn := { t := 183, length := 4, ins := 0, sqn := 4289392145 }, metric := { t := 182, length := 1, ins := 0, metric := 96 }, validity := { t := 156, length := 1, ins := 0, timer_unit := 3, timer_value := 31 }, list := none }, { t := 180, length := 18, ins := 1, sqn := { t := 183, length := 4, ins := 0, sqn := 4289392162 }, metric := { t := 182, length := 1, ins := 0, metric := 96 }, validity := { t := 156, length := 1, ins := 0, timer_unit := 3, timer_value := 30 }, list := none }], private_ext := [] } : DeleteBearerFailureInd) = [72, 67, 0, 73, 0, 0, 0, 0, 0, 0, 104, 0, 2, 0, 2, 0, 77, 0, 93, 0, 11, 0, 2, 0, 2, 0, 77, 0, 73, 0, 1, 0, 5, 180, 0, 18, 0, 183, 0, 4, 0, 255, 170, 238, 17, 182, 0, 1, 0, 96, 156, 0, 1, 0, 127, 180, 0, 18, 1, 183, 0, 4, 0, 255, 170, 238, 34, 182, 0, 1, 0, 96, 156, 0, 1, 0, 126] := by
  decide +kernel

-- `test_delete_bearer_req_unmarshal` (gtpv2/messages/deletebearerreq.rs:261)
example : DeleteBearerRequest.codec.unmarshal .debug [72, 99, 0, 39, 164, 120, 149, 128, 75, 41, 30, 0, 73, 0, 1, 0, 5, 93, 0, 11, 0, 2, 0, 2, 0, 8, 0, 73, 0, 1, 0, 5, 100, 0, 1, 0, 250, 2, 0, 2, 0, 8, 0] = .ok { header := { msgtype := 99, piggyback := false, prio := none, length := 39, teid := (some 2759366016), sqn := 4925726 }, linked_ebi := (some { t := 73, length := 1, ins := 0, value := 5 }), ebi := none, bearer_ctxs := [{ t := 93, length := 11, ins := 0, ebi := { t := 73, length := 1, ins := 0, value := 5 }, cause := (some { t := 2, length := 2, ins := 0, value := 8, pce := false, bce := false, cs := false, offend_ie_type := none }), tft := none, fteids := [], bearer_qos := none, charging_id := none, bearer_flags := none, pco := none, apco := none, epco := none, max_packet_loss := none, ran_nas_cause := none, bss_container := none, transaction_id := none }], pti := (some { t := 100, length := 1, ins := 0, pti := 250 }), pco := none, pgw_fqcsid := none, sgw_fqcsid := none, cause := (some { t := 2, length := 2, ins := 0, value := 8, pce := false, bce := false, cs := false, offend_ie_type := none }), indication := none, load_control := [], overload_info := [], nbifom := none, apn_rate_control_status := none, epco := none, pgw_change_info := [], fteid_control := none, private_ext := [] } := by
  decide +kernel

-- `test_delete_bearer_req_marshal` (gtpv2/messages/deletebearerreq.rs:337)
example : DeleteBearerRequest.codec.marshal ({ header := { msgtype := 99, piggyback := false, prio := none, length := 39, teid := (some 2759366016), sqn := 4925726 }, linked_ebi := (some { t := 73, length := 1, ins := 0, value := 5 }), ebi := none, bearer_ctxs := [{ t := 93, length := 11, ins := 0, ebi := { t := 73, length := 1, ins := 0, value := 5 }, cause := (some { t := 2, length := 2, ins := 0, value := 8, pce := false, bce := false, cs := false, offend_ie_type := none }), tft := none, fteids := [], bearer_qos := none, charging_id := none, bearer_flags := none, pco := none, apco := none, epco := none, max_packet_loss := none, ran_nas_cause := none, bss_container := none, transaction_id := none }], pti := (some { t := 100, length := 1, ins := 0, pti := 250 }), pco := none, pgw_fqcsid := none, sgw_fqcsid := none, cause := (some { t := 2, length := 2, ins := 0, value := 8, pce := false, bce := false, cs := false, offend_ie_type := none }), indication := none, load_control := [], overload_info := [], nbifom := none, apn_rate_control_status := none, epco := none, pgw_change_info := [], fteid_control := none, private_ext := [] } : DeleteBearerRequest) = [72, 99, 0, 39, 164, 120, 149, 128, 75, 41, 30, 0, 73, 0, 1, 0, 5, 93, 0, 11, 0, 2, 0, 2, 0, 8, 0, 73, 0, 1, 0, 5, 100, 0, 1, 0, 250, 2, 0, 2, 0, 8, 0] := by
  decide +kernel

-- `test_delete_bearer_resp_unmarshal` (gtpv2/messages/deletebearerresp.rs:325)
example : DeleteBearerResponse.codec.unmarshal .debug [72, 100, 0, 50, 120, 125, 175, 60, 27, 122, 174, 0, 2, 0, 2, 0, 16, 0, 73, 0, 1, 0, 5, 114, 0, 2, 0, 2, 0, 86, 0, 13, 0, 24, 66, 247, 16, 171, 234, 66, 247, 16, 0, 42, 70, 16, 170, 0, 4, 0, 229, 206, 119, 239] = .ok { header := { msgtype := 100, piggyback := false, prio := none, length := 50, teid := (some 2021502780), sqn := 1800878 }, cause := { t := 2, length := 2, ins := 0, value := 16, pce := false, bce := false, cs := false, offend_ie_type := none }, linked_ebi := (some { t := 73, length := 1, ins := 0, value := 5 }), bearer_ctxs := [], recovery := none, mme_fqcsid := none, sgw_fqcsid := none, epdg_fqcsid := none, twan_fqcsid := none, pco := none, uetimezone := (some { t := 114, length := 2, ins := 0, time_zone := 2, dst := 0 }), uli := (some { t := 86, length := 13, ins := 0, loc := [(.Tai { mcc := 247, mnc := 1, mnc_is_three_digits := false, tac := 44010 }), (.Ecgi { mcc := 247, mnc := 1, mnc_is_three_digits := false, eci := 2770448 })] }), uli_timestamp := (some { t := 170, length := 4, ins := 0, timestamp := 3855513583 }), twan_id := none, twan_id_timestamp := none, overload_info := [], ip := none, wlan_loc := none, wlan_loc_timestamp := none, ue_udpport := none, nbifom := none, ue_tcpport := none, secondary_rat_usage_report := [], pscellid := none, private_ext := [] } := by
  decide +kernel

-- `test_delete_bearer_resp_marshal` (gtpv2/messages/deletebearerresp.rs:397)
example : DeleteBearerResponse.codec.marshal ({ header := { msgtype := 100, piggyback := false, prio := none, length := 50, teid := (some 2021502780), sqn := 1800878 }, cause := { t := 2, length := 2, ins := 0, value := 16, pce := false, bce := false, cs := false, offend_ie_type := none }, linked_ebi := (some { t := 73, length := 1, ins := 0, value := 5 }), bearer_ctxs := [], recovery := none, mme_fqcsid := none, sgw_fqcsid := none, epdg_fqcsid := none, twan_fqcsid := none, pco := none, uetimezone := (some { t := 114, length := 2, ins := 0, time_zone := 2, dst := 0 }), uli := (some { t := 86, length := 13, ins := 0, loc := [(.Tai { mcc := 247, mnc := 1, mnc_is_three_digits := false, tac := 44010 }), (.Ecgi { mcc := 247, mnc := 1, mnc_is_three_digits := false, eci := 2770448 })] }), uli_timestamp := (some { t := 170, length := 4, ins := 0, timestamp := 3855513583 }), twan_id := none, twan_id_timestamp := none, overload_info := [], ip := none, wlan_loc := none, wlan_loc_timestamp := none, ue_udpport := none, nbifom := none, ue_tcpport := none, secondary_rat_usage_report := [], pscellid := none, private_ext := [] } : DeleteBearerResponse) = [72, 100, 0, 50, 120, 125, 175, 60, 27, 122, 174, 0, 2, 0, 2, 0, 16, 0, 73, 0, 1, 0, 5, 114, 0, 2, 0, 2, 0, 86, 0, 13, 0, 24, 66, 247, 16, 171, 234, 66, 247, 16, 0, 42, 70, 16, 170, 0, 4, 0, 229, 206, 119, 239] := by
  decide +kernel

-- `test_delete_indirect_data_fw_tunnel_req_unmarshal` (gtpv2/messages/deleteindirectdatafwtunnelreq.rs:87)
example : DeleteIndirectDataForwardingTunnelRequest.codec.unmarshal .debug [72, 168, 0, 18, 9, 9, 164, 86, 0, 0, 47, 0, 255, 0, 6, 0, 0, 0, 1, 98, 156, 196] = .ok { header := { msgtype := 168, piggyback := false, prio := none, length := 18, teid := (some 151626838), sqn := 47 }, private_ext := [{ t := 255, length := 6, ins := 0, enterprise_id := 0, value := [1, 98, 156, 196] }] } := by
  decide +kernel

-- `test_delete_indirect_data_fw_tunnel_req_marshal` (gtpv2/messages/deleteindirectdatafwtunnelreq.rs:112)
example : DeleteIndirectDataForwardingTunnelRequest.codec.marshal ({ header := { msgtype := 168, piggyback := false, prio := none, length := 18, teid := (some 151626838), sqn := 47 }, private_ext := [{ t := 255, length := 6, ins := 0, enterprise_id := 0, value := [1, 98, 156, 196] }] } : DeleteIndirectDataForwardingTunnelRequest) = [72, 168, 0, 18, 9, 9, 164, 86, 0, 0, 47, 0, 255, 0, 6, 0, 0, 0, 1, 98, 156, 196] := by
  decide +kernel

-- `test_create_indirect_data_fw_tunnel_resp_unmarshal` (gtpv2/messages/deleteindirectdatafwtunnelresp.rs:114)
example : DeleteIndirectDataForwardingTunnelResponse.codec.unmarshal .debug [72, 169, 0, 29, 9, 9, 164, 86, 0, 0, 47, 0, 2, 0, 2, 0, 16, 0, 3, 0, 1, 0, 100, 255, 0, 6, 0, 0, 0, 1, 98, 156, 196] = .ok { header := { msgtype := 169, piggyback := false, prio := none, length := 29, teid := (some 151626838), sqn := 47 }, cause := { t := 2, length := 2, ins := 0, value := 16, pce := false, bce := false, cs := false, offend_ie_type := none }, recovery := (some { t := 3, length := 1, ins := 0, recovery := 100 }), private_ext := [{ t := 255, length := 6, ins := 0, enterprise_id := 0, value := [1, 98, 156, 196] }] } := by
  decide +kernel

-- `test_create_indirect_data_fw_tunnel_resp_marshal` (gtpv2/messages/deleteindirectdatafwtunnelresp.rs:148)
example : DeleteIndirectDataForwardingTunnelResponse.codec.marshal ({ header := { msgtype := 169, piggyback := false, prio := none, length := 29, teid := (some 151626838), sqn := 47 }, cause := { t := 2, length := 2, ins := 0, value := 16, pce := false, bce := false, cs := false, offend_ie_type := none }, recovery := (some { t := 3, length := 1, ins := 0, recovery := 100 }), private_ext := [{ t := 255, length := 6, ins := 0, enterprise_id := 0, value := [1, 98, 156, 196] }] } : DeleteIndirectDataForwardingTunnelResponse) = [72, 169, 0, 29, 9, 9, 164, 86, 0, 0, 47, 0, 2, 0, 2, 0, 16, 0, 3, 0, 1, 0, 100, 255, 0, 6, 0, 0, 0, 1, 98, 156, 196] := by
  decide +kernel

-- `test_delete_pdn_connection_set_req_unmarshal` (gtpv2/messages/deletepdnconnectionsetreq.rs:147)
example : DeletePdnConnectionSetRequest.codec.unmarshal .debug [72, 101, 0, 29, 0, 0, 0, 0, 38, 0, 46, 0, 132, 0, 7, 1, 1, 139, 7, 133, 184, 255, 255, 255, 0, 6, 0, 7, 219, 7, 0, 1, 0] = .ok { header := { msgtype := 101, piggyback := false, prio := none, length := 29, teid := (some 0), sqn := 2490414 }, mme_fqcsid := none, sgw_fqcsid := (some { t := 132, length := 7, ins := 1, nodeid := (.V4 2332526008), csid := [65535] }), pgw_fqcsid := none, epdg_fqcsid := none, twan_fqcsid := none, private_ext := [{ t := 255, length := 6, ins := 0, enterprise_id := 2011, value := [7, 0, 1, 0] }] } := by
  decide +kernel

-- `test_delete_pdn_connection_set_req_marshal` (gtpv2/messages/deletepdnconnectionsetreq.rs:184)
example : DeletePdnConnectionSetRequest.codec.marshal ({ header := { msgtype := 101, piggyback := false, prio := none, length := 29, teid := (some 0), sqn := 2490414 }, mme_fqcsid := none, sgw_fqcsid := (some { t := 132, length := 7, ins := 1, nodeid := (.V4 2332526008), csid := [65535] }), pgw_fqcsid := none, epdg_fqcsid := none, twan_fqcsid := none, private_ext := [{ t := 255, length := 6, ins := 0, enterprise_id := 2011, value := [7, 0, 1, 0] }] } : DeletePdnConnectionSetRequest) = [72, 101, 0, 29, 0, 0, 0, 0, 38, 0, 46, 0, 132, 0, 7, 1, 1, 139, 7, 133, 184, 255, 255, 255, 0, 6, 0, 7, 219, 7, 0, 1, 0] := by
  decide +kernel

-- `test_delete_pdn_connection_set_resp_unmarshal` (gtpv2/messages/deletepdnconnectionsetresp.rs:114)
example : DeletePndConnectionSetResponse.codec.unmarshal .debug [72, 102, 0, 29, 9, 9, 164, 86, 0, 0, 47, 0, 2, 0, 2, 0, 16, 0, 3, 0, 1, 0, 100, 255, 0, 6, 0, 0, 0, 1, 98, 156, 196] = .ok { header := { msgtype := 102, piggyback := false, prio := none, length := 29, teid := (some 151626838), sqn := 47 }, cause := { t := 2, length := 2, ins := 0, value := 16, pce := false, bce := false, cs := false, offend_ie_type := none }, recovery := (some { t := 3, length := 1, ins := 0, recovery := 100 }), private_ext := [{ t := 255, length := 6, ins := 0, enterprise_id := 0, value := [1, 98, 156, 196] }] } := by
  decide +kernel

-- `test_delete_pdn_connection_set_resp_marshal` (gtpv2/messages/deletepdnconnectionsetresp.rs:148)
example : DeletePndConnectionSetResponse.codec.marshal ({ header := { msgtype := 102, piggyback := false, prio := none, length := 29, teid := (some 151626838), sqn := 47 }, cause := { t := 2, length := 2, ins := 0, value := 16, pce := false, bce := false, cs := false, offend_ie_type := none }, recovery := (some { t := 3, length := 1, ins := 0, recovery := 100 }), private_ext := [{ t := 255, length := 6, ins := 0, enterprise_id := 0, value := [1, 98, 156, 196] }] } : DeletePndConnectionSetResponse) = [72, 102, 0, 29, 9, 9, 164, 86, 0, 0, 47, 0, 2, 0, 2, 0, 16, 0, 3, 0, 1, 0, 100, 255, 0, 6, 0, 0, 0, 1, 98, 156, 196] := by
  decide +kernel

-- `test_delete_session_req_unmarshal` (gtpv2/messages/deletesessionreq.rs:317)
example : DeleteSessionRequest.codec.unmarshal .debug [72, 36, 0, 87, 154, 51, 222, 175, 71, 130, 28, 0, 73, 0, 1, 0, 5, 86, 0, 13, 0, 24, 19, 0, 20, 39, 0, 19, 0, 20, 11, 166, 184, 134, 255, 0, 10, 0, 0, 74, 1, 0, 5, 5, 1, 2, 0, 26, 87, 0, 25, 0, 198, 130, 21, 98, 28, 166, 137, 249, 215, 38, 0, 3, 0, 32, 32, 30, 255, 0, 0, 0, 0, 0, 0, 0, 7, 170, 0, 4, 0, 229, 206, 119, 243, 172, 0, 2, 0, 16, 26] = .ok { header := { msgtype := 36, piggyback := false, prio := none, length := 87, teid := (some 2587090607), sqn := 4686364 }, cause := none, linked_ebi := (some { t := 73, length := 1, ins := 0, value := 5 }), uli := (some { t := 86, length := 13, ins := 0, loc := [(.Tai { mcc := 310, mnc := 410, mnc_is_three_digits := true, tac := 9984 }), (.Ecgi { mcc := 310, mnc := 410, mnc_is_three_digits := true, eci := 195475590 })] }), indication := none, pco := none, orig_node := none, fteid_control := (some { t := 87, length := 25, ins := 0, interface := 6, teid := 2182439452, ipv4 := (some 2794060247), ipv6 := (some ⟨2738191872515120895, 7⟩) }), uetimezone := none, uli_timestamp := (some { t := 170, length := 4, ins := 0, timestamp := 3855513587 }), ran_nas_cause := (some { t := 172, length := 2, ins := 0, cause := (.S1ap (.RadioLayer 26)) }), twan_id := none, twan_id_timestamp := none, overload_info := [], wlan_loc := none, wlan_loc_timestamp := none, ue_localip := none, ue_udpport := none, epco := none, ue_tcpport := none, secondary_rat_usage_report := [], pscellid := none, private_ext := [{ t := 255, length := 10, ins := 0, enterprise_id := 74, value := [1, 0, 5, 5, 1, 2, 0, 26] }] } := by
  decide +kernel

-- `test_delete_session_req_marshal` (gtpv2/messages/deletesessionreq.rs:402)
example : DeleteSessionRequest.codec.marshal ({ header := { msgtype := 36, piggyback := false, prio := none, length := 87, teid := (some 2587090607), sqn := 4686364 }, cause := none, linked_ebi := (some { t := 73, length := 1, ins := 0, value := 5 }), uli := (some { t := 86, length := 13, ins := 0, loc := [(.Tai { mcc := 310, mnc := 410, mnc_is_three_digits := true, tac := 9984 }), (.Ecgi { mcc := 310, mnc := 410, mnc_is_three_digits := true, eci := 195475590 })] }), indication := none, pco := none, orig_node := none, fteid_control := (some { t := 87, length := 25, ins := 0, interface := 6, teid := 2182439452, ipv4 := (some 2794060247), ipv6 := (some ⟨2738191872515120895, 7⟩) }), uetimezone := none, uli_timestamp := (some { t := 170, length := 4, ins := 0, timestamp := 3855513587 }), ran_nas_cause := (some { t := 172, length := 2, ins := 0, cause := (.S1ap (.RadioLayer 26)) }), twan_id := none, twan_id_timestamp := none, overload_info := [], wlan_loc := none, wlan_loc_timestamp := none, ue_localip := none, ue_udpport := none, epco := none, ue_tcpport := none, secondary_rat_usage_report := [], pscellid := none, private_ext := [{ t := 255, length := 10, ins := 0, enterprise_id := 74, value := [1, 0, 5, 5, 1, 2, 0, 26] }] } : DeleteSessionRequest) = [72, 36, 0, 87, 154, 51, 222, 175, 71, 130, 28, 0, 73, 0, 1, 0, 5, 86, 0, 13, 0, 24, 19, 0, 20, 39, 0, 19, 0, 20, 11, 166, 184, 134, 87, 0, 25, 0, 198, 130, 21, 98, 28, 166, 137, 249, 215, 38, 0, 3, 0, 32, 32, 30, 255, 0, 0, 0, 0, 0, 0, 0, 7, 170, 0, 4, 0, 229, 206, 119, 243, 172, 0, 2, 0, 16, 26, 255, 0, 10, 0, 0, 74, 1, 0, 5, 5, 1, 2, 0, 26] := by
  decide +kernel

-- `test_delete_session_resp_unmarshal` (gtpv2/messages/deletesessionresp.rs:180)
example : DeleteSessionResponse.codec.unmarshal .debug [72, 37, 0, 196, 2, 21, 253, 52, 0, 0, 112, 0, 2, 0, 2, 0, 16, 0, 3, 0, 1, 0, 8, 78, 0, 35, 0, 128, 128, 33, 16, 1, 0, 0, 16, 129, 6, 0, 0, 0, 0, 131, 6, 0, 0, 0, 0, 0, 13, 0, 0, 3, 0, 0, 10, 0, 0, 5, 0, 0, 16, 0, 181, 0, 31, 1, 183, 0, 4, 0, 255, 170, 238, 17, 182, 0, 1, 0, 96, 184, 0, 14, 0, 100, 4, 116, 101, 115, 116, 3, 110, 101, 116, 3, 99, 111, 109, 181, 0, 31, 1, 183, 0, 4, 0, 255, 170, 238, 17, 182, 0, 1, 0, 96, 184, 0, 14, 0, 100, 4, 114, 101, 115, 116, 3, 110, 101, 116, 3, 99, 111, 109, 180, 0, 18, 0, 183, 0, 4, 0, 255, 170, 238, 17, 182, 0, 1, 0, 96, 156, 0, 1, 0, 127, 180, 0, 18, 1, 183, 0, 4, 0, 255, 170, 238, 34, 182, 0, 1, 0, 96, 156, 0, 1, 0, 126, 204, 0, 20, 0, 0, 0, 3, 232, 0, 0, 0, 100, 0, 0, 39, 16, 0, 0, 0, 0, 0, 255, 255, 255] = .ok { header := { msgtype := 37, piggyback := false, prio := none, length := 196, teid := (some 34995508), sqn := 112 }, cause := { t := 2, length := 2, ins := 0, value := 16, pce := false, bce := false, cs := false, offend_ie_type := none }, recovery := (some { t := 3, length := 1, ins := 0, recovery := 8 }), pco := (some { t := 78, length := 35, ins := 0, pco := [128, 128, 33, 16, 1, 0, 0, 16, 129, 6, 0, 0, 0, 0, 131, 6, 0, 0, 0, 0, 0, 13, 0, 0, 3, 0, 0, 10, 0, 0, 5, 0, 0, 16, 0] }), indication := none, load_control := [{ t := 181, length := 31, ins := 1, sqn := { t := 183, length := 4, ins := 0, sqn := 4289392145 }, load_metric := { t := 182, length := 1, ins := 0, metric := 96 }, list := (some [{ t := 184, length := 14, ins := 0, relative_cap := 100, name := ['t', 'e', 's', 't', '.', 'n', 'e', 't', '.', 'c', 'o', 'm'] }]) }, { t := 181, length := 31, ins := 1, sqn := { t := 183, length := 4, ins := 0, sqn := 4289392145 }, load_metric := { t := 182, length := 1, ins := 0, metric := 96 }, list := (some [{ t := 184, length := 14, ins := 0, relative_cap := 100, name := ['r', 'e', 's', 't', '.', 'n', 'e', 't', '.', 'c', 'o', 'm'] }]) }], overload_info := [{ t := 180, length := 18, ins := 0, sqn := { t := 183, length := 4, ins := 0, sqn := 4289392145 }, metric := { t := 182, length := 1, ins := 0, metric := 96 }, validity := { t := 156, length := 1, ins := 0, timer_unit := 3, timer_value := 31 }, list := none }, { t := 180, length := 18, ins := 1, sqn := { t := 183, length := 4, ins := 0, sqn := 4289392162 }, metric := { t := 182, length := 1, ins := 0, metric := 96 }, validity := { t := 156, length := 1, ins := 0, timer_unit := 3, timer_value := 30 }, list := none }], epco := none, apn_rate_control_status := (some { t := 204, length := 20, ins := 0, ul_packets_allowed := 1000, nmbr_add_exception_reports := 100, dl_packets_allowed := 10000, validity_time := 16777215 }), private_ext := [] } := by
  decide +kernel

-- `test_delete_session_resp_marshal` (gtpv2/messages/deletesessionresp.rs:351)
example : DeleteSessionResponse.codec.marshal ({ header := { msgtype := 37, piggyback := false, prio := none, length := 196, teid := (some 34995508), sqn := 112 }, cause := { t := 2, length := 2, ins := 0, value := 16, pce := false, bce := false, cs := false, offend_ie_type := none }, recovery := (some { t := 3, length := 1, ins := 0, recovery := 8 }), pco := (some { t := 78, length := 35, ins := 0, pco := [128, 128, 33, 16, 1, 0, 0, 16, 129, 6, 0, 0, 0, 0, 131, 6, 0, 0, 0, 0, 0, 13, 0, 0, 3, 0, 0, 10, 0, 0, 5, 0, 0, 16, 0] }), indication := none, load_control := [{ t := 181, length := 31, ins := 1, sqn := { t := 183, length := 4, ins := 0, sqn := 4289392145 }, load_metric := { t := 182, length := 1, ins := 0, metric := 96 }, list := (some [{ t := 184, length := 14, ins := 0, relative_cap := 100, name := ['t', 'e', 's', 't', '.', 'n', 'e', 't', '.', 'c', 'o', 'm'] }]) }, { t := 181, length := 31, ins := 1, sqn := { t := 183, length := 4, ins := 0, sqn := 4289392145 }, load_metric := { t := 182, length := 1, ins := 0, metric := 96 }, list := (some [{ t := 184, length := 14, ins := 0, relative_cap := 100, name := ['r', 'e', 's', 't', '.', 'n', 'e', 't', '.', 'c', 'o', 'm'] }]) }], overload_info := [{ t := 180, length := 18, ins := 0, sqn := { t := 183, length := 4, ins := 0, sqn := 4289392145 }, metric := { t := 182, length := 1, ins := 0, metric := 96 }, validity := { t := 156, length := 1, ins := 0, timer_unit := 3, timer_value := 31 }, list := none }, { t := 180, length := 18, ins := 1, sqn := { t := 183, length := 4, ins := 0, sqn := 4289392162 }, metric := { t := 182, length := 1, ins := 0, metric := 96 }, validity := { t := 156, length := 1, ins := 0, timer_unit := 3, timer_value := 30 }, list := none }], epco := none, apn_rate_control_status := (some { t := 204, length := 20, ins := 0, ul_packets_allowed := 1000, nmbr_add_exception_reports := 100, dl_packets_allowed := 10000, validity_time := 16777215 }), private_ext := [] } : DeleteSessionResponse) = [72, 37, 0, 196, 2, 21, 253, 52, 0, 0, 112, 0, 2, 0, 2, 0, 16, 0, 3, 0, 1, 0, 8, 78, 0, 35, 0, 128, 128, 33, 16, 1, 0, 0, 16, 129, 6, 0, 0, 0, 0, 131, 6, 0, 0, 0, 0, 0, 13, 0, 0, 3, 0, 0, 10, 0, 0, 5, 0, 0, 16, 0, 181, 0, 31, 1, 183, 0, 4, 0, 255, 170, 238, 17, 182, 0, 1, 0, 96, 184, 0, 14, 0, 100, 4, 116, 101, 115, 116, 3, 110, 101, 116, 3, 99, 111, 109, 181, 0, 31, 1, 183, 0, 4, 0, 255, 170, 238, 17, 182, 0, 1, 0, 96, 184, 0, 14, 0, 100, 4, 114, 101, 115, 116, 3, 110, 101, 116, 3, 99, 111, 109, 180, 0, 18, 0, 183, 0, 4, 0, 255, 170, 238, 17, 182, 0, 1, 0, 96, 156, 0, 1, 0, 127, 180, 0, 18, 1, 183, 0, 4, 0, 255, 170, 238, 34, 182, 0, 1, 0, 96, 156, 0, 1, 0, 126, 204, 0, 20, 0, 0, 0, 3, 232, 0, 0, 0, 100, 0, 0, 39, 16, 0, 0, 0, 0, 0, 255, 255, 255] := by
  decide +kernel

-- `test_detach_ack_unmarshal` (gtpv2/messages/detachacknowledge.rs:114)
example : DetachAcknowledge.codec.unmarshal .debug [72, 150, 0, 29, 9, 9, 164, 86, 0, 0, 47, 0, 2, 0, 2, 0, 16, 0, 3, 0, 1, 0, 100, 255, 0, 6, 0, 0, 0, 1, 98, 156, 196] = .ok { header := { msgtype := 150, piggyback := false, prio := none, length := 29, teid := (some 151626838), sqn := 47 }, cause := { t := 2, length := 2, ins := 0, value := 16, pce := false, bce := false, cs := false, offend_ie_type := none }, recovery := (some { t := 3, length := 1, ins := 0, recovery := 100 }), private_ext := [{ t := 255, length := 6, ins := 0, enterprise_id := 0, value := [1, 98, 156, 196] }] } := by
  decide +kernel

-- `test_detach_ack_marshal` (gtpv2/messages/detachacknowledge.rs:148)
example : DetachAcknowledge.codec.marshal ({ header := { msgtype := 150, piggyback := false, prio := none, length := 29, teid := (some 151626838), sqn := 47 }, cause := { t := 2, length := 2, ins := 0, value := 16, pce := false, bce := false, cs := false, offend_ie_type := none }, recovery := (some { t := 3, length := 1, ins := 0, recovery := 100 }), private_ext := [{ t := 255, length := 6, ins := 0, enterprise_id := 0, value := [1, 98, 156, 196] }] } : DetachAcknowledge) = [72, 150, 0, 29, 9, 9, 164, 86, 0, 0, 47, 0, 2, 0, 2, 0, 16, 0, 3, 0, 1, 0, 100, 255, 0, 6, 0, 0, 0, 1, 98, 156, 196] := by
  decide +kernel

-- `test_detach_notification_unmarshal` (gtpv2/messages/detachnotification.rs:114)
example : DetachNotification.codec.unmarshal .debug [72, 149, 0, 29, 9, 9, 164, 86, 0, 0, 47, 0, 2, 0, 2, 0, 16, 0, 150, 0, 1, 0, 2, 255, 0, 6, 0, 0, 0, 1, 98, 156, 196] = .ok { header := { msgtype := 149, piggyback := false, prio := none, length := 29, teid := (some 151626838), sqn := 47 }, cause := { t := 2, length := 2, ins := 0, value := 16, pce := false, bce := false, cs := false, offend_ie_type := none }, detach_type := (some { t := 150, length := 1, ins := 0, detach_type := .CombinedPsCsDetach }), private_ext := [{ t := 255, length := 6, ins := 0, enterprise_id := 0, value := [1, 98, 156, 196] }] } := by
  decide +kernel

-- `test_detach_notificiation_marshal` (gtpv2/messages/detachnotification.rs:148)
example : DetachNotification.codec.marshal ({ header := { msgtype := 149, piggyback := false, prio := none, length := 29, teid := (some 151626838), sqn := 47 }, cause := { t := 2, length := 2, ins := 0, value := 16, pce := false, bce := false, cs := false, offend_ie_type := none }, detach_type := (some { t := 150, length := 1, ins := 0, detach_type := .CombinedPsCsDetach }), private_ext := [{ t := 255, length := 6, ins := 0, enterprise_id := 0, value := [1, 98, 156, 196] }] } : DetachNotification) = [72, 149, 0, 29, 9, 9, 164, 86, 0, 0, 47, 0, 2, 0, 2, 0, 16, 0, 150, 0, 1, 0, 2, 255, 0, 6, 0, 0, 0, 1, 98, 156, 196] := by
  decide +kernel

-- `test_dl_data_notification_unmarshal` (gtpv2/messages/downlinkdatanotification.rs:194)
example : DownlinkDataNotification.codec.unmarshal .debug [72, 179, 0, 125, 9, 9, 164, 86, 0, 0, 47, 0, 2, 0, 2, 0, 6, 0, 73, 0, 1, 0, 5, 155, 0, 1, 0, 0, 1, 0, 6, 0, 9, 65, 80, 1, 1, 55, 87, 0, 9, 0, 133, 59, 149, 152, 90, 62, 153, 137, 85, 77, 0, 10, 0, 0, 0, 0, 0, 2, 0, 0, 0, 0, 0, 181, 0, 31, 0, 183, 0, 4, 0, 255, 170, 238, 17, 182, 0, 1, 0, 96, 184, 0, 14, 0, 100, 4, 116, 101, 115, 116, 3, 110, 101, 116, 3, 99, 111, 109, 180, 0, 18, 0, 183, 0, 4, 0, 255, 170, 238, 17, 182, 0, 1, 0, 96, 156, 0, 1, 0, 127, 186, 0, 3, 0, 5, 1, 3] = .ok { header := { msgtype := 179, piggyback := false, prio := none, length := 125, teid := (some 151626838), sqn := 47 }, cause := (some { t := 2, length := 2, ins := 0, value := 6, pce := false, bce := false, cs := false, offend_ie_type := none }), ebi := (some { t := 73, length := 1, ins := 0, value := 5 }), arp := (some { t := 155, length := 1, ins := 0, pci := false, pl := 0, pvi := false }), imsi := (some { t := 1, length := 6, ins := 0, imsi := ['9', '0', '1', '4', '0', '5', '1', '0', '1', '0', '7', '3'] }), fteid_control := (some { t := 87, length := 9, ins := 0, interface := 5, teid := 999659610, ipv4 := (some 1050249557), ipv6 := none }), indication := (some { t := 77, length := 10, ins := 0, daf := false, dtf := false, hi := false, dfi := false, oi := false, isrsi := false, israi := false, sgwci := false, sqci := false, uimsi := false, cfsi := false, crsi := false, ps := false, pt := false, si := false, msv := false, retloc := false, pbic := false, srni := false, s6af := false, s4af := false, mbmdt := false, israu := false, ccrsi := false, cprai := false, arrl := false, ppoff := false, ppon := false, ppsi := false, csfbi := false, clii := false, cpsr := false, nsi := false, uasi := false, dtci := false, bdwi := false, psci := false, pcri := false, aosi := true, aopi := false, roaai := false, epcosi := false, cpopci := false, pmtsmi := false, s11tf := false, pnsi := false, unaccsi := false, wpmsi := false, g5snn26 := false, reprefi := false, g5siwki := false, eevrsi := false, ltemui := false, ltempi := false, enbcrsi := false, tspcmi := false, csrmfi := false, mtedtn := false, mtedta := false, n5gnmi := false, g5cnrs := false, g5cnri := false, s5rho := false, ethpdn := false, nspusi := false, pgwrnsi := false, rppcsi := false, pgwchi := false, sissme := false, nsenbi := false, idfupf := false, emci := false, ltemsai := false, srtpi := false, upipsi := false }), load_control := [{ t := 181, length := 31, ins := 0, sqn := { t := 183, length := 4, ins := 0, sqn := 4289392145 }, load_metric := { t := 182, length := 1, ins := 0, metric := 96 }, list := (some [{ t := 184, length := 14, ins := 0, relative_cap := 100, name := ['t', 'e', 's', 't', '.', 'n', 'e', 't', '.', 'c', 'o', 'm'] }]) }], overload_info := [{ t := 180, length := 18, ins := 0, sqn := { t := 183, length := 4, ins := 0, sqn := 4289392145 }, metric := { t := 182, length := 1, ins := 0, metric := 96 }, validity := { t := 156, length := 1, ins := 0, timer_unit := 3, timer_value := 31 }, list := none }], psi := (some { t := 186, length := 3, ins := 0, ebi := 5, paging_policy := (some 3) }), dl_data_pckts_size := none, private_ext := [] } := by
  decide +kernel

-- `test_dl_data_notification_marshal` (gtpv2/messages/downlinkdatanotification.rs:312)
example : DownlinkDataNotification.codec.marshal ({ header := { msgtype := 179, piggyback := false, prio := none, length := 125, teid := (some 151626838), sqn := 47 }, cause := (some { t := 2, length := 2, ins := 0, value := 6, pce := false, bce := false, cs := false, offend_ie_type := none }), ebi := (some { t := 73, length := 1, ins := 0, value := 5 }), arp := (some { t := 155, length := 1, ins := 0, pci := false, pl := 0, pvi := false }), imsi := (some { t := 1, length := 6, ins := 0, imsi := ['9', '0', '1', '4', '0', '5', '1', '0', '1', '0', '7', '3'] }), fteid_control := (some { t := 87, length := 9, ins := 0, interface := 5, teid := 999659610, ipv4 := (some 1050249557), ipv6 := none }), indication := (some { t := 77, length := 10, ins := 0, daf := false, dtf := false, hi := false, dfi := false, oi := false, isrsi := false, israi := false, sgwci := false, sqci := false, uimsi := false, cfsi := false, crsi := false, ps := false, pt := false, si := false, msv := false, retloc := false, pbic := false, srni := false, s6af := false, s4af := false, mbmdt := false, israu := false, ccrsi := false, cprai := false, arrl := false, ppoff := false, ppon := false, ppsi := false, csfbi := false, clii := false, cpsr := false, nsi := false, uasi := false, dtci := false, bdwi := false, psci := false, pcri := false, aosi := true, aopi := false, roaai := false, epcosi := false, cpopci := false, pmtsmi := false, s11tf := false, pnsi := false, unaccsi := false, wpmsi := false, g5snn26 := false, reprefi := false, g5siwki := false, eevrsi := false, ltemui := false, ltempi := false, enbcrsi := false, tspcmi := false, csrmfi := false, mtedtn := false, mtedta := false, n5gnmi := false, g5cnrs := false, g5cnri := false, s5rho := false, ethpdn := false, nspusi := false, pgwrnsi := false, rppcsi := false, pgwchi := false, sissme := false, nsenbi := false, idfupf := false, emci := false, ltemsai := false, srtpi := false, upipsi := false }), load_control := [{ t := 181, length := 31, ins := 0, sqn := { t := 183, length := 4, ins := 0, sqn := 4289392145 }, load_metric := { t := 182, length := 1, ins := 0, metric := 96 }, list := (some [{ t := 184, length := 14, ins := 0, relative_cap := 100, name := ['t', 'e', 's', 't', '.', 'n', 'e', 't', '.', 'c', 'o', 'm'] }]) }], overload_info := [{ t := 180, length := 18, ins := 0, sqn := { t := 183, length := 4, ins := 0, sqn := 4289392145 }, metric := { t := 182, length := 1, ins := 0, metric := 96 }, validity := { t := 156, length := 1, ins := 0, timer_unit := 3, timer_value := 31 }, list := none }], psi := (some { t := 186, length := 2, ins := 0, ebi := 5, paging_policy := (some 3) }), dl_data_pckts_size := none, private_ext := [] } : DownlinkDataNotification) = [72, 179, 0, 125, 9, 9, 164, 86, 0, 0, 47, 0, 2, 0, 2, 0, 6, 0, 73, 0, 1, 0, 5, 155, 0, 1, 0, 0, 1, 0, 6, 0, 9, 65, 80, 1, 1, 55, 87, 0, 9, 0, 133, 59, 149, 152, 90, 62, 153, 137, 85, 77, 0, 10, 0, 0, 0, 0, 0, 2, 0, 0, 0, 0, 0, 181, 0, 31, 0, 183, 0, 4, 0, 255, 170, 238, 17, 182, 0, 1, 0, 96, 184, 0, 14, 0, 100, 4, 116, 101, 115, 116, 3, 110, 101, 116, 3, 99, 111, 109, 180, 0, 18, 0, 183, 0, 4, 0, 255, 170, 238, 17, 182, 0, 1, 0, 96, 156, 0, 1, 0, 127, 186, 0, 3, 0, 5, 1, 3] := by
  decide +kernel

-- `test_dl_data_notif_ack_unmarshal` (gtpv2/messages/downlinkdatanotificationacknowledge.rs:169)
example : DownlinkDataNotificationAcknowledge.codec.unmarshal .debug [72, 177, 0, 60, 9, 9, 164, 86, 0, 0, 47, 0, 2, 0, 2, 0, 16, 0, 92, 0, 1, 0, 1, 3, 0, 1, 0, 100, 154, 0, 2, 0, 34, 3, 1, 0, 6, 0, 9, 65, 80, 1, 1, 55, 156, 0, 1, 0, 100, 187, 0, 1, 0, 255, 255, 0, 6, 0, 0, 0, 1, 98, 156, 196] = .ok { header := { msgtype := 177, piggyback := false, prio := none, length := 60, teid := (some 151626838), sqn := 47 }, cause := { t := 2, length := 2, ins := 0, value := 16, pce := false, bce := false, cs := false, offend_ie_type := none }, data_notification_delay := (some { t := 92, length := 1, ins := 0, value := 1 }), recovery := (some { t := 3, length := 1, ins := 0, recovery := 100 }), dl_low_prio_traffic_throttling := (some { t := 154, length := 2, ins := 0, delay_unit := 1, delay_value := 2, factor := 3 }), imsi := (some { t := 1, length := 6, ins := 0, imsi := ['9', '0', '1', '4', '0', '5', '1', '0', '1', '0', '7', '3'] }), dl_buff_dur := (some { t := 156, length := 1, ins := 0, timer_unit := 3, timer_value := 4 }), dl_buff_sugg_packet_count := (some { t := 187, length := 1, ins := 0, number := [255] }), private_ext := [{ t := 255, length := 6, ins := 0, enterprise_id := 0, value := [1, 98, 156, 196] }] } := by
  decide +kernel

-- `test_dl_data_notif_ack_marshal` (gtpv2/messages/downlinkdatanotificationacknowledge.rs:230)
example : DownlinkDataNotificationAcknowledge.codec.marshal ({ header := { msgtype := 177, piggyback := false, prio := none, length := 60, teid := (some 151626838), sqn := 47 }, cause := { t := 2, length := 2, ins := 0, value := 16, pce := false, bce := false, cs := false, offend_ie_type := none }, data_notification_delay := (some { t := 92, length := 1, ins := 0, value := 1 }), recovery := (some { t := 3, length := 1, ins := 0, recovery := 100 }), dl_low_prio_traffic_throttling := (some { t := 154, length := 2, ins := 0, delay_unit := 1, delay_value := 2, factor := 3 }), imsi := (some { t := 1, length := 6, ins := 0, imsi := ['9', '0', '1', '4', '0', '5', '1', '0', '1', '0', '7', '3'] }), dl_buff_dur := (some { t := 156, length := 1, ins := 0, timer_unit := 1, timer_value := 100 }), dl_buff_sugg_packet_count := (some { t := 187, length := 1, ins := 0, number := [255] }), private_ext := [{ t := 255, length := 6, ins := 0, enterprise_id := 0, value := [1, 98, 156, 196] }] } : DownlinkDataNotificationAcknowledge) = [72, 177, 0, 60, 9, 9, 164, 86, 0, 0, 47, 0, 2, 0, 2, 0, 16, 0, 92, 0, 1, 0, 1, 3, 0, 1, 0, 100, 154, 0, 2, 0, 34, 3, 1, 0, 6, 0, 9, 65, 80, 1, 1, 55, 156, 0, 1, 0, 100, 187, 0, 1, 0, 255, 255, 0, 6, 0, 0, 0, 1, 98, 156, 196] := by
  decide +kernel

-- `test_dl_data_notification_fail_ind_unmarshal` (gtpv2/messages/downlinkdatanotificationfailureindication.rs:125)
example : DownlinkDataNotificationFailureIndication.codec.unmarshal .debug [72, 70, 0, 41, 230, 77, 164, 239, 38, 0, 46, 0, 2, 0, 2, 0, 16, 0, 135, 0, 1, 0, 0, 1, 0, 8, 0, 9, 65, 80, 1, 1, 55, 120, 244, 255, 0, 6, 0, 7, 219, 7, 0, 1, 0] = .ok { header := { msgtype := 70, piggyback := false, prio := none, length := 41, teid := (some 3863848175), sqn := 2490414 }, cause := { t := 2, length := 2, ins := 0, value := 16, pce := false, bce := false, cs := false, offend_ie_type := none }, orig_node := (some { t := 135, length := 1, ins := 0, node := .Mme }), imsi := (some { t := 1, length := 8, ins := 0, imsi := ['9', '0', '1', '4', '0', '5', '1', '0', '1', '0', '7', '3', '8', '7', '4'] }), private_ext := [{ t := 255, length := 6, ins := 0, enterprise_id := 2011, value := [7, 0, 1, 0] }] } := by
  decide +kernel

-- `test_dl_data_notif_fail_ind_marshal` (gtpv2/messages/downlinkdatanotificationfailureindication.rs:166)
example : DownlinkDataNotificationFailureIndication.codec.marshal ({ header := { msgtype := 70, piggyback := false, prio := none, length := 41, teid := (some 3863848175), sqn := 2490414 }, cause := { t := 2, length := 2, ins := 0, value := 16, pce := false, bce := false, cs := false, offend_ie_type := none }, orig_node := (some { t := 135, length := 1, ins := 0, node := .Mme }), imsi := (some { t := 1, length := 8, ins := 0, imsi := ['9', '0', '1', '4', '0', '5', '1', '0', '1', '0', '7', '3', '8', '7', '4'] }), private_ext := [{ t := 255, length := 6, ins := 0, enterprise_id := 2011, value := [7, 0, 1, 0] }] } : DownlinkDataNotificationFailureIndication) = [72, 70, 0, 41, 230, 77, 164, 239, 38, 0, 46, 0, 2, 0, 2, 0, 16, 0, 135, 0, 1, 0, 0, 1, 0, 8, 0, 9, 65, 80, 1, 1, 55, 120, 244, 255, 0, 6, 0, 7, 219, 7, 0, 1, 0] := by
  decide +kernel

-- `test_echo_req_unmarshal` (gtpv2/messages/echoreq.rs:115)
example : EchoRequest.codec.unmarshal .debug [64, 1, 0, 16, 45, 204, 56, 0, 3, 0, 1, 0, 12, 255, 0, 3, 0, 0, 10, 255] = .ok { header := { msgtype := 1, piggyback := false, prio := none, length := 16, teid := none, sqn := 3001400 }, recovery := { t := 3, length := 1, ins := 0, recovery := 12 }, sending_node_features := none, private_ext := [{ t := 255, length := 3, ins := 0, enterprise_id := 10, value := [255] }] } := by
  decide +kernel

-- `test_echo_req_no_mandatory_ie_unmarshal` (gtpv2/messages/echoreq.rs:148)
example : EchoRequest.codec.unmarshal .debug [64, 1, 0, 11, 45, 204, 56, 0, 255, 0, 3, 0, 0, 10, 255] = .err (.messageMandatoryIEMissing 3) := by
  decide +kernel

-- `test_echo_req_marshal` (gtpv2/messages/echoreq.rs:159)
example : EchoRequest.codec.marshal ({ header := { msgtype := 1, piggyback := false, prio := none, length := 16, teid := none, sqn := 3001400 }, recovery := { t := 3, length := 1, ins := 0, recovery := 12 }, sending_node_features := none, private_ext := [{ t := 255, length := 3, ins := 0, enterprise_id := 10, value := [255] }] } : EchoRequest) = [64, 1, 0, 16, 45, 204, 56, 0, 3, 0, 1, 0, 12, 255, 0, 3, 0, 0, 10, 255] := by
  decide +kernel

-- `test_echo_resp_unmarshal` (gtpv2/messages/echoresp.rs:114)
example : EchoResponse.codec.unmarshal .debug [64, 2, 0, 16, 45, 204, 56, 0, 3, 0, 1, 0, 33, 255, 0, 3, 0, 0, 10, 255] = .ok { header := { msgtype := 2, piggyback := false, prio := none, length := 16, teid := none, sqn := 3001400 }, recovery := { t := 3, length := 1, ins := 0, recovery := 33 }, sending_node_features := none, private_ext := [{ t := 255, length := 3, ins := 0, enterprise_id := 10, value := [255] }] } := by
  decide +kernel

-- `test_echo_resp_no_mandatory_ie_unmarshal` (gtpv2/messages/echoresp.rs:147)
example : EchoResponse.codec.unmarshal .debug [64, 2, 0, 11, 45, 204, 56, 0, 255, 0, 3, 0, 0, 10, 255] = .err (.messageMandatoryIEMissing 3) := by
  decide +kernel

-- `test_echo_resp_marshal` (gtpv2/messages/echoresp.rs:158)
example : EchoResponse.codec.marshal ({ header := { msgtype := 2, piggyback := false, prio := none, length := 16, teid := none, sqn := 3001400 }, recovery := { t := 3, length := 1, ins := 0, recovery := 33 }, sending_node_features := none, private_ext := [{ t := 255, length := 3, ins := 0, enterprise_id := 10, value := [255] }] } : EchoResponse) = [64, 2, 0, 16, 45, 204, 56, 0, 3, 0, 1, 0, 33, 255, 0, 3, 0, 0, 10, 255] := by
  decide +kernel

-- `test_fwd_access_ctx_ack_unmarshal` (gtpv2/messages/forwardaccesscontextacknowledge.rs:102)
example : ForwardAccessContextAcknowledge.codec.unmarshal .debug [72, 138, 0, 24, 164, 120, 149, 128, 75, 41, 30, 0, 2, 0, 2, 0, 16, 0, 255, 0, 6, 0, 7, 219, 7, 0, 1, 0] = .ok { header := { msgtype := 138, piggyback := false, prio := none, length := 24, teid := (some 2759366016), sqn := 4925726 }, cause := { t := 2, length := 2, ins := 0, value := 16, pce := false, bce := false, cs := false, offend_ie_type := none }, private_ext := [{ t := 255, length := 6, ins := 0, enterprise_id := 2011, value := [7, 0, 1, 0] }] } := by
  decide +kernel

-- `test_fwd_access_ctx_ack_marshal` (gtpv2/messages/forwardaccesscontextacknowledge.rs:139)
example : ForwardAccessContextAcknowledge.codec.marshal ({ header := { msgtype := 138, piggyback := false, prio := none, length := 24, teid := (some 2759366016), sqn := 4925726 }, cause := { t := 2, length := 2, ins := 0, value := 16, pce := false, bce := false, cs := false, offend_ie_type := none }, private_ext := [{ t := 255, length := 6, ins := 0, enterprise_id := 2011, value := [7, 0, 1, 0] }] } : ForwardAccessContextAcknowledge) = [72, 138, 0, 24, 164, 120, 149, 128, 75, 41, 30, 0, 2, 0, 2, 0, 16, 0, 255, 0, 6, 0, 7, 219, 7, 0, 1, 0] := by
  decide +kernel

-- `test_fwd_access_ctx_notif_unmarshal` (gtpv2/messages/forwardaccesscontextnotification.rs:132)
example : ForwardAccessContextNotification.codec.unmarshal .debug [72, 137, 0, 112, 9, 9, 164, 86, 0, 0, 47, 0, 124, 0, 9, 0, 5, 255, 0, 0, 255, 170, 0, 0, 170, 124, 0, 9, 0, 6, 255, 0, 0, 255, 170, 0, 0, 170, 124, 0, 9, 0, 7, 255, 0, 0, 255, 170, 0, 0, 170, 125, 0, 20, 0, 128, 128, 33, 16, 1, 1, 0, 16, 129, 6, 0, 0, 0, 0, 131, 6, 0, 0, 0, 0, 110, 0, 9, 0, 5, 255, 0, 0, 255, 170, 0, 0, 170, 118, 0, 5, 0, 2, 1, 98, 156, 196, 118, 0, 5, 0, 2, 1, 98, 156, 196, 255, 0, 6, 0, 0, 0, 1, 98, 156, 196] = .ok { header := { msgtype := 137, piggyback := false, prio := none, length := 112, teid := (some 151626838), sqn := 47 }, rab_ctxs := [{ t := 124, length := 9, ins := 0, nsapi := 5, dl_gtpu_sqn := 65280, ul_gtpu_sqn := 255, dl_pdcp_sqn := 43520, ul_pdcp_sqn := 170 }, { t := 124, length := 9, ins := 0, nsapi := 6, dl_gtpu_sqn := 65280, ul_gtpu_sqn := 255, dl_pdcp_sqn := 43520, ul_pdcp_sqn := 170 }, { t := 124, length := 9, ins := 0, nsapi := 7, dl_gtpu_sqn := 65280, ul_gtpu_sqn := 255, dl_pdcp_sqn := 43520, ul_pdcp_sqn := 170 }], src_rnc_pdcp_ctx := (some { t := 125, length := 20, ins := 0, rrc_container := [128, 128, 33, 16, 1, 1, 0, 16, 129, 6, 0, 0, 0, 0, 131, 6, 0, 0, 0, 0] }), pdu_numbers := (some { t := 110, length := 9, ins := 0, nsapi := 5, dl_gtpu_sqn := 65280, ul_gtpu_sqn := 255, send_npdu := 43520, receive_npdu := 170 }), eutran_containers := [{ t := 118, length := 5, ins := 0, container := (.Bss [1, 98, 156, 196]) }, { t := 118, length := 5, ins := 0, container := (.Bss [1, 98, 156, 196]) }], private_ext := [{ t := 255, length := 6, ins := 0, enterprise_id := 0, value := [1, 98, 156, 196] }] } := by
  decide +kernel

-- `test_fwd_access_ctx_notif_marshal` (gtpv2/messages/forwardaccesscontextnotification.rs:218)
example : ForwardAccessContextNotification.codec.marshal ({ header := { msgtype := 137, piggyback := false, prio := none, length := 112, teid := (some 151626838), sqn := 47 }, rab_ctxs := [{ t := 124, length := 9, ins := 0, nsapi := 5, dl_gtpu_sqn := 65280, ul_gtpu_sqn := 255, dl_pdcp_sqn := 43520, ul_pdcp_sqn := 170 }, { t := 124, length := 9, ins := 0, nsapi := 6, dl_gtpu_sqn := 65280, ul_gtpu_sqn := 255, dl_pdcp_sqn := 43520, ul_pdcp_sqn := 170 }, { t := 124, length := 9, ins := 0, nsapi := 7, dl_gtpu_sqn := 65280, ul_gtpu_sqn := 255, dl_pdcp_sqn := 43520, ul_pdcp_sqn := 170 }], src_rnc_pdcp_ctx := (some { t := 125, length := 20, ins := 0, rrc_container := [128, 128, 33, 16, 1, 1, 0, 16, 129, 6, 0, 0, 0, 0, 131, 6, 0, 0, 0, 0] }), pdu_numbers := (some { t := 110, length := 9, ins := 0, nsapi := 5, dl_gtpu_sqn := 65280, ul_gtpu_sqn := 255, send_npdu := 43520, receive_npdu := 170 }), eutran_containers := [{ t := 118, length := 5, ins := 0, container := (.Bss [1, 98, 156, 196]) }, { t := 118, length := 5, ins := 0, container := (.Bss [1, 98, 156, 196]) }], private_ext := [{ t := 255, length := 6, ins := 0, enterprise_id := 0, value := [1, 98, 156, 196] }] } : ForwardAccessContextNotification) = [72, 137, 0, 112, 9, 9, 164, 86, 0, 0, 47, 0, 124, 0, 9, 0, 5, 255, 0, 0, 255, 170, 0, 0, 170, 124, 0, 9, 0, 6, 255, 0, 0, 255, 170, 0, 0, 170, 124, 0, 9, 0, 7, 255, 0, 0, 255, 170, 0, 0, 170, 125, 0, 20, 0, 128, 128, 33, 16, 1, 1, 0, 16, 129, 6, 0, 0, 0, 0, 131, 6, 0, 0, 0, 0, 110, 0, 9, 0, 5, 255, 0, 0, 255, 170, 0, 0, 170, 118, 0, 5, 0, 2, 1, 98, 156, 196, 118, 0, 5, 0, 2, 1, 98, 156, 196, 255, 0, 6, 0, 0, 0, 1, 98, 156, 196] := by
  decide +kernel

-- `test_fwd_reloc_complete_ack_unmarshal` (gtpv2/messages/forwardrelocationcompleteacknowledge.rs:124)
example : ForwardRelocationCompleteAcknowledge.codec.unmarshal .debug [72, 136, 0, 91, 164, 120, 149, 128, 75, 41, 30, 0, 2, 0, 2, 0, 16, 0, 3, 0, 1, 0, 8, 201, 0, 27, 0, 1, 2, 5, 0, 0, 0, 255, 0, 0, 255, 255, 0, 0, 0, 0, 255, 255, 255, 0, 0, 0, 0, 0, 0, 0, 255, 255, 201, 0, 27, 1, 1, 7, 5, 0, 0, 0, 255, 0, 0, 255, 255, 0, 0, 0, 0, 255, 255, 255, 0, 0, 0, 0, 0, 0, 0, 255, 255, 255, 0, 6, 0, 7, 219, 7, 0, 1, 0] = .ok { header := { msgtype := 136, piggyback := false, prio := none, length := 91, teid := (some 2759366016), sqn := 4925726 }, cause := { t := 2, length := 2, ins := 0, value := 16, pce := false, bce := false, cs := false, offend_ie_type := none }, recovery := (some { t := 3, length := 1, ins := 0, recovery := 8 }), scnd_rat_udrs := [{ t := 201, length := 27, ins := 0, irsgw := false, irpgw := true, rat_type := 2, ebi := 5, start_timestamp := 255, end_timestamp := 65535, usg_data_dl := 4294967040, usg_data_ul := 65535, second_rat_dur_tansfer := none }, { t := 201, length := 27, ins := 1, irsgw := false, irpgw := true, rat_type := 7, ebi := 5, start_timestamp := 255, end_timestamp := 65535, usg_data_dl := 4294967040, usg_data_ul := 65535, second_rat_dur_tansfer := none }], private_ext := [{ t := 255, length := 6, ins := 0, enterprise_id := 2011, value := [7, 0, 1, 0] }] } := by
  decide +kernel

-- `test_fwd_reloc_complete_ack_marshal` (gtpv2/messages/forwardrelocationcompleteacknowledge.rs:196)
example : ForwardRelocationCompleteAcknowledge.codec.marshal ({ header := { msgtype := 136, piggyback := false, prio := none, length := 91, teid := (some 2759366016), sqn := 4925726 }, cause := { t := 2, length := 2, ins := 0, value := 16, pce := false, bce := false, cs := false, offend_ie_type := none }, recovery := (some { t := 3, length := 1, ins := 0, recovery := 8 }), scnd_rat_udrs := [{ t := 201, length := 27, ins := 0, irsgw := false, irpgw := true, rat_type := 2, ebi := 5, start_timestamp := 255, end_timestamp := 65535, usg_data_dl := 4294967040, usg_data_ul := 65535, second_rat_dur_tansfer := none }, { t := 201, length := 27, ins := 1, irsgw := false, irpgw := true, rat_type := 7, ebi := 5, start_timestamp := 255, end_timestamp := 65535, usg_data_dl := 4294967040, usg_data_ul := 65535, second_rat_dur_tansfer := none }], private_ext := [{ t := 255, length := 6, ins := 0, enterprise_id := 2011, value := [7, 0, 1, 0] }] } : ForwardRelocationCompleteAcknowledge) = [72, 136, 0, 91, 164, 120, 149, 128, 75, 41, 30, 0, 2, 0, 2, 0, 16, 0, 3, 0, 1, 0, 8, 201, 0, 27, 0, 1, 2, 5, 0, 0, 0, 255, 0, 0, 255, 255, 0, 0, 0, 0, 255, 255, 255, 0, 0, 0, 0, 0, 0, 0, 255, 255, 201, 0, 27, 1, 1, 7, 5, 0, 0, 0, 255, 0, 0, 255, 255, 0, 0, 0, 0, 255, 255, 255, 0, 0, 0, 0, 0, 0, 0, 255, 255, 255, 0, 6, 0, 7, 219, 7, 0, 1, 0] := by
  decide +kernel

-- `test_fwd_reloc_complete_notif_unmarshal` (gtpv2/messages/forwardrelocationcompletenotification.rs:99)
example : ForwardRelocationCompleteNotification.codec.unmarshal .debug [72, 135, 0, 32, 164, 120, 149, 128, 75, 41, 30, 0, 77, 0, 10, 0, 0, 0, 0, 0, 0, 0, 0, 0, 4, 0, 255, 0, 6, 0, 7, 219, 7, 0, 1, 0] = .ok { header := { msgtype := 135, piggyback := false, prio := none, length := 32, teid := (some 2759366016), sqn := 4925726 }, indication := (some { t := 77, length := 10, ins := 0, daf := false, dtf := false, hi := false, dfi := false, oi := false, isrsi := false, israi := false, sgwci := false, sqci := false, uimsi := false, cfsi := false, crsi := false, ps := false, pt := false, si := false, msv := false, retloc := false, pbic := false, srni := false, s6af := false, s4af := false, mbmdt := false, israu := false, ccrsi := false, cprai := false, arrl := false, ppoff := false, ppon := false, ppsi := false, csfbi := false, clii := false, cpsr := false, nsi := false, uasi := false, dtci := false, bdwi := false, psci := false, pcri := false, aosi := false, aopi := false, roaai := false, epcosi := false, cpopci := false, pmtsmi := false, s11tf := false, pnsi := false, unaccsi := false, wpmsi := false, g5snn26 := false, reprefi := false, g5siwki := false, eevrsi := false, ltemui := false, ltempi := false, enbcrsi := false, tspcmi := false, csrmfi := false, mtedtn := false, mtedta := false, n5gnmi := false, g5cnrs := false, g5cnri := false, s5rho := false, ethpdn := false, nspusi := false, pgwrnsi := false, rppcsi := false, pgwchi := false, sissme := false, nsenbi := true, idfupf := false, emci := false, ltemsai := false, srtpi := false, upipsi := false }), private_ext := [{ t := 255, length := 6, ins := 0, enterprise_id := 2011, value := [7, 0, 1, 0] }] } := by
  decide +kernel

-- `test_fwd_reloc_complete_notif_marshal` (gtpv2/messages/forwardrelocationcompletenotification.rs:131)
example : ForwardRelocationCompleteNotification.codec.marshal ({ header := { msgtype := 135, piggyback := false, prio := none, length := 32, teid := (some 2759366016), sqn := 4925726 }, indication := (some { t := 77, length := 10, ins := 0, daf := false, dtf := false, hi := false, dfi := false, oi := false, isrsi := false, israi := false, sgwci := false, sqci := false, uimsi := false, cfsi := false, crsi := false, ps := false, pt := false, si := false, msv := false, retloc := false, pbic := false, srni := false, s6af := false, s4af := false, mbmdt := false, israu := false, ccrsi := false, cprai := false, arrl := false, ppoff := false, ppon := false, ppsi := false, csfbi := false, clii := false, cpsr := false, nsi := false, uasi := false, dtci := false, bdwi := false, psci := false, pcri := false, aosi := false, aopi := false, roaai := false, epcosi := false, cpopci := false, pmtsmi := false, s11tf := false, pnsi := false, unaccsi := false, wpmsi := false, g5snn26 := false, reprefi := false, g5siwki := false, eevrsi := false, ltemui := false, ltempi := false, enbcrsi := false, tspcmi := false, csrmfi := false, mtedtn := false, mtedta := false, n5gnmi := false, g5cnrs := false, g5cnri := false, s5rho := false, ethpdn := false, nspusi := false, pgwrnsi := false, rppcsi := false, pgwchi := false, sissme := false, nsenbi := true, idfupf := false, emci := false, ltemsai := false, srtpi := false, upipsi := false }), private_ext := [{ t := 255, length := 6, ins := 0, enterprise_id := 2011, value := [7, 0, 1, 0] }] } : ForwardRelocationCompleteNotification) = [72, 135, 0, 32, 164, 120, 149, 128, 75, 41, 30, 0, 77, 0, 10, 0, 0, 0, 0, 0, 0, 0, 0, 0, 4, 0, 255, 0, 6, 0, 7, 219, 7, 0, 1, 0] := by
  decide +kernel

-- `test_fwd_reloc_req_unmarshal` (gtpv2/messages/forwardrelocationreq.rs:508)
example : ForwardRelocationRequest.codec.unmarshal .debug [72, 133, 1, 171, 164, 120, 149, 128, 75, 41, 30, 0, 87, 0, 9, 0, 134, 39, 137, 47, 112, 139, 7, 133, 184, 107, 1, 136, 0, 152, 39, 129, 39, 0, 255, 255, 255, 255, 255, 255, 255, 255, 255, 255, 255, 255, 255, 255, 255, 255, 255, 255, 255, 255, 255, 255, 255, 255, 255, 255, 255, 255, 255, 255, 255, 255, 255, 255, 255, 255, 1, 2, 3, 4, 5, 6, 7, 8, 9, 10, 11, 12, 13, 14, 15, 16, 3, 2, 7, 8, 3, 3, 9, 10, 11, 12, 13, 14, 15, 0, 0, 0, 0, 0, 0, 0, 0, 0, 0, 0, 0, 0, 0, 0, 0, 0, 0, 0, 0, 0, 0, 0, 0, 0, 0, 0, 1, 2, 3, 4, 5, 6, 7, 8, 9, 10, 11, 12, 13, 14, 15, 16, 3, 2, 7, 8, 1, 2, 3, 4, 5, 6, 7, 8, 9, 10, 11, 12, 13, 14, 15, 16, 1, 2, 3, 4, 5, 6, 7, 8, 9, 10, 11, 12, 13, 14, 15, 16, 3, 3, 9, 10, 1, 2, 170, 170, 170, 170, 170, 170, 170, 170, 170, 170, 170, 170, 170, 170, 170, 170, 170, 170, 170, 170, 170, 170, 170, 170, 170, 170, 170, 170, 170, 170, 170, 170, 5, 0, 0, 7, 208, 0, 0, 31, 64, 0, 0, 7, 208, 0, 0, 31, 64, 4, 1, 2, 3, 4, 4, 1, 2, 3, 4, 4, 1, 2, 3, 4, 0, 173, 255, 255, 255, 255, 255, 255, 255, 255, 255, 255, 255, 255, 255, 255, 255, 255, 255, 255, 255, 255, 255, 255, 255, 255, 255, 255, 255, 255, 255, 255, 255, 255, 255, 255, 255, 255, 255, 255, 255, 255, 255, 255, 255, 255, 255, 255, 255, 255, 255, 255, 255, 255, 255, 255, 255, 255, 255, 255, 255, 255, 255, 255, 255, 255, 4, 1, 2, 3, 4, 4, 1, 2, 3, 4, 1, 3, 4, 1, 2, 3, 4, 4, 1, 2, 3, 4, 2, 0, 34, 0, 12, 116, 101, 115, 116, 46, 97, 112, 110, 46, 99, 111, 109, 18, 52, 86, 120, 18, 52, 86, 120, 18, 52, 86, 120, 1, 2, 3, 4, 5, 6, 7, 8, 0, 35, 0, 13, 116, 101, 115, 116, 50, 46, 97, 112, 110, 46, 99, 111, 109, 18, 52, 86, 120, 18, 52, 86, 120, 18, 52, 86, 120, 1, 2, 3, 4, 5, 6, 7, 8, 4, 1, 2, 3, 4, 4, 1, 2, 3, 4, 2, 255, 0, 6, 0, 7, 219, 7, 0, 1, 0] = .ok { header := { msgtype := 133, piggyback := false, prio := none, length := 427, teid := (some 2759366016), sqn := 4925726 }, imsi := none, fteid_control := { t := 87, length := 9, ins := 0, interface := 6, teid := 663302000, ipv4 := (some 2332526008), ipv6 := none }, ue_eps_pdn := [], sgw_fteid := none, fqdns := [], mmctx := (.MmContextEpsSecurityContextQuadruplets { t := 107, length := 392, ins := 0, sec_mode := .EpsSecurityContextAndQuadruplets, ksi := 0, nas_integrity := .NoIntegrity, nas_cipher := .Eea1, nas_dl_count := 2556159, nas_ul_count := 16777215, kasme := [255, 255, 255, 255, 255, 255, 255, 255, 255, 255, 255, 255, 255, 255, 255, 255, 255, 255, 255, 255, 255, 255, 255, 255, 255, 255, 255, 255, 255, 255, 255, 255], auth_quadruplets := (some [{ rand := [1, 2, 3, 4, 5, 6, 7, 8, 9, 10, 11, 12, 13, 14, 15, 16], xres := [2, 7, 8], autn := [3, 9, 10], kasme := [11, 12, 13, 14, 15, 0, 0, 0, 0, 0, 0, 0, 0, 0, 0, 0, 0, 0, 0, 0, 0, 0, 0, 0, 0, 0, 0, 0, 0, 0, 0, 0] }]), auth_quintuplets := (some [{ rand := [1, 2, 3, 4, 5, 6, 7, 8, 9, 10, 11, 12, 13, 14, 15, 16], xres := [2, 7, 8], ck := [1, 2, 3, 4, 5, 6, 7, 8, 9, 10, 11, 12, 13, 14, 15, 16], ik := [1, 2, 3, 4, 5, 6, 7, 8, 9, 10, 11, 12, 13, 14, 15, 16], autn := [3, 9, 10] }]), drx_params := (some [1, 2]), next_hop := (some [170, 170, 170, 170, 170, 170, 170, 170, 170, 170, 170, 170, 170, 170, 170, 170, 170, 170, 170, 170, 170, 170, 170, 170, 170, 170, 170, 170, 170, 170, 170, 170]), ncc := (some 5), subscr_ue_ambr := (some { uplink := 2000, downlink := 8000 }), used_ue_ambr := (some { uplink := 2000, downlink := 8000 }), ue_ntwk_cap := (some [1, 2, 3, 4]), ms_ntwk_cap := (some [1, 2, 3, 4]), mei := (some [1, 2, 3, 4]), access_res := (AccessRestrictionMM.ofU8 0), old_eps_sec_ctx := (some { old_ksi := 5, old_ncc := (some 5), old_kasme := [255, 255, 255, 255, 255, 255, 255, 255, 255, 255, 255, 255, 255, 255, 255, 255, 255, 255, 255, 255, 255, 255, 255, 255, 255, 255, 255, 255, 255, 255, 255, 255], old_next_hop := (some [255, 255, 255, 255, 255, 255, 255, 255, 255, 255, 255, 255, 255, 255, 255, 255, 255, 255, 255, 255, 255, 255, 255, 255, 255, 255, 255, 255, 255, 255, 255, 255]) }), vdn_pref_ue_usage := (some [1, 2, 3, 4]), ue_radio_cap_for_paging := (some [1, 2, 3, 4]), ext_access_res := (some (ExtendedAccessRestrictionMM.ofU8 3)), ue_add_security_cap := (some [1, 2, 3, 4]), ue_nr_security_cap := (some [1, 2, 3, 4]), apn_rate_controls := (some [{ apn := ['t', 'e', 's', 't', '.', 'a', 'p', 'n', '.', 'c', 'o', 'm'], uplink_rate_limit := 305419896, nbr_of_exception_reports := 305419896, downlink_rate_limit := 305419896, apn_rate_control_status_validity := [1, 2, 3, 4, 5, 6, 7, 8] }, { apn := ['t', 'e', 's', 't', '2', '.', 'a', 'p', 'n', '.', 'c', 'o', 'm'], uplink_rate_limit := 305419896, nbr_of_exception_reports := 305419896, downlink_rate_limit := 305419896, apn_rate_control_status_validity := [1, 2, 3, 4, 5, 6, 7, 8] }]), core_nw_res := (some [1, 2, 3, 4]), ue_radio_cap_id := (some [1, 2, 3, 4]), ensct := (some 2) }), indication := none, f_containers := [], target_id := none, ip_addresses := [], f_causes := [], source_id := none, selected_plmnid := none, recovery := none, trace_info := none, rfsp_indexes := [], csg_id := none, cmi := none, ue_time_zone := none, srv_network := none, mme_sgsn_ldn := none, add_mmctx_for_srvcc := none, add_flags_for_srvcc := none, stnsr := none, msisdns := [], mdt_cfg := none, uci := none, monitor_event_info := [], monitor_even_ext_info := [], ue_usage_type := none, scef_pdn_connections := [], src_udp_port := none, srv_plmn_rate_cntrl := none, ext_trace_info := none, add_rrm_policy_index := [], subcr_v2x_info := none, iwk_scef_id := none, alt_imsi := none, private_ext := [{ t := 255, length := 6, ins := 0, enterprise_id := 2011, value := [7, 0, 1, 0] }] } := by
  decide +kernel

-- `test_fwd_reloc_complete_req_marshal` (gtpv2/messages/forwardrelocationreq.rs:660)
example : ForwardRelocationRequest.codec.marshal ({ header := { msgtype := 133, piggyback := false, prio := none, length := 427, teid := (some 2759366016), sqn := 4925726 }, imsi := none, fteid_control := { t := 87, length := 9, ins := 0, interface := 6, teid := 663302000, ipv4 := (some 2332526008), ipv6 := none }, ue_eps_pdn := [], sgw_fteid := none, fqdns := [], mmctx := (.MmContextEpsSecurityContextQuadruplets { t := 107, length := 392, ins := 0, sec_mode := .EpsSecurityContextAndQuadruplets, ksi := 0, nas_integrity := .NoIntegrity, nas_cipher := .Eea1, nas_dl_count := 2556159, nas_ul_count := 16777215, kasme := [255, 255, 255, 255, 255, 255, 255, 255, 255, 255, 255, 255, 255, 255, 255, 255, 255, 255, 255, 255, 255, 255, 255, 255, 255, 255, 255, 255, 255, 255, 255, 255], auth_quadruplets := (some [{ rand := [1, 2, 3, 4, 5, 6, 7, 8, 9, 10, 11, 12, 13, 14, 15, 16], xres := [2, 7, 8], autn := [3, 9, 10], kasme := [11, 12, 13, 14, 15, 0, 0, 0, 0, 0, 0, 0, 0, 0, 0, 0, 0, 0, 0, 0, 0, 0, 0, 0, 0, 0, 0, 0, 0, 0, 0, 0] }]), auth_quintuplets := (some [{ rand := [1, 2, 3, 4, 5, 6, 7, 8, 9, 10, 11, 12, 13, 14, 15, 16], xres := [2, 7, 8], ck := [1, 2, 3, 4, 5, 6, 7, 8, 9, 10, 11, 12, 13, 14, 15, 16], ik := [1, 2, 3, 4, 5, 6, 7, 8, 9, 10, 11, 12, 13, 14, 15, 16], autn := [3, 9, 10] }]), drx_params := (some [1, 2]), next_hop := (some [170, 170, 170, 170, 170, 170, 170, 170, 170, 170, 170, 170, 170, 170, 170, 170, 170, 170, 170, 170, 170, 170, 170, 170, 170, 170, 170, 170, 170, 170, 170, 170]), ncc := (some 5), subscr_ue_ambr := (some { uplink := 2000, downlink := 8000 }), used_ue_ambr := (some { uplink := 2000, downlink := 8000 }), ue_ntwk_cap := (some [1, 2, 3, 4]), ms_ntwk_cap := (some [1, 2, 3, 4]), mei := (some [1, 2, 3, 4]), access_res := (AccessRestrictionMM.ofU8 0), old_eps_sec_ctx := (some { old_ksi := 5, old_ncc := (some 5), old_kasme := [255, 255, 255, 255, 255, 255, 255, 255, 255, 255, 255, 255, 255, 255, 255, 255, 255, 255, 255, 255, 255, 255, 255, 255, 255, 255, 255, 255, 255, 255, 255, 255], old_next_hop := (some [255, 255, 255, 255, 255, 255, 255, 255, 255, 255, 255, 255, 255, 255, 255, 255, 255, 255, 255, 255, 255, 255, 255, 255, 255, 255, 255, 255, 255, 255, 255, 255]) }), vdn_pref_ue_usage := (some [1, 2, 3, 4]), ue_radio_cap_for_paging := (some [1, 2, 3, 4]), ext_access_res := (some (ExtendedAccessRestrictionMM.ofU8 3)), ue_add_security_cap := (some [1, 2, 3, 4]), ue_nr_security_cap := (some [1, 2, 3, 4]), apn_rate_controls := (some [{ apn := ['t', 'e', 's', 't', '.', 'a', 'p', 'n', '.', 'c', 'o', 'm'], uplink_rate_limit := 305419896, nbr_of_exception_reports := 305419896, downlink_rate_limit := 305419896, apn_rate_control_status_validity := [1, 2, 3, 4, 5, 6, 7, 8] }, { apn := ['t', 'e', 's', 't', '2', '.', 'a', 'p', 'n', '.', 'c', 'o', 'm'], uplink_rate_limit := 305419896, nbr_of_exception_reports := 305419896, downlink_rate_limit := 305419896, apn_rate_control_status_validity := [1, 2, 3, 4, 5, 6, 7, 8] }]), core_nw_res := (some [1, 2, 3, 4]), ue_radio_cap_id := (some [1, 2, 3, 4]), ensct := (some 2) }), indication := none, f_containers := [], target_id := none, ip_addresses := [], f_causes := [], source_id := none, selected_plmnid := none, recovery := none, trace_info := none, rfsp_indexes := [], csg_id := none, cmi := none, ue_time_zone := none, srv_network := none, mme_sgsn_ldn := none, add_mmctx_for_srvcc := none, add_flags_for_srvcc := none, stnsr := none, msisdns := [], mdt_cfg := none, uci := none, monitor_event_info := [], monitor_even_ext_info := [], ue_usage_type := none, scef_pdn_connections := [], src_udp_port := none, srv_plmn_rate_cntrl := none, ext_trace_info := none, add_rrm_policy_index := [], subcr_v2x_info := none, iwk_scef_id := none, alt_imsi := none, private_ext := [{ t := 255, length := 6, ins := 0, enterprise_id := 2011, value := [7, 0, 1, 0] }] } : ForwardRelocationRequest) = [72, 133, 1, 171, 164, 120, 149, 128, 75, 41, 30, 0, 87, 0, 9, 0, 134, 39, 137, 47, 112, 139, 7, 133, 184, 107, 1, 136, 0, 152, 39, 129, 39, 0, 255, 255, 255, 255, 255, 255, 255, 255, 255, 255, 255, 255, 255, 255, 255, 255, 255, 255, 255, 255, 255, 255, 255, 255, 255, 255, 255, 255, 255, 255, 255, 255, 255, 255, 255, 255, 1, 2, 3, 4, 5, 6, 7, 8, 9, 10, 11, 12, 13, 14, 15, 16, 3, 2, 7, 8, 3, 3, 9, 10, 11, 12, 13, 14, 15, 0, 0, 0, 0, 0, 0, 0, 0, 0, 0, 0, 0, 0, 0, 0, 0, 0, 0, 0, 0, 0, 0, 0, 0, 0, 0, 0, 1, 2, 3, 4, 5, 6, 7, 8, 9, 10, 11, 12, 13, 14, 15, 16, 3, 2, 7, 8, 1, 2, 3, 4, 5, 6, 7, 8, 9, 10, 11, 12, 13, 14, 15, 16, 1, 2, 3, 4, 5, 6, 7, 8, 9, 10, 11, 12, 13, 14, 15, 16, 3, 3, 9, 10, 1, 2, 170, 170, 170, 170, 170, 170, 170, 170, 170, 170, 170, 170, 170, 170, 170, 170, 170, 170, 170, 170, 170, 170, 170, 170, 170, 170, 170, 170, 170, 170, 170, 170, 5, 0, 0, 7, 208, 0, 0, 31, 64, 0, 0, 7, 208, 0, 0, 31, 64, 4, 1, 2, 3, 4, 4, 1, 2, 3, 4, 4, 1, 2, 3, 4, 0, 173, 255, 255, 255, 255, 255, 255, 255, 255, 255, 255, 255, 255, 255, 255, 255, 255, 255, 255, 255, 255, 255, 255, 255, 255, 255, 255, 255, 255, 255, 255, 255, 255, 255, 255, 255, 255, 255, 255, 255, 255, 255, 255, 255, 255, 255, 255, 255, 255, 255, 255, 255, 255, 255, 255, 255, 255, 255, 255, 255, 255, 255, 255, 255, 255, 4, 1, 2, 3, 4, 4, 1, 2, 3, 4, 1, 3, 4, 1, 2, 3, 4, 4, 1, 2, 3, 4, 2, 0, 34, 0, 12, 116, 101, 115, 116, 46, 97, 112, 110, 46, 99, 111, 109, 18, 52, 86, 120, 18, 52, 86, 120, 18, 52, 86, 120, 1, 2, 3, 4, 5, 6, 7, 8, 0, 35, 0, 13, 116, 101, 115, 116, 50, 46, 97, 112, 110, 46, 99, 111, 109, 18, 52, 86, 120, 18, 52, 86, 120, 18, 52, 86, 120, 1, 2, 3, 4, 5, 6, 7, 8, 4, 1, 2, 3, 4, 4, 1, 2, 3, 4, 2, 255, 0, 6, 0, 7, 219, 7, 0, 1, 0] := by
  decide +kernel

-- `test_fwd_reloc_resp_unmarshal` (gtpv2/messages/forwardrelocationresp.rs:221)
example : ForwardRelocationResponse.codec.unmarshal .debug [72, 134, 0, 125, 164, 120, 149, 128, 75, 41, 30, 0, 2, 0, 2, 0, 16, 0, 87, 0, 9, 0, 134, 39, 137, 47, 112, 139, 7, 133, 184, 93, 0, 31, 0, 73, 0, 1, 0, 5, 80, 0, 22, 0, 100, 9, 0, 0, 0, 0, 0, 0, 0, 0, 0, 0, 0, 0, 0, 0, 0, 0, 0, 0, 0, 0, 93, 0, 31, 3, 73, 0, 1, 0, 6, 80, 0, 22, 0, 100, 9, 0, 0, 0, 0, 0, 0, 0, 0, 0, 0, 0, 0, 0, 0, 0, 0, 0, 0, 0, 0, 175, 0, 10, 0, 9, 145, 153, 65, 80, 1, 145, 22, 120, 243, 175, 0, 10, 2, 9, 145, 153, 65, 80, 1, 145, 22, 120, 243] = .ok { header := { msgtype := 134, piggyback := false, prio := none, length := 125, teid := (some 2759366016), sqn := 4925726 }, cause := { t := 2, length := 2, ins := 0, value := 16, pce := false, bce := false, cs := false, offend_ie_type := none }, fteid_control := (some { t := 87, length := 9, ins := 0, interface := 6, teid := 663302000, ipv4 := (some 2332526008), ipv6 := none }), indication := none, bearer_ctxs := [{ t := 93, length := 31, ins := 0, ebi := { t := 73, length := 1, ins := 0, value := 5 }, cause := none, tft := none, fteids := [], bearer_qos := (some { t := 80, length := 22, ins := 0, pre_emption_vulnerability := 0, priority_level := 9, pre_emption_capability := 1, qci := 9, maxbr_ul := 0, maxbr_dl := 0, gbr_ul := 0, gbr_dl := 0 }), charging_id := none, bearer_flags := none, pco := none, apco := none, epco := none, max_packet_loss := none, ran_nas_cause := none, bss_container := none, transaction_id := none }, { t := 93, length := 31, ins := 3, ebi := { t := 73, length := 1, ins := 0, value := 6 }, cause := none, tft := none, fteids := [], bearer_qos := (some { t := 80, length := 22, ins := 0, pre_emption_vulnerability := 0, priority_level := 9, pre_emption_capability := 1, qci := 9, maxbr_ul := 0, maxbr_dl := 0, gbr_ul := 0, gbr_dl := 0 }), charging_id := none, bearer_flags := none, pco := none, apco := none, epco := none, max_packet_loss := none, ran_nas_cause := none, bss_container := none, transaction_id := none }], f_causes := [], f_containers := [], mme_sgsn_ldn := none, sgsn_fqdn := none, mme_fqdn := none, node_nbrs := [{ t := 175, length := 10, ins := 0, node_number := ['9', '9', '1', '4', '0', '5', '1', '0', '1', '9', '6', '1', '8', '7', '3'] }, { t := 175, length := 10, ins := 2, node_number := ['9', '9', '1', '4', '0', '5', '1', '0', '1', '9', '6', '1', '8', '7', '3'] }], node_ids := [], srvcc_reject_cause := none, private_ext := [] } := by
  decide +kernel

-- `test_fwd_reloc_resp_marshal` (gtpv2/messages/forwardrelocationresp.rs:326)
example : ForwardRelocationResponse.codec.marshal ({ header := { msgtype := 134, piggyback := false, prio := none, length := 125, teid := (some 2759366016), sqn := 4925726 }, cause := { t := 2, length := 2, ins := 0, value := 16, pce := false, bce := false, cs := false, offend_ie_type := none }, fteid_control := (some { t := 87, length := 9, ins := 0, interface := 6, teid := 663302000, ipv4 := (some 2332526008), ipv6 := none }), indication := none, bearer_ctxs := [{ t := 93, length := 31, ins := 0, ebi := { t := 73, length := 1, ins := 0, value := 5 }, cause := none, tft := none, fteids := [], bearer_qos := (some { t := 80, length := 22, ins := 0, pre_emption_vulnerability := 0, priority_level := 9, pre_emption_capability := 1, qci := 9, maxbr_ul := 0, maxbr_dl := 0, gbr_ul := 0, gbr_dl := 0 }), charging_id := none, bearer_flags := none, pco := none, apco := none, epco := none, max_packet_loss := none, ran_nas_cause := none, bss_container := none, transaction_id := none }, { t := 93, length := 31, ins := 3, ebi := { t := 73, length := 1, ins := 0, value := 6 }, cause := none, tft := none, fteids := [], bearer_qos := (some { t := 80, length := 22, ins := 0, pre_emption_vulnerability := 0, priority_level := 9, pre_emption_capability := 1, qci := 9, maxbr_ul := 0, maxbr_dl := 0, gbr_ul := 0, gbr_dl := 0 }), charging_id := none, bearer_flags := none, pco := none, apco := none, epco := none, max_packet_loss := none, ran_nas_cause := none, bss_container := none, transaction_id := none }], f_causes := [], f_containers := [], mme_sgsn_ldn := none, sgsn_fqdn := none, mme_fqdn := none, node_nbrs := [{ t := 175, length := 10, ins := 0, node_number := ['9', '9', '1', '4', '0', '5', '1', '0', '1', '9', '6', '1', '8', '7', '3'] }, { t := 175, length := 10, ins := 2, node_number := ['9', '9', '1', '4', '0', '5', '1', '0', '1', '9', '6', '1', '8', '7', '3'] }], node_ids := [], srvcc_reject_cause := none, private_ext := [] } : ForwardRelocationResponse) = [72, 134, 0, 125, 164, 120, 149, 128, 75, 41, 30, 0, 2, 0, 2, 0, 16, 0, 87, 0, 9, 0, 134, 39, 137, 47, 112, 139, 7, 133, 184, 93, 0, 31, 0, 73, 0, 1, 0, 5, 80, 0, 22, 0, 100, 9, 0, 0, 0, 0, 0, 0, 0, 0, 0, 0, 0, 0, 0, 0, 0, 0, 0, 0, 0, 0, 93, 0, 31, 3, 73, 0, 1, 0, 6, 80, 0, 22, 0, 100, 9, 0, 0, 0, 0, 0, 0, 0, 0, 0, 0, 0, 0, 0, 0, 0, 0, 0, 0, 0, 0, 175, 0, 10, 0, 9, 145, 153, 65, 80, 1, 145, 22, 120, 243, 175, 0, 10, 2, 9, 145, 153, 65, 80, 1, 145, 22, 120, 243] := by
  decide +kernel

-- `test_identification_req_unmarshal` (gtpv2/messages/identificationreq.rs:188)
example : IdentificationRequest.codec.unmarshal .debug [72, 128, 0, 86, 0, 0, 0, 0, 0, 0, 104, 0, 117, 0, 10, 0, 153, 249, 16, 1, 44, 10, 255, 255, 255, 255, 86, 0, 8, 0, 4, 98, 242, 16, 11, 217, 1, 255, 111, 0, 4, 0, 39, 255, 170, 17, 112, 0, 4, 0, 39, 255, 170, 17, 116, 0, 6, 0, 0, 170, 187, 204, 221, 238, 74, 0, 4, 0, 10, 10, 10, 10, 126, 0, 2, 0, 18, 52, 113, 0, 1, 0, 3, 83, 0, 3, 0, 153, 249, 16] = .ok { header := { msgtype := 128, piggyback := false, prio := none, length := 86, teid := (some 0), sqn := 104 }, guti := (some { t := 117, length := 10, ins := 0, mcc := 999, mnc := 1, mnc_is_three_digits := false, mmegi := 300, mmec := 10, mtmsi := 4294967295 }), rai := (some { t := 86, length := 8, ins := 0, loc := [(.Rai { mcc := 262, mnc := 1, mnc_is_three_digits := false, lac := 3033, rac := 1 })] }), ptmsi := (some { t := 111, length := 4, ins := 0, ptmsi := 671066641 }), ptmsi_sig := (some { t := 112, length := 4, ins := 0, ptmsi_sig := 671066641 }), carm := (some { t := 116, length := 6, ins := 0, message := (.AttachRequest [170, 187, 204, 221, 238]) }), ip_cplane := (some { t := 74, length := 4, ins := 0, ip := (.V4 168430090) }), udp_src_port := (some { t := 126, length := 2, ins := 0, port := 4660 }), hop_counter := (some { t := 113, length := 1, ins := 0, hop_counter := 3 }), target_plmnid := (some { t := 83, length := 3, ins := 0, mcc := 999, mnc := 1, mnc_is_three_digits := false }), private_ext := [] } := by
  decide +kernel

-- `test_identification_req_marshal` (gtpv2/messages/identificationreq.rs:267)
example : IdentificationRequest.codec.marshal ({ header := { msgtype := 128, piggyback := false, prio := none, length := 86, teid := (some 0), sqn := 104 }, guti := (some { t := 117, length := 10, ins := 0, mcc := 999, mnc := 1, mnc_is_three_digits := false, mmegi := 300, mmec := 10, mtmsi := 4294967295 }), rai := (some { t := 86, length := 25, ins := 0, loc := [(.Rai { mcc := 262, mnc := 1, mnc_is_three_digits := false, lac := 3033, rac := 1 })] }), ptmsi := (some { t := 111, length := 4, ins := 0, ptmsi := 671066641 }), ptmsi_sig := (some { t := 112, length := 4, ins := 0, ptmsi_sig := 671066641 }), carm := (some { t := 116, length := 6, ins := 0, message := (.AttachRequest [170, 187, 204, 221, 238]) }), ip_cplane := (some { t := 74, length := 4, ins := 0, ip := (.V4 168430090) }), udp_src_port := (some { t := 126, length := 2, ins := 0, port := 4660 }), hop_counter := (some { t := 113, length := 1, ins := 0, hop_counter := 3 }), target_plmnid := (some { t := 83, length := 3, ins := 0, mcc := 999, mnc := 1, mnc_is_three_digits := false }), private_ext := [] } : IdentificationRequest) = [72, 128, 0, 86, 0, 0, 0, 0, 0, 0, 104, 0, 117, 0, 10, 0, 153, 249, 16, 1, 44, 10, 255, 255, 255, 255, 86, 0, 8, 0, 4, 98, 242, 16, 11, 217, 1, 255, 111, 0, 4, 0, 39, 255, 170, 17, 112, 0, 4, 0, 39, 255, 170, 17, 116, 0, 6, 0, 0, 170, 187, 204, 221, 238, 74, 0, 4, 0, 10, 10, 10, 10, 126, 0, 2, 0, 18, 52, 113, 0, 1, 0, 3, 83, 0, 3, 0, 153, 249, 16] := by
  decide +kernel

-- `test_identification_resp_unmarshal` (gtpv2/messages/identificationresp.rs:177)
example : IdentificationResponse.codec.unmarshal .debug [72, 129, 1, 240, 0, 0, 0, 0, 0, 0, 104, 0, 2, 0, 2, 0, 10, 0, 1, 0, 8, 0, 153, 65, 85, 1, 145, 22, 120, 243, 107, 1, 136, 0, 152, 39, 129, 39, 0, 255, 255, 255, 255, 255, 255, 255, 255, 255, 255, 255, 255, 255, 255, 255, 255, 255, 255, 255, 255, 255, 255, 255, 255, 255, 255, 255, 255, 255, 255, 255, 255, 255, 255, 255, 255, 1, 2, 3, 4, 5, 6, 7, 8, 9, 10, 11, 12, 13, 14, 15, 16, 3, 2, 7, 8, 3, 3, 9, 10, 11, 12, 13, 14, 15, 0, 0, 0, 0, 0, 0, 0, 0, 0, 0, 0, 0, 0, 0, 0, 0, 0, 0, 0, 0, 0, 0, 0, 0, 0, 0, 0, 1, 2, 3, 4, 5, 6, 7, 8, 9, 10, 11, 12, 13, 14, 15, 16, 3, 2, 7, 8, 1, 2, 3, 4, 5, 6, 7, 8, 9, 10, 11, 12, 13, 14, 15, 16, 1, 2, 3, 4, 5, 6, 7, 8, 9, 10, 11, 12, 13, 14, 15, 16, 3, 3, 9, 10, 1, 2, 170, 170, 170, 170, 170, 170, 170, 170, 170, 170, 170, 170, 170, 170, 170, 170, 170, 170, 170, 170, 170, 170, 170, 170, 170, 170, 170, 170, 170, 170, 170, 170, 5, 0, 0, 7, 208, 0, 0, 31, 64, 0, 0, 7, 208, 0, 0, 31, 64, 4, 1, 2, 3, 4, 4, 1, 2, 3, 4, 4, 1, 2, 3, 4, 0, 173, 255, 255, 255, 255, 255, 255, 255, 255, 255, 255, 255, 255, 255, 255, 255, 255, 255, 255, 255, 255, 255, 255, 255, 255, 255, 255, 255, 255, 255, 255, 255, 255, 255, 255, 255, 255, 255, 255, 255, 255, 255, 255, 255, 255, 255, 255, 255, 255, 255, 255, 255, 255, 255, 255, 255, 255, 255, 255, 255, 255, 255, 255, 255, 255, 4, 1, 2, 3, 4, 4, 1, 2, 3, 4, 1, 3, 4, 1, 2, 3, 4, 4, 1, 2, 3, 4, 2, 0, 34, 0, 12, 116, 101, 115, 116, 46, 97, 112, 110, 46, 99, 111, 109, 18, 52, 86, 120, 18, 52, 86, 120, 18, 52, 86, 120, 1, 2, 3, 4, 5, 6, 7, 8, 0, 35, 0, 13, 116, 101, 115, 116, 50, 46, 97, 112, 110, 46, 99, 111, 109, 18, 52, 86, 120, 18, 52, 86, 120, 18, 52, 86, 120, 1, 2, 3, 4, 5, 6, 7, 8, 4, 1, 2, 3, 4, 4, 1, 2, 3, 4, 2, 187, 0, 3, 0, 3, 3, 3, 189, 0, 31, 160, 0, 0, 255, 255, 16, 115, 99, 101, 102, 46, 101, 120, 97, 109, 112, 108, 101, 46, 99, 111, 109, 0, 255, 0, 0, 0, 0, 255, 255, 238, 170, 206, 0, 28, 0, 3, 0, 0, 0, 0, 11, 101, 120, 97, 109, 112, 108, 101, 46, 99, 111, 109, 0, 0, 255, 255, 255, 255, 255, 255, 255, 255, 255] = .ok { header := { msgtype := 129, piggyback := false, prio := none, length := 496, teid := (some 0), sqn := 104 }, cause := { t := 2, length := 2, ins := 0, value := 10, pce := false, bce := false, cs := false, offend_ie_type := none }, imsi := (some { t := 1, length := 8, ins := 0, imsi := ['9', '9', '1', '4', '5', '5', '1', '0', '1', '9', '6', '1', '8', '7', '3'] }), mmctx := (some (.MmContextEpsSecurityContextQuadruplets { t := 107, length := 392, ins := 0, sec_mode := .EpsSecurityContextAndQuadruplets, ksi := 0, nas_integrity := .NoIntegrity, nas_cipher := .Eea1, nas_dl_count := 2556159, nas_ul_count := 16777215, kasme := [255, 255, 255, 255, 255, 255, 255, 255, 255, 255, 255, 255, 255, 255, 255, 255, 255, 255, 255, 255, 255, 255, 255, 255, 255, 255, 255, 255, 255, 255, 255, 255], auth_quadruplets := (some [{ rand := [1, 2, 3, 4, 5, 6, 7, 8, 9, 10, 11, 12, 13, 14, 15, 16], xres := [2, 7, 8], autn := [3, 9, 10], kasme := [11, 12, 13, 14, 15, 0, 0, 0, 0, 0, 0, 0, 0, 0, 0, 0, 0, 0, 0, 0, 0, 0, 0, 0, 0, 0, 0, 0, 0, 0, 0, 0] }]), auth_quintuplets := (some [{ rand := [1, 2, 3, 4, 5, 6, 7, 8, 9, 10, 11, 12, 13, 14, 15, 16], xres := [2, 7, 8], ck := [1, 2, 3, 4, 5, 6, 7, 8, 9, 10, 11, 12, 13, 14, 15, 16], ik := [1, 2, 3, 4, 5, 6, 7, 8, 9, 10, 11, 12, 13, 14, 15, 16], autn := [3, 9, 10] }]), drx_params := (some [1, 2]), next_hop := (some [170, 170, 170, 170, 170, 170, 170, 170, 170, 170, 170, 170, 170, 170, 170, 170, 170, 170, 170, 170, 170, 170, 170, 170, 170, 170, 170, 170, 170, 170, 170, 170]), ncc := (some 5), subscr_ue_ambr := (some { uplink := 2000, downlink := 8000 }), used_ue_ambr := (some { uplink := 2000, downlink := 8000 }), ue_ntwk_cap := (some [1, 2, 3, 4]), ms_ntwk_cap := (some [1, 2, 3, 4]), mei := (some [1, 2, 3, 4]), access_res := (AccessRestrictionMM.ofU8 0), old_eps_sec_ctx := (some { old_ksi := 5, old_ncc := (some 5), old_kasme := [255, 255, 255, 255, 255, 255, 255, 255, 255, 255, 255, 255, 255, 255, 255, 255, 255, 255, 255, 255, 255, 255, 255, 255, 255, 255, 255, 255, 255, 255, 255, 255], old_next_hop := (some [255, 255, 255, 255, 255, 255, 255, 255, 255, 255, 255, 255, 255, 255, 255, 255, 255, 255, 255, 255, 255, 255, 255, 255, 255, 255, 255, 255, 255, 255, 255, 255]) }), vdn_pref_ue_usage := (some [1, 2, 3, 4]), ue_radio_cap_for_paging := (some [1, 2, 3, 4]), ext_access_res := (some (ExtendedAccessRestrictionMM.ofU8 3)), ue_add_security_cap := (some [1, 2, 3, 4]), ue_nr_security_cap := (some [1, 2, 3, 4]), apn_rate_controls := (some [{ apn := ['t', 'e', 's', 't', '.', 'a', 'p', 'n', '.', 'c', 'o', 'm'], uplink_rate_limit := 305419896, nbr_of_exception_reports := 305419896, downlink_rate_limit := 305419896, apn_rate_control_status_validity := [1, 2, 3, 4, 5, 6, 7, 8] }, { apn := ['t', 'e', 's', 't', '2', '.', 'a', 'p', 'n', '.', 'c', 'o', 'm'], uplink_rate_limit := 305419896, nbr_of_exception_reports := 305419896, downlink_rate_limit := 305419896, apn_rate_control_status_validity := [1, 2, 3, 4, 5, 6, 7, 8] }]), core_nw_res := (some [1, 2, 3, 4]), ue_radio_cap_id := (some [1, 2, 3, 4]), ensct := (some 2) })), trace_info := none, ue_usage_type := (some { t := 187, length := 3, ins := 0, number := [3, 3, 3] }), monitor_event_info := [{ t := 189, length := 31, ins := 0, nsui := true, nsur := false, nscf := false, scef_ref_id := 65535, scef_id := ['s', 'c', 'e', 'f', '.', 'e', 'x', 'a', 'm', 'p', 'l', 'e', '.', 'c', 'o', 'm'], rem_nbr_reports := 255, ext_scef_ref_id := (some 4294962858) }], monitor_even_ext_info := [{ t := 206, length := 28, ins := 0, scef_ref_id := 0, scef_id := ['e', 'x', 'a', 'm', 'p', 'l', 'e', '.', 'c', 'o', 'm'], rmplrt := (some 255), ext_scef_ref_id := (some 18446744073709551615) }], ext_trace_info := none, private_ext := [] } := by
  decide +kernel

-- `test_identification_resp_marshal` (gtpv2/messages/identificationresp.rs:352)
example : IdentificationResponse.codec.marshal ({ header := { msgtype := 129, piggyback := false, prio := none, length := 496, teid := (some 0), sqn := 104 }, cause := { t := 2, length := 2, ins := 0, value := 10, pce := false, bce := false, cs := false, offend_ie_type := none }, imsi := (some { t := 1, length := 8, ins := 0, imsi := ['9', '9', '1', '4', '5', '5', '1', '0', '1', '9', '6', '1', '8', '7', '3'] }), mmctx := (some (.MmContextEpsSecurityContextQuadruplets { t := 107, length := 392, ins := 0, sec_mode := .EpsSecurityContextAndQuadruplets, ksi := 0, nas_integrity := .NoIntegrity, nas_cipher := .Eea1, nas_dl_count := 2556159, nas_ul_count := 16777215, kasme := [255, 255, 255, 255, 255, 255, 255, 255, 255, 255, 255, 255, 255, 255, 255, 255, 255, 255, 255, 255, 255, 255, 255, 255, 255, 255, 255, 255, 255, 255, 255, 255], auth_quadruplets := (some [{ rand := [1, 2, 3, 4, 5, 6, 7, 8, 9, 10, 11, 12, 13, 14, 15, 16], xres := [2, 7, 8], autn := [3, 9, 10], kasme := [11, 12, 13, 14, 15, 0, 0, 0, 0, 0, 0, 0, 0, 0, 0, 0, 0, 0, 0, 0, 0, 0, 0, 0, 0, 0, 0, 0, 0, 0, 0, 0] }]), auth_quintuplets := (some [{ rand := [1, 2, 3, 4, 5, 6, 7, 8, 9, 10, 11, 12, 13, 14, 15, 16], xres := [2, 7, 8], ck := [1, 2, 3, 4, 5, 6, 7, 8, 9, 10, 11, 12, 13, 14, 15, 16], ik := [1, 2, 3, 4, 5, 6, 7, 8, 9, 10, 11, 12, 13, 14, 15, 16], autn := [3, 9, 10] }]), drx_params := (some [1, 2]), next_hop := (some [170, 170, 170, 170, 170, 170, 170, 170, 170, 170, 170, 170, 170, 170, 170, 170, 170, 170, 170, 170, 170, 170, 170, 170, 170, 170, 170, 170, 170, 170, 170, 170]), ncc := (some 5), subscr_ue_ambr := (some { uplink := 2000, downlink := 8000 }), used_ue_ambr := (some { uplink := 2000, downlink := 8000 }), ue_ntwk_cap := (some [1, 2, 3, 4]), ms_ntwk_cap := (some [1, 2, 3, 4]), mei := (some [1, 2, 3, 4]), access_res := (AccessRestrictionMM.ofU8 0), old_eps_sec_ctx := (some { old_ksi := 5, old_ncc := (some 5), old_kasme := [255, 255, 255, 255, 255, 255, 255, 255, 255, 255, 255, 255, 255, 255, 255, 255, 255, 255, 255, 255, 255, 255, 255, 255, 255, 255, 255, 255, 255, 255, 255, 255], old_next_hop := (some [255, 255, 255, 255, 255, 255, 255, 255, 255, 255, 255, 255, 255, 255, 255, 255, 255, 255, 255, 255, 255, 255, 255, 255, 255, 255, 255, 255, 255, 255, 255, 255]) }), vdn_pref_ue_usage := (some [1, 2, 3, 4]), ue_radio_cap_for_paging := (some [1, 2, 3, 4]), ext_access_res := (some (ExtendedAccessRestrictionMM.ofU8 3)), ue_add_security_cap := (some [1, 2, 3, 4]), ue_nr_security_cap := (some [1, 2, 3, 4]), apn_rate_controls := (some [{ apn := ['t', 'e', 's', 't', '.', 'a', 'p', 'n', '.', 'c', 'o', 'm'], uplink_rate_limit := 305419896, nbr_of_exception_reports := 305419896, downlink_rate_limit := 305419896, apn_rate_control_status_validity := [1, 2, 3, 4, 5, 6, 7, 8] }, { apn := ['t', 'e', 's', 't', '2', '.', 'a', 'p', 'n', '.', 'c', 'o', 'm'], uplink_rate_limit := 305419896, nbr_of_exception_reports := 305419896, downlink_rate_limit := 305419896, apn_rate_control_status_validity := [1, 2, 3, 4, 5, 6, 7, 8] }]), core_nw_res := (some [1, 2, 3, 4]), ue_radio_cap_id := (some [1, 2, 3, 4]), ensct := (some 2) })), trace_info := none, ue_usage_type := (some { t := 187, length := 3, ins := 0, number := [3, 3, 3] }), monitor_event_info := [{ t := 189, length := 31, ins := 0, nsui := true, nsur := false, nscf := false, scef_ref_id := 65535, scef_id := ['s', 'c', 'e', 'f', '.', 'e', 'x', 'a', 'm', 'p', 'l', 'e', '.', 'c', 'o', 'm'], rem_nbr_reports := 255, ext_scef_ref_id := (some 4294962858) }], monitor_even_ext_info := [{ t := 206, length := 28, ins := 0, scef_ref_id := 0, scef_id := ['e', 'x', 'a', 'm', 'p', 'l', 'e', '.', 'c', 'o', 'm'], rmplrt := (some 255), ext_scef_ref_id := (some 18446744073709551615) }], ext_trace_info := none, private_ext := [] } : IdentificationResponse) = [72, 129, 1, 240, 0, 0, 0, 0, 0, 0, 104, 0, 2, 0, 2, 0, 10, 0, 1, 0, 8, 0, 153, 65, 85, 1, 145, 22, 120, 243, 107, 1, 136, 0, 152, 39, 129, 39, 0, 255, 255, 255, 255, 255, 255, 255, 255, 255, 255, 255, 255, 255, 255, 255, 255, 255, 255, 255, 255, 255, 255, 255, 255, 255, 255, 255, 255, 255, 255, 255, 255, 255, 255, 255, 255, 1, 2, 3, 4, 5, 6, 7, 8, 9, 10, 11, 12, 13, 14, 15, 16, 3, 2, 7, 8, 3, 3, 9, 10, 11, 12, 13, 14, 15, 0, 0, 0, 0, 0, 0, 0, 0, 0, 0, 0, 0, 0, 0, 0, 0, 0, 0, 0, 0, 0, 0, 0, 0, 0, 0, 0, 1, 2, 3, 4, 5, 6, 7, 8, 9, 10, 11, 12, 13, 14, 15, 16, 3, 2, 7, 8, 1, 2, 3, 4, 5, 6, 7, 8, 9, 10, 11, 12, 13, 14, 15, 16, 1, 2, 3, 4, 5, 6, 7, 8, 9, 10, 11, 12, 13, 14, 15, 16, 3, 3, 9, 10, 1, 2, 170, 170, 170, 170, 170, 170, 170, 170, 170, 170, 170, 170, 170, 170, 170, 170, 170, 170, 170, 170, 170, 170, 170, 170, 170, 170, 170, 170, 170, 170, 170, 170, 5, 0, 0, 7, 208, 0, 0, 31, 64, 0, 0, 7, 208, 0, 0, 31, 64, 4, 1, 2, 3, 4, 4, 1, 2, 3, 4, 4, 1, 2, 3, 4, 0, 173, 255, 255, 255, 255, 255, 255, 255, 255, 255, 255, 255, 255, 255, 255, 255, 255, 255, 255, 255, 255, 255, 255, 255, 255, 255, 255, 255, 255, 255, 255, 255, 255, 255, 255, 255, 255, 255, 255, 255, 255, 255, 255, 255, 255, 255, 255, 255, 255, 255, 255, 255, 255, 255, 255, 255, 255, 255, 255, 255, 255, 255, 255, 255, 255, 4, 1, 2, 3, 4, 4, 1, 2, 3, 4, 1, 3, 4, 1, 2, 3, 4, 4, 1, 2, 3, 4, 2, 0, 34, 0, 12, 116, 101, 115, 116, 46, 97, 112, 110, 46, 99, 111, 109, 18, 52, 86, 120, 18, 52, 86, 120, 18, 52, 86, 120, 1, 2, 3, 4, 5, 6, 7, 8, 0, 35, 0, 13, 116, 101, 115, 116, 50, 46, 97, 112, 110, 46, 99, 111, 109, 18, 52, 86, 120, 18, 52, 86, 120, 18, 52, 86, 120, 1, 2, 3, 4, 5, 6, 7, 8, 4, 1, 2, 3, 4, 4, 1, 2, 3, 4, 2, 187, 0, 3, 0, 3, 3, 3, 189, 0, 31, 160, 0, 0, 255, 255, 16, 115, 99, 101, 102, 46, 101, 120, 97, 109, 112, 108, 101, 46, 99, 111, 109, 0, 255, 0, 0, 0, 0, 255, 255, 238, 170, 206, 0, 28, 0, 3, 0, 0, 0, 0, 11, 101, 120, 97, 109, 112, 108, 101, 46, 99, 111, 109, 0, 0, 255, 255, 255, 255, 255, 255, 255, 255, 255] := by
  decide +kernel

-- `test_isr_status_ind_unmarshal` (gtpv2/messages/isrstatusindication.rs:103)
example : IsrStatusIndication.codec.unmarshal .debug [72, 157, 0, 23, 9, 9, 164, 86, 0, 0, 47, 0, 168, 0, 1, 0, 3, 255, 0, 6, 0, 0, 0, 1, 98, 156, 196] = .ok { header := { msgtype := 157, piggyback := false, prio := none, length := 23, teid := (some 151626838), sqn := 47 }, action_ind := { t := 168, length := 1, ins := 0, indication := .PagingStopIndication }, private_ext := [{ t := 255, length := 6, ins := 0, enterprise_id := 0, value := [1, 98, 156, 196] }] } := by
  decide +kernel

-- `test_isr_status_ind_marshal` (gtpv2/messages/isrstatusindication.rs:132)
example : IsrStatusIndication.codec.marshal ({ header := { msgtype := 157, piggyback := false, prio := none, length := 23, teid := (some 151626838), sqn := 47 }, action_ind := { t := 168, length := 1, ins := 0, indication := .PagingStopIndication }, private_ext := [{ t := 255, length := 6, ins := 0, enterprise_id := 0, value := [1, 98, 156, 196] }] } : IsrStatusIndication) = [72, 157, 0, 23, 9, 9, 164, 86, 0, 0, 47, 0, 168, 0, 1, 0, 3, 255, 0, 6, 0, 0, 0, 1, 98, 156, 196] := by
  decide +kernel

-- `test_mbms_session_start_req_unmarshal` (gtpv2/messages/mbmssessionstartreq.rs:249)
example : MbmsSessionStartRequest.codec.unmarshal .debug [72, 231, 0, 216, 0, 0, 0, 0, 0, 0, 104, 0, 87, 0, 25, 0, 202, 35, 237, 56, 32, 217, 171, 141, 242, 42, 4, 74, 69, 0, 4, 0, 0, 0, 0, 0, 0, 0, 0, 0, 39, 158, 0, 6, 0, 0, 1, 2, 3, 4, 5, 138, 0, 3, 0, 0, 200, 10, 139, 0, 5, 0, 1, 0, 0, 255, 255, 140, 0, 1, 0, 10, 141, 0, 2, 0, 10, 15, 80, 0, 22, 0, 100, 9, 0, 0, 0, 0, 0, 0, 0, 0, 0, 0, 0, 0, 0, 0, 0, 0, 0, 0, 0, 0, 142, 0, 27, 0, 0, 0, 255, 255, 4, 10, 10, 10, 1, 80, 0, 253, 0, 0, 0, 0, 0, 0, 0, 0, 0, 0, 0, 0, 0, 255, 0, 3, 0, 1, 0, 170, 153, 0, 1, 0, 255, 164, 0, 8, 0, 0, 0, 0, 0, 0, 0, 255, 255, 171, 0, 1, 0, 1, 142, 0, 27, 1, 0, 0, 255, 250, 4, 10, 10, 10, 1, 80, 0, 253, 0, 0, 0, 0, 0, 0, 0, 0, 0, 0, 0, 0, 0, 255, 0, 190, 0, 23, 0, 0, 3, 98, 242, 16, 1, 186, 64, 2, 98, 242, 16, 1, 186, 64, 3, 98, 242, 16, 1, 186, 64, 1] = .ok { header := { msgtype := 231, piggyback := false, prio := none, length := 216, teid := (some 0), sqn := 104 }, fteid_control := { t := 87, length := 25, ins := 0, interface := 10, teid := 602748960, ipv4 := (some 3651898866), ipv6 := (some ⟨3027626509713276928, 39⟩) }, tmgi := { t := 158, length := 6, ins := 0, tmgi := [0, 1, 2, 3, 4, 5] }, mbms_sess_dur := { t := 138, length := 3, ins := 0, seconds := 400, days := 10 }, mbms_svc_area := { t := 139, length := 5, ins := 0, mbms_sa := [0, 65535] }, mbms_sess_id := (some { t := 140, length := 1, ins := 0, mbms_sessionid := 10 }), mbms_flow_id := (some { t := 141, length := 2, ins := 0, mbms_flowid := 2575 }), qos_profile := { t := 80, length := 22, ins := 0, pre_emption_vulnerability := 0, priority_level := 9, pre_emption_capability := 1, qci := 9, maxbr_ul := 0, maxbr_dl := 0, gbr_ul := 0, gbr_dl := 0 }, mbms_ip_multicast_dist := { t := 142, length := 27, ins := 0, common_teid := 65535, ip_multicast_address_1 := (.V4 168430081), ip_multicast_address_2 := (.V6 ⟨71213169107795968, 255⟩), mbms_hc := .UncompressedHeader }, recovery := (some { t := 3, length := 1, ins := 0, recovery := 170 }), mbms_time_to_data_transfer := (some { t := 153, length := 1, ins := 0, mbms_time_to_data := 255 }), mbms_data_transfer_start := (some { t := 164, length := 8, ins := 0, seconds := 65535 }), mbms_flags := (some { t := 171, length := 1, ins := 0, msri := true, lmri := false }), mbms_alt_ip_multicast_dist := (some { t := 142, length := 27, ins := 1, common_teid := 65530, ip_multicast_address_1 := (.V4 168430081), ip_multicast_address_2 := (.V6 ⟨71213169107795968, 255⟩), mbms_hc := .UncompressedHeader }), mbms_cell_list := (some { t := 190, length := 23, ins := 0, ecgi_list := (some [{ mcc := 262, mnc := 1, mnc_is_three_digits := false, eci := 28983298 }, { mcc := 262, mnc := 1, mnc_is_three_digits := false, eci := 28983299 }, { mcc := 262, mnc := 1, mnc_is_three_digits := false, eci := 28983297 }]) }), private_ext := [] } := by
  decide +kernel

-- `test_mbms_session_start_req_marshal` (gtpv2/messages/mbmssessionstartreq.rs:384)
example : MbmsSessionStartRequest.codec.marshal ({ header := { msgtype := 231, piggyback := false, prio := none, length := 212, teid := (some 0), sqn := 104 }, fteid_control := { t := 87, length := 25, ins := 0, interface := 10, teid := 602748960, ipv4 := (some 3651898866), ipv6 := (some ⟨3027626509713276928, 39⟩) }, tmgi := { t := 158, length := 6, ins := 0, tmgi := [0, 1, 2, 3, 4, 5] }, mbms_sess_dur := { t := 138, length := 3, ins := 0, seconds := 400, days := 10 }, mbms_svc_area := { t := 139, length := 5, ins := 0, mbms_sa := [0, 65535] }, mbms_sess_id := (some { t := 140, length := 1, ins := 0, mbms_sessionid := 10 }), mbms_flow_id := (some { t := 141, length := 2, ins := 0, mbms_flowid := 2575 }), qos_profile := { t := 80, length := 22, ins := 0, pre_emption_vulnerability := 0, priority_level := 9, pre_emption_capability := 1, qci := 9, maxbr_ul := 0, maxbr_dl := 0, gbr_ul := 0, gbr_dl := 0 }, mbms_ip_multicast_dist := { t := 142, length := 27, ins := 0, common_teid := 65535, ip_multicast_address_1 := (.V4 168430081), ip_multicast_address_2 := (.V6 ⟨71213169107795968, 255⟩), mbms_hc := .UncompressedHeader }, recovery := (some { t := 3, length := 1, ins := 0, recovery := 170 }), mbms_time_to_data_transfer := (some { t := 153, length := 1, ins := 0, mbms_time_to_data := 255 }), mbms_data_transfer_start := (some { t := 164, length := 8, ins := 0, seconds := 65535 }), mbms_flags := (some { t := 171, length := 1, ins := 0, msri := true, lmri := false }), mbms_alt_ip_multicast_dist := (some { t := 142, length := 27, ins := 1, common_teid := 65530, ip_multicast_address_1 := (.V4 168430081), ip_multicast_address_2 := (.V6 ⟨71213169107795968, 255⟩), mbms_hc := .UncompressedHeader }), mbms_cell_list := (some { t := 190, length := 23, ins := 0, ecgi_list := (some [{ mcc := 262, mnc := 1, mnc_is_three_digits := false, eci := 28983298 }, { mcc := 262, mnc := 1, mnc_is_three_digits := false, eci := 28983299 }, { mcc := 262, mnc := 1, mnc_is_three_digits := false, eci := 28983297 }]) }), private_ext := [] } : MbmsSessionStartRequest) = [72, 231, 0, 216, 0, 0, 0, 0, 0, 0, 104, 0, 87, 0, 25, 0, 202, 35, 237, 56, 32, 217, 171, 141, 242, 42, 4, 74, 69, 0, 4, 0, 0, 0, 0, 0, 0, 0, 0, 0, 39, 158, 0, 6, 0, 0, 1, 2, 3, 4, 5, 138, 0, 3, 0, 0, 200, 10, 139, 0, 5, 0, 1, 0, 0, 255, 255, 140, 0, 1, 0, 10, 141, 0, 2, 0, 10, 15, 80, 0, 22, 0, 100, 9, 0, 0, 0, 0, 0, 0, 0, 0, 0, 0, 0, 0, 0, 0, 0, 0, 0, 0, 0, 0, 142, 0, 27, 0, 0, 0, 255, 255, 4, 10, 10, 10, 1, 80, 0, 253, 0, 0, 0, 0, 0, 0, 0, 0, 0, 0, 0, 0, 0, 255, 0, 3, 0, 1, 0, 170, 153, 0, 1, 0, 255, 164, 0, 8, 0, 0, 0, 0, 0, 0, 0, 255, 255, 171, 0, 1, 0, 1, 142, 0, 27, 1, 0, 0, 255, 250, 4, 10, 10, 10, 1, 80, 0, 253, 0, 0, 0, 0, 0, 0, 0, 0, 0, 0, 0, 0, 0, 255, 0, 190, 0, 23, 0, 0, 3, 98, 242, 16, 1, 186, 64, 2, 98, 242, 16, 1, 186, 64, 3, 98, 242, 16, 1, 186, 64, 1] := by
  decide +kernel

-- `test_mbms_session_start_resp_unmarshal` (gtpv2/messages/mbmssessionstartresp.rs:152)
example : MbmsSessionStartResponse.codec.unmarshal .debug [72, 232, 0, 82, 0, 0, 0, 0, 0, 0, 104, 0, 2, 0, 2, 0, 16, 0, 87, 0, 25, 0, 202, 35, 237, 56, 32, 217, 171, 141, 242, 42, 4, 74, 69, 0, 4, 0, 0, 0, 0, 0, 0, 0, 0, 0, 39, 143, 0, 1, 0, 2, 87, 0, 25, 1, 202, 35, 237, 56, 32, 217, 171, 141, 242, 42, 4, 74, 69, 0, 4, 0, 0, 0, 0, 0, 0, 0, 0, 0, 39, 3, 0, 1, 0, 170] = .ok { header := { msgtype := 232, piggyback := false, prio := none, length := 82, teid := (some 0), sqn := 104 }, cause := { t := 2, length := 2, ins := 0, value := 16, pce := false, bce := false, cs := false, offend_ie_type := none }, fteid_control := { t := 87, length := 25, ins := 0, interface := 10, teid := 602748960, ipv4 := (some 3651898866), ipv6 := (some ⟨3027626509713276928, 39⟩) }, mbms_distr_ack := (some { t := 143, length := 1, ins := 0, distr_id := 2 }), sgsn_fteid := (some { t := 87, length := 25, ins := 1, interface := 10, teid := 602748960, ipv4 := (some 3651898866), ipv6 := (some ⟨3027626509713276928, 39⟩) }), recovery := (some { t := 3, length := 1, ins := 0, recovery := 170 }), private_ext := [] } := by
  decide +kernel

-- `test_mbms_session_start_resp_marshal` (gtpv2/messages/mbmssessionstartresp.rs:209)
example : MbmsSessionStartResponse.codec.marshal ({ header := { msgtype := 232, piggyback := false, prio := none, length := 82, teid := (some 0), sqn := 104 }, cause := { t := 2, length := 2, ins := 0, value := 16, pce := false, bce := false, cs := false, offend_ie_type := none }, fteid_control := { t := 87, length := 25, ins := 0, interface := 10, teid := 602748960, ipv4 := (some 3651898866), ipv6 := (some ⟨3027626509713276928, 39⟩) }, mbms_distr_ack := (some { t := 143, length := 1, ins := 0, distr_id := 2 }), sgsn_fteid := (some { t := 87, length := 25, ins := 1, interface := 10, teid := 602748960, ipv4 := (some 3651898866), ipv6 := (some ⟨3027626509713276928, 39⟩) }), recovery := (some { t := 3, length := 1, ins := 0, recovery := 170 }), private_ext := [] } : MbmsSessionStartResponse) = [72, 232, 0, 82, 0, 0, 0, 0, 0, 0, 104, 0, 2, 0, 2, 0, 16, 0, 87, 0, 25, 0, 202, 35, 237, 56, 32, 217, 171, 141, 242, 42, 4, 74, 69, 0, 4, 0, 0, 0, 0, 0, 0, 0, 0, 0, 39, 143, 0, 1, 0, 2, 87, 0, 25, 1, 202, 35, 237, 56, 32, 217, 171, 141, 242, 42, 4, 74, 69, 0, 4, 0, 0, 0, 0, 0, 0, 0, 0, 0, 39, 3, 0, 1, 0, 170] := by
  decide +kernel

-- `test_mbms_session_stop_req_unmarshal` (gtpv2/messages/mbmssessionstopreq.rs:122)
example : MbmsSessionStopRequest.codec.unmarshal .debug [72, 235, 0, 31, 0, 0, 0, 0, 0, 0, 104, 0, 141, 0, 2, 0, 10, 15, 164, 0, 8, 0, 0, 0, 0, 0, 0, 0, 255, 255, 171, 0, 1, 0, 1] = .ok { header := { msgtype := 235, piggyback := false, prio := none, length := 31, teid := (some 0), sqn := 104 }, mbms_flow_id := (some { t := 141, length := 2, ins := 0, mbms_flowid := 2575 }), mbms_data_transfer_stop := (some { t := 164, length := 8, ins := 0, seconds := 65535 }), mbms_flags := (some { t := 171, length := 1, ins := 0, msri := true, lmri := false }), private_ext := [] } := by
  decide +kernel

-- `test_mmbms_session_stop_req_marshal` (gtpv2/messages/mbmssessionstopreq.rs:157)
example : MbmsSessionStopRequest.codec.marshal ({ header := { msgtype := 235, piggyback := false, prio := none, length := 31, teid := (some 0), sqn := 104 }, mbms_flow_id := (some { t := 141, length := 2, ins := 0, mbms_flowid := 2575 }), mbms_data_transfer_stop := (some { t := 164, length := 8, ins := 0, seconds := 65535 }), mbms_flags := (some { t := 171, length := 1, ins := 0, msri := true, lmri := false }), private_ext := [] } : MbmsSessionStopRequest) = [72, 235, 0, 31, 0, 0, 0, 0, 0, 0, 104, 0, 141, 0, 2, 0, 10, 15, 164, 0, 8, 0, 0, 0, 0, 0, 0, 0, 255, 255, 171, 0, 1, 0, 1] := by
  decide +kernel

-- `test_mbms_session_stop_resp_unmarshal` (gtpv2/messages/mbmssessionstopresp.rs:113)
example : MbmsSessionStopResponse.codec.unmarshal .debug [72, 236, 0, 19, 0, 0, 0, 0, 0, 0, 104, 0, 2, 0, 2, 0, 16, 0, 3, 0, 1, 0, 170] = .ok { header := { msgtype := 236, piggyback := false, prio := none, length := 19, teid := (some 0), sqn := 104 }, cause := { t := 2, length := 2, ins := 0, value := 16, pce := false, bce := false, cs := false, offend_ie_type := none }, recovery := (some { t := 3, length := 1, ins := 0, recovery := 170 }), private_ext := [] } := by
  decide +kernel

-- `test_mbms_session_stop_resp_marshal` (gtpv2/messages/mbmssessionstopresp.rs:143)
example : MbmsSessionStopResponse.codec.marshal ({ header := { msgtype := 236, piggyback := false, prio := none, length := 19, teid := (some 0), sqn := 104 }, cause := { t := 2, length := 2, ins := 0, value := 16, pce := false, bce := false, cs := false, offend_ie_type := none }, recovery := (some { t := 3, length := 1, ins := 0, recovery := 170 }), private_ext := [] } : MbmsSessionStopResponse) = [72, 236, 0, 19, 0, 0, 0, 0, 0, 0, 104, 0, 2, 0, 2, 0, 16, 0, 3, 0, 1, 0, 170] := by
  decide +kernel

-- `test_mbms_session_update_req_unmarshal` (gtpv2/messages/mbmssessionupdatereq.rs:206)
example : MbmsSessionUpdateRequest.codec.unmarshal .debug [72, 233, 0, 144, 0, 0, 0, 0, 0, 0, 104, 0, 139, 0, 5, 0, 1, 0, 0, 255, 255, 158, 0, 6, 0, 0, 1, 2, 3, 4, 5, 87, 0, 25, 0, 202, 35, 237, 56, 32, 217, 171, 141, 242, 42, 4, 74, 69, 0, 4, 0, 0, 0, 0, 0, 0, 0, 0, 0, 39, 138, 0, 3, 0, 0, 200, 10, 80, 0, 22, 0, 100, 9, 0, 0, 0, 0, 0, 0, 0, 0, 0, 0, 0, 0, 0, 0, 0, 0, 0, 0, 0, 0, 140, 0, 1, 0, 10, 141, 0, 2, 0, 10, 15, 153, 0, 1, 0, 255, 164, 0, 8, 0, 0, 0, 0, 0, 0, 0, 255, 255, 190, 0, 23, 0, 0, 3, 98, 242, 16, 1, 186, 64, 2, 98, 242, 16, 1, 186, 64, 3, 98, 242, 16, 1, 186, 64, 1] = .ok { header := { msgtype := 233, piggyback := false, prio := none, length := 144, teid := (some 0), sqn := 104 }, mbms_svc_area := (some { t := 139, length := 5, ins := 0, mbms_sa := [0, 65535] }), tmgi := { t := 158, length := 6, ins := 0, tmgi := [0, 1, 2, 3, 4, 5] }, fteid_control := (some { t := 87, length := 25, ins := 0, interface := 10, teid := 602748960, ipv4 := (some 3651898866), ipv6 := (some ⟨3027626509713276928, 39⟩) }), mbms_sess_dur := { t := 138, length := 3, ins := 0, seconds := 400, days := 10 }, qos_profile := { t := 80, length := 22, ins := 0, pre_emption_vulnerability := 0, priority_level := 9, pre_emption_capability := 1, qci := 9, maxbr_ul := 0, maxbr_dl := 0, gbr_ul := 0, gbr_dl := 0 }, mbms_sess_id := (some { t := 140, length := 1, ins := 0, mbms_sessionid := 10 }), mbms_flow_id := (some { t := 141, length := 2, ins := 0, mbms_flowid := 2575 }), mbms_time_to_data_transfer := (some { t := 153, length := 1, ins := 0, mbms_time_to_data := 255 }), mbms_data_transfer_sus := (some { t := 164, length := 8, ins := 0, seconds := 65535 }), mbms_cell_list := (some { t := 190, length := 23, ins := 0, ecgi_list := (some [{ mcc := 262, mnc := 1, mnc_is_three_digits := false, eci := 28983298 }, { mcc := 262, mnc := 1, mnc_is_three_digits := false, eci := 28983299 }, { mcc := 262, mnc := 1, mnc_is_three_digits := false, eci := 28983297 }]) }), private_ext := [] } := by
  decide +kernel

-- `test_mmbms_session_update_req_marshal` (gtpv2/messages/mbmssessionupdatereq.rs:310)
example : MbmsSessionUpdateRequest.codec.marshal ({ header := { msgtype := 233, piggyback := false, prio := none, length := 144, teid := (some 0), sqn := 104 }, mbms_svc_area := (some { t := 139, length := 5, ins := 0, mbms_sa := [0, 65535] }), tmgi := { t := 158, length := 6, ins := 0, tmgi := [0, 1, 2, 3, 4, 5] }, fteid_control := (some { t := 87, length := 25, ins := 0, interface := 10, teid := 602748960, ipv4 := (some 3651898866), ipv6 := (some ⟨3027626509713276928, 39⟩) }), mbms_sess_dur := { t := 138, length := 3, ins := 0, seconds := 400, days := 10 }, qos_profile := { t := 80, length := 22, ins := 0, pre_emption_vulnerability := 0, priority_level := 9, pre_emption_capability := 1, qci := 9, maxbr_ul := 0, maxbr_dl := 0, gbr_ul := 0, gbr_dl := 0 }, mbms_sess_id := (some { t := 140, length := 1, ins := 0, mbms_sessionid := 10 }), mbms_flow_id := (some { t := 141, length := 2, ins := 0, mbms_flowid := 2575 }), mbms_time_to_data_transfer := (some { t := 153, length := 1, ins := 0, mbms_time_to_data := 255 }), mbms_data_transfer_sus := (some { t := 164, length := 8, ins := 0, seconds := 65535 }), mbms_cell_list := (some { t := 190, length := 23, ins := 0, ecgi_list := (some [{ mcc := 262, mnc := 1, mnc_is_three_digits := false, eci := 28983298 }, { mcc := 262, mnc := 1, mnc_is_three_digits := false, eci := 28983299 }, { mcc := 262, mnc := 1, mnc_is_three_digits := false, eci := 28983297 }]) }), private_ext := [] } : MbmsSessionUpdateRequest) = [72, 233, 0, 144, 0, 0, 0, 0, 0, 0, 104, 0, 139, 0, 5, 0, 1, 0, 0, 255, 255, 158, 0, 6, 0, 0, 1, 2, 3, 4, 5, 87, 0, 25, 0, 202, 35, 237, 56, 32, 217, 171, 141, 242, 42, 4, 74, 69, 0, 4, 0, 0, 0, 0, 0, 0, 0, 0, 0, 39, 138, 0, 3, 0, 0, 200, 10, 80, 0, 22, 0, 100, 9, 0, 0, 0, 0, 0, 0, 0, 0, 0, 0, 0, 0, 0, 0, 0, 0, 0, 0, 0, 0, 140, 0, 1, 0, 10, 141, 0, 2, 0, 10, 15, 153, 0, 1, 0, 255, 164, 0, 8, 0, 0, 0, 0, 0, 0, 0, 255, 255, 190, 0, 23, 0, 0, 3, 98, 242, 16, 1, 186, 64, 2, 98, 242, 16, 1, 186, 64, 3, 98, 242, 16, 1, 186, 64, 1] := by
  decide +kernel

-- `test_mbms_session_update_resp_unmarshal` (gtpv2/messages/mbmssessionupdateresp.rs:135)
example : MbmsSessionUpdateResponse.codec.unmarshal .debug [72, 234, 0, 53, 0, 0, 0, 0, 0, 0, 104, 0, 2, 0, 2, 0, 16, 0, 143, 0, 1, 0, 2, 87, 0, 25, 0, 202, 35, 237, 56, 32, 217, 171, 141, 242, 42, 4, 74, 69, 0, 4, 0, 0, 0, 0, 0, 0, 0, 0, 0, 39, 3, 0, 1, 0, 170] = .ok { header := { msgtype := 234, piggyback := false, prio := none, length := 53, teid := (some 0), sqn := 104 }, cause := { t := 2, length := 2, ins := 0, value := 16, pce := false, bce := false, cs := false, offend_ie_type := none }, mbms_distr_ack := (some { t := 143, length := 1, ins := 0, distr_id := 2 }), sgsn_fteid := (some { t := 87, length := 25, ins := 0, interface := 10, teid := 602748960, ipv4 := (some 3651898866), ipv6 := (some ⟨3027626509713276928, 39⟩) }), recovery := (some { t := 3, length := 1, ins := 0, recovery := 170 }), private_ext := [] } := by
  decide +kernel

-- `test_mbms_session_update_resp_marshal` (gtpv2/messages/mbmssessionupdateresp.rs:181)
example : MbmsSessionUpdateResponse.codec.marshal ({ header := { msgtype := 234, piggyback := false, prio := none, length := 53, teid := (some 0), sqn := 104 }, cause := { t := 2, length := 2, ins := 0, value := 16, pce := false, bce := false, cs := false, offend_ie_type := none }, mbms_distr_ack := (some { t := 143, length := 1, ins := 0, distr_id := 2 }), sgsn_fteid := (some { t := 87, length := 25, ins := 0, interface := 10, teid := 602748960, ipv4 := (some 3651898866), ipv6 := (some ⟨3027626509713276928, 39⟩) }), recovery := (some { t := 3, length := 1, ins := 0, recovery := 170 }), private_ext := [] } : MbmsSessionUpdateResponse) = [72, 234, 0, 53, 0, 0, 0, 0, 0, 0, 104, 0, 2, 0, 2, 0, 16, 0, 143, 0, 1, 0, 2, 87, 0, 25, 0, 202, 35, 237, 56, 32, 217, 171, 141, 242, 42, 4, 74, 69, 0, 4, 0, 0, 0, 0, 0, 0, 0, 0, 0, 39, 3, 0, 1, 0, 170] := by
  decide +kernel

-- `test_modify_access_bearers_req_unmarshal` (gtpv2/messages/modifyaccessbearersreq.rs:165)
example : ModifyAccessBearersRequest.codec.unmarshal .debug [72, 211, 0, 193, 0, 0, 0, 0, 0, 0, 104, 0, 77, 0, 10, 0, 2, 0, 0, 0, 0, 0, 0, 0, 0, 0, 87, 0, 25, 0, 202, 35, 237, 56, 32, 217, 171, 141, 242, 42, 4, 74, 69, 0, 4, 0, 0, 0, 0, 0, 0, 0, 0, 0, 39, 92, 0, 1, 0, 5, 93, 0, 31, 0, 73, 0, 1, 0, 5, 80, 0, 22, 0, 100, 9, 0, 0, 0, 0, 0, 0, 0, 0, 0, 0, 0, 0, 0, 0, 0, 0, 0, 0, 0, 0, 93, 0, 31, 1, 73, 0, 1, 0, 6, 80, 0, 22, 0, 100, 9, 0, 0, 0, 0, 0, 0, 0, 0, 0, 0, 0, 0, 0, 0, 0, 0, 0, 0, 0, 0, 3, 0, 1, 0, 170, 201, 0, 27, 0, 3, 0, 5, 0, 0, 0, 255, 0, 0, 255, 255, 0, 0, 0, 0, 255, 255, 255, 0, 0, 0, 0, 0, 0, 0, 255, 255, 201, 0, 27, 0, 3, 0, 6, 0, 0, 0, 255, 0, 0, 255, 255, 0, 0, 0, 0, 255, 255, 255, 0, 0, 0, 0, 0, 0, 0, 255, 255] = .ok { header := { msgtype := 211, piggyback := false, prio := none, length := 193, teid := (some 0), sqn := 104 }, indication := (some { t := 77, length := 10, ins := 0, daf := false, dtf := false, hi := false, dfi := false, oi := false, isrsi := false, israi := true, sgwci := false, sqci := false, uimsi := false, cfsi := false, crsi := false, ps := false, pt := false, si := false, msv := false, retloc := false, pbic := false, srni := false, s6af := false, s4af := false, mbmdt := false, israu := false, ccrsi := false, cprai := false, arrl := false, ppoff := false, ppon := false, ppsi := false, csfbi := false, clii := false, cpsr := false, nsi := false, uasi := false, dtci := false, bdwi := false, psci := false, pcri := false, aosi := false, aopi := false, roaai := false, epcosi := false, cpopci := false, pmtsmi := false, s11tf := false, pnsi := false, unaccsi := false, wpmsi := false, g5snn26 := false, reprefi := false, g5siwki := false, eevrsi := false, ltemui := false, ltempi := false, enbcrsi := false, tspcmi := false, csrmfi := false, mtedtn := false, mtedta := false, n5gnmi := false, g5cnrs := false, g5cnri := false, s5rho := false, ethpdn := false, nspusi := false, pgwrnsi := false, rppcsi := false, pgwchi := false, sissme := false, nsenbi := false, idfupf := false, emci := false, ltemsai := false, srtpi := false, upipsi := false }), fteid_control := (some { t := 87, length := 25, ins := 0, interface := 10, teid := 602748960, ipv4 := (some 3651898866), ipv6 := (some ⟨3027626509713276928, 39⟩) }), delay_dl_pckt_notif_req := (some { t := 92, length := 1, ins := 0, value := 5 }), bearer_ctxs := [{ t := 93, length := 31, ins := 0, ebi := { t := 73, length := 1, ins := 0, value := 5 }, cause := none, tft := none, fteids := [], bearer_qos := (some { t := 80, length := 22, ins := 0, pre_emption_vulnerability := 0, priority_level := 9, pre_emption_capability := 1, qci := 9, maxbr_ul := 0, maxbr_dl := 0, gbr_ul := 0, gbr_dl := 0 }), charging_id := none, bearer_flags := none, pco := none, apco := none, epco := none, max_packet_loss := none, ran_nas_cause := none, bss_container := none, transaction_id := none }, { t := 93, length := 31, ins := 1, ebi := { t := 73, length := 1, ins := 0, value := 6 }, cause := none, tft := none, fteids := [], bearer_qos := (some { t := 80, length := 22, ins := 0, pre_emption_vulnerability := 0, priority_level := 9, pre_emption_capability := 1, qci := 9, maxbr_ul := 0, maxbr_dl := 0, gbr_ul := 0, gbr_dl := 0 }), charging_id := none, bearer_flags := none, pco := none, apco := none, epco := none, max_packet_loss := none, ran_nas_cause := none, bss_container := none, transaction_id := none }], recovery := (some { t := 3, length := 1, ins := 0, recovery := 170 }), secondary_rat_usage_report := [{ t := 201, length := 27, ins := 0, irsgw := true, irpgw := true, rat_type := 0, ebi := 5, start_timestamp := 255, end_timestamp := 65535, usg_data_dl := 4294967040, usg_data_ul := 65535, second_rat_dur_tansfer := none }, { t := 201, length := 27, ins := 0, irsgw := true, irpgw := true, rat_type := 0, ebi := 6, start_timestamp := 255, end_timestamp := 65535, usg_data_dl := 4294967040, usg_data_ul := 65535, second_rat_dur_tansfer := none }], pscellid := none, private_ext := [] } := by
  decide +kernel

-- `test_modify_access_bearers_req_marshal` (gtpv2/messages/modifyaccessbearersreq.rs:300)
example : ModifyAccessBearersRequest.codec.marshal ({ header := { msgtype := 211, piggyback := false, prio := none, length := 193, teid := (some 0), sqn := 104 }, indication := (some { t := 77, length := 10, ins := 0, daf := false, dtf := false, hi := false, dfi := false, oi := false, isrsi := false, israi := true, sgwci := false, sqci := false, uimsi := false, cfsi := false, crsi := false, ps := false, pt := false, si := false, msv := false, retloc := false, pbic := false, srni := false, s6af := false, s4af := false, mbmdt := false, israu := false, ccrsi := false, cprai := false, arrl := false, ppoff := false, ppon := false, ppsi := false, csfbi := false, clii := false, cpsr := false, nsi := false, uasi := false, dtci := false, bdwi := false, psci := false, pcri := false, aosi := false, aopi := false, roaai := false, epcosi := false, cpopci := false, pmtsmi := false, s11tf := false, pnsi := false, unaccsi := false, wpmsi := false, g5snn26 := false, reprefi := false, g5siwki := false, eevrsi := false, ltemui := false, ltempi := false, enbcrsi := false, tspcmi := false, csrmfi := false, mtedtn := false, mtedta := false, n5gnmi := false, g5cnrs := false, g5cnri := false, s5rho := false, ethpdn := false, nspusi := false, pgwrnsi := false, rppcsi := false, pgwchi := false, sissme := false, nsenbi := false, idfupf := false, emci := false, ltemsai := false, srtpi := false, upipsi := false }), fteid_control := (some { t := 87, length := 25, ins := 0, interface := 10, teid := 602748960, ipv4 := (some 3651898866), ipv6 := (some ⟨3027626509713276928, 39⟩) }), delay_dl_pckt_notif_req := (some { t := 92, length := 1, ins := 0, value := 5 }), bearer_ctxs := [{ t := 93, length := 31, ins := 0, ebi := { t := 73, length := 1, ins := 0, value := 5 }, cause := none, tft := none, fteids := [], bearer_qos := (some { t := 80, length := 22, ins := 0, pre_emption_vulnerability := 0, priority_level := 9, pre_emption_capability := 1, qci := 9, maxbr_ul := 0, maxbr_dl := 0, gbr_ul := 0, gbr_dl := 0 }), charging_id := none, bearer_flags := none, pco := none, apco := none, epco := none, max_packet_loss := none, ran_nas_cause := none, bss_container := none, transaction_id := none }, { t := 93, length := 31, ins := 1, ebi := { t := 73, length := 1, ins := 0, value := 6 }, cause := none, tft := none, fteids := [], bearer_qos := (some { t := 80, length := 22, ins := 0, pre_emption_vulnerability := 0, priority_level := 9, pre_emption_capability := 1, qci := 9, maxbr_ul := 0, maxbr_dl := 0, gbr_ul := 0, gbr_dl := 0 }), charging_id := none, bearer_flags := none, pco := none, apco := none, epco := none, max_packet_loss := none, ran_nas_cause := none, bss_container := none, transaction_id := none }], recovery := (some { t := 3, length := 1, ins := 0, recovery := 170 }), secondary_rat_usage_report := [{ t := 201, length := 27, ins := 0, irsgw := true, irpgw := true, rat_type := 0, ebi := 5, start_timestamp := 255, end_timestamp := 65535, usg_data_dl := 4294967040, usg_data_ul := 65535, second_rat_dur_tansfer := none }, { t := 201, length := 27, ins := 0, irsgw := true, irpgw := true, rat_type := 0, ebi := 6, start_timestamp := 255, end_timestamp := 65535, usg_data_dl := 4294967040, usg_data_ul := 65535, second_rat_dur_tansfer := none }], pscellid := none, private_ext := [] } : ModifyAccessBearersRequest) = [72, 211, 0, 193, 0, 0, 0, 0, 0, 0, 104, 0, 77, 0, 10, 0, 2, 0, 0, 0, 0, 0, 0, 0, 0, 0, 87, 0, 25, 0, 202, 35, 237, 56, 32, 217, 171, 141, 242, 42, 4, 74, 69, 0, 4, 0, 0, 0, 0, 0, 0, 0, 0, 0, 39, 92, 0, 1, 0, 5, 93, 0, 31, 0, 73, 0, 1, 0, 5, 80, 0, 22, 0, 100, 9, 0, 0, 0, 0, 0, 0, 0, 0, 0, 0, 0, 0, 0, 0, 0, 0, 0, 0, 0, 0, 93, 0, 31, 1, 73, 0, 1, 0, 6, 80, 0, 22, 0, 100, 9, 0, 0, 0, 0, 0, 0, 0, 0, 0, 0, 0, 0, 0, 0, 0, 0, 0, 0, 0, 0, 3, 0, 1, 0, 170, 201, 0, 27, 0, 3, 0, 5, 0, 0, 0, 255, 0, 0, 255, 255, 0, 0, 0, 0, 255, 255, 255, 0, 0, 0, 0, 0, 0, 0, 255, 255, 201, 0, 27, 0, 3, 0, 6, 0, 0, 0, 255, 0, 0, 255, 255, 0, 0, 0, 0, 255, 255, 255, 0, 0, 0, 0, 0, 0, 0, 255, 255] := by
  decide +kernel

-- `test_modify_access_bearers_resp_unmarshal` (gtpv2/messages/modifyaccessbearersresp.rs:158)
example : ModifyAccessBearersResponse.codec.unmarshal .debug [72, 212, 0, 177, 0, 0, 0, 0, 0, 0, 104, 0, 2, 0, 2, 0, 16, 0, 93, 0, 31, 0, 73, 0, 1, 0, 5, 80, 0, 22, 0, 100, 9, 0, 0, 0, 0, 0, 0, 0, 0, 0, 0, 0, 0, 0, 0, 0, 0, 0, 0, 0, 0, 93, 0, 31, 1, 73, 0, 1, 0, 6, 80, 0, 22, 0, 100, 9, 0, 0, 0, 0, 0, 0, 0, 0, 0, 0, 0, 0, 0, 0, 0, 0, 0, 0, 0, 0, 3, 0, 1, 0, 170, 77, 0, 10, 0, 2, 0, 0, 0, 0, 0, 0, 0, 0, 0, 181, 0, 31, 0, 183, 0, 4, 0, 255, 170, 238, 17, 182, 0, 1, 0, 96, 184, 0, 14, 0, 100, 4, 116, 101, 115, 116, 3, 110, 101, 116, 3, 99, 111, 109, 180, 0, 35, 0, 183, 0, 4, 0, 255, 170, 238, 17, 182, 0, 1, 0, 96, 156, 0, 1, 0, 127, 71, 0, 13, 0, 4, 116, 101, 115, 116, 3, 110, 101, 116, 3, 99, 111, 109] = .ok { header := { msgtype := 212, piggyback := false, prio := none, length := 177, teid := (some 0), sqn := 104 }, cause := { t := 2, length := 2, ins := 0, value := 16, pce := false, bce := false, cs := false, offend_ie_type := none }, bearer_ctxs := [{ t := 93, length := 31, ins := 0, ebi := { t := 73, length := 1, ins := 0, value := 5 }, cause := none, tft := none, fteids := [], bearer_qos := (some { t := 80, length := 22, ins := 0, pre_emption_vulnerability := 0, priority_level := 9, pre_emption_capability := 1, qci := 9, maxbr_ul := 0, maxbr_dl := 0, gbr_ul := 0, gbr_dl := 0 }), charging_id := none, bearer_flags := none, pco := none, apco := none, epco := none, max_packet_loss := none, ran_nas_cause := none, bss_container := none, transaction_id := none }, { t := 93, length := 31, ins := 1, ebi := { t := 73, length := 1, ins := 0, value := 6 }, cause := none, tft := none, fteids := [], bearer_qos := (some { t := 80, length := 22, ins := 0, pre_emption_vulnerability := 0, priority_level := 9, pre_emption_capability := 1, qci := 9, maxbr_ul := 0, maxbr_dl := 0, gbr_ul := 0, gbr_dl := 0 }), charging_id := none, bearer_flags := none, pco := none, apco := none, epco := none, max_packet_loss := none, ran_nas_cause := none, bss_container := none, transaction_id := none }], recovery := (some { t := 3, length := 1, ins := 0, recovery := 170 }), indication := (some { t := 77, length := 10, ins := 0, daf := false, dtf := false, hi := false, dfi := false, oi := false, isrsi := false, israi := true, sgwci := false, sqci := false, uimsi := false, cfsi := false, crsi := false, ps := false, pt := false, si := false, msv := false, retloc := false, pbic := false, srni := false, s6af := false, s4af := false, mbmdt := false, israu := false, ccrsi := false, cprai := false, arrl := false, ppoff := false, ppon := false, ppsi := false, csfbi := false, clii := false, cpsr := false, nsi := false, uasi := false, dtci := false, bdwi := false, psci := false, pcri := false, aosi := false, aopi := false, roaai := false, epcosi := false, cpopci := false, pmtsmi := false, s11tf := false, pnsi := false, unaccsi := false, wpmsi := false, g5snn26 := false, reprefi := false, g5siwki := false, eevrsi := false, ltemui := false, ltempi := false, enbcrsi := false, tspcmi := false, csrmfi := false, mtedtn := false, mtedta := false, n5gnmi := false, g5cnrs := false, g5cnri := false, s5rho := false, ethpdn := false, nspusi := false, pgwrnsi := false, rppcsi := false, pgwchi := false, sissme := false, nsenbi := false, idfupf := false, emci := false, ltemsai := false, srtpi := false, upipsi := false }), load_control_info := (some { t := 181, length := 31, ins := 0, sqn := { t := 183, length := 4, ins := 0, sqn := 4289392145 }, load_metric := { t := 182, length := 1, ins := 0, metric := 96 }, list := (some [{ t := 184, length := 14, ins := 0, relative_cap := 100, name := ['t', 'e', 's', 't', '.', 'n', 'e', 't', '.', 'c', 'o', 'm'] }]) }), overload_control_info := (some { t := 180, length := 35, ins := 0, sqn := { t := 183, length := 4, ins := 0, sqn := 4289392145 }, metric := { t := 182, length := 1, ins := 0, metric := 96 }, validity := { t := 156, length := 1, ins := 0, timer_unit := 3, timer_value := 31 }, list := (some [{ t := 71, length := 13, ins := 0, name := ['t', 'e', 's', 't', '.', 'n', 'e', 't', '.', 'c', 'o', 'm'] }]) }), private_ext := [] } := by
  decide +kernel

-- `test_modify_access_bearers_resp_marshal` (gtpv2/messages/modifyaccessbearersresp.rs:306)
example : ModifyAccessBearersResponse.codec.marshal ({ header := { msgtype := 212, piggyback := false, prio := none, length := 177, teid := (some 0), sqn := 104 }, cause := { t := 2, length := 2, ins := 0, value := 16, pce := false, bce := false, cs := false, offend_ie_type := none }, bearer_ctxs := [{ t := 93, length := 31, ins := 0, ebi := { t := 73, length := 1, ins := 0, value := 5 }, cause := none, tft := none, fteids := [], bearer_qos := (some { t := 80, length := 22, ins := 0, pre_emption_vulnerability := 0, priority_level := 9, pre_emption_capability := 1, qci := 9, maxbr_ul := 0, maxbr_dl := 0, gbr_ul := 0, gbr_dl := 0 }), charging_id := none, bearer_flags := none, pco := none, apco := none, epco := none, max_packet_loss := none, ran_nas_cause := none, bss_container := none, transaction_id := none }, { t := 93, length := 31, ins := 1, ebi := { t := 73, length := 1, ins := 0, value := 6 }, cause := none, tft := none, fteids := [], bearer_qos := (some { t := 80, length := 22, ins := 0, pre_emption_vulnerability := 0, priority_level := 9, pre_emption_capability := 1, qci := 9, maxbr_ul := 0, maxbr_dl := 0, gbr_ul := 0, gbr_dl := 0 }), charging_id := none, bearer_flags := none, pco := none, apco := none, epco := none, max_packet_loss := none, ran_nas_cause := none, bss_container := none, transaction_id := none }], recovery := (some { t := 3, length := 1, ins := 0, recovery := 170 }), indication := (some { t := 77, length := 10, ins := 0, daf := false, dtf := false, hi := false, dfi := false, oi := false, isrsi := false, israi := true, sgwci := false, sqci := false, uimsi := false, cfsi := false, crsi := false, ps := false, pt := false, si := false, msv := false, retloc := false, pbic := false, srni := false, s6af := false, s4af := false, mbmdt := false, israu := false, ccrsi := false, cprai := false, arrl := false, ppoff := false, ppon := false, ppsi := false, csfbi := false, clii := false, cpsr := false, nsi := false, uasi := false, dtci := false, bdwi := false, psci := false, pcri := false, aosi := false, aopi := false, roaai := false, epcosi := false, cpopci := false, pmtsmi := false, s11tf := false, pnsi := false, unaccsi := false, wpmsi := false, g5snn26 := false, reprefi := false, g5siwki := false, eevrsi := false, ltemui := false, ltempi := false, enbcrsi := false, tspcmi := false, csrmfi := false, mtedtn := false, mtedta := false, n5gnmi := false, g5cnrs := false, g5cnri := false, s5rho := false, ethpdn := false, nspusi := false, pgwrnsi := false, rppcsi := false, pgwchi := false, sissme := false, nsenbi := false, idfupf := false, emci := false, ltemsai := false, srtpi := false, upipsi := false }), load_control_info := (some { t := 181, length := 31, ins := 0, sqn := { t := 183, length := 4, ins := 0, sqn := 4289392145 }, load_metric := { t := 182, length := 1, ins := 0, metric := 96 }, list := (some [{ t := 184, length := 14, ins := 0, relative_cap := 100, name := ['t', 'e', 's', 't', '.', 'n', 'e', 't', '.', 'c', 'o', 'm'] }]) }), overload_control_info := (some { t := 180, length := 35, ins := 0, sqn := { t := 183, length := 4, ins := 0, sqn := 4289392145 }, metric := { t := 182, length := 1, ins := 0, metric := 96 }, validity := { t := 156, length := 1, ins := 0, timer_unit := 3, timer_value := 31 }, list := (some [{ t := 71, length := 13, ins := 0, name := ['t', 'e', 's', 't', '.', 'n', 'e', 't', '.', 'c', 'o', 'm'] }]) }), private_ext := [] } : ModifyAccessBearersResponse) = [72, 212, 0, 177, 0, 0, 0, 0, 0, 0, 104, 0, 2, 0, 2, 0, 16, 0, 93, 0, 31, 0, 73, 0, 1, 0, 5, 80, 0, 22, 0, 100, 9, 0, 0, 0, 0, 0, 0, 0, 0, 0, 0, 0, 0, 0, 0, 0, 0, 0, 0, 0, 0, 93, 0, 31, 1, 73, 0, 1, 0, 6, 80, 0, 22, 0, 100, 9, 0, 0, 0, 0, 0, 0, 0, 0, 0, 0, 0, 0, 0, 0, 0, 0, 0, 0, 0, 0, 3, 0, 1, 0, 170, 77, 0, 10, 0, 2, 0, 0, 0, 0, 0, 0, 0, 0, 0, 181, 0, 31, 0, 183, 0, 4, 0, 255, 170, 238, 17, 182, 0, 1, 0, 96, 184, 0, 14, 0, 100, 4, 116, 101, 115, 116, 3, 110, 101, 116, 3, 99, 111, 109, 180, 0, 35, 0, 183, 0, 4, 0, 255, 170, 238, 17, 182, 0, 1, 0, 96, 156, 0, 1, 0, 127, 71, 0, 13, 0, 4, 116, 101, 115, 116, 3, 110, 101, 116, 3, 99, 111, 109] := by
  decide +kernel

-- `test_modify_bearer_command_unmarshal` (gtpv2/messages/modifybearercommand.rs:138)
example : ModifyBearerCommand.codec.unmarshal .debug [72, 64, 0, 112, 0, 0, 0, 0, 0, 0, 104, 0, 72, 0, 8, 0, 0, 0, 195, 80, 0, 2, 73, 240, 93, 0, 31, 0, 73, 0, 1, 0, 5, 80, 0, 22, 0, 100, 9, 0, 0, 0, 0, 0, 0, 0, 0, 0, 0, 0, 0, 0, 0, 0, 0, 0, 0, 0, 0, 180, 0, 18, 0, 183, 0, 4, 0, 255, 170, 238, 17, 182, 0, 1, 0, 96, 156, 0, 1, 0, 127, 180, 0, 18, 1, 183, 0, 4, 0, 255, 170, 238, 34, 182, 0, 1, 0, 96, 156, 0, 1, 0, 126, 87, 0, 9, 0, 134, 6, 209, 130, 76, 193, 254, 139, 45] = .ok { header := { msgtype := 64, piggyback := false, prio := none, length := 112, teid := (some 0), sqn := 104 }, apnambr := { t := 72, length := 8, ins := 0, ambr_ul := 50000, ambr_dl := 150000 }, bearer_ctxs := [{ t := 93, length := 31, ins := 0, ebi := { t := 73, length := 1, ins := 0, value := 5 }, cause := none, tft := none, fteids := [], bearer_qos := (some { t := 80, length := 22, ins := 0, pre_emption_vulnerability := 0, priority_level := 9, pre_emption_capability := 1, qci := 9, maxbr_ul := 0, maxbr_dl := 0, gbr_ul := 0, gbr_dl := 0 }), charging_id := none, bearer_flags := none, pco := none, apco := none, epco := none, max_packet_loss := none, ran_nas_cause := none, bss_container := none, transaction_id := none }], overload_info := [{ t := 180, length := 18, ins := 0, sqn := { t := 183, length := 4, ins := 0, sqn := 4289392145 }, metric := { t := 182, length := 1, ins := 0, metric := 96 }, validity := { t := 156, length := 1, ins := 0, timer_unit := 3, timer_value := 31 }, list := none }, { t := 180, length := 18, ins := 1, sqn := { t := 183, length := 4, ins := 0, sqn := 4289392162 }, metric := { t := 182, length := 1, ins := 0, metric := 96 }, validity := { t := 156, length := 1, ins := 0, timer_unit := 3, timer_value := 30 }, list := none }], fteid_control := (some { t := 87, length := 9, ins := 0, interface := 6, teid := 114393676, ipv4 := (some 3254684461), ipv6 := none }), private_ext := [] } := by
  decide +kernel

-- `test_modify_bearer_command_marshal` (gtpv2/messages/modifybearercommand.rs:257)
example : ModifyBearerCommand.codec.marshal ({ header := { msgtype := 64, piggyback := false, prio := none, length := 112, teid := (some 0), sqn := 104 }, apnambr := { t := 72, length := 8, ins := 0, ambr_ul := 50000, ambr_dl := 150000 }, bearer_ctxs := [{ t := 93, length := 31, ins := 0, ebi := { t := 73, length := 1, ins := 0, value := 5 }, cause := none, tft := none, fteids := [], bearer_qos := (some { t := 80, length := 22, ins := 0, pre_emption_vulnerability := 0, priority_level := 9, pre_emption_capability := 1, qci := 9, maxbr_ul := 0, maxbr_dl := 0, gbr_ul := 0, gbr_dl := 0 }), charging_id := none, bearer_flags := none, pco := none, apco := none, epco := none, max_packet_loss := none, ran_nas_cause := none, bss_container := none, transaction_id := none }], overload_info := [{ t := 180, length := 18, ins := 0, sqn := { t := 183, length := 4, ins := 0, sqn := 4289392145 }, metric := { t := 182, length := 1, ins := 0, metric := 96 }, validity := { t := 156, length := 1, ins := 0, timer_unit := 3, timer_value := 31 }, list := none }, { t := 180, length := 18, ins := 1, sqn := { t := 183, length := 4, ins := 0, sqn := 4289392162 }, metric := { t := 182, length := 1, ins := 0, metric := 96 }, validity := { t := 156, length := 1, ins := 0, timer_unit := 3, timer_value := 30 }, list := none }], fteid_control := (some { t := 87, length := 9, ins := 0, interface := 6, teid := 114393676, ipv4 := (some 3254684461), ipv6 := none }), private_ext := [] } : ModifyBearerCommand) = [72, 64, 0, 112, 0, 0, 0, 0, 0, 0, 104, 0, 72, 0, 8, 0, 0, 0, 195, 80, 0, 2, 73, 240, 93, 0, 31, 0, 73, 0, 1, 0, 5, 80, 0, 22, 0, 100, 9, 0, 0, 0, 0, 0, 0, 0, 0, 0, 0, 0, 0, 0, 0, 0, 0, 0, 0, 0, 0, 180, 0, 18, 0, 183, 0, 4, 0, 255, 170, 238, 17, 182, 0, 1, 0, 96, 156, 0, 1, 0, 127, 180, 0, 18, 1, 183, 0, 4, 0, 255, 170, 238, 34, 182, 0, 1, 0, 96, 156, 0, 1, 0, 126, 87, 0, 9, 0, 134, 6, 209, 130, 76, 193, 254, 139, 45] := by
  decide +kernel

-- `test_modify_bearer_failure_unmarshal` (gtpv2/messages/modifybearerfailureind.rs:135)
example : ModifyBearerFailureInd.codec.unmarshal .debug [72, 65, 0, 77, 0, 0, 0, 0, 0, 0, 104, 0, 2, 0, 2, 0, 14, 0, 3, 0, 1, 0, 4, 77, 0, 10, 0, 1, 0, 0, 0, 0, 0, 1, 0, 0, 0, 180, 0, 18, 0, 183, 0, 4, 0, 255, 170, 238, 17, 182, 0, 1, 0, 96, 156, 0, 1, 0, 127, 180, 0, 18, 1, 183, 0, 4, 0, 255, 170, 238, 34, 182, 0, 1, 0, 96, 156, 0, 1, 0, 126] = .ok { header := { msgtype := 65, piggyback := false, prio := none, length := 77, teid := (some 0), sqn := 104 }, cause := { t := 2, length := 2, ins := 0, value := 14, pce := false, bce := false, cs := false, offend_ie_type := none }, recovery := (some { t := 3, length := 1, ins := 0, recovery := 4 }), indication := (some { t := 77, length := 10, ins := 0, daf := false, dtf := false, hi := false, dfi := false, oi := false, isrsi := false, israi := false, sgwci := true, sqci := false, uimsi := false, cfsi := false, crsi := false, ps := false, pt := false, si := false, msv := false, retloc := false, pbic := false, srni := false, s6af := false, s4af := false, mbmdt := false, israu := false, ccrsi := false, cprai := false, arrl := false, ppoff := false, ppon := false, ppsi := false, csfbi := false, clii := false, cpsr := false, nsi := false, uasi := false, dtci := false, bdwi := false, psci := false, pcri := false, aosi := false, aopi := false, roaai := false, epcosi := false, cpopci := false, pmtsmi := false, s11tf := false, pnsi := false, unaccsi := false, wpmsi := false, g5snn26 := false, reprefi := false, g5siwki := false, eevrsi := false, ltemui := false, ltempi := false, enbcrsi := false, tspcmi := true, csrmfi := false, mtedtn := false, mtedta := false, n5gnmi := false, g5cnrs := false, g5cnri := false, s5rho := false, ethpdn := false, nspusi := false, pgwrnsi := false, rppcsi := false, pgwchi := false, sissme := false, nsenbi := false, idfupf := false, emci := false, ltemsai := false, srtpi := false, upipsi := false }), overload_info := [{ t := 180, length := 18, ins := 0, sqn := { t := 183, length := 4, ins := 0, sqn := 4289392145 }, metric := { t := 182, length := 1, ins := 0, metric := 96 }, validity := { t := 156, length := 1, ins := 0, timer_unit := 3, timer_value := 31 }, list := none }, { t := 180, length := 18, ins := 1, sqn := { t := 183, length := 4, ins := 0, sqn := 4289392162 }, metric := { t := 182, length := 1, ins := 0, metric := 96 }, validity := { t := 156, length := 1, ins := 0, timer_unit := 3, timer_value := 30 }, list := none }], private_ext := [] } := by
  decide +kernel

-- `test_modify_bearer_failure_marshal` (gtpv2/messages/modifybearerfailureind.rs:233)
example : ModifyBearerFailureInd.codec.marshal ({ header := { msgtype := 65, piggyback := false, prio := none, length := 77, teid := (some 0), sqn := 104 }, cause := { t := 2, length := 2, ins := 0, value := 14, pce := false, bce := false, cs := false, offend_ie_type := none }, recovery := (some { t := 3, length := 1, ins := 0, recovery := 4 }), indication := (some { t := 77, length := 10, ins := 0, daf := false, dtf := false, hi := false, dfi := false, oi := false, isrsi := false, israi := false, sgwci := true, sqci := false, uimsi := false, cfsi := false, crsi := false, ps := false, pt := false, si := false, msv := false, retloc := false, pbic := false, srni := false, s6af := false, s4af := false, mbmdt := false, israu := false, ccrsi := false, cprai := false, arrl := false, ppoff := false, ppon := false, ppsi := false, csfbi := false, clii := false, cpsr := false, nsi := false, uasi := false, dtci := false, bdwi := false, psci := false, pcri := false, aosi := false, aopi := false, roaai := false, epcosi := false, cpopci := false, pmtsmi := false, s11tf := false, pnsi := false, unaccsi := false, wpmsi := false, g5snn26 := false, reprefi := false, g5siwki := false, eevrsi := false, ltemui := false, ltempi := false, enbcrsi := false, tspcmi := true, csrmfi := false, mtedtn := false, mtedta := false, n5gnmi := false, g5cnrs := false, g5cnri := false, s5rho := false, ethpdn := false, nspusi := false, pgwrnsi := false, rppcsi := false, pgwchi := false, sissme := false, nsenbi := false, idfupf := false, emci := false, ltemsai := false, srtpi := false, upipsi := false }), overload_info := [{ t := 180, length := 18, ins := 0, sqn := { t := 183, length := 4, ins := 0, sqn := 4289392145 }, metric := { t := 182, length := 1, ins := 0, metric := 96 }, validity := { t := 156, length := 1, ins := 0, timer_unit := 3, timer_value := 31 }, list := none }, { t := 180, length := 18, ins := 1, sqn := { t := 183, length := 4, ins := 0, sqn := 4289392162 }, metric := { t := 182, length := 1, ins := 0, metric := 96 }, validity := { t := 156, length := 1, ins := 0, timer_unit := 3, timer_value := 30 }, list := none }], private_ext := [] } : ModifyBearerFailureInd) = [72, 65, 0, 77, 0, 0, 0, 0, 0, 0, 104, 0, 2, 0, 2, 0, 14, 0, 3, 0, 1, 0, 4, 77, 0, 10, 0, 1, 0, 0, 0, 0, 0, 1, 0, 0, 0, 180, 0, 18, 0, 183, 0, 4, 0, 255, 170, 238, 17, 182, 0, 1, 0, 96, 156, 0, 1, 0, 127, 180, 0, 18, 1, 183, 0, 4, 0, 255, 170, 238, 34, 182, 0, 1, 0, 96, 156, 0, 1, 0, 126] := by
  decide +kernel

-- `test_modify_bearer_req_unmarshal` (gtpv2/messages/modifybearerreq.rs:436)
example : ModifyBearerRequest.codec.unmarshal .debug [72, 34, 0, 149, 230, 77, 164, 239, 38, 0, 46, 0, 75, 0, 8, 0, 104, 73, 41, 80, 1, 80, 148, 112, 82, 0, 1, 0, 6, 86, 0, 13, 0, 24, 50, 244, 2, 13, 89, 50, 244, 2, 0, 197, 88, 2, 83, 0, 3, 0, 50, 244, 2, 87, 0, 25, 0, 198, 35, 237, 56, 32, 217, 171, 141, 242, 42, 4, 74, 69, 0, 4, 0, 0, 0, 0, 0, 0, 0, 0, 0, 39, 72, 0, 8, 0, 0, 0, 3, 232, 0, 0, 3, 232, 3, 0, 1, 0, 22, 114, 0, 2, 0, 0, 0, 93, 0, 34, 0, 73, 0, 1, 0, 5, 87, 0, 25, 1, 196, 35, 237, 56, 37, 217, 171, 141, 243, 42, 4, 74, 69, 0, 4, 0, 0, 0, 0, 0, 0, 0, 0, 0, 40, 255, 0, 6, 0, 7, 219, 7, 0, 1, 0] = .ok { header := { msgtype := 34, piggyback := false, prio := none, length := 149, teid := (some 3863848175), sqn := 2490414 }, mei := (some { t := 75, length := 8, ins := 0, mei := ['8', '6', '9', '4', '9', '2', '0', '5', '1', '0', '0', '5', '4', '9', '0', '7'] }), uli := (some { t := 86, length := 13, ins := 0, loc := [(.Tai { mcc := 234, mnc := 20, mnc_is_three_digits := false, tac := 3417 }), (.Ecgi { mcc := 234, mnc := 20, mnc_is_three_digits := false, eci := 12933122 })] }), servingnetwork := (some { t := 83, length := 3, ins := 0, mcc := 234, mnc := 20, mnc_is_three_digits := false }), rattype := (some { t := 82, length := 1, ins := 0, rat_type := .Eutran }), indication := none, fteid_control := (some { t := 87, length := 25, ins := 0, interface := 6, teid := 602748960, ipv4 := (some 3651898866), ipv6 := (some ⟨3027626509713276928, 39⟩) }), apnambr := (some { t := 72, length := 8, ins := 0, ambr_ul := 1000, ambr_dl := 1000 }), delay_dl_pnr := none, bearer_ctxs := [{ t := 93, length := 34, ins := 0, ebi := { t := 73, length := 1, ins := 0, value := 5 }, cause := none, tft := none, fteids := [{ t := 87, length := 25, ins := 1, interface := 4, teid := 602748965, ipv4 := (some 3651898867), ipv6 := (some ⟨3027626509713276928, 40⟩) }], bearer_qos := none, charging_id := none, bearer_flags := none, pco := none, apco := none, epco := none, max_packet_loss := none, ran_nas_cause := none, bss_container := none, transaction_id := none }], recovery := (some { t := 3, length := 1, ins := 0, recovery := 22 }), uetimezone := (some { t := 114, length := 2, ins := 0, time_zone := 0, dst := 0 }), mme_fqcsid := none, sgw_fqcsid := none, uci := none, ue_localip := none, ue_udpport := none, mme_ldn := none, sgw_ldn := none, henb_localip := none, henb_udpport := none, mme_id := none, cnose := none, prai := none, overload_info := [], srv_plmn_rate_cntrl := none, mo_exception_data_counter := none, imsi := none, uli_for_sgw := none, wlan_loc := none, wlan_loc_timestamp := none, secondary_rat_usage_report := [], pscellid := none, private_ext := [{ t := 255, length := 6, ins := 0, enterprise_id := 2011, value := [7, 0, 1, 0] }] } := by
  decide +kernel

-- `test_modify_bearer_req_marshal` (gtpv2/messages/modifybearerreq.rs:582)
example : ModifyBearerRequest.codec.marshal ({ header := { msgtype := 34, piggyback := false, prio := none, length := 117, teid := (some 2334729981), sqn := 195 }, mei := (some { t := 75, length := 8, ins := 0, mei := ['8', '6', '5', '3', '3', '4', '0', '4', '0', '8', '6', '9', '3', '7', '2', '3'] }), uli := (some { t := 86, length := 13, ins := 0, loc := [(.Tai { mcc := 206, mnc := 1, mnc_is_three_digits := false, tac := 3135 }), (.Ecgi { mcc := 206, mnc := 1, mnc_is_three_digits := false, eci := 46196230 })] }), servingnetwork := (some { t := 83, length := 3, ins := 0, mcc := 206, mnc := 1, mnc_is_three_digits := false }), rattype := (some { t := 82, length := 1, ins := 0, rat_type := .Eutran }), indication := none, fteid_control := (some { t := 87, length := 9, ins := 0, interface := 6, teid := 367650764, ipv4 := (some 3585424496), ipv6 := none }), apnambr := (some { t := 72, length := 8, ins := 0, ambr_ul := 1000, ambr_dl := 1000 }), delay_dl_pnr := none, bearer_ctxs := [{ t := 93, length := 34, ins := 0, ebi := { t := 73, length := 1, ins := 0, value := 5 }, cause := none, tft := none, fteids := [{ t := 87, length := 25, ins := 1, interface := 4, teid := 367650764, ipv4 := (some 3585424496), ipv6 := none }], bearer_qos := none, charging_id := none, bearer_flags := none, pco := none, apco := none, epco := none, max_packet_loss := none, ran_nas_cause := none, bss_container := none, transaction_id := none }], recovery := (some { t := 3, length := 1, ins := 0, recovery := 21 }), uetimezone := (some { t := 114, length := 2, ins := 0, time_zone := 1, dst := 0 }), mme_fqcsid := none, sgw_fqcsid := none, uci := none, ue_localip := none, ue_udpport := none, mme_ldn := none, sgw_ldn := none, henb_localip := none, henb_udpport := none, mme_id := none, cnose := none, prai := none, overload_info := [], srv_plmn_rate_cntrl := none, mo_exception_data_counter := none, imsi := none, uli_for_sgw := none, wlan_loc := none, wlan_loc_timestamp := none, secondary_rat_usage_report := [], pscellid := none, private_ext := [{ t := 255, length := 6, ins := 0, enterprise_id := 2011, value := [7, 0, 1, 0] }] } : ModifyBearerRequest) = [72, 34, 0, 117, 139, 41, 38, 253, 0, 0, 195, 0, 75, 0, 8, 0, 104, 53, 67, 64, 128, 150, 115, 50, 86, 0, 13, 0, 24, 2, 246, 16, 12, 63, 2, 246, 16, 2, 192, 230, 6, 83, 0, 3, 0, 2, 246, 16, 82, 0, 1, 0, 6, 87, 0, 9, 0, 134, 21, 233, 231, 204, 213, 181, 60, 112, 72, 0, 8, 0, 0, 0, 3, 232, 0, 0, 3, 232, 93, 0, 18, 0, 73, 0, 1, 0, 5, 87, 0, 9, 1, 132, 21, 233, 231, 204, 213, 181, 60, 112, 3, 0, 1, 0, 21, 114, 0, 2, 0, 1, 0, 255, 0, 6, 0, 7, 219, 7, 0, 1, 0] := by
  decide +kernel

-- `test_modify_bearer_resp_unmarshal` (gtpv2/messages/modifybearerresp.rs:330)
example : ModifyBearerResponse.codec.unmarshal .debug [72, 35, 0, 64, 164, 120, 149, 128, 75, 41, 30, 0, 2, 0, 2, 0, 16, 0, 76, 0, 8, 0, 136, 34, 88, 1, 2, 147, 86, 240, 73, 0, 1, 0, 5, 127, 0, 1, 0, 0, 93, 0, 19, 0, 2, 0, 2, 0, 16, 0, 73, 0, 1, 0, 5, 94, 0, 4, 0, 1, 118, 79, 187, 3, 0, 1, 0, 8] = .ok { header := { msgtype := 35, piggyback := false, prio := none, length := 64, teid := (some 2759366016), sqn := 4925726 }, cause := { t := 2, length := 2, ins := 0, value := 16, pce := false, bce := false, cs := false, offend_ie_type := none }, msisdn := (some { t := 76, length := 8, ins := 0, msisdn := ['8', '8', '2', '2', '8', '5', '1', '0', '2', '0', '3', '9', '6', '5', '0'] }), linked_ebi := (some { t := 73, length := 1, ins := 0, value := 5 }), apn_restriction := (some { t := 127, length := 1, ins := 0, restriction_type := .NoApnRestriction }), pco := none, bearer_ctxs := [{ t := 93, length := 19, ins := 0, ebi := { t := 73, length := 1, ins := 0, value := 5 }, cause := (some { t := 2, length := 2, ins := 0, value := 16, pce := false, bce := false, cs := false, offend_ie_type := none }), tft := none, fteids := [], bearer_qos := none, charging_id := (some { t := 94, length := 4, ins := 0, charging_id := 24530875 }), bearer_flags := none, pco := none, apco := none, epco := none, max_packet_loss := none, ran_nas_cause := none, bss_container := none, transaction_id := none }], cra := none, csg_ira := none, henb_info_report := none, charging_gw_name := none, charging_gw_ip := none, pgw_fqcsid := none, sgw_fqcsid := none, recovery := (some { t := 3, length := 1, ins := 0, recovery := 8 }), sgw_ldn := none, pgw_ldn := none, indication := none, praa := none, load_control := [], overload_info := [], charging_id := none, pgw_change_info := none, private_ext := [] } := by
  decide +kernel

-- `test_modify_bearer_resp_marshal` (gtpv2/messages/modifybearerresp.rs:438)
example : ModifyBearerResponse.codec.marshal ({ header := { msgtype := 35, piggyback := false, prio := none, length := 64, teid := (some 2759366016), sqn := 4925726 }, cause := { t := 2, length := 2, ins := 0, value := 16, pce := false, bce := false, cs := false, offend_ie_type := none }, msisdn := (some { t := 76, length := 8, ins := 0, msisdn := ['8', '8', '2', '2', '8', '5', '1', '0', '2', '0', '3', '9', '6', '5', '0'] }), linked_ebi := (some { t := 73, length := 1, ins := 0, value := 5 }), apn_restriction := (some { t := 127, length := 1, ins := 0, restriction_type := .NoApnRestriction }), pco := none, bearer_ctxs := [{ t := 93, length := 19, ins := 0, ebi := { t := 73, length := 1, ins := 0, value := 5 }, cause := (some { t := 2, length := 2, ins := 0, value := 16, pce := false, bce := false, cs := false, offend_ie_type := none }), tft := none, fteids := [], bearer_qos := none, charging_id := (some { t := 94, length := 4, ins := 0, charging_id := 24530875 }), bearer_flags := none, pco := none, apco := none, epco := none, max_packet_loss := none, ran_nas_cause := none, bss_container := none, transaction_id := none }], cra := none, csg_ira := none, henb_info_report := none, charging_gw_name := none, charging_gw_ip := none, pgw_fqcsid := none, sgw_fqcsid := none, recovery := (some { t := 3, length := 1, ins := 0, recovery := 8 }), sgw_ldn := none, pgw_ldn := none, indication := none, praa := none, load_control := [], overload_info := [], charging_id := none, pgw_change_info := none, private_ext := [] } : ModifyBearerResponse) = [72, 35, 0, 64, 164, 120, 149, 128, 75, 41, 30, 0, 2, 0, 2, 0, 16, 0, 76, 0, 8, 0, 136, 34, 88, 1, 2, 147, 86, 240, 73, 0, 1, 0, 5, 127, 0, 1, 0, 0, 93, 0, 19, 0, 2, 0, 2, 0, 16, 0, 73, 0, 1, 0, 5, 94, 0, 4, 0, 1, 118, 79, 187, 3, 0, 1, 0, 8] := by
  decide +kernel

-- `test_pgw_downlink_triggering_ack_unmarshal` (gtpv2/messages/pgwdownlinktriggeringacknowledge.rs:125)
example : PgwDownlinkTriggeringAcknowledge.codec.unmarshal .debug [72, 104, 0, 44, 9, 9, 164, 86, 0, 0, 47, 0, 2, 0, 2, 0, 16, 0, 1, 0, 8, 0, 153, 65, 85, 1, 145, 22, 120, 243, 74, 0, 4, 0, 100, 20, 20, 10, 255, 0, 6, 0, 0, 0, 1, 98, 156, 196] = .ok { header := { msgtype := 104, piggyback := false, prio := none, length := 44, teid := (some 151626838), sqn := 47 }, cause := { t := 2, length := 2, ins := 0, value := 16, pce := false, bce := false, cs := false, offend_ie_type := none }, imsi := (some { t := 1, length := 8, ins := 0, imsi := ['9', '9', '1', '4', '5', '5', '1', '0', '1', '9', '6', '1', '8', '7', '3'] }), mme_sgsn_id := (some { t := 74, length := 4, ins := 0, ip := (.V4 1679037450) }), private_ext := [{ t := 255, length := 6, ins := 0, enterprise_id := 0, value := [1, 98, 156, 196] }] } := by
  decide +kernel

-- `test_pgw_downlink_triggering_ack_marshal` (gtpv2/messages/pgwdownlinktriggeringacknowledge.rs:168)
example : PgwDownlinkTriggeringAcknowledge.codec.marshal ({ header := { msgtype := 104, piggyback := false, prio := none, length := 44, teid := (some 151626838), sqn := 47 }, cause := { t := 2, length := 2, ins := 0, value := 16, pce := false, bce := false, cs := false, offend_ie_type := none }, imsi := (some { t := 1, length := 8, ins := 0, imsi := ['9', '9', '1', '4', '5', '5', '1', '0', '1', '9', '6', '1', '8', '7', '3'] }), mme_sgsn_id := (some { t := 74, length := 4, ins := 0, ip := (.V4 1679037450) }), private_ext := [{ t := 255, length := 6, ins := 0, enterprise_id := 0, value := [1, 98, 156, 196] }] } : PgwDownlinkTriggeringAcknowledge) = [72, 104, 0, 44, 9, 9, 164, 86, 0, 0, 47, 0, 2, 0, 2, 0, 16, 0, 1, 0, 8, 0, 153, 65, 85, 1, 145, 22, 120, 243, 74, 0, 4, 0, 100, 20, 20, 10, 255, 0, 6, 0, 0, 0, 1, 98, 156, 196] := by
  decide +kernel

-- `test_pgw_downlink_triggering_notif_unmarshal` (gtpv2/messages/pgwdownlinktriggeringnotification.rs:125)
example : PgwDownlinkTriggeringNotification.codec.unmarshal .debug [72, 103, 0, 67, 9, 9, 164, 86, 0, 0, 47, 0, 1, 0, 8, 0, 153, 65, 85, 1, 145, 22, 120, 243, 74, 0, 4, 0, 100, 20, 20, 10, 87, 0, 25, 0, 199, 35, 237, 56, 32, 217, 171, 141, 242, 42, 4, 74, 69, 0, 4, 0, 0, 0, 0, 0, 0, 0, 0, 0, 39, 255, 0, 6, 0, 0, 0, 1, 98, 156, 196] = .ok { header := { msgtype := 103, piggyback := false, prio := none, length := 67, teid := (some 151626838), sqn := 47 }, imsi := { t := 1, length := 8, ins := 0, imsi := ['9', '9', '1', '4', '5', '5', '1', '0', '1', '9', '6', '1', '8', '7', '3'] }, mme_sgsn_id := (some { t := 74, length := 4, ins := 0, ip := (.V4 1679037450) }), pgw_fteid := (some { t := 87, length := 25, ins := 0, interface := 7, teid := 602748960, ipv4 := (some 3651898866), ipv6 := (some ⟨3027626509713276928, 39⟩) }), private_ext := [{ t := 255, length := 6, ins := 0, enterprise_id := 0, value := [1, 98, 156, 196] }] } := by
  decide +kernel

-- `test_pgw_downlink_triggering_notif_marshal` (gtpv2/messages/pgwdownlinktriggeringnotification.rs:174)
example : PgwDownlinkTriggeringNotification.codec.marshal ({ header := { msgtype := 103, piggyback := false, prio := none, length := 67, teid := (some 151626838), sqn := 47 }, imsi := { t := 1, length := 8, ins := 0, imsi := ['9', '9', '1', '4', '5', '5', '1', '0', '1', '9', '6', '1', '8', '7', '3'] }, mme_sgsn_id := (some { t := 74, length := 4, ins := 0, ip := (.V4 1679037450) }), pgw_fteid := (some { t := 87, length := 25, ins := 0, interface := 7, teid := 602748960, ipv4 := (some 3651898866), ipv6 := (some ⟨3027626509713276928, 39⟩) }), private_ext := [{ t := 255, length := 6, ins := 0, enterprise_id := 0, value := [1, 98, 156, 196] }] } : PgwDownlinkTriggeringNotification) = [72, 103, 0, 67, 9, 9, 164, 86, 0, 0, 47, 0, 1, 0, 8, 0, 153, 65, 85, 1, 145, 22, 120, 243, 74, 0, 4, 0, 100, 20, 20, 10, 87, 0, 25, 0, 199, 35, 237, 56, 32, 217, 171, 141, 242, 42, 4, 74, 69, 0, 4, 0, 0, 0, 0, 0, 0, 0, 0, 0, 39, 255, 0, 6, 0, 0, 0, 1, 98, 156, 196] := by
  decide +kernel

end Gtp.V2.Msg
