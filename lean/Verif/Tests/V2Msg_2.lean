import Verif.V2.Msg.All

/-!
# The unit tests under `src/gtpv2/messages/`, run on the model (2 of 2)

Generated by `scripts/gen_tests.py`.  These are tests of the model against the expectations written in the
repository, not proofs of properties.
-/

namespace Gtp.V2.Msg
open Gtp.V2
open Gtp
set_option maxRecDepth 100000

-- `test_pgw_restart_notif_unmarshal` (gtpv2/messages/pgwrestartnotification.rs:122)
example : PgwRestartNotification.codec.unmarshal .debug [72, 180, 0, 52, 9, 9, 164, 86, 0, 0, 47, 0, 74, 0, 4, 0, 100, 20, 20, 10, 74, 0, 16, 1, 0, 253, 0, 0, 0, 0, 0, 0, 0, 0, 0, 0, 0, 0, 0, 0, 2, 0, 2, 0, 16, 0, 255, 0, 6, 0, 0, 0, 1, 98, 156, 196] = .ok { header := { msgtype := 180, piggyback := false, prio := none, length := 52, teid := (some 151626838), sqn := 47 }, pgw_addr_control := { t := 74, length := 4, ins := 0, ip := (.V4 1679037450) }, sgw_addr_control := { t := 74, length := 16, ins := 1, ip := (.V6 ⟨71213169107795968, 0⟩) }, cause := (some { t := 2, length := 2, ins := 0, value := 16, pce := false, bce := false, cs := false, offend_ie_type := none }), private_ext := [{ t := 255, length := 6, ins := 0, enterprise_id := 0, value := [1, 98, 156, 196] }] } := by
  decide +kernel

-- `test_pgw_restart_notif_marshal` (gtpv2/messages/pgwrestartnotification.rs:166)
example : PgwRestartNotification.codec.marshal ({ header := { msgtype := 180, piggyback := false, prio := none, length := 52, teid := (some 151626838), sqn := 47 }, pgw_addr_control := { t := 74, length := 4, ins := 0, ip := (.V4 1679037450) }, sgw_addr_control := { t := 74, length := 16, ins := 1, ip := (.V6 ⟨71213169107795968, 0⟩) }, cause := (some { t := 2, length := 2, ins := 0, value := 16, pce := false, bce := false, cs := false, offend_ie_type := none }), private_ext := [{ t := 255, length := 6, ins := 0, enterprise_id := 0, value := [1, 98, 156, 196] }] } : PgwRestartNotification) = [72, 180, 0, 52, 9, 9, 164, 86, 0, 0, 47, 0, 74, 0, 4, 0, 100, 20, 20, 10, 74, 0, 16, 1, 0, 253, 0, 0, 0, 0, 0, 0, 0, 0, 0, 0, 0, 0, 0, 0, 2, 0, 2, 0, 16, 0, 255, 0, 6, 0, 0, 0, 1, 98, 156, 196] := by
  decide +kernel

-- `test_pgw_restart_notif_ack_unmarshal` (gtpv2/messages/pgwrestartnotificationacknowledge.rs:103)
example : PgwRestartNotificationAcknowledge.codec.unmarshal .debug [72, 180, 0, 24, 9, 9, 164, 86, 0, 0, 47, 0, 2, 0, 2, 0, 16, 0, 255, 0, 6, 0, 0, 0, 1, 98, 156, 196] = .ok { header := { msgtype := 180, piggyback := false, prio := none, length := 24, teid := (some 151626838), sqn := 47 }, cause := { t := 2, length := 2, ins := 0, value := 16, pce := false, bce := false, cs := false, offend_ie_type := none }, private_ext := [{ t := 255, length := 6, ins := 0, enterprise_id := 0, value := [1, 98, 156, 196] }] } := by
  decide +kernel

-- `test_pgw_restart_notif_ack_marshal` (gtpv2/messages/pgwrestartnotificationacknowledge.rs:132)
example : PgwRestartNotificationAcknowledge.codec.marshal ({ header := { msgtype := 180, piggyback := false, prio := none, length := 24, teid := (some 151626838), sqn := 47 }, cause := { t := 2, length := 2, ins := 0, value := 16, pce := false, bce := false, cs := false, offend_ie_type := none }, private_ext := [{ t := 255, length := 6, ins := 0, enterprise_id := 0, value := [1, 98, 156, 196] }] } : PgwRestartNotificationAcknowledge) = [72, 180, 0, 24, 9, 9, 164, 86, 0, 0, 47, 0, 2, 0, 2, 0, 16, 0, 255, 0, 6, 0, 0, 0, 1, 98, 156, 196] := by
  decide +kernel

-- `test_ran_info_relay_unmarshal` (gtpv2/messages/raninformationrelay.rs:114)
example : RanInformationRelay.codec.unmarshal .debug [72, 152, 0, 40, 9, 9, 164, 86, 0, 0, 47, 0, 119, 0, 3, 0, 2, 255, 170, 121, 0, 11, 0, 0, 98, 243, 16, 255, 255, 170, 255, 170, 16, 2, 255, 0, 6, 0, 0, 0, 1, 98, 156, 196] = .ok { header := { msgtype := 152, piggyback := false, prio := none, length := 40, teid := (some 151626838), sqn := 47 }, bss_container := { t := 119, length := 3, ins := 0, cause_type := .Nas, cause_field := [255, 170] }, rim_routing_addr := (some { t := 121, length := 11, ins := 0, target_type := (.RncId { rai := { mcc := 263, mnc := 1, mnc_is_three_digits := false, lac := 65535, rac := 170 }, rnc_id := 65450, ext_rnc_id := (some 4098) }) }), private_ext := [{ t := 255, length := 6, ins := 0, enterprise_id := 0, value := [1, 98, 156, 196] }] } := by
  decide +kernel

-- `test_ran_info_relay_marshal` (gtpv2/messages/raninformationrelay.rs:162)
example : RanInformationRelay.codec.marshal ({ header := { msgtype := 152, piggyback := false, prio := none, length := 40, teid := (some 151626838), sqn := 47 }, bss_container := { t := 119, length := 3, ins := 0, cause_type := .Nas, cause_field := [255, 170] }, rim_routing_addr := (some { t := 121, length := 11, ins := 0, target_type := (.RncId { rai := { mcc := 263, mnc := 1, mnc_is_three_digits := false, lac := 65535, rac := 170 }, rnc_id := 65450, ext_rnc_id := (some 4098) }) }), private_ext := [{ t := 255, length := 6, ins := 0, enterprise_id := 0, value := [1, 98, 156, 196] }] } : RanInformationRelay) = [72, 152, 0, 40, 9, 9, 164, 86, 0, 0, 47, 0, 119, 0, 3, 0, 2, 255, 170, 121, 0, 11, 0, 0, 98, 243, 16, 255, 255, 170, 255, 170, 16, 2, 255, 0, 6, 0, 0, 0, 1, 98, 156, 196] := by
  decide +kernel

-- `test_release_access_bearers_req_unmarshal` (gtpv2/messages/releaseaccessbearersreq.rs:144)
example : ReleaseAccessBearersRequest.codec.unmarshal .debug [72, 170, 0, 78, 230, 77, 164, 239, 38, 0, 46, 0, 73, 0, 1, 0, 5, 73, 0, 1, 0, 6, 135, 0, 1, 0, 0, 77, 0, 10, 0, 0, 0, 0, 64, 0, 0, 0, 0, 0, 0, 201, 0, 27, 0, 3, 0, 5, 0, 0, 0, 255, 0, 0, 255, 255, 0, 0, 0, 0, 255, 255, 255, 0, 0, 0, 0, 0, 0, 0, 255, 255, 255, 0, 6, 0, 7, 219, 7, 0, 1, 0] = .ok { header := { msgtype := 170, piggyback := false, prio := none, length := 78, teid := (some 3863848175), sqn := 2490414 }, list_rabs := [{ t := 73, length := 1, ins := 0, value := 5 }, { t := 73, length := 1, ins := 0, value := 6 }], orig_node := (some { t := 135, length := 1, ins := 0, node := .Mme }), indication := (some { t := 77, length := 10, ins := 0, daf := false, dtf := false, hi := false, dfi := false, oi := false, isrsi := false, israi := false, sgwci := false, sqci := false, uimsi := false, cfsi := false, crsi := false, ps := false, pt := false, si := false, msv := false, retloc := false, pbic := false, srni := false, s6af := false, s4af := false, mbmdt := false, israu := false, ccrsi := false, cprai := false, arrl := true, ppoff := false, ppon := false, ppsi := false, csfbi := false, clii := false, cpsr := false, nsi := false, uasi := false, dtci := false, bdwi := false, psci := false, pcri := false, aosi := false, aopi := false, roaai := false, epcosi := false, cpopci := false, pmtsmi := false, s11tf := false, pnsi := false, unaccsi := false, wpmsi := false, g5snn26 := false, reprefi := false, g5siwki := false, eevrsi := false, ltemui := false, ltempi := false, enbcrsi := false, tspcmi := false, csrmfi := false, mtedtn := false, mtedta := false, n5gnmi := false, g5cnrs := false, g5cnri := false, s5rho := false, ethpdn := false, nspusi := false, pgwrnsi := false, rppcsi := false, pgwchi := false, sissme := false, nsenbi := false, idfupf := false, emci := false, ltemsai := false, srtpi := false, upipsi := false }), secondary_rat_usage_report := [{ t := 201, length := 27, ins := 0, irsgw := true, irpgw := true, rat_type := 0, ebi := 5, start_timestamp := 255, end_timestamp := 65535, usg_data_dl := 4294967040, usg_data_ul := 65535, second_rat_dur_tansfer := none }], pscellid := none, private_ext := [{ t := 255, length := 6, ins := 0, enterprise_id := 2011, value := [7, 0, 1, 0] }] } := by
  decide +kernel

-- `test_release_access_bearers_req_marshal` (gtpv2/messages/releaseaccessbearersreq.rs:212)
example : ReleaseAccessBearersRequest.codec.marshal ({ header := { msgtype := 170, piggyback := false, prio := none, length := 78, teid := (some 3863848175), sqn := 2490414 }, list_rabs := [{ t := 73, length := 1, ins := 0, value := 5 }, { t := 73, length := 1, ins := 0, value := 6 }], orig_node := (some { t := 135, length := 1, ins := 0, node := .Mme }), indication := (some { t := 77, length := 10, ins := 0, daf := false, dtf := false, hi := false, dfi := false, oi := false, isrsi := false, israi := false, sgwci := false, sqci := false, uimsi := false, cfsi := false, crsi := false, ps := false, pt := false, si := false, msv := false, retloc := false, pbic := false, srni := false, s6af := false, s4af := false, mbmdt := false, israu := false, ccrsi := false, cprai := false, arrl := true, ppoff := false, ppon := false, ppsi := false, csfbi := false, clii := false, cpsr := false, nsi := false, uasi := false, dtci := false, bdwi := false, psci := false, pcri := false, aosi := false, aopi := false, roaai := false, epcosi := false, cpopci := false, pmtsmi := false, s11tf := false, pnsi := false, unaccsi := false, wpmsi := false, g5snn26 := false, reprefi := false, g5siwki := false, eevrsi := false, ltemui := false, ltempi := false, enbcrsi := false, tspcmi := false, csrmfi := false, mtedtn := false, mtedta := false, n5gnmi := false, g5cnrs := false, g5cnri := false, s5rho := false, ethpdn := false, nspusi := false, pgwrnsi := false, rppcsi := false, pgwchi := false, sissme := false, nsenbi := false, idfupf := false, emci := false, ltemsai := false, srtpi := false, upipsi := false }), secondary_rat_usage_report := [{ t := 201, length := 27, ins := 0, irsgw := true, irpgw := true, rat_type := 0, ebi := 5, start_timestamp := 255, end_timestamp := 65535, usg_data_dl := 4294967040, usg_data_ul := 65535, second_rat_dur_tansfer := none }], pscellid := none, private_ext := [{ t := 255, length := 6, ins := 0, enterprise_id := 2011, value := [7, 0, 1, 0] }] } : ReleaseAccessBearersRequest) = [72, 170, 0, 78, 230, 77, 164, 239, 38, 0, 46, 0, 73, 0, 1, 0, 5, 73, 0, 1, 0, 6, 135, 0, 1, 0, 0, 77, 0, 10, 0, 0, 0, 0, 64, 0, 0, 0, 0, 0, 0, 201, 0, 27, 0, 3, 0, 5, 0, 0, 0, 255, 0, 0, 255, 255, 0, 0, 0, 0, 255, 255, 255, 0, 0, 0, 0, 0, 0, 0, 255, 255, 255, 0, 6, 0, 7, 219, 7, 0, 1, 0] := by
  decide +kernel

-- `test_release_access_bearers_resp_unmarshal` (gtpv2/messages/releaseaccessbearersresp.rs:147)
example : ReleaseAccessBearersResponse.codec.unmarshal .debug [72, 171, 0, 112, 164, 120, 149, 128, 75, 41, 30, 0, 2, 0, 2, 0, 16, 0, 3, 0, 1, 0, 8, 77, 0, 10, 0, 1, 0, 0, 0, 0, 0, 0, 0, 0, 0, 181, 0, 31, 0, 183, 0, 4, 0, 255, 170, 238, 17, 182, 0, 1, 0, 96, 184, 0, 14, 0, 100, 4, 116, 101, 115, 116, 3, 110, 101, 116, 3, 99, 111, 109, 180, 0, 18, 0, 183, 0, 4, 0, 255, 170, 238, 17, 182, 0, 1, 0, 96, 156, 0, 1, 0, 127, 180, 0, 18, 1, 183, 0, 4, 0, 255, 170, 238, 34, 182, 0, 1, 0, 96, 156, 0, 1, 0, 126] = .ok { header := { msgtype := 171, piggyback := false, prio := none, length := 112, teid := (some 2759366016), sqn := 4925726 }, cause := { t := 2, length := 2, ins := 0, value := 16, pce := false, bce := false, cs := false, offend_ie_type := none }, recovery := (some { t := 3, length := 1, ins := 0, recovery := 8 }), indication := (some { t := 77, length := 10, ins := 0, daf := false, dtf := false, hi := false, dfi := false, oi := false, isrsi := false, israi := false, sgwci := true, sqci := false, uimsi := false, cfsi := false, crsi := false, ps := false, pt := false, si := false, msv := false, retloc := false, pbic := false, srni := false, s6af := false, s4af := false, mbmdt := false, israu := false, ccrsi := false, cprai := false, arrl := false, ppoff := false, ppon := false, ppsi := false, csfbi := false, clii := false, cpsr := false, nsi := false, uasi := false, dtci := false, bdwi := false, psci := false, pcri := false, aosi := false, aopi := false, roaai := false, epcosi := false, cpopci := false, pmtsmi := false, s11tf := false, pnsi := false, unaccsi := false, wpmsi := false, g5snn26 := false, reprefi := false, g5siwki := false, eevrsi := false, ltemui := false, ltempi := false, enbcrsi := false, tspcmi := false, csrmfi := false, mtedtn := false, mtedta := false, n5gnmi := false, g5cnrs := false, g5cnri := false, s5rho := false, ethpdn := false, nspusi := false, pgwrnsi := false, rppcsi := false, pgwchi := false, sissme := false, nsenbi := false, idfupf := false, emci := false, ltemsai := false, srtpi := false, upipsi := false }), load_control := [{ t := 181, length := 31, ins := 0, sqn := { t := 183, length := 4, ins := 0, sqn := 4289392145 }, load_metric := { t := 182, length := 1, ins := 0, metric := 96 }, list := (some [{ t := 184, length := 14, ins := 0, relative_cap := 100, name := ['t', 'e', 's', 't', '.', 'n', 'e', 't', '.', 'c', 'o', 'm'] }]) }], overload_info := [{ t := 180, length := 18, ins := 0, sqn := { t := 183, length := 4, ins := 0, sqn := 4289392145 }, metric := { t := 182, length := 1, ins := 0, metric := 96 }, validity := { t := 156, length := 1, ins := 0, timer_unit := 3, timer_value := 31 }, list := none }, { t := 180, length := 18, ins := 1, sqn := { t := 183, length := 4, ins := 0, sqn := 4289392162 }, metric := { t := 182, length := 1, ins := 0, metric := 96 }, validity := { t := 156, length := 1, ins := 0, timer_unit := 3, timer_value := 30 }, list := none }], private_ext := [] } := by
  decide +kernel

-- `test_release_access_bearers_resp_marshal` (gtpv2/messages/releaseaccessbearersresp.rs:262)
example : ReleaseAccessBearersResponse.codec.marshal ({ header := { msgtype := 171, piggyback := false, prio := none, length := 112, teid := (some 2759366016), sqn := 4925726 }, cause := { t := 2, length := 2, ins := 0, value := 16, pce := false, bce := false, cs := false, offend_ie_type := none }, recovery := (some { t := 3, length := 1, ins := 0, recovery := 8 }), indication := (some { t := 77, length := 10, ins := 0, daf := false, dtf := false, hi := false, dfi := false, oi := false, isrsi := false, israi := false, sgwci := true, sqci := false, uimsi := false, cfsi := false, crsi := false, ps := false, pt := false, si := false, msv := false, retloc := false, pbic := false, srni := false, s6af := false, s4af := false, mbmdt := false, israu := false, ccrsi := false, cprai := false, arrl := false, ppoff := false, ppon := false, ppsi := false, csfbi := false, clii := false, cpsr := false, nsi := false, uasi := false, dtci := false, bdwi := false, psci := false, pcri := false, aosi := false, aopi := false, roaai := false, epcosi := false, cpopci := false, pmtsmi := false, s11tf := false, pnsi := false, unaccsi := false, wpmsi := false, g5snn26 := false, reprefi := false, g5siwki := false, eevrsi := false, ltemui := false, ltempi := false, enbcrsi := false, tspcmi := false, csrmfi := false, mtedtn := false, mtedta := false, n5gnmi := false, g5cnrs := false, g5cnri := false, s5rho := false, ethpdn := false, nspusi := false, pgwrnsi := false, rppcsi := false, pgwchi := false, sissme := false, nsenbi := false, idfupf := false, emci := false, ltemsai := false, srtpi := false, upipsi := false }), load_control := [{ t := 181, length := 31, ins := 0, sqn := { t := 183, length := 4, ins := 0, sqn := 4289392145 }, load_metric := { t := 182, length := 1, ins := 0, metric := 96 }, list := (some [{ t := 184, length := 14, ins := 0, relative_cap := 100, name := ['t', 'e', 's', 't', '.', 'n', 'e', 't', '.', 'c', 'o', 'm'] }]) }], overload_info := [{ t := 180, length := 18, ins := 0, sqn := { t := 183, length := 4, ins := 0, sqn := 4289392145 }, metric := { t := 182, length := 1, ins := 0, metric := 96 }, validity := { t := 156, length := 1, ins := 0, timer_unit := 3, timer_value := 31 }, list := none }, { t := 180, length := 18, ins := 1, sqn := { t := 183, length := 4, ins := 0, sqn := 4289392162 }, metric := { t := 182, length := 1, ins := 0, metric := 96 }, validity := { t := 156, length := 1, ins := 0, timer_unit := 3, timer_value := 30 }, list := none }], private_ext := [] } : ReleaseAccessBearersResponse) = [72, 171, 0, 112, 164, 120, 149, 128, 75, 41, 30, 0, 2, 0, 2, 0, 16, 0, 3, 0, 1, 0, 8, 77, 0, 10, 0, 1, 0, 0, 0, 0, 0, 0, 0, 0, 0, 181, 0, 31, 0, 183, 0, 4, 0, 255, 170, 238, 17, 182, 0, 1, 0, 96, 184, 0, 14, 0, 100, 4, 116, 101, 115, 116, 3, 110, 101, 116, 3, 99, 111, 109, 180, 0, 18, 0, 183, 0, 4, 0, 255, 170, 238, 17, 182, 0, 1, 0, 96, 156, 0, 1, 0, 127, 180, 0, 18, 1, 183, 0, 4, 0, 255, 170, 238, 34, 182, 0, 1, 0, 96, 156, 0, 1, 0, 126] := by
  decide +kernel

-- `test_reloc_cancel_req_unmarshal` (gtpv2/messages/relocationcancelreq.rs:132)
example : RelocationCancelRequest.codec.unmarshal .debug [72, 139, 0, 63, 9, 9, 164, 86, 0, 0, 47, 0, 1, 0, 8, 0, 9, 65, 80, 1, 145, 22, 120, 243, 75, 0, 8, 0, 104, 103, 132, 64, 16, 35, 3, 48, 77, 0, 10, 0, 0, 64, 0, 0, 0, 0, 0, 0, 0, 0, 119, 0, 3, 0, 0, 255, 170, 255, 0, 6, 0, 0, 0, 1, 98, 156, 196] = .ok { header := { msgtype := 139, piggyback := false, prio := none, length := 63, teid := (some 151626838), sqn := 47 }, imsi := (some { t := 1, length := 8, ins := 0, imsi := ['9', '0', '1', '4', '0', '5', '1', '0', '1', '9', '6', '1', '8', '7', '3'] }), mei := (some { t := 75, length := 8, ins := 0, mei := ['8', '6', '7', '6', '4', '8', '0', '4', '0', '1', '3', '2', '3', '0', '0', '3'] }), indication := (some { t := 77, length := 10, ins := 0, daf := false, dtf := false, hi := false, dfi := false, oi := false, isrsi := false, israi := false, sgwci := false, sqci := false, uimsi := true, cfsi := false, crsi := false, ps := false, pt := false, si := false, msv := false, retloc := false, pbic := false, srni := false, s6af := false, s4af := false, mbmdt := false, israu := false, ccrsi := false, cprai := false, arrl := false, ppoff := false, ppon := false, ppsi := false, csfbi := false, clii := false, cpsr := false, nsi := false, uasi := false, dtci := false, bdwi := false, psci := false, pcri := false, aosi := false, aopi := false, roaai := false, epcosi := false, cpopci := false, pmtsmi := false, s11tf := false, pnsi := false, unaccsi := false, wpmsi := false, g5snn26 := false, reprefi := false, g5siwki := false, eevrsi := false, ltemui := false, ltempi := false, enbcrsi := false, tspcmi := false, csrmfi := false, mtedtn := false, mtedta := false, n5gnmi := false, g5cnrs := false, g5cnri := false, s5rho := false, ethpdn := false, nspusi := false, pgwrnsi := false, rppcsi := false, pgwchi := false, sissme := false, nsenbi := false, idfupf := false, emci := false, ltemsai := false, srtpi := false, upipsi := false }), ranap_cause := (some { t := 119, length := 3, ins := 0, cause_type := .RadioNetworkLayer, cause_field := [255, 170] }), private_ext := [{ t := 255, length := 6, ins := 0, enterprise_id := 0, value := [1, 98, 156, 196] }] } := by
  decide +kernel

-- `test_reloc_cancel_req_marshal` (gtpv2/messages/relocationcancelreq.rs:179)
example : RelocationCancelRequest.codec.marshal ({ header := { msgtype := 139, piggyback := false, prio := none, length := 63, teid := (some 151626838), sqn := 47 }, imsi := (some { t := 1, length := 8, ins := 0, imsi := ['9', '0', '1', '4', '0', '5', '1', '0', '1', '9', '6', '1', '8', '7', '3'] }), mei := (some { t := 75, length := 8, ins := 0, mei := ['8', '6', '7', '6', '4', '8', '0', '4', '0', '1', '3', '2', '3', '0', '0', '3'] }), indication := (some { t := 77, length := 10, ins := 0, daf := false, dtf := false, hi := false, dfi := false, oi := false, isrsi := false, israi := false, sgwci := false, sqci := false, uimsi := true, cfsi := false, crsi := false, ps := false, pt := false, si := false, msv := false, retloc := false, pbic := false, srni := false, s6af := false, s4af := false, mbmdt := false, israu := false, ccrsi := false, cprai := false, arrl := false, ppoff := false, ppon := false, ppsi := false, csfbi := false, clii := false, cpsr := false, nsi := false, uasi := false, dtci := false, bdwi := false, psci := false, pcri := false, aosi := false, aopi := false, roaai := false, epcosi := false, cpopci := false, pmtsmi := false, s11tf := false, pnsi := false, unaccsi := false, wpmsi := false, g5snn26 := false, reprefi := false, g5siwki := false, eevrsi := false, ltemui := false, ltempi := false, enbcrsi := false, tspcmi := false, csrmfi := false, mtedtn := false, mtedta := false, n5gnmi := false, g5cnrs := false, g5cnri := false, s5rho := false, ethpdn := false, nspusi := false, pgwrnsi := false, rppcsi := false, pgwchi := false, sissme := false, nsenbi := false, idfupf := false, emci := false, ltemsai := false, srtpi := false, upipsi := false }), ranap_cause := (some { t := 119, length := 3, ins := 0, cause_type := .RadioNetworkLayer, cause_field := [255, 170] }), private_ext := [{ t := 255, length := 6, ins := 0, enterprise_id := 0, value := [1, 98, 156, 196] }] } : RelocationCancelRequest) = [72, 139, 0, 63, 9, 9, 164, 86, 0, 0, 47, 0, 1, 0, 8, 0, 9, 65, 80, 1, 145, 22, 120, 243, 75, 0, 8, 0, 104, 103, 132, 64, 16, 35, 3, 48, 77, 0, 10, 0, 0, 64, 0, 0, 0, 0, 0, 0, 0, 0, 119, 0, 3, 0, 0, 255, 170, 255, 0, 6, 0, 0, 0, 1, 98, 156, 196] := by
  decide +kernel

-- `test_reloc_cancel_resp_unmarshal` (gtpv2/messages/relocationcancelresp.rs:102)
example : RelocationCancelResponse.codec.unmarshal .debug [72, 140, 0, 24, 164, 120, 149, 128, 75, 41, 30, 0, 2, 0, 2, 0, 16, 0, 255, 0, 6, 0, 7, 219, 7, 0, 1, 0] = .ok { header := { msgtype := 140, piggyback := false, prio := none, length := 24, teid := (some 2759366016), sqn := 4925726 }, cause := { t := 2, length := 2, ins := 0, value := 16, pce := false, bce := false, cs := false, offend_ie_type := none }, private_ext := [{ t := 255, length := 6, ins := 0, enterprise_id := 2011, value := [7, 0, 1, 0] }] } := by
  decide +kernel

-- `test_reloc_cancel_resp_marshal` (gtpv2/messages/relocationcancelresp.rs:139)
example : RelocationCancelResponse.codec.marshal ({ header := { msgtype := 140, piggyback := false, prio := none, length := 24, teid := (some 2759366016), sqn := 4925726 }, cause := { t := 2, length := 2, ins := 0, value := 16, pce := false, bce := false, cs := false, offend_ie_type := none }, private_ext := [{ t := 255, length := 6, ins := 0, enterprise_id := 2011, value := [7, 0, 1, 0] }] } : RelocationCancelResponse) = [72, 140, 0, 24, 164, 120, 149, 128, 75, 41, 30, 0, 2, 0, 2, 0, 16, 0, 255, 0, 6, 0, 7, 219, 7, 0, 1, 0] := by
  decide +kernel

-- `test_remote_ue_report_ack_unmarshal` (gtpv2/messages/remoteuereportacknowledge.rs:103)
example : RemoteUeReportAcknowledge.codec.unmarshal .debug [72, 41, 0, 24, 9, 9, 164, 86, 0, 0, 47, 0, 2, 0, 2, 0, 16, 0, 255, 0, 6, 0, 0, 0, 1, 98, 156, 196] = .ok { header := { msgtype := 41, piggyback := false, prio := none, length := 24, teid := (some 151626838), sqn := 47 }, cause := { t := 2, length := 2, ins := 0, value := 16, pce := false, bce := false, cs := false, offend_ie_type := none }, private_ext := [{ t := 255, length := 6, ins := 0, enterprise_id := 0, value := [1, 98, 156, 196] }] } := by
  decide +kernel

-- `test_remote_ue_report_ack_marshal` (gtpv2/messages/remoteuereportacknowledge.rs:132)
example : RemoteUeReportAcknowledge.codec.marshal ({ header := { msgtype := 41, piggyback := false, prio := none, length := 24, teid := (some 151626838), sqn := 47 }, cause := { t := 2, length := 2, ins := 0, value := 16, pce := false, bce := false, cs := false, offend_ie_type := none }, private_ext := [{ t := 255, length := 6, ins := 0, enterprise_id := 0, value := [1, 98, 156, 196] }] } : RemoteUeReportAcknowledge) = [72, 41, 0, 24, 9, 9, 164, 86, 0, 0, 47, 0, 2, 0, 2, 0, 16, 0, 255, 0, 6, 0, 0, 0, 1, 98, 156, 196] := by
  decide +kernel

-- `test_remote_ue_report_notification_unmarshal` (gtpv2/messages/remoteuereportnotification.rs:105)
example : RemoteUeReportNotification.codec.unmarshal .debug [72, 40, 0, 153, 0, 0, 0, 0, 0, 0, 104, 0, 191, 0, 41, 0, 192, 0, 28, 0, 3, 8, 9, 65, 80, 1, 145, 22, 120, 243, 8, 136, 34, 88, 1, 16, 82, 17, 242, 8, 104, 103, 132, 64, 16, 35, 3, 48, 193, 0, 5, 0, 1, 10, 194, 186, 52, 191, 0, 41, 0, 192, 0, 28, 0, 3, 8, 9, 65, 80, 1, 145, 22, 120, 244, 8, 136, 34, 88, 1, 16, 82, 17, 243, 8, 104, 103, 132, 64, 16, 35, 3, 64, 193, 0, 5, 0, 1, 10, 194, 186, 53, 191, 0, 41, 1, 192, 0, 28, 0, 3, 8, 9, 65, 80, 1, 145, 22, 120, 245, 8, 136, 34, 88, 1, 16, 82, 17, 244, 8, 104, 103, 132, 64, 16, 35, 3, 80, 193, 0, 5, 0, 1, 10, 194, 186, 54, 255, 0, 6, 0, 7, 219, 7, 0, 1, 0] = .ok { header := { msgtype := 40, piggyback := false, prio := none, length := 153, teid := (some 0), sqn := 104 }, remote_ue_ctx_connected := [{ t := 191, length := 41, ins := 0, user_id := { t := 192, length := 28, ins := 0, imsi := ['9', '0', '1', '4', '0', '5', '1', '0', '1', '9', '6', '1', '8', '7', '3'], msisdn := (some ['8', '8', '2', '2', '8', '5', '1', '0', '0', '1', '2', '5', '1', '1', '2']), imei := (some ['8', '6', '7', '6', '4', '8', '0', '4', '0', '1', '3', '2', '3', '0', '0', '3']) }, ue_ip := (some { t := 193, length := 5, ins := 0, ip := (.V4 180533812) }) }, { t := 191, length := 41, ins := 0, user_id := { t := 192, length := 28, ins := 0, imsi := ['9', '0', '1', '4', '0', '5', '1', '0', '1', '9', '6', '1', '8', '7', '4'], msisdn := (some ['8', '8', '2', '2', '8', '5', '1', '0', '0', '1', '2', '5', '1', '1', '3']), imei := (some ['8', '6', '7', '6', '4', '8', '0', '4', '0', '1', '3', '2', '3', '0', '0', '4']) }, ue_ip := (some { t := 193, length := 5, ins := 0, ip := (.V4 180533813) }) }], remote_ue_ctx_disconnected := [{ t := 191, length := 41, ins := 1, user_id := { t := 192, length := 28, ins := 0, imsi := ['9', '0', '1', '4', '0', '5', '1', '0', '1', '9', '6', '1', '8', '7', '5'], msisdn := (some ['8', '8', '2', '2', '8', '5', '1', '0', '0', '1', '2', '5', '1', '1', '4']), imei := (some ['8', '6', '7', '6', '4', '8', '0', '4', '0', '1', '3', '2', '3', '0', '0', '5']) }, ue_ip := (some { t := 193, length := 5, ins := 0, ip := (.V4 180533814) }) }], private_ext := [{ t := 255, length := 6, ins := 0, enterprise_id := 2011, value := [7, 0, 1, 0] }] } := by
  decide +kernel

-- `test_remote_ue_report_notification_marshal` (gtpv2/messages/remoteuereportnotification.rs:201)
example : RemoteUeReportNotification.codec.marshal ({ header := { msgtype := 40, piggyback := false, prio := none, length := 153, teid := (some 0), sqn := 104 }, remote_ue_ctx_connected := [{ t := 191, length := 41, ins := 0, user_id := { t := 192, length := 28, ins := 0, imsi := ['9', '0', '1', '4', '0', '5', '1', '0', '1', '9', '6', '1', '8', '7', '3'], msisdn := (some ['8', '8', '2', '2', '8', '5', '1', '0', '0', '1', '2', '5', '1', '1', '2']), imei := (some ['8', '6', '7', '6', '4', '8', '0', '4', '0', '1', '3', '2', '3', '0', '0', '3']) }, ue_ip := (some { t := 193, length := 5, ins := 0, ip := (.V4 180533812) }) }, { t := 191, length := 41, ins := 0, user_id := { t := 192, length := 28, ins := 0, imsi := ['9', '0', '1', '4', '0', '5', '1', '0', '1', '9', '6', '1', '8', '7', '4'], msisdn := (some ['8', '8', '2', '2', '8', '5', '1', '0', '0', '1', '2', '5', '1', '1', '3']), imei := (some ['8', '6', '7', '6', '4', '8', '0', '4', '0', '1', '3', '2', '3', '0', '0', '4']) }, ue_ip := (some { t := 193, length := 5, ins := 0, ip := (.V4 180533813) }) }], remote_ue_ctx_disconnected := [{ t := 191, length := 41, ins := 1, user_id := { t := 192, length := 28, ins := 0, imsi := ['9', '0', '1', '4', '0', '5', '1', '0', '1', '9', '6', '1', '8', '7', '5'], msisdn := (some ['8', '8', '2', '2', '8', '5', '1', '0', '0', '1', '2', '5', '1', '1', '4']), imei := (some ['8', '6', '7', '6', '4', '8', '0', '4', '0', '1', '3', '2', '3', '0', '0', '5']) }, ue_ip := (some { t := 193, length := 5, ins := 0, ip := (.V4 180533814) }) }], private_ext := [{ t := 255, length := 6, ins := 0, enterprise_id := 2011, value := [7, 0, 1, 0] }] } : RemoteUeReportNotification) = [72, 40, 0, 153, 0, 0, 0, 0, 0, 0, 104, 0, 191, 0, 41, 0, 192, 0, 28, 0, 3, 8, 9, 65, 80, 1, 145, 22, 120, 243, 8, 136, 34, 88, 1, 16, 82, 17, 242, 8, 104, 103, 132, 64, 16, 35, 3, 48, 193, 0, 5, 0, 1, 10, 194, 186, 52, 191, 0, 41, 0, 192, 0, 28, 0, 3, 8, 9, 65, 80, 1, 145, 22, 120, 244, 8, 136, 34, 88, 1, 16, 82, 17, 243, 8, 104, 103, 132, 64, 16, 35, 3, 64, 193, 0, 5, 0, 1, 10, 194, 186, 53, 191, 0, 41, 1, 192, 0, 28, 0, 3, 8, 9, 65, 80, 1, 145, 22, 120, 245, 8, 136, 34, 88, 1, 16, 82, 17, 244, 8, 104, 103, 132, 64, 16, 35, 3, 80, 193, 0, 5, 0, 1, 10, 194, 186, 54, 255, 0, 6, 0, 7, 219, 7, 0, 1, 0] := by
  decide +kernel

-- `test_resume_ack_unmarshal` (gtpv2/messages/resumeacknowledge.rs:103)
example : ResumeAcknowledge.codec.unmarshal .debug [72, 165, 0, 24, 164, 120, 149, 128, 75, 41, 30, 0, 2, 0, 2, 0, 16, 0, 255, 0, 6, 0, 7, 219, 7, 0, 1, 0] = .ok { header := { msgtype := 165, piggyback := false, prio := none, length := 24, teid := (some 2759366016), sqn := 4925726 }, cause := { t := 2, length := 2, ins := 0, value := 16, pce := false, bce := false, cs := false, offend_ie_type := none }, private_ext := [{ t := 255, length := 6, ins := 0, enterprise_id := 2011, value := [7, 0, 1, 0] }] } := by
  decide +kernel

-- `test_resume_ack_marshal` (gtpv2/messages/resumeacknowledge.rs:140)
example : ResumeAcknowledge.codec.marshal ({ header := { msgtype := 165, piggyback := false, prio := none, length := 24, teid := (some 2759366016), sqn := 4925726 }, cause := { t := 2, length := 2, ins := 0, value := 16, pce := false, bce := false, cs := false, offend_ie_type := none }, private_ext := [{ t := 255, length := 6, ins := 0, enterprise_id := 2011, value := [7, 0, 1, 0] }] } : ResumeAcknowledge) = [72, 165, 0, 24, 164, 120, 149, 128, 75, 41, 30, 0, 2, 0, 2, 0, 16, 0, 255, 0, 6, 0, 7, 219, 7, 0, 1, 0] := by
  decide +kernel

-- `test_resume_notification_unmarshal` (gtpv2/messages/resumenotification.rs:133)
example : ResumeNotification.codec.unmarshal .debug [72, 164, 0, 38, 164, 120, 149, 128, 75, 41, 30, 0, 1, 0, 8, 0, 9, 65, 80, 1, 145, 22, 120, 243, 73, 0, 1, 0, 5, 87, 0, 9, 0, 134, 6, 209, 130, 76, 193, 254, 139, 45] = .ok { header := { msgtype := 164, piggyback := false, prio := none, length := 38, teid := (some 2759366016), sqn := 4925726 }, imsi := { t := 1, length := 8, ins := 0, imsi := ['9', '0', '1', '4', '0', '5', '1', '0', '1', '9', '6', '1', '8', '7', '3'] }, linked_ebi := (some { t := 73, length := 1, ins := 0, value := 5 }), orig_node := none, fteid_control := (some { t := 87, length := 9, ins := 0, interface := 6, teid := 114393676, ipv4 := (some 3254684461), ipv6 := none }), private_ext := [] } := by
  decide +kernel

-- `test_resume_notification_marshal` (gtpv2/messages/resumenotification.rs:177)
example : ResumeNotification.codec.marshal ({ header := { msgtype := 164, piggyback := false, prio := none, length := 38, teid := (some 2759366016), sqn := 4925726 }, imsi := { t := 1, length := 8, ins := 0, imsi := ['9', '0', '1', '4', '0', '5', '1', '0', '1', '9', '6', '1', '8', '7', '3'] }, linked_ebi := (some { t := 73, length := 1, ins := 0, value := 5 }), orig_node := none, fteid_control := (some { t := 87, length := 9, ins := 0, interface := 6, teid := 114393676, ipv4 := (some 3254684461), ipv6 := none }), private_ext := [] } : ResumeNotification) = [72, 164, 0, 38, 164, 120, 149, 128, 75, 41, 30, 0, 1, 0, 8, 0, 9, 65, 80, 1, 145, 22, 120, 243, 73, 0, 1, 0, 5, 87, 0, 9, 0, 134, 6, 209, 130, 76, 193, 254, 139, 45] := by
  decide +kernel

-- `test_stop_paging_indication_unmarshal` (gtpv2/messages/stoppagingindication.rs:99)
example : StopPagingIndication.codec.unmarshal .debug [72, 164, 0, 30, 164, 120, 149, 128, 75, 41, 30, 0, 1, 0, 8, 0, 9, 65, 80, 1, 145, 22, 120, 243, 255, 0, 6, 0, 7, 219, 7, 0, 1, 0] = .ok { header := { msgtype := 164, piggyback := false, prio := none, length := 30, teid := (some 2759366016), sqn := 4925726 }, imsi := (some { t := 1, length := 8, ins := 0, imsi := ['9', '0', '1', '4', '0', '5', '1', '0', '1', '9', '6', '1', '8', '7', '3'] }), private_ext := [{ t := 255, length := 6, ins := 0, enterprise_id := 2011, value := [7, 0, 1, 0] }] } := by
  decide +kernel

-- `test_stop_paging_indication_marshal` (gtpv2/messages/stoppagingindication.rs:133)
example : StopPagingIndication.codec.marshal ({ header := { msgtype := 164, piggyback := false, prio := none, length := 30, teid := (some 2759366016), sqn := 4925726 }, imsi := (some { t := 1, length := 8, ins := 0, imsi := ['9', '0', '1', '4', '0', '5', '1', '0', '1', '9', '6', '1', '8', '7', '3'] }), private_ext := [{ t := 255, length := 6, ins := 0, enterprise_id := 2011, value := [7, 0, 1, 0] }] } : StopPagingIndication) = [72, 164, 0, 30, 164, 120, 149, 128, 75, 41, 30, 0, 1, 0, 8, 0, 9, 65, 80, 1, 145, 22, 120, 243, 255, 0, 6, 0, 7, 219, 7, 0, 1, 0] := by
  decide +kernel

-- `test_suspend_ack_unmarshal` (gtpv2/messages/suspendacknowledge.rs:103)
example : SuspendAcknowledge.codec.unmarshal .debug [72, 163, 0, 24, 164, 120, 149, 128, 75, 41, 30, 0, 2, 0, 2, 0, 16, 0, 255, 0, 6, 0, 7, 219, 7, 0, 1, 0] = .ok { header := { msgtype := 163, piggyback := false, prio := none, length := 24, teid := (some 2759366016), sqn := 4925726 }, cause := { t := 2, length := 2, ins := 0, value := 16, pce := false, bce := false, cs := false, offend_ie_type := none }, private_ext := [{ t := 255, length := 6, ins := 0, enterprise_id := 2011, value := [7, 0, 1, 0] }] } := by
  decide +kernel

-- `test_suspend_ack_marshal` (gtpv2/messages/suspendacknowledge.rs:140)
example : SuspendAcknowledge.codec.marshal ({ header := { msgtype := 163, piggyback := false, prio := none, length := 24, teid := (some 2759366016), sqn := 4925726 }, cause := { t := 2, length := 2, ins := 0, value := 16, pce := false, bce := false, cs := false, offend_ie_type := none }, private_ext := [{ t := 255, length := 6, ins := 0, enterprise_id := 2011, value := [7, 0, 1, 0] }] } : SuspendAcknowledge) = [72, 163, 0, 24, 164, 120, 149, 128, 75, 41, 30, 0, 2, 0, 2, 0, 16, 0, 255, 0, 6, 0, 7, 219, 7, 0, 1, 0] := by
  decide +kernel

-- `test_suspend_notification_unmarshal` (gtpv2/messages/suspendnotification.rs:180)
example : SuspendNotification.codec.unmarshal .debug [72, 162, 0, 45, 164, 120, 149, 128, 75, 41, 30, 0, 73, 0, 1, 0, 5, 74, 0, 4, 0, 62, 107, 88, 94, 126, 0, 2, 0, 13, 16, 113, 0, 1, 0, 8, 87, 0, 9, 0, 134, 6, 209, 130, 76, 193, 254, 139, 45] = .ok { header := { msgtype := 162, piggyback := false, prio := none, length := 45, teid := (some 2759366016), sqn := 4925726 }, imsi := none, rai := none, linked_ebi := (some { t := 73, length := 1, ins := 0, value := 5 }), ptmsi := none, orig_node := none, ip_control := (some { t := 74, length := 4, ins := 0, ip := (.V4 1047222366) }), udp_port := (some { t := 126, length := 2, ins := 0, port := 3344 }), hop_counter := (some { t := 113, length := 1, ins := 0, hop_counter := 8 }), fteid_control := (some { t := 87, length := 9, ins := 0, interface := 6, teid := 114393676, ipv4 := (some 3254684461), ipv6 := none }), private_ext := [] } := by
  decide +kernel

-- `test_suspend_notification_marshal` (gtpv2/messages/suspendnotification.rs:237)
example : SuspendNotification.codec.marshal ({ header := { msgtype := 162, piggyback := false, prio := none, length := 45, teid := (some 2759366016), sqn := 4925726 }, imsi := none, rai := none, linked_ebi := (some { t := 73, length := 1, ins := 0, value := 5 }), ptmsi := none, orig_node := none, ip_control := (some { t := 74, length := 4, ins := 0, ip := (.V4 1047222366) }), udp_port := (some { t := 126, length := 2, ins := 0, port := 3344 }), hop_counter := (some { t := 113, length := 1, ins := 0, hop_counter := 8 }), fteid_control := (some { t := 87, length := 9, ins := 0, interface := 6, teid := 114393676, ipv4 := (some 3254684461), ipv6 := none }), private_ext := [] } : SuspendNotification) = [72, 162, 0, 45, 164, 120, 149, 128, 75, 41, 30, 0, 73, 0, 1, 0, 5, 74, 0, 4, 0, 62, 107, 88, 94, 126, 0, 2, 0, 13, 16, 113, 0, 1, 0, 8, 87, 0, 9, 0, 134, 6, 209, 130, 76, 193, 254, 139, 45] := by
  decide +kernel

-- `test_trace_session_activation_unmarshal` (gtpv2/messages/tracesessionactivation.rs:118)
example : TraceSessionActivation.codec.unmarshal .debug [72, 71, 0, 70, 230, 77, 164, 239, 38, 0, 46, 0, 1, 0, 8, 0, 9, 65, 80, 1, 145, 22, 120, 243, 96, 0, 34, 0, 153, 249, 16, 255, 255, 250, 0, 0, 0, 0, 0, 0, 0, 0, 0, 170, 170, 9, 0, 0, 0, 0, 0, 0, 0, 0, 0, 0, 0, 0, 139, 7, 133, 184, 75, 0, 8, 0, 104, 73, 41, 80, 1, 80, 148, 112] = .ok { header := { msgtype := 71, piggyback := false, prio := none, length := 70, teid := (some 3863848175), sqn := 2490414 }, imsi := (some { t := 1, length := 8, ins := 0, imsi := ['9', '0', '1', '4', '0', '5', '1', '0', '1', '9', '6', '1', '8', '7', '3'] }), trace_info := { t := 96, length := 34, ins := 0, mcc := 999, mnc := 1, mnc_is_three_digits := false, trace_id := 16777210, trigger_events := [0, 0, 0, 0, 0, 0, 0, 0, 0], list_ne_types := 43690, trace_depth := 9, list_interfaces := [0, 0, 0, 0, 0, 0, 0, 0, 0, 0, 0, 0], trace_collection_ip := 2332526008 }, mei := (some { t := 75, length := 8, ins := 0, mei := ['8', '6', '9', '4', '9', '2', '0', '5', '1', '0', '0', '5', '4', '9', '0', '7'] }) } := by
  decide +kernel

-- `test_trace_session_activation_marshal` (gtpv2/messages/tracesessionactivation.rs:168)
example : TraceSessionActivation.codec.marshal ({ header := { msgtype := 71, piggyback := false, prio := none, length := 70, teid := (some 3863848175), sqn := 2490414 }, imsi := (some { t := 1, length := 8, ins := 0, imsi := ['9', '0', '1', '4', '0', '5', '1', '0', '1', '9', '6', '1', '8', '7', '3'] }), trace_info := { t := 96, length := 34, ins := 0, mcc := 999, mnc := 1, mnc_is_three_digits := false, trace_id := 16777210, trigger_events := [0, 0, 0, 0, 0, 0, 0, 0, 0], list_ne_types := 43690, trace_depth := 9, list_interfaces := [0, 0, 0, 0, 0, 0, 0, 0, 0, 0, 0, 0], trace_collection_ip := 2332526008 }, mei := (some { t := 75, length := 8, ins := 0, mei := ['8', '6', '9', '4', '9', '2', '0', '5', '1', '0', '0', '5', '4', '9', '0', '7'] }) } : TraceSessionActivation) = [72, 71, 0, 70, 230, 77, 164, 239, 38, 0, 46, 0, 1, 0, 8, 0, 9, 65, 80, 1, 145, 22, 120, 243, 96, 0, 34, 0, 153, 249, 16, 255, 255, 250, 0, 0, 0, 0, 0, 0, 0, 0, 0, 170, 170, 9, 0, 0, 0, 0, 0, 0, 0, 0, 0, 0, 0, 0, 139, 7, 133, 184, 75, 0, 8, 0, 104, 73, 41, 80, 1, 80, 148, 112] := by
  decide +kernel

-- `test_trace_session_deactivation_unmarshal` (gtpv2/messages/tracesessiondeactivation.rs:89)
example : TraceSessionDeactivation.codec.unmarshal .debug [72, 72, 0, 46, 230, 77, 164, 239, 38, 0, 46, 0, 96, 0, 34, 0, 153, 249, 16, 255, 255, 250, 0, 0, 0, 0, 0, 0, 0, 0, 0, 170, 170, 9, 0, 0, 0, 0, 0, 0, 0, 0, 0, 0, 0, 0, 139, 7, 133, 184] = .ok { header := { msgtype := 72, piggyback := false, prio := none, length := 46, teid := (some 3863848175), sqn := 2490414 }, trace_info := { t := 96, length := 34, ins := 0, mcc := 999, mnc := 1, mnc_is_three_digits := false, trace_id := 16777210, trigger_events := [0, 0, 0, 0, 0, 0, 0, 0, 0], list_ne_types := 43690, trace_depth := 9, list_interfaces := [0, 0, 0, 0, 0, 0, 0, 0, 0, 0, 0, 0], trace_collection_ip := 2332526008 } } := by
  decide +kernel

-- `test_trace_session_deactivation_marshal` (gtpv2/messages/tracesessiondeactivation.rs:126)
example : TraceSessionDeactivation.codec.marshal ({ header := { msgtype := 72, piggyback := false, prio := none, length := 46, teid := (some 3863848175), sqn := 2490414 }, trace_info := { t := 96, length := 34, ins := 0, mcc := 999, mnc := 1, mnc_is_three_digits := false, trace_id := 16777210, trigger_events := [0, 0, 0, 0, 0, 0, 0, 0, 0], list_ne_types := 43690, trace_depth := 9, list_interfaces := [0, 0, 0, 0, 0, 0, 0, 0, 0, 0, 0, 0], trace_collection_ip := 2332526008 } } : TraceSessionDeactivation) = [72, 72, 0, 46, 230, 77, 164, 239, 38, 0, 46, 0, 96, 0, 34, 0, 153, 249, 16, 255, 255, 250, 0, 0, 0, 0, 0, 0, 0, 0, 0, 170, 170, 9, 0, 0, 0, 0, 0, 0, 0, 0, 0, 0, 0, 0, 139, 7, 133, 184] := by
  decide +kernel

-- `test_ue_activity_ack_unmarshal` (gtpv2/messages/ueactivityacknowledge.rs:103)
example : UeActivityAcknowledge.codec.unmarshal .debug [72, 156, 0, 24, 164, 120, 149, 128, 75, 41, 30, 0, 2, 0, 2, 0, 16, 0, 255, 0, 6, 0, 7, 219, 7, 0, 1, 0] = .ok { header := { msgtype := 156, piggyback := false, prio := none, length := 24, teid := (some 2759366016), sqn := 4925726 }, cause := { t := 2, length := 2, ins := 0, value := 16, pce := false, bce := false, cs := false, offend_ie_type := none }, private_ext := [{ t := 255, length := 6, ins := 0, enterprise_id := 2011, value := [7, 0, 1, 0] }] } := by
  decide +kernel

-- `test_alert_mme_ack_marshal` (gtpv2/messages/ueactivityacknowledge.rs:140)
example : UeActivityAcknowledge.codec.marshal ({ header := { msgtype := 156, piggyback := false, prio := none, length := 24, teid := (some 2759366016), sqn := 4925726 }, cause := { t := 2, length := 2, ins := 0, value := 16, pce := false, bce := false, cs := false, offend_ie_type := none }, private_ext := [{ t := 255, length := 6, ins := 0, enterprise_id := 2011, value := [7, 0, 1, 0] }] } : UeActivityAcknowledge) = [72, 156, 0, 24, 164, 120, 149, 128, 75, 41, 30, 0, 2, 0, 2, 0, 16, 0, 255, 0, 6, 0, 7, 219, 7, 0, 1, 0] := by
  decide +kernel

-- `test_ue_activity_notification_unmarshal` (gtpv2/messages/ueactivitynotification.rs:88)
example : UeActivityNotification.codec.unmarshal .debug [72, 155, 0, 18, 164, 120, 149, 128, 75, 41, 30, 0, 255, 0, 6, 0, 7, 219, 7, 0, 1, 0] = .ok { header := { msgtype := 155, piggyback := false, prio := none, length := 18, teid := (some 2759366016), sqn := 4925726 }, private_ext := [{ t := 255, length := 6, ins := 0, enterprise_id := 2011, value := [7, 0, 1, 0] }] } := by
  decide +kernel

-- `test_ue_activity_notification_marshal` (gtpv2/messages/ueactivitynotification.rs:115)
example : UeActivityNotification.codec.marshal ({ header := { msgtype := 155, piggyback := false, prio := none, length := 18, teid := (some 2759366016), sqn := 4925726 }, private_ext := [{ t := 255, length := 6, ins := 0, enterprise_id := 2011, value := [7, 0, 1, 0] }] } : UeActivityNotification) = [72, 155, 0, 18, 164, 120, 149, 128, 75, 41, 30, 0, 255, 0, 6, 0, 7, 219, 7, 0, 1, 0] := by
  decide +kernel

-- `test_ue_reg_query_req_unmarshal` (gtpv2/messages/ueregistrationqueryreq.rs:103)
example : UeRegistrationQueryRequest.codec.unmarshal .debug [72, 158, 0, 28, 9, 9, 164, 86, 0, 0, 47, 0, 1, 0, 6, 0, 9, 65, 80, 1, 1, 55, 255, 0, 6, 0, 0, 0, 1, 98, 156, 196] = .ok { header := { msgtype := 158, piggyback := false, prio := none, length := 28, teid := (some 151626838), sqn := 47 }, imsi := { t := 1, length := 6, ins := 0, imsi := ['9', '0', '1', '4', '0', '5', '1', '0', '1', '0', '7', '3'] }, private_ext := [{ t := 255, length := 6, ins := 0, enterprise_id := 0, value := [1, 98, 156, 196] }] } := by
  decide +kernel

-- `test_ue_reg_query_req_marshal` (gtpv2/messages/ueregistrationqueryreq.rs:134)
example : UeRegistrationQueryRequest.codec.marshal ({ header := { msgtype := 158, piggyback := false, prio := none, length := 28, teid := (some 151626838), sqn := 47 }, imsi := { t := 1, length := 6, ins := 0, imsi := ['9', '0', '1', '4', '0', '5', '1', '0', '1', '0', '7', '3'] }, private_ext := [{ t := 255, length := 6, ins := 0, enterprise_id := 0, value := [1, 98, 156, 196] }] } : UeRegistrationQueryRequest) = [72, 158, 0, 28, 9, 9, 164, 86, 0, 0, 47, 0, 1, 0, 6, 0, 9, 65, 80, 1, 1, 55, 255, 0, 6, 0, 0, 0, 1, 98, 156, 196] := by
  decide +kernel

-- `test_ue_reg_query_resp_unmarshal` (gtpv2/messages/ueregistrationqueryresp.rs:124)
example : UeRegistrationQueryResponse.codec.unmarshal .debug [72, 159, 0, 41, 9, 9, 164, 86, 0, 0, 47, 0, 2, 0, 2, 0, 16, 0, 1, 0, 6, 0, 9, 65, 80, 1, 1, 55, 120, 0, 3, 0, 153, 249, 16, 255, 0, 6, 0, 0, 0, 1, 98, 156, 196] = .ok { header := { msgtype := 159, piggyback := false, prio := none, length := 41, teid := (some 151626838), sqn := 47 }, cause := { t := 2, length := 2, ins := 0, value := 16, pce := false, bce := false, cs := false, offend_ie_type := none }, imsi := { t := 1, length := 6, ins := 0, imsi := ['9', '0', '1', '4', '0', '5', '1', '0', '1', '0', '7', '3'] }, selected_cnoid := { t := 120, length := 3, ins := 0, mcc := 999, mnc := 1, mnc_is_three_digits := false }, private_ext := [{ t := 255, length := 6, ins := 0, enterprise_id := 0, value := [1, 98, 156, 196] }] } := by
  decide +kernel

-- `test_ue_reg_query_resp_marshal` (gtpv2/messages/ueregistrationqueryresp.rs:165)
example : UeRegistrationQueryResponse.codec.marshal ({ header := { msgtype := 159, piggyback := false, prio := none, length := 41, teid := (some 151626838), sqn := 47 }, cause := { t := 2, length := 2, ins := 0, value := 16, pce := false, bce := false, cs := false, offend_ie_type := none }, imsi := { t := 1, length := 6, ins := 0, imsi := ['9', '0', '1', '4', '0', '5', '1', '0', '1', '0', '7', '3'] }, selected_cnoid := { t := 120, length := 3, ins := 0, mcc := 999, mnc := 1, mnc_is_three_digits := false }, private_ext := [{ t := 255, length := 6, ins := 0, enterprise_id := 0, value := [1, 98, 156, 196] }] } : UeRegistrationQueryResponse) = [72, 159, 0, 41, 9, 9, 164, 86, 0, 0, 47, 0, 2, 0, 2, 0, 16, 0, 1, 0, 6, 0, 9, 65, 80, 1, 1, 55, 120, 0, 3, 0, 153, 249, 16, 255, 0, 6, 0, 0, 0, 1, 98, 156, 196] := by
  decide +kernel

-- `test_update_bearer_req_unmarshal` (gtpv2/messages/updatebearerreq.rs:261)
example : UpdateBearerRequest.codec.unmarshal .debug [72, 97, 0, 159, 9, 9, 164, 86, 0, 0, 47, 0, 93, 0, 52, 0, 73, 0, 1, 0, 0, 87, 0, 9, 2, 133, 59, 149, 152, 90, 62, 153, 137, 85, 80, 0, 22, 0, 44, 9, 0, 0, 0, 0, 0, 0, 0, 0, 0, 0, 0, 0, 0, 0, 0, 0, 0, 0, 0, 0, 94, 0, 4, 0, 1, 98, 156, 196, 100, 0, 1, 0, 250, 78, 0, 19, 0, 128, 128, 33, 16, 2, 0, 0, 16, 129, 6, 8, 8, 8, 8, 6, 10, 64, 208, 97, 72, 0, 8, 0, 0, 0, 195, 80, 0, 2, 73, 240, 132, 0, 7, 0, 1, 139, 7, 133, 184, 255, 255, 180, 0, 18, 0, 183, 0, 4, 0, 255, 170, 238, 17, 182, 0, 1, 0, 96, 156, 0, 1, 0, 127, 180, 0, 18, 1, 183, 0, 4, 0, 255, 170, 238, 34, 182, 0, 1, 0, 96, 156, 0, 1, 0, 126] = .ok { header := { msgtype := 97, piggyback := false, prio := none, length := 159, teid := (some 151626838), sqn := 47 }, bearer_ctxs := [{ t := 93, length := 52, ins := 0, ebi := { t := 73, length := 1, ins := 0, value := 0 }, cause := none, tft := none, fteids := [{ t := 87, length := 9, ins := 2, interface := 5, teid := 999659610, ipv4 := (some 1050249557), ipv6 := none }], bearer_qos := (some { t := 80, length := 22, ins := 0, pre_emption_vulnerability := 0, priority_level := 11, pre_emption_capability := 0, qci := 9, maxbr_ul := 0, maxbr_dl := 0, gbr_ul := 0, gbr_dl := 0 }), charging_id := (some { t := 94, length := 4, ins := 0, charging_id := 23239876 }), bearer_flags := none, pco := none, apco := none, epco := none, max_packet_loss := none, ran_nas_cause := none, bss_container := none, transaction_id := none }], pti := (some { t := 100, length := 1, ins := 0, pti := 250 }), pco := (some { t := 78, length := 19, ins := 0, pco := [128, 128, 33, 16, 2, 0, 0, 16, 129, 6, 8, 8, 8, 8, 6, 10, 64, 208, 97] }), apnambr := { t := 72, length := 8, ins := 0, ambr_ul := 50000, ambr_dl := 150000 }, cra := none, csg_ira := none, henb_info_report := none, indication := none, pgw_fqcsid := (some { t := 132, length := 7, ins := 0, nodeid := (.V4 2332526008), csid := [65535] }), sgw_fqcsid := none, praa := none, load_control := [], overload_info := [{ t := 180, length := 18, ins := 0, sqn := { t := 183, length := 4, ins := 0, sqn := 4289392145 }, metric := { t := 182, length := 1, ins := 0, metric := 96 }, validity := { t := 156, length := 1, ins := 0, timer_unit := 3, timer_value := 31 }, list := none }, { t := 180, length := 18, ins := 1, sqn := { t := 183, length := 4, ins := 0, sqn := 4289392162 }, metric := { t := 182, length := 1, ins := 0, metric := 96 }, validity := { t := 156, length := 1, ins := 0, timer_unit := 3, timer_value := 30 }, list := none }], nbifom := none, pgw_change_info := [], fteid_control := none, private_ext := [] } := by
  decide +kernel

-- `test_update_bearer_req_marshal` (gtpv2/messages/updatebearerreq.rs:421)
example : UpdateBearerRequest.codec.marshal ({ header := { msgtype := 97, piggyback := false, prio := none, length := 159, teid := (some 151626838), sqn := 47 }, bearer_ctxs := [{ t := 93, length := 52, ins := 0, ebi := { t := 73, length := 1, ins := 0, value := 0 }, cause := none, tft := none, fteids := [{ t := 87, length := 9, ins := 2, interface := 5, teid := 999659610, ipv4 := (some 1050249557), ipv6 := none }], bearer_qos := (some { t := 80, length := 22, ins := 0, pre_emption_vulnerability := 0, priority_level := 11, pre_emption_capability := 0, qci := 9, maxbr_ul := 0, maxbr_dl := 0, gbr_ul := 0, gbr_dl := 0 }), charging_id := (some { t := 94, length := 4, ins := 0, charging_id := 23239876 }), bearer_flags := none, pco := none, apco := none, epco := none, max_packet_loss := none, ran_nas_cause := none, bss_container := none, transaction_id := none }], pti := (some { t := 100, length := 1, ins := 0, pti := 250 }), pco := (some { t := 78, length := 19, ins := 0, pco := [128, 128, 33, 16, 2, 0, 0, 16, 129, 6, 8, 8, 8, 8, 6, 10, 64, 208, 97] }), apnambr := { t := 72, length := 8, ins := 0, ambr_ul := 50000, ambr_dl := 150000 }, cra := none, csg_ira := none, henb_info_report := none, indication := none, pgw_fqcsid := (some { t := 132, length := 7, ins := 0, nodeid := (.V4 2332526008), csid := [65535] }), sgw_fqcsid := none, praa := none, load_control := [], overload_info := [{ t := 180, length := 18, ins := 0, sqn := { t := 183, length := 4, ins := 0, sqn := 4289392145 }, metric := { t := 182, length := 1, ins := 0, metric := 96 }, validity := { t := 156, length := 1, ins := 0, timer_unit := 3, timer_value := 31 }, list := none }, { t := 180, length := 18, ins := 1, sqn := { t := 183, length := 4, ins := 0, sqn := 4289392162 }, metric := { t := 182, length := 1, ins := 0, metric := 96 }, validity := { t := 156, length := 1, ins := 0, timer_unit := 3, timer_value := 30 }, list := none }], nbifom := none, pgw_change_info := [], fteid_control := none, private_ext := [] } : UpdateBearerRequest) = [72, 97, 0, 159, 9, 9, 164, 86, 0, 0, 47, 0, 93, 0, 52, 0, 73, 0, 1, 0, 0, 87, 0, 9, 2, 133, 59, 149, 152, 90, 62, 153, 137, 85, 80, 0, 22, 0, 44, 9, 0, 0, 0, 0, 0, 0, 0, 0, 0, 0, 0, 0, 0, 0, 0, 0, 0, 0, 0, 0, 94, 0, 4, 0, 1, 98, 156, 196, 100, 0, 1, 0, 250, 78, 0, 19, 0, 128, 128, 33, 16, 2, 0, 0, 16, 129, 6, 8, 8, 8, 8, 6, 10, 64, 208, 97, 72, 0, 8, 0, 0, 0, 195, 80, 0, 2, 73, 240, 132, 0, 7, 0, 1, 139, 7, 133, 184, 255, 255, 180, 0, 18, 0, 183, 0, 4, 0, 255, 170, 238, 17, 182, 0, 1, 0, 96, 156, 0, 1, 0, 127, 180, 0, 18, 1, 183, 0, 4, 0, 255, 170, 238, 34, 182, 0, 1, 0, 96, 156, 0, 1, 0, 126] := by
  decide +kernel

-- `test_update_bearer_resp_unmarshal` (gtpv2/messages/updatebearerresp.rs:298)
example : UpdateBearerResponse.codec.unmarshal .debug [72, 98, 0, 105, 9, 9, 164, 86, 0, 0, 47, 0, 2, 0, 2, 0, 16, 0, 93, 0, 58, 0, 2, 0, 2, 0, 16, 0, 73, 0, 1, 0, 5, 87, 0, 9, 2, 133, 59, 149, 152, 90, 62, 153, 137, 85, 80, 0, 22, 0, 44, 9, 0, 0, 0, 0, 0, 0, 0, 0, 0, 0, 0, 0, 0, 0, 0, 0, 0, 0, 0, 0, 94, 0, 4, 0, 1, 98, 156, 196, 78, 0, 20, 0, 128, 128, 33, 16, 2, 0, 0, 16, 129, 6, 8, 8, 8, 8, 131, 6, 10, 64, 208, 97, 3, 0, 1, 0, 17] = .ok { header := { msgtype := 98, piggyback := false, prio := none, length := 105, teid := (some 151626838), sqn := 47 }, cause := { t := 2, length := 2, ins := 0, value := 16, pce := false, bce := false, cs := false, offend_ie_type := none }, bearer_ctxs := [{ t := 93, length := 58, ins := 0, ebi := { t := 73, length := 1, ins := 0, value := 5 }, cause := (some { t := 2, length := 2, ins := 0, value := 16, pce := false, bce := false, cs := false, offend_ie_type := none }), tft := none, fteids := [{ t := 87, length := 9, ins := 2, interface := 5, teid := 999659610, ipv4 := (some 1050249557), ipv6 := none }], bearer_qos := (some { t := 80, length := 22, ins := 0, pre_emption_vulnerability := 0, priority_level := 11, pre_emption_capability := 0, qci := 9, maxbr_ul := 0, maxbr_dl := 0, gbr_ul := 0, gbr_dl := 0 }), charging_id := (some { t := 94, length := 4, ins := 0, charging_id := 23239876 }), bearer_flags := none, pco := none, apco := none, epco := none, max_packet_loss := none, ran_nas_cause := none, bss_container := none, transaction_id := none }], pco := (some { t := 78, length := 20, ins := 0, pco := [128, 128, 33, 16, 2, 0, 0, 16, 129, 6, 8, 8, 8, 8, 131, 6, 10, 64, 208, 97] }), recovery := (some { t := 3, length := 1, ins := 0, recovery := 17 }), mme_fqcsid := none, sgw_fqcsid := none, epdg_fqcsid := none, twan_fqcsid := none, indication := none, uetimezone := none, uli := none, twan_id := none, overload_info := [], prai := none, ip := none, wlan_loc := none, wlan_loc_timestamp := none, ue_udpport := none, nbifom := none, ue_tcpport := none, pscellid := none, private_ext := [] } := by
  decide +kernel

-- `test_update_bearer_resp_marshal` (gtpv2/messages/updatebearerresp.rs:410)
example : UpdateBearerResponse.codec.marshal ({ header := { msgtype := 98, piggyback := false, prio := none, length := 105, teid := (some 151626838), sqn := 47 }, cause := { t := 2, length := 2, ins := 0, value := 16, pce := false, bce := false, cs := false, offend_ie_type := none }, bearer_ctxs := [{ t := 93, length := 58, ins := 0, ebi := { t := 73, length := 1, ins := 0, value := 5 }, cause := (some { t := 2, length := 2, ins := 0, value := 16, pce := false, bce := false, cs := false, offend_ie_type := none }), tft := none, fteids := [{ t := 87, length := 9, ins := 2, interface := 5, teid := 999659610, ipv4 := (some 1050249557), ipv6 := none }], bearer_qos := (some { t := 80, length := 22, ins := 0, pre_emption_vulnerability := 0, priority_level := 11, pre_emption_capability := 0, qci := 9, maxbr_ul := 0, maxbr_dl := 0, gbr_ul := 0, gbr_dl := 0 }), charging_id := (some { t := 94, length := 4, ins := 0, charging_id := 23239876 }), bearer_flags := none, pco := none, apco := none, epco := none, max_packet_loss := none, ran_nas_cause := none, bss_container := none, transaction_id := none }], pco := (some { t := 78, length := 20, ins := 0, pco := [128, 128, 33, 16, 2, 0, 0, 16, 129, 6, 8, 8, 8, 8, 131, 6, 10, 64, 208, 97] }), recovery := (some { t := 3, length := 1, ins := 0, recovery := 17 }), mme_fqcsid := none, sgw_fqcsid := none, epdg_fqcsid := none, twan_fqcsid := none, indication := none, uetimezone := none, uli := none, twan_id := none, overload_info := [], prai := none, ip := none, wlan_loc := none, wlan_loc_timestamp := none, ue_udpport := none, nbifom := none, ue_tcpport := none, pscellid := none, private_ext := [] } : UpdateBearerResponse) = [72, 98, 0, 105, 9, 9, 164, 86, 0, 0, 47, 0, 2, 0, 2, 0, 16, 0, 93, 0, 58, 0, 2, 0, 2, 0, 16, 0, 73, 0, 1, 0, 5, 87, 0, 9, 2, 133, 59, 149, 152, 90, 62, 153, 137, 85, 80, 0, 22, 0, 44, 9, 0, 0, 0, 0, 0, 0, 0, 0, 0, 0, 0, 0, 0, 0, 0, 0, 0, 0, 0, 0, 94, 0, 4, 0, 1, 98, 156, 196, 78, 0, 20, 0, 128, 128, 33, 16, 2, 0, 0, 16, 129, 6, 8, 8, 8, 8, 131, 6, 10, 64, 208, 97, 3, 0, 1, 0, 17] := by
  decide +kernel

-- `test_update_pdn_connection_set_req_unmarshal` (gtpv2/messages/updatepdnconnectionsetreq.rs:114)
example : UpdatePdnConnectionSetRequest.codec.unmarshal .debug [72, 200, 0, 29, 0, 0, 0, 0, 38, 0, 46, 0, 132, 0, 7, 1, 1, 139, 7, 133, 184, 255, 255, 255, 0, 6, 0, 7, 219, 7, 0, 1, 0] = .ok { header := { msgtype := 200, piggyback := false, prio := none, length := 29, teid := (some 0), sqn := 2490414 }, mme_fqcsid := none, sgw_fqcsid := (some { t := 132, length := 7, ins := 1, nodeid := (.V4 2332526008), csid := [65535] }), private_ext := [{ t := 255, length := 6, ins := 0, enterprise_id := 2011, value := [7, 0, 1, 0] }] } := by
  decide +kernel

-- `test_update_pdn_connection_set_req_marshal` (gtpv2/messages/updatepdnconnectionsetreq.rs:151)
example : UpdatePdnConnectionSetRequest.codec.marshal ({ header := { msgtype := 200, piggyback := false, prio := none, length := 29, teid := (some 0), sqn := 2490414 }, mme_fqcsid := none, sgw_fqcsid := (some { t := 132, length := 7, ins := 1, nodeid := (.V4 2332526008), csid := [65535] }), private_ext := [{ t := 255, length := 6, ins := 0, enterprise_id := 2011, value := [7, 0, 1, 0] }] } : UpdatePdnConnectionSetRequest) = [72, 200, 0, 29, 0, 0, 0, 0, 38, 0, 46, 0, 132, 0, 7, 1, 1, 139, 7, 133, 184, 255, 255, 255, 0, 6, 0, 7, 219, 7, 0, 1, 0] := by
  decide +kernel

-- `test_update_pdn_connection_set_resp_unmarshal` (gtpv2/messages/updatepdnconnectionsetresp.rs:125)
example : UpdatePndConnectionSetResponse.codec.unmarshal .debug [72, 201, 0, 40, 9, 9, 164, 86, 0, 0, 47, 0, 2, 0, 2, 0, 16, 0, 132, 0, 7, 0, 1, 139, 7, 133, 184, 255, 255, 3, 0, 1, 0, 100, 255, 0, 6, 0, 0, 0, 1, 98, 156, 196] = .ok { header := { msgtype := 201, piggyback := false, prio := none, length := 40, teid := (some 151626838), sqn := 47 }, cause := { t := 2, length := 2, ins := 0, value := 16, pce := false, bce := false, cs := false, offend_ie_type := none }, pgw_fqcsid := (some { t := 132, length := 7, ins := 0, nodeid := (.V4 2332526008), csid := [65535] }), recovery := (some { t := 3, length := 1, ins := 0, recovery := 100 }), private_ext := [{ t := 255, length := 6, ins := 0, enterprise_id := 0, value := [1, 98, 156, 196] }] } := by
  decide +kernel

-- `test_update_pdn_connection_set_resp_marshal` (gtpv2/messages/updatepdnconnectionsetresp.rs:167)
example : UpdatePndConnectionSetResponse.codec.marshal ({ header := { msgtype := 201, piggyback := false, prio := none, length := 40, teid := (some 151626838), sqn := 47 }, cause := { t := 2, length := 2, ins := 0, value := 16, pce := false, bce := false, cs := false, offend_ie_type := none }, pgw_fqcsid := (some { t := 132, length := 7, ins := 0, nodeid := (.V4 2332526008), csid := [65535] }), recovery := (some { t := 3, length := 1, ins := 0, recovery := 100 }), private_ext := [{ t := 255, length := 6, ins := 0, enterprise_id := 0, value := [1, 98, 156, 196] }] } : UpdatePndConnectionSetResponse) = [72, 201, 0, 40, 9, 9, 164, 86, 0, 0, 47, 0, 2, 0, 2, 0, 16, 0, 132, 0, 7, 0, 1, 139, 7, 133, 184, 255, 255, 3, 0, 1, 0, 100, 255, 0, 6, 0, 0, 0, 1, 98, 156, 196] := by
  decide +kernel

-- `test_version_not_supported_unmarshal` (gtpv2/messages/versionnotsupported.rs:56)
example : VersionNotSupported.codec.unmarshal .debug [64, 3, 0, 4, 45, 204, 56, 0] = .ok { header := { msgtype := 3, piggyback := false, prio := none, length := 4, teid := none, sqn := 3001400 } } := by
  decide +kernel

-- `test_echo_resp_marshal` (gtpv2/messages/versionnotsupported.rs:72)
example : VersionNotSupported.codec.marshal ({ header := { msgtype := 3, piggyback := false, prio := none, length := 4, teid := none, sqn := 3001400 } } : VersionNotSupported) = [64, 3, 0, 4, 45, 204, 56, 0] := by
  decide +kernel

end Gtp.V2.Msg
