import Verif.V2.IE

/-!
# The unit tests under `src/gtpv2/messages/ies/`, run on the model (2 of 4)

Generated by `scripts/gen_tests.py`.  These are tests of the model against the expectations written in the
repository, not proofs of properties.
-/

namespace Gtp.V2
open Gtp
set_option maxRecDepth 100000

-- `global_cn_id_ie_marshal_test` (gtpv2/messages/ies/globalcnid.rs:96)
example : GlobalCnId.marshal ({ t := 89, length := 5, ins := 0, mcc := 999, mnc := 1, mnc_is_three_digits := false, cnid := 4000 } : GlobalCnId) = [89, 0, 5, 0, 153, 249, 16, 15, 160] := by
  decide +kernel

-- `global_cn_id_ie_unmarshal_test` (gtpv2/messages/ies/globalcnid.rs:113)
example : GlobalCnId.unmarshal .debug [89, 0, 5, 0, 153, 249, 16, 15, 160] = .ok { t := 89, length := 5, ins := 0, mcc := 999, mnc := 1, mnc_is_three_digits := false, cnid := 4000 } := by
  decide +kernel

-- `grouped_ie_marshal_test` (gtpv2/messages/ies/groupedie.rs:74)
example : IE.groupMar IE.marshal 93 44 1 [(.Ebi { t := 73, length := 1, ins := 0, value := 5 }), (.Fteid { t := 87, length := 9, ins := 2, interface := 4, teid := 114393676, ipv4 := (some 3254684461), ipv6 := none }), (.BearerQos { t := 80, length := 22, ins := 0, pre_emption_vulnerability := 0, priority_level := 11, pre_emption_capability := 1, qci := 9, maxbr_ul := 0, maxbr_dl := 0, gbr_ul := 0, gbr_dl := 0 })] = [93, 0, 44, 1, 73, 0, 1, 0, 5, 87, 0, 9, 2, 132, 6, 209, 130, 76, 193, 254, 139, 45, 80, 0, 22, 0, 108, 9, 0, 0, 0, 0, 0, 0, 0, 0, 0, 0, 0, 0, 0, 0, 0, 0, 0, 0, 0, 0] := by
  decide +kernel

-- `grouped_ie_unmarshal_test` (gtpv2/messages/ies/groupedie.rs:126)
example : groupUnm (decoder .debug) (fun t l i e => (t, l, i, e)) .debug [93, 0, 44, 1, 73, 0, 1, 0, 5, 87, 0, 9, 2, 132, 6, 209, 130, 76, 193, 254, 139, 45, 80, 0, 22, 0, 108, 9, 0, 0, 0, 0, 0, 0, 0, 0, 0, 0, 0, 0, 0, 0, 0, 0, 0, 0, 0, 0] = .ok (93, 44, 1, [(.Ebi { t := 73, length := 1, ins := 0, value := 5 }), (.Fteid { t := 87, length := 9, ins := 2, interface := 4, teid := 114393676, ipv4 := (some 3254684461), ipv6 := none }), (.BearerQos { t := 80, length := 22, ins := 0, pre_emption_vulnerability := 0, priority_level := 11, pre_emption_capability := 1, qci := 9, maxbr_ul := 0, maxbr_dl := 0, gbr_ul := 0, gbr_dl := 0 })]) := by
  decide +kernel

-- `group_id_ie_marshal_test` (gtpv2/messages/ies/groupid.rs:85)
example : GroupId.marshal ({ t := 216, length := 3, ins := 0, groupid := [10, 255, 0] } : GroupId) = [216, 0, 3, 0, 10, 255, 0] := by
  decide +kernel

-- `group_id_ie_unmarshal_test` (gtpv2/messages/ies/groupid.rs:98)
example : GroupId.unmarshal .debug [216, 0, 3, 0, 10, 255, 0] = .ok { t := 216, length := 3, ins := 0, groupid := [10, 255, 0] } := by
  decide +kernel

-- `guti_ie_marshal_test` (gtpv2/messages/ies/guti.rs:104)
example : Guti.marshal ({ t := 117, length := 10, ins := 0, mcc := 999, mnc := 1, mnc_is_three_digits := false, mmegi := 300, mmec := 10, mtmsi := 4294967295 } : Guti) = [117, 0, 10, 0, 153, 249, 16, 1, 44, 10, 255, 255, 255, 255] := by
  decide +kernel

-- `global_cn_id_ie_unmarshal_test` (gtpv2/messages/ies/guti.rs:125)
example : Guti.unmarshal .debug [117, 0, 10, 0, 153, 249, 16, 1, 44, 10, 255, 255, 255, 255] = .ok { t := 117, length := 10, ins := 0, mcc := 999, mnc := 1, mnc_is_three_digits := false, mmegi := 300, mmec := 10, mtmsi := 4294967295 } := by
  decide +kernel

-- `hdr_compr_config_ie_marshal_test` (gtpv2/messages/ies/hdrcomprconfig.rs:138)
example : HeaderCompressionConfiguration.marshal ({ t := 196, length := 4, ins := 0, rohc_profiles := [2], max_cid := 0 } : HeaderCompressionConfiguration) = [196, 0, 4, 0, 1, 0, 0, 0] := by
  decide +kernel

-- `hdr_compr_config_ie_unmarshal_test` (gtpv2/messages/ies/hdrcomprconfig.rs:153)
example : HeaderCompressionConfiguration.unmarshal .debug [196, 0, 4, 0, 127, 0, 0, 255] = .ok { t := 196, length := 4, ins := 0, rohc_profiles := [0, 2, 3, 4, 6, 258, 259, 260], max_cid := 255 } := by
  decide +kernel

-- `henb_info_reporting_ie_unmarshal_test` (gtpv2/messages/ies/henbinforeporting.rs:92)
example : HenbInfoReporting.unmarshal .debug [165, 0, 1, 0, 1] = .ok { t := 165, length := 1, ins := 0, fti := true } := by
  decide +kernel

-- `upfsif_ie_marshal_test` (gtpv2/messages/ies/henbinforeporting.rs:105)
example : HenbInfoReporting.marshal ({ t := 165, length := 1, ins := 0, fti := true } : HenbInfoReporting) = [165, 0, 1, 0, 1] := by
  decide +kernel

-- `hop_counter_ie_marshal_test` (gtpv2/messages/ies/hopcounter.rs:81)
example : HopCounter.marshal ({ t := 113, length := 1, ins := 0, hop_counter := 1 } : HopCounter) = [113, 0, 1, 0, 1] := by
  decide +kernel

-- `hop_counter_ie_unmarshal_test` (gtpv2/messages/ies/hopcounter.rs:95)
example : HopCounter.unmarshal .debug [113, 0, 1, 0, 1] = .ok { t := 113, length := 1, ins := 0, hop_counter := 1 } := by
  decide +kernel

-- `imsi_ie_unmarshal_test` (gtpv2/messages/ies/imsi.rs:87)
example : Imsi.unmarshal .debug [1, 0, 8, 0, 9, 65, 80, 1, 145, 22, 120, 243] = .ok { t := 1, length := 8, ins := 0, imsi := ['9', '0', '1', '4', '0', '5', '1', '0', '1', '9', '6', '1', '8', '7', '3'] } := by
  decide +kernel

-- `imsi_ie_marshal_test` (gtpv2/messages/ies/imsi.rs:102)
example : Imsi.marshal ({ t := 1, length := 8, ins := 0, imsi := ['9', '0', '1', '4', '0', '5', '1', '0', '1', '9', '6', '1', '8', '7', '3'] } : Imsi) = [1, 0, 8, 0, 9, 65, 80, 1, 145, 22, 120, 243] := by
  decide +kernel

-- `imsi_ie_unmarshal_buffer_test` (gtpv2/messages/ies/imsi.rs:118)
example : Imsi.unmarshal .debug [1, 0, 8, 0, 9, 65, 80, 1, 145, 22, 120, 243] = .ok { t := 1, length := 8, ins := 0, imsi := ['9', '0', '1', '4', '0', '5', '1', '0', '1', '9', '6', '1', '8', '7', '3'] } := by
  decide +kernel

-- `indication_ie_marshal_test` (gtpv2/messages/ies/indication.rs:415)
example : Indication.marshal ({ t := 77, length := 10, ins := 0, daf := false, dtf := false, hi := false, dfi := false, oi := false, isrsi := false, israi := false, sgwci := true, sqci := false, uimsi := false, cfsi := false, crsi := false, ps := false, pt := false, si := false, msv := false, retloc := false, pbic := false, srni := false, s6af := false, s4af := false, mbmdt := false, israu := false, ccrsi := false, cprai := false, arrl := false, ppoff := false, ppon := false, ppsi := false, csfbi := false, clii := false, cpsr := false, nsi := false, uasi := false, dtci := false, bdwi := false, psci := false, pcri := false, aosi := false, aopi := false, roaai := false, epcosi := false, cpopci := false, pmtsmi := false, s11tf := false, pnsi := false, unaccsi := false, wpmsi := false, g5snn26 := false, reprefi := false, g5siwki := false, eevrsi := false, ltemui := false, ltempi := false, enbcrsi := false, tspcmi := true, csrmfi := false, mtedtn := false, mtedta := false, n5gnmi := false, g5cnrs := false, g5cnri := false, s5rho := false, ethpdn := false, nspusi := false, pgwrnsi := false, rppcsi := false, pgwchi := false, sissme := false, nsenbi := false, idfupf := false, emci := false, ltemsai := true, srtpi := false, upipsi := false } : Indication) = [77, 0, 10, 0, 1, 0, 0, 0, 0, 0, 1, 0, 0, 4] := by
  decide +kernel

-- `indication_ie_unmarshal_test` (gtpv2/messages/ies/indication.rs:431)
example : Indication.unmarshal .debug [77, 0, 10, 0, 1, 0, 0, 0, 0, 0, 1, 0, 0, 4] = .ok { t := 77, length := 10, ins := 0, daf := false, dtf := false, hi := false, dfi := false, oi := false, isrsi := false, israi := false, sgwci := true, sqci := false, uimsi := false, cfsi := false, crsi := false, ps := false, pt := false, si := false, msv := false, retloc := false, pbic := false, srni := false, s6af := false, s4af := false, mbmdt := false, israu := false, ccrsi := false, cprai := false, arrl := false, ppoff := false, ppon := false, ppsi := false, csfbi := false, clii := false, cpsr := false, nsi := false, uasi := false, dtci := false, bdwi := false, psci := false, pcri := false, aosi := false, aopi := false, roaai := false, epcosi := false, cpopci := false, pmtsmi := false, s11tf := false, pnsi := false, unaccsi := false, wpmsi := false, g5snn26 := false, reprefi := false, g5siwki := false, eevrsi := false, ltemui := false, ltempi := false, enbcrsi := false, tspcmi := true, csrmfi := false, mtedtn := false, mtedta := false, n5gnmi := false, g5cnrs := false, g5cnri := false, s5rho := false, ethpdn := false, nspusi := false, pgwrnsi := false, rppcsi := false, pgwchi := false, sissme := false, nsenbi := false, idfupf := false, emci := false, ltemsai := true, srtpi := false, upipsi := false } := by
  decide +kernel

-- `indication_ie_unmarshal_legacy_test` (gtpv2/messages/ies/indication.rs:445)
example : Indication.unmarshal .debug [77, 0, 7, 0, 1, 0, 0, 0, 0, 0, 1] = .ok { t := 77, length := 7, ins := 0, daf := false, dtf := false, hi := false, dfi := false, oi := false, isrsi := false, israi := false, sgwci := true, sqci := false, uimsi := false, cfsi := false, crsi := false, ps := false, pt := false, si := false, msv := false, retloc := false, pbic := false, srni := false, s6af := false, s4af := false, mbmdt := false, israu := false, ccrsi := false, cprai := false, arrl := false, ppoff := false, ppon := false, ppsi := false, csfbi := false, clii := false, cpsr := false, nsi := false, uasi := false, dtci := false, bdwi := false, psci := false, pcri := false, aosi := false, aopi := false, roaai := false, epcosi := false, cpopci := false, pmtsmi := false, s11tf := false, pnsi := false, unaccsi := false, wpmsi := false, g5snn26 := false, reprefi := false, g5siwki := false, eevrsi := false, ltemui := false, ltempi := false, enbcrsi := false, tspcmi := true, csrmfi := false, mtedtn := false, mtedta := false, n5gnmi := false, g5cnrs := false, g5cnri := false, s5rho := false, ethpdn := false, nspusi := false, pgwrnsi := false, rppcsi := false, pgwchi := false, sissme := false, nsenbi := false, idfupf := false, emci := false, ltemsai := false, srtpi := false, upipsi := false } := by
  decide +kernel

-- `integer_number_ie_marshal_test` (gtpv2/messages/ies/integernumber.rs:85)
example : IntegerNumber.marshal ({ t := 187, length := 2, ins := 0, number := [255, 255] } : IntegerNumber) = [187, 0, 2, 0, 255, 255] := by
  decide +kernel

-- `integer_number_ie_unmarshal_test` (gtpv2/messages/ies/integernumber.rs:99)
example : IntegerNumber.unmarshal .debug [187, 0, 2, 0, 255, 255] = .ok { t := 187, length := 2, ins := 0, number := [255, 255] } := by
  decide +kernel

-- `ip4cp_address_ie_ipv4_unmarshal_test` (gtpv2/messages/ies/ip4cp.rs:86)
example : Ip4Cp.unmarshal .debug [166, 0, 5, 0, 32, 0, 0, 0, 0] = .ok { t := 166, length := 5, ins := 0, subnet_prefix := 32, ip := 0 } := by
  decide +kernel

-- `ip4cp_address_ie_ipv4_marshal_test` (gtpv2/messages/ies/ip4cp.rs:100)
example : Ip4Cp.marshal ({ t := 166, length := 5, ins := 0, subnet_prefix := 32, ip := 0 } : Ip4Cp) = [166, 0, 5, 0, 32, 0, 0, 0, 0] := by
  decide +kernel

-- `ip_address_ie_ipv4_unmarshal_test` (gtpv2/messages/ies/ipaddress.rs:100)
example : IpAddress.unmarshal .debug [74, 0, 4, 0, 0, 0, 0, 0] = .ok { t := 74, length := 4, ins := 0, ip := (.V4 0) } := by
  decide +kernel

-- `ip_address_ie_ipv6_unmarshal_test` (gtpv2/messages/ies/ipaddress.rs:113)
example : IpAddress.unmarshal .debug [74, 0, 16, 0, 0, 0, 0, 0, 0, 0, 0, 0, 0, 0, 0, 0, 0, 0, 0, 0] = .ok { t := 74, length := 16, ins := 0, ip := (.V6 ⟨0, 0⟩) } := by
  decide +kernel

-- `ip_address_ie_ipv4_marshal_test` (gtpv2/messages/ies/ipaddress.rs:130)
example : IpAddress.marshal ({ t := 74, length := 4, ins := 0, ip := (.V4 0) } : IpAddress) = [74, 0, 4, 0, 0, 0, 0, 0] := by
  decide +kernel

-- `ip_address_ie_ipv6_marshal_test` (gtpv2/messages/ies/ipaddress.rs:144)
example : IpAddress.marshal ({ t := 74, length := 16, ins := 0, ip := (.V6 ⟨0, 0⟩) } : IpAddress) = [74, 0, 16, 0, 0, 0, 0, 0, 0, 0, 0, 0, 0, 0, 0, 0, 0, 0, 0, 0] := by
  decide +kernel

-- `ldn_ie_marshal_test` (gtpv2/messages/ies/ldn.rs:86)
example : Ldn.marshal ({ t := 151, length := 52, ins := 0, name := ['t', 'o', 'p', 'o', 'n', '.', 'n', 'o', 'd', 'e', 's', '.', 'p', 'g', 'w', '.', 's', 'e', '.', 'e', 'p', 'c', '.', 'm', 'n', 'c', '0', '5', '.', 'm', 'c', 'c', '2', '3', '4', '.', '3', 'g', 'p', 'p', 'n', 'e', 't', 'w', 'o', 'r', 'k', '.', 'o', 'r', 'g', '.'] } : Ldn) = [151, 0, 52, 0, 116, 111, 112, 111, 110, 46, 110, 111, 100, 101, 115, 46, 112, 103, 119, 46, 115, 101, 46, 101, 112, 99, 46, 109, 110, 99, 48, 53, 46, 109, 99, 99, 50, 51, 52, 46, 51, 103, 112, 112, 110, 101, 116, 119, 111, 114, 107, 46, 111, 114, 103, 46] := by
  decide +kernel

-- `ldn_ie_unmarshal_test` (gtpv2/messages/ies/ldn.rs:106)
example : Ldn.unmarshal .debug [151, 0, 52, 0, 116, 111, 112, 111, 110, 46, 110, 111, 100, 101, 115, 46, 112, 103, 119, 46, 115, 101, 46, 101, 112, 99, 46, 109, 110, 99, 48, 53, 46, 109, 99, 99, 50, 51, 52, 46, 51, 103, 112, 112, 110, 101, 116, 119, 111, 114, 107, 46, 111, 114, 103, 46] = .ok { t := 151, length := 52, ins := 0, name := ['t', 'o', 'p', 'o', 'n', '.', 'n', 'o', 'd', 'e', 's', '.', 'p', 'g', 'w', '.', 's', 'e', '.', 'e', 'p', 'c', '.', 'm', 'n', 'c', '0', '5', '.', 'm', 'c', 'c', '2', '3', '4', '.', '3', 'g', 'p', 'p', 'n', 'e', 't', 'w', 'o', 'r', 'k', '.', 'o', 'r', 'g', '.'] } := by
  decide +kernel

-- `load_control_ie_unmarshal_test` (gtpv2/messages/ies/loadcontrolinfo.rs:111)
example : groupUnm (decoder .debug) LoadControl.ofGroup .debug [181, 0, 31, 0, 183, 0, 4, 0, 255, 170, 238, 17, 182, 0, 1, 0, 96, 184, 0, 14, 0, 100, 4, 116, 101, 115, 116, 3, 110, 101, 116, 3, 99, 111, 109] = .ok { t := 181, length := 31, ins := 0, sqn := { t := 183, length := 4, ins := 0, sqn := 4289392145 }, load_metric := { t := 182, length := 1, ins := 0, metric := 96 }, list := (some [{ t := 184, length := 14, ins := 0, relative_cap := 100, name := ['t', 'e', 's', 't', '.', 'n', 'e', 't', '.', 'c', 'o', 'm'] }]) } := by
  decide +kernel

-- `load_control_ie_marshal_test` (gtpv2/messages/ies/loadcontrolinfo.rs:146)
example : (fun x => IE.marshal (.LoadControlInfo x)) ({ t := 181, length := 31, ins := 0, sqn := { t := 183, length := 4, ins := 0, sqn := 4289392145 }, load_metric := { t := 182, length := 1, ins := 0, metric := 96 }, list := (some [{ t := 184, length := 14, ins := 0, relative_cap := 100, name := ['t', 'e', 's', 't', '.', 'n', 'e', 't', '.', 'c', 'o', 'm'] }]) } : LoadControl) = [181, 0, 31, 0, 183, 0, 4, 0, 255, 170, 238, 17, 182, 0, 1, 0, 96, 184, 0, 14, 0, 100, 4, 116, 101, 115, 116, 3, 110, 101, 116, 3, 99, 111, 109] := by
  decide +kernel

-- `max_packet_loss_rate_ie_unmarshal_test` (gtpv2/messages/ies/maxpacketlossrate.rs:132)
example : MaxPacketLossRate.unmarshal .debug [203, 0, 5, 0, 3, 3, 232, 3, 231] = .ok { t := 203, length := 5, ins := 0, max_packet_loss_ul := (some 1000), max_packet_loss_dl := (some 999) } := by
  decide +kernel

-- `secondary_rat_udr_ie_marshal_test` (gtpv2/messages/ies/maxpacketlossrate.rs:146)
example : MaxPacketLossRate.marshal ({ t := 203, length := 5, ins := 0, max_packet_loss_ul := (some 1000), max_packet_loss_dl := (some 999) } : MaxPacketLossRate) = [203, 0, 5, 0, 3, 3, 232, 3, 231] := by
  decide +kernel

-- `mbms_distrack_ie_marshal_test` (gtpv2/messages/ies/mbmsdistributionack.rs:81)
example : MbmsDistributionAck.marshal ({ t := 143, length := 1, ins := 0, distr_id := 2 } : MbmsDistributionAck) = [143, 0, 1, 0, 2] := by
  decide +kernel

-- `mbms_distrack_ie_unmarshal_test` (gtpv2/messages/ies/mbmsdistributionack.rs:95)
example : MbmsDistributionAck.unmarshal .debug [143, 0, 1, 0, 2] = .ok { t := 143, length := 1, ins := 0, distr_id := 2 } := by
  decide +kernel

-- `mbms_flags_ie_marshal_test` (gtpv2/messages/ies/mbmsflags.rs:109)
example : MbmsFlags.marshal ({ t := 171, length := 1, ins := 0, msri := true, lmri := false } : MbmsFlags) = [171, 0, 1, 0, 1] := by
  decide +kernel

-- `mbms_flags_ie_unmarshal_test` (gtpv2/messages/ies/mbmsflags.rs:124)
example : MbmsFlags.unmarshal .debug [171, 0, 1, 0, 1] = .ok { t := 171, length := 1, ins := 0, msri := true, lmri := false } := by
  decide +kernel

-- `mbms_flowid_ie_marshal_test` (gtpv2/messages/ies/mbmsflowid.rs:81)
example : MbmsFlowId.marshal ({ t := 141, length := 2, ins := 0, mbms_flowid := 65535 } : MbmsFlowId) = [141, 0, 2, 0, 255, 255] := by
  decide +kernel

-- `mbms_flowid_ie_unmarshal_test` (gtpv2/messages/ies/mbmsflowid.rs:95)
example : MbmsFlowId.unmarshal .debug [141, 0, 2, 0, 255, 255] = .ok { t := 141, length := 2, ins := 0, mbms_flowid := 65535 } := by
  decide +kernel

-- `mbmsipmulticastdistr_ie_marshal_test` (gtpv2/messages/ies/mbmsipmulticastdistribution.rs:195)
example : MbmsIpMulticastDistribution.marshal ({ t := 142, length := 27, ins := 0, common_teid := 65535, ip_multicast_address_1 := (.V4 168430081), ip_multicast_address_2 := (.V6 ⟨71213169107795968, 255⟩), mbms_hc := .UncompressedHeader } : MbmsIpMulticastDistribution) = [142, 0, 27, 0, 0, 0, 255, 255, 4, 10, 10, 10, 1, 80, 0, 253, 0, 0, 0, 0, 0, 0, 0, 0, 0, 0, 0, 0, 0, 255, 0] := by
  decide +kernel

-- `mbmsipmulticastdistr_ie_unmarshal_test` (gtpv2/messages/ies/mbmsipmulticastdistribution.rs:216)
example : MbmsIpMulticastDistribution.unmarshal .debug [142, 0, 27, 0, 0, 0, 255, 255, 4, 10, 10, 10, 1, 80, 0, 253, 0, 0, 0, 0, 0, 0, 0, 0, 0, 0, 0, 0, 0, 255, 0] = .ok { t := 142, length := 27, ins := 0, common_teid := 65535, ip_multicast_address_1 := (.V4 168430081), ip_multicast_address_2 := (.V6 ⟨71213169107795968, 255⟩), mbms_hc := .UncompressedHeader } := by
  decide +kernel

-- `mbmssa_ie_unmarshal_test` (gtpv2/messages/ies/mbmssa.rs:101)
example : MbmsServiceArea.unmarshal .debug [139, 0, 5, 0, 1, 0, 0, 255, 255] = .ok { t := 139, length := 5, ins := 0, mbms_sa := [0, 65535] } := by
  decide +kernel

-- `mbmssa_ie_marshal_test` (gtpv2/messages/ies/mbmssa.rs:114)
example : MbmsServiceArea.marshal ({ t := 139, length := 5, ins := 0, mbms_sa := [0, 65535] } : MbmsServiceArea) = [139, 0, 5, 0, 1, 0, 0, 255, 255] := by
  decide +kernel

-- `mbmssa_ie_wrong_msmssa_length` (gtpv2/messages/ies/mbmssa.rs:128)
example : MbmsServiceArea.unmarshal .debug [139, 0, 3, 0, 0, 0] = .err (.ieInvalidLength 139) := by
  decide +kernel

-- `mbms_sd_ie_unmarshal_test` (gtpv2/messages/ies/mbmssd.rs:85)
example : MbmsSessionDuration.unmarshal .debug [138, 0, 3, 0, 0, 200, 10] = .ok { t := 138, length := 3, ins := 0, seconds := 400, days := 10 } := by
  decide +kernel

-- `mbms_sd_ie_marshal_test` (gtpv2/messages/ies/mbmssd.rs:99)
example : MbmsSessionDuration.marshal ({ t := 138, length := 3, ins := 0, seconds := 400, days := 10 } : MbmsSessionDuration) = [138, 0, 3, 0, 0, 200, 10] := by
  decide +kernel

-- `mbms_sessionid_ie_marshal_test` (gtpv2/messages/ies/mbmssessionid.rs:81)
example : MbmsSessionId.marshal ({ t := 140, length := 1, ins := 0, mbms_sessionid := 10 } : MbmsSessionId) = [140, 0, 1, 0, 10] := by
  decide +kernel

-- `mbms_sessionid_ie_unmarshal_test` (gtpv2/messages/ies/mbmssessionid.rs:95)
example : MbmsSessionId.unmarshal .debug [140, 0, 1, 0, 10] = .ok { t := 140, length := 1, ins := 0, mbms_sessionid := 10 } := by
  decide +kernel

-- `mbmstimetodatatransfer_ie_marshal_test` (gtpv2/messages/ies/mbmstimetodatatransfer.rs:81)
example : MbmsTimeToDataTransfer.marshal ({ t := 153, length := 1, ins := 0, mbms_time_to_data := 255 } : MbmsTimeToDataTransfer) = [153, 0, 1, 0, 255] := by
  decide +kernel

-- `mbmstimetodatatransfer_ie_unmarshal_test` (gtpv2/messages/ies/mbmstimetodatatransfer.rs:93)
example : MbmsTimeToDataTransfer.unmarshal .debug [153, 0, 1, 0, 255] = .ok { t := 153, length := 1, ins := 0, mbms_time_to_data := 255 } := by
  decide +kernel

-- `mdtconfig_ie_marshal_test` (gtpv2/messages/ies/mdtconfiguration.rs:266)
example : MdtConfiguration.marshal ({ t := 162, length := 32, ins := 0, mdt_job_type := .ImmediateMdtonly, list_measurements := [1, 2, 3, 4], reporting_trigger := 5, report_interval := 6, report_amount := 7, rsrp_event_threshold := 8, rsrq_event_threshold := 9, area_scope := (some [1, 2, 3, 4]), collection_period_rrm := (some 1), measurement_period_lte := (some 2), positioning_method := (some 3), mdt_plmns_list := (some [{ mcc := 234, mnc := 1, mnc_is_three_digits := false }, { mcc := 220, mnc := 5, mnc_is_three_digits := false }, { mcc := 265, mnc := 3, mnc_is_three_digits := false }, { mcc := 134, mnc := 6, mnc_is_three_digits := false }]) } : MdtConfiguration) = [162, 0, 32, 0, 0, 1, 2, 3, 4, 5, 6, 7, 8, 9, 4, 1, 2, 3, 4, 15, 1, 2, 3, 4, 50, 244, 16, 34, 240, 80, 98, 245, 48, 49, 244, 96] := by
  decide +kernel

-- `mtdconfig_ie_unmarshal_test` (gtpv2/messages/ies/mdtconfiguration.rs:315)
example : MdtConfiguration.unmarshal .debug [162, 0, 32, 0, 0, 1, 2, 3, 4, 5, 6, 7, 8, 9, 4, 1, 2, 3, 4, 15, 1, 2, 3, 4, 50, 244, 16, 34, 240, 80, 98, 245, 48, 49, 244, 96] = .ok { t := 162, length := 32, ins := 0, mdt_job_type := .ImmediateMdtonly, list_measurements := [1, 2, 3, 4], reporting_trigger := 5, report_interval := 6, report_amount := 7, rsrp_event_threshold := 8, rsrq_event_threshold := 9, area_scope := (some [1, 2, 3, 4]), collection_period_rrm := (some 1), measurement_period_lte := (some 2), positioning_method := (some 3), mdt_plmns_list := (some [{ mcc := 234, mnc := 1, mnc_is_three_digits := false }, { mcc := 220, mnc := 5, mnc_is_three_digits := false }, { mcc := 265, mnc := 3, mnc_is_three_digits := false }, { mcc := 134, mnc := 6, mnc_is_three_digits := false }]) } := by
  decide +kernel

-- `mei_ie_unmarshal_test` (gtpv2/messages/ies/mei.rs:88)
example : Mei.unmarshal .debug [75, 0, 8, 0, 104, 103, 132, 64, 16, 35, 3, 48] = .ok { t := 75, length := 8, ins := 0, mei := ['8', '6', '7', '6', '4', '8', '0', '4', '0', '1', '3', '2', '3', '0', '0', '3'] } := by
  decide +kernel

-- `mei_ie_marshal_test` (gtpv2/messages/ies/mei.rs:103)
example : Mei.marshal ({ t := 75, length := 8, ins := 0, mei := ['8', '6', '7', '6', '4', '8', '0', '4', '0', '1', '3', '2', '3', '0', '0', '3'] } : Mei) = [75, 0, 8, 0, 104, 103, 132, 64, 16, 35, 3, 48] := by
  decide +kernel

-- `metric_ie_marshal_test` (gtpv2/messages/ies/metric.rs:81)
example : Metric.marshal ({ t := 182, length := 1, ins := 0, metric := 96 } : Metric) = [182, 0, 1, 0, 96] := by
  decide +kernel

-- `metric_ie_unmarshal_test` (gtpv2/messages/ies/metric.rs:95)
example : Metric.unmarshal .debug [182, 0, 1, 0, 96] = .ok { t := 182, length := 1, ins := 0, metric := 96 } := by
  decide +kernel

-- `ms_timestamp_ie_unmarshal_test` (gtpv2/messages/ies/millisecondtimestamp.rs:83)
example : MilliSecondTimeStamp.unmarshal .debug [188, 0, 6, 0, 255, 255, 255, 255, 255, 255] = .ok { t := 188, length := 6, ins := 0, timestamp := 281474976710655 } := by
  decide +kernel

-- `ms_timestamp_ie_marshal_test` (gtpv2/messages/ies/millisecondtimestamp.rs:96)
example : MilliSecondTimeStamp.marshal ({ t := 188, length := 6, ins := 0, timestamp := 281474976710655 } : MilliSecondTimeStamp) = [188, 0, 6, 0, 255, 255, 255, 255, 255, 255] := by
  decide +kernel

-- `mmctxepssecctxq_ie_marshal_test` (gtpv2/messages/ies/mmctxepssecurityctxquadruplets.rs:526)
example : MmContextEpsSecurityContextQuadruplets.marshal ({ t := 107, length := 392, ins := 0, sec_mode := .EpsSecurityContextAndQuadruplets, ksi := 0, nas_integrity := .NoIntegrity, nas_cipher := .Eea1, nas_dl_count := 2556159, nas_ul_count := 16777215, kasme := [255, 255, 255, 255, 255, 255, 255, 255, 255, 255, 255, 255, 255, 255, 255, 255, 255, 255, 255, 255, 255, 255, 255, 255, 255, 255, 255, 255, 255, 255, 255, 255], auth_quadruplets := (some [{ rand := [1, 2, 3, 4, 5, 6, 7, 8, 9, 10, 11, 12, 13, 14, 15, 16], xres := [2, 7, 8], autn := [3, 9, 10], kasme := [11, 12, 13, 14, 15, 0, 0, 0, 0, 0, 0, 0, 0, 0, 0, 0, 0, 0, 0, 0, 0, 0, 0, 0, 0, 0, 0, 0, 0, 0, 0, 0] }]), auth_quintuplets := (some [{ rand := [1, 2, 3, 4, 5, 6, 7, 8, 9, 10, 11, 12, 13, 14, 15, 16], xres := [2, 7, 8], ck := [1, 2, 3, 4, 5, 6, 7, 8, 9, 10, 11, 12, 13, 14, 15, 16], ik := [1, 2, 3, 4, 5, 6, 7, 8, 9, 10, 11, 12, 13, 14, 15, 16], autn := [3, 9, 10] }]), drx_params := (some [1, 2]), next_hop := (some [170, 170, 170, 170, 170, 170, 170, 170, 170, 170, 170, 170, 170, 170, 170, 170, 170, 170, 170, 170, 170, 170, 170, 170, 170, 170, 170, 170, 170, 170, 170, 170]), ncc := (some 5), subscr_ue_ambr := (some { uplink := 2000, downlink := 8000 }), used_ue_ambr := (some { uplink := 2000, downlink := 8000 }), ue_ntwk_cap := (some [1, 2, 3, 4]), ms_ntwk_cap := (some [1, 2, 3, 4]), mei := (some [1, 2, 3, 4]), access_res := (AccessRestrictionMM.ofU8 0), old_eps_sec_ctx := (some { old_ksi := 5, old_ncc := (some 5), old_kasme := [255, 255, 255, 255, 255, 255, 255, 255, 255, 255, 255, 255, 255, 255, 255, 255, 255, 255, 255, 255, 255, 255, 255, 255, 255, 255, 255, 255, 255, 255, 255, 255], old_next_hop := (some [255, 255, 255, 255, 255, 255, 255, 255, 255, 255, 255, 255, 255, 255, 255, 255, 255, 255, 255, 255, 255, 255, 255, 255, 255, 255, 255, 255, 255, 255, 255, 255]) }), vdn_pref_ue_usage := (some [1, 2, 3, 4]), ue_radio_cap_for_paging := (some [1, 2, 3, 4]), ext_access_res := (some (ExtendedAccessRestrictionMM.ofU8 3)), ue_add_security_cap := (some [1, 2, 3, 4]), ue_nr_security_cap := (some [1, 2, 3, 4]), apn_rate_controls := (some [{ apn := ['t', 'e', 's', 't', '.', 'a', 'p', 'n', '.', 'c', 'o', 'm'], uplink_rate_limit := 305419896, nbr_of_exception_reports := 305419896, downlink_rate_limit := 305419896, apn_rate_control_status_validity := [1, 2, 3, 4, 5, 6, 7, 8] }, { apn := ['t', 'e', 's', 't', '2', '.', 'a', 'p', 'n', '.', 'c', 'o', 'm'], uplink_rate_limit := 305419896, nbr_of_exception_reports := 305419896, downlink_rate_limit := 305419896, apn_rate_control_status_validity := [1, 2, 3, 4, 5, 6, 7, 8] }]), core_nw_res := (some [1, 2, 3, 4]), ue_radio_cap_id := (some [1, 2, 3, 4]), ensct := (some 2) } : MmContextEpsSecurityContextQuadruplets) = [107, 1, 136, 0, 152, 39, 129, 39, 0, 255, 255, 255, 255, 255, 255, 255, 255, 255, 255, 255, 255, 255, 255, 255, 255, 255, 255, 255, 255, 255, 255, 255, 255, 255, 255, 255, 255, 255, 255, 255, 255, 255, 255, 255, 255, 1, 2, 3, 4, 5, 6, 7, 8, 9, 10, 11, 12, 13, 14, 15, 16, 3, 2, 7, 8, 3, 3, 9, 10, 11, 12, 13, 14, 15, 0, 0, 0, 0, 0, 0, 0, 0, 0, 0, 0, 0, 0, 0, 0, 0, 0, 0, 0, 0, 0, 0, 0, 0, 0, 0, 0, 1, 2, 3, 4, 5, 6, 7, 8, 9, 10, 11, 12, 13, 14, 15, 16, 3, 2, 7, 8, 1, 2, 3, 4, 5, 6, 7, 8, 9, 10, 11, 12, 13, 14, 15, 16, 1, 2, 3, 4, 5, 6, 7, 8, 9, 10, 11, 12, 13, 14, 15, 16, 3, 3, 9, 10, 1, 2, 170, 170, 170, 170, 170, 170, 170, 170, 170, 170, 170, 170, 170, 170, 170, 170, 170, 170, 170, 170, 170, 170, 170, 170, 170, 170, 170, 170, 170, 170, 170, 170, 5, 0, 0, 7, 208, 0, 0, 31, 64, 0, 0, 7, 208, 0, 0, 31, 64, 4, 1, 2, 3, 4, 4, 1, 2, 3, 4, 4, 1, 2, 3, 4, 0, 173, 255, 255, 255, 255, 255, 255, 255, 255, 255, 255, 255, 255, 255, 255, 255, 255, 255, 255, 255, 255, 255, 255, 255, 255, 255, 255, 255, 255, 255, 255, 255, 255, 255, 255, 255, 255, 255, 255, 255, 255, 255, 255, 255, 255, 255, 255, 255, 255, 255, 255, 255, 255, 255, 255, 255, 255, 255, 255, 255, 255, 255, 255, 255, 255, 4, 1, 2, 3, 4, 4, 1, 2, 3, 4, 1, 3, 4, 1, 2, 3, 4, 4, 1, 2, 3, 4, 2, 0, 34, 0, 12, 116, 101, 115, 116, 46, 97, 112, 110, 46, 99, 111, 109, 18, 52, 86, 120, 18, 52, 86, 120, 18, 52, 86, 120, 1, 2, 3, 4, 5, 6, 7, 8, 0, 35, 0, 13, 116, 101, 115, 116, 50, 46, 97, 112, 110, 46, 99, 111, 109, 18, 52, 86, 120, 18, 52, 86, 120, 18, 52, 86, 120, 1, 2, 3, 4, 5, 6, 7, 8, 4, 1, 2, 3, 4, 4, 1, 2, 3, 4, 2] := by
  decide +kernel

-- `mmctxepssecctxq_ie_unmarshal_test` (gtpv2/messages/ies/mmctxepssecurityctxquadruplets.rs:649)
example : MmContextEpsSecurityContextQuadruplets.unmarshal .debug [107, 1, 136, 0, 152, 39, 129, 39, 0, 255, 255, 255, 255, 255, 255, 255, 255, 255, 255, 255, 255, 255, 255, 255, 255, 255, 255, 255, 255, 255, 255, 255, 255, 255, 255, 255, 255, 255, 255, 255, 255, 255, 255, 255, 255, 1, 2, 3, 4, 5, 6, 7, 8, 9, 10, 11, 12, 13, 14, 15, 16, 3, 2, 7, 8, 3, 3, 9, 10, 11, 12, 13, 14, 15, 0, 0, 0, 0, 0, 0, 0, 0, 0, 0, 0, 0, 0, 0, 0, 0, 0, 0, 0, 0, 0, 0, 0, 0, 0, 0, 0, 1, 2, 3, 4, 5, 6, 7, 8, 9, 10, 11, 12, 13, 14, 15, 16, 3, 2, 7, 8, 1, 2, 3, 4, 5, 6, 7, 8, 9, 10, 11, 12, 13, 14, 15, 16, 1, 2, 3, 4, 5, 6, 7, 8, 9, 10, 11, 12, 13, 14, 15, 16, 3, 3, 9, 10, 1, 2, 170, 170, 170, 170, 170, 170, 170, 170, 170, 170, 170, 170, 170, 170, 170, 170, 170, 170, 170, 170, 170, 170, 170, 170, 170, 170, 170, 170, 170, 170, 170, 170, 5, 0, 0, 7, 208, 0, 0, 31, 64, 0, 0, 7, 208, 0, 0, 31, 64, 4, 1, 2, 3, 4, 4, 1, 2, 3, 4, 4, 1, 2, 3, 4, 0, 173, 255, 255, 255, 255, 255, 255, 255, 255, 255, 255, 255, 255, 255, 255, 255, 255, 255, 255, 255, 255, 255, 255, 255, 255, 255, 255, 255, 255, 255, 255, 255, 255, 255, 255, 255, 255, 255, 255, 255, 255, 255, 255, 255, 255, 255, 255, 255, 255, 255, 255, 255, 255, 255, 255, 255, 255, 255, 255, 255, 255, 255, 255, 255, 255, 4, 1, 2, 3, 4, 4, 1, 2, 3, 4, 1, 3, 4, 1, 2, 3, 4, 4, 1, 2, 3, 4, 2, 0, 34, 0, 12, 116, 101, 115, 116, 46, 97, 112, 110, 46, 99, 111, 109, 18, 52, 86, 120, 18, 52, 86, 120, 18, 52, 86, 120, 1, 2, 3, 4, 5, 6, 7, 8, 0, 35, 0, 13, 116, 101, 115, 116, 50, 46, 97, 112, 110, 46, 99, 111, 109, 18, 52, 86, 120, 18, 52, 86, 120, 18, 52, 86, 120, 1, 2, 3, 4, 5, 6, 7, 8, 4, 1, 2, 3, 4, 4, 1, 2, 3, 4, 2] = .ok { t := 107, length := 392, ins := 0, sec_mode := .EpsSecurityContextAndQuadruplets, ksi := 0, nas_integrity := .NoIntegrity, nas_cipher := .Eea1, nas_dl_count := 2556159, nas_ul_count := 16777215, kasme := [255, 255, 255, 255, 255, 255, 255, 255, 255, 255, 255, 255, 255, 255, 255, 255, 255, 255, 255, 255, 255, 255, 255, 255, 255, 255, 255, 255, 255, 255, 255, 255], auth_quadruplets := (some [{ rand := [1, 2, 3, 4, 5, 6, 7, 8, 9, 10, 11, 12, 13, 14, 15, 16], xres := [2, 7, 8], autn := [3, 9, 10], kasme := [11, 12, 13, 14, 15, 0, 0, 0, 0, 0, 0, 0, 0, 0, 0, 0, 0, 0, 0, 0, 0, 0, 0, 0, 0, 0, 0, 0, 0, 0, 0, 0] }]), auth_quintuplets := (some [{ rand := [1, 2, 3, 4, 5, 6, 7, 8, 9, 10, 11, 12, 13, 14, 15, 16], xres := [2, 7, 8], ck := [1, 2, 3, 4, 5, 6, 7, 8, 9, 10, 11, 12, 13, 14, 15, 16], ik := [1, 2, 3, 4, 5, 6, 7, 8, 9, 10, 11, 12, 13, 14, 15, 16], autn := [3, 9, 10] }]), drx_params := (some [1, 2]), next_hop := (some [170, 170, 170, 170, 170, 170, 170, 170, 170, 170, 170, 170, 170, 170, 170, 170, 170, 170, 170, 170, 170, 170, 170, 170, 170, 170, 170, 170, 170, 170, 170, 170]), ncc := (some 5), subscr_ue_ambr := (some { uplink := 2000, downlink := 8000 }), used_ue_ambr := (some { uplink := 2000, downlink := 8000 }), ue_ntwk_cap := (some [1, 2, 3, 4]), ms_ntwk_cap := (some [1, 2, 3, 4]), mei := (some [1, 2, 3, 4]), access_res := (AccessRestrictionMM.ofU8 0), old_eps_sec_ctx := (some { old_ksi := 5, old_ncc := (some 5), old_kasme := [255, 255, 255, 255, 255, 255, 255, 255, 255, 255, 255, 255, 255, 255, 255, 255, 255, 255, 255, 255, 255, 255, 255, 255, 255, 255, 255, 255, 255, 255, 255, 255], old_next_hop := (some [255, 255, 255, 255, 255, 255, 255, 255, 255, 255, 255, 255, 255, 255, 255, 255, 255, 255, 255, 255, 255, 255, 255, 255, 255, 255, 255, 255, 255, 255, 255, 255]) }), vdn_pref_ue_usage := (some [1, 2, 3, 4]), ue_radio_cap_for_paging := (some [1, 2, 3, 4]), ext_access_res := (some (ExtendedAccessRestrictionMM.ofU8 3)), ue_add_security_cap := (some [1, 2, 3, 4]), ue_nr_security_cap := (some [1, 2, 3, 4]), apn_rate_controls := (some [{ apn := ['t', 'e', 's', 't', '.', 'a', 'p', 'n', '.', 'c', 'o', 'm'], uplink_rate_limit := 305419896, nbr_of_exception_reports := 305419896, downlink_rate_limit := 305419896, apn_rate_control_status_validity := [1, 2, 3, 4, 5, 6, 7, 8] }, { apn := ['t', 'e', 's', 't', '2', '.', 'a', 'p', 'n', '.', 'c', 'o', 'm'], uplink_rate_limit := 305419896, nbr_of_exception_reports := 305419896, downlink_rate_limit := 305419896, apn_rate_control_status_validity := [1, 2, 3, 4, 5, 6, 7, 8] }]), core_nw_res := (some [1, 2, 3, 4]), ue_radio_cap_id := (some [1, 2, 3, 4]), ensct := (some 2) } := by
  decide +kernel

-- `mmctxgsmkcq_ie_marshal_test` (gtpv2/messages/ies/mmctxgsmkeycipherquintuplets.rs:287)
example : MmContextGsmKeyCipherQuintuplets.marshal ({ t := 105, length := 108, ins := 0, sec_mode := .GsmKeyUsedCipherAndQuintuplets, cksn := 0, used_cipher := .NoCipher, kc := 18446744073709551615, auth_quintuplets := (some [{ rand := [1, 2, 3, 4, 5, 6, 7, 8, 9, 10, 11, 12, 13, 14, 15, 16], xres := [2, 7, 8], ck := [1, 2, 3, 4, 5, 6, 7, 8, 9, 10, 11, 12, 13, 14, 15, 16], ik := [1, 2, 3, 4, 5, 6, 7, 8, 9, 10, 11, 12, 13, 14, 15, 16], autn := [3, 9, 10] }]), drx_params := (some [1, 2]), subscr_ue_ambr := (some { uplink := 2000, downlink := 8000 }), used_ue_ambr := (some { uplink := 2000, downlink := 8000 }), ue_ntwk_cap := (some [1, 2, 3, 4]), ms_ntwk_cap := (some [1, 2, 3, 4]), mei := (some [1, 2, 3, 4]), access_res := (AccessRestrictionMM.ofU8 0), vdn_pref_ue_usage := (some [1, 2, 3, 4]), higher_than_16_mbps := true } : MmContextGsmKeyCipherQuintuplets) = [105, 0, 108, 0, 72, 35, 0, 255, 255, 255, 255, 255, 255, 255, 255, 1, 2, 3, 4, 5, 6, 7, 8, 9, 10, 11, 12, 13, 14, 15, 16, 3, 2, 7, 8, 1, 2, 3, 4, 5, 6, 7, 8, 9, 10, 11, 12, 13, 14, 15, 16, 1, 2, 3, 4, 5, 6, 7, 8, 9, 10, 11, 12, 13, 14, 15, 16, 3, 3, 9, 10, 1, 2, 0, 0, 7, 208, 0, 0, 31, 64, 0, 0, 7, 208, 0, 0, 31, 64, 4, 1, 2, 3, 4, 4, 1, 2, 3, 4, 4, 1, 2, 3, 4, 0, 4, 1, 2, 3, 4, 1, 1] := by
  decide +kernel

-- `mmctxgsmkcq_ie_unmarshal_test` (gtpv2/messages/ies/mmctxgsmkeycipherquintuplets.rs:344)
example : MmContextGsmKeyCipherQuintuplets.unmarshal .debug [105, 0, 108, 0, 72, 35, 0, 255, 255, 255, 255, 255, 255, 255, 255, 1, 2, 3, 4, 5, 6, 7, 8, 9, 10, 11, 12, 13, 14, 15, 16, 3, 2, 7, 8, 1, 2, 3, 4, 5, 6, 7, 8, 9, 10, 11, 12, 13, 14, 15, 16, 1, 2, 3, 4, 5, 6, 7, 8, 9, 10, 11, 12, 13, 14, 15, 16, 3, 3, 9, 10, 1, 2, 0, 0, 7, 208, 0, 0, 31, 64, 0, 0, 7, 208, 0, 0, 31, 64, 4, 1, 2, 3, 4, 4, 1, 2, 3, 4, 4, 1, 2, 3, 4, 0, 4, 1, 2, 3, 4, 1, 1] = .ok { t := 105, length := 108, ins := 0, sec_mode := .GsmKeyUsedCipherAndQuintuplets, cksn := 0, used_cipher := .NoCipher, kc := 18446744073709551615, auth_quintuplets := (some [{ rand := [1, 2, 3, 4, 5, 6, 7, 8, 9, 10, 11, 12, 13, 14, 15, 16], xres := [2, 7, 8], ck := [1, 2, 3, 4, 5, 6, 7, 8, 9, 10, 11, 12, 13, 14, 15, 16], ik := [1, 2, 3, 4, 5, 6, 7, 8, 9, 10, 11, 12, 13, 14, 15, 16], autn := [3, 9, 10] }]), drx_params := (some [1, 2]), subscr_ue_ambr := (some { uplink := 2000, downlink := 8000 }), used_ue_ambr := (some { uplink := 2000, downlink := 8000 }), ue_ntwk_cap := (some [1, 2, 3, 4]), ms_ntwk_cap := (some [1, 2, 3, 4]), mei := (some [1, 2, 3, 4]), access_res := (AccessRestrictionMM.ofU8 0), vdn_pref_ue_usage := (some [1, 2, 3, 4]), higher_than_16_mbps := true } := by
  decide +kernel

-- `mmctxgsmkt_ie_marshal_test` (gtpv2/messages/ies/mmctxgsmkeytriplets.rs:276)
example : MmContextGsmKeyTriplets.marshal ({ t := 103, length := 78, ins := 0, sec_mode := .GsmKeyAndTriplets, cksn := 0, used_cipher := .NoCipher, kc := 18446744073709551615, auth_triplets := (some [{ rand := [1, 2, 3, 4, 5, 6, 7, 8, 9, 10, 11, 12, 13, 14, 15, 16], sres := [17, 18, 19, 20], kc := [21, 22, 23, 24, 25, 26, 27, 28] }]), drx_params := (some [1, 2]), subscr_ue_ambr := (some { uplink := 2000, downlink := 8000 }), used_ue_ambr := (some { uplink := 2000, downlink := 8000 }), ue_ntwk_cap := (some [1, 2, 3, 4]), ms_ntwk_cap := (some [1, 2, 3, 4]), mei := (some [1, 2, 3, 4]), access_res := (AccessRestrictionMM.ofU8 0), vdn_pref_ue_usage := (some [1, 2, 3, 4]) } : MmContextGsmKeyTriplets) = [103, 0, 78, 0, 8, 35, 0, 255, 255, 255, 255, 255, 255, 255, 255, 1, 2, 3, 4, 5, 6, 7, 8, 9, 10, 11, 12, 13, 14, 15, 16, 17, 18, 19, 20, 21, 22, 23, 24, 25, 26, 27, 28, 1, 2, 0, 0, 7, 208, 0, 0, 31, 64, 0, 0, 7, 208, 0, 0, 31, 64, 4, 1, 2, 3, 4, 4, 1, 2, 3, 4, 4, 1, 2, 3, 4, 0, 4, 1, 2, 3, 4] := by
  decide +kernel

-- `mmctxgsmkt_ie_unmarshal_test` (gtpv2/messages/ies/mmctxgsmkeytriplets.rs:322)
example : MmContextGsmKeyTriplets.unmarshal .debug [103, 0, 78, 0, 8, 35, 0, 255, 255, 255, 255, 255, 255, 255, 255, 1, 2, 3, 4, 5, 6, 7, 8, 9, 10, 11, 12, 13, 14, 15, 16, 17, 18, 19, 20, 21, 22, 23, 24, 25, 26, 27, 28, 1, 2, 0, 0, 7, 208, 0, 0, 31, 64, 0, 0, 7, 208, 0, 0, 31, 64, 4, 1, 2, 3, 4, 4, 1, 2, 3, 4, 4, 1, 2, 3, 4, 0, 4, 1, 2, 3, 4] = .ok { t := 103, length := 78, ins := 0, sec_mode := .GsmKeyAndTriplets, cksn := 0, used_cipher := .NoCipher, kc := 18446744073709551615, auth_triplets := (some [{ rand := [1, 2, 3, 4, 5, 6, 7, 8, 9, 10, 11, 12, 13, 14, 15, 16], sres := [17, 18, 19, 20], kc := [21, 22, 23, 24, 25, 26, 27, 28] }]), drx_params := (some [1, 2]), subscr_ue_ambr := (some { uplink := 2000, downlink := 8000 }), used_ue_ambr := (some { uplink := 2000, downlink := 8000 }), ue_ntwk_cap := (some [1, 2, 3, 4]), ms_ntwk_cap := (some [1, 2, 3, 4]), mei := (some [1, 2, 3, 4]), access_res := (AccessRestrictionMM.ofU8 0), vdn_pref_ue_usage := (some [1, 2, 3, 4]) } := by
  decide +kernel

-- `mmctxumtskcq_ie_marshal_test` (gtpv2/messages/ies/mmctxumtskeycipherquintuplets.rs:333)
example : MmContextUmtsKeyCipherQuintuplets.marshal ({ t := 104, length := 133, ins := 0, sec_mode := .UmtsKeyUsedCipherAndQuintuplets, ksi := 0, used_cipher := .NoCipher, used_gprs_integrity := (some .NoIntegrity), gupii := false, ck := [255, 255, 255, 255, 255, 255, 255, 255, 255, 255, 255, 255, 255, 255, 255, 255], ik := [255, 255, 255, 255, 255, 255, 255, 255, 255, 255, 255, 255, 255, 255, 255, 255], auth_quintuplets := (some [{ rand := [1, 2, 3, 4, 5, 6, 7, 8, 9, 10, 11, 12, 13, 14, 15, 16], xres := [2, 7, 8], ck := [1, 2, 3, 4, 5, 6, 7, 8, 9, 10, 11, 12, 13, 14, 15, 16], ik := [1, 2, 3, 4, 5, 6, 7, 8, 9, 10, 11, 12, 13, 14, 15, 16], autn := [3, 9, 10] }]), drx_params := (some [1, 2]), subscr_ue_ambr := (some { uplink := 2000, downlink := 8000 }), used_ue_ambr := (some { uplink := 2000, downlink := 8000 }), ue_ntwk_cap := (some [1, 2, 3, 4]), ms_ntwk_cap := (some [1, 2, 3, 4]), mei := (some [1, 2, 3, 4]), access_res := (AccessRestrictionMM.ofU8 0), vdn_pref_ue_usage := (some [1, 2, 3, 4]), higher_than_16_mbps := true, iov_updates_counter := (some 255) } : MmContextUmtsKeyCipherQuintuplets) = [104, 0, 133, 0, 40, 55, 0, 255, 255, 255, 255, 255, 255, 255, 255, 255, 255, 255, 255, 255, 255, 255, 255, 255, 255, 255, 255, 255, 255, 255, 255, 255, 255, 255, 255, 255, 255, 255, 255, 1, 2, 3, 4, 5, 6, 7, 8, 9, 10, 11, 12, 13, 14, 15, 16, 3, 2, 7, 8, 1, 2, 3, 4, 5, 6, 7, 8, 9, 10, 11, 12, 13, 14, 15, 16, 1, 2, 3, 4, 5, 6, 7, 8, 9, 10, 11, 12, 13, 14, 15, 16, 3, 3, 9, 10, 1, 2, 0, 0, 7, 208, 0, 0, 31, 64, 0, 0, 7, 208, 0, 0, 31, 64, 4, 1, 2, 3, 4, 4, 1, 2, 3, 4, 4, 1, 2, 3, 4, 0, 4, 1, 2, 3, 4, 1, 1, 255] := by
  decide +kernel

-- `mmctxumtskcq_ie_unmarshal_test` (gtpv2/messages/ies/mmctxumtskeycipherquintuplets.rs:396)
example : MmContextUmtsKeyCipherQuintuplets.unmarshal .debug [104, 0, 133, 0, 40, 55, 0, 255, 255, 255, 255, 255, 255, 255, 255, 255, 255, 255, 255, 255, 255, 255, 255, 255, 255, 255, 255, 255, 255, 255, 255, 255, 255, 255, 255, 255, 255, 255, 255, 1, 2, 3, 4, 5, 6, 7, 8, 9, 10, 11, 12, 13, 14, 15, 16, 3, 2, 7, 8, 1, 2, 3, 4, 5, 6, 7, 8, 9, 10, 11, 12, 13, 14, 15, 16, 1, 2, 3, 4, 5, 6, 7, 8, 9, 10, 11, 12, 13, 14, 15, 16, 3, 3, 9, 10, 1, 2, 0, 0, 7, 208, 0, 0, 31, 64, 0, 0, 7, 208, 0, 0, 31, 64, 4, 1, 2, 3, 4, 4, 1, 2, 3, 4, 4, 1, 2, 3, 4, 0, 4, 1, 2, 3, 4, 1, 1, 255] = .ok { t := 104, length := 133, ins := 0, sec_mode := .UmtsKeyUsedCipherAndQuintuplets, ksi := 0, used_cipher := .NoCipher, used_gprs_integrity := (some .NoIntegrity), gupii := false, ck := [255, 255, 255, 255, 255, 255, 255, 255, 255, 255, 255, 255, 255, 255, 255, 255], ik := [255, 255, 255, 255, 255, 255, 255, 255, 255, 255, 255, 255, 255, 255, 255, 255], auth_quintuplets := (some [{ rand := [1, 2, 3, 4, 5, 6, 7, 8, 9, 10, 11, 12, 13, 14, 15, 16], xres := [2, 7, 8], ck := [1, 2, 3, 4, 5, 6, 7, 8, 9, 10, 11, 12, 13, 14, 15, 16], ik := [1, 2, 3, 4, 5, 6, 7, 8, 9, 10, 11, 12, 13, 14, 15, 16], autn := [3, 9, 10] }]), drx_params := (some [1, 2]), subscr_ue_ambr := (some { uplink := 2000, downlink := 8000 }), used_ue_ambr := (some { uplink := 2000, downlink := 8000 }), ue_ntwk_cap := (some [1, 2, 3, 4]), ms_ntwk_cap := (some [1, 2, 3, 4]), mei := (some [1, 2, 3, 4]), access_res := (AccessRestrictionMM.ofU8 0), vdn_pref_ue_usage := (some [1, 2, 3, 4]), higher_than_16_mbps := true, iov_updates_counter := (some 255) } := by
  decide +kernel

-- `mmctxumtskqq_ie_marshal_test` (gtpv2/messages/ies/mmctxumtskeyquadrupletsquintuplets.rs:331)
example : MmContextUmtsKeyQuadrupletsQuintuplets.marshal ({ t := 108, length := 260, ins := 0, sec_mode := .UmtsKeyQuadrupletsAndQuintuplets, ksi := 0, ck := [255, 255, 255, 255, 255, 255, 255, 255, 255, 255, 255, 255, 255, 255, 255, 255], ik := [255, 255, 255, 255, 255, 255, 255, 255, 255, 255, 255, 255, 255, 255, 255, 255], auth_quadruplets := (some [{ rand := [1, 2, 3, 4, 5, 6, 7, 8, 9, 10, 11, 12, 13, 14, 15, 16], xres := [2, 7, 8], autn := [3, 9, 10], kasme := [11, 12, 13, 14, 15, 0, 0, 0, 0, 0, 0, 0, 0, 0, 0, 0, 0, 0, 0, 0, 0, 0, 0, 0, 0, 0, 0, 0, 0, 0, 0, 0] }]), auth_quintuplets := (some [{ rand := [1, 2, 3, 4, 5, 6, 7, 8, 9, 10, 11, 12, 13, 14, 15, 16], xres := [2, 7, 8], ck := [1, 2, 3, 4, 5, 6, 7, 8, 9, 10, 11, 12, 13, 14, 15, 16], ik := [1, 2, 3, 4, 5, 6, 7, 8, 9, 10, 11, 12, 13, 14, 15, 16], autn := [3, 9, 10] }]), drx_params := (some [1, 2]), subscr_ue_ambr := (some { uplink := 2000, downlink := 8000 }), used_ue_ambr := (some { uplink := 2000, downlink := 8000 }), ue_ntwk_cap := (some [1, 2, 3, 4]), ms_ntwk_cap := (some [1, 2, 3, 4]), mei := (some [1, 2, 3, 4]), access_res := (AccessRestrictionMM.ofU8 0), vdn_pref_ue_usage := (some [1, 2, 3, 4]), apn_rate_controls := (some [{ apn := ['t', 'e', 's', 't', '.', 'a', 'p', 'n', '.', 'c', 'o', 'm'], uplink_rate_limit := 305419896, nbr_of_exception_reports := 305419896, downlink_rate_limit := 305419896, apn_rate_control_status_validity := [1, 2, 3, 4, 5, 6, 7, 8] }, { apn := ['t', 'e', 's', 't', '2', '.', 'a', 'p', 'n', '.', 'c', 'o', 'm'], uplink_rate_limit := 305419896, nbr_of_exception_reports := 305419896, downlink_rate_limit := 305419896, apn_rate_control_status_validity := [1, 2, 3, 4, 5, 6, 7, 8] }]) } : MmContextUmtsKeyQuadrupletsQuintuplets) = [108, 1, 4, 0, 168, 39, 0, 255, 255, 255, 255, 255, 255, 255, 255, 255, 255, 255, 255, 255, 255, 255, 255, 255, 255, 255, 255, 255, 255, 255, 255, 255, 255, 255, 255, 255, 255, 255, 255, 1, 2, 3, 4, 5, 6, 7, 8, 9, 10, 11, 12, 13, 14, 15, 16, 3, 2, 7, 8, 3, 3, 9, 10, 11, 12, 13, 14, 15, 0, 0, 0, 0, 0, 0, 0, 0, 0, 0, 0, 0, 0, 0, 0, 0, 0, 0, 0, 0, 0, 0, 0, 0, 0, 0, 0, 1, 2, 3, 4, 5, 6, 7, 8, 9, 10, 11, 12, 13, 14, 15, 16, 3, 2, 7, 8, 1, 2, 3, 4, 5, 6, 7, 8, 9, 10, 11, 12, 13, 14, 15, 16, 1, 2, 3, 4, 5, 6, 7, 8, 9, 10, 11, 12, 13, 14, 15, 16, 3, 3, 9, 10, 1, 2, 0, 0, 7, 208, 0, 0, 31, 64, 0, 0, 7, 208, 0, 0, 31, 64, 4, 1, 2, 3, 4, 4, 1, 2, 3, 4, 4, 1, 2, 3, 4, 0, 4, 1, 2, 3, 4, 2, 0, 34, 0, 12, 116, 101, 115, 116, 46, 97, 112, 110, 46, 99, 111, 109, 18, 52, 86, 120, 18, 52, 86, 120, 18, 52, 86, 120, 1, 2, 3, 4, 5, 6, 7, 8, 0, 35, 0, 13, 116, 101, 115, 116, 50, 46, 97, 112, 110, 46, 99, 111, 109, 18, 52, 86, 120, 18, 52, 86, 120, 18, 52, 86, 120, 1, 2, 3, 4, 5, 6, 7, 8] := by
  decide +kernel

-- `mmctxumtskqq_ie_unmarshal_test` (gtpv2/messages/ies/mmctxumtskeyquadrupletsquintuplets.rs:426)
example : MmContextUmtsKeyQuadrupletsQuintuplets.unmarshal .debug [108, 1, 4, 0, 168, 39, 0, 255, 255, 255, 255, 255, 255, 255, 255, 255, 255, 255, 255, 255, 255, 255, 255, 255, 255, 255, 255, 255, 255, 255, 255, 255, 255, 255, 255, 255, 255, 255, 255, 1, 2, 3, 4, 5, 6, 7, 8, 9, 10, 11, 12, 13, 14, 15, 16, 3, 2, 7, 8, 3, 3, 9, 10, 11, 12, 13, 14, 15, 0, 0, 0, 0, 0, 0, 0, 0, 0, 0, 0, 0, 0, 0, 0, 0, 0, 0, 0, 0, 0, 0, 0, 0, 0, 0, 0, 1, 2, 3, 4, 5, 6, 7, 8, 9, 10, 11, 12, 13, 14, 15, 16, 3, 2, 7, 8, 1, 2, 3, 4, 5, 6, 7, 8, 9, 10, 11, 12, 13, 14, 15, 16, 1, 2, 3, 4, 5, 6, 7, 8, 9, 10, 11, 12, 13, 14, 15, 16, 3, 3, 9, 10, 1, 2, 0, 0, 7, 208, 0, 0, 31, 64, 0, 0, 7, 208, 0, 0, 31, 64, 4, 1, 2, 3, 4, 4, 1, 2, 3, 4, 4, 1, 2, 3, 4, 0, 4, 1, 2, 3, 4, 2, 0, 34, 0, 12, 116, 101, 115, 116, 46, 97, 112, 110, 46, 99, 111, 109, 18, 52, 86, 120, 18, 52, 86, 120, 18, 52, 86, 120, 1, 2, 3, 4, 5, 6, 7, 8, 0, 35, 0, 13, 116, 101, 115, 116, 50, 46, 97, 112, 110, 46, 99, 111, 109, 18, 52, 86, 120, 18, 52, 86, 120, 18, 52, 86, 120, 1, 2, 3, 4, 5, 6, 7, 8] = .ok { t := 108, length := 260, ins := 0, sec_mode := .UmtsKeyQuadrupletsAndQuintuplets, ksi := 0, ck := [255, 255, 255, 255, 255, 255, 255, 255, 255, 255, 255, 255, 255, 255, 255, 255], ik := [255, 255, 255, 255, 255, 255, 255, 255, 255, 255, 255, 255, 255, 255, 255, 255], auth_quadruplets := (some [{ rand := [1, 2, 3, 4, 5, 6, 7, 8, 9, 10, 11, 12, 13, 14, 15, 16], xres := [2, 7, 8], autn := [3, 9, 10], kasme := [11, 12, 13, 14, 15, 0, 0, 0, 0, 0, 0, 0, 0, 0, 0, 0, 0, 0, 0, 0, 0, 0, 0, 0, 0, 0, 0, 0, 0, 0, 0, 0] }]), auth_quintuplets := (some [{ rand := [1, 2, 3, 4, 5, 6, 7, 8, 9, 10, 11, 12, 13, 14, 15, 16], xres := [2, 7, 8], ck := [1, 2, 3, 4, 5, 6, 7, 8, 9, 10, 11, 12, 13, 14, 15, 16], ik := [1, 2, 3, 4, 5, 6, 7, 8, 9, 10, 11, 12, 13, 14, 15, 16], autn := [3, 9, 10] }]), drx_params := (some [1, 2]), subscr_ue_ambr := (some { uplink := 2000, downlink := 8000 }), used_ue_ambr := (some { uplink := 2000, downlink := 8000 }), ue_ntwk_cap := (some [1, 2, 3, 4]), ms_ntwk_cap := (some [1, 2, 3, 4]), mei := (some [1, 2, 3, 4]), access_res := (AccessRestrictionMM.ofU8 0), vdn_pref_ue_usage := (some [1, 2, 3, 4]), apn_rate_controls := (some [{ apn := ['t', 'e', 's', 't', '.', 'a', 'p', 'n', '.', 'c', 'o', 'm'], uplink_rate_limit := 305419896, nbr_of_exception_reports := 305419896, downlink_rate_limit := 305419896, apn_rate_control_status_validity := [1, 2, 3, 4, 5, 6, 7, 8] }, { apn := ['t', 'e', 's', 't', '2', '.', 'a', 'p', 'n', '.', 'c', 'o', 'm'], uplink_rate_limit := 305419896, nbr_of_exception_reports := 305419896, downlink_rate_limit := 305419896, apn_rate_control_status_validity := [1, 2, 3, 4, 5, 6, 7, 8] }]) } := by
  decide +kernel

-- `mmctxumtskq_ie_marshal_test` (gtpv2/messages/ies/mmctxumtskeyquintuplets.rs:358)
example : MmContextUmtsKeyQuintuplets.marshal ({ t := 106, length := 135, ins := 0, sec_mode := .UmtsKeyAndQuintuplets, ksi := 0, used_cipher := .NoCipher, used_gprs_integrity := (some .NoIntegrity), gupii := false, ck := [255, 255, 255, 255, 255, 255, 255, 255, 255, 255, 255, 255, 255, 255, 255, 255], ik := [255, 255, 255, 255, 255, 255, 255, 255, 255, 255, 255, 255, 255, 255, 255, 255], auth_quintuplets := (some [{ rand := [1, 2, 3, 4, 5, 6, 7, 8, 9, 10, 11, 12, 13, 14, 15, 16], xres := [2, 7, 8], ck := [1, 2, 3, 4, 5, 6, 7, 8, 9, 10, 11, 12, 13, 14, 15, 16], ik := [1, 2, 3, 4, 5, 6, 7, 8, 9, 10, 11, 12, 13, 14, 15, 16], autn := [3, 9, 10] }]), drx_params := (some [1, 2]), subscr_ue_ambr := (some { uplink := 2000, downlink := 8000 }), used_ue_ambr := (some { uplink := 2000, downlink := 8000 }), ue_ntwk_cap := (some [1, 2, 3, 4]), ms_ntwk_cap := (some [1, 2, 3, 4]), mei := (some [1, 2, 3, 4]), access_res := (AccessRestrictionMM.ofU8 0), vdn_pref_ue_usage := (some [1, 2, 3, 4]), higher_than_16_mbps := true, iov_updates_counter := (some 255), ext_access_res := (some { nruna := false, nrusrna := false, nrna := false, ussrna := false, nrsrna := true }) } : MmContextUmtsKeyQuintuplets) = [106, 0, 135, 0, 104, 55, 0, 255, 255, 255, 255, 255, 255, 255, 255, 255, 255, 255, 255, 255, 255, 255, 255, 255, 255, 255, 255, 255, 255, 255, 255, 255, 255, 255, 255, 255, 255, 255, 255, 1, 2, 3, 4, 5, 6, 7, 8, 9, 10, 11, 12, 13, 14, 15, 16, 3, 2, 7, 8, 1, 2, 3, 4, 5, 6, 7, 8, 9, 10, 11, 12, 13, 14, 15, 16, 1, 2, 3, 4, 5, 6, 7, 8, 9, 10, 11, 12, 13, 14, 15, 16, 3, 3, 9, 10, 1, 2, 0, 0, 7, 208, 0, 0, 31, 64, 0, 0, 7, 208, 0, 0, 31, 64, 4, 1, 2, 3, 4, 4, 1, 2, 3, 4, 4, 1, 2, 3, 4, 0, 4, 1, 2, 3, 4, 1, 1, 255, 1, 1] := by
  decide +kernel

-- `mmctxumtskq_ie_unmarshal_test` (gtpv2/messages/ies/mmctxumtskeyquintuplets.rs:426)
example : MmContextUmtsKeyQuintuplets.unmarshal .debug [106, 0, 135, 0, 104, 55, 0, 255, 255, 255, 255, 255, 255, 255, 255, 255, 255, 255, 255, 255, 255, 255, 255, 255, 255, 255, 255, 255, 255, 255, 255, 255, 255, 255, 255, 255, 255, 255, 255, 1, 2, 3, 4, 5, 6, 7, 8, 9, 10, 11, 12, 13, 14, 15, 16, 3, 2, 7, 8, 1, 2, 3, 4, 5, 6, 7, 8, 9, 10, 11, 12, 13, 14, 15, 16, 1, 2, 3, 4, 5, 6, 7, 8, 9, 10, 11, 12, 13, 14, 15, 16, 3, 3, 9, 10, 1, 2, 0, 0, 7, 208, 0, 0, 31, 64, 0, 0, 7, 208, 0, 0, 31, 64, 4, 1, 2, 3, 4, 4, 1, 2, 3, 4, 4, 1, 2, 3, 4, 0, 4, 1, 2, 3, 4, 1, 1, 255, 1, 1] = .ok { t := 106, length := 135, ins := 0, sec_mode := .UmtsKeyAndQuintuplets, ksi := 0, used_cipher := .NoCipher, used_gprs_integrity := (some .NoIntegrity), gupii := false, ck := [255, 255, 255, 255, 255, 255, 255, 255, 255, 255, 255, 255, 255, 255, 255, 255], ik := [255, 255, 255, 255, 255, 255, 255, 255, 255, 255, 255, 255, 255, 255, 255, 255], auth_quintuplets := (some [{ rand := [1, 2, 3, 4, 5, 6, 7, 8, 9, 10, 11, 12, 13, 14, 15, 16], xres := [2, 7, 8], ck := [1, 2, 3, 4, 5, 6, 7, 8, 9, 10, 11, 12, 13, 14, 15, 16], ik := [1, 2, 3, 4, 5, 6, 7, 8, 9, 10, 11, 12, 13, 14, 15, 16], autn := [3, 9, 10] }]), drx_params := (some [1, 2]), subscr_ue_ambr := (some { uplink := 2000, downlink := 8000 }), used_ue_ambr := (some { uplink := 2000, downlink := 8000 }), ue_ntwk_cap := (some [1, 2, 3, 4]), ms_ntwk_cap := (some [1, 2, 3, 4]), mei := (some [1, 2, 3, 4]), access_res := (AccessRestrictionMM.ofU8 0), vdn_pref_ue_usage := (some [1, 2, 3, 4]), higher_than_16_mbps := true, iov_updates_counter := (some 255), ext_access_res := (some { nruna := false, nrusrna := false, nrna := false, ussrna := false, nrsrna := true }) } := by
  decide +kernel

-- `monitoringeventextinfo_ie_unmarshal_test` (gtpv2/messages/ies/monitoringeventextinfo.rs:148)
example : MonitoringEventExtensionInfo.unmarshal .debug [206, 0, 28, 0, 3, 0, 0, 0, 0, 11, 101, 120, 97, 109, 112, 108, 101, 46, 99, 111, 109, 0, 0, 255, 255, 255, 255, 255, 255, 255, 255, 255] = .ok { t := 206, length := 28, ins := 0, scef_ref_id := 0, scef_id := ['e', 'x', 'a', 'm', 'p', 'l', 'e', '.', 'c', 'o', 'm'], rmplrt := (some 255), ext_scef_ref_id := (some 18446744073709551615) } := by
  decide +kernel

-- `monitoringeventextinfo_ie_marshal_test` (gtpv2/messages/ies/monitoringeventextinfo.rs:168)
example : MonitoringEventExtensionInfo.marshal ({ t := 206, length := 28, ins := 0, scef_ref_id := 0, scef_id := ['e', 'x', 'a', 'm', 'p', 'l', 'e', '.', 'c', 'o', 'm'], rmplrt := (some 255), ext_scef_ref_id := (some 18446744073709551615) } : MonitoringEventExtensionInfo) = [206, 0, 28, 0, 3, 0, 0, 0, 0, 11, 101, 120, 97, 109, 112, 108, 101, 46, 99, 111, 109, 0, 0, 255, 255, 255, 255, 255, 255, 255, 255, 255] := by
  decide +kernel

-- `monitoringeventextinfo_ie_wrong_scefid_length` (gtpv2/messages/ies/monitoringeventextinfo.rs:190)
example : MonitoringEventExtensionInfo.unmarshal .debug [206, 0, 6, 0, 0, 0, 0, 0, 0, 4] = .err (.ieInvalidLength 206) := by
  decide +kernel

-- `monitoringeventinfo_ie_marshal_test` (gtpv2/messages/ies/monitoringeventinfo.rs:143)
example : MonitoringEventInformation.marshal ({ t := 189, length := 31, ins := 0, nsui := true, nsur := false, nscf := false, scef_ref_id := 65535, scef_id := ['s', 'c', 'e', 'f', '.', 'e', 'x', 'a', 'm', 'p', 'l', 'e', '.', 'c', 'o', 'm'], rem_nbr_reports := 255, ext_scef_ref_id := (some 4294962858) } : MonitoringEventInformation) = [189, 0, 31, 160, 0, 0, 255, 255, 16, 115, 99, 101, 102, 46, 101, 120, 97, 109, 112, 108, 101, 46, 99, 111, 109, 0, 255, 0, 0, 0, 0, 255, 255, 238, 170] := by
  decide +kernel

-- `monitoringeventinfo_ie_unmarshal_test` (gtpv2/messages/ies/monitoringeventinfo.rs:168)
example : MonitoringEventInformation.unmarshal .debug [189, 0, 31, 160, 0, 0, 255, 255, 16, 115, 99, 101, 102, 46, 101, 120, 97, 109, 112, 108, 101, 46, 99, 111, 109, 0, 255, 0, 0, 0, 0, 255, 255, 238, 170] = .ok { t := 189, length := 31, ins := 0, nsui := true, nsur := false, nscf := false, scef_ref_id := 65535, scef_id := ['s', 'c', 'e', 'f', '.', 'e', 'x', 'a', 'm', 'p', 'l', 'e', '.', 'c', 'o', 'm'], rem_nbr_reports := 255, ext_scef_ref_id := (some 4294962858) } := by
  decide +kernel

-- `msisdn_ie_unmarshal_test` (gtpv2/messages/ies/msisdn.rs:87)
example : Msisdn.unmarshal .debug [76, 0, 8, 0, 136, 34, 88, 1, 16, 82, 17, 242] = .ok { t := 76, length := 8, ins := 0, msisdn := ['8', '8', '2', '2', '8', '5', '1', '0', '0', '1', '2', '5', '1', '1', '2'] } := by
  decide +kernel

-- `msisdn_ie_marshal_test` (gtpv2/messages/ies/msisdn.rs:102)
example : Msisdn.marshal ({ t := 76, length := 8, ins := 0, msisdn := ['8', '8', '2', '2', '8', '5', '1', '0', '0', '1', '2', '5', '1', '1', '2'] } : Msisdn) = [76, 0, 8, 0, 136, 34, 88, 1, 16, 82, 17, 242] := by
  decide +kernel

-- `mueut_ie_unmarshal_test` (gtpv2/messages/ies/mueut.rs:82)
example : MappedUeUsageType.unmarshal .debug [200, 0, 2, 0, 0, 15] = .ok { t := 200, length := 2, ins := 0, usage_type := 15 } := by
  decide +kernel

-- `mueut_ie_marshal_test` (gtpv2/messages/ies/mueut.rs:95)
example : MappedUeUsageType.marshal ({ t := 200, length := 2, ins := 0, usage_type := 15 } : MappedUeUsageType) = [200, 0, 2, 0, 0, 15] := by
  decide +kernel

-- `node_features_ie_marshal_test` (gtpv2/messages/ies/nodefeatures.rs:110)
example : NodeFeatures.marshal ({ t := 152, length := 1, ins := 0, prn := true, mabr := true, ntsr := true, ciot := true, s1un := true, eth := true, mtedt := true, psset := true } : NodeFeatures) = [152, 0, 1, 0, 255] := by
  decide +kernel

-- `node_features_ie_unmarshal_test` (gtpv2/messages/ies/nodefeatures.rs:131)
example : NodeFeatures.unmarshal .debug [152, 0, 1, 0, 126] = .ok { t := 152, length := 1, ins := 0, prn := false, mabr := true, ntsr := true, ciot := true, s1un := true, eth := true, mtedt := true, psset := false } := by
  decide +kernel

-- `node_id_ie_marshal_test` (gtpv2/messages/ies/nodeidentifier.rs:105)
example : NodeIdentifier.marshal ({ t := 176, length := 54, ins := 0, node_name := ['t', 'o', 'p', 'o', 'n', '.', 'n', 'o', 'd', 'e', 's', '.', 'p', 'g', 'w', '.', 's', 'e', '.'], node_realm := ['e', 'p', 'c', '.', 'm', 'n', 'c', '0', '5', '.', 'm', 'c', 'c', '2', '3', '4', '.', '3', 'g', 'p', 'p', 'n', 'e', 't', 'w', 'o', 'r', 'k', '.', 'o', 'r', 'g', '.'] } : NodeIdentifier) = [176, 0, 54, 0, 19, 116, 111, 112, 111, 110, 46, 110, 111, 100, 101, 115, 46, 112, 103, 119, 46, 115, 101, 46, 33, 101, 112, 99, 46, 109, 110, 99, 48, 53, 46, 109, 99, 99, 50, 51, 52, 46, 51, 103, 112, 112, 110, 101, 116, 119, 111, 114, 107, 46, 111, 114, 103, 46] := by
  decide +kernel

-- `node_id_ie_unmarshal_test` (gtpv2/messages/ies/nodeidentifier.rs:126)
example : NodeIdentifier.unmarshal .debug [176, 0, 54, 0, 19, 116, 111, 112, 111, 110, 46, 110, 111, 100, 101, 115, 46, 112, 103, 119, 46, 115, 101, 46, 33, 101, 112, 99, 46, 109, 110, 99, 48, 53, 46, 109, 99, 99, 50, 51, 52, 46, 51, 103, 112, 112, 110, 101, 116, 119, 111, 114, 107, 46, 111, 114, 103, 46] = .ok { t := 176, length := 54, ins := 0, node_name := ['t', 'o', 'p', 'o', 'n', '.', 'n', 'o', 'd', 'e', 's', '.', 'p', 'g', 'w', '.', 's', 'e', '.'], node_realm := ['e', 'p', 'c', '.', 'm', 'n', 'c', '0', '5', '.', 'm', 'c', 'c', '2', '3', '4', '.', '3', 'g', 'p', 'p', 'n', 'e', 't', 'w', 'o', 'r', 'k', '.', 'o', 'r', 'g', '.'] } := by
  decide +kernel

-- `node_number_ie_unmarshal_test` (gtpv2/messages/ies/nodenumber.rs:94)
example : NodeNumber.unmarshal .debug [175, 0, 10, 0, 9, 145, 9, 65, 80, 1, 145, 22, 120, 243] = .ok { t := 175, length := 10, ins := 0, node_number := ['9', '0', '1', '4', '0', '5', '1', '0', '1', '9', '6', '1', '8', '7', '3'] } := by
  decide +kernel

-- `node_number_ie_marshal_test` (gtpv2/messages/ies/nodenumber.rs:109)
example : NodeNumber.marshal ({ t := 175, length := 10, ins := 0, node_number := ['9', '0', '1', '4', '0', '5', '1', '0', '1', '9', '6', '1', '8', '7', '3'] } : NodeNumber) = [175, 0, 10, 0, 9, 145, 9, 65, 80, 1, 145, 22, 120, 243] := by
  decide +kernel

-- `node_number_ie_unmarshal_buffer_test` (gtpv2/messages/ies/nodenumber.rs:125)
example : NodeNumber.unmarshal .debug [175, 0, 10, 0, 9, 145, 9, 65, 80, 1, 145, 22, 120, 243] = .ok { t := 175, length := 10, ins := 0, node_number := ['9', '0', '1', '4', '0', '5', '1', '0', '1', '9', '6', '1', '8', '7', '3'] } := by
  decide +kernel

-- `node_type_ie_marshal_test` (gtpv2/messages/ies/nodetype.rs:108)
example : NodeType.marshal ({ t := 135, length := 1, ins := 0, node := .Mme } : NodeType) = [135, 0, 1, 0, 0] := by
  decide +kernel

-- `apnrestriciton_ie_unmarshal_test` (gtpv2/messages/ies/nodetype.rs:122)
example : NodeType.unmarshal .debug [135, 0, 1, 0, 0] = .ok { t := 135, length := 1, ins := 0, node := .Mme } := by
  decide +kernel

-- `overload_control_ie_unmarshal_test` (gtpv2/messages/ies/overloadcontrolinfo.rs:115)
example : groupUnm (decoder .debug) OverloadControlInfo.ofGroup .debug [180, 0, 35, 1, 183, 0, 4, 0, 255, 170, 238, 17, 182, 0, 1, 0, 96, 156, 0, 1, 0, 127, 71, 0, 13, 0, 4, 116, 101, 115, 116, 3, 110, 101, 116, 3, 99, 111, 109] = .ok { t := 180, length := 35, ins := 1, sqn := { t := 183, length := 4, ins := 0, sqn := 4289392145 }, metric := { t := 182, length := 1, ins := 0, metric := 96 }, validity := { t := 156, length := 1, ins := 0, timer_unit := 3, timer_value := 31 }, list := (some [{ t := 71, length := 13, ins := 0, name := ['t', 'e', 's', 't', '.', 'n', 'e', 't', '.', 'c', 'o', 'm'] }]) } := by
  decide +kernel

-- `overload_control_ie_marshal_test` (gtpv2/messages/ies/overloadcontrolinfo.rs:156)
example : (fun x => IE.marshal (.OverloadControlInfo x)) ({ t := 180, length := 35, ins := 1, sqn := { t := 183, length := 4, ins := 0, sqn := 4289392145 }, metric := { t := 182, length := 1, ins := 0, metric := 96 }, validity := { t := 156, length := 1, ins := 0, timer_unit := 3, timer_value := 31 }, list := (some [{ t := 71, length := 13, ins := 0, name := ['t', 'e', 's', 't', '.', 'n', 'e', 't', '.', 'c', 'o', 'm'] }]) } : OverloadControlInfo) = [180, 0, 35, 1, 183, 0, 4, 0, 255, 170, 238, 17, 182, 0, 1, 0, 96, 156, 0, 1, 0, 127, 71, 0, 13, 0, 4, 116, 101, 115, 116, 3, 110, 101, 116, 3, 99, 111, 109] := by
  decide +kernel

-- `paa_ie_ipv4_unmarshal_test` (gtpv2/messages/ies/paa.rs:150)
example : PdnAddressAllocation.unmarshal .debug [79, 0, 5, 0, 1, 0, 0, 0, 0] = .ok { t := 79, length := 5, ins := 0, ip := (.V4 0) } := by
  decide +kernel

-- `paa_ie_ipv6_unmarshal_test` (gtpv2/messages/ies/paa.rs:163)
example : PdnAddressAllocation.unmarshal .debug [79, 0, 18, 0, 2, 128, 0, 0, 0, 0, 0, 0, 0, 0, 0, 0, 0, 0, 0, 0, 0, 0] = .ok { t := 79, length := 18, ins := 0, ip := (.V6 ⟨0, 0⟩ 128) } := by
  decide +kernel

-- `paa_ie_ipv46_unmarshal_test` (gtpv2/messages/ies/paa.rs:179)
example : PdnAddressAllocation.unmarshal .debug [79, 0, 22, 0, 3, 128, 0, 1, 0, 0, 0, 0, 0, 0, 0, 0, 0, 0, 0, 0, 0, 0, 1, 0, 0, 0] = .ok { t := 79, length := 22, ins := 0, ip := (.DualStack 16777216 ⟨281474976710656, 0⟩ 128) } := by
  decide +kernel

-- `paa_ie_non_ip_unmarshal_test` (gtpv2/messages/ies/paa.rs:199)
example : PdnAddressAllocation.unmarshal .debug [79, 0, 1, 0, 4] = .ok { t := 79, length := 1, ins := 0, ip := .NonIp } := by
  decide +kernel

-- `paa_ie_ipv4_marshal_test` (gtpv2/messages/ies/paa.rs:212)
example : PdnAddressAllocation.marshal ({ t := 79, length := 5, ins := 0, ip := (.V4 0) } : PdnAddressAllocation) = [79, 0, 5, 0, 1, 0, 0, 0, 0] := by
  decide +kernel

-- `paa_ie_ipv6_marshal_test` (gtpv2/messages/ies/paa.rs:226)
example : PdnAddressAllocation.marshal ({ t := 79, length := 18, ins := 0, ip := (.V6 ⟨0, 0⟩ 128) } : PdnAddressAllocation) = [79, 0, 18, 0, 2, 128, 0, 0, 0, 0, 0, 0, 0, 0, 0, 0, 0, 0, 0, 0, 0, 0] := by
  decide +kernel

-- `paa_ie_ipv46_marshal_test` (gtpv2/messages/ies/paa.rs:243)
example : PdnAddressAllocation.marshal ({ t := 79, length := 22, ins := 0, ip := (.DualStack 16777216 ⟨281474976710656, 0⟩ 128) } : PdnAddressAllocation) = [79, 0, 22, 0, 3, 128, 0, 1, 0, 0, 0, 0, 0, 0, 0, 0, 0, 0, 0, 0, 0, 0, 1, 0, 0, 0] := by
  decide +kernel

-- `paa_ie_nonip_marshal_test` (gtpv2/messages/ies/paa.rs:264)
example : PdnAddressAllocation.marshal ({ t := 79, length := 1, ins := 0, ip := .NonIp } : PdnAddressAllocation) = [79, 0, 1, 0, 4] := by
  decide +kernel

-- `packet_flow_id_ie_marshal_test` (gtpv2/messages/ies/packetflowid.rs:85)
example : PacketFlowId.marshal ({ t := 123, length := 5, ins := 0, ebi := 5, flow_id := 4294967295 } : PacketFlowId) = [123, 0, 5, 0, 5, 255, 255, 255, 255] := by
  decide +kernel

-- `packet_flow_id_ie_unmarshal_test` (gtpv2/messages/ies/packetflowid.rs:100)
example : PacketFlowId.unmarshal .debug [123, 0, 5, 0, 5, 255, 255, 255, 255] = .ok { t := 123, length := 5, ins := 0, ebi := 5, flow_id := 4294967295 } := by
  decide +kernel

-- `paging_service_info_ie_unmarshal_test` (gtpv2/messages/ies/pagingserviceinfo.rs:99)
example : PagingServiceInfo.unmarshal .debug [186, 0, 3, 0, 2, 1, 3] = .ok { t := 186, length := 3, ins := 0, ebi := 2, paging_policy := (some 3) } := by
  decide +kernel

-- `paging_service_info_ie_marshal_test` (gtpv2/messages/ies/pagingserviceinfo.rs:113)
example : PagingServiceInfo.marshal ({ t := 186, length := 3, ins := 0, ebi := 2, paging_policy := (some 3) } : PagingServiceInfo) = [186, 0, 3, 0, 2, 1, 3] := by
  decide +kernel

-- `pc5_qos_flow_ie_unmarshal_test` (gtpv2/messages/ies/pc5qosflow.rs:97)
example : PC5QosFlow.unmarshal .debug [212, 0, 11, 0, 1, 5, 0, 0, 170, 170, 0, 0, 255, 255, 1] = .ok { t := 212, length := 11, ins := 0, pqi_label := 5, gfbr := 43690, mfbr := 65535, range := (some 1) } := by
  decide +kernel

-- `pc5_qos_flow_ie_marshal_test` (gtpv2/messages/ies/pc5qosflow.rs:114)
example : PC5QosFlow.marshal ({ t := 212, length := 11, ins := 0, pqi_label := 5, gfbr := 43690, mfbr := 65535, range := (some 1) } : PC5QosFlow) = [212, 0, 11, 0, 1, 5, 0, 0, 170, 170, 0, 0, 255, 255, 1] := by
  decide +kernel

-- `pc5_qos_params_ie_unmarshal_test` (gtpv2/messages/ies/pc5qosparameters.rs:110)
example : groupUnm (decoder .debug) PC5QosParameters.ofGroup .debug [209, 0, 38, 1, 212, 0, 11, 0, 1, 5, 0, 0, 170, 170, 0, 0, 255, 255, 1, 212, 0, 11, 0, 1, 6, 0, 0, 170, 170, 0, 0, 255, 255, 1, 211, 0, 4, 0, 255, 255, 255, 255] = .ok { t := 209, length := 38, ins := 1, pc5_qos_flows := [{ t := 212, length := 11, ins := 0, pqi_label := 5, gfbr := 43690, mfbr := 65535, range := (some 1) }, { t := 212, length := 11, ins := 0, pqi_label := 6, gfbr := 43690, mfbr := 65535, range := (some 1) }], pc5_link_abrs := (some { t := 211, length := 4, ins := 0, bitrate := 4294967295 }) } := by
  decide +kernel

-- `pc5_qos_params_ie_marshal_test` (gtpv2/messages/ies/pc5qosparameters.rs:148)
example : (fun x => IE.marshal (.PC5QosParameters x)) ({ t := 209, length := 38, ins := 1, pc5_qos_flows := [{ t := 212, length := 11, ins := 0, pqi_label := 5, gfbr := 43690, mfbr := 65535, range := (some 1) }, { t := 212, length := 11, ins := 0, pqi_label := 6, gfbr := 43690, mfbr := 65535, range := (some 1) }], pc5_link_abrs := (some { t := 211, length := 4, ins := 0, bitrate := 4294967295 }) } : PC5QosParameters) = [209, 0, 38, 1, 212, 0, 11, 0, 1, 5, 0, 0, 170, 170, 0, 0, 255, 255, 1, 212, 0, 11, 0, 1, 6, 0, 0, 170, 170, 0, 0, 255, 255, 1, 211, 0, 4, 0, 255, 255, 255, 255] := by
  decide +kernel

-- `pco_ie_marshal_test` (gtpv2/messages/ies/pco.rs:85)
example : Pco.marshal ({ t := 78, length := 20, ins := 0, pco := [128, 128, 33, 16, 1, 1, 0, 16, 129, 6, 0, 0, 0, 0, 131, 6, 0, 0, 0, 0] } : Pco) = [78, 0, 20, 0, 128, 128, 33, 16, 1, 1, 0, 16, 129, 6, 0, 0, 0, 0, 131, 6, 0, 0, 0, 0] := by
  decide +kernel

-- `pco_ie_unmarshal_test` (gtpv2/messages/ies/pco.rs:105)
example : Pco.unmarshal .debug [78, 0, 20, 0, 128, 128, 33, 16, 1, 1, 0, 16, 129, 6, 0, 0, 0, 0, 131, 6, 0, 0, 0, 0] = .ok { t := 78, length := 20, ins := 0, pco := [128, 128, 33, 16, 1, 1, 0, 16, 129, 6, 0, 0, 0, 0, 131, 6, 0, 0, 0, 0] } := by
  decide +kernel

-- `pdn_connection_ie_unmarshal_test` (gtpv2/messages/ies/pdnconnections.rs:334)
example : groupUnm (decoder .debug) PdnConnections.ofGroup .debug [109, 1, 173, 0, 71, 0, 13, 0, 4, 116, 101, 115, 116, 3, 110, 101, 116, 3, 99, 111, 109, 127, 0, 1, 0, 0, 128, 0, 1, 0, 0, 74, 0, 4, 0, 0, 0, 0, 0, 74, 0, 16, 1, 0, 0, 0, 0, 0, 0, 0, 0, 0, 0, 0, 0, 0, 0, 0, 0, 73, 0, 1, 0, 5, 87, 0, 9, 0, 135, 39, 137, 47, 112, 139, 7, 133, 184, 136, 0, 53, 0, 5, 116, 111, 112, 111, 110, 5, 110, 111, 100, 101, 115, 3, 112, 103, 119, 2, 115, 101, 3, 101, 112, 99, 5, 109, 110, 99, 48, 53, 6, 109, 99, 99, 50, 51, 52, 11, 51, 103, 112, 112, 110, 101, 116, 119, 111, 114, 107, 3, 111, 114, 103, 0, 93, 0, 52, 0, 73, 0, 1, 0, 0, 87, 0, 9, 2, 133, 59, 149, 152, 90, 62, 153, 137, 85, 80, 0, 22, 0, 44, 9, 0, 0, 0, 0, 0, 0, 0, 0, 0, 0, 0, 0, 0, 0, 0, 0, 0, 0, 0, 0, 94, 0, 4, 0, 1, 98, 156, 196, 72, 0, 8, 0, 0, 0, 7, 208, 0, 0, 31, 64, 95, 0, 2, 0, 255, 255, 131, 0, 1, 0, 4, 146, 0, 1, 0, 0, 165, 0, 1, 0, 0, 77, 0, 10, 0, 0, 16, 0, 0, 0, 0, 0, 0, 0, 0, 157, 0, 1, 0, 1, 167, 0, 1, 0, 2, 136, 0, 53, 1, 5, 116, 111, 112, 111, 110, 5, 110, 111, 100, 101, 115, 3, 112, 103, 119, 2, 115, 101, 3, 101, 112, 99, 5, 109, 110, 99, 48, 53, 6, 109, 99, 99, 50, 51, 52, 11, 51, 103, 112, 112, 110, 101, 116, 119, 111, 114, 107, 3, 111, 114, 103, 0, 177, 0, 62, 0, 1, 255, 255, 255, 17, 1, 1, 1, 1, 1, 98, 242, 16, 11, 217, 98, 242, 16, 15, 255, 255, 98, 242, 16, 15, 255, 255, 98, 242, 16, 1, 186, 64, 2, 98, 242, 16, 255, 255, 170, 255, 98, 242, 16, 255, 255, 221, 221, 98, 242, 16, 255, 255, 170, 170, 1, 98, 242, 16, 15, 255, 255, 185, 0, 1, 0, 2, 191, 0, 41, 0, 192, 0, 28, 0, 3, 8, 9, 65, 80, 1, 145, 22, 120, 243, 8, 136, 34, 88, 1, 16, 82, 17, 242, 8, 104, 103, 132, 64, 16, 35, 3, 48, 193, 0, 5, 0, 1, 10, 194, 186, 52, 99, 0, 1, 0, 3, 196, 0, 4, 0, 127, 0, 0, 255] = .ok { t := 109, length := 429, ins := 0, apn := { t := 71, length := 13, ins := 0, name := ['t', 'e', 's', 't', '.', 'n', 'e', 't', '.', 'c', 'o', 'm'] }, apn_restriction := (some { t := 127, length := 1, ins := 0, restriction_type := .NoApnRestriction }), selection_mode := (some { t := 128, length := 1, ins := 0, mode := 0 }), ipv4 := (some { t := 74, length := 4, ins := 0, ip := (.V4 0) }), ipv6 := (some { t := 74, length := 16, ins := 1, ip := (.V6 ⟨0, 0⟩) }), linked_ebi := { t := 73, length := 1, ins := 0, value := 5 }, pgw_addr_control := { t := 87, length := 9, ins := 0, interface := 7, teid := 663302000, ipv4 := (some 2332526008), ipv6 := none }, pgw_node_name := (some { t := 136, length := 53, ins := 0, name := ['t', 'o', 'p', 'o', 'n', '.', 'n', 'o', 'd', 'e', 's', '.', 'p', 'g', 'w', '.', 's', 'e', '.', 'e', 'p', 'c', '.', 'm', 'n', 'c', '0', '5', '.', 'm', 'c', 'c', '2', '3', '4', '.', '3', 'g', 'p', 'p', 'n', 'e', 't', 'w', 'o', 'r', 'k', '.', 'o', 'r', 'g', '.'] }), bearer_ctxs := [{ t := 93, length := 52, ins := 0, ebi := { t := 73, length := 1, ins := 0, value := 0 }, cause := none, tft := none, fteids := [{ t := 87, length := 9, ins := 2, interface := 5, teid := 999659610, ipv4 := (some 1050249557), ipv6 := none }], bearer_qos := (some { t := 80, length := 22, ins := 0, pre_emption_vulnerability := 0, priority_level := 11, pre_emption_capability := 0, qci := 9, maxbr_ul := 0, maxbr_dl := 0, gbr_ul := 0, gbr_dl := 0 }), charging_id := (some { t := 94, length := 4, ins := 0, charging_id := 23239876 }), bearer_flags := none, pco := none, apco := none, epco := none, max_packet_loss := none, ran_nas_cause := none, bss_container := none, transaction_id := none }], apn_ambr := { t := 72, length := 8, ins := 0, ambr_ul := 2000, ambr_dl := 8000 }, charging_char := (some { t := 95, length := 2, ins := 0, charging_char := 65535 }), change_reporting_action := (some { t := 131, length := 1, ins := 0, action := 4 }), csg_info_reporting_action := (some { t := 146, length := 1, ins := 0, action := 0 }), henb_info_reporting := (some { t := 165, length := 1, ins := 0, fti := false }), indication := (some { t := 77, length := 10, ins := 0, daf := false, dtf := false, hi := false, dfi := false, oi := false, isrsi := false, israi := false, sgwci := false, sqci := false, uimsi := false, cfsi := false, crsi := true, ps := false, pt := false, si := false, msv := false, retloc := false, pbic := false, srni := false, s6af := false, s4af := false, mbmdt := false, israu := false, ccrsi := false, cprai := false, arrl := false, ppoff := false, ppon := false, ppsi := false, csfbi := false, clii := false, cpsr := false, nsi := false, uasi := false, dtci := false, bdwi := false, psci := false, pcri := false, aosi := false, aopi := false, roaai := false, epcosi := false, cpopci := false, pmtsmi := false, s11tf := false, pnsi := false, unaccsi := false, wpmsi := false, g5snn26 := false, reprefi := false, g5siwki := false, eevrsi := false, ltemui := false, ltempi := false, enbcrsi := false, tspcmi := false, csrmfi := false, mtedtn := false, mtedta := false, n5gnmi := false, g5cnrs := false, g5cnri := false, s5rho := false, ethpdn := false, nspusi := false, pgwrnsi := false, rppcsi := false, pgwchi := false, sissme := false, nsenbi := false, idfupf := false, emci := false, ltemsai := false, srtpi := false, upipsi := false }), signalling_priority_indication := (some { t := 157, length := 1, ins := 0, lapi := true }), change_to_report_flags := (some { t := 167, length := 1, ins := 0, tzcr := true, sncr := false }), local_home_network_id := (some { t := 136, length := 53, ins := 1, name := ['t', 'o', 'p', 'o', 'n', '.', 'n', 'o', 'd', 'e', 's', '.', 'p', 'g', 'w', '.', 's', 'e', '.', 'e', 'p', 'c', '.', 'm', 'n', 'c', '0', '5', '.', 'm', 'c', 'c', '2', '3', '4', '.', '3', 'g', 'p', 'p', 'n', 'e', 't', 'w', 'o', 'r', 'k', '.', 'o', 'r', 'g', '.'] }), praa := (some { t := 177, length := 62, ins := 0, inapra := false, action := 1, prai := 16777215, tai := [{ mcc := 262, mnc := 1, mnc_is_three_digits := false, tac := 3033 }], rai := [{ mcc := 262, mnc := 1, mnc_is_three_digits := false, lac := 65535, rac := 170 }], macro_enb := [{ mcc := 262, mnc := 1, mnc_is_three_digits := false, macro_id := 1048575 }], home_enb := [{ mcc := 262, mnc := 1, mnc_is_three_digits := false, macro_id := 1048575 }], ecgi := [{ mcc := 262, mnc := 1, mnc_is_three_digits := false, eci := 28983298 }], sai := [{ mcc := 262, mnc := 1, mnc_is_three_digits := false, lac := 65535, sac := 56797 }], cgi := [{ mcc := 262, mnc := 1, mnc_is_three_digits := false, lac := 65535, ci := 43690 }], ext_macro_enb := [{ mcc := 262, mnc := 1, mnc_is_three_digits := false, smenb := false, ext_macro_id := 1048575 }] }), wlan_offloadability := (some { t := 185, length := 1, ins := 0, eutran_ind := true, utran_ind := false }), remote_ue_ctxs := [{ t := 191, length := 41, ins := 0, user_id := { t := 192, length := 28, ins := 0, imsi := ['9', '0', '1', '4', '0', '5', '1', '0', '1', '9', '6', '1', '8', '7', '3'], msisdn := (some ['8', '8', '2', '2', '8', '5', '1', '0', '0', '1', '2', '5', '1', '1', '2']), imei := (some ['8', '6', '7', '6', '4', '8', '0', '4', '0', '1', '3', '2', '3', '0', '0', '3']) }, ue_ip := (some { t := 193, length := 5, ins := 0, ip := (.V4 180533812) }) }], pdn_type := (some { t := 99, length := 1, ins := 0, pdn_type := .Ipv46 }), hdr_compr_config := (some { t := 196, length := 4, ins := 0, rohc_profiles := [0, 2, 3, 4, 6, 258, 259, 260], max_cid := 255 }), pgw_change_info := none, up_security_policy := none } := by
  decide +kernel

-- `pdn_connection_ie_marshal_test` (gtpv2/messages/ies/pdnconnections.rs:603)
example : (fun x => IE.marshal (.PdnConnections x)) ({ t := 109, length := 429, ins := 0, apn := { t := 71, length := 13, ins := 0, name := ['t', 'e', 's', 't', '.', 'n', 'e', 't', '.', 'c', 'o', 'm'] }, apn_restriction := (some { t := 127, length := 1, ins := 0, restriction_type := .NoApnRestriction }), selection_mode := (some { t := 128, length := 1, ins := 0, mode := 0 }), ipv4 := (some { t := 74, length := 4, ins := 0, ip := (.V4 0) }), ipv6 := (some { t := 74, length := 16, ins := 1, ip := (.V6 ⟨0, 0⟩) }), linked_ebi := { t := 73, length := 1, ins := 0, value := 5 }, pgw_addr_control := { t := 87, length := 9, ins := 0, interface := 7, teid := 663302000, ipv4 := (some 2332526008), ipv6 := none }, pgw_node_name := (some { t := 136, length := 53, ins := 0, name := ['t', 'o', 'p', 'o', 'n', '.', 'n', 'o', 'd', 'e', 's', '.', 'p', 'g', 'w', '.', 's', 'e', '.', 'e', 'p', 'c', '.', 'm', 'n', 'c', '0', '5', '.', 'm', 'c', 'c', '2', '3', '4', '.', '3', 'g', 'p', 'p', 'n', 'e', 't', 'w', 'o', 'r', 'k', '.', 'o', 'r', 'g', '.'] }), bearer_ctxs := [{ t := 93, length := 52, ins := 0, ebi := { t := 73, length := 1, ins := 0, value := 0 }, cause := none, tft := none, fteids := [{ t := 87, length := 9, ins := 2, interface := 5, teid := 999659610, ipv4 := (some 1050249557), ipv6 := none }], bearer_qos := (some { t := 80, length := 22, ins := 0, pre_emption_vulnerability := 0, priority_level := 11, pre_emption_capability := 0, qci := 9, maxbr_ul := 0, maxbr_dl := 0, gbr_ul := 0, gbr_dl := 0 }), charging_id := (some { t := 94, length := 4, ins := 0, charging_id := 23239876 }), bearer_flags := none, pco := none, apco := none, epco := none, max_packet_loss := none, ran_nas_cause := none, bss_container := none, transaction_id := none }], apn_ambr := { t := 72, length := 8, ins := 0, ambr_ul := 2000, ambr_dl := 8000 }, charging_char := (some { t := 95, length := 2, ins := 0, charging_char := 65535 }), change_reporting_action := (some { t := 131, length := 1, ins := 0, action := 4 }), csg_info_reporting_action := (some { t := 146, length := 1, ins := 0, action := 0 }), henb_info_reporting := (some { t := 165, length := 1, ins := 0, fti := false }), indication := (some { t := 77, length := 10, ins := 0, daf := false, dtf := false, hi := false, dfi := false, oi := false, isrsi := false, israi := false, sgwci := false, sqci := false, uimsi := false, cfsi := false, crsi := true, ps := false, pt := false, si := false, msv := false, retloc := false, pbic := false, srni := false, s6af := false, s4af := false, mbmdt := false, israu := false, ccrsi := false, cprai := false, arrl := false, ppoff := false, ppon := false, ppsi := false, csfbi := false, clii := false, cpsr := false, nsi := false, uasi := false, dtci := false, bdwi := false, psci := false, pcri := false, aosi := false, aopi := false, roaai := false, epcosi := false, cpopci := false, pmtsmi := false, s11tf := false, pnsi := false, unaccsi := false, wpmsi := false, g5snn26 := false, reprefi := false, g5siwki := false, eevrsi := false, ltemui := false, ltempi := false, enbcrsi := false, tspcmi := false, csrmfi := false, mtedtn := false, mtedta := false, n5gnmi := false, g5cnrs := false, g5cnri := false, s5rho := false, ethpdn := false, nspusi := false, pgwrnsi := false, rppcsi := false, pgwchi := false, sissme := false, nsenbi := false, idfupf := false, emci := false, ltemsai := false, srtpi := false, upipsi := false }), signalling_priority_indication := (some { t := 157, length := 1, ins := 0, lapi := true }), change_to_report_flags := (some { t := 167, length := 1, ins := 0, tzcr := true, sncr := false }), local_home_network_id := (some { t := 136, length := 53, ins := 1, name := ['t', 'o', 'p', 'o', 'n', '.', 'n', 'o', 'd', 'e', 's', '.', 'p', 'g', 'w', '.', 's', 'e', '.', 'e', 'p', 'c', '.', 'm', 'n', 'c', '0', '5', '.', 'm', 'c', 'c', '2', '3', '4', '.', '3', 'g', 'p', 'p', 'n', 'e', 't', 'w', 'o', 'r', 'k', '.', 'o', 'r', 'g', '.'] }), praa := (some { t := 177, length := 62, ins := 0, inapra := false, action := 1, prai := 16777215, tai := [{ mcc := 262, mnc := 1, mnc_is_three_digits := false, tac := 3033 }], rai := [{ mcc := 262, mnc := 1, mnc_is_three_digits := false, lac := 65535, rac := 170 }], macro_enb := [{ mcc := 262, mnc := 1, mnc_is_three_digits := false, macro_id := 1048575 }], home_enb := [{ mcc := 262, mnc := 1, mnc_is_three_digits := false, macro_id := 1048575 }], ecgi := [{ mcc := 262, mnc := 1, mnc_is_three_digits := false, eci := 28983298 }], sai := [{ mcc := 262, mnc := 1, mnc_is_three_digits := false, lac := 65535, sac := 56797 }], cgi := [{ mcc := 262, mnc := 1, mnc_is_three_digits := false, lac := 65535, ci := 43690 }], ext_macro_enb := [{ mcc := 262, mnc := 1, mnc_is_three_digits := false, smenb := false, ext_macro_id := 1048575 }] }), wlan_offloadability := (some { t := 185, length := 1, ins := 0, eutran_ind := true, utran_ind := false }), remote_ue_ctxs := [{ t := 191, length := 41, ins := 0, user_id := { t := 192, length := 28, ins := 0, imsi := ['9', '0', '1', '4', '0', '5', '1', '0', '1', '9', '6', '1', '8', '7', '3'], msisdn := (some ['8', '8', '2', '2', '8', '5', '1', '0', '0', '1', '2', '5', '1', '1', '2']), imei := (some ['8', '6', '7', '6', '4', '8', '0', '4', '0', '1', '3', '2', '3', '0', '0', '3']) }, ue_ip := (some { t := 193, length := 5, ins := 0, ip := (.V4 180533812) }) }], pdn_type := (some { t := 99, length := 1, ins := 0, pdn_type := .Ipv46 }), hdr_compr_config := (some { t := 196, length := 4, ins := 0, rohc_profiles := [0, 2, 3, 4, 6, 258, 259, 260], max_cid := 255 }), pgw_change_info := none, up_security_policy := none } : PdnConnections) = [109, 1, 173, 0, 71, 0, 13, 0, 4, 116, 101, 115, 116, 3, 110, 101, 116, 3, 99, 111, 109, 127, 0, 1, 0, 0, 128, 0, 1, 0, 0, 74, 0, 4, 0, 0, 0, 0, 0, 74, 0, 16, 1, 0, 0, 0, 0, 0, 0, 0, 0, 0, 0, 0, 0, 0, 0, 0, 0, 73, 0, 1, 0, 5, 87, 0, 9, 0, 135, 39, 137, 47, 112, 139, 7, 133, 184, 136, 0, 53, 0, 5, 116, 111, 112, 111, 110, 5, 110, 111, 100, 101, 115, 3, 112, 103, 119, 2, 115, 101, 3, 101, 112, 99, 5, 109, 110, 99, 48, 53, 6, 109, 99, 99, 50, 51, 52, 11, 51, 103, 112, 112, 110, 101, 116, 119, 111, 114, 107, 3, 111, 114, 103, 0, 93, 0, 52, 0, 73, 0, 1, 0, 0, 87, 0, 9, 2, 133, 59, 149, 152, 90, 62, 153, 137, 85, 80, 0, 22, 0, 44, 9, 0, 0, 0, 0, 0, 0, 0, 0, 0, 0, 0, 0, 0, 0, 0, 0, 0, 0, 0, 0, 94, 0, 4, 0, 1, 98, 156, 196, 72, 0, 8, 0, 0, 0, 7, 208, 0, 0, 31, 64, 95, 0, 2, 0, 255, 255, 131, 0, 1, 0, 4, 146, 0, 1, 0, 0, 165, 0, 1, 0, 0, 77, 0, 10, 0, 0, 16, 0, 0, 0, 0, 0, 0, 0, 0, 157, 0, 1, 0, 1, 167, 0, 1, 0, 2, 136, 0, 53, 1, 5, 116, 111, 112, 111, 110, 5, 110, 111, 100, 101, 115, 3, 112, 103, 119, 2, 115, 101, 3, 101, 112, 99, 5, 109, 110, 99, 48, 53, 6, 109, 99, 99, 50, 51, 52, 11, 51, 103, 112, 112, 110, 101, 116, 119, 111, 114, 107, 3, 111, 114, 103, 0, 177, 0, 62, 0, 1, 255, 255, 255, 17, 1, 1, 1, 1, 1, 98, 242, 16, 11, 217, 98, 242, 16, 15, 255, 255, 98, 242, 16, 15, 255, 255, 98, 242, 16, 1, 186, 64, 2, 98, 242, 16, 255, 255, 170, 255, 98, 242, 16, 255, 255, 221, 221, 98, 242, 16, 255, 255, 170, 170, 1, 98, 242, 16, 15, 255, 255, 185, 0, 1, 0, 2, 191, 0, 41, 0, 192, 0, 28, 0, 3, 8, 9, 65, 80, 1, 145, 22, 120, 243, 8, 136, 34, 88, 1, 16, 82, 17, 242, 8, 104, 103, 132, 64, 16, 35, 3, 48, 193, 0, 5, 0, 1, 10, 194, 186, 52, 99, 0, 1, 0, 3, 196, 0, 4, 0, 127, 0, 0, 255] := by
  decide +kernel

-- `pdntype_ie_marshal_test` (gtpv2/messages/ies/pdntype.rs:119)
example : PdnType.marshal ({ t := 99, length := 1, ins := 0, pdn_type := .Ipv4 } : PdnType) = [99, 0, 1, 0, 1] := by
  decide +kernel

-- `pdntype_ie_unmarshal_test` (gtpv2/messages/ies/pdntype.rs:133)
example : PdnType.unmarshal .debug [99, 0, 1, 0, 1] = .ok { t := 99, length := 1, ins := 0, pdn_type := .Ipv4 } := by
  decide +kernel

-- `pdntype_ie_unknown_rattype_unmarshal_test` (gtpv2/messages/ies/pdntype.rs:145)
example : PdnType.unmarshal .debug [99, 0, 1, 0, 7] = .ok { t := 99, length := 1, ins := 0, pdn_type := .Reserved } := by
  decide +kernel

-- `pdu_numbers_ie_marshal_test` (gtpv2/messages/ies/pdunumbers.rs:97)
example : PduNumbers.marshal ({ t := 110, length := 9, ins := 0, nsapi := 5, dl_gtpu_sqn := 65280, ul_gtpu_sqn := 255, send_npdu := 43520, receive_npdu := 170 } : PduNumbers) = [110, 0, 9, 0, 5, 255, 0, 0, 255, 170, 0, 0, 170] := by
  decide +kernel

-- `pdu_numbers_ie_unmarshal_test` (gtpv2/messages/ies/pdunumbers.rs:117)
example : PduNumbers.unmarshal .debug [110, 0, 9, 0, 5, 255, 0, 0, 255, 170, 0, 0, 170] = .ok { t := 110, length := 9, ins := 0, nsapi := 5, dl_gtpu_sqn := 65280, ul_gtpu_sqn := 255, send_npdu := 43520, receive_npdu := 170 } := by
  decide +kernel

-- `pgw_change_info_ie_unmarshal_test` (gtpv2/messages/ies/pgwchangeinfo.rs:122)
example : groupUnm (decoder .debug) PgwChangeInfo.ofGroup .debug [214, 0, 213, 0, 74, 0, 4, 0, 0, 0, 0, 0, 74, 0, 16, 3, 0, 0, 0, 0, 0, 0, 0, 0, 0, 0, 0, 0, 0, 0, 0, 0, 215, 0, 53, 0, 5, 116, 111, 112, 111, 110, 5, 110, 111, 100, 101, 115, 3, 112, 103, 119, 2, 115, 101, 3, 101, 112, 99, 5, 109, 110, 99, 48, 53, 6, 109, 99, 99, 50, 51, 52, 11, 51, 103, 112, 112, 110, 101, 116, 119, 111, 114, 107, 3, 111, 114, 103, 0, 215, 0, 53, 1, 5, 116, 111, 112, 111, 110, 5, 110, 111, 100, 101, 115, 3, 112, 103, 119, 2, 115, 101, 3, 101, 112, 99, 5, 109, 110, 99, 48, 53, 6, 109, 99, 99, 50, 51, 52, 11, 51, 103, 112, 112, 110, 101, 116, 119, 111, 114, 107, 3, 111, 114, 103, 0, 215, 0, 53, 1, 5, 116, 111, 112, 111, 110, 5, 110, 111, 100, 101, 115, 3, 112, 103, 119, 2, 100, 101, 3, 101, 112, 99, 5, 109, 110, 99, 48, 53, 6, 109, 99, 99, 50, 51, 52, 11, 51, 103, 112, 112, 110, 101, 116, 119, 111, 114, 107, 3, 111, 114, 103, 0, 216, 0, 3, 0, 10, 255, 0, 216, 0, 3, 0, 10, 255, 0] = .ok { t := 214, length := 213, ins := 0, pgw_fqdns := [{ t := 215, length := 53, ins := 0, name := ['t', 'o', 'p', 'o', 'n', '.', 'n', 'o', 'd', 'e', 's', '.', 'p', 'g', 'w', '.', 's', 'e', '.', 'e', 'p', 'c', '.', 'm', 'n', 'c', '0', '5', '.', 'm', 'c', 'c', '2', '3', '4', '.', '3', 'g', 'p', 'p', 'n', 'e', 't', 'w', 'o', 'r', 'k', '.', 'o', 'r', 'g', '.'] }, { t := 215, length := 53, ins := 1, name := ['t', 'o', 'p', 'o', 'n', '.', 'n', 'o', 'd', 'e', 's', '.', 'p', 'g', 'w', '.', 's', 'e', '.', 'e', 'p', 'c', '.', 'm', 'n', 'c', '0', '5', '.', 'm', 'c', 'c', '2', '3', '4', '.', '3', 'g', 'p', 'p', 'n', 'e', 't', 'w', 'o', 'r', 'k', '.', 'o', 'r', 'g', '.'] }, { t := 215, length := 53, ins := 1, name := ['t', 'o', 'p', 'o', 'n', '.', 'n', 'o', 'd', 'e', 's', '.', 'p', 'g', 'w', '.', 'd', 'e', '.', 'e', 'p', 'c', '.', 'm', 'n', 'c', '0', '5', '.', 'm', 'c', 'c', '2', '3', '4', '.', '3', 'g', 'p', 'p', 'n', 'e', 't', 'w', 'o', 'r', 'k', '.', 'o', 'r', 'g', '.'] }], sgw_pgw_smf_ips := [{ t := 74, length := 4, ins := 0, ip := (.V4 0) }, { t := 74, length := 16, ins := 3, ip := (.V6 ⟨0, 0⟩) }], pgw_smf_fqcsid := [], groupids := [{ t := 216, length := 3, ins := 0, groupid := [10, 255, 0] }, { t := 216, length := 3, ins := 0, groupid := [10, 255, 0] }] } := by
  decide +kernel

-- `pgw_change_info_ie_marshal_test` (gtpv2/messages/ies/pgwchangeinfo.rs:195)
example : (fun x => IE.marshal (.PgwChangeInfo x)) ({ t := 214, length := 213, ins := 0, pgw_fqdns := [{ t := 215, length := 53, ins := 0, name := ['t', 'o', 'p', 'o', 'n', '.', 'n', 'o', 'd', 'e', 's', '.', 'p', 'g', 'w', '.', 's', 'e', '.', 'e', 'p', 'c', '.', 'm', 'n', 'c', '0', '5', '.', 'm', 'c', 'c', '2', '3', '4', '.', '3', 'g', 'p', 'p', 'n', 'e', 't', 'w', 'o', 'r', 'k', '.', 'o', 'r', 'g', '.'] }, { t := 215, length := 53, ins := 1, name := ['t', 'o', 'p', 'o', 'n', '.', 'n', 'o', 'd', 'e', 's', '.', 'p', 'g', 'w', '.', 's', 'e', '.', 'e', 'p', 'c', '.', 'm', 'n', 'c', '0', '5', '.', 'm', 'c', 'c', '2', '3', '4', '.', '3', 'g', 'p', 'p', 'n', 'e', 't', 'w', 'o', 'r', 'k', '.', 'o', 'r', 'g', '.'] }, { t := 215, length := 53, ins := 1, name := ['t', 'o', 'p', 'o', 'n', '.', 'n', 'o', 'd', 'e', 's', '.', 'p', 'g', 'w', '.', 'd', 'e', '.', 'e', 'p', 'c', '.', 'm', 'n', 'c', '0', '5', '.', 'm', 'c', 'c', '2', '3', '4', '.', '3', 'g', 'p', 'p', 'n', 'e', 't', 'w', 'o', 'r', 'k', '.', 'o', 'r', 'g', '.'] }], sgw_pgw_smf_ips := [{ t := 74, length := 4, ins := 0, ip := (.V4 0) }, { t := 74, length := 16, ins := 3, ip := (.V6 ⟨0, 0⟩) }], pgw_smf_fqcsid := [], groupids := [{ t := 216, length := 3, ins := 0, groupid := [10, 255, 0] }, { t := 216, length := 3, ins := 0, groupid := [10, 255, 0] }] } : PgwChangeInfo) = [214, 0, 213, 0, 74, 0, 4, 0, 0, 0, 0, 0, 74, 0, 16, 3, 0, 0, 0, 0, 0, 0, 0, 0, 0, 0, 0, 0, 0, 0, 0, 0, 215, 0, 53, 0, 5, 116, 111, 112, 111, 110, 5, 110, 111, 100, 101, 115, 3, 112, 103, 119, 2, 115, 101, 3, 101, 112, 99, 5, 109, 110, 99, 48, 53, 6, 109, 99, 99, 50, 51, 52, 11, 51, 103, 112, 112, 110, 101, 116, 119, 111, 114, 107, 3, 111, 114, 103, 0, 215, 0, 53, 1, 5, 116, 111, 112, 111, 110, 5, 110, 111, 100, 101, 115, 3, 112, 103, 119, 2, 115, 101, 3, 101, 112, 99, 5, 109, 110, 99, 48, 53, 6, 109, 99, 99, 50, 51, 52, 11, 51, 103, 112, 112, 110, 101, 116, 119, 111, 114, 107, 3, 111, 114, 103, 0, 215, 0, 53, 1, 5, 116, 111, 112, 111, 110, 5, 110, 111, 100, 101, 115, 3, 112, 103, 119, 2, 100, 101, 3, 101, 112, 99, 5, 109, 110, 99, 48, 53, 6, 109, 99, 99, 50, 51, 52, 11, 51, 103, 112, 112, 110, 101, 116, 119, 111, 114, 107, 3, 111, 114, 103, 0, 216, 0, 3, 0, 10, 255, 0, 216, 0, 3, 0, 10, 255, 0] := by
  decide +kernel

-- `pgw_fqdn_ie_marshal_test` (gtpv2/messages/ies/pgwfqdn.rs:108)
example : PgwFqdn.marshal ({ t := 215, length := 53, ins := 0, name := ['t', 'o', 'p', 'o', 'n', '.', 'n', 'o', 'd', 'e', 's', '.', 'p', 'g', 'w', '.', 's', 'e', '.', 'e', 'p', 'c', '.', 'm', 'n', 'c', '0', '5', '.', 'm', 'c', 'c', '2', '3', '4', '.', '3', 'g', 'p', 'p', 'n', 'e', 't', 'w', 'o', 'r', 'k', '.', 'o', 'r', 'g', '.'] } : PgwFqdn) = [215, 0, 53, 0, 5, 116, 111, 112, 111, 110, 5, 110, 111, 100, 101, 115, 3, 112, 103, 119, 2, 115, 101, 3, 101, 112, 99, 5, 109, 110, 99, 48, 53, 6, 109, 99, 99, 50, 51, 52, 11, 51, 103, 112, 112, 110, 101, 116, 119, 111, 114, 107, 3, 111, 114, 103, 0] := by
  decide +kernel

-- `pgw_fqdn_ie_unmarshal_test` (gtpv2/messages/ies/pgwfqdn.rs:126)
example : PgwFqdn.unmarshal .debug [215, 0, 53, 0, 5, 116, 111, 112, 111, 110, 5, 110, 111, 100, 101, 115, 3, 112, 103, 119, 2, 115, 101, 3, 101, 112, 99, 5, 109, 110, 99, 48, 53, 6, 109, 99, 99, 50, 51, 52, 11, 51, 103, 112, 112, 110, 101, 116, 119, 111, 114, 107, 3, 111, 114, 103, 0] = .ok { t := 215, length := 53, ins := 0, name := ['t', 'o', 'p', 'o', 'n', '.', 'n', 'o', 'd', 'e', 's', '.', 'p', 'g', 'w', '.', 's', 'e', '.', 'e', 'p', 'c', '.', 'm', 'n', 'c', '0', '5', '.', 'm', 'c', 'c', '2', '3', '4', '.', '3', 'g', 'p', 'p', 'n', 'e', 't', 'w', 'o', 'r', 'k', '.', 'o', 'r', 'g', '.'] } := by
  decide +kernel

end Gtp.V2
