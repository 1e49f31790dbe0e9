import Verif.V2.IE

/-!
# The `Default` values of the GTPv2-C information elements

Generated by `scripts/gen_defaults.py`; the citations refer to `/repo/src/gtpv2/messages/ies`.
-/

namespace Gtp.V2

/-- `Imsi::default` (imsi.rs:23-32). -/
def dfltImsi : Imsi := { t := 1, length := 0, ins := 0, imsi := [] }

/-- `Cause::default` (cause.rs:29-42). -/
def dfltCause : Cause := { t := 2, length := 2, ins := 0, value := 0, pce := false, bce := false, cs := false, offend_ie_type := none }

/-- `Recovery::default` (recovery.rs:23-32). -/
def dfltRecovery : Recovery := { t := 3, length := 1, ins := 0, recovery := 0 }

/-- `StnSr::default` (stnsr.rs:24-34). -/
def dfltStnSr : StnSr := { t := 51, length := 0, ins := 0, nanpi := 0, msisdn := ['0'] }

/-- `SrvccCause::default` (srvcccause.rs:95-104). -/
def dfltSrvccCause : SrvccCause := { t := 56, length := 1, ins := 0, value := .Unspecified }

/-- `Apn::default` (apn.rs:23-32). -/
def dfltApn : Apn := { t := 71, length := 0, ins := 0, name := [] }

/-- `Ambr::default` (ambr.rs:25-35). -/
def dfltApnAmbr : Ambr := { t := 72, length := 8, ins := 0, ambr_ul := 0, ambr_dl := 0 }

/-- `Ebi::default` (ebi.rs:23-32). -/
def dfltEbi : Ebi := { t := 73, length := 1, ins := 0, value := 0 }

/-- `IpAddress::default` (ipaddress.rs:24-33). -/
def dfltIpAddress : IpAddress := { t := 74, length := 0, ins := 0, ip := (.V4 0) }

/-- `Mei::default` (mei.rs:24-33). -/
def dfltMei : Mei := { t := 75, length := 8, ins := 0, mei := ['0'] }

/-- `Msisdn::default` (msisdn.rs:23-32). -/
def dfltMsisdn : Msisdn := { t := 76, length := 0, ins := 0, msisdn := ['0'] }

/-- `Indication::default` (indication.rs:97-180). -/
def dfltIndication : Indication := { t := 77, length := 10, ins := 0, daf := false, dtf := false, hi := false, dfi := false, oi := false, isrsi := false, israi := false, sgwci := false, sqci := false, uimsi := false, cfsi := false, crsi := false, ps := false, pt := false, si := false, msv := false, retloc := false, pbic := false, srni := false, s6af := false, s4af := false, mbmdt := false, israu := false, ccrsi := false, cprai := false, arrl := false, ppoff := false, ppon := false, ppsi := false, csfbi := false, clii := false, cpsr := false, nsi := false, uasi := false, dtci := false, bdwi := false, psci := false, pcri := false, aosi := false, aopi := false, roaai := false, epcosi := false, cpopci := false, pmtsmi := false, s11tf := false, pnsi := false, unaccsi := false, wpmsi := false, g5snn26 := false, reprefi := false, g5siwki := false, eevrsi := false, ltemui := false, ltempi := false, enbcrsi := false, tspcmi := false, csrmfi := false, mtedtn := false, mtedta := false, n5gnmi := false, g5cnrs := false, g5cnri := false, s5rho := false, ethpdn := false, nspusi := false, pgwrnsi := false, rppcsi := false, pgwchi := false, sissme := false, nsenbi := false, idfupf := false, emci := false, ltemsai := false, srtpi := false, upipsi := false }

/-- `Pco::default` (pco.rs:23-32). -/
def dfltPco : Pco := { t := 78, length := 0, ins := 0, pco := [] }

/-- `PdnAddressAllocation::default` (paa.rs:35-44). -/
def dfltPdnAddressAllocation : PdnAddressAllocation := { t := 79, length := 0, ins := 0, ip := (.V4 0) }

/-- `BearerQos::default` (bearerqos.rs:31-47). -/
def dfltBearerQos : BearerQos := { t := 80, length := 22, ins := 0, pre_emption_vulnerability := 0, priority_level := 0, pre_emption_capability := 0, qci := 9, maxbr_ul := 0, maxbr_dl := 0, gbr_ul := 0, gbr_dl := 0 }

/-- `FlowQos::default` (flowqos.rs:27-40). -/
def dfltFlowQos : FlowQos := { t := 81, length := 21, ins := 0, qci := 9, maxbr_ul := 0, maxbr_dl := 0, gbr_ul := 0, gbr_dl := 0 }

/-- `RatType::default` (rattype.rs:143-152). -/
def dfltRatType : RatType := { t := 82, length := 1, ins := 0, rat_type := .Eutran }

/-- `ServingNetwork::default` (servingnetwork.rs:26-37). -/
def dfltServingNetwork : ServingNetwork := { t := 83, length := 3, ins := 0, mcc := 0, mnc := 0, mnc_is_three_digits := false }

/-- `BearerTft::default` (bearertft.rs:23-32). -/
def dfltBearerTft : BearerTft := { t := 84, length := 0, ins := 0, tft := [] }

/-- `TrafficAggregateDescription::default` (tad.rs:23-32). -/
def dfltTrafficAggregateDescription : TrafficAggregateDescription := { t := 85, length := 0, ins := 0, tad := [] }

/-- `Uli::default` (uli.rs:36-45). -/
def dfltUli : Uli := { t := 86, length := 0, ins := 0, loc := [] }

/-- `Fteid::default` (fteid.rs:70-82). -/
def dfltFteid : Fteid := { t := 87, length := 9, ins := 0, interface := 0, teid := 0, ipv4 := (some 0), ipv6 := none }

/-- `Tmsi::default` (tmsi.rs:24-33). -/
def dfltTmsi : Tmsi := { t := 88, length := 4, ins := 0, tmsi := 0 }

/-- `GlobalCnId::default` (globalcnid.rs:27-39). -/
def dfltGlobalCnId : GlobalCnId := { t := 89, length := 5, ins := 0, mcc := 0, mnc := 0, mnc_is_three_digits := false, cnid := 0 }

/-- `S103pdf::default` (s103pdf.rs:26-37). -/
def dfltS103pdf : S103pdf := { t := 90, length := 0, ins := 0, hsgw_ip := (.V4 0), gre_key := 0, eps_bearer_ids := [] }

/-- `S1udf::default` (s1udf.rs:26-37). -/
def dfltS1udf : S1udf := { t := 91, length := 0, ins := 0, ebi := 0, sgw_ip := (.V4 0), sgw_s1u_teid := 0 }

/-- `DelayValue::default` (delayvalue.rs:24-33). -/
def dfltDelayValue : DelayValue := { t := 92, length := 1, ins := 0, value := 0 }

/-- `BearerContext::default` (bearercontext.rs:30-52). -/
def dfltBearerContext : BearerContext := { t := 93, length := 0, ins := 0, ebi := { t := 73, length := 1, ins := 0, value := 0 }, cause := none, tft := none, fteids := [], bearer_qos := none, charging_id := none, bearer_flags := none, pco := none, apco := none, epco := none, max_packet_loss := none, ran_nas_cause := none, bss_container := none, transaction_id := none }

/-- `ChargingId::default` (chargingid.rs:24-33). -/
def dfltChargingId : ChargingId := { t := 94, length := 4, ins := 0, charging_id := 0 }

/-- `ChargingCharacteristics::default` (chargingchar.rs:24-33). -/
def dfltChargingCharacteristics : ChargingCharacteristics := { t := 95, length := 2, ins := 0, charging_char := 0 }

/-- `TraceInformation::default` (traceinfo.rs:33-50). -/
def dfltTraceInformation : TraceInformation := { t := 96, length := 34, ins := 0, mcc := 0, mnc := 0, mnc_is_three_digits := false, trace_id := 0, trigger_events := [], list_ne_types := 0, trace_depth := 0, list_interfaces := [], trace_collection_ip := 0 }

/-- `BearerFlags::default` (bearerflags.rs:27-39). -/
def dfltBearerFlags : BearerFlags := { t := 97, length := 1, ins := 0, asi := false, vind := false, vb := false, ppc := false }

/-- `PdnType::default` (pdntype.rs:62-71). -/
def dfltPdnType : PdnType := { t := 99, length := 1, ins := 0, pdn_type := .Ipv4 }

/-- `Pti::default` (pti.rs:24-33). -/
def dfltPti : Pti := { t := 100, length := 1, ins := 0, pti := 0 }

/-- `MmContext::default` (mmctx.rs:17-21). -/
def dfltMmContext : MmContext := (.MmContextEpsSecurityContextQuadruplets { t := 107, length := 0, ins := 0, sec_mode := .EpsSecurityContextAndQuadruplets, ksi := 0, nas_integrity := .NoIntegrity, nas_cipher := .NoChiper, nas_dl_count := 0, nas_ul_count := 0, kasme := [0, 0, 0, 0, 0, 0, 0, 0, 0, 0, 0, 0, 0, 0, 0, 0, 0, 0, 0, 0, 0, 0, 0, 0, 0, 0, 0, 0, 0, 0, 0, 0], auth_quadruplets := none, auth_quintuplets := none, drx_params := none, next_hop := none, ncc := none, subscr_ue_ambr := none, used_ue_ambr := none, ue_ntwk_cap := none, ms_ntwk_cap := none, mei := none, access_res := { una := false, gena := false, gana := false, ina := false, ena := false, hnna := false, nbna := false, ecna := false }, old_eps_sec_ctx := none, vdn_pref_ue_usage := none, ue_radio_cap_for_paging := none, ext_access_res := none, ue_add_security_cap := none, ue_nr_security_cap := none, apn_rate_controls := none, core_nw_res := none, ue_radio_cap_id := none, ensct := none })

/-- `PdnConnections::default` (pdnconnections.rs:41-74). -/
def dfltPdnConnections : PdnConnections := { t := 109, length := 0, ins := 0, apn := { t := 71, length := 0, ins := 0, name := [] }, apn_restriction := none, selection_mode := none, ipv4 := none, ipv6 := none, linked_ebi := { t := 73, length := 1, ins := 0, value := 0 }, pgw_addr_control := { t := 87, length := 9, ins := 0, interface := 0, teid := 0, ipv4 := (some 0), ipv6 := none }, pgw_node_name := none, bearer_ctxs := [], apn_ambr := { t := 72, length := 8, ins := 0, ambr_ul := 0, ambr_dl := 0 }, charging_char := none, change_reporting_action := none, csg_info_reporting_action := none, henb_info_reporting := none, indication := none, signalling_priority_indication := none, change_to_report_flags := none, local_home_network_id := none, praa := none, wlan_offloadability := none, remote_ue_ctxs := [], pdn_type := none, hdr_compr_config := none, pgw_change_info := none, up_security_policy := none }

/-- `PduNumbers::default` (pdunumbers.rs:28-41). -/
def dfltPduNumbers : PduNumbers := { t := 110, length := 9, ins := 0, nsapi := 0, dl_gtpu_sqn := 0, ul_gtpu_sqn := 0, send_npdu := 0, receive_npdu := 0 }

/-- `Ptmsi::default` (ptmsi.rs:24-33). -/
def dfltPtmsi : Ptmsi := { t := 111, length := 4, ins := 0, ptmsi := 0 }

/-- `PtmsiSignature::default` (ptmsisignature.rs:24-33). -/
def dfltPtmsiSignature : PtmsiSignature := { t := 112, length := 4, ins := 0, ptmsi_sig := 0 }

/-- `HopCounter::default` (hopcounter.rs:24-33). -/
def dfltHopCounter : HopCounter := { t := 113, length := 1, ins := 0, hop_counter := 0 }

/-- `UeTimeZone::default` (uetimezone.rs:25-35). -/
def dfltUeTimeZone : UeTimeZone := { t := 114, length := 2, ins := 0, time_zone := 0, dst := 0 }

/-- `TraceReference::default` (tracereference.rs:27-39). -/
def dfltTraceReference : TraceReference := { t := 83, length := 6, ins := 0, mcc := 0, mnc := 0, mnc_is_three_digits := false, trace_id := 0 }

/-- `CompleteRequestMessage::default` (completereqmessage.rs:31-40). -/
def dfltCompleteRequestMessage : CompleteRequestMessage := { t := 116, length := 0, ins := 0, message := .Spare }

/-- `Guti::default` (guti.rs:29-43). -/
def dfltGuti : Guti := { t := 117, length := 10, ins := 0, mcc := 0, mnc := 0, mnc_is_three_digits := false, mmegi := 0, mmec := 0, mtmsi := 0 }

/-- `Fcontainer::default` (fcontainer.rs:36-45). -/
def dfltFcontainer : Fcontainer := { t := 118, length := 0, ins := 0, container := .Reserved }

/-- `Fcause::default` (fcause.rs:62-72). -/
def dfltFcause : Fcause := { t := 119, length := 0, ins := 0, cause_type := .RadioNetworkLayer, cause_field := [] }

/-- `PlmnId::default` (plmnid.rs:26-37). -/
def dfltPlmnId : PlmnId := { t := 120, length := 3, ins := 0, mcc := 0, mnc := 0, mnc_is_three_digits := false }

/-- `TargetIdentification::default` (targetid.rs:668-677). -/
def dfltTargetIdentification : TargetIdentification := { t := 121, length := 0, ins := 0, target_type := .Spare }

/-- `PacketFlowId::default` (packetflowid.rs:25-35). -/
def dfltPacketFlowId : PacketFlowId := { t := 123, length := 5, ins := 0, ebi := 0, flow_id := 0 }

/-- `RabContext::default` (rabcontext.rs:28-41). -/
def dfltRabContext : RabContext := { t := 124, length := 9, ins := 0, nsapi := 0, dl_gtpu_sqn := 0, ul_gtpu_sqn := 0, dl_pdcp_sqn := 0, ul_pdcp_sqn := 0 }

/-- `SourceRncPdcpContextInfo::default` (srcrncpdcpctxinfo.rs:23-32). -/
def dfltSrcRncPdcpCtxInfo : SourceRncPdcpContextInfo := { t := 125, length := 0, ins := 0, rrc_container := [] }

/-- `PortNumber::default` (portnumber.rs:24-33). -/
def dfltPortNumber : PortNumber := { t := 126, length := 2, ins := 0, port := 0 }

/-- `ApnRestriction::default` (apnrestriction.rs:61-70). -/
def dfltApnRestriction : ApnRestriction := { t := 127, length := 1, ins := 0, restriction_type := .NoApnRestriction }

/-- `SelectionMode::default` (selectionmode.rs:24-33). -/
def dfltSelectionMode : SelectionMode := { t := 128, length := 1, ins := 0, mode := 0 }

/-- `SourceIdentification::default` (sourceid.rs:178-188). -/
def dfltSourceIdentification : SourceIdentification := { t := 129, length := 0, ins := 0, target_cell := { mcc := 0, mnc := 0, mnc_is_three_digits := false, lac := 0, rac := 0, ci := 0 }, source_type := .Spare }

/-- `ChangeReportingAction::default` (changereportingaction.rs:36-45). -/
def dfltChangeReportingAction : ChangeReportingAction := { t := 131, length := 1, ins := 0, action := 0 }

/-- `Fqcsid::default` (fqcsid.rs:52-62). -/
def dfltFqcsid : Fqcsid := { t := 132, length := 6, ins := 0, nodeid := (.V4 0), csid := [0] }

/-- `ChannelNeeded::default` (channelneeded.rs:24-33). -/
def dfltChannelNeeded : ChannelNeeded := { t := 133, length := 1, ins := 0, chnl_needed := 0 }

/-- `EmlppPriority::default` (emlppprio.rs:23-32). -/
def dfltEmlppPriority : EmlppPriority := { t := 134, length := 1, ins := 0, priority := 0 }

/-- `NodeType::default` (nodetype.rs:51-60). -/
def dfltNodeType : NodeType := { t := 135, length := 1, ins := 0, node := .Mme }

/-- `Fqdn::default` (fqdn.rs:23-32). -/
def dfltFqdn : Fqdn := { t := 136, length := 1, ins := 0, name := [] }

/-- `TransactionIdentifier::default` (transactionid.rs:31-40). -/
def dfltTransactionIdentifier : TransactionIdentifier := { t := 137, length := 0, ins := 0, tid := { flag := false, id := 0 } }

/-- `MbmsServiceArea::default` (mbmssa.rs:23-32). -/
def dfltMbmsSa : MbmsServiceArea := { t := 139, length := 0, ins := 0, mbms_sa := [0] }

/-- `MbmsSessionDuration::default` (mbmssd.rs:25-35). -/
def dfltMbmsSd : MbmsSessionDuration := { t := 138, length := 3, ins := 0, seconds := 0, days := 0 }

/-- `MbmsSessionId::default` (mbmssessionid.rs:24-33). -/
def dfltMbmsSessionId : MbmsSessionId := { t := 140, length := 1, ins := 0, mbms_sessionid := 0 }

/-- `MbmsFlowId::default` (mbmsflowid.rs:24-33). -/
def dfltMbmsFlowId : MbmsFlowId := { t := 141, length := 2, ins := 0, mbms_flowid := 0 }

/-- `MbmsIpMulticastDistribution::default` (mbmsipmulticastdistribution.rs:35-47). -/
def dfltMbmsIpMulticastDistribution : MbmsIpMulticastDistribution := { t := 142, length := 0, ins := 0, common_teid := 0, ip_multicast_address_1 := (.V4 0), ip_multicast_address_2 := (.V4 0), mbms_hc := .UncompressedHeader }

/-- `MbmsDistributionAck::default` (mbmsdistributionack.rs:24-33). -/
def dfltMbmsDistributionAck : MbmsDistributionAck := { t := 143, length := 1, ins := 0, distr_id := 0 }

/-- `RfspIndex::default` (rfspindex.rs:24-33). -/
def dfltRfspIndex : RfspIndex := { t := 144, length := 2, ins := 0, spid := 0 }

/-- `Uci::default` (uci.rs:87-102). -/
def dfltUci : Uci := { t := 145, length := 8, ins := 0, mcc := 0, mnc := 0, mnc_is_three_digits := false, csgid := 0, access_mode := .ClosedMode, lcsg := false, cmi := .CsgMembership }

/-- `CSGInformationReportingAction::default` (csginforeporting.rs:27-36). -/
def dfltCSGInformationReportingAction : CSGInformationReportingAction := { t := 146, length := 1, ins := 0, action := 0 }

/-- `CsgId::default` (csgid.rs:24-33). -/
def dfltCsgId : CsgId := { t := 147, length := 4, ins := 0, csgid := 0 }

/-- `CsgMembershipIndication::default` (cmi.rs:51-60). -/
def dfltCsgMembershipIndication : CsgMembershipIndication := { t := 148, length := 1, ins := 0, cmi := .NonCsgMembership }

/-- `ServiceIndicator::default` (serviceindicator.rs:58-67). -/
def dfltServiceIndicator : ServiceIndicator := { t := 149, length := 1, ins := 0, indicator := .CsCallIndicator }

/-- `DetachType::default` (detachtype.rs:61-70). -/
def dfltDetachType : DetachType := { t := 150, length := 1, ins := 0, detach_type := .PsDetach }

/-- `Ldn::default` (ldn.rs:23-32). -/
def dfltLdn : Ldn := { t := 151, length := 0, ins := 0, name := [] }

/-- `NodeFeatures::default` (nodefeatures.rs:31-47). -/
def dfltNodeFeatures : NodeFeatures := { t := 152, length := 1, ins := 0, prn := false, mabr := false, ntsr := false, ciot := false, s1un := false, eth := false, mtedt := false, psset := false }

/-- `MbmsTimeToDataTransfer::default` (mbmstimetodatatransfer.rs:24-33). -/
def dfltMbmsTimeToDataTransfer : MbmsTimeToDataTransfer := { t := 153, length := 1, ins := 0, mbms_time_to_data := 0 }

/-- `Throttling::default` (throttling.rs:39-50). -/
def dfltThrottling : Throttling := { t := 154, length := 2, ins := 0, delay_unit := 0, delay_value := 0, factor := 0 }

/-- `Arp::default` (arp.rs:26-37). -/
def dfltArp : Arp := { t := 155, length := 1, ins := 0, pci := false, pl := 0, pvi := false }

/-- `EpcTimer::default` (epctimer.rs:25-35). -/
def dfltEpcTimer : EpcTimer := { t := 156, length := 1, ins := 0, timer_unit := 0, timer_value := 0 }

/-- `Spi::default` (spi.rs:24-33). -/
def dfltSpi : Spi := { t := 157, length := 1, ins := 0, lapi := false }

/-- `Tmgi::default` (tmgi.rs:24-33). -/
def dfltTmgi : Tmgi := { t := 158, length := 6, ins := 0, tmgi := [0, 0, 0, 0, 0, 0] }

/-- `AdditionalMmContextForSrvcc::default` (additionalmmctxsrvcc.rs:25-36). -/
def dfltAdditionalMmContextForSrvcc : AdditionalMmContextForSrvcc := { t := 159, length := 0, ins := 0, mobile_station_classmark2 := none, mobile_station_classmark3 := none, supported_codec_list := none }

/-- `AdditionalFlagsSrvcc::default` (addflagssrvcc.rs:25-35). -/
def dfltAdditionalFlagsSrvcc : AdditionalFlagsSrvcc := { t := 160, length := 1, ins := 0, ics := false, vf := false }

/-- `MdtConfiguration::default` (mdtconfiguration.rs:85-105). -/
def dfltMdtConfiguration : MdtConfiguration := { t := 162, length := 0, ins := 0, mdt_job_type := .ImmediateMdtonly, list_measurements := [0, 0, 0, 0], reporting_trigger := 0, report_interval := 0, report_amount := 0, rsrp_event_threshold := 0, rsrq_event_threshold := 0, area_scope := none, collection_period_rrm := none, measurement_period_lte := none, positioning_method := none, mdt_plmns_list := none }

/-- `Apco::default` (apco.rs:24-33). -/
def dfltApco : Apco := { t := 163, length := 0, ins := 0, apco := [] }

/-- `AbsoluteTimeMbmsDataTransfer::default` (abstimembmsdatatransfer.rs:24-33). -/
def dfltAbsoluteTimeMbmsDataTransfer : AbsoluteTimeMbmsDataTransfer := { t := 164, length := 8, ins := 0, seconds := 0 }

/-- `HenbInfoReporting::default` (henbinforeporting.rs:28-37). -/
def dfltHenbInfoReporting : HenbInfoReporting := { t := 165, length := 1, ins := 0, fti := false }

/-- `Ip4Cp::default` (ip4cp.rs:26-36). -/
def dfltIp4Cp : Ip4Cp := { t := 166, length := 5, ins := 0, subnet_prefix := 0, ip := 0 }

/-- `ChangeToReportFlags::default` (changetoreportflags.rs:28-38). -/
def dfltChangeToReportFlags : ChangeToReportFlags := { t := 167, length := 1, ins := 0, tzcr := false, sncr := false }

/-- `ActionIndication::default` (actionindication.rs:66-75). -/
def dfltActionIndication : ActionIndication := { t := 168, length := 1, ins := 0, indication := .NoAction }

/-- `TwanId::default` (twanid.rs:31-46). -/
def dfltTwanId : TwanId := { t := 169, length := 1, ins := 0, ssid := [], bssid := none, civic_address := none, twan_plmnid := none, twan_op_name := none, relay_id := none, circuit_id := none }

/-- `UliTimestamp::default` (ulitimestamp.rs:24-33). -/
def dfltUliTimestamp : UliTimestamp := { t := 170, length := 4, ins := 0, timestamp := 0 }

/-- `MbmsFlags::default` (mbmsflags.rs:25-35). -/
def dfltMbmsFlags : MbmsFlags := { t := 171, length := 1, ins := 0, msri := false, lmri := false }

/-- `RanNasCause::default` (rannascause.rs:70-79). -/
def dfltRanNasCause : RanNasCause := { t := 172, length := 0, ins := 0, cause := .Spare }

/-- `CnOperatorSelectionEntity::default` (cnose.rs:31-40). -/
def dfltCnOperatorSelectionEntity : CnOperatorSelectionEntity := { t := 173, length := 1, ins := 0, selection_entity := .ServingNetworkSelectedbyUE }

/-- `Twmi::default` (twmi.rs:25-35). -/
def dfltTwmi : Twmi := { t := 174, length := 1, ins := 0, mcm := false, scm := false }

/-- `NodeNumber::default` (nodenumber.rs:23-32). -/
def dfltNodeNumber : NodeNumber := { t := 175, length := 0, ins := 0, node_number := [] }

/-- `NodeIdentifier::default` (nodeidentifier.rs:24-34). -/
def dfltNodeIdentifier : NodeIdentifier := { t := 176, length := 0, ins := 0, node_name := [], node_realm := [] }

/-- `PresenceReportingAreaAction::default` (praa.rs:38-57). -/
def dfltPresenceReportingAreaAction : PresenceReportingAreaAction := { t := 177, length := 0, ins := 0, inapra := false, action := 0, prai := 0, tai := [], rai := [], macro_enb := [], home_enb := [], ecgi := [], sai := [], cgi := [], ext_macro_enb := [] }

/-- `PresenceReportingAreaInformation::default` (prai.rs:66-76). -/
def dfltPresenceReportingAreaInformation : PresenceReportingAreaInformation := { t := 178, length := 8, ins := 0, prai := (.Inapra 0), add_prai := none }

/-- `TwanIdTimeStamp::default` (twanidtimestamp.rs:24-33). -/
def dfltTwanIdTimeStamp : TwanIdTimeStamp := { t := 179, length := 4, ins := 0, timestamp := 0 }

/-- `OverloadControlInfo::default` (overloadcontrolinfo.rs:20-32). -/
def dfltOverloadControlInfo : OverloadControlInfo := { t := 180, length := 17, ins := 0, sqn := { t := 183, length := 4, ins := 0, sqn := 0 }, metric := { t := 182, length := 1, ins := 0, metric := 0 }, validity := { t := 156, length := 1, ins := 0, timer_unit := 0, timer_value := 0 }, list := none }

/-- `LoadControl::default` (loadcontrolinfo.rs:19-30). -/
def dfltLoadControlInfo : LoadControl := { t := 181, length := 0, ins := 0, sqn := { t := 183, length := 4, ins := 0, sqn := 0 }, load_metric := { t := 182, length := 1, ins := 0, metric := 0 }, list := none }

/-- `Metric::default` (metric.rs:24-33). -/
def dfltMetric : Metric := { t := 182, length := 1, ins := 0, metric := 0 }

/-- `Sqn::default` (sqn.rs:24-33). -/
def dfltSqn : Sqn := { t := 183, length := 4, ins := 0, sqn := 0 }

/-- `ApnRelativeCapacity::default` (apnrelativecapacity.rs:24-34). -/
def dfltApnRelativeCapacity : ApnRelativeCapacity := { t := 184, length := 0, ins := 0, relative_cap := 0, name := [] }

/-- `WlanOffloadIndication::default` (wlanoffloadindication.rs:30-40). -/
def dfltWlanOffloadIndication : WlanOffloadIndication := { t := 185, length := 1, ins := 0, eutran_ind := false, utran_ind := false }

/-- `PagingServiceInfo::default` (pagingserviceinfo.rs:25-35). -/
def dfltPagingServiceInfo : PagingServiceInfo := { t := 186, length := 2, ins := 0, ebi := 0, paging_policy := none }

/-- `IntegerNumber::default` (integernumber.rs:23-32). -/
def dfltIntegerNumber : IntegerNumber := { t := 187, length := 0, ins := 0, number := [] }

/-- `MilliSecondTimeStamp::default` (millisecondtimestamp.rs:24-33). -/
def dfltMilliSecondTimeStamp : MilliSecondTimeStamp := { t := 188, length := 6, ins := 0, timestamp := 0 }

/-- `MonitoringEventInformation::default` (monitoringeventinfo.rs:29-44). -/
def dfltMonitoringEventInformation : MonitoringEventInformation := { t := 189, length := 0, ins := 0, nsui := false, nsur := false, nscf := false, scef_ref_id := 0, scef_id := [], rem_nbr_reports := 0, ext_scef_ref_id := none }

/-- `EcgiList::default` (ecgilist.rs:23-32). -/
def dfltEcgiList : EcgiList := { t := 190, length := 0, ins := 0, ecgi_list := none }

/-- `RemoteUeContext::default` (remoteuecontext.rs:18-28). -/
def dfltRemoteUeContext : RemoteUeContext := { t := 191, length := 5, ins := 0, user_id := { t := 192, length := 0, ins := 0, imsi := [], msisdn := none, imei := none }, ue_ip := none }

/-- `RemoteUserId::default` (remoteuserid.rs:25-36). -/
def dfltRemoteUserId : RemoteUserId := { t := 192, length := 0, ins := 0, imsi := [], msisdn := none, imei := none }

/-- `RemoteUeIpInformation::default` (remoteueip.rs:33-42). -/
def dfltRemoteUeIpInformation : RemoteUeIpInformation := { t := 193, length := 0, ins := 0, ip := (.V4 0) }

/-- `CIoTOptimizationSupportIndication::default` (ciotoptimizationssupport.rs:27-39). -/
def dfltCIoTOptimizationSupportIndication : CIoTOptimizationSupportIndication := { t := 194, length := 1, ins := 0, sgnipdn := false, scnipdn := false, awopdn := false, ihcsi := false }

/-- `ScefPdnConnections::default` (scefpdnconnections.rs:19-30). -/
def dfltScefPdnConnections : ScefPdnConnections := { t := 195, length := 0, ins := 0, apn := { t := 71, length := 0, ins := 0, name := [] }, default_ebi := { t := 73, length := 1, ins := 0, value := 0 }, scef_id := { t := 176, length := 0, ins := 0, node_name := [], node_realm := [] } }

/-- `HeaderCompressionConfiguration::default` (hdrcomprconfig.rs:25-35). -/
def dfltHeaderCompressionConfiguration : HeaderCompressionConfiguration := { t := 196, length := 4, ins := 0, rohc_profiles := [0], max_cid := 0 }

/-- `Epco::default` (epco.rs:24-33). -/
def dfltEpco : Epco := { t := 197, length := 0, ins := 0, epco := [] }

/-- `ServingPlmnRateControl::default` (servingplmnratecontrol.rs:25-35). -/
def dfltServingPlmnRateControl : ServingPlmnRateControl := { t := 198, length := 4, ins := 0, rate_ctrl_ul := 0, rate_ctrl_dl := 0 }

/-- `Counter::default` (counter.rs:25-35). -/
def dfltCounter : Counter := { t := 199, length := 5, ins := 0, timestamp := 0, counter := 0 }

/-- `MappedUeUsageType::default` (mueut.rs:25-34). -/
def dfltMappedUeUsageType : MappedUeUsageType := { t := 200, length := 2, ins := 0, usage_type := 0 }

/-- `SecondaryRatUsageDataReport::default` (secondaryratudr.rs:36-53). -/
def dfltSecondaryRatUsageDataReport : SecondaryRatUsageDataReport := { t := 201, length := 27, ins := 0, irsgw := false, irpgw := false, rat_type := 0, ebi := 0, start_timestamp := 0, end_timestamp := 0, usg_data_dl := 0, usg_data_ul := 0, second_rat_dur_tansfer := none }

/-- `UpFunctionSelectionIndicationFlags::default` (upfsif.rs:24-33). -/
def dfltUpFunctionSelectionIndicationFlags : UpFunctionSelectionIndicationFlags := { t := 202, length := 1, ins := 0, dcnr := false }

/-- `MaxPacketLossRate::default` (maxpacketlossrate.rs:26-36). -/
def dfltMaxPacketLossRate : MaxPacketLossRate := { t := 203, length := 0, ins := 0, max_packet_loss_ul := none, max_packet_loss_dl := none }

/-- `ApnRateControlStatus::default` (apnratecontrolstatus.rs:23-35). -/
def dfltApnRateControlStatus : ApnRateControlStatus := { t := 204, length := 20, ins := 0, ul_packets_allowed := 0, nmbr_add_exception_reports := 0, dl_packets_allowed := 0, validity_time := 0 }

/-- `ExtendedTraceInformation::default` (extendedtraceinfo.rs:32-49). -/
def dfltExtendedTraceInformation : ExtendedTraceInformation := { t := 205, length := 0, ins := 0, mcc := 0, mnc := 0, mnc_is_three_digits := false, trace_id := 0, trigger_events := [], list_ne_types := [], session_trace_depth := 0, list_interfaces := [], trace_collection_ip := (.V4 0) }

/-- `MonitoringEventExtensionInfo::default` (monitoringeventextinfo.rs:26-38). -/
def dfltMonitoringEventExtensionInfo : MonitoringEventExtensionInfo := { t := 206, length := 6, ins := 0, scef_ref_id := 0, scef_id := [], rmplrt := none, ext_scef_ref_id := none }

/-- `AdditionalRrmPolicyIndex::default` (arpi.rs:24-33). -/
def dfltAdditionalRrmPolicyIndex : AdditionalRrmPolicyIndex := { t := 207, length := 4, ins := 0, arpi := 0 }

/-- `V2xInformation::default` (v2xinformation.rs:19-30). -/
def dfltV2xInformation : V2xInformation := { t := 208, length := 0, ins := 0, services_auth := [], sidelink_max_brs := [], pc5_qos_params := none }

/-- `PC5QosParameters::default` (pc5qosparameters.rs:18-28). -/
def dfltPC5QosParameters : PC5QosParameters := { t := 209, length := 0, ins := 0, pc5_qos_flows := [], pc5_link_abrs := none }

/-- `ServicesAuthorized::default` (servicesauthorized.rs:25-35). -/
def dfltServicesAuthorized : ServicesAuthorized := { t := 210, length := 2, ins := 0, vehicle_ue_auth := false, pedestrian_ue_auth := false }

/-- `BitRate::default` (bitrate.rs:24-33). -/
def dfltBitRate : BitRate := { t := 211, length := 4, ins := 0, bitrate := 0 }

/-- `PC5QosFlow::default` (pc5qosflow.rs:22-34). -/
def dfltPC5QosFlow : PC5QosFlow := { t := 212, length := 0, ins := 0, pqi_label := 0, gfbr := 0, mfbr := 0, range := none }

/-- `SgiPtpTunnelAddress::default` (sgiptptunneladdress.rs:25-35). -/
def dfltSgiPtpTunnelAddress : SgiPtpTunnelAddress := { t := 213, length := 0, ins := 0, ip := (.V4 0), port := none }

/-- `PgwChangeInfo::default` (pgwchangeinfo.rs:20-32). -/
def dfltPgwChangeInfo : PgwChangeInfo := { t := 214, length := 0, ins := 0, pgw_fqdns := [], sgw_pgw_smf_ips := [], pgw_smf_fqcsid := [], groupids := [] }

/-- `PgwFqdn::default` (pgwfqdn.rs:23-32). -/
def dfltPgwFqdn : PgwFqdn := { t := 215, length := 0, ins := 0, name := [] }

/-- `GroupId::default` (groupid.rs:23-32). -/
def dfltGroupId : GroupId := { t := 216, length := 0, ins := 0, groupid := [] }

/-- `PSCellId::default` (pscellid.rs:27-39). -/
def dfltPSCellId : PSCellId := { t := 217, length := 8, ins := 0, mcc := 0, mnc := 0, mnc_is_three_digits := false, nr_cgi := [0, 0, 0, 0, 0] }

/-- `UpSecurityPolicy::default` (upsp.rs:57-66). -/
def dfltUpSecurityPolicy : UpSecurityPolicy := { t := 218, length := 1, ins := 0, up_ip_policy := .NotNeeded }

/-- `AlternativeImsi::default` (alternativeimsi.rs:23-32). -/
def dfltAlternativeImsi : AlternativeImsi := { t := 219, length := 0, ins := 0, imsi := [] }

/-- `SpecialIEWithTypeExt::default` (specialiewithtypeext.rs:24-34). -/
def dfltSpecialIEWithTypeExt : SpecialIEWithTypeExt := { t := 254, length := 0, ins := 0, ie_type_ext := 0, ie_data := [] }

/-- `PrivateExtension::default` (privateextension.rs:24-34). -/
def dfltPrivateExtension : PrivateExtension := { t := 255, length := 0, ins := 0, enterprise_id := 0, value := [] }

/-- `Unknown::default` (unknown.rs:11). -/
def dfltUnknown : Unknown := { t := 0, length := 0, ins := 0, value := [] }

/-- The default of each kind. -/
def Kind.dflt : Kind → IE
  | .Imsi => .Imsi dfltImsi
  | .Cause => .Cause dfltCause
  | .Recovery => .Recovery dfltRecovery
  | .StnSr => .StnSr dfltStnSr
  | .SrvccCause => .SrvccCause dfltSrvccCause
  | .Apn => .Apn dfltApn
  | .ApnAmbr => .ApnAmbr dfltApnAmbr
  | .Ebi => .Ebi dfltEbi
  | .IpAddress => .IpAddress dfltIpAddress
  | .Mei => .Mei dfltMei
  | .Msisdn => .Msisdn dfltMsisdn
  | .Indication => .Indication dfltIndication
  | .Pco => .Pco dfltPco
  | .PdnAddressAllocation => .PdnAddressAllocation dfltPdnAddressAllocation
  | .BearerQos => .BearerQos dfltBearerQos
  | .FlowQos => .FlowQos dfltFlowQos
  | .RatType => .RatType dfltRatType
  | .ServingNetwork => .ServingNetwork dfltServingNetwork
  | .BearerTft => .BearerTft dfltBearerTft
  | .TrafficAggregateDescription => .TrafficAggregateDescription dfltTrafficAggregateDescription
  | .Uli => .Uli dfltUli
  | .Fteid => .Fteid dfltFteid
  | .Tmsi => .Tmsi dfltTmsi
  | .GlobalCnId => .GlobalCnId dfltGlobalCnId
  | .S103pdf => .S103pdf dfltS103pdf
  | .S1udf => .S1udf dfltS1udf
  | .DelayValue => .DelayValue dfltDelayValue
  | .BearerContext => .BearerContext dfltBearerContext
  | .ChargingId => .ChargingId dfltChargingId
  | .ChargingCharacteristics => .ChargingCharacteristics dfltChargingCharacteristics
  | .TraceInformation => .TraceInformation dfltTraceInformation
  | .BearerFlags => .BearerFlags dfltBearerFlags
  | .PdnType => .PdnType dfltPdnType
  | .Pti => .Pti dfltPti
  | .MmContext => .MmContext dfltMmContext
  | .PdnConnections => .PdnConnections dfltPdnConnections
  | .PduNumbers => .PduNumbers dfltPduNumbers
  | .Ptmsi => .Ptmsi dfltPtmsi
  | .PtmsiSignature => .PtmsiSignature dfltPtmsiSignature
  | .HopCounter => .HopCounter dfltHopCounter
  | .UeTimeZone => .UeTimeZone dfltUeTimeZone
  | .TraceReference => .TraceReference dfltTraceReference
  | .CompleteRequestMessage => .CompleteRequestMessage dfltCompleteRequestMessage
  | .Guti => .Guti dfltGuti
  | .Fcontainer => .Fcontainer dfltFcontainer
  | .Fcause => .Fcause dfltFcause
  | .PlmnId => .PlmnId dfltPlmnId
  | .TargetIdentification => .TargetIdentification dfltTargetIdentification
  | .PacketFlowId => .PacketFlowId dfltPacketFlowId
  | .RabContext => .RabContext dfltRabContext
  | .SrcRncPdcpCtxInfo => .SrcRncPdcpCtxInfo dfltSrcRncPdcpCtxInfo
  | .PortNumber => .PortNumber dfltPortNumber
  | .ApnRestriction => .ApnRestriction dfltApnRestriction
  | .SelectionMode => .SelectionMode dfltSelectionMode
  | .SourceIdentification => .SourceIdentification dfltSourceIdentification
  | .ChangeReportingAction => .ChangeReportingAction dfltChangeReportingAction
  | .Fqcsid => .Fqcsid dfltFqcsid
  | .ChannelNeeded => .ChannelNeeded dfltChannelNeeded
  | .EmlppPriority => .EmlppPriority dfltEmlppPriority
  | .NodeType => .NodeType dfltNodeType
  | .Fqdn => .Fqdn dfltFqdn
  | .TransactionIdentifier => .TransactionIdentifier dfltTransactionIdentifier
  | .MbmsSa => .MbmsSa dfltMbmsSa
  | .MbmsSd => .MbmsSd dfltMbmsSd
  | .MbmsSessionId => .MbmsSessionId dfltMbmsSessionId
  | .MbmsFlowId => .MbmsFlowId dfltMbmsFlowId
  | .MbmsIpMulticastDistribution => .MbmsIpMulticastDistribution dfltMbmsIpMulticastDistribution
  | .MbmsDistributionAck => .MbmsDistributionAck dfltMbmsDistributionAck
  | .RfspIndex => .RfspIndex dfltRfspIndex
  | .Uci => .Uci dfltUci
  | .CSGInformationReportingAction => .CSGInformationReportingAction dfltCSGInformationReportingAction
  | .CsgId => .CsgId dfltCsgId
  | .CsgMembershipIndication => .CsgMembershipIndication dfltCsgMembershipIndication
  | .ServiceIndicator => .ServiceIndicator dfltServiceIndicator
  | .DetachType => .DetachType dfltDetachType
  | .Ldn => .Ldn dfltLdn
  | .NodeFeatures => .NodeFeatures dfltNodeFeatures
  | .MbmsTimeToDataTransfer => .MbmsTimeToDataTransfer dfltMbmsTimeToDataTransfer
  | .Throttling => .Throttling dfltThrottling
  | .Arp => .Arp dfltArp
  | .EpcTimer => .EpcTimer dfltEpcTimer
  | .Spi => .Spi dfltSpi
  | .Tmgi => .Tmgi dfltTmgi
  | .AdditionalMmContextForSrvcc => .AdditionalMmContextForSrvcc dfltAdditionalMmContextForSrvcc
  | .AdditionalFlagsSrvcc => .AdditionalFlagsSrvcc dfltAdditionalFlagsSrvcc
  | .MdtConfiguration => .MdtConfiguration dfltMdtConfiguration
  | .Apco => .Apco dfltApco
  | .AbsoluteTimeMbmsDataTransfer => .AbsoluteTimeMbmsDataTransfer dfltAbsoluteTimeMbmsDataTransfer
  | .HenbInfoReporting => .HenbInfoReporting dfltHenbInfoReporting
  | .Ip4Cp => .Ip4Cp dfltIp4Cp
  | .ChangeToReportFlags => .ChangeToReportFlags dfltChangeToReportFlags
  | .ActionIndication => .ActionIndication dfltActionIndication
  | .TwanId => .TwanId dfltTwanId
  | .UliTimestamp => .UliTimestamp dfltUliTimestamp
  | .MbmsFlags => .MbmsFlags dfltMbmsFlags
  | .RanNasCause => .RanNasCause dfltRanNasCause
  | .CnOperatorSelectionEntity => .CnOperatorSelectionEntity dfltCnOperatorSelectionEntity
  | .Twmi => .Twmi dfltTwmi
  | .NodeNumber => .NodeNumber dfltNodeNumber
  | .NodeIdentifier => .NodeIdentifier dfltNodeIdentifier
  | .PresenceReportingAreaAction => .PresenceReportingAreaAction dfltPresenceReportingAreaAction
  | .PresenceReportingAreaInformation => .PresenceReportingAreaInformation dfltPresenceReportingAreaInformation
  | .TwanIdTimeStamp => .TwanIdTimeStamp dfltTwanIdTimeStamp
  | .OverloadControlInfo => .OverloadControlInfo dfltOverloadControlInfo
  | .LoadControlInfo => .LoadControlInfo dfltLoadControlInfo
  | .Metric => .Metric dfltMetric
  | .Sqn => .Sqn dfltSqn
  | .ApnRelativeCapacity => .ApnRelativeCapacity dfltApnRelativeCapacity
  | .WlanOffloadIndication => .WlanOffloadIndication dfltWlanOffloadIndication
  | .PagingServiceInfo => .PagingServiceInfo dfltPagingServiceInfo
  | .IntegerNumber => .IntegerNumber dfltIntegerNumber
  | .MilliSecondTimeStamp => .MilliSecondTimeStamp dfltMilliSecondTimeStamp
  | .MonitoringEventInformation => .MonitoringEventInformation dfltMonitoringEventInformation
  | .EcgiList => .EcgiList dfltEcgiList
  | .RemoteUeContext => .RemoteUeContext dfltRemoteUeContext
  | .RemoteUserId => .RemoteUserId dfltRemoteUserId
  | .RemoteUeIpInformation => .RemoteUeIpInformation dfltRemoteUeIpInformation
  | .CIoTOptimizationSupportIndication => .CIoTOptimizationSupportIndication dfltCIoTOptimizationSupportIndication
  | .ScefPdnConnections => .ScefPdnConnections dfltScefPdnConnections
  | .HeaderCompressionConfiguration => .HeaderCompressionConfiguration dfltHeaderCompressionConfiguration
  | .Epco => .Epco dfltEpco
  | .ServingPlmnRateControl => .ServingPlmnRateControl dfltServingPlmnRateControl
  | .Counter => .Counter dfltCounter
  | .MappedUeUsageType => .MappedUeUsageType dfltMappedUeUsageType
  | .SecondaryRatUsageDataReport => .SecondaryRatUsageDataReport dfltSecondaryRatUsageDataReport
  | .UpFunctionSelectionIndicationFlags => .UpFunctionSelectionIndicationFlags dfltUpFunctionSelectionIndicationFlags
  | .MaxPacketLossRate => .MaxPacketLossRate dfltMaxPacketLossRate
  | .ApnRateControlStatus => .ApnRateControlStatus dfltApnRateControlStatus
  | .ExtendedTraceInformation => .ExtendedTraceInformation dfltExtendedTraceInformation
  | .MonitoringEventExtensionInfo => .MonitoringEventExtensionInfo dfltMonitoringEventExtensionInfo
  | .AdditionalRrmPolicyIndex => .AdditionalRrmPolicyIndex dfltAdditionalRrmPolicyIndex
  | .V2xInformation => .V2xInformation dfltV2xInformation
  | .PC5QosParameters => .PC5QosParameters dfltPC5QosParameters
  | .ServicesAuthorized => .ServicesAuthorized dfltServicesAuthorized
  | .BitRate => .BitRate dfltBitRate
  | .PC5QosFlow => .PC5QosFlow dfltPC5QosFlow
  | .SgiPtpTunnelAddress => .SgiPtpTunnelAddress dfltSgiPtpTunnelAddress
  | .PgwChangeInfo => .PgwChangeInfo dfltPgwChangeInfo
  | .PgwFqdn => .PgwFqdn dfltPgwFqdn
  | .GroupId => .GroupId dfltGroupId
  | .PSCellId => .PSCellId dfltPSCellId
  | .UpSecurityPolicy => .UpSecurityPolicy dfltUpSecurityPolicy
  | .AlternativeImsi => .AlternativeImsi dfltAlternativeImsi
  | .SpecialIEWithTypeExt => .SpecialIEWithTypeExt dfltSpecialIEWithTypeExt
  | .PrivateExtension => .PrivateExtension dfltPrivateExtension
  | .Unknown => .Unknown dfltUnknown

/-- All kinds. -/
def Kind.list : List Kind := [
  .Imsi, .Cause, .Recovery, .StnSr, .SrvccCause, .Apn,
  .ApnAmbr, .Ebi, .IpAddress, .Mei, .Msisdn, .Indication,
  .Pco, .PdnAddressAllocation, .BearerQos, .FlowQos, .RatType, .ServingNetwork,
  .BearerTft, .TrafficAggregateDescription, .Uli, .Fteid, .Tmsi, .GlobalCnId,
  .S103pdf, .S1udf, .DelayValue, .BearerContext, .ChargingId, .ChargingCharacteristics,
  .TraceInformation, .BearerFlags, .PdnType, .Pti, .MmContext, .PdnConnections,
  .PduNumbers, .Ptmsi, .PtmsiSignature, .HopCounter, .UeTimeZone, .TraceReference,
  .CompleteRequestMessage, .Guti, .Fcontainer, .Fcause, .PlmnId, .TargetIdentification,
  .PacketFlowId, .RabContext, .SrcRncPdcpCtxInfo, .PortNumber, .ApnRestriction, .SelectionMode,
  .SourceIdentification, .ChangeReportingAction, .Fqcsid, .ChannelNeeded, .EmlppPriority, .NodeType,
  .Fqdn, .TransactionIdentifier, .MbmsSa, .MbmsSd, .MbmsSessionId, .MbmsFlowId,
  .MbmsIpMulticastDistribution, .MbmsDistributionAck, .RfspIndex, .Uci, .CSGInformationReportingAction, .CsgId,
  .CsgMembershipIndication, .ServiceIndicator, .DetachType, .Ldn, .NodeFeatures, .MbmsTimeToDataTransfer,
  .Throttling, .Arp, .EpcTimer, .Spi, .Tmgi, .AdditionalMmContextForSrvcc,
  .AdditionalFlagsSrvcc, .MdtConfiguration, .Apco, .AbsoluteTimeMbmsDataTransfer, .HenbInfoReporting, .Ip4Cp,
  .ChangeToReportFlags, .ActionIndication, .TwanId, .UliTimestamp, .MbmsFlags, .RanNasCause,
  .CnOperatorSelectionEntity, .Twmi, .NodeNumber, .NodeIdentifier, .PresenceReportingAreaAction, .PresenceReportingAreaInformation,
  .TwanIdTimeStamp, .OverloadControlInfo, .LoadControlInfo, .Metric, .Sqn, .ApnRelativeCapacity,
  .WlanOffloadIndication, .PagingServiceInfo, .IntegerNumber, .MilliSecondTimeStamp, .MonitoringEventInformation, .EcgiList,
  .RemoteUeContext, .RemoteUserId, .RemoteUeIpInformation, .CIoTOptimizationSupportIndication, .ScefPdnConnections, .HeaderCompressionConfiguration,
  .Epco, .ServingPlmnRateControl, .Counter, .MappedUeUsageType, .SecondaryRatUsageDataReport, .UpFunctionSelectionIndicationFlags,
  .MaxPacketLossRate, .ApnRateControlStatus, .ExtendedTraceInformation, .MonitoringEventExtensionInfo, .AdditionalRrmPolicyIndex, .V2xInformation,
  .PC5QosParameters, .ServicesAuthorized, .BitRate, .PC5QosFlow, .SgiPtpTunnelAddress, .PgwChangeInfo,
  .PgwFqdn, .GroupId, .PSCellId, .UpSecurityPolicy, .AlternativeImsi, .SpecialIEWithTypeExt,
  .PrivateExtension, .Unknown]

end Gtp.V2
