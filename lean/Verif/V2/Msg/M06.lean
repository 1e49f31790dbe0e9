import Verif.V2.Msg.Tactic

/-!
# GTPv2-C messages, part 6

Generated by `scripts/gen_msgs.py` from the Rust sources: `ForwardRelocationRequest`.
-/

namespace Gtp.V2.Msg

/-- `ForwardRelocationRequest` (forwardrelocationreq.rs:15-56). -/
structure ForwardRelocationRequest where
  header : Header
  imsi : Option V2.Imsi
  fteid_control : V2.Fteid
  ue_eps_pdn : List V2.PdnConnections
  sgw_fteid : Option V2.Fteid
  fqdns : List V2.Fqdn
  mmctx : V2.MmContext
  indication : Option V2.Indication
  f_containers : List V2.Fcontainer
  target_id : Option V2.TargetIdentification
  ip_addresses : List V2.IpAddress
  f_causes : List V2.Fcause
  source_id : Option V2.SourceIdentification
  selected_plmnid : Option V2.PlmnId
  recovery : Option V2.Recovery
  trace_info : Option V2.TraceInformation
  rfsp_indexes : List V2.RfspIndex
  csg_id : Option V2.CsgId
  cmi : Option V2.CsgMembershipIndication
  ue_time_zone : Option V2.UeTimeZone
  srv_network : Option V2.ServingNetwork
  mme_sgsn_ldn : Option V2.Ldn
  add_mmctx_for_srvcc : Option V2.AdditionalMmContextForSrvcc
  add_flags_for_srvcc : Option V2.AdditionalFlagsSrvcc
  stnsr : Option V2.StnSr
  msisdns : List V2.Msisdn
  mdt_cfg : Option V2.MdtConfiguration
  uci : Option V2.Uci
  monitor_event_info : List V2.MonitoringEventInformation
  monitor_even_ext_info : List V2.MonitoringEventExtensionInfo
  ue_usage_type : Option V2.IntegerNumber
  scef_pdn_connections : List V2.ScefPdnConnections
  src_udp_port : Option V2.PortNumber
  srv_plmn_rate_cntrl : Option V2.ServingPlmnRateControl
  ext_trace_info : Option V2.ExtendedTraceInformation
  add_rrm_policy_index : List V2.AdditionalRrmPolicyIndex
  subcr_v2x_info : Option V2.V2xInformation
  iwk_scef_id : Option V2.NodeIdentifier
  alt_imsi : Option V2.AlternativeImsi
  private_ext : List V2.PrivateExtension
deriving DecidableEq

namespace ForwardRelocationRequest

/-- `default` (forwardrelocationreq.rs:59-107). -/
def dflt : ForwardRelocationRequest :=
  { header := { Header.default with msgtype := 133, teid := some 0 }, imsi := none, fteid_control := V2.Fteid.dflt, ue_eps_pdn := [], sgw_fteid := none, fqdns := [], mmctx := V2.MmContext.dflt, indication := none, f_containers := [], target_id := none, ip_addresses := [], f_causes := [], source_id := none, selected_plmnid := none, recovery := none, trace_info := none, rfsp_indexes := [], csg_id := none, cmi := none, ue_time_zone := none, srv_network := none, mme_sgsn_ldn := none, add_mmctx_for_srvcc := none, add_flags_for_srvcc := none, stnsr := none, msisdns := [], mdt_cfg := none, uci := none, monitor_event_info := [], monitor_even_ext_info := [], ue_usage_type := none, scef_pdn_connections := [], src_udp_port := none, srv_plmn_rate_cntrl := none, ext_trace_info := none, add_rrm_policy_index := [], subcr_v2x_info := none, iwk_scef_id := none, alt_imsi := none, private_ext := [] }

/-- `tovec` (forwardrelocationreq.rs:143-299). -/
def tovec (x : ForwardRelocationRequest) : List IE :=
  optV .Imsi x.imsi ++ (
  [.Fteid x.fteid_control] ++ (
  x.ue_eps_pdn.map .PdnConnections ++ (
  optV .Fteid x.sgw_fteid ++ (
  x.fqdns.map .Fqdn ++ (
  [.MmContext x.mmctx] ++ (
  optV .Indication x.indication ++ (
  x.f_containers.map .Fcontainer ++ (
  optV .TargetIdentification x.target_id ++ (
  x.ip_addresses.map .IpAddress ++ (
  x.f_causes.map .Fcause ++ (
  optV .SourceIdentification x.source_id ++ (
  optV .PlmnId x.selected_plmnid ++ (
  optV .Recovery x.recovery ++ (
  optV .TraceInformation x.trace_info ++ (
  x.rfsp_indexes.map .RfspIndex ++ (
  optV .CsgId x.csg_id ++ (
  optV .CsgMembershipIndication x.cmi ++ (
  optV .UeTimeZone x.ue_time_zone ++ (
  optV .ServingNetwork x.srv_network ++ (
  optV .Ldn x.mme_sgsn_ldn ++ (
  optV .AdditionalMmContextForSrvcc x.add_mmctx_for_srvcc ++ (
  optV .AdditionalFlagsSrvcc x.add_flags_for_srvcc ++ (
  optV .StnSr x.stnsr ++ (
  x.msisdns.map .Msisdn ++ (
  optV .MdtConfiguration x.mdt_cfg ++ (
  optV .Uci x.uci ++ (
  x.monitor_event_info.map .MonitoringEventInformation ++ (
  x.monitor_even_ext_info.map .MonitoringEventExtensionInfo ++ (
  optV .IntegerNumber x.ue_usage_type ++ (
  x.scef_pdn_connections.map .ScefPdnConnections ++ (
  optV .PortNumber x.src_udp_port ++ (
  optV .ServingPlmnRateControl x.srv_plmn_rate_cntrl ++ (
  optV .ExtendedTraceInformation x.ext_trace_info ++ (
  x.add_rrm_policy_index.map .AdditionalRrmPolicyIndex ++ (
  optV .V2xInformation x.subcr_v2x_info ++ (
  optV .NodeIdentifier x.iwk_scef_id ++ (
  optV .AlternativeImsi x.alt_imsi ++ (
  x.private_ext.map .PrivateExtension))))))))))))))))))))))))))))))))))))))

/-- The variables of `fromvec`: the message and the array `mandatory` (forwardrelocationreq.rs:301-505). -/
structure St where
  x : ForwardRelocationRequest
  m0 : Bool
  m1 : Bool

/-- One turn of the loop of `fromvec` (forwardrelocationreq.rs:301-505). -/
def step (s : St) : IE → St
  | .Imsi j => if j.ins = 0 ∧ s.x.imsi.isNone = true then { s with x := { s.x with imsi := some j } } else s
  | .Fteid j => if j.ins = 0 ∧ s.m0 = false then { s with x := { s.x with fteid_control := j }, m0 := true } else if j.ins = 1 ∧ s.x.sgw_fteid.isNone = true then { s with x := { s.x with sgw_fteid := some j } } else s
  | .PdnConnections j => if j.ins = 0 then { s with x := { s.x with ue_eps_pdn := s.x.ue_eps_pdn ++ [j] } } else s
  | .Fqdn j => if j.ins < 3 then { s with x := { s.x with fqdns := s.x.fqdns ++ [j] } } else s
  | .MmContext j => if j.ins = 0 ∧ s.m1 = false then { s with x := { s.x with mmctx := j }, m1 := true } else s
  | .Indication j => if j.ins = 0 ∧ s.x.indication.isNone = true then { s with x := { s.x with indication := some j } } else s
  | .Fcontainer j => if j.ins < 3 then { s with x := { s.x with f_containers := s.x.f_containers ++ [j] } } else s
  | .TargetIdentification j => if j.ins = 0 ∧ s.x.target_id.isNone = true then { s with x := { s.x with target_id := some j } } else s
  | .IpAddress j => if j.ins < 2 then { s with x := { s.x with ip_addresses := s.x.ip_addresses ++ [j] } } else s
  | .Fcause j => if j.ins < 3 then { s with x := { s.x with f_causes := s.x.f_causes ++ [j] } } else s
  | .SourceIdentification j => if j.ins = 0 ∧ s.x.source_id.isNone = true then { s with x := { s.x with source_id := some j } } else s
  | .PlmnId j => if j.ins = 0 ∧ s.x.selected_plmnid.isNone = true then { s with x := { s.x with selected_plmnid := some j } } else s
  | .Recovery j => if j.ins = 0 ∧ s.x.recovery.isNone = true then { s with x := { s.x with recovery := some j } } else s
  | .TraceInformation j => if j.ins = 0 ∧ s.x.trace_info.isNone = true then { s with x := { s.x with trace_info := some j } } else s
  | .RfspIndex j => if j.ins < 2 then { s with x := { s.x with rfsp_indexes := s.x.rfsp_indexes ++ [j] } } else s
  | .CsgId j => if j.ins = 0 ∧ s.x.csg_id.isNone = true then { s with x := { s.x with csg_id := some j } } else s
  | .CsgMembershipIndication j => if j.ins = 0 ∧ s.x.cmi.isNone = true then { s with x := { s.x with cmi := some j } } else s
  | .UeTimeZone j => if j.ins = 0 ∧ s.x.ue_time_zone.isNone = true then { s with x := { s.x with ue_time_zone := some j } } else s
  | .ServingNetwork j => if j.ins = 0 ∧ s.x.srv_network.isNone = true then { s with x := { s.x with srv_network := some j } } else s
  | .Ldn j => if j.ins = 0 ∧ s.x.mme_sgsn_ldn.isNone = true then { s with x := { s.x with mme_sgsn_ldn := some j } } else s
  | .AdditionalMmContextForSrvcc j => if j.ins = 0 ∧ s.x.add_mmctx_for_srvcc.isNone = true then { s with x := { s.x with add_mmctx_for_srvcc := some j } } else s
  | .AdditionalFlagsSrvcc j => if j.ins = 0 ∧ s.x.add_flags_for_srvcc.isNone = true then { s with x := { s.x with add_flags_for_srvcc := some j } } else s
  | .StnSr j => if j.ins = 0 ∧ s.x.stnsr.isNone = true then { s with x := { s.x with stnsr := some j } } else s
  | .Msisdn j => if j.ins < 2 then { s with x := { s.x with msisdns := s.x.msisdns ++ [j] } } else s
  | .MdtConfiguration j => if j.ins = 0 ∧ s.x.mdt_cfg.isNone = true then { s with x := { s.x with mdt_cfg := some j } } else s
  | .Uci j => if j.ins = 0 ∧ s.x.uci.isNone = true then { s with x := { s.x with uci := some j } } else s
  | .MonitoringEventInformation j => if j.ins = 0 then { s with x := { s.x with monitor_event_info := s.x.monitor_event_info ++ [j] } } else s
  | .MonitoringEventExtensionInfo j => if j.ins = 0 then { s with x := { s.x with monitor_even_ext_info := s.x.monitor_even_ext_info ++ [j] } } else s
  | .IntegerNumber j => if j.ins = 0 ∧ s.x.ue_usage_type.isNone = true then { s with x := { s.x with ue_usage_type := some j } } else s
  | .ScefPdnConnections j => if j.ins = 0 then { s with x := { s.x with scef_pdn_connections := s.x.scef_pdn_connections ++ [j] } } else s
  | .PortNumber j => if j.ins = 0 ∧ s.x.src_udp_port.isNone = true then { s with x := { s.x with src_udp_port := some j } } else s
  | .ServingPlmnRateControl j => if j.ins = 0 ∧ s.x.srv_plmn_rate_cntrl.isNone = true then { s with x := { s.x with srv_plmn_rate_cntrl := some j } } else s
  | .ExtendedTraceInformation j => if j.ins = 0 ∧ s.x.ext_trace_info.isNone = true then { s with x := { s.x with ext_trace_info := some j } } else s
  | .AdditionalRrmPolicyIndex j => if j.ins < 2 then { s with x := { s.x with add_rrm_policy_index := s.x.add_rrm_policy_index ++ [j] } } else s
  | .V2xInformation j => if j.ins = 0 ∧ s.x.subcr_v2x_info.isNone = true then { s with x := { s.x with subcr_v2x_info := some j } } else s
  | .NodeIdentifier j => if j.ins = 0 ∧ s.x.iwk_scef_id.isNone = true then { s with x := { s.x with iwk_scef_id := some j } } else s
  | .AlternativeImsi j => if j.ins = 0 ∧ s.x.alt_imsi.isNone = true then { s with x := { s.x with alt_imsi := some j } } else s
  | .PrivateExtension j => { s with x := { s.x with private_ext := s.x.private_ext ++ [j] } }
  | _ => s

/-- The end of `fromvec` (forwardrelocationreq.rs:301-505). -/
def finish (s : St) : R Err ForwardRelocationRequest :=
  match s.m0, s.m1 with
  | true, true => .ok s.x
  | false, _ => .err (.messageMandatoryIEMissing 1)
  | _, false => .err (.messageMandatoryIEMissing 107)

/-- `fromvec` (forwardrelocationreq.rs:301-505). -/
def fromvec (x : ForwardRelocationRequest) (els : List IE) : R Err ForwardRelocationRequest := finish (els.foldl step ⟨x, false, false⟩)

/-- The message type (forwardrelocationreq.rs:111-141). -/
def codec : Codec ForwardRelocationRequest :=
  { msgtype := 133, start := some 12, dflt, header := header, setHeader := fun x h => { x with header := h }, tovec, fromvec }

/-- One slot per field. -/
def schema : Schema :=
  [⟨.Imsi, .is 0, .opt⟩,
   ⟨.Fteid, .is 0, .one⟩,
   ⟨.PdnConnections, .is 0, .many⟩,
   ⟨.Fteid, .is 1, .opt⟩,
   ⟨.Fqdn, .lt 3, .many⟩,
   ⟨.MmContext, .is 0, .one⟩,
   ⟨.Indication, .is 0, .opt⟩,
   ⟨.Fcontainer, .lt 3, .many⟩,
   ⟨.TargetIdentification, .is 0, .opt⟩,
   ⟨.IpAddress, .lt 2, .many⟩,
   ⟨.Fcause, .lt 3, .many⟩,
   ⟨.SourceIdentification, .is 0, .opt⟩,
   ⟨.PlmnId, .is 0, .opt⟩,
   ⟨.Recovery, .is 0, .opt⟩,
   ⟨.TraceInformation, .is 0, .opt⟩,
   ⟨.RfspIndex, .lt 2, .many⟩,
   ⟨.CsgId, .is 0, .opt⟩,
   ⟨.CsgMembershipIndication, .is 0, .opt⟩,
   ⟨.UeTimeZone, .is 0, .opt⟩,
   ⟨.ServingNetwork, .is 0, .opt⟩,
   ⟨.Ldn, .is 0, .opt⟩,
   ⟨.AdditionalMmContextForSrvcc, .is 0, .opt⟩,
   ⟨.AdditionalFlagsSrvcc, .is 0, .opt⟩,
   ⟨.StnSr, .is 0, .opt⟩,
   ⟨.Msisdn, .lt 2, .many⟩,
   ⟨.MdtConfiguration, .is 0, .opt⟩,
   ⟨.Uci, .is 0, .opt⟩,
   ⟨.MonitoringEventInformation, .is 0, .many⟩,
   ⟨.MonitoringEventExtensionInfo, .is 0, .many⟩,
   ⟨.IntegerNumber, .is 0, .opt⟩,
   ⟨.ScefPdnConnections, .is 0, .many⟩,
   ⟨.PortNumber, .is 0, .opt⟩,
   ⟨.ServingPlmnRateControl, .is 0, .opt⟩,
   ⟨.ExtendedTraceInformation, .is 0, .opt⟩,
   ⟨.AdditionalRrmPolicyIndex, .lt 2, .many⟩,
   ⟨.V2xInformation, .is 0, .opt⟩,
   ⟨.NodeIdentifier, .is 0, .opt⟩,
   ⟨.AlternativeImsi, .is 0, .opt⟩,
   ⟨.PrivateExtension, .any, .many⟩]

/-- The fields as lists of IEs. -/
def fields (x : ForwardRelocationRequest) : List (List IE) :=
  [optV .Imsi x.imsi,
   [.Fteid x.fteid_control],
   x.ue_eps_pdn.map .PdnConnections,
   optV .Fteid x.sgw_fteid,
   x.fqdns.map .Fqdn,
   [.MmContext x.mmctx],
   optV .Indication x.indication,
   x.f_containers.map .Fcontainer,
   optV .TargetIdentification x.target_id,
   x.ip_addresses.map .IpAddress,
   x.f_causes.map .Fcause,
   optV .SourceIdentification x.source_id,
   optV .PlmnId x.selected_plmnid,
   optV .Recovery x.recovery,
   optV .TraceInformation x.trace_info,
   x.rfsp_indexes.map .RfspIndex,
   optV .CsgId x.csg_id,
   optV .CsgMembershipIndication x.cmi,
   optV .UeTimeZone x.ue_time_zone,
   optV .ServingNetwork x.srv_network,
   optV .Ldn x.mme_sgsn_ldn,
   optV .AdditionalMmContextForSrvcc x.add_mmctx_for_srvcc,
   optV .AdditionalFlagsSrvcc x.add_flags_for_srvcc,
   optV .StnSr x.stnsr,
   x.msisdns.map .Msisdn,
   optV .MdtConfiguration x.mdt_cfg,
   optV .Uci x.uci,
   x.monitor_event_info.map .MonitoringEventInformation,
   x.monitor_even_ext_info.map .MonitoringEventExtensionInfo,
   optV .IntegerNumber x.ue_usage_type,
   x.scef_pdn_connections.map .ScefPdnConnections,
   optV .PortNumber x.src_udp_port,
   optV .ServingPlmnRateControl x.srv_plmn_rate_cntrl,
   optV .ExtendedTraceInformation x.ext_trace_info,
   x.add_rrm_policy_index.map .AdditionalRrmPolicyIndex,
   optV .V2xInformation x.subcr_v2x_info,
   optV .NodeIdentifier x.iwk_scef_id,
   optV .AlternativeImsi x.alt_imsi,
   x.private_ext.map .PrivateExtension]

/-- What the state has collected so far. -/
def St.view (s : St) : List (List IE) :=
  [optV .Imsi s.x.imsi,
   if s.m0 then [.Fteid s.x.fteid_control] else [],
   s.x.ue_eps_pdn.map .PdnConnections,
   optV .Fteid s.x.sgw_fteid,
   s.x.fqdns.map .Fqdn,
   if s.m1 then [.MmContext s.x.mmctx] else [],
   optV .Indication s.x.indication,
   s.x.f_containers.map .Fcontainer,
   optV .TargetIdentification s.x.target_id,
   s.x.ip_addresses.map .IpAddress,
   s.x.f_causes.map .Fcause,
   optV .SourceIdentification s.x.source_id,
   optV .PlmnId s.x.selected_plmnid,
   optV .Recovery s.x.recovery,
   optV .TraceInformation s.x.trace_info,
   s.x.rfsp_indexes.map .RfspIndex,
   optV .CsgId s.x.csg_id,
   optV .CsgMembershipIndication s.x.cmi,
   optV .UeTimeZone s.x.ue_time_zone,
   optV .ServingNetwork s.x.srv_network,
   optV .Ldn s.x.mme_sgsn_ldn,
   optV .AdditionalMmContextForSrvcc s.x.add_mmctx_for_srvcc,
   optV .AdditionalFlagsSrvcc s.x.add_flags_for_srvcc,
   optV .StnSr s.x.stnsr,
   s.x.msisdns.map .Msisdn,
   optV .MdtConfiguration s.x.mdt_cfg,
   optV .Uci s.x.uci,
   s.x.monitor_event_info.map .MonitoringEventInformation,
   s.x.monitor_even_ext_info.map .MonitoringEventExtensionInfo,
   optV .IntegerNumber s.x.ue_usage_type,
   s.x.scef_pdn_connections.map .ScefPdnConnections,
   optV .PortNumber s.x.src_udp_port,
   optV .ServingPlmnRateControl s.x.srv_plmn_rate_cntrl,
   optV .ExtendedTraceInformation s.x.ext_trace_info,
   s.x.add_rrm_policy_index.map .AdditionalRrmPolicyIndex,
   optV .V2xInformation s.x.subcr_v2x_info,
   optV .NodeIdentifier s.x.iwk_scef_id,
   optV .AlternativeImsi s.x.alt_imsi,
   s.x.private_ext.map .PrivateExtension]

/-- The header is left alone; flags of mandatory lists tell whether the list is empty. -/
def St.Inv (h : Header) (s : St) : Prop :=
  s.x.header = h

theorem step_view (h : Header) (s : St) (e : IE) (hi : s.Inv h) : (step s e).view = Schema.step schema s.view e ∧ (step s e).Inv h := by
  cases e
  case Imsi j =>
    simp only [step]
    repeat' split
    all_goals refine ⟨cons_congr ?_ ((Schema.step_other rfl rfl).symm), ?_⟩
    all_goals first | exact hi | msg_field | (simp_all [St.Inv]; done)
  case Fteid j =>
    simp only [step]
    repeat' split
    all_goals refine ⟨cons_congr (Slot.step_ne rfl).symm (cons_congr ?_ (cons_congr (Slot.step_ne rfl).symm (cons_congr ?_ ((Schema.step_other rfl rfl).symm)))), ?_⟩
    all_goals first | exact hi | msg_field | (simp_all [St.Inv]; done)
  case PdnConnections j =>
    simp only [step]
    repeat' split
    all_goals refine ⟨cons_congr (Slot.step_ne rfl).symm (cons_congr (Slot.step_ne rfl).symm (cons_congr ?_ ((Schema.step_other rfl rfl).symm))), ?_⟩
    all_goals first | exact hi | msg_field | (simp_all [St.Inv]; done)
  case Fqdn j =>
    simp only [step]
    repeat' split
    all_goals refine ⟨cons_congr (Slot.step_ne rfl).symm (cons_congr (Slot.step_ne rfl).symm (cons_congr (Slot.step_ne rfl).symm (cons_congr (Slot.step_ne rfl).symm (cons_congr ?_ ((Schema.step_other rfl rfl).symm))))), ?_⟩
    all_goals first | exact hi | msg_field | (simp_all [St.Inv]; done)
  case MmContext j =>
    simp only [step]
    repeat' split
    all_goals refine ⟨cons_congr (Slot.step_ne rfl).symm (cons_congr (Slot.step_ne rfl).symm (cons_congr (Slot.step_ne rfl).symm (cons_congr (Slot.step_ne rfl).symm (cons_congr (Slot.step_ne rfl).symm (cons_congr ?_ ((Schema.step_other rfl rfl).symm)))))), ?_⟩
    all_goals first | exact hi | msg_field | (simp_all [St.Inv]; done)
  case Indication j =>
    simp only [step]
    repeat' split
    all_goals refine ⟨cons_congr (Slot.step_ne rfl).symm (cons_congr (Slot.step_ne rfl).symm (cons_congr (Slot.step_ne rfl).symm (cons_congr (Slot.step_ne rfl).symm (cons_congr (Slot.step_ne rfl).symm (cons_congr (Slot.step_ne rfl).symm (cons_congr ?_ ((Schema.step_other rfl rfl).symm))))))), ?_⟩
    all_goals first | exact hi | msg_field | (simp_all [St.Inv]; done)
  case Fcontainer j =>
    simp only [step]
    repeat' split
    all_goals refine ⟨cons_congr (Slot.step_ne rfl).symm (cons_congr (Slot.step_ne rfl).symm (cons_congr (Slot.step_ne rfl).symm (cons_congr (Slot.step_ne rfl).symm (cons_congr (Slot.step_ne rfl).symm (cons_congr (Slot.step_ne rfl).symm (cons_congr (Slot.step_ne rfl).symm (cons_congr ?_ ((Schema.step_other rfl rfl).symm)))))))), ?_⟩
    all_goals first | exact hi | msg_field | (simp_all [St.Inv]; done)
  case TargetIdentification j =>
    simp only [step]
    repeat' split
    all_goals refine ⟨cons_congr (Slot.step_ne rfl).symm (cons_congr (Slot.step_ne rfl).symm (cons_congr (Slot.step_ne rfl).symm (cons_congr (Slot.step_ne rfl).symm (cons_congr (Slot.step_ne rfl).symm (cons_congr (Slot.step_ne rfl).symm (cons_congr (Slot.step_ne rfl).symm (cons_congr (Slot.step_ne rfl).symm (cons_congr ?_ ((Schema.step_other rfl rfl).symm))))))))), ?_⟩
    all_goals first | exact hi | msg_field | (simp_all [St.Inv]; done)
  case IpAddress j =>
    simp only [step]
    repeat' split
    all_goals refine ⟨cons_congr (Slot.step_ne rfl).symm (cons_congr (Slot.step_ne rfl).symm (cons_congr (Slot.step_ne rfl).symm (cons_congr (Slot.step_ne rfl).symm (cons_congr (Slot.step_ne rfl).symm (cons_congr (Slot.step_ne rfl).symm (cons_congr (Slot.step_ne rfl).symm (cons_congr (Slot.step_ne rfl).symm (cons_congr (Slot.step_ne rfl).symm (cons_congr ?_ ((Schema.step_other rfl rfl).symm)))))))))), ?_⟩
    all_goals first | exact hi | msg_field | (simp_all [St.Inv]; done)
  case Fcause j =>
    simp only [step]
    repeat' split
    all_goals refine ⟨cons_congr (Slot.step_ne rfl).symm (cons_congr (Slot.step_ne rfl).symm (cons_congr (Slot.step_ne rfl).symm (cons_congr (Slot.step_ne rfl).symm (cons_congr (Slot.step_ne rfl).symm (cons_congr (Slot.step_ne rfl).symm (cons_congr (Slot.step_ne rfl).symm (cons_congr (Slot.step_ne rfl).symm (cons_congr (Slot.step_ne rfl).symm (cons_congr (Slot.step_ne rfl).symm (cons_congr ?_ ((Schema.step_other rfl rfl).symm))))))))))), ?_⟩
    all_goals first | exact hi | msg_field | (simp_all [St.Inv]; done)
  case SourceIdentification j =>
    simp only [step]
    repeat' split
    all_goals refine ⟨cons_congr (Slot.step_ne rfl).symm (cons_congr (Slot.step_ne rfl).symm (cons_congr (Slot.step_ne rfl).symm (cons_congr (Slot.step_ne rfl).symm (cons_congr (Slot.step_ne rfl).symm (cons_congr (Slot.step_ne rfl).symm (cons_congr (Slot.step_ne rfl).symm (cons_congr (Slot.step_ne rfl).symm (cons_congr (Slot.step_ne rfl).symm (cons_congr (Slot.step_ne rfl).symm (cons_congr (Slot.step_ne rfl).symm (cons_congr ?_ ((Schema.step_other rfl rfl).symm)))))))))))), ?_⟩
    all_goals first | exact hi | msg_field | (simp_all [St.Inv]; done)
  case PlmnId j =>
    simp only [step]
    repeat' split
    all_goals refine ⟨cons_congr (Slot.step_ne rfl).symm (cons_congr (Slot.step_ne rfl).symm (cons_congr (Slot.step_ne rfl).symm (cons_congr (Slot.step_ne rfl).symm (cons_congr (Slot.step_ne rfl).symm (cons_congr (Slot.step_ne rfl).symm (cons_congr (Slot.step_ne rfl).symm (cons_congr (Slot.step_ne rfl).symm (cons_congr (Slot.step_ne rfl).symm (cons_congr (Slot.step_ne rfl).symm (cons_congr (Slot.step_ne rfl).symm (cons_congr (Slot.step_ne rfl).symm (cons_congr ?_ ((Schema.step_other rfl rfl).symm))))))))))))), ?_⟩
    all_goals first | exact hi | msg_field | (simp_all [St.Inv]; done)
  case Recovery j =>
    simp only [step]
    repeat' split
    all_goals refine ⟨cons_congr (Slot.step_ne rfl).symm (cons_congr (Slot.step_ne rfl).symm (cons_congr (Slot.step_ne rfl).symm (cons_congr (Slot.step_ne rfl).symm (cons_congr (Slot.step_ne rfl).symm (cons_congr (Slot.step_ne rfl).symm (cons_congr (Slot.step_ne rfl).symm (cons_congr (Slot.step_ne rfl).symm (cons_congr (Slot.step_ne rfl).symm (cons_congr (Slot.step_ne rfl).symm (cons_congr (Slot.step_ne rfl).symm (cons_congr (Slot.step_ne rfl).symm (cons_congr (Slot.step_ne rfl).symm (cons_congr ?_ ((Schema.step_other rfl rfl).symm)))))))))))))), ?_⟩
    all_goals first | exact hi | msg_field | (simp_all [St.Inv]; done)
  case TraceInformation j =>
    simp only [step]
    repeat' split
    all_goals refine ⟨cons_congr (Slot.step_ne rfl).symm (cons_congr (Slot.step_ne rfl).symm (cons_congr (Slot.step_ne rfl).symm (cons_congr (Slot.step_ne rfl).symm (cons_congr (Slot.step_ne rfl).symm (cons_congr (Slot.step_ne rfl).symm (cons_congr (Slot.step_ne rfl).symm (cons_congr (Slot.step_ne rfl).symm (cons_congr (Slot.step_ne rfl).symm (cons_congr (Slot.step_ne rfl).symm (cons_congr (Slot.step_ne rfl).symm (cons_congr (Slot.step_ne rfl).symm (cons_congr (Slot.step_ne rfl).symm (cons_congr (Slot.step_ne rfl).symm (cons_congr ?_ ((Schema.step_other rfl rfl).symm))))))))))))))), ?_⟩
    all_goals first | exact hi | msg_field | (simp_all [St.Inv]; done)
  case RfspIndex j =>
    simp only [step]
    repeat' split
    all_goals refine ⟨cons_congr (Slot.step_ne rfl).symm (cons_congr (Slot.step_ne rfl).symm (cons_congr (Slot.step_ne rfl).symm (cons_congr (Slot.step_ne rfl).symm (cons_congr (Slot.step_ne rfl).symm (cons_congr (Slot.step_ne rfl).symm (cons_congr (Slot.step_ne rfl).symm (cons_congr (Slot.step_ne rfl).symm (cons_congr (Slot.step_ne rfl).symm (cons_congr (Slot.step_ne rfl).symm (cons_congr (Slot.step_ne rfl).symm (cons_congr (Slot.step_ne rfl).symm (cons_congr (Slot.step_ne rfl).symm (cons_congr (Slot.step_ne rfl).symm (cons_congr (Slot.step_ne rfl).symm (cons_congr ?_ ((Schema.step_other rfl rfl).symm)))))))))))))))), ?_⟩
    all_goals first | exact hi | msg_field | (simp_all [St.Inv]; done)
  case CsgId j =>
    simp only [step]
    repeat' split
    all_goals refine ⟨cons_congr (Slot.step_ne rfl).symm (cons_congr (Slot.step_ne rfl).symm (cons_congr (Slot.step_ne rfl).symm (cons_congr (Slot.step_ne rfl).symm (cons_congr (Slot.step_ne rfl).symm (cons_congr (Slot.step_ne rfl).symm (cons_congr (Slot.step_ne rfl).symm (cons_congr (Slot.step_ne rfl).symm (cons_congr (Slot.step_ne rfl).symm (cons_congr (Slot.step_ne rfl).symm (cons_congr (Slot.step_ne rfl).symm (cons_congr (Slot.step_ne rfl).symm (cons_congr (Slot.step_ne rfl).symm (cons_congr (Slot.step_ne rfl).symm (cons_congr (Slot.step_ne rfl).symm (cons_congr (Slot.step_ne rfl).symm (cons_congr ?_ ((Schema.step_other rfl rfl).symm))))))))))))))))), ?_⟩
    all_goals first | exact hi | msg_field | (simp_all [St.Inv]; done)
  case CsgMembershipIndication j =>
    simp only [step]
    repeat' split
    all_goals refine ⟨cons_congr (Slot.step_ne rfl).symm (cons_congr (Slot.step_ne rfl).symm (cons_congr (Slot.step_ne rfl).symm (cons_congr (Slot.step_ne rfl).symm (cons_congr (Slot.step_ne rfl).symm (cons_congr (Slot.step_ne rfl).symm (cons_congr (Slot.step_ne rfl).symm (cons_congr (Slot.step_ne rfl).symm (cons_congr (Slot.step_ne rfl).symm (cons_congr (Slot.step_ne rfl).symm (cons_congr (Slot.step_ne rfl).symm (cons_congr (Slot.step_ne rfl).symm (cons_congr (Slot.step_ne rfl).symm (cons_congr (Slot.step_ne rfl).symm (cons_congr (Slot.step_ne rfl).symm (cons_congr (Slot.step_ne rfl).symm (cons_congr (Slot.step_ne rfl).symm (cons_congr ?_ ((Schema.step_other rfl rfl).symm)))))))))))))))))), ?_⟩
    all_goals first | exact hi | msg_field | (simp_all [St.Inv]; done)
  case UeTimeZone j =>
    simp only [step]
    repeat' split
    all_goals refine ⟨cons_congr (Slot.step_ne rfl).symm (cons_congr (Slot.step_ne rfl).symm (cons_congr (Slot.step_ne rfl).symm (cons_congr (Slot.step_ne rfl).symm (cons_congr (Slot.step_ne rfl).symm (cons_congr (Slot.step_ne rfl).symm (cons_congr (Slot.step_ne rfl).symm (cons_congr (Slot.step_ne rfl).symm (cons_congr (Slot.step_ne rfl).symm (cons_congr (Slot.step_ne rfl).symm (cons_congr (Slot.step_ne rfl).symm (cons_congr (Slot.step_ne rfl).symm (cons_congr (Slot.step_ne rfl).symm (cons_congr (Slot.step_ne rfl).symm (cons_congr (Slot.step_ne rfl).symm (cons_congr (Slot.step_ne rfl).symm (cons_congr (Slot.step_ne rfl).symm (cons_congr (Slot.step_ne rfl).symm (cons_congr ?_ ((Schema.step_other rfl rfl).symm))))))))))))))))))), ?_⟩
    all_goals first | exact hi | msg_field | (simp_all [St.Inv]; done)
  case ServingNetwork j =>
    simp only [step]
    repeat' split
    all_goals refine ⟨cons_congr (Slot.step_ne rfl).symm (cons_congr (Slot.step_ne rfl).symm (cons_congr (Slot.step_ne rfl).symm (cons_congr (Slot.step_ne rfl).symm (cons_congr (Slot.step_ne rfl).symm (cons_congr (Slot.step_ne rfl).symm (cons_congr (Slot.step_ne rfl).symm (cons_congr (Slot.step_ne rfl).symm (cons_congr (Slot.step_ne rfl).symm (cons_congr (Slot.step_ne rfl).symm (cons_congr (Slot.step_ne rfl).symm (cons_congr (Slot.step_ne rfl).symm (cons_congr (Slot.step_ne rfl).symm (cons_congr (Slot.step_ne rfl).symm (cons_congr (Slot.step_ne rfl).symm (cons_congr (Slot.step_ne rfl).symm (cons_congr (Slot.step_ne rfl).symm (cons_congr (Slot.step_ne rfl).symm (cons_congr (Slot.step_ne rfl).symm (cons_congr ?_ ((Schema.step_other rfl rfl).symm)))))))))))))))))))), ?_⟩
    all_goals first | exact hi | msg_field | (simp_all [St.Inv]; done)
  case Ldn j =>
    simp only [step]
    repeat' split
    all_goals refine ⟨cons_congr (Slot.step_ne rfl).symm (cons_congr (Slot.step_ne rfl).symm (cons_congr (Slot.step_ne rfl).symm (cons_congr (Slot.step_ne rfl).symm (cons_congr (Slot.step_ne rfl).symm (cons_congr (Slot.step_ne rfl).symm (cons_congr (Slot.step_ne rfl).symm (cons_congr (Slot.step_ne rfl).symm (cons_congr (Slot.step_ne rfl).symm (cons_congr (Slot.step_ne rfl).symm (cons_congr (Slot.step_ne rfl).symm (cons_congr (Slot.step_ne rfl).symm (cons_congr (Slot.step_ne rfl).symm (cons_congr (Slot.step_ne rfl).symm (cons_congr (Slot.step_ne rfl).symm (cons_congr (Slot.step_ne rfl).symm (cons_congr (Slot.step_ne rfl).symm (cons_congr (Slot.step_ne rfl).symm (cons_congr (Slot.step_ne rfl).symm (cons_congr (Slot.step_ne rfl).symm (cons_congr ?_ ((Schema.step_other rfl rfl).symm))))))))))))))))))))), ?_⟩
    all_goals first | exact hi | msg_field | (simp_all [St.Inv]; done)
  case AdditionalMmContextForSrvcc j =>
    simp only [step]
    repeat' split
    all_goals refine ⟨cons_congr (Slot.step_ne rfl).symm (cons_congr (Slot.step_ne rfl).symm (cons_congr (Slot.step_ne rfl).symm (cons_congr (Slot.step_ne rfl).symm (cons_congr (Slot.step_ne rfl).symm (cons_congr (Slot.step_ne rfl).symm (cons_congr (Slot.step_ne rfl).symm (cons_congr (Slot.step_ne rfl).symm (cons_congr (Slot.step_ne rfl).symm (cons_congr (Slot.step_ne rfl).symm (cons_congr (Slot.step_ne rfl).symm (cons_congr (Slot.step_ne rfl).symm (cons_congr (Slot.step_ne rfl).symm (cons_congr (Slot.step_ne rfl).symm (cons_congr (Slot.step_ne rfl).symm (cons_congr (Slot.step_ne rfl).symm (cons_congr (Slot.step_ne rfl).symm (cons_congr (Slot.step_ne rfl).symm (cons_congr (Slot.step_ne rfl).symm (cons_congr (Slot.step_ne rfl).symm (cons_congr (Slot.step_ne rfl).symm (cons_congr ?_ ((Schema.step_other rfl rfl).symm)))))))))))))))))))))), ?_⟩
    all_goals first | exact hi | msg_field | (simp_all [St.Inv]; done)
  case AdditionalFlagsSrvcc j =>
    simp only [step]
    repeat' split
    all_goals refine ⟨cons_congr (Slot.step_ne rfl).symm (cons_congr (Slot.step_ne rfl).symm (cons_congr (Slot.step_ne rfl).symm (cons_congr (Slot.step_ne rfl).symm (cons_congr (Slot.step_ne rfl).symm (cons_congr (Slot.step_ne rfl).symm (cons_congr (Slot.step_ne rfl).symm (cons_congr (Slot.step_ne rfl).symm (cons_congr (Slot.step_ne rfl).symm (cons_congr (Slot.step_ne rfl).symm (cons_congr (Slot.step_ne rfl).symm (cons_congr (Slot.step_ne rfl).symm (cons_congr (Slot.step_ne rfl).symm (cons_congr (Slot.step_ne rfl).symm (cons_congr (Slot.step_ne rfl).symm (cons_congr (Slot.step_ne rfl).symm (cons_congr (Slot.step_ne rfl).symm (cons_congr (Slot.step_ne rfl).symm (cons_congr (Slot.step_ne rfl).symm (cons_congr (Slot.step_ne rfl).symm (cons_congr (Slot.step_ne rfl).symm (cons_congr (Slot.step_ne rfl).symm (cons_congr ?_ ((Schema.step_other rfl rfl).symm))))))))))))))))))))))), ?_⟩
    all_goals first | exact hi | msg_field | (simp_all [St.Inv]; done)
  case StnSr j =>
    simp only [step]
    repeat' split
    all_goals refine ⟨cons_congr (Slot.step_ne rfl).symm (cons_congr (Slot.step_ne rfl).symm (cons_congr (Slot.step_ne rfl).symm (cons_congr (Slot.step_ne rfl).symm (cons_congr (Slot.step_ne rfl).symm (cons_congr (Slot.step_ne rfl).symm (cons_congr (Slot.step_ne rfl).symm (cons_congr (Slot.step_ne rfl).symm (cons_congr (Slot.step_ne rfl).symm (cons_congr (Slot.step_ne rfl).symm (cons_congr (Slot.step_ne rfl).symm (cons_congr (Slot.step_ne rfl).symm (cons_congr (Slot.step_ne rfl).symm (cons_congr (Slot.step_ne rfl).symm (cons_congr (Slot.step_ne rfl).symm (cons_congr (Slot.step_ne rfl).symm (cons_congr (Slot.step_ne rfl).symm (cons_congr (Slot.step_ne rfl).symm (cons_congr (Slot.step_ne rfl).symm (cons_congr (Slot.step_ne rfl).symm (cons_congr (Slot.step_ne rfl).symm (cons_congr (Slot.step_ne rfl).symm (cons_congr (Slot.step_ne rfl).symm (cons_congr ?_ ((Schema.step_other rfl rfl).symm)))))))))))))))))))))))), ?_⟩
    all_goals first | exact hi | msg_field | (simp_all [St.Inv]; done)
  case Msisdn j =>
    simp only [step]
    repeat' split
    all_goals refine ⟨cons_congr (Slot.step_ne rfl).symm (cons_congr (Slot.step_ne rfl).symm (cons_congr (Slot.step_ne rfl).symm (cons_congr (Slot.step_ne rfl).symm (cons_congr (Slot.step_ne rfl).symm (cons_congr (Slot.step_ne rfl).symm (cons_congr (Slot.step_ne rfl).symm (cons_congr (Slot.step_ne rfl).symm (cons_congr (Slot.step_ne rfl).symm (cons_congr (Slot.step_ne rfl).symm (cons_congr (Slot.step_ne rfl).symm (cons_congr (Slot.step_ne rfl).symm (cons_congr (Slot.step_ne rfl).symm (cons_congr (Slot.step_ne rfl).symm (cons_congr (Slot.step_ne rfl).symm (cons_congr (Slot.step_ne rfl).symm (cons_congr (Slot.step_ne rfl).symm (cons_congr (Slot.step_ne rfl).symm (cons_congr (Slot.step_ne rfl).symm (cons_congr (Slot.step_ne rfl).symm (cons_congr (Slot.step_ne rfl).symm (cons_congr (Slot.step_ne rfl).symm (cons_congr (Slot.step_ne rfl).symm (cons_congr (Slot.step_ne rfl).symm (cons_congr ?_ ((Schema.step_other rfl rfl).symm))))))))))))))))))))))))), ?_⟩
    all_goals first | exact hi | msg_field | (simp_all [St.Inv]; done)
  case MdtConfiguration j =>
    simp only [step]
    repeat' split
    all_goals refine ⟨cons_congr (Slot.step_ne rfl).symm (cons_congr (Slot.step_ne rfl).symm (cons_congr (Slot.step_ne rfl).symm (cons_congr (Slot.step_ne rfl).symm (cons_congr (Slot.step_ne rfl).symm (cons_congr (Slot.step_ne rfl).symm (cons_congr (Slot.step_ne rfl).symm (cons_congr (Slot.step_ne rfl).symm (cons_congr (Slot.step_ne rfl).symm (cons_congr (Slot.step_ne rfl).symm (cons_congr (Slot.step_ne rfl).symm (cons_congr (Slot.step_ne rfl).symm (cons_congr (Slot.step_ne rfl).symm (cons_congr (Slot.step_ne rfl).symm (cons_congr (Slot.step_ne rfl).symm (cons_congr (Slot.step_ne rfl).symm (cons_congr (Slot.step_ne rfl).symm (cons_congr (Slot.step_ne rfl).symm (cons_congr (Slot.step_ne rfl).symm (cons_congr (Slot.step_ne rfl).symm (cons_congr (Slot.step_ne rfl).symm (cons_congr (Slot.step_ne rfl).symm (cons_congr (Slot.step_ne rfl).symm (cons_congr (Slot.step_ne rfl).symm (cons_congr (Slot.step_ne rfl).symm (cons_congr ?_ ((Schema.step_other rfl rfl).symm)))))))))))))))))))))))))), ?_⟩
    all_goals first | exact hi | msg_field | (simp_all [St.Inv]; done)
  case Uci j =>
    simp only [step]
    repeat' split
    all_goals refine ⟨cons_congr (Slot.step_ne rfl).symm (cons_congr (Slot.step_ne rfl).symm (cons_congr (Slot.step_ne rfl).symm (cons_congr (Slot.step_ne rfl).symm (cons_congr (Slot.step_ne rfl).symm (cons_congr (Slot.step_ne rfl).symm (cons_congr (Slot.step_ne rfl).symm (cons_congr (Slot.step_ne rfl).symm (cons_congr (Slot.step_ne rfl).symm (cons_congr (Slot.step_ne rfl).symm (cons_congr (Slot.step_ne rfl).symm (cons_congr (Slot.step_ne rfl).symm (cons_congr (Slot.step_ne rfl).symm (cons_congr (Slot.step_ne rfl).symm (cons_congr (Slot.step_ne rfl).symm (cons_congr (Slot.step_ne rfl).symm (cons_congr (Slot.step_ne rfl).symm (cons_congr (Slot.step_ne rfl).symm (cons_congr (Slot.step_ne rfl).symm (cons_congr (Slot.step_ne rfl).symm (cons_congr (Slot.step_ne rfl).symm (cons_congr (Slot.step_ne rfl).symm (cons_congr (Slot.step_ne rfl).symm (cons_congr (Slot.step_ne rfl).symm (cons_congr (Slot.step_ne rfl).symm (cons_congr (Slot.step_ne rfl).symm (cons_congr ?_ ((Schema.step_other rfl rfl).symm))))))))))))))))))))))))))), ?_⟩
    all_goals first | exact hi | msg_field | (simp_all [St.Inv]; done)
  case MonitoringEventInformation j =>
    simp only [step]
    repeat' split
    all_goals refine ⟨cons_congr (Slot.step_ne rfl).symm (cons_congr (Slot.step_ne rfl).symm (cons_congr (Slot.step_ne rfl).symm (cons_congr (Slot.step_ne rfl).symm (cons_congr (Slot.step_ne rfl).symm (cons_congr (Slot.step_ne rfl).symm (cons_congr (Slot.step_ne rfl).symm (cons_congr (Slot.step_ne rfl).symm (cons_congr (Slot.step_ne rfl).symm (cons_congr (Slot.step_ne rfl).symm (cons_congr (Slot.step_ne rfl).symm (cons_congr (Slot.step_ne rfl).symm (cons_congr (Slot.step_ne rfl).symm (cons_congr (Slot.step_ne rfl).symm (cons_congr (Slot.step_ne rfl).symm (cons_congr (Slot.step_ne rfl).symm (cons_congr (Slot.step_ne rfl).symm (cons_congr (Slot.step_ne rfl).symm (cons_congr (Slot.step_ne rfl).symm (cons_congr (Slot.step_ne rfl).symm (cons_congr (Slot.step_ne rfl).symm (cons_congr (Slot.step_ne rfl).symm (cons_congr (Slot.step_ne rfl).symm (cons_congr (Slot.step_ne rfl).symm (cons_congr (Slot.step_ne rfl).symm (cons_congr (Slot.step_ne rfl).symm (cons_congr (Slot.step_ne rfl).symm (cons_congr ?_ ((Schema.step_other rfl rfl).symm)))))))))))))))))))))))))))), ?_⟩
    all_goals first | exact hi | msg_field | (simp_all [St.Inv]; done)
  case MonitoringEventExtensionInfo j =>
    simp only [step]
    repeat' split
    all_goals refine ⟨cons_congr (Slot.step_ne rfl).symm (cons_congr (Slot.step_ne rfl).symm (cons_congr (Slot.step_ne rfl).symm (cons_congr (Slot.step_ne rfl).symm (cons_congr (Slot.step_ne rfl).symm (cons_congr (Slot.step_ne rfl).symm (cons_congr (Slot.step_ne rfl).symm (cons_congr (Slot.step_ne rfl).symm (cons_congr (Slot.step_ne rfl).symm (cons_congr (Slot.step_ne rfl).symm (cons_congr (Slot.step_ne rfl).symm (cons_congr (Slot.step_ne rfl).symm (cons_congr (Slot.step_ne rfl).symm (cons_congr (Slot.step_ne rfl).symm (cons_congr (Slot.step_ne rfl).symm (cons_congr (Slot.step_ne rfl).symm (cons_congr (Slot.step_ne rfl).symm (cons_congr (Slot.step_ne rfl).symm (cons_congr (Slot.step_ne rfl).symm (cons_congr (Slot.step_ne rfl).symm (cons_congr (Slot.step_ne rfl).symm (cons_congr (Slot.step_ne rfl).symm (cons_congr (Slot.step_ne rfl).symm (cons_congr (Slot.step_ne rfl).symm (cons_congr (Slot.step_ne rfl).symm (cons_congr (Slot.step_ne rfl).symm (cons_congr (Slot.step_ne rfl).symm (cons_congr (Slot.step_ne rfl).symm (cons_congr ?_ ((Schema.step_other rfl rfl).symm))))))))))))))))))))))))))))), ?_⟩
    all_goals first | exact hi | msg_field | (simp_all [St.Inv]; done)
  case IntegerNumber j =>
    simp only [step]
    repeat' split
    all_goals refine ⟨cons_congr (Slot.step_ne rfl).symm (cons_congr (Slot.step_ne rfl).symm (cons_congr (Slot.step_ne rfl).symm (cons_congr (Slot.step_ne rfl).symm (cons_congr (Slot.step_ne rfl).symm (cons_congr (Slot.step_ne rfl).symm (cons_congr (Slot.step_ne rfl).symm (cons_congr (Slot.step_ne rfl).symm (cons_congr (Slot.step_ne rfl).symm (cons_congr (Slot.step_ne rfl).symm (cons_congr (Slot.step_ne rfl).symm (cons_congr (Slot.step_ne rfl).symm (cons_congr (Slot.step_ne rfl).symm (cons_congr (Slot.step_ne rfl).symm (cons_congr (Slot.step_ne rfl).symm (cons_congr (Slot.step_ne rfl).symm (cons_congr (Slot.step_ne rfl).symm (cons_congr (Slot.step_ne rfl).symm (cons_congr (Slot.step_ne rfl).symm (cons_congr (Slot.step_ne rfl).symm (cons_congr (Slot.step_ne rfl).symm (cons_congr (Slot.step_ne rfl).symm (cons_congr (Slot.step_ne rfl).symm (cons_congr (Slot.step_ne rfl).symm (cons_congr (Slot.step_ne rfl).symm (cons_congr (Slot.step_ne rfl).symm (cons_congr (Slot.step_ne rfl).symm (cons_congr (Slot.step_ne rfl).symm (cons_congr (Slot.step_ne rfl).symm (cons_congr ?_ ((Schema.step_other rfl rfl).symm)))))))))))))))))))))))))))))), ?_⟩
    all_goals first | exact hi | msg_field | (simp_all [St.Inv]; done)
  case ScefPdnConnections j =>
    simp only [step]
    repeat' split
    all_goals refine ⟨cons_congr (Slot.step_ne rfl).symm (cons_congr (Slot.step_ne rfl).symm (cons_congr (Slot.step_ne rfl).symm (cons_congr (Slot.step_ne rfl).symm (cons_congr (Slot.step_ne rfl).symm (cons_congr (Slot.step_ne rfl).symm (cons_congr (Slot.step_ne rfl).symm (cons_congr (Slot.step_ne rfl).symm (cons_congr (Slot.step_ne rfl).symm (cons_congr (Slot.step_ne rfl).symm (cons_congr (Slot.step_ne rfl).symm (cons_congr (Slot.step_ne rfl).symm (cons_congr (Slot.step_ne rfl).symm (cons_congr (Slot.step_ne rfl).symm (cons_congr (Slot.step_ne rfl).symm (cons_congr (Slot.step_ne rfl).symm (cons_congr (Slot.step_ne rfl).symm (cons_congr (Slot.step_ne rfl).symm (cons_congr (Slot.step_ne rfl).symm (cons_congr (Slot.step_ne rfl).symm (cons_congr (Slot.step_ne rfl).symm (cons_congr (Slot.step_ne rfl).symm (cons_congr (Slot.step_ne rfl).symm (cons_congr (Slot.step_ne rfl).symm (cons_congr (Slot.step_ne rfl).symm (cons_congr (Slot.step_ne rfl).symm (cons_congr (Slot.step_ne rfl).symm (cons_congr (Slot.step_ne rfl).symm (cons_congr (Slot.step_ne rfl).symm (cons_congr (Slot.step_ne rfl).symm (cons_congr ?_ ((Schema.step_other rfl rfl).symm))))))))))))))))))))))))))))))), ?_⟩
    all_goals first | exact hi | msg_field | (simp_all [St.Inv]; done)
  case PortNumber j =>
    simp only [step]
    repeat' split
    all_goals refine ⟨cons_congr (Slot.step_ne rfl).symm (cons_congr (Slot.step_ne rfl).symm (cons_congr (Slot.step_ne rfl).symm (cons_congr (Slot.step_ne rfl).symm (cons_congr (Slot.step_ne rfl).symm (cons_congr (Slot.step_ne rfl).symm (cons_congr (Slot.step_ne rfl).symm (cons_congr (Slot.step_ne rfl).symm (cons_congr (Slot.step_ne rfl).symm (cons_congr (Slot.step_ne rfl).symm (cons_congr (Slot.step_ne rfl).symm (cons_congr (Slot.step_ne rfl).symm (cons_congr (Slot.step_ne rfl).symm (cons_congr (Slot.step_ne rfl).symm (cons_congr (Slot.step_ne rfl).symm (cons_congr (Slot.step_ne rfl).symm (cons_congr (Slot.step_ne rfl).symm (cons_congr (Slot.step_ne rfl).symm (cons_congr (Slot.step_ne rfl).symm (cons_congr (Slot.step_ne rfl).symm (cons_congr (Slot.step_ne rfl).symm (cons_congr (Slot.step_ne rfl).symm (cons_congr (Slot.step_ne rfl).symm (cons_congr (Slot.step_ne rfl).symm (cons_congr (Slot.step_ne rfl).symm (cons_congr (Slot.step_ne rfl).symm (cons_congr (Slot.step_ne rfl).symm (cons_congr (Slot.step_ne rfl).symm (cons_congr (Slot.step_ne rfl).symm (cons_congr (Slot.step_ne rfl).symm (cons_congr (Slot.step_ne rfl).symm (cons_congr ?_ ((Schema.step_other rfl rfl).symm)))))))))))))))))))))))))))))))), ?_⟩
    all_goals first | exact hi | msg_field | (simp_all [St.Inv]; done)
  case ServingPlmnRateControl j =>
    simp only [step]
    repeat' split
    all_goals refine ⟨cons_congr (Slot.step_ne rfl).symm (cons_congr (Slot.step_ne rfl).symm (cons_congr (Slot.step_ne rfl).symm (cons_congr (Slot.step_ne rfl).symm (cons_congr (Slot.step_ne rfl).symm (cons_congr (Slot.step_ne rfl).symm (cons_congr (Slot.step_ne rfl).symm (cons_congr (Slot.step_ne rfl).symm (cons_congr (Slot.step_ne rfl).symm (cons_congr (Slot.step_ne rfl).symm (cons_congr (Slot.step_ne rfl).symm (cons_congr (Slot.step_ne rfl).symm (cons_congr (Slot.step_ne rfl).symm (cons_congr (Slot.step_ne rfl).symm (cons_congr (Slot.step_ne rfl).symm (cons_congr (Slot.step_ne rfl).symm (cons_congr (Slot.step_ne rfl).symm (cons_congr (Slot.step_ne rfl).symm (cons_congr (Slot.step_ne rfl).symm (cons_congr (Slot.step_ne rfl).symm (cons_congr (Slot.step_ne rfl).symm (cons_congr (Slot.step_ne rfl).symm (cons_congr (Slot.step_ne rfl).symm (cons_congr (Slot.step_ne rfl).symm (cons_congr (Slot.step_ne rfl).symm (cons_congr (Slot.step_ne rfl).symm (cons_congr (Slot.step_ne rfl).symm (cons_congr (Slot.step_ne rfl).symm (cons_congr (Slot.step_ne rfl).symm (cons_congr (Slot.step_ne rfl).symm (cons_congr (Slot.step_ne rfl).symm (cons_congr (Slot.step_ne rfl).symm (cons_congr ?_ ((Schema.step_other rfl rfl).symm))))))))))))))))))))))))))))))))), ?_⟩
    all_goals first | exact hi | msg_field | (simp_all [St.Inv]; done)
  case ExtendedTraceInformation j =>
    simp only [step]
    repeat' split
    all_goals refine ⟨cons_congr (Slot.step_ne rfl).symm (cons_congr (Slot.step_ne rfl).symm (cons_congr (Slot.step_ne rfl).symm (cons_congr (Slot.step_ne rfl).symm (cons_congr (Slot.step_ne rfl).symm (cons_congr (Slot.step_ne rfl).symm (cons_congr (Slot.step_ne rfl).symm (cons_congr (Slot.step_ne rfl).symm (cons_congr (Slot.step_ne rfl).symm (cons_congr (Slot.step_ne rfl).symm (cons_congr (Slot.step_ne rfl).symm (cons_congr (Slot.step_ne rfl).symm (cons_congr (Slot.step_ne rfl).symm (cons_congr (Slot.step_ne rfl).symm (cons_congr (Slot.step_ne rfl).symm (cons_congr (Slot.step_ne rfl).symm (cons_congr (Slot.step_ne rfl).symm (cons_congr (Slot.step_ne rfl).symm (cons_congr (Slot.step_ne rfl).symm (cons_congr (Slot.step_ne rfl).symm (cons_congr (Slot.step_ne rfl).symm (cons_congr (Slot.step_ne rfl).symm (cons_congr (Slot.step_ne rfl).symm (cons_congr (Slot.step_ne rfl).symm (cons_congr (Slot.step_ne rfl).symm (cons_congr (Slot.step_ne rfl).symm (cons_congr (Slot.step_ne rfl).symm (cons_congr (Slot.step_ne rfl).symm (cons_congr (Slot.step_ne rfl).symm (cons_congr (Slot.step_ne rfl).symm (cons_congr (Slot.step_ne rfl).symm (cons_congr (Slot.step_ne rfl).symm (cons_congr (Slot.step_ne rfl).symm (cons_congr ?_ ((Schema.step_other rfl rfl).symm)))))))))))))))))))))))))))))))))), ?_⟩
    all_goals first | exact hi | msg_field | (simp_all [St.Inv]; done)
  case AdditionalRrmPolicyIndex j =>
    simp only [step]
    repeat' split
    all_goals refine ⟨cons_congr (Slot.step_ne rfl).symm (cons_congr (Slot.step_ne rfl).symm (cons_congr (Slot.step_ne rfl).symm (cons_congr (Slot.step_ne rfl).symm (cons_congr (Slot.step_ne rfl).symm (cons_congr (Slot.step_ne rfl).symm (cons_congr (Slot.step_ne rfl).symm (cons_congr (Slot.step_ne rfl).symm (cons_congr (Slot.step_ne rfl).symm (cons_congr (Slot.step_ne rfl).symm (cons_congr (Slot.step_ne rfl).symm (cons_congr (Slot.step_ne rfl).symm (cons_congr (Slot.step_ne rfl).symm (cons_congr (Slot.step_ne rfl).symm (cons_congr (Slot.step_ne rfl).symm (cons_congr (Slot.step_ne rfl).symm (cons_congr (Slot.step_ne rfl).symm (cons_congr (Slot.step_ne rfl).symm (cons_congr (Slot.step_ne rfl).symm (cons_congr (Slot.step_ne rfl).symm (cons_congr (Slot.step_ne rfl).symm (cons_congr (Slot.step_ne rfl).symm (cons_congr (Slot.step_ne rfl).symm (cons_congr (Slot.step_ne rfl).symm (cons_congr (Slot.step_ne rfl).symm (cons_congr (Slot.step_ne rfl).symm (cons_congr (Slot.step_ne rfl).symm (cons_congr (Slot.step_ne rfl).symm (cons_congr (Slot.step_ne rfl).symm (cons_congr (Slot.step_ne rfl).symm (cons_congr (Slot.step_ne rfl).symm (cons_congr (Slot.step_ne rfl).symm (cons_congr (Slot.step_ne rfl).symm (cons_congr (Slot.step_ne rfl).symm (cons_congr ?_ ((Schema.step_other rfl rfl).symm))))))))))))))))))))))))))))))))))), ?_⟩
    all_goals first | exact hi | msg_field | (simp_all [St.Inv]; done)
  case V2xInformation j =>
    simp only [step]
    repeat' split
    all_goals refine ⟨cons_congr (Slot.step_ne rfl).symm (cons_congr (Slot.step_ne rfl).symm (cons_congr (Slot.step_ne rfl).symm (cons_congr (Slot.step_ne rfl).symm (cons_congr (Slot.step_ne rfl).symm (cons_congr (Slot.step_ne rfl).symm (cons_congr (Slot.step_ne rfl).symm (cons_congr (Slot.step_ne rfl).symm (cons_congr (Slot.step_ne rfl).symm (cons_congr (Slot.step_ne rfl).symm (cons_congr (Slot.step_ne rfl).symm (cons_congr (Slot.step_ne rfl).symm (cons_congr (Slot.step_ne rfl).symm (cons_congr (Slot.step_ne rfl).symm (cons_congr (Slot.step_ne rfl).symm (cons_congr (Slot.step_ne rfl).symm (cons_congr (Slot.step_ne rfl).symm (cons_congr (Slot.step_ne rfl).symm (cons_congr (Slot.step_ne rfl).symm (cons_congr (Slot.step_ne rfl).symm (cons_congr (Slot.step_ne rfl).symm (cons_congr (Slot.step_ne rfl).symm (cons_congr (Slot.step_ne rfl).symm (cons_congr (Slot.step_ne rfl).symm (cons_congr (Slot.step_ne rfl).symm (cons_congr (Slot.step_ne rfl).symm (cons_congr (Slot.step_ne rfl).symm (cons_congr (Slot.step_ne rfl).symm (cons_congr (Slot.step_ne rfl).symm (cons_congr (Slot.step_ne rfl).symm (cons_congr (Slot.step_ne rfl).symm (cons_congr (Slot.step_ne rfl).symm (cons_congr (Slot.step_ne rfl).symm (cons_congr (Slot.step_ne rfl).symm (cons_congr (Slot.step_ne rfl).symm (cons_congr ?_ ((Schema.step_other rfl rfl).symm)))))))))))))))))))))))))))))))))))), ?_⟩
    all_goals first | exact hi | msg_field | (simp_all [St.Inv]; done)
  case NodeIdentifier j =>
    simp only [step]
    repeat' split
    all_goals refine ⟨cons_congr (Slot.step_ne rfl).symm (cons_congr (Slot.step_ne rfl).symm (cons_congr (Slot.step_ne rfl).symm (cons_congr (Slot.step_ne rfl).symm (cons_congr (Slot.step_ne rfl).symm (cons_congr (Slot.step_ne rfl).symm (cons_congr (Slot.step_ne rfl).symm (cons_congr (Slot.step_ne rfl).symm (cons_congr (Slot.step_ne rfl).symm (cons_congr (Slot.step_ne rfl).symm (cons_congr (Slot.step_ne rfl).symm (cons_congr (Slot.step_ne rfl).symm (cons_congr (Slot.step_ne rfl).symm (cons_congr (Slot.step_ne rfl).symm (cons_congr (Slot.step_ne rfl).symm (cons_congr (Slot.step_ne rfl).symm (cons_congr (Slot.step_ne rfl).symm (cons_congr (Slot.step_ne rfl).symm (cons_congr (Slot.step_ne rfl).symm (cons_congr (Slot.step_ne rfl).symm (cons_congr (Slot.step_ne rfl).symm (cons_congr (Slot.step_ne rfl).symm (cons_congr (Slot.step_ne rfl).symm (cons_congr (Slot.step_ne rfl).symm (cons_congr (Slot.step_ne rfl).symm (cons_congr (Slot.step_ne rfl).symm (cons_congr (Slot.step_ne rfl).symm (cons_congr (Slot.step_ne rfl).symm (cons_congr (Slot.step_ne rfl).symm (cons_congr (Slot.step_ne rfl).symm (cons_congr (Slot.step_ne rfl).symm (cons_congr (Slot.step_ne rfl).symm (cons_congr (Slot.step_ne rfl).symm (cons_congr (Slot.step_ne rfl).symm (cons_congr (Slot.step_ne rfl).symm (cons_congr (Slot.step_ne rfl).symm (cons_congr ?_ ((Schema.step_other rfl rfl).symm))))))))))))))))))))))))))))))))))))), ?_⟩
    all_goals first | exact hi | msg_field | (simp_all [St.Inv]; done)
  case AlternativeImsi j =>
    simp only [step]
    repeat' split
    all_goals refine ⟨cons_congr (Slot.step_ne rfl).symm (cons_congr (Slot.step_ne rfl).symm (cons_congr (Slot.step_ne rfl).symm (cons_congr (Slot.step_ne rfl).symm (cons_congr (Slot.step_ne rfl).symm (cons_congr (Slot.step_ne rfl).symm (cons_congr (Slot.step_ne rfl).symm (cons_congr (Slot.step_ne rfl).symm (cons_congr (Slot.step_ne rfl).symm (cons_congr (Slot.step_ne rfl).symm (cons_congr (Slot.step_ne rfl).symm (cons_congr (Slot.step_ne rfl).symm (cons_congr (Slot.step_ne rfl).symm (cons_congr (Slot.step_ne rfl).symm (cons_congr (Slot.step_ne rfl).symm (cons_congr (Slot.step_ne rfl).symm (cons_congr (Slot.step_ne rfl).symm (cons_congr (Slot.step_ne rfl).symm (cons_congr (Slot.step_ne rfl).symm (cons_congr (Slot.step_ne rfl).symm (cons_congr (Slot.step_ne rfl).symm (cons_congr (Slot.step_ne rfl).symm (cons_congr (Slot.step_ne rfl).symm (cons_congr (Slot.step_ne rfl).symm (cons_congr (Slot.step_ne rfl).symm (cons_congr (Slot.step_ne rfl).symm (cons_congr (Slot.step_ne rfl).symm (cons_congr (Slot.step_ne rfl).symm (cons_congr (Slot.step_ne rfl).symm (cons_congr (Slot.step_ne rfl).symm (cons_congr (Slot.step_ne rfl).symm (cons_congr (Slot.step_ne rfl).symm (cons_congr (Slot.step_ne rfl).symm (cons_congr (Slot.step_ne rfl).symm (cons_congr (Slot.step_ne rfl).symm (cons_congr (Slot.step_ne rfl).symm (cons_congr (Slot.step_ne rfl).symm (cons_congr ?_ ((Schema.step_other rfl rfl).symm)))))))))))))))))))))))))))))))))))))), ?_⟩
    all_goals first | exact hi | msg_field | (simp_all [St.Inv]; done)
  case PrivateExtension j =>
    simp only [step]
    all_goals refine ⟨cons_congr (Slot.step_ne rfl).symm (cons_congr (Slot.step_ne rfl).symm (cons_congr (Slot.step_ne rfl).symm (cons_congr (Slot.step_ne rfl).symm (cons_congr (Slot.step_ne rfl).symm (cons_congr (Slot.step_ne rfl).symm (cons_congr (Slot.step_ne rfl).symm (cons_congr (Slot.step_ne rfl).symm (cons_congr (Slot.step_ne rfl).symm (cons_congr (Slot.step_ne rfl).symm (cons_congr (Slot.step_ne rfl).symm (cons_congr (Slot.step_ne rfl).symm (cons_congr (Slot.step_ne rfl).symm (cons_congr (Slot.step_ne rfl).symm (cons_congr (Slot.step_ne rfl).symm (cons_congr (Slot.step_ne rfl).symm (cons_congr (Slot.step_ne rfl).symm (cons_congr (Slot.step_ne rfl).symm (cons_congr (Slot.step_ne rfl).symm (cons_congr (Slot.step_ne rfl).symm (cons_congr (Slot.step_ne rfl).symm (cons_congr (Slot.step_ne rfl).symm (cons_congr (Slot.step_ne rfl).symm (cons_congr (Slot.step_ne rfl).symm (cons_congr (Slot.step_ne rfl).symm (cons_congr (Slot.step_ne rfl).symm (cons_congr (Slot.step_ne rfl).symm (cons_congr (Slot.step_ne rfl).symm (cons_congr (Slot.step_ne rfl).symm (cons_congr (Slot.step_ne rfl).symm (cons_congr (Slot.step_ne rfl).symm (cons_congr (Slot.step_ne rfl).symm (cons_congr (Slot.step_ne rfl).symm (cons_congr (Slot.step_ne rfl).symm (cons_congr (Slot.step_ne rfl).symm (cons_congr (Slot.step_ne rfl).symm (cons_congr (Slot.step_ne rfl).symm (cons_congr (Slot.step_ne rfl).symm (cons_congr ?_ (rfl))))))))))))))))))))))))))))))))))))))), ?_⟩
    all_goals first | exact hi | msg_field | (simp_all [St.Inv]; done)
  all_goals exact ⟨(Schema.step_other rfl rfl).symm, hi⟩

theorem loop (h : Header) (els : List IE) :
    (els.foldl step ⟨{ dflt with header := h }, false, false⟩).view = schema.map (·.select els) ∧ (els.foldl step ⟨{ dflt with header := h }, false, false⟩).Inv h := by
  have := foldl_view (Q := fun _ => True) (fun s e hp _ => step_view h s e hp) els ⟨{ dflt with header := h }, false, false⟩ (fun _ _ => trivial) (by simp [St.Inv])
  rw [show St.view ⟨{ dflt with header := h }, false, false⟩ = schema.map (fun _ => []) from rfl, Schema.foldl_nil] at this
  exact this

theorem ext {x y : ForwardRelocationRequest} (hh : x.header = y.header) (h : fields x = fields y) : x = y := by
  cases x; cases y
  simp only at hh
  subst hh
  injection h with h0 h
  cases optV_inj (fun _ _ h => IE.Imsi.inj h) h0
  injection h with h1 h
  cases h1
  injection h with h2 h
  cases map_inj (fun _ _ h => IE.PdnConnections.inj h) h2
  injection h with h3 h
  cases optV_inj (fun _ _ h => IE.Fteid.inj h) h3
  injection h with h4 h
  cases map_inj (fun _ _ h => IE.Fqdn.inj h) h4
  injection h with h5 h
  cases h5
  injection h with h6 h
  cases optV_inj (fun _ _ h => IE.Indication.inj h) h6
  injection h with h7 h
  cases map_inj (fun _ _ h => IE.Fcontainer.inj h) h7
  injection h with h8 h
  cases optV_inj (fun _ _ h => IE.TargetIdentification.inj h) h8
  injection h with h9 h
  cases map_inj (fun _ _ h => IE.IpAddress.inj h) h9
  injection h with h10 h
  cases map_inj (fun _ _ h => IE.Fcause.inj h) h10
  injection h with h11 h
  cases optV_inj (fun _ _ h => IE.SourceIdentification.inj h) h11
  injection h with h12 h
  cases optV_inj (fun _ _ h => IE.PlmnId.inj h) h12
  injection h with h13 h
  cases optV_inj (fun _ _ h => IE.Recovery.inj h) h13
  injection h with h14 h
  cases optV_inj (fun _ _ h => IE.TraceInformation.inj h) h14
  injection h with h15 h
  cases map_inj (fun _ _ h => IE.RfspIndex.inj h) h15
  injection h with h16 h
  cases optV_inj (fun _ _ h => IE.CsgId.inj h) h16
  injection h with h17 h
  cases optV_inj (fun _ _ h => IE.CsgMembershipIndication.inj h) h17
  injection h with h18 h
  cases optV_inj (fun _ _ h => IE.UeTimeZone.inj h) h18
  injection h with h19 h
  cases optV_inj (fun _ _ h => IE.ServingNetwork.inj h) h19
  injection h with h20 h
  cases optV_inj (fun _ _ h => IE.Ldn.inj h) h20
  injection h with h21 h
  cases optV_inj (fun _ _ h => IE.AdditionalMmContextForSrvcc.inj h) h21
  injection h with h22 h
  cases optV_inj (fun _ _ h => IE.AdditionalFlagsSrvcc.inj h) h22
  injection h with h23 h
  cases optV_inj (fun _ _ h => IE.StnSr.inj h) h23
  injection h with h24 h
  cases map_inj (fun _ _ h => IE.Msisdn.inj h) h24
  injection h with h25 h
  cases optV_inj (fun _ _ h => IE.MdtConfiguration.inj h) h25
  injection h with h26 h
  cases optV_inj (fun _ _ h => IE.Uci.inj h) h26
  injection h with h27 h
  cases map_inj (fun _ _ h => IE.MonitoringEventInformation.inj h) h27
  injection h with h28 h
  cases map_inj (fun _ _ h => IE.MonitoringEventExtensionInfo.inj h) h28
  injection h with h29 h
  cases optV_inj (fun _ _ h => IE.IntegerNumber.inj h) h29
  injection h with h30 h
  cases map_inj (fun _ _ h => IE.ScefPdnConnections.inj h) h30
  injection h with h31 h
  cases optV_inj (fun _ _ h => IE.PortNumber.inj h) h31
  injection h with h32 h
  cases optV_inj (fun _ _ h => IE.ServingPlmnRateControl.inj h) h32
  injection h with h33 h
  cases optV_inj (fun _ _ h => IE.ExtendedTraceInformation.inj h) h33
  injection h with h34 h
  cases map_inj (fun _ _ h => IE.AdditionalRrmPolicyIndex.inj h) h34
  injection h with h35 h
  cases optV_inj (fun _ _ h => IE.V2xInformation.inj h) h35
  injection h with h36 h
  cases optV_inj (fun _ _ h => IE.NodeIdentifier.inj h) h36
  injection h with h37 h
  cases optV_inj (fun _ _ h => IE.AlternativeImsi.inj h) h37
  injection h with h38 h
  cases map_inj (fun _ _ h => IE.PrivateExtension.inj h) h38
  rfl

theorem mand : schema.filter (·.card.mandatory) = [(⟨.Fteid, .is 0, .one⟩ : Slot), (⟨.MmContext, .is 0, .one⟩ : Slot)] := rfl

/-- The flags tell which mandatory IEs are absent. -/
theorem flags (h : Header) (els : List IE) : ∃ x m0 m1, els.foldl step ⟨{ dflt with header := h }, false, false⟩ = ⟨x, m0, m1⟩ ∧ St.view ⟨x, m0, m1⟩ = schema.map (·.select els) ∧ x.header = h ∧
    (⟨.Fteid, .is 0, .one⟩ : Slot).lacks els = (!m0) ∧
    (⟨.MmContext, .is 0, .one⟩ : Slot).lacks els = (!m1) := by
  obtain ⟨hv, hi⟩ := loop h els
  generalize els.foldl step ⟨{ dflt with header := h }, false, false⟩ = s at hv hi ⊢
  obtain ⟨x, m0, m1⟩ := s
  simp only [St.Inv] at hi
  have l0 : (⟨.Fteid, .is 0, .one⟩ : Slot).lacks els = (!m0) := by
    rw [Slot.lacks_eq els rfl]
    have e := congrArg (fun l => l.getD 1 []) hv
    rw [show (⟨.Fteid, .is 0, .one⟩ : Slot).select els = if m0 then [.Fteid x.fteid_control] else [] from e.symm]
    cases m0 <;> rfl
  have l1 : (⟨.MmContext, .is 0, .one⟩ : Slot).lacks els = (!m1) := by
    rw [Slot.lacks_eq els rfl]
    have e := congrArg (fun l => l.getD 5 []) hv
    rw [show (⟨.MmContext, .is 0, .one⟩ : Slot).select els = if m1 then [.MmContext x.mmctx] else [] from e.symm]
    cases m1 <;> rfl
  exact ⟨x, m0, m1, rfl, hv, hi, l0, l1⟩

theorem complete (h : Header) (els : List IE) (hm : schema.missing els = []) : ∃ y, fromvec { dflt with header := h } els = .ok y ∧ y.header = h ∧ fields y = schema.map (·.select els) := by
  obtain ⟨x, m0, m1, hs, hv, hh, l0, l1⟩ := flags h els
  unfold fromvec
  rw [hs]
  dsimp only [finish]
  have f0 := l0.symm.trans (Schema.of_missing_nil mand (by simp) hm)
  have f1 := l1.symm.trans (Schema.of_missing_nil mand (by simp) hm)
  cases m0 <;> cases m1 <;> first | exact ⟨x, rfl, hh, hv⟩ | contradiction

theorem describes : Describes codec schema fields where
  header_set _ _ := rfl
  fields_set _ _ := rfl
  ext _ _ hh h := ext hh h
  shape x := Aligned.opt (fun _ => rfl) <| Aligned.one (fun _ => rfl) <| Aligned.many (fun _ => rfl) <| Aligned.opt (fun _ => rfl) <| Aligned.many (fun _ => rfl) <| Aligned.one (fun _ => rfl) <| Aligned.opt (fun _ => rfl) <| Aligned.many (fun _ => rfl) <| Aligned.opt (fun _ => rfl) <| Aligned.many (fun _ => rfl) <| Aligned.many (fun _ => rfl) <| Aligned.opt (fun _ => rfl) <| Aligned.opt (fun _ => rfl) <| Aligned.opt (fun _ => rfl) <| Aligned.opt (fun _ => rfl) <| Aligned.many (fun _ => rfl) <| Aligned.opt (fun _ => rfl) <| Aligned.opt (fun _ => rfl) <| Aligned.opt (fun _ => rfl) <| Aligned.opt (fun _ => rfl) <| Aligned.opt (fun _ => rfl) <| Aligned.opt (fun _ => rfl) <| Aligned.opt (fun _ => rfl) <| Aligned.opt (fun _ => rfl) <| Aligned.many (fun _ => rfl) <| Aligned.opt (fun _ => rfl) <| Aligned.opt (fun _ => rfl) <| Aligned.many (fun _ => rfl) <| Aligned.many (fun _ => rfl) <| Aligned.opt (fun _ => rfl) <| Aligned.many (fun _ => rfl) <| Aligned.opt (fun _ => rfl) <| Aligned.opt (fun _ => rfl) <| Aligned.opt (fun _ => rfl) <| Aligned.many (fun _ => rfl) <| Aligned.opt (fun _ => rfl) <| Aligned.opt (fun _ => rfl) <| Aligned.opt (fun _ => rfl) <| Aligned.many (fun _ => rfl) <| trivial
  tovec x := by simp [codec, tovec, fields]
  complete h els _ hm := complete h els hm

theorem reports (h : Header) (els : List IE) (hm : schema.missing els ≠ []) :
    ∃ t, fromvec { dflt with header := h } els = .err (.messageMandatoryIEMissing t) := by
  obtain ⟨x, m0, m1, hs, hv, hh, l0, l1⟩ := flags h els
  unfold fromvec
  rw [hs]
  dsimp only [finish]
  cases m0 <;> cases m1 <;>
    first | exact ⟨_, rfl⟩ | exact absurd (Schema.missing_nil mand (by simp [l0, l1])) hm

theorem settled (h : Header) (els els' : List IE) (he : ∀ s ∈ schema, s.card.mandatory = true → s.lacks els = s.lacks els')
    (hm : schema.missing els ≠ []) : fromvec { dflt with header := h } els = fromvec { dflt with header := h } els' := by
  obtain ⟨x, m0, m1, hs, hv, hh, l0, l1⟩ := flags h els
  obtain ⟨x', m0', m1', hs', hv', hh', l0', l1'⟩ := flags h els'
  unfold fromvec
  rw [hs, hs']
  obtain rfl := Bool.not_inj (l0.symm.trans ((he _ (by decide) rfl).trans l0'))
  obtain rfl := Bool.not_inj (l1.symm.trans ((he _ (by decide) rfl).trans l1'))
  dsimp only [finish]
  cases m0 <;> cases m1 <;>
    first | rfl | exact absurd (Schema.missing_nil mand (by simp [l0, l1])) hm

end ForwardRelocationRequest

end Gtp.V2.Msg
