import Verif.V2.Msg.Tactic

/-!
# GTPv2-C messages, part 2

Generated by `scripts/gen_msgs.py` from the Rust sources: `ContextResponse`, `CreateBearerRequest`, `CreateBearerResponse`, `CreateForwardingTunnelRequest`.
-/

namespace Gtp.V2.Msg

/-- `ContextResponse` (contextresp.rs:15-45). -/
structure ContextResponse where
  header : Header
  cause : V2.Cause
  imsi : Option V2.Imsi
  mmctx : Option V2.MmContext
  ue_eps_pdn : List V2.PdnConnections
  fteid_control : Option V2.Fteid
  sgw_fteid : Option V2.Fteid
  fqdns : List V2.Fqdn
  indication : Option V2.Indication
  trace_info : Option V2.TraceInformation
  ip_addresses : List V2.IpAddress
  rfsp_indexes : List V2.RfspIndex
  ue_time_zone : Option V2.UeTimeZone
  mme_sgsn_ldn : Option V2.Ldn
  mdt_cfg : Option V2.MdtConfiguration
  uci : Option V2.Uci
  monitor_event_info : List V2.MonitoringEventInformation
  monitor_even_ext_info : List V2.MonitoringEventExtensionInfo
  ue_usage_type : Option V2.IntegerNumber
  scef_pdn_connections : List V2.ScefPdnConnections
  rat_type : Option V2.RatType
  srv_plmn_rate_cntrl : Option V2.ServingPlmnRateControl
  mo_exception_data_cntr : Option V2.Counter
  rem_running_srvc_gap_timer : Option V2.IntegerNumber
  ext_trace_info : Option V2.ExtendedTraceInformation
  add_rrm_policy_index : List V2.AdditionalRrmPolicyIndex
  iwk_scef_id : Option V2.NodeIdentifier
  alt_imsi : Option V2.AlternativeImsi
  private_ext : List V2.PrivateExtension
deriving DecidableEq

namespace ContextResponse

/-- `default` (contextresp.rs:48-85). -/
def dflt : ContextResponse :=
  { header := { Header.default with msgtype := 131, teid := some 0 }, cause := V2.Cause.dflt, imsi := none, mmctx := none, ue_eps_pdn := [], fteid_control := none, sgw_fteid := none, fqdns := [], indication := none, trace_info := none, ip_addresses := [], rfsp_indexes := [], ue_time_zone := none, mme_sgsn_ldn := none, mdt_cfg := none, uci := none, monitor_event_info := [], monitor_even_ext_info := [], ue_usage_type := none, scef_pdn_connections := [], rat_type := none, srv_plmn_rate_cntrl := none, mo_exception_data_cntr := none, rem_running_srvc_gap_timer := none, ext_trace_info := none, add_rrm_policy_index := [], iwk_scef_id := none, alt_imsi := none, private_ext := [] }

/-- `tovec` (contextresp.rs:121-235). -/
def tovec (x : ContextResponse) : List IE :=
  [.Cause x.cause] ++ (
  optV .Imsi x.imsi ++ (
  optV .MmContext x.mmctx ++ (
  x.ue_eps_pdn.map .PdnConnections ++ (
  optV .Fteid x.fteid_control ++ (
  optV .Fteid x.sgw_fteid ++ (
  x.fqdns.map .Fqdn ++ (
  optV .Indication x.indication ++ (
  optV .TraceInformation x.trace_info ++ (
  x.ip_addresses.map .IpAddress ++ (
  x.rfsp_indexes.map .RfspIndex ++ (
  optV .UeTimeZone x.ue_time_zone ++ (
  optV .Ldn x.mme_sgsn_ldn ++ (
  optV .MdtConfiguration x.mdt_cfg ++ (
  optV .Uci x.uci ++ (
  x.monitor_event_info.map .MonitoringEventInformation ++ (
  x.monitor_even_ext_info.map .MonitoringEventExtensionInfo ++ (
  optV .IntegerNumber x.ue_usage_type ++ (
  x.scef_pdn_connections.map .ScefPdnConnections ++ (
  optV .RatType x.rat_type ++ (
  optV .ServingPlmnRateControl x.srv_plmn_rate_cntrl ++ (
  optV .Counter x.mo_exception_data_cntr ++ (
  optV .IntegerNumber x.rem_running_srvc_gap_timer ++ (
  optV .ExtendedTraceInformation x.ext_trace_info ++ (
  x.add_rrm_policy_index.map .AdditionalRrmPolicyIndex ++ (
  optV .NodeIdentifier x.iwk_scef_id ++ (
  optV .AlternativeImsi x.alt_imsi ++ (
  x.private_ext.map .PrivateExtension)))))))))))))))))))))))))))

/-- The variables of `fromvec`: the message and the array `mandatory` (contextresp.rs:237-388). -/
structure St where
  x : ContextResponse
  m0 : Bool

/-- One turn of the loop of `fromvec` (contextresp.rs:237-388). -/
def step (s : St) : IE → St
  | .Cause j => if j.ins = 0 ∧ s.m0 = false then { s with x := { s.x with cause := j }, m0 := true } else s
  | .Imsi j => if j.ins = 0 ∧ s.x.imsi.isNone = true then { s with x := { s.x with imsi := some j } } else s
  | .MmContext j => if j.ins = 0 ∧ s.x.mmctx.isNone = true then { s with x := { s.x with mmctx := some j } } else s
  | .PdnConnections j => if j.ins = 0 then { s with x := { s.x with ue_eps_pdn := s.x.ue_eps_pdn ++ [j] } } else s
  | .Fteid j => if j.ins = 0 ∧ s.x.fteid_control.isNone = true then { s with x := { s.x with fteid_control := some j } } else if j.ins = 1 ∧ s.x.sgw_fteid.isNone = true then { s with x := { s.x with sgw_fteid := some j } } else s
  | .Fqdn j => if j.ins < 3 then { s with x := { s.x with fqdns := s.x.fqdns ++ [j] } } else s
  | .Indication j => if j.ins = 0 ∧ s.x.indication.isNone = true then { s with x := { s.x with indication := some j } } else s
  | .TraceInformation j => if j.ins = 0 ∧ s.x.trace_info.isNone = true then { s with x := { s.x with trace_info := some j } } else s
  | .IpAddress j => if j.ins < 2 then { s with x := { s.x with ip_addresses := s.x.ip_addresses ++ [j] } } else s
  | .RfspIndex j => if j.ins < 2 then { s with x := { s.x with rfsp_indexes := s.x.rfsp_indexes ++ [j] } } else s
  | .UeTimeZone j => if j.ins = 0 ∧ s.x.ue_time_zone.isNone = true then { s with x := { s.x with ue_time_zone := some j } } else s
  | .Ldn j => if j.ins = 0 ∧ s.x.mme_sgsn_ldn.isNone = true then { s with x := { s.x with mme_sgsn_ldn := some j } } else s
  | .MdtConfiguration j => if j.ins = 0 ∧ s.x.mdt_cfg.isNone = true then { s with x := { s.x with mdt_cfg := some j } } else s
  | .Uci j => if j.ins = 0 ∧ s.x.uci.isNone = true then { s with x := { s.x with uci := some j } } else s
  | .MonitoringEventInformation j => if j.ins = 0 then { s with x := { s.x with monitor_event_info := s.x.monitor_event_info ++ [j] } } else s
  | .MonitoringEventExtensionInfo j => if j.ins = 0 then { s with x := { s.x with monitor_even_ext_info := s.x.monitor_even_ext_info ++ [j] } } else s
  | .IntegerNumber j => if j.ins = 0 ∧ s.x.ue_usage_type.isNone = true then { s with x := { s.x with ue_usage_type := some j } } else if j.ins = 1 ∧ s.x.rem_running_srvc_gap_timer.isNone = true then { s with x := { s.x with rem_running_srvc_gap_timer := some j } } else s
  | .ScefPdnConnections j => if j.ins = 0 then { s with x := { s.x with scef_pdn_connections := s.x.scef_pdn_connections ++ [j] } } else s
  | .RatType j => if j.ins = 0 ∧ s.x.rat_type.isNone = true then { s with x := { s.x with rat_type := some j } } else s
  | .ServingPlmnRateControl j => if j.ins = 0 ∧ s.x.srv_plmn_rate_cntrl.isNone = true then { s with x := { s.x with srv_plmn_rate_cntrl := some j } } else s
  | .Counter j => if j.ins = 0 ∧ s.x.mo_exception_data_cntr.isNone = true then { s with x := { s.x with mo_exception_data_cntr := some j } } else s
  | .ExtendedTraceInformation j => if j.ins = 0 ∧ s.x.ext_trace_info.isNone = true then { s with x := { s.x with ext_trace_info := some j } } else s
  | .AdditionalRrmPolicyIndex j => if j.ins < 2 then { s with x := { s.x with add_rrm_policy_index := s.x.add_rrm_policy_index ++ [j] } } else s
  | .NodeIdentifier j => if j.ins = 0 ∧ s.x.iwk_scef_id.isNone = true then { s with x := { s.x with iwk_scef_id := some j } } else s
  | .AlternativeImsi j => if j.ins = 0 ∧ s.x.alt_imsi.isNone = true then { s with x := { s.x with alt_imsi := some j } } else s
  | .PrivateExtension j => { s with x := { s.x with private_ext := s.x.private_ext ++ [j] } }
  | _ => s

/-- The end of `fromvec` (contextresp.rs:237-388). -/
def finish (s : St) : R Err ContextResponse :=
  if s.m0 then .ok s.x else .err (.messageMandatoryIEMissing 2)

/-- `fromvec` (contextresp.rs:237-388). -/
def fromvec (x : ContextResponse) (els : List IE) : R Err ContextResponse := finish (els.foldl step ⟨x, false⟩)

/-- The message type (contextresp.rs:89-119). -/
def codec : Codec ContextResponse :=
  { msgtype := 131, start := some 12, dflt, header := header, setHeader := fun x h => { x with header := h }, tovec, fromvec }

/-- One slot per field. -/
def schema : Schema :=
  [⟨.Cause, .is 0, .one⟩,
   ⟨.Imsi, .is 0, .opt⟩,
   ⟨.MmContext, .is 0, .opt⟩,
   ⟨.PdnConnections, .is 0, .many⟩,
   ⟨.Fteid, .is 0, .opt⟩,
   ⟨.Fteid, .is 1, .opt⟩,
   ⟨.Fqdn, .lt 3, .many⟩,
   ⟨.Indication, .is 0, .opt⟩,
   ⟨.TraceInformation, .is 0, .opt⟩,
   ⟨.IpAddress, .lt 2, .many⟩,
   ⟨.RfspIndex, .lt 2, .many⟩,
   ⟨.UeTimeZone, .is 0, .opt⟩,
   ⟨.Ldn, .is 0, .opt⟩,
   ⟨.MdtConfiguration, .is 0, .opt⟩,
   ⟨.Uci, .is 0, .opt⟩,
   ⟨.MonitoringEventInformation, .is 0, .many⟩,
   ⟨.MonitoringEventExtensionInfo, .is 0, .many⟩,
   ⟨.IntegerNumber, .is 0, .opt⟩,
   ⟨.ScefPdnConnections, .is 0, .many⟩,
   ⟨.RatType, .is 0, .opt⟩,
   ⟨.ServingPlmnRateControl, .is 0, .opt⟩,
   ⟨.Counter, .is 0, .opt⟩,
   ⟨.IntegerNumber, .is 1, .opt⟩,
   ⟨.ExtendedTraceInformation, .is 0, .opt⟩,
   ⟨.AdditionalRrmPolicyIndex, .lt 2, .many⟩,
   ⟨.NodeIdentifier, .is 0, .opt⟩,
   ⟨.AlternativeImsi, .is 0, .opt⟩,
   ⟨.PrivateExtension, .any, .many⟩]

/-- The fields as lists of IEs. -/
def fields (x : ContextResponse) : List (List IE) :=
  [[.Cause x.cause],
   optV .Imsi x.imsi,
   optV .MmContext x.mmctx,
   x.ue_eps_pdn.map .PdnConnections,
   optV .Fteid x.fteid_control,
   optV .Fteid x.sgw_fteid,
   x.fqdns.map .Fqdn,
   optV .Indication x.indication,
   optV .TraceInformation x.trace_info,
   x.ip_addresses.map .IpAddress,
   x.rfsp_indexes.map .RfspIndex,
   optV .UeTimeZone x.ue_time_zone,
   optV .Ldn x.mme_sgsn_ldn,
   optV .MdtConfiguration x.mdt_cfg,
   optV .Uci x.uci,
   x.monitor_event_info.map .MonitoringEventInformation,
   x.monitor_even_ext_info.map .MonitoringEventExtensionInfo,
   optV .IntegerNumber x.ue_usage_type,
   x.scef_pdn_connections.map .ScefPdnConnections,
   optV .RatType x.rat_type,
   optV .ServingPlmnRateControl x.srv_plmn_rate_cntrl,
   optV .Counter x.mo_exception_data_cntr,
   optV .IntegerNumber x.rem_running_srvc_gap_timer,
   optV .ExtendedTraceInformation x.ext_trace_info,
   x.add_rrm_policy_index.map .AdditionalRrmPolicyIndex,
   optV .NodeIdentifier x.iwk_scef_id,
   optV .AlternativeImsi x.alt_imsi,
   x.private_ext.map .PrivateExtension]

/-- What the state has collected so far. -/
def St.view (s : St) : List (List IE) :=
  [if s.m0 then [.Cause s.x.cause] else [],
   optV .Imsi s.x.imsi,
   optV .MmContext s.x.mmctx,
   s.x.ue_eps_pdn.map .PdnConnections,
   optV .Fteid s.x.fteid_control,
   optV .Fteid s.x.sgw_fteid,
   s.x.fqdns.map .Fqdn,
   optV .Indication s.x.indication,
   optV .TraceInformation s.x.trace_info,
   s.x.ip_addresses.map .IpAddress,
   s.x.rfsp_indexes.map .RfspIndex,
   optV .UeTimeZone s.x.ue_time_zone,
   optV .Ldn s.x.mme_sgsn_ldn,
   optV .MdtConfiguration s.x.mdt_cfg,
   optV .Uci s.x.uci,
   s.x.monitor_event_info.map .MonitoringEventInformation,
   s.x.monitor_even_ext_info.map .MonitoringEventExtensionInfo,
   optV .IntegerNumber s.x.ue_usage_type,
   s.x.scef_pdn_connections.map .ScefPdnConnections,
   optV .RatType s.x.rat_type,
   optV .ServingPlmnRateControl s.x.srv_plmn_rate_cntrl,
   optV .Counter s.x.mo_exception_data_cntr,
   optV .IntegerNumber s.x.rem_running_srvc_gap_timer,
   optV .ExtendedTraceInformation s.x.ext_trace_info,
   s.x.add_rrm_policy_index.map .AdditionalRrmPolicyIndex,
   optV .NodeIdentifier s.x.iwk_scef_id,
   optV .AlternativeImsi s.x.alt_imsi,
   s.x.private_ext.map .PrivateExtension]

/-- The header is left alone; flags of mandatory lists tell whether the list is empty. -/
def St.Inv (h : Header) (s : St) : Prop :=
  s.x.header = h

theorem step_view (h : Header) (s : St) (e : IE) (hi : s.Inv h) : (step s e).view = Schema.step schema s.view e ∧ (step s e).Inv h := by
  cases e
  case Cause j =>
    simp only [step]
    repeat' split
    all_goals refine ⟨cons_congr ?_ ((Schema.step_other rfl rfl).symm), ?_⟩
    all_goals first | exact hi | msg_field | (simp_all [St.Inv]; done)
  case Imsi j =>
    simp only [step]
    repeat' split
    all_goals refine ⟨cons_congr (Slot.step_ne rfl).symm (cons_congr ?_ ((Schema.step_other rfl rfl).symm)), ?_⟩
    all_goals first | exact hi | msg_field | (simp_all [St.Inv]; done)
  case MmContext j =>
    simp only [step]
    repeat' split
    all_goals refine ⟨cons_congr (Slot.step_ne rfl).symm (cons_congr (Slot.step_ne rfl).symm (cons_congr ?_ ((Schema.step_other rfl rfl).symm))), ?_⟩
    all_goals first | exact hi | msg_field | (simp_all [St.Inv]; done)
  case PdnConnections j =>
    simp only [step]
    repeat' split
    all_goals refine ⟨cons_congr (Slot.step_ne rfl).symm (cons_congr (Slot.step_ne rfl).symm (cons_congr (Slot.step_ne rfl).symm (cons_congr ?_ ((Schema.step_other rfl rfl).symm)))), ?_⟩
    all_goals first | exact hi | msg_field | (simp_all [St.Inv]; done)
  case Fteid j =>
    simp only [step]
    repeat' split
    all_goals refine ⟨cons_congr (Slot.step_ne rfl).symm (cons_congr (Slot.step_ne rfl).symm (cons_congr (Slot.step_ne rfl).symm (cons_congr (Slot.step_ne rfl).symm (cons_congr ?_ (cons_congr ?_ ((Schema.step_other rfl rfl).symm)))))), ?_⟩
    all_goals first | exact hi | msg_field | (simp_all [St.Inv]; done)
  case Fqdn j =>
    simp only [step]
    repeat' split
    all_goals refine ⟨cons_congr (Slot.step_ne rfl).symm (cons_congr (Slot.step_ne rfl).symm (cons_congr (Slot.step_ne rfl).symm (cons_congr (Slot.step_ne rfl).symm (cons_congr (Slot.step_ne rfl).symm (cons_congr (Slot.step_ne rfl).symm (cons_congr ?_ ((Schema.step_other rfl rfl).symm))))))), ?_⟩
    all_goals first | exact hi | msg_field | (simp_all [St.Inv]; done)
  case Indication j =>
    simp only [step]
    repeat' split
    all_goals refine ⟨cons_congr (Slot.step_ne rfl).symm (cons_congr (Slot.step_ne rfl).symm (cons_congr (Slot.step_ne rfl).symm (cons_congr (Slot.step_ne rfl).symm (cons_congr (Slot.step_ne rfl).symm (cons_congr (Slot.step_ne rfl).symm (cons_congr (Slot.step_ne rfl).symm (cons_congr ?_ ((Schema.step_other rfl rfl).symm)))))))), ?_⟩
    all_goals first | exact hi | msg_field | (simp_all [St.Inv]; done)
  case TraceInformation j =>
    simp only [step]
    repeat' split
    all_goals refine ⟨cons_congr (Slot.step_ne rfl).symm (cons_congr (Slot.step_ne rfl).symm (cons_congr (Slot.step_ne rfl).symm (cons_congr (Slot.step_ne rfl).symm (cons_congr (Slot.step_ne rfl).symm (cons_congr (Slot.step_ne rfl).symm (cons_congr (Slot.step_ne rfl).symm (cons_congr (Slot.step_ne rfl).symm (cons_congr ?_ ((Schema.step_other rfl rfl).symm))))))))), ?_⟩
    all_goals first | exact hi | msg_field | (simp_all [St.Inv]; done)
  case IpAddress j =>
    simp only [step]
    repeat' split
    all_goals refine ⟨cons_congr (Slot.step_ne rfl).symm (cons_congr (Slot.step_ne rfl).symm (cons_congr (Slot.step_ne rfl).symm (cons_congr (Slot.step_ne rfl).symm (cons_congr (Slot.step_ne rfl).symm (cons_congr (Slot.step_ne rfl).symm (cons_congr (Slot.step_ne rfl).symm (cons_congr (Slot.step_ne rfl).symm (cons_congr (Slot.step_ne rfl).symm (cons_congr ?_ ((Schema.step_other rfl rfl).symm)))))))))), ?_⟩
    all_goals first | exact hi | msg_field | (simp_all [St.Inv]; done)
  case RfspIndex j =>
    simp only [step]
    repeat' split
    all_goals refine ⟨cons_congr (Slot.step_ne rfl).symm (cons_congr (Slot.step_ne rfl).symm (cons_congr (Slot.step_ne rfl).symm (cons_congr (Slot.step_ne rfl).symm (cons_congr (Slot.step_ne rfl).symm (cons_congr (Slot.step_ne rfl).symm (cons_congr (Slot.step_ne rfl).symm (cons_congr (Slot.step_ne rfl).symm (cons_congr (Slot.step_ne rfl).symm (cons_congr (Slot.step_ne rfl).symm (cons_congr ?_ ((Schema.step_other rfl rfl).symm))))))))))), ?_⟩
    all_goals first | exact hi | msg_field | (simp_all [St.Inv]; done)
  case UeTimeZone j =>
    simp only [step]
    repeat' split
    all_goals refine ⟨cons_congr (Slot.step_ne rfl).symm (cons_congr (Slot.step_ne rfl).symm (cons_congr (Slot.step_ne rfl).symm (cons_congr (Slot.step_ne rfl).symm (cons_congr (Slot.step_ne rfl).symm (cons_congr (Slot.step_ne rfl).symm (cons_congr (Slot.step_ne rfl).symm (cons_congr (Slot.step_ne rfl).symm (cons_congr (Slot.step_ne rfl).symm (cons_congr (Slot.step_ne rfl).symm (cons_congr (Slot.step_ne rfl).symm (cons_congr ?_ ((Schema.step_other rfl rfl).symm)))))))))))), ?_⟩
    all_goals first | exact hi | msg_field | (simp_all [St.Inv]; done)
  case Ldn j =>
    simp only [step]
    repeat' split
    all_goals refine ⟨cons_congr (Slot.step_ne rfl).symm (cons_congr (Slot.step_ne rfl).symm (cons_congr (Slot.step_ne rfl).symm (cons_congr (Slot.step_ne rfl).symm (cons_congr (Slot.step_ne rfl).symm (cons_congr (Slot.step_ne rfl).symm (cons_congr (Slot.step_ne rfl).symm (cons_congr (Slot.step_ne rfl).symm (cons_congr (Slot.step_ne rfl).symm (cons_congr (Slot.step_ne rfl).symm (cons_congr (Slot.step_ne rfl).symm (cons_congr (Slot.step_ne rfl).symm (cons_congr ?_ ((Schema.step_other rfl rfl).symm))))))))))))), ?_⟩
    all_goals first | exact hi | msg_field | (simp_all [St.Inv]; done)
  case MdtConfiguration j =>
    simp only [step]
    repeat' split
    all_goals refine ⟨cons_congr (Slot.step_ne rfl).symm (cons_congr (Slot.step_ne rfl).symm (cons_congr (Slot.step_ne rfl).symm (cons_congr (Slot.step_ne rfl).symm (cons_congr (Slot.step_ne rfl).symm (cons_congr (Slot.step_ne rfl).symm (cons_congr (Slot.step_ne rfl).symm (cons_congr (Slot.step_ne rfl).symm (cons_congr (Slot.step_ne rfl).symm (cons_congr (Slot.step_ne rfl).symm (cons_congr (Slot.step_ne rfl).symm (cons_congr (Slot.step_ne rfl).symm (cons_congr (Slot.step_ne rfl).symm (cons_congr ?_ ((Schema.step_other rfl rfl).symm)))))))))))))), ?_⟩
    all_goals first | exact hi | msg_field | (simp_all [St.Inv]; done)
  case Uci j =>
    simp only [step]
    repeat' split
    all_goals refine ⟨cons_congr (Slot.step_ne rfl).symm (cons_congr (Slot.step_ne rfl).symm (cons_congr (Slot.step_ne rfl).symm (cons_congr (Slot.step_ne rfl).symm (cons_congr (Slot.step_ne rfl).symm (cons_congr (Slot.step_ne rfl).symm (cons_congr (Slot.step_ne rfl).symm (cons_congr (Slot.step_ne rfl).symm (cons_congr (Slot.step_ne rfl).symm (cons_congr (Slot.step_ne rfl).symm (cons_congr (Slot.step_ne rfl).symm (cons_congr (Slot.step_ne rfl).symm (cons_congr (Slot.step_ne rfl).symm (cons_congr (Slot.step_ne rfl).symm (cons_congr ?_ ((Schema.step_other rfl rfl).symm))))))))))))))), ?_⟩
    all_goals first | exact hi | msg_field | (simp_all [St.Inv]; done)
  case MonitoringEventInformation j =>
    simp only [step]
    repeat' split
    all_goals refine ⟨cons_congr (Slot.step_ne rfl).symm (cons_congr (Slot.step_ne rfl).symm (cons_congr (Slot.step_ne rfl).symm (cons_congr (Slot.step_ne rfl).symm (cons_congr (Slot.step_ne rfl).symm (cons_congr (Slot.step_ne rfl).symm (cons_congr (Slot.step_ne rfl).symm (cons_congr (Slot.step_ne rfl).symm (cons_congr (Slot.step_ne rfl).symm (cons_congr (Slot.step_ne rfl).symm (cons_congr (Slot.step_ne rfl).symm (cons_congr (Slot.step_ne rfl).symm (cons_congr (Slot.step_ne rfl).symm (cons_congr (Slot.step_ne rfl).symm (cons_congr (Slot.step_ne rfl).symm (cons_congr ?_ ((Schema.step_other rfl rfl).symm)))))))))))))))), ?_⟩
    all_goals first | exact hi | msg_field | (simp_all [St.Inv]; done)
  case MonitoringEventExtensionInfo j =>
    simp only [step]
    repeat' split
    all_goals refine ⟨cons_congr (Slot.step_ne rfl).symm (cons_congr (Slot.step_ne rfl).symm (cons_congr (Slot.step_ne rfl).symm (cons_congr (Slot.step_ne rfl).symm (cons_congr (Slot.step_ne rfl).symm (cons_congr (Slot.step_ne rfl).symm (cons_congr (Slot.step_ne rfl).symm (cons_congr (Slot.step_ne rfl).symm (cons_congr (Slot.step_ne rfl).symm (cons_congr (Slot.step_ne rfl).symm (cons_congr (Slot.step_ne rfl).symm (cons_congr (Slot.step_ne rfl).symm (cons_congr (Slot.step_ne rfl).symm (cons_congr (Slot.step_ne rfl).symm (cons_congr (Slot.step_ne rfl).symm (cons_congr (Slot.step_ne rfl).symm (cons_congr ?_ ((Schema.step_other rfl rfl).symm))))))))))))))))), ?_⟩
    all_goals first | exact hi | msg_field | (simp_all [St.Inv]; done)
  case IntegerNumber j =>
    simp only [step]
    repeat' split
    all_goals refine ⟨cons_congr (Slot.step_ne rfl).symm (cons_congr (Slot.step_ne rfl).symm (cons_congr (Slot.step_ne rfl).symm (cons_congr (Slot.step_ne rfl).symm (cons_congr (Slot.step_ne rfl).symm (cons_congr (Slot.step_ne rfl).symm (cons_congr (Slot.step_ne rfl).symm (cons_congr (Slot.step_ne rfl).symm (cons_congr (Slot.step_ne rfl).symm (cons_congr (Slot.step_ne rfl).symm (cons_congr (Slot.step_ne rfl).symm (cons_congr (Slot.step_ne rfl).symm (cons_congr (Slot.step_ne rfl).symm (cons_congr (Slot.step_ne rfl).symm (cons_congr (Slot.step_ne rfl).symm (cons_congr (Slot.step_ne rfl).symm (cons_congr (Slot.step_ne rfl).symm (cons_congr ?_ (cons_congr (Slot.step_ne rfl).symm (cons_congr (Slot.step_ne rfl).symm (cons_congr (Slot.step_ne rfl).symm (cons_congr (Slot.step_ne rfl).symm (cons_congr ?_ ((Schema.step_other rfl rfl).symm))))))))))))))))))))))), ?_⟩
    all_goals first | exact hi | msg_field | (simp_all [St.Inv]; done)
  case ScefPdnConnections j =>
    simp only [step]
    repeat' split
    all_goals refine ⟨cons_congr (Slot.step_ne rfl).symm (cons_congr (Slot.step_ne rfl).symm (cons_congr (Slot.step_ne rfl).symm (cons_congr (Slot.step_ne rfl).symm (cons_congr (Slot.step_ne rfl).symm (cons_congr (Slot.step_ne rfl).symm (cons_congr (Slot.step_ne rfl).symm (cons_congr (Slot.step_ne rfl).symm (cons_congr (Slot.step_ne rfl).symm (cons_congr (Slot.step_ne rfl).symm (cons_congr (Slot.step_ne rfl).symm (cons_congr (Slot.step_ne rfl).symm (cons_congr (Slot.step_ne rfl).symm (cons_congr (Slot.step_ne rfl).symm (cons_congr (Slot.step_ne rfl).symm (cons_congr (Slot.step_ne rfl).symm (cons_congr (Slot.step_ne rfl).symm (cons_congr (Slot.step_ne rfl).symm (cons_congr ?_ ((Schema.step_other rfl rfl).symm))))))))))))))))))), ?_⟩
    all_goals first | exact hi | msg_field | (simp_all [St.Inv]; done)
  case RatType j =>
    simp only [step]
    repeat' split
    all_goals refine ⟨cons_congr (Slot.step_ne rfl).symm (cons_congr (Slot.step_ne rfl).symm (cons_congr (Slot.step_ne rfl).symm (cons_congr (Slot.step_ne rfl).symm (cons_congr (Slot.step_ne rfl).symm (cons_congr (Slot.step_ne rfl).symm (cons_congr (Slot.step_ne rfl).symm (cons_congr (Slot.step_ne rfl).symm (cons_congr (Slot.step_ne rfl).symm (cons_congr (Slot.step_ne rfl).symm (cons_congr (Slot.step_ne rfl).symm (cons_congr (Slot.step_ne rfl).symm (cons_congr (Slot.step_ne rfl).symm (cons_congr (Slot.step_ne rfl).symm (cons_congr (Slot.step_ne rfl).symm (cons_congr (Slot.step_ne rfl).symm (cons_congr (Slot.step_ne rfl).symm (cons_congr (Slot.step_ne rfl).symm (cons_congr (Slot.step_ne rfl).symm (cons_congr ?_ ((Schema.step_other rfl rfl).symm)))))))))))))))))))), ?_⟩
    all_goals first | exact hi | msg_field | (simp_all [St.Inv]; done)
  case ServingPlmnRateControl j =>
    simp only [step]
    repeat' split
    all_goals refine ⟨cons_congr (Slot.step_ne rfl).symm (cons_congr (Slot.step_ne rfl).symm (cons_congr (Slot.step_ne rfl).symm (cons_congr (Slot.step_ne rfl).symm (cons_congr (Slot.step_ne rfl).symm (cons_congr (Slot.step_ne rfl).symm (cons_congr (Slot.step_ne rfl).symm (cons_congr (Slot.step_ne rfl).symm (cons_congr (Slot.step_ne rfl).symm (cons_congr (Slot.step_ne rfl).symm (cons_congr (Slot.step_ne rfl).symm (cons_congr (Slot.step_ne rfl).symm (cons_congr (Slot.step_ne rfl).symm (cons_congr (Slot.step_ne rfl).symm (cons_congr (Slot.step_ne rfl).symm (cons_congr (Slot.step_ne rfl).symm (cons_congr (Slot.step_ne rfl).symm (cons_congr (Slot.step_ne rfl).symm (cons_congr (Slot.step_ne rfl).symm (cons_congr (Slot.step_ne rfl).symm (cons_congr ?_ ((Schema.step_other rfl rfl).symm))))))))))))))))))))), ?_⟩
    all_goals first | exact hi | msg_field | (simp_all [St.Inv]; done)
  case Counter j =>
    simp only [step]
    repeat' split
    all_goals refine ⟨cons_congr (Slot.step_ne rfl).symm (cons_congr (Slot.step_ne rfl).symm (cons_congr (Slot.step_ne rfl).symm (cons_congr (Slot.step_ne rfl).symm (cons_congr (Slot.step_ne rfl).symm (cons_congr (Slot.step_ne rfl).symm (cons_congr (Slot.step_ne rfl).symm (cons_congr (Slot.step_ne rfl).symm (cons_congr (Slot.step_ne rfl).symm (cons_congr (Slot.step_ne rfl).symm (cons_congr (Slot.step_ne rfl).symm (cons_congr (Slot.step_ne rfl).symm (cons_congr (Slot.step_ne rfl).symm (cons_congr (Slot.step_ne rfl).symm (cons_congr (Slot.step_ne rfl).symm (cons_congr (Slot.step_ne rfl).symm (cons_congr (Slot.step_ne rfl).symm (cons_congr (Slot.step_ne rfl).symm (cons_congr (Slot.step_ne rfl).symm (cons_congr (Slot.step_ne rfl).symm (cons_congr (Slot.step_ne rfl).symm (cons_congr ?_ ((Schema.step_other rfl rfl).symm)))))))))))))))))))))), ?_⟩
    all_goals first | exact hi | msg_field | (simp_all [St.Inv]; done)
  case ExtendedTraceInformation j =>
    simp only [step]
    repeat' split
    all_goals refine ⟨cons_congr (Slot.step_ne rfl).symm (cons_congr (Slot.step_ne rfl).symm (cons_congr (Slot.step_ne rfl).symm (cons_congr (Slot.step_ne rfl).symm (cons_congr (Slot.step_ne rfl).symm (cons_congr (Slot.step_ne rfl).symm (cons_congr (Slot.step_ne rfl).symm (cons_congr (Slot.step_ne rfl).symm (cons_congr (Slot.step_ne rfl).symm (cons_congr (Slot.step_ne rfl).symm (cons_congr (Slot.step_ne rfl).symm (cons_congr (Slot.step_ne rfl).symm (cons_congr (Slot.step_ne rfl).symm (cons_congr (Slot.step_ne rfl).symm (cons_congr (Slot.step_ne rfl).symm (cons_congr (Slot.step_ne rfl).symm (cons_congr (Slot.step_ne rfl).symm (cons_congr (Slot.step_ne rfl).symm (cons_congr (Slot.step_ne rfl).symm (cons_congr (Slot.step_ne rfl).symm (cons_congr (Slot.step_ne rfl).symm (cons_congr (Slot.step_ne rfl).symm (cons_congr (Slot.step_ne rfl).symm (cons_congr ?_ ((Schema.step_other rfl rfl).symm)))))))))))))))))))))))), ?_⟩
    all_goals first | exact hi | msg_field | (simp_all [St.Inv]; done)
  case AdditionalRrmPolicyIndex j =>
    simp only [step]
    repeat' split
    all_goals refine ⟨cons_congr (Slot.step_ne rfl).symm (cons_congr (Slot.step_ne rfl).symm (cons_congr (Slot.step_ne rfl).symm (cons_congr (Slot.step_ne rfl).symm (cons_congr (Slot.step_ne rfl).symm (cons_congr (Slot.step_ne rfl).symm (cons_congr (Slot.step_ne rfl).symm (cons_congr (Slot.step_ne rfl).symm (cons_congr (Slot.step_ne rfl).symm (cons_congr (Slot.step_ne rfl).symm (cons_congr (Slot.step_ne rfl).symm (cons_congr (Slot.step_ne rfl).symm (cons_congr (Slot.step_ne rfl).symm (cons_congr (Slot.step_ne rfl).symm (cons_congr (Slot.step_ne rfl).symm (cons_congr (Slot.step_ne rfl).symm (cons_congr (Slot.step_ne rfl).symm (cons_congr (Slot.step_ne rfl).symm (cons_congr (Slot.step_ne rfl).symm (cons_congr (Slot.step_ne rfl).symm (cons_congr (Slot.step_ne rfl).symm (cons_congr (Slot.step_ne rfl).symm (cons_congr (Slot.step_ne rfl).symm (cons_congr (Slot.step_ne rfl).symm (cons_congr ?_ ((Schema.step_other rfl rfl).symm))))))))))))))))))))))))), ?_⟩
    all_goals first | exact hi | msg_field | (simp_all [St.Inv]; done)
  case NodeIdentifier j =>
    simp only [step]
    repeat' split
    all_goals refine ⟨cons_congr (Slot.step_ne rfl).symm (cons_congr (Slot.step_ne rfl).symm (cons_congr (Slot.step_ne rfl).symm (cons_congr (Slot.step_ne rfl).symm (cons_congr (Slot.step_ne rfl).symm (cons_congr (Slot.step_ne rfl).symm (cons_congr (Slot.step_ne rfl).symm (cons_congr (Slot.step_ne rfl).symm (cons_congr (Slot.step_ne rfl).symm (cons_congr (Slot.step_ne rfl).symm (cons_congr (Slot.step_ne rfl).symm (cons_congr (Slot.step_ne rfl).symm (cons_congr (Slot.step_ne rfl).symm (cons_congr (Slot.step_ne rfl).symm (cons_congr (Slot.step_ne rfl).symm (cons_congr (Slot.step_ne rfl).symm (cons_congr (Slot.step_ne rfl).symm (cons_congr (Slot.step_ne rfl).symm (cons_congr (Slot.step_ne rfl).symm (cons_congr (Slot.step_ne rfl).symm (cons_congr (Slot.step_ne rfl).symm (cons_congr (Slot.step_ne rfl).symm (cons_congr (Slot.step_ne rfl).symm (cons_congr (Slot.step_ne rfl).symm (cons_congr (Slot.step_ne rfl).symm (cons_congr ?_ ((Schema.step_other rfl rfl).symm)))))))))))))))))))))))))), ?_⟩
    all_goals first | exact hi | msg_field | (simp_all [St.Inv]; done)
  case AlternativeImsi j =>
    simp only [step]
    repeat' split
    all_goals refine ⟨cons_congr (Slot.step_ne rfl).symm (cons_congr (Slot.step_ne rfl).symm (cons_congr (Slot.step_ne rfl).symm (cons_congr (Slot.step_ne rfl).symm (cons_congr (Slot.step_ne rfl).symm (cons_congr (Slot.step_ne rfl).symm (cons_congr (Slot.step_ne rfl).symm (cons_congr (Slot.step_ne rfl).symm (cons_congr (Slot.step_ne rfl).symm (cons_congr (Slot.step_ne rfl).symm (cons_congr (Slot.step_ne rfl).symm (cons_congr (Slot.step_ne rfl).symm (cons_congr (Slot.step_ne rfl).symm (cons_congr (Slot.step_ne rfl).symm (cons_congr (Slot.step_ne rfl).symm (cons_congr (Slot.step_ne rfl).symm (cons_congr (Slot.step_ne rfl).symm (cons_congr (Slot.step_ne rfl).symm (cons_congr (Slot.step_ne rfl).symm (cons_congr (Slot.step_ne rfl).symm (cons_congr (Slot.step_ne rfl).symm (cons_congr (Slot.step_ne rfl).symm (cons_congr (Slot.step_ne rfl).symm (cons_congr (Slot.step_ne rfl).symm (cons_congr (Slot.step_ne rfl).symm (cons_congr (Slot.step_ne rfl).symm (cons_congr ?_ ((Schema.step_other rfl rfl).symm))))))))))))))))))))))))))), ?_⟩
    all_goals first | exact hi | msg_field | (simp_all [St.Inv]; done)
  case PrivateExtension j =>
    simp only [step]
    all_goals refine ⟨cons_congr (Slot.step_ne rfl).symm (cons_congr (Slot.step_ne rfl).symm (cons_congr (Slot.step_ne rfl).symm (cons_congr (Slot.step_ne rfl).symm (cons_congr (Slot.step_ne rfl).symm (cons_congr (Slot.step_ne rfl).symm (cons_congr (Slot.step_ne rfl).symm (cons_congr (Slot.step_ne rfl).symm (cons_congr (Slot.step_ne rfl).symm (cons_congr (Slot.step_ne rfl).symm (cons_congr (Slot.step_ne rfl).symm (cons_congr (Slot.step_ne rfl).symm (cons_congr (Slot.step_ne rfl).symm (cons_congr (Slot.step_ne rfl).symm (cons_congr (Slot.step_ne rfl).symm (cons_congr (Slot.step_ne rfl).symm (cons_congr (Slot.step_ne rfl).symm (cons_congr (Slot.step_ne rfl).symm (cons_congr (Slot.step_ne rfl).symm (cons_congr (Slot.step_ne rfl).symm (cons_congr (Slot.step_ne rfl).symm (cons_congr (Slot.step_ne rfl).symm (cons_congr (Slot.step_ne rfl).symm (cons_congr (Slot.step_ne rfl).symm (cons_congr (Slot.step_ne rfl).symm (cons_congr (Slot.step_ne rfl).symm (cons_congr (Slot.step_ne rfl).symm (cons_congr ?_ (rfl)))))))))))))))))))))))))))), ?_⟩
    all_goals first | exact hi | msg_field | (simp_all [St.Inv]; done)
  all_goals exact ⟨(Schema.step_other rfl rfl).symm, hi⟩

theorem loop (h : Header) (els : List IE) :
    (els.foldl step ⟨{ dflt with header := h }, false⟩).view = schema.map (·.select els) ∧ (els.foldl step ⟨{ dflt with header := h }, false⟩).Inv h := by
  have := foldl_view (Q := fun _ => True) (fun s e hp _ => step_view h s e hp) els ⟨{ dflt with header := h }, false⟩ (fun _ _ => trivial) (by simp [St.Inv])
  rw [show St.view ⟨{ dflt with header := h }, false⟩ = schema.map (fun _ => []) from rfl, Schema.foldl_nil] at this
  exact this

theorem ext {x y : ContextResponse} (hh : x.header = y.header) (h : fields x = fields y) : x = y := by
  cases x; cases y
  simp only at hh
  subst hh
  injection h with h0 h
  cases h0
  injection h with h1 h
  cases optV_inj (fun _ _ h => IE.Imsi.inj h) h1
  injection h with h2 h
  cases optV_inj (fun _ _ h => IE.MmContext.inj h) h2
  injection h with h3 h
  cases map_inj (fun _ _ h => IE.PdnConnections.inj h) h3
  injection h with h4 h
  cases optV_inj (fun _ _ h => IE.Fteid.inj h) h4
  injection h with h5 h
  cases optV_inj (fun _ _ h => IE.Fteid.inj h) h5
  injection h with h6 h
  cases map_inj (fun _ _ h => IE.Fqdn.inj h) h6
  injection h with h7 h
  cases optV_inj (fun _ _ h => IE.Indication.inj h) h7
  injection h with h8 h
  cases optV_inj (fun _ _ h => IE.TraceInformation.inj h) h8
  injection h with h9 h
  cases map_inj (fun _ _ h => IE.IpAddress.inj h) h9
  injection h with h10 h
  cases map_inj (fun _ _ h => IE.RfspIndex.inj h) h10
  injection h with h11 h
  cases optV_inj (fun _ _ h => IE.UeTimeZone.inj h) h11
  injection h with h12 h
  cases optV_inj (fun _ _ h => IE.Ldn.inj h) h12
  injection h with h13 h
  cases optV_inj (fun _ _ h => IE.MdtConfiguration.inj h) h13
  injection h with h14 h
  cases optV_inj (fun _ _ h => IE.Uci.inj h) h14
  injection h with h15 h
  cases map_inj (fun _ _ h => IE.MonitoringEventInformation.inj h) h15
  injection h with h16 h
  cases map_inj (fun _ _ h => IE.MonitoringEventExtensionInfo.inj h) h16
  injection h with h17 h
  cases optV_inj (fun _ _ h => IE.IntegerNumber.inj h) h17
  injection h with h18 h
  cases map_inj (fun _ _ h => IE.ScefPdnConnections.inj h) h18
  injection h with h19 h
  cases optV_inj (fun _ _ h => IE.RatType.inj h) h19
  injection h with h20 h
  cases optV_inj (fun _ _ h => IE.ServingPlmnRateControl.inj h) h20
  injection h with h21 h
  cases optV_inj (fun _ _ h => IE.Counter.inj h) h21
  injection h with h22 h
  cases optV_inj (fun _ _ h => IE.IntegerNumber.inj h) h22
  injection h with h23 h
  cases optV_inj (fun _ _ h => IE.ExtendedTraceInformation.inj h) h23
  injection h with h24 h
  cases map_inj (fun _ _ h => IE.AdditionalRrmPolicyIndex.inj h) h24
  injection h with h25 h
  cases optV_inj (fun _ _ h => IE.NodeIdentifier.inj h) h25
  injection h with h26 h
  cases optV_inj (fun _ _ h => IE.AlternativeImsi.inj h) h26
  injection h with h27 h
  cases map_inj (fun _ _ h => IE.PrivateExtension.inj h) h27
  rfl

theorem mand : schema.filter (·.card.mandatory) = [(⟨.Cause, .is 0, .one⟩ : Slot)] := rfl

/-- The flags tell which mandatory IEs are absent. -/
theorem flags (h : Header) (els : List IE) : ∃ x m0, els.foldl step ⟨{ dflt with header := h }, false⟩ = ⟨x, m0⟩ ∧ St.view ⟨x, m0⟩ = schema.map (·.select els) ∧ x.header = h ∧
    (⟨.Cause, .is 0, .one⟩ : Slot).lacks els = (!m0) := by
  obtain ⟨hv, hi⟩ := loop h els
  generalize els.foldl step ⟨{ dflt with header := h }, false⟩ = s at hv hi ⊢
  obtain ⟨x, m0⟩ := s
  simp only [St.Inv] at hi
  have l0 : (⟨.Cause, .is 0, .one⟩ : Slot).lacks els = (!m0) := by
    rw [Slot.lacks_eq els rfl]
    have e := congrArg (fun l => l.getD 0 []) hv
    rw [show (⟨.Cause, .is 0, .one⟩ : Slot).select els = if m0 then [.Cause x.cause] else [] from e.symm]
    cases m0 <;> rfl
  exact ⟨x, m0, rfl, hv, hi, l0⟩

theorem complete (h : Header) (els : List IE) (hm : schema.missing els = []) : ∃ y, fromvec { dflt with header := h } els = .ok y ∧ y.header = h ∧ fields y = schema.map (·.select els) := by
  obtain ⟨x, m0, hs, hv, hh, l0⟩ := flags h els
  unfold fromvec
  rw [hs]
  dsimp only [finish]
  have f0 := l0.symm.trans (Schema.of_missing_nil mand (by simp) hm)
  cases m0 <;> first | exact ⟨x, rfl, hh, hv⟩ | contradiction

theorem describes : Describes codec schema fields where
  header_set _ _ := rfl
  fields_set _ _ := rfl
  ext _ _ hh h := ext hh h
  shape x := Aligned.one (fun _ => rfl) <| Aligned.opt (fun _ => rfl) <| Aligned.opt (fun _ => rfl) <| Aligned.many (fun _ => rfl) <| Aligned.opt (fun _ => rfl) <| Aligned.opt (fun _ => rfl) <| Aligned.many (fun _ => rfl) <| Aligned.opt (fun _ => rfl) <| Aligned.opt (fun _ => rfl) <| Aligned.many (fun _ => rfl) <| Aligned.many (fun _ => rfl) <| Aligned.opt (fun _ => rfl) <| Aligned.opt (fun _ => rfl) <| Aligned.opt (fun _ => rfl) <| Aligned.opt (fun _ => rfl) <| Aligned.many (fun _ => rfl) <| Aligned.many (fun _ => rfl) <| Aligned.opt (fun _ => rfl) <| Aligned.many (fun _ => rfl) <| Aligned.opt (fun _ => rfl) <| Aligned.opt (fun _ => rfl) <| Aligned.opt (fun _ => rfl) <| Aligned.opt (fun _ => rfl) <| Aligned.opt (fun _ => rfl) <| Aligned.many (fun _ => rfl) <| Aligned.opt (fun _ => rfl) <| Aligned.opt (fun _ => rfl) <| Aligned.many (fun _ => rfl) <| trivial
  tovec x := by simp [codec, tovec, fields]
  complete h els _ hm := complete h els hm

theorem reports (h : Header) (els : List IE) (hm : schema.missing els ≠ []) :
    ∃ s ∈ schema.missing els, ∃ t, fromvec { dflt with header := h } els = .err (.messageMandatoryIEMissing t) ∧ kindOf t = s.kind := by
  obtain ⟨x, m0, hs, hv, hh, l0⟩ := flags h els
  unfold fromvec
  rw [hs]
  dsimp only [finish]
  cases m0 <;>
    first | exact ⟨_, Schema.mem_missing mand (by simp) l0, _, rfl, rfl⟩ | exact absurd (Schema.missing_nil mand (by simp [l0])) hm

theorem settled (h : Header) (els els' : List IE) (he : ∀ s ∈ schema, s.card.mandatory = true → s.lacks els = s.lacks els')
    (hm : schema.missing els ≠ []) : fromvec { dflt with header := h } els = fromvec { dflt with header := h } els' := by
  obtain ⟨x, m0, hs, hv, hh, l0⟩ := flags h els
  obtain ⟨x', m0', hs', hv', hh', l0'⟩ := flags h els'
  unfold fromvec
  rw [hs, hs']
  obtain rfl := Bool.not_inj (l0.symm.trans ((he _ (by decide) rfl).trans l0'))
  dsimp only [finish]
  cases m0 <;>
    first | rfl | exact absurd (Schema.missing_nil mand (by simp [l0])) hm

end ContextResponse

/-- `CreateBearerRequest` (createbearerreq.rs:15-34). -/
structure CreateBearerRequest where
  header : Header
  pti : Option V2.Pti
  linked_ebi : V2.Ebi
  pco : Option V2.Pco
  bearer_ctxs : List V2.BearerContext
  pgw_fqcsid : Option V2.Fqcsid
  sgw_fqcsid : Option V2.Fqcsid
  cra : Option V2.ChangeReportingAction
  csg_ira : Option V2.CSGInformationReportingAction
  henb_info_report : Option V2.HenbInfoReporting
  praa : Option V2.PresenceReportingAreaAction
  indication : Option V2.Indication
  load_control : List V2.LoadControl
  overload_info : List V2.OverloadControlInfo
  nbifom : Option V2.Fcontainer
  pgw_change_info : List V2.PgwChangeInfo
  sender_fteid_cntrl_plane : Option V2.Fteid
  private_ext : List V2.PrivateExtension
deriving DecidableEq

namespace CreateBearerRequest

/-- `default` (createbearerreq.rs:37-62). -/
def dflt : CreateBearerRequest :=
  { header := { Header.default with msgtype := 95, teid := some 0 }, pti := none, linked_ebi := V2.Ebi.dflt, pco := none, bearer_ctxs := [], pgw_fqcsid := none, sgw_fqcsid := none, cra := none, csg_ira := none, henb_info_report := none, praa := none, indication := none, load_control := [], overload_info := [], nbifom := none, pgw_change_info := [], sender_fteid_cntrl_plane := none, private_ext := [] }

/-- `tovec` (createbearerreq.rs:99-169). -/
def tovec (x : CreateBearerRequest) : List IE :=
  optV .Pti x.pti ++ (
  [.Ebi x.linked_ebi] ++ (
  optV .Pco x.pco ++ (
  x.bearer_ctxs.map .BearerContext ++ (
  optV .Fqcsid x.pgw_fqcsid ++ (
  optV .Fqcsid x.sgw_fqcsid ++ (
  optV .ChangeReportingAction x.cra ++ (
  optV .CSGInformationReportingAction x.csg_ira ++ (
  optV .HenbInfoReporting x.henb_info_report ++ (
  optV .PresenceReportingAreaAction x.praa ++ (
  optV .Indication x.indication ++ (
  x.load_control.map .LoadControlInfo ++ (
  x.overload_info.map .OverloadControlInfo ++ (
  optV .Fcontainer x.nbifom ++ (
  x.pgw_change_info.map .PgwChangeInfo ++ (
  optV .Fteid x.sender_fteid_cntrl_plane ++ (
  x.private_ext.map .PrivateExtension))))))))))))))))

/-- The variables of `fromvec`: the message and the array `mandatory` (createbearerreq.rs:171-264). -/
structure St where
  x : CreateBearerRequest
  m0 : Bool
  m1 : Bool

/-- One turn of the loop of `fromvec` (createbearerreq.rs:171-264). -/
def step (s : St) : IE → St
  | .Pti j => if j.ins = 0 ∧ s.x.pti.isNone = true then { s with x := { s.x with pti := some j } } else s
  | .Ebi j => if j.ins = 0 ∧ s.m0 = false then { s with x := { s.x with linked_ebi := j }, m0 := true } else s
  | .Pco j => if j.ins = 0 ∧ s.x.pco.isNone = true then { s with x := { s.x with pco := some j } } else s
  | .BearerContext j => if j.ins = 0 then { s with x := { s.x with bearer_ctxs := s.x.bearer_ctxs ++ [j] }, m1 := true } else s
  | .Fqcsid j => if j.ins = 0 ∧ s.x.pgw_fqcsid.isNone = true then { s with x := { s.x with pgw_fqcsid := some j } } else if j.ins = 1 ∧ s.x.sgw_fqcsid.isNone = true then { s with x := { s.x with sgw_fqcsid := some j } } else s
  | .ChangeReportingAction j => if j.ins = 0 ∧ s.x.cra.isNone = true then { s with x := { s.x with cra := some j } } else s
  | .CSGInformationReportingAction j => if j.ins = 0 ∧ s.x.csg_ira.isNone = true then { s with x := { s.x with csg_ira := some j } } else s
  | .HenbInfoReporting j => if j.ins = 0 ∧ s.x.henb_info_report.isNone = true then { s with x := { s.x with henb_info_report := some j } } else s
  | .PresenceReportingAreaAction j => if j.ins = 0 ∧ s.x.praa.isNone = true then { s with x := { s.x with praa := some j } } else s
  | .Indication j => if j.ins = 0 ∧ s.x.indication.isNone = true then { s with x := { s.x with indication := some j } } else s
  | .LoadControlInfo j => if j.ins < 3 then { s with x := { s.x with load_control := s.x.load_control ++ [j] } } else s
  | .OverloadControlInfo j => if j.ins < 2 then { s with x := { s.x with overload_info := s.x.overload_info ++ [j] } } else s
  | .Fcontainer j => if j.ins = 0 ∧ s.x.nbifom.isNone = true then { s with x := { s.x with nbifom := some j } } else s
  | .PgwChangeInfo j => if j.ins = 0 then { s with x := { s.x with pgw_change_info := s.x.pgw_change_info ++ [j] } } else s
  | .Fteid j => if j.ins = 0 ∧ s.x.sender_fteid_cntrl_plane.isNone = true then { s with x := { s.x with sender_fteid_cntrl_plane := some j } } else s
  | .PrivateExtension j => { s with x := { s.x with private_ext := s.x.private_ext ++ [j] } }
  | _ => s

/-- The end of `fromvec` (createbearerreq.rs:171-264). -/
def finish (s : St) : R Err CreateBearerRequest :=
  match s.m0, s.m1 with
  | false, false => .err (.messageMandatoryIEMissing 73)
  | false, true => .err (.messageMandatoryIEMissing 73)
  | true, false => .err (.messageMandatoryIEMissing 93)
  | true, true => .ok s.x

/-- `fromvec` (createbearerreq.rs:171-264). -/
def fromvec (x : CreateBearerRequest) (els : List IE) : R Err CreateBearerRequest := finish (els.foldl step ⟨x, false, false⟩)

/-- The message type (createbearerreq.rs:66-97). -/
def codec : Codec CreateBearerRequest :=
  { msgtype := 95, start := some 12, dflt, header := header, setHeader := fun x h => { x with header := h }, tovec, fromvec }

/-- One slot per field. -/
def schema : Schema :=
  [⟨.Pti, .is 0, .opt⟩,
   ⟨.Ebi, .is 0, .one⟩,
   ⟨.Pco, .is 0, .opt⟩,
   ⟨.BearerContext, .is 0, .many1 (.is 0)⟩,
   ⟨.Fqcsid, .is 0, .opt⟩,
   ⟨.Fqcsid, .is 1, .opt⟩,
   ⟨.ChangeReportingAction, .is 0, .opt⟩,
   ⟨.CSGInformationReportingAction, .is 0, .opt⟩,
   ⟨.HenbInfoReporting, .is 0, .opt⟩,
   ⟨.PresenceReportingAreaAction, .is 0, .opt⟩,
   ⟨.Indication, .is 0, .opt⟩,
   ⟨.LoadControlInfo, .lt 3, .many⟩,
   ⟨.OverloadControlInfo, .lt 2, .many⟩,
   ⟨.Fcontainer, .is 0, .opt⟩,
   ⟨.PgwChangeInfo, .is 0, .many⟩,
   ⟨.Fteid, .is 0, .opt⟩,
   ⟨.PrivateExtension, .any, .many⟩]

/-- The fields as lists of IEs. -/
def fields (x : CreateBearerRequest) : List (List IE) :=
  [optV .Pti x.pti,
   [.Ebi x.linked_ebi],
   optV .Pco x.pco,
   x.bearer_ctxs.map .BearerContext,
   optV .Fqcsid x.pgw_fqcsid,
   optV .Fqcsid x.sgw_fqcsid,
   optV .ChangeReportingAction x.cra,
   optV .CSGInformationReportingAction x.csg_ira,
   optV .HenbInfoReporting x.henb_info_report,
   optV .PresenceReportingAreaAction x.praa,
   optV .Indication x.indication,
   x.load_control.map .LoadControlInfo,
   x.overload_info.map .OverloadControlInfo,
   optV .Fcontainer x.nbifom,
   x.pgw_change_info.map .PgwChangeInfo,
   optV .Fteid x.sender_fteid_cntrl_plane,
   x.private_ext.map .PrivateExtension]

/-- What the state has collected so far. -/
def St.view (s : St) : List (List IE) :=
  [optV .Pti s.x.pti,
   if s.m0 then [.Ebi s.x.linked_ebi] else [],
   optV .Pco s.x.pco,
   s.x.bearer_ctxs.map .BearerContext,
   optV .Fqcsid s.x.pgw_fqcsid,
   optV .Fqcsid s.x.sgw_fqcsid,
   optV .ChangeReportingAction s.x.cra,
   optV .CSGInformationReportingAction s.x.csg_ira,
   optV .HenbInfoReporting s.x.henb_info_report,
   optV .PresenceReportingAreaAction s.x.praa,
   optV .Indication s.x.indication,
   s.x.load_control.map .LoadControlInfo,
   s.x.overload_info.map .OverloadControlInfo,
   optV .Fcontainer s.x.nbifom,
   s.x.pgw_change_info.map .PgwChangeInfo,
   optV .Fteid s.x.sender_fteid_cntrl_plane,
   s.x.private_ext.map .PrivateExtension]

/-- The header is left alone; flags of mandatory lists tell whether the list is empty. -/
def St.Inv (h : Header) (s : St) : Prop :=
  s.x.header = h ∧ s.m1 = !s.x.bearer_ctxs.isEmpty

theorem step_view (h : Header) (s : St) (e : IE) (hi : s.Inv h) : (step s e).view = Schema.step schema s.view e ∧ (step s e).Inv h := by
  cases e
  case Pti j =>
    simp only [step]
    repeat' split
    all_goals refine ⟨cons_congr ?_ ((Schema.step_other rfl rfl).symm), ?_⟩
    all_goals first | exact hi | msg_field | (simp_all [St.Inv]; done)
  case Ebi j =>
    simp only [step]
    repeat' split
    all_goals refine ⟨cons_congr (Slot.step_ne rfl).symm (cons_congr ?_ ((Schema.step_other rfl rfl).symm)), ?_⟩
    all_goals first | exact hi | msg_field | (simp_all [St.Inv]; done)
  case Pco j =>
    simp only [step]
    repeat' split
    all_goals refine ⟨cons_congr (Slot.step_ne rfl).symm (cons_congr (Slot.step_ne rfl).symm (cons_congr ?_ ((Schema.step_other rfl rfl).symm))), ?_⟩
    all_goals first | exact hi | msg_field | (simp_all [St.Inv]; done)
  case BearerContext j =>
    simp only [step]
    repeat' split
    all_goals refine ⟨cons_congr (Slot.step_ne rfl).symm (cons_congr (Slot.step_ne rfl).symm (cons_congr (Slot.step_ne rfl).symm (cons_congr ?_ ((Schema.step_other rfl rfl).symm)))), ?_⟩
    all_goals first | exact hi | msg_field | (simp_all [St.Inv]; done)
  case Fqcsid j =>
    simp only [step]
    repeat' split
    all_goals refine ⟨cons_congr (Slot.step_ne rfl).symm (cons_congr (Slot.step_ne rfl).symm (cons_congr (Slot.step_ne rfl).symm (cons_congr (Slot.step_ne rfl).symm (cons_congr ?_ (cons_congr ?_ ((Schema.step_other rfl rfl).symm)))))), ?_⟩
    all_goals first | exact hi | msg_field | (simp_all [St.Inv]; done)
  case ChangeReportingAction j =>
    simp only [step]
    repeat' split
    all_goals refine ⟨cons_congr (Slot.step_ne rfl).symm (cons_congr (Slot.step_ne rfl).symm (cons_congr (Slot.step_ne rfl).symm (cons_congr (Slot.step_ne rfl).symm (cons_congr (Slot.step_ne rfl).symm (cons_congr (Slot.step_ne rfl).symm (cons_congr ?_ ((Schema.step_other rfl rfl).symm))))))), ?_⟩
    all_goals first | exact hi | msg_field | (simp_all [St.Inv]; done)
  case CSGInformationReportingAction j =>
    simp only [step]
    repeat' split
    all_goals refine ⟨cons_congr (Slot.step_ne rfl).symm (cons_congr (Slot.step_ne rfl).symm (cons_congr (Slot.step_ne rfl).symm (cons_congr (Slot.step_ne rfl).symm (cons_congr (Slot.step_ne rfl).symm (cons_congr (Slot.step_ne rfl).symm (cons_congr (Slot.step_ne rfl).symm (cons_congr ?_ ((Schema.step_other rfl rfl).symm)))))))), ?_⟩
    all_goals first | exact hi | msg_field | (simp_all [St.Inv]; done)
  case HenbInfoReporting j =>
    simp only [step]
    repeat' split
    all_goals refine ⟨cons_congr (Slot.step_ne rfl).symm (cons_congr (Slot.step_ne rfl).symm (cons_congr (Slot.step_ne rfl).symm (cons_congr (Slot.step_ne rfl).symm (cons_congr (Slot.step_ne rfl).symm (cons_congr (Slot.step_ne rfl).symm (cons_congr (Slot.step_ne rfl).symm (cons_congr (Slot.step_ne rfl).symm (cons_congr ?_ ((Schema.step_other rfl rfl).symm))))))))), ?_⟩
    all_goals first | exact hi | msg_field | (simp_all [St.Inv]; done)
  case PresenceReportingAreaAction j =>
    simp only [step]
    repeat' split
    all_goals refine ⟨cons_congr (Slot.step_ne rfl).symm (cons_congr (Slot.step_ne rfl).symm (cons_congr (Slot.step_ne rfl).symm (cons_congr (Slot.step_ne rfl).symm (cons_congr (Slot.step_ne rfl).symm (cons_congr (Slot.step_ne rfl).symm (cons_congr (Slot.step_ne rfl).symm (cons_congr (Slot.step_ne rfl).symm (cons_congr (Slot.step_ne rfl).symm (cons_congr ?_ ((Schema.step_other rfl rfl).symm)))))))))), ?_⟩
    all_goals first | exact hi | msg_field | (simp_all [St.Inv]; done)
  case Indication j =>
    simp only [step]
    repeat' split
    all_goals refine ⟨cons_congr (Slot.step_ne rfl).symm (cons_congr (Slot.step_ne rfl).symm (cons_congr (Slot.step_ne rfl).symm (cons_congr (Slot.step_ne rfl).symm (cons_congr (Slot.step_ne rfl).symm (cons_congr (Slot.step_ne rfl).symm (cons_congr (Slot.step_ne rfl).symm (cons_congr (Slot.step_ne rfl).symm (cons_congr (Slot.step_ne rfl).symm (cons_congr (Slot.step_ne rfl).symm (cons_congr ?_ ((Schema.step_other rfl rfl).symm))))))))))), ?_⟩
    all_goals first | exact hi | msg_field | (simp_all [St.Inv]; done)
  case LoadControlInfo j =>
    simp only [step]
    repeat' split
    all_goals refine ⟨cons_congr (Slot.step_ne rfl).symm (cons_congr (Slot.step_ne rfl).symm (cons_congr (Slot.step_ne rfl).symm (cons_congr (Slot.step_ne rfl).symm (cons_congr (Slot.step_ne rfl).symm (cons_congr (Slot.step_ne rfl).symm (cons_congr (Slot.step_ne rfl).symm (cons_congr (Slot.step_ne rfl).symm (cons_congr (Slot.step_ne rfl).symm (cons_congr (Slot.step_ne rfl).symm (cons_congr (Slot.step_ne rfl).symm (cons_congr ?_ ((Schema.step_other rfl rfl).symm)))))))))))), ?_⟩
    all_goals first | exact hi | msg_field | (simp_all [St.Inv]; done)
  case OverloadControlInfo j =>
    simp only [step]
    repeat' split
    all_goals refine ⟨cons_congr (Slot.step_ne rfl).symm (cons_congr (Slot.step_ne rfl).symm (cons_congr (Slot.step_ne rfl).symm (cons_congr (Slot.step_ne rfl).symm (cons_congr (Slot.step_ne rfl).symm (cons_congr (Slot.step_ne rfl).symm (cons_congr (Slot.step_ne rfl).symm (cons_congr (Slot.step_ne rfl).symm (cons_congr (Slot.step_ne rfl).symm (cons_congr (Slot.step_ne rfl).symm (cons_congr (Slot.step_ne rfl).symm (cons_congr (Slot.step_ne rfl).symm (cons_congr ?_ ((Schema.step_other rfl rfl).symm))))))))))))), ?_⟩
    all_goals first | exact hi | msg_field | (simp_all [St.Inv]; done)
  case Fcontainer j =>
    simp only [step]
    repeat' split
    all_goals refine ⟨cons_congr (Slot.step_ne rfl).symm (cons_congr (Slot.step_ne rfl).symm (cons_congr (Slot.step_ne rfl).symm (cons_congr (Slot.step_ne rfl).symm (cons_congr (Slot.step_ne rfl).symm (cons_congr (Slot.step_ne rfl).symm (cons_congr (Slot.step_ne rfl).symm (cons_congr (Slot.step_ne rfl).symm (cons_congr (Slot.step_ne rfl).symm (cons_congr (Slot.step_ne rfl).symm (cons_congr (Slot.step_ne rfl).symm (cons_congr (Slot.step_ne rfl).symm (cons_congr (Slot.step_ne rfl).symm (cons_congr ?_ ((Schema.step_other rfl rfl).symm)))))))))))))), ?_⟩
    all_goals first | exact hi | msg_field | (simp_all [St.Inv]; done)
  case PgwChangeInfo j =>
    simp only [step]
    repeat' split
    all_goals refine ⟨cons_congr (Slot.step_ne rfl).symm (cons_congr (Slot.step_ne rfl).symm (cons_congr (Slot.step_ne rfl).symm (cons_congr (Slot.step_ne rfl).symm (cons_congr (Slot.step_ne rfl).symm (cons_congr (Slot.step_ne rfl).symm (cons_congr (Slot.step_ne rfl).symm (cons_congr (Slot.step_ne rfl).symm (cons_congr (Slot.step_ne rfl).symm (cons_congr (Slot.step_ne rfl).symm (cons_congr (Slot.step_ne rfl).symm (cons_congr (Slot.step_ne rfl).symm (cons_congr (Slot.step_ne rfl).symm (cons_congr (Slot.step_ne rfl).symm (cons_congr ?_ ((Schema.step_other rfl rfl).symm))))))))))))))), ?_⟩
    all_goals first | exact hi | msg_field | (simp_all [St.Inv]; done)
  case Fteid j =>
    simp only [step]
    repeat' split
    all_goals refine ⟨cons_congr (Slot.step_ne rfl).symm (cons_congr (Slot.step_ne rfl).symm (cons_congr (Slot.step_ne rfl).symm (cons_congr (Slot.step_ne rfl).symm (cons_congr (Slot.step_ne rfl).symm (cons_congr (Slot.step_ne rfl).symm (cons_congr (Slot.step_ne rfl).symm (cons_congr (Slot.step_ne rfl).symm (cons_congr (Slot.step_ne rfl).symm (cons_congr (Slot.step_ne rfl).symm (cons_congr (Slot.step_ne rfl).symm (cons_congr (Slot.step_ne rfl).symm (cons_congr (Slot.step_ne rfl).symm (cons_congr (Slot.step_ne rfl).symm (cons_congr (Slot.step_ne rfl).symm (cons_congr ?_ ((Schema.step_other rfl rfl).symm)))))))))))))))), ?_⟩
    all_goals first | exact hi | msg_field | (simp_all [St.Inv]; done)
  case PrivateExtension j =>
    simp only [step]
    all_goals refine ⟨cons_congr (Slot.step_ne rfl).symm (cons_congr (Slot.step_ne rfl).symm (cons_congr (Slot.step_ne rfl).symm (cons_congr (Slot.step_ne rfl).symm (cons_congr (Slot.step_ne rfl).symm (cons_congr (Slot.step_ne rfl).symm (cons_congr (Slot.step_ne rfl).symm (cons_congr (Slot.step_ne rfl).symm (cons_congr (Slot.step_ne rfl).symm (cons_congr (Slot.step_ne rfl).symm (cons_congr (Slot.step_ne rfl).symm (cons_congr (Slot.step_ne rfl).symm (cons_congr (Slot.step_ne rfl).symm (cons_congr (Slot.step_ne rfl).symm (cons_congr (Slot.step_ne rfl).symm (cons_congr (Slot.step_ne rfl).symm (cons_congr ?_ (rfl))))))))))))))))), ?_⟩
    all_goals first | exact hi | msg_field | (simp_all [St.Inv]; done)
  all_goals exact ⟨(Schema.step_other rfl rfl).symm, hi⟩

theorem loop (h : Header) (els : List IE) :
    (els.foldl step ⟨{ dflt with header := h }, false, false⟩).view = schema.map (·.select els) ∧ (els.foldl step ⟨{ dflt with header := h }, false, false⟩).Inv h := by
  have := foldl_view (Q := fun _ => True) (fun s e hp _ => step_view h s e hp) els ⟨{ dflt with header := h }, false, false⟩ (fun _ _ => trivial) (by simp [St.Inv, dflt])
  rw [show St.view ⟨{ dflt with header := h }, false, false⟩ = schema.map (fun _ => []) from rfl, Schema.foldl_nil] at this
  exact this

theorem ext {x y : CreateBearerRequest} (hh : x.header = y.header) (h : fields x = fields y) : x = y := by
  cases x; cases y
  simp only at hh
  subst hh
  injection h with h0 h
  cases optV_inj (fun _ _ h => IE.Pti.inj h) h0
  injection h with h1 h
  cases h1
  injection h with h2 h
  cases optV_inj (fun _ _ h => IE.Pco.inj h) h2
  injection h with h3 h
  cases map_inj (fun _ _ h => IE.BearerContext.inj h) h3
  injection h with h4 h
  cases optV_inj (fun _ _ h => IE.Fqcsid.inj h) h4
  injection h with h5 h
  cases optV_inj (fun _ _ h => IE.Fqcsid.inj h) h5
  injection h with h6 h
  cases optV_inj (fun _ _ h => IE.ChangeReportingAction.inj h) h6
  injection h with h7 h
  cases optV_inj (fun _ _ h => IE.CSGInformationReportingAction.inj h) h7
  injection h with h8 h
  cases optV_inj (fun _ _ h => IE.HenbInfoReporting.inj h) h8
  injection h with h9 h
  cases optV_inj (fun _ _ h => IE.PresenceReportingAreaAction.inj h) h9
  injection h with h10 h
  cases optV_inj (fun _ _ h => IE.Indication.inj h) h10
  injection h with h11 h
  cases map_inj (fun _ _ h => IE.LoadControlInfo.inj h) h11
  injection h with h12 h
  cases map_inj (fun _ _ h => IE.OverloadControlInfo.inj h) h12
  injection h with h13 h
  cases optV_inj (fun _ _ h => IE.Fcontainer.inj h) h13
  injection h with h14 h
  cases map_inj (fun _ _ h => IE.PgwChangeInfo.inj h) h14
  injection h with h15 h
  cases optV_inj (fun _ _ h => IE.Fteid.inj h) h15
  injection h with h16 h
  cases map_inj (fun _ _ h => IE.PrivateExtension.inj h) h16
  rfl

theorem mand : schema.filter (·.card.mandatory) = [(⟨.Ebi, .is 0, .one⟩ : Slot), (⟨.BearerContext, .is 0, .many1 (.is 0)⟩ : Slot)] := rfl

/-- The flags tell which mandatory IEs are absent. -/
theorem flags (h : Header) (els : List IE) : ∃ x m0 m1, els.foldl step ⟨{ dflt with header := h }, false, false⟩ = ⟨x, m0, m1⟩ ∧ St.view ⟨x, m0, m1⟩ = schema.map (·.select els) ∧ x.header = h ∧
    (⟨.Ebi, .is 0, .one⟩ : Slot).lacks els = (!m0) ∧
    (⟨.BearerContext, .is 0, .many1 (.is 0)⟩ : Slot).lacks els = (!m1) := by
  obtain ⟨hv, hi⟩ := loop h els
  generalize els.foldl step ⟨{ dflt with header := h }, false, false⟩ = s at hv hi ⊢
  obtain ⟨x, m0, m1⟩ := s
  simp only [St.Inv] at hi
  have l0 : (⟨.Ebi, .is 0, .one⟩ : Slot).lacks els = (!m0) := by
    rw [Slot.lacks_eq els rfl]
    have e := congrArg (fun l => l.getD 1 []) hv
    rw [show (⟨.Ebi, .is 0, .one⟩ : Slot).select els = if m0 then [.Ebi x.linked_ebi] else [] from e.symm]
    cases m0 <;> rfl
  have l1 : (⟨.BearerContext, .is 0, .many1 (.is 0)⟩ : Slot).lacks els = (!m1) := by
    rw [Slot.lacks_eq els rfl]
    have e := congrArg (fun l => l.getD 3 []) hv
    rw [show (⟨.BearerContext, .is 0, .many1 (.is 0)⟩ : Slot).select els = x.bearer_ctxs.map .BearerContext from e.symm]
    rw [hi.2, Bool.not_not]
    cases x.bearer_ctxs <;> rfl
  exact ⟨x, m0, m1, rfl, hv, hi.1, l0, l1⟩

theorem complete (h : Header) (els : List IE) (hm : schema.missing els = []) : ∃ y, fromvec { dflt with header := h } els = .ok y ∧ y.header = h ∧ fields y = schema.map (·.select els) := by
  obtain ⟨x, m0, m1, hs, hv, hh, l0, l1⟩ := flags h els
  unfold fromvec
  rw [hs]
  dsimp only [finish]
  have f0 := l0.symm.trans (Schema.of_missing_nil mand (by simp) hm)
  have f1 := l1.symm.trans (Schema.of_missing_nil mand (by simp) hm)
  cases m0 <;> cases m1 <;> first | exact ⟨x, rfl, hh, hv⟩ | contradiction

theorem describes : Describes codec schema fields where
  header_set _ _ := rfl
  fields_set _ _ := rfl
  ext _ _ hh h := ext hh h
  shape x := Aligned.opt (fun _ => rfl) <| Aligned.one (fun _ => rfl) <| Aligned.opt (fun _ => rfl) <| Aligned.many (fun _ => rfl) <| Aligned.opt (fun _ => rfl) <| Aligned.opt (fun _ => rfl) <| Aligned.opt (fun _ => rfl) <| Aligned.opt (fun _ => rfl) <| Aligned.opt (fun _ => rfl) <| Aligned.opt (fun _ => rfl) <| Aligned.opt (fun _ => rfl) <| Aligned.many (fun _ => rfl) <| Aligned.many (fun _ => rfl) <| Aligned.opt (fun _ => rfl) <| Aligned.many (fun _ => rfl) <| Aligned.opt (fun _ => rfl) <| Aligned.many (fun _ => rfl) <| trivial
  tovec x := by simp [codec, tovec, fields]
  complete h els _ hm := complete h els hm

theorem reports (h : Header) (els : List IE) (hm : schema.missing els ≠ []) :
    ∃ s ∈ schema.missing els, ∃ t, fromvec { dflt with header := h } els = .err (.messageMandatoryIEMissing t) ∧ kindOf t = s.kind := by
  obtain ⟨x, m0, m1, hs, hv, hh, l0, l1⟩ := flags h els
  unfold fromvec
  rw [hs]
  dsimp only [finish]
  cases m0 <;> cases m1 <;>
    first | exact ⟨_, Schema.mem_missing mand (by simp) l0, _, rfl, rfl⟩ | exact ⟨_, Schema.mem_missing mand (by simp) l1, _, rfl, rfl⟩ | exact absurd (Schema.missing_nil mand (by simp [l0, l1])) hm

theorem settled (h : Header) (els els' : List IE) (he : ∀ s ∈ schema, s.card.mandatory = true → s.lacks els = s.lacks els')
    (hm : schema.missing els ≠ []) : fromvec { dflt with header := h } els = fromvec { dflt with header := h } els' := by
  obtain ⟨x, m0, m1, hs, hv, hh, l0, l1⟩ := flags h els
  obtain ⟨x', m0', m1', hs', hv', hh', l0', l1'⟩ := flags h els'
  unfold fromvec
  rw [hs, hs']
  obtain rfl := Bool.not_inj (l0.symm.trans ((he _ (by decide) rfl).trans l0'))
  obtain rfl := Bool.not_inj (l1.symm.trans ((he _ (by decide) rfl).trans l1'))
  dsimp only [finish]
  cases m0 <;> cases m1 <;>
    first | rfl | exact absurd (Schema.missing_nil mand (by simp [l0, l1])) hm

end CreateBearerRequest

/-- `CreateBearerResponse` (createbearerresp.rs:15-38). -/
structure CreateBearerResponse where
  header : Header
  cause : V2.Cause
  bearer_ctxs : List V2.BearerContext
  recovery : Option V2.Recovery
  mme_fqcsid : Option V2.Fqcsid
  sgw_fqcsid : Option V2.Fqcsid
  epdg_fqcsid : Option V2.Fqcsid
  twan_fqcsid : Option V2.Fqcsid
  pco : Option V2.Pco
  uetimezone : Option V2.UeTimeZone
  uli : Option V2.Uli
  twan_id : Option V2.TwanId
  overload_info : List V2.OverloadControlInfo
  prai : Option V2.PresenceReportingAreaInformation
  ip : Option V2.IpAddress
  wlan_loc : Option V2.TwanId
  wlan_loc_timestamp : Option V2.TwanIdTimeStamp
  ue_udpport : Option V2.PortNumber
  nbifom : Option V2.Fcontainer
  ue_tcpport : Option V2.PortNumber
  pscellid : Option V2.PSCellId
  private_ext : List V2.PrivateExtension
deriving DecidableEq

namespace CreateBearerResponse

/-- `default` (createbearerresp.rs:41-71). -/
def dflt : CreateBearerResponse :=
  { header := { Header.default with msgtype := 96, teid := some 0 }, cause := V2.Cause.dflt, bearer_ctxs := [], recovery := none, mme_fqcsid := none, sgw_fqcsid := none, epdg_fqcsid := none, twan_fqcsid := none, pco := none, uetimezone := none, uli := none, twan_id := none, overload_info := [], prai := none, ip := none, wlan_loc := none, wlan_loc_timestamp := none, ue_udpport := none, nbifom := none, ue_tcpport := none, pscellid := none, private_ext := [] }

/-- `tovec` (createbearerresp.rs:108-194). -/
def tovec (x : CreateBearerResponse) : List IE :=
  [.Cause x.cause] ++ (
  x.bearer_ctxs.map .BearerContext ++ (
  optV .Recovery x.recovery ++ (
  optV .Fqcsid x.mme_fqcsid ++ (
  optV .Fqcsid x.sgw_fqcsid ++ (
  optV .Fqcsid x.epdg_fqcsid ++ (
  optV .Fqcsid x.twan_fqcsid ++ (
  optV .Pco x.pco ++ (
  optV .UeTimeZone x.uetimezone ++ (
  optV .Uli x.uli ++ (
  optV .TwanId x.twan_id ++ (
  x.overload_info.map .OverloadControlInfo ++ (
  optV .PresenceReportingAreaInformation x.prai ++ (
  optV .IpAddress x.ip ++ (
  optV .TwanId x.wlan_loc ++ (
  optV .TwanIdTimeStamp x.wlan_loc_timestamp ++ (
  optV .PortNumber x.ue_udpport ++ (
  optV .Fcontainer x.nbifom ++ (
  optV .PortNumber x.ue_tcpport ++ (
  optV .PSCellId x.pscellid ++ (
  x.private_ext.map .PrivateExtension))))))))))))))))))))

/-- The variables of `fromvec`: the message and the array `mandatory` (createbearerresp.rs:196-300). -/
structure St where
  x : CreateBearerResponse
  m0 : Bool
  m1 : Bool

/-- One turn of the loop of `fromvec` (createbearerresp.rs:196-300). -/
def step (s : St) : IE → St
  | .Cause j => if j.ins = 0 ∧ s.m0 = false then { s with x := { s.x with cause := j }, m0 := true } else s
  | .BearerContext j => if j.ins = 0 then { s with x := { s.x with bearer_ctxs := s.x.bearer_ctxs ++ [j] }, m1 := true } else s
  | .Recovery j => if j.ins = 0 ∧ s.x.recovery.isNone = true then { s with x := { s.x with recovery := some j } } else s
  | .Fqcsid j => if j.ins = 0 ∧ s.x.mme_fqcsid.isNone = true then { s with x := { s.x with mme_fqcsid := some j } } else if j.ins = 1 ∧ s.x.sgw_fqcsid.isNone = true then { s with x := { s.x with sgw_fqcsid := some j } } else if j.ins = 2 ∧ s.x.epdg_fqcsid.isNone = true then { s with x := { s.x with epdg_fqcsid := some j } } else if j.ins = 3 ∧ s.x.twan_fqcsid.isNone = true then { s with x := { s.x with twan_fqcsid := some j } } else s
  | .Pco j => if j.ins = 0 ∧ s.x.pco.isNone = true then { s with x := { s.x with pco := some j } } else s
  | .UeTimeZone j => if j.ins = 0 ∧ s.x.uetimezone.isNone = true then { s with x := { s.x with uetimezone := some j } } else s
  | .Uli j => if j.ins = 0 ∧ s.x.uli.isNone = true then { s with x := { s.x with uli := some j } } else s
  | .TwanId j => if j.ins = 0 ∧ s.x.twan_id.isNone = true then { s with x := { s.x with twan_id := some j } } else if j.ins = 1 ∧ s.x.wlan_loc.isNone = true then { s with x := { s.x with wlan_loc := some j } } else s
  | .OverloadControlInfo j => if j.ins < 3 then { s with x := { s.x with overload_info := s.x.overload_info ++ [j] } } else s
  | .PresenceReportingAreaInformation j => if j.ins = 0 ∧ s.x.prai.isNone = true then { s with x := { s.x with prai := some j } } else s
  | .IpAddress j => if j.ins = 0 ∧ s.x.ip.isNone = true then { s with x := { s.x with ip := some j } } else s
  | .TwanIdTimeStamp j => if j.ins = 0 ∧ s.x.wlan_loc_timestamp.isNone = true then { s with x := { s.x with wlan_loc_timestamp := some j } } else s
  | .PortNumber j => if j.ins = 0 ∧ s.x.ue_udpport.isNone = true then { s with x := { s.x with ue_udpport := some j } } else if j.ins = 1 ∧ s.x.ue_tcpport.isNone = true then { s with x := { s.x with ue_tcpport := some j } } else s
  | .Fcontainer j => if j.ins = 0 ∧ s.x.nbifom.isNone = true then { s with x := { s.x with nbifom := some j } } else s
  | .PSCellId j => if j.ins = 0 ∧ s.x.pscellid.isNone = true then { s with x := { s.x with pscellid := some j } } else s
  | .PrivateExtension j => { s with x := { s.x with private_ext := s.x.private_ext ++ [j] } }
  | _ => s

/-- The end of `fromvec` (createbearerresp.rs:196-300). -/
def finish (s : St) : R Err CreateBearerResponse :=
  match s.m0, s.m1 with
  | false, _ => .err (.messageMandatoryIEMissing 2)
  | _, false => .err (.messageMandatoryIEMissing 93)
  | true, true => .ok s.x

/-- `fromvec` (createbearerresp.rs:196-300). -/
def fromvec (x : CreateBearerResponse) (els : List IE) : R Err CreateBearerResponse := finish (els.foldl step ⟨x, false, false⟩)

/-- The message type (createbearerresp.rs:75-106). -/
def codec : Codec CreateBearerResponse :=
  { msgtype := 96, start := some 12, dflt, header := header, setHeader := fun x h => { x with header := h }, tovec, fromvec }

/-- One slot per field. -/
def schema : Schema :=
  [⟨.Cause, .is 0, .one⟩,
   ⟨.BearerContext, .is 0, .many1 (.is 0)⟩,
   ⟨.Recovery, .is 0, .opt⟩,
   ⟨.Fqcsid, .is 0, .opt⟩,
   ⟨.Fqcsid, .is 1, .opt⟩,
   ⟨.Fqcsid, .is 2, .opt⟩,
   ⟨.Fqcsid, .is 3, .opt⟩,
   ⟨.Pco, .is 0, .opt⟩,
   ⟨.UeTimeZone, .is 0, .opt⟩,
   ⟨.Uli, .is 0, .opt⟩,
   ⟨.TwanId, .is 0, .opt⟩,
   ⟨.OverloadControlInfo, .lt 3, .many⟩,
   ⟨.PresenceReportingAreaInformation, .is 0, .opt⟩,
   ⟨.IpAddress, .is 0, .opt⟩,
   ⟨.TwanId, .is 1, .opt⟩,
   ⟨.TwanIdTimeStamp, .is 0, .opt⟩,
   ⟨.PortNumber, .is 0, .opt⟩,
   ⟨.Fcontainer, .is 0, .opt⟩,
   ⟨.PortNumber, .is 1, .opt⟩,
   ⟨.PSCellId, .is 0, .opt⟩,
   ⟨.PrivateExtension, .any, .many⟩]

/-- The fields as lists of IEs. -/
def fields (x : CreateBearerResponse) : List (List IE) :=
  [[.Cause x.cause],
   x.bearer_ctxs.map .BearerContext,
   optV .Recovery x.recovery,
   optV .Fqcsid x.mme_fqcsid,
   optV .Fqcsid x.sgw_fqcsid,
   optV .Fqcsid x.epdg_fqcsid,
   optV .Fqcsid x.twan_fqcsid,
   optV .Pco x.pco,
   optV .UeTimeZone x.uetimezone,
   optV .Uli x.uli,
   optV .TwanId x.twan_id,
   x.overload_info.map .OverloadControlInfo,
   optV .PresenceReportingAreaInformation x.prai,
   optV .IpAddress x.ip,
   optV .TwanId x.wlan_loc,
   optV .TwanIdTimeStamp x.wlan_loc_timestamp,
   optV .PortNumber x.ue_udpport,
   optV .Fcontainer x.nbifom,
   optV .PortNumber x.ue_tcpport,
   optV .PSCellId x.pscellid,
   x.private_ext.map .PrivateExtension]

/-- What the state has collected so far. -/
def St.view (s : St) : List (List IE) :=
  [if s.m0 then [.Cause s.x.cause] else [],
   s.x.bearer_ctxs.map .BearerContext,
   optV .Recovery s.x.recovery,
   optV .Fqcsid s.x.mme_fqcsid,
   optV .Fqcsid s.x.sgw_fqcsid,
   optV .Fqcsid s.x.epdg_fqcsid,
   optV .Fqcsid s.x.twan_fqcsid,
   optV .Pco s.x.pco,
   optV .UeTimeZone s.x.uetimezone,
   optV .Uli s.x.uli,
   optV .TwanId s.x.twan_id,
   s.x.overload_info.map .OverloadControlInfo,
   optV .PresenceReportingAreaInformation s.x.prai,
   optV .IpAddress s.x.ip,
   optV .TwanId s.x.wlan_loc,
   optV .TwanIdTimeStamp s.x.wlan_loc_timestamp,
   optV .PortNumber s.x.ue_udpport,
   optV .Fcontainer s.x.nbifom,
   optV .PortNumber s.x.ue_tcpport,
   optV .PSCellId s.x.pscellid,
   s.x.private_ext.map .PrivateExtension]

/-- The header is left alone; flags of mandatory lists tell whether the list is empty. -/
def St.Inv (h : Header) (s : St) : Prop :=
  s.x.header = h ∧ s.m1 = !s.x.bearer_ctxs.isEmpty

theorem step_view (h : Header) (s : St) (e : IE) (hi : s.Inv h) : (step s e).view = Schema.step schema s.view e ∧ (step s e).Inv h := by
  cases e
  case Cause j =>
    simp only [step]
    repeat' split
    all_goals refine ⟨cons_congr ?_ ((Schema.step_other rfl rfl).symm), ?_⟩
    all_goals first | exact hi | msg_field | (simp_all [St.Inv]; done)
  case BearerContext j =>
    simp only [step]
    repeat' split
    all_goals refine ⟨cons_congr (Slot.step_ne rfl).symm (cons_congr ?_ ((Schema.step_other rfl rfl).symm)), ?_⟩
    all_goals first | exact hi | msg_field | (simp_all [St.Inv]; done)
  case Recovery j =>
    simp only [step]
    repeat' split
    all_goals refine ⟨cons_congr (Slot.step_ne rfl).symm (cons_congr (Slot.step_ne rfl).symm (cons_congr ?_ ((Schema.step_other rfl rfl).symm))), ?_⟩
    all_goals first | exact hi | msg_field | (simp_all [St.Inv]; done)
  case Fqcsid j =>
    simp only [step]
    repeat' split
    all_goals refine ⟨cons_congr (Slot.step_ne rfl).symm (cons_congr (Slot.step_ne rfl).symm (cons_congr (Slot.step_ne rfl).symm (cons_congr ?_ (cons_congr ?_ (cons_congr ?_ (cons_congr ?_ ((Schema.step_other rfl rfl).symm))))))), ?_⟩
    all_goals first | exact hi | msg_field | (simp_all [St.Inv]; done)
  case Pco j =>
    simp only [step]
    repeat' split
    all_goals refine ⟨cons_congr (Slot.step_ne rfl).symm (cons_congr (Slot.step_ne rfl).symm (cons_congr (Slot.step_ne rfl).symm (cons_congr (Slot.step_ne rfl).symm (cons_congr (Slot.step_ne rfl).symm (cons_congr (Slot.step_ne rfl).symm (cons_congr (Slot.step_ne rfl).symm (cons_congr ?_ ((Schema.step_other rfl rfl).symm)))))))), ?_⟩
    all_goals first | exact hi | msg_field | (simp_all [St.Inv]; done)
  case UeTimeZone j =>
    simp only [step]
    repeat' split
    all_goals refine ⟨cons_congr (Slot.step_ne rfl).symm (cons_congr (Slot.step_ne rfl).symm (cons_congr (Slot.step_ne rfl).symm (cons_congr (Slot.step_ne rfl).symm (cons_congr (Slot.step_ne rfl).symm (cons_congr (Slot.step_ne rfl).symm (cons_congr (Slot.step_ne rfl).symm (cons_congr (Slot.step_ne rfl).symm (cons_congr ?_ ((Schema.step_other rfl rfl).symm))))))))), ?_⟩
    all_goals first | exact hi | msg_field | (simp_all [St.Inv]; done)
  case Uli j =>
    simp only [step]
    repeat' split
    all_goals refine ⟨cons_congr (Slot.step_ne rfl).symm (cons_congr (Slot.step_ne rfl).symm (cons_congr (Slot.step_ne rfl).symm (cons_congr (Slot.step_ne rfl).symm (cons_congr (Slot.step_ne rfl).symm (cons_congr (Slot.step_ne rfl).symm (cons_congr (Slot.step_ne rfl).symm (cons_congr (Slot.step_ne rfl).symm (cons_congr (Slot.step_ne rfl).symm (cons_congr ?_ ((Schema.step_other rfl rfl).symm)))))))))), ?_⟩
    all_goals first | exact hi | msg_field | (simp_all [St.Inv]; done)
  case TwanId j =>
    simp only [step]
    repeat' split
    all_goals refine ⟨cons_congr (Slot.step_ne rfl).symm (cons_congr (Slot.step_ne rfl).symm (cons_congr (Slot.step_ne rfl).symm (cons_congr (Slot.step_ne rfl).symm (cons_congr (Slot.step_ne rfl).symm (cons_congr (Slot.step_ne rfl).symm (cons_congr (Slot.step_ne rfl).symm (cons_congr (Slot.step_ne rfl).symm (cons_congr (Slot.step_ne rfl).symm (cons_congr (Slot.step_ne rfl).symm (cons_congr ?_ (cons_congr (Slot.step_ne rfl).symm (cons_congr (Slot.step_ne rfl).symm (cons_congr (Slot.step_ne rfl).symm (cons_congr ?_ ((Schema.step_other rfl rfl).symm))))))))))))))), ?_⟩
    all_goals first | exact hi | msg_field | (simp_all [St.Inv]; done)
  case OverloadControlInfo j =>
    simp only [step]
    repeat' split
    all_goals refine ⟨cons_congr (Slot.step_ne rfl).symm (cons_congr (Slot.step_ne rfl).symm (cons_congr (Slot.step_ne rfl).symm (cons_congr (Slot.step_ne rfl).symm (cons_congr (Slot.step_ne rfl).symm (cons_congr (Slot.step_ne rfl).symm (cons_congr (Slot.step_ne rfl).symm (cons_congr (Slot.step_ne rfl).symm (cons_congr (Slot.step_ne rfl).symm (cons_congr (Slot.step_ne rfl).symm (cons_congr (Slot.step_ne rfl).symm (cons_congr ?_ ((Schema.step_other rfl rfl).symm)))))))))))), ?_⟩
    all_goals first | exact hi | msg_field | (simp_all [St.Inv]; done)
  case PresenceReportingAreaInformation j =>
    simp only [step]
    repeat' split
    all_goals refine ⟨cons_congr (Slot.step_ne rfl).symm (cons_congr (Slot.step_ne rfl).symm (cons_congr (Slot.step_ne rfl).symm (cons_congr (Slot.step_ne rfl).symm (cons_congr (Slot.step_ne rfl).symm (cons_congr (Slot.step_ne rfl).symm (cons_congr (Slot.step_ne rfl).symm (cons_congr (Slot.step_ne rfl).symm (cons_congr (Slot.step_ne rfl).symm (cons_congr (Slot.step_ne rfl).symm (cons_congr (Slot.step_ne rfl).symm (cons_congr (Slot.step_ne rfl).symm (cons_congr ?_ ((Schema.step_other rfl rfl).symm))))))))))))), ?_⟩
    all_goals first | exact hi | msg_field | (simp_all [St.Inv]; done)
  case IpAddress j =>
    simp only [step]
    repeat' split
    all_goals refine ⟨cons_congr (Slot.step_ne rfl).symm (cons_congr (Slot.step_ne rfl).symm (cons_congr (Slot.step_ne rfl).symm (cons_congr (Slot.step_ne rfl).symm (cons_congr (Slot.step_ne rfl).symm (cons_congr (Slot.step_ne rfl).symm (cons_congr (Slot.step_ne rfl).symm (cons_congr (Slot.step_ne rfl).symm (cons_congr (Slot.step_ne rfl).symm (cons_congr (Slot.step_ne rfl).symm (cons_congr (Slot.step_ne rfl).symm (cons_congr (Slot.step_ne rfl).symm (cons_congr (Slot.step_ne rfl).symm (cons_congr ?_ ((Schema.step_other rfl rfl).symm)))))))))))))), ?_⟩
    all_goals first | exact hi | msg_field | (simp_all [St.Inv]; done)
  case TwanIdTimeStamp j =>
    simp only [step]
    repeat' split
    all_goals refine ⟨cons_congr (Slot.step_ne rfl).symm (cons_congr (Slot.step_ne rfl).symm (cons_congr (Slot.step_ne rfl).symm (cons_congr (Slot.step_ne rfl).symm (cons_congr (Slot.step_ne rfl).symm (cons_congr (Slot.step_ne rfl).symm (cons_congr (Slot.step_ne rfl).symm (cons_congr (Slot.step_ne rfl).symm (cons_congr (Slot.step_ne rfl).symm (cons_congr (Slot.step_ne rfl).symm (cons_congr (Slot.step_ne rfl).symm (cons_congr (Slot.step_ne rfl).symm (cons_congr (Slot.step_ne rfl).symm (cons_congr (Slot.step_ne rfl).symm (cons_congr (Slot.step_ne rfl).symm (cons_congr ?_ ((Schema.step_other rfl rfl).symm)))))))))))))))), ?_⟩
    all_goals first | exact hi | msg_field | (simp_all [St.Inv]; done)
  case PortNumber j =>
    simp only [step]
    repeat' split
    all_goals refine ⟨cons_congr (Slot.step_ne rfl).symm (cons_congr (Slot.step_ne rfl).symm (cons_congr (Slot.step_ne rfl).symm (cons_congr (Slot.step_ne rfl).symm (cons_congr (Slot.step_ne rfl).symm (cons_congr (Slot.step_ne rfl).symm (cons_congr (Slot.step_ne rfl).symm (cons_congr (Slot.step_ne rfl).symm (cons_congr (Slot.step_ne rfl).symm (cons_congr (Slot.step_ne rfl).symm (cons_congr (Slot.step_ne rfl).symm (cons_congr (Slot.step_ne rfl).symm (cons_congr (Slot.step_ne rfl).symm (cons_congr (Slot.step_ne rfl).symm (cons_congr (Slot.step_ne rfl).symm (cons_congr (Slot.step_ne rfl).symm (cons_congr ?_ (cons_congr (Slot.step_ne rfl).symm (cons_congr ?_ ((Schema.step_other rfl rfl).symm))))))))))))))))))), ?_⟩
    all_goals first | exact hi | msg_field | (simp_all [St.Inv]; done)
  case Fcontainer j =>
    simp only [step]
    repeat' split
    all_goals refine ⟨cons_congr (Slot.step_ne rfl).symm (cons_congr (Slot.step_ne rfl).symm (cons_congr (Slot.step_ne rfl).symm (cons_congr (Slot.step_ne rfl).symm (cons_congr (Slot.step_ne rfl).symm (cons_congr (Slot.step_ne rfl).symm (cons_congr (Slot.step_ne rfl).symm (cons_congr (Slot.step_ne rfl).symm (cons_congr (Slot.step_ne rfl).symm (cons_congr (Slot.step_ne rfl).symm (cons_congr (Slot.step_ne rfl).symm (cons_congr (Slot.step_ne rfl).symm (cons_congr (Slot.step_ne rfl).symm (cons_congr (Slot.step_ne rfl).symm (cons_congr (Slot.step_ne rfl).symm (cons_congr (Slot.step_ne rfl).symm (cons_congr (Slot.step_ne rfl).symm (cons_congr ?_ ((Schema.step_other rfl rfl).symm)))))))))))))))))), ?_⟩
    all_goals first | exact hi | msg_field | (simp_all [St.Inv]; done)
  case PSCellId j =>
    simp only [step]
    repeat' split
    all_goals refine ⟨cons_congr (Slot.step_ne rfl).symm (cons_congr (Slot.step_ne rfl).symm (cons_congr (Slot.step_ne rfl).symm (cons_congr (Slot.step_ne rfl).symm (cons_congr (Slot.step_ne rfl).symm (cons_congr (Slot.step_ne rfl).symm (cons_congr (Slot.step_ne rfl).symm (cons_congr (Slot.step_ne rfl).symm (cons_congr (Slot.step_ne rfl).symm (cons_congr (Slot.step_ne rfl).symm (cons_congr (Slot.step_ne rfl).symm (cons_congr (Slot.step_ne rfl).symm (cons_congr (Slot.step_ne rfl).symm (cons_congr (Slot.step_ne rfl).symm (cons_congr (Slot.step_ne rfl).symm (cons_congr (Slot.step_ne rfl).symm (cons_congr (Slot.step_ne rfl).symm (cons_congr (Slot.step_ne rfl).symm (cons_congr (Slot.step_ne rfl).symm (cons_congr ?_ ((Schema.step_other rfl rfl).symm)))))))))))))))))))), ?_⟩
    all_goals first | exact hi | msg_field | (simp_all [St.Inv]; done)
  case PrivateExtension j =>
    simp only [step]
    all_goals refine ⟨cons_congr (Slot.step_ne rfl).symm (cons_congr (Slot.step_ne rfl).symm (cons_congr (Slot.step_ne rfl).symm (cons_congr (Slot.step_ne rfl).symm (cons_congr (Slot.step_ne rfl).symm (cons_congr (Slot.step_ne rfl).symm (cons_congr (Slot.step_ne rfl).symm (cons_congr (Slot.step_ne rfl).symm (cons_congr (Slot.step_ne rfl).symm (cons_congr (Slot.step_ne rfl).symm (cons_congr (Slot.step_ne rfl).symm (cons_congr (Slot.step_ne rfl).symm (cons_congr (Slot.step_ne rfl).symm (cons_congr (Slot.step_ne rfl).symm (cons_congr (Slot.step_ne rfl).symm (cons_congr (Slot.step_ne rfl).symm (cons_congr (Slot.step_ne rfl).symm (cons_congr (Slot.step_ne rfl).symm (cons_congr (Slot.step_ne rfl).symm (cons_congr (Slot.step_ne rfl).symm (cons_congr ?_ (rfl))))))))))))))))))))), ?_⟩
    all_goals first | exact hi | msg_field | (simp_all [St.Inv]; done)
  all_goals exact ⟨(Schema.step_other rfl rfl).symm, hi⟩

theorem loop (h : Header) (els : List IE) :
    (els.foldl step ⟨{ dflt with header := h }, false, false⟩).view = schema.map (·.select els) ∧ (els.foldl step ⟨{ dflt with header := h }, false, false⟩).Inv h := by
  have := foldl_view (Q := fun _ => True) (fun s e hp _ => step_view h s e hp) els ⟨{ dflt with header := h }, false, false⟩ (fun _ _ => trivial) (by simp [St.Inv, dflt])
  rw [show St.view ⟨{ dflt with header := h }, false, false⟩ = schema.map (fun _ => []) from rfl, Schema.foldl_nil] at this
  exact this

theorem ext {x y : CreateBearerResponse} (hh : x.header = y.header) (h : fields x = fields y) : x = y := by
  cases x; cases y
  simp only at hh
  subst hh
  injection h with h0 h
  cases h0
  injection h with h1 h
  cases map_inj (fun _ _ h => IE.BearerContext.inj h) h1
  injection h with h2 h
  cases optV_inj (fun _ _ h => IE.Recovery.inj h) h2
  injection h with h3 h
  cases optV_inj (fun _ _ h => IE.Fqcsid.inj h) h3
  injection h with h4 h
  cases optV_inj (fun _ _ h => IE.Fqcsid.inj h) h4
  injection h with h5 h
  cases optV_inj (fun _ _ h => IE.Fqcsid.inj h) h5
  injection h with h6 h
  cases optV_inj (fun _ _ h => IE.Fqcsid.inj h) h6
  injection h with h7 h
  cases optV_inj (fun _ _ h => IE.Pco.inj h) h7
  injection h with h8 h
  cases optV_inj (fun _ _ h => IE.UeTimeZone.inj h) h8
  injection h with h9 h
  cases optV_inj (fun _ _ h => IE.Uli.inj h) h9
  injection h with h10 h
  cases optV_inj (fun _ _ h => IE.TwanId.inj h) h10
  injection h with h11 h
  cases map_inj (fun _ _ h => IE.OverloadControlInfo.inj h) h11
  injection h with h12 h
  cases optV_inj (fun _ _ h => IE.PresenceReportingAreaInformation.inj h) h12
  injection h with h13 h
  cases optV_inj (fun _ _ h => IE.IpAddress.inj h) h13
  injection h with h14 h
  cases optV_inj (fun _ _ h => IE.TwanId.inj h) h14
  injection h with h15 h
  cases optV_inj (fun _ _ h => IE.TwanIdTimeStamp.inj h) h15
  injection h with h16 h
  cases optV_inj (fun _ _ h => IE.PortNumber.inj h) h16
  injection h with h17 h
  cases optV_inj (fun _ _ h => IE.Fcontainer.inj h) h17
  injection h with h18 h
  cases optV_inj (fun _ _ h => IE.PortNumber.inj h) h18
  injection h with h19 h
  cases optV_inj (fun _ _ h => IE.PSCellId.inj h) h19
  injection h with h20 h
  cases map_inj (fun _ _ h => IE.PrivateExtension.inj h) h20
  rfl

theorem mand : schema.filter (·.card.mandatory) = [(⟨.Cause, .is 0, .one⟩ : Slot), (⟨.BearerContext, .is 0, .many1 (.is 0)⟩ : Slot)] := rfl

/-- The flags tell which mandatory IEs are absent. -/
theorem flags (h : Header) (els : List IE) : ∃ x m0 m1, els.foldl step ⟨{ dflt with header := h }, false, false⟩ = ⟨x, m0, m1⟩ ∧ St.view ⟨x, m0, m1⟩ = schema.map (·.select els) ∧ x.header = h ∧
    (⟨.Cause, .is 0, .one⟩ : Slot).lacks els = (!m0) ∧
    (⟨.BearerContext, .is 0, .many1 (.is 0)⟩ : Slot).lacks els = (!m1) := by
  obtain ⟨hv, hi⟩ := loop h els
  generalize els.foldl step ⟨{ dflt with header := h }, false, false⟩ = s at hv hi ⊢
  obtain ⟨x, m0, m1⟩ := s
  simp only [St.Inv] at hi
  have l0 : (⟨.Cause, .is 0, .one⟩ : Slot).lacks els = (!m0) := by
    rw [Slot.lacks_eq els rfl]
    have e := congrArg (fun l => l.getD 0 []) hv
    rw [show (⟨.Cause, .is 0, .one⟩ : Slot).select els = if m0 then [.Cause x.cause] else [] from e.symm]
    cases m0 <;> rfl
  have l1 : (⟨.BearerContext, .is 0, .many1 (.is 0)⟩ : Slot).lacks els = (!m1) := by
    rw [Slot.lacks_eq els rfl]
    have e := congrArg (fun l => l.getD 1 []) hv
    rw [show (⟨.BearerContext, .is 0, .many1 (.is 0)⟩ : Slot).select els = x.bearer_ctxs.map .BearerContext from e.symm]
    rw [hi.2, Bool.not_not]
    cases x.bearer_ctxs <;> rfl
  exact ⟨x, m0, m1, rfl, hv, hi.1, l0, l1⟩

theorem complete (h : Header) (els : List IE) (hm : schema.missing els = []) : ∃ y, fromvec { dflt with header := h } els = .ok y ∧ y.header = h ∧ fields y = schema.map (·.select els) := by
  obtain ⟨x, m0, m1, hs, hv, hh, l0, l1⟩ := flags h els
  unfold fromvec
  rw [hs]
  dsimp only [finish]
  have f0 := l0.symm.trans (Schema.of_missing_nil mand (by simp) hm)
  have f1 := l1.symm.trans (Schema.of_missing_nil mand (by simp) hm)
  cases m0 <;> cases m1 <;> first | exact ⟨x, rfl, hh, hv⟩ | contradiction

theorem describes : Describes codec schema fields where
  header_set _ _ := rfl
  fields_set _ _ := rfl
  ext _ _ hh h := ext hh h
  shape x := Aligned.one (fun _ => rfl) <| Aligned.many (fun _ => rfl) <| Aligned.opt (fun _ => rfl) <| Aligned.opt (fun _ => rfl) <| Aligned.opt (fun _ => rfl) <| Aligned.opt (fun _ => rfl) <| Aligned.opt (fun _ => rfl) <| Aligned.opt (fun _ => rfl) <| Aligned.opt (fun _ => rfl) <| Aligned.opt (fun _ => rfl) <| Aligned.opt (fun _ => rfl) <| Aligned.many (fun _ => rfl) <| Aligned.opt (fun _ => rfl) <| Aligned.opt (fun _ => rfl) <| Aligned.opt (fun _ => rfl) <| Aligned.opt (fun _ => rfl) <| Aligned.opt (fun _ => rfl) <| Aligned.opt (fun _ => rfl) <| Aligned.opt (fun _ => rfl) <| Aligned.opt (fun _ => rfl) <| Aligned.many (fun _ => rfl) <| trivial
  tovec x := by simp [codec, tovec, fields]
  complete h els _ hm := complete h els hm

theorem reports (h : Header) (els : List IE) (hm : schema.missing els ≠ []) :
    ∃ s ∈ schema.missing els, ∃ t, fromvec { dflt with header := h } els = .err (.messageMandatoryIEMissing t) ∧ kindOf t = s.kind := by
  obtain ⟨x, m0, m1, hs, hv, hh, l0, l1⟩ := flags h els
  unfold fromvec
  rw [hs]
  dsimp only [finish]
  cases m0 <;> cases m1 <;>
    first | exact ⟨_, Schema.mem_missing mand (by simp) l0, _, rfl, rfl⟩ | exact ⟨_, Schema.mem_missing mand (by simp) l1, _, rfl, rfl⟩ | exact absurd (Schema.missing_nil mand (by simp [l0, l1])) hm

theorem settled (h : Header) (els els' : List IE) (he : ∀ s ∈ schema, s.card.mandatory = true → s.lacks els = s.lacks els')
    (hm : schema.missing els ≠ []) : fromvec { dflt with header := h } els = fromvec { dflt with header := h } els' := by
  obtain ⟨x, m0, m1, hs, hv, hh, l0, l1⟩ := flags h els
  obtain ⟨x', m0', m1', hs', hv', hh', l0', l1'⟩ := flags h els'
  unfold fromvec
  rw [hs, hs']
  obtain rfl := Bool.not_inj (l0.symm.trans ((he _ (by decide) rfl).trans l0'))
  obtain rfl := Bool.not_inj (l1.symm.trans ((he _ (by decide) rfl).trans l1'))
  dsimp only [finish]
  cases m0 <;> cases m1 <;>
    first | rfl | exact absurd (Schema.missing_nil mand (by simp [l0, l1])) hm

end CreateBearerResponse

/-- `CreateForwardingTunnelRequest` (createforwardingtunnelreq.rs:15-19). -/
structure CreateForwardingTunnelRequest where
  header : Header
  s103_pdf : List V2.S103pdf
  private_ext : List V2.PrivateExtension
deriving DecidableEq

namespace CreateForwardingTunnelRequest

/-- `default` (createforwardingtunnelreq.rs:22-32). -/
def dflt : CreateForwardingTunnelRequest :=
  { header := { Header.default with msgtype := 160, teid := some 0 }, s103_pdf := [], private_ext := [] }

/-- `tovec` (createforwardingtunnelreq.rs:69-81). -/
def tovec (x : CreateForwardingTunnelRequest) : List IE :=
  x.s103_pdf.map .S103pdf ++ (
  x.private_ext.map .PrivateExtension)

/-- The variables of `fromvec`: the message and the array `mandatory` (createforwardingtunnelreq.rs:83-102). -/
structure St where
  x : CreateForwardingTunnelRequest
  m0 : Bool

/-- One turn of the loop of `fromvec` (createforwardingtunnelreq.rs:83-102). -/
def step (s : St) : IE → St
  | .S103pdf j => if j.ins = 0 then { s with x := { s.x with s103_pdf := s.x.s103_pdf ++ [j] }, m0 := true } else s
  | .PrivateExtension j => { s with x := { s.x with private_ext := s.x.private_ext ++ [j] } }
  | _ => s

/-- The end of `fromvec` (createforwardingtunnelreq.rs:83-102). -/
def finish (s : St) : R Err CreateForwardingTunnelRequest :=
  if s.m0 then .ok s.x else .err (.messageMandatoryIEMissing 90)

/-- `fromvec` (createforwardingtunnelreq.rs:83-102). -/
def fromvec (x : CreateForwardingTunnelRequest) (els : List IE) : R Err CreateForwardingTunnelRequest := finish (els.foldl step ⟨x, false⟩)

/-- The message type (createforwardingtunnelreq.rs:36-67). -/
def codec : Codec CreateForwardingTunnelRequest :=
  { msgtype := 160, start := some 12, dflt, header := header, setHeader := fun x h => { x with header := h }, tovec, fromvec }

/-- One slot per field. -/
def schema : Schema :=
  [⟨.S103pdf, .is 0, .many1 (.is 0)⟩,
   ⟨.PrivateExtension, .any, .many⟩]

/-- The fields as lists of IEs. -/
def fields (x : CreateForwardingTunnelRequest) : List (List IE) :=
  [x.s103_pdf.map .S103pdf,
   x.private_ext.map .PrivateExtension]

/-- What the state has collected so far. -/
def St.view (s : St) : List (List IE) :=
  [s.x.s103_pdf.map .S103pdf,
   s.x.private_ext.map .PrivateExtension]

/-- The header is left alone; flags of mandatory lists tell whether the list is empty. -/
def St.Inv (h : Header) (s : St) : Prop :=
  s.x.header = h ∧ s.m0 = !s.x.s103_pdf.isEmpty

theorem step_view (h : Header) (s : St) (e : IE) (hi : s.Inv h) : (step s e).view = Schema.step schema s.view e ∧ (step s e).Inv h := by
  cases e
  case S103pdf j =>
    simp only [step]
    repeat' split
    all_goals refine ⟨cons_congr ?_ ((Schema.step_other rfl rfl).symm), ?_⟩
    all_goals first | exact hi | msg_field | (simp_all [St.Inv]; done)
  case PrivateExtension j =>
    simp only [step]
    all_goals refine ⟨cons_congr (Slot.step_ne rfl).symm (cons_congr ?_ (rfl)), ?_⟩
    all_goals first | exact hi | msg_field | (simp_all [St.Inv]; done)
  all_goals exact ⟨(Schema.step_other rfl rfl).symm, hi⟩

theorem loop (h : Header) (els : List IE) :
    (els.foldl step ⟨{ dflt with header := h }, false⟩).view = schema.map (·.select els) ∧ (els.foldl step ⟨{ dflt with header := h }, false⟩).Inv h := by
  have := foldl_view (Q := fun _ => True) (fun s e hp _ => step_view h s e hp) els ⟨{ dflt with header := h }, false⟩ (fun _ _ => trivial) (by simp [St.Inv, dflt])
  rw [show St.view ⟨{ dflt with header := h }, false⟩ = schema.map (fun _ => []) from rfl, Schema.foldl_nil] at this
  exact this

theorem ext {x y : CreateForwardingTunnelRequest} (hh : x.header = y.header) (h : fields x = fields y) : x = y := by
  cases x; cases y
  simp only at hh
  subst hh
  injection h with h0 h
  cases map_inj (fun _ _ h => IE.S103pdf.inj h) h0
  injection h with h1 h
  cases map_inj (fun _ _ h => IE.PrivateExtension.inj h) h1
  rfl

theorem mand : schema.filter (·.card.mandatory) = [(⟨.S103pdf, .is 0, .many1 (.is 0)⟩ : Slot)] := rfl

/-- The flags tell which mandatory IEs are absent. -/
theorem flags (h : Header) (els : List IE) : ∃ x m0, els.foldl step ⟨{ dflt with header := h }, false⟩ = ⟨x, m0⟩ ∧ St.view ⟨x, m0⟩ = schema.map (·.select els) ∧ x.header = h ∧
    (⟨.S103pdf, .is 0, .many1 (.is 0)⟩ : Slot).lacks els = (!m0) := by
  obtain ⟨hv, hi⟩ := loop h els
  generalize els.foldl step ⟨{ dflt with header := h }, false⟩ = s at hv hi ⊢
  obtain ⟨x, m0⟩ := s
  simp only [St.Inv] at hi
  have l0 : (⟨.S103pdf, .is 0, .many1 (.is 0)⟩ : Slot).lacks els = (!m0) := by
    rw [Slot.lacks_eq els rfl]
    have e := congrArg (fun l => l.getD 0 []) hv
    rw [show (⟨.S103pdf, .is 0, .many1 (.is 0)⟩ : Slot).select els = x.s103_pdf.map .S103pdf from e.symm]
    rw [hi.2, Bool.not_not]
    cases x.s103_pdf <;> rfl
  exact ⟨x, m0, rfl, hv, hi.1, l0⟩

theorem complete (h : Header) (els : List IE) (hm : schema.missing els = []) : ∃ y, fromvec { dflt with header := h } els = .ok y ∧ y.header = h ∧ fields y = schema.map (·.select els) := by
  obtain ⟨x, m0, hs, hv, hh, l0⟩ := flags h els
  unfold fromvec
  rw [hs]
  dsimp only [finish]
  have f0 := l0.symm.trans (Schema.of_missing_nil mand (by simp) hm)
  cases m0 <;> first | exact ⟨x, rfl, hh, hv⟩ | contradiction

theorem describes : Describes codec schema fields where
  header_set _ _ := rfl
  fields_set _ _ := rfl
  ext _ _ hh h := ext hh h
  shape x := Aligned.many (fun _ => rfl) <| Aligned.many (fun _ => rfl) <| trivial
  tovec x := by simp [codec, tovec, fields]
  complete h els _ hm := complete h els hm

theorem reports (h : Header) (els : List IE) (hm : schema.missing els ≠ []) :
    ∃ s ∈ schema.missing els, ∃ t, fromvec { dflt with header := h } els = .err (.messageMandatoryIEMissing t) ∧ kindOf t = s.kind := by
  obtain ⟨x, m0, hs, hv, hh, l0⟩ := flags h els
  unfold fromvec
  rw [hs]
  dsimp only [finish]
  cases m0 <;>
    first | exact ⟨_, Schema.mem_missing mand (by simp) l0, _, rfl, rfl⟩ | exact absurd (Schema.missing_nil mand (by simp [l0])) hm

theorem settled (h : Header) (els els' : List IE) (he : ∀ s ∈ schema, s.card.mandatory = true → s.lacks els = s.lacks els')
    (hm : schema.missing els ≠ []) : fromvec { dflt with header := h } els = fromvec { dflt with header := h } els' := by
  obtain ⟨x, m0, hs, hv, hh, l0⟩ := flags h els
  obtain ⟨x', m0', hs', hv', hh', l0'⟩ := flags h els'
  unfold fromvec
  rw [hs, hs']
  obtain rfl := Bool.not_inj (l0.symm.trans ((he _ (by decide) rfl).trans l0'))
  dsimp only [finish]
  cases m0 <;>
    first | rfl | exact absurd (Schema.missing_nil mand (by simp [l0])) hm

end CreateForwardingTunnelRequest

end Gtp.V2.Msg
