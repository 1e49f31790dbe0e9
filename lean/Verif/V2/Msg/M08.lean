import Verif.V2.Msg.Tactic

/-!
# GTPv2-C messages, part 8

Generated by `scripts/gen_msgs.py` from the Rust sources: `ModifyBearerRequest`, `ModifyBearerResponse`.
-/

namespace Gtp.V2.Msg

/-- `ModifyBearerRequest` (modifybearerreq.rs:15-50). -/
structure ModifyBearerRequest where
  header : Header
  mei : Option V2.Mei
  uli : Option V2.Uli
  servingnetwork : Option V2.ServingNetwork
  rattype : Option V2.RatType
  indication : Option V2.Indication
  fteid_control : Option V2.Fteid
  apnambr : Option V2.Ambr
  delay_dl_pnr : Option V2.DelayValue
  bearer_ctxs : List V2.BearerContext
  recovery : Option V2.Recovery
  uetimezone : Option V2.UeTimeZone
  mme_fqcsid : Option V2.Fqcsid
  sgw_fqcsid : Option V2.Fqcsid
  uci : Option V2.Uci
  ue_localip : Option V2.IpAddress
  ue_udpport : Option V2.PortNumber
  mme_ldn : Option V2.Ldn
  sgw_ldn : Option V2.Ldn
  henb_localip : Option V2.IpAddress
  henb_udpport : Option V2.PortNumber
  mme_id : Option V2.IpAddress
  cnose : Option V2.CnOperatorSelectionEntity
  prai : Option V2.PresenceReportingAreaInformation
  overload_info : List V2.OverloadControlInfo
  srv_plmn_rate_cntrl : Option V2.ServingPlmnRateControl
  mo_exception_data_counter : Option V2.Counter
  imsi : Option V2.Imsi
  uli_for_sgw : Option V2.Uli
  wlan_loc : Option V2.TwanId
  wlan_loc_timestamp : Option V2.TwanIdTimeStamp
  secondary_rat_usage_report : List V2.SecondaryRatUsageDataReport
  pscellid : Option V2.PSCellId
  private_ext : List V2.PrivateExtension
deriving DecidableEq

namespace ModifyBearerRequest

/-- `default` (modifybearerreq.rs:53-95). -/
def dflt : ModifyBearerRequest :=
  { header := { Header.default with msgtype := 34, teid := some 0 }, mei := none, uli := none, servingnetwork := none, rattype := none, indication := none, fteid_control := none, apnambr := none, delay_dl_pnr := none, bearer_ctxs := [], recovery := none, uetimezone := none, mme_fqcsid := none, sgw_fqcsid := none, uci := none, ue_localip := none, ue_udpport := none, mme_ldn := none, sgw_ldn := none, henb_localip := none, henb_udpport := none, mme_id := none, cnose := none, prai := none, overload_info := [], srv_plmn_rate_cntrl := none, mo_exception_data_counter := none, imsi := none, uli_for_sgw := none, wlan_loc := none, wlan_loc_timestamp := none, secondary_rat_usage_report := [], pscellid := none, private_ext := [] }

/-- `tovec` (modifybearerreq.rs:132-268). -/
def tovec (x : ModifyBearerRequest) : List IE :=
  optV .Mei x.mei ++ (
  optV .Uli x.uli ++ (
  optV .ServingNetwork x.servingnetwork ++ (
  optV .RatType x.rattype ++ (
  optV .Indication x.indication ++ (
  optV .Fteid x.fteid_control ++ (
  optV .ApnAmbr x.apnambr ++ (
  optV .DelayValue x.delay_dl_pnr ++ (
  x.bearer_ctxs.map .BearerContext ++ (
  optV .Recovery x.recovery ++ (
  optV .UeTimeZone x.uetimezone ++ (
  optV .Fqcsid x.mme_fqcsid ++ (
  optV .Fqcsid x.sgw_fqcsid ++ (
  optV .Uci x.uci ++ (
  optV .IpAddress x.ue_localip ++ (
  optV .PortNumber x.ue_udpport ++ (
  optV .Ldn x.mme_ldn ++ (
  optV .Ldn x.sgw_ldn ++ (
  optV .IpAddress x.henb_localip ++ (
  optV .PortNumber x.henb_udpport ++ (
  optV .IpAddress x.mme_id ++ (
  optV .CnOperatorSelectionEntity x.cnose ++ (
  optV .PresenceReportingAreaInformation x.prai ++ (
  x.overload_info.map .OverloadControlInfo ++ (
  optV .ServingPlmnRateControl x.srv_plmn_rate_cntrl ++ (
  optV .Counter x.mo_exception_data_counter ++ (
  optV .Imsi x.imsi ++ (
  optV .Uli x.uli_for_sgw ++ (
  optV .TwanId x.wlan_loc ++ (
  optV .TwanIdTimeStamp x.wlan_loc_timestamp ++ (
  x.secondary_rat_usage_report.map .SecondaryRatUsageDataReport ++ (
  optV .PSCellId x.pscellid ++ (
  x.private_ext.map .PrivateExtension))))))))))))))))))))))))))))))))

/-- The variables of `fromvec`: the message and the array `mandatory` (modifybearerreq.rs:270-433). -/
structure St where
  x : ModifyBearerRequest

/-- One turn of the loop of `fromvec` (modifybearerreq.rs:270-433). -/
def step (s : St) : IE → St
  | .Mei j => if j.ins = 0 ∧ s.x.mei.isNone = true then { s with x := { s.x with mei := some j } } else s
  | .Uli j => if j.ins = 0 ∧ s.x.uli.isNone = true then { s with x := { s.x with uli := some j } } else if j.ins = 1 ∧ s.x.uli_for_sgw.isNone = true then { s with x := { s.x with uli_for_sgw := some j } } else s
  | .ServingNetwork j => if j.ins = 0 ∧ s.x.servingnetwork.isNone = true then { s with x := { s.x with servingnetwork := some j } } else s
  | .RatType j => if j.ins = 0 ∧ s.x.rattype.isNone = true then { s with x := { s.x with rattype := some j } } else s
  | .Indication j => if j.ins = 0 ∧ s.x.indication.isNone = true then { s with x := { s.x with indication := some j } } else s
  | .Fteid j => if j.ins = 0 ∧ s.x.fteid_control.isNone = true then { s with x := { s.x with fteid_control := some j } } else s
  | .ApnAmbr j => if j.ins = 0 ∧ s.x.apnambr.isNone = true then { s with x := { s.x with apnambr := some j } } else s
  | .DelayValue j => if j.ins = 0 ∧ s.x.delay_dl_pnr.isNone = true then { s with x := { s.x with delay_dl_pnr := some j } } else s
  | .BearerContext j => if j.ins < 2 then { s with x := { s.x with bearer_ctxs := s.x.bearer_ctxs ++ [j] } } else s
  | .Recovery j => if j.ins = 0 ∧ s.x.recovery.isNone = true then { s with x := { s.x with recovery := some j } } else s
  | .UeTimeZone j => if j.ins = 0 ∧ s.x.uetimezone.isNone = true then { s with x := { s.x with uetimezone := some j } } else s
  | .Fqcsid j => if j.ins = 0 ∧ s.x.mme_fqcsid.isNone = true then { s with x := { s.x with mme_fqcsid := some j } } else if j.ins = 1 ∧ s.x.sgw_fqcsid.isNone = true then { s with x := { s.x with sgw_fqcsid := some j } } else s
  | .Uci j => if j.ins = 0 ∧ s.x.uci.isNone = true then { s with x := { s.x with uci := some j } } else s
  | .IpAddress j => if j.ins = 0 ∧ s.x.henb_localip.isNone = true then { s with x := { s.x with henb_localip := some j } } else if j.ins = 1 ∧ s.x.ue_localip.isNone = true then { s with x := { s.x with ue_localip := some j } } else if j.ins = 2 ∧ s.x.mme_id.isNone = true then { s with x := { s.x with mme_id := some j } } else s
  | .PortNumber j => if j.ins = 0 ∧ s.x.henb_udpport.isNone = true then { s with x := { s.x with henb_udpport := some j } } else if j.ins = 1 ∧ s.x.ue_udpport.isNone = true then { s with x := { s.x with ue_udpport := some j } } else s
  | .Ldn j => if j.ins = 0 ∧ s.x.mme_ldn.isNone = true then { s with x := { s.x with mme_ldn := some j } } else if j.ins = 1 ∧ s.x.sgw_ldn.isNone = true then { s with x := { s.x with sgw_ldn := some j } } else s
  | .CnOperatorSelectionEntity j => if j.ins = 0 ∧ s.x.cnose.isNone = true then { s with x := { s.x with cnose := some j } } else s
  | .PresenceReportingAreaInformation j => if j.ins = 0 ∧ s.x.prai.isNone = true then { s with x := { s.x with prai := some j } } else s
  | .OverloadControlInfo j => if j.ins < 3 then { s with x := { s.x with overload_info := s.x.overload_info ++ [j] } } else s
  | .ServingPlmnRateControl j => if j.ins = 0 ∧ s.x.srv_plmn_rate_cntrl.isNone = true then { s with x := { s.x with srv_plmn_rate_cntrl := some j } } else s
  | .Counter j => if j.ins = 0 ∧ s.x.mo_exception_data_counter.isNone = true then { s with x := { s.x with mo_exception_data_counter := some j } } else s
  | .Imsi j => if j.ins = 0 ∧ s.x.imsi.isNone = true then { s with x := { s.x with imsi := some j } } else s
  | .TwanId j => if j.ins = 0 ∧ s.x.wlan_loc.isNone = true then { s with x := { s.x with wlan_loc := some j } } else s
  | .TwanIdTimeStamp j => if j.ins = 0 ∧ s.x.wlan_loc_timestamp.isNone = true then { s with x := { s.x with wlan_loc_timestamp := some j } } else s
  | .SecondaryRatUsageDataReport j => if j.ins = 0 then { s with x := { s.x with secondary_rat_usage_report := s.x.secondary_rat_usage_report ++ [j] } } else s
  | .PSCellId j => if j.ins = 0 ∧ s.x.pscellid.isNone = true then { s with x := { s.x with pscellid := some j } } else s
  | .PrivateExtension j => { s with x := { s.x with private_ext := s.x.private_ext ++ [j] } }
  | _ => s

/-- The end of `fromvec` (modifybearerreq.rs:270-433). -/
def finish (s : St) : R Err ModifyBearerRequest :=
  .ok s.x

/-- `fromvec` (modifybearerreq.rs:270-433). -/
def fromvec (x : ModifyBearerRequest) (els : List IE) : R Err ModifyBearerRequest := finish (els.foldl step ⟨x⟩)

/-- The message type (modifybearerreq.rs:99-130). -/
def codec : Codec ModifyBearerRequest :=
  { msgtype := 34, start := some 12, dflt, header := header, setHeader := fun x h => { x with header := h }, tovec, fromvec }

/-- One slot per field. -/
def schema : Schema :=
  [⟨.Mei, .is 0, .opt⟩,
   ⟨.Uli, .is 0, .opt⟩,
   ⟨.ServingNetwork, .is 0, .opt⟩,
   ⟨.RatType, .is 0, .opt⟩,
   ⟨.Indication, .is 0, .opt⟩,
   ⟨.Fteid, .is 0, .opt⟩,
   ⟨.ApnAmbr, .is 0, .opt⟩,
   ⟨.DelayValue, .is 0, .opt⟩,
   ⟨.BearerContext, .lt 2, .many⟩,
   ⟨.Recovery, .is 0, .opt⟩,
   ⟨.UeTimeZone, .is 0, .opt⟩,
   ⟨.Fqcsid, .is 0, .opt⟩,
   ⟨.Fqcsid, .is 1, .opt⟩,
   ⟨.Uci, .is 0, .opt⟩,
   ⟨.IpAddress, .is 1, .opt⟩,
   ⟨.PortNumber, .is 1, .opt⟩,
   ⟨.Ldn, .is 0, .opt⟩,
   ⟨.Ldn, .is 1, .opt⟩,
   ⟨.IpAddress, .is 0, .opt⟩,
   ⟨.PortNumber, .is 0, .opt⟩,
   ⟨.IpAddress, .is 2, .opt⟩,
   ⟨.CnOperatorSelectionEntity, .is 0, .opt⟩,
   ⟨.PresenceReportingAreaInformation, .is 0, .opt⟩,
   ⟨.OverloadControlInfo, .lt 3, .many⟩,
   ⟨.ServingPlmnRateControl, .is 0, .opt⟩,
   ⟨.Counter, .is 0, .opt⟩,
   ⟨.Imsi, .is 0, .opt⟩,
   ⟨.Uli, .is 1, .opt⟩,
   ⟨.TwanId, .is 0, .opt⟩,
   ⟨.TwanIdTimeStamp, .is 0, .opt⟩,
   ⟨.SecondaryRatUsageDataReport, .is 0, .many⟩,
   ⟨.PSCellId, .is 0, .opt⟩,
   ⟨.PrivateExtension, .any, .many⟩]

/-- The fields as lists of IEs. -/
def fields (x : ModifyBearerRequest) : List (List IE) :=
  [optV .Mei x.mei,
   optV .Uli x.uli,
   optV .ServingNetwork x.servingnetwork,
   optV .RatType x.rattype,
   optV .Indication x.indication,
   optV .Fteid x.fteid_control,
   optV .ApnAmbr x.apnambr,
   optV .DelayValue x.delay_dl_pnr,
   x.bearer_ctxs.map .BearerContext,
   optV .Recovery x.recovery,
   optV .UeTimeZone x.uetimezone,
   optV .Fqcsid x.mme_fqcsid,
   optV .Fqcsid x.sgw_fqcsid,
   optV .Uci x.uci,
   optV .IpAddress x.ue_localip,
   optV .PortNumber x.ue_udpport,
   optV .Ldn x.mme_ldn,
   optV .Ldn x.sgw_ldn,
   optV .IpAddress x.henb_localip,
   optV .PortNumber x.henb_udpport,
   optV .IpAddress x.mme_id,
   optV .CnOperatorSelectionEntity x.cnose,
   optV .PresenceReportingAreaInformation x.prai,
   x.overload_info.map .OverloadControlInfo,
   optV .ServingPlmnRateControl x.srv_plmn_rate_cntrl,
   optV .Counter x.mo_exception_data_counter,
   optV .Imsi x.imsi,
   optV .Uli x.uli_for_sgw,
   optV .TwanId x.wlan_loc,
   optV .TwanIdTimeStamp x.wlan_loc_timestamp,
   x.secondary_rat_usage_report.map .SecondaryRatUsageDataReport,
   optV .PSCellId x.pscellid,
   x.private_ext.map .PrivateExtension]

/-- What the state has collected so far. -/
def St.view (s : St) : List (List IE) :=
  [optV .Mei s.x.mei,
   optV .Uli s.x.uli,
   optV .ServingNetwork s.x.servingnetwork,
   optV .RatType s.x.rattype,
   optV .Indication s.x.indication,
   optV .Fteid s.x.fteid_control,
   optV .ApnAmbr s.x.apnambr,
   optV .DelayValue s.x.delay_dl_pnr,
   s.x.bearer_ctxs.map .BearerContext,
   optV .Recovery s.x.recovery,
   optV .UeTimeZone s.x.uetimezone,
   optV .Fqcsid s.x.mme_fqcsid,
   optV .Fqcsid s.x.sgw_fqcsid,
   optV .Uci s.x.uci,
   optV .IpAddress s.x.ue_localip,
   optV .PortNumber s.x.ue_udpport,
   optV .Ldn s.x.mme_ldn,
   optV .Ldn s.x.sgw_ldn,
   optV .IpAddress s.x.henb_localip,
   optV .PortNumber s.x.henb_udpport,
   optV .IpAddress s.x.mme_id,
   optV .CnOperatorSelectionEntity s.x.cnose,
   optV .PresenceReportingAreaInformation s.x.prai,
   s.x.overload_info.map .OverloadControlInfo,
   optV .ServingPlmnRateControl s.x.srv_plmn_rate_cntrl,
   optV .Counter s.x.mo_exception_data_counter,
   optV .Imsi s.x.imsi,
   optV .Uli s.x.uli_for_sgw,
   optV .TwanId s.x.wlan_loc,
   optV .TwanIdTimeStamp s.x.wlan_loc_timestamp,
   s.x.secondary_rat_usage_report.map .SecondaryRatUsageDataReport,
   optV .PSCellId s.x.pscellid,
   s.x.private_ext.map .PrivateExtension]

/-- The header is left alone; flags of mandatory lists tell whether the list is empty. -/
def St.Inv (h : Header) (s : St) : Prop :=
  s.x.header = h

theorem step_view (h : Header) (s : St) (e : IE) (hi : s.Inv h) : (step s e).view = Schema.step schema s.view e ∧ (step s e).Inv h := by
  cases e
  case Mei j =>
    simp only [step]
    repeat' split
    all_goals refine ⟨cons_congr ?_ ((Schema.step_other rfl rfl).symm), ?_⟩
    all_goals first | exact hi | msg_field | (simp_all [St.Inv]; done)
  case Uli j =>
    simp only [step]
    repeat' split
    all_goals refine ⟨cons_congr (Slot.step_ne rfl).symm (cons_congr ?_ (cons_congr (Slot.step_ne rfl).symm (cons_congr (Slot.step_ne rfl).symm (cons_congr (Slot.step_ne rfl).symm (cons_congr (Slot.step_ne rfl).symm (cons_congr (Slot.step_ne rfl).symm (cons_congr (Slot.step_ne rfl).symm (cons_congr (Slot.step_ne rfl).symm (cons_congr (Slot.step_ne rfl).symm (cons_congr (Slot.step_ne rfl).symm (cons_congr (Slot.step_ne rfl).symm (cons_congr (Slot.step_ne rfl).symm (cons_congr (Slot.step_ne rfl).symm (cons_congr (Slot.step_ne rfl).symm (cons_congr (Slot.step_ne rfl).symm (cons_congr (Slot.step_ne rfl).symm (cons_congr (Slot.step_ne rfl).symm (cons_congr (Slot.step_ne rfl).symm (cons_congr (Slot.step_ne rfl).symm (cons_congr (Slot.step_ne rfl).symm (cons_congr (Slot.step_ne rfl).symm (cons_congr (Slot.step_ne rfl).symm (cons_congr (Slot.step_ne rfl).symm (cons_congr (Slot.step_ne rfl).symm (cons_congr (Slot.step_ne rfl).symm (cons_congr (Slot.step_ne rfl).symm (cons_congr ?_ ((Schema.step_other rfl rfl).symm)))))))))))))))))))))))))))), ?_⟩
    all_goals first | exact hi | msg_field | (simp_all [St.Inv]; done)
  case ServingNetwork j =>
    simp only [step]
    repeat' split
    all_goals refine ⟨cons_congr (Slot.step_ne rfl).symm (cons_congr (Slot.step_ne rfl).symm (cons_congr ?_ ((Schema.step_other rfl rfl).symm))), ?_⟩
    all_goals first | exact hi | msg_field | (simp_all [St.Inv]; done)
  case RatType j =>
    simp only [step]
    repeat' split
    all_goals refine ⟨cons_congr (Slot.step_ne rfl).symm (cons_congr (Slot.step_ne rfl).symm (cons_congr (Slot.step_ne rfl).symm (cons_congr ?_ ((Schema.step_other rfl rfl).symm)))), ?_⟩
    all_goals first | exact hi | msg_field | (simp_all [St.Inv]; done)
  case Indication j =>
    simp only [step]
    repeat' split
    all_goals refine ⟨cons_congr (Slot.step_ne rfl).symm (cons_congr (Slot.step_ne rfl).symm (cons_congr (Slot.step_ne rfl).symm (cons_congr (Slot.step_ne rfl).symm (cons_congr ?_ ((Schema.step_other rfl rfl).symm))))), ?_⟩
    all_goals first | exact hi | msg_field | (simp_all [St.Inv]; done)
  case Fteid j =>
    simp only [step]
    repeat' split
    all_goals refine ⟨cons_congr (Slot.step_ne rfl).symm (cons_congr (Slot.step_ne rfl).symm (cons_congr (Slot.step_ne rfl).symm (cons_congr (Slot.step_ne rfl).symm (cons_congr (Slot.step_ne rfl).symm (cons_congr ?_ ((Schema.step_other rfl rfl).symm)))))), ?_⟩
    all_goals first | exact hi | msg_field | (simp_all [St.Inv]; done)
  case ApnAmbr j =>
    simp only [step]
    repeat' split
    all_goals refine ⟨cons_congr (Slot.step_ne rfl).symm (cons_congr (Slot.step_ne rfl).symm (cons_congr (Slot.step_ne rfl).symm (cons_congr (Slot.step_ne rfl).symm (cons_congr (Slot.step_ne rfl).symm (cons_congr (Slot.step_ne rfl).symm (cons_congr ?_ ((Schema.step_other rfl rfl).symm))))))), ?_⟩
    all_goals first | exact hi | msg_field | (simp_all [St.Inv]; done)
  case DelayValue j =>
    simp only [step]
    repeat' split
    all_goals refine ⟨cons_congr (Slot.step_ne rfl).symm (cons_congr (Slot.step_ne rfl).symm (cons_congr (Slot.step_ne rfl).symm (cons_congr (Slot.step_ne rfl).symm (cons_congr (Slot.step_ne rfl).symm (cons_congr (Slot.step_ne rfl).symm (cons_congr (Slot.step_ne rfl).symm (cons_congr ?_ ((Schema.step_other rfl rfl).symm)))))))), ?_⟩
    all_goals first | exact hi | msg_field | (simp_all [St.Inv]; done)
  case BearerContext j =>
    simp only [step]
    repeat' split
    all_goals refine ⟨cons_congr (Slot.step_ne rfl).symm (cons_congr (Slot.step_ne rfl).symm (cons_congr (Slot.step_ne rfl).symm (cons_congr (Slot.step_ne rfl).symm (cons_congr (Slot.step_ne rfl).symm (cons_congr (Slot.step_ne rfl).symm (cons_congr (Slot.step_ne rfl).symm (cons_congr (Slot.step_ne rfl).symm (cons_congr ?_ ((Schema.step_other rfl rfl).symm))))))))), ?_⟩
    all_goals first | exact hi | msg_field | (simp_all [St.Inv]; done)
  case Recovery j =>
    simp only [step]
    repeat' split
    all_goals refine ⟨cons_congr (Slot.step_ne rfl).symm (cons_congr (Slot.step_ne rfl).symm (cons_congr (Slot.step_ne rfl).symm (cons_congr (Slot.step_ne rfl).symm (cons_congr (Slot.step_ne rfl).symm (cons_congr (Slot.step_ne rfl).symm (cons_congr (Slot.step_ne rfl).symm (cons_congr (Slot.step_ne rfl).symm (cons_congr (Slot.step_ne rfl).symm (cons_congr ?_ ((Schema.step_other rfl rfl).symm)))))))))), ?_⟩
    all_goals first | exact hi | msg_field | (simp_all [St.Inv]; done)
  case UeTimeZone j =>
    simp only [step]
    repeat' split
    all_goals refine ⟨cons_congr (Slot.step_ne rfl).symm (cons_congr (Slot.step_ne rfl).symm (cons_congr (Slot.step_ne rfl).symm (cons_congr (Slot.step_ne rfl).symm (cons_congr (Slot.step_ne rfl).symm (cons_congr (Slot.step_ne rfl).symm (cons_congr (Slot.step_ne rfl).symm (cons_congr (Slot.step_ne rfl).symm (cons_congr (Slot.step_ne rfl).symm (cons_congr (Slot.step_ne rfl).symm (cons_congr ?_ ((Schema.step_other rfl rfl).symm))))))))))), ?_⟩
    all_goals first | exact hi | msg_field | (simp_all [St.Inv]; done)
  case Fqcsid j =>
    simp only [step]
    repeat' split
    all_goals refine ⟨cons_congr (Slot.step_ne rfl).symm (cons_congr (Slot.step_ne rfl).symm (cons_congr (Slot.step_ne rfl).symm (cons_congr (Slot.step_ne rfl).symm (cons_congr (Slot.step_ne rfl).symm (cons_congr (Slot.step_ne rfl).symm (cons_congr (Slot.step_ne rfl).symm (cons_congr (Slot.step_ne rfl).symm (cons_congr (Slot.step_ne rfl).symm (cons_congr (Slot.step_ne rfl).symm (cons_congr (Slot.step_ne rfl).symm (cons_congr ?_ (cons_congr ?_ ((Schema.step_other rfl rfl).symm))))))))))))), ?_⟩
    all_goals first | exact hi | msg_field | (simp_all [St.Inv]; done)
  case Uci j =>
    simp only [step]
    repeat' split
    all_goals refine ⟨cons_congr (Slot.step_ne rfl).symm (cons_congr (Slot.step_ne rfl).symm (cons_congr (Slot.step_ne rfl).symm (cons_congr (Slot.step_ne rfl).symm (cons_congr (Slot.step_ne rfl).symm (cons_congr (Slot.step_ne rfl).symm (cons_congr (Slot.step_ne rfl).symm (cons_congr (Slot.step_ne rfl).symm (cons_congr (Slot.step_ne rfl).symm (cons_congr (Slot.step_ne rfl).symm (cons_congr (Slot.step_ne rfl).symm (cons_congr (Slot.step_ne rfl).symm (cons_congr (Slot.step_ne rfl).symm (cons_congr ?_ ((Schema.step_other rfl rfl).symm)))))))))))))), ?_⟩
    all_goals first | exact hi | msg_field | (simp_all [St.Inv]; done)
  case IpAddress j =>
    simp only [step]
    repeat' split
    all_goals refine ⟨cons_congr (Slot.step_ne rfl).symm (cons_congr (Slot.step_ne rfl).symm (cons_congr (Slot.step_ne rfl).symm (cons_congr (Slot.step_ne rfl).symm (cons_congr (Slot.step_ne rfl).symm (cons_congr (Slot.step_ne rfl).symm (cons_congr (Slot.step_ne rfl).symm (cons_congr (Slot.step_ne rfl).symm (cons_congr (Slot.step_ne rfl).symm (cons_congr (Slot.step_ne rfl).symm (cons_congr (Slot.step_ne rfl).symm (cons_congr (Slot.step_ne rfl).symm (cons_congr (Slot.step_ne rfl).symm (cons_congr (Slot.step_ne rfl).symm (cons_congr ?_ (cons_congr (Slot.step_ne rfl).symm (cons_congr (Slot.step_ne rfl).symm (cons_congr (Slot.step_ne rfl).symm (cons_congr ?_ (cons_congr (Slot.step_ne rfl).symm (cons_congr ?_ ((Schema.step_other rfl rfl).symm))))))))))))))))))))), ?_⟩
    all_goals first | exact hi | msg_field | (simp_all [St.Inv]; done)
  case PortNumber j =>
    simp only [step]
    repeat' split
    all_goals refine ⟨cons_congr (Slot.step_ne rfl).symm (cons_congr (Slot.step_ne rfl).symm (cons_congr (Slot.step_ne rfl).symm (cons_congr (Slot.step_ne rfl).symm (cons_congr (Slot.step_ne rfl).symm (cons_congr (Slot.step_ne rfl).symm (cons_congr (Slot.step_ne rfl).symm (cons_congr (Slot.step_ne rfl).symm (cons_congr (Slot.step_ne rfl).symm (cons_congr (Slot.step_ne rfl).symm (cons_congr (Slot.step_ne rfl).symm (cons_congr (Slot.step_ne rfl).symm (cons_congr (Slot.step_ne rfl).symm (cons_congr (Slot.step_ne rfl).symm (cons_congr (Slot.step_ne rfl).symm (cons_congr ?_ (cons_congr (Slot.step_ne rfl).symm (cons_congr (Slot.step_ne rfl).symm (cons_congr (Slot.step_ne rfl).symm (cons_congr ?_ ((Schema.step_other rfl rfl).symm)))))))))))))))))))), ?_⟩
    all_goals first | exact hi | msg_field | (simp_all [St.Inv]; done)
  case Ldn j =>
    simp only [step]
    repeat' split
    all_goals refine ⟨cons_congr (Slot.step_ne rfl).symm (cons_congr (Slot.step_ne rfl).symm (cons_congr (Slot.step_ne rfl).symm (cons_congr (Slot.step_ne rfl).symm (cons_congr (Slot.step_ne rfl).symm (cons_congr (Slot.step_ne rfl).symm (cons_congr (Slot.step_ne rfl).symm (cons_congr (Slot.step_ne rfl).symm (cons_congr (Slot.step_ne rfl).symm (cons_congr (Slot.step_ne rfl).symm (cons_congr (Slot.step_ne rfl).symm (cons_congr (Slot.step_ne rfl).symm (cons_congr (Slot.step_ne rfl).symm (cons_congr (Slot.step_ne rfl).symm (cons_congr (Slot.step_ne rfl).symm (cons_congr (Slot.step_ne rfl).symm (cons_congr ?_ (cons_congr ?_ ((Schema.step_other rfl rfl).symm)))))))))))))))))), ?_⟩
    all_goals first | exact hi | msg_field | (simp_all [St.Inv]; done)
  case CnOperatorSelectionEntity j =>
    simp only [step]
    repeat' split
    all_goals refine ⟨cons_congr (Slot.step_ne rfl).symm (cons_congr (Slot.step_ne rfl).symm (cons_congr (Slot.step_ne rfl).symm (cons_congr (Slot.step_ne rfl).symm (cons_congr (Slot.step_ne rfl).symm (cons_congr (Slot.step_ne rfl).symm (cons_congr (Slot.step_ne rfl).symm (cons_congr (Slot.step_ne rfl).symm (cons_congr (Slot.step_ne rfl).symm (cons_congr (Slot.step_ne rfl).symm (cons_congr (Slot.step_ne rfl).symm (cons_congr (Slot.step_ne rfl).symm (cons_congr (Slot.step_ne rfl).symm (cons_congr (Slot.step_ne rfl).symm (cons_congr (Slot.step_ne rfl).symm (cons_congr (Slot.step_ne rfl).symm (cons_congr (Slot.step_ne rfl).symm (cons_congr (Slot.step_ne rfl).symm (cons_congr (Slot.step_ne rfl).symm (cons_congr (Slot.step_ne rfl).symm (cons_congr (Slot.step_ne rfl).symm (cons_congr ?_ ((Schema.step_other rfl rfl).symm)))))))))))))))))))))), ?_⟩
    all_goals first | exact hi | msg_field | (simp_all [St.Inv]; done)
  case PresenceReportingAreaInformation j =>
    simp only [step]
    repeat' split
    all_goals refine ⟨cons_congr (Slot.step_ne rfl).symm (cons_congr (Slot.step_ne rfl).symm (cons_congr (Slot.step_ne rfl).symm (cons_congr (Slot.step_ne rfl).symm (cons_congr (Slot.step_ne rfl).symm (cons_congr (Slot.step_ne rfl).symm (cons_congr (Slot.step_ne rfl).symm (cons_congr (Slot.step_ne rfl).symm (cons_congr (Slot.step_ne rfl).symm (cons_congr (Slot.step_ne rfl).symm (cons_congr (Slot.step_ne rfl).symm (cons_congr (Slot.step_ne rfl).symm (cons_congr (Slot.step_ne rfl).symm (cons_congr (Slot.step_ne rfl).symm (cons_congr (Slot.step_ne rfl).symm (cons_congr (Slot.step_ne rfl).symm (cons_congr (Slot.step_ne rfl).symm (cons_congr (Slot.step_ne rfl).symm (cons_congr (Slot.step_ne rfl).symm (cons_congr (Slot.step_ne rfl).symm (cons_congr (Slot.step_ne rfl).symm (cons_congr (Slot.step_ne rfl).symm (cons_congr ?_ ((Schema.step_other rfl rfl).symm))))))))))))))))))))))), ?_⟩
    all_goals first | exact hi | msg_field | (simp_all [St.Inv]; done)
  case OverloadControlInfo j =>
    simp only [step]
    repeat' split
    all_goals refine ⟨cons_congr (Slot.step_ne rfl).symm (cons_congr (Slot.step_ne rfl).symm (cons_congr (Slot.step_ne rfl).symm (cons_congr (Slot.step_ne rfl).symm (cons_congr (Slot.step_ne rfl).symm (cons_congr (Slot.step_ne rfl).symm (cons_congr (Slot.step_ne rfl).symm (cons_congr (Slot.step_ne rfl).symm (cons_congr (Slot.step_ne rfl).symm (cons_congr (Slot.step_ne rfl).symm (cons_congr (Slot.step_ne rfl).symm (cons_congr (Slot.step_ne rfl).symm (cons_congr (Slot.step_ne rfl).symm (cons_congr (Slot.step_ne rfl).symm (cons_congr (Slot.step_ne rfl).symm (cons_congr (Slot.step_ne rfl).symm (cons_congr (Slot.step_ne rfl).symm (cons_congr (Slot.step_ne rfl).symm (cons_congr (Slot.step_ne rfl).symm (cons_congr (Slot.step_ne rfl).symm (cons_congr (Slot.step_ne rfl).symm (cons_congr (Slot.step_ne rfl).symm (cons_congr (Slot.step_ne rfl).symm (cons_congr ?_ ((Schema.step_other rfl rfl).symm)))))))))))))))))))))))), ?_⟩
    all_goals first | exact hi | msg_field | (simp_all [St.Inv]; done)
  case ServingPlmnRateControl j =>
    simp only [step]
    repeat' split
    all_goals refine ⟨cons_congr (Slot.step_ne rfl).symm (cons_congr (Slot.step_ne rfl).symm (cons_congr (Slot.step_ne rfl).symm (cons_congr (Slot.step_ne rfl).symm (cons_congr (Slot.step_ne rfl).symm (cons_congr (Slot.step_ne rfl).symm (cons_congr (Slot.step_ne rfl).symm (cons_congr (Slot.step_ne rfl).symm (cons_congr (Slot.step_ne rfl).symm (cons_congr (Slot.step_ne rfl).symm (cons_congr (Slot.step_ne rfl).symm (cons_congr (Slot.step_ne rfl).symm (cons_congr (Slot.step_ne rfl).symm (cons_congr (Slot.step_ne rfl).symm (cons_congr (Slot.step_ne rfl).symm (cons_congr (Slot.step_ne rfl).symm (cons_congr (Slot.step_ne rfl).symm (cons_congr (Slot.step_ne rfl).symm (cons_congr (Slot.step_ne rfl).symm (cons_congr (Slot.step_ne rfl).symm (cons_congr (Slot.step_ne rfl).symm (cons_congr (Slot.step_ne rfl).symm (cons_congr (Slot.step_ne rfl).symm (cons_congr (Slot.step_ne rfl).symm (cons_congr ?_ ((Schema.step_other rfl rfl).symm))))))))))))))))))))))))), ?_⟩
    all_goals first | exact hi | msg_field | (simp_all [St.Inv]; done)
  case Counter j =>
    simp only [step]
    repeat' split
    all_goals refine ⟨cons_congr (Slot.step_ne rfl).symm (cons_congr (Slot.step_ne rfl).symm (cons_congr (Slot.step_ne rfl).symm (cons_congr (Slot.step_ne rfl).symm (cons_congr (Slot.step_ne rfl).symm (cons_congr (Slot.step_ne rfl).symm (cons_congr (Slot.step_ne rfl).symm (cons_congr (Slot.step_ne rfl).symm (cons_congr (Slot.step_ne rfl).symm (cons_congr (Slot.step_ne rfl).symm (cons_congr (Slot.step_ne rfl).symm (cons_congr (Slot.step_ne rfl).symm (cons_congr (Slot.step_ne rfl).symm (cons_congr (Slot.step_ne rfl).symm (cons_congr (Slot.step_ne rfl).symm (cons_congr (Slot.step_ne rfl).symm (cons_congr (Slot.step_ne rfl).symm (cons_congr (Slot.step_ne rfl).symm (cons_congr (Slot.step_ne rfl).symm (cons_congr (Slot.step_ne rfl).symm (cons_congr (Slot.step_ne rfl).symm (cons_congr (Slot.step_ne rfl).symm (cons_congr (Slot.step_ne rfl).symm (cons_congr (Slot.step_ne rfl).symm (cons_congr (Slot.step_ne rfl).symm (cons_congr ?_ ((Schema.step_other rfl rfl).symm)))))))))))))))))))))))))), ?_⟩
    all_goals first | exact hi | msg_field | (simp_all [St.Inv]; done)
  case Imsi j =>
    simp only [step]
    repeat' split
    all_goals refine ⟨cons_congr (Slot.step_ne rfl).symm (cons_congr (Slot.step_ne rfl).symm (cons_congr (Slot.step_ne rfl).symm (cons_congr (Slot.step_ne rfl).symm (cons_congr (Slot.step_ne rfl).symm (cons_congr (Slot.step_ne rfl).symm (cons_congr (Slot.step_ne rfl).symm (cons_congr (Slot.step_ne rfl).symm (cons_congr (Slot.step_ne rfl).symm (cons_congr (Slot.step_ne rfl).symm (cons_congr (Slot.step_ne rfl).symm (cons_congr (Slot.step_ne rfl).symm (cons_congr (Slot.step_ne rfl).symm (cons_congr (Slot.step_ne rfl).symm (cons_congr (Slot.step_ne rfl).symm (cons_congr (Slot.step_ne rfl).symm (cons_congr (Slot.step_ne rfl).symm (cons_congr (Slot.step_ne rfl).symm (cons_congr (Slot.step_ne rfl).symm (cons_congr (Slot.step_ne rfl).symm (cons_congr (Slot.step_ne rfl).symm (cons_congr (Slot.step_ne rfl).symm (cons_congr (Slot.step_ne rfl).symm (cons_congr (Slot.step_ne rfl).symm (cons_congr (Slot.step_ne rfl).symm (cons_congr (Slot.step_ne rfl).symm (cons_congr ?_ ((Schema.step_other rfl rfl).symm))))))))))))))))))))))))))), ?_⟩
    all_goals first | exact hi | msg_field | (simp_all [St.Inv]; done)
  case TwanId j =>
    simp only [step]
    repeat' split
    all_goals refine ⟨cons_congr (Slot.step_ne rfl).symm (cons_congr (Slot.step_ne rfl).symm (cons_congr (Slot.step_ne rfl).symm (cons_congr (Slot.step_ne rfl).symm (cons_congr (Slot.step_ne rfl).symm (cons_congr (Slot.step_ne rfl).symm (cons_congr (Slot.step_ne rfl).symm (cons_congr (Slot.step_ne rfl).symm (cons_congr (Slot.step_ne rfl).symm (cons_congr (Slot.step_ne rfl).symm (cons_congr (Slot.step_ne rfl).symm (cons_congr (Slot.step_ne rfl).symm (cons_congr (Slot.step_ne rfl).symm (cons_congr (Slot.step_ne rfl).symm (cons_congr (Slot.step_ne rfl).symm (cons_congr (Slot.step_ne rfl).symm (cons_congr (Slot.step_ne rfl).symm (cons_congr (Slot.step_ne rfl).symm (cons_congr (Slot.step_ne rfl).symm (cons_congr (Slot.step_ne rfl).symm (cons_congr (Slot.step_ne rfl).symm (cons_congr (Slot.step_ne rfl).symm (cons_congr (Slot.step_ne rfl).symm (cons_congr (Slot.step_ne rfl).symm (cons_congr (Slot.step_ne rfl).symm (cons_congr (Slot.step_ne rfl).symm (cons_congr (Slot.step_ne rfl).symm (cons_congr (Slot.step_ne rfl).symm (cons_congr ?_ ((Schema.step_other rfl rfl).symm))))))))))))))))))))))))))))), ?_⟩
    all_goals first | exact hi | msg_field | (simp_all [St.Inv]; done)
  case TwanIdTimeStamp j =>
    simp only [step]
    repeat' split
    all_goals refine ⟨cons_congr (Slot.step_ne rfl).symm (cons_congr (Slot.step_ne rfl).symm (cons_congr (Slot.step_ne rfl).symm (cons_congr (Slot.step_ne rfl).symm (cons_congr (Slot.step_ne rfl).symm (cons_congr (Slot.step_ne rfl).symm (cons_congr (Slot.step_ne rfl).symm (cons_congr (Slot.step_ne rfl).symm (cons_congr (Slot.step_ne rfl).symm (cons_congr (Slot.step_ne rfl).symm (cons_congr (Slot.step_ne rfl).symm (cons_congr (Slot.step_ne rfl).symm (cons_congr (Slot.step_ne rfl).symm (cons_congr (Slot.step_ne rfl).symm (cons_congr (Slot.step_ne rfl).symm (cons_congr (Slot.step_ne rfl).symm (cons_congr (Slot.step_ne rfl).symm (cons_congr (Slot.step_ne rfl).symm (cons_congr (Slot.step_ne rfl).symm (cons_congr (Slot.step_ne rfl).symm (cons_congr (Slot.step_ne rfl).symm (cons_congr (Slot.step_ne rfl).symm (cons_congr (Slot.step_ne rfl).symm (cons_congr (Slot.step_ne rfl).symm (cons_congr (Slot.step_ne rfl).symm (cons_congr (Slot.step_ne rfl).symm (cons_congr (Slot.step_ne rfl).symm (cons_congr (Slot.step_ne rfl).symm (cons_congr (Slot.step_ne rfl).symm (cons_congr ?_ ((Schema.step_other rfl rfl).symm)))))))))))))))))))))))))))))), ?_⟩
    all_goals first | exact hi | msg_field | (simp_all [St.Inv]; done)
  case SecondaryRatUsageDataReport j =>
    simp only [step]
    repeat' split
    all_goals refine ⟨cons_congr (Slot.step_ne rfl).symm (cons_congr (Slot.step_ne rfl).symm (cons_congr (Slot.step_ne rfl).symm (cons_congr (Slot.step_ne rfl).symm (cons_congr (Slot.step_ne rfl).symm (cons_congr (Slot.step_ne rfl).symm (cons_congr (Slot.step_ne rfl).symm (cons_congr (Slot.step_ne rfl).symm (cons_congr (Slot.step_ne rfl).symm (cons_congr (Slot.step_ne rfl).symm (cons_congr (Slot.step_ne rfl).symm (cons_congr (Slot.step_ne rfl).symm (cons_congr (Slot.step_ne rfl).symm (cons_congr (Slot.step_ne rfl).symm (cons_congr (Slot.step_ne rfl).symm (cons_congr (Slot.step_ne rfl).symm (cons_congr (Slot.step_ne rfl).symm (cons_congr (Slot.step_ne rfl).symm (cons_congr (Slot.step_ne rfl).symm (cons_congr (Slot.step_ne rfl).symm (cons_congr (Slot.step_ne rfl).symm (cons_congr (Slot.step_ne rfl).symm (cons_congr (Slot.step_ne rfl).symm (cons_congr (Slot.step_ne rfl).symm (cons_congr (Slot.step_ne rfl).symm (cons_congr (Slot.step_ne rfl).symm (cons_congr (Slot.step_ne rfl).symm (cons_congr (Slot.step_ne rfl).symm (cons_congr (Slot.step_ne rfl).symm (cons_congr (Slot.step_ne rfl).symm (cons_congr ?_ ((Schema.step_other rfl rfl).symm))))))))))))))))))))))))))))))), ?_⟩
    all_goals first | exact hi | msg_field | (simp_all [St.Inv]; done)
  case PSCellId j =>
    simp only [step]
    repeat' split
    all_goals refine ⟨cons_congr (Slot.step_ne rfl).symm (cons_congr (Slot.step_ne rfl).symm (cons_congr (Slot.step_ne rfl).symm (cons_congr (Slot.step_ne rfl).symm (cons_congr (Slot.step_ne rfl).symm (cons_congr (Slot.step_ne rfl).symm (cons_congr (Slot.step_ne rfl).symm (cons_congr (Slot.step_ne rfl).symm (cons_congr (Slot.step_ne rfl).symm (cons_congr (Slot.step_ne rfl).symm (cons_congr (Slot.step_ne rfl).symm (cons_congr (Slot.step_ne rfl).symm (cons_congr (Slot.step_ne rfl).symm (cons_congr (Slot.step_ne rfl).symm (cons_congr (Slot.step_ne rfl).symm (cons_congr (Slot.step_ne rfl).symm (cons_congr (Slot.step_ne rfl).symm (cons_congr (Slot.step_ne rfl).symm (cons_congr (Slot.step_ne rfl).symm (cons_congr (Slot.step_ne rfl).symm (cons_congr (Slot.step_ne rfl).symm (cons_congr (Slot.step_ne rfl).symm (cons_congr (Slot.step_ne rfl).symm (cons_congr (Slot.step_ne rfl).symm (cons_congr (Slot.step_ne rfl).symm (cons_congr (Slot.step_ne rfl).symm (cons_congr (Slot.step_ne rfl).symm (cons_congr (Slot.step_ne rfl).symm (cons_congr (Slot.step_ne rfl).symm (cons_congr (Slot.step_ne rfl).symm (cons_congr (Slot.step_ne rfl).symm (cons_congr ?_ ((Schema.step_other rfl rfl).symm)))))))))))))))))))))))))))))))), ?_⟩
    all_goals first | exact hi | msg_field | (simp_all [St.Inv]; done)
  case PrivateExtension j =>
    simp only [step]
    all_goals refine ⟨cons_congr (Slot.step_ne rfl).symm (cons_congr (Slot.step_ne rfl).symm (cons_congr (Slot.step_ne rfl).symm (cons_congr (Slot.step_ne rfl).symm (cons_congr (Slot.step_ne rfl).symm (cons_congr (Slot.step_ne rfl).symm (cons_congr (Slot.step_ne rfl).symm (cons_congr (Slot.step_ne rfl).symm (cons_congr (Slot.step_ne rfl).symm (cons_congr (Slot.step_ne rfl).symm (cons_congr (Slot.step_ne rfl).symm (cons_congr (Slot.step_ne rfl).symm (cons_congr (Slot.step_ne rfl).symm (cons_congr (Slot.step_ne rfl).symm (cons_congr (Slot.step_ne rfl).symm (cons_congr (Slot.step_ne rfl).symm (cons_congr (Slot.step_ne rfl).symm (cons_congr (Slot.step_ne rfl).symm (cons_congr (Slot.step_ne rfl).symm (cons_congr (Slot.step_ne rfl).symm (cons_congr (Slot.step_ne rfl).symm (cons_congr (Slot.step_ne rfl).symm (cons_congr (Slot.step_ne rfl).symm (cons_congr (Slot.step_ne rfl).symm (cons_congr (Slot.step_ne rfl).symm (cons_congr (Slot.step_ne rfl).symm (cons_congr (Slot.step_ne rfl).symm (cons_congr (Slot.step_ne rfl).symm (cons_congr (Slot.step_ne rfl).symm (cons_congr (Slot.step_ne rfl).symm (cons_congr (Slot.step_ne rfl).symm (cons_congr (Slot.step_ne rfl).symm (cons_congr ?_ (rfl))))))))))))))))))))))))))))))))), ?_⟩
    all_goals first | exact hi | msg_field | (simp_all [St.Inv]; done)
  all_goals exact ⟨(Schema.step_other rfl rfl).symm, hi⟩

theorem loop (h : Header) (els : List IE) :
    (els.foldl step ⟨{ dflt with header := h }⟩).view = schema.map (·.select els) ∧ (els.foldl step ⟨{ dflt with header := h }⟩).Inv h := by
  have := foldl_view (Q := fun _ => True) (fun s e hp _ => step_view h s e hp) els ⟨{ dflt with header := h }⟩ (fun _ _ => trivial) (by simp [St.Inv])
  rw [show St.view ⟨{ dflt with header := h }⟩ = schema.map (fun _ => []) from rfl, Schema.foldl_nil] at this
  exact this

theorem ext {x y : ModifyBearerRequest} (hh : x.header = y.header) (h : fields x = fields y) : x = y := by
  cases x; cases y
  simp only at hh
  subst hh
  injection h with h0 h
  cases optV_inj (fun _ _ h => IE.Mei.inj h) h0
  injection h with h1 h
  cases optV_inj (fun _ _ h => IE.Uli.inj h) h1
  injection h with h2 h
  cases optV_inj (fun _ _ h => IE.ServingNetwork.inj h) h2
  injection h with h3 h
  cases optV_inj (fun _ _ h => IE.RatType.inj h) h3
  injection h with h4 h
  cases optV_inj (fun _ _ h => IE.Indication.inj h) h4
  injection h with h5 h
  cases optV_inj (fun _ _ h => IE.Fteid.inj h) h5
  injection h with h6 h
  cases optV_inj (fun _ _ h => IE.ApnAmbr.inj h) h6
  injection h with h7 h
  cases optV_inj (fun _ _ h => IE.DelayValue.inj h) h7
  injection h with h8 h
  cases map_inj (fun _ _ h => IE.BearerContext.inj h) h8
  injection h with h9 h
  cases optV_inj (fun _ _ h => IE.Recovery.inj h) h9
  injection h with h10 h
  cases optV_inj (fun _ _ h => IE.UeTimeZone.inj h) h10
  injection h with h11 h
  cases optV_inj (fun _ _ h => IE.Fqcsid.inj h) h11
  injection h with h12 h
  cases optV_inj (fun _ _ h => IE.Fqcsid.inj h) h12
  injection h with h13 h
  cases optV_inj (fun _ _ h => IE.Uci.inj h) h13
  injection h with h14 h
  cases optV_inj (fun _ _ h => IE.IpAddress.inj h) h14
  injection h with h15 h
  cases optV_inj (fun _ _ h => IE.PortNumber.inj h) h15
  injection h with h16 h
  cases optV_inj (fun _ _ h => IE.Ldn.inj h) h16
  injection h with h17 h
  cases optV_inj (fun _ _ h => IE.Ldn.inj h) h17
  injection h with h18 h
  cases optV_inj (fun _ _ h => IE.IpAddress.inj h) h18
  injection h with h19 h
  cases optV_inj (fun _ _ h => IE.PortNumber.inj h) h19
  injection h with h20 h
  cases optV_inj (fun _ _ h => IE.IpAddress.inj h) h20
  injection h with h21 h
  cases optV_inj (fun _ _ h => IE.CnOperatorSelectionEntity.inj h) h21
  injection h with h22 h
  cases optV_inj (fun _ _ h => IE.PresenceReportingAreaInformation.inj h) h22
  injection h with h23 h
  cases map_inj (fun _ _ h => IE.OverloadControlInfo.inj h) h23
  injection h with h24 h
  cases optV_inj (fun _ _ h => IE.ServingPlmnRateControl.inj h) h24
  injection h with h25 h
  cases optV_inj (fun _ _ h => IE.Counter.inj h) h25
  injection h with h26 h
  cases optV_inj (fun _ _ h => IE.Imsi.inj h) h26
  injection h with h27 h
  cases optV_inj (fun _ _ h => IE.Uli.inj h) h27
  injection h with h28 h
  cases optV_inj (fun _ _ h => IE.TwanId.inj h) h28
  injection h with h29 h
  cases optV_inj (fun _ _ h => IE.TwanIdTimeStamp.inj h) h29
  injection h with h30 h
  cases map_inj (fun _ _ h => IE.SecondaryRatUsageDataReport.inj h) h30
  injection h with h31 h
  cases optV_inj (fun _ _ h => IE.PSCellId.inj h) h31
  injection h with h32 h
  cases map_inj (fun _ _ h => IE.PrivateExtension.inj h) h32
  rfl

theorem mand : schema.filter (·.card.mandatory) = [] := rfl

/-- The flags tell which mandatory IEs are absent. -/
theorem flags (h : Header) (els : List IE) : ∃ x , els.foldl step ⟨{ dflt with header := h }⟩ = ⟨x⟩ ∧ St.view ⟨x⟩ = schema.map (·.select els) ∧ x.header = h := by
  obtain ⟨hv, hi⟩ := loop h els
  generalize els.foldl step ⟨{ dflt with header := h }⟩ = s at hv hi ⊢
  obtain ⟨x⟩ := s
  simp only [St.Inv] at hi
  exact ⟨x, rfl, hv, hi⟩

theorem complete (h : Header) (els : List IE) (_hm : schema.missing els = []) : ∃ y, fromvec { dflt with header := h } els = .ok y ∧ y.header = h ∧ fields y = schema.map (·.select els) := by
  obtain ⟨x, hs, hv, hh⟩ := flags h els
  unfold fromvec
  rw [hs]
  exact ⟨x, rfl, hh, hv⟩

theorem describes : Describes codec schema fields where
  header_set _ _ := rfl
  fields_set _ _ := rfl
  ext _ _ hh h := ext hh h
  shape x := Aligned.opt (fun _ => rfl) <| Aligned.opt (fun _ => rfl) <| Aligned.opt (fun _ => rfl) <| Aligned.opt (fun _ => rfl) <| Aligned.opt (fun _ => rfl) <| Aligned.opt (fun _ => rfl) <| Aligned.opt (fun _ => rfl) <| Aligned.opt (fun _ => rfl) <| Aligned.many (fun _ => rfl) <| Aligned.opt (fun _ => rfl) <| Aligned.opt (fun _ => rfl) <| Aligned.opt (fun _ => rfl) <| Aligned.opt (fun _ => rfl) <| Aligned.opt (fun _ => rfl) <| Aligned.opt (fun _ => rfl) <| Aligned.opt (fun _ => rfl) <| Aligned.opt (fun _ => rfl) <| Aligned.opt (fun _ => rfl) <| Aligned.opt (fun _ => rfl) <| Aligned.opt (fun _ => rfl) <| Aligned.opt (fun _ => rfl) <| Aligned.opt (fun _ => rfl) <| Aligned.opt (fun _ => rfl) <| Aligned.many (fun _ => rfl) <| Aligned.opt (fun _ => rfl) <| Aligned.opt (fun _ => rfl) <| Aligned.opt (fun _ => rfl) <| Aligned.opt (fun _ => rfl) <| Aligned.opt (fun _ => rfl) <| Aligned.opt (fun _ => rfl) <| Aligned.many (fun _ => rfl) <| Aligned.opt (fun _ => rfl) <| Aligned.many (fun _ => rfl) <| trivial
  tovec x := by simp [codec, tovec, fields]
  complete h els _ hm := complete h els hm

end ModifyBearerRequest

/-- `ModifyBearerResponse` (modifybearerresp.rs:15-40). -/
structure ModifyBearerResponse where
  header : Header
  cause : V2.Cause
  msisdn : Option V2.Msisdn
  linked_ebi : Option V2.Ebi
  apn_restriction : Option V2.ApnRestriction
  pco : Option V2.Pco
  bearer_ctxs : List V2.BearerContext
  cra : Option V2.ChangeReportingAction
  csg_ira : Option V2.CSGInformationReportingAction
  henb_info_report : Option V2.HenbInfoReporting
  charging_gw_name : Option V2.Fqdn
  charging_gw_ip : Option V2.IpAddress
  pgw_fqcsid : Option V2.Fqcsid
  sgw_fqcsid : Option V2.Fqcsid
  recovery : Option V2.Recovery
  sgw_ldn : Option V2.Ldn
  pgw_ldn : Option V2.Ldn
  indication : Option V2.Indication
  praa : Option V2.PresenceReportingAreaAction
  load_control : List V2.LoadControl
  overload_info : List V2.OverloadControlInfo
  charging_id : Option V2.ChargingId
  pgw_change_info : Option V2.PgwChangeInfo
  private_ext : List V2.PrivateExtension
deriving DecidableEq

namespace ModifyBearerResponse

/-- `default` (modifybearerresp.rs:43-75). -/
def dflt : ModifyBearerResponse :=
  { header := { Header.default with msgtype := 35, teid := some 0 }, cause := V2.Cause.dflt, msisdn := none, linked_ebi := none, apn_restriction := none, pco := none, bearer_ctxs := [], cra := none, csg_ira := none, henb_info_report := none, charging_gw_name := none, charging_gw_ip := none, pgw_fqcsid := none, sgw_fqcsid := none, recovery := none, sgw_ldn := none, pgw_ldn := none, indication := none, praa := none, load_control := [], overload_info := [], charging_id := none, pgw_change_info := none, private_ext := [] }

/-- `tovec` (modifybearerresp.rs:112-206). -/
def tovec (x : ModifyBearerResponse) : List IE :=
  [.Cause x.cause] ++ (
  optV .Msisdn x.msisdn ++ (
  optV .Ebi x.linked_ebi ++ (
  optV .ApnRestriction x.apn_restriction ++ (
  optV .Pco x.pco ++ (
  x.bearer_ctxs.map .BearerContext ++ (
  optV .ChangeReportingAction x.cra ++ (
  optV .CSGInformationReportingAction x.csg_ira ++ (
  optV .HenbInfoReporting x.henb_info_report ++ (
  optV .Fqdn x.charging_gw_name ++ (
  optV .IpAddress x.charging_gw_ip ++ (
  optV .Fqcsid x.pgw_fqcsid ++ (
  optV .Fqcsid x.sgw_fqcsid ++ (
  optV .Recovery x.recovery ++ (
  optV .Ldn x.sgw_ldn ++ (
  optV .Ldn x.pgw_ldn ++ (
  optV .Indication x.indication ++ (
  optV .PresenceReportingAreaAction x.praa ++ (
  x.load_control.map .LoadControlInfo ++ (
  x.overload_info.map .OverloadControlInfo ++ (
  optV .ChargingId x.charging_id ++ (
  optV .PgwChangeInfo x.pgw_change_info ++ (
  x.private_ext.map .PrivateExtension))))))))))))))))))))))

/-- The variables of `fromvec`: the message and the array `mandatory` (modifybearerresp.rs:208-327). -/
structure St where
  x : ModifyBearerResponse
  m0 : Bool

/-- One turn of the loop of `fromvec` (modifybearerresp.rs:208-327). -/
def step (s : St) : IE → St
  | .Cause j => if j.ins = 0 ∧ s.m0 = false then { s with x := { s.x with cause := j }, m0 := true } else s
  | .Msisdn j => if j.ins = 0 ∧ s.x.msisdn.isNone = true then { s with x := { s.x with msisdn := some j } } else s
  | .Ebi j => if j.ins = 0 ∧ s.x.linked_ebi.isNone = true then { s with x := { s.x with linked_ebi := some j } } else s
  | .ApnRestriction j => if j.ins = 0 ∧ s.x.apn_restriction.isNone = true then { s with x := { s.x with apn_restriction := some j } } else s
  | .Pco j => if j.ins = 0 ∧ s.x.pco.isNone = true then { s with x := { s.x with pco := some j } } else s
  | .BearerContext j => if j.ins < 2 then { s with x := { s.x with bearer_ctxs := s.x.bearer_ctxs ++ [j] } } else s
  | .ChangeReportingAction j => if j.ins = 0 ∧ s.x.cra.isNone = true then { s with x := { s.x with cra := some j } } else s
  | .CSGInformationReportingAction j => if j.ins = 0 ∧ s.x.csg_ira.isNone = true then { s with x := { s.x with csg_ira := some j } } else s
  | .HenbInfoReporting j => if j.ins = 0 ∧ s.x.henb_info_report.isNone = true then { s with x := { s.x with henb_info_report := some j } } else s
  | .Fqdn j => if j.ins = 0 ∧ s.x.charging_gw_name.isNone = true then { s with x := { s.x with charging_gw_name := some j } } else s
  | .IpAddress j => if j.ins = 0 ∧ s.x.charging_gw_ip.isNone = true then { s with x := { s.x with charging_gw_ip := some j } } else s
  | .Fqcsid j => if j.ins = 0 ∧ s.x.pgw_fqcsid.isNone = true then { s with x := { s.x with pgw_fqcsid := some j } } else if j.ins = 1 ∧ s.x.sgw_fqcsid.isNone = true then { s with x := { s.x with sgw_fqcsid := some j } } else s
  | .Recovery j => if j.ins = 0 ∧ s.x.recovery.isNone = true then { s with x := { s.x with recovery := some j } } else s
  | .Ldn j => if j.ins = 0 ∧ s.x.sgw_ldn.isNone = true then { s with x := { s.x with sgw_ldn := some j } } else if j.ins = 1 ∧ s.x.pgw_ldn.isNone = true then { s with x := { s.x with pgw_ldn := some j } } else s
  | .Indication j => if j.ins = 0 ∧ s.x.indication.isNone = true then { s with x := { s.x with indication := some j } } else s
  | .PresenceReportingAreaAction j => if j.ins = 0 ∧ s.x.praa.isNone = true then { s with x := { s.x with praa := some j } } else s
  | .LoadControlInfo j => if j.ins < 3 then { s with x := { s.x with load_control := s.x.load_control ++ [j] } } else s
  | .OverloadControlInfo j => if j.ins < 2 then { s with x := { s.x with overload_info := s.x.overload_info ++ [j] } } else s
  | .ChargingId j => if j.ins = 0 ∧ s.x.charging_id.isNone = true then { s with x := { s.x with charging_id := some j } } else s
  | .PgwChangeInfo j => if j.ins = 0 ∧ s.x.pgw_change_info.isNone = true then { s with x := { s.x with pgw_change_info := some j } } else s
  | .PrivateExtension j => { s with x := { s.x with private_ext := s.x.private_ext ++ [j] } }
  | _ => s

/-- The end of `fromvec` (modifybearerresp.rs:208-327). -/
def finish (s : St) : R Err ModifyBearerResponse :=
  if s.m0 then .ok s.x else .err (.messageMandatoryIEMissing 2)

/-- `fromvec` (modifybearerresp.rs:208-327). -/
def fromvec (x : ModifyBearerResponse) (els : List IE) : R Err ModifyBearerResponse := finish (els.foldl step ⟨x, false⟩)

/-- The message type (modifybearerresp.rs:79-110). -/
def codec : Codec ModifyBearerResponse :=
  { msgtype := 35, start := some 12, dflt, header := header, setHeader := fun x h => { x with header := h }, tovec, fromvec }

/-- One slot per field. -/
def schema : Schema :=
  [⟨.Cause, .is 0, .one⟩,
   ⟨.Msisdn, .is 0, .opt⟩,
   ⟨.Ebi, .is 0, .opt⟩,
   ⟨.ApnRestriction, .is 0, .opt⟩,
   ⟨.Pco, .is 0, .opt⟩,
   ⟨.BearerContext, .lt 2, .many⟩,
   ⟨.ChangeReportingAction, .is 0, .opt⟩,
   ⟨.CSGInformationReportingAction, .is 0, .opt⟩,
   ⟨.HenbInfoReporting, .is 0, .opt⟩,
   ⟨.Fqdn, .is 0, .opt⟩,
   ⟨.IpAddress, .is 0, .opt⟩,
   ⟨.Fqcsid, .is 0, .opt⟩,
   ⟨.Fqcsid, .is 1, .opt⟩,
   ⟨.Recovery, .is 0, .opt⟩,
   ⟨.Ldn, .is 0, .opt⟩,
   ⟨.Ldn, .is 1, .opt⟩,
   ⟨.Indication, .is 0, .opt⟩,
   ⟨.PresenceReportingAreaAction, .is 0, .opt⟩,
   ⟨.LoadControlInfo, .lt 3, .many⟩,
   ⟨.OverloadControlInfo, .lt 2, .many⟩,
   ⟨.ChargingId, .is 0, .opt⟩,
   ⟨.PgwChangeInfo, .is 0, .opt⟩,
   ⟨.PrivateExtension, .any, .many⟩]

/-- The fields as lists of IEs. -/
def fields (x : ModifyBearerResponse) : List (List IE) :=
  [[.Cause x.cause],
   optV .Msisdn x.msisdn,
   optV .Ebi x.linked_ebi,
   optV .ApnRestriction x.apn_restriction,
   optV .Pco x.pco,
   x.bearer_ctxs.map .BearerContext,
   optV .ChangeReportingAction x.cra,
   optV .CSGInformationReportingAction x.csg_ira,
   optV .HenbInfoReporting x.henb_info_report,
   optV .Fqdn x.charging_gw_name,
   optV .IpAddress x.charging_gw_ip,
   optV .Fqcsid x.pgw_fqcsid,
   optV .Fqcsid x.sgw_fqcsid,
   optV .Recovery x.recovery,
   optV .Ldn x.sgw_ldn,
   optV .Ldn x.pgw_ldn,
   optV .Indication x.indication,
   optV .PresenceReportingAreaAction x.praa,
   x.load_control.map .LoadControlInfo,
   x.overload_info.map .OverloadControlInfo,
   optV .ChargingId x.charging_id,
   optV .PgwChangeInfo x.pgw_change_info,
   x.private_ext.map .PrivateExtension]

/-- What the state has collected so far. -/
def St.view (s : St) : List (List IE) :=
  [if s.m0 then [.Cause s.x.cause] else [],
   optV .Msisdn s.x.msisdn,
   optV .Ebi s.x.linked_ebi,
   optV .ApnRestriction s.x.apn_restriction,
   optV .Pco s.x.pco,
   s.x.bearer_ctxs.map .BearerContext,
   optV .ChangeReportingAction s.x.cra,
   optV .CSGInformationReportingAction s.x.csg_ira,
   optV .HenbInfoReporting s.x.henb_info_report,
   optV .Fqdn s.x.charging_gw_name,
   optV .IpAddress s.x.charging_gw_ip,
   optV .Fqcsid s.x.pgw_fqcsid,
   optV .Fqcsid s.x.sgw_fqcsid,
   optV .Recovery s.x.recovery,
   optV .Ldn s.x.sgw_ldn,
   optV .Ldn s.x.pgw_ldn,
   optV .Indication s.x.indication,
   optV .PresenceReportingAreaAction s.x.praa,
   s.x.load_control.map .LoadControlInfo,
   s.x.overload_info.map .OverloadControlInfo,
   optV .ChargingId s.x.charging_id,
   optV .PgwChangeInfo s.x.pgw_change_info,
   s.x.private_ext.map .PrivateExtension]

/-- The header is left alone; flags of mandatory lists tell whether the list is empty. -/
def St.Inv (h : Header) (s : St) : Prop :=
  s.x.header = h

theorem step_view (h : Header) (s : St) (e : IE) (hi : s.Inv h) : (step s e).view = Schema.step schema s.view e ∧ (step s e).Inv h := by
  cases e
  case Cause j =>
    simp only [step]
    repeat' split
    all_goals refine ⟨cons_congr ?_ ((Schema.step_other rfl rfl).symm), ?_⟩
    all_goals first | exact hi | msg_field | (simp_all [St.Inv]; done)
  case Msisdn j =>
    simp only [step]
    repeat' split
    all_goals refine ⟨cons_congr (Slot.step_ne rfl).symm (cons_congr ?_ ((Schema.step_other rfl rfl).symm)), ?_⟩
    all_goals first | exact hi | msg_field | (simp_all [St.Inv]; done)
  case Ebi j =>
    simp only [step]
    repeat' split
    all_goals refine ⟨cons_congr (Slot.step_ne rfl).symm (cons_congr (Slot.step_ne rfl).symm (cons_congr ?_ ((Schema.step_other rfl rfl).symm))), ?_⟩
    all_goals first | exact hi | msg_field | (simp_all [St.Inv]; done)
  case ApnRestriction j =>
    simp only [step]
    repeat' split
    all_goals refine ⟨cons_congr (Slot.step_ne rfl).symm (cons_congr (Slot.step_ne rfl).symm (cons_congr (Slot.step_ne rfl).symm (cons_congr ?_ ((Schema.step_other rfl rfl).symm)))), ?_⟩
    all_goals first | exact hi | msg_field | (simp_all [St.Inv]; done)
  case Pco j =>
    simp only [step]
    repeat' split
    all_goals refine ⟨cons_congr (Slot.step_ne rfl).symm (cons_congr (Slot.step_ne rfl).symm (cons_congr (Slot.step_ne rfl).symm (cons_congr (Slot.step_ne rfl).symm (cons_congr ?_ ((Schema.step_other rfl rfl).symm))))), ?_⟩
    all_goals first | exact hi | msg_field | (simp_all [St.Inv]; done)
  case BearerContext j =>
    simp only [step]
    repeat' split
    all_goals refine ⟨cons_congr (Slot.step_ne rfl).symm (cons_congr (Slot.step_ne rfl).symm (cons_congr (Slot.step_ne rfl).symm (cons_congr (Slot.step_ne rfl).symm (cons_congr (Slot.step_ne rfl).symm (cons_congr ?_ ((Schema.step_other rfl rfl).symm)))))), ?_⟩
    all_goals first | exact hi | msg_field | (simp_all [St.Inv]; done)
  case ChangeReportingAction j =>
    simp only [step]
    repeat' split
    all_goals refine ⟨cons_congr (Slot.step_ne rfl).symm (cons_congr (Slot.step_ne rfl).symm (cons_congr (Slot.step_ne rfl).symm (cons_congr (Slot.step_ne rfl).symm (cons_congr (Slot.step_ne rfl).symm (cons_congr (Slot.step_ne rfl).symm (cons_congr ?_ ((Schema.step_other rfl rfl).symm))))))), ?_⟩
    all_goals first | exact hi | msg_field | (simp_all [St.Inv]; done)
  case CSGInformationReportingAction j =>
    simp only [step]
    repeat' split
    all_goals refine ⟨cons_congr (Slot.step_ne rfl).symm (cons_congr (Slot.step_ne rfl).symm (cons_congr (Slot.step_ne rfl).symm (cons_congr (Slot.step_ne rfl).symm (cons_congr (Slot.step_ne rfl).symm (cons_congr (Slot.step_ne rfl).symm (cons_congr (Slot.step_ne rfl).symm (cons_congr ?_ ((Schema.step_other rfl rfl).symm)))))))), ?_⟩
    all_goals first | exact hi | msg_field | (simp_all [St.Inv]; done)
  case HenbInfoReporting j =>
    simp only [step]
    repeat' split
    all_goals refine ⟨cons_congr (Slot.step_ne rfl).symm (cons_congr (Slot.step_ne rfl).symm (cons_congr (Slot.step_ne rfl).symm (cons_congr (Slot.step_ne rfl).symm (cons_congr (Slot.step_ne rfl).symm (cons_congr (Slot.step_ne rfl).symm (cons_congr (Slot.step_ne rfl).symm (cons_congr (Slot.step_ne rfl).symm (cons_congr ?_ ((Schema.step_other rfl rfl).symm))))))))), ?_⟩
    all_goals first | exact hi | msg_field | (simp_all [St.Inv]; done)
  case Fqdn j =>
    simp only [step]
    repeat' split
    all_goals refine ⟨cons_congr (Slot.step_ne rfl).symm (cons_congr (Slot.step_ne rfl).symm (cons_congr (Slot.step_ne rfl).symm (cons_congr (Slot.step_ne rfl).symm (cons_congr (Slot.step_ne rfl).symm (cons_congr (Slot.step_ne rfl).symm (cons_congr (Slot.step_ne rfl).symm (cons_congr (Slot.step_ne rfl).symm (cons_congr (Slot.step_ne rfl).symm (cons_congr ?_ ((Schema.step_other rfl rfl).symm)))))))))), ?_⟩
    all_goals first | exact hi | msg_field | (simp_all [St.Inv]; done)
  case IpAddress j =>
    simp only [step]
    repeat' split
    all_goals refine ⟨cons_congr (Slot.step_ne rfl).symm (cons_congr (Slot.step_ne rfl).symm (cons_congr (Slot.step_ne rfl).symm (cons_congr (Slot.step_ne rfl).symm (cons_congr (Slot.step_ne rfl).symm (cons_congr (Slot.step_ne rfl).symm (cons_congr (Slot.step_ne rfl).symm (cons_congr (Slot.step_ne rfl).symm (cons_congr (Slot.step_ne rfl).symm (cons_congr (Slot.step_ne rfl).symm (cons_congr ?_ ((Schema.step_other rfl rfl).symm))))))))))), ?_⟩
    all_goals first | exact hi | msg_field | (simp_all [St.Inv]; done)
  case Fqcsid j =>
    simp only [step]
    repeat' split
    all_goals refine ⟨cons_congr (Slot.step_ne rfl).symm (cons_congr (Slot.step_ne rfl).symm (cons_congr (Slot.step_ne rfl).symm (cons_congr (Slot.step_ne rfl).symm (cons_congr (Slot.step_ne rfl).symm (cons_congr (Slot.step_ne rfl).symm (cons_congr (Slot.step_ne rfl).symm (cons_congr (Slot.step_ne rfl).symm (cons_congr (Slot.step_ne rfl).symm (cons_congr (Slot.step_ne rfl).symm (cons_congr (Slot.step_ne rfl).symm (cons_congr ?_ (cons_congr ?_ ((Schema.step_other rfl rfl).symm))))))))))))), ?_⟩
    all_goals first | exact hi | msg_field | (simp_all [St.Inv]; done)
  case Recovery j =>
    simp only [step]
    repeat' split
    all_goals refine ⟨cons_congr (Slot.step_ne rfl).symm (cons_congr (Slot.step_ne rfl).symm (cons_congr (Slot.step_ne rfl).symm (cons_congr (Slot.step_ne rfl).symm (cons_congr (Slot.step_ne rfl).symm (cons_congr (Slot.step_ne rfl).symm (cons_congr (Slot.step_ne rfl).symm (cons_congr (Slot.step_ne rfl).symm (cons_congr (Slot.step_ne rfl).symm (cons_congr (Slot.step_ne rfl).symm (cons_congr (Slot.step_ne rfl).symm (cons_congr (Slot.step_ne rfl).symm (cons_congr (Slot.step_ne rfl).symm (cons_congr ?_ ((Schema.step_other rfl rfl).symm)))))))))))))), ?_⟩
    all_goals first | exact hi | msg_field | (simp_all [St.Inv]; done)
  case Ldn j =>
    simp only [step]
    repeat' split
    all_goals refine ⟨cons_congr (Slot.step_ne rfl).symm (cons_congr (Slot.step_ne rfl).symm (cons_congr (Slot.step_ne rfl).symm (cons_congr (Slot.step_ne rfl).symm (cons_congr (Slot.step_ne rfl).symm (cons_congr (Slot.step_ne rfl).symm (cons_congr (Slot.step_ne rfl).symm (cons_congr (Slot.step_ne rfl).symm (cons_congr (Slot.step_ne rfl).symm (cons_congr (Slot.step_ne rfl).symm (cons_congr (Slot.step_ne rfl).symm (cons_congr (Slot.step_ne rfl).symm (cons_congr (Slot.step_ne rfl).symm (cons_congr (Slot.step_ne rfl).symm (cons_congr ?_ (cons_congr ?_ ((Schema.step_other rfl rfl).symm)))))))))))))))), ?_⟩
    all_goals first | exact hi | msg_field | (simp_all [St.Inv]; done)
  case Indication j =>
    simp only [step]
    repeat' split
    all_goals refine ⟨cons_congr (Slot.step_ne rfl).symm (cons_congr (Slot.step_ne rfl).symm (cons_congr (Slot.step_ne rfl).symm (cons_congr (Slot.step_ne rfl).symm (cons_congr (Slot.step_ne rfl).symm (cons_congr (Slot.step_ne rfl).symm (cons_congr (Slot.step_ne rfl).symm (cons_congr (Slot.step_ne rfl).symm (cons_congr (Slot.step_ne rfl).symm (cons_congr (Slot.step_ne rfl).symm (cons_congr (Slot.step_ne rfl).symm (cons_congr (Slot.step_ne rfl).symm (cons_congr (Slot.step_ne rfl).symm (cons_congr (Slot.step_ne rfl).symm (cons_congr (Slot.step_ne rfl).symm (cons_congr (Slot.step_ne rfl).symm (cons_congr ?_ ((Schema.step_other rfl rfl).symm))))))))))))))))), ?_⟩
    all_goals first | exact hi | msg_field | (simp_all [St.Inv]; done)
  case PresenceReportingAreaAction j =>
    simp only [step]
    repeat' split
    all_goals refine ⟨cons_congr (Slot.step_ne rfl).symm (cons_congr (Slot.step_ne rfl).symm (cons_congr (Slot.step_ne rfl).symm (cons_congr (Slot.step_ne rfl).symm (cons_congr (Slot.step_ne rfl).symm (cons_congr (Slot.step_ne rfl).symm (cons_congr (Slot.step_ne rfl).symm (cons_congr (Slot.step_ne rfl).symm (cons_congr (Slot.step_ne rfl).symm (cons_congr (Slot.step_ne rfl).symm (cons_congr (Slot.step_ne rfl).symm (cons_congr (Slot.step_ne rfl).symm (cons_congr (Slot.step_ne rfl).symm (cons_congr (Slot.step_ne rfl).symm (cons_congr (Slot.step_ne rfl).symm (cons_congr (Slot.step_ne rfl).symm (cons_congr (Slot.step_ne rfl).symm (cons_congr ?_ ((Schema.step_other rfl rfl).symm)))))))))))))))))), ?_⟩
    all_goals first | exact hi | msg_field | (simp_all [St.Inv]; done)
  case LoadControlInfo j =>
    simp only [step]
    repeat' split
    all_goals refine ⟨cons_congr (Slot.step_ne rfl).symm (cons_congr (Slot.step_ne rfl).symm (cons_congr (Slot.step_ne rfl).symm (cons_congr (Slot.step_ne rfl).symm (cons_congr (Slot.step_ne rfl).symm (cons_congr (Slot.step_ne rfl).symm (cons_congr (Slot.step_ne rfl).symm (cons_congr (Slot.step_ne rfl).symm (cons_congr (Slot.step_ne rfl).symm (cons_congr (Slot.step_ne rfl).symm (cons_congr (Slot.step_ne rfl).symm (cons_congr (Slot.step_ne rfl).symm (cons_congr (Slot.step_ne rfl).symm (cons_congr (Slot.step_ne rfl).symm (cons_congr (Slot.step_ne rfl).symm (cons_congr (Slot.step_ne rfl).symm (cons_congr (Slot.step_ne rfl).symm (cons_congr (Slot.step_ne rfl).symm (cons_congr ?_ ((Schema.step_other rfl rfl).symm))))))))))))))))))), ?_⟩
    all_goals first | exact hi | msg_field | (simp_all [St.Inv]; done)
  case OverloadControlInfo j =>
    simp only [step]
    repeat' split
    all_goals refine ⟨cons_congr (Slot.step_ne rfl).symm (cons_congr (Slot.step_ne rfl).symm (cons_congr (Slot.step_ne rfl).symm (cons_congr (Slot.step_ne rfl).symm (cons_congr (Slot.step_ne rfl).symm (cons_congr (Slot.step_ne rfl).symm (cons_congr (Slot.step_ne rfl).symm (cons_congr (Slot.step_ne rfl).symm (cons_congr (Slot.step_ne rfl).symm (cons_congr (Slot.step_ne rfl).symm (cons_congr (Slot.step_ne rfl).symm (cons_congr (Slot.step_ne rfl).symm (cons_congr (Slot.step_ne rfl).symm (cons_congr (Slot.step_ne rfl).symm (cons_congr (Slot.step_ne rfl).symm (cons_congr (Slot.step_ne rfl).symm (cons_congr (Slot.step_ne rfl).symm (cons_congr (Slot.step_ne rfl).symm (cons_congr (Slot.step_ne rfl).symm (cons_congr ?_ ((Schema.step_other rfl rfl).symm)))))))))))))))))))), ?_⟩
    all_goals first | exact hi | msg_field | (simp_all [St.Inv]; done)
  case ChargingId j =>
    simp only [step]
    repeat' split
    all_goals refine ⟨cons_congr (Slot.step_ne rfl).symm (cons_congr (Slot.step_ne rfl).symm (cons_congr (Slot.step_ne rfl).symm (cons_congr (Slot.step_ne rfl).symm (cons_congr (Slot.step_ne rfl).symm (cons_congr (Slot.step_ne rfl).symm (cons_congr (Slot.step_ne rfl).symm (cons_congr (Slot.step_ne rfl).symm (cons_congr (Slot.step_ne rfl).symm (cons_congr (Slot.step_ne rfl).symm (cons_congr (Slot.step_ne rfl).symm (cons_congr (Slot.step_ne rfl).symm (cons_congr (Slot.step_ne rfl).symm (cons_congr (Slot.step_ne rfl).symm (cons_congr (Slot.step_ne rfl).symm (cons_congr (Slot.step_ne rfl).symm (cons_congr (Slot.step_ne rfl).symm (cons_congr (Slot.step_ne rfl).symm (cons_congr (Slot.step_ne rfl).symm (cons_congr (Slot.step_ne rfl).symm (cons_congr ?_ ((Schema.step_other rfl rfl).symm))))))))))))))))))))), ?_⟩
    all_goals first | exact hi | msg_field | (simp_all [St.Inv]; done)
  case PgwChangeInfo j =>
    simp only [step]
    repeat' split
    all_goals refine ⟨cons_congr (Slot.step_ne rfl).symm (cons_congr (Slot.step_ne rfl).symm (cons_congr (Slot.step_ne rfl).symm (cons_congr (Slot.step_ne rfl).symm (cons_congr (Slot.step_ne rfl).symm (cons_congr (Slot.step_ne rfl).symm (cons_congr (Slot.step_ne rfl).symm (cons_congr (Slot.step_ne rfl).symm (cons_congr (Slot.step_ne rfl).symm (cons_congr (Slot.step_ne rfl).symm (cons_congr (Slot.step_ne rfl).symm (cons_congr (Slot.step_ne rfl).symm (cons_congr (Slot.step_ne rfl).symm (cons_congr (Slot.step_ne rfl).symm (cons_congr (Slot.step_ne rfl).symm (cons_congr (Slot.step_ne rfl).symm (cons_congr (Slot.step_ne rfl).symm (cons_congr (Slot.step_ne rfl).symm (cons_congr (Slot.step_ne rfl).symm (cons_congr (Slot.step_ne rfl).symm (cons_congr (Slot.step_ne rfl).symm (cons_congr ?_ ((Schema.step_other rfl rfl).symm)))))))))))))))))))))), ?_⟩
    all_goals first | exact hi | msg_field | (simp_all [St.Inv]; done)
  case PrivateExtension j =>
    simp only [step]
    all_goals refine ⟨cons_congr (Slot.step_ne rfl).symm (cons_congr (Slot.step_ne rfl).symm (cons_congr (Slot.step_ne rfl).symm (cons_congr (Slot.step_ne rfl).symm (cons_congr (Slot.step_ne rfl).symm (cons_congr (Slot.step_ne rfl).symm (cons_congr (Slot.step_ne rfl).symm (cons_congr (Slot.step_ne rfl).symm (cons_congr (Slot.step_ne rfl).symm (cons_congr (Slot.step_ne rfl).symm (cons_congr (Slot.step_ne rfl).symm (cons_congr (Slot.step_ne rfl).symm (cons_congr (Slot.step_ne rfl).symm (cons_congr (Slot.step_ne rfl).symm (cons_congr (Slot.step_ne rfl).symm (cons_congr (Slot.step_ne rfl).symm (cons_congr (Slot.step_ne rfl).symm (cons_congr (Slot.step_ne rfl).symm (cons_congr (Slot.step_ne rfl).symm (cons_congr (Slot.step_ne rfl).symm (cons_congr (Slot.step_ne rfl).symm (cons_congr (Slot.step_ne rfl).symm (cons_congr ?_ (rfl))))))))))))))))))))))), ?_⟩
    all_goals first | exact hi | msg_field | (simp_all [St.Inv]; done)
  all_goals exact ⟨(Schema.step_other rfl rfl).symm, hi⟩

theorem loop (h : Header) (els : List IE) :
    (els.foldl step ⟨{ dflt with header := h }, false⟩).view = schema.map (·.select els) ∧ (els.foldl step ⟨{ dflt with header := h }, false⟩).Inv h := by
  have := foldl_view (Q := fun _ => True) (fun s e hp _ => step_view h s e hp) els ⟨{ dflt with header := h }, false⟩ (fun _ _ => trivial) (by simp [St.Inv])
  rw [show St.view ⟨{ dflt with header := h }, false⟩ = schema.map (fun _ => []) from rfl, Schema.foldl_nil] at this
  exact this

theorem ext {x y : ModifyBearerResponse} (hh : x.header = y.header) (h : fields x = fields y) : x = y := by
  cases x; cases y
  simp only at hh
  subst hh
  injection h with h0 h
  cases h0
  injection h with h1 h
  cases optV_inj (fun _ _ h => IE.Msisdn.inj h) h1
  injection h with h2 h
  cases optV_inj (fun _ _ h => IE.Ebi.inj h) h2
  injection h with h3 h
  cases optV_inj (fun _ _ h => IE.ApnRestriction.inj h) h3
  injection h with h4 h
  cases optV_inj (fun _ _ h => IE.Pco.inj h) h4
  injection h with h5 h
  cases map_inj (fun _ _ h => IE.BearerContext.inj h) h5
  injection h with h6 h
  cases optV_inj (fun _ _ h => IE.ChangeReportingAction.inj h) h6
  injection h with h7 h
  cases optV_inj (fun _ _ h => IE.CSGInformationReportingAction.inj h) h7
  injection h with h8 h
  cases optV_inj (fun _ _ h => IE.HenbInfoReporting.inj h) h8
  injection h with h9 h
  cases optV_inj (fun _ _ h => IE.Fqdn.inj h) h9
  injection h with h10 h
  cases optV_inj (fun _ _ h => IE.IpAddress.inj h) h10
  injection h with h11 h
  cases optV_inj (fun _ _ h => IE.Fqcsid.inj h) h11
  injection h with h12 h
  cases optV_inj (fun _ _ h => IE.Fqcsid.inj h) h12
  injection h with h13 h
  cases optV_inj (fun _ _ h => IE.Recovery.inj h) h13
  injection h with h14 h
  cases optV_inj (fun _ _ h => IE.Ldn.inj h) h14
  injection h with h15 h
  cases optV_inj (fun _ _ h => IE.Ldn.inj h) h15
  injection h with h16 h
  cases optV_inj (fun _ _ h => IE.Indication.inj h) h16
  injection h with h17 h
  cases optV_inj (fun _ _ h => IE.PresenceReportingAreaAction.inj h) h17
  injection h with h18 h
  cases map_inj (fun _ _ h => IE.LoadControlInfo.inj h) h18
  injection h with h19 h
  cases map_inj (fun _ _ h => IE.OverloadControlInfo.inj h) h19
  injection h with h20 h
  cases optV_inj (fun _ _ h => IE.ChargingId.inj h) h20
  injection h with h21 h
  cases optV_inj (fun _ _ h => IE.PgwChangeInfo.inj h) h21
  injection h with h22 h
  cases map_inj (fun _ _ h => IE.PrivateExtension.inj h) h22
  rfl

theorem mand : schema.filter (·.card.mandatory) = [(⟨.Cause, .is 0, .one⟩ : Slot)] := rfl

/-- The flags tell which mandatory IEs are absent. -/
theorem flags (h : Header) (els : List IE) : ∃ x m0, els.foldl step ⟨{ dflt with header := h }, false⟩ = ⟨x, m0⟩ ∧ St.view ⟨x, m0⟩ = schema.map (·.select els) ∧ x.header = h ∧
    (⟨.Cause, .is 0, .one⟩ : Slot).lacks els = (!m0) := by
  obtain ⟨hv, hi⟩ := loop h els
  generalize els.foldl step ⟨{ dflt with header := h }, false⟩ = s at hv hi ⊢
  obtain ⟨x, m0⟩ := s
  simp only [St.Inv] at hi
  have l0 : (⟨.Cause, .is 0, .one⟩ : Slot).lacks els = (!m0) := by
    rw [Slot.lacks_eq els rfl]
    have e := congrArg (fun l => l.getD 0 []) hv
    rw [show (⟨.Cause, .is 0, .one⟩ : Slot).select els = if m0 then [.Cause x.cause] else [] from e.symm]
    cases m0 <;> rfl
  exact ⟨x, m0, rfl, hv, hi, l0⟩

theorem complete (h : Header) (els : List IE) (hm : schema.missing els = []) : ∃ y, fromvec { dflt with header := h } els = .ok y ∧ y.header = h ∧ fields y = schema.map (·.select els) := by
  obtain ⟨x, m0, hs, hv, hh, l0⟩ := flags h els
  unfold fromvec
  rw [hs]
  dsimp only [finish]
  have f0 := l0.symm.trans (Schema.of_missing_nil mand (by simp) hm)
  cases m0 <;> first | exact ⟨x, rfl, hh, hv⟩ | contradiction

theorem describes : Describes codec schema fields where
  header_set _ _ := rfl
  fields_set _ _ := rfl
  ext _ _ hh h := ext hh h
  shape x := Aligned.one (fun _ => rfl) <| Aligned.opt (fun _ => rfl) <| Aligned.opt (fun _ => rfl) <| Aligned.opt (fun _ => rfl) <| Aligned.opt (fun _ => rfl) <| Aligned.many (fun _ => rfl) <| Aligned.opt (fun _ => rfl) <| Aligned.opt (fun _ => rfl) <| Aligned.opt (fun _ => rfl) <| Aligned.opt (fun _ => rfl) <| Aligned.opt (fun _ => rfl) <| Aligned.opt (fun _ => rfl) <| Aligned.opt (fun _ => rfl) <| Aligned.opt (fun _ => rfl) <| Aligned.opt (fun _ => rfl) <| Aligned.opt (fun _ => rfl) <| Aligned.opt (fun _ => rfl) <| Aligned.opt (fun _ => rfl) <| Aligned.many (fun _ => rfl) <| Aligned.many (fun _ => rfl) <| Aligned.opt (fun _ => rfl) <| Aligned.opt (fun _ => rfl) <| Aligned.many (fun _ => rfl) <| trivial
  tovec x := by simp [codec, tovec, fields]
  complete h els _ hm := complete h els hm

theorem reports (h : Header) (els : List IE) (hm : schema.missing els ≠ []) :
    ∃ s ∈ schema.missing els, ∃ t, fromvec { dflt with header := h } els = .err (.messageMandatoryIEMissing t) ∧ kindOf t = s.kind := by
  obtain ⟨x, m0, hs, hv, hh, l0⟩ := flags h els
  unfold fromvec
  rw [hs]
  dsimp only [finish]
  cases m0 <;>
    first | exact ⟨_, Schema.mem_missing mand (by simp) l0, _, rfl, rfl⟩ | exact absurd (Schema.missing_nil mand (by simp [l0])) hm

theorem settled (h : Header) (els els' : List IE) (he : ∀ s ∈ schema, s.card.mandatory = true → s.lacks els = s.lacks els')
    (hm : schema.missing els ≠ []) : fromvec { dflt with header := h } els = fromvec { dflt with header := h } els' := by
  obtain ⟨x, m0, hs, hv, hh, l0⟩ := flags h els
  obtain ⟨x', m0', hs', hv', hh', l0'⟩ := flags h els'
  unfold fromvec
  rw [hs, hs']
  obtain rfl := Bool.not_inj (l0.symm.trans ((he _ (by decide) rfl).trans l0'))
  dsimp only [finish]
  cases m0 <;>
    first | rfl | exact absurd (Schema.missing_nil mand (by simp [l0])) hm

end ModifyBearerResponse

end Gtp.V2.Msg
