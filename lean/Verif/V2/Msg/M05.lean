import Verif.V2.Msg.Tactic

/-!
# GTPv2-C messages, part 5

Generated by `scripts/gen_msgs.py` from the Rust sources: `DeleteSessionRequest`, `DeleteSessionResponse`, `DetachAcknowledge`, `DetachNotification`, `DownlinkDataNotification`, `DownlinkDataNotificationAcknowledge`, `DownlinkDataNotificationFailureIndication`, `EchoRequest`, `EchoResponse`, `ForwardAccessContextAcknowledge`, `ForwardAccessContextNotification`, `ForwardRelocationCompleteAcknowledge`, `ForwardRelocationCompleteNotification`.
-/

namespace Gtp.V2.Msg

/-- `DeleteSessionRequest` (deletesessionreq.rs:15-39). -/
structure DeleteSessionRequest where
  header : Header
  cause : Option V2.Cause
  linked_ebi : Option V2.Ebi
  uli : Option V2.Uli
  indication : Option V2.Indication
  pco : Option V2.Pco
  orig_node : Option V2.NodeType
  fteid_control : Option V2.Fteid
  uetimezone : Option V2.UeTimeZone
  uli_timestamp : Option V2.UliTimestamp
  ran_nas_cause : Option V2.RanNasCause
  twan_id : Option V2.TwanId
  twan_id_timestamp : Option V2.TwanIdTimeStamp
  overload_info : List V2.OverloadControlInfo
  wlan_loc : Option V2.TwanId
  wlan_loc_timestamp : Option V2.TwanIdTimeStamp
  ue_localip : Option V2.IpAddress
  ue_udpport : Option V2.PortNumber
  epco : Option V2.Epco
  ue_tcpport : Option V2.PortNumber
  secondary_rat_usage_report : List V2.SecondaryRatUsageDataReport
  pscellid : Option V2.PSCellId
  private_ext : List V2.PrivateExtension
deriving DecidableEq

namespace DeleteSessionRequest

/-- `default` (deletesessionreq.rs:42-73). -/
def dflt : DeleteSessionRequest :=
  { header := { Header.default with msgtype := 36, teid := some 0 }, cause := none, linked_ebi := none, uli := none, indication := none, pco := none, orig_node := none, fteid_control := none, uetimezone := none, uli_timestamp := none, ran_nas_cause := none, twan_id := none, twan_id_timestamp := none, overload_info := [], wlan_loc := none, wlan_loc_timestamp := none, ue_localip := none, ue_udpport := none, epco := none, ue_tcpport := none, secondary_rat_usage_report := [], pscellid := none, private_ext := [] }

/-- `tovec` (deletesessionreq.rs:110-201). -/
def tovec (x : DeleteSessionRequest) : List IE :=
  optV .Cause x.cause ++ (
  optV .Ebi x.linked_ebi ++ (
  optV .Uli x.uli ++ (
  optV .Indication x.indication ++ (
  optV .Pco x.pco ++ (
  optV .NodeType x.orig_node ++ (
  optV .Fteid x.fteid_control ++ (
  optV .UeTimeZone x.uetimezone ++ (
  optV .UliTimestamp x.uli_timestamp ++ (
  optV .RanNasCause x.ran_nas_cause ++ (
  optV .TwanId x.twan_id ++ (
  optV .TwanIdTimeStamp x.twan_id_timestamp ++ (
  x.overload_info.map .OverloadControlInfo ++ (
  optV .TwanId x.wlan_loc ++ (
  optV .TwanIdTimeStamp x.wlan_loc_timestamp ++ (
  optV .IpAddress x.ue_localip ++ (
  optV .PortNumber x.ue_udpport ++ (
  optV .Epco x.epco ++ (
  optV .PortNumber x.ue_tcpport ++ (
  x.secondary_rat_usage_report.map .SecondaryRatUsageDataReport ++ (
  optV .PSCellId x.pscellid ++ (
  x.private_ext.map .PrivateExtension)))))))))))))))))))))

/-- The variables of `fromvec`: the message and the array `mandatory` (deletesessionreq.rs:203-314). -/
structure St where
  x : DeleteSessionRequest

/-- One turn of the loop of `fromvec` (deletesessionreq.rs:203-314). -/
def step (s : St) : IE → St
  | .Cause j => if j.ins = 0 ∧ s.x.cause.isNone = true then { s with x := { s.x with cause := some j } } else s
  | .Ebi j => if j.ins = 0 ∧ s.x.linked_ebi.isNone = true then { s with x := { s.x with linked_ebi := some j } } else s
  | .Uli j => if j.ins = 0 ∧ s.x.uli.isNone = true then { s with x := { s.x with uli := some j } } else s
  | .Indication j => if j.ins = 0 ∧ s.x.indication.isNone = true then { s with x := { s.x with indication := some j } } else s
  | .Pco j => if j.ins = 0 ∧ s.x.pco.isNone = true then { s with x := { s.x with pco := some j } } else s
  | .NodeType j => if j.ins = 0 ∧ s.x.orig_node.isNone = true then { s with x := { s.x with orig_node := some j } } else s
  | .Fteid j => if j.ins = 0 ∧ s.x.fteid_control.isNone = true then { s with x := { s.x with fteid_control := some j } } else s
  | .UeTimeZone j => if j.ins = 0 ∧ s.x.uetimezone.isNone = true then { s with x := { s.x with uetimezone := some j } } else s
  | .UliTimestamp j => if j.ins = 0 ∧ s.x.uli_timestamp.isNone = true then { s with x := { s.x with uli_timestamp := some j } } else s
  | .RanNasCause j => if j.ins = 0 ∧ s.x.ran_nas_cause.isNone = true then { s with x := { s.x with ran_nas_cause := some j } } else s
  | .TwanId j => if j.ins = 0 ∧ s.x.twan_id.isNone = true then { s with x := { s.x with twan_id := some j } } else if j.ins = 1 ∧ s.x.wlan_loc.isNone = true then { s with x := { s.x with wlan_loc := some j } } else s
  | .TwanIdTimeStamp j => if j.ins = 0 ∧ s.x.twan_id_timestamp.isNone = true then { s with x := { s.x with twan_id_timestamp := some j } } else if j.ins = 1 ∧ s.x.wlan_loc_timestamp.isNone = true then { s with x := { s.x with wlan_loc_timestamp := some j } } else s
  | .OverloadControlInfo j => if j.ins < 3 then { s with x := { s.x with overload_info := s.x.overload_info ++ [j] } } else s
  | .IpAddress j => if j.ins = 0 ∧ s.x.ue_localip.isNone = true then { s with x := { s.x with ue_localip := some j } } else s
  | .PortNumber j => if j.ins = 0 ∧ s.x.ue_udpport.isNone = true then { s with x := { s.x with ue_udpport := some j } } else if j.ins = 1 ∧ s.x.ue_tcpport.isNone = true then { s with x := { s.x with ue_tcpport := some j } } else s
  | .Epco j => if j.ins = 0 ∧ s.x.epco.isNone = true then { s with x := { s.x with epco := some j } } else s
  | .SecondaryRatUsageDataReport j => if j.ins = 0 then { s with x := { s.x with secondary_rat_usage_report := s.x.secondary_rat_usage_report ++ [j] } } else s
  | .PSCellId j => if j.ins = 0 ∧ s.x.pscellid.isNone = true then { s with x := { s.x with pscellid := some j } } else s
  | .PrivateExtension j => { s with x := { s.x with private_ext := s.x.private_ext ++ [j] } }
  | _ => s

/-- The end of `fromvec` (deletesessionreq.rs:203-314). -/
def finish (s : St) : R Err DeleteSessionRequest :=
  .ok s.x

/-- `fromvec` (deletesessionreq.rs:203-314). -/
def fromvec (x : DeleteSessionRequest) (els : List IE) : R Err DeleteSessionRequest := finish (els.foldl step ⟨x⟩)

/-- The message type (deletesessionreq.rs:77-108). -/
def codec : Codec DeleteSessionRequest :=
  { msgtype := 36, start := some 12, dflt, header := header, setHeader := fun x h => { x with header := h }, tovec, fromvec }

/-- One slot per field. -/
def schema : Schema :=
  [⟨.Cause, .is 0, .opt⟩,
   ⟨.Ebi, .is 0, .opt⟩,
   ⟨.Uli, .is 0, .opt⟩,
   ⟨.Indication, .is 0, .opt⟩,
   ⟨.Pco, .is 0, .opt⟩,
   ⟨.NodeType, .is 0, .opt⟩,
   ⟨.Fteid, .is 0, .opt⟩,
   ⟨.UeTimeZone, .is 0, .opt⟩,
   ⟨.UliTimestamp, .is 0, .opt⟩,
   ⟨.RanNasCause, .is 0, .opt⟩,
   ⟨.TwanId, .is 0, .opt⟩,
   ⟨.TwanIdTimeStamp, .is 0, .opt⟩,
   ⟨.OverloadControlInfo, .lt 3, .many⟩,
   ⟨.TwanId, .is 1, .opt⟩,
   ⟨.TwanIdTimeStamp, .is 1, .opt⟩,
   ⟨.IpAddress, .is 0, .opt⟩,
   ⟨.PortNumber, .is 0, .opt⟩,
   ⟨.Epco, .is 0, .opt⟩,
   ⟨.PortNumber, .is 1, .opt⟩,
   ⟨.SecondaryRatUsageDataReport, .is 0, .many⟩,
   ⟨.PSCellId, .is 0, .opt⟩,
   ⟨.PrivateExtension, .any, .many⟩]

/-- The fields as lists of IEs. -/
def fields (x : DeleteSessionRequest) : List (List IE) :=
  [optV .Cause x.cause,
   optV .Ebi x.linked_ebi,
   optV .Uli x.uli,
   optV .Indication x.indication,
   optV .Pco x.pco,
   optV .NodeType x.orig_node,
   optV .Fteid x.fteid_control,
   optV .UeTimeZone x.uetimezone,
   optV .UliTimestamp x.uli_timestamp,
   optV .RanNasCause x.ran_nas_cause,
   optV .TwanId x.twan_id,
   optV .TwanIdTimeStamp x.twan_id_timestamp,
   x.overload_info.map .OverloadControlInfo,
   optV .TwanId x.wlan_loc,
   optV .TwanIdTimeStamp x.wlan_loc_timestamp,
   optV .IpAddress x.ue_localip,
   optV .PortNumber x.ue_udpport,
   optV .Epco x.epco,
   optV .PortNumber x.ue_tcpport,
   x.secondary_rat_usage_report.map .SecondaryRatUsageDataReport,
   optV .PSCellId x.pscellid,
   x.private_ext.map .PrivateExtension]

/-- What the state has collected so far. -/
def St.view (s : St) : List (List IE) :=
  [optV .Cause s.x.cause,
   optV .Ebi s.x.linked_ebi,
   optV .Uli s.x.uli,
   optV .Indication s.x.indication,
   optV .Pco s.x.pco,
   optV .NodeType s.x.orig_node,
   optV .Fteid s.x.fteid_control,
   optV .UeTimeZone s.x.uetimezone,
   optV .UliTimestamp s.x.uli_timestamp,
   optV .RanNasCause s.x.ran_nas_cause,
   optV .TwanId s.x.twan_id,
   optV .TwanIdTimeStamp s.x.twan_id_timestamp,
   s.x.overload_info.map .OverloadControlInfo,
   optV .TwanId s.x.wlan_loc,
   optV .TwanIdTimeStamp s.x.wlan_loc_timestamp,
   optV .IpAddress s.x.ue_localip,
   optV .PortNumber s.x.ue_udpport,
   optV .Epco s.x.epco,
   optV .PortNumber s.x.ue_tcpport,
   s.x.secondary_rat_usage_report.map .SecondaryRatUsageDataReport,
   optV .PSCellId s.x.pscellid,
   s.x.private_ext.map .PrivateExtension]

/-- The header is left alone; flags of mandatory lists tell whether the list is empty. -/
def St.Inv (h : Header) (s : St) : Prop :=
  s.x.header = h

theorem step_view (h : Header) (s : St) (e : IE) (hi : s.Inv h) : (step s e).view = Schema.step schema s.view e ∧ (step s e).Inv h := by
  cases e
  case Cause j =>
    simp only [step]
    repeat' split
    all_goals refine ⟨cons_congr ?_ ((Schema.step_other rfl rfl).symm), ?_⟩
    all_goals first | exact hi | msg_field | (simp_all [St.Inv]; done)
  case Ebi j =>
    simp only [step]
    repeat' split
    all_goals refine ⟨cons_congr (Slot.step_ne rfl).symm (cons_congr ?_ ((Schema.step_other rfl rfl).symm)), ?_⟩
    all_goals first | exact hi | msg_field | (simp_all [St.Inv]; done)
  case Uli j =>
    simp only [step]
    repeat' split
    all_goals refine ⟨cons_congr (Slot.step_ne rfl).symm (cons_congr (Slot.step_ne rfl).symm (cons_congr ?_ ((Schema.step_other rfl rfl).symm))), ?_⟩
    all_goals first | exact hi | msg_field | (simp_all [St.Inv]; done)
  case Indication j =>
    simp only [step]
    repeat' split
    all_goals refine ⟨cons_congr (Slot.step_ne rfl).symm (cons_congr (Slot.step_ne rfl).symm (cons_congr (Slot.step_ne rfl).symm (cons_congr ?_ ((Schema.step_other rfl rfl).symm)))), ?_⟩
    all_goals first | exact hi | msg_field | (simp_all [St.Inv]; done)
  case Pco j =>
    simp only [step]
    repeat' split
    all_goals refine ⟨cons_congr (Slot.step_ne rfl).symm (cons_congr (Slot.step_ne rfl).symm (cons_congr (Slot.step_ne rfl).symm (cons_congr (Slot.step_ne rfl).symm (cons_congr ?_ ((Schema.step_other rfl rfl).symm))))), ?_⟩
    all_goals first | exact hi | msg_field | (simp_all [St.Inv]; done)
  case NodeType j =>
    simp only [step]
    repeat' split
    all_goals refine ⟨cons_congr (Slot.step_ne rfl).symm (cons_congr (Slot.step_ne rfl).symm (cons_congr (Slot.step_ne rfl).symm (cons_congr (Slot.step_ne rfl).symm (cons_congr (Slot.step_ne rfl).symm (cons_congr ?_ ((Schema.step_other rfl rfl).symm)))))), ?_⟩
    all_goals first | exact hi | msg_field | (simp_all [St.Inv]; done)
  case Fteid j =>
    simp only [step]
    repeat' split
    all_goals refine ⟨cons_congr (Slot.step_ne rfl).symm (cons_congr (Slot.step_ne rfl).symm (cons_congr (Slot.step_ne rfl).symm (cons_congr (Slot.step_ne rfl).symm (cons_congr (Slot.step_ne rfl).symm (cons_congr (Slot.step_ne rfl).symm (cons_congr ?_ ((Schema.step_other rfl rfl).symm))))))), ?_⟩
    all_goals first | exact hi | msg_field | (simp_all [St.Inv]; done)
  case UeTimeZone j =>
    simp only [step]
    repeat' split
    all_goals refine ⟨cons_congr (Slot.step_ne rfl).symm (cons_congr (Slot.step_ne rfl).symm (cons_congr (Slot.step_ne rfl).symm (cons_congr (Slot.step_ne rfl).symm (cons_congr (Slot.step_ne rfl).symm (cons_congr (Slot.step_ne rfl).symm (cons_congr (Slot.step_ne rfl).symm (cons_congr ?_ ((Schema.step_other rfl rfl).symm)))))))), ?_⟩
    all_goals first | exact hi | msg_field | (simp_all [St.Inv]; done)
  case UliTimestamp j =>
    simp only [step]
    repeat' split
    all_goals refine ⟨cons_congr (Slot.step_ne rfl).symm (cons_congr (Slot.step_ne rfl).symm (cons_congr (Slot.step_ne rfl).symm (cons_congr (Slot.step_ne rfl).symm (cons_congr (Slot.step_ne rfl).symm (cons_congr (Slot.step_ne rfl).symm (cons_congr (Slot.step_ne rfl).symm (cons_congr (Slot.step_ne rfl).symm (cons_congr ?_ ((Schema.step_other rfl rfl).symm))))))))), ?_⟩
    all_goals first | exact hi | msg_field | (simp_all [St.Inv]; done)
  case RanNasCause j =>
    simp only [step]
    repeat' split
    all_goals refine ⟨cons_congr (Slot.step_ne rfl).symm (cons_congr (Slot.step_ne rfl).symm (cons_congr (Slot.step_ne rfl).symm (cons_congr (Slot.step_ne rfl).symm (cons_congr (Slot.step_ne rfl).symm (cons_congr (Slot.step_ne rfl).symm (cons_congr (Slot.step_ne rfl).symm (cons_congr (Slot.step_ne rfl).symm (cons_congr (Slot.step_ne rfl).symm (cons_congr ?_ ((Schema.step_other rfl rfl).symm)))))))))), ?_⟩
    all_goals first | exact hi | msg_field | (simp_all [St.Inv]; done)
  case TwanId j =>
    simp only [step]
    repeat' split
    all_goals refine ⟨cons_congr (Slot.step_ne rfl).symm (cons_congr (Slot.step_ne rfl).symm (cons_congr (Slot.step_ne rfl).symm (cons_congr (Slot.step_ne rfl).symm (cons_congr (Slot.step_ne rfl).symm (cons_congr (Slot.step_ne rfl).symm (cons_congr (Slot.step_ne rfl).symm (cons_congr (Slot.step_ne rfl).symm (cons_congr (Slot.step_ne rfl).symm (cons_congr (Slot.step_ne rfl).symm (cons_congr ?_ (cons_congr (Slot.step_ne rfl).symm (cons_congr (Slot.step_ne rfl).symm (cons_congr ?_ ((Schema.step_other rfl rfl).symm)))))))))))))), ?_⟩
    all_goals first | exact hi | msg_field | (simp_all [St.Inv]; done)
  case TwanIdTimeStamp j =>
    simp only [step]
    repeat' split
    all_goals refine ⟨cons_congr (Slot.step_ne rfl).symm (cons_congr (Slot.step_ne rfl).symm (cons_congr (Slot.step_ne rfl).symm (cons_congr (Slot.step_ne rfl).symm (cons_congr (Slot.step_ne rfl).symm (cons_congr (Slot.step_ne rfl).symm (cons_congr (Slot.step_ne rfl).symm (cons_congr (Slot.step_ne rfl).symm (cons_congr (Slot.step_ne rfl).symm (cons_congr (Slot.step_ne rfl).symm (cons_congr (Slot.step_ne rfl).symm (cons_congr ?_ (cons_congr (Slot.step_ne rfl).symm (cons_congr (Slot.step_ne rfl).symm (cons_congr ?_ ((Schema.step_other rfl rfl).symm))))))))))))))), ?_⟩
    all_goals first | exact hi | msg_field | (simp_all [St.Inv]; done)
  case OverloadControlInfo j =>
    simp only [step]
    repeat' split
    all_goals refine ⟨cons_congr (Slot.step_ne rfl).symm (cons_congr (Slot.step_ne rfl).symm (cons_congr (Slot.step_ne rfl).symm (cons_congr (Slot.step_ne rfl).symm (cons_congr (Slot.step_ne rfl).symm (cons_congr (Slot.step_ne rfl).symm (cons_congr (Slot.step_ne rfl).symm (cons_congr (Slot.step_ne rfl).symm (cons_congr (Slot.step_ne rfl).symm (cons_congr (Slot.step_ne rfl).symm (cons_congr (Slot.step_ne rfl).symm (cons_congr (Slot.step_ne rfl).symm (cons_congr ?_ ((Schema.step_other rfl rfl).symm))))))))))))), ?_⟩
    all_goals first | exact hi | msg_field | (simp_all [St.Inv]; done)
  case IpAddress j =>
    simp only [step]
    repeat' split
    all_goals refine ⟨cons_congr (Slot.step_ne rfl).symm (cons_congr (Slot.step_ne rfl).symm (cons_congr (Slot.step_ne rfl).symm (cons_congr (Slot.step_ne rfl).symm (cons_congr (Slot.step_ne rfl).symm (cons_congr (Slot.step_ne rfl).symm (cons_congr (Slot.step_ne rfl).symm (cons_congr (Slot.step_ne rfl).symm (cons_congr (Slot.step_ne rfl).symm (cons_congr (Slot.step_ne rfl).symm (cons_congr (Slot.step_ne rfl).symm (cons_congr (Slot.step_ne rfl).symm (cons_congr (Slot.step_ne rfl).symm (cons_congr (Slot.step_ne rfl).symm (cons_congr (Slot.step_ne rfl).symm (cons_congr ?_ ((Schema.step_other rfl rfl).symm)))))))))))))))), ?_⟩
    all_goals first | exact hi | msg_field | (simp_all [St.Inv]; done)
  case PortNumber j =>
    simp only [step]
    repeat' split
    all_goals refine ⟨cons_congr (Slot.step_ne rfl).symm (cons_congr (Slot.step_ne rfl).symm (cons_congr (Slot.step_ne rfl).symm (cons_congr (Slot.step_ne rfl).symm (cons_congr (Slot.step_ne rfl).symm (cons_congr (Slot.step_ne rfl).symm (cons_congr (Slot.step_ne rfl).symm (cons_congr (Slot.step_ne rfl).symm (cons_congr (Slot.step_ne rfl).symm (cons_congr (Slot.step_ne rfl).symm (cons_congr (Slot.step_ne rfl).symm (cons_congr (Slot.step_ne rfl).symm (cons_congr (Slot.step_ne rfl).symm (cons_congr (Slot.step_ne rfl).symm (cons_congr (Slot.step_ne rfl).symm (cons_congr (Slot.step_ne rfl).symm (cons_congr ?_ (cons_congr (Slot.step_ne rfl).symm (cons_congr ?_ ((Schema.step_other rfl rfl).symm))))))))))))))))))), ?_⟩
    all_goals first | exact hi | msg_field | (simp_all [St.Inv]; done)
  case Epco j =>
    simp only [step]
    repeat' split
    all_goals refine ⟨cons_congr (Slot.step_ne rfl).symm (cons_congr (Slot.step_ne rfl).symm (cons_congr (Slot.step_ne rfl).symm (cons_congr (Slot.step_ne rfl).symm (cons_congr (Slot.step_ne rfl).symm (cons_congr (Slot.step_ne rfl).symm (cons_congr (Slot.step_ne rfl).symm (cons_congr (Slot.step_ne rfl).symm (cons_congr (Slot.step_ne rfl).symm (cons_congr (Slot.step_ne rfl).symm (cons_congr (Slot.step_ne rfl).symm (cons_congr (Slot.step_ne rfl).symm (cons_congr (Slot.step_ne rfl).symm (cons_congr (Slot.step_ne rfl).symm (cons_congr (Slot.step_ne rfl).symm (cons_congr (Slot.step_ne rfl).symm (cons_congr (Slot.step_ne rfl).symm (cons_congr ?_ ((Schema.step_other rfl rfl).symm)))))))))))))))))), ?_⟩
    all_goals first | exact hi | msg_field | (simp_all [St.Inv]; done)
  case SecondaryRatUsageDataReport j =>
    simp only [step]
    repeat' split
    all_goals refine ⟨cons_congr (Slot.step_ne rfl).symm (cons_congr (Slot.step_ne rfl).symm (cons_congr (Slot.step_ne rfl).symm (cons_congr (Slot.step_ne rfl).symm (cons_congr (Slot.step_ne rfl).symm (cons_congr (Slot.step_ne rfl).symm (cons_congr (Slot.step_ne rfl).symm (cons_congr (Slot.step_ne rfl).symm (cons_congr (Slot.step_ne rfl).symm (cons_congr (Slot.step_ne rfl).symm (cons_congr (Slot.step_ne rfl).symm (cons_congr (Slot.step_ne rfl).symm (cons_congr (Slot.step_ne rfl).symm (cons_congr (Slot.step_ne rfl).symm (cons_congr (Slot.step_ne rfl).symm (cons_congr (Slot.step_ne rfl).symm (cons_congr (Slot.step_ne rfl).symm (cons_congr (Slot.step_ne rfl).symm (cons_congr (Slot.step_ne rfl).symm (cons_congr ?_ ((Schema.step_other rfl rfl).symm)))))))))))))))))))), ?_⟩
    all_goals first | exact hi | msg_field | (simp_all [St.Inv]; done)
  case PSCellId j =>
    simp only [step]
    repeat' split
    all_goals refine ⟨cons_congr (Slot.step_ne rfl).symm (cons_congr (Slot.step_ne rfl).symm (cons_congr (Slot.step_ne rfl).symm (cons_congr (Slot.step_ne rfl).symm (cons_congr (Slot.step_ne rfl).symm (cons_congr (Slot.step_ne rfl).symm (cons_congr (Slot.step_ne rfl).symm (cons_congr (Slot.step_ne rfl).symm (cons_congr (Slot.step_ne rfl).symm (cons_congr (Slot.step_ne rfl).symm (cons_congr (Slot.step_ne rfl).symm (cons_congr (Slot.step_ne rfl).symm (cons_congr (Slot.step_ne rfl).symm (cons_congr (Slot.step_ne rfl).symm (cons_congr (Slot.step_ne rfl).symm (cons_congr (Slot.step_ne rfl).symm (cons_congr (Slot.step_ne rfl).symm (cons_congr (Slot.step_ne rfl).symm (cons_congr (Slot.step_ne rfl).symm (cons_congr (Slot.step_ne rfl).symm (cons_congr ?_ ((Schema.step_other rfl rfl).symm))))))))))))))))))))), ?_⟩
    all_goals first | exact hi | msg_field | (simp_all [St.Inv]; done)
  case PrivateExtension j =>
    simp only [step]
    all_goals refine ⟨cons_congr (Slot.step_ne rfl).symm (cons_congr (Slot.step_ne rfl).symm (cons_congr (Slot.step_ne rfl).symm (cons_congr (Slot.step_ne rfl).symm (cons_congr (Slot.step_ne rfl).symm (cons_congr (Slot.step_ne rfl).symm (cons_congr (Slot.step_ne rfl).symm (cons_congr (Slot.step_ne rfl).symm (cons_congr (Slot.step_ne rfl).symm (cons_congr (Slot.step_ne rfl).symm (cons_congr (Slot.step_ne rfl).symm (cons_congr (Slot.step_ne rfl).symm (cons_congr (Slot.step_ne rfl).symm (cons_congr (Slot.step_ne rfl).symm (cons_congr (Slot.step_ne rfl).symm (cons_congr (Slot.step_ne rfl).symm (cons_congr (Slot.step_ne rfl).symm (cons_congr (Slot.step_ne rfl).symm (cons_congr (Slot.step_ne rfl).symm (cons_congr (Slot.step_ne rfl).symm (cons_congr (Slot.step_ne rfl).symm (cons_congr ?_ (rfl)))))))))))))))))))))), ?_⟩
    all_goals first | exact hi | msg_field | (simp_all [St.Inv]; done)
  all_goals exact ⟨(Schema.step_other rfl rfl).symm, hi⟩

theorem loop (h : Header) (els : List IE) :
    (els.foldl step ⟨{ dflt with header := h }⟩).view = schema.map (·.select els) ∧ (els.foldl step ⟨{ dflt with header := h }⟩).Inv h := by
  have := foldl_view (Q := fun _ => True) (fun s e hp _ => step_view h s e hp) els ⟨{ dflt with header := h }⟩ (fun _ _ => trivial) (by simp [St.Inv])
  rw [show St.view ⟨{ dflt with header := h }⟩ = schema.map (fun _ => []) from rfl, Schema.foldl_nil] at this
  exact this

theorem ext {x y : DeleteSessionRequest} (hh : x.header = y.header) (h : fields x = fields y) : x = y := by
  cases x; cases y
  simp only at hh
  subst hh
  injection h with h0 h
  cases optV_inj (fun _ _ h => IE.Cause.inj h) h0
  injection h with h1 h
  cases optV_inj (fun _ _ h => IE.Ebi.inj h) h1
  injection h with h2 h
  cases optV_inj (fun _ _ h => IE.Uli.inj h) h2
  injection h with h3 h
  cases optV_inj (fun _ _ h => IE.Indication.inj h) h3
  injection h with h4 h
  cases optV_inj (fun _ _ h => IE.Pco.inj h) h4
  injection h with h5 h
  cases optV_inj (fun _ _ h => IE.NodeType.inj h) h5
  injection h with h6 h
  cases optV_inj (fun _ _ h => IE.Fteid.inj h) h6
  injection h with h7 h
  cases optV_inj (fun _ _ h => IE.UeTimeZone.inj h) h7
  injection h with h8 h
  cases optV_inj (fun _ _ h => IE.UliTimestamp.inj h) h8
  injection h with h9 h
  cases optV_inj (fun _ _ h => IE.RanNasCause.inj h) h9
  injection h with h10 h
  cases optV_inj (fun _ _ h => IE.TwanId.inj h) h10
  injection h with h11 h
  cases optV_inj (fun _ _ h => IE.TwanIdTimeStamp.inj h) h11
  injection h with h12 h
  cases map_inj (fun _ _ h => IE.OverloadControlInfo.inj h) h12
  injection h with h13 h
  cases optV_inj (fun _ _ h => IE.TwanId.inj h) h13
  injection h with h14 h
  cases optV_inj (fun _ _ h => IE.TwanIdTimeStamp.inj h) h14
  injection h with h15 h
  cases optV_inj (fun _ _ h => IE.IpAddress.inj h) h15
  injection h with h16 h
  cases optV_inj (fun _ _ h => IE.PortNumber.inj h) h16
  injection h with h17 h
  cases optV_inj (fun _ _ h => IE.Epco.inj h) h17
  injection h with h18 h
  cases optV_inj (fun _ _ h => IE.PortNumber.inj h) h18
  injection h with h19 h
  cases map_inj (fun _ _ h => IE.SecondaryRatUsageDataReport.inj h) h19
  injection h with h20 h
  cases optV_inj (fun _ _ h => IE.PSCellId.inj h) h20
  injection h with h21 h
  cases map_inj (fun _ _ h => IE.PrivateExtension.inj h) h21
  rfl

theorem mand : schema.filter (·.card.mandatory) = [] := rfl

/-- The flags tell which mandatory IEs are absent. -/
theorem flags (h : Header) (els : List IE) : ∃ x , els.foldl step ⟨{ dflt with header := h }⟩ = ⟨x⟩ ∧ St.view ⟨x⟩ = schema.map (·.select els) ∧ x.header = h := by
  obtain ⟨hv, hi⟩ := loop h els
  generalize els.foldl step ⟨{ dflt with header := h }⟩ = s at hv hi ⊢
  obtain ⟨x⟩ := s
  simp only [St.Inv] at hi
  exact ⟨x, rfl, hv, hi⟩

theorem complete (h : Header) (els : List IE) (_hm : schema.missing els = []) : ∃ y, fromvec { dflt with header := h } els = .ok y ∧ y.header = h ∧ fields y = schema.map (·.select els) := by
  obtain ⟨x, hs, hv, hh⟩ := flags h els
  unfold fromvec
  rw [hs]
  exact ⟨x, rfl, hh, hv⟩

theorem describes : Describes codec schema fields where
  header_set _ _ := rfl
  fields_set _ _ := rfl
  ext _ _ hh h := ext hh h
  shape x := Aligned.opt (fun _ => rfl) <| Aligned.opt (fun _ => rfl) <| Aligned.opt (fun _ => rfl) <| Aligned.opt (fun _ => rfl) <| Aligned.opt (fun _ => rfl) <| Aligned.opt (fun _ => rfl) <| Aligned.opt (fun _ => rfl) <| Aligned.opt (fun _ => rfl) <| Aligned.opt (fun _ => rfl) <| Aligned.opt (fun _ => rfl) <| Aligned.opt (fun _ => rfl) <| Aligned.opt (fun _ => rfl) <| Aligned.many (fun _ => rfl) <| Aligned.opt (fun _ => rfl) <| Aligned.opt (fun _ => rfl) <| Aligned.opt (fun _ => rfl) <| Aligned.opt (fun _ => rfl) <| Aligned.opt (fun _ => rfl) <| Aligned.opt (fun _ => rfl) <| Aligned.many (fun _ => rfl) <| Aligned.opt (fun _ => rfl) <| Aligned.many (fun _ => rfl) <| trivial
  tovec x := by simp [codec, tovec, fields]
  complete h els _ hm := complete h els hm

end DeleteSessionRequest

/-- `DeleteSessionResponse` (deletesessionresp.rs:15-26). -/
structure DeleteSessionResponse where
  header : Header
  cause : V2.Cause
  recovery : Option V2.Recovery
  pco : Option V2.Pco
  indication : Option V2.Indication
  load_control : List V2.LoadControl
  overload_info : List V2.OverloadControlInfo
  epco : Option V2.Epco
  apn_rate_control_status : Option V2.ApnRateControlStatus
  private_ext : List V2.PrivateExtension
deriving DecidableEq

namespace DeleteSessionResponse

/-- `default` (deletesessionresp.rs:29-47). -/
def dflt : DeleteSessionResponse :=
  { header := { Header.default with msgtype := 37, teid := some 0 }, cause := V2.Cause.dflt, recovery := none, pco := none, indication := none, load_control := [], overload_info := [], epco := none, apn_rate_control_status := none, private_ext := [] }

/-- `tovec` (deletesessionresp.rs:84-122). -/
def tovec (x : DeleteSessionResponse) : List IE :=
  [.Cause x.cause] ++ (
  optV .Recovery x.recovery ++ (
  optV .Pco x.pco ++ (
  optV .Indication x.indication ++ (
  x.load_control.map .LoadControlInfo ++ (
  x.overload_info.map .OverloadControlInfo ++ (
  optV .Epco x.epco ++ (
  optV .ApnRateControlStatus x.apn_rate_control_status ++ (
  x.private_ext.map .PrivateExtension))))))))

/-- The variables of `fromvec`: the message and the array `mandatory` (deletesessionresp.rs:124-177). -/
structure St where
  x : DeleteSessionResponse
  m0 : Bool

/-- One turn of the loop of `fromvec` (deletesessionresp.rs:124-177). -/
def step (s : St) : IE → St
  | .Cause j => if j.ins = 0 ∧ s.m0 = false then { s with x := { s.x with cause := j }, m0 := true } else s
  | .Recovery j => if j.ins = 0 ∧ s.x.recovery.isNone = true then { s with x := { s.x with recovery := some j } } else s
  | .Pco j => if j.ins = 0 ∧ s.x.pco.isNone = true then { s with x := { s.x with pco := some j } } else s
  | .Indication j => if j.ins = 0 ∧ s.x.indication.isNone = true then { s with x := { s.x with indication := some j } } else s
  | .LoadControlInfo j => if j.ins < 3 then { s with x := { s.x with load_control := s.x.load_control ++ [j] } } else s
  | .OverloadControlInfo j => if j.ins < 2 then { s with x := { s.x with overload_info := s.x.overload_info ++ [j] } } else s
  | .Epco j => if j.ins = 0 ∧ s.x.epco.isNone = true then { s with x := { s.x with epco := some j } } else s
  | .ApnRateControlStatus j => if j.ins = 0 ∧ s.x.apn_rate_control_status.isNone = true then { s with x := { s.x with apn_rate_control_status := some j } } else s
  | .PrivateExtension j => { s with x := { s.x with private_ext := s.x.private_ext ++ [j] } }
  | _ => s

/-- The end of `fromvec` (deletesessionresp.rs:124-177). -/
def finish (s : St) : R Err DeleteSessionResponse :=
  if s.m0 then .ok s.x else .err (.messageMandatoryIEMissing 2)

/-- `fromvec` (deletesessionresp.rs:124-177). -/
def fromvec (x : DeleteSessionResponse) (els : List IE) : R Err DeleteSessionResponse := finish (els.foldl step ⟨x, false⟩)

/-- The message type (deletesessionresp.rs:51-82). -/
def codec : Codec DeleteSessionResponse :=
  { msgtype := 37, start := some 12, dflt, header := header, setHeader := fun x h => { x with header := h }, tovec, fromvec }

/-- One slot per field. -/
def schema : Schema :=
  [⟨.Cause, .is 0, .one⟩,
   ⟨.Recovery, .is 0, .opt⟩,
   ⟨.Pco, .is 0, .opt⟩,
   ⟨.Indication, .is 0, .opt⟩,
   ⟨.LoadControlInfo, .lt 3, .many⟩,
   ⟨.OverloadControlInfo, .lt 2, .many⟩,
   ⟨.Epco, .is 0, .opt⟩,
   ⟨.ApnRateControlStatus, .is 0, .opt⟩,
   ⟨.PrivateExtension, .any, .many⟩]

/-- The fields as lists of IEs. -/
def fields (x : DeleteSessionResponse) : List (List IE) :=
  [[.Cause x.cause],
   optV .Recovery x.recovery,
   optV .Pco x.pco,
   optV .Indication x.indication,
   x.load_control.map .LoadControlInfo,
   x.overload_info.map .OverloadControlInfo,
   optV .Epco x.epco,
   optV .ApnRateControlStatus x.apn_rate_control_status,
   x.private_ext.map .PrivateExtension]

/-- What the state has collected so far. -/
def St.view (s : St) : List (List IE) :=
  [if s.m0 then [.Cause s.x.cause] else [],
   optV .Recovery s.x.recovery,
   optV .Pco s.x.pco,
   optV .Indication s.x.indication,
   s.x.load_control.map .LoadControlInfo,
   s.x.overload_info.map .OverloadControlInfo,
   optV .Epco s.x.epco,
   optV .ApnRateControlStatus s.x.apn_rate_control_status,
   s.x.private_ext.map .PrivateExtension]

/-- The header is left alone; flags of mandatory lists tell whether the list is empty. -/
def St.Inv (h : Header) (s : St) : Prop :=
  s.x.header = h

theorem step_view (h : Header) (s : St) (e : IE) (hi : s.Inv h) : (step s e).view = Schema.step schema s.view e ∧ (step s e).Inv h := by
  cases e
  case Cause j =>
    simp only [step]
    repeat' split
    all_goals refine ⟨cons_congr ?_ ((Schema.step_other rfl rfl).symm), ?_⟩
    all_goals first | exact hi | msg_field | (simp_all [St.Inv]; done)
  case Recovery j =>
    simp only [step]
    repeat' split
    all_goals refine ⟨cons_congr (Slot.step_ne rfl).symm (cons_congr ?_ ((Schema.step_other rfl rfl).symm)), ?_⟩
    all_goals first | exact hi | msg_field | (simp_all [St.Inv]; done)
  case Pco j =>
    simp only [step]
    repeat' split
    all_goals refine ⟨cons_congr (Slot.step_ne rfl).symm (cons_congr (Slot.step_ne rfl).symm (cons_congr ?_ ((Schema.step_other rfl rfl).symm))), ?_⟩
    all_goals first | exact hi | msg_field | (simp_all [St.Inv]; done)
  case Indication j =>
    simp only [step]
    repeat' split
    all_goals refine ⟨cons_congr (Slot.step_ne rfl).symm (cons_congr (Slot.step_ne rfl).symm (cons_congr (Slot.step_ne rfl).symm (cons_congr ?_ ((Schema.step_other rfl rfl).symm)))), ?_⟩
    all_goals first | exact hi | msg_field | (simp_all [St.Inv]; done)
  case LoadControlInfo j =>
    simp only [step]
    repeat' split
    all_goals refine ⟨cons_congr (Slot.step_ne rfl).symm (cons_congr (Slot.step_ne rfl).symm (cons_congr (Slot.step_ne rfl).symm (cons_congr (Slot.step_ne rfl).symm (cons_congr ?_ ((Schema.step_other rfl rfl).symm))))), ?_⟩
    all_goals first | exact hi | msg_field | (simp_all [St.Inv]; done)
  case OverloadControlInfo j =>
    simp only [step]
    repeat' split
    all_goals refine ⟨cons_congr (Slot.step_ne rfl).symm (cons_congr (Slot.step_ne rfl).symm (cons_congr (Slot.step_ne rfl).symm (cons_congr (Slot.step_ne rfl).symm (cons_congr (Slot.step_ne rfl).symm (cons_congr ?_ ((Schema.step_other rfl rfl).symm)))))), ?_⟩
    all_goals first | exact hi | msg_field | (simp_all [St.Inv]; done)
  case Epco j =>
    simp only [step]
    repeat' split
    all_goals refine ⟨cons_congr (Slot.step_ne rfl).symm (cons_congr (Slot.step_ne rfl).symm (cons_congr (Slot.step_ne rfl).symm (cons_congr (Slot.step_ne rfl).symm (cons_congr (Slot.step_ne rfl).symm (cons_congr (Slot.step_ne rfl).symm (cons_congr ?_ ((Schema.step_other rfl rfl).symm))))))), ?_⟩
    all_goals first | exact hi | msg_field | (simp_all [St.Inv]; done)
  case ApnRateControlStatus j =>
    simp only [step]
    repeat' split
    all_goals refine ⟨cons_congr (Slot.step_ne rfl).symm (cons_congr (Slot.step_ne rfl).symm (cons_congr (Slot.step_ne rfl).symm (cons_congr (Slot.step_ne rfl).symm (cons_congr (Slot.step_ne rfl).symm (cons_congr (Slot.step_ne rfl).symm (cons_congr (Slot.step_ne rfl).symm (cons_congr ?_ ((Schema.step_other rfl rfl).symm)))))))), ?_⟩
    all_goals first | exact hi | msg_field | (simp_all [St.Inv]; done)
  case PrivateExtension j =>
    simp only [step]
    all_goals refine ⟨cons_congr (Slot.step_ne rfl).symm (cons_congr (Slot.step_ne rfl).symm (cons_congr (Slot.step_ne rfl).symm (cons_congr (Slot.step_ne rfl).symm (cons_congr (Slot.step_ne rfl).symm (cons_congr (Slot.step_ne rfl).symm (cons_congr (Slot.step_ne rfl).symm (cons_congr (Slot.step_ne rfl).symm (cons_congr ?_ (rfl))))))))), ?_⟩
    all_goals first | exact hi | msg_field | (simp_all [St.Inv]; done)
  all_goals exact ⟨(Schema.step_other rfl rfl).symm, hi⟩

theorem loop (h : Header) (els : List IE) :
    (els.foldl step ⟨{ dflt with header := h }, false⟩).view = schema.map (·.select els) ∧ (els.foldl step ⟨{ dflt with header := h }, false⟩).Inv h := by
  have := foldl_view (Q := fun _ => True) (fun s e hp _ => step_view h s e hp) els ⟨{ dflt with header := h }, false⟩ (fun _ _ => trivial) (by simp [St.Inv])
  rw [show St.view ⟨{ dflt with header := h }, false⟩ = schema.map (fun _ => []) from rfl, Schema.foldl_nil] at this
  exact this

theorem ext {x y : DeleteSessionResponse} (hh : x.header = y.header) (h : fields x = fields y) : x = y := by
  cases x; cases y
  simp only at hh
  subst hh
  injection h with h0 h
  cases h0
  injection h with h1 h
  cases optV_inj (fun _ _ h => IE.Recovery.inj h) h1
  injection h with h2 h
  cases optV_inj (fun _ _ h => IE.Pco.inj h) h2
  injection h with h3 h
  cases optV_inj (fun _ _ h => IE.Indication.inj h) h3
  injection h with h4 h
  cases map_inj (fun _ _ h => IE.LoadControlInfo.inj h) h4
  injection h with h5 h
  cases map_inj (fun _ _ h => IE.OverloadControlInfo.inj h) h5
  injection h with h6 h
  cases optV_inj (fun _ _ h => IE.Epco.inj h) h6
  injection h with h7 h
  cases optV_inj (fun _ _ h => IE.ApnRateControlStatus.inj h) h7
  injection h with h8 h
  cases map_inj (fun _ _ h => IE.PrivateExtension.inj h) h8
  rfl

theorem mand : schema.filter (·.card.mandatory) = [(⟨.Cause, .is 0, .one⟩ : Slot)] := rfl

/-- The flags tell which mandatory IEs are absent. -/
theorem flags (h : Header) (els : List IE) : ∃ x m0, els.foldl step ⟨{ dflt with header := h }, false⟩ = ⟨x, m0⟩ ∧ St.view ⟨x, m0⟩ = schema.map (·.select els) ∧ x.header = h ∧
    (⟨.Cause, .is 0, .one⟩ : Slot).lacks els = (!m0) := by
  obtain ⟨hv, hi⟩ := loop h els
  generalize els.foldl step ⟨{ dflt with header := h }, false⟩ = s at hv hi ⊢
  obtain ⟨x, m0⟩ := s
  simp only [St.Inv] at hi
  have l0 : (⟨.Cause, .is 0, .one⟩ : Slot).lacks els = (!m0) := by
    rw [Slot.lacks_eq els rfl]
    have e := congrArg (fun l => l.getD 0 []) hv
    rw [show (⟨.Cause, .is 0, .one⟩ : Slot).select els = if m0 then [.Cause x.cause] else [] from e.symm]
    cases m0 <;> rfl
  exact ⟨x, m0, rfl, hv, hi, l0⟩

theorem complete (h : Header) (els : List IE) (hm : schema.missing els = []) : ∃ y, fromvec { dflt with header := h } els = .ok y ∧ y.header = h ∧ fields y = schema.map (·.select els) := by
  obtain ⟨x, m0, hs, hv, hh, l0⟩ := flags h els
  unfold fromvec
  rw [hs]
  dsimp only [finish]
  have f0 := l0.symm.trans (Schema.of_missing_nil mand (by simp) hm)
  cases m0 <;> first | exact ⟨x, rfl, hh, hv⟩ | contradiction

theorem describes : Describes codec schema fields where
  header_set _ _ := rfl
  fields_set _ _ := rfl
  ext _ _ hh h := ext hh h
  shape x := Aligned.one (fun _ => rfl) <| Aligned.opt (fun _ => rfl) <| Aligned.opt (fun _ => rfl) <| Aligned.opt (fun _ => rfl) <| Aligned.many (fun _ => rfl) <| Aligned.many (fun _ => rfl) <| Aligned.opt (fun _ => rfl) <| Aligned.opt (fun _ => rfl) <| Aligned.many (fun _ => rfl) <| trivial
  tovec x := by simp [codec, tovec, fields]
  complete h els _ hm := complete h els hm

theorem reports (h : Header) (els : List IE) (hm : schema.missing els ≠ []) :
    ∃ s ∈ schema.missing els, ∃ t, fromvec { dflt with header := h } els = .err (.messageMandatoryIEMissing t) ∧ kindOf t = s.kind := by
  obtain ⟨x, m0, hs, hv, hh, l0⟩ := flags h els
  unfold fromvec
  rw [hs]
  dsimp only [finish]
  cases m0 <;>
    first | exact ⟨_, Schema.mem_missing mand (by simp) l0, _, rfl, rfl⟩ | exact absurd (Schema.missing_nil mand (by simp [l0])) hm

theorem settled (h : Header) (els els' : List IE) (he : ∀ s ∈ schema, s.card.mandatory = true → s.lacks els = s.lacks els')
    (hm : schema.missing els ≠ []) : fromvec { dflt with header := h } els = fromvec { dflt with header := h } els' := by
  obtain ⟨x, m0, hs, hv, hh, l0⟩ := flags h els
  obtain ⟨x', m0', hs', hv', hh', l0'⟩ := flags h els'
  unfold fromvec
  rw [hs, hs']
  obtain rfl := Bool.not_inj (l0.symm.trans ((he _ (by decide) rfl).trans l0'))
  dsimp only [finish]
  cases m0 <;>
    first | rfl | exact absurd (Schema.missing_nil mand (by simp [l0])) hm

end DeleteSessionResponse

/-- `DetachAcknowledge` (detachacknowledge.rs:15-20). -/
structure DetachAcknowledge where
  header : Header
  cause : V2.Cause
  recovery : Option V2.Recovery
  private_ext : List V2.PrivateExtension
deriving DecidableEq

namespace DetachAcknowledge

/-- `default` (detachacknowledge.rs:23-34). -/
def dflt : DetachAcknowledge :=
  { header := { Header.default with msgtype := 150, teid := some 0 }, cause := V2.Cause.dflt, recovery := none, private_ext := [] }

/-- `tovec` (detachacknowledge.rs:71-85). -/
def tovec (x : DetachAcknowledge) : List IE :=
  [.Cause x.cause] ++ (
  optV .Recovery x.recovery ++ (
  x.private_ext.map .PrivateExtension))

/-- The variables of `fromvec`: the message and the array `mandatory` (detachacknowledge.rs:87-111). -/
structure St where
  x : DetachAcknowledge
  m0 : Bool

/-- One turn of the loop of `fromvec` (detachacknowledge.rs:87-111). -/
def step (s : St) : IE → St
  | .Cause j => if j.ins = 0 then { s with x := { s.x with cause := j }, m0 := true } else s
  | .Recovery j => if j.ins = 0 ∧ s.x.recovery.isNone = true then { s with x := { s.x with recovery := some j } } else s
  | .PrivateExtension j => { s with x := { s.x with private_ext := s.x.private_ext ++ [j] } }
  | _ => s

/-- The end of `fromvec` (detachacknowledge.rs:87-111). -/
def finish (s : St) : R Err DetachAcknowledge :=
  if s.m0 then .ok s.x else .err (.messageMandatoryIEMissing 2)

/-- `fromvec` (detachacknowledge.rs:87-111). -/
def fromvec (x : DetachAcknowledge) (els : List IE) : R Err DetachAcknowledge := finish (els.foldl step ⟨x, false⟩)

/-- The message type (detachacknowledge.rs:38-69). -/
def codec : Codec DetachAcknowledge :=
  { msgtype := 150, start := some 12, dflt, header := header, setHeader := fun x h => { x with header := h }, tovec, fromvec }

/-- One slot per field. -/
def schema : Schema :=
  [⟨.Cause, .is 0, .oneLast⟩,
   ⟨.Recovery, .is 0, .opt⟩,
   ⟨.PrivateExtension, .any, .many⟩]

/-- The fields as lists of IEs. -/
def fields (x : DetachAcknowledge) : List (List IE) :=
  [[.Cause x.cause],
   optV .Recovery x.recovery,
   x.private_ext.map .PrivateExtension]

/-- What the state has collected so far. -/
def St.view (s : St) : List (List IE) :=
  [if s.m0 then [.Cause s.x.cause] else [],
   optV .Recovery s.x.recovery,
   s.x.private_ext.map .PrivateExtension]

/-- The header is left alone; flags of mandatory lists tell whether the list is empty. -/
def St.Inv (h : Header) (s : St) : Prop :=
  s.x.header = h

theorem step_view (h : Header) (s : St) (e : IE) (hi : s.Inv h) : (step s e).view = Schema.step schema s.view e ∧ (step s e).Inv h := by
  cases e
  case Cause j =>
    simp only [step]
    repeat' split
    all_goals refine ⟨cons_congr ?_ ((Schema.step_other rfl rfl).symm), ?_⟩
    all_goals first | exact hi | msg_field | (simp_all [St.Inv]; done)
  case Recovery j =>
    simp only [step]
    repeat' split
    all_goals refine ⟨cons_congr (Slot.step_ne rfl).symm (cons_congr ?_ ((Schema.step_other rfl rfl).symm)), ?_⟩
    all_goals first | exact hi | msg_field | (simp_all [St.Inv]; done)
  case PrivateExtension j =>
    simp only [step]
    all_goals refine ⟨cons_congr (Slot.step_ne rfl).symm (cons_congr (Slot.step_ne rfl).symm (cons_congr ?_ (rfl))), ?_⟩
    all_goals first | exact hi | msg_field | (simp_all [St.Inv]; done)
  all_goals exact ⟨(Schema.step_other rfl rfl).symm, hi⟩

theorem loop (h : Header) (els : List IE) :
    (els.foldl step ⟨{ dflt with header := h }, false⟩).view = schema.map (·.select els) ∧ (els.foldl step ⟨{ dflt with header := h }, false⟩).Inv h := by
  have := foldl_view (Q := fun _ => True) (fun s e hp _ => step_view h s e hp) els ⟨{ dflt with header := h }, false⟩ (fun _ _ => trivial) (by simp [St.Inv])
  rw [show St.view ⟨{ dflt with header := h }, false⟩ = schema.map (fun _ => []) from rfl, Schema.foldl_nil] at this
  exact this

theorem ext {x y : DetachAcknowledge} (hh : x.header = y.header) (h : fields x = fields y) : x = y := by
  cases x; cases y
  simp only at hh
  subst hh
  injection h with h0 h
  cases h0
  injection h with h1 h
  cases optV_inj (fun _ _ h => IE.Recovery.inj h) h1
  injection h with h2 h
  cases map_inj (fun _ _ h => IE.PrivateExtension.inj h) h2
  rfl

theorem mand : schema.filter (·.card.mandatory) = [(⟨.Cause, .is 0, .oneLast⟩ : Slot)] := rfl

/-- The flags tell which mandatory IEs are absent. -/
theorem flags (h : Header) (els : List IE) : ∃ x m0, els.foldl step ⟨{ dflt with header := h }, false⟩ = ⟨x, m0⟩ ∧ St.view ⟨x, m0⟩ = schema.map (·.select els) ∧ x.header = h ∧
    (⟨.Cause, .is 0, .oneLast⟩ : Slot).lacks els = (!m0) := by
  obtain ⟨hv, hi⟩ := loop h els
  generalize els.foldl step ⟨{ dflt with header := h }, false⟩ = s at hv hi ⊢
  obtain ⟨x, m0⟩ := s
  simp only [St.Inv] at hi
  have l0 : (⟨.Cause, .is 0, .oneLast⟩ : Slot).lacks els = (!m0) := by
    rw [Slot.lacks_eq els rfl]
    have e := congrArg (fun l => l.getD 0 []) hv
    rw [show (⟨.Cause, .is 0, .oneLast⟩ : Slot).select els = if m0 then [.Cause x.cause] else [] from e.symm]
    cases m0 <;> rfl
  exact ⟨x, m0, rfl, hv, hi, l0⟩

theorem complete (h : Header) (els : List IE) (hm : schema.missing els = []) : ∃ y, fromvec { dflt with header := h } els = .ok y ∧ y.header = h ∧ fields y = schema.map (·.select els) := by
  obtain ⟨x, m0, hs, hv, hh, l0⟩ := flags h els
  unfold fromvec
  rw [hs]
  dsimp only [finish]
  have f0 := l0.symm.trans (Schema.of_missing_nil mand (by simp) hm)
  cases m0 <;> first | exact ⟨x, rfl, hh, hv⟩ | contradiction

theorem describes : Describes codec schema fields where
  header_set _ _ := rfl
  fields_set _ _ := rfl
  ext _ _ hh h := ext hh h
  shape x := Aligned.one (fun _ => rfl) <| Aligned.opt (fun _ => rfl) <| Aligned.many (fun _ => rfl) <| trivial
  tovec x := by simp [codec, tovec, fields]
  complete h els _ hm := complete h els hm

theorem reports (h : Header) (els : List IE) (hm : schema.missing els ≠ []) :
    ∃ s ∈ schema.missing els, ∃ t, fromvec { dflt with header := h } els = .err (.messageMandatoryIEMissing t) ∧ kindOf t = s.kind := by
  obtain ⟨x, m0, hs, hv, hh, l0⟩ := flags h els
  unfold fromvec
  rw [hs]
  dsimp only [finish]
  cases m0 <;>
    first | exact ⟨_, Schema.mem_missing mand (by simp) l0, _, rfl, rfl⟩ | exact absurd (Schema.missing_nil mand (by simp [l0])) hm

theorem settled (h : Header) (els els' : List IE) (he : ∀ s ∈ schema, s.card.mandatory = true → s.lacks els = s.lacks els')
    (hm : schema.missing els ≠ []) : fromvec { dflt with header := h } els = fromvec { dflt with header := h } els' := by
  obtain ⟨x, m0, hs, hv, hh, l0⟩ := flags h els
  obtain ⟨x', m0', hs', hv', hh', l0'⟩ := flags h els'
  unfold fromvec
  rw [hs, hs']
  obtain rfl := Bool.not_inj (l0.symm.trans ((he _ (by decide) rfl).trans l0'))
  dsimp only [finish]
  cases m0 <;>
    first | rfl | exact absurd (Schema.missing_nil mand (by simp [l0])) hm

end DetachAcknowledge

/-- `DetachNotification` (detachnotification.rs:15-20). -/
structure DetachNotification where
  header : Header
  cause : V2.Cause
  detach_type : Option V2.DetachType
  private_ext : List V2.PrivateExtension
deriving DecidableEq

namespace DetachNotification

/-- `default` (detachnotification.rs:23-34). -/
def dflt : DetachNotification :=
  { header := { Header.default with msgtype := 149, teid := some 0 }, cause := V2.Cause.dflt, detach_type := none, private_ext := [] }

/-- `tovec` (detachnotification.rs:71-85). -/
def tovec (x : DetachNotification) : List IE :=
  [.Cause x.cause] ++ (
  optV .DetachType x.detach_type ++ (
  x.private_ext.map .PrivateExtension))

/-- The variables of `fromvec`: the message and the array `mandatory` (detachnotification.rs:87-111). -/
structure St where
  x : DetachNotification
  m0 : Bool

/-- One turn of the loop of `fromvec` (detachnotification.rs:87-111). -/
def step (s : St) : IE → St
  | .Cause j => if j.ins = 0 ∧ s.m0 = false then { s with x := { s.x with cause := j }, m0 := true } else s
  | .DetachType j => if j.ins = 0 ∧ s.x.detach_type.isNone = true then { s with x := { s.x with detach_type := some j } } else s
  | .PrivateExtension j => { s with x := { s.x with private_ext := s.x.private_ext ++ [j] } }
  | _ => s

/-- The end of `fromvec` (detachnotification.rs:87-111). -/
def finish (s : St) : R Err DetachNotification :=
  if s.m0 then .ok s.x else .err (.messageMandatoryIEMissing 2)

/-- `fromvec` (detachnotification.rs:87-111). -/
def fromvec (x : DetachNotification) (els : List IE) : R Err DetachNotification := finish (els.foldl step ⟨x, false⟩)

/-- The message type (detachnotification.rs:38-69). -/
def codec : Codec DetachNotification :=
  { msgtype := 149, start := some 12, dflt, header := header, setHeader := fun x h => { x with header := h }, tovec, fromvec }

/-- One slot per field. -/
def schema : Schema :=
  [⟨.Cause, .is 0, .one⟩,
   ⟨.DetachType, .is 0, .opt⟩,
   ⟨.PrivateExtension, .any, .many⟩]

/-- The fields as lists of IEs. -/
def fields (x : DetachNotification) : List (List IE) :=
  [[.Cause x.cause],
   optV .DetachType x.detach_type,
   x.private_ext.map .PrivateExtension]

/-- What the state has collected so far. -/
def St.view (s : St) : List (List IE) :=
  [if s.m0 then [.Cause s.x.cause] else [],
   optV .DetachType s.x.detach_type,
   s.x.private_ext.map .PrivateExtension]

/-- The header is left alone; flags of mandatory lists tell whether the list is empty. -/
def St.Inv (h : Header) (s : St) : Prop :=
  s.x.header = h

theorem step_view (h : Header) (s : St) (e : IE) (hi : s.Inv h) : (step s e).view = Schema.step schema s.view e ∧ (step s e).Inv h := by
  cases e
  case Cause j =>
    simp only [step]
    repeat' split
    all_goals refine ⟨cons_congr ?_ ((Schema.step_other rfl rfl).symm), ?_⟩
    all_goals first | exact hi | msg_field | (simp_all [St.Inv]; done)
  case DetachType j =>
    simp only [step]
    repeat' split
    all_goals refine ⟨cons_congr (Slot.step_ne rfl).symm (cons_congr ?_ ((Schema.step_other rfl rfl).symm)), ?_⟩
    all_goals first | exact hi | msg_field | (simp_all [St.Inv]; done)
  case PrivateExtension j =>
    simp only [step]
    all_goals refine ⟨cons_congr (Slot.step_ne rfl).symm (cons_congr (Slot.step_ne rfl).symm (cons_congr ?_ (rfl))), ?_⟩
    all_goals first | exact hi | msg_field | (simp_all [St.Inv]; done)
  all_goals exact ⟨(Schema.step_other rfl rfl).symm, hi⟩

theorem loop (h : Header) (els : List IE) :
    (els.foldl step ⟨{ dflt with header := h }, false⟩).view = schema.map (·.select els) ∧ (els.foldl step ⟨{ dflt with header := h }, false⟩).Inv h := by
  have := foldl_view (Q := fun _ => True) (fun s e hp _ => step_view h s e hp) els ⟨{ dflt with header := h }, false⟩ (fun _ _ => trivial) (by simp [St.Inv])
  rw [show St.view ⟨{ dflt with header := h }, false⟩ = schema.map (fun _ => []) from rfl, Schema.foldl_nil] at this
  exact this

theorem ext {x y : DetachNotification} (hh : x.header = y.header) (h : fields x = fields y) : x = y := by
  cases x; cases y
  simp only at hh
  subst hh
  injection h with h0 h
  cases h0
  injection h with h1 h
  cases optV_inj (fun _ _ h => IE.DetachType.inj h) h1
  injection h with h2 h
  cases map_inj (fun _ _ h => IE.PrivateExtension.inj h) h2
  rfl

theorem mand : schema.filter (·.card.mandatory) = [(⟨.Cause, .is 0, .one⟩ : Slot)] := rfl

/-- The flags tell which mandatory IEs are absent. -/
theorem flags (h : Header) (els : List IE) : ∃ x m0, els.foldl step ⟨{ dflt with header := h }, false⟩ = ⟨x, m0⟩ ∧ St.view ⟨x, m0⟩ = schema.map (·.select els) ∧ x.header = h ∧
    (⟨.Cause, .is 0, .one⟩ : Slot).lacks els = (!m0) := by
  obtain ⟨hv, hi⟩ := loop h els
  generalize els.foldl step ⟨{ dflt with header := h }, false⟩ = s at hv hi ⊢
  obtain ⟨x, m0⟩ := s
  simp only [St.Inv] at hi
  have l0 : (⟨.Cause, .is 0, .one⟩ : Slot).lacks els = (!m0) := by
    rw [Slot.lacks_eq els rfl]
    have e := congrArg (fun l => l.getD 0 []) hv
    rw [show (⟨.Cause, .is 0, .one⟩ : Slot).select els = if m0 then [.Cause x.cause] else [] from e.symm]
    cases m0 <;> rfl
  exact ⟨x, m0, rfl, hv, hi, l0⟩

theorem complete (h : Header) (els : List IE) (hm : schema.missing els = []) : ∃ y, fromvec { dflt with header := h } els = .ok y ∧ y.header = h ∧ fields y = schema.map (·.select els) := by
  obtain ⟨x, m0, hs, hv, hh, l0⟩ := flags h els
  unfold fromvec
  rw [hs]
  dsimp only [finish]
  have f0 := l0.symm.trans (Schema.of_missing_nil mand (by simp) hm)
  cases m0 <;> first | exact ⟨x, rfl, hh, hv⟩ | contradiction

theorem describes : Describes codec schema fields where
  header_set _ _ := rfl
  fields_set _ _ := rfl
  ext _ _ hh h := ext hh h
  shape x := Aligned.one (fun _ => rfl) <| Aligned.opt (fun _ => rfl) <| Aligned.many (fun _ => rfl) <| trivial
  tovec x := by simp [codec, tovec, fields]
  complete h els _ hm := complete h els hm

theorem reports (h : Header) (els : List IE) (hm : schema.missing els ≠ []) :
    ∃ s ∈ schema.missing els, ∃ t, fromvec { dflt with header := h } els = .err (.messageMandatoryIEMissing t) ∧ kindOf t = s.kind := by
  obtain ⟨x, m0, hs, hv, hh, l0⟩ := flags h els
  unfold fromvec
  rw [hs]
  dsimp only [finish]
  cases m0 <;>
    first | exact ⟨_, Schema.mem_missing mand (by simp) l0, _, rfl, rfl⟩ | exact absurd (Schema.missing_nil mand (by simp [l0])) hm

theorem settled (h : Header) (els els' : List IE) (he : ∀ s ∈ schema, s.card.mandatory = true → s.lacks els = s.lacks els')
    (hm : schema.missing els ≠ []) : fromvec { dflt with header := h } els = fromvec { dflt with header := h } els' := by
  obtain ⟨x, m0, hs, hv, hh, l0⟩ := flags h els
  obtain ⟨x', m0', hs', hv', hh', l0'⟩ := flags h els'
  unfold fromvec
  rw [hs, hs']
  obtain rfl := Bool.not_inj (l0.symm.trans ((he _ (by decide) rfl).trans l0'))
  dsimp only [finish]
  cases m0 <;>
    first | rfl | exact absurd (Schema.missing_nil mand (by simp [l0])) hm

end DetachNotification

/-- `DownlinkDataNotification` (downlinkdatanotification.rs:15-28). -/
structure DownlinkDataNotification where
  header : Header
  cause : Option V2.Cause
  ebi : Option V2.Ebi
  arp : Option V2.Arp
  imsi : Option V2.Imsi
  fteid_control : Option V2.Fteid
  indication : Option V2.Indication
  load_control : List V2.LoadControl
  overload_info : List V2.OverloadControlInfo
  psi : Option V2.PagingServiceInfo
  dl_data_pckts_size : Option V2.IntegerNumber
  private_ext : List V2.PrivateExtension
deriving DecidableEq

namespace DownlinkDataNotification

/-- `default` (downlinkdatanotification.rs:31-51). -/
def dflt : DownlinkDataNotification :=
  { header := { Header.default with msgtype := 179, teid := some 0 }, cause := none, ebi := none, arp := none, imsi := none, fteid_control := none, indication := none, load_control := [], overload_info := [], psi := none, dl_data_pckts_size := none, private_ext := [] }

/-- `tovec` (downlinkdatanotification.rs:88-131). -/
def tovec (x : DownlinkDataNotification) : List IE :=
  optV .Cause x.cause ++ (
  optV .Ebi x.ebi ++ (
  optV .Arp x.arp ++ (
  optV .Imsi x.imsi ++ (
  optV .Fteid x.fteid_control ++ (
  optV .Indication x.indication ++ (
  x.load_control.map .LoadControlInfo ++ (
  x.overload_info.map .OverloadControlInfo ++ (
  optV .PagingServiceInfo x.psi ++ (
  optV .IntegerNumber x.dl_data_pckts_size ++ (
  x.private_ext.map .PrivateExtension))))))))))

/-- The variables of `fromvec`: the message and the array `mandatory` (downlinkdatanotification.rs:133-191). -/
structure St where
  x : DownlinkDataNotification

/-- One turn of the loop of `fromvec` (downlinkdatanotification.rs:133-191). -/
def step (s : St) : IE → St
  | .Cause j => if j.ins = 0 ∧ s.x.cause.isNone = true then { s with x := { s.x with cause := some j } } else s
  | .Ebi j => if j.ins = 0 ∧ s.x.ebi.isNone = true then { s with x := { s.x with ebi := some j } } else s
  | .Arp j => if j.ins = 0 ∧ s.x.arp.isNone = true then { s with x := { s.x with arp := some j } } else s
  | .Imsi j => if j.ins = 0 ∧ s.x.imsi.isNone = true then { s with x := { s.x with imsi := some j } } else s
  | .Fteid j => if j.ins = 0 ∧ s.x.fteid_control.isNone = true then { s with x := { s.x with fteid_control := some j } } else s
  | .Indication j => if j.ins = 0 ∧ s.x.indication.isNone = true then { s with x := { s.x with indication := some j } } else s
  | .LoadControlInfo j => if j.ins = 0 then { s with x := { s.x with load_control := s.x.load_control ++ [j] } } else s
  | .OverloadControlInfo j => if j.ins = 0 then { s with x := { s.x with overload_info := s.x.overload_info ++ [j] } } else s
  | .PagingServiceInfo j => if j.ins = 0 ∧ s.x.psi.isNone = true then { s with x := { s.x with psi := some j } } else s
  | .IntegerNumber j => if j.ins = 0 ∧ s.x.dl_data_pckts_size.isNone = true then { s with x := { s.x with dl_data_pckts_size := some j } } else s
  | .PrivateExtension j => { s with x := { s.x with private_ext := s.x.private_ext ++ [j] } }
  | _ => s

/-- The end of `fromvec` (downlinkdatanotification.rs:133-191). -/
def finish (s : St) : R Err DownlinkDataNotification :=
  .ok s.x

/-- `fromvec` (downlinkdatanotification.rs:133-191). -/
def fromvec (x : DownlinkDataNotification) (els : List IE) : R Err DownlinkDataNotification := finish (els.foldl step ⟨x⟩)

/-- The message type (downlinkdatanotification.rs:55-86). -/
def codec : Codec DownlinkDataNotification :=
  { msgtype := 179, start := some 12, dflt, header := header, setHeader := fun x h => { x with header := h }, tovec, fromvec }

/-- One slot per field. -/
def schema : Schema :=
  [⟨.Cause, .is 0, .opt⟩,
   ⟨.Ebi, .is 0, .opt⟩,
   ⟨.Arp, .is 0, .opt⟩,
   ⟨.Imsi, .is 0, .opt⟩,
   ⟨.Fteid, .is 0, .opt⟩,
   ⟨.Indication, .is 0, .opt⟩,
   ⟨.LoadControlInfo, .is 0, .many⟩,
   ⟨.OverloadControlInfo, .is 0, .many⟩,
   ⟨.PagingServiceInfo, .is 0, .opt⟩,
   ⟨.IntegerNumber, .is 0, .opt⟩,
   ⟨.PrivateExtension, .any, .many⟩]

/-- The fields as lists of IEs. -/
def fields (x : DownlinkDataNotification) : List (List IE) :=
  [optV .Cause x.cause,
   optV .Ebi x.ebi,
   optV .Arp x.arp,
   optV .Imsi x.imsi,
   optV .Fteid x.fteid_control,
   optV .Indication x.indication,
   x.load_control.map .LoadControlInfo,
   x.overload_info.map .OverloadControlInfo,
   optV .PagingServiceInfo x.psi,
   optV .IntegerNumber x.dl_data_pckts_size,
   x.private_ext.map .PrivateExtension]

/-- What the state has collected so far. -/
def St.view (s : St) : List (List IE) :=
  [optV .Cause s.x.cause,
   optV .Ebi s.x.ebi,
   optV .Arp s.x.arp,
   optV .Imsi s.x.imsi,
   optV .Fteid s.x.fteid_control,
   optV .Indication s.x.indication,
   s.x.load_control.map .LoadControlInfo,
   s.x.overload_info.map .OverloadControlInfo,
   optV .PagingServiceInfo s.x.psi,
   optV .IntegerNumber s.x.dl_data_pckts_size,
   s.x.private_ext.map .PrivateExtension]

/-- The header is left alone; flags of mandatory lists tell whether the list is empty. -/
def St.Inv (h : Header) (s : St) : Prop :=
  s.x.header = h

theorem step_view (h : Header) (s : St) (e : IE) (hi : s.Inv h) : (step s e).view = Schema.step schema s.view e ∧ (step s e).Inv h := by
  cases e
  case Cause j =>
    simp only [step]
    repeat' split
    all_goals refine ⟨cons_congr ?_ ((Schema.step_other rfl rfl).symm), ?_⟩
    all_goals first | exact hi | msg_field | (simp_all [St.Inv]; done)
  case Ebi j =>
    simp only [step]
    repeat' split
    all_goals refine ⟨cons_congr (Slot.step_ne rfl).symm (cons_congr ?_ ((Schema.step_other rfl rfl).symm)), ?_⟩
    all_goals first | exact hi | msg_field | (simp_all [St.Inv]; done)
  case Arp j =>
    simp only [step]
    repeat' split
    all_goals refine ⟨cons_congr (Slot.step_ne rfl).symm (cons_congr (Slot.step_ne rfl).symm (cons_congr ?_ ((Schema.step_other rfl rfl).symm))), ?_⟩
    all_goals first | exact hi | msg_field | (simp_all [St.Inv]; done)
  case Imsi j =>
    simp only [step]
    repeat' split
    all_goals refine ⟨cons_congr (Slot.step_ne rfl).symm (cons_congr (Slot.step_ne rfl).symm (cons_congr (Slot.step_ne rfl).symm (cons_congr ?_ ((Schema.step_other rfl rfl).symm)))), ?_⟩
    all_goals first | exact hi | msg_field | (simp_all [St.Inv]; done)
  case Fteid j =>
    simp only [step]
    repeat' split
    all_goals refine ⟨cons_congr (Slot.step_ne rfl).symm (cons_congr (Slot.step_ne rfl).symm (cons_congr (Slot.step_ne rfl).symm (cons_congr (Slot.step_ne rfl).symm (cons_congr ?_ ((Schema.step_other rfl rfl).symm))))), ?_⟩
    all_goals first | exact hi | msg_field | (simp_all [St.Inv]; done)
  case Indication j =>
    simp only [step]
    repeat' split
    all_goals refine ⟨cons_congr (Slot.step_ne rfl).symm (cons_congr (Slot.step_ne rfl).symm (cons_congr (Slot.step_ne rfl).symm (cons_congr (Slot.step_ne rfl).symm (cons_congr (Slot.step_ne rfl).symm (cons_congr ?_ ((Schema.step_other rfl rfl).symm)))))), ?_⟩
    all_goals first | exact hi | msg_field | (simp_all [St.Inv]; done)
  case LoadControlInfo j =>
    simp only [step]
    repeat' split
    all_goals refine ⟨cons_congr (Slot.step_ne rfl).symm (cons_congr (Slot.step_ne rfl).symm (cons_congr (Slot.step_ne rfl).symm (cons_congr (Slot.step_ne rfl).symm (cons_congr (Slot.step_ne rfl).symm (cons_congr (Slot.step_ne rfl).symm (cons_congr ?_ ((Schema.step_other rfl rfl).symm))))))), ?_⟩
    all_goals first | exact hi | msg_field | (simp_all [St.Inv]; done)
  case OverloadControlInfo j =>
    simp only [step]
    repeat' split
    all_goals refine ⟨cons_congr (Slot.step_ne rfl).symm (cons_congr (Slot.step_ne rfl).symm (cons_congr (Slot.step_ne rfl).symm (cons_congr (Slot.step_ne rfl).symm (cons_congr (Slot.step_ne rfl).symm (cons_congr (Slot.step_ne rfl).symm (cons_congr (Slot.step_ne rfl).symm (cons_congr ?_ ((Schema.step_other rfl rfl).symm)))))))), ?_⟩
    all_goals first | exact hi | msg_field | (simp_all [St.Inv]; done)
  case PagingServiceInfo j =>
    simp only [step]
    repeat' split
    all_goals refine ⟨cons_congr (Slot.step_ne rfl).symm (cons_congr (Slot.step_ne rfl).symm (cons_congr (Slot.step_ne rfl).symm (cons_congr (Slot.step_ne rfl).symm (cons_congr (Slot.step_ne rfl).symm (cons_congr (Slot.step_ne rfl).symm (cons_congr (Slot.step_ne rfl).symm (cons_congr (Slot.step_ne rfl).symm (cons_congr ?_ ((Schema.step_other rfl rfl).symm))))))))), ?_⟩
    all_goals first | exact hi | msg_field | (simp_all [St.Inv]; done)
  case IntegerNumber j =>
    simp only [step]
    repeat' split
    all_goals refine ⟨cons_congr (Slot.step_ne rfl).symm (cons_congr (Slot.step_ne rfl).symm (cons_congr (Slot.step_ne rfl).symm (cons_congr (Slot.step_ne rfl).symm (cons_congr (Slot.step_ne rfl).symm (cons_congr (Slot.step_ne rfl).symm (cons_congr (Slot.step_ne rfl).symm (cons_congr (Slot.step_ne rfl).symm (cons_congr (Slot.step_ne rfl).symm (cons_congr ?_ ((Schema.step_other rfl rfl).symm)))))))))), ?_⟩
    all_goals first | exact hi | msg_field | (simp_all [St.Inv]; done)
  case PrivateExtension j =>
    simp only [step]
    all_goals refine ⟨cons_congr (Slot.step_ne rfl).symm (cons_congr (Slot.step_ne rfl).symm (cons_congr (Slot.step_ne rfl).symm (cons_congr (Slot.step_ne rfl).symm (cons_congr (Slot.step_ne rfl).symm (cons_congr (Slot.step_ne rfl).symm (cons_congr (Slot.step_ne rfl).symm (cons_congr (Slot.step_ne rfl).symm (cons_congr (Slot.step_ne rfl).symm (cons_congr (Slot.step_ne rfl).symm (cons_congr ?_ (rfl))))))))))), ?_⟩
    all_goals first | exact hi | msg_field | (simp_all [St.Inv]; done)
  all_goals exact ⟨(Schema.step_other rfl rfl).symm, hi⟩

theorem loop (h : Header) (els : List IE) :
    (els.foldl step ⟨{ dflt with header := h }⟩).view = schema.map (·.select els) ∧ (els.foldl step ⟨{ dflt with header := h }⟩).Inv h := by
  have := foldl_view (Q := fun _ => True) (fun s e hp _ => step_view h s e hp) els ⟨{ dflt with header := h }⟩ (fun _ _ => trivial) (by simp [St.Inv])
  rw [show St.view ⟨{ dflt with header := h }⟩ = schema.map (fun _ => []) from rfl, Schema.foldl_nil] at this
  exact this

theorem ext {x y : DownlinkDataNotification} (hh : x.header = y.header) (h : fields x = fields y) : x = y := by
  cases x; cases y
  simp only at hh
  subst hh
  injection h with h0 h
  cases optV_inj (fun _ _ h => IE.Cause.inj h) h0
  injection h with h1 h
  cases optV_inj (fun _ _ h => IE.Ebi.inj h) h1
  injection h with h2 h
  cases optV_inj (fun _ _ h => IE.Arp.inj h) h2
  injection h with h3 h
  cases optV_inj (fun _ _ h => IE.Imsi.inj h) h3
  injection h with h4 h
  cases optV_inj (fun _ _ h => IE.Fteid.inj h) h4
  injection h with h5 h
  cases optV_inj (fun _ _ h => IE.Indication.inj h) h5
  injection h with h6 h
  cases map_inj (fun _ _ h => IE.LoadControlInfo.inj h) h6
  injection h with h7 h
  cases map_inj (fun _ _ h => IE.OverloadControlInfo.inj h) h7
  injection h with h8 h
  cases optV_inj (fun _ _ h => IE.PagingServiceInfo.inj h) h8
  injection h with h9 h
  cases optV_inj (fun _ _ h => IE.IntegerNumber.inj h) h9
  injection h with h10 h
  cases map_inj (fun _ _ h => IE.PrivateExtension.inj h) h10
  rfl

theorem mand : schema.filter (·.card.mandatory) = [] := rfl

/-- The flags tell which mandatory IEs are absent. -/
theorem flags (h : Header) (els : List IE) : ∃ x , els.foldl step ⟨{ dflt with header := h }⟩ = ⟨x⟩ ∧ St.view ⟨x⟩ = schema.map (·.select els) ∧ x.header = h := by
  obtain ⟨hv, hi⟩ := loop h els
  generalize els.foldl step ⟨{ dflt with header := h }⟩ = s at hv hi ⊢
  obtain ⟨x⟩ := s
  simp only [St.Inv] at hi
  exact ⟨x, rfl, hv, hi⟩

theorem complete (h : Header) (els : List IE) (_hm : schema.missing els = []) : ∃ y, fromvec { dflt with header := h } els = .ok y ∧ y.header = h ∧ fields y = schema.map (·.select els) := by
  obtain ⟨x, hs, hv, hh⟩ := flags h els
  unfold fromvec
  rw [hs]
  exact ⟨x, rfl, hh, hv⟩

theorem describes : Describes codec schema fields where
  header_set _ _ := rfl
  fields_set _ _ := rfl
  ext _ _ hh h := ext hh h
  shape x := Aligned.opt (fun _ => rfl) <| Aligned.opt (fun _ => rfl) <| Aligned.opt (fun _ => rfl) <| Aligned.opt (fun _ => rfl) <| Aligned.opt (fun _ => rfl) <| Aligned.opt (fun _ => rfl) <| Aligned.many (fun _ => rfl) <| Aligned.many (fun _ => rfl) <| Aligned.opt (fun _ => rfl) <| Aligned.opt (fun _ => rfl) <| Aligned.many (fun _ => rfl) <| trivial
  tovec x := by simp [codec, tovec, fields]
  complete h els _ hm := complete h els hm

end DownlinkDataNotification

/-- `DownlinkDataNotificationAcknowledge` (downlinkdatanotificationacknowledge.rs:15-25). -/
structure DownlinkDataNotificationAcknowledge where
  header : Header
  cause : V2.Cause
  data_notification_delay : Option V2.DelayValue
  recovery : Option V2.Recovery
  dl_low_prio_traffic_throttling : Option V2.Throttling
  imsi : Option V2.Imsi
  dl_buff_dur : Option V2.EpcTimer
  dl_buff_sugg_packet_count : Option V2.IntegerNumber
  private_ext : List V2.PrivateExtension
deriving DecidableEq

namespace DownlinkDataNotificationAcknowledge

/-- `default` (downlinkdatanotificationacknowledge.rs:28-44). -/
def dflt : DownlinkDataNotificationAcknowledge :=
  { header := { Header.default with msgtype := 177, teid := some 0 }, cause := V2.Cause.dflt, data_notification_delay := none, recovery := none, dl_low_prio_traffic_throttling := none, imsi := none, dl_buff_dur := none, dl_buff_sugg_packet_count := none, private_ext := [] }

/-- `tovec` (downlinkdatanotificationacknowledge.rs:81-115). -/
def tovec (x : DownlinkDataNotificationAcknowledge) : List IE :=
  [.Cause x.cause] ++ (
  optV .DelayValue x.data_notification_delay ++ (
  optV .Recovery x.recovery ++ (
  optV .Throttling x.dl_low_prio_traffic_throttling ++ (
  optV .Imsi x.imsi ++ (
  optV .EpcTimer x.dl_buff_dur ++ (
  optV .IntegerNumber x.dl_buff_sugg_packet_count ++ (
  x.private_ext.map .PrivateExtension)))))))

/-- The variables of `fromvec`: the message and the array `mandatory` (downlinkdatanotificationacknowledge.rs:117-166). -/
structure St where
  x : DownlinkDataNotificationAcknowledge
  m0 : Bool

/-- One turn of the loop of `fromvec` (downlinkdatanotificationacknowledge.rs:117-166). -/
def step (s : St) : IE → St
  | .Cause j => if j.ins = 0 then { s with x := { s.x with cause := j }, m0 := true } else s
  | .DelayValue j => if j.ins = 0 ∧ s.x.data_notification_delay.isNone = true then { s with x := { s.x with data_notification_delay := some j } } else s
  | .Recovery j => if j.ins = 0 ∧ s.x.recovery.isNone = true then { s with x := { s.x with recovery := some j } } else s
  | .Throttling j => if j.ins = 0 ∧ s.x.dl_low_prio_traffic_throttling.isNone = true then { s with x := { s.x with dl_low_prio_traffic_throttling := some j } } else s
  | .Imsi j => if j.ins = 0 ∧ s.x.imsi.isNone = true then { s with x := { s.x with imsi := some j } } else s
  | .EpcTimer j => if j.ins = 0 ∧ s.x.dl_buff_dur.isNone = true then { s with x := { s.x with dl_buff_dur := some j } } else s
  | .IntegerNumber j => if j.ins = 0 ∧ s.x.dl_buff_sugg_packet_count.isNone = true then { s with x := { s.x with dl_buff_sugg_packet_count := some j } } else s
  | .PrivateExtension j => { s with x := { s.x with private_ext := s.x.private_ext ++ [j] } }
  | _ => s

/-- The end of `fromvec` (downlinkdatanotificationacknowledge.rs:117-166). -/
def finish (s : St) : R Err DownlinkDataNotificationAcknowledge :=
  if s.m0 then .ok s.x else .err (.messageMandatoryIEMissing 2)

/-- `fromvec` (downlinkdatanotificationacknowledge.rs:117-166). -/
def fromvec (x : DownlinkDataNotificationAcknowledge) (els : List IE) : R Err DownlinkDataNotificationAcknowledge := finish (els.foldl step ⟨x, false⟩)

/-- The message type (downlinkdatanotificationacknowledge.rs:48-79). -/
def codec : Codec DownlinkDataNotificationAcknowledge :=
  { msgtype := 177, start := some 12, dflt, header := header, setHeader := fun x h => { x with header := h }, tovec, fromvec }

/-- One slot per field. -/
def schema : Schema :=
  [⟨.Cause, .is 0, .oneLast⟩,
   ⟨.DelayValue, .is 0, .opt⟩,
   ⟨.Recovery, .is 0, .opt⟩,
   ⟨.Throttling, .is 0, .opt⟩,
   ⟨.Imsi, .is 0, .opt⟩,
   ⟨.EpcTimer, .is 0, .opt⟩,
   ⟨.IntegerNumber, .is 0, .opt⟩,
   ⟨.PrivateExtension, .any, .many⟩]

/-- The fields as lists of IEs. -/
def fields (x : DownlinkDataNotificationAcknowledge) : List (List IE) :=
  [[.Cause x.cause],
   optV .DelayValue x.data_notification_delay,
   optV .Recovery x.recovery,
   optV .Throttling x.dl_low_prio_traffic_throttling,
   optV .Imsi x.imsi,
   optV .EpcTimer x.dl_buff_dur,
   optV .IntegerNumber x.dl_buff_sugg_packet_count,
   x.private_ext.map .PrivateExtension]

/-- What the state has collected so far. -/
def St.view (s : St) : List (List IE) :=
  [if s.m0 then [.Cause s.x.cause] else [],
   optV .DelayValue s.x.data_notification_delay,
   optV .Recovery s.x.recovery,
   optV .Throttling s.x.dl_low_prio_traffic_throttling,
   optV .Imsi s.x.imsi,
   optV .EpcTimer s.x.dl_buff_dur,
   optV .IntegerNumber s.x.dl_buff_sugg_packet_count,
   s.x.private_ext.map .PrivateExtension]

/-- The header is left alone; flags of mandatory lists tell whether the list is empty. -/
def St.Inv (h : Header) (s : St) : Prop :=
  s.x.header = h

theorem step_view (h : Header) (s : St) (e : IE) (hi : s.Inv h) : (step s e).view = Schema.step schema s.view e ∧ (step s e).Inv h := by
  cases e
  case Cause j =>
    simp only [step]
    repeat' split
    all_goals refine ⟨cons_congr ?_ ((Schema.step_other rfl rfl).symm), ?_⟩
    all_goals first | exact hi | msg_field | (simp_all [St.Inv]; done)
  case DelayValue j =>
    simp only [step]
    repeat' split
    all_goals refine ⟨cons_congr (Slot.step_ne rfl).symm (cons_congr ?_ ((Schema.step_other rfl rfl).symm)), ?_⟩
    all_goals first | exact hi | msg_field | (simp_all [St.Inv]; done)
  case Recovery j =>
    simp only [step]
    repeat' split
    all_goals refine ⟨cons_congr (Slot.step_ne rfl).symm (cons_congr (Slot.step_ne rfl).symm (cons_congr ?_ ((Schema.step_other rfl rfl).symm))), ?_⟩
    all_goals first | exact hi | msg_field | (simp_all [St.Inv]; done)
  case Throttling j =>
    simp only [step]
    repeat' split
    all_goals refine ⟨cons_congr (Slot.step_ne rfl).symm (cons_congr (Slot.step_ne rfl).symm (cons_congr (Slot.step_ne rfl).symm (cons_congr ?_ ((Schema.step_other rfl rfl).symm)))), ?_⟩
    all_goals first | exact hi | msg_field | (simp_all [St.Inv]; done)
  case Imsi j =>
    simp only [step]
    repeat' split
    all_goals refine ⟨cons_congr (Slot.step_ne rfl).symm (cons_congr (Slot.step_ne rfl).symm (cons_congr (Slot.step_ne rfl).symm (cons_congr (Slot.step_ne rfl).symm (cons_congr ?_ ((Schema.step_other rfl rfl).symm))))), ?_⟩
    all_goals first | exact hi | msg_field | (simp_all [St.Inv]; done)
  case EpcTimer j =>
    simp only [step]
    repeat' split
    all_goals refine ⟨cons_congr (Slot.step_ne rfl).symm (cons_congr (Slot.step_ne rfl).symm (cons_congr (Slot.step_ne rfl).symm (cons_congr (Slot.step_ne rfl).symm (cons_congr (Slot.step_ne rfl).symm (cons_congr ?_ ((Schema.step_other rfl rfl).symm)))))), ?_⟩
    all_goals first | exact hi | msg_field | (simp_all [St.Inv]; done)
  case IntegerNumber j =>
    simp only [step]
    repeat' split
    all_goals refine ⟨cons_congr (Slot.step_ne rfl).symm (cons_congr (Slot.step_ne rfl).symm (cons_congr (Slot.step_ne rfl).symm (cons_congr (Slot.step_ne rfl).symm (cons_congr (Slot.step_ne rfl).symm (cons_congr (Slot.step_ne rfl).symm (cons_congr ?_ ((Schema.step_other rfl rfl).symm))))))), ?_⟩
    all_goals first | exact hi | msg_field | (simp_all [St.Inv]; done)
  case PrivateExtension j =>
    simp only [step]
    all_goals refine ⟨cons_congr (Slot.step_ne rfl).symm (cons_congr (Slot.step_ne rfl).symm (cons_congr (Slot.step_ne rfl).symm (cons_congr (Slot.step_ne rfl).symm (cons_congr (Slot.step_ne rfl).symm (cons_congr (Slot.step_ne rfl).symm (cons_congr (Slot.step_ne rfl).symm (cons_congr ?_ (rfl)))))))), ?_⟩
    all_goals first | exact hi | msg_field | (simp_all [St.Inv]; done)
  all_goals exact ⟨(Schema.step_other rfl rfl).symm, hi⟩

theorem loop (h : Header) (els : List IE) :
    (els.foldl step ⟨{ dflt with header := h }, false⟩).view = schema.map (·.select els) ∧ (els.foldl step ⟨{ dflt with header := h }, false⟩).Inv h := by
  have := foldl_view (Q := fun _ => True) (fun s e hp _ => step_view h s e hp) els ⟨{ dflt with header := h }, false⟩ (fun _ _ => trivial) (by simp [St.Inv])
  rw [show St.view ⟨{ dflt with header := h }, false⟩ = schema.map (fun _ => []) from rfl, Schema.foldl_nil] at this
  exact this

theorem ext {x y : DownlinkDataNotificationAcknowledge} (hh : x.header = y.header) (h : fields x = fields y) : x = y := by
  cases x; cases y
  simp only at hh
  subst hh
  injection h with h0 h
  cases h0
  injection h with h1 h
  cases optV_inj (fun _ _ h => IE.DelayValue.inj h) h1
  injection h with h2 h
  cases optV_inj (fun _ _ h => IE.Recovery.inj h) h2
  injection h with h3 h
  cases optV_inj (fun _ _ h => IE.Throttling.inj h) h3
  injection h with h4 h
  cases optV_inj (fun _ _ h => IE.Imsi.inj h) h4
  injection h with h5 h
  cases optV_inj (fun _ _ h => IE.EpcTimer.inj h) h5
  injection h with h6 h
  cases optV_inj (fun _ _ h => IE.IntegerNumber.inj h) h6
  injection h with h7 h
  cases map_inj (fun _ _ h => IE.PrivateExtension.inj h) h7
  rfl

theorem mand : schema.filter (·.card.mandatory) = [(⟨.Cause, .is 0, .oneLast⟩ : Slot)] := rfl

/-- The flags tell which mandatory IEs are absent. -/
theorem flags (h : Header) (els : List IE) : ∃ x m0, els.foldl step ⟨{ dflt with header := h }, false⟩ = ⟨x, m0⟩ ∧ St.view ⟨x, m0⟩ = schema.map (·.select els) ∧ x.header = h ∧
    (⟨.Cause, .is 0, .oneLast⟩ : Slot).lacks els = (!m0) := by
  obtain ⟨hv, hi⟩ := loop h els
  generalize els.foldl step ⟨{ dflt with header := h }, false⟩ = s at hv hi ⊢
  obtain ⟨x, m0⟩ := s
  simp only [St.Inv] at hi
  have l0 : (⟨.Cause, .is 0, .oneLast⟩ : Slot).lacks els = (!m0) := by
    rw [Slot.lacks_eq els rfl]
    have e := congrArg (fun l => l.getD 0 []) hv
    rw [show (⟨.Cause, .is 0, .oneLast⟩ : Slot).select els = if m0 then [.Cause x.cause] else [] from e.symm]
    cases m0 <;> rfl
  exact ⟨x, m0, rfl, hv, hi, l0⟩

theorem complete (h : Header) (els : List IE) (hm : schema.missing els = []) : ∃ y, fromvec { dflt with header := h } els = .ok y ∧ y.header = h ∧ fields y = schema.map (·.select els) := by
  obtain ⟨x, m0, hs, hv, hh, l0⟩ := flags h els
  unfold fromvec
  rw [hs]
  dsimp only [finish]
  have f0 := l0.symm.trans (Schema.of_missing_nil mand (by simp) hm)
  cases m0 <;> first | exact ⟨x, rfl, hh, hv⟩ | contradiction

theorem describes : Describes codec schema fields where
  header_set _ _ := rfl
  fields_set _ _ := rfl
  ext _ _ hh h := ext hh h
  shape x := Aligned.one (fun _ => rfl) <| Aligned.opt (fun _ => rfl) <| Aligned.opt (fun _ => rfl) <| Aligned.opt (fun _ => rfl) <| Aligned.opt (fun _ => rfl) <| Aligned.opt (fun _ => rfl) <| Aligned.opt (fun _ => rfl) <| Aligned.many (fun _ => rfl) <| trivial
  tovec x := by simp [codec, tovec, fields]
  complete h els _ hm := complete h els hm

theorem reports (h : Header) (els : List IE) (hm : schema.missing els ≠ []) :
    ∃ s ∈ schema.missing els, ∃ t, fromvec { dflt with header := h } els = .err (.messageMandatoryIEMissing t) ∧ kindOf t = s.kind := by
  obtain ⟨x, m0, hs, hv, hh, l0⟩ := flags h els
  unfold fromvec
  rw [hs]
  dsimp only [finish]
  cases m0 <;>
    first | exact ⟨_, Schema.mem_missing mand (by simp) l0, _, rfl, rfl⟩ | exact absurd (Schema.missing_nil mand (by simp [l0])) hm

theorem settled (h : Header) (els els' : List IE) (he : ∀ s ∈ schema, s.card.mandatory = true → s.lacks els = s.lacks els')
    (hm : schema.missing els ≠ []) : fromvec { dflt with header := h } els = fromvec { dflt with header := h } els' := by
  obtain ⟨x, m0, hs, hv, hh, l0⟩ := flags h els
  obtain ⟨x', m0', hs', hv', hh', l0'⟩ := flags h els'
  unfold fromvec
  rw [hs, hs']
  obtain rfl := Bool.not_inj (l0.symm.trans ((he _ (by decide) rfl).trans l0'))
  dsimp only [finish]
  cases m0 <;>
    first | rfl | exact absurd (Schema.missing_nil mand (by simp [l0])) hm

end DownlinkDataNotificationAcknowledge

/-- `DownlinkDataNotificationFailureIndication` (downlinkdatanotificationfailureindication.rs:15-21). -/
structure DownlinkDataNotificationFailureIndication where
  header : Header
  cause : V2.Cause
  orig_node : Option V2.NodeType
  imsi : Option V2.Imsi
  private_ext : List V2.PrivateExtension
deriving DecidableEq

namespace DownlinkDataNotificationFailureIndication

/-- `default` (downlinkdatanotificationfailureindication.rs:24-37). -/
def dflt : DownlinkDataNotificationFailureIndication :=
  { header := { Header.default with msgtype := 70, teid := some 0 }, cause := V2.Cause.dflt, orig_node := none, imsi := none, private_ext := [] }

/-- `tovec` (downlinkdatanotificationfailureindication.rs:74-92). -/
def tovec (x : DownlinkDataNotificationFailureIndication) : List IE :=
  [.Cause x.cause] ++ (
  optV .NodeType x.orig_node ++ (
  optV .Imsi x.imsi ++ (
  x.private_ext.map .PrivateExtension)))

/-- The variables of `fromvec`: the message and the array `mandatory` (downlinkdatanotificationfailureindication.rs:94-122). -/
structure St where
  x : DownlinkDataNotificationFailureIndication
  m0 : Bool

/-- One turn of the loop of `fromvec` (downlinkdatanotificationfailureindication.rs:94-122). -/
def step (s : St) : IE → St
  | .Cause j => if j.ins = 0 ∧ s.m0 = false then { s with x := { s.x with cause := j }, m0 := true } else s
  | .NodeType j => if j.ins = 0 ∧ s.x.orig_node.isNone = true then { s with x := { s.x with orig_node := some j } } else s
  | .Imsi j => if j.ins = 0 ∧ s.x.imsi.isNone = true then { s with x := { s.x with imsi := some j } } else s
  | .PrivateExtension j => { s with x := { s.x with private_ext := s.x.private_ext ++ [j] } }
  | _ => s

/-- The end of `fromvec` (downlinkdatanotificationfailureindication.rs:94-122). -/
def finish (s : St) : R Err DownlinkDataNotificationFailureIndication :=
  if s.m0 then .ok s.x else .err (.messageMandatoryIEMissing 2)

/-- `fromvec` (downlinkdatanotificationfailureindication.rs:94-122). -/
def fromvec (x : DownlinkDataNotificationFailureIndication) (els : List IE) : R Err DownlinkDataNotificationFailureIndication := finish (els.foldl step ⟨x, false⟩)

/-- The message type (downlinkdatanotificationfailureindication.rs:41-72). -/
def codec : Codec DownlinkDataNotificationFailureIndication :=
  { msgtype := 70, start := some 12, dflt, header := header, setHeader := fun x h => { x with header := h }, tovec, fromvec }

/-- One slot per field. -/
def schema : Schema :=
  [⟨.Cause, .is 0, .one⟩,
   ⟨.NodeType, .is 0, .opt⟩,
   ⟨.Imsi, .is 0, .opt⟩,
   ⟨.PrivateExtension, .any, .many⟩]

/-- The fields as lists of IEs. -/
def fields (x : DownlinkDataNotificationFailureIndication) : List (List IE) :=
  [[.Cause x.cause],
   optV .NodeType x.orig_node,
   optV .Imsi x.imsi,
   x.private_ext.map .PrivateExtension]

/-- What the state has collected so far. -/
def St.view (s : St) : List (List IE) :=
  [if s.m0 then [.Cause s.x.cause] else [],
   optV .NodeType s.x.orig_node,
   optV .Imsi s.x.imsi,
   s.x.private_ext.map .PrivateExtension]

/-- The header is left alone; flags of mandatory lists tell whether the list is empty. -/
def St.Inv (h : Header) (s : St) : Prop :=
  s.x.header = h

theorem step_view (h : Header) (s : St) (e : IE) (hi : s.Inv h) : (step s e).view = Schema.step schema s.view e ∧ (step s e).Inv h := by
  cases e
  case Cause j =>
    simp only [step]
    repeat' split
    all_goals refine ⟨cons_congr ?_ ((Schema.step_other rfl rfl).symm), ?_⟩
    all_goals first | exact hi | msg_field | (simp_all [St.Inv]; done)
  case NodeType j =>
    simp only [step]
    repeat' split
    all_goals refine ⟨cons_congr (Slot.step_ne rfl).symm (cons_congr ?_ ((Schema.step_other rfl rfl).symm)), ?_⟩
    all_goals first | exact hi | msg_field | (simp_all [St.Inv]; done)
  case Imsi j =>
    simp only [step]
    repeat' split
    all_goals refine ⟨cons_congr (Slot.step_ne rfl).symm (cons_congr (Slot.step_ne rfl).symm (cons_congr ?_ ((Schema.step_other rfl rfl).symm))), ?_⟩
    all_goals first | exact hi | msg_field | (simp_all [St.Inv]; done)
  case PrivateExtension j =>
    simp only [step]
    all_goals refine ⟨cons_congr (Slot.step_ne rfl).symm (cons_congr (Slot.step_ne rfl).symm (cons_congr (Slot.step_ne rfl).symm (cons_congr ?_ (rfl)))), ?_⟩
    all_goals first | exact hi | msg_field | (simp_all [St.Inv]; done)
  all_goals exact ⟨(Schema.step_other rfl rfl).symm, hi⟩

theorem loop (h : Header) (els : List IE) :
    (els.foldl step ⟨{ dflt with header := h }, false⟩).view = schema.map (·.select els) ∧ (els.foldl step ⟨{ dflt with header := h }, false⟩).Inv h := by
  have := foldl_view (Q := fun _ => True) (fun s e hp _ => step_view h s e hp) els ⟨{ dflt with header := h }, false⟩ (fun _ _ => trivial) (by simp [St.Inv])
  rw [show St.view ⟨{ dflt with header := h }, false⟩ = schema.map (fun _ => []) from rfl, Schema.foldl_nil] at this
  exact this

theorem ext {x y : DownlinkDataNotificationFailureIndication} (hh : x.header = y.header) (h : fields x = fields y) : x = y := by
  cases x; cases y
  simp only at hh
  subst hh
  injection h with h0 h
  cases h0
  injection h with h1 h
  cases optV_inj (fun _ _ h => IE.NodeType.inj h) h1
  injection h with h2 h
  cases optV_inj (fun _ _ h => IE.Imsi.inj h) h2
  injection h with h3 h
  cases map_inj (fun _ _ h => IE.PrivateExtension.inj h) h3
  rfl

theorem mand : schema.filter (·.card.mandatory) = [(⟨.Cause, .is 0, .one⟩ : Slot)] := rfl

/-- The flags tell which mandatory IEs are absent. -/
theorem flags (h : Header) (els : List IE) : ∃ x m0, els.foldl step ⟨{ dflt with header := h }, false⟩ = ⟨x, m0⟩ ∧ St.view ⟨x, m0⟩ = schema.map (·.select els) ∧ x.header = h ∧
    (⟨.Cause, .is 0, .one⟩ : Slot).lacks els = (!m0) := by
  obtain ⟨hv, hi⟩ := loop h els
  generalize els.foldl step ⟨{ dflt with header := h }, false⟩ = s at hv hi ⊢
  obtain ⟨x, m0⟩ := s
  simp only [St.Inv] at hi
  have l0 : (⟨.Cause, .is 0, .one⟩ : Slot).lacks els = (!m0) := by
    rw [Slot.lacks_eq els rfl]
    have e := congrArg (fun l => l.getD 0 []) hv
    rw [show (⟨.Cause, .is 0, .one⟩ : Slot).select els = if m0 then [.Cause x.cause] else [] from e.symm]
    cases m0 <;> rfl
  exact ⟨x, m0, rfl, hv, hi, l0⟩

theorem complete (h : Header) (els : List IE) (hm : schema.missing els = []) : ∃ y, fromvec { dflt with header := h } els = .ok y ∧ y.header = h ∧ fields y = schema.map (·.select els) := by
  obtain ⟨x, m0, hs, hv, hh, l0⟩ := flags h els
  unfold fromvec
  rw [hs]
  dsimp only [finish]
  have f0 := l0.symm.trans (Schema.of_missing_nil mand (by simp) hm)
  cases m0 <;> first | exact ⟨x, rfl, hh, hv⟩ | contradiction

theorem describes : Describes codec schema fields where
  header_set _ _ := rfl
  fields_set _ _ := rfl
  ext _ _ hh h := ext hh h
  shape x := Aligned.one (fun _ => rfl) <| Aligned.opt (fun _ => rfl) <| Aligned.opt (fun _ => rfl) <| Aligned.many (fun _ => rfl) <| trivial
  tovec x := by simp [codec, tovec, fields]
  complete h els _ hm := complete h els hm

theorem reports (h : Header) (els : List IE) (hm : schema.missing els ≠ []) :
    ∃ s ∈ schema.missing els, ∃ t, fromvec { dflt with header := h } els = .err (.messageMandatoryIEMissing t) ∧ kindOf t = s.kind := by
  obtain ⟨x, m0, hs, hv, hh, l0⟩ := flags h els
  unfold fromvec
  rw [hs]
  dsimp only [finish]
  cases m0 <;>
    first | exact ⟨_, Schema.mem_missing mand (by simp) l0, _, rfl, rfl⟩ | exact absurd (Schema.missing_nil mand (by simp [l0])) hm

theorem settled (h : Header) (els els' : List IE) (he : ∀ s ∈ schema, s.card.mandatory = true → s.lacks els = s.lacks els')
    (hm : schema.missing els ≠ []) : fromvec { dflt with header := h } els = fromvec { dflt with header := h } els' := by
  obtain ⟨x, m0, hs, hv, hh, l0⟩ := flags h els
  obtain ⟨x', m0', hs', hv', hh', l0'⟩ := flags h els'
  unfold fromvec
  rw [hs, hs']
  obtain rfl := Bool.not_inj (l0.symm.trans ((he _ (by decide) rfl).trans l0'))
  dsimp only [finish]
  cases m0 <;>
    first | rfl | exact absurd (Schema.missing_nil mand (by simp [l0])) hm

end DownlinkDataNotificationFailureIndication

/-- `EchoRequest` (echoreq.rs:15-20). -/
structure EchoRequest where
  header : Header
  recovery : V2.Recovery
  sending_node_features : Option V2.NodeFeatures
  private_ext : List V2.PrivateExtension
deriving DecidableEq

namespace EchoRequest

/-- `default` (echoreq.rs:23-34). -/
def dflt : EchoRequest :=
  { header := { Header.default with msgtype := 1 }, recovery := V2.Recovery.dflt, sending_node_features := none, private_ext := [] }

/-- `tovec` (echoreq.rs:71-85). -/
def tovec (x : EchoRequest) : List IE :=
  [.Recovery x.recovery] ++ (
  optV .NodeFeatures x.sending_node_features ++ (
  x.private_ext.map .PrivateExtension))

/-- The variables of `fromvec`: the message and the array `mandatory` (echoreq.rs:87-112). -/
structure St where
  x : EchoRequest
  m0 : Bool

/-- One turn of the loop of `fromvec` (echoreq.rs:87-112). -/
def step (s : St) : IE → St
  | .Recovery j => if j.ins = 0 ∧ s.m0 = false then { s with x := { s.x with recovery := j }, m0 := true } else s
  | .NodeFeatures j => if j.ins = 0 ∧ s.x.sending_node_features.isNone = true then { s with x := { s.x with sending_node_features := some j } } else s
  | .PrivateExtension j => { s with x := { s.x with private_ext := s.x.private_ext ++ [j] } }
  | _ => s

/-- The end of `fromvec` (echoreq.rs:87-112). -/
def finish (s : St) : R Err EchoRequest :=
  if s.m0 then .ok s.x else .err (.messageMandatoryIEMissing 3)

/-- `fromvec` (echoreq.rs:87-112). -/
def fromvec (x : EchoRequest) (els : List IE) : R Err EchoRequest := finish (els.foldl step ⟨x, false⟩)

/-- The message type (echoreq.rs:38-69). -/
def codec : Codec EchoRequest :=
  { msgtype := 1, start := some 8, dflt, header := header, setHeader := fun x h => { x with header := h }, tovec, fromvec }

/-- One slot per field. -/
def schema : Schema :=
  [⟨.Recovery, .is 0, .one⟩,
   ⟨.NodeFeatures, .is 0, .opt⟩,
   ⟨.PrivateExtension, .any, .many⟩]

/-- The fields as lists of IEs. -/
def fields (x : EchoRequest) : List (List IE) :=
  [[.Recovery x.recovery],
   optV .NodeFeatures x.sending_node_features,
   x.private_ext.map .PrivateExtension]

/-- What the state has collected so far. -/
def St.view (s : St) : List (List IE) :=
  [if s.m0 then [.Recovery s.x.recovery] else [],
   optV .NodeFeatures s.x.sending_node_features,
   s.x.private_ext.map .PrivateExtension]

/-- The header is left alone; flags of mandatory lists tell whether the list is empty. -/
def St.Inv (h : Header) (s : St) : Prop :=
  s.x.header = h

theorem step_view (h : Header) (s : St) (e : IE) (hi : s.Inv h) : (step s e).view = Schema.step schema s.view e ∧ (step s e).Inv h := by
  cases e
  case Recovery j =>
    simp only [step]
    repeat' split
    all_goals refine ⟨cons_congr ?_ ((Schema.step_other rfl rfl).symm), ?_⟩
    all_goals first | exact hi | msg_field | (simp_all [St.Inv]; done)
  case NodeFeatures j =>
    simp only [step]
    repeat' split
    all_goals refine ⟨cons_congr (Slot.step_ne rfl).symm (cons_congr ?_ ((Schema.step_other rfl rfl).symm)), ?_⟩
    all_goals first | exact hi | msg_field | (simp_all [St.Inv]; done)
  case PrivateExtension j =>
    simp only [step]
    all_goals refine ⟨cons_congr (Slot.step_ne rfl).symm (cons_congr (Slot.step_ne rfl).symm (cons_congr ?_ (rfl))), ?_⟩
    all_goals first | exact hi | msg_field | (simp_all [St.Inv]; done)
  all_goals exact ⟨(Schema.step_other rfl rfl).symm, hi⟩

theorem loop (h : Header) (els : List IE) :
    (els.foldl step ⟨{ dflt with header := h }, false⟩).view = schema.map (·.select els) ∧ (els.foldl step ⟨{ dflt with header := h }, false⟩).Inv h := by
  have := foldl_view (Q := fun _ => True) (fun s e hp _ => step_view h s e hp) els ⟨{ dflt with header := h }, false⟩ (fun _ _ => trivial) (by simp [St.Inv])
  rw [show St.view ⟨{ dflt with header := h }, false⟩ = schema.map (fun _ => []) from rfl, Schema.foldl_nil] at this
  exact this

theorem ext {x y : EchoRequest} (hh : x.header = y.header) (h : fields x = fields y) : x = y := by
  cases x; cases y
  simp only at hh
  subst hh
  injection h with h0 h
  cases h0
  injection h with h1 h
  cases optV_inj (fun _ _ h => IE.NodeFeatures.inj h) h1
  injection h with h2 h
  cases map_inj (fun _ _ h => IE.PrivateExtension.inj h) h2
  rfl

theorem mand : schema.filter (·.card.mandatory) = [(⟨.Recovery, .is 0, .one⟩ : Slot)] := rfl

/-- The flags tell which mandatory IEs are absent. -/
theorem flags (h : Header) (els : List IE) : ∃ x m0, els.foldl step ⟨{ dflt with header := h }, false⟩ = ⟨x, m0⟩ ∧ St.view ⟨x, m0⟩ = schema.map (·.select els) ∧ x.header = h ∧
    (⟨.Recovery, .is 0, .one⟩ : Slot).lacks els = (!m0) := by
  obtain ⟨hv, hi⟩ := loop h els
  generalize els.foldl step ⟨{ dflt with header := h }, false⟩ = s at hv hi ⊢
  obtain ⟨x, m0⟩ := s
  simp only [St.Inv] at hi
  have l0 : (⟨.Recovery, .is 0, .one⟩ : Slot).lacks els = (!m0) := by
    rw [Slot.lacks_eq els rfl]
    have e := congrArg (fun l => l.getD 0 []) hv
    rw [show (⟨.Recovery, .is 0, .one⟩ : Slot).select els = if m0 then [.Recovery x.recovery] else [] from e.symm]
    cases m0 <;> rfl
  exact ⟨x, m0, rfl, hv, hi, l0⟩

theorem complete (h : Header) (els : List IE) (hm : schema.missing els = []) : ∃ y, fromvec { dflt with header := h } els = .ok y ∧ y.header = h ∧ fields y = schema.map (·.select els) := by
  obtain ⟨x, m0, hs, hv, hh, l0⟩ := flags h els
  unfold fromvec
  rw [hs]
  dsimp only [finish]
  have f0 := l0.symm.trans (Schema.of_missing_nil mand (by simp) hm)
  cases m0 <;> first | exact ⟨x, rfl, hh, hv⟩ | contradiction

theorem describes : Describes codec schema fields where
  header_set _ _ := rfl
  fields_set _ _ := rfl
  ext _ _ hh h := ext hh h
  shape x := Aligned.one (fun _ => rfl) <| Aligned.opt (fun _ => rfl) <| Aligned.many (fun _ => rfl) <| trivial
  tovec x := by simp [codec, tovec, fields]
  complete h els _ hm := complete h els hm

theorem reports (h : Header) (els : List IE) (hm : schema.missing els ≠ []) :
    ∃ s ∈ schema.missing els, ∃ t, fromvec { dflt with header := h } els = .err (.messageMandatoryIEMissing t) ∧ kindOf t = s.kind := by
  obtain ⟨x, m0, hs, hv, hh, l0⟩ := flags h els
  unfold fromvec
  rw [hs]
  dsimp only [finish]
  cases m0 <;>
    first | exact ⟨_, Schema.mem_missing mand (by simp) l0, _, rfl, rfl⟩ | exact absurd (Schema.missing_nil mand (by simp [l0])) hm

theorem settled (h : Header) (els els' : List IE) (he : ∀ s ∈ schema, s.card.mandatory = true → s.lacks els = s.lacks els')
    (hm : schema.missing els ≠ []) : fromvec { dflt with header := h } els = fromvec { dflt with header := h } els' := by
  obtain ⟨x, m0, hs, hv, hh, l0⟩ := flags h els
  obtain ⟨x', m0', hs', hv', hh', l0'⟩ := flags h els'
  unfold fromvec
  rw [hs, hs']
  obtain rfl := Bool.not_inj (l0.symm.trans ((he _ (by decide) rfl).trans l0'))
  dsimp only [finish]
  cases m0 <;>
    first | rfl | exact absurd (Schema.missing_nil mand (by simp [l0])) hm

end EchoRequest

/-- `EchoResponse` (echoresp.rs:15-20). -/
structure EchoResponse where
  header : Header
  recovery : V2.Recovery
  sending_node_features : Option V2.NodeFeatures
  private_ext : List V2.PrivateExtension
deriving DecidableEq

namespace EchoResponse

/-- `default` (echoresp.rs:23-34). -/
def dflt : EchoResponse :=
  { header := { Header.default with msgtype := 2 }, recovery := V2.Recovery.dflt, sending_node_features := none, private_ext := [] }

/-- `tovec` (echoresp.rs:71-84). -/
def tovec (x : EchoResponse) : List IE :=
  [.Recovery x.recovery] ++ (
  optV .NodeFeatures x.sending_node_features ++ (
  x.private_ext.map .PrivateExtension))

/-- The variables of `fromvec`: the message and the array `mandatory` (echoresp.rs:86-111). -/
structure St where
  x : EchoResponse
  m0 : Bool

/-- One turn of the loop of `fromvec` (echoresp.rs:86-111). -/
def step (s : St) : IE → St
  | .Recovery j => if j.ins = 0 ∧ s.m0 = false then { s with x := { s.x with recovery := j }, m0 := true } else s
  | .NodeFeatures j => if j.ins = 0 ∧ s.x.sending_node_features.isNone = true then { s with x := { s.x with sending_node_features := some j } } else s
  | .PrivateExtension j => { s with x := { s.x with private_ext := s.x.private_ext ++ [j] } }
  | _ => s

/-- The end of `fromvec` (echoresp.rs:86-111). -/
def finish (s : St) : R Err EchoResponse :=
  if s.m0 then .ok s.x else .err (.messageMandatoryIEMissing 3)

/-- `fromvec` (echoresp.rs:86-111). -/
def fromvec (x : EchoResponse) (els : List IE) : R Err EchoResponse := finish (els.foldl step ⟨x, false⟩)

/-- The message type (echoresp.rs:38-69). -/
def codec : Codec EchoResponse :=
  { msgtype := 2, start := some 8, dflt, header := header, setHeader := fun x h => { x with header := h }, tovec, fromvec }

/-- One slot per field. -/
def schema : Schema :=
  [⟨.Recovery, .is 0, .one⟩,
   ⟨.NodeFeatures, .is 0, .opt⟩,
   ⟨.PrivateExtension, .any, .many⟩]

/-- The fields as lists of IEs. -/
def fields (x : EchoResponse) : List (List IE) :=
  [[.Recovery x.recovery],
   optV .NodeFeatures x.sending_node_features,
   x.private_ext.map .PrivateExtension]

/-- What the state has collected so far. -/
def St.view (s : St) : List (List IE) :=
  [if s.m0 then [.Recovery s.x.recovery] else [],
   optV .NodeFeatures s.x.sending_node_features,
   s.x.private_ext.map .PrivateExtension]

/-- The header is left alone; flags of mandatory lists tell whether the list is empty. -/
def St.Inv (h : Header) (s : St) : Prop :=
  s.x.header = h

theorem step_view (h : Header) (s : St) (e : IE) (hi : s.Inv h) : (step s e).view = Schema.step schema s.view e ∧ (step s e).Inv h := by
  cases e
  case Recovery j =>
    simp only [step]
    repeat' split
    all_goals refine ⟨cons_congr ?_ ((Schema.step_other rfl rfl).symm), ?_⟩
    all_goals first | exact hi | msg_field | (simp_all [St.Inv]; done)
  case NodeFeatures j =>
    simp only [step]
    repeat' split
    all_goals refine ⟨cons_congr (Slot.step_ne rfl).symm (cons_congr ?_ ((Schema.step_other rfl rfl).symm)), ?_⟩
    all_goals first | exact hi | msg_field | (simp_all [St.Inv]; done)
  case PrivateExtension j =>
    simp only [step]
    all_goals refine ⟨cons_congr (Slot.step_ne rfl).symm (cons_congr (Slot.step_ne rfl).symm (cons_congr ?_ (rfl))), ?_⟩
    all_goals first | exact hi | msg_field | (simp_all [St.Inv]; done)
  all_goals exact ⟨(Schema.step_other rfl rfl).symm, hi⟩

theorem loop (h : Header) (els : List IE) :
    (els.foldl step ⟨{ dflt with header := h }, false⟩).view = schema.map (·.select els) ∧ (els.foldl step ⟨{ dflt with header := h }, false⟩).Inv h := by
  have := foldl_view (Q := fun _ => True) (fun s e hp _ => step_view h s e hp) els ⟨{ dflt with header := h }, false⟩ (fun _ _ => trivial) (by simp [St.Inv])
  rw [show St.view ⟨{ dflt with header := h }, false⟩ = schema.map (fun _ => []) from rfl, Schema.foldl_nil] at this
  exact this

theorem ext {x y : EchoResponse} (hh : x.header = y.header) (h : fields x = fields y) : x = y := by
  cases x; cases y
  simp only at hh
  subst hh
  injection h with h0 h
  cases h0
  injection h with h1 h
  cases optV_inj (fun _ _ h => IE.NodeFeatures.inj h) h1
  injection h with h2 h
  cases map_inj (fun _ _ h => IE.PrivateExtension.inj h) h2
  rfl

theorem mand : schema.filter (·.card.mandatory) = [(⟨.Recovery, .is 0, .one⟩ : Slot)] := rfl

/-- The flags tell which mandatory IEs are absent. -/
theorem flags (h : Header) (els : List IE) : ∃ x m0, els.foldl step ⟨{ dflt with header := h }, false⟩ = ⟨x, m0⟩ ∧ St.view ⟨x, m0⟩ = schema.map (·.select els) ∧ x.header = h ∧
    (⟨.Recovery, .is 0, .one⟩ : Slot).lacks els = (!m0) := by
  obtain ⟨hv, hi⟩ := loop h els
  generalize els.foldl step ⟨{ dflt with header := h }, false⟩ = s at hv hi ⊢
  obtain ⟨x, m0⟩ := s
  simp only [St.Inv] at hi
  have l0 : (⟨.Recovery, .is 0, .one⟩ : Slot).lacks els = (!m0) := by
    rw [Slot.lacks_eq els rfl]
    have e := congrArg (fun l => l.getD 0 []) hv
    rw [show (⟨.Recovery, .is 0, .one⟩ : Slot).select els = if m0 then [.Recovery x.recovery] else [] from e.symm]
    cases m0 <;> rfl
  exact ⟨x, m0, rfl, hv, hi, l0⟩

theorem complete (h : Header) (els : List IE) (hm : schema.missing els = []) : ∃ y, fromvec { dflt with header := h } els = .ok y ∧ y.header = h ∧ fields y = schema.map (·.select els) := by
  obtain ⟨x, m0, hs, hv, hh, l0⟩ := flags h els
  unfold fromvec
  rw [hs]
  dsimp only [finish]
  have f0 := l0.symm.trans (Schema.of_missing_nil mand (by simp) hm)
  cases m0 <;> first | exact ⟨x, rfl, hh, hv⟩ | contradiction

theorem describes : Describes codec schema fields where
  header_set _ _ := rfl
  fields_set _ _ := rfl
  ext _ _ hh h := ext hh h
  shape x := Aligned.one (fun _ => rfl) <| Aligned.opt (fun _ => rfl) <| Aligned.many (fun _ => rfl) <| trivial
  tovec x := by simp [codec, tovec, fields]
  complete h els _ hm := complete h els hm

theorem reports (h : Header) (els : List IE) (hm : schema.missing els ≠ []) :
    ∃ s ∈ schema.missing els, ∃ t, fromvec { dflt with header := h } els = .err (.messageMandatoryIEMissing t) ∧ kindOf t = s.kind := by
  obtain ⟨x, m0, hs, hv, hh, l0⟩ := flags h els
  unfold fromvec
  rw [hs]
  dsimp only [finish]
  cases m0 <;>
    first | exact ⟨_, Schema.mem_missing mand (by simp) l0, _, rfl, rfl⟩ | exact absurd (Schema.missing_nil mand (by simp [l0])) hm

theorem settled (h : Header) (els els' : List IE) (he : ∀ s ∈ schema, s.card.mandatory = true → s.lacks els = s.lacks els')
    (hm : schema.missing els ≠ []) : fromvec { dflt with header := h } els = fromvec { dflt with header := h } els' := by
  obtain ⟨x, m0, hs, hv, hh, l0⟩ := flags h els
  obtain ⟨x', m0', hs', hv', hh', l0'⟩ := flags h els'
  unfold fromvec
  rw [hs, hs']
  obtain rfl := Bool.not_inj (l0.symm.trans ((he _ (by decide) rfl).trans l0'))
  dsimp only [finish]
  cases m0 <;>
    first | rfl | exact absurd (Schema.missing_nil mand (by simp [l0])) hm

end EchoResponse

/-- `ForwardAccessContextAcknowledge` (forwardaccesscontextacknowledge.rs:15-19). -/
structure ForwardAccessContextAcknowledge where
  header : Header
  cause : V2.Cause
  private_ext : List V2.PrivateExtension
deriving DecidableEq

namespace ForwardAccessContextAcknowledge

/-- `default` (forwardaccesscontextacknowledge.rs:22-33). -/
def dflt : ForwardAccessContextAcknowledge :=
  { header := { Header.default with msgtype := 138, teid := some 0 }, cause := V2.Cause.dflt, private_ext := [] }

/-- `tovec` (forwardaccesscontextacknowledge.rs:69-79). -/
def tovec (x : ForwardAccessContextAcknowledge) : List IE :=
  [.Cause x.cause] ++ (
  x.private_ext.map .PrivateExtension)

/-- The variables of `fromvec`: the message and the array `mandatory` (forwardaccesscontextacknowledge.rs:81-99). -/
structure St where
  x : ForwardAccessContextAcknowledge
  m0 : Bool

/-- One turn of the loop of `fromvec` (forwardaccesscontextacknowledge.rs:81-99). -/
def step (s : St) : IE → St
  | .Cause j => if j.ins = 0 ∧ s.m0 = false then { s with x := { s.x with cause := j }, m0 := true } else s
  | .PrivateExtension j => { s with x := { s.x with private_ext := s.x.private_ext ++ [j] } }
  | _ => s

/-- The end of `fromvec` (forwardaccesscontextacknowledge.rs:81-99). -/
def finish (s : St) : R Err ForwardAccessContextAcknowledge :=
  if s.m0 then .ok s.x else .err (.messageMandatoryIEMissing 2)

/-- `fromvec` (forwardaccesscontextacknowledge.rs:81-99). -/
def fromvec (x : ForwardAccessContextAcknowledge) (els : List IE) : R Err ForwardAccessContextAcknowledge := finish (els.foldl step ⟨x, false⟩)

/-- The message type (forwardaccesscontextacknowledge.rs:37-67). -/
def codec : Codec ForwardAccessContextAcknowledge :=
  { msgtype := 138, start := some 12, dflt, header := header, setHeader := fun x h => { x with header := h }, tovec, fromvec }

/-- One slot per field. -/
def schema : Schema :=
  [⟨.Cause, .is 0, .one⟩,
   ⟨.PrivateExtension, .any, .many⟩]

/-- The fields as lists of IEs. -/
def fields (x : ForwardAccessContextAcknowledge) : List (List IE) :=
  [[.Cause x.cause],
   x.private_ext.map .PrivateExtension]

/-- What the state has collected so far. -/
def St.view (s : St) : List (List IE) :=
  [if s.m0 then [.Cause s.x.cause] else [],
   s.x.private_ext.map .PrivateExtension]

/-- The header is left alone; flags of mandatory lists tell whether the list is empty. -/
def St.Inv (h : Header) (s : St) : Prop :=
  s.x.header = h

theorem step_view (h : Header) (s : St) (e : IE) (hi : s.Inv h) : (step s e).view = Schema.step schema s.view e ∧ (step s e).Inv h := by
  cases e
  case Cause j =>
    simp only [step]
    repeat' split
    all_goals refine ⟨cons_congr ?_ ((Schema.step_other rfl rfl).symm), ?_⟩
    all_goals first | exact hi | msg_field | (simp_all [St.Inv]; done)
  case PrivateExtension j =>
    simp only [step]
    all_goals refine ⟨cons_congr (Slot.step_ne rfl).symm (cons_congr ?_ (rfl)), ?_⟩
    all_goals first | exact hi | msg_field | (simp_all [St.Inv]; done)
  all_goals exact ⟨(Schema.step_other rfl rfl).symm, hi⟩

theorem loop (h : Header) (els : List IE) :
    (els.foldl step ⟨{ dflt with header := h }, false⟩).view = schema.map (·.select els) ∧ (els.foldl step ⟨{ dflt with header := h }, false⟩).Inv h := by
  have := foldl_view (Q := fun _ => True) (fun s e hp _ => step_view h s e hp) els ⟨{ dflt with header := h }, false⟩ (fun _ _ => trivial) (by simp [St.Inv])
  rw [show St.view ⟨{ dflt with header := h }, false⟩ = schema.map (fun _ => []) from rfl, Schema.foldl_nil] at this
  exact this

theorem ext {x y : ForwardAccessContextAcknowledge} (hh : x.header = y.header) (h : fields x = fields y) : x = y := by
  cases x; cases y
  simp only at hh
  subst hh
  injection h with h0 h
  cases h0
  injection h with h1 h
  cases map_inj (fun _ _ h => IE.PrivateExtension.inj h) h1
  rfl

theorem mand : schema.filter (·.card.mandatory) = [(⟨.Cause, .is 0, .one⟩ : Slot)] := rfl

/-- The flags tell which mandatory IEs are absent. -/
theorem flags (h : Header) (els : List IE) : ∃ x m0, els.foldl step ⟨{ dflt with header := h }, false⟩ = ⟨x, m0⟩ ∧ St.view ⟨x, m0⟩ = schema.map (·.select els) ∧ x.header = h ∧
    (⟨.Cause, .is 0, .one⟩ : Slot).lacks els = (!m0) := by
  obtain ⟨hv, hi⟩ := loop h els
  generalize els.foldl step ⟨{ dflt with header := h }, false⟩ = s at hv hi ⊢
  obtain ⟨x, m0⟩ := s
  simp only [St.Inv] at hi
  have l0 : (⟨.Cause, .is 0, .one⟩ : Slot).lacks els = (!m0) := by
    rw [Slot.lacks_eq els rfl]
    have e := congrArg (fun l => l.getD 0 []) hv
    rw [show (⟨.Cause, .is 0, .one⟩ : Slot).select els = if m0 then [.Cause x.cause] else [] from e.symm]
    cases m0 <;> rfl
  exact ⟨x, m0, rfl, hv, hi, l0⟩

theorem complete (h : Header) (els : List IE) (hm : schema.missing els = []) : ∃ y, fromvec { dflt with header := h } els = .ok y ∧ y.header = h ∧ fields y = schema.map (·.select els) := by
  obtain ⟨x, m0, hs, hv, hh, l0⟩ := flags h els
  unfold fromvec
  rw [hs]
  dsimp only [finish]
  have f0 := l0.symm.trans (Schema.of_missing_nil mand (by simp) hm)
  cases m0 <;> first | exact ⟨x, rfl, hh, hv⟩ | contradiction

theorem describes : Describes codec schema fields where
  header_set _ _ := rfl
  fields_set _ _ := rfl
  ext _ _ hh h := ext hh h
  shape x := Aligned.one (fun _ => rfl) <| Aligned.many (fun _ => rfl) <| trivial
  tovec x := by simp [codec, tovec, fields]
  complete h els _ hm := complete h els hm

theorem reports (h : Header) (els : List IE) (hm : schema.missing els ≠ []) :
    ∃ s ∈ schema.missing els, ∃ t, fromvec { dflt with header := h } els = .err (.messageMandatoryIEMissing t) ∧ kindOf t = s.kind := by
  obtain ⟨x, m0, hs, hv, hh, l0⟩ := flags h els
  unfold fromvec
  rw [hs]
  dsimp only [finish]
  cases m0 <;>
    first | exact ⟨_, Schema.mem_missing mand (by simp) l0, _, rfl, rfl⟩ | exact absurd (Schema.missing_nil mand (by simp [l0])) hm

theorem settled (h : Header) (els els' : List IE) (he : ∀ s ∈ schema, s.card.mandatory = true → s.lacks els = s.lacks els')
    (hm : schema.missing els ≠ []) : fromvec { dflt with header := h } els = fromvec { dflt with header := h } els' := by
  obtain ⟨x, m0, hs, hv, hh, l0⟩ := flags h els
  obtain ⟨x', m0', hs', hv', hh', l0'⟩ := flags h els'
  unfold fromvec
  rw [hs, hs']
  obtain rfl := Bool.not_inj (l0.symm.trans ((he _ (by decide) rfl).trans l0'))
  dsimp only [finish]
  cases m0 <;>
    first | rfl | exact absurd (Schema.missing_nil mand (by simp [l0])) hm

end ForwardAccessContextAcknowledge

/-- `ForwardAccessContextNotification` (forwardaccesscontextnotification.rs:15-22). -/
structure ForwardAccessContextNotification where
  header : Header
  rab_ctxs : List V2.RabContext
  src_rnc_pdcp_ctx : Option V2.SourceRncPdcpContextInfo
  pdu_numbers : Option V2.PduNumbers
  eutran_containers : List V2.Fcontainer
  private_ext : List V2.PrivateExtension
deriving DecidableEq

namespace ForwardAccessContextNotification

/-- `default` (forwardaccesscontextnotification.rs:25-38). -/
def dflt : ForwardAccessContextNotification :=
  { header := { Header.default with msgtype := 137, teid := some 0 }, rab_ctxs := [], src_rnc_pdcp_ctx := none, pdu_numbers := none, eutran_containers := [], private_ext := [] }

/-- `tovec` (forwardaccesscontextnotification.rs:75-99). -/
def tovec (x : ForwardAccessContextNotification) : List IE :=
  x.rab_ctxs.map .RabContext ++ (
  optV .SrcRncPdcpCtxInfo x.src_rnc_pdcp_ctx ++ (
  optV .PduNumbers x.pdu_numbers ++ (
  x.eutran_containers.map .Fcontainer ++ (
  x.private_ext.map .PrivateExtension))))

/-- The variables of `fromvec`: the message and the array `mandatory` (forwardaccesscontextnotification.rs:101-129). -/
structure St where
  x : ForwardAccessContextNotification

/-- One turn of the loop of `fromvec` (forwardaccesscontextnotification.rs:101-129). -/
def step (s : St) : IE → St
  | .RabContext j => if j.ins = 0 then { s with x := { s.x with rab_ctxs := s.x.rab_ctxs ++ [j] } } else s
  | .SrcRncPdcpCtxInfo j => if j.ins = 0 ∧ s.x.src_rnc_pdcp_ctx.isNone = true then { s with x := { s.x with src_rnc_pdcp_ctx := some j } } else s
  | .PduNumbers j => if j.ins = 0 ∧ s.x.pdu_numbers.isNone = true then { s with x := { s.x with pdu_numbers := some j } } else s
  | .Fcontainer j => if j.ins < 2 then { s with x := { s.x with eutran_containers := s.x.eutran_containers ++ [j] } } else s
  | .PrivateExtension j => { s with x := { s.x with private_ext := s.x.private_ext ++ [j] } }
  | _ => s

/-- The end of `fromvec` (forwardaccesscontextnotification.rs:101-129). -/
def finish (s : St) : R Err ForwardAccessContextNotification :=
  .ok s.x

/-- `fromvec` (forwardaccesscontextnotification.rs:101-129). -/
def fromvec (x : ForwardAccessContextNotification) (els : List IE) : R Err ForwardAccessContextNotification := finish (els.foldl step ⟨x⟩)

/-- The message type (forwardaccesscontextnotification.rs:42-73). -/
def codec : Codec ForwardAccessContextNotification :=
  { msgtype := 137, start := some 12, dflt, header := header, setHeader := fun x h => { x with header := h }, tovec, fromvec }

/-- One slot per field. -/
def schema : Schema :=
  [⟨.RabContext, .is 0, .many⟩,
   ⟨.SrcRncPdcpCtxInfo, .is 0, .opt⟩,
   ⟨.PduNumbers, .is 0, .opt⟩,
   ⟨.Fcontainer, .lt 2, .many⟩,
   ⟨.PrivateExtension, .any, .many⟩]

/-- The fields as lists of IEs. -/
def fields (x : ForwardAccessContextNotification) : List (List IE) :=
  [x.rab_ctxs.map .RabContext,
   optV .SrcRncPdcpCtxInfo x.src_rnc_pdcp_ctx,
   optV .PduNumbers x.pdu_numbers,
   x.eutran_containers.map .Fcontainer,
   x.private_ext.map .PrivateExtension]

/-- What the state has collected so far. -/
def St.view (s : St) : List (List IE) :=
  [s.x.rab_ctxs.map .RabContext,
   optV .SrcRncPdcpCtxInfo s.x.src_rnc_pdcp_ctx,
   optV .PduNumbers s.x.pdu_numbers,
   s.x.eutran_containers.map .Fcontainer,
   s.x.private_ext.map .PrivateExtension]

/-- The header is left alone; flags of mandatory lists tell whether the list is empty. -/
def St.Inv (h : Header) (s : St) : Prop :=
  s.x.header = h

theorem step_view (h : Header) (s : St) (e : IE) (hi : s.Inv h) : (step s e).view = Schema.step schema s.view e ∧ (step s e).Inv h := by
  cases e
  case RabContext j =>
    simp only [step]
    repeat' split
    all_goals refine ⟨cons_congr ?_ ((Schema.step_other rfl rfl).symm), ?_⟩
    all_goals first | exact hi | msg_field | (simp_all [St.Inv]; done)
  case SrcRncPdcpCtxInfo j =>
    simp only [step]
    repeat' split
    all_goals refine ⟨cons_congr (Slot.step_ne rfl).symm (cons_congr ?_ ((Schema.step_other rfl rfl).symm)), ?_⟩
    all_goals first | exact hi | msg_field | (simp_all [St.Inv]; done)
  case PduNumbers j =>
    simp only [step]
    repeat' split
    all_goals refine ⟨cons_congr (Slot.step_ne rfl).symm (cons_congr (Slot.step_ne rfl).symm (cons_congr ?_ ((Schema.step_other rfl rfl).symm))), ?_⟩
    all_goals first | exact hi | msg_field | (simp_all [St.Inv]; done)
  case Fcontainer j =>
    simp only [step]
    repeat' split
    all_goals refine ⟨cons_congr (Slot.step_ne rfl).symm (cons_congr (Slot.step_ne rfl).symm (cons_congr (Slot.step_ne rfl).symm (cons_congr ?_ ((Schema.step_other rfl rfl).symm)))), ?_⟩
    all_goals first | exact hi | msg_field | (simp_all [St.Inv]; done)
  case PrivateExtension j =>
    simp only [step]
    all_goals refine ⟨cons_congr (Slot.step_ne rfl).symm (cons_congr (Slot.step_ne rfl).symm (cons_congr (Slot.step_ne rfl).symm (cons_congr (Slot.step_ne rfl).symm (cons_congr ?_ (rfl))))), ?_⟩
    all_goals first | exact hi | msg_field | (simp_all [St.Inv]; done)
  all_goals exact ⟨(Schema.step_other rfl rfl).symm, hi⟩

theorem loop (h : Header) (els : List IE) :
    (els.foldl step ⟨{ dflt with header := h }⟩).view = schema.map (·.select els) ∧ (els.foldl step ⟨{ dflt with header := h }⟩).Inv h := by
  have := foldl_view (Q := fun _ => True) (fun s e hp _ => step_view h s e hp) els ⟨{ dflt with header := h }⟩ (fun _ _ => trivial) (by simp [St.Inv])
  rw [show St.view ⟨{ dflt with header := h }⟩ = schema.map (fun _ => []) from rfl, Schema.foldl_nil] at this
  exact this

theorem ext {x y : ForwardAccessContextNotification} (hh : x.header = y.header) (h : fields x = fields y) : x = y := by
  cases x; cases y
  simp only at hh
  subst hh
  injection h with h0 h
  cases map_inj (fun _ _ h => IE.RabContext.inj h) h0
  injection h with h1 h
  cases optV_inj (fun _ _ h => IE.SrcRncPdcpCtxInfo.inj h) h1
  injection h with h2 h
  cases optV_inj (fun _ _ h => IE.PduNumbers.inj h) h2
  injection h with h3 h
  cases map_inj (fun _ _ h => IE.Fcontainer.inj h) h3
  injection h with h4 h
  cases map_inj (fun _ _ h => IE.PrivateExtension.inj h) h4
  rfl

theorem mand : schema.filter (·.card.mandatory) = [] := rfl

/-- The flags tell which mandatory IEs are absent. -/
theorem flags (h : Header) (els : List IE) : ∃ x , els.foldl step ⟨{ dflt with header := h }⟩ = ⟨x⟩ ∧ St.view ⟨x⟩ = schema.map (·.select els) ∧ x.header = h := by
  obtain ⟨hv, hi⟩ := loop h els
  generalize els.foldl step ⟨{ dflt with header := h }⟩ = s at hv hi ⊢
  obtain ⟨x⟩ := s
  simp only [St.Inv] at hi
  exact ⟨x, rfl, hv, hi⟩

theorem complete (h : Header) (els : List IE) (_hm : schema.missing els = []) : ∃ y, fromvec { dflt with header := h } els = .ok y ∧ y.header = h ∧ fields y = schema.map (·.select els) := by
  obtain ⟨x, hs, hv, hh⟩ := flags h els
  unfold fromvec
  rw [hs]
  exact ⟨x, rfl, hh, hv⟩

theorem describes : Describes codec schema fields where
  header_set _ _ := rfl
  fields_set _ _ := rfl
  ext _ _ hh h := ext hh h
  shape x := Aligned.many (fun _ => rfl) <| Aligned.opt (fun _ => rfl) <| Aligned.opt (fun _ => rfl) <| Aligned.many (fun _ => rfl) <| Aligned.many (fun _ => rfl) <| trivial
  tovec x := by simp [codec, tovec, fields]
  complete h els _ hm := complete h els hm

end ForwardAccessContextNotification

/-- `ForwardRelocationCompleteAcknowledge` (forwardrelocationcompleteacknowledge.rs:15-21). -/
structure ForwardRelocationCompleteAcknowledge where
  header : Header
  cause : V2.Cause
  recovery : Option V2.Recovery
  scnd_rat_udrs : List V2.SecondaryRatUsageDataReport
  private_ext : List V2.PrivateExtension
deriving DecidableEq

namespace ForwardRelocationCompleteAcknowledge

/-- `default` (forwardrelocationcompleteacknowledge.rs:24-37). -/
def dflt : ForwardRelocationCompleteAcknowledge :=
  { header := { Header.default with msgtype := 136, teid := some 0 }, cause := V2.Cause.dflt, recovery := none, scnd_rat_udrs := [], private_ext := [] }

/-- `tovec` (forwardrelocationcompleteacknowledge.rs:73-91). -/
def tovec (x : ForwardRelocationCompleteAcknowledge) : List IE :=
  [.Cause x.cause] ++ (
  optV .Recovery x.recovery ++ (
  x.scnd_rat_udrs.map .SecondaryRatUsageDataReport ++ (
  x.private_ext.map .PrivateExtension)))

/-- The variables of `fromvec`: the message and the array `mandatory` (forwardrelocationcompleteacknowledge.rs:93-121). -/
structure St where
  x : ForwardRelocationCompleteAcknowledge
  m0 : Bool

/-- One turn of the loop of `fromvec` (forwardrelocationcompleteacknowledge.rs:93-121). -/
def step (s : St) : IE → St
  | .Cause j => if j.ins = 0 ∧ s.m0 = false then { s with x := { s.x with cause := j }, m0 := true } else s
  | .Recovery j => if j.ins = 0 ∧ s.x.recovery.isNone = true then { s with x := { s.x with recovery := some j } } else s
  | .SecondaryRatUsageDataReport j => if j.ins < 2 then { s with x := { s.x with scnd_rat_udrs := s.x.scnd_rat_udrs ++ [j] } } else s
  | .PrivateExtension j => { s with x := { s.x with private_ext := s.x.private_ext ++ [j] } }
  | _ => s

/-- The end of `fromvec` (forwardrelocationcompleteacknowledge.rs:93-121). -/
def finish (s : St) : R Err ForwardRelocationCompleteAcknowledge :=
  if s.m0 then .ok s.x else .err (.messageMandatoryIEMissing 2)

/-- `fromvec` (forwardrelocationcompleteacknowledge.rs:93-121). -/
def fromvec (x : ForwardRelocationCompleteAcknowledge) (els : List IE) : R Err ForwardRelocationCompleteAcknowledge := finish (els.foldl step ⟨x, false⟩)

/-- The message type (forwardrelocationcompleteacknowledge.rs:41-71). -/
def codec : Codec ForwardRelocationCompleteAcknowledge :=
  { msgtype := 136, start := some 12, dflt, header := header, setHeader := fun x h => { x with header := h }, tovec, fromvec }

/-- One slot per field. -/
def schema : Schema :=
  [⟨.Cause, .is 0, .one⟩,
   ⟨.Recovery, .is 0, .opt⟩,
   ⟨.SecondaryRatUsageDataReport, .lt 2, .many⟩,
   ⟨.PrivateExtension, .any, .many⟩]

/-- The fields as lists of IEs. -/
def fields (x : ForwardRelocationCompleteAcknowledge) : List (List IE) :=
  [[.Cause x.cause],
   optV .Recovery x.recovery,
   x.scnd_rat_udrs.map .SecondaryRatUsageDataReport,
   x.private_ext.map .PrivateExtension]

/-- What the state has collected so far. -/
def St.view (s : St) : List (List IE) :=
  [if s.m0 then [.Cause s.x.cause] else [],
   optV .Recovery s.x.recovery,
   s.x.scnd_rat_udrs.map .SecondaryRatUsageDataReport,
   s.x.private_ext.map .PrivateExtension]

/-- The header is left alone; flags of mandatory lists tell whether the list is empty. -/
def St.Inv (h : Header) (s : St) : Prop :=
  s.x.header = h

theorem step_view (h : Header) (s : St) (e : IE) (hi : s.Inv h) : (step s e).view = Schema.step schema s.view e ∧ (step s e).Inv h := by
  cases e
  case Cause j =>
    simp only [step]
    repeat' split
    all_goals refine ⟨cons_congr ?_ ((Schema.step_other rfl rfl).symm), ?_⟩
    all_goals first | exact hi | msg_field | (simp_all [St.Inv]; done)
  case Recovery j =>
    simp only [step]
    repeat' split
    all_goals refine ⟨cons_congr (Slot.step_ne rfl).symm (cons_congr ?_ ((Schema.step_other rfl rfl).symm)), ?_⟩
    all_goals first | exact hi | msg_field | (simp_all [St.Inv]; done)
  case SecondaryRatUsageDataReport j =>
    simp only [step]
    repeat' split
    all_goals refine ⟨cons_congr (Slot.step_ne rfl).symm (cons_congr (Slot.step_ne rfl).symm (cons_congr ?_ ((Schema.step_other rfl rfl).symm))), ?_⟩
    all_goals first | exact hi | msg_field | (simp_all [St.Inv]; done)
  case PrivateExtension j =>
    simp only [step]
    all_goals refine ⟨cons_congr (Slot.step_ne rfl).symm (cons_congr (Slot.step_ne rfl).symm (cons_congr (Slot.step_ne rfl).symm (cons_congr ?_ (rfl)))), ?_⟩
    all_goals first | exact hi | msg_field | (simp_all [St.Inv]; done)
  all_goals exact ⟨(Schema.step_other rfl rfl).symm, hi⟩

theorem loop (h : Header) (els : List IE) :
    (els.foldl step ⟨{ dflt with header := h }, false⟩).view = schema.map (·.select els) ∧ (els.foldl step ⟨{ dflt with header := h }, false⟩).Inv h := by
  have := foldl_view (Q := fun _ => True) (fun s e hp _ => step_view h s e hp) els ⟨{ dflt with header := h }, false⟩ (fun _ _ => trivial) (by simp [St.Inv])
  rw [show St.view ⟨{ dflt with header := h }, false⟩ = schema.map (fun _ => []) from rfl, Schema.foldl_nil] at this
  exact this

theorem ext {x y : ForwardRelocationCompleteAcknowledge} (hh : x.header = y.header) (h : fields x = fields y) : x = y := by
  cases x; cases y
  simp only at hh
  subst hh
  injection h with h0 h
  cases h0
  injection h with h1 h
  cases optV_inj (fun _ _ h => IE.Recovery.inj h) h1
  injection h with h2 h
  cases map_inj (fun _ _ h => IE.SecondaryRatUsageDataReport.inj h) h2
  injection h with h3 h
  cases map_inj (fun _ _ h => IE.PrivateExtension.inj h) h3
  rfl

theorem mand : schema.filter (·.card.mandatory) = [(⟨.Cause, .is 0, .one⟩ : Slot)] := rfl

/-- The flags tell which mandatory IEs are absent. -/
theorem flags (h : Header) (els : List IE) : ∃ x m0, els.foldl step ⟨{ dflt with header := h }, false⟩ = ⟨x, m0⟩ ∧ St.view ⟨x, m0⟩ = schema.map (·.select els) ∧ x.header = h ∧
    (⟨.Cause, .is 0, .one⟩ : Slot).lacks els = (!m0) := by
  obtain ⟨hv, hi⟩ := loop h els
  generalize els.foldl step ⟨{ dflt with header := h }, false⟩ = s at hv hi ⊢
  obtain ⟨x, m0⟩ := s
  simp only [St.Inv] at hi
  have l0 : (⟨.Cause, .is 0, .one⟩ : Slot).lacks els = (!m0) := by
    rw [Slot.lacks_eq els rfl]
    have e := congrArg (fun l => l.getD 0 []) hv
    rw [show (⟨.Cause, .is 0, .one⟩ : Slot).select els = if m0 then [.Cause x.cause] else [] from e.symm]
    cases m0 <;> rfl
  exact ⟨x, m0, rfl, hv, hi, l0⟩

theorem complete (h : Header) (els : List IE) (hm : schema.missing els = []) : ∃ y, fromvec { dflt with header := h } els = .ok y ∧ y.header = h ∧ fields y = schema.map (·.select els) := by
  obtain ⟨x, m0, hs, hv, hh, l0⟩ := flags h els
  unfold fromvec
  rw [hs]
  dsimp only [finish]
  have f0 := l0.symm.trans (Schema.of_missing_nil mand (by simp) hm)
  cases m0 <;> first | exact ⟨x, rfl, hh, hv⟩ | contradiction

theorem describes : Describes codec schema fields where
  header_set _ _ := rfl
  fields_set _ _ := rfl
  ext _ _ hh h := ext hh h
  shape x := Aligned.one (fun _ => rfl) <| Aligned.opt (fun _ => rfl) <| Aligned.many (fun _ => rfl) <| Aligned.many (fun _ => rfl) <| trivial
  tovec x := by simp [codec, tovec, fields]
  complete h els _ hm := complete h els hm

theorem reports (h : Header) (els : List IE) (hm : schema.missing els ≠ []) :
    ∃ s ∈ schema.missing els, ∃ t, fromvec { dflt with header := h } els = .err (.messageMandatoryIEMissing t) ∧ kindOf t = s.kind := by
  obtain ⟨x, m0, hs, hv, hh, l0⟩ := flags h els
  unfold fromvec
  rw [hs]
  dsimp only [finish]
  cases m0 <;>
    first | exact ⟨_, Schema.mem_missing mand (by simp) l0, _, rfl, rfl⟩ | exact absurd (Schema.missing_nil mand (by simp [l0])) hm

theorem settled (h : Header) (els els' : List IE) (he : ∀ s ∈ schema, s.card.mandatory = true → s.lacks els = s.lacks els')
    (hm : schema.missing els ≠ []) : fromvec { dflt with header := h } els = fromvec { dflt with header := h } els' := by
  obtain ⟨x, m0, hs, hv, hh, l0⟩ := flags h els
  obtain ⟨x', m0', hs', hv', hh', l0'⟩ := flags h els'
  unfold fromvec
  rw [hs, hs']
  obtain rfl := Bool.not_inj (l0.symm.trans ((he _ (by decide) rfl).trans l0'))
  dsimp only [finish]
  cases m0 <;>
    first | rfl | exact absurd (Schema.missing_nil mand (by simp [l0])) hm

end ForwardRelocationCompleteAcknowledge

/-- `ForwardRelocationCompleteNotification` (forwardrelocationcompletenotification.rs:15-19). -/
structure ForwardRelocationCompleteNotification where
  header : Header
  indication : Option V2.Indication
  private_ext : List V2.PrivateExtension
deriving DecidableEq

namespace ForwardRelocationCompleteNotification

/-- `default` (forwardrelocationcompletenotification.rs:22-33). -/
def dflt : ForwardRelocationCompleteNotification :=
  { header := { Header.default with msgtype := 135, teid := some 0 }, indication := none, private_ext := [] }

/-- `tovec` (forwardrelocationcompletenotification.rs:69-81). -/
def tovec (x : ForwardRelocationCompleteNotification) : List IE :=
  optV .Indication x.indication ++ (
  x.private_ext.map .PrivateExtension)

/-- The variables of `fromvec`: the message and the array `mandatory` (forwardrelocationcompletenotification.rs:83-96). -/
structure St where
  x : ForwardRelocationCompleteNotification

/-- One turn of the loop of `fromvec` (forwardrelocationcompletenotification.rs:83-96). -/
def step (s : St) : IE → St
  | .Indication j => if j.ins = 0 ∧ s.x.indication.isNone = true then { s with x := { s.x with indication := some j } } else s
  | .PrivateExtension j => { s with x := { s.x with private_ext := s.x.private_ext ++ [j] } }
  | _ => s

/-- The end of `fromvec` (forwardrelocationcompletenotification.rs:83-96). -/
def finish (s : St) : R Err ForwardRelocationCompleteNotification :=
  .ok s.x

/-- `fromvec` (forwardrelocationcompletenotification.rs:83-96). -/
def fromvec (x : ForwardRelocationCompleteNotification) (els : List IE) : R Err ForwardRelocationCompleteNotification := finish (els.foldl step ⟨x⟩)

/-- The message type (forwardrelocationcompletenotification.rs:37-67). -/
def codec : Codec ForwardRelocationCompleteNotification :=
  { msgtype := 135, start := some 12, dflt, header := header, setHeader := fun x h => { x with header := h }, tovec, fromvec }

/-- One slot per field. -/
def schema : Schema :=
  [⟨.Indication, .is 0, .opt⟩,
   ⟨.PrivateExtension, .any, .many⟩]

/-- The fields as lists of IEs. -/
def fields (x : ForwardRelocationCompleteNotification) : List (List IE) :=
  [optV .Indication x.indication,
   x.private_ext.map .PrivateExtension]

/-- What the state has collected so far. -/
def St.view (s : St) : List (List IE) :=
  [optV .Indication s.x.indication,
   s.x.private_ext.map .PrivateExtension]

/-- The header is left alone; flags of mandatory lists tell whether the list is empty. -/
def St.Inv (h : Header) (s : St) : Prop :=
  s.x.header = h

theorem step_view (h : Header) (s : St) (e : IE) (hi : s.Inv h) : (step s e).view = Schema.step schema s.view e ∧ (step s e).Inv h := by
  cases e
  case Indication j =>
    simp only [step]
    repeat' split
    all_goals refine ⟨cons_congr ?_ ((Schema.step_other rfl rfl).symm), ?_⟩
    all_goals first | exact hi | msg_field | (simp_all [St.Inv]; done)
  case PrivateExtension j =>
    simp only [step]
    all_goals refine ⟨cons_congr (Slot.step_ne rfl).symm (cons_congr ?_ (rfl)), ?_⟩
    all_goals first | exact hi | msg_field | (simp_all [St.Inv]; done)
  all_goals exact ⟨(Schema.step_other rfl rfl).symm, hi⟩

theorem loop (h : Header) (els : List IE) :
    (els.foldl step ⟨{ dflt with header := h }⟩).view = schema.map (·.select els) ∧ (els.foldl step ⟨{ dflt with header := h }⟩).Inv h := by
  have := foldl_view (Q := fun _ => True) (fun s e hp _ => step_view h s e hp) els ⟨{ dflt with header := h }⟩ (fun _ _ => trivial) (by simp [St.Inv])
  rw [show St.view ⟨{ dflt with header := h }⟩ = schema.map (fun _ => []) from rfl, Schema.foldl_nil] at this
  exact this

theorem ext {x y : ForwardRelocationCompleteNotification} (hh : x.header = y.header) (h : fields x = fields y) : x = y := by
  cases x; cases y
  simp only at hh
  subst hh
  injection h with h0 h
  cases optV_inj (fun _ _ h => IE.Indication.inj h) h0
  injection h with h1 h
  cases map_inj (fun _ _ h => IE.PrivateExtension.inj h) h1
  rfl

theorem mand : schema.filter (·.card.mandatory) = [] := rfl

/-- The flags tell which mandatory IEs are absent. -/
theorem flags (h : Header) (els : List IE) : ∃ x , els.foldl step ⟨{ dflt with header := h }⟩ = ⟨x⟩ ∧ St.view ⟨x⟩ = schema.map (·.select els) ∧ x.header = h := by
  obtain ⟨hv, hi⟩ := loop h els
  generalize els.foldl step ⟨{ dflt with header := h }⟩ = s at hv hi ⊢
  obtain ⟨x⟩ := s
  simp only [St.Inv] at hi
  exact ⟨x, rfl, hv, hi⟩

theorem complete (h : Header) (els : List IE) (_hm : schema.missing els = []) : ∃ y, fromvec { dflt with header := h } els = .ok y ∧ y.header = h ∧ fields y = schema.map (·.select els) := by
  obtain ⟨x, hs, hv, hh⟩ := flags h els
  unfold fromvec
  rw [hs]
  exact ⟨x, rfl, hh, hv⟩

theorem describes : Describes codec schema fields where
  header_set _ _ := rfl
  fields_set _ _ := rfl
  ext _ _ hh h := ext hh h
  shape x := Aligned.opt (fun _ => rfl) <| Aligned.many (fun _ => rfl) <| trivial
  tovec x := by simp [codec, tovec, fields]
  complete h els _ hm := complete h els hm

end ForwardRelocationCompleteNotification

end Gtp.V2.Msg
