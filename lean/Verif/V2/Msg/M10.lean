import Verif.V2.Msg.Tactic

/-!
# GTPv2-C messages, part 10

Generated by `scripts/gen_msgs.py` from the Rust sources: `UpdateBearerResponse`, `UpdatePdnConnectionSetRequest`, `UpdatePndConnectionSetResponse`, `VersionNotSupported`.
-/

namespace Gtp.V2.Msg

/-- `UpdateBearerResponse` (updatebearerresp.rs:15-39). -/
structure UpdateBearerResponse where
  header : Header
  cause : V2.Cause
  bearer_ctxs : List V2.BearerContext
  pco : Option V2.Pco
  recovery : Option V2.Recovery
  mme_fqcsid : Option V2.Fqcsid
  sgw_fqcsid : Option V2.Fqcsid
  epdg_fqcsid : Option V2.Fqcsid
  twan_fqcsid : Option V2.Fqcsid
  indication : Option V2.Indication
  uetimezone : Option V2.UeTimeZone
  uli : Option V2.Uli
  twan_id : Option V2.TwanId
  overload_info : List V2.OverloadControlInfo
  prai : Option V2.PresenceReportingAreaInformation
  ip : Option V2.IpAddress
  wlan_loc : Option V2.TwanId
  wlan_loc_timestamp : Option V2.TwanIdTimeStamp
  ue_udpport : Option V2.PortNumber
  nbifom : Option V2.Fcontainer
  ue_tcpport : Option V2.PortNumber
  pscellid : Option V2.PSCellId
  private_ext : List V2.PrivateExtension
deriving DecidableEq

namespace UpdateBearerResponse

/-- `default` (updatebearerresp.rs:42-73). -/
def dflt : UpdateBearerResponse :=
  { header := { Header.default with msgtype := 98, teid := some 0 }, cause := V2.Cause.dflt, bearer_ctxs := [], pco := none, recovery := none, mme_fqcsid := none, sgw_fqcsid := none, epdg_fqcsid := none, twan_fqcsid := none, indication := none, uetimezone := none, uli := none, twan_id := none, overload_info := [], prai := none, ip := none, wlan_loc := none, wlan_loc_timestamp := none, ue_udpport := none, nbifom := none, ue_tcpport := none, pscellid := none, private_ext := [] }

/-- `tovec` (updatebearerresp.rs:110-183). -/
def tovec (x : UpdateBearerResponse) : List IE :=
  [.Cause x.cause] ++ (
  x.bearer_ctxs.map .BearerContext ++ (
  optV .Pco x.pco ++ (
  optV .Recovery x.recovery ++ (
  optV .Fqcsid x.mme_fqcsid ++ (
  optV .Fqcsid x.sgw_fqcsid ++ (
  optV .Fqcsid x.epdg_fqcsid ++ (
  optV .Fqcsid x.twan_fqcsid ++ (
  optV .Indication x.indication ++ (
  optV .UeTimeZone x.uetimezone ++ (
  optV .Uli x.uli ++ (
  optV .TwanId x.twan_id ++ (
  x.overload_info.map .OverloadControlInfo ++ (
  optV .PresenceReportingAreaInformation x.prai ++ (
  optV .IpAddress x.ip ++ (
  optV .TwanId x.wlan_loc ++ (
  optV .TwanIdTimeStamp x.wlan_loc_timestamp ++ (
  optV .PortNumber x.ue_udpport ++ (
  optV .Fcontainer x.nbifom ++ (
  optV .PortNumber x.ue_tcpport ++ (
  optV .PSCellId x.pscellid ++ (
  x.private_ext.map .PrivateExtension)))))))))))))))))))))

/-- The variables of `fromvec`: the message and the array `mandatory` (updatebearerresp.rs:185-295). -/
structure St where
  x : UpdateBearerResponse
  m0 : Bool
  m1 : Bool

/-- One turn of the loop of `fromvec` (updatebearerresp.rs:185-295). -/
def step (s : St) : IE → St
  | .Cause j => if j.ins = 0 ∧ s.m0 = false then { s with x := { s.x with cause := j }, m0 := true } else s
  | .BearerContext j => if j.ins = 0 then { s with x := { s.x with bearer_ctxs := s.x.bearer_ctxs ++ [j] }, m1 := true } else s
  | .Pco j => if j.ins = 0 ∧ s.x.pco.isNone = true then { s with x := { s.x with pco := some j } } else s
  | .Recovery j => if j.ins = 0 ∧ s.x.recovery.isNone = true then { s with x := { s.x with recovery := some j } } else s
  | .Fqcsid j => if j.ins = 0 ∧ s.x.mme_fqcsid.isNone = true then { s with x := { s.x with mme_fqcsid := some j } } else if j.ins = 1 ∧ s.x.sgw_fqcsid.isNone = true then { s with x := { s.x with sgw_fqcsid := some j } } else if j.ins = 2 ∧ s.x.epdg_fqcsid.isNone = true then { s with x := { s.x with epdg_fqcsid := some j } } else if j.ins = 3 ∧ s.x.twan_fqcsid.isNone = true then { s with x := { s.x with twan_fqcsid := some j } } else s
  | .Indication j => if j.ins = 0 ∧ s.x.indication.isNone = true then { s with x := { s.x with indication := some j } } else s
  | .UeTimeZone j => if j.ins = 0 ∧ s.x.uetimezone.isNone = true then { s with x := { s.x with uetimezone := some j } } else s
  | .Uli j => if j.ins = 0 ∧ s.x.uli.isNone = true then { s with x := { s.x with uli := some j } } else s
  | .TwanId j => if j.ins = 0 ∧ s.x.twan_id.isNone = true then { s with x := { s.x with twan_id := some j } } else if j.ins = 1 ∧ s.x.wlan_loc.isNone = true then { s with x := { s.x with wlan_loc := some j } } else s
  | .OverloadControlInfo j => if j.ins < 3 then { s with x := { s.x with overload_info := s.x.overload_info ++ [j] } } else s
  | .PresenceReportingAreaInformation j => if j.ins = 0 ∧ s.x.prai.isNone = true then { s with x := { s.x with prai := some j } } else s
  | .IpAddress j => if j.ins = 0 ∧ s.x.ip.isNone = true then { s with x := { s.x with ip := some j } } else s
  | .TwanIdTimeStamp j => if j.ins = 1 ∧ s.x.wlan_loc_timestamp.isNone = true then { s with x := { s.x with wlan_loc_timestamp := some j } } else s
  | .PortNumber j => if j.ins = 0 ∧ s.x.ue_udpport.isNone = true then { s with x := { s.x with ue_udpport := some j } } else if j.ins = 1 ∧ s.x.ue_tcpport.isNone = true then { s with x := { s.x with ue_tcpport := some j } } else s
  | .Fcontainer j => if j.ins = 0 ∧ s.x.nbifom.isNone = true then { s with x := { s.x with nbifom := some j } } else s
  | .PSCellId j => if j.ins = 0 ∧ s.x.pscellid.isNone = true then { s with x := { s.x with pscellid := some j } } else s
  | .PrivateExtension j => { s with x := { s.x with private_ext := s.x.private_ext ++ [j] } }
  | _ => s

/-- The end of `fromvec` (updatebearerresp.rs:185-295). -/
def finish (s : St) : R Err UpdateBearerResponse :=
  match s.m0, s.m1 with
  | false, false => .err (.messageMandatoryIEMissing 2)
  | false, true => .err (.messageMandatoryIEMissing 2)
  | true, false => .err (.messageMandatoryIEMissing 93)
  | true, true => .ok s.x

/-- `fromvec` (updatebearerresp.rs:185-295). -/
def fromvec (x : UpdateBearerResponse) (els : List IE) : R Err UpdateBearerResponse := finish (els.foldl step ⟨x, false, false⟩)

/-- The message type (updatebearerresp.rs:77-108). -/
def codec : Codec UpdateBearerResponse :=
  { msgtype := 98, start := some 12, dflt, header := header, setHeader := fun x h => { x with header := h }, tovec, fromvec }

/-- One slot per field. -/
def schema : Schema :=
  [⟨.Cause, .is 0, .one⟩,
   ⟨.BearerContext, .is 0, .many1 (.is 0)⟩,
   ⟨.Pco, .is 0, .opt⟩,
   ⟨.Recovery, .is 0, .opt⟩,
   ⟨.Fqcsid, .is 0, .opt⟩,
   ⟨.Fqcsid, .is 1, .opt⟩,
   ⟨.Fqcsid, .is 2, .opt⟩,
   ⟨.Fqcsid, .is 3, .opt⟩,
   ⟨.Indication, .is 0, .opt⟩,
   ⟨.UeTimeZone, .is 0, .opt⟩,
   ⟨.Uli, .is 0, .opt⟩,
   ⟨.TwanId, .is 0, .opt⟩,
   ⟨.OverloadControlInfo, .lt 3, .many⟩,
   ⟨.PresenceReportingAreaInformation, .is 0, .opt⟩,
   ⟨.IpAddress, .is 0, .opt⟩,
   ⟨.TwanId, .is 1, .opt⟩,
   ⟨.TwanIdTimeStamp, .is 1, .opt⟩,
   ⟨.PortNumber, .is 0, .opt⟩,
   ⟨.Fcontainer, .is 0, .opt⟩,
   ⟨.PortNumber, .is 1, .opt⟩,
   ⟨.PSCellId, .is 0, .opt⟩,
   ⟨.PrivateExtension, .any, .many⟩]

/-- The fields as lists of IEs. -/
def fields (x : UpdateBearerResponse) : List (List IE) :=
  [[.Cause x.cause],
   x.bearer_ctxs.map .BearerContext,
   optV .Pco x.pco,
   optV .Recovery x.recovery,
   optV .Fqcsid x.mme_fqcsid,
   optV .Fqcsid x.sgw_fqcsid,
   optV .Fqcsid x.epdg_fqcsid,
   optV .Fqcsid x.twan_fqcsid,
   optV .Indication x.indication,
   optV .UeTimeZone x.uetimezone,
   optV .Uli x.uli,
   optV .TwanId x.twan_id,
   x.overload_info.map .OverloadControlInfo,
   optV .PresenceReportingAreaInformation x.prai,
   optV .IpAddress x.ip,
   optV .TwanId x.wlan_loc,
   optV .TwanIdTimeStamp x.wlan_loc_timestamp,
   optV .PortNumber x.ue_udpport,
   optV .Fcontainer x.nbifom,
   optV .PortNumber x.ue_tcpport,
   optV .PSCellId x.pscellid,
   x.private_ext.map .PrivateExtension]

/-- What the state has collected so far. -/
def St.view (s : St) : List (List IE) :=
  [if s.m0 then [.Cause s.x.cause] else [],
   s.x.bearer_ctxs.map .BearerContext,
   optV .Pco s.x.pco,
   optV .Recovery s.x.recovery,
   optV .Fqcsid s.x.mme_fqcsid,
   optV .Fqcsid s.x.sgw_fqcsid,
   optV .Fqcsid s.x.epdg_fqcsid,
   optV .Fqcsid s.x.twan_fqcsid,
   optV .Indication s.x.indication,
   optV .UeTimeZone s.x.uetimezone,
   optV .Uli s.x.uli,
   optV .TwanId s.x.twan_id,
   s.x.overload_info.map .OverloadControlInfo,
   optV .PresenceReportingAreaInformation s.x.prai,
   optV .IpAddress s.x.ip,
   optV .TwanId s.x.wlan_loc,
   optV .TwanIdTimeStamp s.x.wlan_loc_timestamp,
   optV .PortNumber s.x.ue_udpport,
   optV .Fcontainer s.x.nbifom,
   optV .PortNumber s.x.ue_tcpport,
   optV .PSCellId s.x.pscellid,
   s.x.private_ext.map .PrivateExtension]

/-- The header is left alone; flags of mandatory lists tell whether the list is empty. -/
def St.Inv (h : Header) (s : St) : Prop :=
  s.x.header = h ∧ s.m1 = !s.x.bearer_ctxs.isEmpty

theorem step_view (h : Header) (s : St) (e : IE) (hi : s.Inv h) : (step s e).view = Schema.step schema s.view e ∧ (step s e).Inv h := by
  cases e
  case Cause j =>
    simp only [step]
    repeat' split
    all_goals refine ⟨cons_congr ?_ ((Schema.step_other rfl rfl).symm), ?_⟩
    all_goals first | exact hi | msg_field | (simp_all [St.Inv]; done)
  case BearerContext j =>
    simp only [step]
    repeat' split
    all_goals refine ⟨cons_congr (Slot.step_ne rfl).symm (cons_congr ?_ ((Schema.step_other rfl rfl).symm)), ?_⟩
    all_goals first | exact hi | msg_field | (simp_all [St.Inv]; done)
  case Pco j =>
    simp only [step]
    repeat' split
    all_goals refine ⟨cons_congr (Slot.step_ne rfl).symm (cons_congr (Slot.step_ne rfl).symm (cons_congr ?_ ((Schema.step_other rfl rfl).symm))), ?_⟩
    all_goals first | exact hi | msg_field | (simp_all [St.Inv]; done)
  case Recovery j =>
    simp only [step]
    repeat' split
    all_goals refine ⟨cons_congr (Slot.step_ne rfl).symm (cons_congr (Slot.step_ne rfl).symm (cons_congr (Slot.step_ne rfl).symm (cons_congr ?_ ((Schema.step_other rfl rfl).symm)))), ?_⟩
    all_goals first | exact hi | msg_field | (simp_all [St.Inv]; done)
  case Fqcsid j =>
    simp only [step]
    repeat' split
    all_goals refine ⟨cons_congr (Slot.step_ne rfl).symm (cons_congr (Slot.step_ne rfl).symm (cons_congr (Slot.step_ne rfl).symm (cons_congr (Slot.step_ne rfl).symm (cons_congr ?_ (cons_congr ?_ (cons_congr ?_ (cons_congr ?_ ((Schema.step_other rfl rfl).symm)))))))), ?_⟩
    all_goals first | exact hi | msg_field | (simp_all [St.Inv]; done)
  case Indication j =>
    simp only [step]
    repeat' split
    all_goals refine ⟨cons_congr (Slot.step_ne rfl).symm (cons_congr (Slot.step_ne rfl).symm (cons_congr (Slot.step_ne rfl).symm (cons_congr (Slot.step_ne rfl).symm (cons_congr (Slot.step_ne rfl).symm (cons_congr (Slot.step_ne rfl).symm (cons_congr (Slot.step_ne rfl).symm (cons_congr (Slot.step_ne rfl).symm (cons_congr ?_ ((Schema.step_other rfl rfl).symm))))))))), ?_⟩
    all_goals first | exact hi | msg_field | (simp_all [St.Inv]; done)
  case UeTimeZone j =>
    simp only [step]
    repeat' split
    all_goals refine ⟨cons_congr (Slot.step_ne rfl).symm (cons_congr (Slot.step_ne rfl).symm (cons_congr (Slot.step_ne rfl).symm (cons_congr (Slot.step_ne rfl).symm (cons_congr (Slot.step_ne rfl).symm (cons_congr (Slot.step_ne rfl).symm (cons_congr (Slot.step_ne rfl).symm (cons_congr (Slot.step_ne rfl).symm (cons_congr (Slot.step_ne rfl).symm (cons_congr ?_ ((Schema.step_other rfl rfl).symm)))))))))), ?_⟩
    all_goals first | exact hi | msg_field | (simp_all [St.Inv]; done)
  case Uli j =>
    simp only [step]
    repeat' split
    all_goals refine ⟨cons_congr (Slot.step_ne rfl).symm (cons_congr (Slot.step_ne rfl).symm (cons_congr (Slot.step_ne rfl).symm (cons_congr (Slot.step_ne rfl).symm (cons_congr (Slot.step_ne rfl).symm (cons_congr (Slot.step_ne rfl).symm (cons_congr (Slot.step_ne rfl).symm (cons_congr (Slot.step_ne rfl).symm (cons_congr (Slot.step_ne rfl).symm (cons_congr (Slot.step_ne rfl).symm (cons_congr ?_ ((Schema.step_other rfl rfl).symm))))))))))), ?_⟩
    all_goals first | exact hi | msg_field | (simp_all [St.Inv]; done)
  case TwanId j =>
    simp only [step]
    repeat' split
    all_goals refine ⟨cons_congr (Slot.step_ne rfl).symm (cons_congr (Slot.step_ne rfl).symm (cons_congr (Slot.step_ne rfl).symm (cons_congr (Slot.step_ne rfl).symm (cons_congr (Slot.step_ne rfl).symm (cons_congr (Slot.step_ne rfl).symm (cons_congr (Slot.step_ne rfl).symm (cons_congr (Slot.step_ne rfl).symm (cons_congr (Slot.step_ne rfl).symm (cons_congr (Slot.step_ne rfl).symm (cons_congr (Slot.step_ne rfl).symm (cons_congr ?_ (cons_congr (Slot.step_ne rfl).symm (cons_congr (Slot.step_ne rfl).symm (cons_congr (Slot.step_ne rfl).symm (cons_congr ?_ ((Schema.step_other rfl rfl).symm)))))))))))))))), ?_⟩
    all_goals first | exact hi | msg_field | (simp_all [St.Inv]; done)
  case OverloadControlInfo j =>
    simp only [step]
    repeat' split
    all_goals refine ⟨cons_congr (Slot.step_ne rfl).symm (cons_congr (Slot.step_ne rfl).symm (cons_congr (Slot.step_ne rfl).symm (cons_congr (Slot.step_ne rfl).symm (cons_congr (Slot.step_ne rfl).symm (cons_congr (Slot.step_ne rfl).symm (cons_congr (Slot.step_ne rfl).symm (cons_congr (Slot.step_ne rfl).symm (cons_congr (Slot.step_ne rfl).symm (cons_congr (Slot.step_ne rfl).symm (cons_congr (Slot.step_ne rfl).symm (cons_congr (Slot.step_ne rfl).symm (cons_congr ?_ ((Schema.step_other rfl rfl).symm))))))))))))), ?_⟩
    all_goals first | exact hi | msg_field | (simp_all [St.Inv]; done)
  case PresenceReportingAreaInformation j =>
    simp only [step]
    repeat' split
    all_goals refine ⟨cons_congr (Slot.step_ne rfl).symm (cons_congr (Slot.step_ne rfl).symm (cons_congr (Slot.step_ne rfl).symm (cons_congr (Slot.step_ne rfl).symm (cons_congr (Slot.step_ne rfl).symm (cons_congr (Slot.step_ne rfl).symm (cons_congr (Slot.step_ne rfl).symm (cons_congr (Slot.step_ne rfl).symm (cons_congr (Slot.step_ne rfl).symm (cons_congr (Slot.step_ne rfl).symm (cons_congr (Slot.step_ne rfl).symm (cons_congr (Slot.step_ne rfl).symm (cons_congr (Slot.step_ne rfl).symm (cons_congr ?_ ((Schema.step_other rfl rfl).symm)))))))))))))), ?_⟩
    all_goals first | exact hi | msg_field | (simp_all [St.Inv]; done)
  case IpAddress j =>
    simp only [step]
    repeat' split
    all_goals refine ⟨cons_congr (Slot.step_ne rfl).symm (cons_congr (Slot.step_ne rfl).symm (cons_congr (Slot.step_ne rfl).symm (cons_congr (Slot.step_ne rfl).symm (cons_congr (Slot.step_ne rfl).symm (cons_congr (Slot.step_ne rfl).symm (cons_congr (Slot.step_ne rfl).symm (cons_congr (Slot.step_ne rfl).symm (cons_congr (Slot.step_ne rfl).symm (cons_congr (Slot.step_ne rfl).symm (cons_congr (Slot.step_ne rfl).symm (cons_congr (Slot.step_ne rfl).symm (cons_congr (Slot.step_ne rfl).symm (cons_congr (Slot.step_ne rfl).symm (cons_congr ?_ ((Schema.step_other rfl rfl).symm))))))))))))))), ?_⟩
    all_goals first | exact hi | msg_field | (simp_all [St.Inv]; done)
  case TwanIdTimeStamp j =>
    simp only [step]
    repeat' split
    all_goals refine ⟨cons_congr (Slot.step_ne rfl).symm (cons_congr (Slot.step_ne rfl).symm (cons_congr (Slot.step_ne rfl).symm (cons_congr (Slot.step_ne rfl).symm (cons_congr (Slot.step_ne rfl).symm (cons_congr (Slot.step_ne rfl).symm (cons_congr (Slot.step_ne rfl).symm (cons_congr (Slot.step_ne rfl).symm (cons_congr (Slot.step_ne rfl).symm (cons_congr (Slot.step_ne rfl).symm (cons_congr (Slot.step_ne rfl).symm (cons_congr (Slot.step_ne rfl).symm (cons_congr (Slot.step_ne rfl).symm (cons_congr (Slot.step_ne rfl).symm (cons_congr (Slot.step_ne rfl).symm (cons_congr (Slot.step_ne rfl).symm (cons_congr ?_ ((Schema.step_other rfl rfl).symm))))))))))))))))), ?_⟩
    all_goals first | exact hi | msg_field | (simp_all [St.Inv]; done)
  case PortNumber j =>
    simp only [step]
    repeat' split
    all_goals refine ⟨cons_congr (Slot.step_ne rfl).symm (cons_congr (Slot.step_ne rfl).symm (cons_congr (Slot.step_ne rfl).symm (cons_congr (Slot.step_ne rfl).symm (cons_congr (Slot.step_ne rfl).symm (cons_congr (Slot.step_ne rfl).symm (cons_congr (Slot.step_ne rfl).symm (cons_congr (Slot.step_ne rfl).symm (cons_congr (Slot.step_ne rfl).symm (cons_congr (Slot.step_ne rfl).symm (cons_congr (Slot.step_ne rfl).symm (cons_congr (Slot.step_ne rfl).symm (cons_congr (Slot.step_ne rfl).symm (cons_congr (Slot.step_ne rfl).symm (cons_congr (Slot.step_ne rfl).symm (cons_congr (Slot.step_ne rfl).symm (cons_congr (Slot.step_ne rfl).symm (cons_congr ?_ (cons_congr (Slot.step_ne rfl).symm (cons_congr ?_ ((Schema.step_other rfl rfl).symm)))))))))))))))))))), ?_⟩
    all_goals first | exact hi | msg_field | (simp_all [St.Inv]; done)
  case Fcontainer j =>
    simp only [step]
    repeat' split
    all_goals refine ⟨cons_congr (Slot.step_ne rfl).symm (cons_congr (Slot.step_ne rfl).symm (cons_congr (Slot.step_ne rfl).symm (cons_congr (Slot.step_ne rfl).symm (cons_congr (Slot.step_ne rfl).symm (cons_congr (Slot.step_ne rfl).symm (cons_congr (Slot.step_ne rfl).symm (cons_congr (Slot.step_ne rfl).symm (cons_congr (Slot.step_ne rfl).symm (cons_congr (Slot.step_ne rfl).symm (cons_congr (Slot.step_ne rfl).symm (cons_congr (Slot.step_ne rfl).symm (cons_congr (Slot.step_ne rfl).symm (cons_congr (Slot.step_ne rfl).symm (cons_congr (Slot.step_ne rfl).symm (cons_congr (Slot.step_ne rfl).symm (cons_congr (Slot.step_ne rfl).symm (cons_congr (Slot.step_ne rfl).symm (cons_congr ?_ ((Schema.step_other rfl rfl).symm))))))))))))))))))), ?_⟩
    all_goals first | exact hi | msg_field | (simp_all [St.Inv]; done)
  case PSCellId j =>
    simp only [step]
    repeat' split
    all_goals refine ⟨cons_congr (Slot.step_ne rfl).symm (cons_congr (Slot.step_ne rfl).symm (cons_congr (Slot.step_ne rfl).symm (cons_congr (Slot.step_ne rfl).symm (cons_congr (Slot.step_ne rfl).symm (cons_congr (Slot.step_ne rfl).symm (cons_congr (Slot.step_ne rfl).symm (cons_congr (Slot.step_ne rfl).symm (cons_congr (Slot.step_ne rfl).symm (cons_congr (Slot.step_ne rfl).symm (cons_congr (Slot.step_ne rfl).symm (cons_congr (Slot.step_ne rfl).symm (cons_congr (Slot.step_ne rfl).symm (cons_congr (Slot.step_ne rfl).symm (cons_congr (Slot.step_ne rfl).symm (cons_congr (Slot.step_ne rfl).symm (cons_congr (Slot.step_ne rfl).symm (cons_congr (Slot.step_ne rfl).symm (cons_congr (Slot.step_ne rfl).symm (cons_congr (Slot.step_ne rfl).symm (cons_congr ?_ ((Schema.step_other rfl rfl).symm))))))))))))))))))))), ?_⟩
    all_goals first | exact hi | msg_field | (simp_all [St.Inv]; done)
  case PrivateExtension j =>
    simp only [step]
    all_goals refine ⟨cons_congr (Slot.step_ne rfl).symm (cons_congr (Slot.step_ne rfl).symm (cons_congr (Slot.step_ne rfl).symm (cons_congr (Slot.step_ne rfl).symm (cons_congr (Slot.step_ne rfl).symm (cons_congr (Slot.step_ne rfl).symm (cons_congr (Slot.step_ne rfl).symm (cons_congr (Slot.step_ne rfl).symm (cons_congr (Slot.step_ne rfl).symm (cons_congr (Slot.step_ne rfl).symm (cons_congr (Slot.step_ne rfl).symm (cons_congr (Slot.step_ne rfl).symm (cons_congr (Slot.step_ne rfl).symm (cons_congr (Slot.step_ne rfl).symm (cons_congr (Slot.step_ne rfl).symm (cons_congr (Slot.step_ne rfl).symm (cons_congr (Slot.step_ne rfl).symm (cons_congr (Slot.step_ne rfl).symm (cons_congr (Slot.step_ne rfl).symm (cons_congr (Slot.step_ne rfl).symm (cons_congr (Slot.step_ne rfl).symm (cons_congr ?_ (rfl)))))))))))))))))))))), ?_⟩
    all_goals first | exact hi | msg_field | (simp_all [St.Inv]; done)
  all_goals exact ⟨(Schema.step_other rfl rfl).symm, hi⟩

theorem loop (h : Header) (els : List IE) :
    (els.foldl step ⟨{ dflt with header := h }, false, false⟩).view = schema.map (·.select els) ∧ (els.foldl step ⟨{ dflt with header := h }, false, false⟩).Inv h := by
  have := foldl_view (Q := fun _ => True) (fun s e hp _ => step_view h s e hp) els ⟨{ dflt with header := h }, false, false⟩ (fun _ _ => trivial) (by simp [St.Inv, dflt])
  rw [show St.view ⟨{ dflt with header := h }, false, false⟩ = schema.map (fun _ => []) from rfl, Schema.foldl_nil] at this
  exact this

theorem ext {x y : UpdateBearerResponse} (hh : x.header = y.header) (h : fields x = fields y) : x = y := by
  cases x; cases y
  simp only at hh
  subst hh
  injection h with h0 h
  cases h0
  injection h with h1 h
  cases map_inj (fun _ _ h => IE.BearerContext.inj h) h1
  injection h with h2 h
  cases optV_inj (fun _ _ h => IE.Pco.inj h) h2
  injection h with h3 h
  cases optV_inj (fun _ _ h => IE.Recovery.inj h) h3
  injection h with h4 h
  cases optV_inj (fun _ _ h => IE.Fqcsid.inj h) h4
  injection h with h5 h
  cases optV_inj (fun _ _ h => IE.Fqcsid.inj h) h5
  injection h with h6 h
  cases optV_inj (fun _ _ h => IE.Fqcsid.inj h) h6
  injection h with h7 h
  cases optV_inj (fun _ _ h => IE.Fqcsid.inj h) h7
  injection h with h8 h
  cases optV_inj (fun _ _ h => IE.Indication.inj h) h8
  injection h with h9 h
  cases optV_inj (fun _ _ h => IE.UeTimeZone.inj h) h9
  injection h with h10 h
  cases optV_inj (fun _ _ h => IE.Uli.inj h) h10
  injection h with h11 h
  cases optV_inj (fun _ _ h => IE.TwanId.inj h) h11
  injection h with h12 h
  cases map_inj (fun _ _ h => IE.OverloadControlInfo.inj h) h12
  injection h with h13 h
  cases optV_inj (fun _ _ h => IE.PresenceReportingAreaInformation.inj h) h13
  injection h with h14 h
  cases optV_inj (fun _ _ h => IE.IpAddress.inj h) h14
  injection h with h15 h
  cases optV_inj (fun _ _ h => IE.TwanId.inj h) h15
  injection h with h16 h
  cases optV_inj (fun _ _ h => IE.TwanIdTimeStamp.inj h) h16
  injection h with h17 h
  cases optV_inj (fun _ _ h => IE.PortNumber.inj h) h17
  injection h with h18 h
  cases optV_inj (fun _ _ h => IE.Fcontainer.inj h) h18
  injection h with h19 h
  cases optV_inj (fun _ _ h => IE.PortNumber.inj h) h19
  injection h with h20 h
  cases optV_inj (fun _ _ h => IE.PSCellId.inj h) h20
  injection h with h21 h
  cases map_inj (fun _ _ h => IE.PrivateExtension.inj h) h21
  rfl

theorem mand : schema.filter (·.card.mandatory) = [(⟨.Cause, .is 0, .one⟩ : Slot), (⟨.BearerContext, .is 0, .many1 (.is 0)⟩ : Slot)] := rfl

/-- The flags tell which mandatory IEs are absent. -/
theorem flags (h : Header) (els : List IE) : ∃ x m0 m1, els.foldl step ⟨{ dflt with header := h }, false, false⟩ = ⟨x, m0, m1⟩ ∧ St.view ⟨x, m0, m1⟩ = schema.map (·.select els) ∧ x.header = h ∧
    (⟨.Cause, .is 0, .one⟩ : Slot).lacks els = (!m0) ∧
    (⟨.BearerContext, .is 0, .many1 (.is 0)⟩ : Slot).lacks els = (!m1) := by
  obtain ⟨hv, hi⟩ := loop h els
  generalize els.foldl step ⟨{ dflt with header := h }, false, false⟩ = s at hv hi ⊢
  obtain ⟨x, m0, m1⟩ := s
  simp only [St.Inv] at hi
  have l0 : (⟨.Cause, .is 0, .one⟩ : Slot).lacks els = (!m0) := by
    rw [Slot.lacks_eq els rfl]
    have e := congrArg (fun l => l.getD 0 []) hv
    rw [show (⟨.Cause, .is 0, .one⟩ : Slot).select els = if m0 then [.Cause x.cause] else [] from e.symm]
    cases m0 <;> rfl
  have l1 : (⟨.BearerContext, .is 0, .many1 (.is 0)⟩ : Slot).lacks els = (!m1) := by
    rw [Slot.lacks_eq els rfl]
    have e := congrArg (fun l => l.getD 1 []) hv
    rw [show (⟨.BearerContext, .is 0, .many1 (.is 0)⟩ : Slot).select els = x.bearer_ctxs.map .BearerContext from e.symm]
    rw [hi.2, Bool.not_not]
    cases x.bearer_ctxs <;> rfl
  exact ⟨x, m0, m1, rfl, hv, hi.1, l0, l1⟩

theorem complete (h : Header) (els : List IE) (hm : schema.missing els = []) : ∃ y, fromvec { dflt with header := h } els = .ok y ∧ y.header = h ∧ fields y = schema.map (·.select els) := by
  obtain ⟨x, m0, m1, hs, hv, hh, l0, l1⟩ := flags h els
  unfold fromvec
  rw [hs]
  dsimp only [finish]
  have f0 := l0.symm.trans (Schema.of_missing_nil mand (by simp) hm)
  have f1 := l1.symm.trans (Schema.of_missing_nil mand (by simp) hm)
  cases m0 <;> cases m1 <;> first | exact ⟨x, rfl, hh, hv⟩ | contradiction

theorem describes : Describes codec schema fields where
  header_set _ _ := rfl
  fields_set _ _ := rfl
  ext _ _ hh h := ext hh h
  shape x := Aligned.one (fun _ => rfl) <| Aligned.many (fun _ => rfl) <| Aligned.opt (fun _ => rfl) <| Aligned.opt (fun _ => rfl) <| Aligned.opt (fun _ => rfl) <| Aligned.opt (fun _ => rfl) <| Aligned.opt (fun _ => rfl) <| Aligned.opt (fun _ => rfl) <| Aligned.opt (fun _ => rfl) <| Aligned.opt (fun _ => rfl) <| Aligned.opt (fun _ => rfl) <| Aligned.opt (fun _ => rfl) <| Aligned.many (fun _ => rfl) <| Aligned.opt (fun _ => rfl) <| Aligned.opt (fun _ => rfl) <| Aligned.opt (fun _ => rfl) <| Aligned.opt (fun _ => rfl) <| Aligned.opt (fun _ => rfl) <| Aligned.opt (fun _ => rfl) <| Aligned.opt (fun _ => rfl) <| Aligned.opt (fun _ => rfl) <| Aligned.many (fun _ => rfl) <| trivial
  tovec x := by simp [codec, tovec, fields]
  complete h els _ hm := complete h els hm

theorem reports (h : Header) (els : List IE) (hm : schema.missing els ≠ []) :
    ∃ s ∈ schema.missing els, ∃ t, fromvec { dflt with header := h } els = .err (.messageMandatoryIEMissing t) ∧ kindOf t = s.kind := by
  obtain ⟨x, m0, m1, hs, hv, hh, l0, l1⟩ := flags h els
  unfold fromvec
  rw [hs]
  dsimp only [finish]
  cases m0 <;> cases m1 <;>
    first | exact ⟨_, Schema.mem_missing mand (by simp) l0, _, rfl, rfl⟩ | exact ⟨_, Schema.mem_missing mand (by simp) l1, _, rfl, rfl⟩ | exact absurd (Schema.missing_nil mand (by simp [l0, l1])) hm

theorem settled (h : Header) (els els' : List IE) (he : ∀ s ∈ schema, s.card.mandatory = true → s.lacks els = s.lacks els')
    (hm : schema.missing els ≠ []) : fromvec { dflt with header := h } els = fromvec { dflt with header := h } els' := by
  obtain ⟨x, m0, m1, hs, hv, hh, l0, l1⟩ := flags h els
  obtain ⟨x', m0', m1', hs', hv', hh', l0', l1'⟩ := flags h els'
  unfold fromvec
  rw [hs, hs']
  obtain rfl := Bool.not_inj (l0.symm.trans ((he _ (by decide) rfl).trans l0'))
  obtain rfl := Bool.not_inj (l1.symm.trans ((he _ (by decide) rfl).trans l1'))
  dsimp only [finish]
  cases m0 <;> cases m1 <;>
    first | rfl | exact absurd (Schema.missing_nil mand (by simp [l0, l1])) hm

end UpdateBearerResponse

/-- `UpdatePdnConnectionSetRequest` (updatepdnconnectionsetreq.rs:15-20). -/
structure UpdatePdnConnectionSetRequest where
  header : Header
  mme_fqcsid : Option V2.Fqcsid
  sgw_fqcsid : Option V2.Fqcsid
  private_ext : List V2.PrivateExtension
deriving DecidableEq

namespace UpdatePdnConnectionSetRequest

/-- `default` (updatepdnconnectionsetreq.rs:23-35). -/
def dflt : UpdatePdnConnectionSetRequest :=
  { header := { Header.default with msgtype := 200, teid := some 0 }, mme_fqcsid := none, sgw_fqcsid := none, private_ext := [] }

/-- `tovec` (updatepdnconnectionsetreq.rs:72-88). -/
def tovec (x : UpdatePdnConnectionSetRequest) : List IE :=
  optV .Fqcsid x.mme_fqcsid ++ (
  optV .Fqcsid x.sgw_fqcsid ++ (
  x.private_ext.map .PrivateExtension))

/-- The variables of `fromvec`: the message and the array `mandatory` (updatepdnconnectionsetreq.rs:90-111). -/
structure St where
  x : UpdatePdnConnectionSetRequest

/-- One turn of the loop of `fromvec` (updatepdnconnectionsetreq.rs:90-111). -/
def step (s : St) : IE → St
  | .Fqcsid j => if j.ins = 0 ∧ s.x.mme_fqcsid.isNone = true then { s with x := { s.x with mme_fqcsid := some j } } else if j.ins = 1 ∧ s.x.sgw_fqcsid.isNone = true then { s with x := { s.x with sgw_fqcsid := some j } } else s
  | .PrivateExtension j => { s with x := { s.x with private_ext := s.x.private_ext ++ [j] } }
  | _ => s

/-- The end of `fromvec` (updatepdnconnectionsetreq.rs:90-111). -/
def finish (s : St) : R Err UpdatePdnConnectionSetRequest :=
  .ok s.x

/-- `fromvec` (updatepdnconnectionsetreq.rs:90-111). -/
def fromvec (x : UpdatePdnConnectionSetRequest) (els : List IE) : R Err UpdatePdnConnectionSetRequest := finish (els.foldl step ⟨x⟩)

/-- The message type (updatepdnconnectionsetreq.rs:39-70). -/
def codec : Codec UpdatePdnConnectionSetRequest :=
  { msgtype := 200, start := some 12, dflt, header := header, setHeader := fun x h => { x with header := h }, tovec, fromvec }

/-- One slot per field. -/
def schema : Schema :=
  [⟨.Fqcsid, .is 0, .opt⟩,
   ⟨.Fqcsid, .is 1, .opt⟩,
   ⟨.PrivateExtension, .any, .many⟩]

/-- The fields as lists of IEs. -/
def fields (x : UpdatePdnConnectionSetRequest) : List (List IE) :=
  [optV .Fqcsid x.mme_fqcsid,
   optV .Fqcsid x.sgw_fqcsid,
   x.private_ext.map .PrivateExtension]

/-- What the state has collected so far. -/
def St.view (s : St) : List (List IE) :=
  [optV .Fqcsid s.x.mme_fqcsid,
   optV .Fqcsid s.x.sgw_fqcsid,
   s.x.private_ext.map .PrivateExtension]

/-- The header is left alone; flags of mandatory lists tell whether the list is empty. -/
def St.Inv (h : Header) (s : St) : Prop :=
  s.x.header = h

theorem step_view (h : Header) (s : St) (e : IE) (hi : s.Inv h) : (step s e).view = Schema.step schema s.view e ∧ (step s e).Inv h := by
  cases e
  case Fqcsid j =>
    simp only [step]
    repeat' split
    all_goals refine ⟨cons_congr ?_ (cons_congr ?_ ((Schema.step_other rfl rfl).symm)), ?_⟩
    all_goals first | exact hi | msg_field | (simp_all [St.Inv]; done)
  case PrivateExtension j =>
    simp only [step]
    all_goals refine ⟨cons_congr (Slot.step_ne rfl).symm (cons_congr (Slot.step_ne rfl).symm (cons_congr ?_ (rfl))), ?_⟩
    all_goals first | exact hi | msg_field | (simp_all [St.Inv]; done)
  all_goals exact ⟨(Schema.step_other rfl rfl).symm, hi⟩

theorem loop (h : Header) (els : List IE) :
    (els.foldl step ⟨{ dflt with header := h }⟩).view = schema.map (·.select els) ∧ (els.foldl step ⟨{ dflt with header := h }⟩).Inv h := by
  have := foldl_view (Q := fun _ => True) (fun s e hp _ => step_view h s e hp) els ⟨{ dflt with header := h }⟩ (fun _ _ => trivial) (by simp [St.Inv])
  rw [show St.view ⟨{ dflt with header := h }⟩ = schema.map (fun _ => []) from rfl, Schema.foldl_nil] at this
  exact this

theorem ext {x y : UpdatePdnConnectionSetRequest} (hh : x.header = y.header) (h : fields x = fields y) : x = y := by
  cases x; cases y
  simp only at hh
  subst hh
  injection h with h0 h
  cases optV_inj (fun _ _ h => IE.Fqcsid.inj h) h0
  injection h with h1 h
  cases optV_inj (fun _ _ h => IE.Fqcsid.inj h) h1
  injection h with h2 h
  cases map_inj (fun _ _ h => IE.PrivateExtension.inj h) h2
  rfl

theorem mand : schema.filter (·.card.mandatory) = [] := rfl

/-- The flags tell which mandatory IEs are absent. -/
theorem flags (h : Header) (els : List IE) : ∃ x , els.foldl step ⟨{ dflt with header := h }⟩ = ⟨x⟩ ∧ St.view ⟨x⟩ = schema.map (·.select els) ∧ x.header = h := by
  obtain ⟨hv, hi⟩ := loop h els
  generalize els.foldl step ⟨{ dflt with header := h }⟩ = s at hv hi ⊢
  obtain ⟨x⟩ := s
  simp only [St.Inv] at hi
  exact ⟨x, rfl, hv, hi⟩

theorem complete (h : Header) (els : List IE) (_hm : schema.missing els = []) : ∃ y, fromvec { dflt with header := h } els = .ok y ∧ y.header = h ∧ fields y = schema.map (·.select els) := by
  obtain ⟨x, hs, hv, hh⟩ := flags h els
  unfold fromvec
  rw [hs]
  exact ⟨x, rfl, hh, hv⟩

theorem describes : Describes codec schema fields where
  header_set _ _ := rfl
  fields_set _ _ := rfl
  ext _ _ hh h := ext hh h
  shape x := Aligned.opt (fun _ => rfl) <| Aligned.opt (fun _ => rfl) <| Aligned.many (fun _ => rfl) <| trivial
  tovec x := by simp [codec, tovec, fields]
  complete h els _ hm := complete h els hm

end UpdatePdnConnectionSetRequest

/-- `UpdatePndConnectionSetResponse` (updatepdnconnectionsetresp.rs:15-21). -/
structure UpdatePndConnectionSetResponse where
  header : Header
  cause : V2.Cause
  pgw_fqcsid : Option V2.Fqcsid
  recovery : Option V2.Recovery
  private_ext : List V2.PrivateExtension
deriving DecidableEq

namespace UpdatePndConnectionSetResponse

/-- `default` (updatepdnconnectionsetresp.rs:24-36). -/
def dflt : UpdatePndConnectionSetResponse :=
  { header := { Header.default with msgtype := 201, teid := some 0 }, cause := V2.Cause.dflt, pgw_fqcsid := none, recovery := none, private_ext := [] }

/-- `tovec` (updatepdnconnectionsetresp.rs:73-91). -/
def tovec (x : UpdatePndConnectionSetResponse) : List IE :=
  [.Cause x.cause] ++ (
  optV .Fqcsid x.pgw_fqcsid ++ (
  optV .Recovery x.recovery ++ (
  x.private_ext.map .PrivateExtension)))

/-- The variables of `fromvec`: the message and the array `mandatory` (updatepdnconnectionsetresp.rs:93-122). -/
structure St where
  x : UpdatePndConnectionSetResponse
  m0 : Bool

/-- One turn of the loop of `fromvec` (updatepdnconnectionsetresp.rs:93-122). -/
def step (s : St) : IE → St
  | .Cause j => if j.ins = 0 then { s with x := { s.x with cause := j }, m0 := true } else s
  | .Fqcsid j => if j.ins = 0 ∧ s.x.pgw_fqcsid.isNone = true then { s with x := { s.x with pgw_fqcsid := some j } } else s
  | .Recovery j => if j.ins = 0 ∧ s.x.recovery.isNone = true then { s with x := { s.x with recovery := some j } } else s
  | .PrivateExtension j => { s with x := { s.x with private_ext := s.x.private_ext ++ [j] } }
  | _ => s

/-- The end of `fromvec` (updatepdnconnectionsetresp.rs:93-122). -/
def finish (s : St) : R Err UpdatePndConnectionSetResponse :=
  if s.m0 then .ok s.x else .err (.messageMandatoryIEMissing 2)

/-- `fromvec` (updatepdnconnectionsetresp.rs:93-122). -/
def fromvec (x : UpdatePndConnectionSetResponse) (els : List IE) : R Err UpdatePndConnectionSetResponse := finish (els.foldl step ⟨x, false⟩)

/-- The message type (updatepdnconnectionsetresp.rs:40-71). -/
def codec : Codec UpdatePndConnectionSetResponse :=
  { msgtype := 201, start := some 12, dflt, header := header, setHeader := fun x h => { x with header := h }, tovec, fromvec }

/-- One slot per field. -/
def schema : Schema :=
  [⟨.Cause, .is 0, .oneLast⟩,
   ⟨.Fqcsid, .is 0, .opt⟩,
   ⟨.Recovery, .is 0, .opt⟩,
   ⟨.PrivateExtension, .any, .many⟩]

/-- The fields as lists of IEs. -/
def fields (x : UpdatePndConnectionSetResponse) : List (List IE) :=
  [[.Cause x.cause],
   optV .Fqcsid x.pgw_fqcsid,
   optV .Recovery x.recovery,
   x.private_ext.map .PrivateExtension]

/-- What the state has collected so far. -/
def St.view (s : St) : List (List IE) :=
  [if s.m0 then [.Cause s.x.cause] else [],
   optV .Fqcsid s.x.pgw_fqcsid,
   optV .Recovery s.x.recovery,
   s.x.private_ext.map .PrivateExtension]

/-- The header is left alone; flags of mandatory lists tell whether the list is empty. -/
def St.Inv (h : Header) (s : St) : Prop :=
  s.x.header = h

theorem step_view (h : Header) (s : St) (e : IE) (hi : s.Inv h) : (step s e).view = Schema.step schema s.view e ∧ (step s e).Inv h := by
  cases e
  case Cause j =>
    simp only [step]
    repeat' split
    all_goals refine ⟨cons_congr ?_ ((Schema.step_other rfl rfl).symm), ?_⟩
    all_goals first | exact hi | msg_field | (simp_all [St.Inv]; done)
  case Fqcsid j =>
    simp only [step]
    repeat' split
    all_goals refine ⟨cons_congr (Slot.step_ne rfl).symm (cons_congr ?_ ((Schema.step_other rfl rfl).symm)), ?_⟩
    all_goals first | exact hi | msg_field | (simp_all [St.Inv]; done)
  case Recovery j =>
    simp only [step]
    repeat' split
    all_goals refine ⟨cons_congr (Slot.step_ne rfl).symm (cons_congr (Slot.step_ne rfl).symm (cons_congr ?_ ((Schema.step_other rfl rfl).symm))), ?_⟩
    all_goals first | exact hi | msg_field | (simp_all [St.Inv]; done)
  case PrivateExtension j =>
    simp only [step]
    all_goals refine ⟨cons_congr (Slot.step_ne rfl).symm (cons_congr (Slot.step_ne rfl).symm (cons_congr (Slot.step_ne rfl).symm (cons_congr ?_ (rfl)))), ?_⟩
    all_goals first | exact hi | msg_field | (simp_all [St.Inv]; done)
  all_goals exact ⟨(Schema.step_other rfl rfl).symm, hi⟩

theorem loop (h : Header) (els : List IE) :
    (els.foldl step ⟨{ dflt with header := h }, false⟩).view = schema.map (·.select els) ∧ (els.foldl step ⟨{ dflt with header := h }, false⟩).Inv h := by
  have := foldl_view (Q := fun _ => True) (fun s e hp _ => step_view h s e hp) els ⟨{ dflt with header := h }, false⟩ (fun _ _ => trivial) (by simp [St.Inv])
  rw [show St.view ⟨{ dflt with header := h }, false⟩ = schema.map (fun _ => []) from rfl, Schema.foldl_nil] at this
  exact this

theorem ext {x y : UpdatePndConnectionSetResponse} (hh : x.header = y.header) (h : fields x = fields y) : x = y := by
  cases x; cases y
  simp only at hh
  subst hh
  injection h with h0 h
  cases h0
  injection h with h1 h
  cases optV_inj (fun _ _ h => IE.Fqcsid.inj h) h1
  injection h with h2 h
  cases optV_inj (fun _ _ h => IE.Recovery.inj h) h2
  injection h with h3 h
  cases map_inj (fun _ _ h => IE.PrivateExtension.inj h) h3
  rfl

theorem mand : schema.filter (·.card.mandatory) = [(⟨.Cause, .is 0, .oneLast⟩ : Slot)] := rfl

/-- The flags tell which mandatory IEs are absent. -/
theorem flags (h : Header) (els : List IE) : ∃ x m0, els.foldl step ⟨{ dflt with header := h }, false⟩ = ⟨x, m0⟩ ∧ St.view ⟨x, m0⟩ = schema.map (·.select els) ∧ x.header = h ∧
    (⟨.Cause, .is 0, .oneLast⟩ : Slot).lacks els = (!m0) := by
  obtain ⟨hv, hi⟩ := loop h els
  generalize els.foldl step ⟨{ dflt with header := h }, false⟩ = s at hv hi ⊢
  obtain ⟨x, m0⟩ := s
  simp only [St.Inv] at hi
  have l0 : (⟨.Cause, .is 0, .oneLast⟩ : Slot).lacks els = (!m0) := by
    rw [Slot.lacks_eq els rfl]
    have e := congrArg (fun l => l.getD 0 []) hv
    rw [show (⟨.Cause, .is 0, .oneLast⟩ : Slot).select els = if m0 then [.Cause x.cause] else [] from e.symm]
    cases m0 <;> rfl
  exact ⟨x, m0, rfl, hv, hi, l0⟩

theorem complete (h : Header) (els : List IE) (hm : schema.missing els = []) : ∃ y, fromvec { dflt with header := h } els = .ok y ∧ y.header = h ∧ fields y = schema.map (·.select els) := by
  obtain ⟨x, m0, hs, hv, hh, l0⟩ := flags h els
  unfold fromvec
  rw [hs]
  dsimp only [finish]
  have f0 := l0.symm.trans (Schema.of_missing_nil mand (by simp) hm)
  cases m0 <;> first | exact ⟨x, rfl, hh, hv⟩ | contradiction

theorem describes : Describes codec schema fields where
  header_set _ _ := rfl
  fields_set _ _ := rfl
  ext _ _ hh h := ext hh h
  shape x := Aligned.one (fun _ => rfl) <| Aligned.opt (fun _ => rfl) <| Aligned.opt (fun _ => rfl) <| Aligned.many (fun _ => rfl) <| trivial
  tovec x := by simp [codec, tovec, fields]
  complete h els _ hm := complete h els hm

theorem reports (h : Header) (els : List IE) (hm : schema.missing els ≠ []) :
    ∃ s ∈ schema.missing els, ∃ t, fromvec { dflt with header := h } els = .err (.messageMandatoryIEMissing t) ∧ kindOf t = s.kind := by
  obtain ⟨x, m0, hs, hv, hh, l0⟩ := flags h els
  unfold fromvec
  rw [hs]
  dsimp only [finish]
  cases m0 <;>
    first | exact ⟨_, Schema.mem_missing mand (by simp) l0, _, rfl, rfl⟩ | exact absurd (Schema.missing_nil mand (by simp [l0])) hm

theorem settled (h : Header) (els els' : List IE) (he : ∀ s ∈ schema, s.card.mandatory = true → s.lacks els = s.lacks els')
    (hm : schema.missing els ≠ []) : fromvec { dflt with header := h } els = fromvec { dflt with header := h } els' := by
  obtain ⟨x, m0, hs, hv, hh, l0⟩ := flags h els
  obtain ⟨x', m0', hs', hv', hh', l0'⟩ := flags h els'
  unfold fromvec
  rw [hs, hs']
  obtain rfl := Bool.not_inj (l0.symm.trans ((he _ (by decide) rfl).trans l0'))
  dsimp only [finish]
  cases m0 <;>
    first | rfl | exact absurd (Schema.missing_nil mand (by simp [l0])) hm

end UpdatePndConnectionSetResponse

/-- `VersionNotSupported` (versionnotsupported.rs:15-17). -/
structure VersionNotSupported where
  header : Header
deriving DecidableEq

namespace VersionNotSupported

/-- `default` (versionnotsupported.rs:20-26). -/
def dflt : VersionNotSupported :=
  { header := { Header.default with msgtype := 3 } }

/-- `tovec` (versionnotsupported.rs:47-49). -/
def tovec (x : VersionNotSupported) : List IE :=
  []

/-- The variables of `fromvec`: the message and the array `mandatory` (versionnotsupported.rs:51-53). -/
structure St where
  x : VersionNotSupported

/-- One turn of the loop of `fromvec` (versionnotsupported.rs:51-53). -/
def step (s : St) (_ : IE) : St := s

/-- The end of `fromvec` (versionnotsupported.rs:51-53). -/
def finish (s : St) : R Err VersionNotSupported :=
  .ok s.x

/-- `fromvec` (versionnotsupported.rs:51-53). -/
def fromvec (x : VersionNotSupported) (els : List IE) : R Err VersionNotSupported := finish (els.foldl step ⟨x⟩)

/-- The message type (versionnotsupported.rs:30-45). -/
def codec : Codec VersionNotSupported :=
  { msgtype := 3, start := none, dflt, header := header, setHeader := fun x h => { x with header := h }, tovec, fromvec }

/-- One slot per field. -/
def schema : Schema :=
  []

/-- The fields as lists of IEs. -/
def fields (x : VersionNotSupported) : List (List IE) :=
  []

/-- What the state has collected so far. -/
def St.view (s : St) : List (List IE) :=
  []

/-- The header is left alone; flags of mandatory lists tell whether the list is empty. -/
def St.Inv (h : Header) (s : St) : Prop :=
  s.x.header = h

theorem step_view (h : Header) (s : St) (e : IE) (hi : s.Inv h) : (step s e).view = Schema.step schema s.view e ∧ (step s e).Inv h := by
  exact ⟨rfl, hi⟩

theorem loop (h : Header) (els : List IE) :
    (els.foldl step ⟨{ dflt with header := h }⟩).view = schema.map (·.select els) ∧ (els.foldl step ⟨{ dflt with header := h }⟩).Inv h := by
  have := foldl_view (Q := fun _ => True) (fun s e hp _ => step_view h s e hp) els ⟨{ dflt with header := h }⟩ (fun _ _ => trivial) (by simp [St.Inv])
  rw [show St.view ⟨{ dflt with header := h }⟩ = schema.map (fun _ => []) from rfl, Schema.foldl_nil] at this
  exact this

theorem ext {x y : VersionNotSupported} (hh : x.header = y.header) (h : fields x = fields y) : x = y := by
  cases x; cases y
  simp only at hh
  subst hh
  rfl

theorem mand : schema.filter (·.card.mandatory) = [] := rfl

/-- The flags tell which mandatory IEs are absent. -/
theorem flags (h : Header) (els : List IE) : ∃ x , els.foldl step ⟨{ dflt with header := h }⟩ = ⟨x⟩ ∧ St.view ⟨x⟩ = schema.map (·.select els) ∧ x.header = h := by
  obtain ⟨hv, hi⟩ := loop h els
  generalize els.foldl step ⟨{ dflt with header := h }⟩ = s at hv hi ⊢
  obtain ⟨x⟩ := s
  simp only [St.Inv] at hi
  exact ⟨x, rfl, hv, hi⟩

theorem complete (h : Header) (els : List IE) (_hm : schema.missing els = []) : ∃ y, fromvec { dflt with header := h } els = .ok y ∧ y.header = h ∧ fields y = schema.map (·.select els) := by
  obtain ⟨x, hs, hv, hh⟩ := flags h els
  unfold fromvec
  rw [hs]
  exact ⟨x, rfl, hh, hv⟩

theorem describes : Describes codec schema fields where
  header_set _ _ := rfl
  fields_set _ _ := rfl
  ext _ _ hh h := ext hh h
  shape x := trivial
  tovec x := rfl
  complete h els _ hm := complete h els hm

end VersionNotSupported

end Gtp.V2.Msg
