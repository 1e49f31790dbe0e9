import Verif.V2.Msg.Tactic

/-!
# GTPv2-C messages: `CreateSessionRequest`

The model is generated by `scripts/gen_msgs.py` like those of the other messages; the proofs differ because `fromvec`
keeps track of the mandatory IEs by a list of the type octets it has seen.
-/

namespace Gtp.V2.Msg

/-- `CreateSessionRequest` (createsessionreq.rs:15-77). -/
structure CreateSessionRequest where
  header : Header
  imsi : Option V2.Imsi
  msisdn : Option V2.Msisdn
  mei : Option V2.Mei
  uli : Option V2.Uli
  servingnetwork : Option V2.ServingNetwork
  rattype : V2.RatType
  indication : Option V2.Indication
  fteid_control : V2.Fteid
  pgw_addr_control : Option V2.Fteid
  apn : V2.Apn
  selectionmode : Option V2.SelectionMode
  pdntype : Option V2.PdnType
  paa : Option V2.PdnAddressAllocation
  max_apnrestriction : Option V2.ApnRestriction
  apnambr : Option V2.Ambr
  linked_ebi : Option V2.Ebi
  twmi : Option V2.Twmi
  pco : Option V2.Pco
  bearer_ctxs : List V2.BearerContext
  traceinfo : Option V2.TraceInformation
  recovery : Option V2.Recovery
  mme_fqcsid : Option V2.Fqcsid
  sgw_fqcsid : Option V2.Fqcsid
  epdg_fqcsid : Option V2.Fqcsid
  twan_fqcsid : Option V2.Fqcsid
  uetimezone : Option V2.UeTimeZone
  uci : Option V2.Uci
  chargingchar : Option V2.ChargingCharacteristics
  ldns : List V2.Ldn
  spi : Option V2.Spi
  ue_localip : Option V2.IpAddress
  ue_udpport : Option V2.PortNumber
  apco : Option V2.Apco
  henb_localip : Option V2.IpAddress
  henb_udpport : Option V2.PortNumber
  mme_id : Option V2.IpAddress
  twan_id : Option V2.TwanId
  epdg_ip : Option V2.IpAddress
  cnose : Option V2.CnOperatorSelectionEntity
  prai : Option V2.PresenceReportingAreaInformation
  overload_info : List V2.OverloadControlInfo
  origination_timestamp : Option V2.MilliSecondTimeStamp
  max_waittime : Option V2.IntegerNumber
  wlan_loc : Option V2.TwanId
  wlan_loc_timestamp : Option V2.TwanIdTimeStamp
  nbifom : Option V2.Fcontainer
  remote_ue_ctx_connected : List V2.RemoteUeContext
  aaaserver_id : Option V2.NodeIdentifier
  epco : Option V2.Epco
  srv_plmn_rate_cntrl : Option V2.ServingPlmnRateControl
  mo_exception_data_counter : Option V2.Counter
  ue_tcpport : Option V2.PortNumber
  mapped_ue_usage_type : Option V2.MappedUeUsageType
  uli_for_sgw : Option V2.Uli
  sgwu_node : Option V2.Fqdn
  secondary_rat_usage_report : List V2.SecondaryRatUsageDataReport
  up_function_selection_flags : Option V2.UpFunctionSelectionIndicationFlags
  apn_rate_control_status : Option V2.ApnRateControlStatus
  pscellid : Option V2.PSCellId
  private_ext : List V2.PrivateExtension
deriving DecidableEq

namespace CreateSessionRequest

/-- `default` (createsessionreq.rs:80-149). -/
def dflt : CreateSessionRequest :=
  { header := { Header.default with msgtype := 32, teid := some 0 }, imsi := none, msisdn := none, mei := none, uli := none, servingnetwork := none, rattype := V2.RatType.dflt, indication := none, fteid_control := V2.Fteid.dflt, pgw_addr_control := none, apn := V2.Apn.dflt, selectionmode := none, pdntype := none, paa := none, max_apnrestriction := none, apnambr := none, linked_ebi := none, twmi := none, pco := none, bearer_ctxs := [], traceinfo := none, recovery := none, mme_fqcsid := none, sgw_fqcsid := none, epdg_fqcsid := none, twan_fqcsid := none, uetimezone := none, uci := none, chargingchar := none, ldns := [], spi := none, ue_localip := none, ue_udpport := none, apco := none, henb_localip := none, henb_udpport := none, mme_id := none, twan_id := none, epdg_ip := none, cnose := none, prai := none, overload_info := [], origination_timestamp := none, max_waittime := none, wlan_loc := none, wlan_loc_timestamp := none, nbifom := none, remote_ue_ctx_connected := [], aaaserver_id := none, epco := none, srv_plmn_rate_cntrl := none, mo_exception_data_counter := none, ue_tcpport := none, mapped_ue_usage_type := none, uli_for_sgw := none, sgwu_node := none, secondary_rat_usage_report := [], up_function_selection_flags := none, apn_rate_control_status := none, pscellid := none, private_ext := [] }

/-- `tovec` (createsessionreq.rs:186-423). -/
def tovec (x : CreateSessionRequest) : List IE :=
  optV .Imsi x.imsi ++ (
  optV .Msisdn x.msisdn ++ (
  optV .Mei x.mei ++ (
  optV .Uli x.uli ++ (
  optV .ServingNetwork x.servingnetwork ++ (
  [.RatType x.rattype] ++ (
  optV .Indication x.indication ++ (
  [.Fteid x.fteid_control] ++ (
  optV .Fteid x.pgw_addr_control ++ (
  [.Apn x.apn] ++ (
  optV .SelectionMode x.selectionmode ++ (
  optV .PdnType x.pdntype ++ (
  optV .PdnAddressAllocation x.paa ++ (
  optV .ApnRestriction x.max_apnrestriction ++ (
  optV .ApnAmbr x.apnambr ++ (
  optV .Ebi x.linked_ebi ++ (
  optV .Twmi x.twmi ++ (
  optV .Pco x.pco ++ (
  x.bearer_ctxs.map .BearerContext ++ (
  optV .TraceInformation x.traceinfo ++ (
  optV .Recovery x.recovery ++ (
  optV .Fqcsid x.mme_fqcsid ++ (
  optV .Fqcsid x.sgw_fqcsid ++ (
  optV .Fqcsid x.epdg_fqcsid ++ (
  optV .Fqcsid x.twan_fqcsid ++ (
  optV .UeTimeZone x.uetimezone ++ (
  optV .Uci x.uci ++ (
  optV .ChargingCharacteristics x.chargingchar ++ (
  x.ldns.map .Ldn ++ (
  optV .Spi x.spi ++ (
  optV .IpAddress x.ue_localip ++ (
  optV .PortNumber x.ue_udpport ++ (
  optV .Apco x.apco ++ (
  optV .IpAddress x.henb_localip ++ (
  optV .PortNumber x.henb_udpport ++ (
  optV .IpAddress x.mme_id ++ (
  optV .TwanId x.twan_id ++ (
  optV .IpAddress x.epdg_ip ++ (
  optV .CnOperatorSelectionEntity x.cnose ++ (
  optV .PresenceReportingAreaInformation x.prai ++ (
  x.overload_info.map .OverloadControlInfo ++ (
  optV .MilliSecondTimeStamp x.origination_timestamp ++ (
  optV .IntegerNumber x.max_waittime ++ (
  optV .TwanId x.wlan_loc ++ (
  optV .TwanIdTimeStamp x.wlan_loc_timestamp ++ (
  optV .Fcontainer x.nbifom ++ (
  x.remote_ue_ctx_connected.map .RemoteUeContext ++ (
  optV .NodeIdentifier x.aaaserver_id ++ (
  optV .Epco x.epco ++ (
  optV .ServingPlmnRateControl x.srv_plmn_rate_cntrl ++ (
  optV .Counter x.mo_exception_data_counter ++ (
  optV .PortNumber x.ue_tcpport ++ (
  optV .MappedUeUsageType x.mapped_ue_usage_type ++ (
  optV .Uli x.uli_for_sgw ++ (
  optV .Fqdn x.sgwu_node ++ (
  x.secondary_rat_usage_report.map .SecondaryRatUsageDataReport ++ (
  optV .UpFunctionSelectionIndicationFlags x.up_function_selection_flags ++ (
  optV .ApnRateControlStatus x.apn_rate_control_status ++ (
  optV .PSCellId x.pscellid ++ (
  x.private_ext.map .PrivateExtension)))))))))))))))))))))))))))))))))))))))))))))))))))))))))))

/-- The variables of `fromvec`: the message and the array `mandatory` (createsessionreq.rs:425-732). -/
structure St where
  x : CreateSessionRequest
  mand : List UInt8

/-- One turn of the loop of `fromvec` (createsessionreq.rs:425-732). -/
def step (s : St) : IE → St
  | .Imsi j => if j.ins = 0 ∧ s.x.imsi.isNone = true then { s with x := { s.x with imsi := some j } } else s
  | .Msisdn j => if j.ins = 0 ∧ s.x.msisdn.isNone = true then { s with x := { s.x with msisdn := some j } } else s
  | .Mei j => if j.ins = 0 ∧ s.x.mei.isNone = true then { s with x := { s.x with mei := some j } } else s
  | .Uli j => if j.ins = 0 ∧ s.x.uli.isNone = true then { s with x := { s.x with uli := some j } } else if j.ins = 1 ∧ s.x.uli_for_sgw.isNone = true then { s with x := { s.x with uli_for_sgw := some j } } else s
  | .ServingNetwork j => if j.ins = 0 ∧ s.x.servingnetwork.isNone = true then { s with x := { s.x with servingnetwork := some j } } else s
  | .RatType j => if j.ins = 0 ∧ (s.mand.find? (· == 82)).isNone = true then { s with x := { s.x with rattype := j }, mand := s.mand ++ [j.t] } else s
  | .Indication j => if j.ins = 0 ∧ s.x.indication.isNone = true then { s with x := { s.x with indication := some j } } else s
  | .Fteid j => if j.ins = 0 ∧ (s.mand.find? (· == 87)).isNone = true then { s with x := { s.x with fteid_control := j }, mand := s.mand ++ [j.t] } else if j.ins = 1 ∧ s.x.pgw_addr_control.isNone = true then { s with x := { s.x with pgw_addr_control := some j } } else s
  | .Apn j => if j.ins = 0 ∧ (s.mand.find? (· == 71)).isNone = true then { s with x := { s.x with apn := j }, mand := s.mand ++ [j.t] } else s
  | .SelectionMode j => if j.ins = 0 ∧ s.x.selectionmode.isNone = true then { s with x := { s.x with selectionmode := some j } } else s
  | .PdnType j => if j.ins = 0 ∧ s.x.pdntype.isNone = true then { s with x := { s.x with pdntype := some j } } else s
  | .PdnAddressAllocation j => if j.ins = 0 ∧ s.x.paa.isNone = true then { s with x := { s.x with paa := some j } } else s
  | .ApnRestriction j => if j.ins = 0 ∧ s.x.max_apnrestriction.isNone = true then { s with x := { s.x with max_apnrestriction := some j } } else s
  | .ApnAmbr j => if j.ins = 0 ∧ s.x.apnambr.isNone = true then { s with x := { s.x with apnambr := some j } } else s
  | .Ebi j => if j.ins = 0 ∧ s.x.linked_ebi.isNone = true then { s with x := { s.x with linked_ebi := some j } } else s
  | .Twmi j => if j.ins = 0 ∧ s.x.twmi.isNone = true then { s with x := { s.x with twmi := some j } } else s
  | .Pco j => if j.ins = 0 ∧ s.x.pco.isNone = true then { s with x := { s.x with pco := some j } } else s
  | .BearerContext j => if j.ins = 0 then { s with x := { s.x with bearer_ctxs := s.x.bearer_ctxs ++ [j] }, mand := s.mand ++ [j.t] } else if j.ins = 1 then { s with x := { s.x with bearer_ctxs := s.x.bearer_ctxs ++ [j] } } else s
  | .TraceInformation j => if j.ins = 0 ∧ s.x.traceinfo.isNone = true then { s with x := { s.x with traceinfo := some j } } else s
  | .Recovery j => if j.ins = 0 ∧ s.x.recovery.isNone = true then { s with x := { s.x with recovery := some j } } else s
  | .Fqcsid j => if j.ins = 0 ∧ s.x.mme_fqcsid.isNone = true then { s with x := { s.x with mme_fqcsid := some j } } else if j.ins = 1 ∧ s.x.sgw_fqcsid.isNone = true then { s with x := { s.x with sgw_fqcsid := some j } } else if j.ins = 2 ∧ s.x.epdg_fqcsid.isNone = true then { s with x := { s.x with epdg_fqcsid := some j } } else if j.ins = 3 ∧ s.x.twan_fqcsid.isNone = true then { s with x := { s.x with twan_fqcsid := some j } } else s
  | .UeTimeZone j => if j.ins = 0 ∧ s.x.uetimezone.isNone = true then { s with x := { s.x with uetimezone := some j } } else s
  | .Uci j => if j.ins = 0 ∧ s.x.uci.isNone = true then { s with x := { s.x with uci := some j } } else s
  | .ChargingCharacteristics j => if j.ins = 0 ∧ s.x.chargingchar.isNone = true then { s with x := { s.x with chargingchar := some j } } else s
  | .Ldn j => { s with x := { s.x with ldns := s.x.ldns ++ [j] } }
  | .Spi j => if j.ins = 0 ∧ s.x.spi.isNone = true then { s with x := { s.x with spi := some j } } else s
  | .IpAddress j => if j.ins = 0 ∧ s.x.ue_localip.isNone = true then { s with x := { s.x with ue_localip := some j } } else if j.ins = 1 ∧ s.x.henb_localip.isNone = true then { s with x := { s.x with henb_localip := some j } } else if j.ins = 2 ∧ s.x.mme_id.isNone = true then { s with x := { s.x with mme_id := some j } } else if j.ins = 3 ∧ s.x.epdg_ip.isNone = true then { s with x := { s.x with epdg_ip := some j } } else s
  | .PortNumber j => if j.ins = 0 ∧ s.x.ue_udpport.isNone = true then { s with x := { s.x with ue_udpport := some j } } else if j.ins = 1 ∧ s.x.henb_udpport.isNone = true then { s with x := { s.x with henb_udpport := some j } } else if j.ins = 2 ∧ s.x.ue_tcpport.isNone = true then { s with x := { s.x with ue_tcpport := some j } } else s
  | .Apco j => if j.ins = 0 ∧ s.x.apco.isNone = true then { s with x := { s.x with apco := some j } } else s
  | .TwanId j => if j.ins = 0 ∧ s.x.twan_id.isNone = true then { s with x := { s.x with twan_id := some j } } else if j.ins = 1 ∧ s.x.wlan_loc.isNone = true then { s with x := { s.x with wlan_loc := some j } } else s
  | .CnOperatorSelectionEntity j => if j.ins = 0 ∧ s.x.cnose.isNone = true then { s with x := { s.x with cnose := some j } } else s
  | .PresenceReportingAreaInformation j => if j.ins = 0 ∧ s.x.prai.isNone = true then { s with x := { s.x with prai := some j } } else s
  | .OverloadControlInfo j => if j.ins < 3 then { s with x := { s.x with overload_info := s.x.overload_info ++ [j] } } else s
  | .MilliSecondTimeStamp j => if j.ins = 0 ∧ s.x.origination_timestamp.isNone = true then { s with x := { s.x with origination_timestamp := some j } } else s
  | .IntegerNumber j => if j.ins = 0 ∧ s.x.max_waittime.isNone = true then { s with x := { s.x with max_waittime := some j } } else s
  | .TwanIdTimeStamp j => if j.ins = 0 ∧ s.x.wlan_loc_timestamp.isNone = true then { s with x := { s.x with wlan_loc_timestamp := some j } } else s
  | .Fcontainer j => if j.ins = 0 ∧ s.x.nbifom.isNone = true then { s with x := { s.x with nbifom := some j } } else s
  | .RemoteUeContext j => if j.ins = 0 then { s with x := { s.x with remote_ue_ctx_connected := s.x.remote_ue_ctx_connected ++ [j] } } else s
  | .NodeIdentifier j => if j.ins = 0 ∧ s.x.aaaserver_id.isNone = true then { s with x := { s.x with aaaserver_id := some j } } else s
  | .Epco j => if j.ins = 0 ∧ s.x.epco.isNone = true then { s with x := { s.x with epco := some j } } else s
  | .ServingPlmnRateControl j => if j.ins = 0 ∧ s.x.srv_plmn_rate_cntrl.isNone = true then { s with x := { s.x with srv_plmn_rate_cntrl := some j } } else s
  | .Counter j => if j.ins = 0 ∧ s.x.mo_exception_data_counter.isNone = true then { s with x := { s.x with mo_exception_data_counter := some j } } else s
  | .MappedUeUsageType j => if j.ins = 0 ∧ s.x.mapped_ue_usage_type.isNone = true then { s with x := { s.x with mapped_ue_usage_type := some j } } else s
  | .Fqdn j => if j.ins = 0 ∧ s.x.sgwu_node.isNone = true then { s with x := { s.x with sgwu_node := some j } } else s
  | .SecondaryRatUsageDataReport j => if j.ins = 0 then { s with x := { s.x with secondary_rat_usage_report := s.x.secondary_rat_usage_report ++ [j] } } else s
  | .UpFunctionSelectionIndicationFlags j => if j.ins = 0 ∧ s.x.up_function_selection_flags.isNone = true then { s with x := { s.x with up_function_selection_flags := some j } } else s
  | .ApnRateControlStatus j => if j.ins = 0 ∧ s.x.apn_rate_control_status.isNone = true then { s with x := { s.x with apn_rate_control_status := some j } } else s
  | .PSCellId j => if j.ins = 0 ∧ s.x.pscellid.isNone = true then { s with x := { s.x with pscellid := some j } } else s
  | .PrivateExtension j => { s with x := { s.x with private_ext := s.x.private_ext ++ [j] } }
  | _ => s

/-- The end of `fromvec` (createsessionreq.rs:425-732). -/
def finish (s : St) : R Err CreateSessionRequest :=
  match s.mand.find? (· == 82), s.mand.find? (· == 87), s.mand.find? (· == 71), s.mand.find? (· == 93) with
  | none, _, _, _ => .err (.messageMandatoryIEMissing 82)
  | _, none, _, _ => .err (.messageMandatoryIEMissing 87)
  | _, _, none, _ => .err (.messageMandatoryIEMissing 71)
  | _, _, _, none => .err (.messageMandatoryIEMissing 93)
  | some _, some _, some _, some _ => .ok s.x

/-- `fromvec` (createsessionreq.rs:425-732). -/
def fromvec (x : CreateSessionRequest) (els : List IE) : R Err CreateSessionRequest := finish (els.foldl step ⟨x, []⟩)

/-- The message type (createsessionreq.rs:153-184). -/
def codec : Codec CreateSessionRequest :=
  { msgtype := 32, start := some 12, dflt, header := header, setHeader := fun x h => { x with header := h }, tovec, fromvec }

/-- One slot per field. -/
def schema : Schema :=
  [⟨.Imsi, .is 0, .opt⟩,
   ⟨.Msisdn, .is 0, .opt⟩,
   ⟨.Mei, .is 0, .opt⟩,
   ⟨.Uli, .is 0, .opt⟩,
   ⟨.ServingNetwork, .is 0, .opt⟩,
   ⟨.RatType, .is 0, .one⟩,
   ⟨.Indication, .is 0, .opt⟩,
   ⟨.Fteid, .is 0, .one⟩,
   ⟨.Fteid, .is 1, .opt⟩,
   ⟨.Apn, .is 0, .one⟩,
   ⟨.SelectionMode, .is 0, .opt⟩,
   ⟨.PdnType, .is 0, .opt⟩,
   ⟨.PdnAddressAllocation, .is 0, .opt⟩,
   ⟨.ApnRestriction, .is 0, .opt⟩,
   ⟨.ApnAmbr, .is 0, .opt⟩,
   ⟨.Ebi, .is 0, .opt⟩,
   ⟨.Twmi, .is 0, .opt⟩,
   ⟨.Pco, .is 0, .opt⟩,
   ⟨.BearerContext, .lt 2, .many1 (.is 0)⟩,
   ⟨.TraceInformation, .is 0, .opt⟩,
   ⟨.Recovery, .is 0, .opt⟩,
   ⟨.Fqcsid, .is 0, .opt⟩,
   ⟨.Fqcsid, .is 1, .opt⟩,
   ⟨.Fqcsid, .is 2, .opt⟩,
   ⟨.Fqcsid, .is 3, .opt⟩,
   ⟨.UeTimeZone, .is 0, .opt⟩,
   ⟨.Uci, .is 0, .opt⟩,
   ⟨.ChargingCharacteristics, .is 0, .opt⟩,
   ⟨.Ldn, .any, .many⟩,
   ⟨.Spi, .is 0, .opt⟩,
   ⟨.IpAddress, .is 0, .opt⟩,
   ⟨.PortNumber, .is 0, .opt⟩,
   ⟨.Apco, .is 0, .opt⟩,
   ⟨.IpAddress, .is 1, .opt⟩,
   ⟨.PortNumber, .is 1, .opt⟩,
   ⟨.IpAddress, .is 2, .opt⟩,
   ⟨.TwanId, .is 0, .opt⟩,
   ⟨.IpAddress, .is 3, .opt⟩,
   ⟨.CnOperatorSelectionEntity, .is 0, .opt⟩,
   ⟨.PresenceReportingAreaInformation, .is 0, .opt⟩,
   ⟨.OverloadControlInfo, .lt 3, .many⟩,
   ⟨.MilliSecondTimeStamp, .is 0, .opt⟩,
   ⟨.IntegerNumber, .is 0, .opt⟩,
   ⟨.TwanId, .is 1, .opt⟩,
   ⟨.TwanIdTimeStamp, .is 0, .opt⟩,
   ⟨.Fcontainer, .is 0, .opt⟩,
   ⟨.RemoteUeContext, .is 0, .many⟩,
   ⟨.NodeIdentifier, .is 0, .opt⟩,
   ⟨.Epco, .is 0, .opt⟩,
   ⟨.ServingPlmnRateControl, .is 0, .opt⟩,
   ⟨.Counter, .is 0, .opt⟩,
   ⟨.PortNumber, .is 2, .opt⟩,
   ⟨.MappedUeUsageType, .is 0, .opt⟩,
   ⟨.Uli, .is 1, .opt⟩,
   ⟨.Fqdn, .is 0, .opt⟩,
   ⟨.SecondaryRatUsageDataReport, .is 0, .many⟩,
   ⟨.UpFunctionSelectionIndicationFlags, .is 0, .opt⟩,
   ⟨.ApnRateControlStatus, .is 0, .opt⟩,
   ⟨.PSCellId, .is 0, .opt⟩,
   ⟨.PrivateExtension, .any, .many⟩]

/-- The fields as lists of IEs. -/
def fields (x : CreateSessionRequest) : List (List IE) :=
  [optV .Imsi x.imsi,
   optV .Msisdn x.msisdn,
   optV .Mei x.mei,
   optV .Uli x.uli,
   optV .ServingNetwork x.servingnetwork,
   [.RatType x.rattype],
   optV .Indication x.indication,
   [.Fteid x.fteid_control],
   optV .Fteid x.pgw_addr_control,
   [.Apn x.apn],
   optV .SelectionMode x.selectionmode,
   optV .PdnType x.pdntype,
   optV .PdnAddressAllocation x.paa,
   optV .ApnRestriction x.max_apnrestriction,
   optV .ApnAmbr x.apnambr,
   optV .Ebi x.linked_ebi,
   optV .Twmi x.twmi,
   optV .Pco x.pco,
   x.bearer_ctxs.map .BearerContext,
   optV .TraceInformation x.traceinfo,
   optV .Recovery x.recovery,
   optV .Fqcsid x.mme_fqcsid,
   optV .Fqcsid x.sgw_fqcsid,
   optV .Fqcsid x.epdg_fqcsid,
   optV .Fqcsid x.twan_fqcsid,
   optV .UeTimeZone x.uetimezone,
   optV .Uci x.uci,
   optV .ChargingCharacteristics x.chargingchar,
   x.ldns.map .Ldn,
   optV .Spi x.spi,
   optV .IpAddress x.ue_localip,
   optV .PortNumber x.ue_udpport,
   optV .Apco x.apco,
   optV .IpAddress x.henb_localip,
   optV .PortNumber x.henb_udpport,
   optV .IpAddress x.mme_id,
   optV .TwanId x.twan_id,
   optV .IpAddress x.epdg_ip,
   optV .CnOperatorSelectionEntity x.cnose,
   optV .PresenceReportingAreaInformation x.prai,
   x.overload_info.map .OverloadControlInfo,
   optV .MilliSecondTimeStamp x.origination_timestamp,
   optV .IntegerNumber x.max_waittime,
   optV .TwanId x.wlan_loc,
   optV .TwanIdTimeStamp x.wlan_loc_timestamp,
   optV .Fcontainer x.nbifom,
   x.remote_ue_ctx_connected.map .RemoteUeContext,
   optV .NodeIdentifier x.aaaserver_id,
   optV .Epco x.epco,
   optV .ServingPlmnRateControl x.srv_plmn_rate_cntrl,
   optV .Counter x.mo_exception_data_counter,
   optV .PortNumber x.ue_tcpport,
   optV .MappedUeUsageType x.mapped_ue_usage_type,
   optV .Uli x.uli_for_sgw,
   optV .Fqdn x.sgwu_node,
   x.secondary_rat_usage_report.map .SecondaryRatUsageDataReport,
   optV .UpFunctionSelectionIndicationFlags x.up_function_selection_flags,
   optV .ApnRateControlStatus x.apn_rate_control_status,
   optV .PSCellId x.pscellid,
   x.private_ext.map .PrivateExtension]

/-- A type octet has been pushed. -/
def has (l : List UInt8) (t : UInt8) : Bool := (l.find? (· == t)).isSome

theorem has_nil (t : UInt8) : has [] t = false := rfl

theorem has_append (l : List UInt8) (a t : UInt8) : has (l ++ [a]) t = (has l t || a == t) := by
  induction l with
  | nil => cases h : a == t <;> simp [has, h]
  | cons b l ih =>
    simp only [has, List.cons_append, List.find?_cons] at ih ⊢
    cases b == t <;> simp_all

theorem isNone_has (l : List UInt8) (t : UInt8) : (l.find? (· == t)).isNone = !has l t := by
  cases h : l.find? (· == t) <;> simp [has, h]

theorem ins_lt2 : ∀ i : UInt8, ¬ i = 0 → ¬ i = 1 → decide (i < 2) = false := by decide +kernel

/-- What the state has collected so far. -/
def St.view (s : St) : List (List IE) :=
  [optV .Imsi s.x.imsi,
   optV .Msisdn s.x.msisdn,
   optV .Mei s.x.mei,
   optV .Uli s.x.uli,
   optV .ServingNetwork s.x.servingnetwork,
   if has s.mand 82 then [.RatType s.x.rattype] else [],
   optV .Indication s.x.indication,
   if has s.mand 87 then [.Fteid s.x.fteid_control] else [],
   optV .Fteid s.x.pgw_addr_control,
   if has s.mand 71 then [.Apn s.x.apn] else [],
   optV .SelectionMode s.x.selectionmode,
   optV .PdnType s.x.pdntype,
   optV .PdnAddressAllocation s.x.paa,
   optV .ApnRestriction s.x.max_apnrestriction,
   optV .ApnAmbr s.x.apnambr,
   optV .Ebi s.x.linked_ebi,
   optV .Twmi s.x.twmi,
   optV .Pco s.x.pco,
   s.x.bearer_ctxs.map .BearerContext,
   optV .TraceInformation s.x.traceinfo,
   optV .Recovery s.x.recovery,
   optV .Fqcsid s.x.mme_fqcsid,
   optV .Fqcsid s.x.sgw_fqcsid,
   optV .Fqcsid s.x.epdg_fqcsid,
   optV .Fqcsid s.x.twan_fqcsid,
   optV .UeTimeZone s.x.uetimezone,
   optV .Uci s.x.uci,
   optV .ChargingCharacteristics s.x.chargingchar,
   s.x.ldns.map .Ldn,
   optV .Spi s.x.spi,
   optV .IpAddress s.x.ue_localip,
   optV .PortNumber s.x.ue_udpport,
   optV .Apco s.x.apco,
   optV .IpAddress s.x.henb_localip,
   optV .PortNumber s.x.henb_udpport,
   optV .IpAddress s.x.mme_id,
   optV .TwanId s.x.twan_id,
   optV .IpAddress s.x.epdg_ip,
   optV .CnOperatorSelectionEntity s.x.cnose,
   optV .PresenceReportingAreaInformation s.x.prai,
   s.x.overload_info.map .OverloadControlInfo,
   optV .MilliSecondTimeStamp s.x.origination_timestamp,
   optV .IntegerNumber s.x.max_waittime,
   optV .TwanId s.x.wlan_loc,
   optV .TwanIdTimeStamp s.x.wlan_loc_timestamp,
   optV .Fcontainer s.x.nbifom,
   s.x.remote_ue_ctx_connected.map .RemoteUeContext,
   optV .NodeIdentifier s.x.aaaserver_id,
   optV .Epco s.x.epco,
   optV .ServingPlmnRateControl s.x.srv_plmn_rate_cntrl,
   optV .Counter s.x.mo_exception_data_counter,
   optV .PortNumber s.x.ue_tcpport,
   optV .MappedUeUsageType s.x.mapped_ue_usage_type,
   optV .Uli s.x.uli_for_sgw,
   optV .Fqdn s.x.sgwu_node,
   s.x.secondary_rat_usage_report.map .SecondaryRatUsageDataReport,
   optV .UpFunctionSelectionIndicationFlags s.x.up_function_selection_flags,
   optV .ApnRateControlStatus s.x.apn_rate_control_status,
   optV .PSCellId s.x.pscellid,
   s.x.private_ext.map .PrivateExtension]

/-- The header is left alone; flags of mandatory lists tell whether the list is empty. -/
def St.Inv (h : Header) (s : St) : Prop :=
  s.x.header = h ∧ has s.mand 93 = s.x.bearer_ctxs.any (fun j => j.ins == 0)

set_option maxHeartbeats 1000000 in
theorem step_view (h : Header) (s : St) (e : IE) (hi : s.Inv h) (hq : TypeOk e) : (step s e).view = Schema.step schema s.view e ∧ (step s e).Inv h := by
  cases e
  case Imsi j =>
    simp only [step]
    repeat' split
    all_goals refine ⟨cons_congr ?_ ((Schema.step_other rfl rfl).symm), ?_⟩
    all_goals first | exact hi | msg_field | (simp_all [St.Inv]; done)
  case Msisdn j =>
    simp only [step]
    repeat' split
    all_goals refine ⟨cons_congr (Slot.step_ne rfl).symm (cons_congr ?_ ((Schema.step_other rfl rfl).symm)), ?_⟩
    all_goals first | exact hi | msg_field | (simp_all [St.Inv]; done)
  case Mei j =>
    simp only [step]
    repeat' split
    all_goals refine ⟨cons_congr (Slot.step_ne rfl).symm (cons_congr (Slot.step_ne rfl).symm (cons_congr ?_ ((Schema.step_other rfl rfl).symm))), ?_⟩
    all_goals first | exact hi | msg_field | (simp_all [St.Inv]; done)
  case Uli j =>
    simp only [step]
    repeat' split
    all_goals refine ⟨cons_congr (Slot.step_ne rfl).symm (cons_congr (Slot.step_ne rfl).symm (cons_congr (Slot.step_ne rfl).symm (cons_congr ?_ (cons_congr (Slot.step_ne rfl).symm (cons_congr (Slot.step_ne rfl).symm (cons_congr (Slot.step_ne rfl).symm (cons_congr (Slot.step_ne rfl).symm (cons_congr (Slot.step_ne rfl).symm (cons_congr (Slot.step_ne rfl).symm (cons_congr (Slot.step_ne rfl).symm (cons_congr (Slot.step_ne rfl).symm (cons_congr (Slot.step_ne rfl).symm (cons_congr (Slot.step_ne rfl).symm (cons_congr (Slot.step_ne rfl).symm (cons_congr (Slot.step_ne rfl).symm (cons_congr (Slot.step_ne rfl).symm (cons_congr (Slot.step_ne rfl).symm (cons_congr (Slot.step_ne rfl).symm (cons_congr (Slot.step_ne rfl).symm (cons_congr (Slot.step_ne rfl).symm (cons_congr (Slot.step_ne rfl).symm (cons_congr (Slot.step_ne rfl).symm (cons_congr (Slot.step_ne rfl).symm (cons_congr (Slot.step_ne rfl).symm (cons_congr (Slot.step_ne rfl).symm (cons_congr (Slot.step_ne rfl).symm (cons_congr (Slot.step_ne rfl).symm (cons_congr (Slot.step_ne rfl).symm (cons_congr (Slot.step_ne rfl).symm (cons_congr (Slot.step_ne rfl).symm (cons_congr (Slot.step_ne rfl).symm (cons_congr (Slot.step_ne rfl).symm (cons_congr (Slot.step_ne rfl).symm (cons_congr (Slot.step_ne rfl).symm (cons_congr (Slot.step_ne rfl).symm (cons_congr (Slot.step_ne rfl).symm (cons_congr (Slot.step_ne rfl).symm (cons_congr (Slot.step_ne rfl).symm (cons_congr (Slot.step_ne rfl).symm (cons_congr (Slot.step_ne rfl).symm (cons_congr (Slot.step_ne rfl).symm (cons_congr (Slot.step_ne rfl).symm (cons_congr (Slot.step_ne rfl).symm (cons_congr (Slot.step_ne rfl).symm (cons_congr (Slot.step_ne rfl).symm (cons_congr (Slot.step_ne rfl).symm (cons_congr (Slot.step_ne rfl).symm (cons_congr (Slot.step_ne rfl).symm (cons_congr (Slot.step_ne rfl).symm (cons_congr (Slot.step_ne rfl).symm (cons_congr (Slot.step_ne rfl).symm (cons_congr (Slot.step_ne rfl).symm (cons_congr ?_ ((Schema.step_other rfl rfl).symm)))))))))))))))))))))))))))))))))))))))))))))))))))))), ?_⟩
    all_goals first | exact hi | msg_field | (simp_all [St.Inv]; done)
  case ServingNetwork j =>
    simp only [step]
    repeat' split
    all_goals refine ⟨cons_congr (Slot.step_ne rfl).symm (cons_congr (Slot.step_ne rfl).symm (cons_congr (Slot.step_ne rfl).symm (cons_congr (Slot.step_ne rfl).symm (cons_congr ?_ ((Schema.step_other rfl rfl).symm))))), ?_⟩
    all_goals first | exact hi | msg_field | (simp_all [St.Inv]; done)
  case RatType j =>
    have ht : j.t = 82 := hq (by simp [IE.kind])
    have hi2 := hi.2
    simp only [step, isNone_has]
    repeat' split
    all_goals refine ⟨cons_congr (Slot.step_ne rfl).symm (cons_congr (Slot.step_ne rfl).symm (cons_congr (Slot.step_ne rfl).symm (cons_congr (Slot.step_ne rfl).symm (cons_congr (Slot.step_ne rfl).symm (cons_congr ?_ (cons_congr (Slot.step_ne rfl).symm (cons_congr ?_ (cons_congr (Slot.step_ne rfl).symm (cons_congr ?_ ((Schema.step_other rfl rfl).symm)))))))))), ?_⟩
    all_goals first | exact hi | exact Eq.symm (Slot.step_ins (ins_lt2 _ (by assumption) (by assumption))) | (simp_all [Slot.step, Slot.accepts, Ins.mem, IE.kind, IE.ins, optV_isEmpty, optV_some, has_append, St.Inv]; done)
  case Indication j =>
    simp only [step]
    repeat' split
    all_goals refine ⟨cons_congr (Slot.step_ne rfl).symm (cons_congr (Slot.step_ne rfl).symm (cons_congr (Slot.step_ne rfl).symm (cons_congr (Slot.step_ne rfl).symm (cons_congr (Slot.step_ne rfl).symm (cons_congr (Slot.step_ne rfl).symm (cons_congr ?_ ((Schema.step_other rfl rfl).symm))))))), ?_⟩
    all_goals first | exact hi | msg_field | (simp_all [St.Inv]; done)
  case Fteid j =>
    have ht : j.t = 87 := hq (by simp [IE.kind])
    have hi2 := hi.2
    simp only [step, isNone_has]
    repeat' split
    all_goals refine ⟨cons_congr (Slot.step_ne rfl).symm (cons_congr (Slot.step_ne rfl).symm (cons_congr (Slot.step_ne rfl).symm (cons_congr (Slot.step_ne rfl).symm (cons_congr (Slot.step_ne rfl).symm (cons_congr ?_ (cons_congr (Slot.step_ne rfl).symm (cons_congr ?_ (cons_congr ?_ (cons_congr ?_ ((Schema.step_other rfl rfl).symm)))))))))), ?_⟩
    all_goals first | exact hi | exact Eq.symm (Slot.step_ins (ins_lt2 _ (by assumption) (by assumption))) | (simp_all [Slot.step, Slot.accepts, Ins.mem, IE.kind, IE.ins, optV_isEmpty, optV_some, has_append, St.Inv]; done)
  case Apn j =>
    have ht : j.t = 71 := hq (by simp [IE.kind])
    have hi2 := hi.2
    simp only [step, isNone_has]
    repeat' split
    all_goals refine ⟨cons_congr (Slot.step_ne rfl).symm (cons_congr (Slot.step_ne rfl).symm (cons_congr (Slot.step_ne rfl).symm (cons_congr (Slot.step_ne rfl).symm (cons_congr (Slot.step_ne rfl).symm (cons_congr ?_ (cons_congr (Slot.step_ne rfl).symm (cons_congr ?_ (cons_congr (Slot.step_ne rfl).symm (cons_congr ?_ ((Schema.step_other rfl rfl).symm)))))))))), ?_⟩
    all_goals first | exact hi | exact Eq.symm (Slot.step_ins (ins_lt2 _ (by assumption) (by assumption))) | (simp_all [Slot.step, Slot.accepts, Ins.mem, IE.kind, IE.ins, optV_isEmpty, optV_some, has_append, St.Inv]; done)
  case SelectionMode j =>
    simp only [step]
    repeat' split
    all_goals refine ⟨cons_congr (Slot.step_ne rfl).symm (cons_congr (Slot.step_ne rfl).symm (cons_congr (Slot.step_ne rfl).symm (cons_congr (Slot.step_ne rfl).symm (cons_congr (Slot.step_ne rfl).symm (cons_congr (Slot.step_ne rfl).symm (cons_congr (Slot.step_ne rfl).symm (cons_congr (Slot.step_ne rfl).symm (cons_congr (Slot.step_ne rfl).symm (cons_congr (Slot.step_ne rfl).symm (cons_congr ?_ ((Schema.step_other rfl rfl).symm))))))))))), ?_⟩
    all_goals first | exact hi | msg_field | (simp_all [St.Inv]; done)
  case PdnType j =>
    simp only [step]
    repeat' split
    all_goals refine ⟨cons_congr (Slot.step_ne rfl).symm (cons_congr (Slot.step_ne rfl).symm (cons_congr (Slot.step_ne rfl).symm (cons_congr (Slot.step_ne rfl).symm (cons_congr (Slot.step_ne rfl).symm (cons_congr (Slot.step_ne rfl).symm (cons_congr (Slot.step_ne rfl).symm (cons_congr (Slot.step_ne rfl).symm (cons_congr (Slot.step_ne rfl).symm (cons_congr (Slot.step_ne rfl).symm (cons_congr (Slot.step_ne rfl).symm (cons_congr ?_ ((Schema.step_other rfl rfl).symm)))))))))))), ?_⟩
    all_goals first | exact hi | msg_field | (simp_all [St.Inv]; done)
  case PdnAddressAllocation j =>
    simp only [step]
    repeat' split
    all_goals refine ⟨cons_congr (Slot.step_ne rfl).symm (cons_congr (Slot.step_ne rfl).symm (cons_congr (Slot.step_ne rfl).symm (cons_congr (Slot.step_ne rfl).symm (cons_congr (Slot.step_ne rfl).symm (cons_congr (Slot.step_ne rfl).symm (cons_congr (Slot.step_ne rfl).symm (cons_congr (Slot.step_ne rfl).symm (cons_congr (Slot.step_ne rfl).symm (cons_congr (Slot.step_ne rfl).symm (cons_congr (Slot.step_ne rfl).symm (cons_congr (Slot.step_ne rfl).symm (cons_congr ?_ ((Schema.step_other rfl rfl).symm))))))))))))), ?_⟩
    all_goals first | exact hi | msg_field | (simp_all [St.Inv]; done)
  case ApnRestriction j =>
    simp only [step]
    repeat' split
    all_goals refine ⟨cons_congr (Slot.step_ne rfl).symm (cons_congr (Slot.step_ne rfl).symm (cons_congr (Slot.step_ne rfl).symm (cons_congr (Slot.step_ne rfl).symm (cons_congr (Slot.step_ne rfl).symm (cons_congr (Slot.step_ne rfl).symm (cons_congr (Slot.step_ne rfl).symm (cons_congr (Slot.step_ne rfl).symm (cons_congr (Slot.step_ne rfl).symm (cons_congr (Slot.step_ne rfl).symm (cons_congr (Slot.step_ne rfl).symm (cons_congr (Slot.step_ne rfl).symm (cons_congr (Slot.step_ne rfl).symm (cons_congr ?_ ((Schema.step_other rfl rfl).symm)))))))))))))), ?_⟩
    all_goals first | exact hi | msg_field | (simp_all [St.Inv]; done)
  case ApnAmbr j =>
    simp only [step]
    repeat' split
    all_goals refine ⟨cons_congr (Slot.step_ne rfl).symm (cons_congr (Slot.step_ne rfl).symm (cons_congr (Slot.step_ne rfl).symm (cons_congr (Slot.step_ne rfl).symm (cons_congr (Slot.step_ne rfl).symm (cons_congr (Slot.step_ne rfl).symm (cons_congr (Slot.step_ne rfl).symm (cons_congr (Slot.step_ne rfl).symm (cons_congr (Slot.step_ne rfl).symm (cons_congr (Slot.step_ne rfl).symm (cons_congr (Slot.step_ne rfl).symm (cons_congr (Slot.step_ne rfl).symm (cons_congr (Slot.step_ne rfl).symm (cons_congr (Slot.step_ne rfl).symm (cons_congr ?_ ((Schema.step_other rfl rfl).symm))))))))))))))), ?_⟩
    all_goals first | exact hi | msg_field | (simp_all [St.Inv]; done)
  case Ebi j =>
    simp only [step]
    repeat' split
    all_goals refine ⟨cons_congr (Slot.step_ne rfl).symm (cons_congr (Slot.step_ne rfl).symm (cons_congr (Slot.step_ne rfl).symm (cons_congr (Slot.step_ne rfl).symm (cons_congr (Slot.step_ne rfl).symm (cons_congr (Slot.step_ne rfl).symm (cons_congr (Slot.step_ne rfl).symm (cons_congr (Slot.step_ne rfl).symm (cons_congr (Slot.step_ne rfl).symm (cons_congr (Slot.step_ne rfl).symm (cons_congr (Slot.step_ne rfl).symm (cons_congr (Slot.step_ne rfl).symm (cons_congr (Slot.step_ne rfl).symm (cons_congr (Slot.step_ne rfl).symm (cons_congr (Slot.step_ne rfl).symm (cons_congr ?_ ((Schema.step_other rfl rfl).symm)))))))))))))))), ?_⟩
    all_goals first | exact hi | msg_field | (simp_all [St.Inv]; done)
  case Twmi j =>
    simp only [step]
    repeat' split
    all_goals refine ⟨cons_congr (Slot.step_ne rfl).symm (cons_congr (Slot.step_ne rfl).symm (cons_congr (Slot.step_ne rfl).symm (cons_congr (Slot.step_ne rfl).symm (cons_congr (Slot.step_ne rfl).symm (cons_congr (Slot.step_ne rfl).symm (cons_congr (Slot.step_ne rfl).symm (cons_congr (Slot.step_ne rfl).symm (cons_congr (Slot.step_ne rfl).symm (cons_congr (Slot.step_ne rfl).symm (cons_congr (Slot.step_ne rfl).symm (cons_congr (Slot.step_ne rfl).symm (cons_congr (Slot.step_ne rfl).symm (cons_congr (Slot.step_ne rfl).symm (cons_congr (Slot.step_ne rfl).symm (cons_congr (Slot.step_ne rfl).symm (cons_congr ?_ ((Schema.step_other rfl rfl).symm))))))))))))))))), ?_⟩
    all_goals first | exact hi | msg_field | (simp_all [St.Inv]; done)
  case Pco j =>
    simp only [step]
    repeat' split
    all_goals refine ⟨cons_congr (Slot.step_ne rfl).symm (cons_congr (Slot.step_ne rfl).symm (cons_congr (Slot.step_ne rfl).symm (cons_congr (Slot.step_ne rfl).symm (cons_congr (Slot.step_ne rfl).symm (cons_congr (Slot.step_ne rfl).symm (cons_congr (Slot.step_ne rfl).symm (cons_congr (Slot.step_ne rfl).symm (cons_congr (Slot.step_ne rfl).symm (cons_congr (Slot.step_ne rfl).symm (cons_congr (Slot.step_ne rfl).symm (cons_congr (Slot.step_ne rfl).symm (cons_congr (Slot.step_ne rfl).symm (cons_congr (Slot.step_ne rfl).symm (cons_congr (Slot.step_ne rfl).symm (cons_congr (Slot.step_ne rfl).symm (cons_congr (Slot.step_ne rfl).symm (cons_congr ?_ ((Schema.step_other rfl rfl).symm)))))))))))))))))), ?_⟩
    all_goals first | exact hi | msg_field | (simp_all [St.Inv]; done)
  case BearerContext j =>
    have ht : j.t = 93 := hq (by simp [IE.kind])
    have hi2 := hi.2
    simp only [step, isNone_has]
    repeat' split
    all_goals refine ⟨cons_congr (Slot.step_ne rfl).symm (cons_congr (Slot.step_ne rfl).symm (cons_congr (Slot.step_ne rfl).symm (cons_congr (Slot.step_ne rfl).symm (cons_congr (Slot.step_ne rfl).symm (cons_congr ?_ (cons_congr (Slot.step_ne rfl).symm (cons_congr ?_ (cons_congr (Slot.step_ne rfl).symm (cons_congr ?_ (cons_congr (Slot.step_ne rfl).symm (cons_congr (Slot.step_ne rfl).symm (cons_congr (Slot.step_ne rfl).symm (cons_congr (Slot.step_ne rfl).symm (cons_congr (Slot.step_ne rfl).symm (cons_congr (Slot.step_ne rfl).symm (cons_congr (Slot.step_ne rfl).symm (cons_congr (Slot.step_ne rfl).symm (cons_congr ?_ ((Schema.step_other rfl rfl).symm))))))))))))))))))), ?_⟩
    all_goals first | exact hi | exact Eq.symm (Slot.step_ins (ins_lt2 _ (by assumption) (by assumption))) | (simp_all [Slot.step, Slot.accepts, Ins.mem, IE.kind, IE.ins, optV_isEmpty, optV_some, has_append, St.Inv]; done)
  case TraceInformation j =>
    simp only [step]
    repeat' split
    all_goals refine ⟨cons_congr (Slot.step_ne rfl).symm (cons_congr (Slot.step_ne rfl).symm (cons_congr (Slot.step_ne rfl).symm (cons_congr (Slot.step_ne rfl).symm (cons_congr (Slot.step_ne rfl).symm (cons_congr (Slot.step_ne rfl).symm (cons_congr (Slot.step_ne rfl).symm (cons_congr (Slot.step_ne rfl).symm (cons_congr (Slot.step_ne rfl).symm (cons_congr (Slot.step_ne rfl).symm (cons_congr (Slot.step_ne rfl).symm (cons_congr (Slot.step_ne rfl).symm (cons_congr (Slot.step_ne rfl).symm (cons_congr (Slot.step_ne rfl).symm (cons_congr (Slot.step_ne rfl).symm (cons_congr (Slot.step_ne rfl).symm (cons_congr (Slot.step_ne rfl).symm (cons_congr (Slot.step_ne rfl).symm (cons_congr (Slot.step_ne rfl).symm (cons_congr ?_ ((Schema.step_other rfl rfl).symm)))))))))))))))))))), ?_⟩
    all_goals first | exact hi | msg_field | (simp_all [St.Inv]; done)
  case Recovery j =>
    simp only [step]
    repeat' split
    all_goals refine ⟨cons_congr (Slot.step_ne rfl).symm (cons_congr (Slot.step_ne rfl).symm (cons_congr (Slot.step_ne rfl).symm (cons_congr (Slot.step_ne rfl).symm (cons_congr (Slot.step_ne rfl).symm (cons_congr (Slot.step_ne rfl).symm (cons_congr (Slot.step_ne rfl).symm (cons_congr (Slot.step_ne rfl).symm (cons_congr (Slot.step_ne rfl).symm (cons_congr (Slot.step_ne rfl).symm (cons_congr (Slot.step_ne rfl).symm (cons_congr (Slot.step_ne rfl).symm (cons_congr (Slot.step_ne rfl).symm (cons_congr (Slot.step_ne rfl).symm (cons_congr (Slot.step_ne rfl).symm (cons_congr (Slot.step_ne rfl).symm (cons_congr (Slot.step_ne rfl).symm (cons_congr (Slot.step_ne rfl).symm (cons_congr (Slot.step_ne rfl).symm (cons_congr (Slot.step_ne rfl).symm (cons_congr ?_ ((Schema.step_other rfl rfl).symm))))))))))))))))))))), ?_⟩
    all_goals first | exact hi | msg_field | (simp_all [St.Inv]; done)
  case Fqcsid j =>
    simp only [step]
    repeat' split
    all_goals refine ⟨cons_congr (Slot.step_ne rfl).symm (cons_congr (Slot.step_ne rfl).symm (cons_congr (Slot.step_ne rfl).symm (cons_congr (Slot.step_ne rfl).symm (cons_congr (Slot.step_ne rfl).symm (cons_congr (Slot.step_ne rfl).symm (cons_congr (Slot.step_ne rfl).symm (cons_congr (Slot.step_ne rfl).symm (cons_congr (Slot.step_ne rfl).symm (cons_congr (Slot.step_ne rfl).symm (cons_congr (Slot.step_ne rfl).symm (cons_congr (Slot.step_ne rfl).symm (cons_congr (Slot.step_ne rfl).symm (cons_congr (Slot.step_ne rfl).symm (cons_congr (Slot.step_ne rfl).symm (cons_congr (Slot.step_ne rfl).symm (cons_congr (Slot.step_ne rfl).symm (cons_congr (Slot.step_ne rfl).symm (cons_congr (Slot.step_ne rfl).symm (cons_congr (Slot.step_ne rfl).symm (cons_congr (Slot.step_ne rfl).symm (cons_congr ?_ (cons_congr ?_ (cons_congr ?_ (cons_congr ?_ ((Schema.step_other rfl rfl).symm))))))))))))))))))))))))), ?_⟩
    all_goals first | exact hi | msg_field | (simp_all [St.Inv]; done)
  case UeTimeZone j =>
    simp only [step]
    repeat' split
    all_goals refine ⟨cons_congr (Slot.step_ne rfl).symm (cons_congr (Slot.step_ne rfl).symm (cons_congr (Slot.step_ne rfl).symm (cons_congr (Slot.step_ne rfl).symm (cons_congr (Slot.step_ne rfl).symm (cons_congr (Slot.step_ne rfl).symm (cons_congr (Slot.step_ne rfl).symm (cons_congr (Slot.step_ne rfl).symm (cons_congr (Slot.step_ne rfl).symm (cons_congr (Slot.step_ne rfl).symm (cons_congr (Slot.step_ne rfl).symm (cons_congr (Slot.step_ne rfl).symm (cons_congr (Slot.step_ne rfl).symm (cons_congr (Slot.step_ne rfl).symm (cons_congr (Slot.step_ne rfl).symm (cons_congr (Slot.step_ne rfl).symm (cons_congr (Slot.step_ne rfl).symm (cons_congr (Slot.step_ne rfl).symm (cons_congr (Slot.step_ne rfl).symm (cons_congr (Slot.step_ne rfl).symm (cons_congr (Slot.step_ne rfl).symm (cons_congr (Slot.step_ne rfl).symm (cons_congr (Slot.step_ne rfl).symm (cons_congr (Slot.step_ne rfl).symm (cons_congr (Slot.step_ne rfl).symm (cons_congr ?_ ((Schema.step_other rfl rfl).symm)))))))))))))))))))))))))), ?_⟩
    all_goals first | exact hi | msg_field | (simp_all [St.Inv]; done)
  case Uci j =>
    simp only [step]
    repeat' split
    all_goals refine ⟨cons_congr (Slot.step_ne rfl).symm (cons_congr (Slot.step_ne rfl).symm (cons_congr (Slot.step_ne rfl).symm (cons_congr (Slot.step_ne rfl).symm (cons_congr (Slot.step_ne rfl).symm (cons_congr (Slot.step_ne rfl).symm (cons_congr (Slot.step_ne rfl).symm (cons_congr (Slot.step_ne rfl).symm (cons_congr (Slot.step_ne rfl).symm (cons_congr (Slot.step_ne rfl).symm (cons_congr (Slot.step_ne rfl).symm (cons_congr (Slot.step_ne rfl).symm (cons_congr (Slot.step_ne rfl).symm (cons_congr (Slot.step_ne rfl).symm (cons_congr (Slot.step_ne rfl).symm (cons_congr (Slot.step_ne rfl).symm (cons_congr (Slot.step_ne rfl).symm (cons_congr (Slot.step_ne rfl).symm (cons_congr (Slot.step_ne rfl).symm (cons_congr (Slot.step_ne rfl).symm (cons_congr (Slot.step_ne rfl).symm (cons_congr (Slot.step_ne rfl).symm (cons_congr (Slot.step_ne rfl).symm (cons_congr (Slot.step_ne rfl).symm (cons_congr (Slot.step_ne rfl).symm (cons_congr (Slot.step_ne rfl).symm (cons_congr ?_ ((Schema.step_other rfl rfl).symm))))))))))))))))))))))))))), ?_⟩
    all_goals first | exact hi | msg_field | (simp_all [St.Inv]; done)
  case ChargingCharacteristics j =>
    simp only [step]
    repeat' split
    all_goals refine ⟨cons_congr (Slot.step_ne rfl).symm (cons_congr (Slot.step_ne rfl).symm (cons_congr (Slot.step_ne rfl).symm (cons_congr (Slot.step_ne rfl).symm (cons_congr (Slot.step_ne rfl).symm (cons_congr (Slot.step_ne rfl).symm (cons_congr (Slot.step_ne rfl).symm (cons_congr (Slot.step_ne rfl).symm (cons_congr (Slot.step_ne rfl).symm (cons_congr (Slot.step_ne rfl).symm (cons_congr (Slot.step_ne rfl).symm (cons_congr (Slot.step_ne rfl).symm (cons_congr (Slot.step_ne rfl).symm (cons_congr (Slot.step_ne rfl).symm (cons_congr (Slot.step_ne rfl).symm (cons_congr (Slot.step_ne rfl).symm (cons_congr (Slot.step_ne rfl).symm (cons_congr (Slot.step_ne rfl).symm (cons_congr (Slot.step_ne rfl).symm (cons_congr (Slot.step_ne rfl).symm (cons_congr (Slot.step_ne rfl).symm (cons_congr (Slot.step_ne rfl).symm (cons_congr (Slot.step_ne rfl).symm (cons_congr (Slot.step_ne rfl).symm (cons_congr (Slot.step_ne rfl).symm (cons_congr (Slot.step_ne rfl).symm (cons_congr (Slot.step_ne rfl).symm (cons_congr ?_ ((Schema.step_other rfl rfl).symm)))))))))))))))))))))))))))), ?_⟩
    all_goals first | exact hi | msg_field | (simp_all [St.Inv]; done)
  case Ldn j =>
    simp only [step]
    all_goals refine ⟨cons_congr (Slot.step_ne rfl).symm (cons_congr (Slot.step_ne rfl).symm (cons_congr (Slot.step_ne rfl).symm (cons_congr (Slot.step_ne rfl).symm (cons_congr (Slot.step_ne rfl).symm (cons_congr (Slot.step_ne rfl).symm (cons_congr (Slot.step_ne rfl).symm (cons_congr (Slot.step_ne rfl).symm (cons_congr (Slot.step_ne rfl).symm (cons_congr (Slot.step_ne rfl).symm (cons_congr (Slot.step_ne rfl).symm (cons_congr (Slot.step_ne rfl).symm (cons_congr (Slot.step_ne rfl).symm (cons_congr (Slot.step_ne rfl).symm (cons_congr (Slot.step_ne rfl).symm (cons_congr (Slot.step_ne rfl).symm (cons_congr (Slot.step_ne rfl).symm (cons_congr (Slot.step_ne rfl).symm (cons_congr (Slot.step_ne rfl).symm (cons_congr (Slot.step_ne rfl).symm (cons_congr (Slot.step_ne rfl).symm (cons_congr (Slot.step_ne rfl).symm (cons_congr (Slot.step_ne rfl).symm (cons_congr (Slot.step_ne rfl).symm (cons_congr (Slot.step_ne rfl).symm (cons_congr (Slot.step_ne rfl).symm (cons_congr (Slot.step_ne rfl).symm (cons_congr (Slot.step_ne rfl).symm (cons_congr ?_ ((Schema.step_other rfl rfl).symm))))))))))))))))))))))))))))), ?_⟩
    all_goals first | exact hi | msg_field | (simp_all [St.Inv]; done)
  case Spi j =>
    simp only [step]
    repeat' split
    all_goals refine ⟨cons_congr (Slot.step_ne rfl).symm (cons_congr (Slot.step_ne rfl).symm (cons_congr (Slot.step_ne rfl).symm (cons_congr (Slot.step_ne rfl).symm (cons_congr (Slot.step_ne rfl).symm (cons_congr (Slot.step_ne rfl).symm (cons_congr (Slot.step_ne rfl).symm (cons_congr (Slot.step_ne rfl).symm (cons_congr (Slot.step_ne rfl).symm (cons_congr (Slot.step_ne rfl).symm (cons_congr (Slot.step_ne rfl).symm (cons_congr (Slot.step_ne rfl).symm (cons_congr (Slot.step_ne rfl).symm (cons_congr (Slot.step_ne rfl).symm (cons_congr (Slot.step_ne rfl).symm (cons_congr (Slot.step_ne rfl).symm (cons_congr (Slot.step_ne rfl).symm (cons_congr (Slot.step_ne rfl).symm (cons_congr (Slot.step_ne rfl).symm (cons_congr (Slot.step_ne rfl).symm (cons_congr (Slot.step_ne rfl).symm (cons_congr (Slot.step_ne rfl).symm (cons_congr (Slot.step_ne rfl).symm (cons_congr (Slot.step_ne rfl).symm (cons_congr (Slot.step_ne rfl).symm (cons_congr (Slot.step_ne rfl).symm (cons_congr (Slot.step_ne rfl).symm (cons_congr (Slot.step_ne rfl).symm (cons_congr (Slot.step_ne rfl).symm (cons_congr ?_ ((Schema.step_other rfl rfl).symm)))))))))))))))))))))))))))))), ?_⟩
    all_goals first | exact hi | msg_field | (simp_all [St.Inv]; done)
  case IpAddress j =>
    simp only [step]
    repeat' split
    all_goals refine ⟨cons_congr (Slot.step_ne rfl).symm (cons_congr (Slot.step_ne rfl).symm (cons_congr (Slot.step_ne rfl).symm (cons_congr (Slot.step_ne rfl).symm (cons_congr (Slot.step_ne rfl).symm (cons_congr (Slot.step_ne rfl).symm (cons_congr (Slot.step_ne rfl).symm (cons_congr (Slot.step_ne rfl).symm (cons_congr (Slot.step_ne rfl).symm (cons_congr (Slot.step_ne rfl).symm (cons_congr (Slot.step_ne rfl).symm (cons_congr (Slot.step_ne rfl).symm (cons_congr (Slot.step_ne rfl).symm (cons_congr (Slot.step_ne rfl).symm (cons_congr (Slot.step_ne rfl).symm (cons_congr (Slot.step_ne rfl).symm (cons_congr (Slot.step_ne rfl).symm (cons_congr (Slot.step_ne rfl).symm (cons_congr (Slot.step_ne rfl).symm (cons_congr (Slot.step_ne rfl).symm (cons_congr (Slot.step_ne rfl).symm (cons_congr (Slot.step_ne rfl).symm (cons_congr (Slot.step_ne rfl).symm (cons_congr (Slot.step_ne rfl).symm (cons_congr (Slot.step_ne rfl).symm (cons_congr (Slot.step_ne rfl).symm (cons_congr (Slot.step_ne rfl).symm (cons_congr (Slot.step_ne rfl).symm (cons_congr (Slot.step_ne rfl).symm (cons_congr (Slot.step_ne rfl).symm (cons_congr ?_ (cons_congr (Slot.step_ne rfl).symm (cons_congr (Slot.step_ne rfl).symm (cons_congr ?_ (cons_congr (Slot.step_ne rfl).symm (cons_congr ?_ (cons_congr (Slot.step_ne rfl).symm (cons_congr ?_ ((Schema.step_other rfl rfl).symm)))))))))))))))))))))))))))))))))))))), ?_⟩
    all_goals first | exact hi | msg_field | (simp_all [St.Inv]; done)
  case PortNumber j =>
    simp only [step]
    repeat' split
    all_goals refine ⟨cons_congr (Slot.step_ne rfl).symm (cons_congr (Slot.step_ne rfl).symm (cons_congr (Slot.step_ne rfl).symm (cons_congr (Slot.step_ne rfl).symm (cons_congr (Slot.step_ne rfl).symm (cons_congr (Slot.step_ne rfl).symm (cons_congr (Slot.step_ne rfl).symm (cons_congr (Slot.step_ne rfl).symm (cons_congr (Slot.step_ne rfl).symm (cons_congr (Slot.step_ne rfl).symm (cons_congr (Slot.step_ne rfl).symm (cons_congr (Slot.step_ne rfl).symm (cons_congr (Slot.step_ne rfl).symm (cons_congr (Slot.step_ne rfl).symm (cons_congr (Slot.step_ne rfl).symm (cons_congr (Slot.step_ne rfl).symm (cons_congr (Slot.step_ne rfl).symm (cons_congr (Slot.step_ne rfl).symm (cons_congr (Slot.step_ne rfl).symm (cons_congr (Slot.step_ne rfl).symm (cons_congr (Slot.step_ne rfl).symm (cons_congr (Slot.step_ne rfl).symm (cons_congr (Slot.step_ne rfl).symm (cons_congr (Slot.step_ne rfl).symm (cons_congr (Slot.step_ne rfl).symm (cons_congr (Slot.step_ne rfl).symm (cons_congr (Slot.step_ne rfl).symm (cons_congr (Slot.step_ne rfl).symm (cons_congr (Slot.step_ne rfl).symm (cons_congr (Slot.step_ne rfl).symm (cons_congr (Slot.step_ne rfl).symm (cons_congr ?_ (cons_congr (Slot.step_ne rfl).symm (cons_congr (Slot.step_ne rfl).symm (cons_congr ?_ (cons_congr (Slot.step_ne rfl).symm (cons_congr (Slot.step_ne rfl).symm (cons_congr (Slot.step_ne rfl).symm (cons_congr (Slot.step_ne rfl).symm (cons_congr (Slot.step_ne rfl).symm (cons_congr (Slot.step_ne rfl).symm (cons_congr (Slot.step_ne rfl).symm (cons_congr (Slot.step_ne rfl).symm (cons_congr (Slot.step_ne rfl).symm (cons_congr (Slot.step_ne rfl).symm (cons_congr (Slot.step_ne rfl).symm (cons_congr (Slot.step_ne rfl).symm (cons_congr (Slot.step_ne rfl).symm (cons_congr (Slot.step_ne rfl).symm (cons_congr (Slot.step_ne rfl).symm (cons_congr (Slot.step_ne rfl).symm (cons_congr ?_ ((Schema.step_other rfl rfl).symm)))))))))))))))))))))))))))))))))))))))))))))))))))), ?_⟩
    all_goals first | exact hi | msg_field | (simp_all [St.Inv]; done)
  case Apco j =>
    simp only [step]
    repeat' split
    all_goals refine ⟨cons_congr (Slot.step_ne rfl).symm (cons_congr (Slot.step_ne rfl).symm (cons_congr (Slot.step_ne rfl).symm (cons_congr (Slot.step_ne rfl).symm (cons_congr (Slot.step_ne rfl).symm (cons_congr (Slot.step_ne rfl).symm (cons_congr (Slot.step_ne rfl).symm (cons_congr (Slot.step_ne rfl).symm (cons_congr (Slot.step_ne rfl).symm (cons_congr (Slot.step_ne rfl).symm (cons_congr (Slot.step_ne rfl).symm (cons_congr (Slot.step_ne rfl).symm (cons_congr (Slot.step_ne rfl).symm (cons_congr (Slot.step_ne rfl).symm (cons_congr (Slot.step_ne rfl).symm (cons_congr (Slot.step_ne rfl).symm (cons_congr (Slot.step_ne rfl).symm (cons_congr (Slot.step_ne rfl).symm (cons_congr (Slot.step_ne rfl).symm (cons_congr (Slot.step_ne rfl).symm (cons_congr (Slot.step_ne rfl).symm (cons_congr (Slot.step_ne rfl).symm (cons_congr (Slot.step_ne rfl).symm (cons_congr (Slot.step_ne rfl).symm (cons_congr (Slot.step_ne rfl).symm (cons_congr (Slot.step_ne rfl).symm (cons_congr (Slot.step_ne rfl).symm (cons_congr (Slot.step_ne rfl).symm (cons_congr (Slot.step_ne rfl).symm (cons_congr (Slot.step_ne rfl).symm (cons_congr (Slot.step_ne rfl).symm (cons_congr (Slot.step_ne rfl).symm (cons_congr ?_ ((Schema.step_other rfl rfl).symm))))))))))))))))))))))))))))))))), ?_⟩
    all_goals first | exact hi | msg_field | (simp_all [St.Inv]; done)
  case TwanId j =>
    simp only [step]
    repeat' split
    all_goals refine ⟨cons_congr (Slot.step_ne rfl).symm (cons_congr (Slot.step_ne rfl).symm (cons_congr (Slot.step_ne rfl).symm (cons_congr (Slot.step_ne rfl).symm (cons_congr (Slot.step_ne rfl).symm (cons_congr (Slot.step_ne rfl).symm (cons_congr (Slot.step_ne rfl).symm (cons_congr (Slot.step_ne rfl).symm (cons_congr (Slot.step_ne rfl).symm (cons_congr (Slot.step_ne rfl).symm (cons_congr (Slot.step_ne rfl).symm (cons_congr (Slot.step_ne rfl).symm (cons_congr (Slot.step_ne rfl).symm (cons_congr (Slot.step_ne rfl).symm (cons_congr (Slot.step_ne rfl).symm (cons_congr (Slot.step_ne rfl).symm (cons_congr (Slot.step_ne rfl).symm (cons_congr (Slot.step_ne rfl).symm (cons_congr (Slot.step_ne rfl).symm (cons_congr (Slot.step_ne rfl).symm (cons_congr (Slot.step_ne rfl).symm (cons_congr (Slot.step_ne rfl).symm (cons_congr (Slot.step_ne rfl).symm (cons_congr (Slot.step_ne rfl).symm (cons_congr (Slot.step_ne rfl).symm (cons_congr (Slot.step_ne rfl).symm (cons_congr (Slot.step_ne rfl).symm (cons_congr (Slot.step_ne rfl).symm (cons_congr (Slot.step_ne rfl).symm (cons_congr (Slot.step_ne rfl).symm (cons_congr (Slot.step_ne rfl).symm (cons_congr (Slot.step_ne rfl).symm (cons_congr (Slot.step_ne rfl).symm (cons_congr (Slot.step_ne rfl).symm (cons_congr (Slot.step_ne rfl).symm (cons_congr (Slot.step_ne rfl).symm (cons_congr ?_ (cons_congr (Slot.step_ne rfl).symm (cons_congr (Slot.step_ne rfl).symm (cons_congr (Slot.step_ne rfl).symm (cons_congr (Slot.step_ne rfl).symm (cons_congr (Slot.step_ne rfl).symm (cons_congr (Slot.step_ne rfl).symm (cons_congr ?_ ((Schema.step_other rfl rfl).symm)))))))))))))))))))))))))))))))))))))))))))), ?_⟩
    all_goals first | exact hi | msg_field | (simp_all [St.Inv]; done)
  case CnOperatorSelectionEntity j =>
    simp only [step]
    repeat' split
    all_goals refine ⟨cons_congr (Slot.step_ne rfl).symm (cons_congr (Slot.step_ne rfl).symm (cons_congr (Slot.step_ne rfl).symm (cons_congr (Slot.step_ne rfl).symm (cons_congr (Slot.step_ne rfl).symm (cons_congr (Slot.step_ne rfl).symm (cons_congr (Slot.step_ne rfl).symm (cons_congr (Slot.step_ne rfl).symm (cons_congr (Slot.step_ne rfl).symm (cons_congr (Slot.step_ne rfl).symm (cons_congr (Slot.step_ne rfl).symm (cons_congr (Slot.step_ne rfl).symm (cons_congr (Slot.step_ne rfl).symm (cons_congr (Slot.step_ne rfl).symm (cons_congr (Slot.step_ne rfl).symm (cons_congr (Slot.step_ne rfl).symm (cons_congr (Slot.step_ne rfl).symm (cons_congr (Slot.step_ne rfl).symm (cons_congr (Slot.step_ne rfl).symm (cons_congr (Slot.step_ne rfl).symm (cons_congr (Slot.step_ne rfl).symm (cons_congr (Slot.step_ne rfl).symm (cons_congr (Slot.step_ne rfl).symm (cons_congr (Slot.step_ne rfl).symm (cons_congr (Slot.step_ne rfl).symm (cons_congr (Slot.step_ne rfl).symm (cons_congr (Slot.step_ne rfl).symm (cons_congr (Slot.step_ne rfl).symm (cons_congr (Slot.step_ne rfl).symm (cons_congr (Slot.step_ne rfl).symm (cons_congr (Slot.step_ne rfl).symm (cons_congr (Slot.step_ne rfl).symm (cons_congr (Slot.step_ne rfl).symm (cons_congr (Slot.step_ne rfl).symm (cons_congr (Slot.step_ne rfl).symm (cons_congr (Slot.step_ne rfl).symm (cons_congr (Slot.step_ne rfl).symm (cons_congr (Slot.step_ne rfl).symm (cons_congr ?_ ((Schema.step_other rfl rfl).symm))))))))))))))))))))))))))))))))))))))), ?_⟩
    all_goals first | exact hi | msg_field | (simp_all [St.Inv]; done)
  case PresenceReportingAreaInformation j =>
    simp only [step]
    repeat' split
    all_goals refine ⟨cons_congr (Slot.step_ne rfl).symm (cons_congr (Slot.step_ne rfl).symm (cons_congr (Slot.step_ne rfl).symm (cons_congr (Slot.step_ne rfl).symm (cons_congr (Slot.step_ne rfl).symm (cons_congr (Slot.step_ne rfl).symm (cons_congr (Slot.step_ne rfl).symm (cons_congr (Slot.step_ne rfl).symm (cons_congr (Slot.step_ne rfl).symm (cons_congr (Slot.step_ne rfl).symm (cons_congr (Slot.step_ne rfl).symm (cons_congr (Slot.step_ne rfl).symm (cons_congr (Slot.step_ne rfl).symm (cons_congr (Slot.step_ne rfl).symm (cons_congr (Slot.step_ne rfl).symm (cons_congr (Slot.step_ne rfl).symm (cons_congr (Slot.step_ne rfl).symm (cons_congr (Slot.step_ne rfl).symm (cons_congr (Slot.step_ne rfl).symm (cons_congr (Slot.step_ne rfl).symm (cons_congr (Slot.step_ne rfl).symm (cons_congr (Slot.step_ne rfl).symm (cons_congr (Slot.step_ne rfl).symm (cons_congr (Slot.step_ne rfl).symm (cons_congr (Slot.step_ne rfl).symm (cons_congr (Slot.step_ne rfl).symm (cons_congr (Slot.step_ne rfl).symm (cons_congr (Slot.step_ne rfl).symm (cons_congr (Slot.step_ne rfl).symm (cons_congr (Slot.step_ne rfl).symm (cons_congr (Slot.step_ne rfl).symm (cons_congr (Slot.step_ne rfl).symm (cons_congr (Slot.step_ne rfl).symm (cons_congr (Slot.step_ne rfl).symm (cons_congr (Slot.step_ne rfl).symm (cons_congr (Slot.step_ne rfl).symm (cons_congr (Slot.step_ne rfl).symm (cons_congr (Slot.step_ne rfl).symm (cons_congr (Slot.step_ne rfl).symm (cons_congr ?_ ((Schema.step_other rfl rfl).symm)))))))))))))))))))))))))))))))))))))))), ?_⟩
    all_goals first | exact hi | msg_field | (simp_all [St.Inv]; done)
  case OverloadControlInfo j =>
    simp only [step]
    repeat' split
    all_goals refine ⟨cons_congr (Slot.step_ne rfl).symm (cons_congr (Slot.step_ne rfl).symm (cons_congr (Slot.step_ne rfl).symm (cons_congr (Slot.step_ne rfl).symm (cons_congr (Slot.step_ne rfl).symm (cons_congr (Slot.step_ne rfl).symm (cons_congr (Slot.step_ne rfl).symm (cons_congr (Slot.step_ne rfl).symm (cons_congr (Slot.step_ne rfl).symm (cons_congr (Slot.step_ne rfl).symm (cons_congr (Slot.step_ne rfl).symm (cons_congr (Slot.step_ne rfl).symm (cons_congr (Slot.step_ne rfl).symm (cons_congr (Slot.step_ne rfl).symm (cons_congr (Slot.step_ne rfl).symm (cons_congr (Slot.step_ne rfl).symm (cons_congr (Slot.step_ne rfl).symm (cons_congr (Slot.step_ne rfl).symm (cons_congr (Slot.step_ne rfl).symm (cons_congr (Slot.step_ne rfl).symm (cons_congr (Slot.step_ne rfl).symm (cons_congr (Slot.step_ne rfl).symm (cons_congr (Slot.step_ne rfl).symm (cons_congr (Slot.step_ne rfl).symm (cons_congr (Slot.step_ne rfl).symm (cons_congr (Slot.step_ne rfl).symm (cons_congr (Slot.step_ne rfl).symm (cons_congr (Slot.step_ne rfl).symm (cons_congr (Slot.step_ne rfl).symm (cons_congr (Slot.step_ne rfl).symm (cons_congr (Slot.step_ne rfl).symm (cons_congr (Slot.step_ne rfl).symm (cons_congr (Slot.step_ne rfl).symm (cons_congr (Slot.step_ne rfl).symm (cons_congr (Slot.step_ne rfl).symm (cons_congr (Slot.step_ne rfl).symm (cons_congr (Slot.step_ne rfl).symm (cons_congr (Slot.step_ne rfl).symm (cons_congr (Slot.step_ne rfl).symm (cons_congr (Slot.step_ne rfl).symm (cons_congr ?_ ((Schema.step_other rfl rfl).symm))))))))))))))))))))))))))))))))))))))))), ?_⟩
    all_goals first | exact hi | msg_field | (simp_all [St.Inv]; done)
  case MilliSecondTimeStamp j =>
    simp only [step]
    repeat' split
    all_goals refine ⟨cons_congr (Slot.step_ne rfl).symm (cons_congr (Slot.step_ne rfl).symm (cons_congr (Slot.step_ne rfl).symm (cons_congr (Slot.step_ne rfl).symm (cons_congr (Slot.step_ne rfl).symm (cons_congr (Slot.step_ne rfl).symm (cons_congr (Slot.step_ne rfl).symm (cons_congr (Slot.step_ne rfl).symm (cons_congr (Slot.step_ne rfl).symm (cons_congr (Slot.step_ne rfl).symm (cons_congr (Slot.step_ne rfl).symm (cons_congr (Slot.step_ne rfl).symm (cons_congr (Slot.step_ne rfl).symm (cons_congr (Slot.step_ne rfl).symm (cons_congr (Slot.step_ne rfl).symm (cons_congr (Slot.step_ne rfl).symm (cons_congr (Slot.step_ne rfl).symm (cons_congr (Slot.step_ne rfl).symm (cons_congr (Slot.step_ne rfl).symm (cons_congr (Slot.step_ne rfl).symm (cons_congr (Slot.step_ne rfl).symm (cons_congr (Slot.step_ne rfl).symm (cons_congr (Slot.step_ne rfl).symm (cons_congr (Slot.step_ne rfl).symm (cons_congr (Slot.step_ne rfl).symm (cons_congr (Slot.step_ne rfl).symm (cons_congr (Slot.step_ne rfl).symm (cons_congr (Slot.step_ne rfl).symm (cons_congr (Slot.step_ne rfl).symm (cons_congr (Slot.step_ne rfl).symm (cons_congr (Slot.step_ne rfl).symm (cons_congr (Slot.step_ne rfl).symm (cons_congr (Slot.step_ne rfl).symm (cons_congr (Slot.step_ne rfl).symm (cons_congr (Slot.step_ne rfl).symm (cons_congr (Slot.step_ne rfl).symm (cons_congr (Slot.step_ne rfl).symm (cons_congr (Slot.step_ne rfl).symm (cons_congr (Slot.step_ne rfl).symm (cons_congr (Slot.step_ne rfl).symm (cons_congr (Slot.step_ne rfl).symm (cons_congr ?_ ((Schema.step_other rfl rfl).symm)))))))))))))))))))))))))))))))))))))))))), ?_⟩
    all_goals first | exact hi | msg_field | (simp_all [St.Inv]; done)
  case IntegerNumber j =>
    simp only [step]
    repeat' split
    all_goals refine ⟨cons_congr (Slot.step_ne rfl).symm (cons_congr (Slot.step_ne rfl).symm (cons_congr (Slot.step_ne rfl).symm (cons_congr (Slot.step_ne rfl).symm (cons_congr (Slot.step_ne rfl).symm (cons_congr (Slot.step_ne rfl).symm (cons_congr (Slot.step_ne rfl).symm (cons_congr (Slot.step_ne rfl).symm (cons_congr (Slot.step_ne rfl).symm (cons_congr (Slot.step_ne rfl).symm (cons_congr (Slot.step_ne rfl).symm (cons_congr (Slot.step_ne rfl).symm (cons_congr (Slot.step_ne rfl).symm (cons_congr (Slot.step_ne rfl).symm (cons_congr (Slot.step_ne rfl).symm (cons_congr (Slot.step_ne rfl).symm (cons_congr (Slot.step_ne rfl).symm (cons_congr (Slot.step_ne rfl).symm (cons_congr (Slot.step_ne rfl).symm (cons_congr (Slot.step_ne rfl).symm (cons_congr (Slot.step_ne rfl).symm (cons_congr (Slot.step_ne rfl).symm (cons_congr (Slot.step_ne rfl).symm (cons_congr (Slot.step_ne rfl).symm (cons_congr (Slot.step_ne rfl).symm (cons_congr (Slot.step_ne rfl).symm (cons_congr (Slot.step_ne rfl).symm (cons_congr (Slot.step_ne rfl).symm (cons_congr (Slot.step_ne rfl).symm (cons_congr (Slot.step_ne rfl).symm (cons_congr (Slot.step_ne rfl).symm (cons_congr (Slot.step_ne rfl).symm (cons_congr (Slot.step_ne rfl).symm (cons_congr (Slot.step_ne rfl).symm (cons_congr (Slot.step_ne rfl).symm (cons_congr (Slot.step_ne rfl).symm (cons_congr (Slot.step_ne rfl).symm (cons_congr (Slot.step_ne rfl).symm (cons_congr (Slot.step_ne rfl).symm (cons_congr (Slot.step_ne rfl).symm (cons_congr (Slot.step_ne rfl).symm (cons_congr (Slot.step_ne rfl).symm (cons_congr ?_ ((Schema.step_other rfl rfl).symm))))))))))))))))))))))))))))))))))))))))))), ?_⟩
    all_goals first | exact hi | msg_field | (simp_all [St.Inv]; done)
  case TwanIdTimeStamp j =>
    simp only [step]
    repeat' split
    all_goals refine ⟨cons_congr (Slot.step_ne rfl).symm (cons_congr (Slot.step_ne rfl).symm (cons_congr (Slot.step_ne rfl).symm (cons_congr (Slot.step_ne rfl).symm (cons_congr (Slot.step_ne rfl).symm (cons_congr (Slot.step_ne rfl).symm (cons_congr (Slot.step_ne rfl).symm (cons_congr (Slot.step_ne rfl).symm (cons_congr (Slot.step_ne rfl).symm (cons_congr (Slot.step_ne rfl).symm (cons_congr (Slot.step_ne rfl).symm (cons_congr (Slot.step_ne rfl).symm (cons_congr (Slot.step_ne rfl).symm (cons_congr (Slot.step_ne rfl).symm (cons_congr (Slot.step_ne rfl).symm (cons_congr (Slot.step_ne rfl).symm (cons_congr (Slot.step_ne rfl).symm (cons_congr (Slot.step_ne rfl).symm (cons_congr (Slot.step_ne rfl).symm (cons_congr (Slot.step_ne rfl).symm (cons_congr (Slot.step_ne rfl).symm (cons_congr (Slot.step_ne rfl).symm (cons_congr (Slot.step_ne rfl).symm (cons_congr (Slot.step_ne rfl).symm (cons_congr (Slot.step_ne rfl).symm (cons_congr (Slot.step_ne rfl).symm (cons_congr (Slot.step_ne rfl).symm (cons_congr (Slot.step_ne rfl).symm (cons_congr (Slot.step_ne rfl).symm (cons_congr (Slot.step_ne rfl).symm (cons_congr (Slot.step_ne rfl).symm (cons_congr (Slot.step_ne rfl).symm (cons_congr (Slot.step_ne rfl).symm (cons_congr (Slot.step_ne rfl).symm (cons_congr (Slot.step_ne rfl).symm (cons_congr (Slot.step_ne rfl).symm (cons_congr (Slot.step_ne rfl).symm (cons_congr (Slot.step_ne rfl).symm (cons_congr (Slot.step_ne rfl).symm (cons_congr (Slot.step_ne rfl).symm (cons_congr (Slot.step_ne rfl).symm (cons_congr (Slot.step_ne rfl).symm (cons_congr (Slot.step_ne rfl).symm (cons_congr (Slot.step_ne rfl).symm (cons_congr ?_ ((Schema.step_other rfl rfl).symm))))))))))))))))))))))))))))))))))))))))))))), ?_⟩
    all_goals first | exact hi | msg_field | (simp_all [St.Inv]; done)
  case Fcontainer j =>
    simp only [step]
    repeat' split
    all_goals refine ⟨cons_congr (Slot.step_ne rfl).symm (cons_congr (Slot.step_ne rfl).symm (cons_congr (Slot.step_ne rfl).symm (cons_congr (Slot.step_ne rfl).symm (cons_congr (Slot.step_ne rfl).symm (cons_congr (Slot.step_ne rfl).symm (cons_congr (Slot.step_ne rfl).symm (cons_congr (Slot.step_ne rfl).symm (cons_congr (Slot.step_ne rfl).symm (cons_congr (Slot.step_ne rfl).symm (cons_congr (Slot.step_ne rfl).symm (cons_congr (Slot.step_ne rfl).symm (cons_congr (Slot.step_ne rfl).symm (cons_congr (Slot.step_ne rfl).symm (cons_congr (Slot.step_ne rfl).symm (cons_congr (Slot.step_ne rfl).symm (cons_congr (Slot.step_ne rfl).symm (cons_congr (Slot.step_ne rfl).symm (cons_congr (Slot.step_ne rfl).symm (cons_congr (Slot.step_ne rfl).symm (cons_congr (Slot.step_ne rfl).symm (cons_congr (Slot.step_ne rfl).symm (cons_congr (Slot.step_ne rfl).symm (cons_congr (Slot.step_ne rfl).symm (cons_congr (Slot.step_ne rfl).symm (cons_congr (Slot.step_ne rfl).symm (cons_congr (Slot.step_ne rfl).symm (cons_congr (Slot.step_ne rfl).symm (cons_congr (Slot.step_ne rfl).symm (cons_congr (Slot.step_ne rfl).symm (cons_congr (Slot.step_ne rfl).symm (cons_congr (Slot.step_ne rfl).symm (cons_congr (Slot.step_ne rfl).symm (cons_congr (Slot.step_ne rfl).symm (cons_congr (Slot.step_ne rfl).symm (cons_congr (Slot.step_ne rfl).symm (cons_congr (Slot.step_ne rfl).symm (cons_congr (Slot.step_ne rfl).symm (cons_congr (Slot.step_ne rfl).symm (cons_congr (Slot.step_ne rfl).symm (cons_congr (Slot.step_ne rfl).symm (cons_congr (Slot.step_ne rfl).symm (cons_congr (Slot.step_ne rfl).symm (cons_congr (Slot.step_ne rfl).symm (cons_congr (Slot.step_ne rfl).symm (cons_congr ?_ ((Schema.step_other rfl rfl).symm)))))))))))))))))))))))))))))))))))))))))))))), ?_⟩
    all_goals first | exact hi | msg_field | (simp_all [St.Inv]; done)
  case RemoteUeContext j =>
    simp only [step]
    repeat' split
    all_goals refine ⟨cons_congr (Slot.step_ne rfl).symm (cons_congr (Slot.step_ne rfl).symm (cons_congr (Slot.step_ne rfl).symm (cons_congr (Slot.step_ne rfl).symm (cons_congr (Slot.step_ne rfl).symm (cons_congr (Slot.step_ne rfl).symm (cons_congr (Slot.step_ne rfl).symm (cons_congr (Slot.step_ne rfl).symm (cons_congr (Slot.step_ne rfl).symm (cons_congr (Slot.step_ne rfl).symm (cons_congr (Slot.step_ne rfl).symm (cons_congr (Slot.step_ne rfl).symm (cons_congr (Slot.step_ne rfl).symm (cons_congr (Slot.step_ne rfl).symm (cons_congr (Slot.step_ne rfl).symm (cons_congr (Slot.step_ne rfl).symm (cons_congr (Slot.step_ne rfl).symm (cons_congr (Slot.step_ne rfl).symm (cons_congr (Slot.step_ne rfl).symm (cons_congr (Slot.step_ne rfl).symm (cons_congr (Slot.step_ne rfl).symm (cons_congr (Slot.step_ne rfl).symm (cons_congr (Slot.step_ne rfl).symm (cons_congr (Slot.step_ne rfl).symm (cons_congr (Slot.step_ne rfl).symm (cons_congr (Slot.step_ne rfl).symm (cons_congr (Slot.step_ne rfl).symm (cons_congr (Slot.step_ne rfl).symm (cons_congr (Slot.step_ne rfl).symm (cons_congr (Slot.step_ne rfl).symm (cons_congr (Slot.step_ne rfl).symm (cons_congr (Slot.step_ne rfl).symm (cons_congr (Slot.step_ne rfl).symm (cons_congr (Slot.step_ne rfl).symm (cons_congr (Slot.step_ne rfl).symm (cons_congr (Slot.step_ne rfl).symm (cons_congr (Slot.step_ne rfl).symm (cons_congr (Slot.step_ne rfl).symm (cons_congr (Slot.step_ne rfl).symm (cons_congr (Slot.step_ne rfl).symm (cons_congr (Slot.step_ne rfl).symm (cons_congr (Slot.step_ne rfl).symm (cons_congr (Slot.step_ne rfl).symm (cons_congr (Slot.step_ne rfl).symm (cons_congr (Slot.step_ne rfl).symm (cons_congr (Slot.step_ne rfl).symm (cons_congr ?_ ((Schema.step_other rfl rfl).symm))))))))))))))))))))))))))))))))))))))))))))))), ?_⟩
    all_goals first | exact hi | msg_field | (simp_all [St.Inv]; done)
  case NodeIdentifier j =>
    simp only [step]
    repeat' split
    all_goals refine ⟨cons_congr (Slot.step_ne rfl).symm (cons_congr (Slot.step_ne rfl).symm (cons_congr (Slot.step_ne rfl).symm (cons_congr (Slot.step_ne rfl).symm (cons_congr (Slot.step_ne rfl).symm (cons_congr (Slot.step_ne rfl).symm (cons_congr (Slot.step_ne rfl).symm (cons_congr (Slot.step_ne rfl).symm (cons_congr (Slot.step_ne rfl).symm (cons_congr (Slot.step_ne rfl).symm (cons_congr (Slot.step_ne rfl).symm (cons_congr (Slot.step_ne rfl).symm (cons_congr (Slot.step_ne rfl).symm (cons_congr (Slot.step_ne rfl).symm (cons_congr (Slot.step_ne rfl).symm (cons_congr (Slot.step_ne rfl).symm (cons_congr (Slot.step_ne rfl).symm (cons_congr (Slot.step_ne rfl).symm (cons_congr (Slot.step_ne rfl).symm (cons_congr (Slot.step_ne rfl).symm (cons_congr (Slot.step_ne rfl).symm (cons_congr (Slot.step_ne rfl).symm (cons_congr (Slot.step_ne rfl).symm (cons_congr (Slot.step_ne rfl).symm (cons_congr (Slot.step_ne rfl).symm (cons_congr (Slot.step_ne rfl).symm (cons_congr (Slot.step_ne rfl).symm (cons_congr (Slot.step_ne rfl).symm (cons_congr (Slot.step_ne rfl).symm (cons_congr (Slot.step_ne rfl).symm (cons_congr (Slot.step_ne rfl).symm (cons_congr (Slot.step_ne rfl).symm (cons_congr (Slot.step_ne rfl).symm (cons_congr (Slot.step_ne rfl).symm (cons_congr (Slot.step_ne rfl).symm (cons_congr (Slot.step_ne rfl).symm (cons_congr (Slot.step_ne rfl).symm (cons_congr (Slot.step_ne rfl).symm (cons_congr (Slot.step_ne rfl).symm (cons_congr (Slot.step_ne rfl).symm (cons_congr (Slot.step_ne rfl).symm (cons_congr (Slot.step_ne rfl).symm (cons_congr (Slot.step_ne rfl).symm (cons_congr (Slot.step_ne rfl).symm (cons_congr (Slot.step_ne rfl).symm (cons_congr (Slot.step_ne rfl).symm (cons_congr (Slot.step_ne rfl).symm (cons_congr ?_ ((Schema.step_other rfl rfl).symm)))))))))))))))))))))))))))))))))))))))))))))))), ?_⟩
    all_goals first | exact hi | msg_field | (simp_all [St.Inv]; done)
  case Epco j =>
    simp only [step]
    repeat' split
    all_goals refine ⟨cons_congr (Slot.step_ne rfl).symm (cons_congr (Slot.step_ne rfl).symm (cons_congr (Slot.step_ne rfl).symm (cons_congr (Slot.step_ne rfl).symm (cons_congr (Slot.step_ne rfl).symm (cons_congr (Slot.step_ne rfl).symm (cons_congr (Slot.step_ne rfl).symm (cons_congr (Slot.step_ne rfl).symm (cons_congr (Slot.step_ne rfl).symm (cons_congr (Slot.step_ne rfl).symm (cons_congr (Slot.step_ne rfl).symm (cons_congr (Slot.step_ne rfl).symm (cons_congr (Slot.step_ne rfl).symm (cons_congr (Slot.step_ne rfl).symm (cons_congr (Slot.step_ne rfl).symm (cons_congr (Slot.step_ne rfl).symm (cons_congr (Slot.step_ne rfl).symm (cons_congr (Slot.step_ne rfl).symm (cons_congr (Slot.step_ne rfl).symm (cons_congr (Slot.step_ne rfl).symm (cons_congr (Slot.step_ne rfl).symm (cons_congr (Slot.step_ne rfl).symm (cons_congr (Slot.step_ne rfl).symm (cons_congr (Slot.step_ne rfl).symm (cons_congr (Slot.step_ne rfl).symm (cons_congr (Slot.step_ne rfl).symm (cons_congr (Slot.step_ne rfl).symm (cons_congr (Slot.step_ne rfl).symm (cons_congr (Slot.step_ne rfl).symm (cons_congr (Slot.step_ne rfl).symm (cons_congr (Slot.step_ne rfl).symm (cons_congr (Slot.step_ne rfl).symm (cons_congr (Slot.step_ne rfl).symm (cons_congr (Slot.step_ne rfl).symm (cons_congr (Slot.step_ne rfl).symm (cons_congr (Slot.step_ne rfl).symm (cons_congr (Slot.step_ne rfl).symm (cons_congr (Slot.step_ne rfl).symm (cons_congr (Slot.step_ne rfl).symm (cons_congr (Slot.step_ne rfl).symm (cons_congr (Slot.step_ne rfl).symm (cons_congr (Slot.step_ne rfl).symm (cons_congr (Slot.step_ne rfl).symm (cons_congr (Slot.step_ne rfl).symm (cons_congr (Slot.step_ne rfl).symm (cons_congr (Slot.step_ne rfl).symm (cons_congr (Slot.step_ne rfl).symm (cons_congr (Slot.step_ne rfl).symm (cons_congr ?_ ((Schema.step_other rfl rfl).symm))))))))))))))))))))))))))))))))))))))))))))))))), ?_⟩
    all_goals first | exact hi | msg_field | (simp_all [St.Inv]; done)
  case ServingPlmnRateControl j =>
    simp only [step]
    repeat' split
    all_goals refine ⟨cons_congr (Slot.step_ne rfl).symm (cons_congr (Slot.step_ne rfl).symm (cons_congr (Slot.step_ne rfl).symm (cons_congr (Slot.step_ne rfl).symm (cons_congr (Slot.step_ne rfl).symm (cons_congr (Slot.step_ne rfl).symm (cons_congr (Slot.step_ne rfl).symm (cons_congr (Slot.step_ne rfl).symm (cons_congr (Slot.step_ne rfl).symm (cons_congr (Slot.step_ne rfl).symm (cons_congr (Slot.step_ne rfl).symm (cons_congr (Slot.step_ne rfl).symm (cons_congr (Slot.step_ne rfl).symm (cons_congr (Slot.step_ne rfl).symm (cons_congr (Slot.step_ne rfl).symm (cons_congr (Slot.step_ne rfl).symm (cons_congr (Slot.step_ne rfl).symm (cons_congr (Slot.step_ne rfl).symm (cons_congr (Slot.step_ne rfl).symm (cons_congr (Slot.step_ne rfl).symm (cons_congr (Slot.step_ne rfl).symm (cons_congr (Slot.step_ne rfl).symm (cons_congr (Slot.step_ne rfl).symm (cons_congr (Slot.step_ne rfl).symm (cons_congr (Slot.step_ne rfl).symm (cons_congr (Slot.step_ne rfl).symm (cons_congr (Slot.step_ne rfl).symm (cons_congr (Slot.step_ne rfl).symm (cons_congr (Slot.step_ne rfl).symm (cons_congr (Slot.step_ne rfl).symm (cons_congr (Slot.step_ne rfl).symm (cons_congr (Slot.step_ne rfl).symm (cons_congr (Slot.step_ne rfl).symm (cons_congr (Slot.step_ne rfl).symm (cons_congr (Slot.step_ne rfl).symm (cons_congr (Slot.step_ne rfl).symm (cons_congr (Slot.step_ne rfl).symm (cons_congr (Slot.step_ne rfl).symm (cons_congr (Slot.step_ne rfl).symm (cons_congr (Slot.step_ne rfl).symm (cons_congr (Slot.step_ne rfl).symm (cons_congr (Slot.step_ne rfl).symm (cons_congr (Slot.step_ne rfl).symm (cons_congr (Slot.step_ne rfl).symm (cons_congr (Slot.step_ne rfl).symm (cons_congr (Slot.step_ne rfl).symm (cons_congr (Slot.step_ne rfl).symm (cons_congr (Slot.step_ne rfl).symm (cons_congr (Slot.step_ne rfl).symm (cons_congr ?_ ((Schema.step_other rfl rfl).symm)))))))))))))))))))))))))))))))))))))))))))))))))), ?_⟩
    all_goals first | exact hi | msg_field | (simp_all [St.Inv]; done)
  case Counter j =>
    simp only [step]
    repeat' split
    all_goals refine ⟨cons_congr (Slot.step_ne rfl).symm (cons_congr (Slot.step_ne rfl).symm (cons_congr (Slot.step_ne rfl).symm (cons_congr (Slot.step_ne rfl).symm (cons_congr (Slot.step_ne rfl).symm (cons_congr (Slot.step_ne rfl).symm (cons_congr (Slot.step_ne rfl).symm (cons_congr (Slot.step_ne rfl).symm (cons_congr (Slot.step_ne rfl).symm (cons_congr (Slot.step_ne rfl).symm (cons_congr (Slot.step_ne rfl).symm (cons_congr (Slot.step_ne rfl).symm (cons_congr (Slot.step_ne rfl).symm (cons_congr (Slot.step_ne rfl).symm (cons_congr (Slot.step_ne rfl).symm (cons_congr (Slot.step_ne rfl).symm (cons_congr (Slot.step_ne rfl).symm (cons_congr (Slot.step_ne rfl).symm (cons_congr (Slot.step_ne rfl).symm (cons_congr (Slot.step_ne rfl).symm (cons_congr (Slot.step_ne rfl).symm (cons_congr (Slot.step_ne rfl).symm (cons_congr (Slot.step_ne rfl).symm (cons_congr (Slot.step_ne rfl).symm (cons_congr (Slot.step_ne rfl).symm (cons_congr (Slot.step_ne rfl).symm (cons_congr (Slot.step_ne rfl).symm (cons_congr (Slot.step_ne rfl).symm (cons_congr (Slot.step_ne rfl).symm (cons_congr (Slot.step_ne rfl).symm (cons_congr (Slot.step_ne rfl).symm (cons_congr (Slot.step_ne rfl).symm (cons_congr (Slot.step_ne rfl).symm (cons_congr (Slot.step_ne rfl).symm (cons_congr (Slot.step_ne rfl).symm (cons_congr (Slot.step_ne rfl).symm (cons_congr (Slot.step_ne rfl).symm (cons_congr (Slot.step_ne rfl).symm (cons_congr (Slot.step_ne rfl).symm (cons_congr (Slot.step_ne rfl).symm (cons_congr (Slot.step_ne rfl).symm (cons_congr (Slot.step_ne rfl).symm (cons_congr (Slot.step_ne rfl).symm (cons_congr (Slot.step_ne rfl).symm (cons_congr (Slot.step_ne rfl).symm (cons_congr (Slot.step_ne rfl).symm (cons_congr (Slot.step_ne rfl).symm (cons_congr (Slot.step_ne rfl).symm (cons_congr (Slot.step_ne rfl).symm (cons_congr (Slot.step_ne rfl).symm (cons_congr ?_ ((Schema.step_other rfl rfl).symm))))))))))))))))))))))))))))))))))))))))))))))))))), ?_⟩
    all_goals first | exact hi | msg_field | (simp_all [St.Inv]; done)
  case MappedUeUsageType j =>
    simp only [step]
    repeat' split
    all_goals refine ⟨cons_congr (Slot.step_ne rfl).symm (cons_congr (Slot.step_ne rfl).symm (cons_congr (Slot.step_ne rfl).symm (cons_congr (Slot.step_ne rfl).symm (cons_congr (Slot.step_ne rfl).symm (cons_congr (Slot.step_ne rfl).symm (cons_congr (Slot.step_ne rfl).symm (cons_congr (Slot.step_ne rfl).symm (cons_congr (Slot.step_ne rfl).symm (cons_congr (Slot.step_ne rfl).symm (cons_congr (Slot.step_ne rfl).symm (cons_congr (Slot.step_ne rfl).symm (cons_congr (Slot.step_ne rfl).symm (cons_congr (Slot.step_ne rfl).symm (cons_congr (Slot.step_ne rfl).symm (cons_congr (Slot.step_ne rfl).symm (cons_congr (Slot.step_ne rfl).symm (cons_congr (Slot.step_ne rfl).symm (cons_congr (Slot.step_ne rfl).symm (cons_congr (Slot.step_ne rfl).symm (cons_congr (Slot.step_ne rfl).symm (cons_congr (Slot.step_ne rfl).symm (cons_congr (Slot.step_ne rfl).symm (cons_congr (Slot.step_ne rfl).symm (cons_congr (Slot.step_ne rfl).symm (cons_congr (Slot.step_ne rfl).symm (cons_congr (Slot.step_ne rfl).symm (cons_congr (Slot.step_ne rfl).symm (cons_congr (Slot.step_ne rfl).symm (cons_congr (Slot.step_ne rfl).symm (cons_congr (Slot.step_ne rfl).symm (cons_congr (Slot.step_ne rfl).symm (cons_congr (Slot.step_ne rfl).symm (cons_congr (Slot.step_ne rfl).symm (cons_congr (Slot.step_ne rfl).symm (cons_congr (Slot.step_ne rfl).symm (cons_congr (Slot.step_ne rfl).symm (cons_congr (Slot.step_ne rfl).symm (cons_congr (Slot.step_ne rfl).symm (cons_congr (Slot.step_ne rfl).symm (cons_congr (Slot.step_ne rfl).symm (cons_congr (Slot.step_ne rfl).symm (cons_congr (Slot.step_ne rfl).symm (cons_congr (Slot.step_ne rfl).symm (cons_congr (Slot.step_ne rfl).symm (cons_congr (Slot.step_ne rfl).symm (cons_congr (Slot.step_ne rfl).symm (cons_congr (Slot.step_ne rfl).symm (cons_congr (Slot.step_ne rfl).symm (cons_congr (Slot.step_ne rfl).symm (cons_congr (Slot.step_ne rfl).symm (cons_congr (Slot.step_ne rfl).symm (cons_congr ?_ ((Schema.step_other rfl rfl).symm))))))))))))))))))))))))))))))))))))))))))))))))))))), ?_⟩
    all_goals first | exact hi | msg_field | (simp_all [St.Inv]; done)
  case Fqdn j =>
    simp only [step]
    repeat' split
    all_goals refine ⟨cons_congr (Slot.step_ne rfl).symm (cons_congr (Slot.step_ne rfl).symm (cons_congr (Slot.step_ne rfl).symm (cons_congr (Slot.step_ne rfl).symm (cons_congr (Slot.step_ne rfl).symm (cons_congr (Slot.step_ne rfl).symm (cons_congr (Slot.step_ne rfl).symm (cons_congr (Slot.step_ne rfl).symm (cons_congr (Slot.step_ne rfl).symm (cons_congr (Slot.step_ne rfl).symm (cons_congr (Slot.step_ne rfl).symm (cons_congr (Slot.step_ne rfl).symm (cons_congr (Slot.step_ne rfl).symm (cons_congr (Slot.step_ne rfl).symm (cons_congr (Slot.step_ne rfl).symm (cons_congr (Slot.step_ne rfl).symm (cons_congr (Slot.step_ne rfl).symm (cons_congr (Slot.step_ne rfl).symm (cons_congr (Slot.step_ne rfl).symm (cons_congr (Slot.step_ne rfl).symm (cons_congr (Slot.step_ne rfl).symm (cons_congr (Slot.step_ne rfl).symm (cons_congr (Slot.step_ne rfl).symm (cons_congr (Slot.step_ne rfl).symm (cons_congr (Slot.step_ne rfl).symm (cons_congr (Slot.step_ne rfl).symm (cons_congr (Slot.step_ne rfl).symm (cons_congr (Slot.step_ne rfl).symm (cons_congr (Slot.step_ne rfl).symm (cons_congr (Slot.step_ne rfl).symm (cons_congr (Slot.step_ne rfl).symm (cons_congr (Slot.step_ne rfl).symm (cons_congr (Slot.step_ne rfl).symm (cons_congr (Slot.step_ne rfl).symm (cons_congr (Slot.step_ne rfl).symm (cons_congr (Slot.step_ne rfl).symm (cons_congr (Slot.step_ne rfl).symm (cons_congr (Slot.step_ne rfl).symm (cons_congr (Slot.step_ne rfl).symm (cons_congr (Slot.step_ne rfl).symm (cons_congr (Slot.step_ne rfl).symm (cons_congr (Slot.step_ne rfl).symm (cons_congr (Slot.step_ne rfl).symm (cons_congr (Slot.step_ne rfl).symm (cons_congr (Slot.step_ne rfl).symm (cons_congr (Slot.step_ne rfl).symm (cons_congr (Slot.step_ne rfl).symm (cons_congr (Slot.step_ne rfl).symm (cons_congr (Slot.step_ne rfl).symm (cons_congr (Slot.step_ne rfl).symm (cons_congr (Slot.step_ne rfl).symm (cons_congr (Slot.step_ne rfl).symm (cons_congr (Slot.step_ne rfl).symm (cons_congr (Slot.step_ne rfl).symm (cons_congr ?_ ((Schema.step_other rfl rfl).symm))))))))))))))))))))))))))))))))))))))))))))))))))))))), ?_⟩
    all_goals first | exact hi | msg_field | (simp_all [St.Inv]; done)
  case SecondaryRatUsageDataReport j =>
    simp only [step]
    repeat' split
    all_goals refine ⟨cons_congr (Slot.step_ne rfl).symm (cons_congr (Slot.step_ne rfl).symm (cons_congr (Slot.step_ne rfl).symm (cons_congr (Slot.step_ne rfl).symm (cons_congr (Slot.step_ne rfl).symm (cons_congr (Slot.step_ne rfl).symm (cons_congr (Slot.step_ne rfl).symm (cons_congr (Slot.step_ne rfl).symm (cons_congr (Slot.step_ne rfl).symm (cons_congr (Slot.step_ne rfl).symm (cons_congr (Slot.step_ne rfl).symm (cons_congr (Slot.step_ne rfl).symm (cons_congr (Slot.step_ne rfl).symm (cons_congr (Slot.step_ne rfl).symm (cons_congr (Slot.step_ne rfl).symm (cons_congr (Slot.step_ne rfl).symm (cons_congr (Slot.step_ne rfl).symm (cons_congr (Slot.step_ne rfl).symm (cons_congr (Slot.step_ne rfl).symm (cons_congr (Slot.step_ne rfl).symm (cons_congr (Slot.step_ne rfl).symm (cons_congr (Slot.step_ne rfl).symm (cons_congr (Slot.step_ne rfl).symm (cons_congr (Slot.step_ne rfl).symm (cons_congr (Slot.step_ne rfl).symm (cons_congr (Slot.step_ne rfl).symm (cons_congr (Slot.step_ne rfl).symm (cons_congr (Slot.step_ne rfl).symm (cons_congr (Slot.step_ne rfl).symm (cons_congr (Slot.step_ne rfl).symm (cons_congr (Slot.step_ne rfl).symm (cons_congr (Slot.step_ne rfl).symm (cons_congr (Slot.step_ne rfl).symm (cons_congr (Slot.step_ne rfl).symm (cons_congr (Slot.step_ne rfl).symm (cons_congr (Slot.step_ne rfl).symm (cons_congr (Slot.step_ne rfl).symm (cons_congr (Slot.step_ne rfl).symm (cons_congr (Slot.step_ne rfl).symm (cons_congr (Slot.step_ne rfl).symm (cons_congr (Slot.step_ne rfl).symm (cons_congr (Slot.step_ne rfl).symm (cons_congr (Slot.step_ne rfl).symm (cons_congr (Slot.step_ne rfl).symm (cons_congr (Slot.step_ne rfl).symm (cons_congr (Slot.step_ne rfl).symm (cons_congr (Slot.step_ne rfl).symm (cons_congr (Slot.step_ne rfl).symm (cons_congr (Slot.step_ne rfl).symm (cons_congr (Slot.step_ne rfl).symm (cons_congr (Slot.step_ne rfl).symm (cons_congr (Slot.step_ne rfl).symm (cons_congr (Slot.step_ne rfl).symm (cons_congr (Slot.step_ne rfl).symm (cons_congr (Slot.step_ne rfl).symm (cons_congr ?_ ((Schema.step_other rfl rfl).symm)))))))))))))))))))))))))))))))))))))))))))))))))))))))), ?_⟩
    all_goals first | exact hi | msg_field | (simp_all [St.Inv]; done)
  case UpFunctionSelectionIndicationFlags j =>
    simp only [step]
    repeat' split
    all_goals refine ⟨cons_congr (Slot.step_ne rfl).symm (cons_congr (Slot.step_ne rfl).symm (cons_congr (Slot.step_ne rfl).symm (cons_congr (Slot.step_ne rfl).symm (cons_congr (Slot.step_ne rfl).symm (cons_congr (Slot.step_ne rfl).symm (cons_congr (Slot.step_ne rfl).symm (cons_congr (Slot.step_ne rfl).symm (cons_congr (Slot.step_ne rfl).symm (cons_congr (Slot.step_ne rfl).symm (cons_congr (Slot.step_ne rfl).symm (cons_congr (Slot.step_ne rfl).symm (cons_congr (Slot.step_ne rfl).symm (cons_congr (Slot.step_ne rfl).symm (cons_congr (Slot.step_ne rfl).symm (cons_congr (Slot.step_ne rfl).symm (cons_congr (Slot.step_ne rfl).symm (cons_congr (Slot.step_ne rfl).symm (cons_congr (Slot.step_ne rfl).symm (cons_congr (Slot.step_ne rfl).symm (cons_congr (Slot.step_ne rfl).symm (cons_congr (Slot.step_ne rfl).symm (cons_congr (Slot.step_ne rfl).symm (cons_congr (Slot.step_ne rfl).symm (cons_congr (Slot.step_ne rfl).symm (cons_congr (Slot.step_ne rfl).symm (cons_congr (Slot.step_ne rfl).symm (cons_congr (Slot.step_ne rfl).symm (cons_congr (Slot.step_ne rfl).symm (cons_congr (Slot.step_ne rfl).symm (cons_congr (Slot.step_ne rfl).symm (cons_congr (Slot.step_ne rfl).symm (cons_congr (Slot.step_ne rfl).symm (cons_congr (Slot.step_ne rfl).symm (cons_congr (Slot.step_ne rfl).symm (cons_congr (Slot.step_ne rfl).symm (cons_congr (Slot.step_ne rfl).symm (cons_congr (Slot.step_ne rfl).symm (cons_congr (Slot.step_ne rfl).symm (cons_congr (Slot.step_ne rfl).symm (cons_congr (Slot.step_ne rfl).symm (cons_congr (Slot.step_ne rfl).symm (cons_congr (Slot.step_ne rfl).symm (cons_congr (Slot.step_ne rfl).symm (cons_congr (Slot.step_ne rfl).symm (cons_congr (Slot.step_ne rfl).symm (cons_congr (Slot.step_ne rfl).symm (cons_congr (Slot.step_ne rfl).symm (cons_congr (Slot.step_ne rfl).symm (cons_congr (Slot.step_ne rfl).symm (cons_congr (Slot.step_ne rfl).symm (cons_congr (Slot.step_ne rfl).symm (cons_congr (Slot.step_ne rfl).symm (cons_congr (Slot.step_ne rfl).symm (cons_congr (Slot.step_ne rfl).symm (cons_congr (Slot.step_ne rfl).symm (cons_congr ?_ ((Schema.step_other rfl rfl).symm))))))))))))))))))))))))))))))))))))))))))))))))))))))))), ?_⟩
    all_goals first | exact hi | msg_field | (simp_all [St.Inv]; done)
  case ApnRateControlStatus j =>
    simp only [step]
    repeat' split
    all_goals refine ⟨cons_congr (Slot.step_ne rfl).symm (cons_congr (Slot.step_ne rfl).symm (cons_congr (Slot.step_ne rfl).symm (cons_congr (Slot.step_ne rfl).symm (cons_congr (Slot.step_ne rfl).symm (cons_congr (Slot.step_ne rfl).symm (cons_congr (Slot.step_ne rfl).symm (cons_congr (Slot.step_ne rfl).symm (cons_congr (Slot.step_ne rfl).symm (cons_congr (Slot.step_ne rfl).symm (cons_congr (Slot.step_ne rfl).symm (cons_congr (Slot.step_ne rfl).symm (cons_congr (Slot.step_ne rfl).symm (cons_congr (Slot.step_ne rfl).symm (cons_congr (Slot.step_ne rfl).symm (cons_congr (Slot.step_ne rfl).symm (cons_congr (Slot.step_ne rfl).symm (cons_congr (Slot.step_ne rfl).symm (cons_congr (Slot.step_ne rfl).symm (cons_congr (Slot.step_ne rfl).symm (cons_congr (Slot.step_ne rfl).symm (cons_congr (Slot.step_ne rfl).symm (cons_congr (Slot.step_ne rfl).symm (cons_congr (Slot.step_ne rfl).symm (cons_congr (Slot.step_ne rfl).symm (cons_congr (Slot.step_ne rfl).symm (cons_congr (Slot.step_ne rfl).symm (cons_congr (Slot.step_ne rfl).symm (cons_congr (Slot.step_ne rfl).symm (cons_congr (Slot.step_ne rfl).symm (cons_congr (Slot.step_ne rfl).symm (cons_congr (Slot.step_ne rfl).symm (cons_congr (Slot.step_ne rfl).symm (cons_congr (Slot.step_ne rfl).symm (cons_congr (Slot.step_ne rfl).symm (cons_congr (Slot.step_ne rfl).symm (cons_congr (Slot.step_ne rfl).symm (cons_congr (Slot.step_ne rfl).symm (cons_congr (Slot.step_ne rfl).symm (cons_congr (Slot.step_ne rfl).symm (cons_congr (Slot.step_ne rfl).symm (cons_congr (Slot.step_ne rfl).symm (cons_congr (Slot.step_ne rfl).symm (cons_congr (Slot.step_ne rfl).symm (cons_congr (Slot.step_ne rfl).symm (cons_congr (Slot.step_ne rfl).symm (cons_congr (Slot.step_ne rfl).symm (cons_congr (Slot.step_ne rfl).symm (cons_congr (Slot.step_ne rfl).symm (cons_congr (Slot.step_ne rfl).symm (cons_congr (Slot.step_ne rfl).symm (cons_congr (Slot.step_ne rfl).symm (cons_congr (Slot.step_ne rfl).symm (cons_congr (Slot.step_ne rfl).symm (cons_congr (Slot.step_ne rfl).symm (cons_congr (Slot.step_ne rfl).symm (cons_congr (Slot.step_ne rfl).symm (cons_congr ?_ ((Schema.step_other rfl rfl).symm)))))))))))))))))))))))))))))))))))))))))))))))))))))))))), ?_⟩
    all_goals first | exact hi | msg_field | (simp_all [St.Inv]; done)
  case PSCellId j =>
    simp only [step]
    repeat' split
    all_goals refine ⟨cons_congr (Slot.step_ne rfl).symm (cons_congr (Slot.step_ne rfl).symm (cons_congr (Slot.step_ne rfl).symm (cons_congr (Slot.step_ne rfl).symm (cons_congr (Slot.step_ne rfl).symm (cons_congr (Slot.step_ne rfl).symm (cons_congr (Slot.step_ne rfl).symm (cons_congr (Slot.step_ne rfl).symm (cons_congr (Slot.step_ne rfl).symm (cons_congr (Slot.step_ne rfl).symm (cons_congr (Slot.step_ne rfl).symm (cons_congr (Slot.step_ne rfl).symm (cons_congr (Slot.step_ne rfl).symm (cons_congr (Slot.step_ne rfl).symm (cons_congr (Slot.step_ne rfl).symm (cons_congr (Slot.step_ne rfl).symm (cons_congr (Slot.step_ne rfl).symm (cons_congr (Slot.step_ne rfl).symm (cons_congr (Slot.step_ne rfl).symm (cons_congr (Slot.step_ne rfl).symm (cons_congr (Slot.step_ne rfl).symm (cons_congr (Slot.step_ne rfl).symm (cons_congr (Slot.step_ne rfl).symm (cons_congr (Slot.step_ne rfl).symm (cons_congr (Slot.step_ne rfl).symm (cons_congr (Slot.step_ne rfl).symm (cons_congr (Slot.step_ne rfl).symm (cons_congr (Slot.step_ne rfl).symm (cons_congr (Slot.step_ne rfl).symm (cons_congr (Slot.step_ne rfl).symm (cons_congr (Slot.step_ne rfl).symm (cons_congr (Slot.step_ne rfl).symm (cons_congr (Slot.step_ne rfl).symm (cons_congr (Slot.step_ne rfl).symm (cons_congr (Slot.step_ne rfl).symm (cons_congr (Slot.step_ne rfl).symm (cons_congr (Slot.step_ne rfl).symm (cons_congr (Slot.step_ne rfl).symm (cons_congr (Slot.step_ne rfl).symm (cons_congr (Slot.step_ne rfl).symm (cons_congr (Slot.step_ne rfl).symm (cons_congr (Slot.step_ne rfl).symm (cons_congr (Slot.step_ne rfl).symm (cons_congr (Slot.step_ne rfl).symm (cons_congr (Slot.step_ne rfl).symm (cons_congr (Slot.step_ne rfl).symm (cons_congr (Slot.step_ne rfl).symm (cons_congr (Slot.step_ne rfl).symm (cons_congr (Slot.step_ne rfl).symm (cons_congr (Slot.step_ne rfl).symm (cons_congr (Slot.step_ne rfl).symm (cons_congr (Slot.step_ne rfl).symm (cons_congr (Slot.step_ne rfl).symm (cons_congr (Slot.step_ne rfl).symm (cons_congr (Slot.step_ne rfl).symm (cons_congr (Slot.step_ne rfl).symm (cons_congr (Slot.step_ne rfl).symm (cons_congr (Slot.step_ne rfl).symm (cons_congr ?_ ((Schema.step_other rfl rfl).symm))))))))))))))))))))))))))))))))))))))))))))))))))))))))))), ?_⟩
    all_goals first | exact hi | msg_field | (simp_all [St.Inv]; done)
  case PrivateExtension j =>
    simp only [step]
    all_goals refine ⟨cons_congr (Slot.step_ne rfl).symm (cons_congr (Slot.step_ne rfl).symm (cons_congr (Slot.step_ne rfl).symm (cons_congr (Slot.step_ne rfl).symm (cons_congr (Slot.step_ne rfl).symm (cons_congr (Slot.step_ne rfl).symm (cons_congr (Slot.step_ne rfl).symm (cons_congr (Slot.step_ne rfl).symm (cons_congr (Slot.step_ne rfl).symm (cons_congr (Slot.step_ne rfl).symm (cons_congr (Slot.step_ne rfl).symm (cons_congr (Slot.step_ne rfl).symm (cons_congr (Slot.step_ne rfl).symm (cons_congr (Slot.step_ne rfl).symm (cons_congr (Slot.step_ne rfl).symm (cons_congr (Slot.step_ne rfl).symm (cons_congr (Slot.step_ne rfl).symm (cons_congr (Slot.step_ne rfl).symm (cons_congr (Slot.step_ne rfl).symm (cons_congr (Slot.step_ne rfl).symm (cons_congr (Slot.step_ne rfl).symm (cons_congr (Slot.step_ne rfl).symm (cons_congr (Slot.step_ne rfl).symm (cons_congr (Slot.step_ne rfl).symm (cons_congr (Slot.step_ne rfl).symm (cons_congr (Slot.step_ne rfl).symm (cons_congr (Slot.step_ne rfl).symm (cons_congr (Slot.step_ne rfl).symm (cons_congr (Slot.step_ne rfl).symm (cons_congr (Slot.step_ne rfl).symm (cons_congr (Slot.step_ne rfl).symm (cons_congr (Slot.step_ne rfl).symm (cons_congr (Slot.step_ne rfl).symm (cons_congr (Slot.step_ne rfl).symm (cons_congr (Slot.step_ne rfl).symm (cons_congr (Slot.step_ne rfl).symm (cons_congr (Slot.step_ne rfl).symm (cons_congr (Slot.step_ne rfl).symm (cons_congr (Slot.step_ne rfl).symm (cons_congr (Slot.step_ne rfl).symm (cons_congr (Slot.step_ne rfl).symm (cons_congr (Slot.step_ne rfl).symm (cons_congr (Slot.step_ne rfl).symm (cons_congr (Slot.step_ne rfl).symm (cons_congr (Slot.step_ne rfl).symm (cons_congr (Slot.step_ne rfl).symm (cons_congr (Slot.step_ne rfl).symm (cons_congr (Slot.step_ne rfl).symm (cons_congr (Slot.step_ne rfl).symm (cons_congr (Slot.step_ne rfl).symm (cons_congr (Slot.step_ne rfl).symm (cons_congr (Slot.step_ne rfl).symm (cons_congr (Slot.step_ne rfl).symm (cons_congr (Slot.step_ne rfl).symm (cons_congr (Slot.step_ne rfl).symm (cons_congr (Slot.step_ne rfl).symm (cons_congr (Slot.step_ne rfl).symm (cons_congr (Slot.step_ne rfl).symm (cons_congr (Slot.step_ne rfl).symm (cons_congr ?_ (rfl)))))))))))))))))))))))))))))))))))))))))))))))))))))))))))), ?_⟩
    all_goals first | exact hi | msg_field | (simp_all [St.Inv]; done)
  all_goals exact ⟨(Schema.step_other rfl rfl).symm, hi⟩

theorem loop (h : Header) (els : List IE) (hq : ∀ e ∈ els, TypeOk e) :
    (els.foldl step ⟨{ dflt with header := h }, []⟩).view = schema.map (·.select els) ∧ (els.foldl step ⟨{ dflt with header := h }, []⟩).Inv h := by
  have := foldl_view (Q := TypeOk) (fun s e hp hq => step_view h s e hp hq) els ⟨{ dflt with header := h }, []⟩ hq (by simp [St.Inv, dflt, has_nil])
  rw [show St.view ⟨{ dflt with header := h }, []⟩ = schema.map (fun _ => []) from rfl, Schema.foldl_nil] at this
  exact this

theorem ext {x y : CreateSessionRequest} (hh : x.header = y.header) (h : fields x = fields y) : x = y := by
  cases x; cases y
  simp only at hh
  subst hh
  injection h with h0 h
  cases optV_inj (fun _ _ h => IE.Imsi.inj h) h0
  injection h with h1 h
  cases optV_inj (fun _ _ h => IE.Msisdn.inj h) h1
  injection h with h2 h
  cases optV_inj (fun _ _ h => IE.Mei.inj h) h2
  injection h with h3 h
  cases optV_inj (fun _ _ h => IE.Uli.inj h) h3
  injection h with h4 h
  cases optV_inj (fun _ _ h => IE.ServingNetwork.inj h) h4
  injection h with h5 h
  cases h5
  injection h with h6 h
  cases optV_inj (fun _ _ h => IE.Indication.inj h) h6
  injection h with h7 h
  cases h7
  injection h with h8 h
  cases optV_inj (fun _ _ h => IE.Fteid.inj h) h8
  injection h with h9 h
  cases h9
  injection h with h10 h
  cases optV_inj (fun _ _ h => IE.SelectionMode.inj h) h10
  injection h with h11 h
  cases optV_inj (fun _ _ h => IE.PdnType.inj h) h11
  injection h with h12 h
  cases optV_inj (fun _ _ h => IE.PdnAddressAllocation.inj h) h12
  injection h with h13 h
  cases optV_inj (fun _ _ h => IE.ApnRestriction.inj h) h13
  injection h with h14 h
  cases optV_inj (fun _ _ h => IE.ApnAmbr.inj h) h14
  injection h with h15 h
  cases optV_inj (fun _ _ h => IE.Ebi.inj h) h15
  injection h with h16 h
  cases optV_inj (fun _ _ h => IE.Twmi.inj h) h16
  injection h with h17 h
  cases optV_inj (fun _ _ h => IE.Pco.inj h) h17
  injection h with h18 h
  cases map_inj (fun _ _ h => IE.BearerContext.inj h) h18
  injection h with h19 h
  cases optV_inj (fun _ _ h => IE.TraceInformation.inj h) h19
  injection h with h20 h
  cases optV_inj (fun _ _ h => IE.Recovery.inj h) h20
  injection h with h21 h
  cases optV_inj (fun _ _ h => IE.Fqcsid.inj h) h21
  injection h with h22 h
  cases optV_inj (fun _ _ h => IE.Fqcsid.inj h) h22
  injection h with h23 h
  cases optV_inj (fun _ _ h => IE.Fqcsid.inj h) h23
  injection h with h24 h
  cases optV_inj (fun _ _ h => IE.Fqcsid.inj h) h24
  injection h with h25 h
  cases optV_inj (fun _ _ h => IE.UeTimeZone.inj h) h25
  injection h with h26 h
  cases optV_inj (fun _ _ h => IE.Uci.inj h) h26
  injection h with h27 h
  cases optV_inj (fun _ _ h => IE.ChargingCharacteristics.inj h) h27
  injection h with h28 h
  cases map_inj (fun _ _ h => IE.Ldn.inj h) h28
  injection h with h29 h
  cases optV_inj (fun _ _ h => IE.Spi.inj h) h29
  injection h with h30 h
  cases optV_inj (fun _ _ h => IE.IpAddress.inj h) h30
  injection h with h31 h
  cases optV_inj (fun _ _ h => IE.PortNumber.inj h) h31
  injection h with h32 h
  cases optV_inj (fun _ _ h => IE.Apco.inj h) h32
  injection h with h33 h
  cases optV_inj (fun _ _ h => IE.IpAddress.inj h) h33
  injection h with h34 h
  cases optV_inj (fun _ _ h => IE.PortNumber.inj h) h34
  injection h with h35 h
  cases optV_inj (fun _ _ h => IE.IpAddress.inj h) h35
  injection h with h36 h
  cases optV_inj (fun _ _ h => IE.TwanId.inj h) h36
  injection h with h37 h
  cases optV_inj (fun _ _ h => IE.IpAddress.inj h) h37
  injection h with h38 h
  cases optV_inj (fun _ _ h => IE.CnOperatorSelectionEntity.inj h) h38
  injection h with h39 h
  cases optV_inj (fun _ _ h => IE.PresenceReportingAreaInformation.inj h) h39
  injection h with h40 h
  cases map_inj (fun _ _ h => IE.OverloadControlInfo.inj h) h40
  injection h with h41 h
  cases optV_inj (fun _ _ h => IE.MilliSecondTimeStamp.inj h) h41
  injection h with h42 h
  cases optV_inj (fun _ _ h => IE.IntegerNumber.inj h) h42
  injection h with h43 h
  cases optV_inj (fun _ _ h => IE.TwanId.inj h) h43
  injection h with h44 h
  cases optV_inj (fun _ _ h => IE.TwanIdTimeStamp.inj h) h44
  injection h with h45 h
  cases optV_inj (fun _ _ h => IE.Fcontainer.inj h) h45
  injection h with h46 h
  cases map_inj (fun _ _ h => IE.RemoteUeContext.inj h) h46
  injection h with h47 h
  cases optV_inj (fun _ _ h => IE.NodeIdentifier.inj h) h47
  injection h with h48 h
  cases optV_inj (fun _ _ h => IE.Epco.inj h) h48
  injection h with h49 h
  cases optV_inj (fun _ _ h => IE.ServingPlmnRateControl.inj h) h49
  injection h with h50 h
  cases optV_inj (fun _ _ h => IE.Counter.inj h) h50
  injection h with h51 h
  cases optV_inj (fun _ _ h => IE.PortNumber.inj h) h51
  injection h with h52 h
  cases optV_inj (fun _ _ h => IE.MappedUeUsageType.inj h) h52
  injection h with h53 h
  cases optV_inj (fun _ _ h => IE.Uli.inj h) h53
  injection h with h54 h
  cases optV_inj (fun _ _ h => IE.Fqdn.inj h) h54
  injection h with h55 h
  cases map_inj (fun _ _ h => IE.SecondaryRatUsageDataReport.inj h) h55
  injection h with h56 h
  cases optV_inj (fun _ _ h => IE.UpFunctionSelectionIndicationFlags.inj h) h56
  injection h with h57 h
  cases optV_inj (fun _ _ h => IE.ApnRateControlStatus.inj h) h57
  injection h with h58 h
  cases optV_inj (fun _ _ h => IE.PSCellId.inj h) h58
  injection h with h59 h
  cases map_inj (fun _ _ h => IE.PrivateExtension.inj h) h59
  rfl

theorem mand : schema.filter (·.card.mandatory) = [(⟨.RatType, .is 0, .one⟩ : Slot), (⟨.Fteid, .is 0, .one⟩ : Slot), (⟨.Apn, .is 0, .one⟩ : Slot), (⟨.BearerContext, .lt 2, .many1 (.is 0)⟩ : Slot)] := rfl

theorem finish_eq (s : St) : finish s =
    if has s.mand 82 = false then .err (.messageMandatoryIEMissing 82) else if has s.mand 87 = false then .err (.messageMandatoryIEMissing 87)
    else if has s.mand 71 = false then .err (.messageMandatoryIEMissing 71) else if has s.mand 93 = false then .err (.messageMandatoryIEMissing 93)
    else .ok s.x := by
  unfold finish has
  cases s.mand.find? (· == 82) <;> cases s.mand.find? (· == 87) <;> cases s.mand.find? (· == 71) <;> cases s.mand.find? (· == 93) <;> rfl

theorem lacks_bearer (els : List IE) : (⟨.BearerContext, .lt 2, .many1 (.is 0)⟩ : Slot).lacks els =
    !((⟨.BearerContext, .lt 2, .many1 (.is 0)⟩ : Slot).select els).any (fun e => e.ins == 0) := by
  simp only [Slot.lacks, Slot.needed, Slot.select, List.any_filter]
  congr 2
  funext e
  simp only [Slot.accepts, Ins.mem]
  cases h : e.ins == 0
  · simp
  · rw [eq_of_beq h]; simp

theorem facts (h : Header) (els : List IE) (hq : ∀ e ∈ els, TypeOk e) : ∃ s : St, els.foldl step ⟨{ dflt with header := h }, []⟩ = s ∧
    s.view = schema.map (·.select els) ∧ s.x.header = h ∧
    (⟨.RatType, .is 0, .one⟩ : Slot).lacks els = !has s.mand 82 ∧ (⟨.Fteid, .is 0, .one⟩ : Slot).lacks els = !has s.mand 87 ∧
    (⟨.Apn, .is 0, .one⟩ : Slot).lacks els = !has s.mand 71 ∧
    (⟨.BearerContext, .lt 2, .many1 (.is 0)⟩ : Slot).lacks els = !has s.mand 93 := by
  obtain ⟨hv, hi⟩ := loop h els hq
  generalize els.foldl step ⟨{ dflt with header := h }, []⟩ = s at hv hi
  refine ⟨s, rfl, hv, hi.1, ?_, ?_, ?_, ?_⟩
  · rw [Slot.lacks_eq els rfl]
    have e := congrArg (fun l => l.getD 5 []) hv
    rw [show (⟨.RatType, .is 0, .one⟩ : Slot).select els = if has s.mand 82 then [.RatType s.x.rattype] else [] from e.symm]
    cases has s.mand 82 <;> rfl
  · rw [Slot.lacks_eq els rfl]
    have e := congrArg (fun l => l.getD 7 []) hv
    rw [show (⟨.Fteid, .is 0, .one⟩ : Slot).select els = if has s.mand 87 then [.Fteid s.x.fteid_control] else [] from e.symm]
    cases has s.mand 87 <;> rfl
  · rw [Slot.lacks_eq els rfl]
    have e := congrArg (fun l => l.getD 9 []) hv
    rw [show (⟨.Apn, .is 0, .one⟩ : Slot).select els = if has s.mand 71 then [.Apn s.x.apn] else [] from e.symm]
    cases has s.mand 71 <;> rfl
  · have e := congrArg (fun l => l.getD 18 []) hv
    rw [lacks_bearer, show (⟨.BearerContext, .lt 2, .many1 (.is 0)⟩ : Slot).select els = s.x.bearer_ctxs.map .BearerContext from e.symm,
      hi.2, List.any_map]
    rfl

theorem complete (h : Header) (els : List IE) (hq : ∀ e ∈ els, TypeOk e) (hm : schema.missing els = []) :
    ∃ y, fromvec { dflt with header := h } els = .ok y ∧ y.header = h ∧ fields y = schema.map (·.select els) := by
  obtain ⟨s, hs, hv, hh, l0, l1, l2, l3⟩ := facts h els hq
  have f0 := l0.symm.trans (Schema.of_missing_nil mand (by simp) hm)
  have f1 := l1.symm.trans (Schema.of_missing_nil mand (by simp) hm)
  have f2 := l2.symm.trans (Schema.of_missing_nil mand (by simp) hm)
  have f3 := l3.symm.trans (Schema.of_missing_nil mand (by simp) hm)
  simp only [Bool.not_eq_false'] at f0 f1 f2 f3
  refine ⟨s.x, ?_, hh, ?_⟩
  · rw [fromvec, hs, finish_eq]
    simp [f0, f1, f2, f3]
  · rw [← hv]
    simp only [St.view, f0, f1, f2, if_true]
    rfl

theorem describes : Describes codec schema fields where
  header_set _ _ := rfl
  fields_set _ _ := rfl
  ext _ _ hh h := ext hh h
  shape x := Aligned.opt (fun _ => rfl) <| Aligned.opt (fun _ => rfl) <| Aligned.opt (fun _ => rfl) <| Aligned.opt (fun _ => rfl) <| Aligned.opt (fun _ => rfl) <| Aligned.one (fun _ => rfl) <| Aligned.opt (fun _ => rfl) <| Aligned.one (fun _ => rfl) <| Aligned.opt (fun _ => rfl) <| Aligned.one (fun _ => rfl) <| Aligned.opt (fun _ => rfl) <| Aligned.opt (fun _ => rfl) <| Aligned.opt (fun _ => rfl) <| Aligned.opt (fun _ => rfl) <| Aligned.opt (fun _ => rfl) <| Aligned.opt (fun _ => rfl) <| Aligned.opt (fun _ => rfl) <| Aligned.opt (fun _ => rfl) <| Aligned.many (fun _ => rfl) <| Aligned.opt (fun _ => rfl) <| Aligned.opt (fun _ => rfl) <| Aligned.opt (fun _ => rfl) <| Aligned.opt (fun _ => rfl) <| Aligned.opt (fun _ => rfl) <| Aligned.opt (fun _ => rfl) <| Aligned.opt (fun _ => rfl) <| Aligned.opt (fun _ => rfl) <| Aligned.opt (fun _ => rfl) <| Aligned.many (fun _ => rfl) <| Aligned.opt (fun _ => rfl) <| Aligned.opt (fun _ => rfl) <| Aligned.opt (fun _ => rfl) <| Aligned.opt (fun _ => rfl) <| Aligned.opt (fun _ => rfl) <| Aligned.opt (fun _ => rfl) <| Aligned.opt (fun _ => rfl) <| Aligned.opt (fun _ => rfl) <| Aligned.opt (fun _ => rfl) <| Aligned.opt (fun _ => rfl) <| Aligned.opt (fun _ => rfl) <| Aligned.many (fun _ => rfl) <| Aligned.opt (fun _ => rfl) <| Aligned.opt (fun _ => rfl) <| Aligned.opt (fun _ => rfl) <| Aligned.opt (fun _ => rfl) <| Aligned.opt (fun _ => rfl) <| Aligned.many (fun _ => rfl) <| Aligned.opt (fun _ => rfl) <| Aligned.opt (fun _ => rfl) <| Aligned.opt (fun _ => rfl) <| Aligned.opt (fun _ => rfl) <| Aligned.opt (fun _ => rfl) <| Aligned.opt (fun _ => rfl) <| Aligned.opt (fun _ => rfl) <| Aligned.opt (fun _ => rfl) <| Aligned.many (fun _ => rfl) <| Aligned.opt (fun _ => rfl) <| Aligned.opt (fun _ => rfl) <| Aligned.opt (fun _ => rfl) <| Aligned.many (fun _ => rfl) <| trivial
  tovec x := by simp [codec, tovec, fields]
  complete h els hq hm := complete h els hq hm

theorem reports (h : Header) (els : List IE) (hq : ∀ e ∈ els, TypeOk e) (hm : schema.missing els ≠ []) :
    ∃ s ∈ schema.missing els, ∃ t, fromvec { dflt with header := h } els = .err (.messageMandatoryIEMissing t) ∧ kindOf t = s.kind := by
  obtain ⟨s, hs, hv, hh, l0, l1, l2, l3⟩ := facts h els hq
  rw [fromvec, hs, finish_eq]
  by_cases f0 : has s.mand 82 = false
  · exact ⟨_, Schema.mem_missing mand (by simp) (l0.trans (by rw [f0]; rfl)), 82, by simp [f0], rfl⟩
  by_cases f1 : has s.mand 87 = false
  · exact ⟨_, Schema.mem_missing mand (by simp) (l1.trans (by rw [f1]; rfl)), 87, by simp [f0, f1], rfl⟩
  by_cases f2 : has s.mand 71 = false
  · exact ⟨_, Schema.mem_missing mand (by simp) (l2.trans (by rw [f2]; rfl)), 71, by simp [f0, f1, f2], rfl⟩
  by_cases f3 : has s.mand 93 = false
  · exact ⟨_, Schema.mem_missing mand (by simp) (l3.trans (by rw [f3]; rfl)), 93, by simp [f0, f1, f2, f3], rfl⟩
  simp only [Bool.not_eq_false] at f0 f1 f2 f3
  exact absurd (Schema.missing_nil mand (by simp [l0, l1, l2, l3, f0, f1, f2, f3])) hm

theorem settled (h : Header) (els els' : List IE) (hq : ∀ e ∈ els, TypeOk e) (hq' : ∀ e ∈ els', TypeOk e)
    (he : ∀ s ∈ schema, s.card.mandatory = true → s.lacks els = s.lacks els') (hm : schema.missing els ≠ []) :
    fromvec { dflt with header := h } els = fromvec { dflt with header := h } els' := by
  obtain ⟨s, hs, hv, hh, l0, l1, l2, l3⟩ := facts h els hq
  obtain ⟨s', hs', hv', hh', l0', l1', l2', l3'⟩ := facts h els' hq'
  have e0 := Bool.not_inj (l0.symm.trans ((he _ (by decide) rfl).trans l0'))
  have e1 := Bool.not_inj (l1.symm.trans ((he _ (by decide) rfl).trans l1'))
  have e2 := Bool.not_inj (l2.symm.trans ((he _ (by decide) rfl).trans l2'))
  have e3 := Bool.not_inj (l3.symm.trans ((he _ (by decide) rfl).trans l3'))
  rw [fromvec, fromvec, hs, hs', finish_eq, finish_eq, e0, e1, e2, e3]
  rw [e0] at l0
  rw [e1] at l1
  rw [e2] at l2
  rw [e3] at l3
  cases f0 : has s'.mand 82
  · rfl
  cases f1 : has s'.mand 87
  · rfl
  cases f2 : has s'.mand 71
  · rfl
  cases f3 : has s'.mand 93
  · rfl
  exact absurd (Schema.missing_nil mand (by simp [l0, l1, l2, l3, f0, f1, f2, f3])) hm


end CreateSessionRequest

end Gtp.V2.Msg
