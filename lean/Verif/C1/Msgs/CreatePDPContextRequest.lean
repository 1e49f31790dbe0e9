import Verif.C1.MsgBase

/-!
# Model of `src/gtpv1/gtpc/messages/createpdpctxreq.rs`

Expanded by `scripts/gen_c1_msgs.py`.
-/

namespace Gtp.C1
open Gtp.V1

/-- `CreatePDPContextRequest` (createpdpctxreq.rs:15-56). -/
structure CreatePDPContextRequest where
  header : Header
  imsi : Option Imsi
  rai : Option Rai
  recovery : Option Recovery
  selectionmode : Option SelectionMode
  teid_data : Teid
  teid_control : Option Teid
  nsapi : Nsapi
  linked_nsapi : Option Nsapi
  charging_char : Option ChargingCharacteristics
  trace_ref : Option TraceReference
  trace_type : Option TraceType
  end_user_address : Option EndUserAddress
  apn : Option Apn
  pco : Option Pco
  sgsn_ip_control : GsnAddress
  sgsn_ip_user : GsnAddress
  msisdn : Option Msisdn
  qos : Qos
  tft : Option Tft
  trigger_id : Option TriggerId
  omc_id : Option OmcId
  common_flags : Option CommonFlags
  apn_restriction : Option ApnRestriction
  rat_type : Option RatType
  uli : Option Uli
  ms_timezone : Option MsTimeZone
  imei : Option Imei
  camel_cic : Option CamelChargingInfoContainer
  add_trace_info : Option AdditionalTraceInfo
  correlation_id : Option CorrelationId
  evolved_alloc : Option EvolvedAllocationRetentionI
  ext_common_flags : Option ExtendedCommonFlags
  user_csg_info : Option Uci
  apn_ambr : Option ApnAmbr
  signalling_prio : Option Spi
  cnose : Option CnOperatorSelectionEntity
  mapped_ue_usage_type : Option MappedUeUsageType
  up_func_selection_flags : Option UpFunctionSelectionIndicationFlags
  private_extension : Option PrivateExtension
deriving DecidableEq, Repr

namespace CreatePDPContextRequest

/-- The fields other than the header. -/
inductive S where
  | imsi
  | rai
  | recovery
  | selectionmode
  | teid_data
  | teid_control
  | nsapi
  | linked_nsapi
  | charging_char
  | trace_ref
  | trace_type
  | end_user_address
  | apn
  | pco
  | sgsn_ip_control
  | sgsn_ip_user
  | msisdn
  | qos
  | tft
  | trigger_id
  | omc_id
  | common_flags
  | apn_restriction
  | rat_type
  | uli
  | ms_timezone
  | imei
  | camel_cic
  | add_trace_info
  | correlation_id
  | evolved_alloc
  | ext_common_flags
  | user_csg_info
  | apn_ambr
  | signalling_prio
  | cnose
  | mapped_ue_usage_type
  | up_func_selection_flags
  | private_extension
deriving DecidableEq, Repr

/-- The kind of each field. -/
def S.kind : S → Kind
  | .imsi => .Imsi
  | .rai => .Rai
  | .recovery => .Recovery
  | .selectionmode => .SelectionMode
  | .teid_data => .Teid
  | .teid_control => .Teid
  | .nsapi => .Nsapi
  | .linked_nsapi => .Nsapi
  | .charging_char => .ChargingCharacteristics
  | .trace_ref => .TraceReference
  | .trace_type => .TraceType
  | .end_user_address => .EndUserAddress
  | .apn => .Apn
  | .pco => .Pco
  | .sgsn_ip_control => .GsnAddress
  | .sgsn_ip_user => .GsnAddress
  | .msisdn => .Msisdn
  | .qos => .Qos
  | .tft => .Tft
  | .trigger_id => .TriggerId
  | .omc_id => .OmcId
  | .common_flags => .CommonFlags
  | .apn_restriction => .ApnRestriction
  | .rat_type => .RatType
  | .uli => .Uli
  | .ms_timezone => .MsTimeZone
  | .imei => .Imei
  | .camel_cic => .CamelChargingInfoContainer
  | .add_trace_info => .AdditionalTraceInfo
  | .correlation_id => .CorrelationId
  | .evolved_alloc => .EvolvedAllocationRetentionI
  | .ext_common_flags => .ExtendedCommonFlags
  | .user_csg_info => .Uci
  | .apn_ambr => .ApnAmbr
  | .signalling_prio => .Spi
  | .cnose => .CnOperatorSelectionEntity
  | .mapped_ue_usage_type => .MappedUeUsageType
  | .up_func_selection_flags => .UpFunctionSelectionIndicationFlags
  | .private_extension => .PrivateExtension

/-- The fields that are not `Option`s. -/
def S.mand : S → Bool
  | .teid_data => true
  | .nsapi => true
  | .sgsn_ip_control => true
  | .sgsn_ip_user => true
  | .qos => true
  | _ => false

/-- `default` (createpdpctxreq.rs:58-107). -/
def dflt : CreatePDPContextRequest where
  header := { Header.dflt with msgtype := 16 }
  imsi := none
  rai := none
  recovery := none
  selectionmode := none
  teid_data := (Kind.codec .Teid).dflt
  teid_control := none
  nsapi := (Kind.codec .Nsapi).dflt
  linked_nsapi := none
  charging_char := none
  trace_ref := none
  trace_type := none
  end_user_address := none
  apn := none
  pco := none
  sgsn_ip_control := (Kind.codec .GsnAddress).dflt
  sgsn_ip_user := (Kind.codec .GsnAddress).dflt
  msisdn := none
  qos := (Kind.codec .Qos).dflt
  tft := none
  trigger_id := none
  omc_id := none
  common_flags := none
  apn_restriction := none
  rat_type := none
  uli := none
  ms_timezone := none
  imei := none
  camel_cic := none
  add_trace_info := none
  correlation_id := none
  evolved_alloc := none
  ext_common_flags := none
  user_csg_info := none
  apn_ambr := none
  signalling_prio := none
  cnose := none
  mapped_ue_usage_type := none
  up_func_selection_flags := none
  private_extension := none

/-- Assignment to a field. -/
def put : (s : S) → s.kind.Ty → CreatePDPContextRequest → CreatePDPContextRequest
  | .imsi, i, x => { x with imsi := some i }
  | .rai, i, x => { x with rai := some i }
  | .recovery, i, x => { x with recovery := some i }
  | .selectionmode, i, x => { x with selectionmode := some i }
  | .teid_data, i, x => { x with teid_data := i }
  | .teid_control, i, x => { x with teid_control := some i }
  | .nsapi, i, x => { x with nsapi := i }
  | .linked_nsapi, i, x => { x with linked_nsapi := some i }
  | .charging_char, i, x => { x with charging_char := some i }
  | .trace_ref, i, x => { x with trace_ref := some i }
  | .trace_type, i, x => { x with trace_type := some i }
  | .end_user_address, i, x => { x with end_user_address := some i }
  | .apn, i, x => { x with apn := some i }
  | .pco, i, x => { x with pco := some i }
  | .sgsn_ip_control, i, x => { x with sgsn_ip_control := i }
  | .sgsn_ip_user, i, x => { x with sgsn_ip_user := i }
  | .msisdn, i, x => { x with msisdn := some i }
  | .qos, i, x => { x with qos := i }
  | .tft, i, x => { x with tft := some i }
  | .trigger_id, i, x => { x with trigger_id := some i }
  | .omc_id, i, x => { x with omc_id := some i }
  | .common_flags, i, x => { x with common_flags := some i }
  | .apn_restriction, i, x => { x with apn_restriction := some i }
  | .rat_type, i, x => { x with rat_type := some i }
  | .uli, i, x => { x with uli := some i }
  | .ms_timezone, i, x => { x with ms_timezone := some i }
  | .imei, i, x => { x with imei := some i }
  | .camel_cic, i, x => { x with camel_cic := some i }
  | .add_trace_info, i, x => { x with add_trace_info := some i }
  | .correlation_id, i, x => { x with correlation_id := some i }
  | .evolved_alloc, i, x => { x with evolved_alloc := some i }
  | .ext_common_flags, i, x => { x with ext_common_flags := some i }
  | .user_csg_info, i, x => { x with user_csg_info := some i }
  | .apn_ambr, i, x => { x with apn_ambr := some i }
  | .signalling_prio, i, x => { x with signalling_prio := some i }
  | .cnose, i, x => { x with cnose := some i }
  | .mapped_ue_usage_type, i, x => { x with mapped_ue_usage_type := some i }
  | .up_func_selection_flags, i, x => { x with up_func_selection_flags := some i }
  | .private_extension, i, x => { x with private_extension := some i }

/-- The contents of a field. -/
def view (x : CreatePDPContextRequest) : (s : S) → Option s.kind.Ty
  | .imsi => x.imsi
  | .rai => x.rai
  | .recovery => x.recovery
  | .selectionmode => x.selectionmode
  | .teid_data => some x.teid_data
  | .teid_control => x.teid_control
  | .nsapi => some x.nsapi
  | .linked_nsapi => x.linked_nsapi
  | .charging_char => x.charging_char
  | .trace_ref => x.trace_ref
  | .trace_type => x.trace_type
  | .end_user_address => x.end_user_address
  | .apn => x.apn
  | .pco => x.pco
  | .sgsn_ip_control => some x.sgsn_ip_control
  | .sgsn_ip_user => some x.sgsn_ip_user
  | .msisdn => x.msisdn
  | .qos => some x.qos
  | .tft => x.tft
  | .trigger_id => x.trigger_id
  | .omc_id => x.omc_id
  | .common_flags => x.common_flags
  | .apn_restriction => x.apn_restriction
  | .rat_type => x.rat_type
  | .uli => x.uli
  | .ms_timezone => x.ms_timezone
  | .imei => x.imei
  | .camel_cic => x.camel_cic
  | .add_trace_info => x.add_trace_info
  | .correlation_id => x.correlation_id
  | .evolved_alloc => x.evolved_alloc
  | .ext_common_flags => x.ext_common_flags
  | .user_csg_info => x.user_csg_info
  | .apn_ambr => x.apn_ambr
  | .signalling_prio => x.signalling_prio
  | .cnose => x.cnose
  | .mapped_ue_usage_type => x.mapped_ue_usage_type
  | .up_func_selection_flags => x.up_func_selection_flags
  | .private_extension => x.private_extension

/-- `marshal` without the header and `set_length` (createpdpctxreq.rs:110-340). -/
def body (x : CreatePDPContextRequest) : Bytes := List.flatten [
  optOctets Imsi.marshal x.imsi,
  optOctets Rai.marshal x.rai,
  optOctets Recovery.marshal x.recovery,
  optOctets SelectionMode.marshal x.selectionmode,
  x.teid_data.marshal,
  optOctets Teid.marshal x.teid_control,
  x.nsapi.marshal,
  optOctets Nsapi.marshal x.linked_nsapi,
  optOctets ChargingCharacteristics.marshal x.charging_char,
  optOctets TraceReference.marshal x.trace_ref,
  optOctets TraceType.marshal x.trace_type,
  optOctets EndUserAddress.marshal x.end_user_address,
  optOctets Apn.marshal x.apn,
  optOctets Pco.marshal x.pco,
  x.sgsn_ip_control.marshal,
  x.sgsn_ip_user.marshal,
  optOctets Msisdn.marshal x.msisdn,
  x.qos.marshal,
  optOctets Tft.marshal x.tft,
  optOctets TriggerId.marshal x.trigger_id,
  optOctets OmcId.marshal x.omc_id,
  optOctets CommonFlags.marshal x.common_flags,
  optOctets ApnRestriction.marshal x.apn_restriction,
  optOctets RatType.marshal x.rat_type,
  optOctets Uli.marshal x.uli,
  optOctets MsTimeZone.marshal x.ms_timezone,
  optOctets Imei.marshal x.imei,
  optOctets CamelChargingInfoContainer.marshal x.camel_cic,
  optOctets AdditionalTraceInfo.marshal x.add_trace_info,
  optOctets CorrelationId.marshal x.correlation_id,
  optOctets EvolvedAllocationRetentionI.marshal x.evolved_alloc,
  optOctets ExtendedCommonFlags.marshal x.ext_common_flags,
  optOctets Uci.marshal x.user_csg_info,
  optOctets ApnAmbr.marshal x.apn_ambr,
  optOctets Spi.marshal x.signalling_prio,
  optOctets CnOperatorSelectionEntity.marshal x.cnose,
  optOctets MappedUeUsageType.marshal x.mapped_ue_usage_type,
  optOctets UpFunctionSelectionIndicationFlags.marshal x.up_func_selection_flags,
  optOctets PrivateExtension.marshal x.private_extension]

/-- The fields in the order in which `marshal` writes them. -/
def order : List S := [
  .imsi, .rai, .recovery, .selectionmode, .teid_data, .teid_control,
  .nsapi, .linked_nsapi, .charging_char, .trace_ref, .trace_type, .end_user_address,
  .apn, .pco, .sgsn_ip_control, .sgsn_ip_user, .msisdn, .qos,
  .tft, .trigger_id, .omc_id, .common_flags, .apn_restriction, .rat_type,
  .uli, .ms_timezone, .imei, .camel_cic, .add_trace_info, .correlation_id,
  .evolved_alloc, .ext_common_flags, .user_csg_info, .apn_ambr, .signalling_prio, .cnose,
  .mapped_ue_usage_type, .up_func_selection_flags, .private_extension]

/-- The arms of `unmarshal` (createpdpctxreq.rs:342-1005). -/
def arms : List (UInt8 × Arm S) := [
  (2, ⟨.Imsi, [.imsi], false, badOptional⟩), -- IMSI, lines 365-380
  (3, ⟨.Rai, [.rai], false, badOptional⟩), -- RAI, lines 381-396
  (14, ⟨.Recovery, [.recovery], false, badOptional⟩), -- RECOVERY, lines 397-412
  (15, ⟨.SelectionMode, [.selectionmode], false, badOptional⟩), -- SELECTION_MODE, lines 413-428
  (16, ⟨.Teid, [.teid_data], false, badMandatory⟩), -- TEID_DATA, lines 429-444
  (17, ⟨.Teid, [.teid_control], false, badOptional⟩), -- TEID_CONTROL, lines 445-460
  (20, ⟨.Nsapi, [.nsapi, .linked_nsapi], true, (badIfFirst 20)⟩), -- NSAPI, lines 461-489
  (26, ⟨.ChargingCharacteristics, [.charging_char], false, badOptional⟩), -- CHARGING_CHARACTERISTICS, lines 490-507
  (27, ⟨.TraceReference, [.trace_ref], false, badOptional⟩), -- TRACE_REFERENCE, lines 508-523
  (28, ⟨.TraceType, [.trace_type], false, badOptional⟩), -- TRACE_TYPE, lines 524-539
  (128, ⟨.EndUserAddress, [.end_user_address], false, badOptional⟩), -- END_USER_ADDRESS, lines 540-555
  (131, ⟨.Apn, [.apn], false, badOptional⟩), -- APN, lines 556-571
  (132, ⟨.Pco, [.pco], false, badOptional⟩), -- PCO, lines 572-587
  (133, ⟨.GsnAddress, [.sgsn_ip_control, .sgsn_ip_user], true, badMandatory⟩), -- GSN_ADDRESS, lines 588-610
  (134, ⟨.Msisdn, [.msisdn], false, badOptional⟩), -- MSISDN, lines 611-626
  (135, ⟨.Qos, [.qos], false, badMandatory⟩), -- QOS, lines 627-642
  (137, ⟨.Tft, [.tft], false, badOptional⟩), -- TFT, lines 643-658
  (142, ⟨.TriggerId, [.trigger_id], false, badOptional⟩), -- TRIGGERID, lines 659-674
  (143, ⟨.OmcId, [.omc_id], false, badOptional⟩), -- OMCID, lines 675-690
  (148, ⟨.CommonFlags, [.common_flags], false, badOptional⟩), -- COMMONFLAGS, lines 691-706
  (149, ⟨.ApnRestriction, [.apn_restriction], false, badOptional⟩), -- APNRESTRICTION, lines 707-722
  (151, ⟨.RatType, [.rat_type], false, badOptional⟩), -- RATTYPE, lines 723-738
  (152, ⟨.Uli, [.uli], false, badOptional⟩), -- ULI, lines 739-754
  (153, ⟨.MsTimeZone, [.ms_timezone], false, badOptional⟩), -- MSTIMEZONETYPE, lines 755-770
  (154, ⟨.Imei, [.imei], false, badOptional⟩), -- IMEI, lines 771-786
  (155, ⟨.CamelChargingInfoContainer, [.camel_cic], false, badOptional⟩), -- CAMELCIC, lines 787-804
  (162, ⟨.AdditionalTraceInfo, [.add_trace_info], false, badOptional⟩), -- ADDITIONALTRACEINFO, lines 805-822
  (183, ⟨.CorrelationId, [.correlation_id], false, badOptional⟩), -- CORRELATIONID, lines 823-838
  (191, ⟨.EvolvedAllocationRetentionI, [.evolved_alloc], false, badOptional⟩), -- EVOLVEDALLOCRETENTIONI, lines 839-856
  (193, ⟨.ExtendedCommonFlags, [.ext_common_flags], false, badOptional⟩), -- EXTCOMMONFLAGS, lines 857-872
  (194, ⟨.Uci, [.user_csg_info], false, badOptional⟩), -- UCI, lines 873-888
  (198, ⟨.ApnAmbr, [.apn_ambr], false, badOptional⟩), -- APNAMBR, lines 889-904
  (203, ⟨.Spi, [.signalling_prio], false, badOptional⟩), -- SPI, lines 905-920
  (216, ⟨.CnOperatorSelectionEntity, [.cnose], false, badOptional⟩), -- CNOSE, lines 921-936
  (223, ⟨.MappedUeUsageType, [.mapped_ue_usage_type], false, badOptional⟩), -- MUEUT, lines 937-952
  (224, ⟨.UpFunctionSelectionIndicationFlags, [.up_func_selection_flags], false, badOptional⟩), -- UPFSIF, lines 953-970
  (255, ⟨.PrivateExtension, [.private_extension], false, badOptional⟩)] -- PRIVATE_EXTENSION, lines 971-986

/-- Type octet and place of each field. -/
def place : S → UInt8 × Nat
  | .imsi => (2, 0)
  | .rai => (3, 0)
  | .recovery => (14, 0)
  | .selectionmode => (15, 0)
  | .teid_data => (16, 0)
  | .teid_control => (17, 0)
  | .nsapi => (20, 0)
  | .linked_nsapi => (20, 1)
  | .charging_char => (26, 0)
  | .trace_ref => (27, 0)
  | .trace_type => (28, 0)
  | .end_user_address => (128, 0)
  | .apn => (131, 0)
  | .pco => (132, 0)
  | .sgsn_ip_control => (133, 0)
  | .sgsn_ip_user => (133, 1)
  | .msisdn => (134, 0)
  | .qos => (135, 0)
  | .tft => (137, 0)
  | .trigger_id => (142, 0)
  | .omc_id => (143, 0)
  | .common_flags => (148, 0)
  | .apn_restriction => (149, 0)
  | .rat_type => (151, 0)
  | .uli => (152, 0)
  | .ms_timezone => (153, 0)
  | .imei => (154, 0)
  | .camel_cic => (155, 0)
  | .add_trace_info => (162, 0)
  | .correlation_id => (183, 0)
  | .evolved_alloc => (191, 0)
  | .ext_common_flags => (193, 0)
  | .user_csg_info => (194, 0)
  | .apn_ambr => (198, 0)
  | .signalling_prio => (203, 0)
  | .cnose => (216, 0)
  | .mapped_ue_usage_type => (223, 0)
  | .up_func_selection_flags => (224, 0)
  | .private_extension => (255, 0)

/-- The message, as a description. -/
def desc : Desc where
  X := CreatePDPContextRequest
  S := S
  code := 16
  kind := S.kind
  mand := S.mand
  arms := arms
  mandatory := [16, 20, 133, 135]
  dflt := dflt
  header := header
  setHeader := fun h x => { x with header := h }
  put := put
  view := view
  body := body
  order := order
  place := place

/-- `CreatePDPContextRequest::marshal` (createpdpctxreq.rs:110-340). -/
def marshalInto (buf : Bytes) (x : CreatePDPContextRequest) : Bytes := desc.marshalInto buf x

/-- `CreatePDPContextRequest::unmarshal` (createpdpctxreq.rs:342-1005). -/
def unmarshal (m : Mode) (b : Bytes) : R Err CreatePDPContextRequest := desc.unmarshal m b

theorem mem_order (s : S) : s ∈ order := by cases s <;> decide

theorem lawful : desc.Lawful where
  view_put := by intro s i x; cases s <;> rfl
  view_put_ne := by intro s t i x h; cases s <;> cases t <;> first | rfl | exact absurd rfl h
  header_put := by intro s i x; cases s <;> rfl
  header_set := fun _ _ => rfl
  view_set := by intro h x s; cases s <;> rfl
  set_header := fun _ => rfl
  ext := by
    intro x y h hv
    have h_hdr : x.header = y.header := h
    have h_imsi : x.imsi = y.imsi := hv .imsi
    have h_rai : x.rai = y.rai := hv .rai
    have h_recovery : x.recovery = y.recovery := hv .recovery
    have h_selectionmode : x.selectionmode = y.selectionmode := hv .selectionmode
    have h_teid_data : x.teid_data = y.teid_data := Option.some.inj (hv .teid_data)
    have h_teid_control : x.teid_control = y.teid_control := hv .teid_control
    have h_nsapi : x.nsapi = y.nsapi := Option.some.inj (hv .nsapi)
    have h_linked_nsapi : x.linked_nsapi = y.linked_nsapi := hv .linked_nsapi
    have h_charging_char : x.charging_char = y.charging_char := hv .charging_char
    have h_trace_ref : x.trace_ref = y.trace_ref := hv .trace_ref
    have h_trace_type : x.trace_type = y.trace_type := hv .trace_type
    have h_end_user_address : x.end_user_address = y.end_user_address := hv .end_user_address
    have h_apn : x.apn = y.apn := hv .apn
    have h_pco : x.pco = y.pco := hv .pco
    have h_sgsn_ip_control : x.sgsn_ip_control = y.sgsn_ip_control := Option.some.inj (hv .sgsn_ip_control)
    have h_sgsn_ip_user : x.sgsn_ip_user = y.sgsn_ip_user := Option.some.inj (hv .sgsn_ip_user)
    have h_msisdn : x.msisdn = y.msisdn := hv .msisdn
    have h_qos : x.qos = y.qos := Option.some.inj (hv .qos)
    have h_tft : x.tft = y.tft := hv .tft
    have h_trigger_id : x.trigger_id = y.trigger_id := hv .trigger_id
    have h_omc_id : x.omc_id = y.omc_id := hv .omc_id
    have h_common_flags : x.common_flags = y.common_flags := hv .common_flags
    have h_apn_restriction : x.apn_restriction = y.apn_restriction := hv .apn_restriction
    have h_rat_type : x.rat_type = y.rat_type := hv .rat_type
    have h_uli : x.uli = y.uli := hv .uli
    have h_ms_timezone : x.ms_timezone = y.ms_timezone := hv .ms_timezone
    have h_imei : x.imei = y.imei := hv .imei
    have h_camel_cic : x.camel_cic = y.camel_cic := hv .camel_cic
    have h_add_trace_info : x.add_trace_info = y.add_trace_info := hv .add_trace_info
    have h_correlation_id : x.correlation_id = y.correlation_id := hv .correlation_id
    have h_evolved_alloc : x.evolved_alloc = y.evolved_alloc := hv .evolved_alloc
    have h_ext_common_flags : x.ext_common_flags = y.ext_common_flags := hv .ext_common_flags
    have h_user_csg_info : x.user_csg_info = y.user_csg_info := hv .user_csg_info
    have h_apn_ambr : x.apn_ambr = y.apn_ambr := hv .apn_ambr
    have h_signalling_prio : x.signalling_prio = y.signalling_prio := hv .signalling_prio
    have h_cnose : x.cnose = y.cnose := hv .cnose
    have h_mapped_ue_usage_type : x.mapped_ue_usage_type = y.mapped_ue_usage_type := hv .mapped_ue_usage_type
    have h_up_func_selection_flags : x.up_func_selection_flags = y.up_func_selection_flags := hv .up_func_selection_flags
    have h_private_extension : x.private_extension = y.private_extension := hv .private_extension
    cases x; cases y
    show (CreatePDPContextRequest.mk .. = CreatePDPContextRequest.mk ..)
    rw [CreatePDPContextRequest.mk.injEq]
    exact ⟨h_hdr, h_imsi, h_rai, h_recovery, h_selectionmode, h_teid_data, h_teid_control, h_nsapi, h_linked_nsapi, h_charging_char, h_trace_ref, h_trace_type, h_end_user_address, h_apn, h_pco, h_sgsn_ip_control, h_sgsn_ip_user, h_msisdn, h_qos, h_tft, h_trigger_id, h_omc_id, h_common_flags, h_apn_restriction, h_rat_type, h_uli, h_ms_timezone, h_imei, h_camel_cic, h_add_trace_info, h_correlation_id, h_evolved_alloc, h_ext_common_flags, h_user_csg_info, h_apn_ambr, h_signalling_prio, h_cnose, h_mapped_ue_usage_type, h_up_func_selection_flags, h_private_extension⟩
  mand_view := by intro x s h; cases s <;> first | rfl | cases h
  dflt_view := by intro s h; cases s <;> first | rfl | cases h
  body_eq := fun _ => rfl
  order_all := mem_order
  order_nodup := by show order.Nodup; decide
  arm_place := by
    have : ∀ s ∈ order, (((arms.lookup (place s).1).map fun a => a.slots[(place s).2]?).getD none) = some s := by decide +kernel
    exact fun s => this s (mem_order s)
  arm_slots := by
    show ∀ p ∈ arms, order.filter (fun s => (place s).1 == p.1) = p.2.slots
    decide +kernel
  arm_kind := by
    show ∀ p ∈ arms, (∀ s ∈ p.2.slots, s.kind = p.2.kind) ∧ (p.2.kind.code = p.1 ∨ p.2.kind = .Teid ∧ p.1 = 17) ∧
      0 < p.2.slots.length ∧ p.2.slots.length < 256 ∧ (p.2.lt2 = true → p.2.slots.length = 2) ∧
      ∀ i < p.2.slots.length, (p.2.slots[i]?).map place = some (p.1, i)
    decide +kernel

end CreatePDPContextRequest
end Gtp.C1
