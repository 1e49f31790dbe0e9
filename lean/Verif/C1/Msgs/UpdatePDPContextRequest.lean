import Verif.C1.MsgBase

/-!
# Model of `src/gtpv1/gtpc/messages/updatepdpctxreq.rs`

Expanded by `scripts/gen_c1_msgs.py`.
-/

namespace Gtp.C1
open Gtp.V1

/-- `UpdatePDPContextRequest` (updatepdpctxreq.rs:15-48). -/
structure UpdatePDPContextRequest where
  header : Header
  imsi : Option Imsi
  rai : Option Rai
  recovery : Option Recovery
  teid_data : Teid
  teid_control : Option Teid
  nsapi : Nsapi
  trace_ref : Option TraceReference
  trace_type : Option TraceType
  pco : Option Pco
  sgsn_ip_control : GsnAddress
  sgsn_ip_user : GsnAddress
  alt_sgsn_ip_control : Option GsnAddress
  alt_sgsn_ip_user : Option GsnAddress
  qos : Qos
  tft : Option Tft
  trigger_id : Option TriggerId
  omc_id : Option OmcId
  common_flags : Option CommonFlags
  rat_type : Option RatType
  uli : Option Uli
  ms_timezone : Option MsTimeZone
  imei : Option Imei
  add_trace_info : Option AdditionalTraceInfo
  dtf : Option DirectTunnelFlags
  evolved_alloc : Option EvolvedAllocationRetentionI
  ext_common_flags : Option ExtendedCommonFlags
  user_csg_info : Option Uci
  apn_ambr : Option ApnAmbr
  signalling_prio : Option Spi
  cnose : Option CnOperatorSelectionEntity
  private_extension : Option PrivateExtension
deriving DecidableEq, Repr

namespace UpdatePDPContextRequest

/-- The fields other than the header. -/
inductive S where
  | imsi
  | rai
  | recovery
  | teid_data
  | teid_control
  | nsapi
  | trace_ref
  | trace_type
  | pco
  | sgsn_ip_control
  | sgsn_ip_user
  | alt_sgsn_ip_control
  | alt_sgsn_ip_user
  | qos
  | tft
  | trigger_id
  | omc_id
  | common_flags
  | rat_type
  | uli
  | ms_timezone
  | imei
  | add_trace_info
  | dtf
  | evolved_alloc
  | ext_common_flags
  | user_csg_info
  | apn_ambr
  | signalling_prio
  | cnose
  | private_extension
deriving DecidableEq, Repr

/-- The kind of each field. -/
def S.kind : S → Kind
  | .imsi => .Imsi
  | .rai => .Rai
  | .recovery => .Recovery
  | .teid_data => .Teid
  | .teid_control => .Teid
  | .nsapi => .Nsapi
  | .trace_ref => .TraceReference
  | .trace_type => .TraceType
  | .pco => .Pco
  | .sgsn_ip_control => .GsnAddress
  | .sgsn_ip_user => .GsnAddress
  | .alt_sgsn_ip_control => .GsnAddress
  | .alt_sgsn_ip_user => .GsnAddress
  | .qos => .Qos
  | .tft => .Tft
  | .trigger_id => .TriggerId
  | .omc_id => .OmcId
  | .common_flags => .CommonFlags
  | .rat_type => .RatType
  | .uli => .Uli
  | .ms_timezone => .MsTimeZone
  | .imei => .Imei
  | .add_trace_info => .AdditionalTraceInfo
  | .dtf => .DirectTunnelFlags
  | .evolved_alloc => .EvolvedAllocationRetentionI
  | .ext_common_flags => .ExtendedCommonFlags
  | .user_csg_info => .Uci
  | .apn_ambr => .ApnAmbr
  | .signalling_prio => .Spi
  | .cnose => .CnOperatorSelectionEntity
  | .private_extension => .PrivateExtension

/-- The fields that are not `Option`s. -/
def S.mand : S → Bool
  | .teid_data => true
  | .nsapi => true
  | .sgsn_ip_control => true
  | .sgsn_ip_user => true
  | .qos => true
  | _ => false

/-- `default` (updatepdpctxreq.rs:50-91). -/
def dflt : UpdatePDPContextRequest where
  header := { Header.dflt with msgtype := 18 }
  imsi := none
  rai := none
  recovery := none
  teid_data := (Kind.codec .Teid).dflt
  teid_control := none
  nsapi := (Kind.codec .Nsapi).dflt
  trace_ref := none
  trace_type := none
  pco := none
  sgsn_ip_control := (Kind.codec .GsnAddress).dflt
  sgsn_ip_user := (Kind.codec .GsnAddress).dflt
  alt_sgsn_ip_control := none
  alt_sgsn_ip_user := none
  qos := (Kind.codec .Qos).dflt
  tft := none
  trigger_id := none
  omc_id := none
  common_flags := none
  rat_type := none
  uli := none
  ms_timezone := none
  imei := none
  add_trace_info := none
  dtf := none
  evolved_alloc := none
  ext_common_flags := none
  user_csg_info := none
  apn_ambr := none
  signalling_prio := none
  cnose := none
  private_extension := none

/-- Assignment to a field. -/
def put : (s : S) → s.kind.Ty → UpdatePDPContextRequest → UpdatePDPContextRequest
  | .imsi, i, x => { x with imsi := some i }
  | .rai, i, x => { x with rai := some i }
  | .recovery, i, x => { x with recovery := some i }
  | .teid_data, i, x => { x with teid_data := i }
  | .teid_control, i, x => { x with teid_control := some i }
  | .nsapi, i, x => { x with nsapi := i }
  | .trace_ref, i, x => { x with trace_ref := some i }
  | .trace_type, i, x => { x with trace_type := some i }
  | .pco, i, x => { x with pco := some i }
  | .sgsn_ip_control, i, x => { x with sgsn_ip_control := i }
  | .sgsn_ip_user, i, x => { x with sgsn_ip_user := i }
  | .alt_sgsn_ip_control, i, x => { x with alt_sgsn_ip_control := some i }
  | .alt_sgsn_ip_user, i, x => { x with alt_sgsn_ip_user := some i }
  | .qos, i, x => { x with qos := i }
  | .tft, i, x => { x with tft := some i }
  | .trigger_id, i, x => { x with trigger_id := some i }
  | .omc_id, i, x => { x with omc_id := some i }
  | .common_flags, i, x => { x with common_flags := some i }
  | .rat_type, i, x => { x with rat_type := some i }
  | .uli, i, x => { x with uli := some i }
  | .ms_timezone, i, x => { x with ms_timezone := some i }
  | .imei, i, x => { x with imei := some i }
  | .add_trace_info, i, x => { x with add_trace_info := some i }
  | .dtf, i, x => { x with dtf := some i }
  | .evolved_alloc, i, x => { x with evolved_alloc := some i }
  | .ext_common_flags, i, x => { x with ext_common_flags := some i }
  | .user_csg_info, i, x => { x with user_csg_info := some i }
  | .apn_ambr, i, x => { x with apn_ambr := some i }
  | .signalling_prio, i, x => { x with signalling_prio := some i }
  | .cnose, i, x => { x with cnose := some i }
  | .private_extension, i, x => { x with private_extension := some i }

/-- The contents of a field. -/
def view (x : UpdatePDPContextRequest) : (s : S) → Option s.kind.Ty
  | .imsi => x.imsi
  | .rai => x.rai
  | .recovery => x.recovery
  | .teid_data => some x.teid_data
  | .teid_control => x.teid_control
  | .nsapi => some x.nsapi
  | .trace_ref => x.trace_ref
  | .trace_type => x.trace_type
  | .pco => x.pco
  | .sgsn_ip_control => some x.sgsn_ip_control
  | .sgsn_ip_user => some x.sgsn_ip_user
  | .alt_sgsn_ip_control => x.alt_sgsn_ip_control
  | .alt_sgsn_ip_user => x.alt_sgsn_ip_user
  | .qos => some x.qos
  | .tft => x.tft
  | .trigger_id => x.trigger_id
  | .omc_id => x.omc_id
  | .common_flags => x.common_flags
  | .rat_type => x.rat_type
  | .uli => x.uli
  | .ms_timezone => x.ms_timezone
  | .imei => x.imei
  | .add_trace_info => x.add_trace_info
  | .dtf => x.dtf
  | .evolved_alloc => x.evolved_alloc
  | .ext_common_flags => x.ext_common_flags
  | .user_csg_info => x.user_csg_info
  | .apn_ambr => x.apn_ambr
  | .signalling_prio => x.signalling_prio
  | .cnose => x.cnose
  | .private_extension => x.private_extension

/-- `marshal` without the header and `set_length` (updatepdpctxreq.rs:94-276). -/
def body (x : UpdatePDPContextRequest) : Bytes := List.flatten [
  optOctets Imsi.marshal x.imsi,
  optOctets Rai.marshal x.rai,
  optOctets Recovery.marshal x.recovery,
  x.teid_data.marshal,
  optOctets Teid.marshal x.teid_control,
  x.nsapi.marshal,
  optOctets TraceReference.marshal x.trace_ref,
  optOctets TraceType.marshal x.trace_type,
  optOctets Pco.marshal x.pco,
  x.sgsn_ip_control.marshal,
  x.sgsn_ip_user.marshal,
  optOctets GsnAddress.marshal x.alt_sgsn_ip_control,
  optOctets GsnAddress.marshal x.alt_sgsn_ip_user,
  x.qos.marshal,
  optOctets Tft.marshal x.tft,
  optOctets TriggerId.marshal x.trigger_id,
  optOctets OmcId.marshal x.omc_id,
  optOctets CommonFlags.marshal x.common_flags,
  optOctets RatType.marshal x.rat_type,
  optOctets Uli.marshal x.uli,
  optOctets MsTimeZone.marshal x.ms_timezone,
  optOctets Imei.marshal x.imei,
  optOctets AdditionalTraceInfo.marshal x.add_trace_info,
  optOctets DirectTunnelFlags.marshal x.dtf,
  optOctets EvolvedAllocationRetentionI.marshal x.evolved_alloc,
  optOctets ExtendedCommonFlags.marshal x.ext_common_flags,
  optOctets Uci.marshal x.user_csg_info,
  optOctets ApnAmbr.marshal x.apn_ambr,
  optOctets Spi.marshal x.signalling_prio,
  optOctets CnOperatorSelectionEntity.marshal x.cnose,
  optOctets PrivateExtension.marshal x.private_extension]

/-- The fields in the order in which `marshal` writes them. -/
def order : List S := [
  .imsi, .rai, .recovery, .teid_data, .teid_control, .nsapi,
  .trace_ref, .trace_type, .pco, .sgsn_ip_control, .sgsn_ip_user, .alt_sgsn_ip_control,
  .alt_sgsn_ip_user, .qos, .tft, .trigger_id, .omc_id, .common_flags,
  .rat_type, .uli, .ms_timezone, .imei, .add_trace_info, .dtf,
  .evolved_alloc, .ext_common_flags, .user_csg_info, .apn_ambr, .signalling_prio, .cnose,
  .private_extension]

/-- The arms of `unmarshal` (updatepdpctxreq.rs:278-796). -/
def arms : List (UInt8 × Arm S) := [
  (2, ⟨.Imsi, [.imsi], false, badOptional⟩), -- IMSI, lines 301-316
  (3, ⟨.Rai, [.rai], false, badOptional⟩), -- RAI, lines 317-332
  (14, ⟨.Recovery, [.recovery], false, badOptional⟩), -- RECOVERY, lines 333-348
  (16, ⟨.Teid, [.teid_data], false, badMandatory⟩), -- TEID_DATA, lines 349-364
  (17, ⟨.Teid, [.teid_control], false, badOptional⟩), -- TEID_CONTROL, lines 365-380
  (20, ⟨.Nsapi, [.nsapi], false, badMandatory⟩), -- NSAPI, lines 381-396
  (27, ⟨.TraceReference, [.trace_ref], false, badOptional⟩), -- TRACE_REFERENCE, lines 397-412
  (28, ⟨.TraceType, [.trace_type], false, badOptional⟩), -- TRACE_TYPE, lines 413-428
  (132, ⟨.Pco, [.pco], false, badOptional⟩), -- PCO, lines 429-444
  (133, ⟨.GsnAddress, [.sgsn_ip_control, .sgsn_ip_user, .alt_sgsn_ip_control, .alt_sgsn_ip_user], false, badUnwrap⟩), -- GSN_ADDRESS, lines 445-485
  (135, ⟨.Qos, [.qos], false, badMandatory⟩), -- QOS, lines 486-501
  (137, ⟨.Tft, [.tft], false, badOptional⟩), -- TFT, lines 502-517
  (142, ⟨.TriggerId, [.trigger_id], false, badOptional⟩), -- TRIGGERID, lines 518-533
  (143, ⟨.OmcId, [.omc_id], false, badOptional⟩), -- OMCID, lines 534-549
  (148, ⟨.CommonFlags, [.common_flags], false, badOptional⟩), -- COMMONFLAGS, lines 550-565
  (151, ⟨.RatType, [.rat_type], false, badOptional⟩), -- RATTYPE, lines 566-581
  (152, ⟨.Uli, [.uli], false, badOptional⟩), -- ULI, lines 582-597
  (153, ⟨.MsTimeZone, [.ms_timezone], false, badOptional⟩), -- MSTIMEZONETYPE, lines 598-613
  (154, ⟨.Imei, [.imei], false, badOptional⟩), -- IMEI, lines 614-629
  (162, ⟨.AdditionalTraceInfo, [.add_trace_info], false, badOptional⟩), -- ADDITIONALTRACEINFO, lines 630-647
  (182, ⟨.DirectTunnelFlags, [.dtf], false, badOptional⟩), -- DTF, lines 648-663
  (191, ⟨.EvolvedAllocationRetentionI, [.evolved_alloc], false, badOptional⟩), -- EVOLVEDALLOCRETENTIONI, lines 664-681
  (193, ⟨.ExtendedCommonFlags, [.ext_common_flags], false, badOptional⟩), -- EXTCOMMONFLAGS, lines 682-697
  (194, ⟨.Uci, [.user_csg_info], false, badOptional⟩), -- UCI, lines 698-713
  (198, ⟨.ApnAmbr, [.apn_ambr], false, badOptional⟩), -- APNAMBR, lines 714-729
  (203, ⟨.Spi, [.signalling_prio], false, badOptional⟩), -- SPI, lines 730-745
  (216, ⟨.CnOperatorSelectionEntity, [.cnose], false, badOptional⟩), -- CNOSE, lines 746-761
  (255, ⟨.PrivateExtension, [.private_extension], false, badOptional⟩)] -- PRIVATE_EXTENSION, lines 762-777

/-- Type octet and place of each field. -/
def place : S → UInt8 × Nat
  | .imsi => (2, 0)
  | .rai => (3, 0)
  | .recovery => (14, 0)
  | .teid_data => (16, 0)
  | .teid_control => (17, 0)
  | .nsapi => (20, 0)
  | .trace_ref => (27, 0)
  | .trace_type => (28, 0)
  | .pco => (132, 0)
  | .sgsn_ip_control => (133, 0)
  | .sgsn_ip_user => (133, 1)
  | .alt_sgsn_ip_control => (133, 2)
  | .alt_sgsn_ip_user => (133, 3)
  | .qos => (135, 0)
  | .tft => (137, 0)
  | .trigger_id => (142, 0)
  | .omc_id => (143, 0)
  | .common_flags => (148, 0)
  | .rat_type => (151, 0)
  | .uli => (152, 0)
  | .ms_timezone => (153, 0)
  | .imei => (154, 0)
  | .add_trace_info => (162, 0)
  | .dtf => (182, 0)
  | .evolved_alloc => (191, 0)
  | .ext_common_flags => (193, 0)
  | .user_csg_info => (194, 0)
  | .apn_ambr => (198, 0)
  | .signalling_prio => (203, 0)
  | .cnose => (216, 0)
  | .private_extension => (255, 0)

/-- The message, as a description. -/
def desc : Desc where
  X := UpdatePDPContextRequest
  S := S
  code := 18
  kind := S.kind
  mand := S.mand
  arms := arms
  mandatory := [16, 20, 133, 135]
  dflt := dflt
  header := header
  setHeader := fun h x => { x with header := h }
  put := put
  view := view
  body := body
  order := order
  place := place

/-- `UpdatePDPContextRequest::marshal` (updatepdpctxreq.rs:94-276). -/
def marshalInto (buf : Bytes) (x : UpdatePDPContextRequest) : Bytes := desc.marshalInto buf x

/-- `UpdatePDPContextRequest::unmarshal` (updatepdpctxreq.rs:278-796). -/
def unmarshal (m : Mode) (b : Bytes) : R Err UpdatePDPContextRequest := desc.unmarshal m b

theorem mem_order (s : S) : s ∈ order := by cases s <;> decide

theorem lawful : desc.Lawful where
  view_put := by intro s i x; cases s <;> rfl
  view_put_ne := by intro s t i x h; cases s <;> cases t <;> first | rfl | exact absurd rfl h
  header_put := by intro s i x; cases s <;> rfl
  header_set := fun _ _ => rfl
  view_set := by intro h x s; cases s <;> rfl
  set_header := fun _ => rfl
  ext := by
    intro x y h hv
    have h_hdr : x.header = y.header := h
    have h_imsi : x.imsi = y.imsi := hv .imsi
    have h_rai : x.rai = y.rai := hv .rai
    have h_recovery : x.recovery = y.recovery := hv .recovery
    have h_teid_data : x.teid_data = y.teid_data := Option.some.inj (hv .teid_data)
    have h_teid_control : x.teid_control = y.teid_control := hv .teid_control
    have h_nsapi : x.nsapi = y.nsapi := Option.some.inj (hv .nsapi)
    have h_trace_ref : x.trace_ref = y.trace_ref := hv .trace_ref
    have h_trace_type : x.trace_type = y.trace_type := hv .trace_type
    have h_pco : x.pco = y.pco := hv .pco
    have h_sgsn_ip_control : x.sgsn_ip_control = y.sgsn_ip_control := Option.some.inj (hv .sgsn_ip_control)
    have h_sgsn_ip_user : x.sgsn_ip_user = y.sgsn_ip_user := Option.some.inj (hv .sgsn_ip_user)
    have h_alt_sgsn_ip_control : x.alt_sgsn_ip_control = y.alt_sgsn_ip_control := hv .alt_sgsn_ip_control
    have h_alt_sgsn_ip_user : x.alt_sgsn_ip_user = y.alt_sgsn_ip_user := hv .alt_sgsn_ip_user
    have h_qos : x.qos = y.qos := Option.some.inj (hv .qos)
    have h_tft : x.tft = y.tft := hv .tft
    have h_trigger_id : x.trigger_id = y.trigger_id := hv .trigger_id
    have h_omc_id : x.omc_id = y.omc_id := hv .omc_id
    have h_common_flags : x.common_flags = y.common_flags := hv .common_flags
    have h_rat_type : x.rat_type = y.rat_type := hv .rat_type
    have h_uli : x.uli = y.uli := hv .uli
    have h_ms_timezone : x.ms_timezone = y.ms_timezone := hv .ms_timezone
    have h_imei : x.imei = y.imei := hv .imei
    have h_add_trace_info : x.add_trace_info = y.add_trace_info := hv .add_trace_info
    have h_dtf : x.dtf = y.dtf := hv .dtf
    have h_evolved_alloc : x.evolved_alloc = y.evolved_alloc := hv .evolved_alloc
    have h_ext_common_flags : x.ext_common_flags = y.ext_common_flags := hv .ext_common_flags
    have h_user_csg_info : x.user_csg_info = y.user_csg_info := hv .user_csg_info
    have h_apn_ambr : x.apn_ambr = y.apn_ambr := hv .apn_ambr
    have h_signalling_prio : x.signalling_prio = y.signalling_prio := hv .signalling_prio
    have h_cnose : x.cnose = y.cnose := hv .cnose
    have h_private_extension : x.private_extension = y.private_extension := hv .private_extension
    cases x; cases y
    show (UpdatePDPContextRequest.mk .. = UpdatePDPContextRequest.mk ..)
    rw [UpdatePDPContextRequest.mk.injEq]
    exact ⟨h_hdr, h_imsi, h_rai, h_recovery, h_teid_data, h_teid_control, h_nsapi, h_trace_ref, h_trace_type, h_pco, h_sgsn_ip_control, h_sgsn_ip_user, h_alt_sgsn_ip_control, h_alt_sgsn_ip_user, h_qos, h_tft, h_trigger_id, h_omc_id, h_common_flags, h_rat_type, h_uli, h_ms_timezone, h_imei, h_add_trace_info, h_dtf, h_evolved_alloc, h_ext_common_flags, h_user_csg_info, h_apn_ambr, h_signalling_prio, h_cnose, h_private_extension⟩
  mand_view := by intro x s h; cases s <;> first | rfl | cases h
  dflt_view := by intro s h; cases s <;> first | rfl | cases h
  body_eq := fun _ => rfl
  order_all := mem_order
  order_nodup := by show order.Nodup; decide
  arm_place := by
    have : ∀ s ∈ order, (((arms.lookup (place s).1).map fun a => a.slots[(place s).2]?).getD none) = some s := by decide +kernel
    exact fun s => this s (mem_order s)
  arm_slots := by
    show ∀ p ∈ arms, order.filter (fun s => (place s).1 == p.1) = p.2.slots
    decide +kernel
  arm_kind := by
    show ∀ p ∈ arms, (∀ s ∈ p.2.slots, s.kind = p.2.kind) ∧ (p.2.kind.code = p.1 ∨ p.2.kind = .Teid ∧ p.1 = 17) ∧
      0 < p.2.slots.length ∧ p.2.slots.length < 256 ∧ (p.2.lt2 = true → p.2.slots.length = 2) ∧
      ∀ i < p.2.slots.length, (p.2.slots[i]?).map place = some (p.1, i)
    decide +kernel

end UpdatePDPContextRequest
end Gtp.C1
