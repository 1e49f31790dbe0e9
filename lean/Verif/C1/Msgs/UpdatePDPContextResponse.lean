import Verif.C1.MsgBase

/-!
# Model of `src/gtpv1/gtpc/messages/updatepdpctxresp.rs`

Expanded by `scripts/gen_c1_msgs.py`.
-/

namespace Gtp.C1
open Gtp.V1

/-- `UpdatePDPContextResponse` (updatepdpctxresp.rs:15-38). -/
structure UpdatePDPContextResponse where
  header : Header
  cause : Cause
  recovery : Option Recovery
  teid_data : Option Teid
  teid_control : Option Teid
  charging_id : Option ChargingID
  pco : Option Pco
  ggsn_ip_control : Option GsnAddress
  ggsn_ip_user : Option GsnAddress
  alt_ggsn_ip_control : Option GsnAddress
  alt_ggsn_ip_user : Option GsnAddress
  qos : Option Qos
  charging_gw_addr : Option ChargingGWAddress
  alt_charging_gw_addr : Option ChargingGWAddress
  common_flags : Option CommonFlags
  apn_restriction : Option ApnRestriction
  ms_info_change : Option MSInfoChangeReportingAction
  bearer_ctrl_mode : Option BearerControlMode
  evolved_alloc : Option EvolvedAllocationRetentionI
  csg_info_report : Option CSGInformationReportingAction
  apn_ambr : Option ApnAmbr
  private_extension : Option PrivateExtension
deriving DecidableEq, Repr

namespace UpdatePDPContextResponse

/-- The fields other than the header. -/
inductive S where
  | cause
  | recovery
  | teid_data
  | teid_control
  | charging_id
  | pco
  | ggsn_ip_control
  | ggsn_ip_user
  | alt_ggsn_ip_control
  | alt_ggsn_ip_user
  | qos
  | charging_gw_addr
  | alt_charging_gw_addr
  | common_flags
  | apn_restriction
  | ms_info_change
  | bearer_ctrl_mode
  | evolved_alloc
  | csg_info_report
  | apn_ambr
  | private_extension
deriving DecidableEq, Repr

/-- The kind of each field. -/
def S.kind : S → Kind
  | .cause => .Cause
  | .recovery => .Recovery
  | .teid_data => .Teid
  | .teid_control => .Teid
  | .charging_id => .ChargingID
  | .pco => .Pco
  | .ggsn_ip_control => .GsnAddress
  | .ggsn_ip_user => .GsnAddress
  | .alt_ggsn_ip_control => .GsnAddress
  | .alt_ggsn_ip_user => .GsnAddress
  | .qos => .Qos
  | .charging_gw_addr => .ChargingGWAddress
  | .alt_charging_gw_addr => .ChargingGWAddress
  | .common_flags => .CommonFlags
  | .apn_restriction => .ApnRestriction
  | .ms_info_change => .MSInfoChangeReportingAction
  | .bearer_ctrl_mode => .BearerControlMode
  | .evolved_alloc => .EvolvedAllocationRetentionI
  | .csg_info_report => .CSGInformationReportingAction
  | .apn_ambr => .ApnAmbr
  | .private_extension => .PrivateExtension

/-- The fields that are not `Option`s. -/
def S.mand : S → Bool
  | .cause => true
  | _ => false

/-- `default` (updatepdpctxresp.rs:40-71). -/
def dflt : UpdatePDPContextResponse where
  header := { Header.dflt with msgtype := 19 }
  cause := (Kind.codec .Cause).dflt
  recovery := none
  teid_data := none
  teid_control := none
  charging_id := none
  pco := none
  ggsn_ip_control := none
  ggsn_ip_user := none
  alt_ggsn_ip_control := none
  alt_ggsn_ip_user := none
  qos := none
  charging_gw_addr := none
  alt_charging_gw_addr := none
  common_flags := none
  apn_restriction := none
  ms_info_change := none
  bearer_ctrl_mode := none
  evolved_alloc := none
  csg_info_report := none
  apn_ambr := none
  private_extension := none

/-- Assignment to a field. -/
def put : (s : S) → s.kind.Ty → UpdatePDPContextResponse → UpdatePDPContextResponse
  | .cause, i, x => { x with cause := i }
  | .recovery, i, x => { x with recovery := some i }
  | .teid_data, i, x => { x with teid_data := some i }
  | .teid_control, i, x => { x with teid_control := some i }
  | .charging_id, i, x => { x with charging_id := some i }
  | .pco, i, x => { x with pco := some i }
  | .ggsn_ip_control, i, x => { x with ggsn_ip_control := some i }
  | .ggsn_ip_user, i, x => { x with ggsn_ip_user := some i }
  | .alt_ggsn_ip_control, i, x => { x with alt_ggsn_ip_control := some i }
  | .alt_ggsn_ip_user, i, x => { x with alt_ggsn_ip_user := some i }
  | .qos, i, x => { x with qos := some i }
  | .charging_gw_addr, i, x => { x with charging_gw_addr := some i }
  | .alt_charging_gw_addr, i, x => { x with alt_charging_gw_addr := some i }
  | .common_flags, i, x => { x with common_flags := some i }
  | .apn_restriction, i, x => { x with apn_restriction := some i }
  | .ms_info_change, i, x => { x with ms_info_change := some i }
  | .bearer_ctrl_mode, i, x => { x with bearer_ctrl_mode := some i }
  | .evolved_alloc, i, x => { x with evolved_alloc := some i }
  | .csg_info_report, i, x => { x with csg_info_report := some i }
  | .apn_ambr, i, x => { x with apn_ambr := some i }
  | .private_extension, i, x => { x with private_extension := some i }

/-- The contents of a field. -/
def view (x : UpdatePDPContextResponse) : (s : S) → Option s.kind.Ty
  | .cause => some x.cause
  | .recovery => x.recovery
  | .teid_data => x.teid_data
  | .teid_control => x.teid_control
  | .charging_id => x.charging_id
  | .pco => x.pco
  | .ggsn_ip_control => x.ggsn_ip_control
  | .ggsn_ip_user => x.ggsn_ip_user
  | .alt_ggsn_ip_control => x.alt_ggsn_ip_control
  | .alt_ggsn_ip_user => x.alt_ggsn_ip_user
  | .qos => x.qos
  | .charging_gw_addr => x.charging_gw_addr
  | .alt_charging_gw_addr => x.alt_charging_gw_addr
  | .common_flags => x.common_flags
  | .apn_restriction => x.apn_restriction
  | .ms_info_change => x.ms_info_change
  | .bearer_ctrl_mode => x.bearer_ctrl_mode
  | .evolved_alloc => x.evolved_alloc
  | .csg_info_report => x.csg_info_report
  | .apn_ambr => x.apn_ambr
  | .private_extension => x.private_extension

/-- `marshal` without the header and `set_length` (updatepdpctxresp.rs:74-204). -/
def body (x : UpdatePDPContextResponse) : Bytes := List.flatten [
  x.cause.marshal,
  optOctets Recovery.marshal x.recovery,
  optOctets Teid.marshal x.teid_data,
  optOctets Teid.marshal x.teid_control,
  optOctets ChargingID.marshal x.charging_id,
  optOctets Pco.marshal x.pco,
  optOctets GsnAddress.marshal x.ggsn_ip_control,
  optOctets GsnAddress.marshal x.ggsn_ip_user,
  optOctets GsnAddress.marshal x.alt_ggsn_ip_control,
  optOctets GsnAddress.marshal x.alt_ggsn_ip_user,
  optOctets Qos.marshal x.qos,
  optOctets ChargingGWAddress.marshal x.charging_gw_addr,
  optOctets ChargingGWAddress.marshal x.alt_charging_gw_addr,
  optOctets CommonFlags.marshal x.common_flags,
  optOctets ApnRestriction.marshal x.apn_restriction,
  optOctets MSInfoChangeReportingAction.marshal x.ms_info_change,
  optOctets BearerControlMode.marshal x.bearer_ctrl_mode,
  optOctets EvolvedAllocationRetentionI.marshal x.evolved_alloc,
  optOctets CSGInformationReportingAction.marshal x.csg_info_report,
  optOctets ApnAmbr.marshal x.apn_ambr,
  optOctets PrivateExtension.marshal x.private_extension]

/-- The fields in the order in which `marshal` writes them. -/
def order : List S := [
  .cause, .recovery, .teid_data, .teid_control, .charging_id, .pco,
  .ggsn_ip_control, .ggsn_ip_user, .alt_ggsn_ip_control, .alt_ggsn_ip_user, .qos, .charging_gw_addr,
  .alt_charging_gw_addr, .common_flags, .apn_restriction, .ms_info_change, .bearer_ctrl_mode, .evolved_alloc,
  .csg_info_report, .apn_ambr, .private_extension]

/-- The arms of `unmarshal` (updatepdpctxresp.rs:206-554). -/
def arms : List (UInt8 × Arm S) := [
  (1, ⟨.Cause, [.cause], false, badMandatory⟩), -- CAUSE, lines 229-244
  (14, ⟨.Recovery, [.recovery], false, badOptional⟩), -- RECOVERY, lines 245-260
  (16, ⟨.Teid, [.teid_data], false, badOptional⟩), -- TEID_DATA, lines 261-276
  (17, ⟨.Teid, [.teid_control], false, badOptional⟩), -- TEID_CONTROL, lines 277-292
  (127, ⟨.ChargingID, [.charging_id], false, badOptional⟩), -- CHARGING_ID, lines 293-308
  (132, ⟨.Pco, [.pco], false, badOptional⟩), -- PCO, lines 309-324
  (133, ⟨.GsnAddress, [.ggsn_ip_control, .ggsn_ip_user, .alt_ggsn_ip_control, .alt_ggsn_ip_user], false, badOptional⟩), -- GSN_ADDRESS, lines 325-362
  (135, ⟨.Qos, [.qos], false, badMandatory⟩), -- QOS, lines 363-378
  (251, ⟨.ChargingGWAddress, [.charging_gw_addr, .alt_charging_gw_addr], true, badOptional⟩), -- CHARGING_GW_ADDRESS, lines 379-403
  (148, ⟨.CommonFlags, [.common_flags], false, badOptional⟩), -- COMMONFLAGS, lines 404-419
  (149, ⟨.ApnRestriction, [.apn_restriction], false, badOptional⟩), -- APNRESTRICTION, lines 420-435
  (181, ⟨.MSInfoChangeReportingAction, [.ms_info_change], false, badOptional⟩), -- MSINFO_CHANGE, lines 436-453
  (184, ⟨.BearerControlMode, [.bearer_ctrl_mode], false, badOptional⟩), -- BEARER_CONTROL_MODE, lines 454-471
  (191, ⟨.EvolvedAllocationRetentionI, [.evolved_alloc], false, badOptional⟩), -- EVOLVEDALLOCRETENTIONI, lines 472-489
  (195, ⟨.CSGInformationReportingAction, [.csg_info_report], false, badOptional⟩), -- CSG_INFO_REPORT, lines 490-507
  (198, ⟨.ApnAmbr, [.apn_ambr], false, badOptional⟩), -- APNAMBR, lines 508-523
  (255, ⟨.PrivateExtension, [.private_extension], false, badOptional⟩)] -- PRIVATE_EXTENSION, lines 524-539

/-- Type octet and place of each field. -/
def place : S → UInt8 × Nat
  | .cause => (1, 0)
  | .recovery => (14, 0)
  | .teid_data => (16, 0)
  | .teid_control => (17, 0)
  | .charging_id => (127, 0)
  | .pco => (132, 0)
  | .ggsn_ip_control => (133, 0)
  | .ggsn_ip_user => (133, 1)
  | .alt_ggsn_ip_control => (133, 2)
  | .alt_ggsn_ip_user => (133, 3)
  | .qos => (135, 0)
  | .charging_gw_addr => (251, 0)
  | .alt_charging_gw_addr => (251, 1)
  | .common_flags => (148, 0)
  | .apn_restriction => (149, 0)
  | .ms_info_change => (181, 0)
  | .bearer_ctrl_mode => (184, 0)
  | .evolved_alloc => (191, 0)
  | .csg_info_report => (195, 0)
  | .apn_ambr => (198, 0)
  | .private_extension => (255, 0)

/-- The message, as a description. -/
def desc : Desc where
  X := UpdatePDPContextResponse
  S := S
  code := 19
  kind := S.kind
  mand := S.mand
  arms := arms
  mandatory := [1]
  dflt := dflt
  header := header
  setHeader := fun h x => { x with header := h }
  put := put
  view := view
  body := body
  order := order
  place := place

/-- `UpdatePDPContextResponse::marshal` (updatepdpctxresp.rs:74-204). -/
def marshalInto (buf : Bytes) (x : UpdatePDPContextResponse) : Bytes := desc.marshalInto buf x

/-- `UpdatePDPContextResponse::unmarshal` (updatepdpctxresp.rs:206-554). -/
def unmarshal (m : Mode) (b : Bytes) : R Err UpdatePDPContextResponse := desc.unmarshal m b

theorem mem_order (s : S) : s ∈ order := by cases s <;> decide

theorem lawful : desc.Lawful where
  view_put := by intro s i x; cases s <;> rfl
  view_put_ne := by intro s t i x h; cases s <;> cases t <;> first | rfl | exact absurd rfl h
  header_put := by intro s i x; cases s <;> rfl
  header_set := fun _ _ => rfl
  view_set := by intro h x s; cases s <;> rfl
  set_header := fun _ => rfl
  ext := by
    intro x y h hv
    have h_hdr : x.header = y.header := h
    have h_cause : x.cause = y.cause := Option.some.inj (hv .cause)
    have h_recovery : x.recovery = y.recovery := hv .recovery
    have h_teid_data : x.teid_data = y.teid_data := hv .teid_data
    have h_teid_control : x.teid_control = y.teid_control := hv .teid_control
    have h_charging_id : x.charging_id = y.charging_id := hv .charging_id
    have h_pco : x.pco = y.pco := hv .pco
    have h_ggsn_ip_control : x.ggsn_ip_control = y.ggsn_ip_control := hv .ggsn_ip_control
    have h_ggsn_ip_user : x.ggsn_ip_user = y.ggsn_ip_user := hv .ggsn_ip_user
    have h_alt_ggsn_ip_control : x.alt_ggsn_ip_control = y.alt_ggsn_ip_control := hv .alt_ggsn_ip_control
    have h_alt_ggsn_ip_user : x.alt_ggsn_ip_user = y.alt_ggsn_ip_user := hv .alt_ggsn_ip_user
    have h_qos : x.qos = y.qos := hv .qos
    have h_charging_gw_addr : x.charging_gw_addr = y.charging_gw_addr := hv .charging_gw_addr
    have h_alt_charging_gw_addr : x.alt_charging_gw_addr = y.alt_charging_gw_addr := hv .alt_charging_gw_addr
    have h_common_flags : x.common_flags = y.common_flags := hv .common_flags
    have h_apn_restriction : x.apn_restriction = y.apn_restriction := hv .apn_restriction
    have h_ms_info_change : x.ms_info_change = y.ms_info_change := hv .ms_info_change
    have h_bearer_ctrl_mode : x.bearer_ctrl_mode = y.bearer_ctrl_mode := hv .bearer_ctrl_mode
    have h_evolved_alloc : x.evolved_alloc = y.evolved_alloc := hv .evolved_alloc
    have h_csg_info_report : x.csg_info_report = y.csg_info_report := hv .csg_info_report
    have h_apn_ambr : x.apn_ambr = y.apn_ambr := hv .apn_ambr
    have h_private_extension : x.private_extension = y.private_extension := hv .private_extension
    cases x; cases y
    show (UpdatePDPContextResponse.mk .. = UpdatePDPContextResponse.mk ..)
    rw [UpdatePDPContextResponse.mk.injEq]
    exact ⟨h_hdr, h_cause, h_recovery, h_teid_data, h_teid_control, h_charging_id, h_pco, h_ggsn_ip_control, h_ggsn_ip_user, h_alt_ggsn_ip_control, h_alt_ggsn_ip_user, h_qos, h_charging_gw_addr, h_alt_charging_gw_addr, h_common_flags, h_apn_restriction, h_ms_info_change, h_bearer_ctrl_mode, h_evolved_alloc, h_csg_info_report, h_apn_ambr, h_private_extension⟩
  mand_view := by intro x s h; cases s <;> first | rfl | cases h
  dflt_view := by intro s h; cases s <;> first | rfl | cases h
  body_eq := fun _ => rfl
  order_all := mem_order
  order_nodup := by show order.Nodup; decide
  arm_place := by
    have : ∀ s ∈ order, (((arms.lookup (place s).1).map fun a => a.slots[(place s).2]?).getD none) = some s := by decide +kernel
    exact fun s => this s (mem_order s)
  arm_slots := by
    show ∀ p ∈ arms, order.filter (fun s => (place s).1 == p.1) = p.2.slots
    decide +kernel
  arm_kind := by
    show ∀ p ∈ arms, (∀ s ∈ p.2.slots, s.kind = p.2.kind) ∧ (p.2.kind.code = p.1 ∨ p.2.kind = .Teid ∧ p.1 = 17) ∧
      0 < p.2.slots.length ∧ p.2.slots.length < 256 ∧ (p.2.lt2 = true → p.2.slots.length = 2) ∧
      ∀ i < p.2.slots.length, (p.2.slots[i]?).map place = some (p.1, i)
    decide +kernel

end UpdatePDPContextResponse
end Gtp.C1
