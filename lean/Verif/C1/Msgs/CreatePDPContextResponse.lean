import Verif.C1.MsgBase

/-!
# Model of `src/gtpv1/gtpc/messages/createpdpctxresp.rs`

Expanded by `scripts/gen_c1_msgs.py`.
-/

namespace Gtp.C1
open Gtp.V1

/-- `CreatePDPContextResponse` (createpdpctxresp.rs:15-44). -/
structure CreatePDPContextResponse where
  header : Header
  cause : Cause
  reordering_req : Option ReorderingRequired
  recovery : Option Recovery
  teid_data : Option Teid
  teid_control : Option Teid
  nsapi : Option Nsapi
  charging_id : Option ChargingID
  end_user_address : Option EndUserAddress
  pco : Option Pco
  ggsn_ip_control : Option GsnAddress
  ggsn_ip_user : Option GsnAddress
  alt_ggsn_ip_control : Option GsnAddress
  alt_ggsn_ip_user : Option GsnAddress
  qos : Option Qos
  charging_gw_addr : Option ChargingGWAddress
  alt_charging_gw_addr : Option ChargingGWAddress
  common_flags : Option CommonFlags
  apn_restriction : Option ApnRestriction
  ms_info_change : Option MSInfoChangeReportingAction
  bearer_ctrl_mode : Option BearerControlMode
  evolved_alloc : Option EvolvedAllocationRetentionI
  ext_common_flags : Option ExtendedCommonFlags
  csg_info_report : Option CSGInformationReportingAction
  apn_ambr : Option ApnAmbr
  ggsn_backoff_time : Option GGSNBackOffTime
  ext_common_flags_ii : Option ExtendedCommonFlagsII
  private_extension : Option PrivateExtension
deriving DecidableEq, Repr

namespace CreatePDPContextResponse

/-- The fields other than the header. -/
inductive S where
  | cause
  | reordering_req
  | recovery
  | teid_data
  | teid_control
  | nsapi
  | charging_id
  | end_user_address
  | pco
  | ggsn_ip_control
  | ggsn_ip_user
  | alt_ggsn_ip_control
  | alt_ggsn_ip_user
  | qos
  | charging_gw_addr
  | alt_charging_gw_addr
  | common_flags
  | apn_restriction
  | ms_info_change
  | bearer_ctrl_mode
  | evolved_alloc
  | ext_common_flags
  | csg_info_report
  | apn_ambr
  | ggsn_backoff_time
  | ext_common_flags_ii
  | private_extension
deriving DecidableEq, Repr

/-- The kind of each field. -/
def S.kind : S → Kind
  | .cause => .Cause
  | .reordering_req => .ReorderingRequired
  | .recovery => .Recovery
  | .teid_data => .Teid
  | .teid_control => .Teid
  | .nsapi => .Nsapi
  | .charging_id => .ChargingID
  | .end_user_address => .EndUserAddress
  | .pco => .Pco
  | .ggsn_ip_control => .GsnAddress
  | .ggsn_ip_user => .GsnAddress
  | .alt_ggsn_ip_control => .GsnAddress
  | .alt_ggsn_ip_user => .GsnAddress
  | .qos => .Qos
  | .charging_gw_addr => .ChargingGWAddress
  | .alt_charging_gw_addr => .ChargingGWAddress
  | .common_flags => .CommonFlags
  | .apn_restriction => .ApnRestriction
  | .ms_info_change => .MSInfoChangeReportingAction
  | .bearer_ctrl_mode => .BearerControlMode
  | .evolved_alloc => .EvolvedAllocationRetentionI
  | .ext_common_flags => .ExtendedCommonFlags
  | .csg_info_report => .CSGInformationReportingAction
  | .apn_ambr => .ApnAmbr
  | .ggsn_backoff_time => .GGSNBackOffTime
  | .ext_common_flags_ii => .ExtendedCommonFlagsII
  | .private_extension => .PrivateExtension

/-- The fields that are not `Option`s. -/
def S.mand : S → Bool
  | .cause => true
  | _ => false

/-- `default` (createpdpctxresp.rs:46-83). -/
def dflt : CreatePDPContextResponse where
  header := { Header.dflt with msgtype := 17 }
  cause := (Kind.codec .Cause).dflt
  reordering_req := none
  recovery := none
  teid_data := none
  teid_control := none
  nsapi := none
  charging_id := none
  end_user_address := none
  pco := none
  ggsn_ip_control := none
  ggsn_ip_user := none
  alt_ggsn_ip_control := none
  alt_ggsn_ip_user := none
  qos := none
  charging_gw_addr := none
  alt_charging_gw_addr := none
  common_flags := none
  apn_restriction := none
  ms_info_change := none
  bearer_ctrl_mode := none
  evolved_alloc := none
  ext_common_flags := none
  csg_info_report := none
  apn_ambr := none
  ggsn_backoff_time := none
  ext_common_flags_ii := none
  private_extension := none

/-- Assignment to a field. -/
def put : (s : S) → s.kind.Ty → CreatePDPContextResponse → CreatePDPContextResponse
  | .cause, i, x => { x with cause := i }
  | .reordering_req, i, x => { x with reordering_req := some i }
  | .recovery, i, x => { x with recovery := some i }
  | .teid_data, i, x => { x with teid_data := some i }
  | .teid_control, i, x => { x with teid_control := some i }
  | .nsapi, i, x => { x with nsapi := some i }
  | .charging_id, i, x => { x with charging_id := some i }
  | .end_user_address, i, x => { x with end_user_address := some i }
  | .pco, i, x => { x with pco := some i }
  | .ggsn_ip_control, i, x => { x with ggsn_ip_control := some i }
  | .ggsn_ip_user, i, x => { x with ggsn_ip_user := some i }
  | .alt_ggsn_ip_control, i, x => { x with alt_ggsn_ip_control := some i }
  | .alt_ggsn_ip_user, i, x => { x with alt_ggsn_ip_user := some i }
  | .qos, i, x => { x with qos := some i }
  | .charging_gw_addr, i, x => { x with charging_gw_addr := some i }
  | .alt_charging_gw_addr, i, x => { x with alt_charging_gw_addr := some i }
  | .common_flags, i, x => { x with common_flags := some i }
  | .apn_restriction, i, x => { x with apn_restriction := some i }
  | .ms_info_change, i, x => { x with ms_info_change := some i }
  | .bearer_ctrl_mode, i, x => { x with bearer_ctrl_mode := some i }
  | .evolved_alloc, i, x => { x with evolved_alloc := some i }
  | .ext_common_flags, i, x => { x with ext_common_flags := some i }
  | .csg_info_report, i, x => { x with csg_info_report := some i }
  | .apn_ambr, i, x => { x with apn_ambr := some i }
  | .ggsn_backoff_time, i, x => { x with ggsn_backoff_time := some i }
  | .ext_common_flags_ii, i, x => { x with ext_common_flags_ii := some i }
  | .private_extension, i, x => { x with private_extension := some i }

/-- The contents of a field. -/
def view (x : CreatePDPContextResponse) : (s : S) → Option s.kind.Ty
  | .cause => some x.cause
  | .reordering_req => x.reordering_req
  | .recovery => x.recovery
  | .teid_data => x.teid_data
  | .teid_control => x.teid_control
  | .nsapi => x.nsapi
  | .charging_id => x.charging_id
  | .end_user_address => x.end_user_address
  | .pco => x.pco
  | .ggsn_ip_control => x.ggsn_ip_control
  | .ggsn_ip_user => x.ggsn_ip_user
  | .alt_ggsn_ip_control => x.alt_ggsn_ip_control
  | .alt_ggsn_ip_user => x.alt_ggsn_ip_user
  | .qos => x.qos
  | .charging_gw_addr => x.charging_gw_addr
  | .alt_charging_gw_addr => x.alt_charging_gw_addr
  | .common_flags => x.common_flags
  | .apn_restriction => x.apn_restriction
  | .ms_info_change => x.ms_info_change
  | .bearer_ctrl_mode => x.bearer_ctrl_mode
  | .evolved_alloc => x.evolved_alloc
  | .ext_common_flags => x.ext_common_flags
  | .csg_info_report => x.csg_info_report
  | .apn_ambr => x.apn_ambr
  | .ggsn_backoff_time => x.ggsn_backoff_time
  | .ext_common_flags_ii => x.ext_common_flags_ii
  | .private_extension => x.private_extension

/-- `marshal` without the header and `set_length` (createpdpctxresp.rs:86-252). -/
def body (x : CreatePDPContextResponse) : Bytes := List.flatten [
  x.cause.marshal,
  optOctets ReorderingRequired.marshal x.reordering_req,
  optOctets Recovery.marshal x.recovery,
  optOctets Teid.marshal x.teid_data,
  optOctets Teid.marshal x.teid_control,
  optOctets Nsapi.marshal x.nsapi,
  optOctets ChargingID.marshal x.charging_id,
  optOctets EndUserAddress.marshal x.end_user_address,
  optOctets Pco.marshal x.pco,
  optOctets GsnAddress.marshal x.ggsn_ip_control,
  optOctets GsnAddress.marshal x.ggsn_ip_user,
  optOctets GsnAddress.marshal x.alt_ggsn_ip_control,
  optOctets GsnAddress.marshal x.alt_ggsn_ip_user,
  optOctets Qos.marshal x.qos,
  optOctets ChargingGWAddress.marshal x.charging_gw_addr,
  optOctets ChargingGWAddress.marshal x.alt_charging_gw_addr,
  optOctets CommonFlags.marshal x.common_flags,
  optOctets ApnRestriction.marshal x.apn_restriction,
  optOctets MSInfoChangeReportingAction.marshal x.ms_info_change,
  optOctets BearerControlMode.marshal x.bearer_ctrl_mode,
  optOctets EvolvedAllocationRetentionI.marshal x.evolved_alloc,
  optOctets ExtendedCommonFlags.marshal x.ext_common_flags,
  optOctets CSGInformationReportingAction.marshal x.csg_info_report,
  optOctets ApnAmbr.marshal x.apn_ambr,
  optOctets GGSNBackOffTime.marshal x.ggsn_backoff_time,
  optOctets ExtendedCommonFlagsII.marshal x.ext_common_flags_ii,
  optOctets PrivateExtension.marshal x.private_extension]

/-- The fields in the order in which `marshal` writes them. -/
def order : List S := [
  .cause, .reordering_req, .recovery, .teid_data, .teid_control, .nsapi,
  .charging_id, .end_user_address, .pco, .ggsn_ip_control, .ggsn_ip_user, .alt_ggsn_ip_control,
  .alt_ggsn_ip_user, .qos, .charging_gw_addr, .alt_charging_gw_addr, .common_flags, .apn_restriction,
  .ms_info_change, .bearer_ctrl_mode, .evolved_alloc, .ext_common_flags, .csg_info_report, .apn_ambr,
  .ggsn_backoff_time, .ext_common_flags_ii, .private_extension]

/-- The arms of `unmarshal` (createpdpctxresp.rs:254-702). -/
def arms : List (UInt8 × Arm S) := [
  (1, ⟨.Cause, [.cause], false, badMandatory⟩), -- CAUSE, lines 277-292
  (8, ⟨.ReorderingRequired, [.reordering_req], false, badOptional⟩), -- REORDERING_REQUIRED, lines 293-310
  (14, ⟨.Recovery, [.recovery], false, badOptional⟩), -- RECOVERY, lines 311-326
  (16, ⟨.Teid, [.teid_data], false, badOptional⟩), -- TEID_DATA, lines 327-342
  (17, ⟨.Teid, [.teid_control], false, badOptional⟩), -- TEID_CONTROL, lines 343-358
  (20, ⟨.Nsapi, [.nsapi], false, badOptional⟩), -- NSAPI, lines 359-374
  (127, ⟨.ChargingID, [.charging_id], false, badOptional⟩), -- CHARGING_ID, lines 375-390
  (128, ⟨.EndUserAddress, [.end_user_address], false, badOptional⟩), -- END_USER_ADDRESS, lines 391-406
  (132, ⟨.Pco, [.pco], false, badOptional⟩), -- PCO, lines 407-422
  (133, ⟨.GsnAddress, [.ggsn_ip_control, .ggsn_ip_user, .alt_ggsn_ip_control, .alt_ggsn_ip_user], false, badOptional⟩), -- GSN_ADDRESS, lines 423-460
  (135, ⟨.Qos, [.qos], false, badMandatory⟩), -- QOS, lines 461-476
  (251, ⟨.ChargingGWAddress, [.charging_gw_addr, .alt_charging_gw_addr], true, badOptional⟩), -- CHARGING_GW_ADDRESS, lines 477-501
  (148, ⟨.CommonFlags, [.common_flags], false, badOptional⟩), -- COMMONFLAGS, lines 502-517
  (149, ⟨.ApnRestriction, [.apn_restriction], false, badOptional⟩), -- APNRESTRICTION, lines 518-533
  (181, ⟨.MSInfoChangeReportingAction, [.ms_info_change], false, badOptional⟩), -- MSINFO_CHANGE, lines 534-551
  (184, ⟨.BearerControlMode, [.bearer_ctrl_mode], false, badOptional⟩), -- BEARER_CONTROL_MODE, lines 552-569
  (191, ⟨.EvolvedAllocationRetentionI, [.evolved_alloc], false, badOptional⟩), -- EVOLVEDALLOCRETENTIONI, lines 570-587
  (193, ⟨.ExtendedCommonFlags, [.ext_common_flags], false, badOptional⟩), -- EXTCOMMONFLAGS, lines 588-603
  (195, ⟨.CSGInformationReportingAction, [.csg_info_report], false, badOptional⟩), -- CSG_INFO_REPORT, lines 604-621
  (198, ⟨.ApnAmbr, [.apn_ambr], false, badOptional⟩), -- APNAMBR, lines 622-637
  (202, ⟨.GGSNBackOffTime, [.ggsn_backoff_time], false, badOptional⟩), -- GGSN_BACKOFF, lines 638-653
  (218, ⟨.ExtendedCommonFlagsII, [.ext_common_flags_ii], false, badOptional⟩), -- EXTCOMMONFLAGS_II, lines 654-671
  (255, ⟨.PrivateExtension, [.private_extension], false, badOptional⟩)] -- PRIVATE_EXTENSION, lines 672-687

/-- Type octet and place of each field. -/
def place : S → UInt8 × Nat
  | .cause => (1, 0)
  | .reordering_req => (8, 0)
  | .recovery => (14, 0)
  | .teid_data => (16, 0)
  | .teid_control => (17, 0)
  | .nsapi => (20, 0)
  | .charging_id => (127, 0)
  | .end_user_address => (128, 0)
  | .pco => (132, 0)
  | .ggsn_ip_control => (133, 0)
  | .ggsn_ip_user => (133, 1)
  | .alt_ggsn_ip_control => (133, 2)
  | .alt_ggsn_ip_user => (133, 3)
  | .qos => (135, 0)
  | .charging_gw_addr => (251, 0)
  | .alt_charging_gw_addr => (251, 1)
  | .common_flags => (148, 0)
  | .apn_restriction => (149, 0)
  | .ms_info_change => (181, 0)
  | .bearer_ctrl_mode => (184, 0)
  | .evolved_alloc => (191, 0)
  | .ext_common_flags => (193, 0)
  | .csg_info_report => (195, 0)
  | .apn_ambr => (198, 0)
  | .ggsn_backoff_time => (202, 0)
  | .ext_common_flags_ii => (218, 0)
  | .private_extension => (255, 0)

/-- The message, as a description. -/
def desc : Desc where
  X := CreatePDPContextResponse
  S := S
  code := 17
  kind := S.kind
  mand := S.mand
  arms := arms
  mandatory := [1]
  dflt := dflt
  header := header
  setHeader := fun h x => { x with header := h }
  put := put
  view := view
  body := body
  order := order
  place := place

/-- `CreatePDPContextResponse::marshal` (createpdpctxresp.rs:86-252). -/
def marshalInto (buf : Bytes) (x : CreatePDPContextResponse) : Bytes := desc.marshalInto buf x

/-- `CreatePDPContextResponse::unmarshal` (createpdpctxresp.rs:254-702). -/
def unmarshal (m : Mode) (b : Bytes) : R Err CreatePDPContextResponse := desc.unmarshal m b

theorem mem_order (s : S) : s ∈ order := by cases s <;> decide

theorem lawful : desc.Lawful where
  view_put := by intro s i x; cases s <;> rfl
  view_put_ne := by intro s t i x h; cases s <;> cases t <;> first | rfl | exact absurd rfl h
  header_put := by intro s i x; cases s <;> rfl
  header_set := fun _ _ => rfl
  view_set := by intro h x s; cases s <;> rfl
  set_header := fun _ => rfl
  ext := by
    intro x y h hv
    have h_hdr : x.header = y.header := h
    have h_cause : x.cause = y.cause := Option.some.inj (hv .cause)
    have h_reordering_req : x.reordering_req = y.reordering_req := hv .reordering_req
    have h_recovery : x.recovery = y.recovery := hv .recovery
    have h_teid_data : x.teid_data = y.teid_data := hv .teid_data
    have h_teid_control : x.teid_control = y.teid_control := hv .teid_control
    have h_nsapi : x.nsapi = y.nsapi := hv .nsapi
    have h_charging_id : x.charging_id = y.charging_id := hv .charging_id
    have h_end_user_address : x.end_user_address = y.end_user_address := hv .end_user_address
    have h_pco : x.pco = y.pco := hv .pco
    have h_ggsn_ip_control : x.ggsn_ip_control = y.ggsn_ip_control := hv .ggsn_ip_control
    have h_ggsn_ip_user : x.ggsn_ip_user = y.ggsn_ip_user := hv .ggsn_ip_user
    have h_alt_ggsn_ip_control : x.alt_ggsn_ip_control = y.alt_ggsn_ip_control := hv .alt_ggsn_ip_control
    have h_alt_ggsn_ip_user : x.alt_ggsn_ip_user = y.alt_ggsn_ip_user := hv .alt_ggsn_ip_user
    have h_qos : x.qos = y.qos := hv .qos
    have h_charging_gw_addr : x.charging_gw_addr = y.charging_gw_addr := hv .charging_gw_addr
    have h_alt_charging_gw_addr : x.alt_charging_gw_addr = y.alt_charging_gw_addr := hv .alt_charging_gw_addr
    have h_common_flags : x.common_flags = y.common_flags := hv .common_flags
    have h_apn_restriction : x.apn_restriction = y.apn_restriction := hv .apn_restriction
    have h_ms_info_change : x.ms_info_change = y.ms_info_change := hv .ms_info_change
    have h_bearer_ctrl_mode : x.bearer_ctrl_mode = y.bearer_ctrl_mode := hv .bearer_ctrl_mode
    have h_evolved_alloc : x.evolved_alloc = y.evolved_alloc := hv .evolved_alloc
    have h_ext_common_flags : x.ext_common_flags = y.ext_common_flags := hv .ext_common_flags
    have h_csg_info_report : x.csg_info_report = y.csg_info_report := hv .csg_info_report
    have h_apn_ambr : x.apn_ambr = y.apn_ambr := hv .apn_ambr
    have h_ggsn_backoff_time : x.ggsn_backoff_time = y.ggsn_backoff_time := hv .ggsn_backoff_time
    have h_ext_common_flags_ii : x.ext_common_flags_ii = y.ext_common_flags_ii := hv .ext_common_flags_ii
    have h_private_extension : x.private_extension = y.private_extension := hv .private_extension
    cases x; cases y
    show (CreatePDPContextResponse.mk .. = CreatePDPContextResponse.mk ..)
    rw [CreatePDPContextResponse.mk.injEq]
    exact ⟨h_hdr, h_cause, h_reordering_req, h_recovery, h_teid_data, h_teid_control, h_nsapi, h_charging_id, h_end_user_address, h_pco, h_ggsn_ip_control, h_ggsn_ip_user, h_alt_ggsn_ip_control, h_alt_ggsn_ip_user, h_qos, h_charging_gw_addr, h_alt_charging_gw_addr, h_common_flags, h_apn_restriction, h_ms_info_change, h_bearer_ctrl_mode, h_evolved_alloc, h_ext_common_flags, h_csg_info_report, h_apn_ambr, h_ggsn_backoff_time, h_ext_common_flags_ii, h_private_extension⟩
  mand_view := by intro x s h; cases s <;> first | rfl | cases h
  dflt_view := by intro s h; cases s <;> first | rfl | cases h
  body_eq := fun _ => rfl
  order_all := mem_order
  order_nodup := by show order.Nodup; decide
  arm_place := by
    have : ∀ s ∈ order, (((arms.lookup (place s).1).map fun a => a.slots[(place s).2]?).getD none) = some s := by decide +kernel
    exact fun s => this s (mem_order s)
  arm_slots := by
    show ∀ p ∈ arms, order.filter (fun s => (place s).1 == p.1) = p.2.slots
    decide +kernel
  arm_kind := by
    show ∀ p ∈ arms, (∀ s ∈ p.2.slots, s.kind = p.2.kind) ∧ (p.2.kind.code = p.1 ∨ p.2.kind = .Teid ∧ p.1 = 17) ∧
      0 < p.2.slots.length ∧ p.2.slots.length < 256 ∧ (p.2.lt2 = true → p.2.slots.length = 2) ∧
      ∀ i < p.2.slots.length, (p.2.slots[i]?).map place = some (p.1, i)
    decide +kernel

end CreatePDPContextResponse
end Gtp.C1
