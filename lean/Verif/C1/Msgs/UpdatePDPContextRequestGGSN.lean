import Verif.C1.MsgBase

/-!
# Model of `src/gtpv1/gtpc/messages/updatepdpctxreq_ggsn.rs`

Expanded by `scripts/gen_c1_msgs.py`.
-/

namespace Gtp.C1
open Gtp.V1

/-- `UpdatePDPContextRequestGGSN` (updatepdpctxreq_ggsn.rs:12-31). -/
structure UpdatePDPContextRequestGGSN where
  header : Header
  imsi : Option Imsi
  recovery : Option Recovery
  nsapi : Nsapi
  end_user_address : Option EndUserAddress
  pco : Option Pco
  qos : Option Qos
  tft : Option Tft
  common_flags : Option CommonFlags
  apn_restriction : Option ApnRestriction
  ms_info_change : Option MSInfoChangeReportingAction
  dtf : Option DirectTunnelFlags
  bearer_ctrl_mode : Option BearerControlMode
  evolved_alloc : Option EvolvedAllocationRetentionI
  ext_common_flags : Option ExtendedCommonFlags
  user_csg_info : Option CSGInformationReportingAction
  apn_ambr : Option ApnAmbr
  private_extension : Option PrivateExtension
deriving DecidableEq, Repr

namespace UpdatePDPContextRequestGGSN

/-- The fields other than the header. -/
inductive S where
  | imsi
  | recovery
  | nsapi
  | end_user_address
  | pco
  | qos
  | tft
  | common_flags
  | apn_restriction
  | ms_info_change
  | dtf
  | bearer_ctrl_mode
  | evolved_alloc
  | ext_common_flags
  | user_csg_info
  | apn_ambr
  | private_extension
deriving DecidableEq, Repr

/-- The kind of each field. -/
def S.kind : S → Kind
  | .imsi => .Imsi
  | .recovery => .Recovery
  | .nsapi => .Nsapi
  | .end_user_address => .EndUserAddress
  | .pco => .Pco
  | .qos => .Qos
  | .tft => .Tft
  | .common_flags => .CommonFlags
  | .apn_restriction => .ApnRestriction
  | .ms_info_change => .MSInfoChangeReportingAction
  | .dtf => .DirectTunnelFlags
  | .bearer_ctrl_mode => .BearerControlMode
  | .evolved_alloc => .EvolvedAllocationRetentionI
  | .ext_common_flags => .ExtendedCommonFlags
  | .user_csg_info => .CSGInformationReportingAction
  | .apn_ambr => .ApnAmbr
  | .private_extension => .PrivateExtension

/-- The fields that are not `Option`s. -/
def S.mand : S → Bool
  | .nsapi => true
  | _ => false

/-- `default` (updatepdpctxreq_ggsn.rs:33-60). -/
def dflt : UpdatePDPContextRequestGGSN where
  header := { Header.dflt with msgtype := 18 }
  imsi := none
  recovery := none
  nsapi := (Kind.codec .Nsapi).dflt
  end_user_address := none
  pco := none
  qos := none
  tft := none
  common_flags := none
  apn_restriction := none
  ms_info_change := none
  dtf := none
  bearer_ctrl_mode := none
  evolved_alloc := none
  ext_common_flags := none
  user_csg_info := none
  apn_ambr := none
  private_extension := none

/-- Assignment to a field. -/
def put : (s : S) → s.kind.Ty → UpdatePDPContextRequestGGSN → UpdatePDPContextRequestGGSN
  | .imsi, i, x => { x with imsi := some i }
  | .recovery, i, x => { x with recovery := some i }
  | .nsapi, i, x => { x with nsapi := i }
  | .end_user_address, i, x => { x with end_user_address := some i }
  | .pco, i, x => { x with pco := some i }
  | .qos, i, x => { x with qos := some i }
  | .tft, i, x => { x with tft := some i }
  | .common_flags, i, x => { x with common_flags := some i }
  | .apn_restriction, i, x => { x with apn_restriction := some i }
  | .ms_info_change, i, x => { x with ms_info_change := some i }
  | .dtf, i, x => { x with dtf := some i }
  | .bearer_ctrl_mode, i, x => { x with bearer_ctrl_mode := some i }
  | .evolved_alloc, i, x => { x with evolved_alloc := some i }
  | .ext_common_flags, i, x => { x with ext_common_flags := some i }
  | .user_csg_info, i, x => { x with user_csg_info := some i }
  | .apn_ambr, i, x => { x with apn_ambr := some i }
  | .private_extension, i, x => { x with private_extension := some i }

/-- The contents of a field. -/
def view (x : UpdatePDPContextRequestGGSN) : (s : S) → Option s.kind.Ty
  | .imsi => x.imsi
  | .recovery => x.recovery
  | .nsapi => some x.nsapi
  | .end_user_address => x.end_user_address
  | .pco => x.pco
  | .qos => x.qos
  | .tft => x.tft
  | .common_flags => x.common_flags
  | .apn_restriction => x.apn_restriction
  | .ms_info_change => x.ms_info_change
  | .dtf => x.dtf
  | .bearer_ctrl_mode => x.bearer_ctrl_mode
  | .evolved_alloc => x.evolved_alloc
  | .ext_common_flags => x.ext_common_flags
  | .user_csg_info => x.user_csg_info
  | .apn_ambr => x.apn_ambr
  | .private_extension => x.private_extension

/-- `marshal` without the header and `set_length` (updatepdpctxreq_ggsn.rs:63-169). -/
def body (x : UpdatePDPContextRequestGGSN) : Bytes := List.flatten [
  optOctets Imsi.marshal x.imsi,
  optOctets Recovery.marshal x.recovery,
  x.nsapi.marshal,
  optOctets EndUserAddress.marshal x.end_user_address,
  optOctets Pco.marshal x.pco,
  optOctets Qos.marshal x.qos,
  optOctets Tft.marshal x.tft,
  optOctets CommonFlags.marshal x.common_flags,
  optOctets ApnRestriction.marshal x.apn_restriction,
  optOctets MSInfoChangeReportingAction.marshal x.ms_info_change,
  optOctets DirectTunnelFlags.marshal x.dtf,
  optOctets BearerControlMode.marshal x.bearer_ctrl_mode,
  optOctets EvolvedAllocationRetentionI.marshal x.evolved_alloc,
  optOctets ExtendedCommonFlags.marshal x.ext_common_flags,
  optOctets CSGInformationReportingAction.marshal x.user_csg_info,
  optOctets ApnAmbr.marshal x.apn_ambr,
  optOctets PrivateExtension.marshal x.private_extension]

/-- The fields in the order in which `marshal` writes them. -/
def order : List S := [
  .imsi, .recovery, .nsapi, .end_user_address, .pco, .qos,
  .tft, .common_flags, .apn_restriction, .ms_info_change, .dtf, .bearer_ctrl_mode,
  .evolved_alloc, .ext_common_flags, .user_csg_info, .apn_ambr, .private_extension]

/-- The arms of `unmarshal` (updatepdpctxreq_ggsn.rs:171-488). -/
def arms : List (UInt8 × Arm S) := [
  (2, ⟨.Imsi, [.imsi], false, badOptional⟩), -- IMSI, lines 194-209
  (14, ⟨.Recovery, [.recovery], false, badOptional⟩), -- RECOVERY, lines 210-225
  (20, ⟨.Nsapi, [.nsapi], false, badMandatory⟩), -- NSAPI, lines 226-241
  (128, ⟨.EndUserAddress, [.end_user_address], false, badOptional⟩), -- END_USER_ADDRESS, lines 242-257
  (132, ⟨.Pco, [.pco], false, badOptional⟩), -- PCO, lines 258-273
  (135, ⟨.Qos, [.qos], false, badMandatory⟩), -- QOS, lines 274-289
  (137, ⟨.Tft, [.tft], false, badOptional⟩), -- TFT, lines 290-305
  (148, ⟨.CommonFlags, [.common_flags], false, badOptional⟩), -- COMMONFLAGS, lines 306-321
  (149, ⟨.ApnRestriction, [.apn_restriction], false, badOptional⟩), -- APNRESTRICTION, lines 322-337
  (181, ⟨.MSInfoChangeReportingAction, [.ms_info_change], false, badOptional⟩), -- MSINFO_CHANGE, lines 338-355
  (182, ⟨.DirectTunnelFlags, [.dtf], false, badOptional⟩), -- DTF, lines 356-371
  (184, ⟨.BearerControlMode, [.bearer_ctrl_mode], false, badOptional⟩), -- BEARER_CONTROL_MODE, lines 372-389
  (191, ⟨.EvolvedAllocationRetentionI, [.evolved_alloc], false, badOptional⟩), -- EVOLVEDALLOCRETENTIONI, lines 390-407
  (193, ⟨.ExtendedCommonFlags, [.ext_common_flags], false, badOptional⟩), -- EXTCOMMONFLAGS, lines 408-423
  (195, ⟨.CSGInformationReportingAction, [.user_csg_info], false, badOptional⟩), -- CSG_INFO_REPORT, lines 424-441
  (198, ⟨.ApnAmbr, [.apn_ambr], false, badOptional⟩), -- APNAMBR, lines 442-457
  (255, ⟨.PrivateExtension, [.private_extension], false, badOptional⟩)] -- PRIVATE_EXTENSION, lines 458-473

/-- Type octet and place of each field. -/
def place : S → UInt8 × Nat
  | .imsi => (2, 0)
  | .recovery => (14, 0)
  | .nsapi => (20, 0)
  | .end_user_address => (128, 0)
  | .pco => (132, 0)
  | .qos => (135, 0)
  | .tft => (137, 0)
  | .common_flags => (148, 0)
  | .apn_restriction => (149, 0)
  | .ms_info_change => (181, 0)
  | .dtf => (182, 0)
  | .bearer_ctrl_mode => (184, 0)
  | .evolved_alloc => (191, 0)
  | .ext_common_flags => (193, 0)
  | .user_csg_info => (195, 0)
  | .apn_ambr => (198, 0)
  | .private_extension => (255, 0)

/-- The message, as a description. -/
def desc : Desc where
  X := UpdatePDPContextRequestGGSN
  S := S
  code := 18
  kind := S.kind
  mand := S.mand
  arms := arms
  mandatory := [20]
  dflt := dflt
  header := header
  setHeader := fun h x => { x with header := h }
  put := put
  view := view
  body := body
  order := order
  place := place

/-- `UpdatePDPContextRequestGGSN::marshal` (updatepdpctxreq_ggsn.rs:63-169). -/
def marshalInto (buf : Bytes) (x : UpdatePDPContextRequestGGSN) : Bytes := desc.marshalInto buf x

/-- `UpdatePDPContextRequestGGSN::unmarshal` (updatepdpctxreq_ggsn.rs:171-488). -/
def unmarshal (m : Mode) (b : Bytes) : R Err UpdatePDPContextRequestGGSN := desc.unmarshal m b

theorem mem_order (s : S) : s ∈ order := by cases s <;> decide

theorem lawful : desc.Lawful where
  view_put := by intro s i x; cases s <;> rfl
  view_put_ne := by intro s t i x h; cases s <;> cases t <;> first | rfl | exact absurd rfl h
  header_put := by intro s i x; cases s <;> rfl
  header_set := fun _ _ => rfl
  view_set := by intro h x s; cases s <;> rfl
  set_header := fun _ => rfl
  ext := by
    intro x y h hv
    have h_hdr : x.header = y.header := h
    have h_imsi : x.imsi = y.imsi := hv .imsi
    have h_recovery : x.recovery = y.recovery := hv .recovery
    have h_nsapi : x.nsapi = y.nsapi := Option.some.inj (hv .nsapi)
    have h_end_user_address : x.end_user_address = y.end_user_address := hv .end_user_address
    have h_pco : x.pco = y.pco := hv .pco
    have h_qos : x.qos = y.qos := hv .qos
    have h_tft : x.tft = y.tft := hv .tft
    have h_common_flags : x.common_flags = y.common_flags := hv .common_flags
    have h_apn_restriction : x.apn_restriction = y.apn_restriction := hv .apn_restriction
    have h_ms_info_change : x.ms_info_change = y.ms_info_change := hv .ms_info_change
    have h_dtf : x.dtf = y.dtf := hv .dtf
    have h_bearer_ctrl_mode : x.bearer_ctrl_mode = y.bearer_ctrl_mode := hv .bearer_ctrl_mode
    have h_evolved_alloc : x.evolved_alloc = y.evolved_alloc := hv .evolved_alloc
    have h_ext_common_flags : x.ext_common_flags = y.ext_common_flags := hv .ext_common_flags
    have h_user_csg_info : x.user_csg_info = y.user_csg_info := hv .user_csg_info
    have h_apn_ambr : x.apn_ambr = y.apn_ambr := hv .apn_ambr
    have h_private_extension : x.private_extension = y.private_extension := hv .private_extension
    cases x; cases y
    show (UpdatePDPContextRequestGGSN.mk .. = UpdatePDPContextRequestGGSN.mk ..)
    rw [UpdatePDPContextRequestGGSN.mk.injEq]
    exact ⟨h_hdr, h_imsi, h_recovery, h_nsapi, h_end_user_address, h_pco, h_qos, h_tft, h_common_flags, h_apn_restriction, h_ms_info_change, h_dtf, h_bearer_ctrl_mode, h_evolved_alloc, h_ext_common_flags, h_user_csg_info, h_apn_ambr, h_private_extension⟩
  mand_view := by intro x s h; cases s <;> first | rfl | cases h
  dflt_view := by intro s h; cases s <;> first | rfl | cases h
  body_eq := fun _ => rfl
  order_all := mem_order
  order_nodup := by show order.Nodup; decide
  arm_place := by
    have : ∀ s ∈ order, (((arms.lookup (place s).1).map fun a => a.slots[(place s).2]?).getD none) = some s := by decide +kernel
    exact fun s => this s (mem_order s)
  arm_slots := by
    show ∀ p ∈ arms, order.filter (fun s => (place s).1 == p.1) = p.2.slots
    decide +kernel
  arm_kind := by
    show ∀ p ∈ arms, (∀ s ∈ p.2.slots, s.kind = p.2.kind) ∧ (p.2.kind.code = p.1 ∨ p.2.kind = .Teid ∧ p.1 = 17) ∧
      0 < p.2.slots.length ∧ p.2.slots.length < 256 ∧ (p.2.lt2 = true → p.2.slots.length = 2) ∧
      ∀ i < p.2.slots.length, (p.2.slots[i]?).map place = some (p.1, i)
    decide +kernel

end UpdatePDPContextRequestGGSN
end Gtp.C1
