import Verif.C1.MsgBase

/-!
# Model of `src/gtpv1/gtpc/messages/updatepdpctxresp_ggsn.rs`

Expanded by `scripts/gen_c1_msgs.py`.
-/

namespace Gtp.C1
open Gtp.V1

/-- `UpdatePDPContextResponseGGSN` (updatepdpctxresp_ggsn.rs:12-26). -/
structure UpdatePDPContextResponseGGSN where
  header : Header
  cause : Cause
  recovery : Option Recovery
  teid_data : Option Teid
  pco : Option Pco
  sgsn_ip_user : Option GsnAddress
  qos : Option Qos
  uli : Option Uli
  ms_timezone : Option MsTimeZone
  dtf : Option DirectTunnelFlags
  evolved_alloc : Option EvolvedAllocationRetentionI
  apn_ambr : Option ApnAmbr
  private_extension : Option PrivateExtension
deriving DecidableEq, Repr

namespace UpdatePDPContextResponseGGSN

/-- The fields other than the header. -/
inductive S where
  | cause
  | recovery
  | teid_data
  | pco
  | sgsn_ip_user
  | qos
  | uli
  | ms_timezone
  | dtf
  | evolved_alloc
  | apn_ambr
  | private_extension
deriving DecidableEq, Repr

/-- The kind of each field. -/
def S.kind : S → Kind
  | .cause => .Cause
  | .recovery => .Recovery
  | .teid_data => .Teid
  | .pco => .Pco
  | .sgsn_ip_user => .GsnAddress
  | .qos => .Qos
  | .uli => .Uli
  | .ms_timezone => .MsTimeZone
  | .dtf => .DirectTunnelFlags
  | .evolved_alloc => .EvolvedAllocationRetentionI
  | .apn_ambr => .ApnAmbr
  | .private_extension => .PrivateExtension

/-- The fields that are not `Option`s. -/
def S.mand : S → Bool
  | .cause => true
  | _ => false

/-- `default` (updatepdpctxresp_ggsn.rs:28-50). -/
def dflt : UpdatePDPContextResponseGGSN where
  header := { Header.dflt with msgtype := 19 }
  cause := (Kind.codec .Cause).dflt
  recovery := none
  teid_data := none
  pco := none
  sgsn_ip_user := none
  qos := none
  uli := none
  ms_timezone := none
  dtf := none
  evolved_alloc := none
  apn_ambr := none
  private_extension := none

/-- Assignment to a field. -/
def put : (s : S) → s.kind.Ty → UpdatePDPContextResponseGGSN → UpdatePDPContextResponseGGSN
  | .cause, i, x => { x with cause := i }
  | .recovery, i, x => { x with recovery := some i }
  | .teid_data, i, x => { x with teid_data := some i }
  | .pco, i, x => { x with pco := some i }
  | .sgsn_ip_user, i, x => { x with sgsn_ip_user := some i }
  | .qos, i, x => { x with qos := some i }
  | .uli, i, x => { x with uli := some i }
  | .ms_timezone, i, x => { x with ms_timezone := some i }
  | .dtf, i, x => { x with dtf := some i }
  | .evolved_alloc, i, x => { x with evolved_alloc := some i }
  | .apn_ambr, i, x => { x with apn_ambr := some i }
  | .private_extension, i, x => { x with private_extension := some i }

/-- The contents of a field. -/
def view (x : UpdatePDPContextResponseGGSN) : (s : S) → Option s.kind.Ty
  | .cause => some x.cause
  | .recovery => x.recovery
  | .teid_data => x.teid_data
  | .pco => x.pco
  | .sgsn_ip_user => x.sgsn_ip_user
  | .qos => x.qos
  | .uli => x.uli
  | .ms_timezone => x.ms_timezone
  | .dtf => x.dtf
  | .evolved_alloc => x.evolved_alloc
  | .apn_ambr => x.apn_ambr
  | .private_extension => x.private_extension

/-- `marshal` without the header and `set_length` (updatepdpctxresp_ggsn.rs:53-129). -/
def body (x : UpdatePDPContextResponseGGSN) : Bytes := List.flatten [
  x.cause.marshal,
  optOctets Recovery.marshal x.recovery,
  optOctets Teid.marshal x.teid_data,
  optOctets Pco.marshal x.pco,
  optOctets GsnAddress.marshal x.sgsn_ip_user,
  optOctets Qos.marshal x.qos,
  optOctets Uli.marshal x.uli,
  optOctets MsTimeZone.marshal x.ms_timezone,
  optOctets DirectTunnelFlags.marshal x.dtf,
  optOctets EvolvedAllocationRetentionI.marshal x.evolved_alloc,
  optOctets ApnAmbr.marshal x.apn_ambr,
  optOctets PrivateExtension.marshal x.private_extension]

/-- The fields in the order in which `marshal` writes them. -/
def order : List S := [
  .cause, .recovery, .teid_data, .pco, .sgsn_ip_user, .qos,
  .uli, .ms_timezone, .dtf, .evolved_alloc, .apn_ambr, .private_extension]

/-- The arms of `unmarshal` (updatepdpctxresp_ggsn.rs:131-362). -/
def arms : List (UInt8 × Arm S) := [
  (1, ⟨.Cause, [.cause], false, badMandatory⟩), -- CAUSE, lines 154-169
  (14, ⟨.Recovery, [.recovery], false, badOptional⟩), -- RECOVERY, lines 170-185
  (16, ⟨.Teid, [.teid_data], false, badOptional⟩), -- TEID_DATA, lines 186-201
  (132, ⟨.Pco, [.pco], false, badOptional⟩), -- PCO, lines 202-217
  (133, ⟨.GsnAddress, [.sgsn_ip_user], false, badOptional⟩), -- GSN_ADDRESS, lines 218-233
  (135, ⟨.Qos, [.qos], false, badMandatory⟩), -- QOS, lines 234-249
  (152, ⟨.Uli, [.uli], false, badOptional⟩), -- ULI, lines 250-265
  (153, ⟨.MsTimeZone, [.ms_timezone], false, badOptional⟩), -- MSTIMEZONETYPE, lines 266-281
  (182, ⟨.DirectTunnelFlags, [.dtf], false, badOptional⟩), -- DTF, lines 282-297
  (191, ⟨.EvolvedAllocationRetentionI, [.evolved_alloc], false, badOptional⟩), -- EVOLVEDALLOCRETENTIONI, lines 298-315
  (198, ⟨.ApnAmbr, [.apn_ambr], false, badOptional⟩), -- APNAMBR, lines 316-331
  (255, ⟨.PrivateExtension, [.private_extension], false, badOptional⟩)] -- PRIVATE_EXTENSION, lines 332-347

/-- Type octet and place of each field. -/
def place : S → UInt8 × Nat
  | .cause => (1, 0)
  | .recovery => (14, 0)
  | .teid_data => (16, 0)
  | .pco => (132, 0)
  | .sgsn_ip_user => (133, 0)
  | .qos => (135, 0)
  | .uli => (152, 0)
  | .ms_timezone => (153, 0)
  | .dtf => (182, 0)
  | .evolved_alloc => (191, 0)
  | .apn_ambr => (198, 0)
  | .private_extension => (255, 0)

/-- The message, as a description. -/
def desc : Desc where
  X := UpdatePDPContextResponseGGSN
  S := S
  code := 19
  kind := S.kind
  mand := S.mand
  arms := arms
  mandatory := [1]
  dflt := dflt
  header := header
  setHeader := fun h x => { x with header := h }
  put := put
  view := view
  body := body
  order := order
  place := place

/-- `UpdatePDPContextResponseGGSN::marshal` (updatepdpctxresp_ggsn.rs:53-129). -/
def marshalInto (buf : Bytes) (x : UpdatePDPContextResponseGGSN) : Bytes := desc.marshalInto buf x

/-- `UpdatePDPContextResponseGGSN::unmarshal` (updatepdpctxresp_ggsn.rs:131-362). -/
def unmarshal (m : Mode) (b : Bytes) : R Err UpdatePDPContextResponseGGSN := desc.unmarshal m b

theorem mem_order (s : S) : s ∈ order := by cases s <;> decide

theorem lawful : desc.Lawful where
  view_put := by intro s i x; cases s <;> rfl
  view_put_ne := by intro s t i x h; cases s <;> cases t <;> first | rfl | exact absurd rfl h
  header_put := by intro s i x; cases s <;> rfl
  header_set := fun _ _ => rfl
  view_set := by intro h x s; cases s <;> rfl
  set_header := fun _ => rfl
  ext := by
    intro x y h hv
    have h_hdr : x.header = y.header := h
    have h_cause : x.cause = y.cause := Option.some.inj (hv .cause)
    have h_recovery : x.recovery = y.recovery := hv .recovery
    have h_teid_data : x.teid_data = y.teid_data := hv .teid_data
    have h_pco : x.pco = y.pco := hv .pco
    have h_sgsn_ip_user : x.sgsn_ip_user = y.sgsn_ip_user := hv .sgsn_ip_user
    have h_qos : x.qos = y.qos := hv .qos
    have h_uli : x.uli = y.uli := hv .uli
    have h_ms_timezone : x.ms_timezone = y.ms_timezone := hv .ms_timezone
    have h_dtf : x.dtf = y.dtf := hv .dtf
    have h_evolved_alloc : x.evolved_alloc = y.evolved_alloc := hv .evolved_alloc
    have h_apn_ambr : x.apn_ambr = y.apn_ambr := hv .apn_ambr
    have h_private_extension : x.private_extension = y.private_extension := hv .private_extension
    cases x; cases y
    show (UpdatePDPContextResponseGGSN.mk .. = UpdatePDPContextResponseGGSN.mk ..)
    rw [UpdatePDPContextResponseGGSN.mk.injEq]
    exact ⟨h_hdr, h_cause, h_recovery, h_teid_data, h_pco, h_sgsn_ip_user, h_qos, h_uli, h_ms_timezone, h_dtf, h_evolved_alloc, h_apn_ambr, h_private_extension⟩
  mand_view := by intro x s h; cases s <;> first | rfl | cases h
  dflt_view := by intro s h; cases s <;> first | rfl | cases h
  body_eq := fun _ => rfl
  order_all := mem_order
  order_nodup := by show order.Nodup; decide
  arm_place := by
    have : ∀ s ∈ order, (((arms.lookup (place s).1).map fun a => a.slots[(place s).2]?).getD none) = some s := by decide +kernel
    exact fun s => this s (mem_order s)
  arm_slots := by
    show ∀ p ∈ arms, order.filter (fun s => (place s).1 == p.1) = p.2.slots
    decide +kernel
  arm_kind := by
    show ∀ p ∈ arms, (∀ s ∈ p.2.slots, s.kind = p.2.kind) ∧ (p.2.kind.code = p.1 ∨ p.2.kind = .Teid ∧ p.1 = 17) ∧
      0 < p.2.slots.length ∧ p.2.slots.length < 256 ∧ (p.2.lt2 = true → p.2.slots.length = 2) ∧
      ∀ i < p.2.slots.length, (p.2.slots[i]?).map place = some (p.1, i)
    decide +kernel

end UpdatePDPContextResponseGGSN
end Gtp.C1
