import Verif.C1.MsgBase

/-!
# Model of `src/gtpv1/gtpc/messages/pdunotificationreq.rs`

Expanded by `scripts/gen_c1_msgs.py`.
-/

namespace Gtp.C1
open Gtp.V1

/-- `PDUNotificationRequest` (pdunotificationreq.rs:14-23). -/
structure PDUNotificationRequest where
  header : Header
  imsi : Imsi
  teid_control : Teid
  end_user_address : EndUserAddress
  apn : Apn
  pco : Option Pco
  ggsn_ip_control : GsnAddress
  private_extension : Option PrivateExtension
deriving DecidableEq, Repr

namespace PDUNotificationRequest

/-- The fields other than the header. -/
inductive S where
  | imsi
  | teid_control
  | end_user_address
  | apn
  | pco
  | ggsn_ip_control
  | private_extension
deriving DecidableEq, Repr

/-- The kind of each field. -/
def S.kind : S → Kind
  | .imsi => .Imsi
  | .teid_control => .Teid
  | .end_user_address => .EndUserAddress
  | .apn => .Apn
  | .pco => .Pco
  | .ggsn_ip_control => .GsnAddress
  | .private_extension => .PrivateExtension

/-- The fields that are not `Option`s. -/
def S.mand : S → Bool
  | .imsi => true
  | .teid_control => true
  | .end_user_address => true
  | .apn => true
  | .ggsn_ip_control => true
  | _ => false

/-- `default` (pdunotificationreq.rs:25-42). -/
def dflt : PDUNotificationRequest where
  header := { Header.dflt with msgtype := 27 }
  imsi := (Kind.codec .Imsi).dflt
  teid_control := (Kind.codec .Teid).dflt
  end_user_address := (Kind.codec .EndUserAddress).dflt
  apn := (Kind.codec .Apn).dflt
  pco := none
  ggsn_ip_control := (Kind.codec .GsnAddress).dflt
  private_extension := none

/-- Assignment to a field. -/
def put : (s : S) → s.kind.Ty → PDUNotificationRequest → PDUNotificationRequest
  | .imsi, i, x => { x with imsi := i }
  | .teid_control, i, x => { x with teid_control := i }
  | .end_user_address, i, x => { x with end_user_address := i }
  | .apn, i, x => { x with apn := i }
  | .pco, i, x => { x with pco := some i }
  | .ggsn_ip_control, i, x => { x with ggsn_ip_control := i }
  | .private_extension, i, x => { x with private_extension := some i }

/-- The contents of a field. -/
def view (x : PDUNotificationRequest) : (s : S) → Option s.kind.Ty
  | .imsi => some x.imsi
  | .teid_control => some x.teid_control
  | .end_user_address => some x.end_user_address
  | .apn => some x.apn
  | .pco => x.pco
  | .ggsn_ip_control => some x.ggsn_ip_control
  | .private_extension => x.private_extension

/-- `marshal` without the header and `set_length` (pdunotificationreq.rs:45-83). -/
def body (x : PDUNotificationRequest) : Bytes := List.flatten [
  x.imsi.marshal,
  x.teid_control.marshal,
  x.end_user_address.marshal,
  x.apn.marshal,
  optOctets Pco.marshal x.pco,
  x.ggsn_ip_control.marshal,
  optOctets PrivateExtension.marshal x.private_extension]

/-- The fields in the order in which `marshal` writes them. -/
def order : List S := [
  .imsi, .teid_control, .end_user_address, .apn, .pco, .ggsn_ip_control,
  .private_extension]

/-- The arms of `unmarshal` (pdunotificationreq.rs:85-239). -/
def arms : List (UInt8 × Arm S) := [
  (2, ⟨.Imsi, [.imsi], false, badMandatory⟩), -- IMSI, lines 108-123
  (17, ⟨.Teid, [.teid_control], false, badOptional⟩), -- TEID_CONTROL, lines 124-139
  (128, ⟨.EndUserAddress, [.end_user_address], false, badMandatory⟩), -- END_USER_ADDRESS, lines 140-155
  (131, ⟨.Apn, [.apn], false, badMandatory⟩), -- APN, lines 156-171
  (132, ⟨.Pco, [.pco], false, badOptional⟩), -- PCO, lines 172-187
  (133, ⟨.GsnAddress, [.ggsn_ip_control], false, badMandatory⟩), -- GSN_ADDRESS, lines 188-203
  (255, ⟨.PrivateExtension, [.private_extension], false, badOptional⟩)] -- PRIVATE_EXTENSION, lines 204-219

/-- Type octet and place of each field. -/
def place : S → UInt8 × Nat
  | .imsi => (2, 0)
  | .teid_control => (17, 0)
  | .end_user_address => (128, 0)
  | .apn => (131, 0)
  | .pco => (132, 0)
  | .ggsn_ip_control => (133, 0)
  | .private_extension => (255, 0)

/-- The message, as a description. -/
def desc : Desc where
  X := PDUNotificationRequest
  S := S
  code := 27
  kind := S.kind
  mand := S.mand
  arms := arms
  mandatory := [2, 17, 128, 131, 133]
  dflt := dflt
  header := header
  setHeader := fun h x => { x with header := h }
  put := put
  view := view
  body := body
  order := order
  place := place

/-- `PDUNotificationRequest::marshal` (pdunotificationreq.rs:45-83). -/
def marshalInto (buf : Bytes) (x : PDUNotificationRequest) : Bytes := desc.marshalInto buf x

/-- `PDUNotificationRequest::unmarshal` (pdunotificationreq.rs:85-239). -/
def unmarshal (m : Mode) (b : Bytes) : R Err PDUNotificationRequest := desc.unmarshal m b

theorem mem_order (s : S) : s ∈ order := by cases s <;> decide

theorem lawful : desc.Lawful where
  view_put := by intro s i x; cases s <;> rfl
  view_put_ne := by intro s t i x h; cases s <;> cases t <;> first | rfl | exact absurd rfl h
  header_put := by intro s i x; cases s <;> rfl
  header_set := fun _ _ => rfl
  view_set := by intro h x s; cases s <;> rfl
  set_header := fun _ => rfl
  ext := by
    intro x y h hv
    have h_hdr : x.header = y.header := h
    have h_imsi : x.imsi = y.imsi := Option.some.inj (hv .imsi)
    have h_teid_control : x.teid_control = y.teid_control := Option.some.inj (hv .teid_control)
    have h_end_user_address : x.end_user_address = y.end_user_address := Option.some.inj (hv .end_user_address)
    have h_apn : x.apn = y.apn := Option.some.inj (hv .apn)
    have h_pco : x.pco = y.pco := hv .pco
    have h_ggsn_ip_control : x.ggsn_ip_control = y.ggsn_ip_control := Option.some.inj (hv .ggsn_ip_control)
    have h_private_extension : x.private_extension = y.private_extension := hv .private_extension
    cases x; cases y
    show (PDUNotificationRequest.mk .. = PDUNotificationRequest.mk ..)
    rw [PDUNotificationRequest.mk.injEq]
    exact ⟨h_hdr, h_imsi, h_teid_control, h_end_user_address, h_apn, h_pco, h_ggsn_ip_control, h_private_extension⟩
  mand_view := by intro x s h; cases s <;> first | rfl | cases h
  dflt_view := by intro s h; cases s <;> first | rfl | cases h
  body_eq := fun _ => rfl
  order_all := mem_order
  order_nodup := by show order.Nodup; decide
  arm_place := by
    have : ∀ s ∈ order, (((arms.lookup (place s).1).map fun a => a.slots[(place s).2]?).getD none) = some s := by decide +kernel
    exact fun s => this s (mem_order s)
  arm_slots := by
    show ∀ p ∈ arms, order.filter (fun s => (place s).1 == p.1) = p.2.slots
    decide +kernel
  arm_kind := by
    show ∀ p ∈ arms, (∀ s ∈ p.2.slots, s.kind = p.2.kind) ∧ (p.2.kind.code = p.1 ∨ p.2.kind = .Teid ∧ p.1 = 17) ∧
      0 < p.2.slots.length ∧ p.2.slots.length < 256 ∧ (p.2.lt2 = true → p.2.slots.length = 2) ∧
      ∀ i < p.2.slots.length, (p.2.slots[i]?).map place = some (p.1, i)
    decide +kernel

end PDUNotificationRequest
end Gtp.C1
