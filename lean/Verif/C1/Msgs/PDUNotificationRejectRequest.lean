import Verif.C1.MsgBase

/-!
# Model of `src/gtpv1/gtpc/messages/pdunotificationrejectreq.rs`

Expanded by `scripts/gen_c1_msgs.py`.
-/

namespace Gtp.C1
open Gtp.V1

/-- `PDUNotificationRejectRequest` (pdunotificationrejectreq.rs:14-22). -/
structure PDUNotificationRejectRequest where
  header : Header
  cause : Cause
  teid_control : Teid
  end_user_address : EndUserAddress
  apn : Apn
  pco : Option Pco
  private_extension : Option PrivateExtension
deriving DecidableEq, Repr

namespace PDUNotificationRejectRequest

/-- The fields other than the header. -/
inductive S where
  | cause
  | teid_control
  | end_user_address
  | apn
  | pco
  | private_extension
deriving DecidableEq, Repr

/-- The kind of each field. -/
def S.kind : S → Kind
  | .cause => .Cause
  | .teid_control => .Teid
  | .end_user_address => .EndUserAddress
  | .apn => .Apn
  | .pco => .Pco
  | .private_extension => .PrivateExtension

/-- The fields that are not `Option`s. -/
def S.mand : S → Bool
  | .cause => true
  | .teid_control => true
  | .end_user_address => true
  | .apn => true
  | _ => false

/-- `default` (pdunotificationrejectreq.rs:24-40). -/
def dflt : PDUNotificationRejectRequest where
  header := { Header.dflt with msgtype := 29 }
  cause := (Kind.codec .Cause).dflt
  teid_control := (Kind.codec .Teid).dflt
  end_user_address := (Kind.codec .EndUserAddress).dflt
  apn := (Kind.codec .Apn).dflt
  pco := none
  private_extension := none

/-- Assignment to a field. -/
def put : (s : S) → s.kind.Ty → PDUNotificationRejectRequest → PDUNotificationRejectRequest
  | .cause, i, x => { x with cause := i }
  | .teid_control, i, x => { x with teid_control := i }
  | .end_user_address, i, x => { x with end_user_address := i }
  | .apn, i, x => { x with apn := i }
  | .pco, i, x => { x with pco := some i }
  | .private_extension, i, x => { x with private_extension := some i }

/-- The contents of a field. -/
def view (x : PDUNotificationRejectRequest) : (s : S) → Option s.kind.Ty
  | .cause => some x.cause
  | .teid_control => some x.teid_control
  | .end_user_address => some x.end_user_address
  | .apn => some x.apn
  | .pco => x.pco
  | .private_extension => x.private_extension

/-- `marshal` without the header and `set_length` (pdunotificationrejectreq.rs:43-77). -/
def body (x : PDUNotificationRejectRequest) : Bytes := List.flatten [
  x.cause.marshal,
  x.teid_control.marshal,
  x.end_user_address.marshal,
  x.apn.marshal,
  optOctets Pco.marshal x.pco,
  optOctets PrivateExtension.marshal x.private_extension]

/-- The fields in the order in which `marshal` writes them. -/
def order : List S := [
  .cause, .teid_control, .end_user_address, .apn, .pco, .private_extension]

/-- The arms of `unmarshal` (pdunotificationrejectreq.rs:79-216). -/
def arms : List (UInt8 × Arm S) := [
  (1, ⟨.Cause, [.cause], false, badMandatory⟩), -- CAUSE, lines 102-117
  (17, ⟨.Teid, [.teid_control], false, badOptional⟩), -- TEID_CONTROL, lines 118-133
  (128, ⟨.EndUserAddress, [.end_user_address], false, badMandatory⟩), -- END_USER_ADDRESS, lines 134-149
  (131, ⟨.Apn, [.apn], false, badMandatory⟩), -- APN, lines 150-165
  (132, ⟨.Pco, [.pco], false, badOptional⟩), -- PCO, lines 166-181
  (255, ⟨.PrivateExtension, [.private_extension], false, badOptional⟩)] -- PRIVATE_EXTENSION, lines 182-197

/-- Type octet and place of each field. -/
def place : S → UInt8 × Nat
  | .cause => (1, 0)
  | .teid_control => (17, 0)
  | .end_user_address => (128, 0)
  | .apn => (131, 0)
  | .pco => (132, 0)
  | .private_extension => (255, 0)

/-- The message, as a description. -/
def desc : Desc where
  X := PDUNotificationRejectRequest
  S := S
  code := 29
  kind := S.kind
  mand := S.mand
  arms := arms
  mandatory := [1, 17, 128, 131]
  dflt := dflt
  header := header
  setHeader := fun h x => { x with header := h }
  put := put
  view := view
  body := body
  order := order
  place := place

/-- `PDUNotificationRejectRequest::marshal` (pdunotificationrejectreq.rs:43-77). -/
def marshalInto (buf : Bytes) (x : PDUNotificationRejectRequest) : Bytes := desc.marshalInto buf x

/-- `PDUNotificationRejectRequest::unmarshal` (pdunotificationrejectreq.rs:79-216). -/
def unmarshal (m : Mode) (b : Bytes) : R Err PDUNotificationRejectRequest := desc.unmarshal m b

theorem mem_order (s : S) : s ∈ order := by cases s <;> decide

theorem lawful : desc.Lawful where
  view_put := by intro s i x; cases s <;> rfl
  view_put_ne := by intro s t i x h; cases s <;> cases t <;> first | rfl | exact absurd rfl h
  header_put := by intro s i x; cases s <;> rfl
  header_set := fun _ _ => rfl
  view_set := by intro h x s; cases s <;> rfl
  set_header := fun _ => rfl
  ext := by
    intro x y h hv
    have h_hdr : x.header = y.header := h
    have h_cause : x.cause = y.cause := Option.some.inj (hv .cause)
    have h_teid_control : x.teid_control = y.teid_control := Option.some.inj (hv .teid_control)
    have h_end_user_address : x.end_user_address = y.end_user_address := Option.some.inj (hv .end_user_address)
    have h_apn : x.apn = y.apn := Option.some.inj (hv .apn)
    have h_pco : x.pco = y.pco := hv .pco
    have h_private_extension : x.private_extension = y.private_extension := hv .private_extension
    cases x; cases y
    show (PDUNotificationRejectRequest.mk .. = PDUNotificationRejectRequest.mk ..)
    rw [PDUNotificationRejectRequest.mk.injEq]
    exact ⟨h_hdr, h_cause, h_teid_control, h_end_user_address, h_apn, h_pco, h_private_extension⟩
  mand_view := by intro x s h; cases s <;> first | rfl | cases h
  dflt_view := by intro s h; cases s <;> first | rfl | cases h
  body_eq := fun _ => rfl
  order_all := mem_order
  order_nodup := by show order.Nodup; decide
  arm_place := by
    have : ∀ s ∈ order, (((arms.lookup (place s).1).map fun a => a.slots[(place s).2]?).getD none) = some s := by decide +kernel
    exact fun s => this s (mem_order s)
  arm_slots := by
    show ∀ p ∈ arms, order.filter (fun s => (place s).1 == p.1) = p.2.slots
    decide +kernel
  arm_kind := by
    show ∀ p ∈ arms, (∀ s ∈ p.2.slots, s.kind = p.2.kind) ∧ (p.2.kind.code = p.1 ∨ p.2.kind = .Teid ∧ p.1 = 17) ∧
      0 < p.2.slots.length ∧ p.2.slots.length < 256 ∧ (p.2.lt2 = true → p.2.slots.length = 2) ∧
      ∀ i < p.2.slots.length, (p.2.slots[i]?).map place = some (p.1, i)
    decide +kernel

end PDUNotificationRejectRequest
end Gtp.C1
