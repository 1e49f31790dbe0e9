import Verif.C1.MsgBase

/-!
# Model of `src/gtpv1/gtpc/messages/pdunotificationrejectresp.rs`

Expanded by `scripts/gen_c1_msgs.py`.
-/

namespace Gtp.C1
open Gtp.V1

/-- `PDUNotificationRejectResponse` (pdunotificationrejectresp.rs:14-18). -/
structure PDUNotificationRejectResponse where
  header : Header
  cause : Cause
  private_extension : Option PrivateExtension
deriving DecidableEq, Repr

namespace PDUNotificationRejectResponse

/-- The fields other than the header. -/
inductive S where
  | cause
  | private_extension
deriving DecidableEq, Repr

/-- The kind of each field. -/
def S.kind : S → Kind
  | .cause => .Cause
  | .private_extension => .PrivateExtension

/-- The fields that are not `Option`s. -/
def S.mand : S → Bool
  | .cause => true
  | _ => false

/-- `default` (pdunotificationrejectresp.rs:20-32). -/
def dflt : PDUNotificationRejectResponse where
  header := { Header.dflt with msgtype := 30 }
  cause := (Kind.codec .Cause).dflt
  private_extension := none

/-- Assignment to a field. -/
def put : (s : S) → s.kind.Ty → PDUNotificationRejectResponse → PDUNotificationRejectResponse
  | .cause, i, x => { x with cause := i }
  | .private_extension, i, x => { x with private_extension := some i }

/-- The contents of a field. -/
def view (x : PDUNotificationRejectResponse) : (s : S) → Option s.kind.Ty
  | .cause => some x.cause
  | .private_extension => x.private_extension

/-- `marshal` without the header and `set_length` (pdunotificationrejectresp.rs:35-51). -/
def body (x : PDUNotificationRejectResponse) : Bytes := List.flatten [
  x.cause.marshal,
  optOctets PrivateExtension.marshal x.private_extension]

/-- The fields in the order in which `marshal` writes them. -/
def order : List S := [
  .cause, .private_extension]

/-- The arms of `unmarshal` (pdunotificationrejectresp.rs:53-122). -/
def arms : List (UInt8 × Arm S) := [
  (1, ⟨.Cause, [.cause], false, badMandatory⟩), -- CAUSE, lines 76-91
  (255, ⟨.PrivateExtension, [.private_extension], false, badOptional⟩)] -- PRIVATE_EXTENSION, lines 92-107

/-- Type octet and place of each field. -/
def place : S → UInt8 × Nat
  | .cause => (1, 0)
  | .private_extension => (255, 0)

/-- The message, as a description. -/
def desc : Desc where
  X := PDUNotificationRejectResponse
  S := S
  code := 30
  kind := S.kind
  mand := S.mand
  arms := arms
  mandatory := [1]
  dflt := dflt
  header := header
  setHeader := fun h x => { x with header := h }
  put := put
  view := view
  body := body
  order := order
  place := place

/-- `PDUNotificationRejectResponse::marshal` (pdunotificationrejectresp.rs:35-51). -/
def marshalInto (buf : Bytes) (x : PDUNotificationRejectResponse) : Bytes := desc.marshalInto buf x

/-- `PDUNotificationRejectResponse::unmarshal` (pdunotificationrejectresp.rs:53-122). -/
def unmarshal (m : Mode) (b : Bytes) : R Err PDUNotificationRejectResponse := desc.unmarshal m b

theorem mem_order (s : S) : s ∈ order := by cases s <;> decide

theorem lawful : desc.Lawful where
  view_put := by intro s i x; cases s <;> rfl
  view_put_ne := by intro s t i x h; cases s <;> cases t <;> first | rfl | exact absurd rfl h
  header_put := by intro s i x; cases s <;> rfl
  header_set := fun _ _ => rfl
  view_set := by intro h x s; cases s <;> rfl
  set_header := fun _ => rfl
  ext := by
    intro x y h hv
    have h_hdr : x.header = y.header := h
    have h_cause : x.cause = y.cause := Option.some.inj (hv .cause)
    have h_private_extension : x.private_extension = y.private_extension := hv .private_extension
    cases x; cases y
    show (PDUNotificationRejectResponse.mk .. = PDUNotificationRejectResponse.mk ..)
    rw [PDUNotificationRejectResponse.mk.injEq]
    exact ⟨h_hdr, h_cause, h_private_extension⟩
  mand_view := by intro x s h; cases s <;> first | rfl | cases h
  dflt_view := by intro s h; cases s <;> first | rfl | cases h
  body_eq := fun _ => rfl
  order_all := mem_order
  order_nodup := by show order.Nodup; decide
  arm_place := by
    have : ∀ s ∈ order, (((arms.lookup (place s).1).map fun a => a.slots[(place s).2]?).getD none) = some s := by decide +kernel
    exact fun s => this s (mem_order s)
  arm_slots := by
    show ∀ p ∈ arms, order.filter (fun s => (place s).1 == p.1) = p.2.slots
    decide +kernel
  arm_kind := by
    show ∀ p ∈ arms, (∀ s ∈ p.2.slots, s.kind = p.2.kind) ∧ (p.2.kind.code = p.1 ∨ p.2.kind = .Teid ∧ p.1 = 17) ∧
      0 < p.2.slots.length ∧ p.2.slots.length < 256 ∧ (p.2.lt2 = true → p.2.slots.length = 2) ∧
      ∀ i < p.2.slots.length, (p.2.slots[i]?).map place = some (p.1, i)
    decide +kernel

end PDUNotificationRejectResponse
end Gtp.C1
