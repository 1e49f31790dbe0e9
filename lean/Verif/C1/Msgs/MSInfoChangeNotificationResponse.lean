import Verif.C1.MsgBase

/-!
# Model of `src/gtpv1/gtpc/messages/msinfochangenotifresp.rs`

Expanded by `scripts/gen_c1_msgs.py`.
-/

namespace Gtp.C1
open Gtp.V1

/-- `MSInfoChangeNotificationResponse` (msinfochangenotifresp.rs:11-20). -/
structure MSInfoChangeNotificationResponse where
  header : Header
  cause : Cause
  imsi : Option Imsi
  linked_nsapi : Option Nsapi
  imei : Option Imei
  ms_info_change : Option MSInfoChangeReportingAction
  csg_info_report : Option CSGInformationReportingAction
  private_extension : Option PrivateExtension
deriving DecidableEq, Repr

namespace MSInfoChangeNotificationResponse

/-- The fields other than the header. -/
inductive S where
  | cause
  | imsi
  | linked_nsapi
  | imei
  | ms_info_change
  | csg_info_report
  | private_extension
deriving DecidableEq, Repr

/-- The kind of each field. -/
def S.kind : S → Kind
  | .cause => .Cause
  | .imsi => .Imsi
  | .linked_nsapi => .Nsapi
  | .imei => .Imei
  | .ms_info_change => .MSInfoChangeReportingAction
  | .csg_info_report => .CSGInformationReportingAction
  | .private_extension => .PrivateExtension

/-- The fields that are not `Option`s. -/
def S.mand : S → Bool
  | .cause => true
  | _ => false

/-- `default` (msinfochangenotifresp.rs:22-39). -/
def dflt : MSInfoChangeNotificationResponse where
  header := { Header.dflt with msgtype := 129 }
  cause := (Kind.codec .Cause).dflt
  imsi := none
  linked_nsapi := none
  imei := none
  ms_info_change := none
  csg_info_report := none
  private_extension := none

/-- Assignment to a field. -/
def put : (s : S) → s.kind.Ty → MSInfoChangeNotificationResponse → MSInfoChangeNotificationResponse
  | .cause, i, x => { x with cause := i }
  | .imsi, i, x => { x with imsi := some i }
  | .linked_nsapi, i, x => { x with linked_nsapi := some i }
  | .imei, i, x => { x with imei := some i }
  | .ms_info_change, i, x => { x with ms_info_change := some i }
  | .csg_info_report, i, x => { x with csg_info_report := some i }
  | .private_extension, i, x => { x with private_extension := some i }

/-- The contents of a field. -/
def view (x : MSInfoChangeNotificationResponse) : (s : S) → Option s.kind.Ty
  | .cause => some x.cause
  | .imsi => x.imsi
  | .linked_nsapi => x.linked_nsapi
  | .imei => x.imei
  | .ms_info_change => x.ms_info_change
  | .csg_info_report => x.csg_info_report
  | .private_extension => x.private_extension

/-- `marshal` without the header and `set_length` (msinfochangenotifresp.rs:42-80). -/
def body (x : MSInfoChangeNotificationResponse) : Bytes := List.flatten [
  x.cause.marshal,
  optOctets Imsi.marshal x.imsi,
  optOctets Nsapi.marshal x.linked_nsapi,
  optOctets Imei.marshal x.imei,
  optOctets MSInfoChangeReportingAction.marshal x.ms_info_change,
  optOctets CSGInformationReportingAction.marshal x.csg_info_report,
  optOctets PrivateExtension.marshal x.private_extension]

/-- The fields in the order in which `marshal` writes them. -/
def order : List S := [
  .cause, .imsi, .linked_nsapi, .imei, .ms_info_change, .csg_info_report,
  .private_extension]

/-- The arms of `unmarshal` (msinfochangenotifresp.rs:82-212). -/
def arms : List (UInt8 × Arm S) := [
  (1, ⟨.Cause, [.cause], false, badMandatory⟩), -- CAUSE, lines 112-124
  (2, ⟨.Imsi, [.imsi], false, badOptional⟩), -- IMSI, lines 125-137
  (20, ⟨.Nsapi, [.linked_nsapi], false, badOptional⟩), -- NSAPI, lines 138-150
  (154, ⟨.Imei, [.imei], false, badOptional⟩), -- IMEI, lines 151-163
  (181, ⟨.MSInfoChangeReportingAction, [.ms_info_change], false, badOptional⟩), -- MSINFO_CHANGE, lines 164-176
  (195, ⟨.CSGInformationReportingAction, [.csg_info_report], false, badOptional⟩), -- CSG_INFO_REPORT, lines 177-191
  (255, ⟨.PrivateExtension, [.private_extension], false, badOptional⟩)] -- PRIVATE_EXTENSION, lines 192-204

/-- Type octet and place of each field. -/
def place : S → UInt8 × Nat
  | .cause => (1, 0)
  | .imsi => (2, 0)
  | .linked_nsapi => (20, 0)
  | .imei => (154, 0)
  | .ms_info_change => (181, 0)
  | .csg_info_report => (195, 0)
  | .private_extension => (255, 0)

/-- The message, as a description. -/
def desc : Desc where
  X := MSInfoChangeNotificationResponse
  S := S
  code := 129
  kind := S.kind
  mand := S.mand
  arms := arms
  mandatory := [1]
  dflt := dflt
  header := header
  setHeader := fun h x => { x with header := h }
  put := put
  view := view
  body := body
  order := order
  place := place

/-- `MSInfoChangeNotificationResponse::marshal` (msinfochangenotifresp.rs:42-80). -/
def marshalInto (buf : Bytes) (x : MSInfoChangeNotificationResponse) : Bytes := desc.marshalInto buf x

/-- `MSInfoChangeNotificationResponse::unmarshal` (msinfochangenotifresp.rs:82-212). -/
def unmarshal (m : Mode) (b : Bytes) : R Err MSInfoChangeNotificationResponse := desc.unmarshal m b

theorem mem_order (s : S) : s ∈ order := by cases s <;> decide

theorem lawful : desc.Lawful where
  view_put := by intro s i x; cases s <;> rfl
  view_put_ne := by intro s t i x h; cases s <;> cases t <;> first | rfl | exact absurd rfl h
  header_put := by intro s i x; cases s <;> rfl
  header_set := fun _ _ => rfl
  view_set := by intro h x s; cases s <;> rfl
  set_header := fun _ => rfl
  ext := by
    intro x y h hv
    have h_hdr : x.header = y.header := h
    have h_cause : x.cause = y.cause := Option.some.inj (hv .cause)
    have h_imsi : x.imsi = y.imsi := hv .imsi
    have h_linked_nsapi : x.linked_nsapi = y.linked_nsapi := hv .linked_nsapi
    have h_imei : x.imei = y.imei := hv .imei
    have h_ms_info_change : x.ms_info_change = y.ms_info_change := hv .ms_info_change
    have h_csg_info_report : x.csg_info_report = y.csg_info_report := hv .csg_info_report
    have h_private_extension : x.private_extension = y.private_extension := hv .private_extension
    cases x; cases y
    show (MSInfoChangeNotificationResponse.mk .. = MSInfoChangeNotificationResponse.mk ..)
    rw [MSInfoChangeNotificationResponse.mk.injEq]
    exact ⟨h_hdr, h_cause, h_imsi, h_linked_nsapi, h_imei, h_ms_info_change, h_csg_info_report, h_private_extension⟩
  mand_view := by intro x s h; cases s <;> first | rfl | cases h
  dflt_view := by intro s h; cases s <;> first | rfl | cases h
  body_eq := fun _ => rfl
  order_all := mem_order
  order_nodup := by show order.Nodup; decide
  arm_place := by
    have : ∀ s ∈ order, (((arms.lookup (place s).1).map fun a => a.slots[(place s).2]?).getD none) = some s := by decide +kernel
    exact fun s => this s (mem_order s)
  arm_slots := by
    show ∀ p ∈ arms, order.filter (fun s => (place s).1 == p.1) = p.2.slots
    decide +kernel
  arm_kind := by
    show ∀ p ∈ arms, (∀ s ∈ p.2.slots, s.kind = p.2.kind) ∧ (p.2.kind.code = p.1 ∨ p.2.kind = .Teid ∧ p.1 = 17) ∧
      0 < p.2.slots.length ∧ p.2.slots.length < 256 ∧ (p.2.lt2 = true → p.2.slots.length = 2) ∧
      ∀ i < p.2.slots.length, (p.2.slots[i]?).map place = some (p.1, i)
    decide +kernel

end MSInfoChangeNotificationResponse
end Gtp.C1
