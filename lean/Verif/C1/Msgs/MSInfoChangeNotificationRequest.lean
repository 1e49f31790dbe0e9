import Verif.C1.MsgBase

/-!
# Model of `src/gtpv1/gtpc/messages/msinfochangenotifreq.rs`

Expanded by `scripts/gen_c1_msgs.py`.
-/

namespace Gtp.C1
open Gtp.V1

/-- `MSInfoChangeNotificationRequest` (msinfochangenotifreq.rs:11-21). -/
structure MSInfoChangeNotificationRequest where
  header : Header
  imsi : Option Imsi
  linked_nsapi : Option Nsapi
  rat_type : RatType
  uli : Option Uli
  imei : Option Imei
  ext_common_flags : Option ExtendedCommonFlags
  user_csg_info : Option Uci
  private_extension : Option PrivateExtension
deriving DecidableEq, Repr

namespace MSInfoChangeNotificationRequest

/-- The fields other than the header. -/
inductive S where
  | imsi
  | linked_nsapi
  | rat_type
  | uli
  | imei
  | ext_common_flags
  | user_csg_info
  | private_extension
deriving DecidableEq, Repr

/-- The kind of each field. -/
def S.kind : S → Kind
  | .imsi => .Imsi
  | .linked_nsapi => .Nsapi
  | .rat_type => .RatType
  | .uli => .Uli
  | .imei => .Imei
  | .ext_common_flags => .ExtendedCommonFlags
  | .user_csg_info => .Uci
  | .private_extension => .PrivateExtension

/-- The fields that are not `Option`s. -/
def S.mand : S → Bool
  | .rat_type => true
  | _ => false

/-- `default` (msinfochangenotifreq.rs:23-41). -/
def dflt : MSInfoChangeNotificationRequest where
  header := { Header.dflt with msgtype := 128 }
  imsi := none
  linked_nsapi := none
  rat_type := (Kind.codec .RatType).dflt
  uli := none
  imei := none
  ext_common_flags := none
  user_csg_info := none
  private_extension := none

/-- Assignment to a field. -/
def put : (s : S) → s.kind.Ty → MSInfoChangeNotificationRequest → MSInfoChangeNotificationRequest
  | .imsi, i, x => { x with imsi := some i }
  | .linked_nsapi, i, x => { x with linked_nsapi := some i }
  | .rat_type, i, x => { x with rat_type := i }
  | .uli, i, x => { x with uli := some i }
  | .imei, i, x => { x with imei := some i }
  | .ext_common_flags, i, x => { x with ext_common_flags := some i }
  | .user_csg_info, i, x => { x with user_csg_info := some i }
  | .private_extension, i, x => { x with private_extension := some i }

/-- The contents of a field. -/
def view (x : MSInfoChangeNotificationRequest) : (s : S) → Option s.kind.Ty
  | .imsi => x.imsi
  | .linked_nsapi => x.linked_nsapi
  | .rat_type => some x.rat_type
  | .uli => x.uli
  | .imei => x.imei
  | .ext_common_flags => x.ext_common_flags
  | .user_csg_info => x.user_csg_info
  | .private_extension => x.private_extension

/-- `marshal` without the header and `set_length` (msinfochangenotifreq.rs:44-87). -/
def body (x : MSInfoChangeNotificationRequest) : Bytes := List.flatten [
  optOctets Imsi.marshal x.imsi,
  optOctets Nsapi.marshal x.linked_nsapi,
  x.rat_type.marshal,
  optOctets Uli.marshal x.uli,
  optOctets Imei.marshal x.imei,
  optOctets ExtendedCommonFlags.marshal x.ext_common_flags,
  optOctets Uci.marshal x.user_csg_info,
  optOctets PrivateExtension.marshal x.private_extension]

/-- The fields in the order in which `marshal` writes them. -/
def order : List S := [
  .imsi, .linked_nsapi, .rat_type, .uli, .imei, .ext_common_flags,
  .user_csg_info, .private_extension]

/-- The arms of `unmarshal` (msinfochangenotifreq.rs:89-231). -/
def arms : List (UInt8 × Arm S) := [
  (2, ⟨.Imsi, [.imsi], false, badOptional⟩), -- IMSI, lines 120-132
  (20, ⟨.Nsapi, [.linked_nsapi], false, badOptional⟩), -- NSAPI, lines 133-145
  (151, ⟨.RatType, [.rat_type], false, badMandatory⟩), -- RATTYPE, lines 146-158
  (152, ⟨.Uli, [.uli], false, badOptional⟩), -- ULI, lines 159-171
  (154, ⟨.Imei, [.imei], false, badOptional⟩), -- IMEI, lines 172-184
  (193, ⟨.ExtendedCommonFlags, [.ext_common_flags], false, badOptional⟩), -- EXTCOMMONFLAGS, lines 185-197
  (194, ⟨.Uci, [.user_csg_info], false, badOptional⟩), -- UCI, lines 198-210
  (255, ⟨.PrivateExtension, [.private_extension], false, badOptional⟩)] -- PRIVATE_EXTENSION, lines 211-223

/-- Type octet and place of each field. -/
def place : S → UInt8 × Nat
  | .imsi => (2, 0)
  | .linked_nsapi => (20, 0)
  | .rat_type => (151, 0)
  | .uli => (152, 0)
  | .imei => (154, 0)
  | .ext_common_flags => (193, 0)
  | .user_csg_info => (194, 0)
  | .private_extension => (255, 0)

/-- The message, as a description. -/
def desc : Desc where
  X := MSInfoChangeNotificationRequest
  S := S
  code := 128
  kind := S.kind
  mand := S.mand
  arms := arms
  mandatory := [151]
  dflt := dflt
  header := header
  setHeader := fun h x => { x with header := h }
  put := put
  view := view
  body := body
  order := order
  place := place

/-- `MSInfoChangeNotificationRequest::marshal` (msinfochangenotifreq.rs:44-87). -/
def marshalInto (buf : Bytes) (x : MSInfoChangeNotificationRequest) : Bytes := desc.marshalInto buf x

/-- `MSInfoChangeNotificationRequest::unmarshal` (msinfochangenotifreq.rs:89-231). -/
def unmarshal (m : Mode) (b : Bytes) : R Err MSInfoChangeNotificationRequest := desc.unmarshal m b

theorem mem_order (s : S) : s ∈ order := by cases s <;> decide

theorem lawful : desc.Lawful where
  view_put := by intro s i x; cases s <;> rfl
  view_put_ne := by intro s t i x h; cases s <;> cases t <;> first | rfl | exact absurd rfl h
  header_put := by intro s i x; cases s <;> rfl
  header_set := fun _ _ => rfl
  view_set := by intro h x s; cases s <;> rfl
  set_header := fun _ => rfl
  ext := by
    intro x y h hv
    have h_hdr : x.header = y.header := h
    have h_imsi : x.imsi = y.imsi := hv .imsi
    have h_linked_nsapi : x.linked_nsapi = y.linked_nsapi := hv .linked_nsapi
    have h_rat_type : x.rat_type = y.rat_type := Option.some.inj (hv .rat_type)
    have h_uli : x.uli = y.uli := hv .uli
    have h_imei : x.imei = y.imei := hv .imei
    have h_ext_common_flags : x.ext_common_flags = y.ext_common_flags := hv .ext_common_flags
    have h_user_csg_info : x.user_csg_info = y.user_csg_info := hv .user_csg_info
    have h_private_extension : x.private_extension = y.private_extension := hv .private_extension
    cases x; cases y
    show (MSInfoChangeNotificationRequest.mk .. = MSInfoChangeNotificationRequest.mk ..)
    rw [MSInfoChangeNotificationRequest.mk.injEq]
    exact ⟨h_hdr, h_imsi, h_linked_nsapi, h_rat_type, h_uli, h_imei, h_ext_common_flags, h_user_csg_info, h_private_extension⟩
  mand_view := by intro x s h; cases s <;> first | rfl | cases h
  dflt_view := by intro s h; cases s <;> first | rfl | cases h
  body_eq := fun _ => rfl
  order_all := mem_order
  order_nodup := by show order.Nodup; decide
  arm_place := by
    have : ∀ s ∈ order, (((arms.lookup (place s).1).map fun a => a.slots[(place s).2]?).getD none) = some s := by decide +kernel
    exact fun s => this s (mem_order s)
  arm_slots := by
    show ∀ p ∈ arms, order.filter (fun s => (place s).1 == p.1) = p.2.slots
    decide +kernel
  arm_kind := by
    show ∀ p ∈ arms, (∀ s ∈ p.2.slots, s.kind = p.2.kind) ∧ (p.2.kind.code = p.1 ∨ p.2.kind = .Teid ∧ p.1 = 17) ∧
      0 < p.2.slots.length ∧ p.2.slots.length < 256 ∧ (p.2.lt2 = true → p.2.slots.length = 2) ∧
      ∀ i < p.2.slots.length, (p.2.slots[i]?).map place = some (p.1, i)
    decide +kernel

end MSInfoChangeNotificationRequest
end Gtp.C1
