import Verif.C1.MsgBase

/-!
# Model of `src/gtpv1/gtpc/messages/deletepdpctxreq.rs`

Expanded by `scripts/gen_c1_msgs.py`.
-/

namespace Gtp.C1
open Gtp.V1

/-- `DeletePDPContextRequest` (deletepdpctxreq.rs:15-26). -/
structure DeletePDPContextRequest where
  header : Header
  cause : Option Cause
  teardown : Option TeardownInd
  nsapi : Nsapi
  pco : Option Pco
  uli : Option Uli
  ms_timezone : Option MsTimeZone
  ext_common_flags : Option ExtendedCommonFlags
  uli_timestamp : Option UliTimestamp
  private_extension : Option PrivateExtension
deriving DecidableEq, Repr

namespace DeletePDPContextRequest

/-- The fields other than the header. -/
inductive S where
  | cause
  | teardown
  | nsapi
  | pco
  | uli
  | ms_timezone
  | ext_common_flags
  | uli_timestamp
  | private_extension
deriving DecidableEq, Repr

/-- The kind of each field. -/
def S.kind : S → Kind
  | .cause => .Cause
  | .teardown => .TeardownInd
  | .nsapi => .Nsapi
  | .pco => .Pco
  | .uli => .Uli
  | .ms_timezone => .MsTimeZone
  | .ext_common_flags => .ExtendedCommonFlags
  | .uli_timestamp => .UliTimestamp
  | .private_extension => .PrivateExtension

/-- The fields that are not `Option`s. -/
def S.mand : S → Bool
  | .nsapi => true
  | _ => false

/-- `default` (deletepdpctxreq.rs:28-47). -/
def dflt : DeletePDPContextRequest where
  header := { Header.dflt with msgtype := 20 }
  cause := none
  teardown := none
  nsapi := (Kind.codec .Nsapi).dflt
  pco := none
  uli := none
  ms_timezone := none
  ext_common_flags := none
  uli_timestamp := none
  private_extension := none

/-- Assignment to a field. -/
def put : (s : S) → s.kind.Ty → DeletePDPContextRequest → DeletePDPContextRequest
  | .cause, i, x => { x with cause := some i }
  | .teardown, i, x => { x with teardown := some i }
  | .nsapi, i, x => { x with nsapi := i }
  | .pco, i, x => { x with pco := some i }
  | .uli, i, x => { x with uli := some i }
  | .ms_timezone, i, x => { x with ms_timezone := some i }
  | .ext_common_flags, i, x => { x with ext_common_flags := some i }
  | .uli_timestamp, i, x => { x with uli_timestamp := some i }
  | .private_extension, i, x => { x with private_extension := some i }

/-- The contents of a field. -/
def view (x : DeletePDPContextRequest) : (s : S) → Option s.kind.Ty
  | .cause => x.cause
  | .teardown => x.teardown
  | .nsapi => some x.nsapi
  | .pco => x.pco
  | .uli => x.uli
  | .ms_timezone => x.ms_timezone
  | .ext_common_flags => x.ext_common_flags
  | .uli_timestamp => x.uli_timestamp
  | .private_extension => x.private_extension

/-- `marshal` without the header and `set_length` (deletepdpctxreq.rs:50-108). -/
def body (x : DeletePDPContextRequest) : Bytes := List.flatten [
  optOctets Cause.marshal x.cause,
  optOctets TeardownInd.marshal x.teardown,
  x.nsapi.marshal,
  optOctets Pco.marshal x.pco,
  optOctets Uli.marshal x.uli,
  optOctets MsTimeZone.marshal x.ms_timezone,
  optOctets ExtendedCommonFlags.marshal x.ext_common_flags,
  optOctets UliTimestamp.marshal x.uli_timestamp,
  optOctets PrivateExtension.marshal x.private_extension]

/-- The fields in the order in which `marshal` writes them. -/
def order : List S := [
  .cause, .teardown, .nsapi, .pco, .uli, .ms_timezone,
  .ext_common_flags, .uli_timestamp, .private_extension]

/-- The arms of `unmarshal` (deletepdpctxreq.rs:110-291). -/
def arms : List (UInt8 × Arm S) := [
  (1, ⟨.Cause, [.cause], false, badOptional⟩), -- CAUSE, lines 133-148
  (19, ⟨.TeardownInd, [.teardown], false, badOptional⟩), -- TEARDOWN_IND, lines 149-164
  (20, ⟨.Nsapi, [.nsapi], false, badMandatory⟩), -- NSAPI, lines 165-180
  (132, ⟨.Pco, [.pco], false, badOptional⟩), -- PCO, lines 181-196
  (152, ⟨.Uli, [.uli], false, badOptional⟩), -- ULI, lines 197-212
  (153, ⟨.MsTimeZone, [.ms_timezone], false, badOptional⟩), -- MSTIMEZONETYPE, lines 213-228
  (193, ⟨.ExtendedCommonFlags, [.ext_common_flags], false, badOptional⟩), -- EXTCOMMONFLAGS, lines 229-244
  (214, ⟨.UliTimestamp, [.uli_timestamp], false, badOptional⟩), -- ULI_TIMESTAMP, lines 245-260
  (255, ⟨.PrivateExtension, [.private_extension], false, badOptional⟩)] -- PRIVATE_EXTENSION, lines 261-276

/-- Type octet and place of each field. -/
def place : S → UInt8 × Nat
  | .cause => (1, 0)
  | .teardown => (19, 0)
  | .nsapi => (20, 0)
  | .pco => (132, 0)
  | .uli => (152, 0)
  | .ms_timezone => (153, 0)
  | .ext_common_flags => (193, 0)
  | .uli_timestamp => (214, 0)
  | .private_extension => (255, 0)

/-- The message, as a description. -/
def desc : Desc where
  X := DeletePDPContextRequest
  S := S
  code := 20
  kind := S.kind
  mand := S.mand
  arms := arms
  mandatory := [20]
  dflt := dflt
  header := header
  setHeader := fun h x => { x with header := h }
  put := put
  view := view
  body := body
  order := order
  place := place

/-- `DeletePDPContextRequest::marshal` (deletepdpctxreq.rs:50-108). -/
def marshalInto (buf : Bytes) (x : DeletePDPContextRequest) : Bytes := desc.marshalInto buf x

/-- `DeletePDPContextRequest::unmarshal` (deletepdpctxreq.rs:110-291). -/
def unmarshal (m : Mode) (b : Bytes) : R Err DeletePDPContextRequest := desc.unmarshal m b

theorem mem_order (s : S) : s ∈ order := by cases s <;> decide

theorem lawful : desc.Lawful where
  view_put := by intro s i x; cases s <;> rfl
  view_put_ne := by intro s t i x h; cases s <;> cases t <;> first | rfl | exact absurd rfl h
  header_put := by intro s i x; cases s <;> rfl
  header_set := fun _ _ => rfl
  view_set := by intro h x s; cases s <;> rfl
  set_header := fun _ => rfl
  ext := by
    intro x y h hv
    have h_hdr : x.header = y.header := h
    have h_cause : x.cause = y.cause := hv .cause
    have h_teardown : x.teardown = y.teardown := hv .teardown
    have h_nsapi : x.nsapi = y.nsapi := Option.some.inj (hv .nsapi)
    have h_pco : x.pco = y.pco := hv .pco
    have h_uli : x.uli = y.uli := hv .uli
    have h_ms_timezone : x.ms_timezone = y.ms_timezone := hv .ms_timezone
    have h_ext_common_flags : x.ext_common_flags = y.ext_common_flags := hv .ext_common_flags
    have h_uli_timestamp : x.uli_timestamp = y.uli_timestamp := hv .uli_timestamp
    have h_private_extension : x.private_extension = y.private_extension := hv .private_extension
    cases x; cases y
    show (DeletePDPContextRequest.mk .. = DeletePDPContextRequest.mk ..)
    rw [DeletePDPContextRequest.mk.injEq]
    exact ⟨h_hdr, h_cause, h_teardown, h_nsapi, h_pco, h_uli, h_ms_timezone, h_ext_common_flags, h_uli_timestamp, h_private_extension⟩
  mand_view := by intro x s h; cases s <;> first | rfl | cases h
  dflt_view := by intro s h; cases s <;> first | rfl | cases h
  body_eq := fun _ => rfl
  order_all := mem_order
  order_nodup := by show order.Nodup; decide
  arm_place := by
    have : ∀ s ∈ order, (((arms.lookup (place s).1).map fun a => a.slots[(place s).2]?).getD none) = some s := by decide +kernel
    exact fun s => this s (mem_order s)
  arm_slots := by
    show ∀ p ∈ arms, order.filter (fun s => (place s).1 == p.1) = p.2.slots
    decide +kernel
  arm_kind := by
    show ∀ p ∈ arms, (∀ s ∈ p.2.slots, s.kind = p.2.kind) ∧ (p.2.kind.code = p.1 ∨ p.2.kind = .Teid ∧ p.1 = 17) ∧
      0 < p.2.slots.length ∧ p.2.slots.length < 256 ∧ (p.2.lt2 = true → p.2.slots.length = 2) ∧
      ∀ i < p.2.slots.length, (p.2.slots[i]?).map place = some (p.1, i)
    decide +kernel

end DeletePDPContextRequest
end Gtp.C1
