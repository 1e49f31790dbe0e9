import Verif.C1.MsgBase

/-!
# Model of `src/gtpv1/gtpc/messages/deletepdpctxresp.rs`

Expanded by `scripts/gen_c1_msgs.py`.
-/

namespace Gtp.C1
open Gtp.V1

/-- `DeletePDPContextResponse` (deletepdpctxresp.rs:15-23). -/
structure DeletePDPContextResponse where
  header : Header
  cause : Cause
  pco : Option Pco
  uli : Option Uli
  ms_timezone : Option MsTimeZone
  uli_timestamp : Option UliTimestamp
  private_extension : Option PrivateExtension
deriving DecidableEq, Repr

namespace DeletePDPContextResponse

/-- The fields other than the header. -/
inductive S where
  | cause
  | pco
  | uli
  | ms_timezone
  | uli_timestamp
  | private_extension
deriving DecidableEq, Repr

/-- The kind of each field. -/
def S.kind : S → Kind
  | .cause => .Cause
  | .pco => .Pco
  | .uli => .Uli
  | .ms_timezone => .MsTimeZone
  | .uli_timestamp => .UliTimestamp
  | .private_extension => .PrivateExtension

/-- The fields that are not `Option`s. -/
def S.mand : S → Bool
  | .cause => true
  | _ => false

/-- `default` (deletepdpctxresp.rs:25-41). -/
def dflt : DeletePDPContextResponse where
  header := { Header.dflt with msgtype := 21 }
  cause := (Kind.codec .Cause).dflt
  pco := none
  uli := none
  ms_timezone := none
  uli_timestamp := none
  private_extension := none

/-- Assignment to a field. -/
def put : (s : S) → s.kind.Ty → DeletePDPContextResponse → DeletePDPContextResponse
  | .cause, i, x => { x with cause := i }
  | .pco, i, x => { x with pco := some i }
  | .uli, i, x => { x with uli := some i }
  | .ms_timezone, i, x => { x with ms_timezone := some i }
  | .uli_timestamp, i, x => { x with uli_timestamp := some i }
  | .private_extension, i, x => { x with private_extension := some i }

/-- The contents of a field. -/
def view (x : DeletePDPContextResponse) : (s : S) → Option s.kind.Ty
  | .cause => some x.cause
  | .pco => x.pco
  | .uli => x.uli
  | .ms_timezone => x.ms_timezone
  | .uli_timestamp => x.uli_timestamp
  | .private_extension => x.private_extension

/-- `marshal` without the header and `set_length` (deletepdpctxresp.rs:44-84). -/
def body (x : DeletePDPContextResponse) : Bytes := List.flatten [
  x.cause.marshal,
  optOctets Pco.marshal x.pco,
  optOctets Uli.marshal x.uli,
  optOctets MsTimeZone.marshal x.ms_timezone,
  optOctets UliTimestamp.marshal x.uli_timestamp,
  optOctets PrivateExtension.marshal x.private_extension]

/-- The fields in the order in which `marshal` writes them. -/
def order : List S := [
  .cause, .pco, .uli, .ms_timezone, .uli_timestamp, .private_extension]

/-- The arms of `unmarshal` (deletepdpctxresp.rs:86-219). -/
def arms : List (UInt8 × Arm S) := [
  (1, ⟨.Cause, [.cause], false, badOptional⟩), -- CAUSE, lines 109-124
  (132, ⟨.Pco, [.pco], false, badOptional⟩), -- PCO, lines 125-140
  (152, ⟨.Uli, [.uli], false, badOptional⟩), -- ULI, lines 141-156
  (153, ⟨.MsTimeZone, [.ms_timezone], false, badOptional⟩), -- MSTIMEZONETYPE, lines 157-172
  (214, ⟨.UliTimestamp, [.uli_timestamp], false, badOptional⟩), -- ULI_TIMESTAMP, lines 173-188
  (255, ⟨.PrivateExtension, [.private_extension], false, badOptional⟩)] -- PRIVATE_EXTENSION, lines 189-204

/-- Type octet and place of each field. -/
def place : S → UInt8 × Nat
  | .cause => (1, 0)
  | .pco => (132, 0)
  | .uli => (152, 0)
  | .ms_timezone => (153, 0)
  | .uli_timestamp => (214, 0)
  | .private_extension => (255, 0)

/-- The message, as a description. -/
def desc : Desc where
  X := DeletePDPContextResponse
  S := S
  code := 21
  kind := S.kind
  mand := S.mand
  arms := arms
  mandatory := [1]
  dflt := dflt
  header := header
  setHeader := fun h x => { x with header := h }
  put := put
  view := view
  body := body
  order := order
  place := place

/-- `DeletePDPContextResponse::marshal` (deletepdpctxresp.rs:44-84). -/
def marshalInto (buf : Bytes) (x : DeletePDPContextResponse) : Bytes := desc.marshalInto buf x

/-- `DeletePDPContextResponse::unmarshal` (deletepdpctxresp.rs:86-219). -/
def unmarshal (m : Mode) (b : Bytes) : R Err DeletePDPContextResponse := desc.unmarshal m b

theorem mem_order (s : S) : s ∈ order := by cases s <;> decide

theorem lawful : desc.Lawful where
  view_put := by intro s i x; cases s <;> rfl
  view_put_ne := by intro s t i x h; cases s <;> cases t <;> first | rfl | exact absurd rfl h
  header_put := by intro s i x; cases s <;> rfl
  header_set := fun _ _ => rfl
  view_set := by intro h x s; cases s <;> rfl
  set_header := fun _ => rfl
  ext := by
    intro x y h hv
    have h_hdr : x.header = y.header := h
    have h_cause : x.cause = y.cause := Option.some.inj (hv .cause)
    have h_pco : x.pco = y.pco := hv .pco
    have h_uli : x.uli = y.uli := hv .uli
    have h_ms_timezone : x.ms_timezone = y.ms_timezone := hv .ms_timezone
    have h_uli_timestamp : x.uli_timestamp = y.uli_timestamp := hv .uli_timestamp
    have h_private_extension : x.private_extension = y.private_extension := hv .private_extension
    cases x; cases y
    show (DeletePDPContextResponse.mk .. = DeletePDPContextResponse.mk ..)
    rw [DeletePDPContextResponse.mk.injEq]
    exact ⟨h_hdr, h_cause, h_pco, h_uli, h_ms_timezone, h_uli_timestamp, h_private_extension⟩
  mand_view := by intro x s h; cases s <;> first | rfl | cases h
  dflt_view := by intro s h; cases s <;> first | rfl | cases h
  body_eq := fun _ => rfl
  order_all := mem_order
  order_nodup := by show order.Nodup; decide
  arm_place := by
    have : ∀ s ∈ order, (((arms.lookup (place s).1).map fun a => a.slots[(place s).2]?).getD none) = some s := by decide +kernel
    exact fun s => this s (mem_order s)
  arm_slots := by
    show ∀ p ∈ arms, order.filter (fun s => (place s).1 == p.1) = p.2.slots
    decide +kernel
  arm_kind := by
    show ∀ p ∈ arms, (∀ s ∈ p.2.slots, s.kind = p.2.kind) ∧ (p.2.kind.code = p.1 ∨ p.2.kind = .Teid ∧ p.1 = 17) ∧
      0 < p.2.slots.length ∧ p.2.slots.length < 256 ∧ (p.2.lt2 = true → p.2.slots.length = 2) ∧
      ∀ i < p.2.slots.length, (p.2.slots[i]?).map place = some (p.1, i)
    decide +kernel

end DeletePDPContextResponse
end Gtp.C1
