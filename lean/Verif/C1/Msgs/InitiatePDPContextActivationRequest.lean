import Verif.C1.MsgBase

/-!
# Model of `src/gtpv1/gtpc/messages/initiatepdpctxactivationreq.rs`

Expanded by `scripts/gen_c1_msgs.py`.
-/

namespace Gtp.C1
open Gtp.V1

/-- `InitiatePDPContextActivationRequest` (initiatepdpctxactivationreq.rs:14-23). -/
structure InitiatePDPContextActivationRequest where
  header : Header
  linked_nsapi : Nsapi
  pco : Option Pco
  qos : Qos
  tft : Option Tft
  correlation_id : CorrelationId
  evolved_alloc : Option EvolvedAllocationRetentionI
  private_extension : Option PrivateExtension
deriving DecidableEq, Repr

namespace InitiatePDPContextActivationRequest

/-- The fields other than the header. -/
inductive S where
  | linked_nsapi
  | pco
  | qos
  | tft
  | correlation_id
  | evolved_alloc
  | private_extension
deriving DecidableEq, Repr

/-- The kind of each field. -/
def S.kind : S → Kind
  | .linked_nsapi => .Nsapi
  | .pco => .Pco
  | .qos => .Qos
  | .tft => .Tft
  | .correlation_id => .CorrelationId
  | .evolved_alloc => .EvolvedAllocationRetentionI
  | .private_extension => .PrivateExtension

/-- The fields that are not `Option`s. -/
def S.mand : S → Bool
  | .linked_nsapi => true
  | .qos => true
  | .correlation_id => true
  | _ => false

/-- `default` (initiatepdpctxactivationreq.rs:25-42). -/
def dflt : InitiatePDPContextActivationRequest where
  header := { Header.dflt with msgtype := 22 }
  linked_nsapi := (Kind.codec .Nsapi).dflt
  pco := none
  qos := (Kind.codec .Qos).dflt
  tft := none
  correlation_id := (Kind.codec .CorrelationId).dflt
  evolved_alloc := none
  private_extension := none

/-- Assignment to a field. -/
def put : (s : S) → s.kind.Ty → InitiatePDPContextActivationRequest → InitiatePDPContextActivationRequest
  | .linked_nsapi, i, x => { x with linked_nsapi := i }
  | .pco, i, x => { x with pco := some i }
  | .qos, i, x => { x with qos := i }
  | .tft, i, x => { x with tft := some i }
  | .correlation_id, i, x => { x with correlation_id := i }
  | .evolved_alloc, i, x => { x with evolved_alloc := some i }
  | .private_extension, i, x => { x with private_extension := some i }

/-- The contents of a field. -/
def view (x : InitiatePDPContextActivationRequest) : (s : S) → Option s.kind.Ty
  | .linked_nsapi => some x.linked_nsapi
  | .pco => x.pco
  | .qos => some x.qos
  | .tft => x.tft
  | .correlation_id => some x.correlation_id
  | .evolved_alloc => x.evolved_alloc
  | .private_extension => x.private_extension

/-- `marshal` without the header and `set_length` (initiatepdpctxactivationreq.rs:45-87). -/
def body (x : InitiatePDPContextActivationRequest) : Bytes := List.flatten [
  x.linked_nsapi.marshal,
  optOctets Pco.marshal x.pco,
  x.qos.marshal,
  optOctets Tft.marshal x.tft,
  x.correlation_id.marshal,
  optOctets EvolvedAllocationRetentionI.marshal x.evolved_alloc,
  optOctets PrivateExtension.marshal x.private_extension]

/-- The fields in the order in which `marshal` writes them. -/
def order : List S := [
  .linked_nsapi, .pco, .qos, .tft, .correlation_id, .evolved_alloc,
  .private_extension]

/-- The arms of `unmarshal` (initiatepdpctxactivationreq.rs:89-244). -/
def arms : List (UInt8 × Arm S) := [
  (20, ⟨.Nsapi, [.linked_nsapi], false, badMandatory⟩), -- NSAPI, lines 113-128
  (132, ⟨.Pco, [.pco], false, badOptional⟩), -- PCO, lines 129-144
  (135, ⟨.Qos, [.qos], false, badMandatory⟩), -- QOS, lines 145-160
  (137, ⟨.Tft, [.tft], false, badOptional⟩), -- TFT, lines 161-176
  (183, ⟨.CorrelationId, [.correlation_id], false, badMandatory⟩), -- CORRELATIONID, lines 177-192
  (191, ⟨.EvolvedAllocationRetentionI, [.evolved_alloc], false, badOptional⟩), -- EVOLVEDALLOCRETENTIONI, lines 193-210
  (255, ⟨.PrivateExtension, [.private_extension], false, badOptional⟩)] -- PRIVATE_EXTENSION, lines 211-226

/-- Type octet and place of each field. -/
def place : S → UInt8 × Nat
  | .linked_nsapi => (20, 0)
  | .pco => (132, 0)
  | .qos => (135, 0)
  | .tft => (137, 0)
  | .correlation_id => (183, 0)
  | .evolved_alloc => (191, 0)
  | .private_extension => (255, 0)

/-- The message, as a description. -/
def desc : Desc where
  X := InitiatePDPContextActivationRequest
  S := S
  code := 22
  kind := S.kind
  mand := S.mand
  arms := arms
  mandatory := [20, 135, 183]
  dflt := dflt
  header := header
  setHeader := fun h x => { x with header := h }
  put := put
  view := view
  body := body
  order := order
  place := place

/-- `InitiatePDPContextActivationRequest::marshal` (initiatepdpctxactivationreq.rs:45-87). -/
def marshalInto (buf : Bytes) (x : InitiatePDPContextActivationRequest) : Bytes := desc.marshalInto buf x

/-- `InitiatePDPContextActivationRequest::unmarshal` (initiatepdpctxactivationreq.rs:89-244). -/
def unmarshal (m : Mode) (b : Bytes) : R Err InitiatePDPContextActivationRequest := desc.unmarshal m b

theorem mem_order (s : S) : s ∈ order := by cases s <;> decide

theorem lawful : desc.Lawful where
  view_put := by intro s i x; cases s <;> rfl
  view_put_ne := by intro s t i x h; cases s <;> cases t <;> first | rfl | exact absurd rfl h
  header_put := by intro s i x; cases s <;> rfl
  header_set := fun _ _ => rfl
  view_set := by intro h x s; cases s <;> rfl
  set_header := fun _ => rfl
  ext := by
    intro x y h hv
    have h_hdr : x.header = y.header := h
    have h_linked_nsapi : x.linked_nsapi = y.linked_nsapi := Option.some.inj (hv .linked_nsapi)
    have h_pco : x.pco = y.pco := hv .pco
    have h_qos : x.qos = y.qos := Option.some.inj (hv .qos)
    have h_tft : x.tft = y.tft := hv .tft
    have h_correlation_id : x.correlation_id = y.correlation_id := Option.some.inj (hv .correlation_id)
    have h_evolved_alloc : x.evolved_alloc = y.evolved_alloc := hv .evolved_alloc
    have h_private_extension : x.private_extension = y.private_extension := hv .private_extension
    cases x; cases y
    show (InitiatePDPContextActivationRequest.mk .. = InitiatePDPContextActivationRequest.mk ..)
    rw [InitiatePDPContextActivationRequest.mk.injEq]
    exact ⟨h_hdr, h_linked_nsapi, h_pco, h_qos, h_tft, h_correlation_id, h_evolved_alloc, h_private_extension⟩
  mand_view := by intro x s h; cases s <;> first | rfl | cases h
  dflt_view := by intro s h; cases s <;> first | rfl | cases h
  body_eq := fun _ => rfl
  order_all := mem_order
  order_nodup := by show order.Nodup; decide
  arm_place := by
    have : ∀ s ∈ order, (((arms.lookup (place s).1).map fun a => a.slots[(place s).2]?).getD none) = some s := by decide +kernel
    exact fun s => this s (mem_order s)
  arm_slots := by
    show ∀ p ∈ arms, order.filter (fun s => (place s).1 == p.1) = p.2.slots
    decide +kernel
  arm_kind := by
    show ∀ p ∈ arms, (∀ s ∈ p.2.slots, s.kind = p.2.kind) ∧ (p.2.kind.code = p.1 ∨ p.2.kind = .Teid ∧ p.1 = 17) ∧
      0 < p.2.slots.length ∧ p.2.slots.length < 256 ∧ (p.2.lt2 = true → p.2.slots.length = 2) ∧
      ∀ i < p.2.slots.length, (p.2.slots[i]?).map place = some (p.1, i)
    decide +kernel

end InitiatePDPContextActivationRequest
end Gtp.C1
