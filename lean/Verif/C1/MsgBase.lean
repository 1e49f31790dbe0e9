import Verif.C1.Header
import Verif.C1.Kind

/-!
# The common shape of the GTPv1-C messages

The 16 messages of `/repo/src/gtpv1/gtpc/messages` that carry information elements have the same
`unmarshal`: header, type, announced length, then a loop over the octets behind the header with one
arm for each type of element, and a check of the mandatory types (e.g. pdunotificationreq.rs:85-239).
The loop is written once, over a table of the arms (`Desc`); the tables are in `Verif/C1/Msgs`.
-/

namespace Gtp.C1
open Gtp.V1

/-- An information element: its kind and its value. -/
abbrev IE := (k : Kind) × k.Ty

namespace IE
/-- The octets of the element. -/
def mar (e : IE) : Bytes := e.1.codec.mar e.2
/-- The first octet of the element. -/
def code (e : IE) : UInt8 := e.mar.headD 0
/-- Well-formed elements. -/
def WF (e : IE) : Prop := e.1.codec.WF e.2
instance (e : IE) : Decidable e.WF := inferInstanceAs (Decidable (e.1.codec.WF e.2))
/-- The element as a value of the kind `k`. -/
def as (k : Kind) (e : IE) : Option k.Ty := if h : e.1 = k then some (h ▸ e.2) else none

@[simp] theorem as_mk (k : Kind) (i : k.Ty) : IE.as k ⟨k, i⟩ = some i := by simp [IE.as]
end IE

/-- One arm of the `match` on the type octet. -/
structure Arm (S : Type) where
  /-- The structure whose `unmarshal` is called. -/
  kind : Kind
  /-- The fields that take the first, second, ... element of this type. -/
  slots : List S
  /-- The second field is chosen by `if n < 2` (and not by a `match` on the number `n` found so far). -/
  lt2 : Bool
  /-- What is returned when `unmarshal` fails, from the number of elements of this type found so far
  and from the type of the last element; `none` stands for a panic. -/
  bad : Option UInt8 → UInt8 → Option Err

/-- The field for an element of this type: the first one when the type is not yet in the hash table,
otherwise chosen by the number `n` stored there.  `n` is 0 after 256 elements (release builds). -/
def Arm.slot {S : Type} (a : Arm S) : Option UInt8 → Option S
  | none => a.slots[0]?
  | some n => if n = 0 then (if a.lt2 then a.slots[1]? else none) else a.slots[n.toNat]?

/-- `Err(_) => return Err(GTPV1Error::MessageOptionalIEIncorrect)`. -/
def badOptional : Option UInt8 → UInt8 → Option Err := fun _ _ => some .messageOptionalIEIncorrect

/-- `Err(_) => return Err(GTPV1Error::MessageMandatoryIEMissing)`. -/
def badMandatory : Option UInt8 → UInt8 → Option Err := fun _ _ => some .messageMandatoryIEMissing

/-- `if increment != t { MessageMandatoryIEMissing } else { MessageOptionalIEIncorrect }`
(createpdpctxreq.rs:482-488). -/
def badIfFirst (t : UInt8) : Option UInt8 → UInt8 → Option Err := fun _ inc =>
  if inc ≠ t then some .messageMandatoryIEMissing else some .messageOptionalIEIncorrect

/-- `match *msg_hash.get(&buffer[cursor]).unwrap() { i if i < 3 => .., _ => .. }`
(updatepdpctxreq.rs:481-484): a panic when the type is not in the table. -/
def badUnwrap : Option UInt8 → UInt8 → Option Err := fun n _ =>
  n.map fun i => if i < 3 then .messageMandatoryIEMissing else .messageOptionalIEIncorrect

/-- `if let Some(i) = self.x { i.marshal(buffer) }`. -/
def optOctets {α : Type} (f : α → Bytes) : Option α → Bytes
  | some i => f i
  | none => []

/-- A message: the structure `X`, the names `S` of its fields other than the header, and the tables. -/
structure Desc where
  X : Type
  S : Type
  [decX : DecidableEq X]
  [decS : DecidableEq S]
  /-- Message type. -/
  code : UInt8
  /-- The kind of each field. -/
  kind : S → Kind
  /-- The fields whose type in Rust is not an `Option`. -/
  mand : S → Bool
  /-- The arms of the `match` on the type octet. -/
  arms : List (UInt8 × Arm S)
  /-- The types looked up in the hash table at the end. -/
  mandatory : List UInt8
  /-- `default()`. -/
  dflt : X
  header : X → Header
  setHeader : Header → X → X
  /-- Assignment to a field. -/
  put : (s : S) → (kind s).Ty → X → X
  /-- The contents of a field; `none` for an absent optional field. -/
  view : X → (s : S) → Option (kind s).Ty
  /-- The octets that `marshal` appends behind those of the header. -/
  body : X → Bytes
  /-- The fields in the order in which they are written. -/
  order : List S
  /-- The type octet and the place among the elements of this type that belong to a field. -/
  place : S → UInt8 × Nat

namespace Desc

instance (d : Desc) : DecidableEq d.X := d.decX
instance (d : Desc) : DecidableEq d.S := d.decS

/-- The arm for a type octet. -/
def arm (d : Desc) (t : UInt8) : Option (Arm d.S) := d.arms.lookup t

/-- The local variables of the loop: `increment` (or `prev_ie`), `msg_hash` and `message`. -/
structure St (d : Desc) where
  inc : UInt8
  hash : UInt8 → Option UInt8
  x : d.X

/-- The number stored in the hash table for one more element of a type; `+ 1` in `u8`. -/
def bump (m : Mode) : Option UInt8 → R Err UInt8
  | none => .ok 1
  | some n => add8 m n 1

/-- Assignment of an element to a field, if there is one for it. -/
def store (d : Desc) (s : Option d.S) (e : IE) (x : d.X) : d.X :=
  match s with
  | none => x
  | some s => match e.as (d.kind s) with
    | some i => d.put s i x
    | none => x

/-- One more element of type `t` has been decoded as `e`. -/
def St.next {d : Desc} (st : St d) (t : UInt8) (a : Arm d.S) (n : UInt8) (e : IE) : St d :=
  ⟨t, fun c => if c = t then some n else st.hash c, d.store (a.slot (st.hash t)) e st.x⟩

/-- The loop (e.g. pdunotificationreq.rs:102-225) on the octets from the cursor to the end of the
buffer.  `fuel` bounds the number of iterations. -/
def scan (d : Desc) (m : Mode) : Nat → Bytes → St d → R Err (St d)
  | _, [], st => .ok st
  | 0, _ :: _, _ => .diverge
  | fuel + 1, t :: r, st =>
    if t < st.inc then .err .messageInvalidMessageFormat
    else match d.arm t with
      | none => .err .messageInvalidMessageFormat
      | some a => match a.kind.codec.unm m (t :: r) with
        | .ok i => do
          let n ← bump m (st.hash t)
          let l ← a.kind.codec.len m i
          scan d m fuel ((t :: r).drop l) (st.next t a n ⟨a.kind, i⟩)
        | .err _ => match a.bad (st.hash t) st.inc with
          | some e => .err e
          | none => .panic
        | .panic => .panic
        | .diverge => .diverge

/-- The variables before the loop. -/
def start (d : Desc) (h : Header) : St d := ⟨0, fun _ => none, d.setHeader h d.dflt⟩

/-- The check of the mandatory types behind the loop. -/
def finish (d : Desc) (st : St d) : R Err d.X :=
  if d.mandatory.all (fun c => (st.hash c).isSome) then .ok st.x else .err .messageMandatoryIEMissing

/-- `unmarshal` (e.g. pdunotificationreq.rs:85-239).  An iteration that makes progress consumes at least one
octet, so running out of fuel means an iteration without progress: the Rust loop never ends. -/
def unmarshal (d : Desc) (m : Mode) (b : Bytes) : R Err d.X := do
  let h ← Header.unmarshal m b
  if h.msgtype ≠ d.code then .err .messageIncorrectMessageType
  else
    let n ← Gtp.U.len8 m h.length
    if n ≤ b.length then
      let l ← h.len m
      let st ← d.scan m (b.length + 1) (b.drop l) (d.start h)
      d.finish st
    else .err .messageLengthError

/-- The contents of the buffer after `x.marshal(&mut buf)` (e.g. pdunotificationreq.rs:45-83). -/
def marshalInto (d : Desc) (buf : Bytes) (x : d.X) : Bytes :=
  setMsgLength1 (buf ++ (d.header x).marshal ++ d.body x)

/-- The element in a field. -/
def ie (d : Desc) (x : d.X) (s : d.S) : Option IE := (d.view x s).map fun i => ⟨d.kind s, i⟩

/-- The elements that are written, in order. -/
def ies (d : Desc) (x : d.X) : List IE := d.order.filterMap (d.ie x)

/-- What makes the tables of a message consistent with its structure. -/
structure Lawful (d : Desc) : Prop where
  view_put : ∀ s i x, d.view (d.put s i x) s = some i
  view_put_ne : ∀ s t i x, t ≠ s → d.view (d.put s i x) t = d.view x t
  header_put : ∀ s i x, d.header (d.put s i x) = d.header x
  header_set : ∀ h x, d.header (d.setHeader h x) = h
  view_set : ∀ h x s, d.view (d.setHeader h x) s = d.view x s
  set_header : ∀ x, d.setHeader (d.header x) x = x
  ext : ∀ x y, d.header x = d.header y → (∀ s, d.view x s = d.view y s) → x = y
  mand_view : ∀ x s, d.mand s = true → (d.view x s).isSome
  dflt_view : ∀ s, d.mand s = false → d.view d.dflt s = none
  body_eq : ∀ x, d.body x = d.order.flatMap fun s => optOctets (d.kind s).codec.mar (d.view x s)
  order_all : ∀ s, s ∈ d.order
  order_nodup : d.order.Nodup
  arm_place : ∀ s, ((d.arms.lookup (d.place s).1).map fun a => a.slots[(d.place s).2]?).getD none = some s
  arm_slots : ∀ p ∈ d.arms, d.order.filter (fun s => (d.place s).1 == p.1) = p.2.slots
  arm_kind : ∀ p ∈ d.arms, (∀ s ∈ p.2.slots, d.kind s = p.2.kind) ∧ (p.2.kind.code = p.1 ∨ p.2.kind = .Teid ∧ p.1 = 17) ∧
    0 < p.2.slots.length ∧ p.2.slots.length < 256 ∧ (p.2.lt2 = true → p.2.slots.length = 2) ∧
    ∀ i < p.2.slots.length, (p.2.slots[i]?).map d.place = some (p.1, i)

end Desc
end Gtp.C1
