import Verif.V2.Decoder

/-!
# GTPv2-C messages: what the 83 message types have in common

`src/gtpv2/messages/commons.rs` and the bodies of `Messages::marshal` and `Messages::unmarshal`, which are textually the
same in every message file up to the names of the type and of its type constant (`scripts/gen_msgs.py` checks this when it
generates the models). They are modelled once, over the parts that differ (`Codec`).

The second half is the specification side: a message is described by a list of slots, one per field of the Rust struct,
and a slot selects IEs from the list of decoded IEs.
-/

namespace Gtp.V2

/-- The parts of a message type that differ. -/
structure Codec (X : Type) where
  /-- The constant compared with `header.msgtype`. -/
  msgtype : UInt8
  /-- First octet of the body: `MIN_HEADER_LENGTH` (8), `MAX_HEADER_LENGTH` (12), or no body is read. -/
  start : Option Nat
  /-- `Default::default()`. -/
  dflt : X
  header : X → Header
  setHeader : X → Header → X
  tovec : X → List IE
  /-- `fromvec(&mut self, elements)`: `Ok(true)` becomes the updated message. -/
  fromvec : X → List IE → R Err X

namespace Codec

variable {X : Type}

/-- `Messages::marshal(&self, buffer: &mut Vec<u8>)` (e.g. echoreq.rs:44-49): the buffer afterwards. -/
def marshalInto (c : Codec X) (x : X) (buffer : Bytes) : Bytes :=
  let buffer := buffer ++ (c.header x).marshal
  let buffer := (c.tovec x).foldl (fun b e => b ++ e.marshal) buffer
  setMsgLength buffer

/-- `Messages::marshal` into an empty buffer. -/
def marshal (c : Codec X) (x : X) : Bytes := c.marshalInto x []

/-- `Messages::unmarshal(buffer: &[u8])` (e.g. echoreq.rs:51-77). -/
def unmarshal (c : Codec X) (m : Mode) (buffer : Bytes) : R Err X := do
  let h ← Header.unmarshal buffer
  let message := c.setHeader c.dflt h
  if h.msgtype ≠ c.msgtype then .err .messageIncorrectMessageType
  else
    match c.start with
    | none => return message
    | some start =>
      let offset := h.length.toNat + 4
      if offset ≤ buffer.length then
        let body ← sl buffer start offset
        let elements ← decoder m body
        c.fromvec message elements
      else .err .messageInvalidMessageFormat

end Codec

/-- `vec_by_ins` (commons.rs:28-32). -/
def vecByIns {α : Type} (getIns : α → UInt8) (ins : UInt8) (v : List α) : List α := v.filter fun x => getIns x == ins

/-! ## Slots -/

/-- The instances a slot accepts. -/
inductive Ins where
  | any
  | is (k : UInt8)
  | lt (k : UInt8)
deriving DecidableEq, Repr

def Ins.mem : Ins → UInt8 → Bool
  | .any, _ => true
  | .is k, i => i == k
  | .lt k, i => decide (i < k)

/-- What a field can hold and which of several matching IEs it gets. -/
inductive Card where
  /-- exactly one, the first -/
  | one
  /-- exactly one, the last -/
  | oneLast
  /-- at most one, the first -/
  | opt
  /-- at most one, the last -/
  | optLast
  /-- all of them -/
  | many
  /-- all of them, at least one with an instance among `need` -/
  | many1 (need : Ins)
  /-- at least one, but only the first is kept although the field is a list -/
  | manyFirst
deriving DecidableEq, Repr

/-- The message cannot do without it. -/
def Card.mandatory : Card → Bool
  | .one | .oneLast | .many1 _ | .manyFirst => true
  | _ => false

/-- A field of a message. -/
structure Slot where
  kind : Kind
  ins : Ins
  card : Card
deriving DecidableEq, Repr

namespace Slot

def accepts (s : Slot) (e : IE) : Bool := s.kind == e.kind && s.ins.mem e.ins

/-- The IEs of a list that end up in the slot. -/
def select (s : Slot) (els : List IE) : List IE :=
  let l := els.filter s.accepts
  match s.card with
  | .one | .opt | .manyFirst => l.take 1
  | .oneLast | .optLast => l.getLast?.toList
  | .many | .many1 _ => l

/-- The instances that satisfy a mandatory slot. -/
def needed (s : Slot) : Ins :=
  match s.card with
  | .many1 i => i
  | _ => s.ins

/-- There is nothing for the slot. -/
def lacks (s : Slot) (els : List IE) : Bool := !els.any fun e => s.kind == e.kind && s.needed.mem e.ins

/-- One more IE arrives. -/
def step (s : Slot) (cur : List IE) (e : IE) : List IE :=
  if s.accepts e then
    match s.card with
    | .one | .opt | .manyFirst => if cur.isEmpty then [e] else cur
    | .oneLast | .optLast => [e]
    | .many | .many1 _ => cur ++ [e]
  else cur

end Slot

/-- The slots of a message. -/
abbrev Schema := List Slot

namespace Schema

/-- The mandatory slots that get nothing. -/
def missing (sch : Schema) (els : List IE) : List Slot :=
  (sch.filter (·.card.mandatory)).filter (·.lacks els)

def step (sch : Schema) (cs : List (List IE)) (e : IE) : List (List IE) :=
  List.zipWith (fun s c => s.step c e) sch cs

end Schema

theorem Slot.foldl_step (s : Slot) (els : List IE) : ∀ cur, els.foldl s.step cur =
    match s.card with
    | .one | .opt | .manyFirst => if cur.isEmpty then (els.filter s.accepts).take 1 else cur
    | .oneLast | .optLast => match (els.filter s.accepts).getLast? with | some e => [e] | none => cur
    | .many | .many1 _ => cur ++ els.filter s.accepts := by
  induction els with
  | nil => intro cur; cases s.card <;> cases cur <;> simp
  | cons e els ih =>
    intro cur
    rw [List.foldl_cons, ih]
    unfold Slot.step
    cases ha : s.accepts e
    · simp [ha]
    · rw [List.filter_cons_of_pos ha]
      generalize els.filter s.accepts = l
      cases s.card <;> cases cur <;> cases l <;> simp [List.getLast?_cons]

theorem Slot.select_eq (s : Slot) (els : List IE) : els.foldl s.step [] = s.select els := by
  rw [Slot.foldl_step, Slot.select]
  generalize els.filter s.accepts = l
  cases s.card <;> cases l <;> simp [List.getLast?_cons]

theorem Slot.lacks_eq {s : Slot} (els : List IE) (h : s.needed = s.ins) : s.lacks els = (s.select els).isEmpty := by
  have e1 : s.lacks els = (els.filter s.accepts).isEmpty := by
    rw [Slot.lacks, h]
    show (!els.any s.accepts) = _
    induction els with
    | nil => rfl
    | cons e els ih => cases ha : s.accepts e <;> simp_all [List.filter_cons]
  rw [e1, Slot.select]
  generalize els.filter s.accepts = l
  cases s.card <;> cases l <;> simp [List.getLast?_cons]

theorem Schema.step_cons (s : Slot) (sch : Schema) (c : List IE) (cs : List (List IE)) (e : IE) :
    Schema.step (s :: sch) (c :: cs) e = s.step c e :: Schema.step sch cs e := rfl

/-- The slots are filled independently of each other. -/
theorem Schema.foldl_step (sch : Schema) : ∀ (els : List IE) (cs : List (List IE)), cs.length = sch.length →
    els.foldl (Schema.step sch) cs = List.zipWith (fun s c => els.foldl s.step c) sch cs := by
  intro els
  induction els with
  | nil =>
    intro cs h
    simp only [List.foldl_nil]
    induction sch generalizing cs with
    | nil => cases cs with | nil => rfl | cons _ _ => simp at h
    | cons s sch ih =>
      cases cs with
      | nil => simp at h
      | cons c cs => rw [List.zipWith_cons_cons, ← ih cs (by simpa using h)]
  | cons e els ih =>
    intro cs h
    rw [List.foldl_cons, ih _ (by simp [Schema.step, h])]
    clear ih
    induction sch generalizing cs with
    | nil => rfl
    | cons s sch ih =>
      cases cs with
      | nil => simp at h
      | cons c cs =>
        rw [Schema.step_cons, List.zipWith_cons_cons, List.zipWith_cons_cons, ih cs (by simpa using h), List.foldl_cons]

theorem Schema.foldl_nil (sch : Schema) (els : List IE) :
    els.foldl (Schema.step sch) (sch.map fun _ => []) = sch.map (·.select els) := by
  rw [Schema.foldl_step _ _ _ (by simp)]
  induction sch with
  | nil => rfl
  | cons s sch ih => rw [List.map_cons, List.zipWith_cons_cons, ih, List.map_cons, Slot.select_eq]

/-- An IE of a kind that no slot mentions changes nothing. -/
theorem Schema.step_other {sch : Schema} {e : IE} (h : (sch.all fun s => s.kind != e.kind) = true) :
    ∀ {cs : List (List IE)}, cs.length = sch.length → Schema.step sch cs e = cs := by
  induction sch with
  | nil => intro cs hl; cases cs with | nil => rfl | cons _ _ => simp at hl
  | cons s sch ih =>
    intro cs hl
    cases cs with
    | nil => simp at hl
    | cons c cs =>
      simp only [List.all_cons, Bool.and_eq_true, bne_iff_ne, ne_eq] at h
      rw [Schema.step_cons, ih h.2 (by simpa using hl)]
      simp [Slot.step, Slot.accepts, h.1]

theorem Slot.step_ne {s : Slot} {c : List IE} {e : IE} (h : (s.kind == e.kind) = false) : s.step c e = c := by
  simp [Slot.step, Slot.accepts, h]

theorem Slot.step_ins {s : Slot} {c : List IE} {e : IE} (h : s.ins.mem e.ins = false) : s.step c e = c := by
  simp [Slot.step, Slot.accepts, h]

theorem optV_isEmpty {α : Type} (f : α → IE) (o : Option α) : (optV f o).isEmpty = o.isNone := by cases o <;> rfl

theorem optV_inj {α : Type} {f : α → IE} (hf : ∀ a b, f a = f b → a = b) {x y : Option α} (h : optV f x = optV f y) : x = y := by
  cases x <;> cases y <;> simp [optV] at h ⊢
  exact hf _ _ h

theorem map_inj {α : Type} {f : α → IE} (hf : ∀ a b, f a = f b → a = b) : ∀ {x y : List α}, x.map f = y.map f → x = y
  | [], [], _ => rfl
  | [], _ :: _, h => by simp at h
  | _ :: _, [], h => by simp at h
  | a :: x, b :: y, h => by
    simp only [List.map_cons, List.cons.injEq] at h
    rw [hf _ _ h.1, map_inj hf h.2]

theorem cons_congr {α : Type} {a b : α} {l r : List α} (h : a = b) (h' : l = r) : a :: l = b :: r := by rw [h, h']

/-- A state machine whose view makes the step of the schema. -/
theorem foldl_view {S : Type} {sch : Schema} {view : S → List (List IE)} {step : S → IE → S} {P : S → Prop} {Q : IE → Prop}
    (h : ∀ s e, P s → Q e → view (step s e) = Schema.step sch (view s) e ∧ P (step s e)) :
    ∀ (els : List IE) (s : S), (∀ e ∈ els, Q e) → P s →
      view (els.foldl step s) = els.foldl (Schema.step sch) (view s) ∧ P (els.foldl step s) := by
  intro els
  induction els with
  | nil => intro s _ hp; exact ⟨rfl, hp⟩
  | cons e els ih =>
    intro s hq hp
    obtain ⟨h1, h2⟩ := h s e hp (hq e (by simp))
    rw [List.foldl_cons, List.foldl_cons, ← h1]
    exact ih _ (fun y hy => hq y (by simp [hy])) h2

/-- The content of a slot of this cardinality. -/
def Card.shape : Card → List IE → Prop
  | .one, l | .oneLast, l => ∃ e, l = [e]
  | .opt, l | .optLast, l => l.length ≤ 1
  | _, _ => True

/-- Every slot holds IEs of its kind, as many as its cardinality allows. -/
def Aligned : Schema → List (List IE) → Prop
  | [], [] => True
  | s :: sch, c :: cs => ((∀ e ∈ c, e.kind = s.kind) ∧ s.card.shape c) ∧ Aligned sch cs
  | _, _ => False

/-- IEs of the kinds whose type octet is looked at by `CreateSessionRequest::fromvec` carry their own type. -/
def TypeOk (e : IE) : Prop := e.kind ∈ [Kind.RatType, .Fteid, .Apn, .BearerContext] → e.t = e.wireType

/-- The message type `c` is described by the schema `sch` through the view `fields`. -/
structure Describes {X : Type} (c : Codec X) (sch : Schema) (fields : X → List (List IE)) : Prop where
  header_set : ∀ x h, c.header (c.setHeader x h) = h
  fields_set : ∀ x h, fields (c.setHeader x h) = fields x
  ext : ∀ x y, c.header x = c.header y → fields x = fields y → x = y
  shape : ∀ x, Aligned sch (fields x)
  tovec : ∀ x, c.tovec x = (fields x).flatten
  complete : ∀ h els, (∀ e ∈ els, TypeOk e) → sch.missing els = [] → ∃ y, c.fromvec (c.setHeader c.dflt h) els = .ok y ∧
    c.header y = h ∧ fields y = sch.map (·.select els)

/-- A message type that reports missing mandatory IEs. -/
def Reports {X : Type} (c : Codec X) (sch : Schema) : Prop :=
  ∀ h els, (∀ e ∈ els, TypeOk e) → sch.missing els ≠ [] → ∃ t, c.fromvec (c.setHeader c.dflt h) els = .err (.messageMandatoryIEMissing t)

/-- A message type whose report depends only on which mandatory IEs are missing. -/
def Settled {X : Type} (c : Codec X) (sch : Schema) : Prop :=
  ∀ h els els', (∀ e ∈ els, TypeOk e) → (∀ e ∈ els', TypeOk e) → (∀ s ∈ sch, s.card.mandatory = true → s.lacks els = s.lacks els') →
    sch.missing els ≠ [] → c.fromvec (c.setHeader c.dflt h) els = c.fromvec (c.setHeader c.dflt h) els'

/-- A message type that reports missing mandatory IEs by the type of one that is missing. -/
def ReportsType {X : Type} (c : Codec X) (sch : Schema) : Prop :=
  ∀ h els, (∀ e ∈ els, TypeOk e) → sch.missing els ≠ [] → ∃ s ∈ sch.missing els, ∃ t,
    c.fromvec (c.setHeader c.dflt h) els = .err (.messageMandatoryIEMissing t) ∧ kindOf t = s.kind

end Gtp.V2
