import Verif.V2.Msg.All
import Verif.V2.Msg.TypeOk

/-!
# Lemmas on slots, message encoding and message decoding
-/

namespace Gtp.V2

theorem length_le_one {α : Type} {l : List α} (h : l.length ≤ 1) : l = [] ∨ ∃ a, l = [a] := by
  match l, h with
  | [], _ => exact .inl rfl
  | [a], _ => exact .inr ⟨a, rfl⟩

theorem length_eq_one {α : Type} {l : List α} (h : l.length = 1) : ∃ a, l = [a] := by
  match l, h with
  | [a], _ => exact ⟨a, rfl⟩

/-! ## Slots that do not compete for the same IE -/

/-- No instance satisfies both. -/
def Ins.disjoint : Ins → Ins → Bool
  | .is a, .is b => a != b
  | .is a, .lt k => !decide (a < k)
  | .lt k, .is a => !decide (a < k)
  | _, _ => false

theorem Ins.disjoint_mem {a b : Ins} {i : UInt8} (h : a.disjoint b = true) (ha : a.mem i = true) : b.mem i = false := by
  cases a <;> cases b <;> simp_all [Ins.disjoint, Ins.mem]
  rintro rfl
  simp_all [UInt8.le_iff_toNat_le, UInt8.lt_iff_toNat_lt]
  omega

def Slot.disjoint (s t : Slot) : Bool := s.kind != t.kind || s.ins.disjoint t.ins

def Schema.disjoint : Schema → Bool
  | [] => true
  | s :: sch => sch.all s.disjoint && Schema.disjoint sch

/-- No two slots of a message compete for the same IE. -/
theorem MsgKind.schema_disjoint : ∀ k : MsgKind, k.schema.disjoint = true := by
  have : MsgKind.all.all (fun k => k.schema.disjoint) = true := by decide +kernel
  exact fun k => List.all_eq_true.mp this k (MsgKind.mem_all k)

/-- What makes a mandatory slot present is something the slot accepts. -/
def Ins.sub : Ins → Ins → Bool
  | _, .any => true
  | .is a, .is b => a == b
  | .is a, .lt k => decide (a < k)
  | .lt a, .lt k => decide (a ≤ k)
  | _, _ => false

theorem Ins.sub_mem {a b : Ins} {i : UInt8} (h : a.sub b = true) (ha : a.mem i = true) : b.mem i = true := by
  cases a <;> cases b <;> simp_all [Ins.sub, Ins.mem]
  simp_all [UInt8.le_iff_toNat_le, UInt8.lt_iff_toNat_lt]
  omega

theorem MsgKind.schema_needed : ∀ k : MsgKind, ∀ s ∈ k.schema, s.needed.sub s.ins = true := by
  have : MsgKind.all.all (fun k => k.schema.all fun s => s.needed.sub s.ins) = true := by decide +kernel
  exact fun k s hs => List.all_eq_true.mp (List.all_eq_true.mp this k (MsgKind.mem_all k)) s hs

/-- Every slot holds IEs it accepts, and enough of them. -/
def Fits : Schema → List (List IE) → Prop
  | [], [] => True
  | s :: sch, c :: cs => ((∀ e ∈ c, s.accepts e = true) ∧
      (match s.card with
        | .one | .oneLast => ∃ e, c = [e]
        | .opt | .optLast => c.length ≤ 1
        | .many => True
        | .many1 i => ∃ e ∈ c, i.mem e.ins = true
        | .manyFirst => c.length = 1)) ∧ Fits sch cs
  | _, _ => False

theorem Fits.reject {s : Slot} : ∀ {sch : Schema} {cs : List (List IE)}, Fits sch cs → (sch.all s.disjoint) = true →
    ∀ e ∈ cs.flatten, s.accepts e = false
  | [], [], _, _, e, he => by simp at he
  | t :: sch, c :: cs, h, hd, e, he => by
    simp only [List.all_cons, Bool.and_eq_true] at hd
    rw [List.flatten_cons, List.mem_append] at he
    rcases he with he | he
    · have ha := h.1.1 e he
      by_cases hs : s.accepts e = true
      · exfalso
        simp only [Slot.accepts, Bool.and_eq_true, beq_iff_eq] at ha hs
        have hk : s.kind = t.kind := hs.1.trans ha.1.symm
        have hd1 := hd.1
        simp only [Slot.disjoint, hk, bne_self_eq_false, Bool.false_or] at hd1
        have := Ins.disjoint_mem hd1 hs.2
        rw [ha.2] at this
        cases this
      · simpa using hs
    · exact Fits.reject h.2 hd.2 e he
  | [], _ :: _, h, _, _, _ => h.elim
  | _ :: _, [], h, _, _, _ => h.elim

theorem Fits.filter {pre : List IE} : ∀ {sch : Schema} {cs : List (List IE)}, Fits sch cs → sch.disjoint = true →
    (∀ s ∈ sch, ∀ e ∈ pre, s.accepts e = false) → sch.map (fun s => (pre ++ cs.flatten).filter s.accepts) = cs
  | [], [], _, _, _ => rfl
  | s :: sch, c :: cs, h, hd, hp => by
    simp only [Schema.disjoint, Bool.and_eq_true] at hd
    have h1 : pre.filter s.accepts = [] := List.filter_eq_nil_iff.mpr (by
      intro e he
      simp [hp s (by simp) e he])
    have h2 : c.filter s.accepts = c := List.filter_eq_self.mpr h.1.1
    have h3 : cs.flatten.filter s.accepts = [] := List.filter_eq_nil_iff.mpr (by
      intro e he
      simp [Fits.reject h.2 hd.1 e he])
    rw [List.map_cons]
    refine cons_congr ?_ ?_
    · rw [List.filter_append, h1, List.flatten_cons, List.filter_append, h2, h3]
      simp
    · rw [List.flatten_cons, ← List.append_assoc]
      refine Fits.filter h.2 hd.2 ?_
      intro t ht e he
      rw [List.mem_append] at he
      rcases he with he | he
      · exact hp t (by simp [ht]) e he
      · have hst : s.disjoint t = true := List.all_eq_true.mp hd.1 t ht
        have ha := h.1.1 e he
        by_cases hs : t.accepts e = true
        · exfalso
          simp only [Slot.accepts, Bool.and_eq_true, beq_iff_eq] at ha hs
          have hk : s.kind = t.kind := ha.1.trans hs.1.symm
          simp only [Slot.disjoint, hk, bne_self_eq_false, Bool.false_or] at hst
          have := Ins.disjoint_mem hst ha.2
          rw [hs.2] at this
          cases this
        · simpa using hs
  | [], _ :: _, h, _, _ => h.elim
  | _ :: _, [], h, _, _ => h.elim

/-- Sorting the IEs of a message into its slots gives the fields back. -/
theorem Fits.select {sch : Schema} {cs : List (List IE)} (h : Fits sch cs) (hd : sch.disjoint = true) :
    sch.map (·.select cs.flatten) = cs := by
  have hf := Fits.filter (pre := []) h hd (by simp)
  simp only [List.nil_append] at hf
  generalize cs.flatten = els at hf
  clear hd
  induction sch generalizing cs with
  | nil => cases cs with | nil => rfl | cons _ _ => exact h.elim
  | cons s sch ih =>
    cases cs with
    | nil => exact h.elim
    | cons c cs =>
      simp only [List.map_cons, List.cons.injEq] at hf ⊢
      refine ⟨?_, ih h.2 hf.2⟩
      rw [Slot.select, hf.1]
      have hc := h.1.2
      cases hk : s.card <;> rw [hk] at hc <;> simp only at hc ⊢
      · obtain ⟨e, rfl⟩ := hc; rfl
      · obtain ⟨e, rfl⟩ := hc; rfl
      · exact List.take_of_length_le hc
      · rcases length_le_one hc with rfl | ⟨e, rfl⟩ <;> rfl
      · exact List.take_of_length_le (Nat.le_of_eq hc)

theorem Fits.missing {sch : Schema} {cs : List (List IE)} {els : List IE} (h : Fits sch cs) (he : ∀ e ∈ cs.flatten, e ∈ els) :
    sch.missing els = [] := by
  induction sch generalizing cs with
  | nil => rfl
  | cons s sch ih =>
    cases cs with
    | nil => exact h.elim
    | cons c cs =>
      have hm := ih h.2 fun e hq => he e (by rw [List.flatten_cons]; exact List.mem_append_right _ hq)
      have hs : s.card.mandatory = true → s.lacks els = false := by
        intro hk
        have hc := h.1.2
        have ha := h.1.1
        have hin : ∀ e ∈ c, e ∈ els := fun e hq => he e (by rw [List.flatten_cons]; exact List.mem_append_left _ hq)
        have key : ∀ e ∈ c, s.needed.mem e.ins = true → s.lacks els = false := by
          intro e hq hn
          have := ha e hq
          simp only [Slot.accepts, Bool.and_eq_true] at this
          simp only [Slot.lacks, Bool.not_eq_false']
          exact List.any_eq_true.mpr ⟨e, hin e hq, by simp only [Bool.and_eq_true]; exact ⟨this.1, hn⟩⟩
        have acc : ∀ e ∈ c, s.ins.mem e.ins = true := by
          intro e hq
          have := ha e hq
          simp only [Slot.accepts, Bool.and_eq_true] at this
          exact this.2
        cases hcd : s.card <;> rw [hcd] at hc hk <;> simp only [Card.mandatory, Bool.false_eq_true] at hk hc
        · obtain ⟨e, rfl⟩ := hc
          exact key e (by simp) (by simp only [Slot.needed, hcd]; exact acc e (by simp))
        · obtain ⟨e, rfl⟩ := hc
          exact key e (by simp) (by simp only [Slot.needed, hcd]; exact acc e (by simp))
        · obtain ⟨e, hq, hi⟩ := hc
          exact key e hq (by simp only [Slot.needed, hcd]; exact hi)
        · obtain ⟨e, rfl⟩ := length_eq_one hc
          exact key e (by simp) (by simp only [Slot.needed, hcd]; exact acc e (by simp))
      unfold Schema.missing at hm ⊢
      rw [List.filter_cons]
      by_cases hk : s.card.mandatory = true
      · rw [if_pos hk, List.filter_cons, hs hk]
        simpa using hm
      · rw [if_neg hk]; exact hm

/-! ## Encoding -/

theorem foldl_append_marshal (l : List IE) : ∀ b : Bytes, l.foldl (fun b e => b ++ e.marshal) b = b ++ IE.encoder l := by
  induction l with
  | nil => intro b; simp [IE.encoder]
  | cons e l ih => intro b; rw [List.foldl_cons, ih]; simp [IE.encoder]

/-- The octets of a message before the length is filled in. -/
def Codec.raw {X : Type} (c : Codec X) (x : X) : Bytes := (c.header x).marshal ++ IE.encoder (c.tovec x)

theorem Codec.marshalInto_eq {X : Type} (c : Codec X) (x : X) (b : Bytes) : c.marshalInto x b = setMsgLength (b ++ c.raw x) := by
  simp only [Codec.marshalInto, Codec.raw]
  rw [foldl_append_marshal, List.append_assoc]

theorem Header.marshal_cons (h : Header) : h.marshal = h.flags :: h.msgtype :: hi16 h.length :: lo16 h.length ::
    ((match h.teid with | some i => be32 i | none => []) ++ be24 h.sqn ++ (match h.prio with | some i => [i <<< 4] | none => [0])) := by
  obtain ⟨_, _, p, _, t, _⟩ := h
  cases p <;> cases t <;> simp [Header.marshal, be16]

theorem Header.marshal_length (h : Header) : h.marshal.length = if h.teid.isSome then 12 else 8 := by
  obtain ⟨_, _, p, _, t, _⟩ := h
  cases p <;> cases t <;> simp [Header.marshal, be16, be24, be32]

theorem setMsgLength_length (b : Bytes) : (setMsgLength b).length = b.length := put16_length _ _ _

/-- The length field is the only thing `set_msg_length` changes. -/
theorem setMsgLength_header (h : Header) (r : Bytes) :
    setMsgLength (h.marshal ++ r) = ({ h with length := UInt16.ofNat (h.marshal.length + r.length - 4) } : Header).marshal ++ r := by
  have hl : (h.marshal ++ r).length - 4 = h.marshal.length + r.length - 4 := by simp
  rw [Header.marshal_cons] at hl ⊢
  rw [Header.marshal_cons]
  simp only [List.cons_append, setMsgLength_cons]
  simp only [List.cons.injEq, lenU16, and_true]
  refine ⟨rfl, trivial, ?_, ?_⟩ <;> congr 2 <;> simp

theorem Codec.marshal_eq {X : Type} (c : Codec X) (x : X) : c.marshal x =
    ({ c.header x with length := UInt16.ofNat ((c.raw x).length - 4) } : Header).marshal ++ IE.encoder (c.tovec x) := by
  rw [Codec.marshal, Codec.marshalInto_eq, List.nil_append, Codec.raw, setMsgLength_header]
  simp

theorem Codec.marshal_length {X : Type} (c : Codec X) (x : X) : (c.marshal x).length = (c.raw x).length := by
  rw [Codec.marshal, Codec.marshalInto_eq, setMsgLength_length, List.nil_append]

/-! ## Decoding -/

theorem sl_append {ε : Type} {a b : Bytes} {i j : Nat} (hi : a.length = i) (hj : (a ++ b).length = j) :
    (sl (a ++ b) i j : R ε Bytes) = .ok b := by
  subst hi hj
  rw [sl, if_pos (by simp), List.take_of_length_le (Nat.le_refl _), List.drop_left]

/-- What `fromvec` does, for all message types that look for their mandatory IEs. -/
theorem MsgKind.fromvec_ok {k : MsgKind} (hk : k ∉ MsgKind.unchecked) {h : Header} {els : List IE} {y : k.T} (hq : ∀ e ∈ els, TypeOk e)
    (ho : k.codec.fromvec (k.codec.setHeader k.codec.dflt h) els = .ok y) : k.schema.missing els = [] := by
  apply Classical.byContradiction
  intro hm
  obtain ⟨t, ht⟩ := k.reports hk h els hq hm
  rw [ht] at ho
  cases ho

/-- `fromvec` gives a message or an error. -/
theorem MsgKind.fromvec_total (k : MsgKind) (h : Header) (els : List IE) (hq : ∀ e ∈ els, TypeOk e) :
    (∃ y, k.codec.fromvec (k.codec.setHeader k.codec.dflt h) els = .ok y) ∨
    ∃ t, k.codec.fromvec (k.codec.setHeader k.codec.dflt h) els = .err (.messageMandatoryIEMissing t) := by
  by_cases hu : k ∈ MsgKind.unchecked
  · simp only [MsgKind.unchecked, List.mem_cons, List.not_mem_nil, or_false] at hu
    subst hu
    exact .inl ⟨_, rfl⟩
  by_cases hm : k.schema.missing els = []
  · obtain ⟨y, hy, _⟩ := k.describes.complete h els hq hm
    exact .inl ⟨y, hy⟩
  · exact .inr (k.reports hu h els hq hm)

theorem sl_eq {ε : Type} {b : Bytes} {i j : Nat} (hj : j ≤ b.length) :
    (sl b i j : R ε Bytes) = if i ≤ j then .ok ((b.take j).drop i) else .panic := by
  unfold sl
  by_cases h : i ≤ j <;> simp [h, hj]

/-- The decoder of a message with its checks in the open. -/
theorem Codec.unmarshal_eq {X : Type} (c : Codec X) (m : Mode) (b : Bytes) {h : Header} (hh : Header.unmarshal b = .ok h) :
    c.unmarshal m b =
      if h.msgtype ≠ c.msgtype then .err .messageIncorrectMessageType
      else match c.start with
        | none => .ok (c.setHeader c.dflt h)
        | some start =>
          if b.length < h.length.toNat + 4 then .err .messageInvalidMessageFormat
          else if h.length.toNat + 4 < start then .panic
          else (decoder m ((b.take (h.length.toNat + 4)).drop start)).bind fun els => c.fromvec (c.setHeader c.dflt h) els := by
  unfold Codec.unmarshal
  rw [hh, R.ok_bind]
  simp only
  by_cases h1 : h.msgtype = c.msgtype
  · simp only [h1, ne_eq, not_true_eq_false, if_false]
    cases c.start with
    | none => rfl
    | some start =>
      simp only
      by_cases h2 : h.length.toNat + 4 ≤ b.length
      · rw [if_pos h2, if_neg (by omega), sl_eq h2]
        by_cases h3 : start ≤ h.length.toNat + 4
        · rw [if_pos h3, if_neg (by omega)]; rfl
        · rw [if_neg h3, if_pos (by omega)]; rfl
      · rw [if_neg h2, if_pos (by omega)]
  · simp [h1]

end Gtp.V2
