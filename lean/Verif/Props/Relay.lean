import Verif.Props.Resend
import Verif.Props.Msg

/-!
# C62: a decoded message can be sent on

A node that relays a GTPv2-C message decodes it into the struct of its type, and encodes the struct. The next node must decode the
header and the fields that the relay has decoded. The lengths are those of the new encoding (C15, C60), and IEs for which the struct
has no field are gone, nothing else may differ.

`Carries`, `MsgKind.fields` and `announced` are those of Verif/Props/Msg.lean, `IE.Good` and `IE.deep` those of C61.
-/

namespace Gtp.Props

open Gtp.V2

theorem deep_typeOk {e : IE} (h : TypeOk e) : TypeOk e.deep := by
  unfold TypeOk at *
  rw [IE.deep_kind, IE.deep_t, IE.deep_wireType]
  exact h

theorem accepts_deep (s : Slot) (e : IE) : s.accepts e.deep = s.accepts e := by
  rw [Slot.accepts, Slot.accepts, IE.deep_kind, IE.deep_ins]

theorem filter_deep (s : Slot) (els : List IE) : (els.map IE.deep).filter s.accepts = (els.filter s.accepts).map IE.deep := by
  rw [List.filter_map]
  congr 1
  exact List.filter_congr fun e _ => accepts_deep s e

/-- The lengths of the IEs play no role in the choice. -/
theorem select_deep (s : Slot) (els : List IE) : s.select (els.map IE.deep) = (s.select els).map IE.deep := by
  simp only [Slot.select, filter_deep]
  generalize els.filter s.accepts = l
  cases s.card <;> simp [List.map_take, List.getLast?_map, Option.toList_map]

theorem lacks_deep (s : Slot) (els : List IE) : s.lacks (els.map IE.deep) = s.lacks els := by
  simp only [Slot.lacks, List.any_map]
  congr 2
  funext e
  simp only [Function.comp, IE.deep_kind, IE.deep_ins]

theorem missing_deep (sch : Schema) (els : List IE) : sch.missing (els.map IE.deep) = sch.missing els := by
  simp only [Schema.missing, lacks_deep]

/-- What is selected is accepted and was there. -/
theorem select_mem {s : Slot} {els : List IE} {e : IE} (h : e ∈ s.select els) : e ∈ els ∧ s.accepts e = true := by
  have : e ∈ els.filter s.accepts := by
    unfold Slot.select at h
    split at h
    any_goals exact List.mem_of_mem_take h
    any_goals exact h
    all_goals
      simp only [Option.mem_toList] at h
      exact List.mem_of_getLast? h
  simpa using List.mem_filter.mp this

/-- The fields of a decoded message hold what their cardinality asks for. -/
theorem select_fits (els : List IE) : ∀ (sch : Schema), (∀ s ∈ sch, ∀ i, s.card = .many1 i → ∀ n, i.mem n = true → s.ins.mem n = true) →
    sch.missing els = [] → Fits sch (sch.map (·.select els))
  | [], _, _ => trivial
  | s :: sch, hn, h => by
    have h1 : s.card.mandatory = true → s.lacks els = false := fun hm => by
      cases hq : s.lacks els with
      | false => rfl
      | true =>
        have : s ∈ Schema.missing (s :: sch) els := List.mem_filter.mpr ⟨List.mem_filter.mpr ⟨by simp, hm⟩, hq⟩
        rw [h] at this
        cases this
    have h2 : Schema.missing sch els = [] := by
      refine List.eq_nil_iff_forall_not_mem.mpr fun t ht => ?_
      have : t ∈ Schema.missing (s :: sch) els := by
        obtain ⟨a, b⟩ := List.mem_filter.mp ht
        obtain ⟨c, d⟩ := List.mem_filter.mp a
        exact List.mem_filter.mpr ⟨List.mem_filter.mpr ⟨List.mem_cons_of_mem _ c, d⟩, b⟩
      rw [h] at this
      cases this
    refine ⟨⟨fun e he => (select_mem he).2, ?_⟩, select_fits els sch (fun t ht => hn t (by simp [ht])) h2⟩
    have hl : ∀ (hc : s.card ≠ .many1 s.needed), s.card.mandatory = true → (els.filter s.accepts) ≠ [] := by
      intro hc hm
      have h3 := h1 hm
      have h4 : s.needed = s.ins := by
        unfold Slot.needed at hc ⊢
        split
        · rename_i i hi; rw [hi] at hc; exact absurd rfl hc
        · rfl
      rw [Slot.lacks_eq els h4] at h3
      intro hq
      rw [Slot.select, hq] at h3
      revert h3
      cases s.card <;> simp
    have hi := hn s (by simp)
    have hsel := Slot.select.eq_1 s els
    cases hc : s.card with
    | one =>
      rw [hc] at hsel
      simp only at hsel ⊢
      rw [hsel]
      have := hl (by rw [hc]; intro hq; cases hq) (by rw [hc]; rfl)
      obtain ⟨a, l, hal⟩ := List.exists_cons_of_ne_nil this
      exact ⟨a, by rw [hal]; rfl⟩
    | oneLast =>
      rw [hc] at hsel
      simp only at hsel ⊢
      rw [hsel]
      have := hl (by rw [hc]; intro hq; cases hq) (by rw [hc]; rfl)
      exact ⟨_, by rw [List.getLast?_eq_some_getLast this]; rfl⟩
    | opt =>
      rw [hc] at hsel
      simp only at hsel ⊢
      rw [hsel, List.length_take]
      exact Nat.min_le_left _ _
    | optLast =>
      rw [hc] at hsel
      simp only at hsel ⊢
      rw [hsel]
      cases (els.filter s.accepts).getLast? <;> simp
    | many => trivial
    | many1 i =>
      rw [hc] at hsel
      simp only at hsel ⊢
      rw [hsel]
      have h3 := h1 (by rw [hc]; rfl)
      simp only [Slot.lacks, Slot.needed, hc, Bool.not_eq_false', List.any_eq_true, Bool.and_eq_true, beq_iff_eq] at h3
      obtain ⟨e, he, hk, hm⟩ := h3
      exact ⟨e, List.mem_filter.mpr ⟨he, by simp [Slot.accepts, hk, hi i hc _ hm]⟩, hm⟩
    | manyFirst =>
      rw [hc] at hsel
      simp only at hsel ⊢
      rw [hsel]
      have := hl (by rw [hc]; intro hq; cases hq) (by rw [hc]; rfl)
      obtain ⟨a, l, hal⟩ := List.exists_cons_of_ne_nil this
      rw [hal]; rfl

/-- The header of a received message can be encoded. -/
theorem headerSpec_fields {b : Bytes} {h : Header} (hh : headerSpec b = .ok h) : h.sqn.toNat < 2 ^ 24 ∧
    ∀ p, h.prio = some p → p.toNat < 16 ∧ h.teid ≠ none := by
  have o (i : Nat) : oct b i < 256 := UInt8.toNat_lt _
  have o4 := o 4
  have o5 := o 5
  have o6 := o 6
  have o8 := o 8
  have o9 := o 9
  have o10 := o 10
  have o11 := o 11
  unfold headerSpec at hh
  simp only at hh
  repeat' split at hh
  all_goals first | (cases hh; done) | skip
  all_goals
    have := (R.ok.inj hh).symm
    subst this
    refine ⟨by simp only [UInt32.toNat_ofNat']; omega, ?_⟩
    intro p hp
    first
      | (cases hp; done)
      | (have := (Option.some.inj hp).symm
         subst this
         refine ⟨by simp only [UInt8.toNat_ofNat']; omega, by simp⟩)

/-- Messages with the same header up to the length and the same IEs up to the lengths have the same encoding. -/
theorem marshal_congr {X : Type} {c : Codec X} {x y : X} (h : IE.encoder (c.tovec x) = IE.encoder (c.tovec y))
    (hh : { c.header x with length := 0 } = { c.header y with length := 0 }) : c.marshal x = c.marshal y := by
  have e (n : UInt16) : ({ c.header x with length := n } : Header) = { c.header y with length := n } := by
    have := congrArg (fun h : Header => { h with length := n }) hh
    exact this
  have hl : (c.header x).marshal.length = (c.header y).marshal.length := by
    rw [Header.marshal_length, Header.marshal_length]
    have := congrArg Header.teid hh
    simp only at this
    rw [this]
  have hr : (c.raw x).length = (c.raw y).length := by
    rw [Codec.raw, Codec.raw, List.length_append, List.length_append, hl, h]
  rw [c.marshal_eq, c.marshal_eq, e, hr, h]

/-- C62 (partial): a message that was decoded from any octets is encoded so that the next node decodes the same header, apart from the
length, which is the right one, and the same fields with the lengths of their IEs set, and encodes again to the same octets.
Missing: IEs that are not `Good` (see C61), a header with or without TEID where the message type wants the opposite
(`C62_violation_teid`), and more IEs than fit a message, which a decoder can find only in a message that fits. -/
theorem C62_relay_partial (m m' : Mode) (k : MsgKind) (b : Bytes) (h : Header) (els : List IE) (y : k.T) (hc : Carries m k b h els)
    (hk : k ∉ MsgKind.unchecked ∨ k.schema.missing els = []) (hy : k.codec.unmarshal m b = .ok y)
    (ht : k.codec.start = some (if h.teid.isSome then 12 else 8))
    (hf : ∀ c ∈ k.fields y, ∀ e ∈ c, e.Good ∧ e.marshal.length < 65536) (hs : (k.codec.marshal y).length ≤ 65539) :
    ∃ z, k.codec.unmarshal m' (k.codec.marshal y) = .ok z ∧
      k.codec.header z = { h with length := UInt16.ofNat ((k.codec.marshal y).length - 4) } ∧
      k.fields z = (k.fields y).map (·.map IE.deep) ∧ k.codec.marshal z = k.codec.marshal y := by
  have hd := k.describes
  obtain ⟨hf1, hf2⟩ := hc.fields hk hy
  have hmiss : k.schema.missing els = [] := hk.elim (fun hk => MsgKind.fromvec_ok hk hc.typeOk (hc.unmarshal ▸ hy)) id
  obtain ⟨y', hy', hyh, hyf⟩ := hd.complete h (els.map IE.deep)
    (by intro e he; obtain ⟨a, ha, rfl⟩ := List.mem_map.mp he; exact deep_typeOk (hc.typeOk a ha)) (by rw [missing_deep]; exact hmiss)
  have hyf' : k.fields y' = (k.fields y).map (·.map IE.deep) := by
    rw [hyf, hf1, List.map_map]
    refine List.map_congr_left fun s _ => ?_
    exact select_deep s els
  have htv : IE.encoder (k.codec.tovec y') = IE.encoder (k.codec.tovec y) := by
    rw [hd.tovec, hd.tovec, hyf', ← List.map_flatten, encoder_deep]
  have hhd : k.codec.header y' = k.codec.header y := by rw [hyh, hf2]
  have hraw : k.codec.raw y' = k.codec.raw y := by rw [Codec.raw, Codec.raw, hhd, htv]
  have hmar : k.codec.marshal y' = k.codec.marshal y := by rw [k.codec.marshal_eq, k.codec.marshal_eq, hraw, hhd, htv]
  obtain ⟨hh, hty, _, _, _, _, hdec⟩ := hc
  obtain ⟨hq1, hq2⟩ := headerSpec_fields hh
  have wf : MessageWF k y' := by
    refine ⟨?_, by rw [hyh]; exact hq1, by rw [hyh]; exact hq2, ?_, ?_, ?_, by rw [hmar]; exact hs⟩
    · rw [hyh]
      have := (header_type (by rw [C02_header_total_precise]; exact hh)).1
      exact UInt8.toNat_inj.mp (this.trans hty)
    · intro s hst
      rw [ht] at hst
      rw [hyh]
      exact (Option.some.inj hst).symm
    · rw [hyf]
      refine select_fits _ _ ?_ (by rw [missing_deep]; exact hmiss)
      intro s hs i hi n hn
      have := MsgKind.schema_needed k s hs
      rw [Slot.needed, hi] at this
      exact Ins.sub_mem this hn
    · intro c hcm e he
      rw [hyf'] at hcm
      obtain ⟨c', hc', rfl⟩ := List.mem_map.mp hcm
      obtain ⟨e', he', rfl⟩ := List.mem_map.mp he
      have hmem : e' ∈ els := by
        rw [hf1] at hc'
        obtain ⟨s, _, rfl⟩ := List.mem_map.mp hc'
        exact (select_mem he').1
      exact deep_WF _ e' (Nat.lt_succ_self _) (.inl (decoder_arms _ (Nat.lt_succ_self _) hdec e' hmem)) (hf c' hc' e' he').1 (hf c' hc' e' he').2
  have hz := C14_message_roundtrip_partial m' k y' wf
  rw [hmar] at hz
  refine ⟨_, hz, by rw [hd.header_set, hyh], by rw [hd.fields_set, hyf'], ?_⟩
  refine marshal_congr (by rw [hd.tovec, hd.fields_set, ← hd.tovec, htv]) ?_
  rw [hd.header_set, hyh, hf2]

/-- A detach notification with a recovery counter, for which the message has no field, a cause, and a detach type whose length is one
too large. -/
def relayExample : Bytes := [0x48, 149, 0, 24, 1, 2, 3, 4, 0, 0, 7, 0x50, 3, 0, 1, 0, 9, 2, 0, 2, 0, 16, 0, 150, 0, 2, 0, 1]

/-- Its header and IEs. -/
def relayHeader : Header := ⟨149, false, none, 24, some 0x01020304, 7⟩
def relayIes : List IE :=
  [.Recovery ⟨3, 1, 0, 9⟩, .Cause ⟨2, 2, 0, 16, false, false, false, none⟩, .DetachType ⟨150, 2, 0, .PsDetach⟩]

/-- What the relay and the next node make of it. -/
def relayStruct (n k : UInt16) : Msg.DetachNotification :=
  ⟨⟨149, false, none, n, some 0x01020304, 7⟩, ⟨2, 2, 0, 16, false, false, false, none⟩, some ⟨150, k, 0, .PsDetach⟩, []⟩

set_option maxRecDepth 20000 in
example : Carries .debug .DetachNotification relayExample relayHeader relayIes ∧ MsgKind.DetachNotification ∉ MsgKind.unchecked ∧
    Msg.DetachNotification.codec.unmarshal .debug relayExample = .ok (relayStruct 24 2) ∧
    MsgKind.DetachNotification.codec.start = some (if relayHeader.teid.isSome then 12 else 8) ∧
    (∀ c ∈ MsgKind.DetachNotification.fields (relayStruct 24 2), ∀ e ∈ c, e.Good ∧ e.marshal.length < 65536) ∧
    Msg.DetachNotification.codec.marshal (relayStruct 24 2) =
      [0x48, 149, 0, 19, 1, 2, 3, 4, 0, 0, 7, 0, 2, 0, 2, 0, 16, 0, 150, 0, 1, 0, 1] ∧
    Msg.DetachNotification.codec.unmarshal .release (Msg.DetachNotification.codec.marshal (relayStruct 24 2)) = .ok (relayStruct 19 1) := by
  refine ⟨⟨by decide +kernel, by decide +kernel, by decide +kernel, 12, rfl, by decide +kernel, by decide +kernel⟩, by decide +kernel,
    by decide +kernel, rfl, ?_, by decide +kernel, by decide +kernel⟩
  intro c hc e he
  have hq : e.marshal.length < 65536 := by
    have h : ∀ c ∈ MsgKind.DetachNotification.fields (relayStruct 24 2), ∀ e ∈ c, e.marshal.length < 65536 := by decide +kernel
    exact h c hc e he
  have hm : e ∈ [IE.Cause ⟨2, 2, 0, 16, false, false, false, none⟩, .DetachType ⟨150, 2, 0, .PsDetach⟩] := by
    have h : ∀ c ∈ MsgKind.DetachNotification.fields (relayStruct 24 2), ∀ e ∈ c,
      e ∈ [IE.Cause ⟨2, 2, 0, 16, false, false, false, none⟩, .DetachType ⟨150, 2, 0, .PsDetach⟩] := by decide +kernel
    exact h c hc e he
  simp only [List.mem_cons, List.not_mem_nil, or_false] at hm
  rcases hm with rfl | rfl <;> exact ⟨by simp [IE.Good, IE.GoodWith, IE.Faithful], hq⟩

/-- A detach notification with a header without TEID is accepted, its body is taken to start behind the twelfth octet, and it is sent
on with a header of eight octets, so that the next node looks for IEs in the middle of the cause. -/
theorem C62_violation_teid (m : Mode) :
    ∃ y, Msg.DetachNotification.codec.unmarshal m [0x40, 149, 0, 14, 0, 0, 7, 0, 2, 0, 2, 0, 2, 0, 2, 0, 16, 0] = .ok y ∧
      Msg.DetachNotification.codec.marshal y = [0x40, 149, 0, 10, 0, 0, 7, 0, 2, 0, 2, 0, 16, 0] ∧
      Msg.DetachNotification.codec.unmarshal m (Msg.DetachNotification.codec.marshal y) = .err (.ieInvalidLength 16) := by
  refine ⟨⟨⟨149, false, none, 14, none, 7⟩, ⟨2, 2, 0, 16, false, false, false, none⟩, none, []⟩, ?_⟩
  cases m <;> decide +kernel

/-- A UE registration query request whose IMSI has no digits is accepted and sent on with an IMSI of length 0, which the next node
rejects. -/
theorem C62_violation_imsi (m : Mode) :
    ∃ y, Msg.UeRegistrationQueryRequest.codec.unmarshal m [0x48, 158, 0, 13, 1, 2, 3, 4, 0, 0, 7, 0, 1, 0, 1, 0, 0xff] = .ok y ∧
      Msg.UeRegistrationQueryRequest.codec.marshal y = [0x48, 158, 0, 12, 1, 2, 3, 4, 0, 0, 7, 0, 1, 0, 0, 0] ∧
      Msg.UeRegistrationQueryRequest.codec.unmarshal m (Msg.UeRegistrationQueryRequest.codec.marshal y) = .err (.ieIncorrect 1) := by
  refine ⟨⟨⟨158, false, none, 13, some 0x01020304, 7⟩, ⟨1, 1, 0, []⟩, []⟩, ?_⟩
  cases m <;> decide +kernel

end Gtp.Props
