import Verif.V2.Msg.Defaults

/-!
# Tactics for the generated message proofs
-/

namespace Gtp.V2

theorem Aligned.one {α : Type} {s : Slot} {f : α → IE} {a : α} {sch : Schema} {cs : List (List IE)} (hk : ∀ a, (f a).kind = s.kind)
    (h : Aligned sch cs) (hc : s.card = .one ∨ s.card = .oneLast := by simp) : Aligned (s :: sch) ([f a] :: cs) :=
  ⟨⟨by simp [hk], by rcases hc with h | h <;> rw [h] <;> exact ⟨_, rfl⟩⟩, h⟩

theorem Aligned.opt {α : Type} {s : Slot} {f : α → IE} {a : Option α} {sch : Schema} {cs : List (List IE)}
    (hk : ∀ a, (f a).kind = s.kind) (h : Aligned sch cs) (hc : s.card = .opt ∨ s.card = .optLast := by simp) :
    Aligned (s :: sch) (optV f a :: cs) :=
  ⟨⟨by cases a <;> simp [optV, hk], by rcases hc with h | h <;> rw [h] <;> cases a <;> simp [optV, Card.shape]⟩, h⟩

theorem Aligned.many {α : Type} {s : Slot} {f : α → IE} {a : List α} {sch : Schema} {cs : List (List IE)}
    (hk : ∀ a, (f a).kind = s.kind) (h : Aligned sch cs)
    (hc : (∃ i, s.card = .many1 i) ∨ s.card = .many ∨ s.card = .manyFirst := by simp) : Aligned (s :: sch) (a.map f :: cs) :=
  ⟨⟨by simp [hk], by rcases hc with ⟨i, h⟩ | h | h <;> rw [h] <;> trivial⟩, h⟩

theorem Schema.mem_missing {sch : Schema} {els : List IE} {s : Slot} {l : List Slot} (hl : sch.filter (·.card.mandatory) = l) (hs : s ∈ l)
    (h : s.lacks els = true) : s ∈ sch.missing els := by
  rw [Schema.missing, hl]
  exact List.mem_filter.mpr ⟨hs, h⟩

theorem Schema.of_missing_nil {sch : Schema} {els : List IE} {s : Slot} {l : List Slot} (hl : sch.filter (·.card.mandatory) = l)
    (hs : s ∈ l) (hm : sch.missing els = []) : s.lacks els = false := by
  rw [Schema.missing, hl, List.filter_eq_nil_iff] at hm
  simpa using hm s hs

theorem Schema.missing_nil {sch : Schema} {els : List IE} {l : List Slot} (hl : sch.filter (·.card.mandatory) = l)
    (h : ∀ s ∈ l, s.lacks els = false) : sch.missing els = [] := by
  rw [Schema.missing, hl, List.filter_eq_nil_iff]
  intro s hs
  simp [h s hs]

theorem optV_some {α : Type} (f : α → IE) (a : α) : optV f (some a) = [f a] := rfl
theorem optV_none {α : Type} (f : α → IE) : optV f none = [] := rfl

/-- One slot of the kind at hand, in one branch of an arm of `fromvec`. -/
syntax "msg_field" : tactic
macro_rules
  | `(tactic| msg_field) => `(tactic|
      first
        | exact Eq.symm (Slot.step_ins (decide_eq_false (by assumption)))
        | (simp_all [Slot.step, Slot.accepts, Ins.mem, IE.kind, IE.ins, optV_isEmpty, optV_some]; done))

end Gtp.V2
