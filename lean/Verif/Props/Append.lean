import Verif.V2.Append
import Verif.V2.Decoder
import Verif.V2.IESafe

/-!
# C71: octets behind an information element do not change it

A decoder takes an IE from the front of a buffer that contains the rest of the message. The theorems say for which types the rest
has no influence on an IE that is accepted without it, and that such IEs can be followed by anything.
-/

namespace Gtp.Props
open Gtp.V2

/-- The IE types whose decoders look for the end of the buffer instead of the declared end. -/
def openTypes : List UInt8 := [103, 104, 105, 106, 107, 108, 121, 129, 162, 177, 178]

/-- The same as variants of `InformationElement`. -/
def openKinds : List Kind :=
  [.MmContext, .TargetIdentification, .SourceIdentification, .MdtConfiguration, .PresenceReportingAreaAction,
   .PresenceReportingAreaInformation]

theorem openTypes_kind : ∀ t : UInt8, (kindOf t).openEnded = decide (t ∈ openTypes) := by decide +kernel

theorem openKinds_kind (k : Kind) (h : k ∉ openKinds) : k.openEnded = false := by
  cases k with
  | MmContext | TargetIdentification | SourceIdentification | MdtConfiguration | PresenceReportingAreaAction
  | PresenceReportingAreaInformation => exact absurd (by decide) h
  | _ => rfl

theorem decodeOne_append {m : Mode} {t : UInt8} {b r : Bytes} {p : IE × Nat} (h0 : b.head? = some t)
    (ht : (kindOf t).openEnded = false) (h : decodeOne (decoder m) m b = .ok p) : decodeOne (decoder m) m (b ++ r) = .ok p := by
  match b, h0 with
  | a :: b, h0 =>
    simp only [List.head?_cons, Option.some.injEq] at h0
    subst h0
    have e := unmKind.ext (b := a :: b) (r := r) (decoder m) m (kindOf a) ht
    simp only [decodeOne, List.cons_append, rd_zero, R.ok_bind] at h e ⊢
    cases hx : unmKind (decoder m) m (a :: b) (kindOf a) with
    | ok x =>
      rw [hx] at h
      rw [e x hx]
      exact h
    | _ => rw [hx] at h; cases h

/-- C71: an IE that is accepted at the end of a buffer is accepted in front of any octets, as the same IE of the same length.
Missing: the types of `openTypes` (`C71_violation`). -/
theorem C71_element_partial {m : Mode} {t : UInt8} {b r : Bytes} {p : IE × Nat} (h0 : b.head? = some t) (ht : t ∉ openTypes)
    (h : decodeOne (decoder m) m b = .ok p) : decodeOne (decoder m) m (b ++ r) = .ok p :=
  decodeOne_append h0 (by rw [openTypes_kind]; exact decide_eq_false ht) h

/-- The lengths of some IEs add up to `n`. -/
inductive Tiles (m : Mode) : List IE → Nat → Prop
  | nil : Tiles m [] 0
  | cons {x : IE} {xs : List IE} {k n : Nat} : x.len m = .ok k → Tiles m xs n → Tiles m (x :: xs) (k + n)

theorem Tiles.cons_inv {m : Mode} {x : IE} {xs : List IE} {n : Nat} (h : Tiles m (x :: xs) n) :
    ∃ k j, x.len m = .ok k ∧ Tiles m xs j ∧ n = k + j := by
  cases h with
  | cons h1 h2 => exact ⟨_, _, h1, h2, rfl⟩

theorem decoder_nil_inv {m : Mode} {b : Bytes} (h : decoder m b = .ok []) : b = [] := by
  rw [decoder_eq] at h
  by_cases hb : b = []
  · exact hb
  · rw [if_neg hb] at h
    cases h1 : decodeOne (decoder m) m b with
    | ok p =>
      obtain ⟨x, n⟩ := p
      rw [h1, R.ok_bind] at h
      simp only at h
      split at h
      · cases h
      · cases h2 : decoder m (b.drop n) with
        | ok l => rw [h2] at h; cases h
        | _ => rw [h2] at h; cases h
    | _ => rw [h1] at h; cases h

theorem decoder_cons_inv {m : Mode} {b : Bytes} {x : IE} {xs : List IE} (h : decoder m b = .ok (x :: xs)) :
    b ≠ [] ∧ ∃ n, n ≠ 0 ∧ decodeOne (decoder m) m b = .ok (x, n) ∧ decoder m (b.drop n) = .ok xs := by
  rw [decoder_eq] at h
  by_cases hb : b = []
  · rw [if_pos hb] at h
    cases h
  · rw [if_neg hb] at h
    cases h1 : decodeOne (decoder m) m b with
    | ok p =>
      obtain ⟨y, n⟩ := p
      rw [h1, R.ok_bind] at h
      simp only at h
      by_cases hn : n = 0
      · rw [if_pos hn] at h
        cases h
      · rw [if_neg hn] at h
        cases h2 : decoder m (b.drop n) with
        | ok l =>
          rw [h2] at h
          injection h with h
          injection h with h3 h4
          subst h3 h4
          exact ⟨hb, n, hn, rfl, h2⟩
        | _ => rw [h2] at h; cases h
    | _ => rw [h1] at h; cases h

theorem decodeOne_inv {m : Mode} {a : UInt8} {b : Bytes} {x : IE} {n : Nat} (h : decodeOne (decoder m) m (a :: b) = .ok (x, n)) :
    x.len m = .ok n ∧ x.kind = kindOf a := by
  simp only [decodeOne, rd_zero, R.ok_bind] at h
  have hp := unmKind_kind (decoder m) m (a :: b) (kindOf a)
  cases hx : unmKind (decoder m) m (a :: b) (kindOf a) with
  | ok y =>
    rw [hx] at h hp
    simp only [R.ok_bind] at h
    cases hl : y.len m with
    | ok k =>
      rw [hl] at h
      injection h with h
      injection h with h1 h2
      subst h1 h2
      exact ⟨hl, hp⟩
    | _ => rw [hl] at h; cases h
  | _ => rw [hx] at h; cases h

/-- C71: a sequence of IEs that fills its buffer is decoded to the same IEs in front of any other octets, and what follows them is
decoded as it is alone. Missing: sequences with a variant of `openKinds` (`C71_violation`). -/
theorem C71_sequence_partial {m : Mode} {xs : List IE} : ∀ {b : Bytes} (r : Bytes), decoder m b = .ok xs → Tiles m xs b.length →
    (∀ x ∈ xs, x.kind ∉ openKinds) → decoder m (b ++ r) = (do let ys ← decoder m r; return xs ++ ys) := by
  induction xs with
  | nil =>
    intro b r h _ _
    have hb := decoder_nil_inv h
    subst hb
    rw [List.nil_append]
    cases decoder m r <;> rfl
  | cons x xs ih =>
    intro b r h ht hk
    obtain ⟨hb, n, hn, h1, h2⟩ := decoder_cons_inv h
    obtain ⟨k, j, hl, ht2, hj⟩ := ht.cons_inv
    match b, hb with
    | a :: b, _ =>
      obtain ⟨hl', hkind⟩ := decodeOne_inv h1
      have hnk : n = k := by
        rw [hl] at hl'
        injection hl' with e
        exact e.symm
      subst hnk
      have ho : (kindOf a).openEnded = false := by
        rw [← hkind]
        exact openKinds_kind _ (hk x (List.mem_cons_self ..))
      have hd : ((a :: b).drop n).length = j := by rw [List.length_drop]; omega
      rw [decoder_step (by simp) (decodeOne_append rfl ho h1) hn, List.drop_append_of_le_length (by omega),
        ih r h2 (by rw [hd]; exact ht2) fun y hy => hk y (List.mem_cons_of_mem _ hy)]
      cases decoder m r <;> rfl

/-- IEs of the variants of `openKinds`, and octets behind them that change them. -/
def changed : List (Bytes × Bytes) :=
  [([107, 0, 55, 0, 16] ++ List.replicate 54 0, List.replicate 40 0),
   ([121, 0, 9, 0, 0] ++ List.replicate 8 1, [1, 1]),
   ([129, 0, 14, 0] ++ List.replicate 14 1, [1, 1]),
   ([162, 0, 12, 0] ++ List.replicate 10 0 ++ [0, 1], [7]),
   ([177, 0, 16, 0, 0, 0, 0, 1, 1, 0, 0, 0, 0, 0, 2, 0xf8, 0x10, 0, 1, 9], [0]),
   ([178, 0, 8, 0, 0, 0, 0, 4, 0, 0, 0, 4], [0, 0, 0, 0])]

/-- `own` is an IE of the variant `k` that fills its buffer, and `r` behind it makes something else of it. -/
def changesB (m : Mode) (k : Kind) (own r : Bytes) : Bool :=
  match decodeOne (decoder m) m own with
  | .ok (x, n) =>
    x.kind = k && n = own.length &&
      match decodeOne (decoder m) m (own ++ r) with
      | .ok (y, j) => y.marshal != x.marshal || j != n
      | _ => true
  | _ => false

theorem changed_spec : (openKinds.all fun k => changed.any fun p => changesB .debug k p.1 p.2 && changesB .release k p.1 p.2) = true := by
  decide +kernel

/-- C71 violated: each variant of `openKinds` has an IE that fills its buffer and that the octets of the next IE turn into something
else or make unacceptable. -/
theorem C71_violation (m : Mode) {k : Kind} (hk : k ∈ openKinds) : ∃ own r x, x.kind = k ∧
    decodeOne (decoder m) m own = .ok (x, own.length) ∧ decodeOne (decoder m) m (own ++ r) ≠ .ok (x, own.length) := by
  obtain ⟨⟨own, r⟩, -, h⟩ := List.any_eq_true.mp (List.all_eq_true.mp changed_spec k hk)
  have h : changesB m k own r = true := by
    rw [Bool.and_eq_true] at h
    cases m
    · exact h.1
    · exact h.2
  unfold changesB at h
  cases hd : decodeOne (decoder m) m own with
  | ok p =>
    obtain ⟨x, n⟩ := p
    rw [hd] at h
    simp only [Bool.and_eq_true, decide_eq_true_eq] at h
    obtain ⟨⟨h1, h2⟩, h3⟩ := h
    refine ⟨own, r, x, h1, by rw [hd, h2], fun he => ?_⟩
    rw [he, h2] at h3
    simp at h3
  | _ => rw [hd] at h; cases h

/-- What the IEs of an accepted buffer encode to. -/
def again (r : R Err (List IE)) : Option (List Bytes) :=
  match r with
  | .ok xs => some (xs.map IE.marshal)
  | _ => none

/-- C71 violated in the body of a message: a Target Identification is decoded at the end of it, and with a Recovery behind it the
message is rejected. -/
theorem C71_violation_decoder :
    again (decoder .debug [121, 0, 9, 0, 0, 1, 1, 1, 1, 1, 1, 1, 1]) = some [[121, 0, 9, 0, 0, 1, 1, 1, 1, 1, 1, 1, 1]] ∧
    again (decoder .debug [3, 0, 1, 0, 5]) = some [[3, 0, 1, 0, 5]] ∧
    again (decoder .debug ([121, 0, 9, 0, 0, 1, 1, 1, 1, 1, 1, 1, 1] ++ [3, 0, 1, 0, 5])) = none := by
  decide +kernel

/-- C71 violated without a sign of it: an MDT Configuration takes the type octet of the Recovery behind it as one of its own. -/
theorem C71_violation_silent :
    again (decoder .debug ([162, 0, 12, 0, 0, 0, 0, 0, 0, 0, 0, 0, 0, 0, 0, 1] ++ [3, 0, 1, 0, 5])) =
      some [[162, 0, 13, 0, 0, 0, 0, 0, 0, 0, 0, 0, 0, 0, 0, 1, 3], [3, 0, 1, 0, 5]] := by
  decide +kernel

/-- An IMSI and a Recovery in front of an Aggregate Maximum Bit Rate. -/
example : ∃ xs, decoder .debug [1, 0, 1, 0, 0x21, 3, 0, 1, 0, 5] = .ok xs ∧ Tiles .debug xs 10 ∧ (∀ x ∈ xs, x.kind ∉ openKinds) :=
  ⟨[.Imsi { t := 1, length := 1, ins := 0, imsi := ['1', '2'] }, .Recovery { t := 3, length := 1, ins := 0, recovery := 5 }],
    by decide +kernel, .cons (k := 5) (n := 5) rfl (.cons (k := 5) (n := 0) rfl .nil), by decide +kernel⟩

end Gtp.Props
