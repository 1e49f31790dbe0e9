import Verif.ErrText

/-!
# The texts of errors tell the errors apart (C93)

Two errors of a protocol have the same text only if they are the same error, and the type in the text of a GTPv2-C error is the type of the error.
-/

namespace Gtp.Props

/-- The number that the digits in a text spell. -/
def spelled (s : List Char) : Option Nat :=
  match s.filter fun c => '0' ≤ c && c ≤ '9' with
  | [] => none
  | d => some (d.foldl (fun n c => 10 * n + (c.toNat - '0'.toNat)) 0)

/-- The type that a GTPv2-C error carries. -/
def carried : V2.Err → Option UInt8
  | .ieInvalidLength t | .ieIncorrect t | .messageInvalidLength t | .messageMandatoryIEMissing t | .messageOptionalIEIncorrect t => some t
  | _ => none

theorem spelled_all (t : UInt8) : fmtU8 t ≠ [] ∧ (fmtU8 t).filter (fun c => '0' ≤ c && c ≤ '9') = fmtU8 t ∧
    (fmtU8 t).foldl (fun n c => 10 * n + (c.toNat - '0'.toNat)) 0 = t.toNat := by
  have key : ∀ n : Fin 256, fmtU8 (UInt8.ofNat n) ≠ [] ∧ (fmtU8 (UInt8.ofNat n)).filter (fun c => '0' ≤ c && c ≤ '9') = fmtU8 (UInt8.ofNat n) ∧
    (fmtU8 (UInt8.ofNat n)).foldl (fun n c => 10 * n + (c.toNat - '0'.toNat)) 0 = n := by decide +kernel
  have := key ⟨t.toNat, UInt8.toNat_lt t⟩
  rwa [UInt8.ofNat_toNat] at this

/-- C93: the number in the text of a GTPv2-C error is the type it carries; a text without a type has no number. -/
theorem C93_type (e : V2.Err) : spelled e.text = (carried e).map UInt8.toNat := by
  have ins : ∀ (t : UInt8) (p q : List Char), p.filter (fun c => '0' ≤ c && c ≤ '9') = [] → q.filter (fun c => '0' ≤ c && c ≤ '9') = [] →
      spelled (p ++ (fmtU8 t ++ q)) = some t.toNat := by
    intro t p q hp hq
    obtain ⟨h1, h2, h3⟩ := spelled_all t
    have pick : ∀ d : List Char, d ≠ [] → (match d with
      | [] => none
      | d => some (d.foldl (fun n c => 10 * n + (c.toNat - '0'.toNat)) 0)) = some (d.foldl (fun n c => 10 * n + (c.toNat - '0'.toNat)) 0) := by
      intro d hd
      cases d
      · exact absurd rfl hd
      · rfl
    unfold spelled
    rw [List.filter_append, List.filter_append, hp, hq, h2, List.nil_append, List.append_nil, pick _ h1, h3]
  cases e
  case ieInvalidLength t => exact ins t (txt _) (txt _) (by decide +kernel) (by decide +kernel)
  case ieIncorrect t => rw [V2.Err.text, ← List.append_nil (fmtU8 t), ins t _ _ (by decide +kernel) List.filter_nil, carried, Option.map_some]
  case messageInvalidLength t => rw [V2.Err.text, ← List.append_nil (fmtU8 t), ins t _ _ (by decide +kernel) List.filter_nil, carried, Option.map_some]
  case messageMandatoryIEMissing t => exact ins t (txt _) (txt _) (by decide +kernel) (by decide +kernel)
  case messageOptionalIEIncorrect t => exact ins t (txt _) (txt _) (by decide +kernel) (by decide +kernel)
  all_goals decide +kernel

/-- The constructor of an error, with the type left out. -/
def sort : V2.Err → V2.Err
  | .ieInvalidLength _ => .ieInvalidLength 0
  | .ieIncorrect _ => .ieIncorrect 0
  | .messageInvalidLength _ => .messageInvalidLength 0
  | .messageMandatoryIEMissing _ => .messageMandatoryIEMissing 0
  | .messageOptionalIEIncorrect _ => .messageOptionalIEIncorrect 0
  | e => e

theorem sort_text (e : V2.Err) : e.text.take 11 = (sort e).text.take 11 := by
  have pre : ∀ p a b : List Char, 11 ≤ p.length → (p ++ a).take 11 = (p ++ b).take 11 := by
    intro p a b h
    rw [List.take_append_of_le_length h, List.take_append_of_le_length h]
  cases e <;> first | rfl | exact pre _ _ _ (by decide +kernel)

/-- One of each constructor. -/
def sorts : List V2.Err := [.headerInvalidLength, .headerVersionNotSupported, .headerFlagError, .headerTypeMismatch, .mandatoryHeaderFlagError,
  .ieInvalidLength 0, .ieIncorrect 0, .messageInvalidLength 0, .messageNotSupported, .messageMandatoryIEMissing 0, .messageOptionalIEIncorrect 0,
  .messageInvalidMessageFormat, .messageIncorrectMessageType]

/-- C93, GTPv2-C: different errors have different texts. -/
theorem C93_v2 (e f : V2.Err) (h : e.text = f.text) : e = f := by
  have hs : sort e = sort f := by
    have key : ∀ a ∈ sorts, ∀ b ∈ sorts, a.text.take 11 = b.text.take 11 → a = b := by decide +kernel
    have mem : ∀ x : V2.Err, sort x ∈ sorts := by intro x; cases x <;> simp [sort, sorts]
    refine key _ (mem e) _ (mem f) ?_
    rw [← sort_text, ← sort_text, h]
  have hc : carried e = carried f := by
    have := (C93_type e).symm.trans ((congrArg spelled h).trans (C93_type f))
    exact Option.map_injective (fun a b => UInt8.toNat_inj.mp) this
  cases e <;> cases f <;> first | rfl | (cases hs; done) | (cases hc; rfl)

/-- All GTPv1 errors. -/
def sorts1 : List V1.Err := [.headerInvalidLength, .headerVersionNotSupported, .headerFlagError, .headerTypeMismatch, .mandatoryHeaderFlagError,
  .extHeaderInvalidLength, .extHeaderUnknown, .ieTypeMismatch, .ieInvalidLength, .ieIncorrect, .messageLengthError, .messageNotSupported,
  .messageMandatoryIEMissing, .messageOptionalIEIncorrect, .messageInvalidMessageFormat, .messageIncorrectMessageType]

/-- C93, GTPv1: different errors have different texts. -/
theorem C93_v1 (e f : V1.Err) (h : e.text = f.text) : e = f := by
  have key : ∀ a ∈ sorts1, ∀ b ∈ sorts1, a.text = b.text → a = b := by decide +kernel
  have mem : ∀ x : V1.Err, x ∈ sorts1 := by intro x; cases x <;> decide
  exact key e (mem e) f (mem f) h

example : (V2.Err.ieInvalidLength 87).text = "Invalid IE type 87 length".toList ∧ spelled (V2.Err.ieInvalidLength 87).text = some 87 := by decide +kernel

example : (V2.Err.messageMandatoryIEMissing 205).text = "Mandatory IE of type 205 missing".toList := by decide +kernel

example : V1.Err.text .ieIncorrect = "Incorrect IE".toList ∧ spelled (V1.Err.text .ieIncorrect) = none := by decide +kernel

end Gtp.Props
