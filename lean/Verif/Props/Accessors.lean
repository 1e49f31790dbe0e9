import Verif.V2.PostType
import Verif.Props.IeErr
import Verif.Props.Instance
import Verif.Props.MsgTable

/-!
# The accessors of an IE, and the iterator over a message (C88, C89)

`get_type`, `get_ins` and `is_empty` of the trait `IEs` on what the decoder returns, and `Iterator for dyn Messages`.
-/

namespace Gtp.V2

/-- `is_empty` of the IEs (for example apn.rs:91-93 and mmctx.rs:133-142: the length field is 0) and of the IEs with an extended
type (specialiewithtypeext.rs:78-80). -/
def IE.isEmpty : IE → Bool
  | .SpecialIEWithTypeExt x => x.ie_type_ext == 0 || x.length == 0
  | x => x.length == 0

/-- `Iterator::next` of a message (messages/commons.rs:15-25): the item, and the message after the call. `next` builds the list of
IEs anew on every call and takes the last one off that list; the message itself stays as it is. -/
def Msg.next {M : Type} (tovec : M → List IE) (x : M) : Option IE × M :=
  if tovec x = [] then (none, x) else ((tovec x).getLast?, x)

end Gtp.V2

namespace Gtp.Props
open Gtp.V2

/-! ## C88: iterating over a message -/

/-- What an iterator yields in its first `n` calls, up to the first `None`. -/
def drain {M : Type} (next : M → Option IE × M) : Nat → M → List IE
  | 0, _ => []
  | n + 1, x => match next x with
    | (some e, y) => e :: drain next n y
    | (none, _) => []

/-- What one expects of an iterator over a message: its IEs, each once (here in the order of `pop`, last first), then the end. -/
def IteratesOver {M : Type} (next : M → Option IE × M) (tovec : M → List IE) (x : M) : Prop :=
  ∀ n, drain next n x = (tovec x).reverse.take n

theorem next_empty {M : Type} {tovec : M → List IE} {x : M} (h : tovec x = []) : Msg.next tovec x = (none, x) := by
  unfold Msg.next
  rw [if_pos h]

theorem next_some {M : Type} {tovec : M → List IE} {x : M} {l : List IE} {e : IE} (h : tovec x = l ++ [e]) :
    Msg.next tovec x = (some e, x) := by
  unfold Msg.next
  rw [h, if_neg (by simp), List.getLast?_append]
  rfl

/-- C88: what the iterator really yields: the last IE, as often as one asks for it. -/
theorem C88_repeats (k : MsgKind) (x : k.T) (l : List IE) (e : IE) (h : k.codec.tovec x = l ++ [e]) (n : Nat) :
    drain (Msg.next k.codec.tovec) n x = List.replicate n e := by
  induction n with
  | zero => rfl
  | succ n ih =>
    unfold drain
    rw [next_some h]
    exact congrArg (e :: ·) ih

/-- C88: a loop over a message ends only if the message has no IEs at all. -/
theorem C88_ends_iff (k : MsgKind) (x : k.T) :
    (∃ n, (drain (Msg.next k.codec.tovec) (n + 1) x).length ≤ n) ↔ k.codec.tovec x = [] := by
  constructor
  · rintro ⟨n, h⟩
    rcases List.eq_nil_or_concat (k.codec.tovec x) with h' | ⟨l, e, h'⟩
    · exact h'
    · rw [C88_repeats k x l e (by rw [h', List.concat_eq_append]), List.length_replicate] at h
      exact absurd h (by omega)
  · intro h
    refine ⟨0, ?_⟩
    unfold drain
    rw [next_empty h]
    exact Nat.le_refl 0

/-- C88 (what holds): the iterator runs over the IEs of a message exactly if there are none. Missing: all other messages. -/
theorem C88_iterates_partial (k : MsgKind) (x : k.T) :
    IteratesOver (Msg.next k.codec.tovec) k.codec.tovec x ↔ k.codec.tovec x = [] := by
  constructor
  · intro h
    rw [← C88_ends_iff]
    refine ⟨(k.codec.tovec x).length, ?_⟩
    rw [h, List.length_take, List.length_reverse]
    exact Nat.min_le_right _ _
  · intro h n
    rw [h]
    cases n with
    | zero => rfl
    | succ n =>
      unfold drain
      rw [next_empty h]
      rfl

/-- C88 violated: an Alert MME Acknowledge always carries its Cause, so a loop over it never ends. -/
theorem C88_violation (x : Msg.AlertMmeAcknowledge) (n : Nat) :
    (drain (Msg.next Msg.AlertMmeAcknowledge.codec.tovec) n x).length = n ∧
    ¬ IteratesOver (Msg.next Msg.AlertMmeAcknowledge.codec.tovec) Msg.AlertMmeAcknowledge.codec.tovec x := by
  have hne : Msg.AlertMmeAcknowledge.codec.tovec x ≠ [] := by
    show [IE.Cause x.cause] ++ _ ≠ []
    simp
  constructor
  · rcases List.eq_nil_or_concat (Msg.AlertMmeAcknowledge.codec.tovec x) with h | ⟨l, e, h⟩
    · exact absurd h hne
    · have := C88_repeats .AlertMmeAcknowledge x l e (by rw [← List.concat_eq_append]; exact h) n
      exact (congrArg List.length this).trans (List.length_replicate ..)
  · exact fun h => hne ((C88_iterates_partial .AlertMmeAcknowledge x).mp h)

/-- An Alert MME Acknowledge with a Cause and a Private Extension: three calls give the extension three times, the Cause never. -/
example : drain (Msg.next Msg.AlertMmeAcknowledge.codec.tovec) 3
      { Msg.AlertMmeAcknowledge.dflt with private_ext := [⟨255, 2, 0, 7, []⟩] } =
    List.replicate 3 (.PrivateExtension ⟨255, 2, 0, 7, []⟩) :=
  C88_repeats .AlertMmeAcknowledge _ [.Cause V2.Cause.dflt] _ rfl 3

/-! ## C89: what the accessors say about a decoded IE -/

/-- The first IE of a buffer and what the decoder of its type makes of it. -/
theorem decoder_head {m : Mode} {t : UInt8} {b : Bytes} {x : IE} {es : List IE} (h : decoder m (t :: b) = .ok (x :: es)) :
    unmKind (decoder m) m (t :: b) (kindOf t) = .ok x := by
  rw [decoder_eq, if_neg (by simp)] at h
  simp only [decodeOne, rd_zero, R.ok_bind] at h
  cases hx : unmKind (decoder m) m (t :: b) (kindOf t) with
  | ok y =>
    rw [hx] at h
    simp only [R.ok_bind] at h
    cases hn : y.len m with
    | ok n =>
      rw [hn] at h
      simp only [R.ok_bind, R.pure_eq] at h
      split at h
      · cases h
      · cases hr : decoder m ((t :: b).drop n) with
        | ok l =>
          rw [hr] at h
          injection h with h
          injection h with h1 h2
          rw [h1]
        | _ => rw [hr] at h; cases h
    | _ => rw [hn] at h; cases h
  | _ => rw [hx] at h; cases h

theorem typed_eq (t : UInt8) : (kindOf t).typed t = if t ∈ unassigned then 0 else if t = 115 then 83 else if t = 169 then 168
    else t := by
  have key : ∀ t : UInt8, (kindOf t).typed t = if t ∈ unassigned then 0 else if t = 115 then 83 else if t = 169 then 168
    else t := by decide +kernel
  exact key t

/-- C89: `get_type` of every IE that was read, from its type octet: that octet, but 0 for the types without a decoder, 83 (Serving
Network) for a Trace Reference, and 168 (Action Indication) for a TWAN Identifier (which is decoded as
an Action Indication). -/
theorem C89_type {m : Mode} {b : Bytes} {l : List (UInt8 × IE)} (h : Reads m b l) {t : UInt8} {x : IE} (hx : (t, x) ∈ l) :
    x.t = if t ∈ unassigned then 0 else if t = 115 then 83 else if t = 169 then 168 else t := by
  induction h with
  | nil => cases hx
  | @cons u b y ys n hy hn h0 hr ih =>
    rcases List.mem_cons.mp hx with hx | hx
    · injection hx with h1 h2
      subst h1 h2
      have := unmKind_typed (decoder m) m (t :: b) (kindOf t)
      rw [hy] at this
      rw [← typed_eq]
      exact this
    · exact ih hx

/-- The types that `get_type` does not report: Trace Reference, TWAN Identifier, and those without a decoder. -/
def mistyped : List UInt8 := [115, 169] ++ unassigned

/-- C89 (what holds): the type octet is reported unless it is one of `mistyped`. Missing: the types there (`C89_violation`). -/
theorem C89_type_partial {m : Mode} {b : Bytes} {l : List (UInt8 × IE)} (h : Reads m b l) {t : UInt8} {x : IE} (hx : (t, x) ∈ l) :
    x.t = t ↔ t ∉ mistyped ∨ t = 0 := by
  rw [C89_type h hx]
  have key : ∀ t : UInt8, (if t ∈ unassigned then 0 else if t = 115 then 83 else if t = 169 then 168 else t) = t ↔
      t ∉ mistyped ∨ t = 0 := by decide +kernel
  exact key t

/-- A Recovery is read as what it is. -/
example : Reads .debug [3, 0, 1, 0, 9] [(3, .Recovery ⟨3, 1, 0, 9⟩)] ∧ (3 : UInt8) ∉ mistyped :=
  ⟨.cons (n := 5) (by decide +kernel) rfl (by decide) .nil, by decide +kernel⟩

/-- C89 violated: a Trace Reference (115), a TWAN Identifier (169) and an IE of a type that the crate does not know (130). -/
theorem C89_violation (m : Mode) :
    decoder m [115, 0, 6, 0, 0x21, 0x63, 0x54, 0, 0, 1] = .ok [.TraceReference ⟨83, 6, 0, 123, 456, true, 1⟩] ∧
    decoder m [169, 0, 3, 0, 0, 1, 65] = .ok [.ActionIndication ⟨168, 3, 0, .NoAction⟩] ∧
    decoder m [130, 0, 1, 0, 9] = .ok [.Unknown ⟨0, 1, 0, [9]⟩] := by
  cases m <;> decide +kernel

theorem ext_post (m : Mode) (b : Bytes) : (SpecialIEWithTypeExt.unmarshal m b).Post fun x =>
    x.ie_type_ext = of16 (b.getD 4 0) (b.getD 5 0) := by
  unfold SpecialIEWithTypeExt.unmarshal
  refine Post_ite_any ?_ Post_err'
  refine Post_bind_any fun _ => Post_bind_any fun _ => ?_
  simp only [rd16, Post_bind, Post_rd, Post_pure]
  intro _ _
  rw [← Post_bind]
  refine Post_bind_any fun _ => Post_ite_any ?_ Post_err'
  exact Post_bind_any fun _ => rfl

theorem kind254 : ∀ t : UInt8, kindOf t = .SpecialIEWithTypeExt ↔ t = 254 := by decide +kernel

/-- C89: `is_empty` of a decoded IE says that the IE came with the length 0 — or, for an IE with an extended type, that this
extended type is 0. -/
theorem C89_empty {m : Mode} {t h l i : UInt8} {r : Bytes} {x : IE} {es : List IE}
    (hd : decoder m (t :: h :: l :: i :: r) = .ok (x :: es)) :
    x.isEmpty = true ↔ of16 h l = 0 ∨ t = 254 ∧ of16 (r.getD 0 0) (r.getD 1 0) = 0 := by
  have hx := decoder_head hd
  have hl := unmKind_length (decoder m) m (t :: h :: l :: i :: r) (kindOf t)
  have hk := unmKind_kind (decoder m) m (t :: h :: l :: i :: r) (kindOf t)
  rw [hx] at hl hk
  change x.length = of16 h l at hl
  change x.kind = kindOf t at hk
  by_cases ht : t = 254
  · rw [(kind254 t).mpr ht] at hx hk
    simp only [unmKind] at hx
    have he := ext_post m (t :: h :: l :: i :: r)
    cases hs : SpecialIEWithTypeExt.unmarshal m (t :: h :: l :: i :: r) with
    | ok s =>
      rw [hs] at hx he
      injection hx with hx
      subst hx
      change s.ie_type_ext = of16 (r.getD 0 0) (r.getD 1 0) at he
      change s.length = of16 h l at hl
      simp only [IE.isEmpty, Bool.or_eq_true, beq_iff_eq, he, hl, ht, true_and]
      exact Or.comm
    | _ => rw [hs] at hx; cases hx
  · have hne : x.isEmpty = (x.length == 0) := by
      cases x with
      | SpecialIEWithTypeExt s => exact absurd ((kind254 t).mp hk.symm) ht
      | _ => rfl
    rw [hne, beq_iff_eq, hl]
    simp [ht]

/-- An Indication without flags, an IE with the extended type 0, and one with the extended type 1. -/
example : (do let l ← decoder .debug [77, 0, 0, 0]; return l.map IE.isEmpty : R Err (List Bool)) = .ok [true] ∧
    (do let l ← decoder .debug [254, 0, 3, 0, 0, 0, 9]; return l.map IE.isEmpty : R Err (List Bool)) = .ok [true] ∧
    (do let l ← decoder .debug [254, 0, 3, 0, 0, 1, 9]; return l.map IE.isEmpty : R Err (List Bool)) = .ok [false] := by decide +kernel

end Gtp.Props
