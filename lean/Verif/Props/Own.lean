import Verif.V2.Own
import Verif.V2.Decoder
import Verif.Props.Append

/-!
# C72: an information element is decoded from its own octets

The second and third octets of an IE say how many octets follow the fourth one; what comes behind them belongs to the next IE.
The theorems say of which types the decoder reads nothing else, and give for each of the other types an IE that is only accepted
because of the octets behind it.
-/

namespace Gtp.Props
open Gtp.V2

/-- Octets that are exactly one IE of type `t`: four of header and as many as declared. -/
def Whole (t : UInt8) (own : Bytes) : Prop :=
  ∃ h l i body, own = t :: h :: l :: i :: body ∧ body.length = 256 * h.toNat + l.toNat

/-- The IE types of which the decoder reads only what the IE declares as its own. -/
def selfContained : List UInt8 :=
  [1, 2, 51, 71, 74, 75, 76, 77, 78, 79, 84, 85, 116, 118, 119, 125, 136, 151, 163, 184, 187, 193, 197, 215, 216, 219, 254] ++
  [93, 109, 180, 181, 191, 195, 208, 209, 214] ++
  [0, 98, 101, 102, 122, 130, 161] ++ (List.range 47).map (fun n => UInt8.ofNat (n + 4)) ++ [52, 53, 54, 55] ++
  (List.range 14).map (fun n => UInt8.ofNat (n + 57)) ++ (List.range 34).map (fun n => UInt8.ofNat (n + 220))

theorem selfContained_kind : ∀ t : UInt8, (kindOf t).contained = decide (t ∈ selfContained) := by decide +kernel

theorem contained_open : ∀ t ∈ selfContained, t ∉ openTypes := by decide +kernel

theorem Whole.declLen {t : UInt8} {own r : Bytes} (h : Whole t own) : own.length = (V2.declLen (own ++ r)).toNat + 4 := by
  obtain ⟨h, l, i, body, rfl, hb⟩ := h
  have : (V2.declLen (t :: h :: l :: i :: body ++ r)) = of16 h l := rfl
  rw [this]
  simp only [List.length_cons, hb, of16]
  have h1 := h.toNat_lt
  have h2 := l.toNat_lt
  simp
  omega

/-- C72: an IE of one of the types of `selfContained` is accepted in front of any octets as exactly what it is on its own. -/
theorem C72_own_partial {m : Mode} {t : UInt8} {own r : Bytes} (hw : Whole t own) (ht : t ∈ selfContained) (p : IE × Nat) :
    decodeOne (decoder m) m (own ++ r) = .ok p ↔ decodeOne (decoder m) m own = .ok p := by
  have hk : (kindOf t).contained = true := by rw [selfContained_kind]; exact decide_eq_true ht
  constructor
  · intro h
    have hn := hw.declLen (r := r)
    have e := unmKind.own (b := own ++ r) (decoder m) m (kindOf t) hk hn
    rw [List.take_left] at e
    obtain ⟨h', l, i, body, rfl, -⟩ := hw
    simp only [decodeOne, List.cons_append, rd_zero, R.ok_bind] at h ⊢
    cases hx : unmKind (decoder m) m (t :: h' :: l :: i :: (body ++ r)) (kindOf t) with
    | ok x =>
      rw [hx] at h
      rw [e x hx]
      exact h
    | _ => rw [hx] at h; cases h
  · intro h
    obtain ⟨h', l, i, body, rfl, -⟩ := id hw
    exact C71_element_partial rfl (contained_open t ht) h

def zeros (n : Nat) : Bytes := List.replicate n 0

/-- Types of which an IE that declares no octets is accepted, and how many zero octets of the next IE it takes. -/
def takesZeros : List (UInt8 × Nat) :=
  [(3, 1), (56, 1), (72, 8), (73, 1), (80, 22), (81, 21), (82, 1), (83, 3), (88, 4), (89, 5), (92, 1), (94, 4), (95,
   2), (96, 34), (97, 1), (99, 1), (100, 1), (103, 19), (105, 21), (107, 55), (108, 44), (110, 9), (111, 4), (112, 4),
   (113, 1), (114, 2), (115, 6), (117, 10), (120, 3), (121, 9), (123, 5), (124, 9), (126, 2), (127, 1), (128, 1),
   (129, 17), (131, 1), (133, 1), (134, 1), (135, 1), (137, 1), (138, 3), (140, 1), (141, 2), (143, 1), (144, 2),
   (145, 8), (146, 1), (147, 4), (148, 1), (149, 1), (150, 1), (152, 1), (153, 1), (154, 2), (155, 1), (156, 1), (157,
   1), (158, 6), (159, 5), (160, 1), (162, 12), (164, 8), (165, 1), (166, 5), (167, 1), (168, 1), (169, 1), (170, 4),
   (171, 1), (173, 1), (174, 1), (178, 8), (179, 4), (182, 1), (183, 4), (185, 1), (186, 2), (188, 6), (189, 7), (190,
   2), (192, 2), (194, 1), (196, 4), (198, 4), (199, 5), (200, 2), (201, 27), (202, 1), (203, 1), (204, 20), (207, 4),
   (210, 2), (211, 4), (217, 8), (218, 1)]

/-- IEs of the other types, and octets behind them that are needed for their acceptance. -/
def takesMore : List (Bytes × Bytes) :=
  [([86, 0, 1, 0, 1], zeros 7),
   ([87, 0, 1, 0, 64], zeros 20),
   ([90, 0, 1, 0, 4], zeros 9),
   ([91, 0, 1, 0, 5], [4] ++ zeros 8),
   ([104, 0, 0, 0], [0, 16] ++ zeros 61),
   ([106, 0, 0, 0], [0, 16] ++ zeros 61),
   ([132, 0, 1, 0, 0], zeros 4),
   ([139, 0, 1, 0, 0], zeros 2),
   ([142, 0, 1, 0, 0], [0, 0, 0, 4, 0, 0, 0, 0, 4] ++ zeros 5),
   ([172, 0, 1, 0, 0], zeros 1),
   ([175, 0, 1, 0, 1], zeros 1),
   ([176, 0, 1, 0, 0], zeros 1),
   ([177, 0, 1, 0, 0], zeros 10),
   ([205, 0, 0, 0], [0, 0, 0, 0, 0, 0, 0, 0, 0, 0, 4] ++ zeros 4),
   ([206, 0, 1, 0, 0], zeros 5),
   ([212, 0, 1, 0, 0], zeros 9),
   ([213, 0, 1, 0, 1], zeros 4),
   ([255, 0, 2, 0, 0, 0], zeros 1)]

/-- IEs, each with octets that belong to the next IE. -/
def overreaders : List (Bytes × Bytes) := takesZeros.map (fun p => ([p.1, 0, 0, 0], zeros p.2)) ++ takesMore

def accepts (m : Mode) (b : Bytes) : Bool :=
  match decodeOne (decoder m) m b with
  | .ok _ => true
  | _ => false

def wholeB : Bytes → Bool
  | _ :: h :: l :: _ :: body => body.length = 256 * h.toNat + l.toNat
  | _ => false

theorem overreaders_spec : (overreaders.all fun p => wholeB p.1 && accepts .debug (p.1 ++ p.2) && accepts .release (p.1 ++ p.2) &&
    !accepts .debug p.1 && !accepts .release p.1) = true := by decide +kernel

theorem overreaders_types : ∀ t : UInt8, t ∉ selfContained → ∃ p ∈ overreaders, p.1.head? = some t := by decide +kernel

/-- C72 violated: of every type outside `selfContained` some IE is accepted only because of the octets behind it. -/
theorem C72_violation (m : Mode) {t : UInt8} (ht : t ∉ selfContained) :
    ∃ own r p, Whole t own ∧ decodeOne (decoder m) m (own ++ r) = .ok p ∧ ∀ q, decodeOne (decoder m) m own ≠ .ok q := by
  obtain ⟨⟨own, r⟩, hp, hh⟩ := overreaders_types t ht
  have hs := List.all_eq_true.mp overreaders_spec _ hp
  simp only [Bool.and_eq_true, Bool.not_eq_true'] at hs
  obtain ⟨⟨⟨⟨h0, h1⟩, h2⟩, h3⟩, h4⟩ := hs
  have a1 : accepts m (own ++ r) = true := by cases m <;> assumption
  have a2 : accepts m own = false := by cases m <;> assumption
  unfold accepts at a1 a2
  cases hd : decodeOne (decoder m) m (own ++ r) with
  | ok p =>
    refine ⟨own, r, p, ?_, hd, fun q hq => ?_⟩
    · match own, h0, hh with
      | a :: h :: l :: i :: body, h0, hh =>
        simp only [List.head?_cons, Option.some.injEq] at hh
        exact ⟨h, l, i, body, by rw [hh], of_decide_eq_true h0⟩
    · rw [hq] at a2
      cases a2
  | _ => rw [hd] at a1; cases a1

/-- C72 violated in a message body: a Recovery that declares no octets is accepted with the type octet of the IMSI behind it as its
value, and the decoder goes on in the middle of that IMSI. -/
theorem C72_violation_decoder : decodeOne (decoder .debug) .debug ([3, 0, 0, 0] ++ [1, 0, 1, 0, 0x21]) =
    .ok (.Recovery { t := 3, length := 0, ins := 0, recovery := 1 }, 5) := by decide +kernel

example : Whole 1 [1, 0, 1, 0, 0x21] ∧ 1 ∈ selfContained ∧ accepts .debug [1, 0, 1, 0, 0x21] = true :=
  ⟨⟨0, 1, 0, [0x21], rfl, rfl⟩, by decide +kernel, by decide +kernel⟩

end Gtp.Props
