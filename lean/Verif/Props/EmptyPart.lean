import Verif.V2.Empty
import Verif.V2.StableBase
import Verif.Props.CMsgRecv

/-! C100: a received part of a GTPv2-C information element calls itself empty exactly if the octets it was read from
carry nothing. -/

namespace Gtp.Props.EmptyPart
open Gtp Gtp.V2

/-- Four bits that add nothing to a country or network code: the digit zero, or no decimal digit at all. -/
def NoDigit (n : UInt8) : Prop := n = 0 ∨ 10 ≤ n

/-- The octets of a PLMN without a digit other than zero. -/
def PlmnBlank (a b c : UInt8) : Prop :=
  (NoDigit (a &&& 15) ∧ NoDigit (a >>> 4)) ∧ (NoDigit (b &&& 15) ∧ NoDigit (b >>> 4)) ∧ NoDigit (c &&& 15) ∧ NoDigit (c >>> 4)

/-- The first `n` octets are a blank PLMN and zeros. -/
def Blank (n : Nat) (b : Bytes) : Prop :=
  ∃ p q r, b.take n = p :: q :: r :: List.replicate (n - 3) 0 ∧ PlmnBlank p q r

/-- The first `n` octets are zeros. -/
def Zeros (n : Nat) (b : Bytes) : Prop := b.take n = List.replicate n 0

instance (n : UInt8) : Decidable (NoDigit n) := by unfold NoDigit; infer_instance
instance (a b c : UInt8) : Decidable (PlmnBlank a b c) := by unfold PlmnBlank; infer_instance

theorem noDigit_iff (n : UInt8) : NoDigit n ↔ (n < 10 → n = 0) := by
  have key : ∀ n : UInt8, NoDigit n ↔ (n < 10 → n = 0) := by decide +kernel
  exact key n

theorem digits3_zero (x y z : UInt8) :
    digitsVal [x, y, z] = 0 ↔ NoDigit x ∧ NoDigit y ∧ NoDigit z := by
  have e (n : Nat) (h : n < 65536) : UInt16.ofNat n = 0 ↔ n = 0 := by
    rw [← UInt16.toNat_inj]; simp; omega
  have z0 (x : UInt8) : x = 0 ↔ x.toNat = 0 := by rw [← UInt8.toNat_inj]; rfl
  have l0 (x : UInt8) : x < 10 ↔ x.toNat < 10 := by rw [UInt8.lt_iff_toNat_lt]; rfl
  simp only [noDigit_iff, digitsVal, List.filter]
  by_cases hx : x < 10 <;> by_cases hy : y < 10 <;> by_cases hz : z < 10 <;>
    simp only [hx, hy, hz, decide_true, decide_false, List.foldl, false_imp_iff, true_imp_iff, and_true, true_and, z0] <;>
    (rw [l0] at hx hy hz; rw [e _ (by omega)]) <;> first | omega | simp

theorem digits2_zero (x y : UInt8) : digitsVal [x, y] = 0 ↔ NoDigit x ∧ NoDigit y := by
  have e (n : Nat) (h : n < 65536) : UInt16.ofNat n = 0 ↔ n = 0 := by
    rw [← UInt16.toNat_inj]; simp; omega
  have z0 (x : UInt8) : x = 0 ↔ x.toNat = 0 := by rw [← UInt8.toNat_inj]; rfl
  have l0 (x : UInt8) : x < 10 ↔ x.toNat < 10 := by rw [UInt8.lt_iff_toNat_lt]; rfl
  simp only [noDigit_iff, digitsVal, List.filter]
  by_cases hx : x < 10 <;> by_cases hy : y < 10 <;>
    simp only [hx, hy, decide_true, decide_false, List.foldl, false_imp_iff, true_imp_iff, and_true, true_and, z0] <;>
    (rw [l0] at hx hy; rw [e _ (by omega)]) <;> first | omega | simp

theorem plmn_zero (a b c : UInt8) :
    ((mccMncDecode3 a b c).1 = 0 ∧ (mccMncDecode3 a b c).2.1 = 0) ↔ PlmnBlank a b c := by
  simp only [mccMncDecode3, PlmnBlank]
  rw [digits3_zero]
  by_cases h : b >>> 4 = 15
  · have : NoDigit (b >>> 4) := by rw [h]; decide
    simp [h, digits2_zero, show NoDigit 15 by decide]
    grind
  · simp [h, digits3_zero]
    grind

theorem of16_zero (a b : UInt8) : of16 a b = 0 ↔ a = 0 ∧ b = 0 := by
  have z0 (x : UInt8) : x = 0 ↔ x.toNat = 0 := by rw [← UInt8.toNat_inj]; rfl
  have := a.toNat_lt; have := b.toNat_lt
  rw [z0, z0, ← UInt16.toNat_inj]; simp [of16]; omega

theorem of32_zero (a b c d : UInt8) : of32 a b c d = 0 ↔ a = 0 ∧ b = 0 ∧ c = 0 ∧ d = 0 := by
  have z0 (x : UInt8) : x = 0 ↔ x.toNat = 0 := by rw [← UInt8.toNat_inj]; rfl
  have := a.toNat_lt; have := b.toNat_lt; have := c.toNat_lt; have := d.toNat_lt
  rw [z0, z0, z0, z0, ← UInt32.toNat_inj]; simp [of32]; omega

/-- Unfolds a decoder on a list with explicit octets and reduces emptiness to the octets. -/
macro "part_simp" h:ident "[" ls:Lean.Parser.Tactic.simpLemma,* "]" : tactic =>
  `(tactic| (simp [$ls,*, sl, slFrom, rd, rd16, rd24, rd32, mccMncDecode] at $h:ident; subst $h
             simp [$ls,*, Blank, Zeros, List.replicate, of16_zero, of32_zero, ← plmn_zero]))

/-- The first `n` octets are a blank PLMN, an octet and zeros. -/
def BlankButFourth (n : Nat) (b : Bytes) : Prop :=
  ∃ p q r a, b.take n = p :: q :: r :: a :: List.replicate (n - 4) 0 ∧ PlmnBlank p q r

/-- The first `n` octets are a blank PLMN, a fourth octet whose highest bit is set and whose two lowest bits are not,
and zeros. -/
def BlankShort (n : Nat) (b : Bytes) : Prop :=
  ∃ p q r a, b.take n = p :: q :: r :: a :: List.replicate (n - 4) 0 ∧ PlmnBlank p q r ∧ a >>> 7 = 1 ∧ a &&& 3 = 0

theorem cgi_empty {b : Bytes} {x : Cgi} (h : Cgi.unmarshal b = .ok x) : x.isEmpty = true ↔ Blank 7 b := by
  match b, h with
  | [], h | [_], h | [_, _], h | [_, _, _], h | [_, _, _, _], h | [_, _, _, _, _], h | [_, _, _, _, _, _], h => simp [Cgi.unmarshal] at h
  | p :: q :: r :: s :: t :: u :: v :: e, h =>
    part_simp h [Cgi.unmarshal, Cgi.isEmpty]
    try grind

theorem sai_empty {b : Bytes} {x : Sai} (h : Sai.unmarshal b = .ok x) : x.isEmpty = true ↔ Blank 7 b := by
  match b, h with
  | [], h | [_], h | [_, _], h | [_, _, _], h | [_, _, _, _], h | [_, _, _, _, _], h | [_, _, _, _, _, _], h => simp [Sai.unmarshal] at h
  | p :: q :: r :: s :: t :: u :: v :: e, h =>
    part_simp h [Sai.unmarshal, Sai.isEmpty]
    try grind

theorem rai_empty {b : Bytes} {x : Rai} (h : Rai.unmarshal b = .ok x) : x.isEmpty = true ↔ Blank 6 b := by
  match b, h with
  | [], h | [_], h | [_, _], h | [_, _, _], h | [_, _, _, _], h | [_, _, _, _, _], h => simp [Rai.unmarshal] at h
  | p :: q :: r :: s :: t :: u :: e, h =>
    part_simp h [Rai.unmarshal, Rai.isEmpty]
    try grind

theorem tai_empty {b : Bytes} {x : Tai} (h : Tai.unmarshal b = .ok x) : x.isEmpty = true ↔ Blank 5 b := by
  match b, h with
  | [], h | [_], h | [_, _], h | [_, _, _], h | [_, _, _, _], h => simp [Tai.unmarshal] at h
  | p :: q :: r :: s :: t :: e, h =>
    part_simp h [Tai.unmarshal, Tai.isEmpty]
    try grind

theorem ecgi_empty {b : Bytes} {x : Ecgi} (h : Ecgi.unmarshal b = .ok x) : x.isEmpty = true ↔ Blank 7 b := by
  match b, h with
  | [], h | [_], h | [_, _], h | [_, _, _], h | [_, _, _, _], h | [_, _, _, _, _], h | [_, _, _, _, _, _], h => simp [Ecgi.unmarshal] at h
  | p :: q :: r :: s :: t :: u :: v :: e, h =>
    part_simp h [Ecgi.unmarshal, Ecgi.isEmpty]
    try grind

theorem lai_empty {b : Bytes} {x : Lai} (h : Lai.unmarshal b = .ok x) : x.isEmpty = true ↔ Blank 5 b := by
  match b, h with
  | [], h | [_], h | [_, _], h | [_, _, _], h | [_, _, _, _], h => simp [Lai.unmarshal] at h
  | p :: q :: r :: s :: t :: e, h =>
    part_simp h [Lai.unmarshal, Lai.isEmpty]
    try grind

theorem menb_empty {b : Bytes} {x : MacroEnbId} (h : MacroEnbId.unmarshal b = .ok x) : x.isEmpty = true ↔ Blank 6 b := by
  match b, h with
  | [], h | [_], h | [_, _], h | [_, _, _], h | [_, _, _, _], h | [_, _, _, _, _], h => simp [MacroEnbId.unmarshal] at h
  | p :: q :: r :: s :: t :: u :: e, h =>
    part_simp h [MacroEnbId.unmarshal, MacroEnbId.isEmpty]
    try grind

theorem top_bit (a : UInt8) : a >>> 7 = 0 ∨ a >>> 7 = 1 := by
  have key : ∀ a : UInt8, a >>> 7 = 0 ∨ a >>> 7 = 1 := by decide +kernel
  exact key a

theorem emenb_empty {b : Bytes} {x : ExtMacroEnbId} (h : ExtMacroEnbId.unmarshal b = .ok x) :
    x.isEmpty = true ↔ Blank 6 b ∨ BlankShort 6 b := by
  match b, h with
  | [], h | [_], h | [_, _], h | [_, _, _], h | [_, _, _, _], h | [_, _, _, _, _], h => simp [ExtMacroEnbId.unmarshal] at h
  | p :: q :: r :: s :: t :: u :: e, h =>
    rcases top_bit s with hs | hs
    · have e0 : s = 0 → s &&& 3 = 0 := by rintro rfl; rfl
      part_simp h [ExtMacroEnbId.unmarshal, ExtMacroEnbId.isEmpty, hs, BlankShort]
      try grind
    · have e0 : s ≠ 0 := by rintro rfl; simp at hs
      part_simp h [ExtMacroEnbId.unmarshal, ExtMacroEnbId.isEmpty, hs, BlankShort, e0]
      try grind

theorem cell_empty {b : Bytes} {x : CellIdentifier} (h : CellIdentifier.unmarshal b = .ok x) : x.isEmpty = true ↔ Blank 8 b := by
  match b, h with
  | [], h | [_], h | [_, _], h | [_, _, _], h | [_, _, _, _], h | [_, _, _, _, _], h | [_, _, _, _, _, _], h | [_, _, _, _, _, _, _], h => simp [CellIdentifier.unmarshal] at h
  | p :: q :: r :: s :: t :: u :: v :: w :: e, h =>
    part_simp h [CellIdentifier.unmarshal, CellIdentifier.isEmpty]
    try grind

theorem gnb_empty {b : Bytes} {x : GNbIdentifier} (h : GNbIdentifier.unmarshal b = .ok x) : x.isEmpty = true ↔ BlankButFourth 11 b := by
  match b, h with
  | [], h | [_], h | [_, _], h | [_, _, _], h | [_, _, _, _], h | [_, _, _, _, _], h | [_, _, _, _, _, _], h | [_, _, _, _, _, _, _], h | [_, _, _, _, _, _, _, _], h | [_, _, _, _, _, _, _, _, _], h | [_, _, _, _, _, _, _, _, _, _], h => simp [GNbIdentifier.unmarshal] at h
  | p :: q :: r :: s :: t :: u :: v :: w :: y :: z :: k :: e, h =>
    part_simp h [GNbIdentifier.unmarshal, GNbIdentifier.isEmpty, BlankButFourth]
    try grind

theorem menbi_empty {b : Bytes} {x : V2.MacroEnbIdentifier} (h : V2.MacroEnbIdentifier.unmarshal b = .ok x) : x.isEmpty = true ↔ Blank 8 b := by
  match b, h with
  | [], h | [_], h | [_, _], h | [_, _, _], h | [_, _, _, _], h | [_, _, _, _, _], h | [_, _, _, _, _, _], h | [_, _, _, _, _, _, _], h => simp [V2.MacroEnbIdentifier.unmarshal] at h
  | p :: q :: r :: s :: t :: u :: v :: w :: e, h =>
    part_simp h [V2.MacroEnbIdentifier.unmarshal, V2.MacroEnbIdentifier.isEmpty, MacroEnbId.unmarshal, MacroEnbId.isEmpty, R.mapErr]
    try grind

theorem emenbi_empty {b : Bytes} {x : ExtendedMacroEnbIdentifier} (h : ExtendedMacroEnbIdentifier.unmarshal b = .ok x) :
    x.isEmpty = true ↔ Blank 8 b ∨ BlankShort 8 b := by
  match b, h with
  | [], h | [_], h | [_, _], h | [_, _, _], h | [_, _, _, _], h | [_, _, _, _, _], h | [_, _, _, _, _, _], h | [_, _, _, _, _, _, _], h => simp [ExtendedMacroEnbIdentifier.unmarshal] at h
  | p :: q :: r :: s :: t :: u :: v :: w :: e, h =>
    rcases top_bit s with hs | hs
    · have e0 : s = 0 → s &&& 3 = 0 := by rintro rfl; rfl
      part_simp h [ExtendedMacroEnbIdentifier.unmarshal, ExtendedMacroEnbIdentifier.isEmpty, ExtMacroEnbId.unmarshal, ExtMacroEnbId.isEmpty, R.mapErr, hs, BlankShort]
      try grind
    · have e0 : s ≠ 0 := by rintro rfl; simp at hs
      part_simp h [ExtendedMacroEnbIdentifier.unmarshal, ExtendedMacroEnbIdentifier.isEmpty, ExtMacroEnbId.unmarshal, ExtMacroEnbId.isEmpty, R.mapErr, hs, BlankShort, e0]
      try grind

theorem mngenb_empty {b : Bytes} {x : MacronGeNbIdentifier} (h : MacronGeNbIdentifier.unmarshal b = .ok x) : x.isEmpty = true ↔ Blank 9 b := by
  match b, h with
  | [], h | [_], h | [_, _], h | [_, _, _], h | [_, _, _, _], h | [_, _, _, _, _], h | [_, _, _, _, _, _], h | [_, _, _, _, _, _, _], h | [_, _, _, _, _, _, _, _], h => simp [MacronGeNbIdentifier.unmarshal] at h
  | p :: q :: r :: s :: t :: u :: v :: w :: y :: e, h =>
    part_simp h [MacronGeNbIdentifier.unmarshal, MacronGeNbIdentifier.isEmpty, MacroEnbId.unmarshal, MacroEnbId.isEmpty, R.mapErr]
    try grind

theorem engenb_empty {b : Bytes} {x : ExtendedGeNbIdentifier} (h : ExtendedGeNbIdentifier.unmarshal b = .ok x) :
    x.isEmpty = true ↔ Blank 9 b ∨ BlankShort 9 b := by
  match b, h with
  | [], h | [_], h | [_, _], h | [_, _, _], h | [_, _, _, _], h | [_, _, _, _, _], h | [_, _, _, _, _, _], h | [_, _, _, _, _, _, _], h | [_, _, _, _, _, _, _, _], h => simp [ExtendedGeNbIdentifier.unmarshal] at h
  | p :: q :: r :: s :: t :: u :: v :: w :: y :: e, h =>
    rcases top_bit s with hs | hs
    · have e0 : s = 0 → s &&& 3 = 0 := by rintro rfl; rfl
      part_simp h [ExtendedGeNbIdentifier.unmarshal, ExtendedGeNbIdentifier.isEmpty, ExtMacroEnbId.unmarshal, ExtMacroEnbId.isEmpty, R.mapErr, hs, BlankShort]
      try grind
    · have e0 : s ≠ 0 := by rintro rfl; simp at hs
      part_simp h [ExtendedGeNbIdentifier.unmarshal, ExtendedGeNbIdentifier.isEmpty, ExtMacroEnbId.unmarshal, ExtMacroEnbId.isEmpty, R.mapErr, hs, BlankShort, e0]
      try grind

theorem rnc_empty {b : Bytes} {x : RncIdentifier} (h : RncIdentifier.unmarshal b = .ok x) :
    x.isEmpty = true ↔ Blank 8 b ∧ b.length < 10 := by
  match b, h with
  | [], h | [_], h | [_, _], h | [_, _, _], h | [_, _, _, _], h | [_, _, _, _, _], h | [_, _, _, _, _, _], h | [_, _, _, _, _, _, _], h => simp [RncIdentifier.unmarshal] at h
  | [p, q, r, s, t, u, v, w], h =>
    part_simp h [RncIdentifier.unmarshal, RncIdentifier.isEmpty, Rai.unmarshal, Rai.isEmpty, R.mapErr]
    try grind
  | [p, q, r, s, t, u, v, w, _], h =>
    part_simp h [RncIdentifier.unmarshal, RncIdentifier.isEmpty, Rai.unmarshal, Rai.isEmpty, R.mapErr]
    try grind
  | p :: q :: r :: s :: t :: u :: v :: w :: y :: z :: e, h =>
    have hn : ¬ e.length + 1 + 1 + 1 + 1 + 1 + 1 + 1 + 1 + 1 + 1 < 10 := by omega
    part_simp h [hn, RncIdentifier.unmarshal, RncIdentifier.isEmpty, Rai.unmarshal, Rai.isEmpty, R.mapErr]
    try grind

theorem srnc_empty {b : Bytes} {x : SourceRncIdentifier} (h : SourceRncIdentifier.unmarshal b = .ok x) :
    x.isEmpty = true ↔ Blank 5 b ∧ b.length = 5 := by
  match b, h with
  | [], h | [_], h | [_, _], h | [_, _, _], h | [_, _, _, _], h => simp [SourceRncIdentifier.unmarshal, sl, mccMncDecode, rd, rd16] at h
  | [p, q, r, s, t], h =>
    part_simp h [SourceRncIdentifier.unmarshal, SourceRncIdentifier.isEmpty]
    try grind
  | [p, q, r, s, t, u], h => simp [SourceRncIdentifier.unmarshal] at h
  | p :: q :: r :: s :: t :: u :: v :: e, h =>
    have hn : ¬ e.length + 1 + 1 + 1 + 1 + 1 + 1 + 1 < 6 := by omega
    part_simp h [hn, SourceRncIdentifier.unmarshal, SourceRncIdentifier.isEmpty]
    try grind

theorem engnb_empty {b : Bytes} {x : EnGNbIdentifier} (h : EnGNbIdentifier.unmarshal b = .ok x) :
    x.isEmpty = false := by
  unfold EnGNbIdentifier.unmarshal at h
  split at h
  · obtain ⟨l, -, h⟩ := C1.ok_of_bind h
    obtain ⟨i, -, h⟩ := C1.ok_of_bind h
    obtain ⟨s, -, h⟩ := C1.ok_of_bind h
    obtain ⟨⟨m, n, d⟩, -, h⟩ := C1.ok_of_bind h
    simp only at h
    split at h
    · obtain ⟨t, -, h⟩ := C1.ok_of_bind h
      split at h
      · obtain ⟨e, -, h⟩ := C1.ok_of_bind h
        cases h
        simp [EnGNbIdentifier.isEmpty]
      · cases h
    · cases h
  · cases h

theorem sl_ok {b s : Bytes} {i j : Nat} (h : (sl b i j : R Err Bytes) = .ok s) :
    s = (b.drop i).take (j - i) ∧ i ≤ j ∧ j ≤ b.length := by
  unfold sl at h
  split at h
  · rename_i hc
    cases h
    exact ⟨by rw [List.drop_take], hc⟩
  · cases h

theorem zeros_add {m n : Nat} {b : Bytes} (h : m ≤ b.length) :
    Zeros (m + n) b ↔ b.take m = List.replicate m 0 ∧ (b.drop m).take n = List.replicate n 0 := by
  unfold Zeros
  rw [List.take_add, ← List.replicate_append_replicate]
  constructor
  · intro e
    exact List.append_inj e (by simp; omega)
  · rintro ⟨e1, e2⟩
    rw [e1, e2]

theorem triplet_empty {b : Bytes} {x : AuthTriplet} (h : AuthTriplet.unm b = .ok x) : x.isEmpty = true ↔ Zeros 28 b := by
  unfold AuthTriplet.unm at h
  split at h
  · rename_i hl
    obtain ⟨r, hr, h⟩ := C1.ok_of_bind h
    obtain ⟨s, hs, h⟩ := C1.ok_of_bind h
    obtain ⟨k, hk, h⟩ := C1.ok_of_bind h
    cases h
    obtain ⟨rfl, -, -⟩ := sl_ok hr
    obtain ⟨rfl, -, -⟩ := sl_ok hs
    obtain ⟨rfl, -, -⟩ := sl_ok hk
    rw [show 28 = 20 + 8 from rfl, zeros_add (by omega)]
    have := zeros_add (m := 16) (n := 4) (b := b) (by omega)
    unfold Zeros at this
    rw [this]
    simp only [AuthTriplet.isEmpty, Bool.and_eq_true, beq_iff_eq, List.drop_zero, Nat.sub_zero]
  · cases h

theorem lvc_ok {e : Err} {b s : Bytes} {i c : Nat} (h : rdLvC e b i = .ok (s, c)) :
    (b.drop i).take (c - i) = UInt8.ofNat s.length :: s ∧ s.length < 256 ∧ c = i + 1 + s.length ∧ c ≤ b.length := by
  unfold rdLvC at h
  obtain ⟨l, hl, h⟩ := C1.ok_of_bind h
  split at h
  · rename_i hc
    obtain ⟨t, ht, h⟩ := C1.ok_of_bind h
    cases h
    obtain ⟨rfl, -, h3⟩ := sl_ok ht
    have hlen : ((b.drop (i + 1)).take (i + 1 + l.toNat - (i + 1))).length = l.toNat := by simp; omega
    have hi : i < b.length := by omega
    have := l.toNat_lt
    refine ⟨?_, by omega, by omega, hc⟩
    rw [hlen, List.drop_eq_getElem_cons hi]
    rw [show i + 1 + l.toNat - i = (i + 1 + l.toNat - (i + 1)) + 1 by omega, List.take_succ_cons]
    unfold rd at hl
    rw [List.getElem?_eq_getElem hi] at hl
    cases hl
    simp
  · cases h

theorem rdN_ok {b s : Bytes} {k i c : Nat} (h : rdN k b i = .ok (s, c)) :
    s = (b.drop i).take k ∧ c = i + k ∧ i + k ≤ b.length := by
  unfold rdN at h
  obtain ⟨t, ht, h⟩ := C1.ok_of_bind h
  cases h
  obtain ⟨rfl, -, h3⟩ := sl_ok ht
  exact ⟨by simp, rfl, h3⟩

/-- A length and that many octets are nothing exactly if the octet of the length is zero. -/
theorem lvc_zero {e : Err} {b s : Bytes} {i c : Nat} (h : rdLvC e b i = .ok (s, c)) :
    s.length = 0 ↔ (b.drop i).take 1 = List.replicate 1 0 := by
  obtain ⟨h1, h2, h3, h4⟩ := lvc_ok h
  have e1 : (b.drop i).take 1 = [UInt8.ofNat s.length] := by
    have := congrArg (List.take 1) h1
    rw [List.take_take, show min 1 (c - i) = 1 by omega] at this
    simpa using this
  rw [e1]
  constructor
  · intro h; rw [h]; rfl
  · intro h
    have h : UInt8.ofNat s.length = 0 := by simpa using h
    have := congrArg UInt8.toNat h
    simp at this
    omega

theorem quintuplet_empty {b : Bytes} {x : AuthQuintuplet} (h : AuthQuintuplet.unm b = .ok x) :
    x.isEmpty = true ↔ Zeros 50 b := by
  unfold AuthQuintuplet.unm at h
  split at h
  · rename_i hl
    obtain ⟨r, hr, h⟩ := C1.ok_of_bind h
    obtain ⟨⟨s, c⟩, hs, h⟩ := C1.ok_of_bind h
    simp only at h
    split at h
    · obtain ⟨⟨k, c1⟩, hk, h⟩ := C1.ok_of_bind h
      obtain ⟨⟨i, c2⟩, hi, h⟩ := C1.ok_of_bind h
      obtain ⟨⟨a, c3⟩, ha, h⟩ := C1.ok_of_bind h
      cases h
      obtain ⟨rfl, -, -⟩ := sl_ok hr
      obtain ⟨-, -, k1, -⟩ := lvc_ok hs
      have k2 := lvc_zero hs
      obtain ⟨rfl, rfl, -⟩ := rdN_ok hk
      obtain ⟨rfl, rfl, -⟩ := rdN_ok hi
      obtain ⟨-, -, k5, k6⟩ := lvc_ok ha
      have k7 := lvc_zero ha
      have z1 := zeros_add (m := 49) (n := 1) (b := b) (by omega)
      have z2 := zeros_add (m := 33) (n := 16) (b := b) (by omega)
      have z3 := zeros_add (m := 17) (n := 16) (b := b) (by omega)
      have z4 := zeros_add (m := 16) (n := 1) (b := b) (by omega)
      unfold Zeros at z1 z2 z3 z4 ⊢
      rw [z1, z2, z3, z4]
      simp only [AuthQuintuplet.isEmpty, Bool.and_eq_true, beq_iff_eq, List.drop_zero, Nat.sub_zero]
      by_cases hz : s.length = 0
      · have hc : c = 17 := by omega
        subst hc
        rw [k7, ← k2]
      · constructor
        · rintro ⟨⟨⟨⟨a1, a2⟩, a3⟩, a4⟩, a5⟩; exact absurd a2 hz
        · rintro ⟨⟨⟨⟨a1, a2⟩, a3⟩, a4⟩, a5⟩; exact absurd (k2.mpr a2) hz
    · cases h
  · cases h

theorem quadruplet_empty {b : Bytes} {x : AuthQuadruplet} (h : AuthQuadruplet.unm b = .ok x) :
    x.isEmpty = true ↔ Zeros 50 b := by
  unfold AuthQuadruplet.unm at h
  split at h
  · rename_i hl
    obtain ⟨r, hr, h⟩ := C1.ok_of_bind h
    obtain ⟨⟨s, c⟩, hs, h⟩ := C1.ok_of_bind h
    obtain ⟨⟨a, c1⟩, ha, h⟩ := C1.ok_of_bind h
    simp only at h
    split at h
    · obtain ⟨⟨k, c2⟩, hk, h⟩ := C1.ok_of_bind h
      cases h
      obtain ⟨rfl, -, -⟩ := sl_ok hr
      obtain ⟨-, -, k1, -⟩ := lvc_ok hs
      have k2 := lvc_zero hs
      obtain ⟨-, -, k5, k6⟩ := lvc_ok ha
      have k7 := lvc_zero ha
      obtain ⟨rfl, rfl, hn⟩ := rdN_ok hk
      have z2 := zeros_add (m := 18) (n := 32) (b := b) (by omega)
      have z3 := zeros_add (m := 17) (n := 1) (b := b) (by omega)
      have z4 := zeros_add (m := 16) (n := 1) (b := b) (by omega)
      unfold Zeros at z2 z3 z4 ⊢
      rw [z2, z3, z4]
      simp only [AuthQuadruplet.isEmpty, Bool.and_eq_true, beq_iff_eq, List.drop_zero, Nat.sub_zero]
      by_cases hz : s.length = 0
      · have hc : c = 17 := by omega
        subst hc
        rw [← k7, ← k2]
        by_cases ha0 : a.length = 0
        · have hc1 : c1 = 18 := by omega
          subst hc1
          simp only [hz, ha0]
        · simp [ha0]
      · rw [← k2]
        simp [hz]
    · cases h
  · cases h

theorem ambr_empty {b : Bytes} {x : AmbrMM} (h : AmbrMM.unm b = .ok x) : x.isEmpty = true ↔ Zeros 8 b := by
  match b, h with
  | [], h | [_], h | [_, _], h | [_, _, _], h | [_, _, _, _], h | [_, _, _, _, _], h | [_, _, _, _, _, _], h
  | [_, _, _, _, _, _, _], h => simp [AmbrMM.unm] at h
  | p :: q :: r :: s :: t :: u :: v :: w :: e, h =>
    part_simp h [AmbrMM.unm, AmbrMM.isEmpty]
    try grind

/-- The key of an old security context is nothing, and of the first octet at most the lowest three bits and bit 6 are set. -/
theorem oldeps_empty {b : Bytes} {x : OldEpsSecurityContext} (h : OldEpsSecurityContext.unm b = .ok x) :
    x.isEmpty = true ↔ ∃ f, b.take 33 = f :: List.replicate 32 0 ∧ f &&& 0xb8 = 0 := by
  unfold OldEpsSecurityContext.unm at h
  obtain ⟨f, hf, h⟩ := C1.ok_of_bind h
  obtain ⟨t, rfl⟩ : ∃ t, b = f :: t := by
    cases b with
    | nil => cases hf
    | cons a t => exact ⟨t, by cases hf; rfl⟩
  have key : ∀ f : UInt8, (f &&& 0xb8 = 0 ↔ f >>> 7 = 0 ∧ (f &&& 0x38) >>> 3 = 0) := by decide +kernel
  split at h
  · rename_i h7
    split at h
    · obtain ⟨k, hk, h⟩ := C1.ok_of_bind h
      cases h
      obtain ⟨rfl, -, -⟩ := sl_ok hk
      simp only [OldEpsSecurityContext.isEmpty, Bool.and_eq_true, beq_iff_eq]
      constructor
      · rintro ⟨⟨h1, h2⟩, -⟩
        exact ⟨f, by simpa using h2, (key f).mpr ⟨h7, h1⟩⟩
      · rintro ⟨g, h1, h2⟩
        have h1 : f :: t.take 32 = g :: List.replicate 32 0 := h1
        obtain ⟨rfl, h1⟩ := List.cons.inj h1
        exact ⟨⟨((key f).mp h2).2, by simpa using h1⟩, rfl⟩
    · cases h
  · rename_i h7
    split at h
    · split at h
      · obtain ⟨k, hk, h⟩ := C1.ok_of_bind h
        obtain ⟨n, hn, h⟩ := C1.ok_of_bind h
        cases h
        simp only [OldEpsSecurityContext.isEmpty, Option.isNone_some, Bool.and_false, Bool.false_eq_true, false_iff]
        rintro ⟨g, h1, h2⟩
        have h1 : f :: t.take 32 = g :: List.replicate 32 0 := h1
        obtain ⟨rfl, h1⟩ := List.cons.inj h1
        exact h7 ((key f).mp h2).1
      · cases h
    · cases h

theorem rd_cons {b : Bytes} {i : Nat} {x : UInt8} (h : (rd b i : R Err UInt8) = .ok x) : b.drop i = x :: b.drop (i + 1) := by
  unfold rd at h
  split at h
  · rename_i hx
    cases h
    obtain ⟨hl, rfl⟩ := List.getElem?_eq_some_iff.mp hx
    exact List.drop_eq_getElem_cons hl
  · cases h

theorem rd16_zero {b : Bytes} {i : Nat} {v : UInt16} (h : (rd16 b i : R Err UInt16) = .ok v) :
    v = 0 ↔ (b.drop i).take 2 = List.replicate 2 0 := by
  obtain ⟨x, hx, h⟩ := C1.ok_of_bind h
  obtain ⟨y, hy, h⟩ := C1.ok_of_bind h
  cases h
  simp [rd_cons hx, rd_cons hy, of16_zero, List.replicate]

theorem rd32_zero {b : Bytes} {i : Nat} {v : UInt32} (h : (rd32 b i : R Err UInt32) = .ok v) :
    v = 0 ↔ (b.drop i).take 4 = List.replicate 4 0 := by
  obtain ⟨x, hx, h⟩ := C1.ok_of_bind h
  obtain ⟨y, hy, h⟩ := C1.ok_of_bind h
  obtain ⟨z, hz, h⟩ := C1.ok_of_bind h
  obtain ⟨w, hw, h⟩ := C1.ok_of_bind h
  cases h
  simp [rd_cons hx, rd_cons hy, rd_cons hz, rd_cons hw, of32_zero, List.replicate]

theorem lossy_nil {b : Bytes} : fromUtf8Lossy b = [] ↔ b = [] := by
  constructor
  · intro h
    unfold fromUtf8Lossy at h
    split at h
    · rename_i hs
      rw [← utf8_fromUtf8 hs, h]; rfl
    · cases b with
      | nil => rfl
      | cons a r => simp [lossyChars] at h
  · rintro rfl
    exact fromUtf8Lossy_utf8 []

theorem rate_empty {b : Bytes} {x : ApnRateControlStatusMM} (h : ApnRateControlStatusMM.unm b = .ok x) :
    x.isEmpty = true ↔ Zeros 22 (b.drop 2) := by
  unfold ApnRateControlStatusMM.unm at h
  split at h
  · obtain ⟨l, hl, h⟩ := C1.ok_of_bind h
    split at h
    · obtain ⟨n, hn, h⟩ := C1.ok_of_bind h
      split at h
      · obtain ⟨s, hs, h⟩ := C1.ok_of_bind h
        simp only at h
        split at h
        · rename_i hb
          obtain ⟨u, hu, h⟩ := C1.ok_of_bind h
          obtain ⟨e, he, h⟩ := C1.ok_of_bind h
          obtain ⟨d, hd, h⟩ := C1.ok_of_bind h
          obtain ⟨v, hv, h⟩ := C1.ok_of_bind h
          cases h
          obtain ⟨rfl, -, -⟩ := sl_ok hv
          obtain ⟨hs', -, hs2⟩ := sl_ok hs
          have hsl : s.length = n.toNat := by rw [hs']; simp; omega
          have hap : fromUtf8Lossy s = [] ↔ n.toNat = 0 := by rw [lossy_nil, ← List.length_eq_zero_iff, hsl]
          have h0 := rd16_zero hn
          have h1 := rd32_zero hu
          have h2 := rd32_zero he
          have h3 := rd32_zero hd
          have hlen : 22 ≤ (b.drop 2).length := by simp; omega
          have z1 := zeros_add (m := 14) (n := 8) (b := b.drop 2) (by omega)
          have z2 := zeros_add (m := 10) (n := 4) (b := b.drop 2) (by omega)
          have z3 := zeros_add (m := 6) (n := 4) (b := b.drop 2) (by omega)
          have z4 := zeros_add (m := 2) (n := 4) (b := b.drop 2) (by omega)
          unfold Zeros at z1 z2 z3 z4 ⊢
          rw [z1, z2, z3, z4]
          simp only [List.drop_drop, Nat.reduceAdd, ApnRateControlStatusMM.isEmpty, Bool.and_eq_true, beq_iff_eq, List.isEmpty_iff, hap]
          rw [← h0, h1, h2, h3]
          by_cases hz : n = 0
          · subst hz
            simp
          · have hz' : ¬ n.toNat = 0 := fun e => hz (UInt16.toNat_inj.mp e)
            simp [hz, hz']
        · cases h
      · cases h
    · cases h
  · cases h

theorem mapErr_ok {α : Type} {x : R Err α} {e : Err} {v : α} (h : x.mapErr e = .ok v) : x = .ok v := by
  cases x <;> simp [R.mapErr] at h ⊢
  exact h

/-- What the octets behind the type have to be for a target to carry nothing, by type. -/
def TargetBlank (v : UInt8) (b : Bytes) : Prop :=
  if v = 0 then Blank 8 b ∧ b.length < 10
  else if v = 1 ∨ v = 2 ∨ v = 3 then Blank 8 b
  else if v = 4 then Blank 8 b ∨ BlankShort 8 b
  else if v = 5 then BlankButFourth 11 b
  else if v = 6 then Blank 9 b
  else if v = 7 then Blank 9 b ∨ BlankShort 9 b
  else if v = 8 then False
  else True

theorem target_empty {v : UInt8} {b : Bytes} {x : TargetType} (h : TargetType.unmarshal (v :: b) = .ok x) :
    x.isEmpty = true ↔ TargetBlank v b := by
  unfold TargetType.unmarshal at h
  rw [rd_zero] at h
  obtain ⟨_, hv, h⟩ := C1.ok_of_bind h
  cases hv
  have hsl : (slFrom (v :: b) 1 : R Err Bytes) = .ok b := by simp [slFrom]
  rw [hsl] at h
  unfold TargetBlank
  repeat' (split at h)
  all_goals
    first
    | (obtain ⟨_, e, h⟩ := C1.ok_of_bind h
       cases e
       obtain ⟨i, e, h⟩ := C1.ok_of_bind h
       have e := mapErr_ok e
       cases h
       simp only [TargetType.isEmpty]
       first
       | (rw [rnc_empty e]; simp [*])
       | (rw [menbi_empty e]; simp [*])
       | (rw [cell_empty e]; simp [*])
       | (rw [emenbi_empty e]; simp [*])
       | (rw [gnb_empty e]; simp [*])
       | (rw [mngenb_empty e]; simp [*])
       | (rw [engenb_empty e]; simp [*])
       | (rw [engnb_empty e]; simp [*]))
    | (cases h; simp [TargetType.isEmpty, *])

theorem source_empty {v : UInt8} {b : Bytes} {x : SourceType} (h : SourceType.unmarshal (v :: b) = .ok x) :
    x.isEmpty = true ↔ if v = 0 then Blank 8 b else if v = 1 then Blank 5 b ∧ b.length = 5 else True := by
  unfold SourceType.unmarshal at h
  rw [rd_zero] at h
  obtain ⟨_, hv, h⟩ := C1.ok_of_bind h
  cases hv
  have hsl : (slFrom (v :: b) 1 : R Err Bytes) = .ok b := by simp [slFrom]
  rw [hsl] at h
  repeat' (split at h)
  all_goals
    first
    | (obtain ⟨_, e, h⟩ := C1.ok_of_bind h
       cases e
       obtain ⟨i, e, h⟩ := C1.ok_of_bind h
       have e := mapErr_ok e
       cases h
       simp only [SourceType.isEmpty]
       first
       | (rw [cell_empty e]; simp [*])
       | (rw [srnc_empty e]; simp [*]))
    | (cases h; simp [SourceType.isEmpty, *])

/-! ## C100 -/

/-- C100 for the parts of which it holds: cell, service area, routing area, tracking area and location area identities,
macro and cell identifiers, authentication vectors, bit rates and rate control. What is read from `b` calls itself empty
exactly if the PLMN has no digit other than zero and the remaining octets of the part are zero. An authentication vector
has no PLMN; the status of a rate control begins with its own length. -/
theorem C100_partial (b : Bytes) :
    (∀ x, Cgi.unmarshal b = .ok x → (x.isEmpty = true ↔ Blank 7 b)) ∧
    (∀ x, Sai.unmarshal b = .ok x → (x.isEmpty = true ↔ Blank 7 b)) ∧
    (∀ x, Rai.unmarshal b = .ok x → (x.isEmpty = true ↔ Blank 6 b)) ∧
    (∀ x, Tai.unmarshal b = .ok x → (x.isEmpty = true ↔ Blank 5 b)) ∧
    (∀ x, Ecgi.unmarshal b = .ok x → (x.isEmpty = true ↔ Blank 7 b)) ∧
    (∀ x, Lai.unmarshal b = .ok x → (x.isEmpty = true ↔ Blank 5 b)) ∧
    (∀ x, MacroEnbId.unmarshal b = .ok x → (x.isEmpty = true ↔ Blank 6 b)) ∧
    (∀ x, CellIdentifier.unmarshal b = .ok x → (x.isEmpty = true ↔ Blank 8 b)) ∧
    (∀ x, V2.MacroEnbIdentifier.unmarshal b = .ok x → (x.isEmpty = true ↔ Blank 8 b)) ∧
    (∀ x, MacronGeNbIdentifier.unmarshal b = .ok x → (x.isEmpty = true ↔ Blank 9 b)) ∧
    (∀ x, AuthTriplet.unm b = .ok x → (x.isEmpty = true ↔ Zeros 28 b)) ∧
    (∀ x, AuthQuintuplet.unm b = .ok x → (x.isEmpty = true ↔ Zeros 50 b)) ∧
    (∀ x, AuthQuadruplet.unm b = .ok x → (x.isEmpty = true ↔ Zeros 50 b)) ∧
    (∀ x, AmbrMM.unm b = .ok x → (x.isEmpty = true ↔ Zeros 8 b)) ∧
    (∀ x, ApnRateControlStatusMM.unm b = .ok x → (x.isEmpty = true ↔ Zeros 22 (b.drop 2))) :=
  ⟨fun _ => cgi_empty, fun _ => sai_empty, fun _ => rai_empty, fun _ => tai_empty, fun _ => ecgi_empty, fun _ => lai_empty,
    fun _ => menb_empty, fun _ => cell_empty, fun _ => menbi_empty, fun _ => mngenb_empty, fun _ => triplet_empty,
    fun _ => quintuplet_empty, fun _ => quadruplet_empty, fun _ => ambr_empty, fun _ => rate_empty⟩

/-- C100 for the parts that leave something out, with what they leave out: the flag and the spare bits of an extended
macro identifier, the length of a gNodeB identifier, the NCC of an old security context. An RNC identifier with an
extension is never empty, whatever its octets are, nor is an en-gNB identifier; a target or a source of a type that is not known always is. -/
theorem C100_exact (v : UInt8) (b : Bytes) :
    (∀ x, ExtMacroEnbId.unmarshal b = .ok x → (x.isEmpty = true ↔ Blank 6 b ∨ BlankShort 6 b)) ∧
    (∀ x, ExtendedMacroEnbIdentifier.unmarshal b = .ok x → (x.isEmpty = true ↔ Blank 8 b ∨ BlankShort 8 b)) ∧
    (∀ x, ExtendedGeNbIdentifier.unmarshal b = .ok x → (x.isEmpty = true ↔ Blank 9 b ∨ BlankShort 9 b)) ∧
    (∀ x, GNbIdentifier.unmarshal b = .ok x → (x.isEmpty = true ↔ BlankButFourth 11 b)) ∧
    (∀ x, EnGNbIdentifier.unmarshal b = .ok x → x.isEmpty = false) ∧
    (∀ x, RncIdentifier.unmarshal b = .ok x → (x.isEmpty = true ↔ Blank 8 b ∧ b.length < 10)) ∧
    (∀ x, SourceRncIdentifier.unmarshal b = .ok x → (x.isEmpty = true ↔ Blank 5 b ∧ b.length = 5)) ∧
    (∀ x, OldEpsSecurityContext.unm b = .ok x →
      (x.isEmpty = true ↔ ∃ f, b.take 33 = f :: List.replicate 32 0 ∧ f &&& 0xb8 = 0)) ∧
    (∀ x, TargetType.unmarshal (v :: b) = .ok x → (x.isEmpty = true ↔ TargetBlank v b)) ∧
    (∀ x, SourceType.unmarshal (v :: b) = .ok x →
      (x.isEmpty = true ↔ if v = 0 then Blank 8 b else if v = 1 then Blank 5 b ∧ b.length = 5 else True)) :=
  ⟨fun _ => emenb_empty, fun _ => emenbi_empty, fun _ => engenb_empty, fun _ => gnb_empty, fun _ => engnb_empty,
    fun _ => rnc_empty, fun _ => srnc_empty, fun _ => oldeps_empty, fun _ => target_empty, fun _ => source_empty⟩

/-- Received parts that carry something and call themselves empty — a short macro identifier with its flag, a gNodeB
identifier of 32 bits, a security context with an NCC, a target of another type — and a target without anything set that
does not. -/
theorem C100_violation :
    (∃ x, ExtMacroEnbId.unmarshal [0, 0xf0, 0, 0x80, 0, 0] = .ok x ∧ x.smenb = true ∧ x.isEmpty = true) ∧
    (∃ x, GNbIdentifier.unmarshal [0, 0xf0, 0, 32, 0, 0, 0, 0, 0, 0, 0] = .ok x ∧ x.gnb_id_length = 32 ∧ x.isEmpty = true) ∧
    (∃ x, OldEpsSecurityContext.unm (0x07 :: List.replicate 32 0) = .ok x ∧ x.isEmpty = true) ∧
    (∃ x, TargetType.unmarshal [9, 0x21, 0xf3, 0x54] = .ok x ∧ x.isEmpty = true) ∧
    (TargetType.MacroEnbIdentifier ⟨123, 45, false, 6⟩).isEmpty = true ∧
    (∃ x, TargetType.unmarshal (8 :: [0, 0xf0, 0, 0xc0, 0, 0, 0, 0, 0, 0, 0, 0, 0]) = .ok x ∧ x.isEmpty = false) :=
  ⟨⟨_, rfl, by decide +kernel, by decide +kernel⟩, ⟨_, rfl, by decide +kernel, by decide +kernel⟩,
    ⟨_, rfl, by decide +kernel⟩, ⟨_, rfl, by decide +kernel⟩, by decide +kernel, ⟨_, rfl, by decide +kernel⟩⟩

/-- A tracking area of the PLMN 001-01 is read and not empty; one without digits is read and empty. -/
example : (∃ x, Tai.unmarshal [0x00, 0xf1, 0x10, 0, 0] = .ok x ∧ x.isEmpty = false) ∧ ¬ Blank 5 [0x00, 0xf1, 0x10, 0, 0] ∧
    (∃ x, Tai.unmarshal [0xff, 0xff, 0xff, 0, 0] = .ok x ∧ x.isEmpty = true) ∧ Blank 5 [0xff, 0xff, 0xff, 0, 0] := by
  refine ⟨⟨_, rfl, by decide +kernel⟩, ?_, ⟨_, rfl, by decide +kernel⟩, ⟨_, _, _, rfl, by decide +kernel⟩⟩
  rintro ⟨p, q, r, h, hp⟩
  simp [List.replicate] at h
  obtain ⟨rfl, rfl, rfl⟩ := h
  revert hp
  decide +kernel

/-- An authentication quintuplet with a response of two octets is read and not empty. -/
example : ∃ x, AuthQuintuplet.unm (List.replicate 16 0 ++ [2, 0, 0] ++ List.replicate 33 0) = .ok x ∧ x.isEmpty = false :=
  ⟨_, rfl, by decide +kernel⟩

end Gtp.Props.EmptyPart
