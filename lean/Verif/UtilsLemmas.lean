import Verif.Utils

/-!
# Lemmas about the utilities (helpers, not properties)
-/

namespace Gtp

/-! ### Nibbles -/

theorem forall_fin_u8 {P : UInt8 → Prop} {k : Nat} (hk : k ≤ 255)
    (h : ∀ n : Fin (k + 1), P (UInt8.ofNat n.val)) : ∀ x : UInt8, x ≤ UInt8.ofNat k → P x := by
  intro x hx
  have hx' : x.toNat < k + 1 := by
    have : x.toNat ≤ (UInt8.ofNat k).toNat := UInt8.le_iff_toNat_le.mp hx
    simp at this
    omega
  have := h ⟨x.toNat, hx'⟩
  simpa using this

theorem lt_iff_le_pred {x : UInt8} : x < 16 ↔ x ≤ UInt8.ofNat 15 := by
  simp [UInt8.lt_iff_toNat_lt, UInt8.le_iff_toNat_le]
  omega

theorem nib_lo {x y : UInt8} (hx : x < 16) (hy : y < 16) : (y <<< 4 ||| x) &&& 15 = x := by
  have : ∀ x : Fin 16, ∀ y : Fin 16, ((UInt8.ofNat y.val) <<< 4 ||| (UInt8.ofNat x.val)) &&& 15
      = UInt8.ofNat x.val := by decide +kernel
  have h := this ⟨x.toNat, UInt8.lt_iff_toNat_lt.mp hx⟩ ⟨y.toNat, UInt8.lt_iff_toNat_lt.mp hy⟩
  simpa using h

theorem nib_hi {x y : UInt8} (hx : x < 16) (hy : y < 16) : (y <<< 4 ||| x) >>> 4 = y := by
  have : ∀ x : Fin 16, ∀ y : Fin 16, ((UInt8.ofNat y.val) <<< 4 ||| (UInt8.ofNat x.val)) >>> 4
      = UInt8.ofNat y.val := by decide +kernel
  have h := this ⟨x.toNat, UInt8.lt_iff_toNat_lt.mp hx⟩ ⟨y.toNat, UInt8.lt_iff_toNat_lt.mp hy⟩
  simpa using h

theorem nib_join : ∀ x : UInt8, ((x >>> 4) <<< 4) ||| (x &&& 15) = x := by decide +kernel

theorem and15_lt : ∀ x : UInt8, x &&& 15 < 16 := by decide +kernel
theorem shr4_lt : ∀ x : UInt8, x >>> 4 < 16 := by decide +kernel

/-! ### TBCD -/

/-- Unpacking what was packed, for an even number of nibbles. -/
theorem unpack_pack : ∀ (l : List UInt8), l.length % 2 = 0 → (∀ x ∈ l, x < 16) →
    (packNibbles l).flatMap (fun (x : UInt8) => [x &&& 0x0f, x >>> 4]) = l
  | [], _, _ => rfl
  | [_], h, _ => by simp at h
  | a :: b :: r, h, hx => by
    have ha : a < 16 := hx a (by simp)
    have hb : b < 16 := hx b (by simp)
    have ih := unpack_pack r (by simp at h; omega) (fun x hxr => hx x (by simp [hxr]))
    simp [packNibbles, nib_lo ha hb, nib_hi ha hb, ih]

theorem pack_length : ∀ (l : List UInt8), (packNibbles l).length = l.length / 2
  | [] => rfl
  | [_] => by simp [packNibbles]
  | a :: b :: r => by simp [packNibbles, pack_length r]; omega

/-- A decimal digit character. -/
def IsDigit (c : Char) : Prop := 48 ≤ c.toNat ∧ c.toNat ≤ 57

instance : DecidablePred IsDigit := fun _ => by unfold IsDigit; infer_instance

theorem fromDigit_toDigit {c : Char} (h : IsDigit c) :
    ∃ d, toDigit c = some d ∧ d < 10 ∧ fromDigit d = some c := by
  refine ⟨UInt8.ofNat (c.toNat - 48), by simp [toDigit, h.1, h.2], ?_, ?_⟩
  · rw [UInt8.lt_iff_toNat_lt]
    have := h.1; have := h.2
    simp
    omega
  · have h1 := h.1; have h2 := h.2
    have hd : UInt8.ofNat (c.toNat - 48) < 10 := by
      rw [UInt8.lt_iff_toNat_lt]; simp; omega
    simp only [fromDigit, hd, if_true]
    have : (48 + (UInt8.ofNat (c.toNat - 48)).toNat) = c.toNat := by
      simp; omega
    rw [this]
    simp

theorem filterMap_toDigit_spec : ∀ (s : Str), (∀ c ∈ s, IsDigit c) →
    (s.filterMap toDigit).length = s.length ∧ (∀ x ∈ s.filterMap toDigit, x < 10) ∧
    (s.filterMap toDigit).filterMap fromDigit = s
  | [], _ => by simp
  | c :: r, h => by
    obtain ⟨d, h1, h2, h3⟩ := fromDigit_toDigit (h c (by simp))
    obtain ⟨i1, i2, i3⟩ := filterMap_toDigit_spec r (fun x hx => h x (by simp [hx]))
    rw [List.filterMap_cons, h1]
    refine ⟨by simp [i1], ?_, by simp [h3, i3]⟩
    intro x hx
    rcases List.mem_cons.mp hx with rfl | hx
    · exact h2
    · exact i2 x hx

theorem lt10_lt16 {x : UInt8} (h : x < 10) : x < 16 := by
  rw [UInt8.lt_iff_toNat_lt] at *
  simp at *
  omega

theorem tbcd_roundtrip (s : Str) (h : ∀ c ∈ s, IsDigit c) : tbcdDecode (tbcdEncode s) = s := by
  obtain ⟨h1, h2, h3⟩ := filterMap_toDigit_spec s h
  simp only [tbcdDecode, tbcdEncode, tbcdNibbles]
  split
  · rw [unpack_pack]
    · simp [h3, fromDigit]
    · simp; omega
    · intro x hx
      rcases List.mem_append.mp hx with hx | hx
      · exact lt10_lt16 (h2 x hx)
      · simp at hx; subst hx; decide
  · rw [unpack_pack]
    · exact h3
    · omega
    · intro x hx; exact lt10_lt16 (h2 x hx)

theorem tbcd_length (s : Str) (h : ∀ c ∈ s, IsDigit c) :
    (tbcdEncode s).length = (s.length + 1) / 2 := by
  obtain ⟨h1, _, _⟩ := filterMap_toDigit_spec s h
  simp only [tbcdEncode, tbcdNibbles]
  split
  · simp [pack_length, h1]
  · rw [pack_length, h1]; omega

/-- The decoder yields digits only. -/
theorem tbcdDecode_digits (b : Bytes) : ∀ c ∈ tbcdDecode b, IsDigit c := by
  intro c hc
  unfold tbcdDecode at hc
  obtain ⟨d, _, hd⟩ := List.mem_filterMap.mp hc
  unfold fromDigit at hd
  split at hd
  · rename_i hlt
    have hlt' := UInt8.lt_iff_toNat_lt.mp hlt
    simp at hlt' hd
    subst hd
    have key : ∀ n : Fin 10, IsDigit (Char.ofNat (48 + n.val)) := by decide
    exact key ⟨d.toNat, hlt'⟩
  · simp at hd

/-! ### MCC / MNC -/

/-- The PLMN identities that can be represented: three-digit MCC, and an MNC with two digits
(`three = false`) or three digits. -/
def PlmnOk (mcc mnc : UInt16) (three : Bool) : Prop :=
  mcc.toNat < 1000 ∧ mnc.toNat < 1000 ∧ (three = false → mnc.toNat < 100)

instance (mcc mnc three) : Decidable (PlmnOk mcc mnc three) := by unfold PlmnOk; infer_instance

theorem digits3 : ∀ n : Fin 1000, decDigits 5 n.val =
    if n.val < 10 then [UInt8.ofNat n.val]
    else if n.val < 100 then [UInt8.ofNat (n.val / 10), UInt8.ofNat (n.val % 10)]
    else [UInt8.ofNat (n.val / 100), UInt8.ofNat (n.val / 10 % 10), UInt8.ofNat (n.val % 10)] := by
  decide +kernel

theorem decDigits_len_pos (f n : Nat) : 0 < (decDigits (f + 1) n).length := by
  unfold decDigits
  split <;> simp

theorem toDigits_len (i : UInt16) : 2 ≤ (toDigits i).length := by
  unfold toDigits
  have : 0 < (decDigits 5 i.toNat).length := decDigits_len_pos 4 i.toNat
  simp only
  split
  · simp; omega
  · omega

theorem mccMncEncodeR_ex (mcc mnc : UInt16) (three : Bool) :
    ∃ v : Bytes, v.length = 3 ∧ ∀ ε : Type, (mccMncEncodeR mcc mnc three : R ε Bytes) = .ok v := by
  have h3 : 3 ≤ (padTo3 (toDigits mcc)).length := by simp [padTo3]; omega
  have h2 := toDigits_len mnc
  unfold mccMncEncodeR
  match padTo3 (toDigits mcc), h3 with
  | c0 :: c1 :: c2 :: _, _ =>
    match hd : toDigits mnc, h2 with
    | n0 :: n1 :: [], _ =>
      by_cases ht : (three || decide (mnc ≥ 100)) = true
      · simp only [ht]; exact ⟨[_, _, _], rfl, fun ε => rfl⟩
      · simp only [ht]; exact ⟨[_, _, _], rfl, fun ε => rfl⟩
    | n0 :: n1 :: n2 :: r, _ =>
      have hl : ¬ (n0 :: n1 :: n2 :: r).length < 3 := by simp
      by_cases ht : (three || decide (mnc ≥ 100)) = true
      · simp only [ht, hl, and_false, if_false]; exact ⟨[_, _, _], rfl, fun ε => rfl⟩
      · simp only [ht, hl, and_false, if_false]; exact ⟨[_, _, _], rfl, fun ε => rfl⟩

theorem mccMncEncodeR_ok {ε : Type} (mcc mnc : UInt16) (three : Bool) :
    (mccMncEncodeR mcc mnc three : R ε Bytes) = .ok (mccMncEncode mcc mnc three) := by
  obtain ⟨v, _, hv⟩ := mccMncEncodeR_ex mcc mnc three
  simp [mccMncEncode, hv]

theorem mccMncEncode_length (mcc mnc : UInt16) (three : Bool) :
    (mccMncEncode mcc mnc three).length = 3 := by
  obtain ⟨v, h, hv⟩ := mccMncEncodeR_ex mcc mnc three
  simp [mccMncEncode, hv, h]

theorem digitsVal3 : ∀ a b c : Fin 10, digitsVal [UInt8.ofNat a.val, UInt8.ofNat b.val,
    UInt8.ofNat c.val] = UInt16.ofNat (a.val * 100 + b.val * 10 + c.val) := by decide +kernel

theorem digitsVal2 : ∀ a b : Fin 10, digitsVal [UInt8.ofNat a.val, UInt8.ofNat b.val]
    = UInt16.ofNat (a.val * 10 + b.val) := by decide +kernel

theorem ofNat_lt16 {n : Nat} (h : n < 10) : UInt8.ofNat n < 16 := by
  rw [UInt8.lt_iff_toNat_lt]; simp; omega

/-- Closed form of the encoder on representable PLMN identities. -/
theorem mccMncEncode_eq {mcc mnc : UInt16} {three : Bool} (h : PlmnOk mcc mnc three) :
    mccMncEncode mcc mnc three =
      [UInt8.ofNat (mcc.toNat / 10 % 10) <<< 4 ||| UInt8.ofNat (mcc.toNat / 100),
       (if three then UInt8.ofNat (mnc.toNat % 10) else 15) <<< 4 ||| UInt8.ofNat (mcc.toNat % 10),
       if three then UInt8.ofNat (mnc.toNat / 10 % 10) <<< 4 ||| UInt8.ofNat (mnc.toNat / 100)
       else UInt8.ofNat (mnc.toNat % 10) <<< 4 ||| UInt8.ofNat (mnc.toNat / 10)] := by
  obtain ⟨h1, h2, h3⟩ := h
  have hc : padTo3 (toDigits mcc) = [UInt8.ofNat (mcc.toNat / 100),
      UInt8.ofNat (mcc.toNat / 10 % 10), UInt8.ofNat (mcc.toNat % 10)] := by
    have := digits3 ⟨mcc.toNat, h1⟩
    simp only at this
    unfold toDigits padTo3
    simp only [this]
    split
    · have a : mcc.toNat / 100 = 0 := by omega
      have b : mcc.toNat / 10 % 10 = 0 := by omega
      have c : mcc.toNat % 10 = mcc.toNat := by omega
      simp [a, b, c]
    · split
      · have a : mcc.toNat / 100 = 0 := by omega
        have b : mcc.toNat / 10 % 10 = mcc.toNat / 10 := by omega
        simp [a, b]
      · simp
  have hnd := digits3 ⟨mnc.toNat, h2⟩
  simp only at hnd
  have hge : (mnc ≥ 100) ↔ 100 ≤ mnc.toNat := by
    rw [ge_iff_le, UInt16.le_iff_toNat_le]; simp
  unfold mccMncEncode mccMncEncodeR
  simp only [hc]
  cases three with
  | false =>
    have h3' := h3 rfl
    have hlt : ¬ (mnc ≥ 100) := by rw [hge]; omega
    have hnd' : toDigits mnc = [UInt8.ofNat (mnc.toNat / 10), UInt8.ofNat (mnc.toNat % 10)] := by
      unfold toDigits
      simp only [hnd]
      split
      · have a : mnc.toNat / 10 = 0 := by omega
        have c : mnc.toNat % 10 = mnc.toNat := by omega
        simp [a, c]
      · simp
    simp [hlt, hnd']
  | true =>
    have hnd' : (if (toDigits mnc).length < 3 then 0 :: toDigits mnc else toDigits mnc)
        = [UInt8.ofNat (mnc.toNat / 100), UInt8.ofNat (mnc.toNat / 10 % 10),
            UInt8.ofNat (mnc.toNat % 10)] := by
      unfold toDigits
      simp only [hnd]
      split
      · have a : mnc.toNat / 100 = 0 := by omega
        have b : mnc.toNat / 10 % 10 = 0 := by omega
        have c : mnc.toNat % 10 = mnc.toNat := by omega
        simp [a, b, c]
      · split
        · have a : mnc.toNat / 100 = 0 := by omega
          have b : mnc.toNat / 10 % 10 = mnc.toNat / 10 := by omega
          simp [a, b]
        · simp
    simp [hnd']

theorem mccMnc_roundtrip3 {mcc mnc : UInt16} {three : Bool} (h : PlmnOk mcc mnc three) :
    ∃ a b c, mccMncEncode mcc mnc three = [a, b, c] ∧ mccMncDecode3 a b c = (mcc, mnc, three) := by
  refine ⟨_, _, _, mccMncEncode_eq h, ?_⟩
  obtain ⟨h1, h2, h3⟩ := h
  have a0 := ofNat_lt16 (show mcc.toNat / 100 < 10 by omega)
  have a1 := ofNat_lt16 (show mcc.toNat / 10 % 10 < 10 by omega)
  have a2 := ofNat_lt16 (show mcc.toNat % 10 < 10 by omega)
  have b0 := ofNat_lt16 (show mnc.toNat / 100 < 10 by omega)
  have b1 := ofNat_lt16 (show mnc.toNat / 10 % 10 < 10 by omega)
  have b2 := ofNat_lt16 (show mnc.toNat % 10 < 10 by omega)
  have d3 := digitsVal3 ⟨mcc.toNat / 100, by omega⟩ ⟨mcc.toNat / 10 % 10, by omega⟩
    ⟨mcc.toNat % 10, by omega⟩
  have e1 : mcc.toNat / 100 * 100 + mcc.toNat / 10 % 10 * 10 + mcc.toNat % 10 = mcc.toNat := by
    omega
  simp only [e1] at d3
  have hne : UInt8.ofNat (mnc.toNat % 10) ≠ 15 := by
    intro hh
    have := congrArg UInt8.toNat hh
    simp at this
    omega
  cases three with
  | true =>
    have n3 := digitsVal3 ⟨mnc.toNat / 100, by omega⟩ ⟨mnc.toNat / 10 % 10, by omega⟩
      ⟨mnc.toNat % 10, by omega⟩
    have e2 : mnc.toNat / 100 * 100 + mnc.toNat / 10 % 10 * 10 + mnc.toNat % 10 = mnc.toNat := by
      omega
    simp only [e2] at n3
    simp [mccMncDecode3, nib_lo, nib_hi, a0, a1, a2, b0, b1, b2, d3, n3, hne]
  | false =>
    have h3' := h3 rfl
    have b3 := ofNat_lt16 (show mnc.toNat / 10 < 10 by omega)
    have n2 := digitsVal2 ⟨mnc.toNat / 10, by omega⟩ ⟨mnc.toNat % 10, by omega⟩
    have e2 : mnc.toNat / 10 * 10 + mnc.toNat % 10 = mnc.toNat := by omega
    simp only [e2] at n2
    have f1 := nib_lo (y := 15) a2 (by decide)
    have f2 := nib_hi (y := 15) a2 (by decide)
    simp at f1 f2
    simp [mccMncDecode3, nib_lo, nib_hi, a0, a1, b3, b2, d3, n2, f1, f2]

theorem mccMnc_roundtrip {ε : Type} {mcc mnc : UInt16} {three : Bool} (h : PlmnOk mcc mnc three)
    (t : Bytes) : (mccMncDecode (mccMncEncode mcc mnc three ++ t) : R ε _)
      = .ok (mcc, mnc, three) := by
  obtain ⟨a, b, c, h1, h2⟩ := mccMnc_roundtrip3 h
  simp [h1, mccMncDecode, h2]

/-! ### Length patching -/

theorem put16_cons_succ (a : UInt8) (l : Bytes) (i : Nat) (x : UInt16) :
    put16 (a :: l) (i + 1) x = a :: put16 l i x := by
  simp [put16]

theorem put16_zero (a b : UInt8) (l : Bytes) (x : UInt16) :
    put16 (a :: b :: l) 0 x = hi16 x :: lo16 x :: l := by
  simp [put16]

theorem put16_length (l : Bytes) (i : Nat) (x : UInt16) : (put16 l i x).length = l.length := by
  simp [put16]

@[gtp] theorem setTliv_cons (a b c d : UInt8) (l : Bytes) :
    setTlivIeLength (a :: b :: c :: d :: l)
      = a :: hi16 (lenU16 l) :: lo16 (lenU16 l) :: d :: l := by
  simp [setTlivIeLength, put16, lenU16]

@[gtp] theorem setMsgLength_cons (a b c d : UInt8) (l : Bytes) :
    setMsgLength (a :: b :: c :: d :: l)
      = a :: b :: hi16 (lenU16 l) :: lo16 (lenU16 l) :: l := by
  simp [setMsgLength, put16, lenU16]

theorem toNat_add16 {a b : UInt16} (h : a.toNat + b.toNat < 65536) :
    (a + b).toNat = a.toNat + b.toNat := by
  simp; omega

/-- Away from the overflow the length check is what it seems. -/
theorem checkTliv_ok {ε : Type} {m : Mode} {l : UInt16} {b : Bytes} (h : l.toNat < 65532) :
    (checkTliv m l b : R ε Bool) = .ok (decide (0 < l.toNat ∧ l.toNat + 4 ≤ b.length)) := by
  unfold checkTliv
  by_cases h0 : l = 0
  · simp [h0]
  · have hpos : 0 < l.toNat := by
      rcases Nat.eq_zero_or_pos l.toNat with h' | h'
      · exact absurd (UInt16.toNat_inj.mp (by simpa using h')) h0
      · exact h'
    have h4 : (4 : UInt16).toNat = 4 := rfl
    have e := add16_ok (ε := ε) (m := m) (a := l) (b := 4) (by omega)
    have e2 := toNat_add16 (a := l) (b := 4) (by omega)
    simp only [h0, if_false, e, R.ok_bind, R.pure_eq, e2, h4, hpos, true_and]

/-- When the check says yes, the buffer holds the declared octets, except after a wrap-around. -/
theorem checkTliv_true {ε : Type} {m : Mode} {l : UInt16} {b : Bytes}
    (h : (checkTliv m l b : R ε Bool) = .ok true) (hl : l.toNat < 65532) :
    0 < l.toNat ∧ l.toNat + 4 ≤ b.length := by
  rw [checkTliv_ok hl] at h
  simpa using h

end Gtp
