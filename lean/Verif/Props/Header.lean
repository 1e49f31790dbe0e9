import Verif.V2.Header

/-!
# Properties C01, C02, C03 (GTPv2-C header)

The specification side uses only the wire format of 3GPP TS 29.274 §5.1, written with natural
number arithmetic on octets (`/`, `%`), not the shifts and masks of the code.
-/

namespace Gtp.Props
open Gtp.V2

/-- A header that fits the wire format: 24-bit sequence number, 4-bit priority, priority only with a
TEID, and a length that covers the rest of the header. -/
def HeaderWF (h : Header) : Prop :=
  h.sqn.toNat < 2 ^ 24 ∧
  (∀ p, h.prio = some p → p.toNat < 16 ∧ h.teid ≠ none) ∧
  (h.teid = none → 4 ≤ h.length.toNat) ∧ (h.teid ≠ none → 8 ≤ h.length.toNat)

theorem prio_shift {p : UInt8} (h : p.toNat < 16) : (p <<< 4) >>> 4 = p := by
  revert p
  have : ∀ p : UInt8, p.toNat < 16 → (p <<< 4) >>> 4 = p := by decide +kernel
  exact fun {p} => this p

/-- C01: encoding and decoding a header gives it back, whatever follows. -/
theorem C01_header_roundtrip (h : Header) (wf : HeaderWF h) (tail : Bytes) :
    Header.unmarshal (h.marshal ++ tail) = .ok h := by
  obtain ⟨msgtype, pig, prio, length, teid, sqn⟩ := h
  obtain ⟨hs, hp, h4, h8⟩ := wf
  simp only at hs hp h4 h8
  have hsq := of24_be hs
  cases teid with
  | none =>
    cases prio with
    | some p => exact absurd rfl ((hp p rfl).2)
    | none =>
      have h4' := h4 rfl
      have e0 : ¬ length = 0 := by rintro rfl; simp at h4'
      have e4 : ¬ length < 4 := by rw [UInt16.lt_iff_toNat_lt]; simp; omega
      cases pig <;>
        simp [Header.unmarshal, Header.marshal, Header.flags, be16, be24, rd16, rd24, e0, e4, hsq,
          Header.default]
  | some t =>
    have h8' := h8 (by simp)
    have e8 : ¬ length < 8 := by rw [UInt16.lt_iff_toNat_lt]; simp; omega
    cases prio with
    | none =>
      cases pig <;>
        simp [Header.unmarshal, Header.marshal, Header.flags, be16, be24, be32, rd16, rd24, rd32,
          e8, hsq]
    | some p =>
      have hp' := prio_shift (hp p rfl).1
      cases pig <;>
        simp [Header.unmarshal, Header.marshal, Header.flags, be16, be24, be32, rd16, rd24, rd32,
          e8, hsq, hp']

example : HeaderWF ⟨32, true, some 5, 300, some 0xdeadbeef, 0x123456⟩ := by
  refine ⟨by decide, ?_, by decide, by decide⟩
  intro p hp; cases hp; decide

/-! ## C02 -/

/-- Octet `i` of a buffer as a number. -/
def oct (b : Bytes) (i : Nat) : Nat := (b.getD i 0).toNat

/-- The verdict of the specification on a buffer: an error or the field values. -/
def headerSpec (b : Bytes) : R Err Header :=
  let len := oct b 2 * 256 + oct b 3
  if b.length < 8 then .err (.messageInvalidLength 0)
  else if oct b 0 / 32 ≠ 2 then .err .headerVersionNotSupported
  else if oct b 0 / 8 % 2 = 0 then
    if len = 0 then .err .headerInvalidLength
    else if len < 4 then .err (.messageInvalidLength 0)
    else .ok
      { msgtype := UInt8.ofNat (oct b 1), piggyback := oct b 0 / 16 % 2 == 1, prio := none
        length := UInt16.ofNat len, teid := none
        sqn := UInt32.ofNat (oct b 4 * 65536 + oct b 5 * 256 + oct b 6) }
  else if b.length < 12 ∨ len < 8 then .err (.messageInvalidLength 0)
  else .ok
    { msgtype := UInt8.ofNat (oct b 1), piggyback := oct b 0 / 16 % 2 == 1
      prio := if oct b 0 / 4 % 2 = 1 then some (UInt8.ofNat (oct b 11 / 16)) else none
      length := UInt16.ofNat len
      teid := some (UInt32.ofNat (oct b 4 * 2 ^ 24 + oct b 5 * 2 ^ 16 + oct b 6 * 2 ^ 8 + oct b 7))
      sqn := UInt32.ofNat (oct b 8 * 65536 + oct b 9 * 256 + oct b 10) }

theorem bits0 : ∀ x : UInt8, (x >>> 5 = 2 ↔ x.toNat / 32 = 2) ∧
    ((x >>> 3) &&& 1 = 0 ↔ x.toNat / 8 % 2 = 0) ∧
    (decide ((x >>> 4) &&& 1 ≠ 0) = (x.toNat / 16 % 2 == 1)) ∧
    ((x >>> 2) &&& 1 = 0 ↔ ¬ x.toNat / 4 % 2 = 1) ∧
    x >>> 4 = UInt8.ofNat (x.toNat / 16) := by decide +kernel

theorem of32_eq3 (a b c : UInt8) :
    of32 0 a b c = UInt32.ofNat (a.toNat * 65536 + b.toNat * 256 + c.toNat) := by
  have h : (((0 : UInt8).toNat * 256 + a.toNat) * 256 + b.toNat) * 256 + c.toNat
      = a.toNat * 65536 + b.toNat * 256 + c.toNat := by
    simp only [UInt8.toNat_zero]; omega
  rw [of32, h]

theorem of32_eq4 (a b c d : UInt8) : of32 a b c d =
    UInt32.ofNat (a.toNat * 2 ^ 24 + b.toNat * 2 ^ 16 + c.toNat * 2 ^ 8 + d.toNat) := by
  have h : ((a.toNat * 256 + b.toNat) * 256 + c.toNat) * 256 + d.toNat
      = a.toNat * 2 ^ 24 + b.toNat * 2 ^ 16 + c.toNat * 2 ^ 8 + d.toNat := by omega
  rw [of32, h]

theorem of16_lt_iff (a b : UInt8) (n : Nat) (hn : n < 65536) :
    of16 a b < UInt16.ofNat n ↔ a.toNat * 256 + b.toNat < n := by
  rw [UInt16.lt_iff_toNat_lt, of16_toNat]
  simp
  omega

theorem of16_zero_iff (a b : UInt8) : of16 a b = 0 ↔ a.toNat * 256 + b.toNat = 0 := by
  rw [← UInt16.toNat_inj, of16_toNat]; simp

/-- C02: on every byte string the decoder gives exactly the verdict of the specification; in
particular it never panics. -/
theorem C02_header_total_precise (b : Bytes) : Header.unmarshal b = headerSpec b := by
  unfold headerSpec Header.unmarshal
  by_cases h8 : 8 ≤ b.length
  · have h8' : ¬ b.length < 8 := by omega
    simp only [h8, h8', if_true, if_false]
    · obtain ⟨b0, b1, b2, b3, b', rfl, h4⟩ := exists_cons4 (n := 4) h8
      obtain ⟨b4, b5, b6, b7, r, rfl, _⟩ := exists_cons4 (n := 0) h4
      obtain ⟨x1, x2, x3, x4, x5⟩ := bits0 b0
      have e4 := of16_lt_iff b2 b3 4 (by omega)
      have e8 := of16_lt_iff b2 b3 8 (by omega)
      have e0 := of16_zero_iff b2 b3
      simp only [oct, List.getD_cons_zero, List.getD_cons_succ, rd_zero, rd_succ, R.ok_bind,
        R.pure_eq, rd16, rd24, rd32, of32_eq3]
      simp only [of32_eq4]
      simp only [ne_eq, x1, x2]
      by_cases hv : b0.toNat / 32 = 2
      · simp only [hv, not_true_eq_false, if_false]
        by_cases ht : b0.toNat / 8 % 2 = 0
        · simp only [ht, if_true, e0]
          have e4' : of16 b2 b3 < 4 ↔ _ := e4
          simp only [e4', Header.default, ne_eq, ← x3]
          simp [of16]
        · simp only [ht, if_false]
          by_cases h12 : 4 ≤ r.length
          · obtain ⟨b8, b9, b10, b11, r', rfl, _⟩ := exists_cons4 (n := 0) h12
            have hlen : ¬ (b0 :: b1 :: b2 :: b3 :: b4 :: b5 :: b6 :: b7 :: b8 :: b9 :: b10 :: b11
              :: r').length < 12 := by simp only [List.length_cons]; omega
            have hlen' := Nat.le_of_not_lt hlen
            have e8' : of16 b2 b3 < 8 ↔ _ := e8
            have hx := (bits0 b11).2.2.2.2
            simp only [e8', List.getD_cons_zero, List.getD_cons_succ, rd_zero, rd_succ, R.ok_bind,
              ← hx, ← x3, x4, hlen, hlen', if_true, false_or]
            by_cases hl : b2.toNat * 256 + b3.toNat < 8
            · simp [hl]
            · by_cases hm : b0.toNat / 4 % 2 = 1 <;> simp [hl, of16, hm]
          · have hlen : (b0 :: b1 :: b2 :: b3 :: b4 :: b5 :: b6 :: b7 :: r).length < 12 := by
              simp only [List.length_cons]; omega
            simp only [hlen, Nat.not_le.mpr hlen, if_false, true_or, if_true]
      · simp only [hv, not_false_eq_true, if_true]
  · have h8' : b.length < 8 := by omega
    simp [h8, h8']

/-- C02 restated: no byte string makes the decoder panic or loop. -/
theorem C02_header_no_panic (b : Bytes) :
    Header.unmarshal b ≠ .panic ∧ Header.unmarshal b ≠ .diverge := by
  rw [C02_header_total_precise]
  unfold headerSpec
  simp only
  constructor <;> (repeat' split) <;> simp

example : headerSpec [0x4c, 32, 0, 8, 1, 2, 3, 4, 0, 0, 7, 0x50]
    = .ok ⟨32, false, some 5, 8, some 0x01020304, 7⟩ := by decide

/-! ## C03 -/

/-- The spare bits of the header are zero: bits 1–2 of octet 1, the message priority bits when the
MP flag is clear, the MP flag in a header without TEID, and the low half of the last octet. -/
def SpareZero (b : Bytes) : Prop :=
  oct b 0 % 4 = 0 ∧
  (if oct b 0 / 8 % 2 = 0 then oct b 0 / 4 % 2 = 0 ∧ oct b 7 = 0
   else oct b 11 % 16 = 0 ∧ (oct b 0 / 4 % 2 = 0 → oct b 11 = 0))

theorem flags_back : ∀ x : UInt8, x.toNat / 32 = 2 → x.toNat % 4 = 0 →
    (x.toNat / 8 % 2 = 0 → x.toNat / 4 % 2 = 0 →
      x = (if x.toNat / 16 % 2 == 1 then (0 : UInt8) ||| 0x10 else 0) ||| 0x40) ∧
    (¬ x.toNat / 8 % 2 = 0 → x.toNat / 4 % 2 = 1 →
      x = (if x.toNat / 16 % 2 == 1 then (0x0c : UInt8) ||| 0x10 else 0x0c) ||| 0x40) ∧
    (¬ x.toNat / 8 % 2 = 0 → ¬ x.toNat / 4 % 2 = 1 →
      x = (if x.toNat / 16 % 2 == 1 then (0x08 : UInt8) ||| 0x10 else 0x08) ||| 0x40) := by
  decide +kernel

theorem prio_back : ∀ x : UInt8, x.toNat % 16 = 0 → UInt8.ofNat (x.toNat / 16) <<< 4 = x := by
  decide +kernel

theorem be24_of32 (a b c : UInt8) : be24 (of32 0 a b c) = [a, b, c] := by
  have := be32_of32 0 a b c
  simp only [be32, List.cons.injEq, and_true] at this
  simp [be24, this]

/-- C03: re-encoding a decoded header with zero spare bits gives the octets it came from. -/
theorem C03_header_reencode (b : Bytes) (h : Header) (hu : Header.unmarshal b = .ok h)
    (hs : SpareZero b) : h.marshal = b.take (if h.teid.isSome then 12 else 8) := by
  rw [C02_header_total_precise] at hu
  unfold headerSpec at hu
  unfold SpareZero at hs
  obtain ⟨hs0, hs1⟩ := hs
  simp only at hu
  split at hu
  · simp at hu
  rename_i h8
  split at hu
  · simp at hu
  rename_i hv
  have hv := Decidable.not_not.mp hv
  obtain ⟨b0, b1, b2, b3, b', rfl, h4⟩ := exists_cons4 (n := 4) (Nat.le_of_not_lt h8)
  obtain ⟨b4, b5, b6, b7, r, rfl, _⟩ := exists_cons4 (n := 0) h4
  simp only [oct, List.getD_cons_zero, List.getD_cons_succ] at *
  obtain ⟨f1, f2, f3⟩ := flags_back b0 hv hs0
  split at hu
  · rename_i ht
    simp only [ht, if_true] at hs1
    have hb7 : b7 = 0 := UInt8.toNat_inj.mp (by simpa using hs1.2)
    split at hu
    · simp at hu
    split at hu
    · simp at hu
    simp only [R.ok.injEq] at hu
    subst hu
    have e := be24_of32 b4 b5 b6
    rw [of32_eq3] at e
    have f1' := f1 ht hs1.1
    have l16 := be_of16 b2 b3
    unfold of16 at l16
    simp only [Header.marshal, Header.flags, e, be16, hb7, l16]
    simpa using f1'.symm
  · rename_i ht
    simp only [ht, if_false] at hs1
    split at hu
    · simp at hu
    rename_i hl
    simp only [R.ok.injEq] at hu
    subst hu
    have h12 : 4 ≤ r.length := by
      simp only [List.length_cons] at hl
      omega
    obtain ⟨b8, b9, b10, b11, r', rfl, _⟩ := exists_cons4 (n := 0) h12
    simp only [List.getD_cons_zero, List.getD_cons_succ] at hs1 ⊢
    have e := be24_of32 b8 b9 b10
    rw [of32_eq3] at e
    have e' := be32_of32 b4 b5 b6 b7
    rw [of32_eq4] at e'
    have l16 := be_of16 b2 b3
    unfold of16 at l16
    by_cases hm : b0.toNat / 4 % 2 = 1
    · have f2' := f2 ht hm
      have p := prio_back b11 hs1.1
      simp only [Header.marshal, Header.flags, e, e', be16, l16, hm, if_true, p]
      simpa using f2'.symm
    · have f3' := f3 ht hm
      have hb : b11 = 0 := UInt8.toNat_inj.mp (by
        have := hs1.2 (by omega)
        simpa using this)
      simp only [Header.marshal, Header.flags, e, e', be16, l16, hm, if_false, hb]
      simpa using f3'.symm

example : SpareZero [0x4c, 32, 0, 8, 1, 2, 3, 4, 0, 0, 7, 0x50, 1, 2] ∧
    Header.unmarshal [0x4c, 32, 0, 8, 1, 2, 3, 4, 0, 0, 7, 0x50, 1, 2]
      = .ok ⟨32, false, some 5, 8, some 0x01020304, 7⟩ :=
  ⟨by unfold SpareZero; decide, by decide⟩

end Gtp.Props
