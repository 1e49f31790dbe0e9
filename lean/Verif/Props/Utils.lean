import Verif.UtilsLemmas

/-!
# Properties C04 (TBCD) and C05 (MCC/MNC)
-/

namespace Gtp.Props

/-- C04: any digit string survives packing and unpacking. -/
theorem C04_tbcd_roundtrip (s : Str) (h : ∀ c ∈ s, IsDigit c) : tbcdDecode (tbcdEncode s) = s :=
  tbcd_roundtrip s h

/-- The TBCD layout of 3GPP TS 29.002: two digits per octet, first digit in the low half, filler 15
after an odd number of digits. -/
def tbcdLayout : Str → List Nat
  | [] => []
  | [a] => [(a.toNat - 48) + 16 * 15]
  | a :: b :: r => ((a.toNat - 48) + 16 * (b.toNat - 48)) :: tbcdLayout r

theorem nib_val : ∀ a b : Fin 16, (UInt8.ofNat b.val <<< 4 ||| UInt8.ofNat a.val).toNat
    = a.val + 16 * b.val := by decide +kernel

theorem nib_val15 : ∀ a : Fin 16, ((240 : UInt8) ||| UInt8.ofNat a.val).toNat
    = a.val + 240 := by decide +kernel

theorem toDigit_digit {c : Char} (h : IsDigit c) :
    toDigit c = some (UInt8.ofNat (c.toNat - 48)) := by
  simp [toDigit, h.1, h.2]

/-- C04: the octets are those of the TBCD layout. -/
theorem C04_tbcd_layout : ∀ (s : Str), (∀ c ∈ s, IsDigit c) →
    (tbcdEncode s).map UInt8.toNat = tbcdLayout s
  | [], _ => rfl
  | [a], h => by
    have ha := h a (by simp)
    have hd := toDigit_digit ha
    have := ha.1; have := ha.2
    have e := nib_val15 ⟨a.toNat - 48, by omega⟩
    simp [tbcdEncode, tbcdNibbles, hd, packNibbles, tbcdLayout, - UInt8.toNat_or, e]
  | a :: b :: r, h => by
    have ha := h a (by simp)
    have hb := h b (by simp)
    have ih := C04_tbcd_layout r (fun c hc => h c (by simp [hc]))
    have := ha.1; have := ha.2; have := hb.1; have := hb.2
    have e := nib_val ⟨a.toNat - 48, by omega⟩ ⟨b.toNat - 48, by omega⟩
    have hn : tbcdNibbles (a :: b :: r) =
        UInt8.ofNat (a.toNat - 48) :: UInt8.ofNat (b.toNat - 48) :: tbcdNibbles r := by
      simp only [tbcdNibbles, List.filterMap_cons, toDigit_digit ha, toDigit_digit hb,
        List.length_cons]
      have hm : ((List.filterMap toDigit r).length + 1 + 1) % 2
        = (List.filterMap toDigit r).length % 2 := by omega
      rw [hm]
      split <;> simp
    simp only [tbcdEncode] at ih ⊢
    rw [hn, packNibbles, tbcdLayout, List.map_cons, ih, e]

/-- C04: ceil(n/2) octets. -/
theorem C04_tbcd_length (s : Str) (h : ∀ c ∈ s, IsDigit c) :
    (tbcdEncode s).length = (s.length + 1) / 2 := tbcd_length s h

example : (∀ c ∈ "26201123456789".toList, IsDigit c) ∧
    tbcdLayout "123".toList = [0x21, 0xf3] := by decide

/-- C05: representable MCC/MNC pairs survive packing and unpacking, whatever follows. -/
theorem C05_plmn_roundtrip (mcc mnc : UInt16) (three : Bool) (h1 : mcc.toNat ≤ 999)
    (h2 : mnc.toNat ≤ if three then 999 else 99) (tail : Bytes) :
    (mccMncDecode (mccMncEncode mcc mnc three ++ tail) : R Unit _) = .ok (mcc, mnc, three) := by
  apply mccMnc_roundtrip
  cases three <;> simp at h2 <;> refine ⟨by omega, by omega, ?_⟩ <;> simp <;> omega

/-- Decimal digit `k` (0 = units) of a number. -/
def digit (k n : Nat) : Nat := n / 10 ^ k % 10

/-- C05: the octets are those of 3GPP TS 24.008 §10.5.1.3 (MCC 2|1, MNC 3|MCC 3, MNC 2|1). -/
theorem C05_plmn_layout (mcc mnc : UInt16) (three : Bool) (h1 : mcc.toNat ≤ 999)
    (h2 : mnc.toNat ≤ if three then 999 else 99) :
    (mccMncEncode mcc mnc three).map UInt8.toNat =
      let (d1, d2, d3) := if three then (digit 2 mnc.toNat, digit 1 mnc.toNat, digit 0 mnc.toNat)
        else (digit 1 mnc.toNat, digit 0 mnc.toNat, 15)
      [digit 2 mcc.toNat + 16 * digit 1 mcc.toNat, digit 0 mcc.toNat + 16 * d3, d1 + 16 * d2] := by
  have hok : PlmnOk mcc mnc three := by
    cases three <;> simp at h2 <;> refine ⟨by omega, by omega, ?_⟩ <;> simp <;> omega
  rw [mccMncEncode_eq hok]
  have hm2 : mnc.toNat ≤ 999 := by cases three <;> simp at h2 <;> omega
  have c0 : mcc.toNat / 100 % 10 = mcc.toNat / 100 := by omega
  have c1 : mnc.toNat / 100 % 10 = mnc.toNat / 100 := by omega
  have e0 := nib_val ⟨mcc.toNat / 100, by omega⟩ ⟨mcc.toNat / 10 % 10, by omega⟩
  cases three with
  | true =>
    have e1 := nib_val ⟨mcc.toNat % 10, by omega⟩ ⟨mnc.toNat % 10, by omega⟩
    have e2 := nib_val ⟨mnc.toNat / 100, by omega⟩ ⟨mnc.toNat / 10 % 10, by omega⟩
    simp only [if_true, List.map_cons, List.map_nil, e0, e1, e2, digit]
    simp [c0, c1]
  | false =>
    simp at h2
    have c2 : mnc.toNat / 10 % 10 = mnc.toNat / 10 := by omega
    have e1 := nib_val15 ⟨mcc.toNat % 10, by omega⟩
    have e2 := nib_val ⟨mnc.toNat / 10, by omega⟩ ⟨mnc.toNat % 10, by omega⟩
    have e15 : (15 : UInt8) <<< 4 = 240 := rfl
    simp only [if_false, List.map_cons, List.map_nil, e15, e0, e1, e2, digit, Bool.false_eq_true]
    simp [c0, c2]

example : mccMncEncode 262 1 false = [0x62, 0xf2, 0x10] ∧
    mccMncEncode 310 12 true = [0x13, 0x20, 0x10] := by decide +kernel

end Gtp.Props
