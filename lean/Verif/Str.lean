import Verif.UtilsLemmas

/-!
# Strings on the wire

`String::as_bytes` writes UTF-8, while most decoders read one octet as one character
(`*x as char`, Latin-1); three decoders use `std::str::from_utf8`.
-/

namespace Gtp

/-- `as_bytes`: UTF-8. -/
def utf8 (s : Str) : Bytes := s.flatMap String.utf8EncodeChar

/-- `iter().map(|x| *x as char).collect()`. -/
def latin1 (b : Bytes) : Str := b.map fun (x : UInt8) => Char.ofNat x.toNat

/-- `std::str::from_utf8` / `String::from_utf8`. -/
def fromUtf8 (b : Bytes) : Option Str := b.toByteArray.utf8Decode?.map Array.toList

/-- The characters that both conventions write the same way. -/
def IsAscii (c : Char) : Prop := c.toNat < 128

instance (c : Char) : Decidable (IsAscii c) := by unfold IsAscii; infer_instance

theorem utf8_ascii {c : Char} (h : IsAscii c) : String.utf8EncodeChar c = [UInt8.ofNat c.toNat] := by
  have h2 : ¬ 127 < c.toNat := by have : c.toNat < 128 := h; omega
  simp [String.utf8EncodeChar, h2]

theorem latin1_utf8 {s : Str} (h : ∀ c ∈ s, IsAscii c) : latin1 (utf8 s) = s := by
  induction s with
  | nil => rfl
  | cons c s ih =>
    have hc := h c (by simp)
    have ih := ih (fun d hd => h d (by simp [hd]))
    simp only [latin1, utf8] at ih ⊢
    have hlt : c.toNat < 256 := Nat.lt_trans hc (by omega)
    simp [utf8_ascii hc, ih, Nat.mod_eq_of_lt hlt]

theorem utf8_length {s : Str} (h : ∀ c ∈ s, IsAscii c) : (utf8 s).length = s.length := by
  induction s with
  | nil => rfl
  | cons c s ih =>
    have hc := h c (by simp)
    have ih := ih (fun d hd => h d (by simp [hd]))
    simp only [utf8] at ih ⊢
    simp [utf8_ascii hc, ih]

theorem latin1_length (b : Bytes) : (latin1 b).length = b.length := by simp [latin1]

theorem fromUtf8_utf8 (s : Str) : fromUtf8 (utf8 s) = some s := by
  have : (utf8 s).toByteArray = s.utf8Encode := rfl
  simp [fromUtf8, this, List.utf8Decode?_utf8Encode]

end Gtp
