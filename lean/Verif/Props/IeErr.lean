import Verif.V2.IEErr

/-!
# C59: decoding errors name the IE that could not be decoded

The errors `IEInvalidLength(t)` and `IEIncorrect(t)` (errors.rs) carry an IE type. A caller uses it to tell the peer which IE was
at fault (3GPP TS 29.274, 7.7: the Offending IE of the Cause), so it must be the type octet of that IE.
-/

namespace Gtp.Props

open Gtp.V2

/-- The IE types without a decoder of their own. -/
def unassigned : List UInt8 :=
  [0, 4, 5, 6, 7, 8, 9, 10, 11, 12, 13, 14, 15, 16, 17, 18, 19, 20, 21, 22, 23, 24, 25, 26, 27, 28, 29, 30, 31, 32,
   33, 34, 35, 36, 37, 38, 39, 40, 41, 42, 43, 44, 45, 46, 47, 48, 49, 50, 52, 53, 54, 55, 57, 58, 59, 60, 61, 62,
   63, 64, 65, 66, 67, 68, 69, 70, 98, 101, 102, 122, 130, 161, 220, 221, 222, 223, 224, 225, 226, 227, 228, 229,
   230, 231, 232, 233, 234, 235, 236, 237, 238, 239, 240, 241, 242, 243, 244, 245, 246, 247, 248, 249, 250, 251, 252,
   253]

/-- The IE types whose errors may name another type: User Location Information, Trace Reference, TWAN Identifier, and the types
without a decoder of their own. -/
def misnamed : List UInt8 := [86, 115, 169] ++ unassigned

/-- The error is one of the two that carry an IE type, and carries `t`. -/
def CarriesType (e : Err) (t : UInt8) : Prop := e = .ieInvalidLength t ∨ e = .ieIncorrect t

theorem lookup_of_mem {α : Type} {t : UInt8} {k : α} : ∀ {l : List (UInt8 × α)}, (t, k) ∈ l → ∃ k, l.lookup t = some k
  | (c, d) :: l, ha => by
    rw [List.lookup_cons]
    split
    · exact ⟨d, rfl⟩
    · rename_i hne
      rcases List.mem_cons.mp ha with ha | ha
      · injection ha with h1 h2
        simp [h1] at hne
      · exact lookup_of_mem ha

theorem assigned (t : UInt8) (h : t ∉ unassigned) : ∃ k, kindTable.lookup t = some k := by
  have hc : ((List.range 256).all fun n => (unassigned.map UInt8.toNat).contains n ||
      (kindTable.map fun p => p.1.toNat).contains n) = true := by decide +kernel
  have h1 := List.all_eq_true.mp hc t.toNat (List.mem_range.mpr t.toNat_lt)
  simp only [Bool.or_eq_true, List.contains_iff_mem, List.mem_map] at h1
  rcases h1 with ⟨a, ha, hb⟩ | ⟨⟨a, k⟩, ha, hb⟩
  · rw [UInt8.toNat_inj] at hb
    exact absurd (hb ▸ ha) h
  · rw [UInt8.toNat_inj] at hb
    simp only at hb
    subst hb
    exact lookup_of_mem ha

/-- C59, all types: a failure of the decoder is always reported by one of the two errors that carry an IE type, never by any
other error, and for the types in `misnamed` the type carried is that of the IE or one of 0, 83 and 168. -/
theorem C59_error_kinds (m : Mode) (b : Bytes) (e : Err) (h : decoder m b = .err e) :
    ∃ s, Visits m b s ∧ decodeOne (decoder m) m s = .err e ∧ ∃ t, CarriesType e t ∧ (t = s.getD 0 0 ∨
      s.getD 0 0 ∈ unassigned ∧ t = 0 ∨ s.getD 0 0 = 86 ∧ t = 0 ∨ s.getD 0 0 = 115 ∧ t = 83 ∨ s.getD 0 0 = 169 ∧ t = 168) := by
  obtain ⟨s, hs, h1, t, ht, h2⟩ := decoder_errs h
  refine ⟨s, hs, h1, t, h2, ?_⟩
  generalize s.getD 0 0 = u at ht
  unfold kindOf at ht
  cases hl : kindTable.lookup u with
  | none =>
    rw [hl] at ht
    have hu : u ∈ unassigned := Decidable.byContradiction fun hn => by
      obtain ⟨k, hk⟩ := assigned u hn
      rw [hl] at hk
      cases hk
    rcases List.mem_cons.mp ht with ht | ht
    · exact .inl ht
    · exact .inr (.inl ⟨hu, by simpa using ht⟩)
  | some k =>
    rw [hl] at ht
    have hc : (kindTable.all fun p => (p.2.blames p.1).all fun t => t == p.1 || (p.1 == 86 && t == 0) || (p.1 == 115 && t == 83) ||
      (p.1 == 169 && t == 168)) = true := by decide +kernel
    have h3 := List.all_eq_true.mp (List.all_eq_true.mp hc _ (mem_of_lookup hl)) t ht
    simp only [Bool.or_eq_true, Bool.and_eq_true, beq_iff_eq] at h3
    rcases h3 with ((h3 | h3) | h3) | h3
    · exact .inl h3
    · exact .inr (.inr (.inl h3))
    · exact .inr (.inr (.inr (.inl h3)))
    · exact .inr (.inr (.inr (.inr h3)))

/-- C59 (partial): if decoding a sequence of IEs fails, there is an IE (at top level or inside a grouped IE) at which the decoder
arrived and whose decoding fails with that error, and the error carries the type octet of this IE. Missing: the types in
`misnamed`, see `C59_violation`. -/
theorem C59_error_names_partial (m : Mode) (b : Bytes) (e : Err) (h : decoder m b = .err e) :
    ∃ s, Visits m b s ∧ decodeOne (decoder m) m s = .err e ∧ (s.getD 0 0 ∉ misnamed → CarriesType e (s.getD 0 0)) := by
  obtain ⟨s, hs, h1, t, h2, h3⟩ := C59_error_kinds m b e h
  refine ⟨s, hs, h1, fun hm => ?_⟩
  simp only [misnamed, List.mem_append, List.mem_cons, List.not_mem_nil, not_or] at hm
  rcases h3 with h3 | h3 | h3 | h3 | h3
  · exact h3 ▸ h2
  · exact absurd h3.1 hm.2
  · exact absurd h3.1 hm.1.1
  · exact absurd h3.1 hm.1.2.1
  · exact absurd h3.1 hm.1.2.2.1

/-- A bearer context with an EBI cut short, behind a recovery counter: the EBI is named. -/
example : decoder .debug [3, 0, 1, 0, 0x21, 93, 0, 4, 0, 73, 0, 1, 0] = .err (.ieInvalidLength 73) ∧
    (73 : UInt8) ∉ misnamed := by decide +kernel

/-- The full statement of C59: every error of the decoder carries the type octet of an IE at which it failed. -/
def ErrorNames : Prop := ∀ (m : Mode) (b : Bytes) (e : Err), decoder m b = .err e →
  ∃ s, Visits m b s ∧ decodeOne (decoder m) m s = .err e ∧ CarriesType e (s.getD 0 0)

/-- C59 (violation): one complete IE each of type 86 (with a cell identity cut short), 115, 169 and 4 (unassigned); the error
carries 0, 83, 168 and 0. -/
theorem C59_violation : ∀ m : Mode,
    decoder m [86, 0, 2, 0, 1, 0x21] = .err (.ieIncorrect 0) ∧
    decoder m [115, 0, 9, 0] = .err (.ieInvalidLength 83) ∧
    decoder m [169, 0, 9, 0] = .err (.ieInvalidLength 168) ∧
    decoder m [4, 0, 9, 0] = .err (.ieInvalidLength 0) := by
  intro m
  cases m <;> decide +kernel

/-- Only the whole buffer is visited if its first IE cannot be decoded and declares more octets than there are. -/
theorem Visits.only {m : Mode} {b s : Bytes} {e : Err} (h : Visits m b s) (hd : decodeOne (decoder m) m b = .err e)
    (hl : ¬ (declLen b).toNat + 4 ≤ b.length) : s = b := by
  cases h with
  | here _ _ => rfl
  | inside _ _ h _ => exact absurd h hl
  | next _ _ x n h _ => rw [hd] at h; cases h

theorem C59_error_names_false : ¬ ErrorNames := by
  intro h
  obtain ⟨s, hs, _, h2⟩ := h .debug [115, 0, 9, 0] (.ieInvalidLength 83) (C59_violation .debug).2.1
  have hs := Visits.only hs (e := .ieInvalidLength 83) (by decide +kernel) (by decide)
  subst hs
  exact absurd h2 (by unfold CarriesType; decide)

end Gtp.Props
