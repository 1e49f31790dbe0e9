import Verif.V2.PanicArm
import Verif.V2.Decoder

/-!
# When the decoder of information elements panics in a debug build
-/

namespace Gtp.V2

/-- The kind that the decoder takes the IE at the front of `b` for. -/
abbrev frontKind (b : Bytes) : Kind := kindOf (b.getD 0 0)

/-- The buffers at whose front the decoder looks for an IE while decoding `b` in a debug build: `b` itself; the octets of the
members, if a grouped IE with a possible length is at the front; the rest behind an IE that was decoded. -/
inductive Reaches : Bytes → Bytes → Prop
  | here (b : Bytes) : b ≠ [] → Reaches b b
  | member (b s : Bytes) : (frontKind b).grouped = true → Full b → Reaches (memberOctets b) s → Reaches b s
  | next (b s : Bytes) (x : IE) (n : Nat) : decodeOne (decoder .debug) .debug b = .ok (x, n) → Reaches (b.drop n) s → Reaches b s

theorem Reaches.nil {s : Bytes} : ¬ Reaches [] s := by
  intro h
  generalize hb : ([] : Bytes) = b at h
  induction h with
  | here b h => exact h hb.symm
  | member b s hg hf h ih => subst hb; exact ih rfl
  | next b s x n h1 h ih => subst hb; exact ih (by simp)

theorem Reaches.inv {b s : Bytes} (h : Reaches b s) : b ≠ [] ∧ (s = b ∨
    ((frontKind b).grouped = true ∧ Full b ∧ Reaches (memberOctets b) s) ∨
    ∃ x n, decodeOne (decoder .debug) .debug b = .ok (x, n) ∧ Reaches (b.drop n) s) := by
  cases h with
  | here _ hb => exact ⟨hb, .inl rfl⟩
  | member _ _ hg hf h =>
    refine ⟨fun e => ?_, .inr (.inl ⟨hg, hf, h⟩)⟩
    subst e
    exact Reaches.nil h
  | next _ _ x n h1 h =>
    refine ⟨fun e => ?_, .inr (.inr ⟨x, n, h1, h⟩)⟩
    subst e
    exact Reaches.nil (by simpa using h)

theorem decodeOne_quiet {dec : Bytes → R Err (List IE)} {b : Bytes} (hb : b ≠ []) :
    ((decodeOne dec .debug b).Safe fun _ => True) ↔
      ¬ (frontKind b).Crash b ∧ ((frontKind b).grouped = true → Full b → (dec (memberOctets b)).Safe fun _ => True) := by
  have h0 : 0 < b.length := List.length_pos_iff.mpr hb
  rw [← unmKind_quiet hb, decodeOne, rd_getD h0, R.ok_bind, Safe_bind]
  simp only [Safe_bind, Safe_pure]

theorem decoder_quiet_aux : ∀ (k : Nat) (b : Bytes), b.length < k →
    (((decoder .debug b).Safe fun _ => True) ↔ ∀ s, Reaches b s → ¬ (frontKind s).Crash s)
  | k + 1, b, hk => by
    by_cases hb : b = []
    · subst hb
      rw [decoder_nil]
      exact iff_of_true trivial fun s hs => absurd hs Reaches.nil
    have h0 : 0 < b.length := List.length_pos_iff.mpr hb
    have ihm := decoder_quiet_aux k (memberOctets b) (by simp; omega)
    have h1 := decodeOne_quiet (dec := decoder .debug) hb
    rw [ihm] at h1
    rw [decoder_eq, if_neg hb]
    cases hp : decodeOne (decoder .debug) .debug b with
    | ok p =>
      obtain ⟨x, n⟩ := p
      have hn := decodeOne_pos hp (.inl rfl)
      have ihn := decoder_quiet_aux k (b.drop n) (by simp; omega)
      rw [hp] at h1
      obtain ⟨h2, h3⟩ := h1.mp trivial
      rw [R.ok_bind]
      simp only
      rw [if_neg (by omega), Safe_bind]
      simp only [Safe_pure]
      rw [ihn]
      constructor
      · intro h s hs
        obtain ⟨_, rfl | ⟨hg, hf, hm⟩ | ⟨y, n', hq, hr⟩⟩ := hs.inv
        · exact h2
        · exact h3 hg hf s hm
        · rw [hp] at hq
          obtain ⟨rfl, rfl⟩ := Prod.mk.inj (R.ok.inj hq)
          exact h s hr
      · exact fun h s hs => h s (.next b s x n hp hs)
    | err e =>
      rw [hp] at h1
      obtain ⟨h2, h3⟩ := h1.mp trivial
      refine iff_of_true trivial fun s hs => ?_
      obtain ⟨_, rfl | ⟨hg, hf, hm⟩ | ⟨y, n', hq, hr⟩⟩ := hs.inv
      · exact h2
      · exact h3 hg hf s hm
      · rw [hp] at hq
        cases hq
    | panic =>
      rw [hp] at h1
      refine iff_of_false id fun h => h1.mpr ⟨h b (.here b hb), fun hg hf s hs => h s (.member b s hg hf hs)⟩
    | diverge =>
      rw [hp] at h1
      refine iff_of_false id fun h => h1.mpr ⟨h b (.here b hb), fun hg hf s hs => h s (.member b s hg hf hs)⟩

/-- The decoder panics exactly if one of the buffers that it reaches has an IE at its front which makes it panic. -/
theorem decoder_panic_iff (b : Bytes) : decoder .debug b = .panic ↔ ∃ s, Reaches b s ∧ (frontKind s).Crash s := by
  have h := decoder_quiet_aux (b.length + 1) b (by omega)
  have hf : (decoder .debug b).Fin := decoder_fin (.inl rfl)
  have h' : (¬ ∃ s, Reaches b s ∧ (frontKind s).Crash s) ↔ ∀ s, Reaches b s → ¬ (frontKind s).Crash s :=
    ⟨fun h s hs hc => h ⟨s, hs, hc⟩, fun h ⟨s, hs, hc⟩ => h s hs hc⟩
  rw [← h'] at h
  constructor
  · intro hp
    rw [hp] at h
    exact Classical.byContradiction fun hn => h.mpr hn
  · intro he
    cases hp : decoder .debug b with
    | panic => rfl
    | diverge => exact absurd hp hf
    | ok l => rw [hp] at h; exact absurd he (h.mp trivial)
    | err e => rw [hp] at h; exact absurd he (h.mp trivial)

end Gtp.V2
