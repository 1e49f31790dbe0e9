import Verif.Props.UMsg
import Verif.Props.CHeader

/-!
# Properties C26 and C40: headers of GTPv1-U and GTPv1-C in a release build

A length octet counts in units of four octets, computed in `u8`: from 64 on the product wraps. Every chain of extension headers
makes the decoder either panic (`ChainDies`), never end (`ChainSpins`), or return (`ChainEnds`).
-/

namespace Gtp.Props
open Gtp.U Gtp.V1

theorem reads_iff : ∀ (t : UInt8) (k : Nat),
    (t, k) ∈ [((0xc0 : UInt8), 2), (0x40, 2), (0x03, 3), (0x82, 3), (0x20, 1)] ↔ fixedRead t = some k := by
  intro t k
  simp only [List.mem_cons, Prod.mk.injEq, List.not_mem_nil, or_false, fixedRead]
  by_cases h1 : t = 0xc0
  · subst h1; simp [eq_comm]
  by_cases h2 : t = 0x40
  · subst h2; simp [eq_comm]
  by_cases h3 : t = 0x03
  · subst h3; simp [eq_comm]
  by_cases h4 : t = 0x82
  · subst h4; simp [eq_comm]
  by_cases h5 : t = 0x20
  · subst h5; simp [eq_comm]
  simp [h1, h2, h3, h4, h5]

/-- A chain on which a release build panics: it ends before its closing octet, or `length * 4` wraps to 0 for a header kind whose decoder slices or reads more than there is. -/
inductive ChainDies : Bytes → Prop
  | empty : ChainDies []
  | noLength (t : UInt8) : t ≠ 0 → ChainDies [t]
  | stuck (t l : UInt8) (r : Bytes) : t ≠ 0 → l.toNat % 64 = 0 → 0 < l.toNat → (∀ k, (t, k) ∈ [((0xc0 : UInt8), 2), (0x40, 2), (0x03, 3), (0x82, 3), (0x20, 1)] → r.length < k) → ChainDies (t :: l :: r)
  | next (t l : UInt8) (r : Bytes) : t ≠ 0 → 0 < 4 * l.toNat % 256 → 4 * l.toNat % 256 ≤ (t :: l :: r).length →
      ChainDies ((t :: l :: r).drop (4 * l.toNat % 256)) → ChainDies (t :: l :: r)

/-- A chain which a release build accepts or reports: it closes with a type octet 0, or there is a header of length 0, or one
that announces, modulo 256, more than the buffer holds. -/
inductive ChainEnds : Bytes → Prop
  | done (r : Bytes) : ChainEnds (0 :: r)
  | zero (t : UInt8) (r : Bytes) : t ≠ 0 → ChainEnds (t :: 0 :: r)
  | short (t l : UInt8) (r : Bytes) : t ≠ 0 → (t :: l :: r).length < 4 * l.toNat % 256 → ChainEnds (t :: l :: r)
  | next (t l : UInt8) (r : Bytes) : t ≠ 0 → 0 < 4 * l.toNat % 256 → 4 * l.toNat % 256 ≤ (t :: l :: r).length →
      ChainEnds ((t :: l :: r).drop (4 * l.toNat % 256)) → ChainEnds (t :: l :: r)

theorem release_cases : ∀ (k : Nat) (b : Bytes), b.length ≤ k → ChainDies b ∨ ChainSpins b ∨ ChainEnds b := by
  intro k
  induction k with
  | zero => intro b hb; exact .inl (by rw [List.length_eq_zero_iff.mp (Nat.le_zero.mp hb)]; exact .empty)
  | succ k ih =>
    intro b hb
    match b with
    | [] => exact .inl .empty
    | [t] =>
      by_cases ht : t = 0
      · subst ht; exact .inr (.inr (.done []))
      · exact .inl (.noLength t ht)
    | t :: l :: r =>
      by_cases ht : t = 0
      · subst ht; exact .inr (.inr (.done _))
      by_cases h0 : l = 0
      · subst h0; exact .inr (.inr (.zero t r ht))
      have h0' : 0 < l.toNat := by
        rcases Nat.eq_zero_or_pos l.toNat with h | h
        · exact absurd (UInt8.toNat_inj.mp (by simpa using h)) h0
        · exact h
      by_cases h64 : l.toNat % 64 = 0
      · cases hr : fixedRead t with
        | none =>
          refine .inl (.stuck t l r ht h64 h0' fun k hk => ?_)
          rw [reads_iff, hr] at hk
          cases hk
        | some k =>
          by_cases hk : k ≤ r.length
          · exact .inr (.inl (.stuck t l k r h64 h0' ((reads_iff t k).mpr hr) hk))
          · refine .inl (.stuck t l r ht h64 h0' fun k' hk' => ?_)
            rw [reads_iff, hr] at hk'
            cases hk'
            omega
      by_cases hle : 4 * l.toNat % 256 ≤ (t :: l :: r).length
      · have hp : 0 < 4 * l.toNat % 256 := by omega
        rcases ih ((t :: l :: r).drop (4 * l.toNat % 256)) (by simp only [List.length_drop]; omega) with h | h | h
        · exact .inl (.next t l r ht hp hle h)
        · exact .inr (.inl (.next t l r ht hp hle h))
        · exact .inr (.inr (.next t l r ht hp hle h))
      · exact .inr (.inr (.short t l r ht (by omega)))

/-- One step of a release build over a header whose size is not 0 and whose octets are there. -/
theorem release_step (t l : UInt8) (r : Bytes) (ht : t ≠ 0) (h0 : 0 < 4 * l.toNat % 256)
    (hle : 4 * l.toNat % 256 ≤ (t :: l :: r).length) :
    (∃ x, ExtHdr.unmarshal .release (t :: l :: r) = .ok x ∧ x ≠ .noMore ∧ x.len .release = .ok (4 * l.toNat % 256)) ∨
    ExtHdr.unmarshal .release (t :: l :: r) = .panic ∧ (t :: l :: r).drop (4 * l.toNat % 256) = [] := by
  have hl : l ≠ 0 := by rintro rfl; simp at h0
  have hle' : 4 * l.toNat % 256 ≤ r.length + 2 := hle
  have he : ExtHdr.unmarshal .release (t :: l :: r) = extBody t l (4 * l.toNat % 256) (t :: l :: r) := by
    rw [ext_cons _ t l r ht, if_neg hl, len4_release, R.ok_bind, if_pos hle']
  rcases extBody_cases t l (4 * l.toNat % 256) r with ⟨⟨x, hx⟩, -⟩ | ⟨hp, hk⟩
  · obtain ⟨a, c⟩ := extBody_post .release _ _ _ _ _ hx
    exact .inl ⟨x, he.trans hx, a, by rw [c, len4_release]⟩
  · refine .inr ⟨he.trans hp, List.drop_eq_nil_of_le ?_⟩
    simp only [List.length_cons]
    rcases hk with ⟨k, hk, hlt⟩ | ⟨-, hk⟩
    · have hk3 : k ≤ 3 := by
        revert hk
        unfold fixedRead
        repeat' split
        all_goals intro h; cases h
        all_goals omega
      omega
    · omega

theorem chain_dies (b : Bytes) (h : ChainDies b) : ∀ f, b.length < f → Header.extLoop .release f b = .panic := by
  induction h with
  | empty =>
    intro f hf
    match f with
    | f + 1 => simp [Header.extLoop, ext_nil]
  | noLength t ht =>
    intro f hf
    match f with
    | f + 1 => simp [Header.extLoop, ext_one _ t ht]
  | stuck t l r ht h64 h0 hc =>
    intro f hf
    match f with
    | f + 1 =>
      have hl : l ≠ 0 := by rintro rfl; simp at h0
      have hn : 4 * l.toNat % 256 = 0 := by omega
      have hp : ExtHdr.unmarshal .release (t :: l :: r) = .panic := by
        rw [ext_cons _ t l r ht, if_neg hl, len4_release, R.ok_bind, hn, if_pos (by omega)]
        rcases extBody_cases t l 0 r with ⟨-, ⟨k, hk, hlt⟩ | ⟨-, h2, -⟩⟩ | ⟨hp, -⟩
        · have := hc k ((reads_iff t k).mpr hk); omega
        · omega
        · exact hp
      simp [Header.extLoop, hp]
  | next t l r ht h0 hle _ ih =>
    intro f hf
    match f with
    | f + 1 =>
      rcases release_step t l r ht h0 hle with ⟨x, e1, e2, e3⟩ | ⟨e1, -⟩
      · rw [loop_step e1 e2 e3 hle, ih f (by simp only [List.length_drop]; omega)]
        rfl
      · simp [Header.extLoop, e1]

theorem chain_ends (b : Bytes) (h : ChainEnds b) : ∀ f, b.length < f →
    (∃ l, Header.extLoop .release f b = .ok l) ∨ ∃ e, Header.extLoop .release f b = .err e := by
  induction h with
  | done r =>
    intro f hf
    match f with
    | f + 1 => exact .inl ⟨[], by simp [Header.extLoop, ext_zero]⟩
  | zero t r ht =>
    intro f hf
    match f with
    | f + 1 => exact .inr ⟨_, by simp only [Header.extLoop, ext_cons _ t 0 r ht, if_true]; rfl⟩
  | short t l r ht hlt =>
    intro f hf
    match f with
    | f + 1 =>
      have hl : l ≠ 0 := by rintro rfl; simp at hlt
      have : ¬ 4 * l.toNat % 256 ≤ r.length + 2 := by simp only [List.length_cons] at hlt; omega
      exact .inr ⟨_, by simp only [Header.extLoop, ext_cons _ t l r ht, hl, if_false, len4_release, R.ok_bind, this]; rfl⟩
  | next t l r ht h0 hle hc ih =>
    intro f hf
    match f with
    | f + 1 =>
      rcases release_step t l r ht h0 hle with ⟨x, e1, e2, e3⟩ | ⟨-, e⟩
      · rw [loop_step e1 e2 e3 hle]
        rcases ih f (by simp only [List.length_drop]; omega) with ⟨l', h'⟩ | ⟨e, h'⟩
        · rw [h']; exact .inl ⟨_, rfl⟩
        · rw [h']; exact .inr ⟨_, rfl⟩
      · rw [e] at hc
        cases hc

/-- C26 in a release build: exactly when header decoding panics and exactly when it never ends. -/
theorem C26_release_iff (b : Bytes) :
    (Header.unmarshal .release b = .panic ↔ FixedOk b ∧ readsChain (b.getD 0 0) ∧ ChainDies (b.drop 11)) ∧
    (Header.unmarshal .release b = .diverge ↔ FixedOk b ∧ readsChain (b.getD 0 0) ∧ ChainSpins (b.drop 11)) := by
  obtain ⟨s1, s2, s3⟩ := uheader_shape .release b
  by_cases hf : FixedOk b
  rotate_left
  · rcases s1 hf with h | h <;> simp [h, hf]
  by_cases hc : readsChain (b.getD 0 0)
  rotate_left
  · obtain ⟨h, hh⟩ := s2 hf hc
    rw [hh]
    simp only [hc, false_and, and_false, iff_false]
    exact ⟨fun h => (nomatch h), fun h => (nomatch h)⟩
  obtain ⟨g, hg⟩ := s3 hf hc
  rw [hg, Header.unmarshalExts]
  simp only [hf, hc, true_and]
  have hd := chain_dies (b.drop 11)
  have hs := chain_spins (b.drop 11)
  have he := chain_ends (b.drop 11)
  rcases release_cases _ (b.drop 11) (Nat.le_refl _) with h' | h' | h'
  · have e := hd h' _ (Nat.lt_succ_self _)
    rw [e]
    exact ⟨iff_of_true rfl h', iff_of_false (by intro h; cases h) fun h => (by have := hs h ((b.drop 11).length + 1); rw [e] at this; cases this)⟩
  · have e := hs h' ((b.drop 11).length + 1)
    rw [e]
    exact ⟨iff_of_false (by intro h; cases h) fun h => (by have := hd h _ (Nat.lt_succ_self _); rw [e] at this; cases this), iff_of_true rfl h'⟩
  · rcases he h' _ (Nat.lt_succ_self _) with ⟨l, e⟩ | ⟨x, e⟩
    all_goals
      rw [e]
      exact ⟨iff_of_false (by intro h; cases h) fun h => (by have := hd h _ (Nat.lt_succ_self _); rw [e] at this; cases this),
        iff_of_false (by intro h; cases h) fun h => (by have := hs h ((b.drop 11).length + 1); rw [e] at this; cases this)⟩

/-- A long PDCP PDU number whose length octet is 64 and which is cut. -/
example : ChainDies ([0x34, 255, 0, 8, 0, 0, 0, 1, 0, 0, 0, 0x03, 64, 0].drop 11) ∧
    Header.unmarshal .release [0x34, 255, 0, 8, 0, 0, 0, 1, 0, 0, 0, 0x03, 64, 0] = .panic :=
  ⟨.stuck _ _ _ (by decide) (by decide) (by decide) (by
    intro k hk
    simp only [List.mem_cons, Prod.mk.injEq, List.not_mem_nil, or_false] at hk
    rcases hk with h | h | h | h | h
    · exact absurd h.1 (by decide)
    · exact absurd h.1 (by decide)
    · rw [h.2]; decide
    · exact absurd h.1 (by decide)
    · exact absurd h.1 (by decide)), by decide +kernel⟩

/-- A length octet of 65 counts as one of 1. -/
example : ChainEnds ([0x34, 255, 0, 8, 0, 0, 0, 1, 0, 0, 0, 0x40, 65, 0, 1, 0].drop 11) :=
  .next _ _ _ (by decide) (by decide) (by decide) (.done [])

end Gtp.Props

namespace Gtp.Props.C1
open Gtp.C1 Gtp.V1
open Gtp.U (len4 len4_ok len4_debug len4_release)

/-- A chain on which a release build panics: it ends before its closing octet, or `length * 4` wraps to 0 for a header kind that is not known or whose value is missing. -/
inductive ChainDies : Bytes → Prop
  | empty : ChainDies []
  | noLength (t : UInt8) : t ≠ 0 → ChainDies [t]
  | stuck (t l : UInt8) (r : Bytes) : t ≠ 0 → l.toNat % 64 = 0 → 0 < l.toNat → (isFixed t → r.length < 2) → ChainDies (t :: l :: r)
  | next (t l : UInt8) (r : Bytes) : t ≠ 0 → 0 < 4 * l.toNat % 256 → 4 * l.toNat % 256 ≤ (t :: l :: r).length →
      ChainDies ((t :: l :: r).drop (4 * l.toNat % 256)) → ChainDies (t :: l :: r)

/-- A chain which a release build accepts or reports: it closes with a type octet 0, or there is a header of length 0, or one
that announces, modulo 256, more than the buffer holds. -/
inductive ChainEnds : Bytes → Prop
  | done (r : Bytes) : ChainEnds (0 :: r)
  | zero (t : UInt8) (r : Bytes) : t ≠ 0 → ChainEnds (t :: 0 :: r)
  | short (t l : UInt8) (r : Bytes) : t ≠ 0 → (t :: l :: r).length < 4 * l.toNat % 256 → ChainEnds (t :: l :: r)
  | next (t l : UInt8) (r : Bytes) : t ≠ 0 → 0 < 4 * l.toNat % 256 → 4 * l.toNat % 256 ≤ (t :: l :: r).length →
      ChainEnds ((t :: l :: r).drop (4 * l.toNat % 256)) → ChainEnds (t :: l :: r)

theorem release_cases : ∀ (k : Nat) (b : Bytes), b.length ≤ k → ChainDies b ∨ ChainSpins b ∨ ChainEnds b := by
  intro k
  induction k with
  | zero => intro b hb; exact .inl (by rw [List.length_eq_zero_iff.mp (Nat.le_zero.mp hb)]; exact .empty)
  | succ k ih =>
    intro b hb
    match b with
    | [] => exact .inl .empty
    | [t] =>
      by_cases ht : t = 0
      · subst ht; exact .inr (.inr (.done []))
      · exact .inl (.noLength t ht)
    | t :: l :: r =>
      by_cases ht : t = 0
      · subst ht; exact .inr (.inr (.done _))
      by_cases h0 : l = 0
      · subst h0; exact .inr (.inr (.zero t r ht))
      have h0' : 0 < l.toNat := by
        rcases Nat.eq_zero_or_pos l.toNat with h | h
        · exact absurd (UInt8.toNat_inj.mp (by simpa using h)) h0
        · exact h
      by_cases h64 : l.toNat % 64 = 0
      · by_cases hk : isFixed t
        · by_cases hr : 2 ≤ r.length
          · exact .inr (.inl (.stuck t l r h64 h0' hk hr))
          · exact .inl (.stuck t l r ht h64 h0' fun _ => by omega)
        · exact .inl (.stuck t l r ht h64 h0' fun h => absurd h hk)
      by_cases hle : 4 * l.toNat % 256 ≤ (t :: l :: r).length
      · have hp : 0 < 4 * l.toNat % 256 := by omega
        rcases ih ((t :: l :: r).drop (4 * l.toNat % 256)) (by simp only [List.length_drop]; omega) with h | h | h
        · exact .inl (.next t l r ht hp hle h)
        · exact .inr (.inl (.next t l r ht hp hle h))
        · exact .inr (.inr (.next t l r ht hp hle h))
      · exact .inr (.inr (.short t l r ht (by omega)))

/-- One step of a release build over a header whose size is not 0 and whose octets are there. -/
theorem release_step (t l : UInt8) (r : Bytes) (ht : t ≠ 0) (h0 : 0 < 4 * l.toNat % 256)
    (hle : 4 * l.toNat % 256 ≤ (t :: l :: r).length) :
    (∃ x, ExtHdr.unmarshal .release (t :: l :: r) = .ok x ∧ x ≠ .noMore ∧ x.len .release = .ok (4 * l.toNat % 256)) ∨
    ExtHdr.unmarshal .release (t :: l :: r) = .panic ∧ (t :: l :: r).drop (4 * l.toNat % 256) = [] := by
  have hl : l ≠ 0 := by rintro rfl; simp at h0
  have hle' : 4 * l.toNat % 256 ≤ r.length + 2 := hle
  have he : ExtHdr.unmarshal .release (t :: l :: r) = extBody t l (4 * l.toNat % 256) (t :: l :: r) := by
    rw [ext_cons _ t l r ht, if_neg hl, len4_release, R.ok_bind, if_pos hle']
  rcases extBody_cases t l (4 * l.toNat % 256) r with ⟨⟨x, hx⟩, -⟩ | ⟨hp, hk⟩
  · obtain ⟨a, c⟩ := extBody_post .release _ _ _ _ _ hx
    exact .inl ⟨x, he.trans hx, a, by rw [c, len4_release]⟩
  · omega

theorem chain_dies (b : Bytes) (h : ChainDies b) : ∀ f, b.length < f → Header.extLoop .release f b = .panic := by
  induction h with
  | empty =>
    intro f hf
    match f with
    | f + 1 => simp [Header.extLoop, ext_nil]
  | noLength t ht =>
    intro f hf
    match f with
    | f + 1 => simp [Header.extLoop, ext_one _ t ht]
  | stuck t l r ht h64 h0 hc =>
    intro f hf
    match f with
    | f + 1 =>
      have hl : l ≠ 0 := by rintro rfl; simp at h0
      have hn : 4 * l.toNat % 256 = 0 := by omega
      have hp : ExtHdr.unmarshal .release (t :: l :: r) = .panic := by
        rw [ext_cons _ t l r ht, if_neg hl, len4_release, R.ok_bind, hn, if_pos (by omega)]
        rcases extBody_cases t l 0 r with ⟨-, ⟨hk, hlt⟩ | ⟨-, h2, -⟩⟩ | ⟨hp, -⟩
        · have := hc hk; omega
        · omega
        · exact hp
      simp [Header.extLoop, hp]
  | next t l r ht h0 hle _ ih =>
    intro f hf
    match f with
    | f + 1 =>
      rcases release_step t l r ht h0 hle with ⟨x, e1, e2, e3⟩ | ⟨e1, -⟩
      · rw [loop_step e1 e2 e3 hle, ih f (by simp only [List.length_drop]; omega)]
        rfl
      · simp [Header.extLoop, e1]

theorem chain_ends (b : Bytes) (h : ChainEnds b) : ∀ f, b.length < f →
    (∃ l, Header.extLoop .release f b = .ok l) ∨ ∃ e, Header.extLoop .release f b = .err e := by
  induction h with
  | done r =>
    intro f hf
    match f with
    | f + 1 => exact .inl ⟨[], by simp [Header.extLoop, ext_zero]⟩
  | zero t r ht =>
    intro f hf
    match f with
    | f + 1 => exact .inr ⟨_, by simp only [Header.extLoop, ext_cons _ t 0 r ht, if_true]; rfl⟩
  | short t l r ht hlt =>
    intro f hf
    match f with
    | f + 1 =>
      have hl : l ≠ 0 := by rintro rfl; simp at hlt
      have : ¬ 4 * l.toNat % 256 ≤ r.length + 2 := by simp only [List.length_cons] at hlt; omega
      exact .inr ⟨_, by simp only [Header.extLoop, ext_cons _ t l r ht, hl, if_false, len4_release, R.ok_bind, this]; rfl⟩
  | next t l r ht h0 hle hc ih =>
    intro f hf
    match f with
    | f + 1 =>
      rcases release_step t l r ht h0 hle with ⟨x, e1, e2, e3⟩ | ⟨-, e⟩
      · rw [loop_step e1 e2 e3 hle]
        rcases ih f (by simp only [List.length_drop]; omega) with ⟨l', h'⟩ | ⟨e, h'⟩
        · rw [h']; exact .inl ⟨_, rfl⟩
        · rw [h']; exact .inr ⟨_, rfl⟩
      · rw [e] at hc
        cases hc

/-- C40 in a release build: exactly when header decoding panics and exactly when it never ends. -/
theorem C40_release_iff (b : Bytes) :
    (Header.unmarshal .release b = .panic ↔ FixedOk b ∧ hasChain (b.getD 0 0) ∧ ChainDies (b.drop 11)) ∧
    (Header.unmarshal .release b = .diverge ↔ FixedOk b ∧ hasChain (b.getD 0 0) ∧ ChainSpins (b.drop 11)) := by
  obtain ⟨s1, s2, s3⟩ := header_shape .release b
  by_cases hf : FixedOk b
  rotate_left
  · rcases s1 hf with h | h <;> simp [h, hf]
  by_cases hc : hasChain (b.getD 0 0)
  rotate_left
  · obtain ⟨h, hh, -⟩ := s2 hf hc
    rw [hh]
    simp only [hc, false_and, and_false, iff_false]
    exact ⟨fun h => (nomatch h), fun h => (nomatch h)⟩
  obtain ⟨g, hg, -⟩ := s3 hf hc
  rw [hg, Header.unmarshalExts]
  simp only [hf, hc, true_and]
  have hd := chain_dies (b.drop 11)
  have hs := chain_spins (b.drop 11)
  have he := chain_ends (b.drop 11)
  rcases release_cases _ (b.drop 11) (Nat.le_refl _) with h' | h' | h'
  · have e := hd h' _ (Nat.lt_succ_self _)
    rw [e]
    exact ⟨iff_of_true rfl h', iff_of_false (by intro h; cases h) fun h => (by have := hs h ((b.drop 11).length + 1); rw [e] at this; cases this)⟩
  · have e := hs h' ((b.drop 11).length + 1)
    rw [e]
    exact ⟨iff_of_false (by intro h; cases h) fun h => (by have := hd h _ (Nat.lt_succ_self _); rw [e] at this; cases this), iff_of_true rfl h'⟩
  · rcases he h' _ (Nat.lt_succ_self _) with ⟨l, e⟩ | ⟨x, e⟩
    all_goals
      rw [e]
      exact ⟨iff_of_false (by intro h; cases h) fun h => (by have := hd h _ (Nat.lt_succ_self _); rw [e] at this; cases this),
        iff_of_false (by intro h; cases h) fun h => (by have := hs h ((b.drop 11).length + 1); rw [e] at this; cases this)⟩

/-- An unknown extension header of length 64. -/
example : ChainDies ([0x34, 16, 0, 8, 0, 0, 0, 1, 0, 0, 0, 0x77, 64, 0, 0, 0].drop 11) ∧
    Header.unmarshal .release [0x34, 16, 0, 8, 0, 0, 0, 1, 0, 0, 0, 0x77, 64, 0, 0, 0] = .panic :=
  ⟨.stuck _ _ _ (by decide) (by decide) (by decide) (by decide), by decide +kernel⟩

end Gtp.Props.C1
