import Verif.V2.WrapArm
import Verif.V2.Panic

/-!
# When the decoder of information elements panics in a release build, and when it never ends
-/

namespace Gtp.V2

variable {dec : Bytes → R Err (List IE)} {b : Bytes} {k : Kind}

/-- `CrashR` and `Spin` together with a declared length. -/
theorem Kind.Spin_length (h : k.Spin b) : declN b = 65532 := by
  cases k <;> first | exact h.1 | exact absurd h id

theorem Kind.crashR_small (h : declN b < 65532) : k.CrashR b ↔ k.Crash b := by
  unfold Kind.CrashR
  simp only [h, Nat.not_le.mpr h, true_and, false_and, or_false]

theorem Kind.crashR_wrap (h : 65532 ≤ declN b) : k.CrashR b ↔ k.WrapCrash b := by
  unfold Kind.CrashR
  simp only [h, Nat.not_lt.mpr h, true_and, false_and, false_or]

theorem Kind.grouped_wrap (hk : k.grouped = true) : k.WrapCrash b = (4 ≤ b.length) := by
  cases k <;> first | rfl | cases hk

theorem Kind.grouped_crash (hk : k.grouped = true) : k.Crash b = Over 4 b := by
  cases k <;> first | rfl | cases hk

theorem Kind.grouped_spin (hk : k.grouped = true) : k.Spin b = False := by
  cases k <;> first | rfl | cases hk

/-- One arm without members in a release build, exactly. -/
theorem unmKind_release (hk : k.grouped = false) (hb : b ≠ []) (z : Prop) :
    QuietArmR dec b k z ↔ ¬ k.CrashR b ∧ (z → ¬ k.Spin b) := by
  by_cases h : declN b < 65532
  · rw [unmKind_small h, unmKind_quiet hb, Kind.crashR_small h, hk]
    have : ¬ k.Spin b := fun hs => by have := Kind.Spin_length hs; omega
    simp [this]
  · rw [unmKind_wrap hk hb (by omega), Kind.crashR_wrap (by omega)]

/-- An IE of size 0 is decoded, so that no panic is in the way. -/
theorem Kind.Spin_quiet (h : k.Spin b) : ¬ k.CrashR b := by
  have hl := Kind.Spin_length h
  rw [Kind.crashR_wrap (by omega)]
  cases k <;> try exact absurd h id
  all_goals simp only [Kind.Spin, Kind.WrapCrash] at h ⊢
  case Apn => exact fun hc => hc.2.elim (by omega) fun hn => hn (by rw [hl]; exact h.2.2)
  case Fqdn => exact fun hc => hc.2.elim (by omega) fun hn => hn (by rw [hl]; exact h.2.2)
  case ExtendedTraceInformation =>
    obtain ⟨_, _, hw⟩ := h
    simp only [ExtendedTraceInformation.Whole, ExtendedTraceInformation.cur3, ExtendedTraceInformation.cur2,
      ExtendedTraceInformation.cur1, ExtendedTraceInformation.behind] at hw
    simp only [checksLv]
    generalize 10 + 1 + octAt b 10 = c1 at *
    generalize c1 + 1 + octAt b c1 = c2 at *
    generalize c2 + 1 + 1 + octAt b (c2 + 1) = c3 at *
    omega
  case Fqcsid => exact id
  all_goals omega

/-- The arms without members do not decode anything else. -/
theorem unmKind_alone (hk : k.grouped = false) (m : Mode) : unmKind dec m b k = unmKind (fun _ => .ok []) m b k := by
  cases k <;> first | rfl | cases hk

theorem decodeOne_front (m : Mode) (hb : b ≠ []) :
    decodeOne dec m b = unmKind dec m b (frontKind b) >>= fun x => x.len m >>= fun n => .ok (x, n) := by
  have h0 : 0 < b.length := List.length_pos_iff.mpr hb
  rw [decodeOne, rd_getD h0, R.ok_bind]
  rfl

theorem decodeOne_alone_fin (hk : (frontKind b).grouped = false) (m : Mode) (hb : b ≠ []) : (decodeOne dec m b).Fin := by
  rw [decodeOne_front m hb, unmKind_alone hk]
  exact R.Fin.bind (unmKind_fin fun s _ => by intro h; cases h) fun x => R.Fin.bind IE.len_fin fun n => by intro h; cases h

theorem decodeOne_alone_safe (hk : (frontKind b).grouped = false) (hb : b ≠ []) (z : Prop) :
    ((decodeOne dec .release b).Safe fun p => z → p.2 ≠ 0) ↔ ¬ (frontKind b).CrashR b ∧ (z → ¬ (frontKind b).Spin b) := by
  rw [← unmKind_release (dec := dec) hk hb z, decodeOne_front _ hb, Safe_bind]
  simp only [Safe_bind, Safe_ok]

/-- The members of a grouped IE. -/
theorem groupUnm_release {α : Type} {mk : UInt8 → UInt16 → UInt8 → List IE → α} (hb : b ≠ []) :
    groupUnm dec mk .release b =
      if Full b then dec (memberOctets b) >>= fun l => pure (mk (b.getD 0 0) (declLen b) (b.getD 3 0) l)
      else if 4 ≤ b.length ∧ 65532 ≤ declN b then .panic else .err (.ieInvalidLength (b.getD 0 0)) := by
  have h0 : 0 < b.length := List.length_pos_iff.mpr hb
  have hlt := (declLen b).toNat_lt
  have hN : declN b = (declLen b).toNat := rfl
  unfold groupUnm
  by_cases h4 : 4 ≤ b.length
  · have e16 : (rd16 b 1 : R Err UInt16) = .ok (declLen b) := by
      simp only [rd16]
      simp (disch := omega) only [rd_getD, R.ok_bind, R.pure_eq]
      rfl
    rw [if_pos h4, rd_getD h0, R.ok_bind, e16, R.ok_bind, rd_getD (by omega), R.ok_bind]
    by_cases hl : declN b < 65532
    · have hc : (checkTliv .release (declLen b) b : R Err Bool) = .ok (decide (0 < declN b ∧ declN b + 4 ≤ b.length)) := checkTliv_ok hl
      rw [hc, R.ok_bind]
      by_cases hf : 0 < declN b ∧ declN b + 4 ≤ b.length
      · have hs : (slBody16 .release b (declLen b) : R Err Bytes) = .ok (memberOctets b) := by
          have h44 : (4 : UInt16).toNat = 4 := rfl
          have e4 : (declLen b + 4).toNat = declN b + 4 := by
            rw [UInt16.toNat_add, h44]
            omega
          show (sl b 4 (declLen b + 4).toNat : R Err Bytes) = _
          rw [e4, sl, if_pos (by omega)]
        simp only [decide_eq_true hf, if_true]
        rw [hs, R.ok_bind, if_pos (show Full b from ⟨hf.1, hl, hf.2⟩)]
      · simp only [decide_eq_false hf, Bool.false_eq_true, if_false]
        rw [if_neg (show ¬ Full b from fun h => hf ⟨h.1, h.2.2⟩), if_neg (by omega)]
    · have hc : (checkTliv .release (declLen b) b : R Err Bool) = .ok true := by
        have h0 : declLen b ≠ 0 := by intro e; rw [declN, e] at hl; exact hl (by decide)
        rw [checkTliv, if_neg h0]
        show R.ok (decide ((declLen b + 4).toNat ≤ b.length)) = _
        rw [wrap4 (by omega), decide_eq_true (by omega)]
      have hs : (slBody16 .release b (declLen b) : R Err Bytes) = .panic := by
        show (sl b 4 (declLen b + 4).toNat : R Err Bytes) = _
        rw [wrap4 (by omega), sl, if_neg (by omega)]
      rw [hc, R.ok_bind]
      simp only [if_true]
      rw [hs, R.panic_bind, if_neg (fun h : Full b => hl h.2.1), if_pos ⟨h4, by omega⟩]
  · rw [if_neg h4, rd_getD h0, R.ok_bind, if_neg (fun h : Full b => by have := h.2.2; omega), if_neg (by omega)]

/-- `y` panics or never ends exactly if `x` does, and does not stand still. -/
def Follows (x : R Err (List IE)) (y : R Err (IE × Nat)) : Prop :=
  (y = .panic ↔ x = .panic) ∧ (y = .diverge ↔ x = .diverge) ∧ ∀ e, y ≠ .ok (e, 0)

theorem group_arm (hk : k.grouped = true) (hb : b ≠ []) (hf : Full b) :
    Follows (dec (memberOctets b)) (unmKind dec .release b k >>= fun x => x.len .release >>= fun n => .ok (x, n)) := by
  have hd := fun (α : Type) (mk : UInt8 → UInt16 → UInt8 → List IE → α) => (groupUnm_release (dec := dec) (mk := mk) hb).trans (if_pos hf)
  cases k <;> (try cases hk) <;> simp only [unmKind, hd] <;> cases dec (memberOctets b) <;>
    simp only [R.ok_bind, R.panic_bind, R.diverge_bind, R.err_bind, R.pure_eq, listCheck, Follows] <;>
    (repeat' split) <;> simp [IE.len, ieLenU]

theorem group_arm_short (hk : k.grouped = true) (hb : b ≠ []) (hf : ¬ Full b) :
    unmKind dec .release b k = if 4 ≤ b.length ∧ 65532 ≤ declN b then .panic else .err (.ieInvalidLength (b.getD 0 0)) := by
  have hd := fun (α : Type) (mk : UInt8 → UInt16 → UInt8 → List IE → α) => (groupUnm_release (dec := dec) (mk := mk) hb).trans (if_neg hf)
  cases k <;> (try cases hk) <;> simp only [unmKind, hd] <;> split <;> rfl

theorem Kind.grouped_crashR (hk : k.grouped = true) : k.CrashR b ↔ 4 ≤ b.length ∧ 65532 ≤ declN b := by
  unfold Kind.CrashR
  rw [Kind.grouped_wrap hk, Kind.grouped_crash hk]
  unfold Over
  omega

/-- One turn of the loop in a release build: exactly when it panics, never ends, and stands still. -/
theorem decodeOne_release (hb : b ≠ []) :
    (decodeOne dec .release b = .panic ↔
      (frontKind b).CrashR b ∨ (frontKind b).grouped = true ∧ Full b ∧ dec (memberOctets b) = .panic) ∧
    (decodeOne dec .release b = .diverge ↔ (frontKind b).grouped = true ∧ Full b ∧ dec (memberOctets b) = .diverge) ∧
    ((∃ x, decodeOne dec .release b = .ok (x, 0)) ↔ (frontKind b).Spin b) := by
  by_cases hk : (frontKind b).grouped = true
  · rw [decodeOne_front _ hb, Kind.grouped_crashR hk, Kind.grouped_spin hk]
    by_cases hf : Full b
    · obtain ⟨h1, h2, h3⟩ := group_arm (dec := dec) hk hb hf
      have hl := hf.2.1
      rw [h1, h2]
      refine ⟨⟨fun h => .inr ⟨hk, hf, h⟩, ?_⟩, ⟨fun h => ⟨hk, hf, h⟩, fun h => h.2.2⟩, ⟨fun ⟨x, h⟩ => h3 x h, False.elim⟩⟩
      rintro (h | h)
      · omega
      · exact h.2.2
    · rw [group_arm_short hk hb hf]
      by_cases hc : 4 ≤ b.length ∧ 65532 ≤ declN b
      · rw [if_pos hc, R.panic_bind]
        exact ⟨⟨fun _ => .inl hc, fun _ => rfl⟩, ⟨fun h => (nomatch h), fun h => absurd h.2.1 hf⟩, ⟨fun ⟨x, h⟩ => (nomatch h), False.elim⟩⟩
      · rw [if_neg hc, R.err_bind]
        exact ⟨⟨fun h => (nomatch h), fun h => h.elim (fun h => absurd h hc) fun h => absurd h.2.1 hf⟩,
          ⟨fun h => (nomatch h), fun h => absurd h.2.1 hf⟩, ⟨fun ⟨x, h⟩ => (nomatch h), False.elim⟩⟩
  · have hk' : (frontKind b).grouped = false := by simpa using hk
    have ht := decodeOne_alone_safe (dec := dec) hk' hb True
    have hf := decodeOne_alone_safe (dec := dec) hk' hb False
    have hd := decodeOne_alone_fin (dec := dec) hk' .release hb
    simp only [true_implies, false_implies, and_true] at ht hf
    have hg : ∀ P : Prop, ¬ ((frontKind b).grouped = true ∧ P) := fun P h => hk h.1
    simp only [hg, or_false]
    cases hx : decodeOne dec .release b with
    | diverge => exact absurd hx hd
    | panic =>
      rw [hx] at hf
      have hc : (frontKind b).CrashR b := Classical.byContradiction fun hn => hf.mpr hn
      exact ⟨⟨fun _ => hc, fun _ => rfl⟩, ⟨fun h => (nomatch h), False.elim⟩, ⟨fun ⟨x, h⟩ => (nomatch h), fun h => absurd hc (Kind.Spin_quiet h)⟩⟩
    | err e =>
      rw [hx] at hf ht
      exact ⟨⟨fun h => (nomatch h), fun h => absurd h (hf.mp trivial)⟩, ⟨fun h => (nomatch h), False.elim⟩,
        ⟨fun ⟨x, h⟩ => (nomatch h), fun h => absurd h (ht.mp trivial).2⟩⟩
    | ok p =>
      obtain ⟨x, n⟩ := p
      rw [hx] at hf ht
      refine ⟨⟨fun h => (nomatch h), fun h => absurd h (hf.mp trivial)⟩, ⟨fun h => (nomatch h), False.elim⟩, ?_, ?_⟩
      · rintro ⟨y, h⟩
        obtain ⟨rfl, rfl⟩ := Prod.mk.inj (R.ok.inj h)
        exact Classical.byContradiction fun hn => ht.mpr ⟨hf.mp trivial, hn⟩ rfl
      · intro h
        have hn : n = 0 := Classical.byContradiction fun hn => (ht.mp hn).2 h
        exact ⟨x, by rw [hn]⟩

/-- The buffers at whose front the decoder looks for an IE while decoding `b` in a release build: `b` itself; the octets of the
members, if a grouped IE with a possible length is at the front; the rest behind an IE that was decoded. -/
inductive ReachesR : Bytes → Bytes → Prop
  | here (b : Bytes) : b ≠ [] → ReachesR b b
  | member (b s : Bytes) : (frontKind b).grouped = true → Full b → ReachesR (memberOctets b) s → ReachesR b s
  | next (b s : Bytes) (x : IE) (n : Nat) : decodeOne (decoder .release) .release b = .ok (x, n) → n ≠ 0 →
      ReachesR (b.drop n) s → ReachesR b s

theorem ReachesR.nil {s : Bytes} : ¬ ReachesR [] s := by
  intro h
  generalize hb : ([] : Bytes) = b at h
  induction h with
  | here b h => exact h hb.symm
  | member b s hg hf h ih => subst hb; exact ih rfl
  | next b s x n h1 h2 h ih => subst hb; exact ih (by simp)

theorem ReachesR.inv {b s : Bytes} (h : ReachesR b s) : b ≠ [] ∧ (s = b ∨
    ((frontKind b).grouped = true ∧ Full b ∧ ReachesR (memberOctets b) s) ∨
    ∃ x n, decodeOne (decoder .release) .release b = .ok (x, n) ∧ n ≠ 0 ∧ ReachesR (b.drop n) s) := by
  cases h with
  | here _ hb => exact ⟨hb, .inl rfl⟩
  | member _ _ hg hf h =>
    refine ⟨fun e => ?_, .inr (.inl ⟨hg, hf, h⟩)⟩
    subst e
    exact ReachesR.nil h
  | next _ _ x n h1 h2 h =>
    refine ⟨fun e => ?_, .inr (.inr ⟨x, n, h1, h2, h⟩)⟩
    subst e
    exact ReachesR.nil (by simpa using h)

theorem ReachesR.cases_iff {P : Bytes → Prop} (hb : b ≠ []) : (∃ s, ReachesR b s ∧ P s) ↔
    P b ∨ ((frontKind b).grouped = true ∧ Full b ∧ ∃ s, ReachesR (memberOctets b) s ∧ P s) ∨
    ∃ x n, decodeOne (decoder .release) .release b = .ok (x, n) ∧ n ≠ 0 ∧ ∃ s, ReachesR (b.drop n) s ∧ P s := by
  constructor
  · rintro ⟨s, hs, hp⟩
    obtain ⟨_, rfl | ⟨hg, hf, hm⟩ | ⟨y, n', hq, hn, hr⟩⟩ := hs.inv
    · exact .inl hp
    · exact .inr (.inl ⟨hg, hf, s, hm, hp⟩)
    · exact .inr (.inr ⟨y, n', hq, hn, s, hr, hp⟩)
  · rintro (hp | ⟨hg, hf, s, hs, hp⟩ | ⟨x, n, h1, hn, s, hs, hp⟩)
    · exact ⟨b, .here b hb, hp⟩
    · exact ⟨s, .member b s hg hf hs, hp⟩
    · exact ⟨s, .next b s x n h1 hn hs, hp⟩

theorem decoder_release_aux : ∀ (k : Nat) (b : Bytes), b.length < k →
    (decoder .release b = .panic ↔ ∃ s, ReachesR b s ∧ (frontKind s).CrashR s) ∧
    (decoder .release b = .diverge ↔ ∃ s, ReachesR b s ∧ (frontKind s).Spin s)
  | k + 1, b, hk => by
    by_cases hb : b = []
    · subst hb
      rw [decoder_nil]
      exact ⟨⟨fun h => (nomatch h), fun ⟨s, hs, _⟩ => absurd hs ReachesR.nil⟩,
        ⟨fun h => (nomatch h), fun ⟨s, hs, _⟩ => absurd hs ReachesR.nil⟩⟩
    have h0 : 0 < b.length := List.length_pos_iff.mpr hb
    obtain ⟨hm1, hm2⟩ := decoder_release_aux k (memberOctets b) (by simp; omega)
    obtain ⟨h1, h2, h3⟩ := decodeOne_release (dec := decoder .release) hb
    rw [ReachesR.cases_iff hb, ReachesR.cases_iff hb, ← hm1, ← hm2, ← or_assoc, ← h1, ← h2, ← h3, decoder_eq, if_neg hb]
    cases hp : decodeOne (decoder .release) .release b with
    | panic => simp
    | diverge => simp
    | err e => simp
    | ok p =>
      obtain ⟨x, n⟩ := p
      rw [R.ok_bind]
      simp only
      by_cases hn : n = 0
      · subst hn
        rw [if_pos rfl]
        refine ⟨⟨fun h => (nomatch h), ?_⟩, ⟨fun _ => .inl ⟨x, rfl⟩, fun _ => rfl⟩⟩
        rintro (h | ⟨y, n, h, hn, _⟩)
        · cases h
        · obtain ⟨rfl, rfl⟩ := Prod.mk.inj (R.ok.inj h)
          exact absurd rfl hn
      · obtain ⟨hn1, hn2⟩ := decoder_release_aux k (b.drop n) (by simp; omega)
        rw [if_neg hn]
        have e1 : (∃ y n', (R.ok (x, n) : R Err (IE × Nat)) = .ok (y, n') ∧ n' ≠ 0 ∧ ∃ s, ReachesR (b.drop n') s ∧ (frontKind s).CrashR s) ↔
            decoder .release (b.drop n) = .panic := by
          rw [hn1]
          constructor
          · rintro ⟨y, n', h, _, hs⟩
            obtain ⟨rfl, rfl⟩ := Prod.mk.inj (R.ok.inj h)
            exact hs
          · exact fun hs => ⟨x, n, rfl, hn, hs⟩
        have e2 : (∃ y n', (R.ok (x, n) : R Err (IE × Nat)) = .ok (y, n') ∧ n' ≠ 0 ∧ ∃ s, ReachesR (b.drop n') s ∧ (frontKind s).Spin s) ↔
            decoder .release (b.drop n) = .diverge := by
          rw [hn2]
          constructor
          · rintro ⟨y, n', h, _, hs⟩
            obtain ⟨rfl, rfl⟩ := Prod.mk.inj (R.ok.inj h)
            exact hs
          · exact fun hs => ⟨x, n, rfl, hn, hs⟩
        rw [e1, e2]
        cases hd : decoder .release (b.drop n) <;> simp [hn]

/-- The decoder panics exactly if one of the buffers that it reaches has an IE at its front which makes it panic. -/
theorem decoder_release_panic_iff (b : Bytes) : decoder .release b = .panic ↔ ∃ s, ReachesR b s ∧ (frontKind s).CrashR s :=
  (decoder_release_aux (b.length + 1) b (by omega)).1

/-- The decoder never ends exactly if one of the buffers that it reaches has an IE at its front on which it stands still. -/
theorem decoder_release_diverge_iff (b : Bytes) : decoder .release b = .diverge ↔ ∃ s, ReachesR b s ∧ (frontKind s).Spin s :=
  (decoder_release_aux (b.length + 1) b (by omega)).2

end Gtp.V2
