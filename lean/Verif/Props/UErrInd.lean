import Verif.Props.UMsg

/-!
# Property C32: exactly when decoding an Error Indication panics

The five other GTPv1-U messages are in Props/UMsg.lean. The body of an Error Indication is a sequence of elements, so the condition is an
inductive predicate on the octets of the body.
-/

namespace Gtp.Props
open Gtp.V1 Gtp.U

/-- The length field of the element that `r` starts with. -/
def elemLen (r : Bytes) : Nat := (r.getD 1 0).toNat * 256 + (r.getD 2 0).toNat

/-- `r` starts with a readable element of type `t` that is accounted with `n` octets: a TEID, a GSN address of 4 or 16 octets, or a private
extension. -/
def Elem (r : Bytes) (t : UInt8) (n : Nat) : Prop := r.head? = some t ∧
  ((t = 16 ∧ n = 5 ∧ 5 ≤ r.length) ∨
   (t = 133 ∧ n = elemLen r + 3 ∧ n ≤ r.length ∧ (elemLen r = 4 ∨ elemLen r = 16)) ∨
   (t = 255 ∧ n = elemLen r + 3 ∧ n ≤ r.length ∧ 5 ≤ r.length ∧ 1 ≤ elemLen r ∧ elemLen r < 65533))

/-- The body of an Error Indication on which a debug build panics, after elements that have been counted as in `c`, the last one of type `last`:
after some more readable elements in ascending order there is an element with a bad length, or the 256th element of its type. -/
inductive BodyPanics : (UInt8 → Nat) → UInt8 → Bytes → Prop
  | bad (c : UInt8 → Nat) (last t : UInt8) (r : Bytes) : r.head? = some t → last ≤ t → IeBad r → BodyPanics c last r
  | full (c : UInt8 → Nat) (last t : UInt8) (r : Bytes) (n : Nat) : Elem r t n → last ≤ t → c t = 255 → BodyPanics c last r
  | skip (c : UInt8 → Nat) (last t : UInt8) (r : Bytes) (n : Nat) : Elem r t n → last ≤ t → c t < 255 →
      BodyPanics (fun u => if u = t then c u + 1 else c u) t (r.drop n) → BodyPanics c last r

/-- The trouble with an Error Indication. -/
def IndBad (b : Bytes) : Prop := ∃ h s, AtHeader .debug b 26 h s ∧
  (65528 ≤ uAnnounced b ∨ (uAnnounced b + 8 ≤ b.length ∧ BodyPanics (fun _ => 0) 0 (b.drop s)))

theorem elemLen_cons (a b c : UInt8) (r : Bytes) : elemLen (a :: b :: c :: r) = (of16 b c).toNat := by
  rw [of16_toNat]
  rfl

theorem gsn_spec (m : Mode) (a b c : UInt8) (r : Bytes) (h : (of16 b c).toNat < 65533) :
    if ((of16 b c).toNat = 4 ∨ (of16 b c).toNat = 16) ∧ (of16 b c).toNat ≤ r.length then
      ∃ i, GsnAddress.unmarshal m (a :: b :: c :: r) = .ok i ∧ i.length = of16 b c
    else ∃ e, GsnAddress.unmarshal m (a :: b :: c :: r) = .err e := by
  have hb : ¬ 65533 ≤ ((a :: b :: c :: r).getD 1 0).toNat * 256 + ((a :: b :: c :: r).getD 2 0).toNat := by
    have := elemLen_cons a b c r
    unfold elemLen at this
    omega
  rcases gsn_cases m (a :: b :: c :: r) hb with ⟨e, he⟩ | ⟨i, hi, h1, h2, -⟩
  · rw [if_neg]
    · exact ⟨e, he⟩
    rintro ⟨h4, hl⟩
    unfold GsnAddress.unmarshal at he
    simp only [List.length_cons, rd16, rd_zero, rd_succ, R.ok_bind, R.pure_eq] at he
    rw [if_pos (by omega), if_neg (ne_zero_of_toNat (by omega)), checkTlv_ok h, R.ok_bind, if_pos (by simp; omega)] at he
    rcases h4 with h4 | h4
    · rw [if_pos (UInt16.toNat_inj.mp h4)] at he
      match r, hl with
      | d :: e :: f :: g :: r, hl => simp [rd32] at he
      | [], hl => simp at hl; omega
      | [_], hl => simp at hl; omega
      | [_, _], hl => simp at hl; omega
      | [_, _, _], hl => simp at hl; omega
    · rw [if_neg (fun e => by rw [e] at h4; cases h4), if_pos (UInt16.toNat_inj.mp h4), if_pos (by omega)] at he
      simp only [Gtp.V2.rdIp6, rd64] at he
      simp only [rd_lt (show 3 < (a :: b :: c :: r).length by simp; omega),
        rd_lt (show 3 + 1 < (a :: b :: c :: r).length by simp; omega),
        rd_lt (show 3 + 2 < (a :: b :: c :: r).length by simp; omega),
        rd_lt (show 3 + 3 < (a :: b :: c :: r).length by simp; omega),
        rd_lt (show 3 + 4 < (a :: b :: c :: r).length by simp; omega),
        rd_lt (show 3 + 5 < (a :: b :: c :: r).length by simp; omega),
        rd_lt (show 3 + 6 < (a :: b :: c :: r).length by simp; omega),
        rd_lt (show 3 + 7 < (a :: b :: c :: r).length by simp; omega),
        rd_lt (show 3 + 8 < (a :: b :: c :: r).length by simp; omega),
        rd_lt (show 3 + 8 + 1 < (a :: b :: c :: r).length by simp; omega),
        rd_lt (show 3 + 8 + 2 < (a :: b :: c :: r).length by simp; omega),
        rd_lt (show 3 + 8 + 3 < (a :: b :: c :: r).length by simp; omega),
        rd_lt (show 3 + 8 + 4 < (a :: b :: c :: r).length by simp; omega),
        rd_lt (show 3 + 8 + 5 < (a :: b :: c :: r).length by simp; omega),
        rd_lt (show 3 + 8 + 6 < (a :: b :: c :: r).length by simp; omega),
        rd_lt (show 3 + 8 + 7 < (a :: b :: c :: r).length by simp; omega), R.ok_bind, R.pure_eq] at he
      cases he
  · have key : i.length = of16 b c ∧ (i.length = 4 ∨ i.length = 16) := by
      unfold GsnAddress.unmarshal at hi
      simp only [List.length_cons, rd16, rd_zero, rd_succ, R.ok_bind, R.pure_eq] at hi
      rw [if_pos (by omega)] at hi
      split at hi
      · cases hi
      rw [checkTlv_ok h, R.ok_bind] at hi
      split at hi
      rotate_left
      · cases hi
      split at hi
      · next h4 =>
        cases hv : (rd32 (a :: b :: c :: r) 3 : R Err UInt32) with
        | ok v => rw [hv] at hi; cases hi; exact ⟨rfl, .inl h4⟩
        | err e => rw [hv] at hi; cases hi
        | panic => rw [hv] at hi; cases hi
        | diverge => rw [hv] at hi; cases hi
      split at hi
      · next h16 =>
        split at hi
        · cases hv : (Gtp.V2.rdIp6 (a :: b :: c :: r) 3 : R Err Gtp.V2.Ip6) with
          | ok v => rw [hv] at hi; cases hi; exact ⟨rfl, .inr h16⟩
          | err e => rw [hv] at hi; cases hi
          | panic => rw [hv] at hi; cases hi
          | diverge => rw [hv] at hi; cases hi
        · cases hi
      · cases hi
    rw [if_pos]
    · exact ⟨i, hi, key.1⟩
    · rw [key.1] at h2 key
      simp only [List.length_cons] at h2
      refine ⟨?_, by omega⟩
      rcases key.2 with k | k <;> rw [k]
      · exact .inl rfl
      · exact .inr rfl

theorem priv_spec (m : Mode) (a b c : UInt8) (r : Bytes) (h : ¬ PrivBad (a :: b :: c :: r)) :
    if 1 ≤ (of16 b c).toNat ∧ (of16 b c).toNat ≤ r.length ∧ 2 ≤ r.length then
      ∃ i, PrivateExtension.unmarshal m (a :: b :: c :: r) = .ok i ∧ i.length = of16 b c
    else ∃ e, PrivateExtension.unmarshal m (a :: b :: c :: r) = .err e := by
  have hl : ¬ (65533 ≤ (of16 b c).toNat ∨ ((of16 b c).toNat = 1 ∧ r.length = 1)) := by
    intro hb
    refine h ⟨by simp, ?_⟩
    simp only [List.getD_cons_succ, List.getD_cons_zero, List.length_cons]
    have := of16_toNat b c
    omega
  have hu : PrivateExtension.unmarshal m (a :: b :: c :: r) = if of16 b c = 0 then .err .ieInvalidLength else (do
      let k ← checkTlv m (of16 b c) (a :: b :: c :: r)
      if k then
        let i ← rd16 r 0
        let v ← slFrom r 2
        return ⟨255, of16 b c, i, v⟩
      else .err .ieInvalidLength) := by
    unfold PrivateExtension.unmarshal
    rw [if_pos (by simp)]
    simp only [rd16, rd_zero, rd_succ, R.ok_bind, R.pure_eq, slFrom, List.length_cons, List.drop_succ_cons,
      show (5 ≤ r.length + 3) = (2 ≤ r.length) from propext (by omega)]
  by_cases h0 : of16 b c = 0
  · rw [if_neg (by rw [h0]; simp), hu, if_pos h0]
    exact ⟨_, rfl⟩
  have hpos : 1 ≤ (of16 b c).toNat := by
    rcases Nat.eq_zero_or_pos (of16 b c).toNat with h' | h'
    · exact absurd (UInt16.toNat_inj.mp (by simpa using h')) h0
    · exact h'
  rw [hu, if_neg h0, checkTlv_ok (by omega), R.ok_bind]
  by_cases hc : (of16 b c).toNat ≤ r.length
  · match r, hc, hl with
    | [], hc, hl => simp at hc; omega
    | [x], hc, hl => simp at hc hl; omega
    | d :: e :: r, hc, hl =>
      rw [if_pos (show 1 ≤ (of16 b c).toNat ∧ (of16 b c).toNat ≤ (d :: e :: r).length ∧ 2 ≤ (d :: e :: r).length from ⟨hpos, hc, by simp⟩)]
      refine ⟨⟨255, of16 b c, of16 d e, r⟩, ?_, rfl⟩
      simp only [List.length_cons] at hc
      simp [rd16, slFrom]
      omega
  · rw [if_neg (show ¬ (1 ≤ (of16 b c).toNat ∧ (of16 b c).toNat ≤ r.length ∧ 2 ≤ r.length) by omega)]
    refine ⟨.ieInvalidLength, ?_⟩
    rw [if_neg]
    simp
    omega

theorem gsn_panic (a b c : UInt8) (r : Bytes) (h : 65533 ≤ (of16 b c).toNat) :
    GsnAddress.unmarshal .debug (a :: b :: c :: r) = .panic := by
  unfold GsnAddress.unmarshal
  rw [if_pos (by simp)]
  simp only [rd16, rd_zero, rd_succ, R.ok_bind, R.pure_eq]
  rw [if_neg (ne_zero_of_toNat (by omega)), checkTlv_debug h]
  rfl

theorem count_panic (n : Option UInt8) (h : seenN n = 255) : ErrorIndication.count .debug n = .panic := by
  cases n with
  | none => cases h
  | some k =>
    have : k = 255 := UInt8.toNat_inj.mp h
    subst this
    rfl

/-- How many elements of a type have been counted. -/
def counted (s : ErrorIndication.St) (t : UInt8) : Nat :=
  if t = 16 then seenN s.teidN else if t = 133 then seenN s.peerN else if t = 255 then seenN s.privN else 0

/-- What one iteration does in a debug build. -/
def StepSpec (s : ErrorIndication.St) (b : Bytes) : Prop :=
  (ErrorIndication.step .debug s b = .panic ∧ ∃ t, b.head? = some t ∧ s.increment ≤ t ∧
      (IeBad b ∨ ∃ n, Elem b t n ∧ counted s t = 255)) ∨
  ((∃ e, ErrorIndication.step .debug s b = .err e) ∧ ∀ t, b.head? = some t → s.increment ≤ t → ¬ IeBad b ∧ ∀ n, ¬ Elem b t n) ∨
  (∃ s' t n, ErrorIndication.step .debug s b = .ok (s', n) ∧ s.increment ≤ t ∧ ¬ IeBad b ∧ Elem b t n ∧ counted s t < 255 ∧
      s'.increment = t ∧ (∀ u, counted s' u = if u = t then counted s u + 1 else counted s u))

theorem elem_unique {b : Bytes} {t u : UInt8} {n k : Nat} (h : Elem b t n) (h' : Elem b u k) : t = u ∧ n = k := by
  obtain ⟨e, h⟩ := h
  obtain ⟨e', h'⟩ := h'
  rw [e] at e'
  cases e'
  refine ⟨rfl, ?_⟩
  rcases h with ⟨a, h, -⟩ | ⟨a, h, -⟩ | ⟨a, h, -⟩ <;> rcases h' with ⟨a', h', -⟩ | ⟨a', h', -⟩ | ⟨a', h', -⟩ <;>
    first | (rw [h, h']; done) | (rw [a] at a'; cases a')

theorem seen_le (n : Option UInt8) : seenN n ≤ 255 := by
  cases n with
  | none => simp [seenN]
  | some k => have := k.toNat_lt; simp only [seenN]; omega

theorem step_spec (s : ErrorIndication.St) (b : Bytes) (hb : b ≠ []) : StepSpec s b := by
  match b, hb with
  | t :: r, _ =>
    unfold StepSpec
    by_cases hi : s.increment ≤ t
    rotate_left
    · refine .inr (.inl ⟨⟨.messageInvalidMessageFormat, ?_⟩, ?_⟩)
      · unfold ErrorIndication.step
        rw [rd_zero, R.ok_bind, if_neg hi]
      · intro u hu hle
        cases hu
        exact absurd hle hi
    by_cases h16 : t = 16
    · subst h16
      have nb : ¬ IeBad (16 :: r) := by
        rintro (⟨h, -⟩ | ⟨h, -⟩) <;> cases h
      by_cases h4 : 4 < (16 :: r : Bytes).length
      rotate_left
      · refine .inr (.inl ⟨⟨.messageMandatoryIEMissing, ?_⟩, ?_⟩)
        · unfold ErrorIndication.step
          rw [rd_zero, R.ok_bind, if_pos hi, if_pos rfl, Teid.unmarshal, if_neg h4]
          rfl
        · intro u hu _
          cases hu
          refine ⟨nb, fun n he => ?_⟩
          rcases he.2 with ⟨-, -, h⟩ | ⟨h, -⟩ | ⟨h, -⟩
          · omega
          · cases h
          · cases h
      have hel : Elem (16 :: r) 16 5 := ⟨rfl, .inl ⟨rfl, rfl, h4⟩⟩
      match r, h4, nb, hel with
      | a :: b :: c :: d :: r, h4, nb, hel =>
        have hstep : ErrorIndication.step .debug s (16 :: a :: b :: c :: d :: r) = (do
            let k ← ErrorIndication.count .debug s.teidN
            let x := if s.teidN = none then { s.x with teid := ⟨16, of32 a b c d⟩ } else s.x
            return ({ s with teidN := some k, increment := 16, x }, 5)) := by
          unfold ErrorIndication.step Teid.unmarshal
          rw [rd_zero, R.ok_bind, if_pos hi, if_pos rfl, if_pos h4]
          simp only [rd32, rd_zero, rd_succ, R.ok_bind, R.pure_eq, R.mapErr_ok, Teid.len]
        by_cases hc : seenN s.teidN = 255
        · exact .inl ⟨by rw [hstep, count_panic _ hc]; rfl, 16, rfl, hi, .inr ⟨5, hel, hc⟩⟩
        · have hc' : seenN s.teidN < 255 := by have := seen_le s.teidN; omega
          obtain ⟨k, hk, hk2⟩ := count_ok .debug s.teidN hc'
          refine .inr (.inr ⟨_, 16, 5, by rw [hstep, hk]; rfl, hi, nb, hel, hc', rfl, ?_⟩)
          intro u
          by_cases hu : u = 16
          · subst hu
            simp only [counted, if_true]
            exact hk2
          · rw [if_neg hu]
            simp only [counted, if_neg hu]
    by_cases h133 : t = 133
    · subst h133
      by_cases h3 : 3 ≤ (133 :: r : Bytes).length
      rotate_left
      · refine .inr (.inl ⟨⟨.messageMandatoryIEMissing, ?_⟩, ?_⟩)
        · unfold ErrorIndication.step
          rw [rd_zero, R.ok_bind, if_pos hi, if_neg h16, if_pos rfl, GsnAddress.unmarshal, if_neg h3]
          rfl
        · intro u hu _
          cases hu
          refine ⟨?_, fun n he => ?_⟩
          · rintro (⟨-, h, -⟩ | ⟨h, -⟩)
            · exact h3 h
            · cases h
          · rcases he.2 with ⟨h, -⟩ | ⟨-, h, h', -⟩ | ⟨h, -⟩
            · cases h
            · omega
            · cases h
      match r, h3 with
      | b :: c :: r, h3 =>
      have hlen := elemLen_cons 133 b c r
      by_cases hov : 65533 ≤ (of16 b c).toNat
      · refine .inl ⟨?_, 133, rfl, hi, .inl (.inl ⟨rfl, h3, ?_⟩)⟩
        · unfold ErrorIndication.step
          rw [rd_zero, R.ok_bind, if_pos hi, if_neg h16, if_pos rfl, gsn_panic 133 b c r hov]
          rfl
        · unfold elemLen at hlen
          omega
      have nb : ¬ IeBad (133 :: b :: c :: r) := by
        rintro (⟨-, -, h⟩ | ⟨h, -⟩)
        · unfold elemLen at hlen
          omega
        · cases h
      have hg := gsn_spec .debug 133 b c r (by omega)
      by_cases hok : ((of16 b c).toNat = 4 ∨ (of16 b c).toNat = 16) ∧ (of16 b c).toNat ≤ r.length
      rotate_left
      · rw [if_neg hok] at hg
        obtain ⟨e, he⟩ := hg
        refine .inr (.inl ⟨⟨.messageMandatoryIEMissing, ?_⟩, ?_⟩)
        · unfold ErrorIndication.step
          rw [rd_zero, R.ok_bind, if_pos hi, if_neg h16, if_pos rfl, he]
          rfl
        · intro u hu _
          cases hu
          refine ⟨nb, fun n hel => ?_⟩
          rcases hel.2 with ⟨h, -⟩ | ⟨-, h, h', h''⟩ | ⟨h, -⟩
          · cases h
          · simp only [List.length_cons] at h'
            rw [hlen] at h h''
            exact hok ⟨h'', by omega⟩
          · cases h
      rw [if_pos hok] at hg
      obtain ⟨i, hg, hil⟩ := hg
      have hel : Elem (133 :: b :: c :: r) 133 ((of16 b c).toNat + 3) :=
        ⟨rfl, .inr (.inl ⟨rfl, by rw [hlen], by simp; omega, by rw [hlen]; exact hok.1⟩)⟩
      have hstep : ErrorIndication.step .debug s (133 :: b :: c :: r) = (do
          let k ← ErrorIndication.count .debug s.peerN
          let x := if s.peerN = none then { s.x with peer := i } else s.x
          return ({ s with peerN := some k, increment := 133, x }, (of16 b c).toNat + 3)) := by
        unfold ErrorIndication.step
        rw [rd_zero, R.ok_bind, if_pos hi, if_neg h16, if_pos rfl, hg, R.mapErr_ok, R.ok_bind, GsnAddress.len,
          len3_ok (by rw [hil]; omega), hil]
        simp only [R.ok_bind]
      by_cases hc : seenN s.peerN = 255
      · exact .inl ⟨by rw [hstep, count_panic _ hc]; rfl, 133, rfl, hi, .inr ⟨_, hel, hc⟩⟩
      · have hc' : seenN s.peerN < 255 := by have := seen_le s.peerN; omega
        obtain ⟨k, hk, hk2⟩ := count_ok .debug s.peerN hc'
        refine .inr (.inr ⟨_, 133, _, by rw [hstep, hk]; rfl, hi, nb, hel, hc', rfl, ?_⟩)
        intro u
        by_cases hu : u = 133
        · subst hu
          simp only [counted, if_neg h16, if_true]
          exact hk2
        · rw [if_neg hu]
          simp only [counted, if_neg hu]
    by_cases h255 : t = 255
    rotate_left
    · refine .inr (.inl ⟨⟨.messageInvalidMessageFormat, ?_⟩, ?_⟩)
      · unfold ErrorIndication.step
        rw [rd_zero, R.ok_bind, if_pos hi, if_neg h16, if_neg h133, if_neg h255]
      · intro u hu _
        cases hu
        refine ⟨?_, fun n he => ?_⟩
        · rintro (⟨h, -⟩ | ⟨h, -⟩)
          · exact h133 h
          · exact h255 h
        · rcases he.2 with ⟨h, -⟩ | ⟨h, -⟩ | ⟨h, -⟩
          · exact h16 h
          · exact h133 h
          · exact h255 h
    subst h255
    by_cases hbad : PrivBad (255 :: r)
    · refine .inl ⟨?_, 255, rfl, hi, .inl (.inr ⟨rfl, hbad⟩)⟩
      unfold ErrorIndication.step
      rw [rd_zero, R.ok_bind, if_pos hi, if_neg h16, if_neg h133, if_pos rfl, priv_panic _ hbad]
      rfl
    have nb : ¬ IeBad (255 :: r) := by
      rintro (⟨h, -⟩ | ⟨-, h⟩)
      · cases h
      · exact hbad h
    by_cases h3 : 3 ≤ (255 :: r : Bytes).length
    rotate_left
    · refine .inr (.inl ⟨⟨.messageOptionalIEIncorrect, ?_⟩, ?_⟩)
      · unfold ErrorIndication.step
        rw [rd_zero, R.ok_bind, if_pos hi, if_neg h16, if_neg h133, if_pos rfl, PrivateExtension.unmarshal, if_neg h3]
        rfl
      · intro u hu _
        cases hu
        refine ⟨nb, fun n he => ?_⟩
        rcases he.2 with ⟨h, -⟩ | ⟨h, -⟩ | ⟨-, -, -, h, -⟩
        · cases h
        · cases h
        · omega
    match r, h3, nb, hbad with
    | b :: c :: r, h3, nb, hbad =>
    have hlen := elemLen_cons 255 b c r
    have hlt : (of16 b c).toNat < 65533 := by
      refine Decidable.byContradiction fun hn => hbad ⟨h3, .inl ?_⟩
      unfold elemLen at hlen
      omega
    have hg := priv_spec .debug 255 b c r hbad
    by_cases hok : 1 ≤ (of16 b c).toNat ∧ (of16 b c).toNat ≤ r.length ∧ 2 ≤ r.length
    rotate_left
    · rw [if_neg hok] at hg
      obtain ⟨e, he⟩ := hg
      refine .inr (.inl ⟨⟨.messageOptionalIEIncorrect, ?_⟩, ?_⟩)
      · unfold ErrorIndication.step
        rw [rd_zero, R.ok_bind, if_pos hi, if_neg h16, if_neg h133, if_pos rfl, he]
        rfl
      · intro u hu _
        cases hu
        refine ⟨nb, fun n hel => ?_⟩
        rcases hel.2 with ⟨h, -⟩ | ⟨h, -⟩ | ⟨-, h, h', h'', h3', -⟩
        · cases h
        · cases h
        · simp only [List.length_cons] at h' h''
          rw [hlen] at h h3'
          exact hok ⟨h3', by omega, by omega⟩
    rw [if_pos hok] at hg
    obtain ⟨i, hg, hil⟩ := hg
    have hel : Elem (255 :: b :: c :: r) 255 ((of16 b c).toNat + 3) :=
      ⟨rfl, .inr (.inr ⟨rfl, by rw [hlen], by simp; omega, by simp; omega, by rw [hlen]; exact hok.1, by rw [hlen]; exact hlt⟩)⟩
    have hstep : ErrorIndication.step .debug s (255 :: b :: c :: r) = (do
        let k ← ErrorIndication.count .debug s.privN
        let x := if s.privN = none then { s.x with priv := some i } else s.x
        return ({ s with privN := some k, increment := 255, x }, (of16 b c).toNat + 3)) := by
      unfold ErrorIndication.step
      rw [rd_zero, R.ok_bind, if_pos hi, if_neg h16, if_neg h133, if_pos rfl, hg, R.mapErr_ok, R.ok_bind, PrivateExtension.len,
        len3_ok (by rw [hil]; omega), hil]
      simp only [R.ok_bind]
    by_cases hc : seenN s.privN = 255
    · exact .inl ⟨by rw [hstep, count_panic _ hc]; rfl, 255, rfl, hi, .inr ⟨_, hel, hc⟩⟩
    · have hc' : seenN s.privN < 255 := by have := seen_le s.privN; omega
      obtain ⟨k, hk, hk2⟩ := count_ok .debug s.privN hc'
      refine .inr (.inr ⟨_, 255, _, by rw [hstep, hk]; rfl, hi, nb, hel, hc', rfl, ?_⟩)
      intro u
      by_cases hu : u = 255
      · subst hu
        simp only [counted, if_neg h16, if_neg h133, if_true]
        exact hk2
      · rw [if_neg hu]
        simp only [counted, if_neg hu]

theorem elem_le {b : Bytes} {t : UInt8} {n : Nat} (h : Elem b t n) : 0 < n ∧ n ≤ b.length := by
  rcases h.2 with ⟨-, h, h'⟩ | ⟨-, h, h', -⟩ | ⟨-, h, h', -⟩ <;> omega

theorem body_inv {c : UInt8 → Nat} {last : UInt8} {r : Bytes} (h : BodyPanics c last r) :
    (∃ t, r.head? = some t ∧ last ≤ t ∧ IeBad r) ∨ (∃ t n, Elem r t n ∧ last ≤ t ∧ c t = 255) ∨
    ∃ t n, Elem r t n ∧ last ≤ t ∧ c t < 255 ∧ BodyPanics (fun u => if u = t then c u + 1 else c u) t (r.drop n) := by
  induction h with
  | bad c last t r h1 h2 h3 => exact .inl ⟨t, h1, h2, h3⟩
  | full c last t r n h1 h2 h3 => exact .inr (.inl ⟨t, n, h1, h2, h3⟩)
  | skip c last t r n h1 h2 h3 h4 _ => exact .inr (.inr ⟨t, n, h1, h2, h3, h4⟩)

theorem loop_panic_iff : ∀ (f : Nat) (s : ErrorIndication.St) (b : Bytes), b.length < f →
    (ErrorIndication.loop .debug f s b = .panic ↔ BodyPanics (counted s) s.increment b) := by
  intro f
  induction f with
  | zero => intro s b h; omega
  | succ f ih =>
    intro s b hf
    unfold ErrorIndication.loop
    by_cases hb : b = []
    · subst hb
      rw [if_pos rfl]
      refine ⟨(by intro h; cases h), fun h => ?_⟩
      rcases body_inv h with ⟨t, h, -⟩ | ⟨t, n, h, -⟩ | ⟨t, n, h, -⟩
      · cases h
      · cases h.1
      · cases h.1
    rw [if_neg hb]
    rcases step_spec s b hb with ⟨hp, t, ht, hle, hwhy⟩ | ⟨⟨e, he⟩, hno⟩ | ⟨s', t, n, hs, hle, nb, hel, hc, hinc, hcnt⟩
    · rw [hp]
      refine ⟨fun _ => ?_, fun _ => rfl⟩
      rcases hwhy with h | ⟨n, h, h'⟩
      · exact .bad _ _ t b ht hle h
      · exact .full _ _ t b n h hle h'
    · rw [he]
      refine ⟨(by intro h; cases h), fun h => ?_⟩
      rcases body_inv h with ⟨t, h, h1, h2⟩ | ⟨t, n, h, h1, -⟩ | ⟨t, n, h, h1, -⟩
      · exact absurd h2 (hno t h h1).1
      · exact absurd h ((hno t h.1 h1).2 n)
      · exact absurd h ((hno t h.1 h1).2 n)
    · rw [hs, R.ok_bind]
      have hl := elem_le hel
      have hih := ih s' (b.drop n) (by rw [List.length_drop]; omega)
      rw [show counted s' = (fun u => if u = t then counted s u + 1 else counted s u) from funext hcnt, hinc] at hih
      refine hih.trans ⟨fun h => .skip _ _ t b n hel hle hc h, fun h => ?_⟩
      rcases body_inv h with ⟨u, -, -, h⟩ | ⟨u, k, h, -, h2⟩ | ⟨u, k, h, -, -, h3⟩
      · exact absurd h nb
      · obtain ⟨rfl, rfl⟩ := elem_unique hel h
        omega
      · obtain ⟨rfl, rfl⟩ := elem_unique hel h
        exact h3

/-- C32 (part) for Error Indication, exactly: a debug build panics iff the header decoder does, or the header is that of an Error Indication and
the announced length overflows, or it is not beyond the buffer and the body is one of `BodyPanics`. The claim that no buffer panics is
violated, see `C32_violation`. -/
theorem C32_error_indication_panic_iff_partial (b : Bytes) :
    ErrorIndication.unmarshal .debug b = .panic ↔ Header.unmarshal .debug b = .panic ∨ IndBad b := by
  constructor
  · intro hp
    by_cases hh : Header.unmarshal .debug b = .panic
    · exact .inl hh
    refine .inr ?_
    rcases read_cases .debug 26 b ⟨hh, C26_terminates_debug b⟩ with ⟨e, he⟩ | ⟨h, s, ha, hr, hs, h8, hle, hl⟩
    · rw [ErrorIndication.unmarshal, he] at hp
      cases hp
    refine ⟨h, s, ha, ?_⟩
    by_cases ho : 65528 ≤ uAnnounced b
    · exact .inl ho
    refine .inr ?_
    unfold ErrorIndication.unmarshal at hp
    rw [hr, R.ok_bind, len8_ok (by omega), R.ok_bind, hl] at hp
    by_cases hn : uAnnounced b + 8 ≤ b.length
    rotate_left
    · rw [if_neg hn] at hp
      cases hp
    refine ⟨hn, ?_⟩
    rw [if_pos hn, hs, R.ok_bind] at hp
    have key := (loop_panic_iff (b.length + 1) ⟨none, none, none, 0, ⟨h, Teid.default, GsnAddress.default, none⟩⟩ (b.drop s)
      (by rw [List.length_drop]; omega)).mp ?_
    · have hz : counted ⟨none, none, none, 0, ⟨h, Teid.default, GsnAddress.default, none⟩⟩ = fun _ => 0 := by
        funext u
        simp [counted, seenN]
      rw [hz] at key
      exact key
    · cases hx : ErrorIndication.loop .debug (b.length + 1) ⟨none, none, none, 0, ⟨h, Teid.default, GsnAddress.default, none⟩⟩
        (b.drop s) with
      | panic => rfl
      | ok y =>
        rw [hx, R.ok_bind] at hp
        split at hp <;> cases hp
      | err e => rw [hx] at hp; cases hp
      | diverge => rw [hx] at hp; cases hp
  · rintro (h | ⟨h, s, ha, hbad⟩)
    · simp [ErrorIndication.unmarshal, read_panic h]
    · obtain ⟨hr, h8, hle, hl⟩ := at_read ha
      unfold ErrorIndication.unmarshal
      rw [hr, R.ok_bind]
      by_cases ho : 65528 ≤ uAnnounced b
      · rw [len8_debug (by omega)]; rfl
      · obtain ⟨hn, hbp⟩ := hbad.resolve_left ho
        rw [len8_ok (by omega), R.ok_bind, hl, if_pos hn, ha.2.2, R.ok_bind,
          (loop_panic_iff (b.length + 1) _ _ (by rw [List.length_drop]; omega)).mpr]
        · rfl
        · have hz : counted ⟨none, none, none, 0, ⟨h, Teid.default, GsnAddress.default, none⟩⟩ = fun _ => 0 := by
            funext u
            simp [counted, seenN]
          rw [hz]
          exact hbp

/-- The condition is met by an Error Indication whose second TEID is followed by a GSN address with a length field of 65533. -/
example : IndBad [0x30, 26, 0, 13, 0, 0, 0, 0, 16, 0, 0, 0, 1, 16, 0, 0, 0, 2, 133, 255, 253] :=
  ⟨_, 8, ⟨rfl, rfl, rfl⟩, .inr ⟨by decide, .skip _ _ 16 _ 5 ⟨rfl, .inl (by decide)⟩ (by decide) (by decide) (.skip _ _ 16 _ 5 ⟨rfl, .inl (by decide)⟩ (by decide) (by decide)
    (.bad _ _ 133 _ rfl (by decide) (.inl (by decide))))⟩⟩

end Gtp.Props
