import Verif.Props.UErrInd
import Verif.Props.ChainRelease

/-!
# Property C32: GTPv1-U messages in a release build

Exactly when decoding panics and when it never ends. Sums in `u16` wrap, so that a length field from 65528 on counts as a small
one. The header is decoded first; when that goes wrong is C26 (Props/ChainRelease.lean).
-/

namespace Gtp.Props
open Gtp.V1 Gtp.U

theorem outcome_iff {α : Type} {x : R Err α} {P D : Prop} (hP : P → x = .panic) (hD : D → x = .diverge)
    (hC : ¬ P → ¬ D → Calm x) : (x = .panic ↔ P) ∧ (x = .diverge ↔ D) := by
  by_cases hp : P
  · have e := hP hp
    exact ⟨iff_of_true e hp, iff_of_false (by rw [e]; intro h; cases h) fun hd => by rw [hD hd] at e; cases e⟩
  by_cases hd : D
  · have e := hD hd
    exact ⟨iff_of_false (by rw [e]; intro h; cases h) hp, iff_of_true e hd⟩
  exact ⟨iff_of_false (hC hp hd).1 hp, iff_of_false (hC hp hd).2 hd⟩

theorem read_diverge {m : Mode} {b : Bytes} {ty : UInt8} (h : Header.unmarshal m b = .diverge) :
    readHeader m ty b = .diverge := by simp [readHeader, h]

theorem len8_wraps (l : UInt16) : len8 .release l = .ok ((l.toNat + 8) % 65536) := by
  have h8 : (8 : UInt16).toNat = 8 := rfl
  simp only [len8, add16, R.ok_bind, R.pure_eq, UInt16.toNat_add, h8]

theorem len3_release (l : UInt16) : len3 .release l = .ok ((l.toNat + 3) % 65536) := by
  have h3 : (3 : UInt16).toNat = 3 := rfl
  simp only [len3, add16, R.ok_bind, R.pure_eq, UInt16.toNat_add, h3]

/-- The octets of a private extension on which a release build panics: the declared length is accepted although the identifier is
not there, either because it is 1 or because adding 3 to it wraps. -/
def PrivCut (r : Bytes) : Prop :=
  (r.length = 3 ∨ r.length = 4) ∧ 0 < elemLen r ∧ (elemLen r + 3) % 65536 ≤ r.length

instance (r : Bytes) : Decidable (PrivCut r) := by unfold PrivCut; infer_instance

/-- What a release build makes of a private extension. -/
theorem priv_release (r : Bytes) :
    (PrivCut r ∧ PrivateExtension.unmarshal .release r = .panic) ∨
    (¬ (5 ≤ r.length ∧ 0 < elemLen r ∧ (elemLen r + 3) % 65536 ≤ r.length) ∧ ¬ PrivCut r ∧
      ∃ e, PrivateExtension.unmarshal .release r = .err e) ∨
    (5 ≤ r.length ∧ 0 < elemLen r ∧ (elemLen r + 3) % 65536 ≤ r.length ∧
      ∃ i, PrivateExtension.unmarshal .release r = .ok i ∧ i.len .release = .ok ((elemLen r + 3) % 65536)) := by
  unfold PrivateExtension.unmarshal PrivCut
  match r with
  | [] => exact .inr (.inl ⟨by simp, by simp, _, rfl⟩)
  | [_] => exact .inr (.inl ⟨by simp, by simp, _, rfl⟩)
  | [_, _] => exact .inr (.inl ⟨by simp, by simp, _, rfl⟩)
  | a :: b :: c :: r =>
    rw [if_pos (by simp), elemLen_cons]
    simp only [rd16, rd_zero, rd_succ, R.ok_bind, R.pure_eq, List.length_cons]
    by_cases h0 : of16 b c = 0
    · rw [if_pos h0, h0]
      exact .inr (.inl ⟨by simp, by simp, _, rfl⟩)
    have hpos : 0 < (of16 b c).toNat := by
      rcases Nat.eq_zero_or_pos (of16 b c).toNat with h' | h'
      · exact absurd (UInt16.toNat_inj.mp (by simpa using h')) h0
      · exact h'
    have hc : (checkTlv .release (of16 b c) (a :: b :: c :: r) : R Err Bool) =
        .ok (decide (((of16 b c).toNat + 3) % 65536 ≤ r.length + 1 + 1 + 1)) := by
      have h3 : (3 : UInt16).toNat = 3 := rfl
      simp only [checkTlv, h0, if_false, add16, R.ok_bind, R.pure_eq, UInt16.toNat_add, h3, List.length_cons]
    rw [if_neg h0, hc, R.ok_bind]
    by_cases hn : ((of16 b c).toNat + 3) % 65536 ≤ r.length + 1 + 1 + 1
    · rw [if_pos (by simpa using hn)]
      match r with
      | [] => exact .inl ⟨⟨by simp, hpos, by simpa using hn⟩, rfl⟩
      | [x] => exact .inl ⟨⟨by simp, hpos, by simpa using hn⟩, rfl⟩
      | d :: e :: r =>
        refine .inr (.inr ⟨by simp, hpos, by simpa using hn, ⟨255, of16 b c, of16 d e, r⟩, ?_, len3_release _⟩)
        simp
    · rw [if_neg (by simpa using hn)]
      exact .inr (.inl ⟨fun h => hn (by simpa using h.2.2), fun h => hn (by simpa using h.2.2), _, rfl⟩)

theorem opt_release (r : Bytes) : if PrivCut r then optPrivate .release r = .panic else ∃ p, optPrivate .release r = .ok p := by
  unfold optPrivate
  rcases priv_release r with ⟨h, e⟩ | ⟨-, h, x, e⟩ | ⟨h5, h, h', x, e, -⟩
  · rw [if_pos h, e]
  · rw [if_neg h, e]; exact ⟨none, rfl⟩
  · rw [if_neg, e]
    · exact ⟨some x, rfl⟩
    · exact fun h => by have := h.1; omega

/-- C32 for G-PDU in a release build. -/
theorem C32_gpdu_release_iff (b : Bytes) :
    (Gpdu.unmarshal .release b = .panic ↔ Header.unmarshal .release b = .panic ∨
      ∃ h s, AtHeader .release b 255 h s ∧ (uAnnounced b + 8) % 65536 ≤ b.length ∧ (uAnnounced b + 8) % 65536 < s) ∧
    (Gpdu.unmarshal .release b = .diverge ↔ Header.unmarshal .release b = .diverge) := by
  refine outcome_iff ?_ (fun h => by rw [Gpdu.unmarshal, read_diverge h]; rfl) ?_
  · rintro (h | ⟨h, s, ha, h1, h2⟩)
    · rw [Gpdu.unmarshal, read_panic h]; rfl
    · obtain ⟨hr, h8, hle, hl⟩ := at_read ha
      rw [Gpdu.unmarshal, hr, R.ok_bind, len8_wraps, R.ok_bind, hl, if_pos h1, ha.2.2, R.ok_bind, sl, if_neg (by omega)]
      rfl
  · intro hp hd
    rw [not_or] at hp
    rcases read_cases .release 255 b ⟨hp.1, hd⟩ with ⟨e, he⟩ | ⟨h, s, ha, hr, hs, h8, hle, hl⟩
    · simp [Gpdu.unmarshal, he, Calm]
    · rw [Gpdu.unmarshal, hr, R.ok_bind, len8_wraps, R.ok_bind, hl]
      by_cases hn : (uAnnounced b + 8) % 65536 ≤ b.length
      · have : ¬ (uAnnounced b + 8) % 65536 < s := fun h2 => hp.2 ⟨h, s, ha, hn, h2⟩
        rw [if_pos hn, hs, R.ok_bind, sl, if_pos (by omega)]
        simp [Calm]
      · rw [if_neg hn]; simp [Calm]

/-- A length field of 65528 counts as 0 octets and ends before the header does. -/
example : AtHeader .release [0x30, 255, 255, 248, 0, 0, 0, 1] 255 ⟨255, 65528, 1, none, none, none⟩ 8 ∧
    (uAnnounced [0x30, 255, 255, 248, 0, 0, 0, 1] + 8) % 65536 = 0 := by
  refine ⟨⟨by decide +kernel, rfl, by decide +kernel⟩, by decide⟩

/-- The trouble with a header followed by an optional private extension, in a release build. -/
def TailCut (ty : UInt8) (b : Bytes) : Prop := ∃ h s, AtHeader .release b ty h s ∧
  uAnnounced b < b.length ∧ PrivCut (b.drop s)

/-- C32 for Echo Request in a release build. -/
theorem C32_echo_request_release_iff (b : Bytes) :
    (EchoRequest.unmarshal .release b = .panic ↔ Header.unmarshal .release b = .panic ∨ TailCut 1 b) ∧
    (EchoRequest.unmarshal .release b = .diverge ↔ Header.unmarshal .release b = .diverge) := by
  refine outcome_iff ?_ (fun h => by rw [EchoRequest.unmarshal, read_diverge h]; rfl) ?_
  · rintro (h | ⟨h, s, ha, h1, h2⟩)
    · rw [EchoRequest.unmarshal, read_panic h]; rfl
    · obtain ⟨hr, h8, hle, hl⟩ := at_read ha
      have ho := opt_release (b.drop s)
      rw [if_pos h2] at ho
      rw [EchoRequest.unmarshal, hr, R.ok_bind, hl, if_pos h1, ha.2.2, R.ok_bind, slFrom_ok hle, R.ok_bind, ho]
      rfl
  · intro hp hd
    rw [not_or] at hp
    rcases read_cases .release 1 b ⟨hp.1, hd⟩ with ⟨e, he⟩ | ⟨h, s, ha, hr, hs, h8, hle, hl⟩
    · simp [EchoRequest.unmarshal, he, Calm]
    · rw [EchoRequest.unmarshal, hr, R.ok_bind, hl]
      by_cases hn : uAnnounced b < b.length
      · have ho := opt_release (b.drop s)
        rw [if_neg fun h2 => hp.2 ⟨h, s, ha, hn, h2⟩] at ho
        obtain ⟨p, ho⟩ := ho
        rw [if_pos hn, hs, R.ok_bind, slFrom_ok hle, R.ok_bind, ho]
        simp [Calm]
      · rw [if_neg hn]; simp [Calm]

/-- Three octets of a private extension that announces 65535. -/
example : TailCut 1 [0x30, 1, 0, 3, 0, 0, 0, 0, 255, 255, 255] :=
  ⟨⟨1, 3, 0, none, none, none⟩, 8, ⟨by decide +kernel, rfl, by decide +kernel⟩, by decide, by decide⟩

/-- C32 for End Marker in a release build. -/
theorem C32_end_marker_release_iff (b : Bytes) :
    (EndMarker.unmarshal .release b = .panic ↔ Header.unmarshal .release b = .panic ∨ TailCut 254 b) ∧
    (EndMarker.unmarshal .release b = .diverge ↔ Header.unmarshal .release b = .diverge) := by
  refine outcome_iff ?_ (fun h => by rw [EndMarker.unmarshal, read_diverge h]; rfl) ?_
  · rintro (h | ⟨h, s, ha, h1, h2⟩)
    · rw [EndMarker.unmarshal, read_panic h]; rfl
    · obtain ⟨hr, h8, hle, hl⟩ := at_read ha
      have ho := opt_release (b.drop s)
      rw [if_pos h2] at ho
      rw [EndMarker.unmarshal, hr, R.ok_bind, hl, if_pos h1, ha.2.2, R.ok_bind, slFrom_ok hle, R.ok_bind, ho]
      rfl
  · intro hp hd
    rw [not_or] at hp
    rcases read_cases .release 254 b ⟨hp.1, hd⟩ with ⟨e, he⟩ | ⟨h, s, ha, hr, hs, h8, hle, hl⟩
    · simp [EndMarker.unmarshal, he, Calm]
    · rw [EndMarker.unmarshal, hr, R.ok_bind, hl]
      by_cases hn : uAnnounced b < b.length
      · have ho := opt_release (b.drop s)
        rw [if_neg fun h2 => hp.2 ⟨h, s, ha, hn, h2⟩] at ho
        obtain ⟨p, ho⟩ := ho
        rw [if_pos hn, hs, R.ok_bind, slFrom_ok hle, R.ok_bind, ho]
        simp [Calm]
      · rw [if_neg hn]; simp [Calm]

example : TailCut 254 [0x30, 254, 0, 4, 0, 0, 0, 0, 255, 0, 1, 7] :=
  ⟨⟨254, 4, 0, none, none, none⟩, 8, ⟨by decide +kernel, rfl, by decide +kernel⟩, by decide, by decide⟩

/-- The trouble with an Echo Response, in a release build. -/
def RespCut (b : Bytes) : Prop := ∃ h s, AtHeader .release b 2 h s ∧
  uAnnounced b + 4 < b.length ∧ b.getD s 0 = 14 ∧ PrivCut (b.drop (s + 2))

/-- C32 for Echo Response in a release build. -/
theorem C32_echo_response_release_iff (b : Bytes) :
    (EchoResponse.unmarshal .release b = .panic ↔ Header.unmarshal .release b = .panic ∨ RespCut b) ∧
    (EchoResponse.unmarshal .release b = .diverge ↔ Header.unmarshal .release b = .diverge) := by
  refine outcome_iff ?_ (fun h => by rw [EchoResponse.unmarshal, read_diverge h]; rfl) ?_
  · rintro (h | ⟨h, s, ha, hlt, ht, hbad⟩)
    · rw [EchoResponse.unmarshal, read_panic h]; rfl
    · obtain ⟨hr, h8, hle, hl⟩ := at_read ha
      have h5 := hbad.1
      rw [List.length_drop] at h5
      have hs2 : s < b.length := by omega
      have hgd : b[s] = 14 := by rw [getD_lt hs2] at ht; exact ht
      have ho := opt_release (b.drop (s + 2))
      rw [if_pos hbad] at ho
      have h1 : 1 < (b.drop s).length := by rw [List.length_drop]; omega
      rw [EchoResponse.unmarshal, hr, R.ok_bind, hl, if_pos hlt, ha.2.2, R.ok_bind, if_pos hs2, rd_lt hs2, R.ok_bind, if_pos hgd,
        slFrom_ok hle, R.ok_bind]
      unfold Recovery.unmarshal
      rw [if_pos h1, rd_lt (by omega), R.ok_bind, rd_lt h1, R.ok_bind, R.pure_eq, R.ok_bind]
      rw [recovery_len]
      rw [if_pos (by omega), slFrom_ok (by omega), R.ok_bind, ho]
      rfl
  · intro hp hd
    rw [not_or] at hp
    rcases read_cases .release 2 b ⟨hp.1, hd⟩ with ⟨e, he⟩ | ⟨h, s, ha, hr, hs, h8, hle, hl⟩
    · simp [EchoResponse.unmarshal, he, Calm]
    · rw [EchoResponse.unmarshal, hr, R.ok_bind, hl]
      by_cases hn : uAnnounced b + 4 < b.length
      rotate_left
      · rw [if_neg hn]; simp [Calm]
      rw [if_pos hn, hs, R.ok_bind]
      by_cases hs2 : s < b.length
      rotate_left
      · rw [if_neg hs2]; simp [Calm]
      rw [if_pos hs2, rd_lt hs2, R.ok_bind]
      by_cases ht : b[s] = 14
      rotate_left
      · rw [if_neg ht]; simp [Calm]
      have hgd : b.getD s 0 = 14 := by rw [getD_lt hs2]; exact ht
      rw [if_pos ht, slFrom_ok hle, R.ok_bind]
      unfold Recovery.unmarshal
      by_cases h1 : 1 < (b.drop s).length
      rotate_left
      · rw [if_neg h1]; simp [Calm]
      rw [if_pos h1, rd_lt (by omega), R.ok_bind, rd_lt h1, R.ok_bind, R.pure_eq, R.ok_bind]
      rw [recovery_len]
      by_cases h2 : s + 2 < b.length
      · have ho := opt_release (b.drop (s + 2))
        rw [if_neg fun hb => hp.2 ⟨h, s, ha, hn, hgd, hb⟩] at ho
        obtain ⟨p, ho⟩ := ho
        rw [if_pos h2, slFrom_ok (by omega), R.ok_bind, ho]
        simp [Calm]
      · rw [if_neg h2]; simp [Calm]

example : RespCut [0x30, 2, 0, 5, 0, 0, 0, 0, 14, 9, 255, 255, 253] :=
  ⟨⟨2, 5, 0, none, none, none⟩, 8, ⟨by decide +kernel, rfl, by decide +kernel⟩, by decide, rfl, by decide⟩

/-- C32 for Supported Extension Headers Notification in a release build: only a type list without length octet panics. -/
theorem C32_supported_ext_release_iff (b : Bytes) :
    (SupportedExt.unmarshal .release b = .panic ↔ Header.unmarshal .release b = .panic ∨
      ∃ h s, AtHeader .release b 31 h s ∧ (uAnnounced b + 8) % 65536 ≤ b.length ∧ b.length = s + 1 ∧ b.getD s 0 = 141) ∧
    (SupportedExt.unmarshal .release b = .diverge ↔ Header.unmarshal .release b = .diverge) := by
  refine outcome_iff ?_ (fun h => by rw [SupportedExt.unmarshal, read_diverge h]; rfl) ?_
  · rintro (h | ⟨h, s, ha, h1, h2, h3⟩)
    · rw [SupportedExt.unmarshal, read_panic h]; rfl
    · obtain ⟨hr, h8, hle, hl⟩ := at_read ha
      rw [getD_lt (by omega)] at h3
      rw [SupportedExt.unmarshal, hr, R.ok_bind, len8_wraps, R.ok_bind, hl, if_pos h1, ha.2.2, R.ok_bind, if_neg (by omega),
        rd_lt (by omega), R.ok_bind, if_pos h3, slFrom_ok hle, R.ok_bind]
      unfold ExtTypeList.unmarshal rd
      rw [List.getElem?_eq_none (by rw [List.length_drop]; omega)]
      rfl
  · intro hp hd
    rw [not_or] at hp
    rcases read_cases .release 31 b ⟨hp.1, hd⟩ with ⟨e, he⟩ | ⟨h, s, ha, hr, hs, h8, hle, hl⟩
    · simp [SupportedExt.unmarshal, he, Calm]
    · rw [SupportedExt.unmarshal, hr, R.ok_bind, len8_wraps, R.ok_bind, hl]
      by_cases hn : (uAnnounced b + 8) % 65536 ≤ b.length
      rotate_left
      · rw [if_neg hn]; simp [Calm]
      rw [if_pos hn, hs, R.ok_bind]
      by_cases hs2 : s = b.length
      · rw [if_pos hs2]; simp [Calm]
      have hs3 : s < b.length := by omega
      rw [if_neg hs2, rd_lt hs3, R.ok_bind]
      by_cases ht : b[s] = 141
      rotate_left
      · rw [if_neg ht]; simp [Calm]
      rw [if_pos ht, slFrom_ok hle, R.ok_bind]
      have hx : ¬ b.length = s + 1 := fun hx => hp.2 ⟨h, s, ha, hn, hx, by rw [getD_lt hs3, ht]⟩
      have h1 : 1 < (b.drop s).length := by rw [List.length_drop]; omega
      unfold ExtTypeList.unmarshal
      rw [rd_lt h1, R.ok_bind]
      generalize (b.drop s)[1] = l
      by_cases h0 : l = 0
      · rw [if_pos h0]; simp [Calm]
      rw [if_neg h0, add8, R.ok_bind]
      split
      · rw [slFrom_ok (by omega)]; simp [Calm]
      · simp [Calm]

example : AtHeader .release [0x30, 31, 0, 1, 0, 0, 0, 0, 141] 31 ⟨31, 1, 0, none, none, none⟩ 8 :=
  ⟨by decide +kernel, rfl, by decide +kernel⟩

/-! ## Error Indication -/

/-- `r` starts with an element of type `t` that a release build reads and accounts with `n` octets. -/
def ElemR (r : Bytes) (t : UInt8) (n : Nat) : Prop := r.head? = some t ∧
  ((t = 16 ∧ n = 5 ∧ 5 ≤ r.length) ∨
   (t = 133 ∧ n = elemLen r + 3 ∧ n ≤ r.length ∧ (elemLen r = 4 ∨ elemLen r = 16)) ∨
   (t = 255 ∧ n = (elemLen r + 3) % 65536 ∧ n ≤ r.length ∧ 5 ≤ r.length ∧ 0 < elemLen r))

/-- The body of an Error Indication on which a release build panics: after readable elements in ascending order there is a private
extension that is cut. -/
inductive BodyCut : UInt8 → Bytes → Prop
  | cut (last : UInt8) (r : Bytes) : r.head? = some 255 → PrivCut r → BodyCut last r
  | skip (last t : UInt8) (r : Bytes) (n : Nat) : ElemR r t n → last ≤ t → 0 < n → BodyCut t (r.drop n) → BodyCut last r

/-- The body on which it never ends: after readable elements in ascending order there is one that is accounted with 0 octets. -/
inductive BodySpins : UInt8 → Bytes → Prop
  | stuck (last t : UInt8) (r : Bytes) : ElemR r t 0 → last ≤ t → BodySpins last r
  | skip (last t : UInt8) (r : Bytes) (n : Nat) : ElemR r t n → last ≤ t → 0 < n → BodySpins t (r.drop n) → BodySpins last r

theorem count_release (n : Option UInt8) : ∃ k, ErrorIndication.count .release n = .ok k := by
  cases n with
  | none => exact ⟨1, rfl⟩
  | some k => exact ⟨k + 1, by simp [ErrorIndication.count, add8]⟩

theorem le_255 (x : UInt8) : x ≤ 255 := by
  rw [UInt8.le_iff_toNat_le]; have := x.toNat_lt; simp; omega

theorem gsn_release (r : Bytes) :
    ((r.length ≥ elemLen r + 3 ∧ (elemLen r = 4 ∨ elemLen r = 16)) ∧
      ∃ i, GsnAddress.unmarshal .release r = .ok i ∧ i.len .release = .ok (elemLen r + 3)) ∨
    (¬ (r.length ≥ elemLen r + 3 ∧ (elemLen r = 4 ∨ elemLen r = 16)) ∧ ∃ e, GsnAddress.unmarshal .release r = .err e) := by
  match r with
  | [] => exact .inr ⟨by simp [elemLen], _, rfl⟩
  | [_] => exact .inr ⟨by simp [elemLen], _, rfl⟩
  | [_, _] => exact .inr ⟨by simp, _, rfl⟩
  | a :: b :: c :: r =>
    rw [elemLen_cons]
    simp only [List.length_cons]
    by_cases hl : (of16 b c).toNat < 65533
    · have := gsn_spec .release a b c r hl
      split at this
      · rename_i h
        obtain ⟨i, hi, h'⟩ := this
        refine .inl ⟨⟨by omega, h.1⟩, i, hi, ?_⟩
        rw [GsnAddress.len, len3_release, h']
        congr 1
        omega
      · rename_i h
        exact .inr ⟨fun h' => h ⟨h'.2, by omega⟩, this⟩
    · refine .inr ⟨by omega, ?_⟩
      unfold GsnAddress.unmarshal
      rw [if_pos (by simp)]
      simp only [rd16, rd_zero, rd_succ, R.ok_bind, R.pure_eq]
      have h0 : of16 b c ≠ 0 := ne_zero_of_toNat (by omega)
      have h3 : (3 : UInt16).toNat = 3 := rfl
      rw [if_neg h0]
      have hc : (checkTlv .release (of16 b c) (a :: b :: c :: r) : R Err Bool) =
          .ok (decide (((of16 b c).toNat + 3) % 65536 ≤ r.length + 1 + 1 + 1)) := by
        simp only [checkTlv, h0, if_false, add16, R.ok_bind, R.pure_eq, UInt16.toNat_add, h3, List.length_cons]
      have h4 : of16 b c ≠ 4 := fun e => by rw [e] at hl; exact hl (by decide)
      have h16 : of16 b c ≠ 16 := fun e => by rw [e] at hl; exact hl (by decide)
      rw [hc, R.ok_bind]
      split
      · exact ⟨_, rfl⟩
      · first | exact ⟨_, rfl⟩ | (rw [if_neg h4, if_neg h16]; exact ⟨_, rfl⟩)

theorem teid_spec (r : Bytes) : (5 ≤ r.length ∧ ∃ i, Teid.unmarshal r = .ok i) ∨ (¬ 5 ≤ r.length ∧ ∃ e, Teid.unmarshal r = .err e) := by
  unfold Teid.unmarshal
  match r with
  | [] => exact .inr ⟨by simp, _, rfl⟩
  | [_] => exact .inr ⟨by simp, _, rfl⟩
  | [_, _] => exact .inr ⟨by simp, _, rfl⟩
  | [_, _, _] => exact .inr ⟨by simp, _, rfl⟩
  | [_, _, _, _] => exact .inr ⟨by simp, _, rfl⟩
  | a :: b :: c :: d :: e :: r => exact .inl ⟨by simp, by simp [rd32]⟩

/-- One turn of the loop. -/
theorem step_release (s : ErrorIndication.St) (b : Bytes) (hb : b ≠ []) :
    (ErrorIndication.step .release s b = .panic ∧ b.head? = some 255 ∧ PrivCut b) ∨
    ((∃ e, ErrorIndication.step .release s b = .err e) ∧
      ∀ t, b.head? = some t → (t = 255 → ¬ PrivCut b) ∧ (s.increment ≤ t → ∀ n, ¬ ElemR b t n)) ∨
    (∃ s' t n, ErrorIndication.step .release s b = .ok (s', n) ∧ s.increment ≤ t ∧ ElemR b t n ∧ (t = 255 → ¬ PrivCut b) ∧
      s'.increment = t) := by
  obtain ⟨t, r, rfl⟩ := List.exists_cons_of_ne_nil hb
  have ht : (t :: r).head? = some t := rfl
  unfold ErrorIndication.step
  rw [rd_zero, R.ok_bind]
  by_cases hi : s.increment ≤ t
  rotate_left
  · rw [if_neg hi]
    refine .inr (.inl ⟨⟨_, rfl⟩, fun u hu => ?_⟩)
    cases hu
    exact ⟨fun h => absurd (h ▸ le_255 _) hi, fun h => absurd h hi⟩
  rw [if_pos hi]
  by_cases h16 : t = 16
  · rw [if_pos h16]
    have h255 : t ≠ 255 := by rw [h16]; decide
    have h133 : t ≠ 133 := by rw [h16]; decide
    rcases teid_spec (t :: r) with ⟨h5, i, e⟩ | ⟨h5, x, e⟩
    · obtain ⟨k, hk⟩ := count_release s.teidN
      rw [e, R.mapErr_ok, R.ok_bind, hk, R.ok_bind]
      exact .inr (.inr ⟨_, t, 5, rfl, hi, ⟨ht, .inl ⟨h16, rfl, h5⟩⟩, fun h => absurd h h255, rfl⟩)
    · rw [e]
      refine .inr (.inl ⟨⟨_, rfl⟩, fun u hu => ?_⟩)
      cases hu
      refine ⟨fun h => absurd h h255, fun _ n hel => ?_⟩
      rcases hel.2 with ⟨_, _, h⟩ | ⟨h, _⟩ | ⟨h, _⟩
      · exact h5 h
      · exact h133 h
      · exact h255 h
  rw [if_neg h16]
  by_cases h133 : t = 133
  · rw [if_pos h133]
    have h255 : t ≠ 255 := by rw [h133]; decide
    rcases gsn_release (t :: r) with ⟨h5, i, e, hil⟩ | ⟨h5, x, e⟩
    · obtain ⟨k, hk⟩ := count_release s.peerN
      rw [e, R.mapErr_ok, R.ok_bind, hk, R.ok_bind, hil, R.ok_bind]
      exact .inr (.inr ⟨_, t, _, rfl, hi, ⟨ht, .inr (.inl ⟨h133, rfl, h5.1, h5.2⟩)⟩, fun h => absurd h h255, rfl⟩)
    · rw [e]
      refine .inr (.inl ⟨⟨_, rfl⟩, fun u hu => ?_⟩)
      cases hu
      refine ⟨fun h => absurd h h255, fun _ n hel => ?_⟩
      rcases hel.2 with ⟨h, _⟩ | ⟨_, rfl, h1, h2⟩ | ⟨h, _⟩
      · exact h16 h
      · exact h5 ⟨h1, h2⟩
      · exact h255 h
  rw [if_neg h133]
  by_cases h255 : t = 255
  · subst h255
    rw [if_pos rfl]
    rcases priv_release (255 :: r) with ⟨h5, e⟩ | ⟨h5, h6, x, e⟩ | ⟨h5, h6, h7, i, e, hil⟩
    · rw [e]
      exact .inl ⟨rfl, rfl, h5⟩
    · rw [e]
      refine .inr (.inl ⟨⟨_, rfl⟩, fun u hu => ?_⟩)
      cases hu
      refine ⟨fun _ => h6, fun _ n hel => ?_⟩
      rcases hel.2 with ⟨h, _⟩ | ⟨h, _⟩ | ⟨_, rfl, h1, h2, h3⟩
      · exact h16 h
      · exact h133 h
      · exact h5 ⟨h2, h3, h1⟩
    · obtain ⟨k, hk⟩ := count_release s.privN
      rw [e, R.mapErr_ok, R.ok_bind, hk, R.ok_bind, hil, R.ok_bind]
      exact .inr (.inr ⟨_, 255, _, rfl, hi, ⟨ht, .inr (.inr ⟨rfl, rfl, h7, h5, h6⟩)⟩, fun _ h => by have := h.1; omega, rfl⟩)
  · rw [if_neg h255]
    refine .inr (.inl ⟨⟨_, rfl⟩, fun u hu => ?_⟩)
    cases hu
    refine ⟨fun h => absurd h h255, fun _ n hel => ?_⟩
    rcases hel.2 with ⟨h, _⟩ | ⟨h, _⟩ | ⟨h, _⟩
    · exact h16 h
    · exact h133 h
    · exact h255 h

theorem elemR_unique {r : Bytes} {t u : UInt8} {n k : Nat} (h : ElemR r t n) (h' : ElemR r u k) : t = u ∧ n = k := by
  obtain ⟨ht, h⟩ := h
  obtain ⟨hu, h'⟩ := h'
  rw [ht] at hu
  cases hu
  refine ⟨rfl, ?_⟩
  rcases h with ⟨a, rfl, -⟩ | ⟨a, rfl, -⟩ | ⟨a, rfl, -⟩ <;> rcases h' with ⟨b, rfl, -⟩ | ⟨b, rfl, -⟩ | ⟨b, rfl, -⟩
  all_goals first | rfl | (rw [a] at b; exact absurd b (by decide))

theorem elemR_zero {r : Bytes} {t : UInt8} (h : ElemR r t 0) : ∃ r', r = 255 :: 255 :: 253 :: r' ∧ 2 ≤ r'.length := by
  obtain ⟨ht, h⟩ := h
  rcases h with ⟨-, h, -⟩ | ⟨-, h, -⟩ | ⟨rfl, h, -, h5, -⟩
  · omega
  · omega
  · obtain ⟨a, b, c, r', rfl⟩ : ∃ a b c r', r = a :: b :: c :: r' := by
      clear h
      match r, h5 with
      | a :: b :: c :: r, _ => exact ⟨a, b, c, r, rfl⟩
    obtain rfl : a = 255 := Option.some.inj ht
    simp only [List.length_cons] at h5
    rw [elemLen_cons] at h
    have hlt := (of16 b c).toNat_lt
    have hl : b.toNat * 256 + c.toNat = 65533 := by rw [← of16_toNat]; omega
    have hb := b.toNat_lt
    have hc := c.toNat_lt
    have e1 : b = 255 := UInt8.toNat_inj.mp (by simp only [UInt8.reduceToNat]; omega)
    have e2 : c = 253 := UInt8.toNat_inj.mp (by simp only [UInt8.reduceToNat]; omega)
    rw [e1, e2]
    exact ⟨_, rfl, by omega⟩

theorem cut_inv {last : UInt8} {r : Bytes} (h : BodyCut last r) : (r.head? = some 255 ∧ PrivCut r) ∨
    ∃ t n, ElemR r t n ∧ last ≤ t ∧ 0 < n ∧ BodyCut t (r.drop n) := by
  cases h with
  | cut _ _ h1 h2 => exact .inl ⟨h1, h2⟩
  | skip _ t _ n h1 h2 h3 h4 => exact .inr ⟨t, n, h1, h2, h3, h4⟩

theorem spins_inv {last : UInt8} {r : Bytes} (h : BodySpins last r) : (∃ t, ElemR r t 0 ∧ last ≤ t) ∨
    ∃ t n, ElemR r t n ∧ last ≤ t ∧ 0 < n ∧ BodySpins t (r.drop n) := by
  cases h with
  | stuck _ t _ h1 h2 => exact .inl ⟨t, h1, h2⟩
  | skip _ t _ n h1 h2 h3 h4 => exact .inr ⟨t, n, h1, h2, h3, h4⟩

theorem loop_release : ∀ (f : Nat) (s : ErrorIndication.St) (b : Bytes), b.length < f →
    (ErrorIndication.loop .release f s b = .panic ↔ BodyCut s.increment b) ∧
    (ErrorIndication.loop .release f s b = .diverge ↔ BodySpins s.increment b) := by
  intro f
  induction f with
  | zero => intro s b h; omega
  | succ f ih =>
    intro s b hf
    by_cases hb : b = []
    · subst hb
      unfold ErrorIndication.loop
      rw [if_pos rfl]
      refine ⟨⟨(by intro h; cases h), fun h => ?_⟩, ⟨(by intro h; cases h), fun h => ?_⟩⟩
      · rcases cut_inv h with ⟨h, -⟩ | ⟨t, n, h, -⟩
        · cases h
        · cases h.1
      · rcases spins_inv h with ⟨t, h, -⟩ | ⟨t, n, h, -⟩
        · cases h.1
        · cases h.1
    rcases step_release s b hb with ⟨hp, hh, hc⟩ | ⟨⟨e, he⟩, hno⟩ | ⟨s', t, n, hs, hle, hel, nc, hinc⟩
    · unfold ErrorIndication.loop
      rw [if_neg hb, hp]
      refine ⟨iff_of_true rfl (.cut _ _ hh hc), iff_of_false (by intro h; cases h) fun h => ?_⟩
      have key : ∀ t n, ¬ ElemR b t n := by
        rintro t n ⟨ht, h⟩
        rw [hh] at ht
        cases ht
        rcases h with ⟨h, -⟩ | ⟨h, -⟩ | ⟨-, -, -, h5, -⟩
        · exact absurd h (by decide)
        · exact absurd h (by decide)
        · have := hc.1; omega
      rcases spins_inv h with ⟨t, h, -⟩ | ⟨t, n, h, -⟩
      · exact key _ _ h
      · exact key _ _ h
    · unfold ErrorIndication.loop
      rw [if_neg hb, he]
      refine ⟨iff_of_false (by intro h; cases h) fun h => ?_, iff_of_false (by intro h; cases h) fun h => ?_⟩
      · rcases cut_inv h with ⟨h, h'⟩ | ⟨t, n, h, h', -⟩
        · exact (hno _ h).1 rfl h'
        · exact (hno t h.1).2 h' n h
      · rcases spins_inv h with ⟨t, h, h'⟩ | ⟨t, n, h, h', -⟩
        · exact (hno t h.1).2 h' 0 h
        · exact (hno t h.1).2 h' n h
    · have hcut : b.head? = some 255 → ¬ PrivCut b := by
        intro h
        rw [hel.1] at h
        exact nc (Option.some.inj h)
      by_cases hn : n = 0
      · subst hn
        obtain ⟨r', rfl, hr'⟩ := elemR_zero hel
        rw [C32_spins (f + 1) s r' hr']
        refine ⟨iff_of_false (by intro h; cases h) fun h => ?_, iff_of_true rfl (.stuck _ t _ hel hle)⟩
        rcases cut_inv h with ⟨h, h'⟩ | ⟨u, k, h, -, h', -⟩
        · exact hcut h h'
        · obtain ⟨-, rfl⟩ := elemR_unique hel h
          omega
      · unfold ErrorIndication.loop
        rw [if_neg hb, hs, R.ok_bind]
        obtain ⟨i1, i2⟩ := ih s' (b.drop n) (by
          have := List.length_pos_iff.mpr hb
          rw [List.length_drop]; omega)
        rw [hinc] at i1 i2
        refine ⟨i1.trans ⟨fun h => .skip _ t b n hel hle (by omega) h, fun h => ?_⟩,
          i2.trans ⟨fun h => .skip _ t b n hel hle (by omega) h, fun h => ?_⟩⟩
        · rcases cut_inv h with ⟨h, h'⟩ | ⟨u, k, h, -, -, h3⟩
          · exact absurd h' (hcut h)
          · obtain ⟨rfl, rfl⟩ := elemR_unique hel h
            exact h3
        · rcases spins_inv h with ⟨u, h, -⟩ | ⟨u, k, h, -, -, h3⟩
          · obtain ⟨-, h⟩ := elemR_unique hel h
            exact absurd h hn
          · obtain ⟨rfl, rfl⟩ := elemR_unique hel h
            exact h3

/-- C32 for Error Indication in a release build. -/
theorem C32_error_indication_release_iff (b : Bytes) :
    (ErrorIndication.unmarshal .release b = .panic ↔ Header.unmarshal .release b = .panic ∨
      ∃ h s, AtHeader .release b 26 h s ∧ (uAnnounced b + 8) % 65536 ≤ b.length ∧ BodyCut 0 (b.drop s)) ∧
    (ErrorIndication.unmarshal .release b = .diverge ↔ Header.unmarshal .release b = .diverge ∨
      ∃ h s, AtHeader .release b 26 h s ∧ (uAnnounced b + 8) % 65536 ≤ b.length ∧ BodySpins 0 (b.drop s)) := by
  have key : ∀ {h s}, AtHeader .release b 26 h s → _ := fun {h s} (_ : AtHeader .release b 26 h s) =>
    loop_release (b.length + 1) ⟨none, none, none, 0, ⟨h, Teid.default, GsnAddress.default, none⟩⟩ (b.drop s)
      (by rw [List.length_drop]; omega)
  refine outcome_iff ?_ ?_ ?_
  · rintro (h | ⟨h, s, ha, h1, h2⟩)
    · rw [ErrorIndication.unmarshal, read_panic h]; rfl
    · obtain ⟨hr, h8, hle, hl⟩ := at_read ha
      rw [ErrorIndication.unmarshal, hr, R.ok_bind, len8_wraps, R.ok_bind, hl, if_pos h1, ha.2.2, R.ok_bind, (key ha).1.mpr h2]
      rfl
  · rintro (h | ⟨h, s, ha, h1, h2⟩)
    · rw [ErrorIndication.unmarshal, read_diverge h]; rfl
    · obtain ⟨hr, h8, hle, hl⟩ := at_read ha
      rw [ErrorIndication.unmarshal, hr, R.ok_bind, len8_wraps, R.ok_bind, hl, if_pos h1, ha.2.2, R.ok_bind, (key ha).2.mpr h2]
      rfl
  · intro hp hd
    rw [not_or] at hp hd
    rcases read_cases .release 26 b ⟨hp.1, hd.1⟩ with ⟨e, he⟩ | ⟨h, s, ha, hr, hs, h8, hle, hl⟩
    · simp [ErrorIndication.unmarshal, he, Calm]
    · rw [ErrorIndication.unmarshal, hr, R.ok_bind, len8_wraps, R.ok_bind, hl]
      by_cases hn : (uAnnounced b + 8) % 65536 ≤ b.length
      rotate_left
      · rw [if_neg hn]; simp [Calm]
      rw [if_pos hn, hs, R.ok_bind]
      obtain ⟨k1, k2⟩ := key ha
      cases hx : ErrorIndication.loop .release (b.length + 1) ⟨none, none, none, 0, ⟨h, Teid.default, GsnAddress.default, none⟩⟩
        (b.drop s) with
      | ok y =>
        rw [R.ok_bind]
        split <;> simp [Calm]
      | err e => simp [Calm]
      | panic => exact absurd ⟨h, s, ha, hn, k1.mp hx⟩ hp.2
      | diverge => exact absurd ⟨h, s, ha, hn, k2.mp hx⟩ hd.2

/-- A TEID followed by a private extension of declared length 65533. -/
example : BodySpins 0 [16, 0, 0, 0, 1, 255, 255, 253, 0, 0] :=
  .skip _ 16 _ 5 ⟨rfl, .inl (by decide)⟩ (by decide) (by decide) (.stuck _ 255 _ ⟨rfl, .inr (.inr (by decide))⟩ (by decide))

example : BodyCut 0 [16, 0, 0, 0, 1, 255, 255, 253] :=
  .skip _ 16 _ 5 ⟨rfl, .inl (by decide)⟩ (by decide) (by decide) (.cut _ _ rfl (by decide))

end Gtp.Props
