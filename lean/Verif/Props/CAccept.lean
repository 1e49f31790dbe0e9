import Verif.Props.CPanic
import Verif.Props.CSimple

/-!
# C83: the four GTPv1-C messages without a loop, on every byte string

For Echo Request, Echo Response, Version Not Supported and Supported Extension Headers Notification: exactly which buffers are accepted, what
is read from them, and exactly which buffers end in a panic, in debug and release builds. The other 16 types are the subject of C47 and C52.
-/

namespace Gtp.Props.C1
open Gtp.C1 Gtp.V1

/-! ## Specification -/

/-- The buffer starts with the header `h` of type `ty`, which takes `s` octets. -/
def HeaderAt (m : Mode) (b : Bytes) (ty : UInt8) (h : Header) (s : Nat) : Prop :=
  Header.unmarshal m b = .ok h ∧ b.getD 1 0 = ty ∧ h.len m = .ok s

/-- What is read from the octets `r` where a private extension may be. Whatever their first octet is, the next two are a length. A length of
0, or of more octets than there are, means that there is no private extension; one that cannot be increased by 3 is a panic in debug builds
and accepted in release builds; and otherwise the two octets of the identifier have to be there. -/
inductive PrivateIn (m : Mode) : Bytes → R Err (Option PrivateExtension) → Prop
  | tooShort (r : Bytes) : r.length < 3 → PrivateIn m r (.ok none)
  | empty (t : UInt8) (v : Bytes) : PrivateIn m (t :: 0 :: 0 :: v) (.ok none)
  | cut (t h l : UInt8) (v : Bytes) : of16 h l ≠ 0 → (of16 h l).toNat < 65533 → v.length < (of16 h l).toNat → PrivateIn m (t :: h :: l :: v) (.ok none)
  | overflow (t h l : UInt8) (v : Bytes) : m = .debug → 65533 ≤ (of16 h l).toNat → PrivateIn m (t :: h :: l :: v) .panic
  | noId (t h l : UInt8) (v : Bytes) : of16 h l ≠ 0 → ((of16 h l).toNat ≤ v.length ∧ (of16 h l).toNat < 65533 ∨ m = .release ∧ 65533 ≤ (of16 h l).toNat) →
      v.length < 2 → PrivateIn m (t :: h :: l :: v) .panic
  | some (t h l i j : UInt8) (v : Bytes) : of16 h l ≠ 0 →
      ((of16 h l).toNat ≤ v.length + 2 ∧ (of16 h l).toNat < 65533 ∨ m = .release ∧ 65533 ≤ (of16 h l).toNat) →
      PrivateIn m (t :: h :: l :: i :: j :: v) (.ok (some ⟨255, of16 h l, of16 i j, v⟩))

/-- The specification says something about all octets, and only one thing. -/
theorem C83_private (m : Mode) (r : Bytes) (o : R Err (Option PrivateExtension)) : PrivateIn m r o ↔ optPrivate m r = o := by
  have sound : ∀ r o, PrivateIn m r o → optPrivate m r = o := by
    intro r o h
    have big : ∀ (h l : UInt8) (v : Bytes) (t : UInt8), 65533 ≤ (of16 h l).toNat →
        (checkTlv .release (of16 h l) (t :: h :: l :: v) : R Err Bool) = .ok true := by
      intro h l v t hb
      have h0 : of16 h l ≠ 0 := fun e => by rw [e] at hb; exact absurd hb (by decide)
      rw [checkTlv, if_neg h0]
      show R.ok (decide ((of16 h l + 3).toNat ≤ _)) = _
      have h3 : (3 : UInt16).toNat = 3 := rfl
      have := (of16 h l).toNat_lt
      rw [decide_eq_true]
      rw [UInt16.toNat_add, h3]
      simp only [List.length_cons]
      omega
    have small : ∀ (h l : UInt8) (v : Bytes) (t : UInt8), of16 h l ≠ 0 → (of16 h l).toNat < 65533 →
        (checkTlv m (of16 h l) (t :: h :: l :: v) : R Err Bool) = .ok (decide ((of16 h l).toNat ≤ v.length)) := by
      intro h l v t h0 hs
      have h3 : (3 : UInt16).toNat = 3 := rfl
      rw [checkTlv, if_neg h0, add16_ok (by omega), R.ok_bind, R.pure_eq, UInt16.toNat_add, h3, Nat.mod_eq_of_lt (by omega)]
      congr 1
      simp
    have hl : ∀ (t h l : UInt8) (v : Bytes), (rd16 (t :: h :: l :: v) 1 : R Err UInt16) = .ok (of16 h l) := fun _ _ _ _ => rfl
    have full : ∀ (h l : UInt8) (v : Bytes) (t : UInt8), of16 h l ≠ 0 →
        ((of16 h l).toNat ≤ v.length ∧ (of16 h l).toNat < 65533 ∨ m = .release ∧ 65533 ≤ (of16 h l).toNat) →
        (checkTlv m (of16 h l) (t :: h :: l :: v) : R Err Bool) = .ok true := by
      intro h l v t h0 hc
      rcases hc with ⟨h1, h2⟩ | ⟨h1, h2⟩
      · rw [small h l v t h0 h2, decide_eq_true h1]
      · rw [h1, big h l v t h2]
    unfold optPrivate PrivateExtension.unmarshal withTlv
    cases h with
    | tooShort r h => rw [if_neg (by omega)]
    | empty t v =>
      rw [if_pos (by simp), hl, R.ok_bind]
      simp [checkTlv, show of16 0 0 = 0 from rfl]
    | cut t h l v h0 h1 h2 =>
      rw [if_pos (by simp), hl, R.ok_bind, small h l v t h0 h1, decide_eq_false (by omega)]
      rfl
    | overflow t h l v hm h1 =>
      subst hm
      have h3 : (3 : UInt16).toNat = 3 := rfl
      have h0 : of16 h l ≠ 0 := fun e => by rw [e] at h1; exact absurd h1 (by decide)
      have hp : (checkTlv .debug (of16 h l) (t :: h :: l :: v) : R Err Bool) = .panic := by
        rw [checkTlv, if_neg h0, add16, if_neg (by omega)]
        rfl
      rw [if_pos (by simp), hl, R.ok_bind, hp]
      rfl
    | noId t h l v h0 h1 h2 =>
      rw [if_pos (by simp), hl, R.ok_bind, full h l v t h0 h1]
      match v, h2 with
      | [], _ => rfl
      | [_], _ => rfl
    | some t h l i j v h0 h1 =>
      rw [if_pos (by simp), hl, R.ok_bind, full h l _ t h0 (by simpa using h1)]
      rfl
  refine ⟨sound r o, fun h => ?_⟩
  suffices hs : ∃ o, PrivateIn m r o by
    obtain ⟨o', ho⟩ := hs
    have := sound _ _ ho
    rw [← h, this]
    exact ho
  match r with
  | [] => exact ⟨_, .tooShort _ (by decide)⟩
  | [_] => exact ⟨_, .tooShort _ (by simp)⟩
  | [_, _] => exact ⟨_, .tooShort _ (by simp)⟩
  | t :: h :: l :: v =>
    by_cases h0 : of16 h l = 0
    · have hz : h = 0 ∧ l = 0 := by
        have := congrArg UInt16.toNat h0
        have h1 := h.toNat_lt
        have h2 := l.toNat_lt
        simp [of16] at this
        exact ⟨UInt8.toNat_inj.mp (show h.toNat = 0 by omega), UInt8.toNat_inj.mp (show l.toNat = 0 by omega)⟩
      rw [hz.1, hz.2]
      exact ⟨_, .empty t v⟩
    · by_cases hc : (of16 h l).toNat ≤ v.length ∧ (of16 h l).toNat < 65533 ∨ m = .release ∧ 65533 ≤ (of16 h l).toNat
      · match v, hc with
        | [], hc => exact ⟨_, .noId t h l _ h0 hc (by simp)⟩
        | [_], hc => exact ⟨_, .noId t h l _ h0 hc (by simp)⟩
        | i :: j :: v, hc => exact ⟨_, .some t h l i j v h0 (by simpa using hc)⟩
      · by_cases hs : (of16 h l).toNat < 65533
        · exact ⟨_, .cut t h l v h0 hs (by omega)⟩
        · refine ⟨_, .overflow t h l v ?_ (by omega)⟩
          cases m with
          | debug => rfl
          | release => exact absurd (.inr ⟨rfl, by omega⟩) hc

/-! ## The header -/

theorem read_ok_iff {m : Mode} {ty : UInt8} {b : Bytes} {α : Type} (f : Header → R Err α) (x : α) :
    (readHeader m ty b >>= f) = .ok x ↔ ∃ h s, HeaderAt m b ty h s ∧ f h = .ok x := by
  unfold readHeader HeaderAt
  cases hh : Header.unmarshal m b with
  | err e => simp
  | panic => simp
  | diverge => simp
  | ok h =>
    obtain ⟨-, hty, -⟩ := header_fields hh
    obtain ⟨s, hs⟩ := header_len_ok hh
    rw [R.ok_bind]
    by_cases hc : h.msgtype = ty
    · rw [if_neg (by simp [hc])]
      show f h = _ ↔ _
      constructor
      · intro e
        exact ⟨h, s, ⟨rfl, hty ▸ hc, hs⟩, e⟩
      · rintro ⟨h', s', ⟨e, -, -⟩, e'⟩
        cases e
        exact e'
    · rw [if_pos hc]
      constructor
      · intro e; cases e
      · rintro ⟨h', s', ⟨e, e2, -⟩, -⟩
        cases e
        exact absurd (hty.trans e2) hc

theorem read_panic_iff {m : Mode} {ty : UInt8} {b : Bytes} {α : Type} (f : Header → R Err α) :
    (readHeader m ty b >>= f) = .panic ↔ Header.unmarshal m b = .panic ∨ ∃ h s, HeaderAt m b ty h s ∧ f h = .panic := by
  unfold readHeader HeaderAt
  cases hh : Header.unmarshal m b with
  | err e => simp
  | panic => simp
  | diverge => simp
  | ok h =>
    obtain ⟨-, hty, -⟩ := header_fields hh
    obtain ⟨s, hs⟩ := header_len_ok hh
    rw [R.ok_bind]
    by_cases hc : h.msgtype = ty
    · rw [if_neg (by simp [hc])]
      show f h = _ ↔ _
      constructor
      · intro e
        exact .inr ⟨h, s, ⟨rfl, hty ▸ hc, hs⟩, e⟩
      · rintro (e | ⟨h', s', ⟨e, -, -⟩, e'⟩)
        · cases e
        · cases e
          exact e'
    · rw [if_pos hc]
      constructor
      · intro e; cases e
      · rintro (e | ⟨h', s', ⟨e, e2, -⟩, -⟩)
        · cases e
        · cases e
          exact absurd (hty.trans e2) hc

/-- The part of a decoder behind the header, for a header that is there. -/
theorem read_ok_at {m : Mode} {ty : UInt8} {b : Bytes} {α : Type} {f : Header → R Err α} {x : α} {P : Header → Nat → Prop}
    (h : ∀ h s, HeaderAt m b ty h s → (f h = .ok x ↔ P h s)) :
    (readHeader m ty b >>= f) = .ok x ↔ ∃ h s, HeaderAt m b ty h s ∧ P h s := by
  rw [read_ok_iff]
  exact ⟨fun ⟨a, s, h1, h2⟩ => ⟨a, s, h1, (h a s h1).mp h2⟩, fun ⟨a, s, h1, h2⟩ => ⟨a, s, h1, (h a s h1).mpr h2⟩⟩

theorem read_panic_at {m : Mode} {ty : UInt8} {b : Bytes} {α : Type} {f : Header → R Err α} {P : Header → Nat → Prop}
    (h : ∀ h s, HeaderAt m b ty h s → (f h = .panic ↔ P h s)) :
    (readHeader m ty b >>= f) = .panic ↔ Header.unmarshal m b = .panic ∨ ∃ h s, HeaderAt m b ty h s ∧ P h s := by
  rw [read_panic_iff]
  exact or_congr Iff.rfl
    ⟨fun ⟨a, s, h1, h2⟩ => ⟨a, s, h1, (h a s h1).mp h2⟩, fun ⟨a, s, h1, h2⟩ => ⟨a, s, h1, (h a s h1).mpr h2⟩⟩

/-! ## Version Not Supported -/

/-- C83 for Version Not Supported: a header of that type is all that is asked for. -/
theorem C83_version_accept (m : Mode) (b : Bytes) (x : VersionNotSupported) :
    VersionNotSupported.unmarshal m b = .ok x ↔ ∃ s, HeaderAt m b 3 x.header s := by
  unfold VersionNotSupported.unmarshal
  rw [read_ok_at (P := fun h _ => h = x.header)]
  · exact ⟨fun ⟨_, s, h1, h2⟩ => ⟨s, h2 ▸ h1⟩, fun ⟨s, h⟩ => ⟨_, s, h, rfl⟩⟩
  · intro h s _
    constructor
    · intro e; cases e; rfl
    · rintro rfl; rfl

/-- C83 for Version Not Supported: only the decoder of the header panics. -/
theorem C83_version_panic (m : Mode) (b : Bytes) : VersionNotSupported.unmarshal m b = .panic ↔ Header.unmarshal m b = .panic := by
  unfold VersionNotSupported.unmarshal
  rw [read_panic_at (P := fun _ _ => False)]
  · simp
  · intro h s _
    simp only [iff_false]
    intro e; cases e

/-! ## Echo Request -/

/-- C83 for Echo Request: the octets behind the header are looked at only if the buffer has more octets than the length field says (the
header counted in the buffer but not in the length field). -/
theorem C83_echo_request_accept (m : Mode) (b : Bytes) (x : EchoRequest) : EchoRequest.unmarshal m b = .ok x ↔
    ∃ s, HeaderAt m b 1 x.header s ∧
      (b.length ≤ lengthField b ∧ x.private_ext = none ∨
       lengthField b < b.length ∧ s ≤ b.length ∧ PrivateIn m (b.drop s) (.ok x.private_ext)) := by
  unfold EchoRequest.unmarshal
  rw [read_ok_at (P := fun h s => h = x.header ∧ (b.length ≤ lengthField b ∧ x.private_ext = none ∨
       lengthField b < b.length ∧ s ≤ b.length ∧ PrivateIn m (b.drop s) (.ok x.private_ext)))]
  · constructor
    · rintro ⟨_, s, h1, rfl, h2⟩; exact ⟨s, h1, h2⟩
    · rintro ⟨s, h1, h2⟩; exact ⟨_, s, h1, rfl, h2⟩
  · intro h s ⟨h1, h2, h3⟩
    obtain ⟨-, -, hf⟩ := header_fields h1
    rw [hf]
    simp only [C83_private]
    by_cases hl : lengthField b < b.length
    · rw [if_pos hl, h3, R.ok_bind, slFrom]
      by_cases hs : s ≤ b.length
      · rw [if_pos hs, R.ok_bind]
        constructor
        · intro e
          obtain ⟨p, hp, e⟩ := ok_of_bind e
          cases e
          exact ⟨rfl, .inr ⟨hl, hs, hp⟩⟩
        · rintro ⟨rfl, ⟨e, -⟩ | ⟨-, -, e⟩⟩
          · omega
          · rw [e]; rfl
      · rw [if_neg hs]
        constructor
        · intro e; cases e
        · rintro ⟨-, ⟨e, -⟩ | ⟨-, e, -⟩⟩ <;> omega
    · rw [if_neg hl]
      constructor
      · intro e; cases e; exact ⟨rfl, .inl ⟨by omega, rfl⟩⟩
      · rintro ⟨rfl, ⟨-, e⟩ | ⟨e, -⟩⟩
        · obtain ⟨h, p⟩ := x
          simp only at e
          rw [e]; rfl
        · omega

/-- C83 for Echo Request, panics: a header that announces more than the buffer has (the sequence number or the N-PDU number without the rest of the four
octets), or a private extension on which the decoder panics. -/
theorem C83_echo_request_panic (m : Mode) (b : Bytes) : EchoRequest.unmarshal m b = .panic ↔
    Header.unmarshal m b = .panic ∨ ∃ h s, HeaderAt m b 1 h s ∧
      lengthField b < b.length ∧ (b.length < s ∨ PrivateIn m (b.drop s) .panic) := by
  unfold EchoRequest.unmarshal
  rw [read_panic_at]
  intro h s ⟨h1, h2, h3⟩
  obtain ⟨-, -, hf⟩ := header_fields h1
  rw [hf]
  simp only [C83_private]
  by_cases hl : lengthField b < b.length
  · rw [if_pos hl, h3, R.ok_bind, slFrom]
    by_cases hs : s ≤ b.length
    · rw [if_pos hs, R.ok_bind]
      cases hp : optPrivate m (b.drop s) <;> simp [hl] <;> omega
    · rw [if_neg hs]
      exact ⟨fun _ => ⟨hl, .inl (by omega)⟩, fun _ => rfl⟩
  · rw [if_neg hl]
    constructor
    · intro e; cases e
    · intro e; exact absurd e.1 hl

/-! ## Echo Response -/

theorem recovery_unm (m : Mode) (v : UInt8) (w : Bytes) : Recovery.unmarshal m (14 :: v :: w) = .ok ⟨14, v⟩ := by
  simp [Recovery.unmarshal, rd]

/-- The decoder behind the header. -/
def responseTail (m : Mode) (b : Bytes) (h : Header) : R Err EchoResponse := do
  if h.length.toNat + 4 < b.length then
    let cursor ← h.len m
    if cursor < b.length then
      let t ← rd b cursor
      if t = 14 then
        let r ← slFrom b cursor
        let rec ← Recovery.unmarshal m r
        let n ← rec.len m
        if cursor + n < b.length then
          let r ← slFrom b (cursor + n)
          let p ← optPrivate m r
          return ⟨h, rec, p⟩
        else return ⟨h, rec, none⟩
      else .err .messageMandatoryIEMissing
    else .err .messageMandatoryIEMissing
  else .err .messageLengthError

/-- With the recovery in front: the rest is that of the private extension; without: an error. -/
theorem responseTail_eq {m : Mode} {b : Bytes} {h : Header} {s : Nat} (hs : h.len m = .ok s) :
    (∃ v w, b.drop s = 14 :: v :: w ∧ (h.length.toNat + 4 < b.length →
      responseTail m b h = (optPrivate m w >>= fun p => .ok ⟨h, ⟨14, v⟩, p⟩))) ∨
    ((∀ v w, b.drop s ≠ 14 :: v :: w) ∧ ∃ e, responseTail m b h = .err e) := by
  unfold responseTail
  by_cases hl : h.length.toNat + 4 < b.length
  rotate_left
  · rw [if_neg hl]
    by_cases hx : ∃ v w, b.drop s = 14 :: v :: w
    · obtain ⟨v, w, e⟩ := hx
      exact .inl ⟨v, w, e, fun h => absurd h hl⟩
    · exact .inr ⟨fun v w e => hx ⟨v, w, e⟩, _, rfl⟩
  rw [if_pos hl, hs, R.ok_bind]
  by_cases hc : s < b.length
  rotate_left
  · rw [if_neg hc]
    refine .inr ⟨fun v w e => ?_, _, rfl⟩
    rw [List.drop_eq_nil_of_le (by omega)] at e
    cases e
  rw [if_pos hc]
  have hlen : (b.drop s).length = b.length - s := List.length_drop
  have hrd : ∀ t r, b.drop s = t :: r → (rd b s : R Err UInt8) = .ok t := by
    intro t r e
    have h0 : (b.drop s)[0]? = b[s]? := by simp
    rw [e] at h0
    simp only [List.getElem?_cons_zero] at h0
    rw [rd, ← h0]
  match hd : b.drop s, hlen with
  | [], hlen => simp at hlen; omega
  | t :: r, hlen =>
    rw [hrd t r hd, R.ok_bind]
    by_cases ht : t = 14
    rotate_left
    · rw [if_neg ht]
      refine .inr ⟨fun v w e => ?_, _, rfl⟩
      cases e
      exact ht rfl
    rw [if_pos ht, slFrom, if_pos (by omega), R.ok_bind, hd]
    subst ht
    match r, hd, hlen with
    | [], hd, hlen => exact .inr ⟨by simp, .ieInvalidLength, by simp [Recovery.unmarshal]⟩
    | v :: w, hd, hlen =>
      refine .inl ⟨v, w, rfl, fun _ => ?_⟩
      rw [recovery_unm, R.ok_bind, Recovery.len, R.ok_bind]
      simp only [List.length_cons] at hlen
      have hw : b.drop (s + 2) = w := by rw [← List.drop_drop, hd]; rfl
      by_cases hn : s + 2 < b.length
      · rw [if_pos hn, slFrom, if_pos (by omega), R.ok_bind, hw]
        rfl
      · rw [if_neg hn]
        have : w = [] := List.length_eq_zero_iff.mp (by omega)
        subst this
        rfl

theorem responseTail_short {m : Mode} {b : Bytes} {h : Header} (hl : ¬ h.length.toNat + 4 < b.length) :
    responseTail m b h = .err .messageLengthError := by
  rw [responseTail, if_neg hl]

/-- C83 for Echo Response: a recovery has to follow the header, and what is behind it is read as a private extension. -/
theorem C83_echo_response_accept (m : Mode) (b : Bytes) (x : EchoResponse) : EchoResponse.unmarshal m b = .ok x ↔
    ∃ s v w, HeaderAt m b 2 x.header s ∧ lengthField b + 4 < b.length ∧ b.drop s = 14 :: v :: w ∧ x.recovery = ⟨14, v⟩ ∧
      PrivateIn m w (.ok x.private_ext) := by
  show (readHeader m 2 b >>= responseTail m b) = _ ↔ _
  rw [read_ok_at (P := fun h s => ∃ v w, h = x.header ∧ lengthField b + 4 < b.length ∧ b.drop s = 14 :: v :: w ∧ x.recovery = ⟨14, v⟩ ∧
      PrivateIn m w (.ok x.private_ext))]
  · constructor
    · rintro ⟨_, s, h1, v, w, rfl, h2⟩; exact ⟨s, v, w, h1, h2⟩
    · rintro ⟨s, v, w, h1, h2⟩; exact ⟨_, s, h1, v, w, rfl, h2⟩
  · intro h s ⟨h1, h2, h3⟩
    obtain ⟨-, -, hf⟩ := header_fields h1
    simp only [C83_private, ← hf]
    by_cases hl : h.length.toNat + 4 < b.length
    rotate_left
    · rw [responseTail_short hl]
      constructor
      · intro e; cases e
      · rintro ⟨_, _, -, e, -⟩; exact absurd e hl
    rcases responseTail_eq (b := b) h3 with ⟨v, w, hd, ht⟩ | ⟨hd, e, ht⟩
    · rw [ht hl]
      constructor
      · intro e
        obtain ⟨p, hp, e⟩ := ok_of_bind e
        cases e
        exact ⟨v, w, rfl, hl, hd, rfl, hp⟩
      · rintro ⟨v', w', rfl, -, e, e1, e2⟩
        rw [hd] at e
        cases e
        rw [e2, R.ok_bind]
        obtain ⟨h, r, p⟩ := x
        simp only at e1
        rw [e1]
    · rw [ht]
      constructor
      · intro e; cases e
      · rintro ⟨v, w, -, -, e, -⟩; exact absurd e (hd v w)

/-- C83 for Echo Response, panics: only in the private extension behind the recovery. -/
theorem C83_echo_response_panic (m : Mode) (b : Bytes) : EchoResponse.unmarshal m b = .panic ↔
    Header.unmarshal m b = .panic ∨ ∃ h s, HeaderAt m b 2 h s ∧
      ∃ v w, lengthField b + 4 < b.length ∧ b.drop s = 14 :: v :: w ∧ PrivateIn m w .panic := by
  show (readHeader m 2 b >>= responseTail m b) = _ ↔ _
  rw [read_panic_at]
  intro h s ⟨h1, h2, h3⟩
  obtain ⟨-, -, hf⟩ := header_fields h1
  simp only [C83_private, ← hf]
  by_cases hl : h.length.toNat + 4 < b.length
  rotate_left
  · rw [responseTail_short hl]
    constructor
    · intro e; cases e
    · rintro ⟨_, _, e, -⟩; exact absurd e hl
  rcases responseTail_eq (b := b) h3 with ⟨v, w, hd, ht⟩ | ⟨hd, e, ht⟩
  · rw [ht hl]
    constructor
    · intro e
      refine ⟨v, w, hl, hd, ?_⟩
      cases hp : optPrivate m w with
      | panic => rfl
      | _ => rw [hp] at e; cases e
    · rintro ⟨v', w', -, e, e1⟩
      rw [hd] at e
      cases e
      rw [e1]; rfl
  · rw [ht]
    constructor
    · intro e; cases e
    · rintro ⟨v, w, -, e, -⟩; exact absurd e (hd v w)

/-! ## Supported Extension Headers Notification -/

theorem list_unm (m : Mode) (n : UInt8) (w : Bytes) : ExtensionHeaderTypeList.unmarshal m (141 :: n :: w) =
    if m = .debug ∧ 254 ≤ n.toNat then .panic
    else if n.toNat ≤ w.length ∨ 254 ≤ n.toNat then .ok ⟨141, n, w⟩ else .err .ieInvalidLength := by
  have h2 : (2 : UInt8).toNat = 2 := rfl
  have hn := n.toNat_lt
  have hr : (rd (141 :: n :: w) 1 : R Err UInt8) = .ok n := rfl
  have hs : (slFrom (141 :: n :: w) 2 : R Err Bytes) = .ok w := by simp [slFrom]
  unfold ExtensionHeaderTypeList.unmarshal
  rw [hr, R.ok_bind, hs]
  by_cases hb : 254 ≤ n.toNat
  · cases m with
    | debug =>
      rw [if_pos ⟨rfl, hb⟩, add8, if_neg (by omega)]
      rfl
    | release =>
      rw [if_neg (by simp), if_pos (.inr hb)]
      have ha : (add8 .release n 2 : R Err UInt8) = .ok (n + 2) := rfl
      rw [ha, R.ok_bind, if_pos]
      · rfl
      · rw [UInt8.toNat_add, h2]
        simp only [List.length_cons]
        omega
  · rw [if_neg (by omega), add8_ok (by omega), R.ok_bind, UInt8.toNat_add, h2, Nat.mod_eq_of_lt (by omega)]
    simp only [List.length_cons]
    by_cases hw : n.toNat ≤ w.length
    · rw [if_pos (by omega), if_pos (.inl hw)]; rfl
    · rw [if_neg (by omega), if_neg (by omega)]

/-- The decoder behind the header and its length check. -/
def listTail (m : Mode) (b : Bytes) (h : Header) : R Err SupportedExtensionHeadersNotification := do
  let s ← h.len m
  if s = b.length then .err .messageMandatoryIEMissing
  else
    let t ← rd b s
    if t = 141 then
      let r ← slFrom b s
      let l ← (ExtensionHeaderTypeList.unmarshal m r).mapErr .messageMandatoryIEMissing
      return ⟨h, l⟩
    else .err .messageInvalidMessageFormat

theorem listTail_cases {m : Mode} {b : Bytes} {h : Header} {s : Nat} (hs : h.len m = .ok s) :
    (b.length < s ∧ listTail m b h = .panic) ∨
    (s ≤ b.length ∧ (∀ w, b.drop s ≠ 141 :: w) ∧ ∃ e, listTail m b h = .err e) ∨
    (s ≤ b.length ∧ b.drop s = [141] ∧ listTail m b h = .panic) ∨
    (s ≤ b.length ∧ ∃ n w, b.drop s = 141 :: n :: w ∧
      listTail m b h = ((ExtensionHeaderTypeList.unmarshal m (141 :: n :: w)).mapErr .messageMandatoryIEMissing >>= fun l => .ok ⟨h, l⟩)) := by
  unfold listTail
  rw [hs, R.ok_bind]
  have hlen : (b.drop s).length = b.length - s := List.length_drop
  rcases Nat.lt_trichotomy s b.length with hc | hc | hc
  · rw [if_neg (by omega)]
    right
    match hd : b.drop s, hlen with
    | [], hlen => simp at hlen; omega
    | t :: r, hlen =>
      have hrd : (rd b s : R Err UInt8) = .ok t := by
        have h0 : (b.drop s)[0]? = b[s]? := by simp
        rw [hd] at h0
        simp only [List.getElem?_cons_zero] at h0
        rw [rd, ← h0]
      rw [hrd, R.ok_bind]
      by_cases ht : t = 141
      · subst ht
        rw [if_pos rfl, slFrom, if_pos (by omega), R.ok_bind, hd]
        match r with
        | [] => exact .inr (.inl ⟨by omega, rfl, rfl⟩)
        | n :: w => exact .inr (.inr ⟨by omega, n, w, rfl, rfl⟩)
      · rw [if_neg ht]
        refine .inl ⟨by omega, fun w e => ?_, _, rfl⟩
        cases e
        exact ht rfl
  · rw [if_pos hc]
    refine .inr (.inl ⟨by omega, fun w e => ?_, _, rfl⟩)
    rw [List.drop_eq_nil_of_le (by omega)] at e
    cases e
  · rw [if_neg (by omega)]
    refine .inl ⟨hc, ?_⟩
    rw [rd, List.getElem?_eq_none (by omega)]
    rfl

/-- C83 for Supported Extension Headers Notification. -/
theorem C83_extension_headers_accept (m : Mode) (b : Bytes) (x : SupportedExtensionHeadersNotification) :
    SupportedExtensionHeadersNotification.unmarshal m b = .ok x ↔
    ∃ s n w, HeaderAt m b 31 x.header s ∧ ¬ (m = .debug ∧ 65528 ≤ lengthField b) ∧ (lengthField b + 8) % 65536 ≤ b.length ∧
      b.drop s = 141 :: n :: w ∧ (n.toNat < 254 ∧ n.toNat ≤ w.length ∨ m = .release ∧ 254 ≤ n.toNat) ∧ x.list = ⟨141, n, w⟩ := by
  show (readHeader m 31 b >>= fun h => Gtp.U.len8 m h.length >>= fun n => if n ≤ b.length then listTail m b h else .err .messageLengthError) = _ ↔ _
  rw [read_ok_at (P := fun h s => ∃ n w, h = x.header ∧ ¬ (m = .debug ∧ 65528 ≤ lengthField b) ∧ (lengthField b + 8) % 65536 ≤ b.length ∧
      b.drop s = 141 :: n :: w ∧ (n.toNat < 254 ∧ n.toNat ≤ w.length ∨ m = .release ∧ 254 ≤ n.toNat) ∧ x.list = ⟨141, n, w⟩)]
  · constructor
    · rintro ⟨_, s, h1, n, w, rfl, h2⟩; exact ⟨s, n, w, h1, h2⟩
    · rintro ⟨s, n, w, h1, h2⟩; exact ⟨_, s, h1, n, w, rfl, h2⟩
  · intro h s ⟨h1, h2, h3⟩
    obtain ⟨-, -, hf⟩ := header_fields h1
    rw [← hf]
    rcases len8_cases m h.length with ⟨e1, e2, e3⟩ | ⟨e1, e2⟩
    · rw [e1]
      constructor
      · intro e; cases e
      · rintro ⟨n, w, -, e, -⟩; exact absurd ⟨e2, e3⟩ e
    rw [e1, R.ok_bind]
    by_cases hb : (h.length.toNat + 8) % 65536 ≤ b.length
    rotate_left
    · rw [if_neg hb]
      constructor
      · intro e; cases e
      · rintro ⟨n, w, -, -, e, -⟩; exact absurd e hb
    rw [if_pos hb]
    rcases listTail_cases (b := b) h3 with ⟨hs, ht⟩ | ⟨hs, hd, e, ht⟩ | ⟨hs, hd, ht⟩ | ⟨hs, n, w, hd, ht⟩
    · rw [ht]
      constructor
      · intro e; cases e
      · rintro ⟨n, w, -, -, -, e, -⟩
        rw [List.drop_eq_nil_of_le (by omega)] at e
        cases e
    · rw [ht]
      constructor
      · intro e; cases e
      · rintro ⟨n, w, -, -, -, e, -⟩; exact absurd e (hd _)
    · rw [ht]
      constructor
      · intro e; cases e
      · rintro ⟨n, w, -, -, -, e, -⟩
        rw [hd] at e
        cases e
    · rw [ht, list_unm]
      constructor
      · intro e
        split at e
        · cases e
        next hp =>
        split at e
        · next hq =>
          cases e
          refine ⟨n, w, rfl, e2, hb, hd, ?_, rfl⟩
          cases m with
          | debug => simp at hp; omega
          | release => simp; omega
        · cases e
      · rintro ⟨n', w', rfl, -, -, e, e3, e4⟩
        rw [hd] at e
        cases e
        rw [if_neg, if_pos]
        · obtain ⟨h, l⟩ := x
          simp only at e4
          rw [e4]; rfl
        · omega
        · rintro ⟨rfl, h'⟩
          rcases e3 with e3 | ⟨e3, -⟩
          · omega
          · cases e3

/-- C83 for Supported Extension Headers Notification, panics. -/
theorem C83_extension_headers_panic (m : Mode) (b : Bytes) : SupportedExtensionHeadersNotification.unmarshal m b = .panic ↔
    Header.unmarshal m b = .panic ∨ ∃ h s, HeaderAt m b 31 h s ∧
      (m = .debug ∧ 65528 ≤ lengthField b ∨ (lengthField b + 8) % 65536 ≤ b.length ∧
        (b.length < s ∨ b.drop s = [141] ∨ m = .debug ∧ ∃ n w, b.drop s = 141 :: n :: w ∧ 254 ≤ n.toNat)) := by
  show (readHeader m 31 b >>= fun h => Gtp.U.len8 m h.length >>= fun n => if n ≤ b.length then listTail m b h else .err .messageLengthError) = _ ↔ _
  rw [read_panic_at]
  intro h s ⟨h1, h2, h3⟩
  obtain ⟨-, -, hf⟩ := header_fields h1
  rw [← hf]
  rcases len8_cases m h.length with ⟨e1, e2, e3⟩ | ⟨e1, e2⟩
  · rw [e1]
    exact ⟨fun _ => .inl ⟨e2, e3⟩, fun _ => rfl⟩
  rw [e1, R.ok_bind]
  by_cases hb : (h.length.toNat + 8) % 65536 ≤ b.length
  rotate_left
  · rw [if_neg hb]
    constructor
    · intro e; cases e
    · rintro (e | ⟨e, -⟩)
      · exact absurd e e2
      · exact absurd e hb
  rw [if_pos hb]
  rcases listTail_cases (b := b) h3 with ⟨hs, ht⟩ | ⟨hs, hd, e, ht⟩ | ⟨hs, hd, ht⟩ | ⟨hs, n, w, hd, ht⟩
  · rw [ht]
    exact ⟨fun _ => .inr ⟨hb, .inl hs⟩, fun _ => rfl⟩
  · rw [ht]
    constructor
    · intro e; cases e
    · rintro (e | ⟨-, e | e | ⟨-, n, w, e, -⟩⟩)
      · exact absurd e e2
      · omega
      · exact absurd e (hd _)
      · exact absurd e (hd _)
  · rw [ht]
    exact ⟨fun _ => .inr ⟨hb, .inr (.inl hd)⟩, fun _ => rfl⟩
  · rw [ht, list_unm]
    constructor
    · intro e
      split at e
      · next hp => exact .inr ⟨hb, .inr (.inr ⟨hp.1, n, w, hd, hp.2⟩)⟩
      split at e <;> cases e
    · rintro (e | ⟨-, e | e | ⟨e, n', w', e3, e4⟩⟩)
      · exact absurd e e2
      · omega
      · rw [hd] at e; cases e
      · rw [hd] at e3
        cases e3
        rw [if_pos ⟨e, e4⟩]; rfl

/-! ## Examples -/

/-- An Echo Request of ten octets with flag S: the sequence number is there, but the header is taken to be of 12 octets. -/
example : EchoRequest.unmarshal .release [0x32, 1, 0, 2, 0, 0, 0, 0, 0, 7] = .panic := by
  rw [C83_echo_request_panic]
  exact .inr ⟨⟨1, 2, 0, some 7, none, none⟩, 12, ⟨by decide, by decide, by decide⟩, by decide, .inl (by decide)⟩

/-- An Echo Response whose private extension has no room for its identifier. -/
example : EchoResponse.unmarshal .release [0x30, 2, 0, 2, 0, 0, 0, 0, 14, 9, 255, 0, 1, 5] = .panic := by
  rw [C83_echo_response_panic]
  exact .inr ⟨⟨2, 2, 0, none, none, none⟩, 8, ⟨by decide, by decide, by decide⟩, 9, [255, 0, 1, 5], by decide, by decide,
    .noId 255 0 1 [5] (by decide) (.inl (by decide)) (by decide)⟩

/-- The octets after the recovery need not start with the type of the private extension. -/
example : EchoResponse.unmarshal .debug [0x30, 2, 0, 9, 0, 0, 0, 0, 14, 9, 77, 0, 3, 1, 2, 5] =
    .ok ⟨⟨2, 9, 0, none, none, none⟩, ⟨14, 9⟩, some ⟨255, 3, 258, [5]⟩⟩ := by
  rw [C83_echo_response_accept]
  exact ⟨8, 9, [77, 0, 3, 1, 2, 5], ⟨by decide, by decide, by decide⟩, by decide, by decide, rfl,
    .some 77 0 3 1 2 [5] (by decide) (.inl (by decide))⟩

/-- A list that claims 255 types is accepted in release builds with the one type that is there, and a panic in debug builds. -/
example : SupportedExtensionHeadersNotification.unmarshal .release [0x30, 31, 0, 3, 0, 0, 0, 0, 141, 255, 7] =
      .ok ⟨⟨31, 3, 0, none, none, none⟩, ⟨141, 255, [7]⟩⟩ ∧
    SupportedExtensionHeadersNotification.unmarshal .debug [0x30, 31, 0, 3, 0, 0, 0, 0, 141, 255, 7] = .panic := by
  rw [C83_extension_headers_accept, C83_extension_headers_panic]
  exact ⟨⟨8, 255, [7], ⟨by decide, by decide, by decide⟩, by decide, by decide, by decide, .inr (by decide), rfl⟩,
    .inr ⟨⟨31, 3, 0, none, none, none⟩, 8, ⟨by decide, by decide, by decide⟩, .inr ⟨by decide, .inr (.inr ⟨rfl, 255, [7], by decide, by decide⟩)⟩⟩⟩

example : VersionNotSupported.unmarshal .debug [0x30, 3, 0, 0, 0, 0, 0, 0] = .ok ⟨⟨3, 0, 0, none, none, none⟩⟩ :=
  (C83_version_accept _ _ _).mpr ⟨8, by decide, by decide, by decide⟩

end Gtp.Props.C1
