import Verif.Props.CMsg
import Verif.Props.CIe

/-!
# Properties C47 to C55: GTPv1-C messages on arbitrary input

`t.desc.unmarshal m b` is `X::unmarshal(b)` for the message type `t : Msg`.
-/

namespace Gtp.Props.C1
open Gtp.C1 Gtp.V1 Gtp.C1.Desc
open Gtp.V2 (declLen)

theorem ok_of_bind {ε α β : Type} {x : R ε α} {f : α → R ε β} {v : β} (h : (x >>= f) = .ok v) : ∃ a, x = .ok a ∧ f a = .ok v := by
  cases x with
  | ok a => exact ⟨a, rfl, h⟩
  | err e => cases h
  | panic => cases h
  | diverge => cases h

/-- The length field of a header. -/
def lengthField (b : Bytes) : Nat := (b.getD 2 0).toNat * 256 + (b.getD 3 0).toNat

/-- Type and length of a decoded header are the second octet, and the third and fourth. -/
theorem header_fields {m : Mode} {b : Bytes} {h : Header} (e : Header.unmarshal m b = .ok h) :
    8 ≤ b.length ∧ h.msgtype = b.getD 1 0 ∧ h.length.toNat = lengthField b := by
  by_cases h8 : 8 ≤ b.length
  rotate_left
  · rw [Header.unmarshal, if_pos (by omega)] at e
    cases e
  refine ⟨h8, ?_⟩
  match b, h8 with
  | b0 :: b1 :: b2 :: b3 :: b4 :: b5 :: b6 :: b7 :: r, h8 =>
    have hl : ¬ (b0 :: b1 :: b2 :: b3 :: b4 :: b5 :: b6 :: b7 :: r).length < 8 := by simp
    rw [Header.unmarshal, if_neg hl] at e
    simp only [rd_zero, rd_succ, rd16, rd32, R.ok_bind, R.pure_eq] at e
    have goal : ∀ a b c d, h = ⟨b1, of16 b2 b3, a, b, c, d⟩ → h.msgtype = b1 ∧ h.length.toNat = b2.toNat * 256 + b3.toNat := by
      intro a b c d e
      subst e
      exact ⟨rfl, of16_toNat _ _⟩
    show h.msgtype = b1 ∧ h.length.toNat = b2.toNat * 256 + b3.toNat
    split at e
    · split at e
      · exact goal _ _ _ _ (R.ok.inj e).symm
      · obtain ⟨s, _, e⟩ := ok_of_bind e
        obtain ⟨p, _, e⟩ := ok_of_bind e
        obtain ⟨q, _, e⟩ := ok_of_bind e
        exact goal _ _ _ _ (R.ok.inj e).symm
    · cases e

/-! ## C50: truncated messages; C54: message types -/

/-- What a successful decoding went through. -/
theorem accepted {t : Msg} {m : Mode} {b : Bytes} {x : t.desc.X} (e : t.desc.unmarshal m b = .ok x) :
    ∃ h n l st, Header.unmarshal m b = .ok h ∧ h.msgtype = t.desc.code ∧ Gtp.U.len8 m h.length = .ok n ∧ n ≤ b.length ∧
      h.len m = .ok l ∧ t.desc.scan m (b.length + 1) (b.drop l) (t.desc.start h) = .ok st ∧ t.desc.finish st = .ok x := by
  obtain ⟨h, h1, e⟩ := ok_of_bind e
  split at e
  · cases e
  rename_i h2
  obtain ⟨n, h3, e⟩ := ok_of_bind e
  split at e
  · rename_i h4
    obtain ⟨l, h5, e⟩ := ok_of_bind e
    obtain ⟨st, h6, e⟩ := ok_of_bind e
    exact ⟨h, n, l, st, h1, by simpa using h2, h3, h4, h5, h6, e⟩
  · cases e

theorem len8_ok {m : Mode} {l : UInt16} {n : Nat} (h : Gtp.U.len8 m l = .ok n) : n = l.toNat + 8 ∨ m = .release ∧ 65528 ≤ l.toNat := by
  rcases Nat.lt_or_ge l.toNat 65528 with hl | hl
  · rw [len8_small m hl] at h
    exact .inl (R.ok.inj h).symm
  · cases m with
    | release => exact .inr ⟨rfl, hl⟩
    | debug =>
      have h8 : (8 : UInt16).toNat = 8 := rfl
      rw [Gtp.U.len8, add16, if_neg (by omega)] at h
      cases h

/-- C50 (partial): a message is only accepted when the announced octets are there. Missing: release
builds and announced lengths from 65528 (`C50_violation`). -/
theorem C50_truncated_partial (t : Msg) (m : Mode) (b : Bytes) (x : t.desc.X) (e : t.desc.unmarshal m b = .ok x) :
    lengthField b + 8 ≤ b.length ∨ m = .release ∧ 65528 ≤ lengthField b := by
  obtain ⟨h, n, l, st, h1, _, h3, h4, _⟩ := accepted e
  have hf := (header_fields h1).2.2
  rcases len8_ok h3 with h5 | h5
  · left; omega
  · right; exact ⟨h5.1, by omega⟩

/-- The result on a truncated buffer: the length error, whatever follows the header. -/
theorem C50_length_error (t : Msg) (m : Mode) (b : Bytes) (h : Header) (h1 : Header.unmarshal m b = .ok h)
    (h2 : h.msgtype = t.desc.code) (h3 : lengthField b < 65528) (h4 : b.length < lengthField b + 8) :
    t.desc.unmarshal m b = .err .messageLengthError := by
  have hf := (header_fields h1).2.2
  rw [Desc.unmarshal, h1, R.ok_bind, if_neg (by simp [h2]), len8_small m (by omega), R.ok_bind, if_neg (by omega)]

example : ∃ h, Header.unmarshal .debug [0x30, 21, 0, 5, 0, 0, 0, 0, 1, 128] = .ok h ∧ h.msgtype = (Msg.desc .DeletePDPContextResponse).code ∧
    lengthField [0x30, 21, 0, 5, 0, 0, 0, 0, 1, 128] < 65528 := ⟨_, rfl, rfl, by decide⟩

/-- C50 is violated in release builds: a buffer of 10 octets that announces 65535 is accepted. -/
theorem C50_violation : ∃ x, DeletePDPContextResponse.unmarshal .release [0x30, 21, 0xff, 0xff, 0, 0, 0, 0, 1, 128] = .ok x := ⟨_, rfl⟩

/-- C54: a message is only accepted when the type octet is the one of its message type; otherwise an error says so, unless
the header itself is not decoded. -/
theorem C54_type_checked (t : Msg) (m : Mode) (b : Bytes) :
    (∀ x, t.desc.unmarshal m b = .ok x → b.getD 1 0 = t.desc.code) ∧
    (∀ h, Header.unmarshal m b = .ok h → b.getD 1 0 ≠ t.desc.code → t.desc.unmarshal m b = .err .messageIncorrectMessageType) := by
  constructor
  · intro x e
    obtain ⟨h, n, l, st, h1, h2, _⟩ := accepted e
    rw [← (header_fields h1).2.1]
    exact h2
  · intro h h1 h2
    rw [Desc.unmarshal, h1, R.ok_bind, if_pos (by rw [(header_fields h1).2.1]; exact h2)]

/-- The type codes of 3GPP TS 29.060, table 1, for the 16 message types; two pairs share a code, their
direction (SGSN or GGSN initiated) tells them apart. -/
theorem C54_codes : Msg.all.map (fun t => t.desc.code) = [16, 17, 18, 19, 18, 19, 20, 21, 22, 23, 27, 28, 29, 30, 128, 129] ∧
    ∀ t u : Msg, t.desc.code = u.desc.code → t = u ∨ t.desc.code = 18 ∨ t.desc.code = 19 := by
  refine ⟨by decide +kernel, ?_⟩
  have : ∀ t ∈ Msg.all, ∀ u ∈ Msg.all, t.desc.code = u.desc.code → t = u ∨ t.desc.code = 18 ∨ t.desc.code = 19 := by decide +kernel
  exact fun t u => this t t.mem_all u u.mem_all

/-! ## C52, C53: panics and termination -/

theorem exts_len_ok (m : Mode) : ∀ (fuel : Nat) (b : Bytes) (l : List ExtHdr), Header.extLoop m fuel b = .ok l → ∃ n, Header.extsLen m l = .ok n
  | 0, _, _, h => by cases h
  | fuel + 1, b, l, h => by
    obtain ⟨i, _, h⟩ := ok_of_bind h
    split at h
    · cases h
      exact ⟨0, rfl⟩
    · obtain ⟨n, hn, h⟩ := ok_of_bind h
      obtain ⟨b', _, h⟩ := ok_of_bind h
      obtain ⟨r, hr, h⟩ := ok_of_bind h
      cases h
      obtain ⟨k, hk⟩ := exts_len_ok m fuel b' r hr
      exact ⟨n + k, by simp [Header.extsLen, hn, hk]⟩

/-- The size of a decoded header never overflows. -/
theorem header_len_ok {m : Mode} {b : Bytes} {h : Header} (e : Header.unmarshal m b = .ok h) : ∃ n, h.len m = .ok n := by
  obtain ⟨s1, s2, s3⟩ := header_shape m b
  have none_ok : h.exts = none → ∃ n, h.len m = .ok n := by
    intro hx
    unfold Header.len
    rw [hx]
    cases h.sqn <;> cases h.npdu <;> exact ⟨_, rfl⟩
  by_cases hf : FixedOk b
  rotate_left
  · rcases s1 hf with h' | h' <;> rw [h'] at e <;> cases e
  by_cases hc : hasChain (b.getD 0 0)
  rotate_left
  · obtain ⟨h', hh, hx⟩ := s2 hf hc
    rw [hh] at e
    cases e
    exact none_ok hx
  obtain ⟨g, hg, hx⟩ := s3 hf hc
  rw [hg] at e
  obtain ⟨l, hl, e⟩ := ok_of_bind e
  cases e
  obtain ⟨n, hn⟩ := exts_len_ok m _ _ _ hl
  have := hx l
  unfold Header.len
  rw [this]
  cases (g l).sqn <;> cases (g l).npdu <;> exact ⟨8 + 2 + 1 + n + 1, by simp [hn]⟩

set_option linter.unusedSimpArgs false in
set_option maxRecDepth 4096 in
theorem bad_table (t : Msg) : ∀ p ∈ t.desc.arms, ∀ n inc, p.2.bad n inc = none → t = .UpdatePDPContextRequest ∧ p.1 = 133 ∧ n = none := by
  cases t
  · show ∀ p ∈ CreatePDPContextRequest.arms, _
    simp +decide [CreatePDPContextRequest.arms, badOptional, badMandatory, badIfFirst, badUnwrap]
  · show ∀ p ∈ CreatePDPContextResponse.arms, _
    simp +decide [CreatePDPContextResponse.arms, badOptional, badMandatory, badIfFirst, badUnwrap]
  · show ∀ p ∈ UpdatePDPContextRequest.arms, _
    simp +decide [UpdatePDPContextRequest.arms, badOptional, badMandatory, badIfFirst, badUnwrap]
  · show ∀ p ∈ UpdatePDPContextResponse.arms, _
    simp +decide [UpdatePDPContextResponse.arms, badOptional, badMandatory, badIfFirst, badUnwrap]
  · show ∀ p ∈ UpdatePDPContextRequestGGSN.arms, _
    simp +decide [UpdatePDPContextRequestGGSN.arms, badOptional, badMandatory, badIfFirst, badUnwrap]
  · show ∀ p ∈ UpdatePDPContextResponseGGSN.arms, _
    simp +decide [UpdatePDPContextResponseGGSN.arms, badOptional, badMandatory, badIfFirst, badUnwrap]
  · show ∀ p ∈ DeletePDPContextRequest.arms, _
    simp +decide [DeletePDPContextRequest.arms, badOptional, badMandatory, badIfFirst, badUnwrap]
  · show ∀ p ∈ DeletePDPContextResponse.arms, _
    simp +decide [DeletePDPContextResponse.arms, badOptional, badMandatory, badIfFirst, badUnwrap]
  · show ∀ p ∈ InitiatePDPContextActivationRequest.arms, _
    simp +decide [InitiatePDPContextActivationRequest.arms, badOptional, badMandatory, badIfFirst, badUnwrap]
  · show ∀ p ∈ InitiatePDPContextActivationResponse.arms, _
    simp +decide [InitiatePDPContextActivationResponse.arms, badOptional, badMandatory, badIfFirst, badUnwrap]
  · show ∀ p ∈ PDUNotificationRequest.arms, _
    simp +decide [PDUNotificationRequest.arms, badOptional, badMandatory, badIfFirst, badUnwrap]
  · show ∀ p ∈ PDUNotificationResponse.arms, _
    simp +decide [PDUNotificationResponse.arms, badOptional, badMandatory, badIfFirst, badUnwrap]
  · show ∀ p ∈ PDUNotificationRejectRequest.arms, _
    simp +decide [PDUNotificationRejectRequest.arms, badOptional, badMandatory, badIfFirst, badUnwrap]
  · show ∀ p ∈ PDUNotificationRejectResponse.arms, _
    simp +decide [PDUNotificationRejectResponse.arms, badOptional, badMandatory, badIfFirst, badUnwrap]
  · show ∀ p ∈ MSInfoChangeNotificationRequest.arms, _
    simp +decide [MSInfoChangeNotificationRequest.arms, badOptional, badMandatory, badIfFirst, badUnwrap]
  · show ∀ p ∈ MSInfoChangeNotificationResponse.arms, _
    simp +decide [MSInfoChangeNotificationResponse.arms, badOptional, badMandatory, badIfFirst, badUnwrap]

theorem header_len_ge {m : Mode} {h : Header} {n : Nat} (hn : h.len m = .ok n) : 8 ≤ n := by
  unfold Header.len at hn
  split at hn
  · cases hn; omega
  · cases hn; omega
  · obtain ⟨k, _, hk⟩ := ok_of_bind hn
    cases hk
    omega

/-- What can go wrong at a place of the buffer: the decoder of the element that starts there panics, or the length of
one of the six loose kinds overflows, or it is a malformed GSN address in an Update PDP Context Request. -/
def Trouble (t : Msg) (s : Bytes) : Prop := ∃ c r a, s = c :: r ∧ t.desc.arm c = some a ∧
  (a.kind.codec.unm .debug s = .panic ∨ (Loose a.kind ∧ 65533 ≤ declared s) ∨
    (t = .UpdatePDPContextRequest ∧ c = 133 ∧ ∃ e, a.kind.codec.unm .debug s = .err e))

/-- The size of a decoded element in a debug build. -/
theorem progress {k : Kind} (hk : k ≠ .ExtensionHeaderTypeList) {b : Bytes} {i : k.Ty} (h : k.codec.unm .debug b = .ok i) :
    (∃ n, k.codec.len .debug i = .ok n ∧ 2 ≤ n) ∨ (k.codec.len .debug i = .panic ∧ Loose k ∧ 65533 ≤ declared b) := by
  by_cases hl : Loose k
  · rcases k.account .debug b i h with ⟨n, h1, h2, _⟩ | ⟨_, _, h3⟩ | h3
    · left
      refine ⟨n, h2, ?_⟩
      cases k <;> simp [Kind.fixedLen] at h1 <;> omega
    · rcases Nat.lt_or_ge (declLen b).toNat 65533 with hd | hd
      · exact .inl ⟨_, h3.trans (len3_ok hd), by omega⟩
      · refine .inr ⟨?_, hl, by rw [← declared_eq]; exact hd⟩
        have h3' : (3 : UInt16).toNat = 3 := rfl
        rw [h3, Gtp.U.len3, add16, if_neg (by omega)]
        rfl
    · exact absurd h3 hk
  · obtain ⟨n, h1, h2, _⟩ := C46_inside_partial k hl b i h
    exact .inl ⟨n, h1, h2⟩

theorem arm_not_list {t : Msg} {c : UInt8} {a : Arm t.desc.S} (h : t.desc.arm c = some a) : a.kind ≠ .ExtensionHeaderTypeList :=
  not_list t _ (mem_of_lookup h)

/-- The loop in a debug build: it ends, and panics only for one of the known reasons; `used` octets lie behind. -/
theorem scan_sources (t : Msg) : ∀ (fuel : Nat) (b : Bytes) (st : St t.desc) (used : Nat), b.length < fuel →
    (∀ c n, st.hash c = some n → 2 * n.toNat ≤ used) →
    t.desc.scan .debug fuel b st ≠ .diverge ∧
    (t.desc.scan .debug fuel b st = .panic → 511 ≤ used + b.length ∨ ∃ p, Trouble t (b.drop p))
  | fuel, [], st, used, _, _ => by rw [scan_nil]; exact ⟨by simp, by simp⟩
  | 0, c :: r, _, _, h, _ => by simp at h
  | fuel + 1, c :: r, st, used, hf, hn => by
    rw [scan]
    split
    · exact ⟨by simp, by simp⟩
    split
    · exact ⟨by simp, by simp⟩
    rename_i a ha
    have hnl := arm_not_list ha
    cases hu : a.kind.codec.unm .debug (c :: r) with
    | panic => exact ⟨by simp, fun _ => .inr ⟨0, c, r, a, rfl, ha, .inl hu⟩⟩
    | diverge => exact absurd hu (a.kind.panics .debug (c :: r)).2
    | err e =>
      simp only
      cases hb : a.bad (st.hash c) st.inc with
      | some e' => exact ⟨by simp, by simp⟩
      | none =>
        obtain ⟨h1, h2, h3⟩ := bad_table t _ (mem_of_lookup ha) _ _ hb
        exact ⟨by simp, fun _ => .inr ⟨0, c, r, a, rfl, ha, .inr (.inr ⟨h1, h2, e, hu⟩)⟩⟩
    | ok i =>
      simp only
      cases hbp : bump .debug (st.hash c) with
      | err e =>
        exfalso
        cases hh : st.hash c with
        | none => rw [hh] at hbp; cases hbp
        | some n =>
          rw [hh, bump, add8] at hbp
          split at hbp <;> cases hbp
      | diverge =>
        exfalso
        cases hh : st.hash c with
        | none => rw [hh] at hbp; cases hbp
        | some n =>
          rw [hh, bump, add8] at hbp
          split at hbp <;> cases hbp
      | panic =>
        rw [R.panic_bind]
        refine ⟨by simp, fun _ => .inl ?_⟩
        cases hh : st.hash c with
        | none => rw [hh] at hbp; cases hbp
        | some n =>
          have := hn c n hh
          rw [hh, bump] at hbp
          rcases Nat.lt_or_ge n.toNat 255 with h255 | h255
          · have h1 : (1 : UInt8).toNat = 1 := rfl
            rw [add8_ok (by omega)] at hbp
            cases hbp
          · simp only [List.length_cons]
            omega
      | ok k =>
        rw [R.ok_bind]
        rcases progress hnl hu with ⟨n, h1, h2⟩ | ⟨h1, h2, h3⟩
        · rw [h1, R.ok_bind]
          rcases Nat.lt_or_ge n (c :: r).length with hlt | hge
          · have hl : ((c :: r).drop n).length + n = (c :: r).length := by rw [List.length_drop]; omega
            have ih := scan_sources t fuel ((c :: r).drop n) (st.next c a k ⟨a.kind, i⟩) (used + n) (by omega) (by
              intro c' n' hc'
              simp only [St.next] at hc'
              split at hc'
              · cases hc'
                cases hh : st.hash c with
                | none =>
                  rw [hh] at hbp
                  cases hbp
                  have : (1 : UInt8).toNat = 1 := rfl
                  omega
                | some v =>
                  have hv := hn c v hh
                  rw [hh, bump] at hbp
                  rcases Nat.lt_or_ge v.toNat 255 with h255 | h255
                  · have h1' : (1 : UInt8).toNat = 1 := rfl
                    rw [add8_ok (by omega)] at hbp
                    cases hbp
                    rw [UInt8.toNat_add, h1', Nat.mod_eq_of_lt (by omega)]
                    omega
                  · have h1' : (1 : UInt8).toNat = 1 := rfl
                    rw [add8, if_neg (by omega)] at hbp
                    cases hbp
              · have := hn c' n' hc'
                omega)
            refine ⟨ih.1, fun e => ?_⟩
            rcases ih.2 e with h | ⟨p, hp⟩
            · left; omega
            · right
              rw [List.drop_drop] at hp
              exact ⟨_, hp⟩
          · rw [List.drop_eq_nil_of_le hge, scan_nil]
            exact ⟨by simp, by simp⟩
        · rw [h1]
          exact ⟨by simp, fun _ => .inr ⟨0, c, r, a, rfl, ha, .inr (.inl ⟨h2, h3⟩)⟩⟩

/-- C53 (partial): in debug builds the decoder of every message type ends on every buffer. Missing: release builds
(`C53_spins`). -/
theorem C53_terminates_partial (t : Msg) (b : Bytes) : t.desc.unmarshal .debug b ≠ .diverge := by
  unfold Desc.unmarshal
  cases hh : Header.unmarshal .debug b with
  | err e => simp
  | panic => simp
  | diverge => exact absurd hh (C40_terminates_debug b)
  | ok h =>
    rw [R.ok_bind]
    split
    · simp
    obtain ⟨n, hn⟩ := header_len_ok hh
    rcases Nat.lt_or_ge h.length.toNat 65528 with hl | hl
    · rw [len8_small .debug hl, R.ok_bind]
      split
      · rw [hn, R.ok_bind]
        have := (scan_sources t (b.length + 1) (b.drop n) (t.desc.start h) 0 (by rw [List.length_drop]; omega)
          (by intro c k hk; cases hk)).1
        cases hs : t.desc.scan .debug (b.length + 1) (b.drop n) (t.desc.start h) with
        | ok st =>
          rw [R.ok_bind, finish]
          split <;> simp
        | err e => simp
        | panic => simp
        | diverge => exact absurd hs this
      · simp
    · have h8 : (8 : UInt16).toNat = 8 := rfl
      rw [Gtp.U.len8, add16, if_neg (by omega)]
      simp

/-- C52 (partial): in debug builds, a message decoder panics only when the header decoder does, when the length field is 65528
or more, when more than 510 octets follow the header (256 elements of the same type), or when an element in the buffer is in
`Trouble`. Missing: that it never panics (`C52_violation`). -/
theorem C52_panic_sources_partial (t : Msg) (b : Bytes) (hp : t.desc.unmarshal .debug b = .panic) :
    Header.unmarshal .debug b = .panic ∨ 65528 ≤ lengthField b ∨ 519 ≤ b.length ∨ ∃ p, 8 ≤ p ∧ Trouble t (b.drop p) := by
  unfold Desc.unmarshal at hp
  cases hh : Header.unmarshal .debug b with
  | err e => rw [hh] at hp; cases hp
  | panic => exact .inl rfl
  | diverge => rw [hh] at hp; cases hp
  | ok h =>
    right
    obtain ⟨h8, -, hf⟩ := header_fields hh
    rw [hh, R.ok_bind] at hp
    split at hp
    · cases hp
    obtain ⟨n, hn⟩ := header_len_ok hh
    have hn8 := header_len_ge hn
    rcases Nat.lt_or_ge h.length.toNat 65528 with hl | hl
    rotate_left
    · left; omega
    right
    rw [len8_small .debug hl, R.ok_bind] at hp
    split at hp
    · rw [hn, R.ok_bind] at hp
      have hs := (scan_sources t (b.length + 1) (b.drop n) (t.desc.start h) 0 (by rw [List.length_drop]; omega)
          (by intro c k hk; cases hk)).2
      cases hsc : t.desc.scan .debug (b.length + 1) (b.drop n) (t.desc.start h) with
      | ok st =>
        rw [hsc, R.ok_bind, finish] at hp
        split at hp <;> cases hp
      | err e => rw [hsc] at hp; cases hp
      | diverge => rw [hsc] at hp; cases hp
      | panic =>
        rcases hs hsc with h' | ⟨p, hp'⟩
        · left
          rw [List.length_drop] at h'
          omega
        · right
          rw [List.drop_drop] at hp'
          exact ⟨n + p, by omega, hp'⟩
    · cases hp

example : Trouble .DeletePDPContextRequest ([0x30, 20, 0, 4, 0, 0, 0, 0, 255, 0, 1, 7].drop 8) :=
  ⟨255, [0, 1, 7], _, rfl, rfl, .inl (by decide +kernel)⟩

/-- C52 is violated by every message type, in both builds: a private extension of length 1 at the end panics, although
the buffer is as long as announced. -/
theorem C52_violation (t : Msg) (m : Mode) : t.desc.unmarshal m [0x30, t.desc.code, 0, 4, 0, 0, 0, 0, 255, 0, 1, 7] = .panic := by
  cases t <;> cases m <;> decide +kernel

/-- C52 is violated by Update PDP Context Request: a first GSN address of the wrong length panics. -/
theorem C52_violation_unwrap (m : Mode) :
    UpdatePDPContextRequest.unmarshal m [0x30, 18, 0, 5, 0, 0, 0, 0, 133, 0, 2, 7, 7] = .panic := by
  cases m <;> decide +kernel

/-- C53 is violated in release builds, by every message type: a private extension that announces 65533 octets is
decoded again and again. -/
theorem C53_spins (t : Msg) : t.desc.unmarshal .release [0x30, t.desc.code, 0, 5, 0, 0, 0, 0, 255, 255, 253, 0, 0] = .diverge := by
  cases t <;> decide +kernel

end Gtp.Props.C1
