import Verif.Props.UErrInd
import Verif.Props.URelay

/-!
# Which buffers are accepted as a GTPv1-U message (C80)

For each of the six messages the exact condition on the octets behind the header, and the message that is made of them, in debug builds.
The header is that of C67.
-/

namespace Gtp.Props
open Gtp.V1 Gtp.U

theorem read_at {m : Mode} {ty : UInt8} {b : Bytes} {h : U.Header} (e : readHeader m ty b = .ok h) : ∃ s, AtHeader m b ty h s := by
  obtain ⟨h1, h2⟩ := read_header_inv e
  obtain ⟨-, s, hs, -, -⟩ := read_ok e
  exact ⟨s, h1, h2, hs⟩

/-! ## Information elements -/

/-- The private extension in the octets `r`, whatever type they start with: a length that is neither 0 nor beyond the end, an identifier, and
everything behind it. -/
def privSpec : Bytes → Option PrivateExtension
  | _ :: h :: l :: i :: j :: v =>
    if 1 ≤ (of16 h l).toNat ∧ (of16 h l).toNat ≤ v.length + 2 then some ⟨255, of16 h l, of16 i j, v⟩ else none
  | _ => none

/-- C80: the decoder of a private extension on all octets on which it does not panic. -/
theorem C80_private (m : Mode) (r : Bytes) (i : PrivateExtension) (h : ¬ PrivBad r) : PrivateExtension.unmarshal m r = .ok i ↔ privSpec r = some i := by
  match r, h with
  | [], _ => simp [privSpec, PrivateExtension.unmarshal]
  | [_], _ => simp [privSpec, PrivateExtension.unmarshal]
  | [_, _], _ => simp [privSpec, PrivateExtension.unmarshal]
  | a :: b :: c :: r, h =>
    have hp := priv_spec m a b c r h
    match r, h, hp with
    | [], h, hp =>
      rw [if_neg (by simp)] at hp
      obtain ⟨e, he⟩ := hp
      simp [he, privSpec]
    | [d], h, hp =>
      rw [if_neg (by simp)] at hp
      obtain ⟨e, he⟩ := hp
      simp [he, privSpec]
    | d :: e :: v, h, hp =>
      by_cases hc : 1 ≤ (of16 b c).toNat ∧ (of16 b c).toNat ≤ v.length + 2
      · have hov : (of16 b c).toNat < 65533 := by
          apply Classical.byContradiction
          intro hn
          refine h ⟨by simp, .inl ?_⟩
          simp only [List.getD_cons_succ, List.getD_cons_zero]
          rw [← of16_toNat]
          omega
        have hu : PrivateExtension.unmarshal m (a :: b :: c :: d :: e :: v) = .ok ⟨255, of16 b c, of16 d e, v⟩ := by
          unfold PrivateExtension.unmarshal
          rw [if_pos (by simp)]
          simp only [rd16, rd_zero, rd_succ, R.ok_bind, R.pure_eq]
          rw [if_neg (ne_zero_of_toNat (by omega)), checkTlv_ok hov, R.ok_bind, if_pos (by simp; omega)]
          simp [slFrom]
        rw [hu]
        simp only [privSpec, if_pos hc]
        constructor
        · intro h; exact congrArg some (R.ok.inj h)
        · intro h; exact congrArg R.ok (Option.some.inj h)
      · rw [if_neg (by simp only [List.length_cons]; omega)] at hp
        obtain ⟨e, he⟩ := hp
        simp only [he, privSpec, if_neg hc]
        constructor <;> intro h <;> cases h

/-- A private extension that may be missing: an error counts as missing, a panic is one. -/
theorem opt_iff (r : Bytes) (p : Option PrivateExtension) : optPrivate .debug r = .ok p ↔ ¬ PrivBad r ∧ p = privSpec r := by
  by_cases hb : PrivBad r
  · rw [opt_panic r hb]
    constructor
    · intro h; cases h
    · intro h; exact absurd hb h.1
  · have hs := C80_private .debug r
    rcases priv_cases .debug r hb with ⟨e, he⟩ | ⟨i, hi, -⟩
    · have hn : privSpec r = none := by
        cases hq : privSpec r with
        | none => rfl
        | some i =>
          have := (hs i hb).mpr hq
          rw [he] at this
          cases this
      simp only [optPrivate, he, hn, hb, not_false_eq_true, true_and]
      constructor <;> intro h
      · cases h; rfl
      · rw [h]
    · have hq := (hs i hb).mp hi
      simp only [optPrivate, hi, hq, hb, not_false_eq_true, true_and]
      constructor <;> intro h
      · cases h; rfl
      · rw [h]

/-! ## G-PDU, Echo Request, End Marker, Echo Response, Supported Extension Headers Notification -/

/-- C80 for G-PDU: the announced octets are there and end behind the header; what is between is the payload. -/
theorem C80_gpdu (b : Bytes) (x : Gpdu) : Gpdu.unmarshal .debug b = .ok x ↔ ∃ s, AtHeader .debug b 255 x.header s ∧ uAnnounced b < 65528 ∧
    uAnnounced b + 8 ≤ b.length ∧ s ≤ uAnnounced b + 8 ∧ x.tpdu = (b.take (uAnnounced b + 8)).drop s := by
  constructor
  · intro H
    unfold Gpdu.unmarshal at H
    obtain ⟨h, hr, H⟩ := ok_bind_inv H
    obtain ⟨s, ha⟩ := read_at hr
    obtain ⟨-, -, hle, hl⟩ := at_read ha
    by_cases ho : 65528 ≤ uAnnounced b
    · rw [len8_debug (by omega)] at H; cases H
    rw [len8_ok (by omega), R.ok_bind, hl] at H
    split at H
    rotate_left
    · cases H
    next hn =>
    rw [ha.2.2, R.ok_bind, sl] at H
    split at H
    rotate_left
    · cases H
    next hs =>
    cases H
    exact ⟨s, ha, by omega, hn, hs.1, rfl⟩
  · rintro ⟨s, ha, h1, h2, h3, h4⟩
    obtain ⟨hr, -, hle, hl⟩ := at_read ha
    unfold Gpdu.unmarshal
    rw [hr, R.ok_bind, len8_ok (by omega), R.ok_bind, hl, if_pos h2, ha.2.2, R.ok_bind, sl, if_pos ⟨h3, h2⟩, R.ok_bind, ← h4]
    rfl

/-- What follows the header of an Echo Request or End Marker: if the buffer has more octets than announced (the header is not counted), the
private extension in them, otherwise nothing. -/
def TailAt (b : Bytes) (s : Nat) (p : Option PrivateExtension) : Prop :=
  (uAnnounced b < b.length ∧ ¬ PrivBad (b.drop s) ∧ p = privSpec (b.drop s)) ∨ (b.length ≤ uAnnounced b ∧ p = none)

/-- C80 for Echo Request. -/
theorem C80_echo_request (b : Bytes) (x : EchoRequest) : EchoRequest.unmarshal .debug b = .ok x ↔
    ∃ s, AtHeader .debug b 1 x.header s ∧ TailAt b s x.priv := by
  constructor
  · intro H
    unfold EchoRequest.unmarshal at H
    obtain ⟨h, hr, H⟩ := ok_bind_inv H
    obtain ⟨s, ha⟩ := read_at hr
    obtain ⟨-, -, hle, hl⟩ := at_read ha
    rw [hl] at H
    split at H
    · next hn =>
      rw [ha.2.2, R.ok_bind, slFrom_ok hle, R.ok_bind] at H
      obtain ⟨p, hp, H⟩ := ok_bind_inv H
      cases H
      exact ⟨s, ha, .inl ⟨hn, (opt_iff _ _).mp hp⟩⟩
    · cases H
      exact ⟨s, ha, .inr ⟨by omega, rfl⟩⟩
  · rintro ⟨s, ha, ht⟩
    obtain ⟨hr, -, hle, hl⟩ := at_read ha
    unfold EchoRequest.unmarshal
    rw [hr, R.ok_bind, hl]
    rcases ht with ⟨h1, h2⟩ | ⟨h1, h2⟩
    · rw [if_pos h1, ha.2.2, R.ok_bind, slFrom_ok hle, R.ok_bind, (opt_iff _ _).mpr h2]
      rfl
    · rw [if_neg (by omega), ← h2]
      rfl

/-- C80 for End Marker. -/
theorem C80_end_marker (b : Bytes) (x : EndMarker) : EndMarker.unmarshal .debug b = .ok x ↔
    ∃ s, AtHeader .debug b 254 x.header s ∧ TailAt b s x.priv := by
  constructor
  · intro H
    unfold EndMarker.unmarshal at H
    obtain ⟨h, hr, H⟩ := ok_bind_inv H
    obtain ⟨s, ha⟩ := read_at hr
    obtain ⟨-, -, hle, hl⟩ := at_read ha
    rw [hl] at H
    split at H
    · next hn =>
      rw [ha.2.2, R.ok_bind, slFrom_ok hle, R.ok_bind] at H
      obtain ⟨p, hp, H⟩ := ok_bind_inv H
      cases H
      exact ⟨s, ha, .inl ⟨hn, (opt_iff _ _).mp hp⟩⟩
    · cases H
      exact ⟨s, ha, .inr ⟨by omega, rfl⟩⟩
  · rintro ⟨s, ha, ht⟩
    obtain ⟨hr, -, hle, hl⟩ := at_read ha
    unfold EndMarker.unmarshal
    rw [hr, R.ok_bind, hl]
    rcases ht with ⟨h1, h2⟩ | ⟨h1, h2⟩
    · rw [if_pos h1, ha.2.2, R.ok_bind, slFrom_ok hle, R.ok_bind, (opt_iff _ _).mpr h2]
      rfl
    · rw [if_neg (by omega), ← h2]
      rfl

/-- C80 for Echo Response: behind the header a recovery counter and the private extension in the remaining octets. At least five octets more
than announced are asked for, although the header has at least eight. -/
theorem C80_echo_response (b : Bytes) (x : EchoResponse) : EchoResponse.unmarshal .debug b = .ok x ↔
    ∃ s r, AtHeader .debug b 2 x.header s ∧ uAnnounced b + 4 < b.length ∧ b.drop s = 14 :: x.recovery.value :: r ∧ x.recovery.t = 14 ∧
      ¬ PrivBad r ∧ x.priv = privSpec r := by
  constructor
  · intro H
    unfold EchoResponse.unmarshal at H
    obtain ⟨h, hr, H⟩ := ok_bind_inv H
    obtain ⟨s, ha⟩ := read_at hr
    obtain ⟨-, -, hle, hl⟩ := at_read ha
    rw [hl] at H
    split at H
    rotate_left
    · cases H
    next hn =>
    rw [ha.2.2, R.ok_bind] at H
    split at H
    rotate_left
    · cases H
    next hs =>
    rw [← rd_drop_zero] at H
    rw [slFrom_ok hle] at H
    match hd : b.drop s, H with
    | [], _ => rw [List.drop_eq_nil_iff] at hd; omega
    | t :: r, H =>
    rw [rd_zero, R.ok_bind] at H
    split at H
    rotate_left
    · cases H
    next h14 =>
    rw [R.ok_bind] at H
    match r, H with
    | [], H => cases H
    | v :: r, H =>
    have hrec : Recovery.unmarshal (t :: v :: r) = .ok ⟨t, v⟩ := by simp [Recovery.unmarshal]
    rw [hrec, R.ok_bind] at H
    have hlen := congrArg List.length hd
    simp only [List.length_drop, List.length_cons] at hlen
    have hdr : b.drop (s + 2) = r := by rw [← List.drop_drop, hd]; rfl
    change (if s + 2 < b.length then _ else _) = _ at H
    split at H
    · next h2 =>
      rw [show s + Recovery.len ⟨t, v⟩ = s + 2 from rfl, slFrom_ok (by omega), R.ok_bind, hdr] at H
      obtain ⟨p, hp, H⟩ := ok_bind_inv H
      cases H
      exact ⟨s, r, ha, hn, hd.trans (by rw [h14]), h14, (opt_iff _ _).mp hp⟩
    · next h2 =>
      have hr0 : r = [] := List.length_eq_zero_iff.mp (by omega)
      subst hr0
      cases H
      exact ⟨s, [], ha, hn, hd.trans (by rw [h14]), h14, (fun h => by have := h.1; simp at this), rfl⟩
  · rintro ⟨s, r, ha, hn, hd, ht, hp⟩
    obtain ⟨hr, -, hle, hl⟩ := at_read ha
    have hlen := congrArg List.length hd
    simp only [List.length_drop, List.length_cons] at hlen
    have hdr : b.drop (s + 2) = r := by rw [← List.drop_drop, hd]; rfl
    unfold EchoResponse.unmarshal
    rw [hr, R.ok_bind, hl, if_pos hn, ha.2.2, R.ok_bind, if_pos (by omega), ← rd_drop_zero, slFrom_ok hle, hd, rd_zero, R.ok_bind, if_pos rfl,
      R.ok_bind]
    have hrec : Recovery.unmarshal (14 :: x.recovery.value :: r) = .ok x.recovery := by
      rw [show x.recovery = ⟨x.recovery.t, x.recovery.value⟩ from rfl, ht]
      simp [Recovery.unmarshal]
    rw [hrec, R.ok_bind]
    show (if s + 2 < b.length then _ else _) = _
    by_cases h2 : s + 2 < b.length
    · rw [if_pos h2, recovery_len, slFrom_ok (by omega), R.ok_bind, hdr, (opt_iff _ _).mpr hp]
      rfl
    · have hr0 : r = [] := List.length_eq_zero_iff.mp (by omega)
      subst hr0
      rw [if_neg h2, show (none : Option PrivateExtension) = x.priv from hp.2.symm]
      rfl

/-- C80 for Supported Extension Headers Notification: behind the header the type 141, a length between 1 and 253 that is not beyond the
end, and everything behind it. -/
theorem C80_supported_ext (b : Bytes) (x : SupportedExt) : SupportedExt.unmarshal .debug b = .ok x ↔
    ∃ s, AtHeader .debug b 31 x.header s ∧ uAnnounced b < 65528 ∧ uAnnounced b + 8 ≤ b.length ∧
      b.drop s = 141 :: x.list.length :: x.list.list ∧ x.list.t = 141 ∧ 1 ≤ x.list.length.toNat ∧ x.list.length.toNat < 254 ∧
      x.list.length.toNat ≤ x.list.list.length := by
  have key : ∀ (r : Bytes) (l : ExtTypeList), ExtTypeList.unmarshal .debug (141 :: r) = .ok l ↔ 141 :: r = 141 :: l.length :: l.list ∧ l.t = 141 ∧
      1 ≤ l.length.toNat ∧ l.length.toNat < 254 ∧ l.length.toNat ≤ l.list.length := by
    intro r l
    unfold ExtTypeList.unmarshal
    match r with
    | [] => simp
    | n :: r =>
      simp only [rd_succ, rd_zero, R.ok_bind]
      have h2' : (2 : UInt8).toNat = 2 := rfl
      by_cases h0 : n = 0
      · rw [if_pos h0]
        constructor
        · intro h; cases h
        · rintro ⟨he, -, h1, -⟩
          simp only [List.cons.injEq, true_and] at he
          rw [← he.1, h0] at h1
          cases h1
      have hpos : 1 ≤ n.toNat := by
        rcases Nat.eq_zero_or_pos n.toNat with h' | h'
        · exact absurd (UInt8.toNat_inj.mp h') h0
        · exact h'
      rw [if_neg h0]
      by_cases h254 : n.toNat < 254
      rotate_left
      · have : (add8 .debug n 2 : R Err UInt8) = .panic := by
          simp only [add8, show ¬ n.toNat + (2 : UInt8).toNat < 256 from by omega, if_false]
        rw [this]
        constructor
        · intro h; cases h
        · rintro ⟨he, -, -, h1, -⟩
          simp only [List.cons.injEq, true_and] at he
          rw [← he.1] at h1
          omega
      rw [add8_ok (by omega), R.ok_bind]
      have hn : (n + 2).toNat = n.toNat + 2 := by rw [UInt8.toNat_add, h2']; omega
      simp only [hn, List.length_cons]
      by_cases hc : n.toNat ≤ r.length
      · rw [if_pos (by omega), slFrom_ok (by simp)]
        constructor
        · intro h; cases h; exact ⟨rfl, rfl, hpos, h254, hc⟩
        · rintro ⟨he, ht, -⟩
          simp only [List.cons.injEq, true_and] at he
          rw [show l = ⟨l.t, l.length, l.list⟩ from rfl, ht, ← he.1, ← he.2]
          rfl
      · rw [if_neg (by omega)]
        constructor
        · intro h; cases h
        · rintro ⟨he, -, -, -, h1⟩
          simp only [List.cons.injEq, true_and] at he
          rw [← he.1, ← he.2] at h1
          omega
  constructor
  · intro H
    unfold SupportedExt.unmarshal at H
    obtain ⟨h, hr, H⟩ := ok_bind_inv H
    obtain ⟨s, ha⟩ := read_at hr
    obtain ⟨-, -, hle, hl⟩ := at_read ha
    by_cases ho : 65528 ≤ uAnnounced b
    · rw [len8_debug (by omega)] at H; cases H
    rw [len8_ok (by omega), R.ok_bind, hl] at H
    split at H
    rotate_left
    · cases H
    next hn =>
    rw [ha.2.2, R.ok_bind] at H
    split at H
    · cases H
    next hs =>
    rw [← rd_drop_zero, slFrom_ok hle] at H
    match hd : b.drop s, H with
    | [], _ => rw [List.drop_eq_nil_iff] at hd; omega
    | t :: r, H =>
    rw [rd_zero, R.ok_bind] at H
    split at H
    rotate_left
    · cases H
    next h141 =>
    subst h141
    rw [R.ok_bind] at H
    obtain ⟨l, hp, H⟩ := ok_bind_inv H
    cases H
    have hk := (key r l).mp (mapErr_inv hp)
    exact ⟨s, ha, by omega, hn, hd.trans hk.1, hk.2⟩
  · rintro ⟨s, ha, h1, hn, hd, hp⟩
    obtain ⟨hr, -, hle, hl⟩ := at_read ha
    have hlen := congrArg List.length hd
    simp only [List.length_drop, List.length_cons] at hlen
    unfold SupportedExt.unmarshal
    rw [hr, R.ok_bind, len8_ok (by omega), R.ok_bind, hl, if_pos hn, ha.2.2, R.ok_bind, if_neg (by omega), ← rd_drop_zero, slFrom_ok hle, hd, rd_zero,
      R.ok_bind, if_pos rfl, R.ok_bind, (key _ x.list).mpr ⟨rfl, hp⟩]
    rfl

/-! ## Error Indication -/

/-- An element of an Error Indication. -/
inductive IndItem where
  | teid (i : Teid)
  | peer (i : GsnAddress)
  | priv (i : PrivateExtension)

def IndItem.type : IndItem → UInt8
  | .teid _ => 16
  | .peer _ => 133
  | .priv _ => 255

def IndItem.teid? : IndItem → Option Teid
  | .teid i => some i
  | _ => none

def IndItem.peer? : IndItem → Option GsnAddress
  | .peer i => some i
  | _ => none

def IndItem.priv? : IndItem → Option PrivateExtension
  | .priv i => some i
  | _ => none

/-- The octets start with the element, and the next one starts that many octets later: a TEID in four octets behind its type; an address of
4 or 16 octets behind its type and length; or a private extension, which takes everything up to the end although the next element is
looked for behind its length. -/
inductive ItemAt : Bytes → IndItem → Nat → Prop where
  | teid (v : UInt32) (r : Bytes) : ItemAt (16 :: (be32 v ++ r)) (.teid ⟨16, v⟩) 5
  | v4 (a : UInt32) (r : Bytes) : ItemAt (133 :: 0 :: 4 :: (be32 a ++ r)) (.peer ⟨133, 4, .v4 a⟩) 7
  | v6 (hi lo : UInt64) (r : Bytes) : ItemAt (133 :: 0 :: 16 :: (be64 hi ++ (be64 lo ++ r))) (.peer ⟨133, 16, .v6 ⟨hi, lo⟩⟩) 19
  | priv (r : Bytes) (i : PrivateExtension) : privSpec (255 :: r) = some i → i.length.toNat < 65533 →
      ItemAt (255 :: r) (.priv i) (i.length.toNat + 3)

theorem be64_of64 (a b c d e f g h : UInt8) : be64 (of64 a b c d e f g h) = [a, b, c, d, e, f, g, h] := by
  have ha := a.toNat_lt
  have hb := b.toNat_lt
  have hc := c.toNat_lt
  have hd := d.toNat_lt
  have he := e.toNat_lt
  have hf := f.toNat_lt
  have hg := g.toNat_lt
  have hh := h.toNat_lt
  have hn : (of64 a b c d e f g h).toNat = ((((((a.toNat * 256 + b.toNat) * 256 + c.toNat) * 256 + d.toNat) * 256
      + e.toNat) * 256 + f.toNat) * 256 + g.toNat) * 256 + h.toNat := by
    simp only [of64, UInt64.toNat_ofNat']
    omega
  simp only [be64, oct64, hn, List.cons.injEq, and_true]
  refine ⟨?_, ?_, ?_, ?_, ?_, ?_, ?_, ?_⟩ <;> apply UInt8.toNat_inj.mp <;> simp <;> omega

theorem of16_eq {b c : UInt8} {n : Nat} (h : (of16 b c).toNat = n) (hn : n < 256) : b = 0 ∧ c = UInt8.ofNat n := by
  rw [of16_toNat] at h
  have h1 := b.toNat_lt
  have h2 := c.toNat_lt
  have hb : b.toNat = 0 := by omega
  have hc : c.toNat = n := by omega
  exact ⟨UInt8.toNat_inj.mp hb, UInt8.toNat_inj.mp (by rw [UInt8.toNat_ofNat']; omega)⟩

/-- What the decoder of an element makes of the octets, and how far it moves. -/
def Decodes (b : Bytes) : IndItem → Nat → Prop
  | .teid i, n => Teid.unmarshal b = .ok i ∧ n = 5
  | .peer i, n => GsnAddress.unmarshal .debug b = .ok i ∧ i.len .debug = .ok n
  | .priv i, n => PrivateExtension.unmarshal .debug b = .ok i ∧ i.len .debug = .ok n

/-- C80: the elements of an Error Indication as octets. -/
theorem C80_item (b : Bytes) (e : IndItem) (n : Nat) : b.head? = some e.type ∧ Decodes b e n ↔ ItemAt b e n := by
  constructor
  · rintro ⟨hh, hd⟩
    cases e with
    | teid i =>
      obtain ⟨hu, rfl⟩ := hd
      match b, hh, hu with
      | [t], _, hu => cases hu
      | [t, _], _, hu => cases hu
      | [t, _, _], _, hu => cases hu
      | [t, _, _, _], _, hu => cases hu
      | t :: a :: b :: c :: d :: r, hh, hu =>
        obtain rfl : 16 = t := (Option.some.inj hh).symm
        simp only [Teid.unmarshal, List.length_cons, rd32, rd_zero, rd_succ, R.ok_bind, R.pure_eq] at hu
        rw [if_pos (by omega)] at hu
        cases hu
        have := ItemAt.teid (of32 a b c d) r
        rwa [be32_of32] at this
    | peer i =>
      obtain ⟨hu, hl⟩ := hd
      match b, hh, hu with
      | [t], _, hu => cases hu
      | [t, _], _, hu => cases hu
      | t :: b :: c :: r, hh, hu =>
        cases hh
        by_cases hov : 65533 ≤ (of16 b c).toNat
        · rw [gsn_panic _ b c r hov] at hu; cases hu
        have hg := gsn_spec .debug (IndItem.peer i).type b c r (by omega)
        split at hg
        rotate_left
        · obtain ⟨e, he⟩ := hg
          rw [hu] at he; cases he
        next hc =>
        clear hg
        obtain ⟨h4 | h4, hr⟩ := hc
        · obtain ⟨rfl, rfl⟩ := of16_eq h4 (by omega)
          rw [h4] at hr
          match r, hr with
          | a :: b :: c :: d :: r, hr =>
            have := ItemAt.v4 (of32 a b c d) r
            have g := (gsn_rt .debug ⟨133, 4, .v4 (of32 a b c d)⟩ ⟨rfl, rfl⟩ r)
            rw [(gsn_octets (x := ⟨133, 4, .v4 (of32 a b c d)⟩) ⟨rfl, rfl⟩).1] at g
            simp only [IpAddr.octets, be32_of32, List.cons_append, List.nil_append] at g
            have e := hu.symm.trans g.1
            cases e
            rw [hl] at g
            cases g.2
            rwa [be32_of32] at this
        · obtain ⟨rfl, rfl⟩ := of16_eq h4 (by omega)
          rw [h4] at hr
          match r, hr with
          | a0 :: a1 :: a2 :: a3 :: a4 :: a5 :: a6 :: a7 :: b0 :: b1 :: b2 :: b3 :: b4 :: b5 :: b6 :: b7 :: r, hr =>
            have := ItemAt.v6 (of64 a0 a1 a2 a3 a4 a5 a6 a7) (of64 b0 b1 b2 b3 b4 b5 b6 b7) r
            have g := (gsn_rt .debug ⟨133, 16, .v6 ⟨of64 a0 a1 a2 a3 a4 a5 a6 a7, of64 b0 b1 b2 b3 b4 b5 b6 b7⟩⟩ ⟨rfl, rfl⟩ r)
            rw [(gsn_octets (x := ⟨133, 16, .v6 ⟨of64 a0 a1 a2 a3 a4 a5 a6 a7, of64 b0 b1 b2 b3 b4 b5 b6 b7⟩⟩) ⟨rfl, rfl⟩).1] at g
            simp only [IpAddr.octets, V2.Ip6.octets, be64_of64, List.cons_append, List.nil_append] at g
            have e := hu.symm.trans g.1
            cases e
            rw [hl] at g
            cases g.2
            rwa [be64_of64, be64_of64] at this
    | priv i =>
      obtain ⟨hu, hl⟩ := hd
      match b, hh, hu with
      | t :: r, hh, hu =>
        cases hh
        have hb : ¬ PrivBad ((IndItem.priv i).type :: r) := fun hb => by rw [priv_panic _ hb] at hu; cases hu
        rcases priv_cases .debug _ hb with ⟨e, he⟩ | ⟨j, hj, -, -, h3⟩
        · rw [he] at hu; cases hu
        · rw [hj] at hu
          cases hu
          rw [PrivateExtension.len, len3_ok h3] at hl
          cases hl
          exact .priv r i ((C80_private .debug _ i hb).mp hj) h3
  · intro h
    cases h with
    | teid v r =>
      refine ⟨rfl, ?_, rfl⟩
      simp [be32, Teid.unmarshal, rd32]
    | v4 a r =>
      have g := (gsn_rt .debug ⟨133, 4, .v4 a⟩ ⟨rfl, rfl⟩ r).1
      rw [(gsn_octets (x := ⟨133, 4, .v4 a⟩) ⟨rfl, rfl⟩).1, show hi16 4 = 0 by decide, show lo16 4 = 4 by decide] at g
      exact ⟨rfl, g, by rw [GsnAddress.len, len3_ok (l := 4) (by decide)]; rfl⟩
    | v6 hi lo r =>
      have g := (gsn_rt .debug ⟨133, 16, .v6 ⟨hi, lo⟩⟩ ⟨rfl, rfl⟩ r).1
      rw [(gsn_octets (x := ⟨133, 16, .v6 ⟨hi, lo⟩⟩) ⟨rfl, rfl⟩).1, show hi16 16 = 0 by decide, show lo16 16 = 16 by decide] at g
      exact ⟨rfl, by simpa only [IpAddr.octets, V2.Ip6.octets, List.cons_append, List.append_assoc] using g, by rw [GsnAddress.len, len3_ok (l := 16) (by decide)]; rfl⟩
    | priv r i h1 h2 =>
      refine ⟨rfl, ?_, by rw [PrivateExtension.len, len3_ok h2]⟩
      refine (C80_private .debug _ i ?_).mpr h1
      intro hb
      match r, h1, hb with
      | h :: l :: a :: b :: v, h1, hb =>
        simp only [privSpec] at h1
        split at h1
        · cases h1
          rcases hb.2 with hb | ⟨_, hb⟩
          · simp only [List.getD_cons_succ, List.getD_cons_zero] at hb
            rw [← of16_toNat] at hb
            simp only at h2
            omega
          · simp at hb
        · cases h1

/-- The elements `es` follow each other from the first to the last octet, in ascending order of their types from `last` on. -/
inductive IndItems : UInt8 → Bytes → List IndItem → Prop where
  | nil (last : UInt8) : IndItems last [] []
  | cons {last : UInt8} {b : Bytes} {e : IndItem} {n : Nat} {es : List IndItem} : ItemAt b e n → last ≤ e.type →
      IndItems e.type (b.drop n) es → IndItems last b (e :: es)

/-- How many elements have the type. -/
def ofType (t : UInt8) (es : List IndItem) : Nat := es.countP fun e => e.type == t

/-- The state after one more element. -/
def pushItem (s : ErrorIndication.St) : IndItem → ErrorIndication.St
  | .teid i => { s with teidN := some (UInt8.ofNat (seenN s.teidN + 1)), increment := 16, x := if s.teidN = none then { s.x with teid := i } else s.x }
  | .peer i => { s with peerN := some (UInt8.ofNat (seenN s.peerN + 1)), increment := 133, x := if s.peerN = none then { s.x with peer := i } else s.x }
  | .priv i => { s with privN := some (UInt8.ofNat (seenN s.privN + 1)), increment := 255, x := if s.privN = none then { s.x with priv := some i } else s.x }

theorem count_iff (n : Option UInt8) (k : UInt8) : ErrorIndication.count .debug n = .ok k ↔ seenN n < 255 ∧ k = UInt8.ofNat (seenN n + 1) := by
  by_cases h : seenN n < 255
  · obtain ⟨j, h1, h2⟩ := count_ok .debug n h
    have hj : j = UInt8.ofNat (seenN n + 1) := UInt8.toNat_inj.mp (by rw [h2, UInt8.toNat_ofNat']; omega)
    rw [h1, hj]
    constructor
    · intro e; exact ⟨h, (R.ok.inj e).symm⟩
    · rintro ⟨-, rfl⟩; rfl
  · rw [count_panic n (by have := seen_le n; omega)]
    constructor
    · intro e; cases e
    · intro e; omega

theorem step_iff (s s' : ErrorIndication.St) (b : Bytes) (n : Nat) : ErrorIndication.step .debug s b = .ok (s', n) ↔
    ∃ e, ItemAt b e n ∧ s.increment ≤ e.type ∧ counted s e.type < 255 ∧ s' = pushItem s e := by
  constructor
  · intro H
    unfold ErrorIndication.step at H
    obtain ⟨t, hrd, H⟩ := ok_bind_inv H
    have hh : b.head? = some t := by
      match b, hrd with
      | a :: b, hrd => cases hrd; rfl
    split at H
    rotate_left
    · cases H
    next hi =>
    split at H
    · next h16 =>
      subst h16
      obtain ⟨i, hu, H⟩ := ok_bind_inv H
      obtain ⟨k, hk, H⟩ := ok_bind_inv H
      obtain ⟨hk1, rfl⟩ := (count_iff _ _).mp hk
      cases H
      exact ⟨.teid i, (C80_item _ (.teid i) _).mp ⟨hh, mapErr_inv hu, rfl⟩, hi, hk1, rfl⟩
    split at H
    · next h133 =>
      subst h133
      obtain ⟨i, hu, H⟩ := ok_bind_inv H
      obtain ⟨k, hk, H⟩ := ok_bind_inv H
      obtain ⟨l, hl, H⟩ := ok_bind_inv H
      obtain ⟨hk1, rfl⟩ := (count_iff _ _).mp hk
      cases H
      exact ⟨.peer i, (C80_item _ (.peer i) _).mp ⟨hh, mapErr_inv hu, hl⟩, hi, hk1, rfl⟩
    split at H
    · next h255 =>
      subst h255
      obtain ⟨i, hu, H⟩ := ok_bind_inv H
      obtain ⟨k, hk, H⟩ := ok_bind_inv H
      obtain ⟨l, hl, H⟩ := ok_bind_inv H
      obtain ⟨hk1, rfl⟩ := (count_iff _ _).mp hk
      cases H
      exact ⟨.priv i, (C80_item _ (.priv i) _).mp ⟨hh, mapErr_inv hu, hl⟩, hi, hk1, rfl⟩
    · cases H
  · rintro ⟨e, ha, hi, hc, rfl⟩
    obtain ⟨hh, hd⟩ := (C80_item _ _ _).mpr ha
    have hrd : (rd b 0 : R Err UInt8) = .ok e.type := by
      match b, hh with
      | a :: b, hh => cases hh; rfl
    unfold ErrorIndication.step
    rw [hrd, R.ok_bind, if_pos hi]
    cases e with
    | teid i =>
      obtain ⟨hu, rfl⟩ := hd
      rw [if_pos (show (IndItem.teid i).type = 16 from rfl), hu, R.mapErr_ok, R.ok_bind, (count_iff _ _).mpr ⟨hc, rfl⟩, R.ok_bind]
      rfl
    | peer i =>
      obtain ⟨hu, hl⟩ := hd
      rw [if_neg (by simp [IndItem.type]), if_pos (show (IndItem.peer i).type = 133 from rfl), hu, R.mapErr_ok, R.ok_bind, (count_iff _ _).mpr ⟨hc, rfl⟩, R.ok_bind, hl, R.ok_bind]
      rfl
    | priv i =>
      obtain ⟨hu, hl⟩ := hd
      rw [if_neg (by simp [IndItem.type]), if_neg (by simp [IndItem.type]), if_pos (show (IndItem.priv i).type = 255 from rfl), hu, R.mapErr_ok, R.ok_bind,
        (count_iff _ _).mpr ⟨hc, rfl⟩, R.ok_bind, hl, R.ok_bind]
      rfl

theorem push_increment (s : ErrorIndication.St) (e : IndItem) : (pushItem s e).increment = e.type := by cases e <;> rfl

theorem push_counted (s : ErrorIndication.St) (e : IndItem) (h : counted s e.type < 255) (t : UInt8) :
    counted (pushItem s e) t = counted s t + if e.type == t then 1 else 0 := by
  have h1 : ∀ n, n < 255 → seenN (some (UInt8.ofNat (n + 1))) = n + 1 := fun n hn => by
    rw [seenN, UInt8.toNat_ofNat']; omega
  cases e <;> simp only [counted, IndItem.type, pushItem] at h ⊢
  · simp only [if_true] at h
    by_cases ht : t = 16
    · subst ht; simpa [-UInt8.ofNat_add] using h1 _ h
    · simp [ht, Ne.symm ht]
  · simp only [show ¬ (133 : UInt8) = 16 by decide, if_true, if_false] at h
    by_cases ht : t = 133
    · subst ht; simpa [-UInt8.ofNat_add] using h1 _ h
    · simp [ht, Ne.symm ht]
  · simp only [show ¬ (255 : UInt8) = 16 by decide, show ¬ (255 : UInt8) = 133 by decide, if_true, if_false] at h
    by_cases ht : t = 255
    · subst ht; simpa [-UInt8.ofNat_add] using h1 _ h
    · simp [ht, Ne.symm ht]

theorem counted_le (s : ErrorIndication.St) (t : UInt8) : counted s t ≤ 255 := by
  unfold counted
  repeat' split
  all_goals first | exact seen_le _ | exact Nat.zero_le _

theorem ofType_cons (t : UInt8) (e : IndItem) (es : List IndItem) : ofType t (e :: es) = ofType t es + if e.type == t then 1 else 0 := by
  simp only [ofType, List.countP_cons]

theorem item_len {b : Bytes} {e : IndItem} {n : Nat} (h : ItemAt b e n) : b ≠ [] ∧ 0 < n := by
  cases h <;> simp

theorem loop_iff : ∀ (f : Nat) (s s' : ErrorIndication.St) (b : Bytes), b.length < f →
    (ErrorIndication.loop .debug f s b = .ok s' ↔
      ∃ es, IndItems s.increment b es ∧ (∀ t, counted s t + ofType t es ≤ 255) ∧ s' = es.foldl pushItem s)
  | 0, _, _, _, h => by omega
  | f + 1, s, s', b, hf => by
    unfold ErrorIndication.loop
    by_cases hb : b = []
    · rw [if_pos hb]
      subst hb
      constructor
      · intro h
        cases h
        exact ⟨[], .nil _, fun t => by have := counted_le s t; simpa [ofType] using this, rfl⟩
      · rintro ⟨es, h1, -, rfl⟩
        cases h1 with
        | nil => rfl
        | cons h _ _ => exact absurd rfl (item_len h).1
    · rw [if_neg hb]
      constructor
      · intro H
        obtain ⟨⟨s1, n⟩, h1, H⟩ := ok_bind_inv H
        obtain ⟨e, ha, hi, hc, rfl⟩ := (step_iff _ _ _ _).mp h1
        have hn := (item_len ha).2
        have hlen : (b.drop n).length < f := by
          rw [List.length_drop]
          have : 0 < b.length := List.length_pos_iff.mpr hb
          omega
        obtain ⟨es, g1, g2, g3⟩ := (loop_iff f _ _ _ hlen).mp H
        rw [push_increment] at g1
        refine ⟨e :: es, .cons ha hi g1, fun t => ?_, g3⟩
        have := g2 t
        rw [push_counted s e hc] at this
        rw [ofType_cons]
        omega
      · rintro ⟨es, h1, h2, rfl⟩
        cases h1 with
        | nil => exact absurd rfl hb
        | @cons _ _ e n es ha hi h1 =>
          have hc : counted s e.type < 255 := by
            have := h2 e.type
            rw [ofType_cons] at this
            simp only [BEq.rfl, if_true] at this
            omega
          have hn := (item_len ha).2
          have hlen : (b.drop n).length < f := by
            rw [List.length_drop]
            have : 0 < b.length := List.length_pos_iff.mpr hb
            omega
          rw [(step_iff _ _ _ _).mpr ⟨e, ha, hi, hc, rfl⟩, R.ok_bind]
          refine (loop_iff f _ _ _ hlen).mpr ⟨es, by rw [push_increment]; exact h1, fun t => ?_, rfl⟩
          have := h2 t
          rw [ofType_cons] at this
          rw [push_counted s e hc]
          omega

/-- What the elements leave in the state. -/
theorem fold_push (es : List IndItem) : ∀ s : ErrorIndication.St,
    (es.foldl pushItem s).x.header = s.x.header ∧
    ((es.foldl pushItem s).teidN.isSome = (s.teidN.isSome || ((es.filterMap IndItem.teid?).head?).isSome)) ∧
    ((es.foldl pushItem s).peerN.isSome = (s.peerN.isSome || ((es.filterMap IndItem.peer?).head?).isSome)) ∧
    (es.foldl pushItem s).x.teid = (if s.teidN = none then ((es.filterMap IndItem.teid?).head?).getD s.x.teid else s.x.teid) ∧
    (es.foldl pushItem s).x.peer = (if s.peerN = none then ((es.filterMap IndItem.peer?).head?).getD s.x.peer else s.x.peer) ∧
    (es.foldl pushItem s).x.priv = (if s.privN = none then ((es.filterMap IndItem.priv?).head?).or s.x.priv else s.x.priv) := by
  induction es with
  | nil => intro s; simp
  | cons e es ih =>
    intro s
    obtain ⟨i0, i1, i2, i3, i4, i5⟩ := ih (pushItem s e)
    rw [List.foldl_cons, i0, i1, i2, i3, i4, i5]
    cases e with
    | teid i => cases hs : s.teidN <;> simp [pushItem, IndItem.teid?, IndItem.peer?, IndItem.priv?, hs, List.filterMap_cons, - List.head?_filterMap]
    | peer i => cases hs : s.peerN <;> simp [pushItem, IndItem.teid?, IndItem.peer?, IndItem.priv?, hs, List.filterMap_cons, - List.head?_filterMap]
    | priv i => cases hs : s.privN <;> simp [pushItem, IndItem.teid?, IndItem.peer?, IndItem.priv?, hs, List.filterMap_cons, - List.head?_filterMap]

/-- C80 for Error Indication: behind the header are elements in ascending order up to the end of the buffer, at most 255 of each type, a TEID and a
peer address among them; the first of each type is taken. -/
theorem C80_error_indication (b : Bytes) (x : ErrorIndication) : ErrorIndication.unmarshal .debug b = .ok x ↔
    ∃ s es, AtHeader .debug b 26 x.header s ∧ uAnnounced b < 65528 ∧ uAnnounced b + 8 ≤ b.length ∧ IndItems 0 (b.drop s) es ∧
      (∀ t, ofType t es ≤ 255) ∧ (es.filterMap IndItem.teid?).head? = some x.teid ∧ (es.filterMap IndItem.peer?).head? = some x.peer ∧
      (es.filterMap IndItem.priv?).head? = x.priv := by
  have hc0 : ∀ (y : ErrorIndication) (t : UInt8), counted ⟨none, none, none, 0, y⟩ t = 0 := by
    intro y t
    unfold counted
    repeat' split
    all_goals rfl
  constructor
  · intro H
    unfold ErrorIndication.unmarshal at H
    obtain ⟨h, hr, H⟩ := ok_bind_inv H
    obtain ⟨s, ha⟩ := read_at hr
    obtain ⟨-, -, hle, hl⟩ := at_read ha
    by_cases ho : 65528 ≤ uAnnounced b
    · rw [len8_debug (by omega)] at H; cases H
    rw [len8_ok (by omega), R.ok_bind, hl] at H
    split at H
    rotate_left
    · cases H
    next hn =>
    rw [ha.2.2, R.ok_bind] at H
    obtain ⟨st, hs, H⟩ := ok_bind_inv H
    obtain ⟨es, g1, g2, rfl⟩ := (loop_iff _ _ _ _ (by rw [List.length_drop]; omega)).mp hs
    split at H
    rotate_left
    · cases H
    next hm =>
    obtain ⟨i0, i1, i2, i3, i4, i5⟩ := fold_push es ⟨none, none, none, 0, ⟨h, Teid.default, GsnAddress.default, none⟩⟩
    rw [i1, i2] at hm
    have hx := R.ok.inj H
    subst hx
    rw [i0, i3, i4, i5]
    simp only [Option.isSome_none, Bool.false_or, if_true, Option.or_none] at hm ⊢
    obtain ⟨a, ha1⟩ := Option.isSome_iff_exists.mp hm.1
    obtain ⟨c, hc1⟩ := Option.isSome_iff_exists.mp hm.2
    refine ⟨s, es, ha, by omega, hn, g1, fun t => ?_, ?_, ?_, rfl⟩
    · have := g2 t
      rw [hc0] at this
      omega
    · rw [ha1]; rfl
    · rw [hc1]; rfl
  · rintro ⟨s, es, ha, h1, hn, g1, g2, g3, g4, g5⟩
    obtain ⟨hr, -, hle, hl⟩ := at_read ha
    unfold ErrorIndication.unmarshal
    rw [hr, R.ok_bind, len8_ok (by omega), R.ok_bind, hl, if_pos hn, ha.2.2, R.ok_bind,
      (loop_iff _ _ _ _ (by rw [List.length_drop]; omega)).mpr ⟨es, g1, fun t => by rw [hc0]; have := g2 t; omega, rfl⟩, R.ok_bind]
    obtain ⟨i0, i1, i2, i3, i4, i5⟩ := fold_push es ⟨none, none, none, 0, ⟨x.header, Teid.default, GsnAddress.default, none⟩⟩
    rw [g3] at i1 i3
    rw [g4] at i2 i4
    rw [g5] at i5
    simp only [Option.isSome_none, Bool.false_or, if_true, Option.or_none, Option.getD_some, Option.isSome_some] at i0 i1 i2 i3 i4 i5
    rw [if_pos ⟨i1, i2⟩]
    refine congrArg R.ok ?_
    generalize (es.foldl pushItem _).x = y at i0 i3 i4 i5
    cases y; cases x
    simp only at i0 i3 i4 i5
    subst i0 i3 i4 i5
    rfl

/-! ## What is accepted beyond the specification -/

/-- An Echo Response of which one octet is missing, a Supported Extension Headers Notification whose list is longer than its length says, and an
Error Indication with octets behind the announced end that are taken for a private extension. -/
theorem C80_violation :
    EchoResponse.unmarshal .debug [0x30, 2, 0, 6, 0, 0, 0, 0, 14, 7, 255] = .ok ⟨⟨2, 6, 0, none, none, none⟩, ⟨14, 7⟩, none⟩ ∧
    SupportedExt.unmarshal .debug [0x30, 31, 0, 3, 0, 0, 0, 0, 141, 1, 0x85, 0xc0] = .ok ⟨⟨31, 3, 0, none, none, none⟩, ⟨141, 1, [0x85, 0xc0]⟩⟩ ∧
    ErrorIndication.unmarshal .debug ([0x30, 26, 0, 12, 0, 0, 0, 0, 16, 0, 0, 0, 1, 133, 0, 4, 10, 0, 0, 1] ++ [255, 0, 2, 0, 9]) =
      .ok ⟨⟨26, 12, 0, none, none, none⟩, ⟨16, 1⟩, ⟨133, 4, .v4 0x0a000001⟩, some ⟨255, 2, 9, []⟩⟩ := by
  decide +kernel

example : ∃ s es, AtHeader .debug [0x30, 26, 0, 12, 0, 0, 0, 0, 16, 0, 0, 0, 1, 133, 0, 4, 10, 0, 0, 1] 26 ⟨26, 12, 0, none, none, none⟩ s ∧
    IndItems 0 ([0x30, 26, 0, 12, 0, 0, 0, 0, 16, 0, 0, 0, 1, 133, 0, 4, 10, 0, 0, 1].drop s) es ∧ es.length = 2 :=
  ⟨8, [.teid ⟨16, 1⟩, .peer ⟨133, 4, .v4 0x0a000001⟩], ⟨by decide +kernel, rfl, by decide +kernel⟩,
    .cons (n := 5) (ItemAt.teid 1 [133, 0, 4, 10, 0, 0, 1]) (by decide) (.cons (n := 7) (ItemAt.v4 0x0a000001 []) (by decide) (.nil _)), rfl⟩

end Gtp.Props
