import Verif.Props.UAccept
import Verif.Props.URelease

/-!
# Which buffers are accepted as a GTPv1-U message in release builds (C80)

The counterpart of `UAccept` in builds without overflow checks, where the additions to a declared length wrap around: a notification or a private extension may
announce almost 65536 octets and be accepted without them, and the elements of an Error Indication may be repeated without limit. For a G-PDU nothing
changes.
-/

namespace Gtp.Props
open Gtp.V1 Gtp.U

/-- The private extension in the octets `r` in a release build: as `privSpec`, but the comparison with the end wraps around. -/
def privSpecR : Bytes → Option PrivateExtension
  | _ :: h :: l :: i :: j :: v =>
    if 1 ≤ (of16 h l).toNat ∧ ((of16 h l).toNat + 3) % 65536 ≤ v.length + 5 then some ⟨255, of16 h l, of16 i j, v⟩ else none
  | _ => none

/-- C80: the decoder of a private extension in a release build on all octets on which it does not panic. -/
theorem C80_private_release (r : Bytes) (i : PrivateExtension) : PrivateExtension.unmarshal .release r = .ok i ↔ privSpecR r = some i := by
  match r with
  | [] => simp [privSpecR, PrivateExtension.unmarshal]
  | [_] => simp [privSpecR, PrivateExtension.unmarshal]
  | [_, _] => simp [privSpecR, PrivateExtension.unmarshal]
  | [a, b, c] =>
    simp only [privSpecR, reduceCtorEq, iff_false]
    intro h
    rcases priv_release [a, b, c] with ⟨-, e⟩ | ⟨-, -, x, e⟩ | ⟨h5, -⟩
    · rw [e] at h; cases h
    · rw [e] at h; cases h
    · simp at h5
  | [a, b, c, d] =>
    simp only [privSpecR, reduceCtorEq, iff_false]
    intro h
    rcases priv_release [a, b, c, d] with ⟨-, e⟩ | ⟨-, -, x, e⟩ | ⟨h5, -⟩
    · rw [e] at h; cases h
    · rw [e] at h; cases h
    · simp at h5
  | a :: b :: c :: d :: e :: v =>
    unfold PrivateExtension.unmarshal
    rw [if_pos (by simp)]
    simp only [rd16, rd_zero, rd_succ, R.ok_bind, R.pure_eq, privSpecR]
    by_cases h0 : of16 b c = 0
    · rw [if_pos h0, h0, if_neg (by simp)]
      constructor <;> intro h <;> cases h
    have hpos : 1 ≤ (of16 b c).toNat := by
      rcases Nat.eq_zero_or_pos (of16 b c).toNat with h' | h'
      · exact absurd (UInt16.toNat_inj.mp (by simpa using h')) h0
      · exact h'
    have hc : (checkTlv .release (of16 b c) (a :: b :: c :: d :: e :: v) : R Err Bool) =
        .ok (decide (((of16 b c).toNat + 3) % 65536 ≤ v.length + 5)) := by
      have h3 : (3 : UInt16).toNat = 3 := rfl
      simp only [checkTlv, h0, if_false, add16, R.ok_bind, R.pure_eq, UInt16.toNat_add, h3, List.length_cons]
    rw [if_neg h0, hc, R.ok_bind]
    by_cases hn : ((of16 b c).toNat + 3) % 65536 ≤ v.length + 5
    · rw [if_pos (by simpa using hn), if_pos ⟨hpos, hn⟩]
      simp [slFrom]
    · rw [if_neg (by simpa using hn), if_neg (fun h => hn h.2)]
      constructor <;> intro h <;> cases h

theorem opt_release_iff (r : Bytes) (p : Option PrivateExtension) : optPrivate .release r = .ok p ↔ ¬ PrivCut r ∧ p = privSpecR r := by
  have hs := C80_private_release r
  unfold optPrivate
  rcases priv_release r with ⟨h, e⟩ | ⟨-, h, x, e⟩ | ⟨h5, h, h', x, e, -⟩
  · rw [e]
    constructor
    · intro h; cases h
    · intro h'; exact absurd h h'.1
  · have hn : privSpecR r = none := by
      cases hq : privSpecR r with
      | none => rfl
      | some i =>
        have := (hs i).mpr hq
        rw [e] at this
        cases this
    rw [e, hn]
    constructor
    · intro g; cases g; exact ⟨h, rfl⟩
    · rintro ⟨-, rfl⟩; rfl
  · have hq := (hs x).mp e
    rw [e, hq]
    constructor
    · intro g; cases g; exact ⟨fun hc => by have := hc.1; omega, rfl⟩
    · rintro ⟨-, rfl⟩; rfl

/-- C80 for G-PDU in a release build: the same condition as in a debug build. A G-PDU that announces 65528 octets or more ends inside its header
when the sum has wrapped around, and is not accepted either. -/
theorem C80_gpdu_release (b : Bytes) (x : Gpdu) : Gpdu.unmarshal .release b = .ok x ↔ ∃ s, AtHeader .release b 255 x.header s ∧ uAnnounced b < 65528 ∧
    uAnnounced b + 8 ≤ b.length ∧ s ≤ uAnnounced b + 8 ∧ x.tpdu = (b.take (uAnnounced b + 8)).drop s := by
  constructor
  · intro H
    unfold Gpdu.unmarshal at H
    obtain ⟨h, hr, H⟩ := ok_bind_inv H
    obtain ⟨s, ha⟩ := read_at hr
    obtain ⟨-, h8, hle, hl⟩ := at_read ha
    have hlt := h.length.toNat_lt
    rw [hl] at hlt
    rw [len8_wraps, R.ok_bind, hl] at H
    split at H
    rotate_left
    · cases H
    next hn =>
    rw [ha.2.2, R.ok_bind, sl] at H
    split at H
    rotate_left
    · cases H
    next hs =>
    have hw : (uAnnounced b + 8) % 65536 = uAnnounced b + 8 := by omega
    rw [hw] at H hn hs
    cases H
    exact ⟨s, ha, by omega, hn, hs.1, rfl⟩
  · rintro ⟨s, ha, h1, h2, h3, h4⟩
    obtain ⟨hr, -, hle, hl⟩ := at_read ha
    unfold Gpdu.unmarshal
    rw [hr, R.ok_bind, len8_wraps, R.ok_bind, hl, Nat.mod_eq_of_lt (by omega), if_pos h2, ha.2.2, R.ok_bind, sl, if_pos ⟨h3, h2⟩, R.ok_bind, ← h4]
    rfl

/-- As `TailAt`, in a release build. -/
def TailAtR (b : Bytes) (s : Nat) (p : Option PrivateExtension) : Prop :=
  (uAnnounced b < b.length ∧ ¬ PrivCut (b.drop s) ∧ p = privSpecR (b.drop s)) ∨ (b.length ≤ uAnnounced b ∧ p = none)

/-- C80 for Echo Request in a release build. -/
theorem C80_echo_request_release (b : Bytes) (x : EchoRequest) : EchoRequest.unmarshal .release b = .ok x ↔
    ∃ s, AtHeader .release b 1 x.header s ∧ TailAtR b s x.priv := by
  constructor
  · intro H
    unfold EchoRequest.unmarshal at H
    obtain ⟨h, hr, H⟩ := ok_bind_inv H
    obtain ⟨s, ha⟩ := read_at hr
    obtain ⟨-, -, hle, hl⟩ := at_read ha
    rw [hl] at H
    split at H
    · next hn =>
      rw [ha.2.2, R.ok_bind, slFrom_ok hle, R.ok_bind] at H
      obtain ⟨p, hp, H⟩ := ok_bind_inv H
      cases H
      exact ⟨s, ha, .inl ⟨hn, (opt_release_iff _ _).mp hp⟩⟩
    · cases H
      exact ⟨s, ha, .inr ⟨by omega, rfl⟩⟩
  · rintro ⟨s, ha, ht⟩
    obtain ⟨hr, -, hle, hl⟩ := at_read ha
    unfold EchoRequest.unmarshal
    rw [hr, R.ok_bind, hl]
    rcases ht with ⟨h1, h2⟩ | ⟨h1, h2⟩
    · rw [if_pos h1, ha.2.2, R.ok_bind, slFrom_ok hle, R.ok_bind, (opt_release_iff _ _).mpr h2]
      rfl
    · rw [if_neg (by omega), ← h2]
      rfl

/-- C80 for End Marker in a release build. -/
theorem C80_end_marker_release (b : Bytes) (x : EndMarker) : EndMarker.unmarshal .release b = .ok x ↔
    ∃ s, AtHeader .release b 254 x.header s ∧ TailAtR b s x.priv := by
  constructor
  · intro H
    unfold EndMarker.unmarshal at H
    obtain ⟨h, hr, H⟩ := ok_bind_inv H
    obtain ⟨s, ha⟩ := read_at hr
    obtain ⟨-, -, hle, hl⟩ := at_read ha
    rw [hl] at H
    split at H
    · next hn =>
      rw [ha.2.2, R.ok_bind, slFrom_ok hle, R.ok_bind] at H
      obtain ⟨p, hp, H⟩ := ok_bind_inv H
      cases H
      exact ⟨s, ha, .inl ⟨hn, (opt_release_iff _ _).mp hp⟩⟩
    · cases H
      exact ⟨s, ha, .inr ⟨by omega, rfl⟩⟩
  · rintro ⟨s, ha, ht⟩
    obtain ⟨hr, -, hle, hl⟩ := at_read ha
    unfold EndMarker.unmarshal
    rw [hr, R.ok_bind, hl]
    rcases ht with ⟨h1, h2⟩ | ⟨h1, h2⟩
    · rw [if_pos h1, ha.2.2, R.ok_bind, slFrom_ok hle, R.ok_bind, (opt_release_iff _ _).mpr h2]
      rfl
    · rw [if_neg (by omega), ← h2]
      rfl

/-- C80 for Echo Response in a release build: behind the header a recovery counter and the private extension in the remaining octets. At least five octets more
than announced are asked for, although the header has at least eight. -/
theorem C80_echo_response_release (b : Bytes) (x : EchoResponse) : EchoResponse.unmarshal .release b = .ok x ↔
    ∃ s r, AtHeader .release b 2 x.header s ∧ uAnnounced b + 4 < b.length ∧ b.drop s = 14 :: x.recovery.value :: r ∧ x.recovery.t = 14 ∧
      ¬ PrivCut r ∧ x.priv = privSpecR r := by
  constructor
  · intro H
    unfold EchoResponse.unmarshal at H
    obtain ⟨h, hr, H⟩ := ok_bind_inv H
    obtain ⟨s, ha⟩ := read_at hr
    obtain ⟨-, -, hle, hl⟩ := at_read ha
    rw [hl] at H
    split at H
    rotate_left
    · cases H
    next hn =>
    rw [ha.2.2, R.ok_bind] at H
    split at H
    rotate_left
    · cases H
    next hs =>
    rw [← rd_drop_zero] at H
    rw [slFrom_ok hle] at H
    match hd : b.drop s, H with
    | [], _ => rw [List.drop_eq_nil_iff] at hd; omega
    | t :: r, H =>
    rw [rd_zero, R.ok_bind] at H
    split at H
    rotate_left
    · cases H
    next h14 =>
    rw [R.ok_bind] at H
    match r, H with
    | [], H => cases H
    | v :: r, H =>
    have hrec : Recovery.unmarshal (t :: v :: r) = .ok ⟨t, v⟩ := by simp [Recovery.unmarshal]
    rw [hrec, R.ok_bind] at H
    have hlen := congrArg List.length hd
    simp only [List.length_drop, List.length_cons] at hlen
    have hdr : b.drop (s + 2) = r := by rw [← List.drop_drop, hd]; rfl
    change (if s + 2 < b.length then _ else _) = _ at H
    split at H
    · next h2 =>
      rw [show s + Recovery.len ⟨t, v⟩ = s + 2 from rfl, slFrom_ok (by omega), R.ok_bind, hdr] at H
      obtain ⟨p, hp, H⟩ := ok_bind_inv H
      cases H
      exact ⟨s, r, ha, hn, hd.trans (by rw [h14]), h14, (opt_release_iff _ _).mp hp⟩
    · next h2 =>
      have hr0 : r = [] := List.length_eq_zero_iff.mp (by omega)
      subst hr0
      cases H
      exact ⟨s, [], ha, hn, hd.trans (by rw [h14]), h14, (fun h => by have := h.1; simp at this), rfl⟩
  · rintro ⟨s, r, ha, hn, hd, ht, hp⟩
    obtain ⟨hr, -, hle, hl⟩ := at_read ha
    have hlen := congrArg List.length hd
    simp only [List.length_drop, List.length_cons] at hlen
    have hdr : b.drop (s + 2) = r := by rw [← List.drop_drop, hd]; rfl
    unfold EchoResponse.unmarshal
    rw [hr, R.ok_bind, hl, if_pos hn, ha.2.2, R.ok_bind, if_pos (by omega), ← rd_drop_zero, slFrom_ok hle, hd, rd_zero, R.ok_bind, if_pos rfl,
      R.ok_bind]
    have hrec : Recovery.unmarshal (14 :: x.recovery.value :: r) = .ok x.recovery := by
      rw [show x.recovery = ⟨x.recovery.t, x.recovery.value⟩ from rfl, ht]
      simp [Recovery.unmarshal]
    rw [hrec, R.ok_bind]
    show (if s + 2 < b.length then _ else _) = _
    by_cases h2 : s + 2 < b.length
    · rw [if_pos h2, recovery_len, slFrom_ok (by omega), R.ok_bind, hdr, (opt_release_iff _ _).mpr hp]
      rfl
    · have hr0 : r = [] := List.length_eq_zero_iff.mp (by omega)
      subst hr0
      rw [if_neg h2, show (none : Option PrivateExtension) = x.priv from hp.2.symm]
      rfl

/-- The list of a Supported Extension Headers Notification in a release build: the length is compared modulo 256. -/
theorem list_release (r : Bytes) (l : ExtTypeList) : ExtTypeList.unmarshal .release (141 :: r) = .ok l ↔ 141 :: r = 141 :: l.length :: l.list ∧ l.t = 141 ∧
    1 ≤ l.length.toNat ∧ (l.length.toNat + 2) % 256 ≤ l.list.length + 2 := by
  unfold ExtTypeList.unmarshal
  match r with
  | [] => simp
  | n :: r =>
    simp only [rd_succ, rd_zero, R.ok_bind]
    have h2' : (2 : UInt8).toNat = 2 := rfl
    by_cases h0 : n = 0
    · rw [if_pos h0]
      constructor
      · intro h; cases h
      · rintro ⟨he, -, h1, -⟩
        simp only [List.cons.injEq, true_and] at he
        rw [← he.1, h0] at h1
        cases h1
    have hpos : 1 ≤ n.toNat := by
      rcases Nat.eq_zero_or_pos n.toNat with h' | h'
      · exact absurd (UInt8.toNat_inj.mp h') h0
      · exact h'
    rw [if_neg h0]
    simp only [add8, R.ok_bind, UInt8.toNat_add, h2', List.length_cons]
    by_cases hc : (n.toNat + 2) % 256 ≤ r.length + 2
    · rw [if_pos (by omega), slFrom_ok (by simp)]
      constructor
      · intro h; cases h; exact ⟨rfl, rfl, hpos, hc⟩
      · rintro ⟨he, ht, -⟩
        simp only [List.cons.injEq, true_and] at he
        rw [show l = ⟨l.t, l.length, l.list⟩ from rfl, ht, ← he.1, ← he.2]
        rfl
    · rw [if_neg (by omega)]
      constructor
      · intro h; cases h
      · rintro ⟨he, -, -, h1⟩
        simp only [List.cons.injEq, true_and] at he
        rw [← he.1, ← he.2] at h1
        omega

/-- C80 for Supported Extension Headers Notification in a release build. -/
theorem C80_supported_ext_release (b : Bytes) (x : SupportedExt) : SupportedExt.unmarshal .release b = .ok x ↔
    ∃ s, AtHeader .release b 31 x.header s ∧ (uAnnounced b + 8) % 65536 ≤ b.length ∧
      b.drop s = 141 :: x.list.length :: x.list.list ∧ x.list.t = 141 ∧ 1 ≤ x.list.length.toNat ∧
      (x.list.length.toNat + 2) % 256 ≤ x.list.list.length + 2 := by
  constructor
  · intro H
    unfold SupportedExt.unmarshal at H
    obtain ⟨h, hr, H⟩ := ok_bind_inv H
    obtain ⟨s, ha⟩ := read_at hr
    obtain ⟨-, -, hle, hl⟩ := at_read ha
    rw [len8_wraps, R.ok_bind, hl] at H
    split at H
    rotate_left
    · cases H
    next hn =>
    rw [ha.2.2, R.ok_bind] at H
    split at H
    · cases H
    next hs =>
    rw [← rd_drop_zero, slFrom_ok hle] at H
    match hd : b.drop s, H with
    | [], _ => rw [List.drop_eq_nil_iff] at hd; omega
    | t :: r, H =>
    rw [rd_zero, R.ok_bind] at H
    split at H
    rotate_left
    · cases H
    next h141 =>
    subst h141
    rw [R.ok_bind] at H
    obtain ⟨l, hp, H⟩ := ok_bind_inv H
    cases H
    have hk := (list_release r l).mp (mapErr_inv hp)
    exact ⟨s, ha, hn, hd.trans hk.1, hk.2⟩
  · rintro ⟨s, ha, hn, hd, hp⟩
    obtain ⟨hr, -, hle, hl⟩ := at_read ha
    have hlen := congrArg List.length hd
    simp only [List.length_drop, List.length_cons] at hlen
    unfold SupportedExt.unmarshal
    rw [hr, R.ok_bind, len8_wraps, R.ok_bind, hl, if_pos hn, ha.2.2, R.ok_bind, if_neg (by omega), ← rd_drop_zero, slFrom_ok hle, hd, rd_zero,
      R.ok_bind, if_pos rfl, R.ok_bind, (list_release _ x.list).mpr ⟨rfl, hp⟩]
    rfl

/-! ## Error Indication -/

/-- As `ItemAt`, in a release build: the number of octets a private extension is accounted with wraps around. -/
inductive ItemAtR : Bytes → IndItem → Nat → Prop where
  | teid (v : UInt32) (r : Bytes) : ItemAtR (16 :: (be32 v ++ r)) (.teid ⟨16, v⟩) 5
  | v4 (a : UInt32) (r : Bytes) : ItemAtR (133 :: 0 :: 4 :: (be32 a ++ r)) (.peer ⟨133, 4, .v4 a⟩) 7
  | v6 (hi lo : UInt64) (r : Bytes) : ItemAtR (133 :: 0 :: 16 :: (be64 hi ++ (be64 lo ++ r))) (.peer ⟨133, 16, .v6 ⟨hi, lo⟩⟩) 19
  | priv (r : Bytes) (i : PrivateExtension) : privSpecR (255 :: r) = some i → ItemAtR (255 :: r) (.priv i) ((i.length.toNat + 3) % 65536)

/-- What the decoder of an element makes of the octets in a release build, and how far it moves. -/
def DecodesR (b : Bytes) : IndItem → Nat → Prop
  | .teid i, n => Teid.unmarshal b = .ok i ∧ n = 5
  | .peer i, n => GsnAddress.unmarshal .release b = .ok i ∧ i.len .release = .ok n
  | .priv i, n => PrivateExtension.unmarshal .release b = .ok i ∧ i.len .release = .ok n

/-- C80: the elements of an Error Indication as octets, in a release build. -/
theorem C80_item_release (b : Bytes) (e : IndItem) (n : Nat) : b.head? = some e.type ∧ DecodesR b e n ↔ ItemAtR b e n := by
  constructor
  · rintro ⟨hh, hd⟩
    cases e with
    | teid i =>
      obtain ⟨hu, rfl⟩ := hd
      match b, hh, hu with
      | [t], _, hu => cases hu
      | [t, _], _, hu => cases hu
      | [t, _, _], _, hu => cases hu
      | [t, _, _, _], _, hu => cases hu
      | t :: a :: b :: c :: d :: r, hh, hu =>
        obtain rfl : 16 = t := (Option.some.inj hh).symm
        simp only [Teid.unmarshal, List.length_cons, rd32, rd_zero, rd_succ, R.ok_bind, R.pure_eq] at hu
        rw [if_pos (by omega)] at hu
        cases hu
        have := ItemAtR.teid (of32 a b c d) r
        rwa [be32_of32] at this
    | peer i =>
      obtain ⟨hu, hl⟩ := hd
      match b, hh, hu with
      | [t], _, hu => cases hu
      | [t, _], _, hu => cases hu
      | t :: b :: c :: r, hh, hu =>
        cases hh
        rcases gsn_release ((IndItem.peer i).type :: b :: c :: r) with ⟨hg, -⟩ | ⟨-, e, he⟩
        rotate_left
        · rw [hu] at he; cases he
        rw [elemLen_cons] at hg
        simp only [List.length_cons] at hg
        obtain ⟨hr, h4 | h4⟩ := hg
        · obtain ⟨rfl, rfl⟩ := of16_eq h4 (by omega)
          rw [h4] at hr
          match r, hr with
          | a :: b :: c :: d :: r, hr =>
            have := ItemAtR.v4 (of32 a b c d) r
            have g := (gsn_rt .release ⟨133, 4, .v4 (of32 a b c d)⟩ ⟨rfl, rfl⟩ r)
            rw [(gsn_octets (x := ⟨133, 4, .v4 (of32 a b c d)⟩) ⟨rfl, rfl⟩).1] at g
            simp only [IpAddr.octets, be32_of32, List.cons_append, List.nil_append] at g
            have e := hu.symm.trans g.1
            cases e
            rw [hl] at g
            cases g.2
            rwa [be32_of32] at this
        · obtain ⟨rfl, rfl⟩ := of16_eq h4 (by omega)
          rw [h4] at hr
          match r, hr with
          | a0 :: a1 :: a2 :: a3 :: a4 :: a5 :: a6 :: a7 :: b0 :: b1 :: b2 :: b3 :: b4 :: b5 :: b6 :: b7 :: r, hr =>
            have := ItemAtR.v6 (of64 a0 a1 a2 a3 a4 a5 a6 a7) (of64 b0 b1 b2 b3 b4 b5 b6 b7) r
            have g := (gsn_rt .release ⟨133, 16, .v6 ⟨of64 a0 a1 a2 a3 a4 a5 a6 a7, of64 b0 b1 b2 b3 b4 b5 b6 b7⟩⟩ ⟨rfl, rfl⟩ r)
            rw [(gsn_octets (x := ⟨133, 16, .v6 ⟨of64 a0 a1 a2 a3 a4 a5 a6 a7, of64 b0 b1 b2 b3 b4 b5 b6 b7⟩⟩) ⟨rfl, rfl⟩).1] at g
            simp only [IpAddr.octets, V2.Ip6.octets, be64_of64, List.cons_append, List.nil_append] at g
            have e := hu.symm.trans g.1
            cases e
            rw [hl] at g
            cases g.2
            rwa [be64_of64, be64_of64] at this
    | priv i =>
      obtain ⟨hu, hl⟩ := hd
      match b, hh, hu with
      | t :: r, hh, hu =>
        cases hh
        rw [PrivateExtension.len, len3_release] at hl
        cases hl
        exact .priv r i ((C80_private_release _ i).mp hu)
  · intro h
    cases h with
    | teid v r =>
      refine ⟨rfl, ?_, rfl⟩
      simp [be32, Teid.unmarshal, rd32]
    | v4 a r =>
      have g := (gsn_rt .release ⟨133, 4, .v4 a⟩ ⟨rfl, rfl⟩ r).1
      rw [(gsn_octets (x := ⟨133, 4, .v4 a⟩) ⟨rfl, rfl⟩).1, show hi16 4 = 0 by decide, show lo16 4 = 4 by decide] at g
      exact ⟨rfl, g, by rw [GsnAddress.len, len3_release]; rfl⟩
    | v6 hi lo r =>
      have g := (gsn_rt .release ⟨133, 16, .v6 ⟨hi, lo⟩⟩ ⟨rfl, rfl⟩ r).1
      rw [(gsn_octets (x := ⟨133, 16, .v6 ⟨hi, lo⟩⟩) ⟨rfl, rfl⟩).1, show hi16 16 = 0 by decide, show lo16 16 = 16 by decide] at g
      exact ⟨rfl, by simpa only [IpAddr.octets, V2.Ip6.octets, List.cons_append, List.append_assoc] using g, by rw [GsnAddress.len, len3_release]; rfl⟩
    | priv r i h1 => exact ⟨rfl, (C80_private_release _ i).mpr h1, len3_release _⟩

/-- The elements `es` follow each other from the first to the last octet, in ascending order of their types from `last` on, each accounted with at
least one octet. -/
inductive IndItemsR : UInt8 → Bytes → List IndItem → Prop where
  | nil (last : UInt8) : IndItemsR last [] []
  | cons {last : UInt8} {b : Bytes} {e : IndItem} {n : Nat} {es : List IndItem} : ItemAtR b e n → 0 < n → last ≤ e.type →
      IndItemsR e.type (b.drop n) es → IndItemsR last b (e :: es)

theorem count_release_eq (n : Option UInt8) : ErrorIndication.count .release n = .ok (UInt8.ofNat (seenN n + 1)) := by
  cases n with
  | none => rfl
  | some k =>
    simp only [ErrorIndication.count, add8, seenN]
    refine congrArg R.ok (UInt8.toNat_inj.mp ?_)
    rw [UInt8.toNat_add, UInt8.toNat_ofNat']
    rfl

theorem step_release_iff (s s' : ErrorIndication.St) (b : Bytes) (n : Nat) : ErrorIndication.step .release s b = .ok (s', n) ↔
    ∃ e, ItemAtR b e n ∧ s.increment ≤ e.type ∧ s' = pushItem s e := by
  constructor
  · intro H
    unfold ErrorIndication.step at H
    obtain ⟨t, hrd, H⟩ := ok_bind_inv H
    have hh : b.head? = some t := by
      match b, hrd with
      | a :: b, hrd => cases hrd; rfl
    split at H
    rotate_left
    · cases H
    next hi =>
    split at H
    · next h16 =>
      subst h16
      obtain ⟨i, hu, H⟩ := ok_bind_inv H
      obtain ⟨k, hk, H⟩ := ok_bind_inv H
      rw [count_release_eq] at hk; cases hk
      cases H
      exact ⟨.teid i, (C80_item_release _ (.teid i) _).mp ⟨hh, mapErr_inv hu, rfl⟩, hi, rfl⟩
    split at H
    · next h133 =>
      subst h133
      obtain ⟨i, hu, H⟩ := ok_bind_inv H
      obtain ⟨k, hk, H⟩ := ok_bind_inv H
      obtain ⟨l, hl, H⟩ := ok_bind_inv H
      rw [count_release_eq] at hk; cases hk
      cases H
      exact ⟨.peer i, (C80_item_release _ (.peer i) _).mp ⟨hh, mapErr_inv hu, hl⟩, hi, rfl⟩
    split at H
    · next h255 =>
      subst h255
      obtain ⟨i, hu, H⟩ := ok_bind_inv H
      obtain ⟨k, hk, H⟩ := ok_bind_inv H
      obtain ⟨l, hl, H⟩ := ok_bind_inv H
      rw [count_release_eq] at hk; cases hk
      cases H
      exact ⟨.priv i, (C80_item_release _ (.priv i) _).mp ⟨hh, mapErr_inv hu, hl⟩, hi, rfl⟩
    · cases H
  · rintro ⟨e, ha, hi, rfl⟩
    obtain ⟨hh, hd⟩ := (C80_item_release _ _ _).mpr ha
    have hrd : (rd b 0 : R Err UInt8) = .ok e.type := by
      match b, hh with
      | a :: b, hh => cases hh; rfl
    unfold ErrorIndication.step
    rw [hrd, R.ok_bind, if_pos hi]
    cases e with
    | teid i =>
      obtain ⟨hu, rfl⟩ := hd
      rw [if_pos (show (IndItem.teid i).type = 16 from rfl), hu, R.mapErr_ok, R.ok_bind, count_release_eq, R.ok_bind]
      rfl
    | peer i =>
      obtain ⟨hu, hl⟩ := hd
      rw [if_neg (by simp [IndItem.type]), if_pos (show (IndItem.peer i).type = 133 from rfl), hu, R.mapErr_ok, R.ok_bind, count_release_eq, R.ok_bind, hl, R.ok_bind]
      rfl
    | priv i =>
      obtain ⟨hu, hl⟩ := hd
      rw [if_neg (by simp [IndItem.type]), if_neg (by simp [IndItem.type]), if_pos (show (IndItem.priv i).type = 255 from rfl), hu, R.mapErr_ok, R.ok_bind,
        count_release_eq, R.ok_bind, hl, R.ok_bind]
      rfl

theorem item_release_zero {b : Bytes} {e : IndItem} (h : ItemAtR b e 0) : ∃ r, b = 255 :: 255 :: 253 :: r ∧ 2 ≤ r.length := by
  generalize hn : (0 : Nat) = n at h
  cases h with
  | teid => omega
  | v4 => omega
  | v6 => omega
  | priv r i h =>
    match r, h with
    | h' :: l :: a :: b :: v, h =>
      simp only [privSpecR] at h
      split at h
      · cases h
        simp only at hn
        rw [of16_toNat] at hn
        have h1 := h'.toNat_lt
        have h2 := l.toNat_lt
        refine ⟨a :: b :: v, ?_, by simp⟩
        rw [show h' = 255 from UInt8.toNat_inj.mp (by simp; omega), show l = 253 from UInt8.toNat_inj.mp (by simp; omega)]
      · cases h

theorem loop_release_iff : ∀ (f : Nat) (s s' : ErrorIndication.St) (b : Bytes), b.length < f →
    (ErrorIndication.loop .release f s b = .ok s' ↔ ∃ es, IndItemsR s.increment b es ∧ s' = es.foldl pushItem s)
  | 0, _, _, _, h => by omega
  | f + 1, s, s', b, hf => by
    by_cases hb : b = []
    · unfold ErrorIndication.loop
      rw [if_pos hb]
      subst hb
      constructor
      · intro h
        cases h
        exact ⟨[], .nil _, rfl⟩
      · rintro ⟨es, h1, rfl⟩
        cases h1 with
        | nil => rfl
        | cons h _ _ _ => generalize hq : ([] : Bytes) = q at h; cases h <;> cases hq
    · have hpos : 0 < b.length := List.length_pos_iff.mpr hb
      constructor
      · intro H
        have H0 := H
        unfold ErrorIndication.loop at H
        rw [if_neg hb] at H
        obtain ⟨⟨s1, n⟩, h1, H⟩ := ok_bind_inv H
        obtain ⟨e, ha, hi, rfl⟩ := (step_release_iff _ _ _ _).mp h1
        have hn : 0 < n := by
          rcases Nat.eq_zero_or_pos n with rfl | h
          · obtain ⟨r, rfl, hr⟩ := item_release_zero ha
            rw [C32_spins (f + 1) s r hr] at H0
            cases H0
          · exact h
        have hlen : (b.drop n).length < f := by rw [List.length_drop]; omega
        obtain ⟨es, g1, g3⟩ := (loop_release_iff f _ _ _ hlen).mp H
        rw [push_increment] at g1
        exact ⟨e :: es, .cons ha hn hi g1, g3⟩
      · rintro ⟨es, h1, rfl⟩
        cases h1 with
        | nil => exact absurd rfl hb
        | @cons _ _ e n es ha hn hi h1 =>
          have hlen : (b.drop n).length < f := by rw [List.length_drop]; omega
          unfold ErrorIndication.loop
          rw [if_neg hb, (step_release_iff _ _ _ _).mpr ⟨e, ha, hi, rfl⟩, R.ok_bind]
          exact (loop_release_iff f _ _ _ hlen).mpr ⟨es, by rw [push_increment]; exact h1, rfl⟩

/-- C80 for Error Indication in a release build: as in a debug build, but any number of elements of a type, and the announced length wraps around. -/
theorem C80_error_indication_release (b : Bytes) (x : ErrorIndication) : ErrorIndication.unmarshal .release b = .ok x ↔
    ∃ s es, AtHeader .release b 26 x.header s ∧ (uAnnounced b + 8) % 65536 ≤ b.length ∧ IndItemsR 0 (b.drop s) es ∧
      (es.filterMap IndItem.teid?).head? = some x.teid ∧ (es.filterMap IndItem.peer?).head? = some x.peer ∧
      (es.filterMap IndItem.priv?).head? = x.priv := by
  constructor
  · intro H
    unfold ErrorIndication.unmarshal at H
    obtain ⟨h, hr, H⟩ := ok_bind_inv H
    obtain ⟨s, ha⟩ := read_at hr
    obtain ⟨-, -, hle, hl⟩ := at_read ha
    rw [len8_wraps, R.ok_bind, hl] at H
    split at H
    rotate_left
    · cases H
    next hn =>
    rw [ha.2.2, R.ok_bind] at H
    obtain ⟨st, hs, H⟩ := ok_bind_inv H
    obtain ⟨es, g1, rfl⟩ := (loop_release_iff _ _ _ _ (by rw [List.length_drop]; omega)).mp hs
    split at H
    rotate_left
    · cases H
    next hm =>
    obtain ⟨i0, i1, i2, i3, i4, i5⟩ := fold_push es ⟨none, none, none, 0, ⟨h, Teid.default, GsnAddress.default, none⟩⟩
    rw [i1, i2] at hm
    have hx := R.ok.inj H
    subst hx
    rw [i0, i3, i4, i5]
    simp only [Option.isSome_none, Bool.false_or, if_true, Option.or_none] at hm ⊢
    obtain ⟨a, ha1⟩ := Option.isSome_iff_exists.mp hm.1
    obtain ⟨c, hc1⟩ := Option.isSome_iff_exists.mp hm.2
    refine ⟨s, es, ha, hn, g1, ?_, ?_, rfl⟩
    · rw [ha1]; rfl
    · rw [hc1]; rfl
  · rintro ⟨s, es, ha, hn, g1, g3, g4, g5⟩
    obtain ⟨hr, -, hle, hl⟩ := at_read ha
    unfold ErrorIndication.unmarshal
    rw [hr, R.ok_bind, len8_wraps, R.ok_bind, hl, if_pos hn, ha.2.2, R.ok_bind,
      (loop_release_iff _ _ _ _ (by rw [List.length_drop]; omega)).mpr ⟨es, g1, rfl⟩, R.ok_bind]
    obtain ⟨i0, i1, i2, i3, i4, i5⟩ := fold_push es ⟨none, none, none, 0, ⟨x.header, Teid.default, GsnAddress.default, none⟩⟩
    rw [g3] at i1 i3
    rw [g4] at i2 i4
    rw [g5] at i5
    simp only [Option.isSome_none, Bool.false_or, if_true, Option.or_none, Option.getD_some, Option.isSome_some] at i0 i1 i2 i3 i4 i5
    rw [if_pos ⟨i1, i2⟩]
    refine congrArg R.ok ?_
    generalize (es.foldl pushItem _).x = y at i0 i3 i4 i5
    cases y; cases x
    simp only at i0 i3 i4 i5
    subst i0 i3 i4 i5
    rfl

/-! ## What is accepted beyond the specification -/

/-- A Supported Extension Headers Notification that announces 65535 octets and a list of 255, and a private extension of 65535 octets, are accepted by a
release build although nothing of them is there. A debug build panics on the notification. -/
theorem C80_violation_release :
    SupportedExt.unmarshal .release [0x30, 31, 255, 255, 0, 0, 0, 0, 141, 255] = .ok ⟨⟨31, 65535, 0, none, none, none⟩, ⟨141, 255, []⟩⟩ ∧
    SupportedExt.unmarshal .debug [0x30, 31, 255, 255, 0, 0, 0, 0, 141, 255] = .panic ∧
    EchoRequest.unmarshal .release [0x30, 1, 0, 4, 0, 0, 0, 0, 255, 255, 255, 0, 9] = .ok ⟨⟨1, 4, 0, none, none, none⟩, some ⟨255, 65535, 9, []⟩⟩ := by
  decide +kernel

example : ∃ s es, AtHeader .release [0x30, 26, 0, 12, 0, 0, 0, 0, 16, 0, 0, 0, 1, 133, 0, 4, 10, 0, 0, 1] 26 ⟨26, 12, 0, none, none, none⟩ s ∧
    IndItemsR 0 ([0x30, 26, 0, 12, 0, 0, 0, 0, 16, 0, 0, 0, 1, 133, 0, 4, 10, 0, 0, 1].drop s) es ∧ es.length = 2 :=
  ⟨8, [.teid ⟨16, 1⟩, .peer ⟨133, 4, .v4 0x0a000001⟩], ⟨by decide +kernel, rfl, by decide +kernel⟩,
    .cons (n := 5) (ItemAtR.teid 1 [133, 0, 4, 10, 0, 0, 1]) (by decide) (by decide)
      (.cons (n := 7) (ItemAtR.v4 0x0a000001 []) (by decide) (by decide) (.nil _)), rfl⟩

example : privSpecR [255, 255, 255, 0, 9] = some ⟨255, 65535, 9, []⟩ ∧ privSpec [255, 255, 255, 0, 9] = none := by decide +kernel

end Gtp.Props
