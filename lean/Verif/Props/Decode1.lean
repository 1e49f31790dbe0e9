import Verif.Props.UHeader
import Verif.Props.CHeader

/-!
# Property C67: what the GTPv1 header decoders read

`CHeaderAt` and `UHeaderAt` say which octets of a buffer a header consists of (TS 29.060 §6, TS 29.281 §5): they mention positions
and flag bits only. The theorems say that a header is decoded exactly from the buffers that contain it.
-/

namespace Gtp.Props

/-- The number in some octets, most significant first. -/
def valueOf (b : Bytes) : Nat := b.foldl (fun a o => a * 256 + o.toNat) 0

/-- The number in `n` octets from position `i`. -/
def numAt (b : Bytes) (i n : Nat) : Nat := valueOf ((b.drop i).take n)

/-- Bit `n` of the first octet, counted from 0. -/
abbrev flagAt (b : Bytes) (n : Nat) : Prop := numAt b 0 1 / 2 ^ n % 2 = 1

/-- Version and protocol type of a header. -/
abbrev IsV1 (b : Bytes) : Prop := numAt b 0 1 / 32 = 1 ∧ flagAt b 4

theorem ok_bind_inv {ε α β : Type} {x : R ε α} {f : α → R ε β} {v : β} (h : (x >>= f) = .ok v) : ∃ a, x = .ok a ∧ f a = .ok v := by
  cases x with
  | ok a => exact ⟨a, rfl, h⟩
  | err e => cases h
  | panic => cases h
  | diverge => cases h

theorem valueOf_one (a : UInt8) : valueOf [a] = a.toNat := by simp [valueOf]
theorem valueOf_two (a b : UInt8) : valueOf [a, b] = a.toNat * 256 + b.toNat := by simp [valueOf]
theorem valueOf_three (a b c : UInt8) : valueOf [a, b, c] = (a.toNat * 256 + b.toNat) * 256 + c.toNat := by simp [valueOf]
theorem valueOf_four (a b c d : UInt8) : valueOf [a, b, c, d] = ((a.toNat * 256 + b.toNat) * 256 + c.toNat) * 256 + d.toNat := by
  simp [valueOf]

theorem of32_toNat (a b c d : UInt8) : (of32 a b c d).toNat = ((a.toNat * 256 + b.toNat) * 256 + c.toNat) * 256 + d.toNat := by
  have h1 := a.toNat_lt
  have h2 := b.toNat_lt
  have h3 := c.toNat_lt
  have h4 := d.toNat_lt
  rw [of32, UInt32.toNat_ofNat']
  omega

theorem of16_value (a b : UInt8) (r : Bytes) : of16 a b = UInt16.ofNat (valueOf ((a :: b :: r).take 2)) := by
  simp only [List.take_succ_cons, List.take_zero, valueOf_two]
  rfl

/-- The flag bits as the decoders extract them. -/
theorem first_octet : ∀ b : UInt8, ((b >>> 5 = 1 ∧ (b >>> 4) &&& 1 = 1) ↔ b.toNat / 32 = 1 ∧ b.toNat / 2 ^ 4 % 2 = 1) ∧
    ((b >>> 5 = 1 ∧ (b &&& 0x10) >>> 4 = 1) ↔ b.toNat / 32 = 1 ∧ b.toNat / 2 ^ 4 % 2 = 1) ∧
    ((b >>> 1) &&& 1 = 1 ↔ b.toNat / 2 ^ 1 % 2 = 1) ∧ (b &&& 1 = 1 ↔ b.toNat / 2 ^ 0 % 2 = 1) ∧
    ((b >>> 2) &&& 1 = 1 ↔ b.toNat / 2 ^ 2 % 2 = 1) ∧
    (b &&& 7 = 0 ↔ ¬ b.toNat / 2 ^ 1 % 2 = 1 ∧ ¬ b.toNat / 2 ^ 0 % 2 = 1 ∧ ¬ b.toNat / 2 ^ 2 % 2 = 1) ∧
    ((b &&& 0x02) >>> 1 = 1 ↔ b.toNat / 2 ^ 1 % 2 = 1) ∧ ((b &&& 0x04) >>> 2 = 1 ↔ b.toNat / 2 ^ 2 % 2 = 1) := by
  decide +kernel

/-! ## GTPv1-C -/

/-- The extension header of type `t` and length octet `l` with the contents `c`. -/
def cExtAt (t l : UInt8) (c : Bytes) : C1.ExtHdr :=
  let v := UInt16.ofNat (valueOf (c.take 2))
  match t.toNat with
  | 0xc0 => .pdcpPduNumber ⟨t, l, v⟩
  | 0xc1 => .suspendRequest ⟨t, l, v⟩
  | 0xc2 => .suspendResponse ⟨t, l, v⟩
  | 1 => .mbmsSupport ⟨t, l, v⟩
  | 2 => .msInfoChange ⟨t, l, v⟩
  | _ => .unknown ⟨t, l, c⟩

/-- A chain of extension headers: each takes as many groups of four octets as its length octet says, at least one and at most 63; the
chain ends with a type octet 0. -/
inductive CChain : Bytes → List C1.ExtHdr → Prop
  | stop (r : Bytes) : CChain (0 :: r) []
  | more (t l : UInt8) (c r : Bytes) (x : List C1.ExtHdr) : t ≠ 0 → 0 < l.toNat → l.toNat < 64 → c.length + 2 = 4 * l.toNat → CChain r x →
      CChain (t :: l :: (c ++ r)) (cExtAt t l c :: x)

/-- The buffer starts with the header `h`. -/
structure CHeaderAt (b : Bytes) (h : C1.Header) : Prop where
  version : IsV1 b
  size : 8 ≤ b.length ∧ (flagAt b 1 → 10 ≤ b.length) ∧ (flagAt b 0 → 11 ≤ b.length)
  msgtype : h.msgtype.toNat = numAt b 1 1
  length : h.length.toNat = numAt b 2 2
  teid : h.teid.toNat = numAt b 4 4
  sqn : h.sqn.map UInt16.toNat = if flagAt b 1 then some (numAt b 8 2) else none
  npdu : h.npdu.map UInt8.toNat = if flagAt b 0 then some (numAt b 10 1) else none
  exts : if flagAt b 2 then ∃ l, h.exts = some l ∧ CChain (b.drop 11) l else h.exts = none

theorem c_extBody (t l : UInt8) (c r : Bytes) (h0 : 0 < l.toNat) (h : c.length + 2 = 4 * l.toNat) :
    C1.extBody t l (4 * l.toNat) (t :: l :: (c ++ r)) = .ok (cExtAt t l c) := by
  obtain ⟨a, b, c', rfl⟩ : ∃ a b c', c = a :: b :: c' := by
    match c, h with
    | [], h => simp at h; omega
    | [_], h => simp at h; omega
    | a :: b :: c', _ => exact ⟨a, b, c', rfl⟩
  unfold C1.extBody
  rcases C1.ext_types t with h1 | h1 | h1 | h1 | h1 | h1
  case' inr.inr.inr.inr.inr =>
    have hsl : (sl (t :: l :: ((a :: b :: c') ++ r)) 2 (4 * l.toNat) : R V1.Err Bytes) = .ok (a :: b :: c') := by
      have e : 4 * l.toNat = c'.length + 1 + 1 + 1 + 1 := by simp only [List.length_cons] at h; omega
      rw [sl, if_pos (by simp only [List.length_cons, List.length_append]; omega), e]
      simp
    have ht : cExtAt t l (a :: b :: c') = .unknown ⟨t, l, a :: b :: c'⟩ := by
      unfold cExtAt
      have : ∀ t : UInt8, (t ≠ 0xc0 ∧ t ≠ 0xc1 ∧ t ≠ 0xc2 ∧ t ≠ 1 ∧ t ≠ 2) →
          (t.toNat ≠ 0xc0 ∧ t.toNat ≠ 0xc1 ∧ t.toNat ≠ 0xc2 ∧ t.toNat ≠ 1 ∧ t.toNat ≠ 2) := by decide +kernel
      have := this t h1
      split <;> simp_all
    simp only [h1, if_false, hsl, ht]
    rfl
  all_goals
    subst h1
    simp only [List.cons_append, rd16, rd_zero, rd_succ, R.ok_bind, R.pure_eq, if_true, of16_value a b c']
    rfl

theorem c_step (m : Mode) (t l : UInt8) (c r : Bytes) (ht : t ≠ 0) (h1 : 0 < l.toNat) (h2 : l.toNat < 64) (h3 : c.length + 2 = 4 * l.toNat) :
    C1.ExtHdr.unmarshal m (t :: l :: (c ++ r)) = .ok (cExtAt t l c) ∧ cExtAt t l c ≠ .noMore ∧
      (cExtAt t l c).len m = .ok (4 * l.toNat) := by
  have hl : l ≠ 0 := by rintro rfl; simp at h1
  have hx := c_extBody t l c r h1 h3
  obtain ⟨g1, g2⟩ := C1.extBody_post m _ _ _ _ _ hx
  rw [C1.ext_cons m t l _ ht, if_neg hl, U.len4_ok h2, R.ok_bind, if_pos (by simp only [List.length_append]; omega)]
  exact ⟨hx, g1, by rw [g2, U.len4_ok h2]⟩

theorem c_chain_complete (m : Mode) {b : Bytes} {x : List C1.ExtHdr} (h : CChain b x) : ∀ fuel, b.length < fuel →
    C1.Header.extLoop m fuel b = .ok x := by
  induction h with
  | stop r =>
    intro fuel hf
    obtain ⟨f, rfl⟩ : ∃ f, fuel = f + 1 := ⟨fuel - 1, by omega⟩
    simp only [C1.Header.extLoop, C1.ext_zero, R.ok_bind, if_true, R.pure_eq]
  | more t l c r x ht h1 h2 h3 _ ih =>
    intro fuel hf
    obtain ⟨f, rfl⟩ : ∃ f, fuel = f + 1 := ⟨fuel - 1, by omega⟩
    obtain ⟨g1, g2, g3⟩ := c_step m t l c r ht h1 h2 h3
    have e : (t :: l :: (c ++ r)).drop (4 * l.toNat) = r := by
      rw [← h3, List.drop_succ_cons, List.drop_succ_cons, List.drop_left]
    rw [C1.Header.extLoop, g1, R.ok_bind, if_neg g2, g3, R.ok_bind, slFrom, if_pos (by simp only [List.length_cons, List.length_append]; omega), R.ok_bind,
      e, ih f (by simp only [List.length_cons, List.length_append] at hf; omega)]
    rfl

theorem c_chain_sound : ∀ (fuel : Nat) (b : Bytes) (x : List C1.ExtHdr), C1.Header.extLoop .debug fuel b = .ok x → CChain b x
  | 0, _, _, h => by cases h
  | fuel + 1, [], x, h => by
    rw [C1.Header.extLoop, C1.ext_nil] at h
    cases h
  | fuel + 1, [t], x, h => by
    by_cases ht : t = 0
    · subst ht
      simp only [C1.Header.extLoop, C1.ext_zero, R.ok_bind, if_true, R.pure_eq] at h
      cases h
      exact .stop []
    · rw [C1.Header.extLoop, C1.ext_one _ _ ht] at h
      cases h
  | fuel + 1, t :: l :: r, x, h => by
    by_cases ht : t = 0
    · subst ht
      simp only [C1.Header.extLoop, C1.ext_zero, R.ok_bind, if_true, R.pure_eq] at h
      cases h
      exact .stop _
    by_cases hl : l = 0
    · rw [C1.Header.extLoop, C1.ext_cons _ t l r ht, if_pos hl] at h
      cases h
    have h1 : 0 < l.toNat := by
      have : l.toNat ≠ 0 := fun e => hl (UInt8.toNat_inj.mp e)
      omega
    rcases Nat.lt_or_ge l.toNat 64 with h2 | h2
    rotate_left
    · rw [C1.Header.extLoop, C1.ext_cons _ t l r ht, if_neg hl, U.len4_debug h2] at h
      cases h
    rcases Nat.lt_or_ge (r.length + 2) (4 * l.toNat) with h3 | h3
    · rw [C1.Header.extLoop, C1.ext_cons _ t l r ht, if_neg hl, U.len4_ok h2, R.ok_bind, if_neg (by omega)] at h
      cases h
    have hc : (r.take (4 * l.toNat - 2)).length + 2 = 4 * l.toNat := by rw [List.length_take]; omega
    obtain ⟨g1, g2, g3⟩ := c_step .debug t l (r.take (4 * l.toNat - 2)) (r.drop (4 * l.toNat - 2)) ht h1 h2 hc
    rw [List.take_append_drop] at g1
    have e : (t :: l :: r).drop (4 * l.toNat) = r.drop (4 * l.toNat - 2) := by
      obtain ⟨k, hk⟩ : ∃ k, 4 * l.toNat = k + 2 := ⟨4 * l.toNat - 2, by omega⟩
      rw [hk, List.drop_succ_cons, List.drop_succ_cons]
      rfl
    rw [C1.Header.extLoop, g1, R.ok_bind, if_neg g2, g3, R.ok_bind, slFrom, if_pos (by simp only [List.length_cons]; omega), R.ok_bind, e] at h
    obtain ⟨y, hy, h⟩ := ok_bind_inv h
    cases h
    have := CChain.more t l _ _ y ht h1 h2 hc (c_chain_sound fuel _ _ hy)
    rwa [List.take_append_drop] at this

/-- C67, chains of extension headers: a chain is decoded in a debug build exactly if the buffer starts with it. -/
theorem C67_c_chain (b : Bytes) (x : List C1.ExtHdr) : C1.Header.unmarshalExts .debug b = .ok x ↔ CChain b x :=
  ⟨c_chain_sound _ _ _, fun h => c_chain_complete .debug h _ (by omega)⟩

/-- The octets at fixed positions. -/
theorem numAt_cons (b0 b1 b2 b3 b4 b5 b6 b7 : UInt8) (r : Bytes) :
    numAt (b0 :: b1 :: b2 :: b3 :: b4 :: b5 :: b6 :: b7 :: r) 0 1 = b0.toNat ∧
    numAt (b0 :: b1 :: b2 :: b3 :: b4 :: b5 :: b6 :: b7 :: r) 1 1 = b1.toNat ∧
    numAt (b0 :: b1 :: b2 :: b3 :: b4 :: b5 :: b6 :: b7 :: r) 2 2 = (of16 b2 b3).toNat ∧
    numAt (b0 :: b1 :: b2 :: b3 :: b4 :: b5 :: b6 :: b7 :: r) 4 4 = (of32 b4 b5 b6 b7).toNat := by
  simp [numAt, valueOf_one, valueOf_two, valueOf_four, of16_toNat, of32_toNat]

theorem numAt_8 (b0 b1 b2 b3 b4 b5 b6 b7 b8 b9 : UInt8) (r : Bytes) :
    numAt (b0 :: b1 :: b2 :: b3 :: b4 :: b5 :: b6 :: b7 :: b8 :: b9 :: r) 8 2 = (of16 b8 b9).toNat := by
  simp [numAt, valueOf_two, of16_toNat]

theorem numAt_10 (b0 b1 b2 b3 b4 b5 b6 b7 b8 b9 b10 : UInt8) (r : Bytes) :
    numAt (b0 :: b1 :: b2 :: b3 :: b4 :: b5 :: b6 :: b7 :: b8 :: b9 :: b10 :: r) 10 1 = b10.toNat := by
  simp [numAt, valueOf_one]

theorem map16_eq {o : Option UInt16} {v : UInt16} : o.map UInt16.toNat = some v.toNat ↔ o = some v := by
  cases o <;> simp [UInt16.toNat_inj]

theorem map8_eq {o : Option UInt8} {v : UInt8} : o.map UInt8.toNat = some v.toNat ↔ o = some v := by
  cases o <;> simp [UInt8.toNat_inj]

theorem c_sqn (f : UInt8) (p : Prop) [Decidable p] (hp : f = 1 ↔ p) (b : Bytes) (h8 : 8 ≤ b.length) (o : Option UInt16) :
    C1.Header.rdSqn f b = .ok o ↔ (p → 10 ≤ b.length) ∧ o.map UInt16.toNat = if p then some (numAt b 8 2) else none := by
  by_cases h : p
  · rw [C1.Header.rdSqn, if_pos (hp.mpr h)]
    by_cases hl : 10 ≤ b.length
    · rw [if_neg (by omega)]
      match b, hl with
      | b0 :: b1 :: b2 :: b3 :: b4 :: b5 :: b6 :: b7 :: b8 :: b9 :: r, hl =>
        simp only [rd16, rd_zero, rd_succ, R.ok_bind, R.pure_eq, R.ok.injEq, numAt_8, h, if_true, map16_eq, forall_const, hl, true_and]
        exact eq_comm
    · rw [if_pos (by omega)]
      exact ⟨fun e => (by cases e), fun e => absurd (e.1 h) hl⟩
  · rw [C1.Header.rdSqn, if_neg (fun e => h (hp.mp e))]
    simp only [h, if_false, false_implies, true_and, Option.map_eq_none_iff, R.ok.injEq]
    exact eq_comm

theorem c_npdu (f : UInt8) (p : Prop) [Decidable p] (hp : f = 1 ↔ p) (b : Bytes) (h8 : 8 ≤ b.length) (o : Option UInt8) :
    C1.Header.rdNpdu f b = .ok o ↔ (p → 11 ≤ b.length) ∧ o.map UInt8.toNat = if p then some (numAt b 10 1) else none := by
  by_cases h : p
  · rw [C1.Header.rdNpdu, if_pos (hp.mpr h)]
    by_cases hl : 11 ≤ b.length
    · rw [if_neg (by omega)]
      match b, hl with
      | b0 :: b1 :: b2 :: b3 :: b4 :: b5 :: b6 :: b7 :: b8 :: b9 :: b10 :: r, hl =>
        simp only [rd_zero, rd_succ, R.ok_bind, R.ok.injEq, numAt_10, h, if_true, map8_eq, forall_const, hl, true_and]
        exact eq_comm
    · rw [if_pos (by omega)]
      exact ⟨fun e => (by cases e), fun e => absurd (e.1 h) hl⟩
  · rw [C1.Header.rdNpdu, if_neg (fun e => h (hp.mp e))]
    simp only [h, if_false, false_implies, true_and, Option.map_eq_none_iff, R.ok.injEq]
    exact eq_comm

theorem CChain.nonempty {b : Bytes} {x : List C1.ExtHdr} (h : CChain b x) : 0 < b.length := by
  cases h <;> simp

theorem c_exts_complete (m : Mode) (f : UInt8) (p : Prop) [Decidable p] (hp : f = 1 ↔ p) (b : Bytes) (o : Option (List C1.ExtHdr))
    (h : if p then ∃ l, o = some l ∧ CChain (b.drop 11) l else o = none) : C1.Header.rdExts m f b = .ok o := by
  by_cases hq : p
  · rw [C1.Header.rdExts, if_pos (hp.mpr hq)]
    rw [if_pos hq] at h
    obtain ⟨l, rfl, hc⟩ := h
    have := hc.nonempty
    rw [List.length_drop] at this
    rw [if_neg (by omega), slFrom, if_pos (by omega), R.ok_bind, C1.Header.unmarshalExts, c_chain_complete m hc _ (by omega), R.ok_bind]
  · rw [C1.Header.rdExts, if_neg (fun e => hq (hp.mp e))]
    rw [if_neg hq] at h
    rw [h]

theorem c_exts_sound (f : UInt8) (p : Prop) [Decidable p] (hp : f = 1 ↔ p) (b : Bytes) (o : Option (List C1.ExtHdr))
    (h : C1.Header.rdExts .debug f b = .ok o) : if p then ∃ l, o = some l ∧ CChain (b.drop 11) l else o = none := by
  by_cases hq : p
  · rw [C1.Header.rdExts, if_pos (hp.mpr hq)] at h
    rw [if_pos hq]
    split at h
    · cases h
    · rw [slFrom, if_pos (by omega), R.ok_bind] at h
      obtain ⟨l, hl, h⟩ := ok_bind_inv h
      cases h
      exact ⟨l, rfl, (C67_c_chain _ _).mp hl⟩
  · rw [C1.Header.rdExts, if_neg (fun e => hq (hp.mp e))] at h
    rw [if_neg hq]
    cases h
    rfl

/-- C67, GTPv1-C headers, from the buffer to the value: in either build mode. -/
theorem C67_c_complete (m : Mode) (b : Bytes) (h : C1.Header) (H : CHeaderAt b h) : C1.Header.unmarshal m b = .ok h := by
  obtain ⟨ver, ⟨h8, hs, hn⟩, h1, h2, h3, h4, h5, h6⟩ := H
  match b, h8 with
  | b0 :: b1 :: b2 :: b3 :: b4 :: b5 :: b6 :: b7 :: r, h8 =>
    obtain ⟨e0, e1, e2, e4⟩ := numAt_cons b0 b1 b2 b3 b4 b5 b6 b7 r
    obtain ⟨f1, -, fs, fp, fe, f7, -, -⟩ := first_octet b0
    simp only [IsV1, flagAt, e0] at ver hs hn h4 h5 h6
    rw [e1, UInt8.toNat_inj] at h1
    rw [e2, UInt16.toNat_inj] at h2
    rw [e4, UInt32.toNat_inj] at h3
    have g4 := (c_sqn _ _ fs _ h8 _).mpr ⟨hs, h4⟩
    have g5 := (c_npdu _ _ fp _ h8 _).mpr ⟨hn, h5⟩
    have g6 := c_exts_complete m _ _ fe _ _ h6
    rw [C1.Header.unmarshal, if_neg (by omega)]
    simp only [rd16, rd32, rd_zero, rd_succ, R.ok_bind, R.pure_eq, f1.mpr ver, and_self, if_true, g4, g5, g6]
    obtain ⟨t, l, i, s, n, x⟩ := h
    simp only at h1 h2 h3 h4 h5 h6 ⊢
    subst h1 h2 h3
    split
    · next z =>
      obtain ⟨z1, z2, z3⟩ := f7.mp z
      rw [if_neg z1, Option.map_eq_none_iff] at h4
      rw [if_neg z2, Option.map_eq_none_iff] at h5
      rw [if_neg z3] at h6
      rw [h4, h5, h6]
    · rfl

/-- C67, GTPv1-C headers, from the value to the buffer: in a debug build. -/
theorem C67_c_sound (b : Bytes) (h : C1.Header) (H : C1.Header.unmarshal .debug b = .ok h) : CHeaderAt b h := by
  rw [C1.Header.unmarshal] at H
  split at H
  · cases H
  next h8 =>
  have h8 : 8 ≤ b.length := by omega
  match b, h8 with
  | b0 :: b1 :: b2 :: b3 :: b4 :: b5 :: b6 :: b7 :: r, h8 =>
    obtain ⟨e0, e1, e2, e4⟩ := numAt_cons b0 b1 b2 b3 b4 b5 b6 b7 r
    obtain ⟨f1, -, fs, fp, fe, f7, -, -⟩ := first_octet b0
    simp only [rd16, rd32, rd_zero, rd_succ, R.ok_bind, R.pure_eq] at H
    split at H
    rotate_left
    · cases H
    next ver =>
    have ver := f1.mp ver
    split at H
    · next z =>
      obtain ⟨z1, z2, z3⟩ := f7.mp z
      cases H
      refine ⟨?_, ⟨h8, ?_, ?_⟩, ?_, ?_, ?_, ?_, ?_, ?_⟩ <;> simp only [IsV1, flagAt, e0, e1, e2, e4, if_neg z1, if_neg z2, if_neg z3]
      · exact ver
      · exact fun h => absurd h z1
      · exact fun h => absurd h z2
      · rfl
      · rfl
    · obtain ⟨s, hs, H⟩ := ok_bind_inv H
      obtain ⟨n, hn, H⟩ := ok_bind_inv H
      obtain ⟨x, hx, H⟩ := ok_bind_inv H
      cases H
      obtain ⟨s1, s2⟩ := (c_sqn _ _ fs _ h8 _).mp hs
      obtain ⟨n1, n2⟩ := (c_npdu _ _ fp _ h8 _).mp hn
      have x1 := c_exts_sound _ _ fe _ _ hx
      refine ⟨?_, ⟨h8, ?_, ?_⟩, ?_, ?_, ?_, ?_, ?_, ?_⟩ <;> simp only [IsV1, flagAt, e0, e1, e2, e4] <;> assumption

/-- C67, GTPv1-C headers: in a debug build a header is decoded exactly from the buffers that start with it. -/
theorem C67_c_header (b : Bytes) (h : C1.Header) : C1.Header.unmarshal .debug b = .ok h ↔ CHeaderAt b h :=
  ⟨C67_c_sound b h, C67_c_complete .debug b h⟩

/-! ## GTPv1-U -/

/-- The extension header of type `t` and length octet `l` with the contents `c`, followed by the octets `r`. The long PDCP PDU number is
in the three octets after the length octet, whatever the length octet says. -/
def uExtAt (t l : UInt8) (c r : Bytes) : U.ExtHdr :=
  match t.toNat with
  | 0xc0 => .pdcpPduNumber ⟨t, l, UInt16.ofNat (valueOf (c.take 2))⟩
  | 0x40 => .udpPort ⟨t, l, UInt16.ofNat (valueOf (c.take 2))⟩
  | 0x03 => .longPdcpPduNumber ⟨t, l, UInt32.ofNat (valueOf ((c ++ r).take 3))⟩
  | 0x82 => .longPdcpPduNumber ⟨t, l, UInt32.ofNat (valueOf ((c ++ r).take 3))⟩
  | 0x20 => .sci ⟨t, l, UInt8.ofNat (valueOf (c.take 1))⟩
  | 0x81 => .ranContainer ⟨t, l, c⟩
  | 0x83 => .xwRanContainer ⟨t, l, c⟩
  | 0x84 => .nrRanContainer ⟨t, l, c⟩
  | 0x85 => .pduSessionContainer ⟨t, l, c⟩
  | _ => .unknown ⟨t, l, c⟩

/-- A chain of extension headers, as for GTPv1-C. -/
inductive UChain : Bytes → List U.ExtHdr → Prop
  | stop (r : Bytes) : UChain (0 :: r) []
  | more (t l : UInt8) (c r : Bytes) (x : List U.ExtHdr) : t ≠ 0 → 0 < l.toNat → l.toNat < 64 → c.length + 2 = 4 * l.toNat → UChain r x →
      UChain (t :: l :: (c ++ r)) (uExtAt t l c r :: x)

theorem UChain.nonempty {b : Bytes} {x : List U.ExtHdr} (h : UChain b x) : 0 < b.length := by
  cases h <;> simp

/-- The buffer starts with the header `h`. -/
structure UHeaderAt (b : Bytes) (h : U.Header) : Prop where
  version : IsV1 b
  size : 8 ≤ b.length ∧ (flagAt b 0 ∨ flagAt b 1 ∨ flagAt b 2 → 12 ≤ b.length)
  positive : numAt b 2 2 ≠ 0
  msgtype : h.msgtype.toNat = numAt b 1 1
  length : h.length.toNat = numAt b 2 2
  teid : h.teid.toNat = numAt b 4 4
  sqn : h.sqn.map UInt16.toNat = if flagAt b 1 then some (numAt b 8 2) else none
  npdu : h.npdu.map UInt8.toNat = if flagAt b 0 then some (numAt b 10 1) else none
  exts : if flagAt b 2 then ∃ l, h.exts = some l ∧ UChain (b.drop 11) l else h.exts = none

theorem of24_value (a b c : UInt8) (r : Bytes) : of32 0 a b c = UInt32.ofNat (valueOf ((a :: b :: c :: r).take 3)) := by
  simp only [List.take_succ_cons, List.take_zero, valueOf_three, of32]
  simp

theorem of8_value (a : UInt8) (r : Bytes) : a = UInt8.ofNat (valueOf ((a :: r).take 1)) := by
  simp only [List.take_succ_cons, List.take_zero, valueOf_one]
  simp

theorem u_extBody (t l : UInt8) (c r : Bytes) (h0 : 0 < l.toNat) (h : c.length + 2 = 4 * l.toNat) (hr : 0 < r.length) :
    U.extBody t l (4 * l.toNat) (t :: l :: (c ++ r)) = .ok (uExtAt t l c r) := by
  obtain ⟨a, b, c', rfl⟩ : ∃ a b c', c = a :: b :: c' := by
    match c, h with
    | [], h => simp at h; omega
    | [_], h => simp at h; omega
    | a :: b :: c', _ => exact ⟨a, b, c', rfl⟩
  have hsl : (sl (t :: l :: ((a :: b :: c') ++ r)) 2 (4 * l.toNat) : R V1.Err Bytes) = .ok (a :: b :: c') := by
    have e : 4 * l.toNat = c'.length + 1 + 1 + 1 + 1 := by simp only [List.length_cons] at h; omega
    rw [sl, if_pos (by simp only [List.length_cons, List.length_append]; omega), e]
    simp
  obtain ⟨d, e, hde⟩ : ∃ d e, c' ++ r = d :: e := by
    cases hx : c' ++ r with
    | nil => simp at hx; simp [hx] at hr
    | cons d e => exact ⟨d, e, rfl⟩
  unfold U.extBody
  rcases U.ext_types t with h1 | h1 | h1 | h1 | h1 | h1 | h1 | h1 | h1 | h1
  case inr.inr.inr.inr.inr.inr.inr.inr.inr =>
    have ht : uExtAt t l (a :: b :: c') r = .unknown ⟨t, l, a :: b :: c'⟩ := by
      unfold uExtAt
      have : ∀ t : UInt8, (t ≠ 0xc0 ∧ t ≠ 0x40 ∧ t ≠ 0x03 ∧ t ≠ 0x82 ∧ t ≠ 0x20 ∧ t ≠ 0x81 ∧ t ≠ 0x83 ∧ t ≠ 0x84 ∧ t ≠ 0x85) →
          (t.toNat ≠ 0xc0 ∧ t.toNat ≠ 0x40 ∧ t.toNat ≠ 0x03 ∧ t.toNat ≠ 0x82 ∧ t.toNat ≠ 0x20 ∧ t.toNat ≠ 0x81 ∧ t.toNat ≠ 0x83 ∧
            t.toNat ≠ 0x84 ∧ t.toNat ≠ 0x85) := by decide +kernel
      have := this t h1
      split <;> simp_all
    simp only [h1, if_false, hsl, ht, or_self]
    rfl
  case inr.inr.inr.inr.inl =>
    subst h1
    simp only [List.cons_append, rd_zero, rd_succ, R.ok_bind, if_true]
    conv => lhs; rw [of8_value a (b :: c')]
    rfl
  case inr.inr.inl =>
    subst h1
    simp only [List.cons_append, hde, rd24, rd_zero, rd_succ, R.ok_bind, R.pure_eq, of24_value a b d e, uExtAt]
    rfl
  case inr.inr.inr.inl =>
    subst h1
    simp only [List.cons_append, hde, rd24, rd_zero, rd_succ, R.ok_bind, R.pure_eq, of24_value a b d e, uExtAt]
    rfl
  case inl =>
    subst h1
    simp only [List.cons_append, rd16, rd_zero, rd_succ, R.ok_bind, R.pure_eq, if_true, of16_value a b c']
    rfl
  case inr.inl =>
    subst h1
    simp only [List.cons_append, rd16, rd_zero, rd_succ, R.ok_bind, R.pure_eq, if_true, of16_value a b c']
    rfl
  all_goals
    subst h1
    rw [hsl]
    rfl

theorem u_step (m : Mode) (t l : UInt8) (c r : Bytes) (ht : t ≠ 0) (h1 : 0 < l.toNat) (h2 : l.toNat < 64) (h3 : c.length + 2 = 4 * l.toNat)
    (hr : 0 < r.length) : U.ExtHdr.unmarshal m (t :: l :: (c ++ r)) = .ok (uExtAt t l c r) ∧ uExtAt t l c r ≠ .noMore ∧
      (uExtAt t l c r).len m = .ok (4 * l.toNat) := by
  have hl : l ≠ 0 := by rintro rfl; simp at h1
  have hx := u_extBody t l c r h1 h3 hr
  obtain ⟨g1, g2⟩ := U.extBody_post m _ _ _ _ _ hx
  rw [U.ext_cons m t l _ ht, if_neg hl, U.len4_ok h2, R.ok_bind, if_pos (by simp only [List.length_append]; omega)]
  exact ⟨hx, g1, by rw [g2, U.len4_ok h2]⟩

theorem u_chain_complete (m : Mode) {b : Bytes} {x : List U.ExtHdr} (h : UChain b x) : ∀ fuel, b.length < fuel →
    U.Header.extLoop m fuel b = .ok x := by
  induction h with
  | stop r =>
    intro fuel hf
    obtain ⟨f, rfl⟩ : ∃ f, fuel = f + 1 := ⟨fuel - 1, by omega⟩
    simp only [U.Header.extLoop, U.ext_zero, R.ok_bind, if_true, R.pure_eq]
  | more t l c r x ht h1 h2 h3 hr ih =>
    intro fuel hf
    obtain ⟨f, rfl⟩ : ∃ f, fuel = f + 1 := ⟨fuel - 1, by omega⟩
    obtain ⟨g1, g2, g3⟩ := u_step m t l c r ht h1 h2 h3 hr.nonempty
    have e : (t :: l :: (c ++ r)).drop (4 * l.toNat) = r := by
      rw [← h3, List.drop_succ_cons, List.drop_succ_cons, List.drop_left]
    rw [U.Header.extLoop, g1, R.ok_bind, if_neg g2, g3, R.ok_bind, slFrom, if_pos (by simp only [List.length_cons, List.length_append]; omega), R.ok_bind,
      e, ih f (by simp only [List.length_cons, List.length_append] at hf; omega)]
    rfl

theorem u_chain_sound : ∀ (fuel : Nat) (b : Bytes) (x : List U.ExtHdr), U.Header.extLoop .debug fuel b = .ok x → UChain b x
  | 0, _, _, h => by cases h
  | fuel + 1, [], x, h => by
    rw [U.Header.extLoop, U.ext_nil] at h
    cases h
  | fuel + 1, [t], x, h => by
    by_cases ht : t = 0
    · subst ht
      simp only [U.Header.extLoop, U.ext_zero, R.ok_bind, if_true, R.pure_eq] at h
      cases h
      exact .stop []
    · rw [U.Header.extLoop, U.ext_one _ _ ht] at h
      cases h
  | fuel + 1, t :: l :: r, x, h => by
    by_cases ht : t = 0
    · subst ht
      simp only [U.Header.extLoop, U.ext_zero, R.ok_bind, if_true, R.pure_eq] at h
      cases h
      exact .stop _
    by_cases hl : l = 0
    · rw [U.Header.extLoop, U.ext_cons _ t l r ht, if_pos hl] at h
      cases h
    have h1 : 0 < l.toNat := by
      have : l.toNat ≠ 0 := fun e => hl (UInt8.toNat_inj.mp e)
      omega
    rcases Nat.lt_or_ge l.toNat 64 with h2 | h2
    rotate_left
    · rw [U.Header.extLoop, U.ext_cons _ t l r ht, if_neg hl, U.len4_debug h2] at h
      cases h
    rcases Nat.lt_or_ge (r.length + 2) (4 * l.toNat) with h3 | h3
    · rw [U.Header.extLoop, U.ext_cons _ t l r ht, if_neg hl, U.len4_ok h2, R.ok_bind, if_neg (by omega)] at h
      cases h
    have hc : (r.take (4 * l.toNat - 2)).length + 2 = 4 * l.toNat := by rw [List.length_take]; omega
    have e : (t :: l :: r).drop (4 * l.toNat) = r.drop (4 * l.toNat - 2) := by
      obtain ⟨k, hk⟩ : ∃ k, 4 * l.toNat = k + 2 := ⟨4 * l.toNat - 2, by omega⟩
      rw [hk, List.drop_succ_cons, List.drop_succ_cons]
      rfl
    have hr : 0 < (r.drop (4 * l.toNat - 2)).length := by
      -- the header before the end of the buffer: the loop goes on with what follows, and the empty buffer is not accepted
      rw [U.Header.extLoop] at h
      obtain ⟨i, hi, h⟩ := ok_bind_inv h
      have hlen : i ≠ .noMore ∧ i.len .debug = .ok (4 * l.toNat) := by
        rw [U.ext_cons _ t l r ht, if_neg hl, U.len4_ok h2, R.ok_bind, if_pos h3] at hi
        obtain ⟨g1, g2⟩ := U.extBody_post .debug _ _ _ _ _ hi
        exact ⟨g1, by rw [g2, U.len4_ok h2]⟩
      rw [if_neg hlen.1, hlen.2, R.ok_bind, slFrom, if_pos (by simp only [List.length_cons]; omega), R.ok_bind, e] at h
      obtain ⟨y, hy, h⟩ := ok_bind_inv h
      exact (u_chain_sound fuel _ _ hy).nonempty
    obtain ⟨g1, g2, g3⟩ := u_step .debug t l (r.take (4 * l.toNat - 2)) (r.drop (4 * l.toNat - 2)) ht h1 h2 hc hr
    rw [List.take_append_drop] at g1
    rw [U.Header.extLoop, g1, R.ok_bind, if_neg g2, g3, R.ok_bind, slFrom, if_pos (by simp only [List.length_cons]; omega), R.ok_bind, e] at h
    obtain ⟨y, hy, h⟩ := ok_bind_inv h
    cases h
    have := UChain.more t l _ _ y ht h1 h2 hc (u_chain_sound fuel _ _ hy)
    rwa [List.take_append_drop] at this

/-- C67, chains of extension headers in GTPv1-U. -/
theorem C67_u_chain (b : Bytes) (x : List U.ExtHdr) : U.Header.unmarshalExts .debug b = .ok x ↔ UChain b x :=
  ⟨u_chain_sound _ _ _, fun h => u_chain_complete .debug h _ (by omega)⟩

/-- The four octets after the fixed part. -/
theorem u_tail {b : Bytes} (h : 12 ≤ b.length) : ∃ s n, (rd16 b 8 : R V1.Err UInt16) = .ok s ∧ s.toNat = numAt b 8 2 ∧
    (rd b 10 : R V1.Err UInt8) = .ok n ∧ n.toNat = numAt b 10 1 ∧ (slFrom b 11 : R V1.Err Bytes) = .ok (b.drop 11) := by
  match b, h with
  | b0 :: b1 :: b2 :: b3 :: b4 :: b5 :: b6 :: b7 :: b8 :: b9 :: b10 :: r, h =>
    refine ⟨of16 b8 b9, b10, ?_, ?_, ?_, ?_, ?_⟩
    · simp only [rd16, rd_zero, rd_succ, R.ok_bind, R.pure_eq]
    · rw [numAt_8]
    · simp only [rd_zero, rd_succ]
    · rw [numAt_10]
    · rw [slFrom, if_pos (by omega)]

/-- The condition under which the flags are honoured one by one: S is set, or no flag is. -/
abbrev FlagsHonoured (b : Bytes) : Prop := flagAt b 1 ∨ ¬ flagAt b 0 ∧ ¬ flagAt b 2

/-- The decoder in terms of the flags. -/
theorem u_unfold (m : Mode) (b0 b1 b2 b3 b4 b5 b6 b7 : UInt8) (r : Bytes) :
    let b := b0 :: b1 :: b2 :: b3 :: b4 :: b5 :: b6 :: b7 :: r
    U.Header.unmarshal m b =
      if IsV1 b then
        if of16 b2 b3 = 0 then .err .headerInvalidLength
        else if ¬ flagAt b 1 ∧ ¬ flagAt b 0 ∧ ¬ flagAt b 2 then .ok ⟨b1, of16 b2 b3, of32 b4 b5 b6 b7, none, none, none⟩
        else if 12 ≤ b.length then
          rd16 b 8 >>= fun s => rd b 10 >>= fun n =>
            if flagAt b 1 ∧ ¬ flagAt b 2 then
              .ok ⟨b1, of16 b2 b3, of32 b4 b5 b6 b7, some s, if flagAt b 0 then some n else none, none⟩
            else U.Header.unmarshalExts m (b.drop 11) >>= fun x =>
              .ok ⟨b1, of16 b2 b3, of32 b4 b5 b6 b7, some s, if flagAt b 1 ∧ ¬ flagAt b 0 then none else some n, some x⟩
        else .err .headerInvalidLength
      else .err .headerVersionNotSupported := by
  intro b
  obtain ⟨e0, e1, e2, e4⟩ := numAt_cons b0 b1 b2 b3 b4 b5 b6 b7 r
  obtain ⟨-, f1, -, fp, -, -, fs, fe⟩ := first_octet b0
  have h8 : 8 ≤ b.length := by simp only [b, List.length_cons]; omega
  have e12 : (4 ≤ b.length - 8) ↔ 12 ≤ b.length := by omega
  rw [U.Header.unmarshal, if_pos h8]
  simp only [b, IsV1, flagAt, e0] at e12 ⊢
  simp only [rd16, rd32, rd_zero, rd_succ, R.ok_bind, R.pure_eq, f1, fs, fp, fe, decide_eq_false_iff_not, e12]
  split
  rotate_left
  · rfl
  split
  · rfl
  split
  · rfl
  next hn =>
  split
  rotate_left
  · rfl
  next h12 =>
  have hsl : (slFrom (b0 :: b1 :: b2 :: b3 :: b4 :: b5 :: b6 :: b7 :: r) 11 : R V1.Err Bytes) =
      .ok ((b0 :: b1 :: b2 :: b3 :: b4 :: b5 :: b6 :: b7 :: r).drop 11) := by
    rw [slFrom, if_pos (by omega)]
  simp only [hsl, R.ok_bind]
  by_cases hS : b0.toNat / 2 ^ 1 % 2 = 1 <;> by_cases hP : b0.toNat / 2 ^ 0 % 2 = 1 <;> by_cases hE : b0.toNat / 2 ^ 2 % 2 = 1
  rotate_left 7
  · exact absurd ⟨hS, hP, hE⟩ hn
  all_goals simp only [hS, hP, hE, decide_true, decide_false, eq_self, not_true, not_false_eq_true, and_true, and_false, if_true, if_false]

/-- C67, GTPv1-U headers, from the buffer to the value: in either build mode, if S is set or no flag is. -/
theorem C67_u_complete_partial (m : Mode) (b : Bytes) (h : U.Header) (hf : FlagsHonoured b) (H : UHeaderAt b h) :
    U.Header.unmarshal m b = .ok h := by
  obtain ⟨ver, ⟨h8, h12⟩, h0, h1, h2, h3, h4, h5, h6⟩ := H
  match b, h8 with
  | b0 :: b1 :: b2 :: b3 :: b4 :: b5 :: b6 :: b7 :: r, h8 =>
    obtain ⟨-, e1, e2, e4⟩ := numAt_cons b0 b1 b2 b3 b4 b5 b6 b7 r
    rw [u_unfold]
    generalize b0 :: b1 :: b2 :: b3 :: b4 :: b5 :: b6 :: b7 :: r = b at *
    rw [e1, UInt8.toNat_inj] at h1
    rw [e2, UInt16.toNat_inj] at h2
    rw [e4, UInt32.toNat_inj] at h3
    have hz : of16 b2 b3 ≠ 0 := by
      rw [e2] at h0
      exact fun e => h0 (by rw [e]; rfl)
    obtain ⟨t, l, i, s, n, x⟩ := h
    simp only at h1 h2 h3 h4 h5 h6
    subst h1 h2 h3
    rw [if_pos ver, if_neg hz]
    by_cases hS : flagAt b 1
    · have g := h12 (.inr (.inl hS))
      obtain ⟨s', n', s1, s2, n1, n2, -⟩ := u_tail g
      rw [if_pos hS, ← s2, map16_eq] at h4
      rw [if_neg (fun z => z.1 hS), if_pos g, s1, n1, R.ok_bind, R.ok_bind, h4]
      have hn : n = if flagAt b 0 then some n' else none := by
        by_cases hP : flagAt b 0
        · rw [if_pos hP, ← n2, map8_eq] at h5
          rw [h5, if_pos hP]
        · rw [if_neg hP, Option.map_eq_none_iff] at h5
          rw [h5, if_neg hP]
      by_cases hE : flagAt b 2
      · rw [if_neg (fun z => z.2 hE)]
        rw [if_pos hE] at h6
        obtain ⟨y, rfl, hc⟩ := h6
        rw [U.Header.unmarshalExts, u_chain_complete m hc _ (by omega), R.ok_bind, hn]
        by_cases hP : flagAt b 0
        · rw [if_pos hP, if_neg (fun z => z.2 hP)]
        · rw [if_neg hP, if_pos ⟨hS, hP⟩]
      · rw [if_pos ⟨hS, hE⟩, hn]
        rw [if_neg hE] at h6
        rw [h6]
    · obtain ⟨hP, hE⟩ := hf.resolve_left hS
      rw [if_neg hS, Option.map_eq_none_iff] at h4
      rw [if_neg hP, Option.map_eq_none_iff] at h5
      rw [if_neg hE] at h6
      rw [if_pos ⟨hS, hP, hE⟩, h4, h5, h6]

/-- C67, GTPv1-U headers, from the value to the buffer: in a debug build, if S is set or no flag is. -/
theorem C67_u_sound_partial (b : Bytes) (h : U.Header) (hf : FlagsHonoured b) (H : U.Header.unmarshal .debug b = .ok h) :
    UHeaderAt b h := by
  by_cases h8 : 8 ≤ b.length
  rotate_left
  · rw [U.Header.unmarshal, if_neg h8] at H
    cases H
  match b, h8 with
  | b0 :: b1 :: b2 :: b3 :: b4 :: b5 :: b6 :: b7 :: r, h8 =>
    obtain ⟨-, e1, e2, e4⟩ := numAt_cons b0 b1 b2 b3 b4 b5 b6 b7 r
    rw [u_unfold] at H
    generalize b0 :: b1 :: b2 :: b3 :: b4 :: b5 :: b6 :: b7 :: r = b at *
    split at H
    rotate_left
    · cases H
    next ver =>
    split at H
    · cases H
    next hz =>
    have h0 : numAt b 2 2 ≠ 0 := by
      rw [e2]
      exact fun e => hz (UInt16.toNat_inj.mp e)
    split at H
    · next hn =>
      obtain ⟨hS, hP, hE⟩ := hn
      cases H
      exact ⟨ver, ⟨h8, fun z => by rcases z with z | z | z <;> contradiction⟩, h0, e1.symm, e2.symm, e4.symm, by rw [if_neg hS]; rfl, by rw [if_neg hP]; rfl,
        by rw [if_neg hE]⟩
    · next hn =>
      split at H
      rotate_left
      · cases H
      next g =>
      have hS : flagAt b 1 := hf.elim id (fun z => (Decidable.byContradiction fun y => hn ⟨y, z⟩))
      obtain ⟨s', n', s1, s2, n1, n2, -⟩ := u_tail g
      rw [s1, n1, R.ok_bind, R.ok_bind] at H
      split at H
      · next hE =>
        cases H
        refine ⟨ver, ⟨h8, fun _ => g⟩, h0, e1.symm, e2.symm, e4.symm, by rw [if_pos hS, ← s2]; rfl, ?_, by rw [if_neg hE.2]⟩
        by_cases hP : flagAt b 0
        · simp only [if_pos hP, ← n2]; rfl
        · simp only [if_neg hP]; rfl
      · next hE =>
        have hE : flagAt b 2 := Decidable.byContradiction fun z => hE ⟨hS, z⟩
        obtain ⟨y, hy, H⟩ := ok_bind_inv H
        cases H
        refine ⟨ver, ⟨h8, fun _ => g⟩, h0, e1.symm, e2.symm, e4.symm, by rw [if_pos hS, ← s2]; rfl, ?_, by
          rw [if_pos hE]
          exact ⟨y, rfl, (C67_u_chain _ _).mp hy⟩⟩
        by_cases hP : flagAt b 0
        · simp only [if_pos hP, if_neg (fun z : flagAt b 1 ∧ ¬ flagAt b 0 => z.2 hP), ← n2]; rfl
        · simp only [if_neg hP, if_pos (And.intro hS hP)]; rfl

/-- C67, GTPv1-U headers: in a debug build a header is decoded exactly from the buffers that start with it, if S is set or no flag is. -/
theorem C67_u_header_partial (b : Bytes) (h : U.Header) (hf : FlagsHonoured b) : U.Header.unmarshal .debug b = .ok h ↔ UHeaderAt b h :=
  ⟨C67_u_sound_partial b h hf, C67_u_complete_partial .debug b h hf⟩

/-- C67 is missing for the other flags: with E or PN but without S, the buffer is decoded as if all three flags were set. -/
theorem C67_u_flags (m : Mode) (b0 : UInt8) (r : Bytes) (hf : ¬ FlagsHonoured (b0 :: r)) :
    U.Header.unmarshal m (b0 :: r) = U.Header.unmarshal m ((b0 ||| 7) :: r) := by
  by_cases h8 : 8 ≤ (b0 :: r).length
  rotate_left
  · rw [U.Header.unmarshal, if_neg h8, U.Header.unmarshal, if_neg (by simpa using h8)]
  match r, h8 with
  | b1 :: b2 :: b3 :: b4 :: b5 :: b6 :: b7 :: r, _ =>
    have H : ∀ b0 : UInt8, (b0 ||| 7).toNat / 32 = b0.toNat / 32 ∧ (b0 ||| 7).toNat / 2 ^ 4 % 2 = b0.toNat / 2 ^ 4 % 2 ∧
        (b0 ||| 7).toNat / 2 ^ 0 % 2 = 1 ∧ (b0 ||| 7).toNat / 2 ^ 1 % 2 = 1 ∧ (b0 ||| 7).toNat / 2 ^ 2 % 2 = 1 := by decide +kernel
    obtain ⟨k1, k2, k3, k4, k5⟩ := H b0
    obtain ⟨e0, -, -, -⟩ := numAt_cons b0 b1 b2 b3 b4 b5 b6 b7 r
    obtain ⟨e7, -, -, -⟩ := numAt_cons (b0 ||| 7) b1 b2 b3 b4 b5 b6 b7 r
    rw [u_unfold, u_unfold]
    simp only [FlagsHonoured, flagAt, e0] at hf
    simp only [IsV1, flagAt, e0, e7, k1, k2, k3, k4, k5]
    have hS : ¬ b0.toNat / 2 ^ 1 % 2 = 1 := fun h => hf (.inl h)
    have hN : ¬ (¬ b0.toNat / 2 ^ 1 % 2 = 1 ∧ ¬ b0.toNat / 2 ^ 0 % 2 = 1 ∧ ¬ b0.toNat / 2 ^ 2 % 2 = 1) := fun h => hf (.inr h.2)
    simp only [hN, if_false]
    simp only [hS, false_and, not_true, and_false, if_false, rd16, rd_succ, List.length_cons, List.drop_succ_cons]

/-- C67 fails without S: a header with N-PDU number 5 and neither sequence number nor extension headers is decoded with the sequence
number 0 and an empty chain. -/
theorem C67_u_violation : ∃ b h, U.Header.unmarshal .debug b = .ok h ∧ ¬ flagAt b 1 ∧ ¬ flagAt b 2 ∧ h.sqn = some 0 ∧ h.exts = some [] ∧
    ¬ UHeaderAt b h := by
  refine ⟨[0x31, 255, 0, 4, 0, 0, 0, 1, 0, 0, 5, 0], ⟨255, 4, 1, some 0, some 5, some []⟩, by decide, by decide, by decide, rfl, rfl, ?_⟩
  intro h
  have := h.sqn
  revert this
  decide

/-- C67: a long PDCP PDU number whose length octet is 1 takes its last octet from what follows the extension header. -/
theorem C67_u_overlap : UChain [0x82, 1, 1, 2, 0x40, 1, 8, 9, 0] [.longPdcpPduNumber ⟨0x82, 1, 0x010240⟩, .udpPort ⟨0x40, 1, 0x0809⟩] ∧
    UChain [0x82, 1, 1, 2, 0] [.longPdcpPduNumber ⟨0x82, 1, 0x010200⟩] :=
  ⟨.more 0x82 1 [1, 2] _ _ (by decide) (by decide) (by decide) rfl (.more 0x40 1 [8, 9] _ _ (by decide) (by decide) (by decide) rfl (.stop [])),
    .more 0x82 1 [1, 2] _ _ (by decide) (by decide) (by decide) rfl (.stop [])⟩

/-! ## Release builds and instances -/

/-- C67 fails in release builds: a length octet 65 is read as four octets. -/
theorem C67_release_violation : C1.Header.unmarshalExts .release [0xc0, 65, 1, 2, 0] = .ok [.pdcpPduNumber ⟨0xc0, 65, 0x0102⟩] ∧
    ¬ CChain [0xc0, 65, 1, 2, 0] [.pdcpPduNumber ⟨0xc0, 65, 0x0102⟩] := by
  refine ⟨by decide, fun h => ?_⟩
  rw [← C67_c_chain] at h
  revert h
  decide

example : CHeaderAt [0x36, 26, 0, 12, 0, 0, 1, 2, 0, 7, 0, 0xc0, 1, 1, 2, 0x33, 1, 8, 9, 0, 99]
    ⟨26, 12, 0x102, some 7, none, some [.pdcpPduNumber ⟨0xc0, 1, 0x0102⟩, .unknown ⟨0x33, 1, [8, 9]⟩]⟩ := by
  rw [← C67_c_header]
  decide

example : FlagsHonoured [0x36, 255, 0, 9, 0, 0, 1, 2, 0, 7, 0, 0x85, 1, 1, 2, 0, 99] ∧
    UHeaderAt [0x36, 255, 0, 9, 0, 0, 1, 2, 0, 7, 0, 0x85, 1, 1, 2, 0, 99] ⟨255, 9, 0x102, some 7, none, some [.pduSessionContainer ⟨0x85, 1, [1, 2]⟩]⟩ := by
  refine ⟨by decide, ?_⟩
  rw [← C67_u_header_partial _ _ (by decide)]
  decide

example : ¬ FlagsHonoured [0x31, 255, 0, 4, 0, 0, 0, 1, 0, 0, 5, 0] := by decide

end Gtp.Props
