import Verif.V2.VarBase
import Verif.UtilsLemmas

/-!
# Decoding with a cursor

`At b c r`: what is left of the buffer `b` at position `c` is exactly `r`.  Decoders that walk a cursor
through the buffer are modelled as a sequence of stages returning a value and the next cursor.
-/

namespace Gtp

/-- What remains of `b` from position `c` is `r`. -/
structure At (b : Bytes) (c : Nat) (r : Bytes) : Prop where
  le : c ≤ b.length
  eq : b.drop c = r

namespace At

variable {ε : Type} {b r p : Bytes} {c n : Nat} {x : UInt8}

theorem start (b : Bytes) : At b 0 b := ⟨Nat.zero_le _, rfl⟩

theorem of_eq {s : Bytes} (h : s = b) : At b 0 s := ⟨Nat.zero_le _, h.symm⟩

theorem length (h : At b c r) : b.length = c + r.length := by
  have := congrArg List.length h.eq
  rw [List.length_drop] at this
  have := h.le
  omega

theorem skip (h : At b c (p ++ r)) (hn : n = c + p.length) : At b n r := by
  subst hn
  have hl := h.length
  rw [List.length_append] at hl
  refine ⟨by omega, ?_⟩
  rw [← List.drop_drop, h.eq, List.drop_left]

theorem next (h : At b c (x :: r)) : At b (c + 1) r := h.skip (p := [x]) rfl

theorem rd (h : At b c (x :: r)) : (Gtp.rd b c : R ε UInt8) = .ok x := by
  have h1 := h.eq
  have hl := h.length
  simp only [List.length_cons] at hl
  have : b[c]? = some x := by
    have h2 : (b.drop c)[0]? = some x := by rw [h1]; rfl
    rwa [List.getElem?_drop] at h2
  simp only [Gtp.rd, this]

theorem sl (h : At b c (p ++ r)) (hn : n = c + p.length) : (Gtp.sl b c n : R ε Bytes) = .ok p := by
  subst hn
  have hl := h.length
  rw [List.length_append] at hl
  rw [Gtp.sl, if_pos (by omega), List.drop_take, h.eq]
  congr 1
  rw [Nat.add_sub_cancel_left, List.take_left]

theorem slFrom (h : At b c r) : (Gtp.slFrom b c : R ε Bytes) = .ok r := by
  rw [Gtp.slFrom, if_pos h.le, h.eq]

theorem rd16 {v : UInt16} (h : At b c (be16 v ++ r)) : (Gtp.rd16 b c : R ε UInt16) = .ok v := by
  simp only [be16, List.cons_append, List.nil_append] at h
  simp only [Gtp.rd16, h.rd, h.next.rd, R.ok_bind, R.pure_eq, of16_be]

theorem rd24 {v : UInt32} (h : At b c (be24 v ++ r)) (hv : v.toNat < 16777216) :
    (Gtp.rd24 b c : R ε UInt32) = .ok v := by
  simp only [be24, List.cons_append, List.nil_append] at h
  have h2 : At b (c + 2) _ := h.next.next
  simp only [Gtp.rd24, h.rd, h.next.rd, h2.rd, R.ok_bind, R.pure_eq, of24_be hv]

theorem rd32 {v : UInt32} (h : At b c (be32 v ++ r)) : (Gtp.rd32 b c : R ε UInt32) = .ok v := by
  simp only [be32, List.cons_append, List.nil_append] at h
  have h2 : At b (c + 2) _ := h.next.next
  have h3 : At b (c + 3) _ := h2.next
  simp only [Gtp.rd32, h.rd, h.next.rd, h2.rd, h3.rd, R.ok_bind, R.pure_eq, of32_be]

theorem rd64 {v : UInt64} (h : At b c (be64 v ++ r)) : (Gtp.rd64 b c : R ε UInt64) = .ok v := by
  simp only [be64, List.cons_append, List.nil_append] at h
  have h2 : At b (c + 2) _ := h.next.next
  have h3 : At b (c + 3) _ := h2.next
  have h4 : At b (c + 4) _ := h3.next
  have h5 : At b (c + 5) _ := h4.next
  have h6 : At b (c + 6) _ := h5.next
  have h7 : At b (c + 7) _ := h6.next
  simp only [Gtp.rd64, h.rd, h.next.rd, h2.rd, h3.rd, h4.rd, h5.rd, h6.rd, h7.rd, R.ok_bind, R.pure_eq,
    of64_be]

theorem rdIp6 {v : V2.Ip6} (h : At b c (v.octets ++ r)) : (V2.rdIp6 b c : R ε V2.Ip6) = .ok v := by
  rw [V2.Ip6.octets, List.append_assoc] at h
  have h2 : At b (c + 8) _ := h.skip (by simp [be64])
  simp only [V2.rdIp6, h.rd64, h2.rd64, R.ok_bind, R.pure_eq]

end At

namespace V2

/-- `let len = buffer[cursor] as usize; cursor += 1; if len > 0 { if buffer.len() >= cursor + len {
v = Some(buffer[cursor..cursor + len].to_vec()); cursor += len } else { return Err(e) } } else { cursor += skip }`. -/
def rdLv (skip : Nat) (e : Err) (b : Bytes) (c : Nat) : R Err (Option Bytes × Nat) := do
  let l ← rd b c
  if 0 < l.toNat then
    if c + 1 + l.toNat ≤ b.length then
      let s ← sl b (c + 1) (c + 1 + l.toNat)
      return (some s, c + 1 + l.toNat)
    else .err e
  else return (none, c + 1 + skip)

/-- `if let Some(i) = v { push(i.len() as u8); extend_from_slice(&i) } else { push(0) }`. -/
def lvOpt (v : Option Bytes) : Bytes :=
  match v with
  | some i => lenU8 i :: i
  | none => [0]

/-- A present, non-empty octet string whose length fits an octet. -/
def LvOk (v : Option Bytes) : Prop := ∃ s, v = some s ∧ 0 < s.length ∧ s.length < 256

instance (v : Option Bytes) : Decidable (LvOk v) :=
  match v with
  | none => .isFalse (by rintro ⟨s, h, _⟩; cases h)
  | some s => if h : 0 < s.length ∧ s.length < 256 then .isTrue ⟨s, rfl, h⟩
    else .isFalse (by rintro ⟨s', h', hh⟩; cases h'; exact h hh)

/-- An absent octet string, or a present and representable one. -/
def LvOk0 (v : Option Bytes) : Prop := v = none ∨ LvOk v

instance (v : Option Bytes) : Decidable (LvOk0 v) := by unfold LvOk0; infer_instance

theorem rdLv_at {skip : Nat} {e : Err} {b r : Bytes} {c : Nat} {v : Option Bytes}
    (h : At b c (lvOpt v ++ r)) (hv : LvOk v) : ∃ c', rdLv skip e b c = .ok (v, c') ∧ At b c' r := by
  obtain ⟨s, rfl, h1, h2⟩ := hv
  simp only [lvOpt, List.cons_append] at h
  have hs := lenU8_toNat h2
  have hl := h.length
  simp only [List.length_cons, List.length_append] at hl
  refine ⟨c + 1 + s.length, ?_, h.next.skip rfl⟩
  simp only [rdLv, h.rd, R.ok_bind, hs, h1, if_true, h.next.sl rfl, R.pure_eq]
  rw [if_pos (by omega)]

/-- With `skip = 0` absent strings are read back too. -/
theorem rdLv_at0 {e : Err} {b r : Bytes} {c : Nat} {v : Option Bytes}
    (h : At b c (lvOpt v ++ r)) (hv : LvOk0 v) : ∃ c', rdLv 0 e b c = .ok (v, c') ∧ At b c' r := by
  rcases hv with rfl | hv
  · simp only [lvOpt, List.cons_append, List.nil_append] at h
    exact ⟨c + 1, by simp [rdLv, h.rd], h.next⟩
  · exact rdLv_at h hv

theorem lvOpt_length_pos (v : Option Bytes) : 0 < (lvOpt v).length := by
  cases v <;> simp [lvOpt]

theorem toNat_lt256 (x : UInt8) : x.toNat < 256 := x.toNat_lt

theorem rdLv_safe {skip : Nat} {e : Err} {b : Bytes} {c : Nat} (hs : skip ≤ 1) (h : c < b.length) :
    (rdLv skip e b c).Safe fun p => c < p.2 ∧ p.2 ≤ c + 256 := by
  have := toNat_lt256 (b.getD c 0)
  safe_simp [rdLv]
  refine ⟨h, fun h1 h2 => ⟨⟨by omega, h2⟩, by omega, by omega⟩, fun _ => ⟨by omega, by omega⟩⟩

/-- `if flag { .. v = Some(..); cursor += .. }` around a stage. -/
def rdIf {α : Type} (flag : Bool) (st : Nat → R Err (α × Nat)) (c : Nat) : R Err (Option α × Nat) := do
  if flag then
    let (v, c') ← st c
    return (some v, c')
  else return (none, c)

/-- `if let Some(i) = v { .. }` on the encoding side. -/
def optEnc {α : Type} (f : α → Bytes) (v : Option α) : Bytes :=
  match v with
  | some i => f i
  | none => []

theorem rdIf_at {α : Type} {st : Nat → R Err (α × Nat)} {f : α → Bytes} {b r : Bytes} {c : Nat} {v : Option α}
    (h : At b c (optEnc f v ++ r))
    (hs : ∀ x, v = some x → At b c (f x ++ r) → ∃ c', st c = .ok (x, c') ∧ At b c' r) :
    ∃ c', rdIf v.isSome st c = .ok (v, c') ∧ At b c' r := by
  cases v with
  | none => exact ⟨c, by simp [rdIf], by simpa [optEnc] using h⟩
  | some x =>
    obtain ⟨c', h1, h2⟩ := hs x rfl (by simpa [optEnc] using h)
    exact ⟨c', by simp [rdIf, h1], h2⟩

theorem rdIf_safe {α : Type} {flag : Bool} {st : Nat → R Err (α × Nat)} {c : Nat} {P : Nat → Prop}
    (h0 : P c) (h1 : (st c).Safe fun p => P p.2) : (rdIf flag st c).Safe fun p => P p.2 := by
  cases flag
  · simpa [rdIf, R.Safe] using h0
  · simp only [rdIf, if_true, Safe_bind, R.pure_eq]
    exact Safe.mono h1 (fun a ha => ha)

/-- The four leading octets of an encoded IE, read back, and the cursor behind them. -/
theorem tliv_at {ty : UInt8} {l : UInt16} {ins : UInt8} {body : Bytes} (tail : Bytes) (hl : l.toNat = body.length) :
    ∃ b, tliv ty l ins body ++ tail = b ∧ (rd16 b 1 : R Err UInt16) = .ok l ∧ (rd b 3 : R Err UInt8) = .ok ins ∧
      At b 4 (body ++ tail) ∧ b.length = 4 + (l.toNat + tail.length) := by
  refine ⟨_, rfl, ?_⟩
  rw [tliv_wf hl]
  have h0 := At.start ((ty :: hi16 l :: lo16 l :: ins :: body) ++ tail)
  simp only [List.cons_append] at h0 ⊢
  have h1 : At _ 1 _ := h0.next
  have h2 : At _ 2 _ := h1.next
  have h3 : At _ 3 _ := h2.next
  have h4 : At _ 4 _ := h3.next
  refine ⟨At.rd16 (v := l) (r := ins :: (body ++ tail)) (by simpa [be16] using h1), h3.rd, h4, ?_⟩
  simp; omega

/-- Two octets, four octets and so on as a stage. -/
def rd8s (b : Bytes) (c : Nat) : R Err (UInt8 × Nat) := do
  let x ← rd b c
  return (x, c + 1)

theorem rd8s_at {b r : Bytes} {c : Nat} {x : UInt8} (h : At b c (x :: r)) : ∃ c', rd8s b c = .ok (x, c') ∧ At b c' r :=
  ⟨c + 1, by simp [rd8s, h.rd], h.next⟩

/-- `buffer[cursor..cursor + k]`, then `cursor += k`. -/
def rdN (k : Nat) (b : Bytes) (c : Nat) : R Err (Bytes × Nat) := do
  let s ← sl b c (c + k)
  return (s, c + k)

theorem rdN_at {k : Nat} {b p r : Bytes} {c : Nat} (h : At b c (p ++ r)) (hk : p.length = k) :
    ∃ c', rdN k b c = .ok (p, c') ∧ At b c' r :=
  ⟨c + k, by simp [rdN, h.sl (show c + k = c + p.length by omega)], h.skip (by omega)⟩

/-- A length octet and that many octets, unchecked: `let l = buffer[cursor] as usize; cursor += 1;
v = buffer[cursor..cursor + l].to_vec(); cursor += l`. -/
def rdLvU (b : Bytes) (c : Nat) : R Err (Bytes × Nat) := do
  let l ← rd b c
  let s ← sl b (c + 1) (c + 1 + l.toNat)
  return (s, c + 1 + l.toNat)

theorem rdLvU_at {b p r : Bytes} {c : Nat} (h : At b c (lenU8 p :: (p ++ r))) (hp : p.length < 256) :
    ∃ c', rdLvU b c = .ok (p, c') ∧ At b c' r := by
  have hs := lenU8_toNat hp
  exact ⟨c + 1 + p.length, by simp [rdLvU, h.rd, hs, h.next.sl rfl], h.next.skip rfl⟩

theorem rdLvU_safe {b : Bytes} {c : Nat} (h : c + 256 ≤ b.length) :
    (rdLvU b c).Safe fun p => p.2 ≤ c + 256 := by
  have := toNat_lt256 (b.getD c 0)
  safe_simp [rdLvU]
  refine ⟨by omega, ⟨by omega, by omega⟩, by omega⟩

/-- A length octet and that many octets, checked: as `rdLvU` with
`if buffer.len() < cursor + l { return Err(e) }`. -/
def rdLvC (e : Err) (b : Bytes) (c : Nat) : R Err (Bytes × Nat) := do
  let l ← rd b c
  if c + 1 + l.toNat ≤ b.length then
    let s ← sl b (c + 1) (c + 1 + l.toNat)
    return (s, c + 1 + l.toNat)
  else .err e

theorem rdLvC_at {e : Err} {b p r : Bytes} {c : Nat} (h : At b c (lenU8 p :: (p ++ r))) (hp : p.length < 256) :
    ∃ c', rdLvC e b c = .ok (p, c') ∧ At b c' r := by
  have hs := lenU8_toNat hp
  have hl := h.length
  simp only [List.length_cons, List.length_append] at hl
  refine ⟨c + 1 + p.length, ?_, h.next.skip rfl⟩
  simp only [rdLvC, h.rd, R.ok_bind, hs, h.next.sl rfl, R.pure_eq]
  rw [if_pos (by omega)]

theorem rdLvC_safe {e : Err} {b : Bytes} {c : Nat} (h : c < b.length) :
    (rdLvC e b c).Safe fun p => p.2 ≤ c + 256 := by
  have := toNat_lt256 (b.getD c 0)
  safe_simp [rdLvC]
  refine ⟨by omega, fun h2 => ⟨⟨by omega, h2⟩, by omega⟩⟩

theorem mccMncDecode_safe {s : Bytes} {P : UInt16 × UInt16 × Bool → Prop} (h : 3 ≤ s.length) (hP : ∀ x, P x) :
    (mccMncDecode s : R Err _).Safe P := by
  safe_simp [mccMncDecode]
  exact ⟨by omega, by omega, by omega, hP _⟩

/-- Evaluate a decoder given the outcomes of its stages. -/
macro "cur_simp" "[" ls:Lean.Parser.Tactic.simpLemma,* "]" : tactic =>
  `(tactic| simp -implicitDefEqProofs (disch := gtp_disch) [if_pos, if_neg, checkTliv_ok, and15, R.ofOption_some, $ls,*])

end V2

end Gtp
