import Verif.U.Msgs

/-!
# Lemmas about the GTPv1-U model
-/

namespace Gtp.U
open Gtp.V1

/-! ## Lengths -/

theorem mul4_toNat (l : UInt8) : (l * 4).toNat = 4 * l.toNat % 256 := by
  simp [UInt8.toNat_mul]; omega

theorem len4_ok {m : Mode} {l : UInt8} (h : l.toNat < 64) : len4 m l = .ok (4 * l.toNat) := by
  have h4 : (4 : UInt8).toNat = 4 := rfl
  have e := mul8_ok (ε := Err) (m := m) (a := l) (b := 4) (by rw [h4]; omega)
  simp only [len4, e, R.ok_bind, R.pure_eq, mul4_toNat]
  congr 1
  omega

theorem len4_debug {l : UInt8} (h : 64 ≤ l.toNat) : len4 .debug l = .panic := by
  have h4 : (4 : UInt8).toNat = 4 := rfl
  have : ¬ l.toNat * (4 : UInt8).toNat < 256 := by rw [h4]; omega
  simp only [len4, mul8, this, if_false, R.panic_bind]

theorem len4_release (l : UInt8) : len4 .release l = .ok (4 * l.toNat % 256) := by
  simp only [len4, mul8, R.ok_bind, R.pure_eq, mul4_toNat]

/-- What `ExtensionHeader::unmarshal` does once the length has been accepted. -/
def extBody (t l : UInt8) (n : Nat) (b : Bytes) : R Err ExtHdr :=
  if t = 0xc0 then (rd16 b 2) >>= fun v => .ok (.pdcpPduNumber ⟨0xc0, l, v⟩)
  else if t = 0x40 then (rd16 b 2) >>= fun v => .ok (.udpPort ⟨0x40, l, v⟩)
  else if t = 0x03 ∨ t = 0x82 then (rd24 b 2) >>= fun v => .ok (.longPdcpPduNumber ⟨t, l, v⟩)
  else if t = 0x20 then (rd b 2) >>= fun v => .ok (.sci ⟨0x20, l, v⟩)
  else (sl b 2 n) >>= fun v => .ok
    (if t = 0x81 then .ranContainer ⟨0x81, l, v⟩
     else if t = 0x83 then .xwRanContainer ⟨0x83, l, v⟩
     else if t = 0x84 then .nrRanContainer ⟨0x84, l, v⟩
     else if t = 0x85 then .pduSessionContainer ⟨0x85, l, v⟩
     else .unknown ⟨t, l, v⟩)

theorem ext_types (t : UInt8) : t = 0xc0 ∨ t = 0x40 ∨ t = 0x03 ∨ t = 0x82 ∨ t = 0x20 ∨ t = 0x81 ∨
    t = 0x83 ∨ t = 0x84 ∨ t = 0x85 ∨ (t ≠ 0xc0 ∧ t ≠ 0x40 ∧ t ≠ 0x03 ∧ t ≠ 0x82 ∧ t ≠ 0x20 ∧
      t ≠ 0x81 ∧ t ≠ 0x83 ∧ t ≠ 0x84 ∧ t ≠ 0x85) := by
  revert t; decide +kernel

theorem ext_cons (m : Mode) (t l : UInt8) (r : Bytes) (ht : t ≠ 0) :
    ExtHdr.unmarshal m (t :: l :: r) =
      if l = 0 then .err .extHeaderInvalidLength
      else len4 m l >>= fun n =>
        if n ≤ r.length + 2 then extBody t l n (t :: l :: r) else .err .extHeaderInvalidLength := by
  by_cases hl : l = 0
  · subst hl
    rcases ext_types t with h | h | h | h | h | h | h | h | h | h
    all_goals simp [ExtHdr.unmarshal, PdcpPduNumber.unmarshal, UdpPort.unmarshal,
      LongPdcpPduNumber.unmarshal, Sci.unmarshal, Container.unmarshal, unknownUnmarshal, h, ht]
  · cases hn : len4 m l with
    | ok n =>
      by_cases hle : n ≤ r.length + 2
      · rcases ext_types t with h | h | h | h | h | h | h | h | h | h
        · simp [ExtHdr.unmarshal, PdcpPduNumber.unmarshal, h, hl, hn, hle, extBody]
          cases (rd16 (192 :: l :: r) 2 : R Err UInt16) <;> rfl
        · simp [ExtHdr.unmarshal, UdpPort.unmarshal, h, hl, hn, hle, extBody]
          cases (rd16 (64 :: l :: r) 2 : R Err UInt16) <;> rfl
        · simp [ExtHdr.unmarshal, LongPdcpPduNumber.unmarshal, h, hl, hn, hle, extBody]
          cases (rd24 (3 :: l :: r) 2 : R Err UInt32) <;> rfl
        · simp [ExtHdr.unmarshal, LongPdcpPduNumber.unmarshal, h, hl, hn, hle, extBody]
          cases (rd24 (130 :: l :: r) 2 : R Err UInt32) <;> rfl
        · simp [ExtHdr.unmarshal, Sci.unmarshal, h, hl, hn, hle, extBody]
          cases (rd r 0 : R Err UInt8) <;> rfl
        · simp [ExtHdr.unmarshal, Container.unmarshal, h, hl, hn, hle, extBody]
          cases (sl (129 :: l :: r) 2 n : R Err Bytes) <;> rfl
        · simp [ExtHdr.unmarshal, Container.unmarshal, h, hl, hn, hle, extBody]
          cases (sl (131 :: l :: r) 2 n : R Err Bytes) <;> rfl
        · simp [ExtHdr.unmarshal, Container.unmarshal, h, hl, hn, hle, extBody]
          cases (sl (132 :: l :: r) 2 n : R Err Bytes) <;> rfl
        · simp [ExtHdr.unmarshal, Container.unmarshal, h, hl, hn, hle, extBody]
          cases (sl (133 :: l :: r) 2 n : R Err Bytes) <;> rfl
        · simp [ExtHdr.unmarshal, unknownUnmarshal, h, ht, hl, hn, hle, extBody]
          cases (sl (t :: l :: r) 2 n : R Err Bytes) <;> rfl
      · rcases ext_types t with h | h | h | h | h | h | h | h | h | h
        all_goals simp [ExtHdr.unmarshal, PdcpPduNumber.unmarshal, UdpPort.unmarshal,
          LongPdcpPduNumber.unmarshal, Sci.unmarshal, Container.unmarshal, unknownUnmarshal, h, ht,
          hl, hn, hle]
    | err e =>
      rcases ext_types t with h | h | h | h | h | h | h | h | h | h
      all_goals simp [ExtHdr.unmarshal, PdcpPduNumber.unmarshal, UdpPort.unmarshal,
          LongPdcpPduNumber.unmarshal, Sci.unmarshal, Container.unmarshal, unknownUnmarshal, h, ht,
          hl, hn]
    | panic =>
      rcases ext_types t with h | h | h | h | h | h | h | h | h | h
      all_goals simp [ExtHdr.unmarshal, PdcpPduNumber.unmarshal, UdpPort.unmarshal,
          LongPdcpPduNumber.unmarshal, Sci.unmarshal, Container.unmarshal, unknownUnmarshal, h, ht,
          hl, hn]
    | diverge =>
      rcases ext_types t with h | h | h | h | h | h | h | h | h | h
      all_goals simp [ExtHdr.unmarshal, PdcpPduNumber.unmarshal, UdpPort.unmarshal,
          LongPdcpPduNumber.unmarshal, Sci.unmarshal, Container.unmarshal, unknownUnmarshal, h, ht,
          hl, hn]

theorem ext_nil (m : Mode) : ExtHdr.unmarshal m [] = .panic := by
  simp [ExtHdr.unmarshal]

theorem ext_zero (m : Mode) (r : Bytes) : ExtHdr.unmarshal m (0 :: r) = .ok .noMore := by
  simp [ExtHdr.unmarshal]

theorem ext_one (m : Mode) (t : UInt8) (ht : t ≠ 0) : ExtHdr.unmarshal m [t] = .panic := by
  unfold ExtHdr.unmarshal
  simp only [rd_zero, R.ok_bind, ht, if_false]
  simp only [PdcpPduNumber.unmarshal, UdpPort.unmarshal, LongPdcpPduNumber.unmarshal,
      Sci.unmarshal, Container.unmarshal, unknownUnmarshal, rd_zero, rd_succ, rd_nil, R.ok_bind,
      R.panic_bind]
  repeat' split
  all_goals simp_all

/-- A decoded extension header is accounted with the length octet it was read from. -/
theorem extBody_post (m : Mode) (t l : UInt8) (n : Nat) (b : Bytes) (x : ExtHdr)
    (h : extBody t l n b = .ok x) : x ≠ .noMore ∧ x.len m = len4 m l := by
  unfold extBody at h
  split at h
  · cases hv : (rd16 b 2 : R Err UInt16) <;> simp [hv] at h; subst h; simp [ExtHdr.len, ExtHdr.length?]
  split at h
  · cases hv : (rd16 b 2 : R Err UInt16) <;> simp [hv] at h; subst h; simp [ExtHdr.len, ExtHdr.length?]
  split at h
  · cases hv : (rd24 b 2 : R Err UInt32) <;> simp [hv] at h; subst h; simp [ExtHdr.len, ExtHdr.length?]
  split at h
  · cases hv : (rd b 2 : R Err UInt8) <;> simp [hv] at h; subst h; simp [ExtHdr.len, ExtHdr.length?]
  · cases hv : (sl b 2 n : R Err Bytes) <;> simp [hv] at h; subst h
    repeat' split
    all_goals simp [ExtHdr.len, ExtHdr.length?]

/-- Types whose decoder reads fixed positions instead of slicing up to the declared length, with
the number of octets after the length octet that are read. -/
def fixedRead (t : UInt8) : Option Nat :=
  if t = 0xc0 ∨ t = 0x40 then some 2
  else if t = 0x03 ∨ t = 0x82 then some 3
  else if t = 0x20 then some 1
  else none

theorem rd_of_lt {b : Bytes} {i : Nat} (h : i < b.length) : ∃ v, (rd b i : R Err UInt8) = .ok v :=
  ⟨_, rd_lt h⟩

theorem extBody_cases (t l : UInt8) (n : Nat) (r : Bytes) :
    (∃ x, extBody t l n (t :: l :: r) = .ok x) ∧ ((∃ k, fixedRead t = some k ∧ k ≤ r.length) ∨
      (fixedRead t = none ∧ 2 ≤ n ∧ n ≤ r.length + 2)) ∨
    extBody t l n (t :: l :: r) = .panic ∧ ((∃ k, fixedRead t = some k ∧ r.length < k) ∨
      (fixedRead t = none ∧ ¬ (2 ≤ n ∧ n ≤ r.length + 2))) := by
  unfold extBody fixedRead
  by_cases h1 : t = 0xc0
  · match r with
    | [] => right; simp [h1, rd16]
    | [a] => right; simp [h1, rd16]
    | a :: b :: r => left; simp [h1, rd16]
  by_cases h2 : t = 0x40
  · match r with
    | [] => right; simp [h2, rd16]
    | [a] => right; simp [h2, rd16]
    | a :: b :: r => left; simp [h2, rd16]
  by_cases h3 : t = 0x03
  · match r with
    | [] => right; simp [h3, rd24]
    | [a] => right; simp [h3, rd24]
    | [a, b] => right; simp [h3, rd24]
    | a :: b :: c :: r => left; simp [h3, rd24]
  by_cases h4 : t = 0x82
  · match r with
    | [] => right; simp [h4, rd24]
    | [a] => right; simp [h4, rd24]
    | [a, b] => right; simp [h4, rd24]
    | a :: b :: c :: r => left; simp [h4, rd24]
  by_cases h5 : t = 0x20
  · match r with
    | [] => right; simp [h5]
    | a :: r => left; simp [h5]
  have e : (t :: l :: r).length = r.length + 2 := rfl
  by_cases hn : 2 ≤ n ∧ n ≤ r.length + 2
  · left
    refine ⟨?_, Or.inr ⟨by simp [h1, h2, h3, h4, h5], hn⟩⟩
    simp only [h1, h2, h3, h4, h5, if_false, or_self, sl, e, hn, and_self, if_true, R.ok_bind]
    exact ⟨_, rfl⟩
  · right
    refine ⟨by simp only [h1, h2, h3, h4, h5, if_false, or_self, sl, e, hn, R.panic_bind],
      Or.inr ⟨by simp [h1, h2, h3, h4, h5], hn⟩⟩

end Gtp.U
