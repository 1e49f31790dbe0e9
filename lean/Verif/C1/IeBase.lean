import Verif.U.Lemmas
import Verif.V2.Names

/-!
# Common machinery for the GTPv1-C information elements

The code shared (by copying) by `src/gtpv1/gtpc/messages/ies/*.rs`, and the shapes of the statements
proved for every kind.
-/

namespace Gtp.C1
open Gtp.V1
open Gtp.U (len3)
open Gtp.V2 (declLen)

/-- The common skeleton of `IEs::marshal` for a TLV element: type, length field, body, then
`set_tlv_ie_length`; the result is appended to the output buffer. -/
def tlv (t : UInt8) (length : UInt16) (body : Bytes) : Bytes :=
  setTlvIeLength (t :: hi16 length :: lo16 length :: body)

/-- The common skeleton of `IEs::unmarshal` for a TLV element of variable size (pco.rs:42-56):
`if buffer.len() >= 3 { length: u16; if check_tlv_ie_buffer(length, buffer) { f } else { Err } } else { Err }`,
with `IEInvalidLength` in both cases. -/
def withTlv {α : Type} (m : Mode) (b : Bytes) (f : UInt16 → R Err α) : R Err α := do
  if 3 ≤ b.length then
    let length ← rd16 b 1
    if ← checkTlv m length b then f length
    else .err .ieInvalidLength
  else .err .ieInvalidLength

/-- `buffer[3..(length + 3) as usize]` with the addition in `u16`. -/
def slBody3 (m : Mode) (b : Bytes) (length : UInt16) : R Err Bytes := do
  let l ← add16 m length 3
  sl b 3 l.toNat

/-! ## Lemmas -/

theorem setTlv_cons (t l0 l1 : UInt8) (body : Bytes) :
    setTlvIeLength (t :: l0 :: l1 :: body) = t :: hi16 (lenU16 body) :: lo16 (lenU16 body) :: body := by
  simp [setTlvIeLength, put16, lenU16]

theorem tlv_eq (t : UInt8) (l : UInt16) (body : Bytes) :
    tlv t l body = t :: hi16 (lenU16 body) :: lo16 (lenU16 body) :: body := by
  simp [tlv, setTlv_cons]

/-- An element whose length field equals the size of its body is written as it is. -/
@[gtp] theorem tlv_wf {t : UInt8} {l : UInt16} {body : Bytes} (h : l.toNat = body.length) :
    tlv t l body = t :: hi16 l :: lo16 l :: body := by
  rw [tlv_eq, Gtp.V2.lenU16_eq h]

theorem tlv_length (t : UInt8) (l : UInt16) (body : Bytes) : (tlv t l body).length = body.length + 3 := by
  simp [tlv_eq]

theorem three : (3 : UInt16).toNat = 3 := rfl

theorem len3_ok {m : Mode} {l : UInt16} (h : l.toNat < 65533) : len3 m l = .ok (l.toNat + 3) := by
  have h3 := three
  have e := add16_ok (ε := Err) (m := m) (a := l) (b := 3) (by omega)
  have e2 := toNat_add16 (a := l) (b := 3) (by omega)
  simp only [len3, e, R.ok_bind, R.pure_eq, e2, h3]

theorem len3_debug {l : UInt16} (h : 65533 ≤ l.toNat) : len3 .debug l = .panic := by
  have h3 := three
  have : ¬ l.toNat + (3 : UInt16).toNat < 65536 := by omega
  simp only [len3, add16, this, if_false, R.panic_bind]

theorem add3_wrap {l : UInt16} (h : 65533 ≤ l.toNat) : (l + 3).toNat = l.toNat - 65533 := by
  have h3 := three
  have := l.toNat_lt
  rw [UInt16.toNat_add, h3]
  omega

theorem len3_release {l : UInt16} (h : 65533 ≤ l.toNat) :
    len3 .release l = .ok (l.toNat - 65533) := by
  simp only [len3, add16, R.ok_bind, R.pure_eq, add3_wrap h]

/-- In a debug build `length + 3` is at least 3 or overflows. -/
theorem len3_steady (l : UInt16) : len3 .debug l = .panic ∨ ∃ n, 2 ≤ n ∧ len3 .debug l = .ok n := by
  by_cases h : l.toNat < 65533
  · exact .inr ⟨_, by omega, len3_ok h⟩
  · exact .inl (len3_debug (by omega))

theorem add16_three {m : Mode} {l : UInt16} (h : l.toNat < 65533) :
    (add16 m l 3 : R Err UInt16) = .ok (l + 3) := add16_ok (by have := three; omega)

theorem toNat_add3 {l : UInt16} (h : l.toNat < 65533) : (l + 3).toNat = l.toNat + 3 := by
  have h3 := three
  rw [toNat_add16 (by omega), h3]

@[gtp] theorem slBody3_ok {m : Mode} {b : Bytes} {l : UInt16} (h : l.toNat < 65533) :
    slBody3 m b l = sl b 3 (l.toNat + 3) := by
  simp only [slBody3, add16_three h, R.ok_bind, toNat_add3 h]

theorem slBody3_panic {m : Mode} {b : Bytes} {l : UInt16} (h : 65533 ≤ l.toNat) :
    slBody3 m b l = .panic := by
  have h3 := three
  have := l.toNat_lt
  cases m with
  | debug =>
    have : ¬ l.toNat + (3 : UInt16).toNat < 65536 := by omega
    simp only [slBody3, add16, this, if_false, R.panic_bind]
  | release =>
    simp only [slBody3, add16, R.ok_bind, add3_wrap h, sl]
    rw [if_neg (by omega)]

/-- Slicing the body out of an encoded element. -/
@[gtp] theorem sl_body3 {ε : Type} (a b c : UInt8) (body tail : Bytes) (n : Nat) (h : n = body.length) :
    (sl (a :: b :: c :: (body ++ tail)) 3 (n + 3) : R ε Bytes) = .ok body := by
  subst h
  simp [sl]

theorem checkTlv_ok {m : Mode} {l : UInt16} {b : Bytes} (h : l.toNat < 65533) :
    (checkTlv m l b : R Err Bool) = .ok (decide (0 < l.toNat ∧ l.toNat + 3 ≤ b.length)) := by
  unfold checkTlv
  by_cases h0 : l = 0
  · subst h0; simp
  · have : 0 < l.toNat := Nat.pos_of_ne_zero fun h => h0 (UInt16.toNat_inj.mp (by simpa using h))
    simp only [h0, if_false, add16_three h, R.ok_bind, R.pure_eq, toNat_add3 h, this, true_and]

theorem checkTlv_debug {l : UInt16} {b : Bytes} (h : 65533 ≤ l.toNat) :
    (checkTlv .debug l b : R Err Bool) = .panic := by
  have h3 := three
  have h0 : l ≠ 0 := by rintro rfl; simp at h
  have : ¬ l.toNat + (3 : UInt16).toNat < 65536 := by omega
  simp only [checkTlv, h0, if_false, add16, this, R.panic_bind]

theorem checkTlv_release {l : UInt16} {b : Bytes} (h : 65533 ≤ l.toNat) :
    (checkTlv .release l b : R Err Bool) = .ok (decide (l.toNat - 65533 ≤ b.length)) := by
  have h0 : l ≠ 0 := by rintro rfl; simp at h
  simp only [checkTlv, h0, if_false, add16, R.ok_bind, R.pure_eq, add3_wrap h]

/-- Decoding an encoded element enters the body. -/
@[gtp] theorem withTlv_cons {α : Type} {m : Mode} {t : UInt8} {l : UInt16} {r : Bytes} {f : UInt16 → R Err α}
    (h0 : 0 < l.toNat) (h1 : l.toNat < 65533) (h2 : l.toNat ≤ r.length) :
    withTlv m (t :: hi16 l :: lo16 l :: r) f = f l := by
  unfold withTlv
  rw [if_pos (by simp)]
  simp only [rd16, rd_succ, rd_zero, R.ok_bind, R.pure_eq, of16_be, checkTlv_ok h1]
  rw [if_pos (by simp; omega)]

theorem rd16_decl {b : Bytes} (h : 3 ≤ b.length) : (rd16 b 1 : R Err UInt16) = .ok (declLen b) := by
  have h1 : 1 < b.length := by omega
  have h2 : 1 + 1 < b.length := by omega
  simp [rd16, rd_lt h1, rd_lt h2, declLen, h1, h2]

/-- What the skeleton does on any buffer. -/
theorem withTlv_eq {α : Type} (m : Mode) (b : Bytes) (f : UInt16 → R Err α) :
    withTlv m b f =
      if b.length < 3 then .err .ieInvalidLength
      else if 65533 ≤ (declLen b).toNat then (if m = .debug then .panic else f (declLen b))
      else if 0 < (declLen b).toNat ∧ (declLen b).toNat + 3 ≤ b.length then f (declLen b)
      else .err .ieInvalidLength := by
  unfold withTlv
  by_cases h : 3 ≤ b.length
  · have hn : ¬ b.length < 3 := by omega
    have hlt := (declLen b).toNat_lt
    rw [if_pos h, if_neg hn, rd16_decl h, R.ok_bind]
    by_cases h1 : 65533 ≤ (declLen b).toNat
    · rw [if_pos h1]
      cases m with
      | debug => rw [checkTlv_debug h1, if_pos rfl]; rfl
      | release =>
        rw [checkTlv_release h1, if_neg (by simp), R.ok_bind, if_pos (by simp; omega)]
    · rw [if_neg h1, checkTlv_ok (by omega), R.ok_bind]
      by_cases h2 : 0 < (declLen b).toNat ∧ (declLen b).toNat + 3 ≤ b.length
      · rw [if_pos h2, if_pos (by simpa using h2)]
      · rw [if_neg h2, if_neg (by simpa using h2)]
  · rw [if_neg h, if_pos (by omega)]

/-- A property of what the body returns is a property of what the skeleton returns. -/
theorem withTlv_post {α : Type} {P : α → Prop} (m : Mode) (b : Bytes) (f : UInt16 → R Err α)
    (h : ∀ y, f (declLen b) = .ok y → P y) {x : α} (e : withTlv m b f = .ok x) : P x := by
  rw [withTlv_eq] at e
  split at e
  · cases e
  split at e
  · split at e
    · cases e
    · exact h _ e
  split at e
  · exact h _ e
  · cases e

/-! ## The statements proved for every kind of element -/

/-- Decoding an encoded well-formed element, whatever follows it, gives the element back. -/
def RoundTrips {α : Type} (WF : α → Prop) (mar : α → Bytes) (unm : Mode → Bytes → R Err α) : Prop :=
  ∀ (m : Mode) (x : α) (tail : Bytes), WF x → unm m (mar x ++ tail) = .ok x

/-- `len` returns the size of the encoding of a well-formed element. -/
def LenOk {α : Type} (WF : α → Prop) (mar : α → Bytes) (len : Mode → α → R Err Nat) : Prop :=
  ∀ (m : Mode) (x : α), WF x → len m x = .ok (mar x).length

/-- No panic on any buffer; a decoded element is accounted with `k` octets, all inside the buffer. -/
def FixedSafe {α : Type} (k : Nat) (unm : Mode → Bytes → R Err α) (len : Mode → α → R Err Nat) : Prop :=
  ∀ (m : Mode) (b : Bytes), (unm m b).Safe fun x => len m x = .ok k ∧ k ≤ b.length

/-- The decoder panics on exactly the buffers satisfying `P`, and never diverges. -/
def PanicsIff {α : Type} (P : Mode → Bytes → Prop) (unm : Mode → Bytes → R Err α) : Prop :=
  ∀ (m : Mode) (b : Bytes), (unm m b = .panic ↔ P m b) ∧ unm m b ≠ .diverge

/-- Nowhere. -/
def Never (_m : Mode) (_b : Bytes) : Prop := False

instance (m : Mode) (b : Bytes) : Decidable (Never m b) := inferInstanceAs (Decidable False)

/-- The declared length does not leave room for `length + 3` in a `u16`. -/
def Overflows (_m : Mode) (b : Bytes) : Prop := 3 ≤ b.length ∧ 65533 ≤ (declLen b).toNat

instance (m : Mode) (b : Bytes) : Decidable (Overflows m b) := by unfold Overflows; infer_instance

/-- What is accounted for a decoded element: the declared length plus 3. -/
def Declared {α : Type} (unm : Mode → Bytes → R Err α) (len : Mode → α → R Err Nat) : Prop :=
  ∀ (m : Mode) (b : Bytes) (x : α), unm m b = .ok x → len m x = len3 m (declLen b)

/-- What is accounted for a decoded element: `k` octets, all inside the buffer. -/
def FixedLen {α : Type} (k : Nat) (unm : Mode → Bytes → R Err α) (len : Mode → α → R Err Nat) : Prop :=
  ∀ (m : Mode) (b : Bytes) (x : α), unm m b = .ok x → len m x = .ok k ∧ k ≤ b.length

theorem FixedSafe.panics {α : Type} {k : Nat} {unm : Mode → Bytes → R Err α} {len : Mode → α → R Err Nat}
    (h : FixedSafe k unm len) : PanicsIff Never unm := by
  intro m b
  have := Safe.noPanic (h m b)
  exact ⟨⟨fun e => absurd e this.1, fun e => e.elim⟩, this.2⟩

theorem FixedSafe.fixed {α : Type} {k : Nat} {unm : Mode → Bytes → R Err α} {len : Mode → α → R Err Nat}
    (h : FixedSafe k unm len) : FixedLen k unm len := by
  intro m b x e
  have h1 := h m b
  rw [e, Safe_ok] at h1
  exact h1

end Gtp.C1
