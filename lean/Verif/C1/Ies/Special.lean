import Verif.C1.IeBase

/-!
# Information elements with a decoder of their own

The citations refer to `/repo/src/gtpv1/gtpc/messages/ies`.
-/

namespace Gtp.C1
open Gtp.V1
open Gtp.U (len3)
open Gtp.V2 (declLen)

/-! ## When the decoders of variable-sized elements panic -/

/-- The declared length is positive and covered by the buffer. -/
def Room (b : Bytes) : Prop :=
  3 ≤ b.length ∧ 0 < (declLen b).toNat ∧ (declLen b).toNat < 65533 ∧ (declLen b).toNat + 3 ≤ b.length

instance (b : Bytes) : Decidable (Room b) := by unfold Room; infer_instance

/-- Panics of a decoder that checks the declared length first (`check_tlv_ie_buffer`, which computes
`length + 3` in `u16`) and whose body panics on the buffers in `P`. -/
def TlvPanics (P : Bytes → Prop) (m : Mode) (b : Bytes) : Prop :=
  (m = .debug ∧ Overflows m b) ∨ ((Room b ∨ m = .release ∧ Overflows m b) ∧ P b)

instance (P : Bytes → Prop) [DecidablePred P] (m : Mode) (b : Bytes) : Decidable (TlvPanics P m b) := by
  unfold TlvPanics; infer_instance

theorem withTlv_panics {α : Type} {P : Bytes → Prop} {m : Mode} {b : Bytes} {f : UInt16 → R Err α}
    (h : Room b ∨ m = .release ∧ Overflows m b → ((f (declLen b) = .panic ↔ P b) ∧ f (declLen b) ≠ .diverge)) :
    (withTlv m b f = .panic ↔ TlvPanics P m b) ∧ withTlv m b f ≠ .diverge := by
  rw [withTlv_eq]
  unfold TlvPanics
  by_cases h0 : b.length < 3
  · rw [if_pos h0]
    have hr : ¬ Room b := fun h => by have := h.1; omega
    have ho : ¬ Overflows m b := fun h => by have := h.1; omega
    simp [hr, ho]
  rw [if_neg h0]
  by_cases h1 : 65533 ≤ (declLen b).toNat
  · have ho : Overflows m b := ⟨by omega, h1⟩
    have hr : ¬ Room b := fun h => by have := h.2.2.1; omega
    rw [if_pos h1]
    cases m with
    | debug => simp [ho]
    | release =>
      have := h (.inr ⟨rfl, ho⟩)
      simp [ho, hr, this]
  · have ho : ¬ Overflows m b := fun h => h1 h.2
    rw [if_neg h1]
    by_cases h2 : 0 < (declLen b).toNat ∧ (declLen b).toNat + 3 ≤ b.length
    · have hr : Room b := ⟨by omega, h2.1, by omega, h2.2⟩
      have := h (.inl hr)
      rw [if_pos h2]
      simp [ho, hr, this]
    · have hr : ¬ Room b := fun h => h2 ⟨h.2.1, h.2.2.2⟩
      rw [if_neg h2]
      simp [ho, hr]

theorem sl_three {b : Bytes} {n : Nat} (h : 3 + n ≤ b.length) :
    (sl b 3 (3 + n) : R Err Bytes) = .ok ((b.drop 3).take n) := by
  rw [sl_ok (by omega) h, List.drop_take, Nat.add_sub_cancel_left]

/-! ## End User Address -/

/-- `EndUserAddress` (enduseraddress.rs:29-36). -/
structure EndUserAddress where
  t : UInt8
  length : UInt16
  pdp_type_org : UInt8
  pdp_type_nbr : UInt8
  ipv4 : Option UInt32
  ipv6 : Option Gtp.V2.Ip6
deriving DecidableEq, Repr

namespace EndUserAddress

/-- `default` (enduseraddress.rs:38-49). -/
def dflt : EndUserAddress := ⟨128, 2, 1, 0x21, none, none⟩

/-- The `match` of `marshal` (enduseraddress.rs:57-74). -/
def addr (org nbr : UInt8) (ip4 : Option UInt32) (ip6 : Option Gtp.V2.Ip6) : Bytes :=
  if org = 0 then [nbr]
  else if org = 1 then
    match ip4, ip6 with
    | some i, none => nbr :: be32 i
    | none, some i => nbr :: i.octets
    | some i, some j => nbr :: (be32 i ++ j.octets)
    | none, none => [nbr]
  else []

/-- `marshal` (enduseraddress.rs:52-77). -/
def marshal (x : EndUserAddress) : Bytes :=
  tlv x.t x.length ((0xf0 ||| x.pdp_type_org) :: addr x.pdp_type_org x.pdp_type_nbr x.ipv4 x.ipv6)

/-- enduseraddress.rs:89-125; octet 5 is read before the length is compared. -/
def body (b : Bytes) (length : UInt16) : R Err EndUserAddress := do
  let v ← rd b 3
  let nbr ← rd b 4
  if length = 2 ∧ (v &&& 0x0f = 0 ∧ (nbr = 1 ∨ nbr = 2) ∨
      v &&& 0x0f = 1 ∧ (nbr = 0x21 ∨ nbr = 0x57 ∨ nbr = 0x8d)) then
    return ⟨128, length, v &&& 0x0f, nbr, none, none⟩
  else if length = 6 ∧ v &&& 0x0f = 1 ∧ nbr = 0x21 then
    let a ← rd32 b 5
    return ⟨128, length, v &&& 0x0f, nbr, some a, none⟩
  else if length = 18 ∧ v &&& 0x0f = 1 ∧ nbr = 0x57 then
    let a ← Gtp.V2.rdIp6 b 5
    return ⟨128, length, v &&& 0x0f, nbr, none, some a⟩
  else if length = 22 ∧ v &&& 0x0f = 1 ∧ nbr = 0x8d then
    let a ← rd32 b 5
    let c ← Gtp.V2.rdIp6 b 9
    return ⟨128, length, v &&& 0x0f, nbr, some a, some c⟩
  else .err .ieIncorrect

/-- `unmarshal` (enduseraddress.rs:79-132). -/
def unmarshal (m : Mode) (b : Bytes) : R Err EndUserAddress := withTlv m b (body b)

/-- `len` (enduseraddress.rs:134-136). -/
def len (m : Mode) (x : EndUserAddress) : R Err Nat := len3 m x.length

/-- Field values that the encoding of `EndUserAddress` can represent: PPP and non-IP without
address, or an IETF type with the addresses of that type, or with no address at all. -/
def WF (x : EndUserAddress) : Prop :=
  x.t = 128 ∧
  (x.length = 2 ∧ x.pdp_type_org = 0 ∧ (x.pdp_type_nbr = 1 ∨ x.pdp_type_nbr = 2) ∧ x.ipv4 = none ∧ x.ipv6 = none ∨
   x.length = 2 ∧ x.pdp_type_org = 1 ∧ (x.pdp_type_nbr = 0x21 ∨ x.pdp_type_nbr = 0x57 ∨ x.pdp_type_nbr = 0x8d) ∧
    x.ipv4 = none ∧ x.ipv6 = none ∨
   x.length = 6 ∧ x.pdp_type_org = 1 ∧ x.pdp_type_nbr = 0x21 ∧ x.ipv4.isSome ∧ x.ipv6 = none ∨
   x.length = 18 ∧ x.pdp_type_org = 1 ∧ x.pdp_type_nbr = 0x57 ∧ x.ipv4 = none ∧ x.ipv6.isSome ∨
   x.length = 22 ∧ x.pdp_type_org = 1 ∧ x.pdp_type_nbr = 0x8d ∧ x.ipv4.isSome ∧ x.ipv6.isSome)

instance (x : EndUserAddress) : Decidable x.WF := by unfold WF; infer_instance

/-- The octets of a well-formed element. -/
theorem marshal_eq {x : EndUserAddress} (h : x.WF) :
    x.length.toNat < 65533 ∧ 0 < x.length.toNat ∧
    x.length.toNat = ((0xf0 ||| x.pdp_type_org) :: addr x.pdp_type_org x.pdp_type_nbr x.ipv4 x.ipv6).length := by
  obtain ⟨t, l, o, n, i4, i6⟩ := x
  obtain ⟨_, h | h | h | h | h⟩ := h <;> simp only at h
  · obtain ⟨rfl, rfl, _, rfl, rfl⟩ := h
    simp [addr]
  · obtain ⟨rfl, rfl, _, rfl, rfl⟩ := h
    simp [addr]
  · obtain ⟨rfl, rfl, rfl, h4, rfl⟩ := h
    obtain ⟨a, rfl⟩ := Option.isSome_iff_exists.mp h4
    simp [addr, gtp]
  · obtain ⟨rfl, rfl, rfl, rfl, h6⟩ := h
    obtain ⟨a, rfl⟩ := Option.isSome_iff_exists.mp h6
    simp [addr, gtp]
  · obtain ⟨rfl, rfl, rfl, h4, h6⟩ := h
    obtain ⟨a, rfl⟩ := Option.isSome_iff_exists.mp h4
    obtain ⟨c, rfl⟩ := Option.isSome_iff_exists.mp h6
    simp [addr, gtp]

theorem rt : RoundTrips WF marshal unmarshal := by
  intro m x tail h
  obtain ⟨h1, h0, hl⟩ := marshal_eq h
  rw [marshal, tlv_wf hl, unmarshal]
  simp only [List.cons_append]
  rw [withTlv_cons h0 h1 (by simp at hl ⊢; omega)]
  clear h0 h1 hl
  obtain ⟨t, l, o, n, i4, i6⟩ := x
  obtain ⟨ht, h | h | h | h | h⟩ := h <;> simp only at h ht <;> subst ht
  · obtain ⟨rfl, rfl, h | h, rfl, rfl⟩ := h <;> subst h <;> rt_simp [body, addr]
  · obtain ⟨rfl, rfl, h | h | h, rfl, rfl⟩ := h <;> subst h <;> rt_simp [body, addr]
  · obtain ⟨rfl, rfl, rfl, h4, rfl⟩ := h
    obtain ⟨a, rfl⟩ := Option.isSome_iff_exists.mp h4
    rt_simp [body, addr]
  · obtain ⟨rfl, rfl, rfl, rfl, h6⟩ := h
    obtain ⟨a, rfl⟩ := Option.isSome_iff_exists.mp h6
    rt_simp [body, addr]
  · obtain ⟨rfl, rfl, rfl, h4, h6⟩ := h
    obtain ⟨a, rfl⟩ := Option.isSome_iff_exists.mp h4
    obtain ⟨c, rfl⟩ := Option.isSome_iff_exists.mp h6
    rt_simp [body, addr]

theorem len_ok : LenOk WF marshal len := by
  intro m x h
  obtain ⟨h1, h0, hl⟩ := marshal_eq h
  rw [len, len3_ok h1, marshal, tlv_length, ← hl]

theorem body_post (b : Bytes) (l : UInt16) (x : EndUserAddress) (e : body b l = .ok x) : x.length = l := by
  unfold body at e
  cases h3 : (rd b 3 : R Err UInt8) <;> rw [h3] at e <;> try cases e
  cases h4 : (rd b 4 : R Err UInt8) <;> rw [R.ok_bind, h4] at e <;> try cases e
  rw [R.ok_bind] at e
  split at e
  · cases e; rfl
  split at e
  · cases h5 : (rd32 b 5 : R Err UInt32) <;> rw [h5] at e <;> cases e
    rfl
  split at e
  · cases h5 : (Gtp.V2.rdIp6 b 5 : R Err Gtp.V2.Ip6) <;> rw [h5] at e <;> cases e
    rfl
  split at e
  · cases h5 : (rd32 b 5 : R Err UInt32) <;> rw [h5] at e <;> try cases e
    cases h6 : (Gtp.V2.rdIp6 b 9 : R Err Gtp.V2.Ip6) <;> rw [R.ok_bind, h6] at e <;> cases e
    rfl
  · cases e

theorem declared : Declared unmarshal len := by
  intro m b x e
  have := withTlv_post (P := fun x : EndUserAddress => x.length = declLen b) m b _ (body_post b _) e
  rw [len, this]

/-- The octet after the PDP type organisation is read without checking that it is there. -/
theorem panics : PanicsIff (TlvPanics fun b => b.length < 5) unmarshal := by
  intro m b
  apply withTlv_panics
  intro h
  by_cases h5 : b.length < 5
  · have : body b (declLen b) = .panic := by
      unfold body
      by_cases h3 : 3 < b.length
      · rw [rd_lt h3, rd_ge (by omega)]; rfl
      · rw [rd_ge (by omega)]; rfl
    simp [this, h5]
  · have h3 : 3 < b.length := by omega
    have h4 : 4 < b.length := by omega
    have hs : (body b (declLen b)).Safe fun _ => True := by
      unfold body
      rw [rd_lt h3, rd_lt h4]
      simp only [R.ok_bind]
      have hb : ∀ k : UInt16, declLen b = k → k.toNat < 65533 → k.toNat + 3 ≤ b.length := by
        rintro k rfl hk
        rcases h with h | h
        · exact h.2.2.2
        · have := h.2.2; omega
      split
      · trivial
      split
      · rename_i e; have := hb _ e.1 (by decide)
        have : (6 : UInt16).toNat = 6 := rfl
        safe_simp []
        omega
      split
      · rename_i e; have := hb _ e.1 (by decide)
        have : (18 : UInt16).toNat = 18 := rfl
        safe_simp []
        omega
      split
      · rename_i e; have := hb _ e.1 (by decide)
        have : (22 : UInt16).toNat = 22 := rfl
        safe_simp []
        omega
      · trivial
    have := Safe.noPanic hs
    simp [this, h5]

end EndUserAddress

/-! ## Access Point Name -/

/-- `Apn` (apn.rs:13-17). -/
structure Apn where
  t : UInt8
  length : UInt16
  name : Str
deriving DecidableEq, Repr

namespace Apn

/-- `default` (apn.rs:19-27). -/
def dflt : Apn := ⟨131, 0, []⟩

/-- `marshal` (apn.rs:30-43). -/
def marshal (x : Apn) : Bytes := tlv x.t x.length (Gtp.V2.encName x.name)

/-- apn.rs:58-76: the slice is `3 + length as usize`, the label loop is `Gtp.V2.decName`. -/
def body (b : Bytes) (length : UInt16) : R Err Apn := do
  let donor ← sl b 3 (3 + length.toNat)
  let name ← Gtp.V2.decName donor
  return ⟨131, length, name⟩

/-- `unmarshal` (apn.rs:45-83); a zero length is refused by apn.rs:52 with the same error as by
`check_tlv_ie_buffer`. -/
def unmarshal (m : Mode) (b : Bytes) : R Err Apn := withTlv m b (body b)

/-- `len` (apn.rs:85-87). -/
def len (m : Mode) (x : Apn) : R Err Nat := len3 m x.length

/-- Field values that the encoding of `Apn` can represent: ASCII labels of at most 255 octets. -/
def WF (x : Apn) : Prop :=
  x.t = 131 ∧ x.length.toNat = x.name.length + 1 ∧ x.length.toNat < 65533 ∧ Gtp.V2.NameOk x.name

instance (x : Apn) : Decidable x.WF := by unfold WF; infer_instance

theorem rt : RoundTrips WF marshal unmarshal := by
  intro m x tail h
  obtain ⟨t, l, s⟩ := x
  obtain ⟨ht, hl, hb, hn⟩ := h
  simp only at ht hl hb hn
  subst ht
  have hl' : l.toNat = (Gtp.V2.encName s).length := by rw [Gtp.V2.encName_length hn, hl]
  simp only [marshal, tlv_wf hl', List.cons_append, unmarshal]
  rw [withTlv_cons (by omega) hb (by simp; omega)]
  simp only [body, Nat.add_comm 3]
  rw [sl_body3 _ _ _ _ _ _ hl', R.ok_bind, Gtp.V2.decName_encName hn]
  rfl

theorem len_ok : LenOk WF marshal len := by
  intro m x h
  rw [marshal, tlv_length, len, len3_ok h.2.2.1, h.2.1, Gtp.V2.encName_length h.2.2.2]

theorem declared : Declared unmarshal len := by
  intro m b x e
  have := withTlv_post (P := fun x : Apn => x.length = declLen b) m b _ (by
    intro y hy
    unfold body at hy
    cases h1 : (sl b 3 (3 + (declLen b).toNat) : R Err Bytes) <;> rw [h1] at hy <;> try cases hy
    rename_i d
    rw [R.ok_bind] at hy
    cases h2 : (Gtp.V2.decName d : R Err Str) <;> rw [h2] at hy <;> cases hy
    rfl) e
  rw [len, this]

/-- The decoder panics when the labels do not fill the declared length exactly. -/
theorem panics : PanicsIff (TlvPanics fun b => b.length < 3 + (declLen b).toNat ∨
    ¬ Gtp.V2.Labels ((b.drop 3).take (declLen b).toNat)) unmarshal := by
  intro m b
  apply withTlv_panics
  intro h
  unfold body
  by_cases h5 : b.length < 3 + (declLen b).toNat
  · have : (sl b 3 (3 + (declLen b).toNat) : R Err Bytes) = .panic := by
      rw [sl, if_neg (by omega)]
    rw [this]
    simp [h5]
  · rw [sl_three (by omega), R.ok_bind]
    by_cases hL : Gtp.V2.Labels ((b.drop 3).take (declLen b).toNat)
    · have := Safe.noPanic (Gtp.V2.decName_safe (ε := Err) hL (P := fun _ => True) fun _ => trivial)
      cases hd : (Gtp.V2.decName ((b.drop 3).take (declLen b).toNat) : R Err Str) with
      | ok s => simp [hL, h5]
      | err e => simp [hL, h5]
      | panic => exact absurd hd this.1
      | diverge => exact absurd hd this.2
    · rw [Gtp.V2.decName_panic hL]
      simp [hL]

end Apn

/-! ## CAMEL charging information container -/

/-- `CamelChargingInfoContainer` (camelcic.rs:12-16). -/
structure CamelChargingInfoContainer where
  t : UInt8
  length : UInt16
  camel_cic : Bytes
deriving DecidableEq, Repr

namespace CamelChargingInfoContainer

/-- `default` (camelcic.rs:18-26). -/
def dflt : CamelChargingInfoContainer := ⟨155, 0, []⟩

/-- `marshal` (camelcic.rs:29-36). -/
def marshal (x : CamelChargingInfoContainer) : Bytes := tlv x.t x.length x.camel_cic

/-- `unmarshal` (camelcic.rs:38-57): a zero length is accepted; the comparison adds in `u16`, the
slice in `usize`. -/
def unmarshal (m : Mode) (b : Bytes) : R Err CamelChargingInfoContainer := do
  if 3 ≤ b.length then
    let length ← rd16 b 1
    let n ← add16 m length 3
    if n.toNat ≤ b.length then
      let v ← sl b 3 (3 + length.toNat)
      return ⟨155, length, v⟩
    else .err .ieInvalidLength
  else .err .ieInvalidLength

/-- `len` (camelcic.rs:59-61). -/
def len (m : Mode) (x : CamelChargingInfoContainer) : R Err Nat := len3 m x.length

/-- Field values that the encoding of `CamelChargingInfoContainer` can represent. -/
def WF (x : CamelChargingInfoContainer) : Prop :=
  x.t = 155 ∧ x.length.toNat = x.camel_cic.length ∧ x.length.toNat < 65533

instance (x : CamelChargingInfoContainer) : Decidable x.WF := by unfold WF; infer_instance

/-- What the decoder does on any buffer. -/
theorem unmarshal_eq (m : Mode) (b : Bytes) : unmarshal m b =
    if b.length < 3 then .err .ieInvalidLength
    else if m = .debug ∧ 65533 ≤ (declLen b).toNat then .panic
    else if b.length < 3 + (declLen b).toNat then
      (if 65533 ≤ (declLen b).toNat then .panic else .err .ieInvalidLength)
    else .ok ⟨155, declLen b, (b.drop 3).take (declLen b).toNat⟩ := by
  unfold unmarshal
  by_cases h : 3 ≤ b.length
  · have hn : ¬ b.length < 3 := by omega
    have hlt := (declLen b).toNat_lt
    rw [if_pos h, if_neg hn, rd16_decl h, R.ok_bind]
    by_cases h1 : 65533 ≤ (declLen b).toNat
    · cases m with
      | debug =>
        have h3 := three
        have : ¬ (declLen b).toNat + (3 : UInt16).toNat < 65536 := by omega
        rw [add16, if_neg this, R.panic_bind, if_pos ⟨rfl, h1⟩]
      | release =>
        simp only [add16, R.ok_bind, add3_wrap h1, h1]
        rw [if_pos (by omega), if_neg (by simp), if_pos trivial]
        by_cases h2 : b.length < 3 + (declLen b).toNat
        · rw [if_pos h2, sl, if_neg (by omega)]; rfl
        · rw [if_neg h2, sl_three (by omega), R.ok_bind]; rfl
    · have h1' : (declLen b).toNat < 65533 := by omega
      have hm : ¬ (m = .debug ∧ 65533 ≤ (declLen b).toNat) := fun h => h1 h.2
      rw [add16_three h1', R.ok_bind, toNat_add3 h1', if_neg hm]
      by_cases h2 : b.length < 3 + (declLen b).toNat
      · rw [if_pos h2, if_neg h1, if_neg (by omega)]
      · rw [if_neg h2, if_pos (by omega), sl_three (by omega), R.ok_bind]; rfl
  · rw [if_neg h, if_pos (by omega)]

theorem rt : RoundTrips WF marshal unmarshal := by
  intro m x tail h
  obtain ⟨t, l, s⟩ := x
  obtain ⟨ht, hl, hb⟩ := h
  simp only at ht hl hb
  subst ht
  simp only [marshal, tlv_wf hl, List.cons_append, unmarshal_eq]
  have e : declLen (155 :: hi16 l :: lo16 l :: (s ++ tail)) = l := by simp [declLen, of16_be]
  rw [e, if_neg (by simp), if_neg (by omega), if_neg (by simp; omega), hl]
  simp

theorem len_ok : LenOk WF marshal len := by
  intro m x h
  rw [marshal, tlv_length, len, len3_ok h.2.2, h.2.1]

theorem declared : Declared unmarshal len := by
  intro m b x e
  rw [unmarshal_eq] at e
  split at e
  · cases e
  split at e
  · cases e
  split at e
  · split at e <;> cases e
  · cases e; rfl

/-- Panics: `length + 3` overflows (debug), or wraps and the slice is out of range (release). -/
theorem panics : PanicsIff (fun m b => Overflows m b ∧ (m = .debug ∨ b.length < 3 + (declLen b).toNat)) unmarshal := by
  intro m b
  rw [unmarshal_eq]
  unfold Overflows
  by_cases h0 : b.length < 3
  · rw [if_pos h0]
    refine ⟨⟨fun h => by (cases h), fun h => ?_⟩, by simp⟩
    have := h.1.1; omega
  rw [if_neg h0]
  have h3 : 3 ≤ b.length := by omega
  by_cases h1 : 65533 ≤ (declLen b).toNat
  · cases m with
    | debug => simp [h1, h3]
    | release =>
      by_cases h2 : b.length < 3 + (declLen b).toNat
      · simp [h1, h2, h3]
      · simp [h1, h2]
  · by_cases h2 : b.length < 3 + (declLen b).toNat
    · simp [h1, h2]
    · simp [h1, h2]

end CamelChargingInfoContainer

/-! ## IP addresses -/

/-- `match length { 4 => .., 16 => .., _ => IEIncorrect }` (gsnaddress.rs:49-61, charginggwaddress.rs:49-61). -/
def ipBody (b : Bytes) (length : UInt16) : R Err IpAddr := do
  if length = 4 then
    let a ← rd32 b 3
    return .v4 a
  else if length = 16 then
    if 19 ≤ b.length then
      let a ← Gtp.V2.rdIp6 b 3
      return .v6 a
    else .err .ieInvalidLength
  else .err .ieIncorrect

/-- The size of an address. -/
def ipSize : IpAddr → Nat
  | .v4 _ => 4
  | .v6 _ => 16

theorem ip_octets_length (a : IpAddr) : a.octets.length = ipSize a := by
  cases a <;> simp [IpAddr.octets, ipSize, gtp]

theorem ipSize_lt (a : IpAddr) : 0 < ipSize a ∧ ipSize a < 65533 := by cases a <;> simp [ipSize]

theorem ipBody_octets (t c d : UInt8) (a : IpAddr) (l : UInt16) (tail : Bytes) (h : l.toNat = ipSize a) :
    ipBody (t :: c :: d :: (a.octets ++ tail)) l = .ok a := by
  cases a with
  | v4 v =>
    have : l = 4 := UInt16.toNat_inj.mp h
    subst this
    rt_simp [ipBody, IpAddr.octets]
  | v6 v =>
    have : l = 16 := UInt16.toNat_inj.mp h
    subst this
    rt_simp [ipBody, IpAddr.octets]

theorem ipBody_safe {m : Mode} {b : Bytes} (h : Room b ∨ m = .release ∧ Overflows m b) :
    (ipBody b (declLen b)).Safe fun _ => True := by
  unfold ipBody
  split
  · rename_i e
    have : (4 : UInt16).toNat = 4 := rfl
    have h7 : 7 ≤ b.length := by
      rcases h with h | h
      · have := h.2.2.2; rw [e] at this; omega
      · have := h.2.2; rw [e] at this; omega
    safe_simp []
    omega
  split
  · split
    · safe_simp []
      omega
    · trivial
  · trivial

/-- `GsnAddress` (gsnaddress.rs:13-17). -/
structure GsnAddress where
  t : UInt8
  length : UInt16
  ip : IpAddr
deriving DecidableEq, Repr

namespace GsnAddress

/-- `default` (gsnaddress.rs:19-27). -/
def dflt : GsnAddress := ⟨133, 4, .v4 0⟩

/-- `marshal` (gsnaddress.rs:30-40). -/
def marshal (x : GsnAddress) : Bytes := tlv x.t x.length x.ip.octets

/-- `unmarshal` (gsnaddress.rs:42-69). -/
def unmarshal (m : Mode) (b : Bytes) : R Err GsnAddress :=
  withTlv m b fun length => ipBody b length >>= fun ip => .ok ⟨133, length, ip⟩

/-- `len` (gsnaddress.rs:71-73). -/
def len (m : Mode) (x : GsnAddress) : R Err Nat := len3 m x.length

/-- Field values that the encoding of `GsnAddress` can represent. -/
def WF (x : GsnAddress) : Prop := x.t = 133 ∧ x.length.toNat = ipSize x.ip

instance (x : GsnAddress) : Decidable x.WF := by unfold WF; infer_instance

theorem rt : RoundTrips WF marshal unmarshal := by
  intro m x tail h
  obtain ⟨t, l, a⟩ := x
  obtain ⟨ht, hl⟩ := h
  simp only at ht hl
  subst ht
  have hs := ipSize_lt a
  have ho := ip_octets_length a
  simp only [marshal, tlv_wf (hl.trans ho.symm), List.cons_append, unmarshal]
  rw [withTlv_cons (by omega) (by omega) (by simp; omega), ipBody_octets _ _ _ _ _ _ hl]
  rfl

theorem len_ok : LenOk WF marshal len := by
  intro m x h
  have hs := ipSize_lt x.ip
  rw [marshal, tlv_length, len, len3_ok (by rw [h.2]; omega), h.2, ip_octets_length]

theorem declared : Declared unmarshal len := by
  intro m b x e
  have := withTlv_post (P := fun x : GsnAddress => x.length = declLen b) m b _ (by
    intro y hy
    cases h1 : ipBody b (declLen b) <;> rw [h1] at hy <;> cases hy
    rfl) e
  rw [len, this]

theorem panics : PanicsIff (TlvPanics fun _ => False) unmarshal := by
  intro m b
  apply withTlv_panics
  intro h
  have := Safe.noPanic (ipBody_safe h)
  cases h1 : ipBody b (declLen b) with
  | ok a => simp
  | err e => simp
  | panic => exact absurd h1 this.1
  | diverge => exact absurd h1 this.2

end GsnAddress

/-- `ChargingGWAddress` (charginggwaddress.rs:13-17). -/
structure ChargingGWAddress where
  t : UInt8
  length : UInt16
  ip : IpAddr
deriving DecidableEq, Repr

namespace ChargingGWAddress

/-- `default` (charginggwaddress.rs:19-27). -/
def dflt : ChargingGWAddress := ⟨251, 4, .v4 0⟩

/-- `marshal` (charginggwaddress.rs:30-40). -/
def marshal (x : ChargingGWAddress) : Bytes := tlv x.t x.length x.ip.octets

/-- `unmarshal` (charginggwaddress.rs:42-69). -/
def unmarshal (m : Mode) (b : Bytes) : R Err ChargingGWAddress :=
  withTlv m b fun length => ipBody b length >>= fun ip => .ok ⟨251, length, ip⟩

/-- `len` (charginggwaddress.rs:71-73). -/
def len (m : Mode) (x : ChargingGWAddress) : R Err Nat := len3 m x.length

/-- Field values that the encoding of `ChargingGWAddress` can represent. -/
def WF (x : ChargingGWAddress) : Prop := x.t = 251 ∧ x.length.toNat = ipSize x.ip

instance (x : ChargingGWAddress) : Decidable x.WF := by unfold WF; infer_instance

theorem rt : RoundTrips WF marshal unmarshal := by
  intro m x tail h
  obtain ⟨t, l, a⟩ := x
  obtain ⟨ht, hl⟩ := h
  simp only at ht hl
  subst ht
  have hs := ipSize_lt a
  have ho := ip_octets_length a
  simp only [marshal, tlv_wf (hl.trans ho.symm), List.cons_append, unmarshal]
  rw [withTlv_cons (by omega) (by omega) (by simp; omega), ipBody_octets _ _ _ _ _ _ hl]
  rfl

theorem len_ok : LenOk WF marshal len := by
  intro m x h
  have hs := ipSize_lt x.ip
  rw [marshal, tlv_length, len, len3_ok (by rw [h.2]; omega), h.2, ip_octets_length]

theorem declared : Declared unmarshal len := by
  intro m b x e
  have := withTlv_post (P := fun x : ChargingGWAddress => x.length = declLen b) m b _ (by
    intro y hy
    cases h1 : ipBody b (declLen b) <;> rw [h1] at hy <;> cases hy
    rfl) e
  rw [len, this]

theorem panics : PanicsIff (TlvPanics fun _ => False) unmarshal := by
  intro m b
  apply withTlv_panics
  intro h
  have := Safe.noPanic (ipBody_safe h)
  cases h1 : ipBody b (declLen b) with
  | ok a => simp
  | err e => simp
  | panic => exact absurd h1 this.1
  | diverge => exact absurd h1 this.2

end ChargingGWAddress

/-! ## MSISDN -/

/-- `Msisdn` (msisdn.rs:12-19). -/
structure Msisdn where
  t : UInt8
  length : UInt16
  extension : UInt8
  number_nature : UInt8
  number_plan : UInt8
  msisdn : Str
deriving DecidableEq, Repr

namespace Msisdn

/-- `default` (msisdn.rs:21-32). -/
def dflt : Msisdn := ⟨134, 2, 1, 1, 1, ['0']⟩

/-- msisdn.rs:39. -/
def octet (e n p : UInt8) : UInt8 := (e <<< 7) ||| (n <<< 4) ||| p

/-- `marshal` (msisdn.rs:35-43). -/
def marshal (x : Msisdn) : Bytes :=
  tlv x.t x.length (octet x.extension x.number_nature x.number_plan :: tbcdEncode x.msisdn)

/-- msisdn.rs:55-66: eight octets of digits are read, whatever the length. -/
def body (b : Bytes) (length : UInt16) : R Err Msisdn := do
  let v ← rd b 3
  if v &&& 0x0f = 1 ∨ v &&& 0x0f = 6 then
    let s ← sl b 4 12
    return ⟨134, length, (v &&& 0x80) >>> 7, (v &&& 0x70) >>> 4, v &&& 0x0f, tbcdDecode s⟩
  else .err .ieIncorrect

/-- `unmarshal` (msisdn.rs:45-73). -/
def unmarshal (m : Mode) (b : Bytes) : R Err Msisdn := withTlv m b (body b)

/-- `len` (msisdn.rs:75-77). -/
def len (m : Mode) (x : Msisdn) : R Err Nat := len3 m x.length

/-- Field values that the encoding of `Msisdn` can represent *and* the decoder can read: the number
must have 15 or 16 digits. -/
def WF (x : Msisdn) : Prop :=
  x.t = 134 ∧ x.length = 9 ∧ x.extension < 2 ∧ x.number_nature < 8 ∧ (x.number_plan = 1 ∨ x.number_plan = 6) ∧
  (∀ c ∈ x.msisdn, IsDigit c) ∧ (x.msisdn.length + 1) / 2 = 8

instance (x : Msisdn) : Decidable x.WF := by unfold WF; infer_instance

theorem octet_dec {e n p : UInt8} (he : e < 2) (hn : n < 8) (hp : p = 1 ∨ p = 6) :
    (octet e n p &&& 0x80) >>> 7 = e ∧ (octet e n p &&& 0x70) >>> 4 = n ∧ octet e n p &&& 0x0f = p := by
  have c2 : ∀ x : UInt8, x < 2 → x = 0 ∨ x = 1 := by decide +kernel
  rcases c2 e he with rfl | rfl <;> rcases hp with rfl | rfl <;> revert n <;> decide +kernel

theorem rt : RoundTrips WF marshal unmarshal := by
  intro m x tail h
  obtain ⟨t, l, e, n, p, s⟩ := x
  obtain ⟨ht, hl, he, hn, hp, hd, hs⟩ := h
  simp only at ht hl he hn hp hd hs
  subst ht hl
  have hb := tbcd_length _ hd
  have hr := tbcd_roundtrip _ hd
  rw [hs] at hb
  have h9 : (9 : UInt16).toNat = 9 := rfl
  simp only [marshal]
  rw [tlv_wf (by simp [hb])]
  simp only [List.cons_append, unmarshal]
  rw [withTlv_cons (by decide) (by decide) (by simp [hb])]
  obtain ⟨o1, o2, o3⟩ := octet_dec he hn hp
  obtain ⟨s0, s1, s2, s3, s4, s5, s6, s7, e8⟩ := exists_list8 hb
  rw [e8] at hr
  rw [e8]
  simp [body, o1, o2, o3, hp, sl, hr]

theorem len_ok : LenOk WF marshal len := by
  intro m x h
  obtain ⟨ht, hl, he, hn, hp, hd, hs⟩ := h
  rw [marshal, tlv_length, len, hl, len3_ok (by decide)]
  simp [tbcd_length _ hd, hs]

theorem declared : Declared unmarshal len := by
  intro m b x e
  have := withTlv_post (P := fun x : Msisdn => x.length = declLen b) m b _ (by
    intro y hy
    unfold body at hy
    cases h1 : (rd b 3 : R Err UInt8) <;> rw [h1] at hy <;> try cases hy
    rw [R.ok_bind] at hy
    split at hy
    · cases h2 : (sl b 4 12 : R Err Bytes) <;> rw [h2] at hy <;> cases hy
      rfl
    · cases hy) e
  rw [len, this]

/-- The decoder panics when fewer than eight octets of digits are in the buffer. -/
theorem panics : PanicsIff (TlvPanics fun b => b.length < 4 ∨
    (b.getD 3 0 &&& 0x0f = 1 ∨ b.getD 3 0 &&& 0x0f = 6) ∧ b.length < 12) unmarshal := by
  intro m b
  apply withTlv_panics
  intro h
  unfold body
  by_cases h4 : b.length < 4
  · rw [rd_ge (by omega)]; simp [h4]
  · have h3 : 3 < b.length := by omega
    have e : b.getD 3 0 = b[3] := by simp [h3]
    rw [rd_lt h3, R.ok_bind, e]
    split
    · rename_i hp
      by_cases h12 : b.length < 12
      · rw [sl, if_neg (by omega)]; simp [hp, h12]
      · rw [sl_ok (by omega) (by omega)]; simp [h4, h12]
    · rename_i hp
      simp [h4, hp]

end Msisdn

/-! ## Quality of Service profile -/

/-- `Qos` (qos.rs:12-17). -/
structure Qos where
  t : UInt8
  length : UInt16
  arp : UInt8
  qos : Bytes
deriving DecidableEq, Repr

namespace Qos

/-- `default` (qos.rs:19-28). -/
def dflt : Qos := ⟨135, 1, 0, []⟩

/-- `marshal` (qos.rs:31-39). -/
def marshal (x : Qos) : Bytes := tlv x.t x.length (x.arp :: x.qos)

/-- qos.rs:51-58. -/
def body (m : Mode) (b : Bytes) (length : UInt16) : R Err Qos := do
  let arp ← rd b 3
  let n ← add16 m length 3
  let qos ← sl b 4 n.toNat
  if 3 ≤ qos.length ∧ qos.length ≤ 255 then return ⟨135, length, arp, qos⟩
  else .err .ieIncorrect

/-- `unmarshal` (qos.rs:41-65). -/
def unmarshal (m : Mode) (b : Bytes) : R Err Qos := withTlv m b (body m b)

/-- `len` (qos.rs:67-69). -/
def len (m : Mode) (x : Qos) : R Err Nat := len3 m x.length

/-- Field values that the encoding of `Qos` can represent and the decoder accepts. -/
def WF (x : Qos) : Prop :=
  x.t = 135 ∧ x.length.toNat = x.qos.length + 1 ∧ 3 ≤ x.qos.length ∧ x.qos.length ≤ 255

instance (x : Qos) : Decidable x.WF := by unfold WF; infer_instance

theorem rt : RoundTrips WF marshal unmarshal := by
  intro m x tail h
  obtain ⟨t, l, a, s⟩ := x
  obtain ⟨ht, hl, h3, h5⟩ := h
  simp only at ht hl h3 h5
  subst ht
  have hb : l.toNat < 65533 := by omega
  simp only [marshal]
  rw [tlv_wf (by simpa using hl)]
  simp only [List.cons_append, unmarshal]
  rw [withTlv_cons (by omega) hb (by simp; omega)]
  have e : (sl (135 :: hi16 l :: lo16 l :: a :: (s ++ tail)) 4 (l.toNat + 3) : R Err Bytes) = .ok s := by
    rw [hl]; simp [sl]
  simp only [body, rd_succ, rd_zero, R.ok_bind, add16_three hb, toNat_add3 hb, e, h3, h5, and_self, if_true]
  rfl

theorem len_ok : LenOk WF marshal len := by
  intro m x h
  have h5 := h.2.2.2
  rw [marshal, tlv_length, len, len3_ok (by rw [h.2.1]; omega), h.2.1]
  rfl

theorem declared : Declared unmarshal len := by
  intro m b x e
  have := withTlv_post (P := fun x : Qos => x.length = declLen b) m b _ (by
    intro y hy
    unfold body at hy
    cases h1 : (rd b 3 : R Err UInt8) <;> rw [h1] at hy <;> try cases hy
    rw [R.ok_bind] at hy
    cases h2 : (add16 m (declLen b) 3 : R Err UInt16) <;> rw [h2] at hy <;> try cases hy
    rename_i n
    rw [R.ok_bind] at hy
    cases h3 : (sl b 4 n.toNat : R Err Bytes) <;> rw [h3] at hy <;> try cases hy
    rw [R.ok_bind] at hy
    split at hy <;> cases hy
    rfl) e
  rw [len, this]

theorem panics : PanicsIff Overflows unmarshal := by
  intro m b
  have key := withTlv_panics (P := fun b => 65533 ≤ (declLen b).toNat) (m := m) (b := b) (f := body m b) (by
    intro h
    unfold body
    have h3 := three
    by_cases h1 : 65533 ≤ (declLen b).toNat
    · simp only [h1, iff_true]
      by_cases h4 : 3 < b.length
      · rw [rd_lt h4, R.ok_bind]
        cases m with
        | debug =>
          have : ¬ (declLen b).toNat + (3 : UInt16).toNat < 65536 := by omega
          simp only [add16, this, if_false, R.panic_bind]
          simp
        | release =>
          have hlt := (declLen b).toNat_lt
          simp only [add16, R.ok_bind, add3_wrap h1, sl]
          rw [if_neg (by omega)]
          simp
      · rw [rd_ge (by omega)]; simp
    · simp only [h1, iff_false]
      have hr : Room b := by
        rcases h with h | h
        · exact h
        · exact absurd h.2.2 h1
      have h4 : 3 < b.length := by have := hr.2.1; have := hr.2.2.2; omega
      have h0 := hr.2.1
      rw [rd_lt h4, R.ok_bind, add16_three (by omega), R.ok_bind, toNat_add3 (by omega),
        sl_ok (by omega) hr.2.2.2, R.ok_bind]
      split <;> simp)
  refine ⟨key.1.trans ?_, key.2⟩
  unfold TlvPanics
  constructor
  · rintro (⟨rfl, h⟩ | ⟨h | h, h'⟩)
    · exact h
    · have := h.2.2.1; omega
    · exact h.2
  · intro h
    cases m
    · exact .inl ⟨rfl, h⟩
    · exact .inr ⟨.inr ⟨rfl, h⟩, h.2⟩

end Qos

/-! ## Extension Header Type List -/

/-- `ExtensionHeaderTypeList` (extensionheadertypelist.rs:12-16). -/
structure ExtensionHeaderTypeList where
  t : UInt8
  length : UInt8
  list : Bytes
deriving DecidableEq, Repr

namespace ExtensionHeaderTypeList

/-- `default` (extensionheadertypelist.rs:18-26). -/
def dflt : ExtensionHeaderTypeList := ⟨141, 0, []⟩

/-- `marshal` (extensionheadertypelist.rs:29-36). -/
def marshal (x : ExtensionHeaderTypeList) : Bytes :=
  let b := x.t :: x.length :: x.list
  b.set 1 (UInt8.ofNat (b.length - 2))

/-- `unmarshal` (extensionheadertypelist.rs:38-49): `length + 2` in `u8`; the list extends to the end
of the buffer. -/
def unmarshal (m : Mode) (b : Bytes) : R Err ExtensionHeaderTypeList := do
  let length ← rd b 1
  let n ← add8 m length 2
  if n.toNat ≤ b.length then
    let list ← slFrom b 2
    return ⟨141, length, list⟩
  else .err .ieInvalidLength

/-- `len` (extensionheadertypelist.rs:51-53). -/
def len (m : Mode) (x : ExtensionHeaderTypeList) : R Err Nat := do
  let n ← add8 m x.length 2
  return n.toNat

/-- Field values that the encoding of `ExtensionHeaderTypeList` can represent. -/
def WF (x : ExtensionHeaderTypeList) : Prop :=
  x.t = 141 ∧ x.length.toNat = x.list.length ∧ x.list.length < 254

instance (x : ExtensionHeaderTypeList) : Decidable x.WF := by unfold WF; infer_instance

theorem two : (2 : UInt8).toNat = 2 := rfl

theorem add2_ok {m : Mode} {l : UInt8} (h : l.toNat < 254) : (add8 m l 2 : R Err UInt8) = .ok (l + 2) :=
  add8_ok (by have := two; omega)

theorem toNat_add2 {l : UInt8} (h : l.toNat < 254) : (l + 2).toNat = l.toNat + 2 := by
  rw [UInt8.toNat_add, two]; omega

theorem marshal_eq {x : ExtensionHeaderTypeList} (h : x.WF) : x.marshal = 141 :: x.length :: x.list := by
  obtain ⟨t, l, s⟩ := x
  obtain ⟨rfl, hl, h2⟩ := h
  simp only at hl
  have : UInt8.ofNat s.length = l := by rw [← hl]; simp
  simp [marshal, this]

/-- The list swallows everything behind the element. -/
theorem greedy (m : Mode) (x : ExtensionHeaderTypeList) (tail : Bytes) (h : x.WF) :
    unmarshal m (x.marshal ++ tail) = .ok { x with list := x.list ++ tail } := by
  rw [marshal_eq h]
  obtain ⟨t, l, s⟩ := x
  obtain ⟨rfl, hl, h2⟩ := h
  simp only at hl h2
  simp only [List.cons_append, unmarshal, rd_succ, rd_zero, R.ok_bind, add2_ok (l := l) (by omega),
    toNat_add2 (l := l) (by omega)]
  rw [if_pos (by simp; omega)]
  simp [slFrom]

theorem rt (m : Mode) (x : ExtensionHeaderTypeList) (h : x.WF) : unmarshal m x.marshal = .ok x := by
  simpa using greedy m x [] h

theorem len_ok : LenOk WF marshal len := by
  intro m x h
  obtain ⟨ht, hl, h2⟩ := h
  rw [marshal_eq ⟨ht, hl, h2⟩]
  simp [len, add2_ok (l := x.length) (by omega), toNat_add2 (l := x.length) (by omega), hl]

/-- Panics: no length octet, or `length + 2` overflows in a debug build; a wrapped sum never panics,
since the list is read from octet 2 of a buffer of two octets at least. -/
theorem panics : PanicsIff (fun m b => b.length < 2 ∨ m = .debug ∧ 254 ≤ (b.getD 1 0).toNat) unmarshal := by
  intro m b
  unfold unmarshal
  by_cases h2 : b.length < 2
  · rw [rd_ge (by omega)]; simp [h2]
  · have h1 : 1 < b.length := by omega
    have e : b.getD 1 0 = b[1] := by simp [h1]
    simp only [e]
    rw [rd_lt h1, R.ok_bind]
    have hs : (slFrom b 2 : R Err Bytes) = .ok (b.drop 2) := by rw [slFrom, if_pos (by omega)]
    rw [hs]
    by_cases h : b[1].toNat < 254
    · rw [add2_ok h, R.ok_bind]
      have : ¬ 254 ≤ b[1].toNat := by omega
      split <;> simp [h2, this]
    · have h' : 254 ≤ b[1].toNat := by omega
      cases m with
      | debug =>
        have h2' := two
        have : ¬ b[1].toNat + (2 : UInt8).toNat < 256 := by omega
        rw [add8, if_neg this, R.panic_bind]
        simp [h']
      | release =>
        simp only [add8, R.ok_bind]
        split <;> simp [h2]

end ExtensionHeaderTypeList

/-! ## GGSN Back-Off Time -/

/-- `GGSNBackOffTime` (ggsnbackofftime.rs:13-18). -/
structure GGSNBackOffTime where
  t : UInt8
  length : UInt16
  timer_unit : UInt8
  timer_value : UInt8
deriving DecidableEq, Repr

namespace GGSNBackOffTime

/-- `default` (ggsnbackofftime.rs:20-29). -/
def dflt : GGSNBackOffTime := ⟨202, 1, 0, 0⟩

/-- ggsnbackofftime.rs:36-39. -/
def octet (u v : UInt8) : UInt8 := if v < 0x7f then (u <<< 5) ||| v else (u <<< 5) ||| 0x7f

/-- ggsnbackofftime.rs:50-54. -/
def unitOf (o : UInt8) : UInt8 := if o >>> 5 ≤ 4 then o >>> 5 else if o >>> 5 = 7 then 7 else 1

/-- `marshal` (ggsnbackofftime.rs:32-42). -/
def marshal (x : GGSNBackOffTime) : Bytes := tlv x.t x.length [octet x.timer_unit x.timer_value]

/-- `unmarshal` (ggsnbackofftime.rs:44-60): the size check asks for two octets, four are read. -/
def unmarshal (_m : Mode) (b : Bytes) : R Err GGSNBackOffTime := do
  if 2 ≤ b.length then
    let length ← rd16 b 1
    let v ← rd b 3
    return ⟨202, length, unitOf v, v &&& 0x1f⟩
  else .err .ieInvalidLength

/-- `len` (ggsnbackofftime.rs:62-64). -/
def len (m : Mode) (x : GGSNBackOffTime) : R Err Nat := len3 m x.length

/-- Field values that the encoding of `GGSNBackOffTime` can represent. -/
def WF (x : GGSNBackOffTime) : Prop :=
  x.t = 202 ∧ x.length = 1 ∧ (x.timer_unit ≤ 4 ∨ x.timer_unit = 7) ∧ x.timer_value < 32

instance (x : GGSNBackOffTime) : Decidable x.WF := by unfold WF; infer_instance

theorem octet_dec {u v : UInt8} (hu : u ≤ 4 ∨ u = 7) (hv : v < 32) :
    unitOf (octet u v) = u ∧ octet u v &&& 0x1f = v := by
  have c : ∀ x : UInt8, x ≤ 4 ∨ x = 7 → x = 0 ∨ x = 1 ∨ x = 2 ∨ x = 3 ∨ x = 4 ∨ x = 7 := by decide +kernel
  rcases c u hu with rfl | rfl | rfl | rfl | rfl | rfl <;> revert v <;> decide +kernel

theorem rt : RoundTrips WF marshal unmarshal := by
  intro m x tail h
  obtain ⟨t, l, u, v⟩ := x
  obtain ⟨ht, hl, hu, hv⟩ := h
  simp only at ht hl hu hv
  subst ht hl
  have ho := octet_dec hu hv
  simp only [marshal]
  rw [tlv_wf (by simp)]
  rt_simp [unmarshal, ho]

theorem len_ok : LenOk WF marshal len := by
  intro m x h
  rw [marshal, tlv_length, len, h.2.1, len3_ok (by decide)]
  rfl

theorem unmarshal_eq (m : Mode) (b : Bytes) : unmarshal m b =
    if b.length < 2 then .err .ieInvalidLength
    else if b.length < 4 then .panic
    else .ok ⟨202, declLen b, unitOf (b.getD 3 0), b.getD 3 0 &&& 0x1f⟩ := by
  unfold unmarshal
  by_cases h2 : 2 ≤ b.length
  · rw [if_pos h2, if_neg (by omega)]
    by_cases h4 : b.length < 4
    · rw [if_pos h4]
      by_cases h3 : 3 ≤ b.length
      · rw [rd16_decl h3, R.ok_bind, rd_ge (by omega)]; rfl
      · have : (rd16 b 1 : R Err UInt16) = .panic := by
          unfold rd16
          rw [rd_lt (by omega : 1 < b.length), R.ok_bind, rd_ge (by omega)]; rfl
        rw [this]; rfl
    · have h3 : 3 < b.length := by omega
      rw [if_neg h4, rd16_decl (by omega), R.ok_bind, rd_lt h3]
      simp [h3]
  · rw [if_neg h2, if_pos (by omega)]

theorem declared : Declared unmarshal len := by
  intro m b x e
  rw [unmarshal_eq] at e
  split at e
  · cases e
  split at e
  · cases e
  cases e; rfl

theorem panics : PanicsIff (fun _ b => b.length = 2 ∨ b.length = 3) unmarshal := by
  intro m b
  rw [unmarshal_eq]
  split
  · simp; omega
  split
  · simp; omega
  · simp; omega

end GGSNBackOffTime

/-! ## Private Extension -/

/-- `PrivateExtension` (privateextension.rs:12-17). -/
structure PrivateExtension where
  t : UInt8
  length : UInt16
  extension_id : UInt16
  extension_value : Bytes
deriving DecidableEq, Repr

namespace PrivateExtension

/-- `default` (privateextension.rs:19-28). -/
def dflt : PrivateExtension := ⟨255, 0, 0, []⟩

/-- `marshal` (privateextension.rs:31-39). -/
def marshal (x : PrivateExtension) : Bytes := tlv x.t x.length (be16 x.extension_id ++ x.extension_value)

/-- privateextension.rs:48-50: the value extends to the end of the buffer. -/
def body (b : Bytes) (length : UInt16) : R Err PrivateExtension := do
  let i ← rd16 b 3
  let v ← slFrom b 5
  return ⟨255, length, i, v⟩

/-- `unmarshal` (privateextension.rs:41-57). -/
def unmarshal (m : Mode) (b : Bytes) : R Err PrivateExtension := withTlv m b (body b)

/-- `len` (privateextension.rs:59-61). -/
def len (m : Mode) (x : PrivateExtension) : R Err Nat := len3 m x.length

/-- Field values that the encoding of `PrivateExtension` can represent. -/
def WF (x : PrivateExtension) : Prop :=
  x.t = 255 ∧ x.length.toNat = x.extension_value.length + 2 ∧ x.length.toNat < 65533

instance (x : PrivateExtension) : Decidable x.WF := by unfold WF; infer_instance

/-- The value swallows everything behind the element. -/
theorem greedy (m : Mode) (x : PrivateExtension) (tail : Bytes) (h : x.WF) :
    unmarshal m (x.marshal ++ tail) = .ok { x with extension_value := x.extension_value ++ tail } := by
  obtain ⟨t, l, i, s⟩ := x
  obtain ⟨ht, hl, hb⟩ := h
  simp only at ht hl hb
  subst ht
  simp only [marshal]
  rw [tlv_wf (by simp [gtp]; omega)]
  simp only [List.cons_append, unmarshal]
  rw [withTlv_cons (by omega) hb (by simp [gtp]; omega)]
  simp [body, rd16, be16, slFrom, of16_be]

theorem rt (m : Mode) (x : PrivateExtension) (h : x.WF) : unmarshal m x.marshal = .ok x := by
  simpa using greedy m x [] h

theorem len_ok : LenOk WF marshal len := by
  intro m x h
  rw [marshal, tlv_length, len, len3_ok h.2.2, h.2.1]
  simp [gtp]

theorem declared : Declared unmarshal len := by
  intro m b x e
  have := withTlv_post (P := fun x : PrivateExtension => x.length = declLen b) m b _ (by
    intro y hy
    unfold body at hy
    cases h1 : (rd16 b 3 : R Err UInt16) <;> rw [h1] at hy <;> try cases hy
    rw [R.ok_bind] at hy
    cases h2 : (slFrom b 5 : R Err Bytes) <;> rw [h2] at hy <;> cases hy
    rfl) e
  rw [len, this]

/-- The octets of the extension identifier are read without checking that they are there. -/
theorem panics : PanicsIff (TlvPanics fun b => b.length < 5) unmarshal := by
  intro m b
  apply withTlv_panics
  intro h
  unfold body
  by_cases h5 : b.length < 5
  · have : (rd16 b 3 : R Err UInt16) = .panic := by
      unfold rd16
      by_cases h3 : 3 < b.length
      · rw [rd_lt h3, R.ok_bind, rd_ge (by omega)]; rfl
      · rw [rd_ge (by omega)]; rfl
    rw [this]; simp [h5]
  · have h3 : 3 < b.length := by omega
    have h4 : 3 + 1 < b.length := by omega
    rw [rd16, rd_lt h3, R.ok_bind, rd_lt h4, R.ok_bind, slFrom, if_pos (by omega)]
    simp [h5]

end PrivateExtension

end Gtp.C1
