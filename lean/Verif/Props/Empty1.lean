import Verif.C1.Empty
import Verif.U.Empty
import Verif.Props.UAccept

/-!
# `is_empty` of decoded GTPv1 elements (C92)

`is_empty` should hold of a decoded element exactly if it was received without a value: with a declared length of 0. For the GTPv1-C elements it
does, apart from an IMSI; but an element of fixed size is decoded in spite of a length of 0, from octets that are not its own. The GTPv1-U elements
and extension headers are called empty when their value is zero.
-/

namespace Gtp.Props
open Gtp.V1

/-! ## GTPv1-C -/

namespace C1
open Gtp.C1

/-- C92 for a GTPv1-C element with a length field: it is empty exactly if the two octets behind the type are 0. -/
theorem C92_length (k : Kind) (hk : k.hasLength = true) (m : Mode) (b : Bytes) (x : k.Ty) (h : k.codec.unm m b = .ok x) :
    k.isEmpty x = true ↔ b.getD 1 0 = 0 ∧ b.getD 2 0 = 0 := by
  rw [Kind.isEmpty_length k hk m b x h, beq_iff_eq, ← UInt16.toNat_inj, V2.declLen, of16_toNat, ← UInt8.toNat_inj, ← UInt8.toNat_inj]
  have h0 : (0 : UInt16).toNat = 0 := rfl
  have h1 : (0 : UInt8).toNat = 0 := rfl
  omega

/-- C92 for the elements without a length field, and the equipment identity, whose length field is not looked at: never empty. -/
theorem C92_value (k : Kind) (hk : k.hasLength = false) (hi : k ≠ .Imsi) (hl : k ≠ .ExtensionHeaderTypeList) (m : Mode) (b : Bytes) (x : k.Ty)
    (h : k.codec.unm m b = .ok x) : k.isEmpty x = false := by
  cases k <;> first | (cases hk; done) | rfl | exact absurd rfl hi | exact absurd rfl hl | skip
  case Imei =>
    change C1.Imei.unmarshal m b = .ok x at h
    unfold C1.Imei.unmarshal at h
    open_ok h
    cases h
    rfl

/-- C92 for the list of extension header types: empty exactly if its length octet is 0. -/
theorem C92_list (m : Mode) (b : Bytes) (x : ExtensionHeaderTypeList) (h : ExtensionHeaderTypeList.unmarshal m b = .ok x) :
    Kind.isEmpty .ExtensionHeaderTypeList x = true ↔ b.getD 1 0 = 0 := by
  unfold ExtensionHeaderTypeList.unmarshal at h
  match b, h with
  | [], h => cases h
  | [_], h => cases h
  | _ :: l :: r, h =>
    rw [rd_succ, rd_zero, R.ok_bind] at h
    open_ok h
    cases h
    exact beq_iff_eq

/-- The elements that refuse a length of 0. -/
def refusesZero : List Kind := [.EndUserAddress, .Apn, .Pco, .GsnAddress, .Msisdn, .Qos, .Tft, .TriggerId, .OmcId,
  .ChargingGWAddress, .PrivateExtension]

theorem withTlv_pos {α : Type} {m : Mode} {b : Bytes} {f : UInt16 → R Err α} {x : α} (h : withTlv m b f = .ok x) : V2.declLen b ≠ 0 := by
  unfold withTlv at h
  split at h
  · obtain ⟨l, hl, h⟩ := ok_bind_inv h
    obtain ⟨c, hc, h⟩ := ok_bind_inv h
    rw [rd16_one hl] at hc
    intro h0
    rw [h0] at hc
    simp only [checkTlv, if_true] at hc
    cases hc
    cases h
  · cases h

/-- C92: the elements of variable size are never empty, because a length of 0 is an error. -/
theorem C92_variable (k : Kind) (hk : k ∈ refusesZero) (m : Mode) (b : Bytes) (x : k.Ty) (h : k.codec.unm m b = .ok x) : k.isEmpty x = false := by
  have key : V2.declLen b ≠ 0 ∧ k.hasLength = true := by
    cases k <;> first | (exact absurd hk (by decide)) | exact ⟨withTlv_pos h, rfl⟩
  rw [Kind.isEmpty_length k key.2 m b x h, beq_eq_false_iff_ne]
  exact key.1

/-- C92 fails for flags received with the length 0: they are called empty, and one of them is set from the octet behind. An IMSI of the digit 0 is called
empty. -/
theorem C92_violation (m : Mode) :
    (∃ x, CommonFlags.unmarshal m [148, 0, 0, 0x10] = .ok x ∧ x.no_qos_negotiation = true ∧ Kind.isEmpty .CommonFlags x = true) ∧
    (∃ x, Imsi.unmarshal m [2, 0xf0, 0xff, 0xff, 0xff, 0xff, 0xff, 0xff, 0xff] = .ok x ∧ Kind.isEmpty .Imsi x = true) := by
  refine ⟨⟨⟨148, 0, false, false, false, true, false, false, false, false⟩, ?_, rfl, rfl⟩, ⟨2, ['0']⟩, ?_, rfl⟩ <;>
    cases m <;> decide +kernel

example : ∃ x, (Kind.codec .CommonFlags).unm .debug [148, 0, 1, 0x10] = .ok x ∧ Kind.isEmpty .CommonFlags x = false :=
  ⟨(⟨148, 1, false, false, false, true, false, false, false, false⟩ : CommonFlags), by decide +kernel, rfl⟩

example : ∃ x, (Kind.codec .Recovery).unm .debug [14, 0] = .ok x ∧ Kind.isEmpty .Recovery x = false :=
  ⟨(⟨14, 0⟩ : Recovery), by decide +kernel, rfl⟩

example : (Kind.codec .Pco).unm .debug [132, 0, 0, 8] = .err .ieInvalidLength := by decide +kernel

end C1

/-! ## GTPv1-U -/

open Gtp.U

theorem len4_cases {m : Mode} {l : UInt8} {n : Nat} (h : len4 m l = .ok n) : n = (l.toNat * 4) % 256 := by
  unfold len4 at h
  obtain ⟨k, hk, h⟩ := ok_bind_inv h
  cases h
  have h4 : (4 : UInt8).toNat = 4 := rfl
  cases m
  · simp only [mul8] at hk
    split at hk
    · cases hk
      rw [UInt8.toNat_mul, h4]
    · cases hk
  · simp only [mul8] at hk
    cases hk
    rw [UInt8.toNat_mul, h4]

theorem container_filled {m : Mode} {l : UInt8} {n : Nat} {b v : Bytes} (h : len4 m l = .ok n) (hs : (sl b 2 n : R Err Bytes) = .ok v) :
    v.isEmpty = false := by
  have hn := len4_cases h
  unfold sl at hs
  split at hs
  · next hc =>
    cases hs
    have : 0 < ((b.take n).drop 2).length := by
      rw [List.length_drop, List.length_take]
      omega
    match hv : (b.take n).drop 2, this with
    | _ :: _, _ => rfl
  · cases hs

/-- The two octets behind the length. -/
theorem rd16_two {b : Bytes} {v : UInt16} (h : (rd16 b 2 : R Err UInt16) = .ok v) : v == 0 ↔ b.getD 2 0 = 0 ∧ b.getD 3 0 = 0 := by
  match b with
  | [] => cases h
  | [_] => cases h
  | [_, _] => cases h
  | [_, _, _] => cases h
  | _ :: _ :: c :: d :: _ =>
    cases h
    rw [beq_iff_eq, ← UInt16.toNat_inj, of16_toNat]
    simp only [List.getD_cons_succ, List.getD_cons_zero, ← UInt8.toNat_inj]
    have h0 : (0 : UInt16).toNat = 0 := rfl
    have h1 : (0 : UInt8).toNat = 0 := rfl
    omega

/-- C92 for the extension headers: empty is the end of the chain, a PDCP number or port of 0, and a service class of 0. All the others are not empty. -/
theorem C92_ext (m : Mode) (b : Bytes) (x : ExtHdr) (h : ExtHdr.unmarshal m b = .ok x) :
    x.isEmpty = true ↔ b.getD 0 0 = 0 ∨ ((b.getD 0 0 = 0xc0 ∨ b.getD 0 0 = 0x40) ∧ b.getD 2 0 = 0 ∧ b.getD 3 0 = 0) ∨
      (b.getD 0 0 = 0x20 ∧ b.getD 2 0 = 0) := by
  match hb : b, h with
  | [], h => cases h
  | t :: r, h =>
  unfold ExtHdr.unmarshal at h
  rw [rd_zero, R.ok_bind] at h
  rw [List.getD_cons_zero]
  have cont : ∀ (ty : UInt8) (c : Container), Container.unmarshal m ty (t :: r) = .ok c → c.container.isEmpty = false := by
    intro ty c hc
    unfold Container.unmarshal at hc
    obtain ⟨l, -, hc⟩ := ok_bind_inv hc
    split at hc
    · cases hc
    obtain ⟨n, hn, hc⟩ := ok_bind_inv hc
    split at hc
    · obtain ⟨v, hv, hc⟩ := ok_bind_inv hc
      cases hc
      exact container_filled hn hv
    · cases hc
  have unk : ∀ c : Container, unknownUnmarshal m (t :: r) = .ok c → c.container.isEmpty = false := by
    intro c hc
    unfold unknownUnmarshal at hc
    obtain ⟨_, -, hc⟩ := ok_bind_inv hc
    obtain ⟨l, -, hc⟩ := ok_bind_inv hc
    split at hc
    · cases hc
    obtain ⟨n, hn, hc⟩ := ok_bind_inv hc
    split at hc
    · obtain ⟨v, hv, hc⟩ := ok_bind_inv hc
      cases hc
      exact container_filled hn hv
    · cases hc
  have long : ∀ c : LongPdcpPduNumber, LongPdcpPduNumber.unmarshal m (t :: r) = .ok c → (c.length == 0) = false := by
    intro c hc
    unfold LongPdcpPduNumber.unmarshal at hc
    obtain ⟨_, -, hc⟩ := ok_bind_inv hc
    split at hc
    · obtain ⟨l, -, hc⟩ := ok_bind_inv hc
      split at hc
      · cases hc
      next h0 =>
      obtain ⟨n, hn, hc⟩ := ok_bind_inv hc
      split at hc
      · obtain ⟨v, hv, hc⟩ := ok_bind_inv hc
        cases hc
        exact beq_eq_false_iff_ne.mpr h0
      · cases hc
    · cases hc
  split at h
  · next h0 => cases h; simp [ExtHdr.isEmpty, h0]
  split at h
  · next h0 h1 =>
    obtain ⟨c, hc, h⟩ := ok_bind_inv h
    cases h
    unfold PdcpPduNumber.unmarshal at hc
    open_ok hc
    cases hc
    simp only [ExtHdr.isEmpty]
    rw [rd16_two (by assumption), h1]
    simp
  split at h
  · next h0 h1 h2 =>
    obtain ⟨c, hc, h⟩ := ok_bind_inv h
    cases h
    unfold UdpPort.unmarshal at hc
    open_ok hc
    cases hc
    simp only [ExtHdr.isEmpty]
    rw [rd16_two (by assumption), h2]
    simp
  split at h
  · next h0 h1 h2 h3 =>
    obtain ⟨c, hc, h⟩ := ok_bind_inv h
    cases h
    simp only [ExtHdr.isEmpty, long c hc, h3]
    simp
  split at h
  · next h0 h1 h2 h3 h4 =>
    obtain ⟨c, hc, h⟩ := ok_bind_inv h
    cases h
    simp only [ExtHdr.isEmpty, long c hc, h4]
    simp
  split at h
  · next h0 h1 h2 h3 h4 h5 =>
    obtain ⟨c, hc, h⟩ := ok_bind_inv h
    cases h
    unfold Sci.unmarshal at hc
    match r, hc with
    | [], hc => cases hc
    | [_], hc =>
      open_ok hc
      exfalso
      rename_i hx
      cases hx
    | l :: v :: r, hc =>
      simp only [rd_succ, rd_zero] at hc
      open_ok hc
      rename_i hx
      cases hx
      cases hc
      simp [ExtHdr.isEmpty, h5]
  have rest : ¬ (t = 0 ∨ ((t = 0xc0 ∨ t = 0x40) ∧ (t :: r).getD 2 0 = 0 ∧ (t :: r).getD 3 0 = 0) ∨ (t = 0x20 ∧ (t :: r).getD 2 0 = 0)) := by
    rename_i h0 h1 h2 h3 h4 h5
    rintro (h | ⟨h | h, -⟩ | ⟨h, -⟩)
    · exact h0 h
    · exact h1 h
    · exact h2 h
    · exact h5 h
  refine iff_of_false ?_ rest
  rw [Bool.not_eq_true]
  repeat' split at h
  all_goals
    obtain ⟨c, hc, h⟩ := ok_bind_inv h
    cases h
    first
    | exact cont _ _ hc
    | exact unk _ hc

/-- C92 for a private extension and for a list of types as read from a message: empty is the one whose value ends the buffer; the list never is. -/
theorem C92_private (m : Mode) (r : Bytes) (x : PrivateExtension) (h : ¬ PrivBad r) (hx : PrivateExtension.unmarshal m r = .ok x) :
    x.isEmpty = true ↔ r.length = 5 := by
  have hs := (C80_private m r x h).mp hx
  match r, hs with
  | t :: a :: b :: i :: j :: v, hs =>
    simp only [privSpec] at hs
    split at hs
    · cases hs
      simp [PrivateExtension.isEmpty]
    · cases hs

/-- C92 fails for GTPv1-U: a restart counter, a TEID, an address and a PDCP number of 0 that were received are called empty. -/
theorem C92_u_violation (m : Mode) :
    (∃ x, Recovery.unmarshal [14, 0] = .ok x ∧ x.isEmpty = true) ∧
    (∃ x, Teid.unmarshal [16, 0, 0, 0, 0] = .ok x ∧ x.isEmpty = true) ∧
    (∃ x, GsnAddress.unmarshal m [133, 0, 4, 0, 0, 0, 0] = .ok x ∧ x.isEmpty = true) ∧
    (∃ x, ExtHdr.unmarshal m [0xc0, 1, 0, 0] = .ok x ∧ x.isEmpty = true) := by
  refine ⟨⟨⟨14, 0⟩, ?_, rfl⟩, ⟨⟨16, 0⟩, ?_, rfl⟩, ⟨⟨133, 4, .v4 0⟩, ?_, rfl⟩, ⟨.pdcpPduNumber ⟨0xc0, 1, 0⟩, ?_, rfl⟩⟩ <;>
    cases m <;> decide +kernel

example : ∃ x, ExtHdr.unmarshal .debug [0x85, 1, 0, 0] = .ok x ∧ x.isEmpty = false :=
  ⟨.pduSessionContainer ⟨0x85, 1, [0, 0]⟩, by decide +kernel, rfl⟩

example : ∃ x, PrivateExtension.unmarshal .debug [255, 0, 2, 0, 9] = .ok x ∧ x.isEmpty = true ∧ ¬ PrivBad [255, 0, 2, 0, 9] :=
  ⟨⟨255, 2, 9, []⟩, by decide +kernel, rfl, by unfold PrivBad; decide⟩

end Gtp.Props
