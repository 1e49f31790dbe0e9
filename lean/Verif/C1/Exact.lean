import Verif.C1.Stable
import Verif.V2.Exact

/-!
# Values of GTPv1-C information elements that survive the round trip

The conditions collected in `Kind.Faithful` are necessary, except for the list of extension header types.
-/

namespace Gtp.C1
open Gtp.V1
open Gtp.V2 (NameOk encName decName NameOk_of_rt)

theorem Post_bind_eq {α β : Type} {x : R V1.Err α} {f : α → R V1.Err β} {P : β → Prop} (h : ∀ a, x = .ok a → (f a).Post P) : (x >>= f).Post P :=
  (Post_bind ..).mpr (Post.intro h)

theorem Post_bind_any {α β : Type} {x : R V1.Err α} {f : α → R V1.Err β} {P : β → Prop} (h : ∀ a, (f a).Post P) : (x >>= f).Post P :=
  Post_bind_eq fun a _ => h a

theorem Post_ite_any {α : Type} {P : α → Prop} {c : Prop} [Decidable c] {x y : R V1.Err α} (hx : x.Post P) (hy : y.Post P) :
    (if c then x else y).Post P := by
  split
  · exact hx
  · exact hy

theorem sl_bound {b : Bytes} {i j : Nat} {s : Bytes} (h : (sl b i j : R V1.Err Bytes) = .ok s) : s.length = j - i ∧ i ≤ j ∧ j ≤ b.length := by
  unfold sl at h
  split at h
  · cases h
    simp
    omega
  · cases h

theorem Imsi.exact {m : Mode} {x : Imsi} (hU : Imsi.unmarshal m x.marshal = .ok x) : (x.imsi.length + 1) / 2 = 8 := by
  have key : ∀ b, (Imsi.unmarshal m b).Post fun x => 9 ≤ b.length ∧ ∃ s, s.length = 8 ∧ x.imsi = tbcdDecode s := by
    intro b
    unfold Imsi.unmarshal
    refine Post_ite_any ?_ trivial
    refine Post_bind_eq fun s hs => ?_
    have := sl_bound hs
    exact ⟨by omega, s, by omega, rfl⟩
  obtain ⟨h1, s, h2, h3⟩ := Post.elim (key _) hU
  have h4 := Gtp.V2.tbcdDecode_length s
  have h5 := tbcd_length x.imsi (by rw [h3]; exact tbcdDecode_digits s)
  rw [← h3] at h4
  simp only [Imsi.marshal, List.length_cons] at h1
  omega

theorem Imei.exact {m : Mode} {x : Imei} (hU : Imei.unmarshal m x.marshal = .ok x) : (x.imei.length + 1) / 2 = 8 := by
  have key : ∀ b, (Imei.unmarshal m b).Post fun x => 11 ≤ b.length ∧ ∃ s, s.length = 8 ∧ x.imei = tbcdDecode s := by
    intro b
    unfold Imei.unmarshal
    refine Post_ite_any ?_ trivial
    refine Post_bind_eq fun s hs => ?_
    have := sl_bound hs
    exact ⟨by omega, s, by omega, rfl⟩
  obtain ⟨h1, s, h2, h3⟩ := Post.elim (key _) hU
  have h4 := Gtp.V2.tbcdDecode_length s
  have h5 := tbcd_length x.imei (by rw [h3]; exact tbcdDecode_digits s)
  rw [← h3] at h4
  simp only [Imei.marshal, tlv_length] at h1
  omega

theorem Msisdn.exact {m : Mode} {x : Msisdn} (hU : Msisdn.unmarshal m x.marshal = .ok x) : (x.msisdn.length + 1) / 2 = 8 := by
  have key : ∀ b, (Msisdn.unmarshal m b).Post fun x => 12 ≤ b.length ∧ ∃ s, s.length = 8 ∧ x.msisdn = tbcdDecode s := by
    intro b
    unfold Msisdn.unmarshal withTlv Msisdn.body
    refine Post_ite_any ?_ trivial
    refine Post_bind_any fun _ => Post_bind_any fun _ => Post_ite_any ?_ trivial
    refine Post_bind_any fun _ => Post_ite_any ?_ trivial
    refine Post_bind_eq fun s hs => ?_
    have := sl_bound hs
    exact ⟨by omega, s, by omega, rfl⟩
  obtain ⟨h1, s, h2, h3⟩ := Post.elim (key _) hU
  have h4 := Gtp.V2.tbcdDecode_length s
  have h5 := tbcd_length x.msisdn (by rw [h3]; exact tbcdDecode_digits s)
  rw [← h3] at h4
  simp only [Msisdn.marshal, tlv_length, List.length_cons] at h1
  omega

theorem At_tlv {t : UInt8} {l : UInt16} {body : Bytes} : At (tlv t l body) 1 (be16 (lenU16 body) ++ body) ∧ At (tlv t l body) 3 body := by
  rw [tlv_eq]
  have h0 : At (t :: (be16 (lenU16 body) ++ body)) 0 (t :: (be16 (lenU16 body) ++ body)) := At.start _
  exact ⟨h0.next, h0.next.skip (by simp [be16])⟩

theorem Uci.exact {m : Mode} {x : Uci} (hU : Uci.unmarshal m x.marshal = .ok x) : x.csgid.toNat < 2 ^ 27 := by
  have key : ∀ b, (Uci.unmarshal m b).Post fun x => (rd32 b 6 : R V1.Err UInt32) = .ok x.csgid := by
    intro b
    unfold Uci.unmarshal
    refine Post_ite_any ?_ trivial
    exact Post_bind_any fun _ => Post_bind_any fun _ => Post_bind_any fun _ => Post_bind_eq fun _ h => Post_bind_any fun _ => h
  have h := Post.elim (key _) hU
  have h3 := (At_tlv (t := x.t) (l := x.length) (body := mccMncEncode x.mcc x.mnc x.mnc_is_three_digits ++ be32 (x.csgid &&& 0x07ffffff) ++ [modes x.access_mode x.cmi])).2
  have h7 : (rd32 x.marshal 6 : R V1.Err UInt32) = .ok (x.csgid &&& 0x07ffffff) := by
    unfold Uci.marshal
    generalize tlv x.t x.length _ = b at h3
    rw [List.append_assoc] at h3
    exact (h3.skip (n := 6) (by rw [mccMncEncode_length])).rd32
  have h := R.ok.inj (h7.symm.trans h)
  rw [← h, UInt32.toNat_and]
  exact Nat.lt_of_le_of_lt Nat.and_le_right (by decide)

theorem Apn.exact {m : Mode} {x : Apn} (hl : x.marshal.length < 65536) (hU : Apn.unmarshal m x.marshal = .ok x) : NameOk x.name := by
  have key : ∀ b, (Apn.unmarshal m b).Post fun x => ∃ n d, (rd16 b 1 : R V1.Err UInt16) = .ok n ∧ (sl b 3 (3 + n.toNat) : R V1.Err Bytes) = .ok d ∧
      (decName d : R V1.Err Str) = .ok x.name := by
    intro b
    unfold Apn.unmarshal withTlv Apn.body
    refine Post_ite_any ?_ trivial
    refine Post_bind_eq fun n hn => Post_bind_any fun _ => Post_ite_any ?_ trivial
    refine Post_bind_eq fun d hd => Post_bind_eq fun s hs => ⟨n, d, hn, hd, hs⟩
  obtain ⟨n, d, h1, h2, h3⟩ := Post.elim (key _) hU
  obtain ⟨g1, g2⟩ := At_tlv (t := x.t) (l := x.length) (body := encName x.name)
  have hn : n = lenU16 (encName x.name) := R.ok.inj (h1.symm.trans g1.rd16)
  rw [Apn.marshal, tlv_length] at hl
  have hn : n.toNat = (encName x.name).length := by rw [hn, lenU16, UInt16.toNat_ofNat']; omega
  have g3 : (sl x.marshal 3 (3 + n.toNat) : R V1.Err Bytes) = .ok (encName x.name) := by
    rw [← List.append_nil (encName x.name)] at g2
    unfold Apn.marshal
    rw [← List.append_nil (encName x.name)]
    exact (At.sl (p := encName x.name) (r := []) g2 (by omega)).trans (by simp)
  rw [← R.ok.inj (g3.symm.trans h2)] at h3
  exact NameOk_of_rt h3

/-- A value that is decoded back from its encoding satisfies the conditions collected in `Kind.Faithful`. -/
theorem Kind.faithful_of_rt {m : Mode} {k : Kind} (hk : k ≠ .ExtensionHeaderTypeList) {x : k.Ty} (hl : (k.codec.mar x).length < 65536)
    (h : k.codec.unm m (k.codec.mar x) = .ok x) : k.Faithful x := by
  cases k
  case Imsi => exact Imsi.exact (m := m) h
  case Imei => exact Imei.exact (m := m) h
  case Msisdn => exact Msisdn.exact (m := m) h
  case Uci =>
    have e : (Kind.codec .Uci).unm m = Uci.unmarshal m := rfl
    have e' : (Kind.codec .Uci).mar x = Uci.marshal x := rfl
    rw [e, e'] at h
    exact Uci.exact h
  case Apn => exact Apn.exact (m := m) hl h
  case ExtensionHeaderTypeList => exact absurd rfl hk
  all_goals trivial

end Gtp.C1
