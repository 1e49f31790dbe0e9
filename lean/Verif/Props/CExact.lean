import Verif.C1.Exact
import Verif.Props.CRelay

/-!
# Property C35, the other direction

`C35_ie_roundtrip_partial` has a hypothesis on the fields, the `WF` of the kind. It is not only sufficient but necessary: no other value
is read back from its own encoding. The list of extension header types is the exception (`C35_exact_list`).
-/

namespace Gtp.Props.C1
open Gtp.C1 Gtp.V1

/-- The decoder of the kind reads `x` back from its encoding, whatever follows. -/
def Survives (m : Mode) (k : Kind) (x : k.Ty) : Prop := ∀ tail, k.codec.unm m (k.codec.mar x ++ tail) = .ok x

/-- The decoder of the kind reads `x` back from its encoding at the end of the buffer. -/
def SurvivesLast (m : Mode) (k : Kind) (x : k.Ty) : Prop := k.codec.unm m (k.codec.mar x) = .ok x

/-- The first octet of an endpoint identifier is one of the two types that messages dispatch to its decoder, which keeps any. -/
def TeidType (k : Kind) (x : k.Ty) : Prop := k = .Teid → (k.codec.mar x).head? = some 16 ∨ (k.codec.mar x).head? = some 17

/-- C35 (partial), exactly, at the end of the buffer: the values that the decoder reads back are those of `WF`. Missing: lists of
extension header types, and endpoint identifiers with a foreign type octet. -/
theorem C35_exact_last_partial (m : Mode) (k : Kind) (hk : k ≠ .ExtensionHeaderTypeList) (x : k.Ty) (ht : TeidType k x)
    (hl : (k.codec.mar x).length < 65536) : SurvivesLast m k x ↔ k.codec.WF x := by
  refine ⟨fun h => ?_, fun h => C35_ie_roundtrip_last m k x h⟩
  have hw := Kind.norm_WF h (Kind.faithful_of_rt hk hl h) ht hl
  have h2 := C63_round_trip m k x hw [] (fun _ => rfl)
  rw [List.append_nil] at h2
  have e : k.norm x = x := R.ok.inj (h2.symm.trans h)
  exact e ▸ hw

/-- C35 (partial), exactly: the values that the decoder reads back, whatever follows, are those of `WF`. Missing: the two kinds that
swallow what follows, and endpoint identifiers with a foreign type octet. -/
theorem C35_exact_partial (m : Mode) (k : Kind) (hk : ¬ Swallows k) (x : k.Ty) (ht : TeidType k x)
    (hl : (k.codec.mar x).length < 65536) : Survives m k x ↔ k.codec.WF x := by
  refine ⟨fun h => ?_, fun h tail => C35_ie_roundtrip_partial m k hk x h tail⟩
  have h0 := h []
  rw [List.append_nil] at h0
  exact (C35_exact_last_partial m k (fun e => hk (.inr e)) x ht hl).mp h0

/-- C35 exactly, for the list of extension header types at the end of the buffer. There `WF` is too strong: the decoder takes whatever
follows the length octet, so that lists that the octet cannot count survive too, and in debug builds all but those whose length, modulo
256, is 254 or 255. -/
theorem C35_exact_list (m : Mode) (x : ExtensionHeaderTypeList) : SurvivesLast m .ExtensionHeaderTypeList x ↔
    x.t = 141 ∧ x.length.toNat = x.list.length % 256 ∧ (m = .debug → x.list.length % 256 < 254) := by
  obtain ⟨t, l, s⟩ := x
  have e : ExtensionHeaderTypeList.marshal ⟨t, l, s⟩ = t :: UInt8.ofNat s.length :: s := by simp [ExtensionHeaderTypeList.marshal]
  have h : SurvivesLast m .ExtensionHeaderTypeList (⟨t, l, s⟩ : ExtensionHeaderTypeList) ↔
      ExtensionHeaderTypeList.unmarshal m (ExtensionHeaderTypeList.marshal ⟨t, l, s⟩) = .ok ⟨t, l, s⟩ := Iff.rfl
  have h2 : ((2 : UInt8).toNat) = 2 := rfl
  have hn : (UInt8.ofNat s.length).toNat = s.length % 256 := by simp
  have hs : (UInt8.ofNat s.length + 2).toNat ≤ s.length + 2 := by
    rw [UInt8.toNat_add, hn, h2]
    omega
  have hl : UInt8.ofNat s.length = l ↔ l.toNat = s.length % 256 := by
    rw [← UInt8.toNat_inj, hn]
    exact eq_comm
  have ht : (141 = t) ↔ t = 141 := eq_comm
  rw [h, e]
  unfold ExtensionHeaderTypeList.unmarshal
  rw [rd_succ, rd_zero, R.ok_bind]
  cases m
  · unfold add8
    simp only [hn, h2]
    by_cases hc : s.length % 256 + 2 < 256
    · rw [if_pos hc, R.ok_bind, if_pos (by simpa using hs)]
      simp only [slFrom]
      rw [if_pos (by simp), R.ok_bind]
      simp [hl, ht]
      omega
    · rw [if_neg hc]
      simp
      omega
  · unfold add8
    simp only [R.ok_bind]
    rw [if_pos (by simpa using hs)]
    simp only [slFrom]
    rw [if_pos (by simp), R.ok_bind]
    simp [hl, ht]

/-- A list of 300 extension header types survives; one of 254 does in release builds only; neither is well-formed. -/
def exList (n : Nat) : Kind.Ty .ExtensionHeaderTypeList := (⟨141, UInt8.ofNat n, List.replicate n 0xc0⟩ : ExtensionHeaderTypeList)

example : SurvivesLast .debug .ExtensionHeaderTypeList (exList 300) ∧ SurvivesLast .release .ExtensionHeaderTypeList (exList 254) ∧
    ¬ SurvivesLast .debug .ExtensionHeaderTypeList (exList 254) ∧ ¬ (Kind.codec .ExtensionHeaderTypeList).WF (exList 300) := by
  refine ⟨(C35_exact_list .debug (exList 300)).mpr (by decide +kernel), (C35_exact_list .release (exList 254)).mpr (by decide +kernel),
    fun h => absurd ((C35_exact_list .debug (exList 254)).mp h) (by decide +kernel), by decide +kernel⟩

/-- Identities of 15 and 14 digits, numbers of 15 and 11 digits, and a cell identity of 28 bits. -/
def exImsi14 : Kind.Ty .Imsi := (⟨2, "31026012345678".toList⟩ : Imsi)
def exMsisdn15 : Kind.Ty .Msisdn := (⟨134, 9, 1, 1, 1, "385911234567890".toList⟩ : Msisdn)
def exMsisdn11 : Kind.Ty .Msisdn := (⟨134, 7, 1, 1, 1, "38591123456".toList⟩ : Msisdn)
def exUci28 : Kind.Ty .Uci := (⟨194, 8, 262, 3, false, 0x08000001, .closedMode, .csgMembership⟩ : Uci)

example (m : Mode) : Survives m .Imsi exImsi ∧ ¬ Survives m .Imsi exImsi14 ∧ Survives m .Msisdn exMsisdn15 ∧ ¬ Survives m .Msisdn exMsisdn11 ∧
    ¬ Survives m .Uci exUci28 ∧ ¬ Survives m .Apn exLength := by
  have hs : ¬ Swallows .Imsi ∧ ¬ Swallows .Msisdn ∧ ¬ Swallows .Uci ∧ ¬ Swallows .Apn := by
    simp [Swallows]
  refine ⟨(C35_exact_partial m .Imsi hs.1 exImsi (by simp [TeidType]) (by decide +kernel)).mpr (by decide +kernel), ?_,
    (C35_exact_partial m .Msisdn hs.2.1 exMsisdn15 (by simp [TeidType]) (by decide +kernel)).mpr (by decide +kernel), ?_, ?_, ?_⟩
  · exact fun h => absurd ((C35_exact_partial m .Imsi hs.1 exImsi14 (by simp [TeidType]) (by decide +kernel)).mp h) (by decide +kernel)
  · exact fun h => absurd ((C35_exact_partial m .Msisdn hs.2.1 exMsisdn11 (by simp [TeidType]) (by decide +kernel)).mp h) (by decide +kernel)
  · exact fun h => absurd ((C35_exact_partial m .Uci hs.2.2.1 exUci28 (by simp [TeidType]) (by decide +kernel)).mp h) (by decide +kernel)
  · exact fun h => absurd ((C35_exact_partial m .Apn hs.2.2.2 exLength (by simp [TeidType]) (by decide +kernel)).mp h) (by decide +kernel)

end Gtp.Props.C1
