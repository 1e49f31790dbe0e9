import Verif.V2.SpareBase
import Verif.Props.CAppend
import Verif.Props.CMsgRecv

/-!
# C77: spare bits of GTPv1-C information elements are not evaluated by the receiver

TS 29.060 §6 and §7.7: "the bits of spare fields are not evaluated by the receiver", be they sent as zeros or as ones. `spareFigures` lists the
octets of the figures with spare bits.
-/

namespace Gtp.Props.C1
open Gtp.C1 Gtp.V1
open Gtp.V2 (cut)
set_option linter.unusedVariables false

/-- Element, number of the octet (from 1, as in the figures), the bits of that octet that are not spare. -/
def spareFigures : List (Kind × Nat × UInt8) :=
  [(.ReorderingRequired, 2, 0x01), (.SelectionMode, 2, 0x03), (.TeardownInd, 2, 0x01), (.Nsapi, 2, 0x0f), (.EndUserAddress, 4, 0x0f),
   (.MsTimeZone, 5, 0x03), (.DirectTunnelFlags, 4, 0x07), (.EvolvedAllocationRetentionI, 4, 0x7d), (.Uci, 7, 0x07), (.Uci, 11, 0xc1),
   (.CSGInformationReportingAction, 4, 0x07), (.Spi, 4, 0x01), (.CnOperatorSelectionEntity, 4, 0x03),
   (.ExtendedCommonFlagsII, 4, 0x07), (.UpFunctionSelectionIndicationFlags, 4, 0x01)]

/-- The bits of the octet at index `i` (from 0) of an element that are not spare. -/
def used (k : Kind) (i : Nat) : UInt8 :=
  match spareFigures.find? fun r => r.1 == k && r.2.1 == i + 1 with
  | some r => r.2.2
  | none => 255

/-- Two elements that differ in spare bits only. -/
def SameBut (k : Kind) (b b' : Bytes) : Prop := b.length = b'.length ∧ ∀ i, b.getD i 0 &&& used k i = b'.getD i 0 &&& used k i

/-- The kinds for which the code evaluates a spare bit. -/
def evaluates : List Kind := [.TeardownInd, .Uci, .Spi, .CnOperatorSelectionEntity, .UpFunctionSelectionIndicationFlags]

theorem used_other {k : Kind} {i : Nat} (h : ∀ r ∈ spareFigures, r.1 = k → r.2.1 ≠ i + 1) : used k i = 255 := by
  unfold used
  rw [List.find?_eq_none.mpr]
  intro r hr hc
  simp only [Bool.and_eq_true, beq_iff_eq] at hc
  exact h r hr hc.1 hc.2

section
variable {m : Mode} {u : Nat → UInt8} {b : Bytes}

theorem ReorderingRequired_spare (hu : ∀ k, k ≠ 1 → u k = 255) (h1 : u 1 = 1) : Gtp.C1.ReorderingRequired.unmarshal m (cut u b) = Gtp.C1.ReorderingRequired.unmarshal m b := by
  have k0 : ∀ v : UInt8, (v &&& (1 : UInt8)) &&& 1 = v &&& 1 := by decide +kernel
  simp only [Gtp.C1.ReorderingRequired.unmarshal, V2.bind_def, V2.cut_length, V2.rd_cut (j := 1), h1, V2.rbind_assoc, V2.rbind_ok, k0]

theorem SelectionMode_spare (hu : ∀ k, k ≠ 1 → u k = 255) (h1 : u 1 = 3) : Gtp.C1.SelectionMode.unmarshal m (cut u b) = Gtp.C1.SelectionMode.unmarshal m b := by
  have k0 : ∀ v : UInt8, (v &&& (3 : UInt8)) &&& 3 = v &&& 3 := by decide +kernel
  simp only [Gtp.C1.SelectionMode.unmarshal, V2.bind_def, V2.cut_length, V2.rd_cut (j := 1), h1, V2.rbind_assoc, V2.rbind_ok, k0]

theorem Nsapi_spare (hu : ∀ k, k ≠ 1 → u k = 255) (h1 : u 1 = 15) : Gtp.C1.Nsapi.unmarshal m (cut u b) = Gtp.C1.Nsapi.unmarshal m b := by
  have k0 : ∀ v : UInt8, (v &&& (15 : UInt8)) &&& 0x0f = v &&& 0x0f := by decide +kernel
  simp only [Gtp.C1.Nsapi.unmarshal, V2.bind_def, V2.cut_length, V2.rd_cut (j := 1), h1, V2.rbind_assoc, V2.rbind_ok, k0]

theorem MsTimeZone_spare (hu : ∀ k, k ≠ 4 → u k = 255) (h4 : u 4 = 3) : Gtp.C1.MsTimeZone.unmarshal m (cut u b) = Gtp.C1.MsTimeZone.unmarshal m b := by
  have k0 : ∀ v : UInt8, (v &&& (3 : UInt8)) &&& 3 = v &&& 3 := by decide +kernel
  simp only [Gtp.C1.MsTimeZone.unmarshal, V2.bind_def, V2.cut_length, V2.rd16_keep (j := 1) (hu 1 (by decide)) (hu 2 (by decide)), V2.rd_keep (j := 3) (hu 3 (by decide)), V2.rd_cut (j := 4), h4, V2.rbind_assoc, V2.rbind_ok, k0]

theorem DirectTunnelFlags_spare (hu : ∀ k, k ≠ 3 → u k = 255) (h3 : u 3 = 7) : Gtp.C1.DirectTunnelFlags.unmarshal m (cut u b) = Gtp.C1.DirectTunnelFlags.unmarshal m b := by
  have k0 : ∀ v : UInt8, (v &&& (7 : UInt8)) &&& 1 = v &&& 1 := by decide +kernel
  have k1 : ∀ v : UInt8, ((v &&& (7 : UInt8)) >>> (1 : UInt8)) &&& (1 : UInt8) = (v >>> (1 : UInt8)) &&& (1 : UInt8) := by decide +kernel
  have k2 : ∀ v : UInt8, ((v &&& (7 : UInt8)) >>> (2 : UInt8)) &&& (1 : UInt8) = (v >>> (2 : UInt8)) &&& (1 : UInt8) := by decide +kernel
  simp only [Gtp.C1.DirectTunnelFlags.unmarshal, V2.bind_def, V2.cut_length, V2.rd16_keep (j := 1) (hu 1 (by decide)) (hu 2 (by decide)), V2.rd_cut (j := 3), h3, V2.rbind_assoc, V2.rbind_ok, k0, k1, k2]

theorem EvolvedAllocationRetentionI_spare (hu : ∀ k, k ≠ 3 → u k = 255) (h3 : u 3 = 125) : Gtp.C1.EvolvedAllocationRetentionI.unmarshal m (cut u b) = Gtp.C1.EvolvedAllocationRetentionI.unmarshal m b := by
  have k0 : ∀ v : UInt8, (v &&& (125 : UInt8)) &&& 1 = v &&& 1 := by decide +kernel
  have k1 : ∀ v : UInt8, ((v &&& (125 : UInt8)) >>> (2 : UInt8)) &&& (0x0f : UInt8) = (v >>> (2 : UInt8)) &&& (0x0f : UInt8) := by decide +kernel
  have k2 : ∀ v : UInt8, ((v &&& (125 : UInt8)) >>> (6 : UInt8)) &&& (1 : UInt8) = (v >>> (6 : UInt8)) &&& (1 : UInt8) := by decide +kernel
  simp only [Gtp.C1.EvolvedAllocationRetentionI.unmarshal, V2.bind_def, V2.cut_length, V2.rd16_keep (j := 1) (hu 1 (by decide)) (hu 2 (by decide)), V2.rd_cut (j := 3), h3, V2.rbind_assoc, V2.rbind_ok, k0, k1, k2]

theorem CSGInformationReportingAction_spare (hu : ∀ k, k ≠ 3 → u k = 255) (h3 : u 3 = 7) : Gtp.C1.CSGInformationReportingAction.unmarshal m (cut u b) = Gtp.C1.CSGInformationReportingAction.unmarshal m b := by
  have k0 : ∀ v : UInt8, (v &&& (7 : UInt8)) &&& 7 = v &&& 7 := by decide +kernel
  simp only [Gtp.C1.CSGInformationReportingAction.unmarshal, V2.bind_def, V2.cut_length, V2.rd16_keep (j := 1) (hu 1 (by decide)) (hu 2 (by decide)), V2.rd_cut (j := 3), h3, V2.rbind_assoc, V2.rbind_ok, k0]

theorem ExtendedCommonFlagsII_spare (hu : ∀ k, k ≠ 3 → u k = 255) (h3 : u 3 = 7) : Gtp.C1.ExtendedCommonFlagsII.unmarshal m (cut u b) = Gtp.C1.ExtendedCommonFlagsII.unmarshal m b := by
  have k0 : ∀ v : UInt8, (v &&& (7 : UInt8)) &&& 1 = v &&& 1 := by decide +kernel
  have k1 : ∀ v : UInt8, ((v &&& (7 : UInt8)) >>> (1 : UInt8)) &&& (1 : UInt8) = (v >>> (1 : UInt8)) &&& (1 : UInt8) := by decide +kernel
  have k2 : ∀ v : UInt8, ((v &&& (7 : UInt8)) >>> (2 : UInt8)) &&& (1 : UInt8) = (v >>> (2 : UInt8)) &&& (1 : UInt8) := by decide +kernel
  simp only [Gtp.C1.ExtendedCommonFlagsII.unmarshal, V2.bind_def, V2.cut_length, V2.rd16_keep (j := 1) (hu 1 (by decide)) (hu 2 (by decide)), V2.rd_cut (j := 3), h3, V2.rbind_assoc, V2.rbind_ok, k0, k1, k2]

theorem EndUserAddress_spare (hu : ∀ k, k ≠ 3 → u k = 255) (h3 : u 3 = 15) : Gtp.C1.EndUserAddress.unmarshal m (cut u b) = Gtp.C1.EndUserAddress.unmarshal m b := by
  have k0 : ∀ v : UInt8, (v &&& (15 : UInt8)) &&& 0x0f = v &&& 0x0f := by decide +kernel
  simp only [Gtp.C1.EndUserAddress.unmarshal, withTlv, checkTlv, Gtp.C1.EndUserAddress.body, V2.bind_def, V2.cut_length,
    V2.rd16_keep (j := 1) (hu 1 (by decide)) (hu 2 (by decide)), V2.rd_keep (j := 4) (hu 4 (by decide)), V2.rd_cut (j := 3), h3,
    V2.rd32_keep (j := 5) (fun k hk => hu k (by omega)), V2.rdIp6_keep (j := 5) (fun k hk => hu k (by omega)),
    V2.rdIp6_keep (j := 9) (fun k hk => hu k (by omega)), V2.rbind_assoc, V2.rbind_ok, k0]

end

theorem unm_spare (m : Mode) (b : Bytes) (k : Kind) (hk : k ∈ spareFigures.map Prod.fst) (he : k ∉ evaluates) :
    k.codec.unm m (cut (used k) b) = k.codec.unm m b := by
  cases k <;> first
    | exact absurd hk (by decide)
    | exact absurd (by decide) he
    | skip
  · exact ReorderingRequired_spare (m := m) (fun k hk => used_other (by simp [spareFigures]; omega)) rfl
  · exact SelectionMode_spare (m := m) (fun k hk => used_other (by simp [spareFigures]; omega)) rfl
  · exact Nsapi_spare (m := m) (fun k hk => used_other (by simp [spareFigures]; omega)) rfl
  · exact EndUserAddress_spare (m := m) (fun k hk => used_other (by simp [spareFigures]; omega)) rfl
  · exact MsTimeZone_spare (m := m) (fun k hk => used_other (by simp [spareFigures]; omega)) rfl
  · exact DirectTunnelFlags_spare (m := m) (fun k hk => used_other (by simp [spareFigures]; omega)) rfl
  · exact EvolvedAllocationRetentionI_spare (m := m) (fun k hk => used_other (by simp [spareFigures]; omega)) rfl
  · exact CSGInformationReportingAction_spare (m := m) (fun k hk => used_other (by simp [spareFigures]; omega)) rfl
  · exact ExtendedCommonFlagsII_spare (m := m) (fun k hk => used_other (by simp [spareFigures]; omega)) rfl

theorem SameBut.cut {k : Kind} {b b' : Bytes} (h : SameBut k b b') : V2.cut (used k) b = V2.cut (used k) b' := by
  refine List.ext_getElem? fun i => ?_
  rw [V2.cut_get, V2.cut_get]
  have h2 := h.2 i
  simp only [List.getD_eq_getElem?_getD] at h2
  rcases Nat.lt_or_ge i b.length with hi | hi
  · have hi' : i < b'.length := h.1 ▸ hi
    rw [List.getElem?_eq_getElem hi, List.getElem?_eq_getElem hi'] at h2 ⊢
    simp only [Option.getD_some, Option.map_some] at h2 ⊢
    rw [h2]
  · rw [List.getElem?_eq_none hi, List.getElem?_eq_none (h.1 ▸ hi)]

/-- C77: in an element of one of the kinds of `spareFigures` outside `evaluates` spare bits make no difference: the outcome is the same value, the
same error or the same panic. -/
theorem C77_ignored_partial {m : Mode} {k : Kind} {b b' : Bytes} (hk : k ∈ spareFigures.map Prod.fst) (he : k ∉ evaluates) (h : SameBut k b b') :
    k.codec.unm m b' = k.codec.unm m b := by
  rw [← unm_spare m b k hk he, ← unm_spare m b' k hk he, h.cut]

example : SameBut .Nsapi [20, 5] [20, 0xf5] ∧ Kind.Nsapi ∈ spareFigures.map Prod.fst ∧ Kind.Nsapi ∉ evaluates ∧
    Gtp.C1.Nsapi.unmarshal .debug [20, 5] = .ok ⟨20, 5⟩ :=
  ⟨⟨rfl, fun i => match i with
    | 0 => by decide +kernel
    | 1 => by decide +kernel
    | i + 2 => rfl⟩, by decide, by decide, by decide +kernel⟩

def sameButB (k : Kind) (b b' : Bytes) : Bool :=
  b.length = b'.length && (List.range b.length).all fun i => b.getD i 0 &&& used k i == b'.getD i 0 &&& used k i

theorem sameButB_iff {k : Kind} {b b' : Bytes} (h : sameButB k b b' = true) : SameBut k b b' := by
  simp only [sameButB, Bool.and_eq_true, decide_eq_true_eq, List.all_eq_true, List.mem_range, beq_iff_eq] at h
  refine ⟨h.1, fun i => ?_⟩
  rcases Nat.lt_or_ge i b.length with hi | hi
  · exact h.2 i hi
  · simp only [List.getD_eq_getElem?_getD]
    rw [List.getElem?_eq_none hi, List.getElem?_eq_none (h.1 ▸ hi)]

/-- C77 violated: for every kind of `evaluates` there is an accepted element that becomes another one (UCI), or is rejected (the others), with
other spare bits. -/
theorem C77_violation (m : Mode) {k : Kind} (hk : k ∈ evaluates) :
    ∃ b b' x, Whole k b ∧ SameBut k b b' ∧ k.codec.unm m b = .ok x ∧ k.codec.unm m b' ≠ .ok x := by
  cases k <;> first
    | exact absurd hk (by decide)
    | skip
  · have h1 : Gtp.C1.TeardownInd.unmarshal m [19, 0xff] = .ok ⟨19, true⟩ := by cases m <;> decide +kernel
    have h2 : Gtp.C1.TeardownInd.unmarshal m [19, 0x01] ≠ .ok ⟨19, true⟩ := by cases m <;> decide +kernel
    exact ⟨[19, 0xff], [19, 0x01], _, .inl ⟨2, by decide, rfl⟩, sameButB_iff (by decide +kernel), h1, h2⟩
  · have h1 : Gtp.C1.Uci.unmarshal m [194, 0, 8, 0x21, 0xf3, 0x54, 0, 0, 0, 1, 0x41] = .ok ⟨194, 8, 123, 45, false, 1, .hybridMode, .nonCsgMembership⟩ := by cases m <;> decide +kernel
    have h2 : Gtp.C1.Uci.unmarshal m [194, 0, 8, 0x21, 0xf3, 0x54, 0xf8, 0, 0, 1, 0x41] ≠ .ok ⟨194, 8, 123, 45, false, 1, .hybridMode, .nonCsgMembership⟩ := by cases m <;> decide +kernel
    exact ⟨[194, 0, 8, 0x21, 0xf3, 0x54, 0, 0, 0, 1, 0x41], [194, 0, 8, 0x21, 0xf3, 0x54, 0xf8, 0, 0, 1, 0x41], _, .inr (.inr ⟨by decide, by decide, _, _, _, _, rfl, rfl⟩), sameButB_iff (by decide +kernel), h1, h2⟩
  · have h1 : Gtp.C1.Spi.unmarshal m [203, 0, 1, 1] = .ok ⟨203, 1, true⟩ := by cases m <;> decide +kernel
    have h2 : Gtp.C1.Spi.unmarshal m [203, 0, 1, 0xff] ≠ .ok ⟨203, 1, true⟩ := by cases m <;> decide +kernel
    exact ⟨[203, 0, 1, 1], [203, 0, 1, 0xff], _, .inr (.inr ⟨by decide, by decide, _, _, _, _, rfl, rfl⟩), sameButB_iff (by decide +kernel), h1, h2⟩
  · have h1 : Gtp.C1.CnOperatorSelectionEntity.unmarshal m [216, 0, 1, 1] = .ok ⟨216, 1, .servingNetworkSelectedbyNetwork⟩ := by cases m <;> decide +kernel
    have h2 : Gtp.C1.CnOperatorSelectionEntity.unmarshal m [216, 0, 1, 0xfd] ≠ .ok ⟨216, 1, .servingNetworkSelectedbyNetwork⟩ := by cases m <;> decide +kernel
    exact ⟨[216, 0, 1, 1], [216, 0, 1, 0xfd], _, .inr (.inr ⟨by decide, by decide, _, _, _, _, rfl, rfl⟩), sameButB_iff (by decide +kernel), h1, h2⟩
  · have h1 : Gtp.C1.UpFunctionSelectionIndicationFlags.unmarshal m [224, 0, 1, 1] = .ok ⟨224, 1, true⟩ := by cases m <;> decide +kernel
    have h2 : Gtp.C1.UpFunctionSelectionIndicationFlags.unmarshal m [224, 0, 1, 0xff] ≠ .ok ⟨224, 1, true⟩ := by cases m <;> decide +kernel
    exact ⟨[224, 0, 1, 1], [224, 0, 1, 0xff], _, .inr (.inr ⟨by decide, by decide, _, _, _, _, rfl, rfl⟩), sameButB_iff (by decide +kernel), h1, h2⟩

/-- C77 violated in a message: a Delete PDP Context Request with a Teardown Ind of 1 whose spare bits are zero is rejected. -/
theorem C77_violation_message (m : Mode) :
    (∃ x, DeletePDPContextRequest.unmarshal m [0x30, 20, 0, 4, 0, 0, 0, 1, 19, 0xff, 20, 5] = .ok x) ∧
    ∃ e, DeletePDPContextRequest.unmarshal m [0x30, 20, 0, 4, 0, 0, 0, 1, 19, 0x01, 20, 5] = .err e := by
  cases m <;> exact ⟨⟨_, rfl⟩, ⟨_, rfl⟩⟩

end Gtp.Props.C1
