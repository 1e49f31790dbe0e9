import Verif.V2.Spare
import Verif.V2.Decoder
import Verif.Props.Own

/-!
# C76: spare bits are not evaluated by the receiver

TS 29.274 §8 (and §5.1 for the header): "Spare bits: the receiver shall not evaluate these bits". `figures` lists the octets of the figures
of §8.3 to §8.140 with spare bits at fixed places; everything else about an IE is taken as used.
-/

namespace Gtp.Props
open Gtp.V2

/-- Type of the IE, number of the octet (from 1, as in the figures), the bits of that octet that are not spare. -/
def figures : List (UInt8 × Nat × UInt8) :=
  [(2, 6, 0x07), (73, 5, 0x0f), (77, 14, 0x07), (79, 5, 0x07), (80, 5, 0x7d), (91, 5, 0x0f), (97, 5, 0x0f), (99, 5, 0x07),
   (110, 5, 0x0f), (114, 6, 0x03), (118, 5, 0x0f), (119, 5, 0x0f), (123, 5, 0x0f), (128, 5, 0x03), (137, 5, 0xf0), (143, 5, 0x03),
   (145, 8, 0x07), (145, 12, 0xc3), (146, 5, 0x07), (147, 5, 0x07), (148, 5, 0x01), (155, 5, 0x7d), (157, 5, 0x01), (160, 5, 0x03),
   (165, 5, 0x01), (167, 5, 0x03), (168, 5, 0x07), (169, 5, 0x1f), (171, 5, 0x03), (173, 5, 0x03), (174, 5, 0x03), (177, 5, 0x0f),
   (177, 10, 0x3f), (177, 11, 0x3f), (177, 12, 0x3f), (177, 13, 0x3f), (177, 14, 0x3f), (185, 5, 0x03), (186, 5, 0x0f), (186, 6, 0x01),
   (192, 5, 0x03), (194, 5, 0x0f), (196, 5, 0x7f), (196, 6, 0x00), (201, 5, 0x07), (201, 7, 0x0f), (202, 5, 0x01), (203, 5, 0x03),
   (206, 5, 0x03), (212, 5, 0x01), (213, 5, 0x07), (218, 5, 0x03)]

/-- The bits of the octet at index `i` (from 0) of an IE of type `t` that are not spare. -/
def used (t : UInt8) (i : Nat) : UInt8 :=
  match figures.find? fun r => r.1 == t && r.2.1 == i + 1 with
  | some r => r.2.2
  | none => 255

/-- Two IEs of type `t` that differ in spare bits only. -/
def SameBut (t : UInt8) (b b' : Bytes) : Prop := b.length = b'.length ∧ ∀ i, b.getD i 0 &&& used t i = b'.getD i 0 &&& used t i

/-- The types for which the code evaluates a spare bit. -/
def evaluates : List UInt8 := [79, 99, 118, 145, 147, 148, 155, 157, 165, 173, 186, 202]

theorem used_other {t : UInt8} {k : Nat} (h : ∀ r ∈ figures, r.1 = t → r.2.1 ≠ k + 1) : used t k = 255 := by
  unfold used
  rw [List.find?_eq_none.mpr]
  intro r hr hc
  simp only [Bool.and_eq_true, beq_iff_eq] at hc
  exact h r hr hc.1 hc.2

theorem u2 : (∀ k, k ≠ 5 → used 2 k = 255) ∧ used 2 5 = 7 := by
  refine ⟨fun k h5 => used_other (by simp [figures]; omega), rfl⟩

theorem u73 : (∀ k, k ≠ 4 → used 73 k = 255) ∧ used 73 4 = 15 := by
  refine ⟨fun k h4 => used_other (by simp [figures]; omega), rfl⟩

theorem u77 : (∀ k, k ≠ 13 → used 77 k = 255) ∧ used 77 13 = 7 := by
  refine ⟨fun k h13 => used_other (by simp [figures]; omega), rfl⟩

theorem u80 : (∀ k, k ≠ 4 → used 80 k = 255) ∧ used 80 4 = 125 := by
  refine ⟨fun k h4 => used_other (by simp [figures]; omega), rfl⟩

theorem u91 : (∀ k, k ≠ 4 → used 91 k = 255) ∧ used 91 4 = 15 := by
  refine ⟨fun k h4 => used_other (by simp [figures]; omega), rfl⟩

theorem u97 : (∀ k, k ≠ 4 → used 97 k = 255) ∧ used 97 4 = 15 := by
  refine ⟨fun k h4 => used_other (by simp [figures]; omega), rfl⟩

theorem u110 : (∀ k, k ≠ 4 → used 110 k = 255) ∧ used 110 4 = 15 := by
  refine ⟨fun k h4 => used_other (by simp [figures]; omega), rfl⟩

theorem u114 : (∀ k, k ≠ 5 → used 114 k = 255) ∧ used 114 5 = 3 := by
  refine ⟨fun k h5 => used_other (by simp [figures]; omega), rfl⟩

theorem u119 : (∀ k, k ≠ 4 → used 119 k = 255) ∧ used 119 4 = 15 := by
  refine ⟨fun k h4 => used_other (by simp [figures]; omega), rfl⟩

theorem u123 : (∀ k, k ≠ 4 → used 123 k = 255) ∧ used 123 4 = 15 := by
  refine ⟨fun k h4 => used_other (by simp [figures]; omega), rfl⟩

theorem u128 : (∀ k, k ≠ 4 → used 128 k = 255) ∧ used 128 4 = 3 := by
  refine ⟨fun k h4 => used_other (by simp [figures]; omega), rfl⟩

theorem u137 : (∀ k, k ≠ 4 → used 137 k = 255) ∧ used 137 4 = 240 := by
  refine ⟨fun k h4 => used_other (by simp [figures]; omega), rfl⟩

theorem u143 : (∀ k, k ≠ 4 → used 143 k = 255) ∧ used 143 4 = 3 := by
  refine ⟨fun k h4 => used_other (by simp [figures]; omega), rfl⟩

theorem u146 : (∀ k, k ≠ 4 → used 146 k = 255) ∧ used 146 4 = 7 := by
  refine ⟨fun k h4 => used_other (by simp [figures]; omega), rfl⟩

theorem u160 : (∀ k, k ≠ 4 → used 160 k = 255) ∧ used 160 4 = 3 := by
  refine ⟨fun k h4 => used_other (by simp [figures]; omega), rfl⟩

theorem u167 : (∀ k, k ≠ 4 → used 167 k = 255) ∧ used 167 4 = 3 := by
  refine ⟨fun k h4 => used_other (by simp [figures]; omega), rfl⟩

theorem u168 : (∀ k, k ≠ 4 → used 168 k = 255) ∧ used 168 4 = 7 := by
  refine ⟨fun k h4 => used_other (by simp [figures]; omega), rfl⟩

theorem u171 : (∀ k, k ≠ 4 → used 171 k = 255) ∧ used 171 4 = 3 := by
  refine ⟨fun k h4 => used_other (by simp [figures]; omega), rfl⟩

theorem u174 : (∀ k, k ≠ 4 → used 174 k = 255) ∧ used 174 4 = 3 := by
  refine ⟨fun k h4 => used_other (by simp [figures]; omega), rfl⟩

theorem u177 : (∀ k, k ≠ 4 → k ≠ 9 → k ≠ 10 → k ≠ 11 → k ≠ 12 → k ≠ 13 → used 177 k = 255) ∧ used 177 4 = 15 ∧ used 177 9 = 63 ∧ used 177 10 = 63 ∧ used 177 11 = 63 ∧ used 177 12 = 63 ∧ used 177 13 = 63 := by
  refine ⟨fun k h4 h9 h10 h11 h12 h13 => used_other (by simp [figures]; omega), rfl, rfl, rfl, rfl, rfl, rfl⟩

theorem u185 : (∀ k, k ≠ 4 → used 185 k = 255) ∧ used 185 4 = 3 := by
  refine ⟨fun k h4 => used_other (by simp [figures]; omega), rfl⟩

theorem u192 : (∀ k, k ≠ 4 → used 192 k = 255) ∧ used 192 4 = 3 := by
  refine ⟨fun k h4 => used_other (by simp [figures]; omega), rfl⟩

theorem u194 : (∀ k, k ≠ 4 → used 194 k = 255) ∧ used 194 4 = 15 := by
  refine ⟨fun k h4 => used_other (by simp [figures]; omega), rfl⟩

theorem u196 : (∀ k, k ≠ 4 → k ≠ 5 → used 196 k = 255) ∧ used 196 4 = 127 ∧ used 196 5 = 0 := by
  refine ⟨fun k h4 h5 => used_other (by simp [figures]; omega), rfl, rfl⟩

theorem u201 : (∀ k, k ≠ 4 → k ≠ 6 → used 201 k = 255) ∧ used 201 4 = 7 ∧ used 201 6 = 15 := by
  refine ⟨fun k h4 h6 => used_other (by simp [figures]; omega), rfl, rfl⟩

theorem u203 : (∀ k, k ≠ 4 → used 203 k = 255) ∧ used 203 4 = 3 := by
  refine ⟨fun k h4 => used_other (by simp [figures]; omega), rfl⟩

theorem u206 : (∀ k, k ≠ 4 → used 206 k = 255) ∧ used 206 4 = 3 := by
  refine ⟨fun k h4 => used_other (by simp [figures]; omega), rfl⟩

theorem u212 : (∀ k, k ≠ 4 → used 212 k = 255) ∧ used 212 4 = 1 := by
  refine ⟨fun k h4 => used_other (by simp [figures]; omega), rfl⟩

theorem u213 : (∀ k, k ≠ 4 → used 213 k = 255) ∧ used 213 4 = 7 := by
  refine ⟨fun k h4 => used_other (by simp [figures]; omega), rfl⟩

theorem u218 : (∀ k, k ≠ 4 → used 218 k = 255) ∧ used 218 4 = 3 := by
  refine ⟨fun k h4 => used_other (by simp [figures]; omega), rfl⟩


theorem SameBut.cut {t : UInt8} {u : Nat → UInt8} {b b' : Bytes} (h : SameBut t b b') (hu : ∀ i, u i &&& used t i = u i) : V2.cut u b = V2.cut u b' := by
  refine List.ext_getElem? fun i => ?_
  rw [cut_get, cut_get]
  have h2 := h.2 i
  simp only [List.getD_eq_getElem?_getD] at h2
  rcases Nat.lt_or_ge i b.length with hi | hi
  · have hi' : i < b'.length := h.1 ▸ hi
    rw [List.getElem?_eq_getElem hi, List.getElem?_eq_getElem hi'] at h2 ⊢
    simp only [Option.getD_some, Option.map_some] at h2 ⊢
    rw [← hu i, UInt8.and_comm (u i), ← UInt8.and_assoc, ← UInt8.and_assoc, h2]
  · rw [List.getElem?_eq_none hi, List.getElem?_eq_none (h.1 ▸ hi)]

/-- The types with spare bits of which the code evaluates none, but for 169. -/
def ignores : List UInt8 :=
  [2, 73, 77, 80, 91, 97, 110, 114, 119, 123, 128, 137, 143, 146, 160, 167, 168, 171, 174, 177, 185, 192, 194, 196, 201, 203, 206, 212, 213, 218]

theorem unmKind_spare (dec : Bytes → R Err (List IE)) (m : Mode) (b : Bytes) {t : UInt8} (ht : t ∈ ignores) :
    unmKind dec m (V2.cut (used t) b) (kindOf t) = unmKind dec m b (kindOf t) := by
  simp only [ignores, List.mem_cons, List.not_mem_nil, or_false] at ht
  rcases ht with rfl | rfl | rfl | rfl | rfl | rfl | rfl | rfl | rfl | rfl | rfl | rfl | rfl | rfl | rfl | rfl | rfl | rfl | rfl | rfl | rfl | rfl | rfl | rfl | rfl | rfl | rfl | rfl | rfl | rfl
  · rw [show kindOf 2 = .Cause from rfl]; simp only [unmKind]; rw [Cause.spare u2.1 u2.2]
  · rw [show kindOf 73 = .Ebi from rfl]; simp only [unmKind]; rw [Ebi.spare u73.1 u73.2]
  · rw [show kindOf 77 = .Indication from rfl]; simp only [unmKind]; rw [Indication.spare u77.1 u77.2]
  · rw [show kindOf 80 = .BearerQos from rfl]; simp only [unmKind]; rw [BearerQos.spare u80.1 u80.2]
  · rw [show kindOf 91 = .S1udf from rfl]; simp only [unmKind]; rw [S1udf.spare u91.1 u91.2]
  · rw [show kindOf 97 = .BearerFlags from rfl]; simp only [unmKind]; rw [BearerFlags.spare u97.1 u97.2]
  · rw [show kindOf 110 = .PduNumbers from rfl]; simp only [unmKind]; rw [PduNumbers.spare u110.1 u110.2]
  · rw [show kindOf 114 = .UeTimeZone from rfl]; simp only [unmKind]; rw [UeTimeZone.spare u114.1 u114.2]
  · rw [show kindOf 119 = .Fcause from rfl]; simp only [unmKind]; rw [Fcause.spare u119.1 u119.2]
  · rw [show kindOf 123 = .PacketFlowId from rfl]; simp only [unmKind]; rw [PacketFlowId.spare u123.1 u123.2]
  · rw [show kindOf 128 = .SelectionMode from rfl]; simp only [unmKind]; rw [SelectionMode.spare u128.1 u128.2]
  · rw [show kindOf 137 = .TransactionIdentifier from rfl]; simp only [unmKind]; rw [TransactionIdentifier.spare u137.1 u137.2]
  · rw [show kindOf 143 = .MbmsDistributionAck from rfl]; simp only [unmKind]; rw [MbmsDistributionAck.spare u143.1 u143.2]
  · rw [show kindOf 146 = .CSGInformationReportingAction from rfl]; simp only [unmKind]; rw [CSGInformationReportingAction.spare u146.1 u146.2]
  · rw [show kindOf 160 = .AdditionalFlagsSrvcc from rfl]; simp only [unmKind]; rw [AdditionalFlagsSrvcc.spare u160.1 u160.2]
  · rw [show kindOf 167 = .ChangeToReportFlags from rfl]; simp only [unmKind]; rw [ChangeToReportFlags.spare u167.1 u167.2]
  · rw [show kindOf 168 = .ActionIndication from rfl]; simp only [unmKind]; rw [ActionIndication.spare u168.1 u168.2]
  · rw [show kindOf 171 = .MbmsFlags from rfl]; simp only [unmKind]; rw [MbmsFlags.spare u171.1 u171.2]
  · rw [show kindOf 174 = .Twmi from rfl]; simp only [unmKind]; rw [Twmi.spare u174.1 u174.2]
  · rw [show kindOf 177 = .PresenceReportingAreaAction from rfl]; simp only [unmKind]; rw [PresenceReportingAreaAction.spare u177.1 u177.2.1 u177.2.2.1 u177.2.2.2.1 u177.2.2.2.2.1 u177.2.2.2.2.2.1 u177.2.2.2.2.2.2]
  · rw [show kindOf 185 = .WlanOffloadIndication from rfl]; simp only [unmKind]; rw [WlanOffloadIndication.spare u185.1 u185.2]
  · rw [show kindOf 192 = .RemoteUserId from rfl]; simp only [unmKind]; rw [RemoteUserId.spare u192.1 u192.2]
  · rw [show kindOf 194 = .CIoTOptimizationSupportIndication from rfl]; simp only [unmKind]; rw [CIoTOptimizationSupportIndication.spare u194.1 u194.2]
  · rw [show kindOf 196 = .HeaderCompressionConfiguration from rfl]; simp only [unmKind]; rw [HeaderCompressionConfiguration.spare u196.1 u196.2.1 u196.2.2]
  · rw [show kindOf 201 = .SecondaryRatUsageDataReport from rfl]; simp only [unmKind]; rw [SecondaryRatUsageDataReport.spare u201.1 u201.2.1 u201.2.2]
  · rw [show kindOf 203 = .MaxPacketLossRate from rfl]; simp only [unmKind]; rw [MaxPacketLossRate.spare u203.1 u203.2]
  · rw [show kindOf 206 = .MonitoringEventExtensionInfo from rfl]; simp only [unmKind]; rw [MonitoringEventExtensionInfo.spare u206.1 u206.2]
  · rw [show kindOf 212 = .PC5QosFlow from rfl]; simp only [unmKind]; rw [PC5QosFlow.spare u212.1 u212.2]
  · rw [show kindOf 213 = .SgiPtpTunnelAddress from rfl]; simp only [unmKind]; rw [SgiPtpTunnelAddress.spare u213.1 u213.2]
  · rw [show kindOf 218 = .UpSecurityPolicy from rfl]; simp only [unmKind]; rw [UpSecurityPolicy.spare u218.1 u218.2]

theorem used_head (t : UInt8) : used t 0 = 255 := used_other fun r hr _ => by
  have : ∀ r ∈ figures, r.2.1 ≠ 0 + 1 := by decide
  exact this r hr

theorem SameBut.head {t : UInt8} {b b' : Bytes} (h : SameBut t b b') : b.head? = b'.head? := by
  have h2 := h.2 0
  rw [used_head, and_ff, and_ff] at h2
  match b, b', h.1, h2 with
  | [], [], _, _ => rfl
  | _ :: _, _ :: _, _, h2 => exact congrArg some h2

/-- C76: in an IE of one of the types of `figures` outside `evaluates` spare bits make no difference: the outcome is the same value, the same
error or the same panic. -/
theorem C76_ignored_partial {m : Mode} {t : UInt8} {b b' : Bytes} (hb : b.head? = some t) (ht : ∃ r ∈ figures, r.1 = t) (he : t ∉ evaluates)
    (h : SameBut t b b') : decodeOne (decoder m) m b' = decodeOne (decoder m) m b := by
  have hh := h.head
  have key : ∀ dec, unmKind dec m b' (kindOf t) = unmKind dec m b (kindOf t) := by
    intro dec
    by_cases h9 : t = 169
    · subst h9
      have hc := h.cut (u := used 168) fun i => by
        by_cases hi : i = 4
        · subst hi; rfl
        · rw [u168.1 i hi, used_other]
          · rfl
          · have : ∀ r ∈ figures, r.1 = 169 → r.2.1 = 5 := by decide
            intro r hr h1 h2
            have := this r hr h1
            omega
      have e := fun b => unmKind_spare dec m b (t := 168) (by decide)
      rw [show kindOf 169 = kindOf 168 from rfl, ← e b, ← e b', hc]
    · have hi : t ∈ ignores := by
        obtain ⟨r, hr, rfl⟩ := ht
        have : ∀ r ∈ figures, r.1 ∉ evaluates → r.1 ≠ 169 → r.1 ∈ ignores := by decide
        exact this r hr he h9
      have hc := h.cut (u := used t) fun i => UInt8.and_self
      rw [← unmKind_spare dec m b hi, ← unmKind_spare dec m b' hi, hc]
  match b, b', hb, hh with
  | a :: s, a' :: s', hb, hh =>
    cases hb
    cases hh
    simp only [decodeOne, rd_zero, R.ok_bind, key]

/-- C76 in a message: what the decoder makes of a sequence of IEs does not depend on the spare bits of an IE in it, if the IE is accepted with
its own octets. -/
theorem C76_sequence_partial {m : Mode} {t : UInt8} {own own' r : Bytes} {x : IE} (hb : own.head? = some t) (ht : ∃ r ∈ figures, r.1 = t)
    (he : t ∉ evaluates) (h : SameBut t own own') (hx : decodeOne (decoder m) m (own ++ r) = .ok (x, own.length)) :
    decoder m (own' ++ r) = decoder m (own ++ r) := by
  have h' : SameBut t (own ++ r) (own' ++ r) := by
    refine ⟨by simp [h.1], fun i => ?_⟩
    have h2 := h.2 i
    simp only [List.getD_eq_getElem?_getD] at h2 ⊢
    rcases Nat.lt_or_ge i own.length with hi | hi
    · rw [List.getElem?_append_left hi, List.getElem?_append_left (h.1 ▸ hi)]
      exact h2
    · rw [List.getElem?_append_right hi, List.getElem?_append_right (h.1 ▸ hi), h.1]
  have e := C76_ignored_partial (m := m) (by simp [hb]) ht he h'
  rw [hx] at e
  have n0 : own ≠ [] := by intro h; rw [h] at hb; cases hb
  have n0' : own' ≠ [] := by intro h1; have := h.1; rw [h1] at this; exact n0 (List.length_eq_zero_iff.mp this)
  have l0 : own.length ≠ 0 := fun h => n0 (List.length_eq_zero_iff.mp h)
  rw [decoder_step (by simp [n0]) hx l0, decoder_step (by simp [n0']) e l0, List.drop_left, h.1, List.drop_left]

/-- Pairs of IEs that differ in spare bits only. -/
def sparePairs : List (Bytes × Bytes) :=
  [
   ([79, 0, 5, 0, 1, 10, 0, 0, 1], [79, 0, 5, 0, 249, 10, 0, 0, 1]),
   ([99, 0, 1, 0, 1], [99, 0, 1, 0, 249]),
   ([118, 0, 2, 0, 1, 5], [118, 0, 2, 0, 241, 5]),
   ([145, 0, 8, 0, 33, 243, 84, 0, 0, 0, 1, 65], [145, 0, 8, 0, 33, 243, 84, 248, 0, 0, 1, 125]),
   ([147, 0, 4, 0, 0, 0, 0, 1], [147, 0, 4, 0, 248, 0, 0, 1]),
   ([148, 0, 1, 0, 0], [148, 0, 1, 0, 254]),
   ([155, 0, 1, 0, 65], [155, 0, 1, 0, 195]),
   ([157, 0, 1, 0, 0], [157, 0, 1, 0, 254]),
   ([165, 0, 1, 0, 1], [165, 0, 1, 0, 255]),
   ([173, 0, 1, 0, 1], [173, 0, 1, 0, 253]),
   ([186, 0, 3, 0, 5, 1, 3], [186, 0, 3, 0, 245, 255, 3]),
   ([202, 0, 1, 0, 1], [202, 0, 1, 0, 255])]

def sameButB (t : UInt8) (b b' : Bytes) : Bool :=
  b.length = b'.length && (List.range b.length).all fun i => b.getD i 0 &&& used t i == b'.getD i 0 &&& used t i

theorem sameButB_iff {t : UInt8} {b b' : Bytes} (h : sameButB t b b' = true) : SameBut t b b' := by
  simp only [sameButB, Bool.and_eq_true, decide_eq_true_eq, List.all_eq_true, List.mem_range, beq_iff_eq] at h
  refine ⟨h.1, fun i => ?_⟩
  rcases Nat.lt_or_ge i b.length with hi | hi
  · exact h.2 i hi
  · simp only [List.getD_eq_getElem?_getD]
    rw [List.getElem?_eq_none hi, List.getElem?_eq_none (h.1 ▸ hi)]

theorem sparePairs_spec (m : Mode) : ∀ t ∈ evaluates, ∃ p ∈ sparePairs, p.1.head? = some t ∧ wholeB p.1 = true ∧ sameButB t p.1 p.2 = true ∧
    accepts m p.1 = true ∧ decodeOne (decoder m) m p.2 ≠ decodeOne (decoder m) m p.1 := by cases m <;> decide +kernel

/-- C76 violated: for every type of `evaluates` there is an accepted IE that becomes another one, or is rejected, when spare bits are set. -/
theorem C76_violation (m : Mode) {t : UInt8} (ht : t ∈ evaluates) :
    ∃ b b' p, Whole t b ∧ SameBut t b b' ∧ decodeOne (decoder m) m b = .ok p ∧ decodeOne (decoder m) m b' ≠ .ok p := by
  obtain ⟨⟨b, b'⟩, -, hh, hw, hs, ha, hd⟩ := sparePairs_spec m t ht
  unfold accepts at ha
  cases hp : decodeOne (decoder m) m b with
  | ok p =>
    refine ⟨b, b', p, ?_, sameButB_iff hs, hp, by rw [← hp]; exact hd⟩
    match b, hw, hh with
    | a :: h :: l :: i :: body, hw, hh =>
      simp only [List.head?_cons, Option.some.injEq] at hh
      exact ⟨h, l, i, body, by rw [hh], of_decide_eq_true hw⟩
  | _ => rw [hp] at ha; cases ha

/-- C76 violated by rejection: with a spare bit set the whole message is lost. -/
theorem C76_violation_rejected : accepts .debug [79, 0, 5, 0, 1, 10, 0, 0, 1] = true ∧ accepts .debug [79, 0, 5, 0, 0xf9, 10, 0, 0, 1] = false := by
  decide +kernel

example : SameBut 73 [73, 0, 1, 0, 5] [73, 0, 1, 0, 0xf5] ∧ accepts .debug [73, 0, 1, 0, 5] = true ∧ (∃ r ∈ figures, r.1 = 73) ∧ 73 ∉ evaluates :=
  ⟨sameButB_iff (by decide +kernel), by decide +kernel, by decide, by decide⟩

example : ∃ x, decodeOne (decoder .debug) .debug ([73, 0, 1, 0, 5] ++ [3, 0, 1, 0, 7]) = .ok (x, [73, 0, 1, 0, 5].length) :=
  ⟨.Ebi { t := 73, length := 1, ins := 0, value := 5 }, by decide +kernel⟩

end Gtp.Props
