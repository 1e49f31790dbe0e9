import Verif.Props.Decode1
import Verif.Props.Msg
import Verif.Props.UMsg
import Verif.Props.CMsgRecv
import Verif.Props.CSimple

/-!
# Property C68: the version octet

Version and protocol type are in the first octet of every message of every version: bits 8 to 6 are the version, and in version 1 bit 5 tells
GTP (1) from GTP' (0). The theorems say that the octet decides which decoders can accept a buffer and which error the others report, and that
the encoders write it.
-/

namespace Gtp.Props

/-- Version and protocol type of GTPv2-C. -/
abbrev IsV2 (b : Bytes) : Prop := numAt b 0 1 / 32 = 2

/-- A result that is the error for a version that is not supported. -/
def Unsupported {α : Type} (x : R V1.Err α) : Prop := x = .err .headerVersionNotSupported

/-- No result. -/
def Refused {ε α : Type} (x : R ε α) : Prop := ∀ y, x ≠ .ok y

theorem Unsupported.bind {α β : Type} {x : R V1.Err α} {f : α → R V1.Err β} (h : Unsupported x) : Unsupported (x >>= f) := by
  rw [Unsupported] at h
  rw [h]
  rfl

theorem Refused.bind {ε α β : Type} {x : R ε α} {f : α → R ε β} (h : Refused x) : Refused (x >>= f) := by
  intro y hy
  obtain ⟨a, ha, -⟩ := ok_bind_inv hy
  exact h a ha

theorem oct_numAt (b : Bytes) (h : 8 ≤ b.length) : oct b 0 = numAt b 0 1 := by
  match b, h with
  | b0 :: r, _ => simp [oct, numAt, valueOf]

/-! ## Headers -/

/-- C68, GTPv2-C headers: the error for the version is reported exactly for a buffer of at least eight octets with another version. -/
theorem C68_v2_header (b : Bytes) : V2.Header.unmarshal b = .err .headerVersionNotSupported ↔ 8 ≤ b.length ∧ ¬ IsV2 b := by
  rw [C02_header_total_precise, headerSpec]
  by_cases h8 : b.length < 8
  · rw [if_pos h8]
    exact ⟨fun h => (by cases h), fun h => absurd h.1 (by omega)⟩
  · rw [if_neg h8, IsV2, ← oct_numAt b (by omega)]
    by_cases hv : oct b 0 / 32 ≠ 2
    · rw [if_pos hv]
      exact ⟨fun _ => ⟨by omega, hv⟩, fun _ => rfl⟩
    · rw [if_neg hv]
      refine ⟨fun h => ?_, fun h => absurd h.2 hv⟩
      split at h
      · split at h
        · cases h
        · split at h <;> cases h
      · split at h <;> cases h

theorem v2_accepts (b : Bytes) (h : V2.Header) (H : V2.Header.unmarshal b = .ok h) : 8 ≤ b.length ∧ IsV2 b := by
  have h8 : 8 ≤ b.length := by
    rcases Nat.lt_or_ge b.length 8 with z | z
    · rw [C02_header_total_precise, headerSpec, if_pos z] at H
      cases H
    · exact z
  refine ⟨h8, Decidable.byContradiction fun hv => ?_⟩
  rw [(C68_v2_header b).mpr ⟨h8, hv⟩] at H
  cases H

/-- An error other than the one for the version. -/
def OtherErr {α : Type} (x : R V1.Err α) : Prop := x ≠ .err .headerVersionNotSupported

theorem OtherErr.bind {α β : Type} {x : R V1.Err α} {f : α → R V1.Err β} (h : OtherErr x) (hf : ∀ a, OtherErr (f a)) : OtherErr (x >>= f) := by
  cases x with
  | ok a => exact hf a
  | err e => exact fun h' => h (by cases h'; rfl)
  | panic => exact fun h' => by cases h'
  | diverge => exact fun h' => by cases h'

theorem OtherErr.ok {α : Type} (a : α) : OtherErr (.ok a : R V1.Err α) := fun h => by cases h
theorem OtherErr.rd (b : Bytes) (i : Nat) : OtherErr (rd b i : R V1.Err UInt8) := by
  unfold Gtp.rd
  split <;> exact fun h => by cases h
theorem OtherErr.rd16 (b : Bytes) (i : Nat) : OtherErr (rd16 b i : R V1.Err UInt16) :=
  (OtherErr.rd _ _).bind fun _ => (OtherErr.rd _ _).bind fun _ => OtherErr.ok _
theorem OtherErr.slFrom (b : Bytes) (i : Nat) : OtherErr (slFrom b i : R V1.Err Bytes) := by
  unfold Gtp.slFrom
  split <;> exact fun h => by cases h
theorem OtherErr.len4 (m : Mode) (l : UInt8) : OtherErr (U.len4 m l) := by
  cases m
  · rcases Nat.lt_or_ge l.toNat 64 with h | h
    · rw [U.len4_ok h]; exact OtherErr.ok _
    · rw [U.len4_debug h]; exact fun h => by cases h
  · rw [U.len4_release]; exact OtherErr.ok _
theorem OtherErr.lengthErr {α : Type} : OtherErr (.err .extHeaderInvalidLength : R V1.Err α) := fun h => by cases h
theorem OtherErr.lengthErr' {α : Type} : OtherErr (.err .headerInvalidLength : R V1.Err α) := fun h => by cases h
theorem OtherErr.panic {α : Type} : OtherErr (.panic : R V1.Err α) := fun h => by cases h
theorem OtherErr.sl (b : Bytes) (i j : Nat) : OtherErr (sl b i j : R V1.Err Bytes) := by
  unfold Gtp.sl
  split <;> exact fun h => by cases h

theorem u_ext_other (m : Mode) (b : Bytes) : OtherErr (U.ExtHdr.unmarshal m b) := by
  match b with
  | [] => rw [U.ext_nil]; exact OtherErr.panic
  | [t] =>
    by_cases ht : t = 0
    · subst ht; rw [U.ext_zero]; exact OtherErr.ok _
    · rw [U.ext_one m t ht]; exact OtherErr.panic
  | t :: l :: r =>
    by_cases ht : t = 0
    · subst ht; rw [U.ext_zero]; exact OtherErr.ok _
    · rw [U.ext_cons m t l r ht]
      split
      · exact OtherErr.lengthErr
      · refine (OtherErr.len4 m l).bind fun n => ?_
        split
        · rcases U.extBody_cases t l n r with ⟨⟨x, hx⟩, -⟩ | ⟨hx, -⟩ <;> rw [hx]
          · exact OtherErr.ok _
          · exact OtherErr.panic
        · exact OtherErr.lengthErr

theorem u_chain_other (m : Mode) : ∀ (f : Nat) (b : Bytes), OtherErr (U.Header.extLoop m f b)
  | 0, _ => fun h => by cases h
  | f + 1, b => by
    rw [U.Header.extLoop]
    refine (u_ext_other m b).bind fun i => ?_
    split
    · exact OtherErr.ok _
    · refine OtherErr.bind ?_ fun n => (OtherErr.slFrom _ _).bind fun b' => (u_chain_other m f b').bind fun _ => OtherErr.ok _
      rw [U.ExtHdr.len]
      split
      · exact OtherErr.ok _
      · exact OtherErr.len4 _ _

/-- C68, GTPv1-U headers. -/
theorem C68_u_header (m : Mode) (b : Bytes) : U.Header.unmarshal m b = .err .headerVersionNotSupported ↔ 8 ≤ b.length ∧ ¬ IsV1 b := by
  by_cases h8 : 8 ≤ b.length
  rotate_left
  · rw [U.Header.unmarshal, if_neg h8]
    exact ⟨fun h => (by cases h), fun h => absurd h.1 h8⟩
  match b, h8 with
  | b0 :: b1 :: b2 :: b3 :: b4 :: b5 :: b6 :: b7 :: r, h8 =>
    rw [u_unfold]
    generalize b0 :: b1 :: b2 :: b3 :: b4 :: b5 :: b6 :: b7 :: r = b at *
    by_cases hv : IsV1 b
    · rw [if_pos hv]
      refine ⟨fun h => absurd h ?_, fun h => absurd hv h.2⟩
      split
      · exact OtherErr.lengthErr'
      split
      · exact OtherErr.ok _
      split
      · refine (OtherErr.rd16 _ _).bind fun s => (OtherErr.rd _ _).bind fun n => ?_
        split
        · exact OtherErr.ok _
        · exact (u_chain_other _ _ _).bind fun _ => OtherErr.ok _
      · exact OtherErr.lengthErr'
    · rw [if_neg hv]
      exact ⟨fun _ => ⟨h8, hv⟩, fun _ => rfl⟩

theorem u_accepts (m : Mode) (b : Bytes) (h : U.Header) (H : U.Header.unmarshal m b = .ok h) : 8 ≤ b.length ∧ IsV1 b := by
  have h8 : 8 ≤ b.length := Decidable.byContradiction fun z => by
    rw [U.Header.unmarshal, if_neg z] at H
    cases H
  refine ⟨h8, Decidable.byContradiction fun hv => ?_⟩
  rw [(C68_u_header m b).mpr ⟨h8, hv⟩] at H
  cases H

theorem c_ext_other (m : Mode) (b : Bytes) : OtherErr (C1.ExtHdr.unmarshal m b) := by
  match b with
  | [] => rw [C1.ext_nil]; exact OtherErr.panic
  | [t] =>
    by_cases ht : t = 0
    · subst ht; rw [C1.ext_zero]; exact OtherErr.ok _
    · rw [C1.ext_one m t ht]; exact OtherErr.panic
  | t :: l :: r =>
    by_cases ht : t = 0
    · subst ht; rw [C1.ext_zero]; exact OtherErr.ok _
    · rw [C1.ext_cons m t l r ht]
      split
      · exact OtherErr.lengthErr
      · refine (OtherErr.len4 m l).bind fun n => ?_
        split
        · unfold C1.extBody
          repeat' split
          all_goals first | exact (OtherErr.rd16 _ _).bind fun _ => OtherErr.ok _ | exact (OtherErr.sl _ _ _).bind fun _ => OtherErr.ok _
        · exact OtherErr.lengthErr

theorem c_chain_other (m : Mode) : ∀ (f : Nat) (b : Bytes), OtherErr (C1.Header.extLoop m f b)
  | 0, _ => fun h => by cases h
  | f + 1, b => by
    rw [C1.Header.extLoop]
    refine (c_ext_other m b).bind fun i => ?_
    split
    · exact OtherErr.ok _
    · refine OtherErr.bind ?_ fun n => (OtherErr.slFrom _ _).bind fun b' => (c_chain_other m f b').bind fun _ => OtherErr.ok _
      rw [C1.ExtHdr.len]
      split
      · exact OtherErr.ok _
      · exact OtherErr.len4 _ _

/-- C68, GTPv1-C headers. -/
theorem C68_c_header (m : Mode) (b : Bytes) : C1.Header.unmarshal m b = .err .headerVersionNotSupported ↔ 8 ≤ b.length ∧ ¬ IsV1 b := by
  by_cases h8 : 8 ≤ b.length
  rotate_left
  · rw [C1.Header.unmarshal, if_pos (by omega)]
    exact ⟨fun h => (by cases h), fun h => absurd h.1 h8⟩
  match b, h8 with
  | b0 :: b1 :: b2 :: b3 :: b4 :: b5 :: b6 :: b7 :: r, h8 =>
    obtain ⟨e0, -, -, -⟩ := numAt_cons b0 b1 b2 b3 b4 b5 b6 b7 r
    obtain ⟨f1, -⟩ := first_octet b0
    rw [C1.Header.unmarshal, if_neg (by omega)]
    simp only [IsV1, flagAt, e0, ← f1]
    simp only [rd16, rd32, rd_zero, rd_succ, R.ok_bind, R.pure_eq]
    by_cases hv : b0 >>> 5 = 1 ∧ (b0 >>> 4) &&& 1 = 1
    · rw [if_pos hv]
      refine ⟨fun h => absurd h ?_, fun h => absurd hv h.2⟩
      split
      · exact OtherErr.ok _
      · refine OtherErr.bind ?_ fun _ => OtherErr.bind ?_ fun _ => OtherErr.bind ?_ fun _ => OtherErr.ok _
        · rw [C1.Header.rdSqn]
          repeat' split
          · exact OtherErr.lengthErr'
          · exact (OtherErr.rd16 _ _).bind fun _ => OtherErr.ok _
          · exact OtherErr.ok _
        · rw [C1.Header.rdNpdu]
          repeat' split
          · exact OtherErr.lengthErr'
          · exact (OtherErr.rd _ _).bind fun _ => OtherErr.ok _
          · exact OtherErr.ok _
        · rw [C1.Header.rdExts]
          repeat' split
          · exact OtherErr.lengthErr'
          · exact (OtherErr.slFrom _ _).bind fun _ => (c_chain_other _ _ _).bind fun _ => OtherErr.ok _
          · exact OtherErr.ok _
    · rw [if_neg hv]
      exact ⟨fun _ => ⟨h8, hv⟩, fun _ => rfl⟩

theorem c_accepts (m : Mode) (b : Bytes) (h : C1.Header) (H : C1.Header.unmarshal m b = .ok h) : 8 ≤ b.length ∧ IsV1 b := by
  have h8 : 8 ≤ b.length := Decidable.byContradiction fun z => by
    rw [C1.Header.unmarshal, if_pos (by omega)] at H
    cases H
  refine ⟨h8, Decidable.byContradiction fun hv => ?_⟩
  rw [(C68_c_header m b).mpr ⟨h8, hv⟩] at H
  cases H

/-! ## Messages -/

/-- C68, GTPv2-C messages: a buffer with another version is rejected by every decoder with the error for the version. -/
theorem C68_v2_message (m : Mode) (k : V2.MsgKind) (b : Bytes) (h8 : 8 ≤ b.length) (hv : ¬ IsV2 b) :
    k.codec.unmarshal m b = .err .headerVersionNotSupported := by
  rw [V2.Codec.unmarshal, (C68_v2_header b).mpr ⟨h8, hv⟩]
  rfl

/-- C68: what a GTPv2-C decoder accepts has version 2. -/
theorem C68_v2_accepted (m : Mode) (k : V2.MsgKind) (b : Bytes) (y : k.T) (H : k.codec.unmarshal m b = .ok y) : 8 ≤ b.length ∧ IsV2 b := by
  rw [V2.Codec.unmarshal] at H
  obtain ⟨h, hh, -⟩ := ok_bind_inv H
  exact v2_accepts b h hh

/-- C68, GTPv1-U messages. -/
theorem C68_u_message (m : Mode) (b : Bytes) (h8 : 8 ≤ b.length) (hv : ¬ IsV1 b) :
    Unsupported (U.Gpdu.unmarshal m b) ∧ Unsupported (U.EndMarker.unmarshal m b) ∧ Unsupported (U.EchoRequest.unmarshal m b) ∧
    Unsupported (U.EchoResponse.unmarshal m b) ∧ Unsupported (U.SupportedExt.unmarshal m b) ∧ Unsupported (U.ErrorIndication.unmarshal m b) := by
  have h : Unsupported (U.Header.unmarshal m b) := (C68_u_header m b).mpr ⟨h8, hv⟩
  exact ⟨h.bind.bind, h.bind.bind, h.bind.bind, h.bind.bind, h.bind.bind, h.bind.bind⟩

theorem u_refused (m : Mode) (b : Bytes) (hv : ¬ (8 ≤ b.length ∧ IsV1 b)) : Refused (U.Header.unmarshal m b) :=
  fun h H => hv (u_accepts m b h H)

/-- C68: what is not version 1 with protocol type 1 is accepted by no GTPv1-U decoder. -/
theorem C68_u_accepted (m : Mode) (b : Bytes) (hv : ¬ (8 ≤ b.length ∧ IsV1 b)) :
    Refused (U.Gpdu.unmarshal m b) ∧ Refused (U.EndMarker.unmarshal m b) ∧ Refused (U.EchoRequest.unmarshal m b) ∧
    Refused (U.EchoResponse.unmarshal m b) ∧ Refused (U.SupportedExt.unmarshal m b) ∧ Refused (U.ErrorIndication.unmarshal m b) := by
  have h := u_refused m b hv
  exact ⟨h.bind.bind, h.bind.bind, h.bind.bind, h.bind.bind, h.bind.bind, h.bind.bind⟩

/-- C68, GTPv1-C messages. -/
theorem C68_c_message (m : Mode) (b : Bytes) (h8 : 8 ≤ b.length) (hv : ¬ IsV1 b) :
    (∀ t : C1.Msg, Unsupported (t.desc.unmarshal m b)) ∧ Unsupported (C1.EchoRequest.unmarshal m b) ∧ Unsupported (C1.EchoResponse.unmarshal m b) ∧
    Unsupported (C1.VersionNotSupported.unmarshal m b) ∧ Unsupported (C1.SupportedExtensionHeadersNotification.unmarshal m b) := by
  have h : Unsupported (C1.Header.unmarshal m b) := (C68_c_header m b).mpr ⟨h8, hv⟩
  exact ⟨fun t => h.bind, h.bind.bind, h.bind.bind, h.bind.bind, h.bind.bind⟩

/-- C68: what is not version 1 with protocol type 1 is accepted by no GTPv1-C decoder. -/
theorem C68_c_accepted (m : Mode) (b : Bytes) (hv : ¬ (8 ≤ b.length ∧ IsV1 b)) :
    (∀ t : C1.Msg, Refused (t.desc.unmarshal m b)) ∧ Refused (C1.EchoRequest.unmarshal m b) ∧ Refused (C1.EchoResponse.unmarshal m b) ∧
    Refused (C1.VersionNotSupported.unmarshal m b) ∧ Refused (C1.SupportedExtensionHeadersNotification.unmarshal m b) := by
  have h : Refused (C1.Header.unmarshal m b) := fun x H => hv (c_accepts m b x H)
  exact ⟨fun t => h.bind, h.bind.bind, h.bind.bind, h.bind.bind, h.bind.bind⟩

/-- C68: no buffer is accepted by a decoder of GTPv2-C and by a decoder of GTPv1-C, nor by one of GTPv2-C and the one of G-PDUs. -/
theorem C68_disjoint (m : Mode) (k : V2.MsgKind) (t : C1.Msg) (b : Bytes) (y : k.T) (H : k.codec.unmarshal m b = .ok y) :
    Refused (t.desc.unmarshal m b) ∧ Refused (U.Gpdu.unmarshal m b) := by
  have h := (C68_v2_accepted m k b y H).2
  have hv : ¬ (8 ≤ b.length ∧ IsV1 b) := fun z => absurd (h.symm.trans z.2.1) (by decide)
  exact ⟨(C68_c_accepted m b hv).1 t, (C68_u_accepted m b hv).1⟩

/-! ## Encoders -/

theorem v2_flags (h : V2.Header) : h.flags.toNat / 32 = 2 := by
  obtain ⟨t, p, o, l, i, s⟩ := h
  cases p <;> cases o <;> cases i <;> simp [V2.Header.flags]

theorem u_flags (h : U.Header) : h.flags.toNat / 32 = 1 ∧ h.flags.toNat / 2 ^ 4 % 2 = 1 := by
  obtain ⟨t, l, i, s, n, x⟩ := h
  cases s <;> cases n <;> cases x <;> simp [U.Header.flags]

theorem c_flags (h : C1.Header) : h.flags.toNat / 32 = 1 ∧ h.flags.toNat / 2 ^ 4 % 2 = 1 := by
  obtain ⟨t, l, i, s, n, x⟩ := h
  cases s <;> cases n <;> cases x <;> simp [C1.Header.flags]

theorem numAt_head (a : UInt8) (r : Bytes) : numAt (a :: r) 0 1 = a.toNat := by simp [numAt, valueOf]

/-- C68: GTPv2-C messages are written with version 2. -/
theorem C68_v2_written (k : V2.MsgKind) (x : k.T) : IsV2 (k.codec.marshal x) := by
  rw [V2.Codec.marshal_eq, V2.Header.marshal_cons, IsV2, List.cons_append, numAt_head]
  exact v2_flags _

/-- C68: GTPv1-U messages are written with version 1 and protocol type 1. -/
theorem C68_u_written (x : UMsg) : IsV1 (x.marshalInto []) := by
  rw [umsg_marshal, List.nil_append, setLen_eq]
  obtain ⟨r, -, hr⟩ := header_cons x.header
  rw [hr, IsV1, flagAt, List.cons_append, numAt_head]
  exact u_flags _

/-- C68: GTPv1-C messages are written with version 1 and protocol type 1. -/
theorem C68_c_written (t : C1.Msg) (x : t.desc.X) : IsV1 (t.desc.marshalInto [] x) := by
  rw [C1.marshal_octets]
  obtain ⟨r, -, hr⟩ := C1.header_cons (t.desc.header x)
  rw [hr, IsV1, flagAt, List.cons_append, numAt_head]
  exact c_flags _

theorem c_simple_written (h : C1.Header) (body : Bytes) : IsV1 (setMsgLength1 (h.marshal ++ body)) := by
  rw [C1.setLen_eq]
  obtain ⟨r, -, hr⟩ := C1.header_cons h
  rw [hr, IsV1, flagAt, List.cons_append, numAt_head]
  exact c_flags _

/-- C68: the same for the four messages that are not decoded in a loop. -/
theorem C68_c_simple_written (x : C1.EchoRequest) (y : C1.EchoResponse) (z : C1.VersionNotSupported)
    (w : C1.SupportedExtensionHeadersNotification) : IsV1 (x.marshalInto []) ∧ IsV1 (y.marshalInto []) ∧ IsV1 (z.marshalInto []) ∧
    IsV1 (w.marshalInto []) :=
  ⟨c_simple_written _ _, c_simple_written _ _, c_simple_written z.header [], c_simple_written _ _⟩

/-! ## Instances -/

/-- A G-PDU, an Echo Request of GTPv2-C, and a message of GTP'. -/
example : IsV1 [0x30, 255, 0, 1, 0, 0, 0, 7, 9] ∧ ¬ IsV2 [0x30, 255, 0, 1, 0, 0, 0, 7, 9] ∧ IsV2 [0x40, 1, 0, 9, 0, 0, 1, 0, 3, 0, 1, 0, 5] ∧
    ¬ IsV1 [0x40, 1, 0, 9, 0, 0, 1, 0, 3, 0, 1, 0, 5] ∧ ¬ IsV1 [0x20, 1, 0, 0, 0, 0, 0, 0] ∧ ¬ IsV2 [0x20, 1, 0, 0, 0, 0, 0, 0] := by decide

example : ∃ y, V2.MsgKind.EchoRequest.codec.unmarshal .debug [0x40, 1, 0, 9, 0, 0, 1, 0, 3, 0, 1, 0, 5] = .ok y := ⟨_, rfl⟩

end Gtp.Props
