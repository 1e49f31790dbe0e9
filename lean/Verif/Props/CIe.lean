import Verif.C1.Kind

/-!
# Properties C35, C43 to C46 (GTPv1-C information elements)

`k.codec.mar x` are the octets that `x.marshal(&mut buffer)` appends for a value `x` of the structure
`k`, `k.codec.unm m b` is `X::unmarshal(b)`, `k.codec.len m x` is `x.len()`.
-/

namespace Gtp.Props.C1
open Gtp.C1 Gtp.V1
open Gtp.V2 (declLen)

/-- The declared length, read off the octets. -/
def declared (b : Bytes) : Nat := (b.getD 1 0).toNat * 256 + (b.getD 2 0).toNat

theorem declared_eq (b : Bytes) : (declLen b).toNat = declared b := by
  rw [declLen, of16_toNat]
  rfl

/-! ## C35: round trip -/

/-- The two kinds whose value extends to the end of the buffer when decoded. -/
def Swallows (k : Kind) : Prop := k = .PrivateExtension ∨ k = .ExtensionHeaderTypeList

theorem greedy_of {k : Kind} (h : ¬ Swallows k) : k.greedy = false := by
  cases k <;> first | rfl | exact absurd (by simp [Swallows]) h

/-- C35 (partial): decoding the encoding of a value gives the value back, whatever follows. Missing: the
two kinds that swallow what follows (`C35_ie_roundtrip_last` and `C35_violation_swallows`), and values that
the well-formedness conditions exclude (`C35_violation_msisdn`). -/
theorem C35_ie_roundtrip_partial (m : Mode) (k : Kind) (hk : ¬ Swallows k) (x : k.Ty) (h : k.codec.WF x) (tail : Bytes) :
    k.codec.unm m (k.codec.mar x ++ tail) = .ok x := k.rt (greedy_of hk) m x tail h

/-- C35 at the end of the buffer: every kind. -/
theorem C35_ie_roundtrip_last (m : Mode) (k : Kind) (x : k.Ty) (h : k.codec.WF x) :
    k.codec.unm m (k.codec.mar x) = .ok x := k.rtLast m x h

/-- Well-formed values of several kinds. -/
def exImsi : Kind.Ty .Imsi := (⟨2, "310260123456789".toList⟩ : Imsi)
def exUli : Kind.Ty .Uli := (⟨152, 8, 262, 3, false, 48190, .rac 7⟩ : Uli)
def exEua : Kind.Ty .EndUserAddress := (⟨128, 22, 1, 0x8d, some 0x0a000001, some ⟨1, 2⟩⟩ : EndUserAddress)
def exApn : Kind.Ty .Apn := (⟨131, 9, "abc.mnc1".toList⟩ : Apn)
def exPriv : Kind.Ty .PrivateExtension := (⟨255, 5, 10415, [1, 2, 3]⟩ : PrivateExtension)

example : (Kind.codec .Imsi).WF exImsi ∧ (Kind.codec .Uli).WF exUli ∧ (Kind.codec .EndUserAddress).WF exEua ∧
    (Kind.codec .Apn).WF exApn ∧ (Kind.codec .PrivateExtension).WF exPriv ∧ ¬ Swallows .Apn := by
  refine ⟨by decide +kernel, by decide +kernel, by decide +kernel, by decide +kernel, by decide +kernel, by simp [Swallows]⟩

/-- C35 is violated: a private extension, or an extension header type list, that is followed by anything
is never decoded back; what follows becomes part of the value. -/
theorem C35_violation_swallows (m : Mode) (tail : Bytes) (ht : tail ≠ []) :
    (∀ x : PrivateExtension, x.WF → PrivateExtension.unmarshal m (x.marshal ++ tail) ≠ .ok x) ∧
    (∀ x : ExtensionHeaderTypeList, x.WF → ExtensionHeaderTypeList.unmarshal m (x.marshal ++ tail) ≠ .ok x) := by
  constructor
  · intro x h e
    rw [PrivateExtension.greedy m x tail h] at e
    have := congrArg PrivateExtension.extension_value (R.ok.inj e)
    simp at this
    exact ht this
  · intro x h e
    rw [ExtensionHeaderTypeList.greedy m x tail h] at e
    have := congrArg ExtensionHeaderTypeList.list (R.ok.inj e)
    simp at this
    exact ht this

/-- C35 is violated: the decoder of an MSISDN reads eight octets of digits, whatever the length. A number of
at most 14 digits is not decoded back: at the end of a buffer its own encoding makes the decoder panic. -/
theorem C35_violation_msisdn (m : Mode) (x : Msisdn) (hd : ∀ c ∈ x.msisdn, IsDigit c) (hn : x.msisdn.length ≤ 14)
    (hl : x.length.toNat = 1 + (x.msisdn.length + 1) / 2) (he : x.extension < 2) (hna : x.number_nature < 8)
    (hp : x.number_plan = 1 ∨ x.number_plan = 6) : Msisdn.unmarshal m x.marshal = .panic := by
  have hb := tbcd_length _ hd
  have hl' : x.length.toNat =
      (Msisdn.octet x.extension x.number_nature x.number_plan :: tbcdEncode x.msisdn).length := by
    simp [hb, hl]; omega
  rw [(Msisdn.panics m _).1]
  have ho := (Msisdn.octet_dec he hna hp).2.2
  right
  rw [Msisdn.marshal, tlv_wf hl']
  have ed : declLen (x.t :: hi16 x.length :: lo16 x.length ::
      (Msisdn.octet x.extension x.number_nature x.number_plan :: tbcdEncode x.msisdn)) = x.length := by
    simp [declLen, of16_be]
  constructor
  · left
    refine ⟨by simp, ?_, ?_, ?_⟩ <;> rw [ed] <;> (try simp only [List.length_cons, hb]) <;> omega
  · right
    constructor
    · simpa [ho] using hp
    · simp [hb]; omega

/-- The number 49172 1234567, 12 digits. -/
example : ∃ x : Msisdn, (∀ c ∈ x.msisdn, IsDigit c) ∧ x.msisdn.length = 12 ∧ x.length.toNat = 1 + (x.msisdn.length + 1) / 2 ∧
    x.extension < 2 ∧ x.number_nature < 8 ∧ x.number_plan = 1 :=
  ⟨⟨134, 7, 1, 1, 1, "491721234567".toList⟩, by decide, by decide, by decide, by decide, by decide, by decide⟩

/-! ## C43: panics -/

/-- The kinds with a decoder that can panic. -/
def CanPanic (k : Kind) : Prop := k ∈ [Kind.EndUserAddress, .Apn, .Pco, .GsnAddress, .Msisdn, .Qos, .Tft,
  .ExtensionHeaderTypeList, .TriggerId, .OmcId, .CamelChargingInfoContainer, .GGSNBackOffTime, .ChargingGWAddress,
  .PrivateExtension]

instance (k : Kind) : Decidable (CanPanic k) := by unfold CanPanic; infer_instance

/-- C43 (partial): the decoders of the 35 other kinds return a value or an error on every buffer, in both
build modes. -/
theorem C43_no_panic_partial (k : Kind) (hk : ¬ CanPanic k) (m : Mode) (b : Bytes) :
    k.codec.unm m b ≠ .panic ∧ k.codec.unm m b ≠ .diverge := by
  have h := k.panics m b
  refine ⟨fun e => ?_, h.2⟩
  have hp := h.1.mp e
  cases k <;> first | exact hp | exact hk (by simp [CanPanic])

example : ¬ CanPanic .Uli ∧ ¬ CanPanic .CommonFlags := by decide +kernel

/-- C43, the 14 kinds: none of the decoders loops, and each panics on exactly the buffers described: a declared
length of 65533 or more, octets read behind the end of the buffer, or labels that do not fill an APN. -/
theorem C43_panics_iff (m : Mode) (b : Bytes) :
    let over := 3 ≤ b.length ∧ 65533 ≤ declared b
    let room := 3 ≤ b.length ∧ 0 < declared b ∧ declared b < 65533 ∧ declared b + 3 ≤ b.length
    let tlv (P : Prop) := (m = .debug ∧ over) ∨ ((room ∨ m = .release ∧ over) ∧ P)
    (Pco.unmarshal m b = .panic ↔ over) ∧ (Tft.unmarshal m b = .panic ↔ over) ∧
    (TriggerId.unmarshal m b = .panic ↔ over) ∧ (OmcId.unmarshal m b = .panic ↔ over) ∧
    (Qos.unmarshal m b = .panic ↔ over) ∧
    (GsnAddress.unmarshal m b = .panic ↔ m = .debug ∧ over) ∧
    (ChargingGWAddress.unmarshal m b = .panic ↔ m = .debug ∧ over) ∧
    (CamelChargingInfoContainer.unmarshal m b = .panic ↔ over ∧ (m = .debug ∨ b.length < 3 + declared b)) ∧
    (EndUserAddress.unmarshal m b = .panic ↔ tlv (b.length < 5)) ∧
    (PrivateExtension.unmarshal m b = .panic ↔ tlv (b.length < 5)) ∧
    (Msisdn.unmarshal m b = .panic ↔ tlv (b.length < 4 ∨
      (b.getD 3 0 &&& 0x0f = 1 ∨ b.getD 3 0 &&& 0x0f = 6) ∧ b.length < 12)) ∧
    (Apn.unmarshal m b = .panic ↔ tlv (b.length < 3 + declared b ∨ ¬ Gtp.V2.Labels ((b.drop 3).take (declared b)))) ∧
    (GGSNBackOffTime.unmarshal m b = .panic ↔ b.length = 2 ∨ b.length = 3) ∧
    (ExtensionHeaderTypeList.unmarshal m b = .panic ↔ b.length < 2 ∨ m = .debug ∧ 254 ≤ (b.getD 1 0).toNat) ∧
    ∀ k : Kind, k.codec.unm m b ≠ .diverge := by
  simp only [← declared_eq]
  refine ⟨(Pco.panics m b).1, (Tft.panics m b).1, (TriggerId.panics m b).1, (OmcId.panics m b).1, (Qos.panics m b).1,
    ?_, ?_, (CamelChargingInfoContainer.panics m b).1, (EndUserAddress.panics m b).1, (PrivateExtension.panics m b).1,
    (Msisdn.panics m b).1, (Apn.panics m b).1, (GGSNBackOffTime.panics m b).1, (ExtensionHeaderTypeList.panics m b).1,
    fun k => (k.panics m b).2⟩
  · have := (GsnAddress.panics m b).1
    simpa [TlvPanics, Overflows] using this
  · have := (ChargingGWAddress.panics m b).1
    simpa [TlvPanics, Overflows] using this

/-- For each of the 14 kinds, octets on which the decoder panics in a debug build. -/
def panicOctets : List (Kind × Bytes) := [
  (.EndUserAddress, [128, 0, 1, 0xf1]), (.Apn, [131, 0, 2, 5, 97]), (.Pco, [132, 255, 253]), (.GsnAddress, [133, 255, 253]),
  (.Msisdn, [134, 0, 2, 0x91, 0x21]), (.Qos, [135, 255, 253]), (.Tft, [137, 255, 253]), (.ExtensionHeaderTypeList, [141]),
  (.TriggerId, [142, 255, 253]), (.OmcId, [143, 255, 253]), (.CamelChargingInfoContainer, [155, 255, 253]),
  (.GGSNBackOffTime, [202, 0, 1]), (.ChargingGWAddress, [251, 255, 253]), (.PrivateExtension, [255, 0, 1, 7])]

/-- C43 is violated by each of the 14 kinds. -/
theorem C43_violation : (∀ k, CanPanic k ↔ k ∈ panicOctets.map Prod.fst) ∧
    ∀ p ∈ panicOctets, (Kind.codec p.1).unm .debug p.2 = .panic := by
  constructor
  · intro k
    cases k <;> decide
  · intro p hp
    simp only [panicOctets, List.mem_cons, List.not_mem_nil, or_false] at hp
    rcases hp with rfl | rfl | rfl | rfl | rfl | rfl | rfl | rfl | rfl | rfl | rfl | rfl | rfl | rfl <;> rfl

/-! ## C44: the length field and `len` -/

/-- The kinds with a two-octet length field. -/
def IsTlv (k : Kind) : Prop := 128 ≤ k.code ∧ k ≠ .ExtensionHeaderTypeList

instance (k : Kind) : Decidable (IsTlv k) := by unfold IsTlv; infer_instance

theorem mar_tlv (k : Kind) (h : IsTlv k) (x : k.Ty) : ∃ t l body, k.codec.mar x = tlv t l body := by
  cases k
  all_goals first
    | exact ⟨_, _, _, rfl⟩
    | exact absurd h (by decide)

/-- C44: the length octets hold the number of octets behind them, for every value (well formed or not). -/
theorem C44_length_field (k : Kind) (hk : IsTlv k) (x : k.Ty) (h : (k.codec.mar x).length < 65539) :
    3 ≤ (k.codec.mar x).length ∧ declared (k.codec.mar x) + 3 = (k.codec.mar x).length := by
  obtain ⟨t, l, body, hm⟩ := mar_tlv k hk x
  rw [hm, tlv_eq] at h ⊢
  simp only [declared, List.length_cons, List.getD_cons_succ, List.getD_cons_zero] at h ⊢
  have e1 : (lenU16 body).toNat = body.length := by simp [lenU16]; omega
  have e2 := of16_toNat (hi16 (lenU16 body)) (lo16 (lenU16 body))
  rw [of16_be] at e2
  omega

example : IsTlv .Apn ∧ ((Kind.codec .Apn).mar exApn).length < 65539 ∧ (Kind.all.filter (fun k => IsTlv k)).length = 35 := by
  decide +kernel

/-- C44 (partial): `len()` is the number of octets written. Missing: `ApnRestriction`. -/
theorem C44_len_partial (m : Mode) (k : Kind) (hk : k ≠ .ApnRestriction) (x : k.Ty) (h : k.codec.WF x) :
    k.codec.len m x = .ok (k.codec.mar x).length := k.lenOk hk m x h

/-- C44 is violated by every value of `ApnRestriction`: four octets are written, `len()` says two. -/
theorem C44_violation (m : Mode) (x : ApnRestriction) :
    ApnRestriction.len m x = .ok 2 ∧ x.marshal.length = 4 := ⟨rfl, tlv_length _ _ _⟩

/-! ## C45: encodings identify values -/

/-- C45: a well-formed value is determined by its encoding, and no encoding is a proper prefix of another one
of the same kind, unless the kind swallows what follows. -/
theorem C45_injective (k : Kind) (x y : k.Ty) (hx : k.codec.WF x) (hy : k.codec.WF y) :
    (k.codec.mar x = k.codec.mar y → x = y) ∧
    (¬ Swallows k → ∀ t u, k.codec.mar x ++ t = k.codec.mar y ++ u → x = y ∧ t = u) := by
  constructor
  · intro e
    have a := k.rtLast .debug x hx
    rw [e, k.rtLast .debug y hy] at a
    exact (R.ok.inj a).symm
  · intro hk t u e
    have a := k.rt (greedy_of hk) .debug x t hx
    rw [e, k.rt (greedy_of hk) .debug y u hy] at a
    have hxy : x = y := (R.ok.inj a).symm
    subst hxy
    exact ⟨rfl, List.append_cancel_left e⟩

/-- The first octet is the type code; a TEID carries 16 or 17. Distinct kinds have distinct codes. -/
theorem C45_type_octet : (∀ (k : Kind) (x : k.Ty), k.codec.WF x →
      (k.codec.mar x).head? = some k.code ∨ k = .Teid ∧ (k.codec.mar x).head? = some 17) ∧
    (∀ k j : Kind, k.code = j.code → k = j) ∧ ∀ k : Kind, k.code ≠ 17 := by
  refine ⟨fun k x h => ?_, ?_, ?_⟩
  · obtain ⟨t, r, e, h⟩ := k.first x h
    rw [e]
    rcases h with h | ⟨h1, h2⟩
    · exact .inl (by rw [h]; rfl)
    · exact .inr ⟨h1, by rw [h2]; rfl⟩
  · have : ∀ k ∈ Kind.all, ∀ j ∈ Kind.all, k.code = j.code → k = j := by decide +kernel
    exact fun k j => this k k.mem_all j j.mem_all
  · intro k
    cases k <;> decide

/-! ## C46: decoded elements lie inside the buffer -/

/-- The kinds of one octet whose declared length is not compared with the buffer. -/
def Loose (k : Kind) : Prop := k ∈ [Kind.CommonFlags, .DirectTunnelFlags, .ExtendedCommonFlags,
  .CSGInformationReportingAction, .GGSNBackOffTime, .ExtendedCommonFlagsII]

instance (k : Kind) : Decidable (Loose k) := by unfold Loose; infer_instance

theorem withTlv_room {α : Type} {b : Bytes} {f : UInt16 → R Err α} {x : α} (h : withTlv .debug b f = .ok x) :
    (declLen b).toNat + 3 ≤ b.length ∧ (declLen b).toNat < 65533 := by
  rw [withTlv_eq] at h
  split at h
  · cases h
  split at h
  · simp at h
  split at h
  · exact ⟨by omega, by omega⟩
  · cases h

/-- C46 (partial): the octets accounted for a decoded element (`len()`) are at least two and lie inside the
buffer. Missing: six kinds of one octet (see `C46_violation`), and release builds, where the
declared lengths 65533 to 65535 wrap around. -/
theorem C46_inside_partial (k : Kind) (hk : ¬ Loose k) (b : Bytes) (x : k.Ty) (h : k.codec.unm .debug b = .ok x) :
    ∃ n, k.codec.len .debug x = .ok n ∧ 2 ≤ n ∧ n ≤ b.length := by
  rcases k.account .debug b x h with ⟨n, h1, h2, h3⟩ | ⟨h1, h2, h3⟩ | rfl
  · refine ⟨n, h2, ?_, h3⟩
    cases k <;> simp [Kind.fixedLen] at h1 <;> omega
  · have hr : (declLen b).toNat + 3 ≤ b.length ∧ (declLen b).toNat < 65533 := by
      cases k
      all_goals first
        | (simp [Kind.fixedLen] at h1; done)
        | (simp [Loose] at hk; done)
        | exact absurd rfl h2
        | exact withTlv_room h
        | skip
      · have h' : CamelChargingInfoContainer.unmarshal .debug b = .ok x := h
        rw [CamelChargingInfoContainer.unmarshal_eq] at h'
        split at h'
        · cases h'
        split at h'
        · cases h'
        · rename_i hn
          split at h'
          · split at h' <;> cases h'
          · simp at hn
            omega
    exact ⟨_, h3.trans (len3_ok hr.2), by omega, by omega⟩
  · have h' : ExtensionHeaderTypeList.unmarshal .debug b = .ok x := h
    have hp := (ExtensionHeaderTypeList.panics .debug b).1
    rw [h'] at hp
    simp only [reduceCtorEq, true_and, false_iff, not_or, Nat.not_lt, Nat.not_le] at hp
    obtain ⟨hb, hl⟩ := hp
    have h1 : 1 < b.length := by omega
    have e1 : b.getD 1 0 = b[1] := by simp [h1]
    rw [e1] at hl
    unfold ExtensionHeaderTypeList.unmarshal at h'
    rw [rd_lt h1, R.ok_bind, ExtensionHeaderTypeList.add2_ok hl, R.ok_bind, ExtensionHeaderTypeList.toNat_add2 hl] at h'
    split at h'
    · rename_i hle
      rw [slFrom, if_pos (by omega)] at h'
      cases h'
      refine ⟨b[1].toNat + 2, ?_, by omega, hle⟩
      show ExtensionHeaderTypeList.len .debug _ = _
      simp [ExtensionHeaderTypeList.len, ExtensionHeaderTypeList.add2_ok hl, ExtensionHeaderTypeList.toNat_add2 hl]
    · cases h'

example : ¬ Loose .Apn ∧ (Kind.codec .Apn).unm .debug ((Kind.codec .Apn).mar exApn) = .ok exApn := by
  exact ⟨by decide +kernel, C35_ie_roundtrip_last .debug .Apn exApn (by decide +kernel)⟩

/-- C46 is violated by each of the six kinds: in a buffer of four octets, an element is decoded that is
accounted with any number of octets from 3 to 65535, or whose `len()` overflows. -/
theorem C46_violation (k : Kind) (hk : Loose k) (m : Mode) (t l0 l1 v : UInt8) :
    ∃ x, k.codec.unm m [t, l0, l1, v] = .ok x ∧ k.codec.len m x = Gtp.U.len3 m (of16 l0 l1) := by
  simp only [Loose, List.mem_cons, List.not_mem_nil, or_false] at hk
  rcases hk with rfl | rfl | rfl | rfl | rfl | rfl <;> exact ⟨_, rfl, rfl⟩

end Gtp.Props.C1
