import Verif.Props.UErrInd
import Verif.Props.Decode1

/-!
# Property C69: GTPv1-U messages that are decoded and sent on

A node on the user plane decodes a message, replaces the TEID and sends the message on. The specification is the identity: what the next node
decodes is what this node decoded, with the new TEID and with the lengths of what was sent.
-/

namespace Gtp.Props
open Gtp.V1 Gtp.U

/-- The extension header is as long as its type says (TS 29.281 §5.2.2); only types with fixed contents are concerned. -/
def StdSize : ExtHdr → Prop
  | .pdcpPduNumber x => x.length = 1
  | .udpPort x => x.length = 1
  | .sci x => x.length = 1
  | .longPdcpPduNumber x => x.length = 2
  | _ => True

/-- All extension headers are as long as their types say. -/
def Plain (h : U.Header) : Prop := ∀ l, h.exts = some l → ∀ x ∈ l, StdSize x

theorem three_lt (c : Bytes) : (UInt32.ofNat (valueOf (c.take 3))).toNat < 2 ^ 24 := by
  have h : valueOf (c.take 3) < 2 ^ 24 := by
    match c with
    | [] => decide
    | [x] => have := x.toNat_lt; simp [valueOf]; omega
    | [x, y] => have := x.toNat_lt; have := y.toNat_lt; simp [valueOf]; omega
    | x :: y :: z :: _ => have := x.toNat_lt; have := y.toNat_lt; have := z.toNat_lt; simp [valueOf]; omega
  rw [UInt32.toNat_ofNat']
  omega

theorem ext_wf (t l : UInt8) (c r : Bytes) (h0 : t ≠ 0) (h2 : l.toNat < 64) (h3 : c.length + 2 = 4 * l.toNat)
    (hs : StdSize (uExtAt t l c r)) : ExtWF (uExtAt t l c r) := by
  have hu : Units l c := ⟨h2, by omega⟩
  revert hs
  unfold uExtAt
  split <;> intro hs
  · exact ⟨UInt8.toNat_inj.mp (by assumption), hs⟩
  · exact ⟨UInt8.toNat_inj.mp (by assumption), hs⟩
  · refine ⟨.inl (UInt8.toNat_inj.mp (by assumption)), hs, three_lt _⟩
  · refine ⟨.inr (UInt8.toNat_inj.mp (by assumption)), hs, three_lt _⟩
  · exact ⟨UInt8.toNat_inj.mp (by assumption), hs⟩
  · exact ⟨UInt8.toNat_inj.mp (by assumption), hu⟩
  · exact ⟨UInt8.toNat_inj.mp (by assumption), hu⟩
  · exact ⟨UInt8.toNat_inj.mp (by assumption), hu⟩
  · exact ⟨UInt8.toNat_inj.mp (by assumption), hu⟩
  · refine ⟨?_, hu⟩
    intro hm
    have : ∀ t ∈ extTypes, t = 0 ∨ t.toNat = 0xc0 ∨ t.toNat = 0x40 ∨ t.toNat = 0x03 ∨ t.toNat = 0x82 ∨ t.toNat = 0x20 ∨ t.toNat = 0x81 ∨
        t.toNat = 0x83 ∨ t.toNat = 0x84 ∨ t.toNat = 0x85 := by
      simp [extTypes]
    rcases this t hm with h | h | h | h | h | h | h | h | h | h <;> contradiction

theorem chain_wf {b : Bytes} {l : List U.ExtHdr} (h : UChain b l) (hs : ∀ x ∈ l, StdSize x) : ∀ x ∈ l, ExtWF x := by
  induction h with
  | stop r => intro x hx; cases hx
  | more t l c r x h0 _ h2 h3 _ ih =>
    intro y hy
    rcases List.mem_cons.mp hy with rfl | hy
    · exact ext_wf t l c r h0 h2 h3 (hs _ (List.mem_cons_self ..))
    · exact ih (fun z hz => hs z (List.mem_cons_of_mem _ hz)) y hy

/-- C69: a decoded header has a sequence number or no optional field, its length field is not zero, and its extension headers fit the wire
format if they are as long as their types say. -/
theorem C69_decoded_header (b : Bytes) (h : U.Header) (H : U.Header.unmarshal .debug b = .ok h) :
    HasSqn h ∧ (Plain h → UHeaderWF h) := by
  obtain ⟨b, H, hf⟩ : ∃ b, U.Header.unmarshal .debug b = .ok h ∧ FlagsHonoured b := by
    by_cases hf : FlagsHonoured b
    · exact ⟨b, H, hf⟩
    · match b, H, hf with
      | [], H, _ => cases H
      | b0 :: r, H, hf =>
        rw [C67_u_flags .debug b0 r hf] at H
        refine ⟨_, H, ?_⟩
        have : ∀ b0 : UInt8, (b0 ||| 7).toNat / 2 ^ 1 % 2 = 1 := by decide +kernel
        exact .inl (by
          show valueOf [b0 ||| 7] / 2 ^ 1 % 2 = 1
          rw [valueOf_one]
          exact this b0)
  have at_ := C67_u_sound_partial b h hf H
  refine ⟨?_, fun hp => ⟨?_, ?_⟩⟩
  · have h1 := at_.sqn
    have h2 := at_.npdu
    have h3 := at_.exts
    rcases hf with hf | ⟨hf1, hf2⟩
    · rw [if_pos hf] at h1
      refine .inl fun e => ?_
      rw [e] at h1
      cases h1
    · rw [if_neg hf1] at h2
      rw [if_neg hf2] at h3
      exact .inr ⟨by simpa using h2, h3⟩
  · intro e
    have h1 := at_.length
    rw [e] at h1
    exact at_.positive h1.symm
  · intro l hl
    have hx := at_.exts
    split at hx
    · obtain ⟨l', h1, h2⟩ := hx
      rw [hl] at h1
      cases h1
      exact chain_wf h2 (hp l hl)
    · rw [hl] at hx
      cases hx

/-- C69: a decoded header that is encoded again is decoded to the same header, whatever the TEID is replaced by. -/
theorem C69_header (m : Mode) (b : Bytes) (h : U.Header) (H : U.Header.unmarshal .debug b = .ok h) (hp : Plain h) (teid : UInt32) (tail : Bytes) :
    U.Header.unmarshal m (({ h with teid := teid } : U.Header).marshal ++ tail) = .ok { h with teid := teid } := by
  obtain ⟨h1, h2⟩ := C69_decoded_header b h H
  exact C25_header_roundtrip_partial m { h with teid := teid } ⟨(h2 hp).1, (h2 hp).2⟩ h1 tail

theorem read_header_inv {m : Mode} {ty : UInt8} {b : Bytes} {h : U.Header} (e : readHeader m ty b = .ok h) :
    U.Header.unmarshal m b = .ok h ∧ h.msgtype = ty := by
  unfold readHeader at e
  obtain ⟨g, h1, h2⟩ := ok_bind_inv e
  split at h2
  · cases h2
  · next hn =>
    cases h2
    exact ⟨h1, Decidable.byContradiction hn⟩

/-- C69 for G-PDU: a decoded G-PDU that is sent on with another TEID is decoded to the same header with that TEID and the same payload. No
length needs to be adapted, and no octet of the payload is lost or added. -/
theorem C69_gpdu (m : Mode) (b : Bytes) (x : Gpdu) (H : Gpdu.unmarshal .debug b = .ok x) (hp : Plain x.header) (teid : UInt32) (tail : Bytes) :
    Gpdu.unmarshal m (Gpdu.marshalInto [] ⟨{ x.header with teid := teid }, x.tpdu⟩ ++ tail) = .ok ⟨{ x.header with teid := teid }, x.tpdu⟩ := by
  unfold Gpdu.unmarshal at H
  obtain ⟨h, hr, H⟩ := ok_bind_inv H
  obtain ⟨hu, ht⟩ := read_header_inv hr
  by_cases ho : 65528 ≤ h.length.toNat
  · rw [len8_debug ho] at H
    cases H
  rw [len8_ok (by omega), R.ok_bind] at H
  split at H
  rotate_left
  · cases H
  obtain ⟨s, hs, H⟩ := ok_bind_inv H
  obtain ⟨v, hv, H⟩ := ok_bind_inv H
  cases H
  obtain ⟨h1, h2⟩ := C69_decoded_header b h hu
  have wf := h2 hp
  have hsz := C27_header_size_partial .debug h wf.2
  rw [hs] at hsz
  cases hsz
  have hl : v.length = h.length.toNat + 8 - h.marshal.length ∧ h.marshal.length ≤ h.length.toNat + 8 := by
    unfold sl at hv
    by_cases hc : h.marshal.length ≤ h.length.toNat + 8 ∧ h.length.toNat + 8 ≤ b.length
    · rw [if_pos hc] at hv
      cases hv
      refine ⟨?_, hc.1⟩
      rw [List.length_drop, List.length_take]
      omega
    · rw [if_neg hc] at hv
      cases hv
  have hm : ({ h with teid := teid } : U.Header).marshal.length = h.marshal.length := by
    obtain ⟨t, l, i, s, n, x⟩ := h
    cases s <;> cases n <;> cases x <;> simp [U.Header.marshal, U.Header.marshalExts, be32]
  have hpos : 0 < h.length.toNat := by
    rcases Nat.eq_zero_or_pos h.length.toNat with h' | h'
    · exact absurd (UInt16.toNat_inj.mp (by simpa using h')) wf.1
    · exact h'
  have haf : afterFixed { h with teid := teid } v = h.length.toNat := by
    unfold afterFixed
    rw [hm]
    omega
  exact C29_gpdu_roundtrip m ⟨{ h with teid := teid }, v⟩ ht ⟨wf.2, by rw [haf]; exact hpos, by rw [haf]; omega⟩ ⟨h1, haf.symm⟩ tail

/-- The private extension with the length of its contents. -/
def sizedPriv (p : PrivateExtension) : PrivateExtension := { p with length := UInt16.ofNat (p.value.length + 2) }

theorem sized_octets (p : PrivateExtension) : (sizedPriv p).marshal = p.marshal := by
  simp only [PrivateExtension.marshal, sizedPriv, be16, List.cons_append, List.nil_append, setTlv_cons]

theorem sized_opt_octets (p : Option PrivateExtension) : privOctets (p.map sizedPriv) = privOctets p := by
  cases p with
  | none => rfl
  | some i => exact sized_octets i

theorem priv_type {m : Mode} {b : Bytes} {i : PrivateExtension} (h : PrivateExtension.unmarshal m b = .ok i) : i.t = 255 := by
  unfold PrivateExtension.unmarshal at h
  split at h
  rotate_left
  · cases h
  obtain ⟨l, -, h⟩ := ok_bind_inv h
  split at h
  · cases h
  obtain ⟨c, -, h⟩ := ok_bind_inv h
  split at h
  rotate_left
  · cases h
  obtain ⟨j, -, h⟩ := ok_bind_inv h
  obtain ⟨v, -, h⟩ := ok_bind_inv h
  cases h
  rfl

theorem opt_type {m : Mode} {b : Bytes} {p : Option PrivateExtension} (h : optPrivate m b = .ok p) : ∀ i, p = some i → i.t = 255 := by
  intro i hi
  subst hi
  unfold optPrivate at h
  split at h
  · next j hj =>
    cases h
    exact priv_type hj
  · cases h
  · cases h
  · cases h

theorem priv_size (p : PrivateExtension) : p.marshal.length = p.value.length + 5 := by
  simp only [PrivateExtension.marshal, be16, List.cons_append, List.nil_append, setTlv_cons, List.length_cons]

/-- A private extension that is short enough is in the form in which it is decoded once its length is right. -/
theorem sized_wf {p : PrivateExtension} (ht : p.t = 255) (hl : p.marshal.length < 65536) : PrivWF (sizedPriv p) := by
  rw [priv_size] at hl
  refine ⟨ht, ?_, ?_⟩
  · show (UInt16.ofNat (p.value.length + 2)).toNat = p.value.length + 2
    rw [UInt16.toNat_ofNat']
    omega
  · show (UInt16.ofNat (p.value.length + 2)).toNat < 65533
    rw [UInt16.toNat_ofNat']
    omega

theorem sized_opt_wf {h : U.Header} {p : Option PrivateExtension} (ht : ∀ i, p = some i → i.t = 255) {r : Bytes}
    (hl : afterFixed h (r ++ privOctets p) < 65528) : ∀ i, p.map sizedPriv = some i → PrivWF i := by
  intro i hi
  cases p with
  | none => cases hi
  | some j =>
    cases hi
    refine sized_wf (ht j rfl) ?_
    have h8 := header_ge8 h
    simp only [afterFixed, privOctets, List.length_append] at hl
    omega

/-- The header with the length of what is sent. -/
def sizedHdr (h : U.Header) (body : Bytes) : U.Header := { h with length := UInt16.ofNat (h.marshal.length + body.length - 8) }

theorem seen_sized {h : U.Header} (hs : HasSqn h) (body : Bytes) : seen (wireHdr h body) = sizedHdr h body :=
  seen_self (h := wireHdr h body) hs

/-- C69 for Echo Request: sent on, it is decoded to the same message with the lengths of what was sent, provided the length field can be
positive and does not overflow. -/
theorem C69_echo_request_partial (m : Mode) (b : Bytes) (x : EchoRequest) (H : EchoRequest.unmarshal .debug b = .ok x) (hp : Plain x.header)
    (h0 : 8 < x.header.marshal.length + (privOctets x.priv).length) (h1 : x.header.marshal.length + (privOctets x.priv).length < 65536) :
    EchoRequest.unmarshal m (x.marshalInto []) = .ok ⟨sizedHdr x.header (privOctets x.priv), x.priv.map sizedPriv⟩ := by
  unfold EchoRequest.unmarshal at H
  obtain ⟨h, hr, H⟩ := ok_bind_inv H
  obtain ⟨hu, ht⟩ := read_header_inv hr
  obtain ⟨k1, k2⟩ := C69_decoded_header b h hu
  have hx : x.header = h ∧ ∀ i, x.priv = some i → i.t = 255 := by
    split at H
    · obtain ⟨s, -, H⟩ := ok_bind_inv H
      obtain ⟨r, -, H⟩ := ok_bind_inv H
      obtain ⟨p, hopt, H⟩ := ok_bind_inv H
      cases H
      exact ⟨rfl, opt_type hopt⟩
    · cases H
      exact ⟨rfl, fun i hi => by cases hi⟩
  obtain ⟨rfl, hx⟩ := hx
  have h8 := header_ge8 x.header
  have hs : Sendable x.header (privOctets x.priv) := ⟨(k2 hp).2, by unfold afterFixed; omega, by unfold afterFixed; omega⟩
  have := (C30_echo_request_partial m ⟨x.header, x.priv.map sizedPriv⟩ ht (sized_opt_wf (r := []) hx hs.2.2) (by
    rw [sized_opt_octets]; exact hs)).1
  simp only [sized_opt_octets, seen_sized k1] at this
  rw [← this]
  simp only [EchoRequest.marshalInto, sized_opt_octets]

/-- C69 for End Marker. -/
theorem C69_end_marker_partial (m : Mode) (b : Bytes) (x : EndMarker) (H : EndMarker.unmarshal .debug b = .ok x) (hp : Plain x.header)
    (h0 : 8 < x.header.marshal.length + (privOctets x.priv).length) (h1 : x.header.marshal.length + (privOctets x.priv).length < 65536) :
    EndMarker.unmarshal m (x.marshalInto []) = .ok ⟨sizedHdr x.header (privOctets x.priv), x.priv.map sizedPriv⟩ := by
  unfold EndMarker.unmarshal at H
  obtain ⟨h, hr, H⟩ := ok_bind_inv H
  obtain ⟨hu, ht⟩ := read_header_inv hr
  obtain ⟨k1, k2⟩ := C69_decoded_header b h hu
  have hx : x.header = h ∧ ∀ i, x.priv = some i → i.t = 255 := by
    split at H
    · obtain ⟨s, -, H⟩ := ok_bind_inv H
      obtain ⟨r, -, H⟩ := ok_bind_inv H
      obtain ⟨p, hopt, H⟩ := ok_bind_inv H
      cases H
      exact ⟨rfl, opt_type hopt⟩
    · cases H
      exact ⟨rfl, fun i hi => by cases hi⟩
  obtain ⟨rfl, hx⟩ := hx
  have h8 := header_ge8 x.header
  have hs : Sendable x.header (privOctets x.priv) := ⟨(k2 hp).2, by unfold afterFixed; omega, by unfold afterFixed; omega⟩
  have := (C30_end_marker_partial m ⟨x.header, x.priv.map sizedPriv⟩ ht (sized_opt_wf (r := []) hx hs.2.2) (by
    rw [sized_opt_octets]; exact hs)).1
  simp only [sized_opt_octets, seen_sized k1] at this
  rw [← this]
  simp only [EndMarker.marshalInto, sized_opt_octets]

theorem rd_drop_zero (b : Bytes) (s : Nat) : (rd (b.drop s) 0 : R Err UInt8) = rd b s := by
  simp [rd]

/-- C69 for Echo Response. -/
theorem C69_echo_response_partial (m : Mode) (b : Bytes) (x : EchoResponse) (H : EchoResponse.unmarshal .debug b = .ok x) (hp : Plain x.header)
    (h1 : x.header.marshal.length + 2 + (privOctets x.priv).length < 65536) :
    EchoResponse.unmarshal m (x.marshalInto []) =
      .ok ⟨sizedHdr x.header (x.recovery.marshal ++ privOctets x.priv), x.recovery, x.priv.map sizedPriv⟩ := by
  unfold EchoResponse.unmarshal at H
  obtain ⟨h, hr, H⟩ := ok_bind_inv H
  obtain ⟨hu, ht⟩ := read_header_inv hr
  obtain ⟨k1, k2⟩ := C69_decoded_header b h hu
  have hx : x.header = h ∧ x.recovery.t = 14 ∧ ∀ i, x.priv = some i → i.t = 255 := by
    split at H
    rotate_left
    · cases H
    obtain ⟨s, -, H⟩ := ok_bind_inv H
    split at H
    rotate_left
    · cases H
    obtain ⟨t, hrd, H⟩ := ok_bind_inv H
    by_cases h14 : t = 14
    rotate_left
    · rw [if_neg h14] at H
      cases H
    rw [if_pos h14] at H
    obtain ⟨r, hsl, H⟩ := ok_bind_inv H
    obtain ⟨rec, hrec, H⟩ := ok_bind_inv H
    have hrt : rec.t = 14 := by
      unfold Recovery.unmarshal at hrec
      split at hrec
      rotate_left
      · cases hrec
      obtain ⟨u, hru, hrec⟩ := ok_bind_inv hrec
      obtain ⟨v, -, hrec⟩ := ok_bind_inv hrec
      cases hrec
      unfold slFrom at hsl
      split at hsl
      · cases hsl
        rw [rd_drop_zero] at hru
        rw [hru] at hrd
        cases hrd
        exact h14
      · cases hsl
    dsimp only at H
    split at H
    · obtain ⟨r, -, H⟩ := ok_bind_inv H
      obtain ⟨p, hopt, H⟩ := ok_bind_inv H
      cases H
      exact ⟨rfl, hrt, opt_type hopt⟩
    · cases H
      exact ⟨rfl, hrt, fun i hi => by cases hi⟩
  obtain ⟨rfl, hrt, hx⟩ := hx
  have h8 := header_ge8 x.header
  have hlen : x.recovery.marshal.length = 2 := rfl
  have hs : Sendable x.header (x.recovery.marshal ++ privOctets x.priv) :=
    ⟨(k2 hp).2, by unfold afterFixed; rw [List.length_append]; omega, by unfold afterFixed; rw [List.length_append]; omega⟩
  have := (C30_echo_response_partial m ⟨x.header, x.recovery, x.priv.map sizedPriv⟩ ht hrt (sized_opt_wf hx hs.2.2) (by
    rw [sized_opt_octets]; exact hs)).1
  simp only [sized_opt_octets, seen_sized k1] at this
  rw [← this]
  simp only [EchoResponse.marshalInto, sized_opt_octets]

/-- The type list with the length of its contents. -/
def sizedList (l : ExtTypeList) : ExtTypeList := { l with length := UInt8.ofNat l.list.length }

/-- C69 for Supported Extension Headers Notification, for lists that are not empty and have at most 253 entries. -/
theorem C69_supported_ext_partial (m : Mode) (b : Bytes) (x : SupportedExt) (H : SupportedExt.unmarshal .debug b = .ok x) (hp : Plain x.header)
    (h0 : 0 < x.list.list.length) (h253 : x.list.list.length ≤ 253) (h1 : x.header.marshal.length + x.list.marshal.length < 65536) :
    SupportedExt.unmarshal m (x.marshalInto []) = .ok ⟨sizedHdr x.header x.list.marshal, sizedList x.list⟩ := by
  unfold SupportedExt.unmarshal at H
  obtain ⟨h, hr, H⟩ := ok_bind_inv H
  obtain ⟨hu, ht⟩ := read_header_inv hr
  obtain ⟨k1, k2⟩ := C69_decoded_header b h hu
  have hx : x.header = h ∧ x.list.t = 141 := by
    obtain ⟨n, -, H⟩ := ok_bind_inv H
    split at H
    rotate_left
    · cases H
    obtain ⟨s, -, H⟩ := ok_bind_inv H
    split at H
    · cases H
    obtain ⟨t, -, H⟩ := ok_bind_inv H
    split at H
    rotate_left
    · cases H
    obtain ⟨r, -, H⟩ := ok_bind_inv H
    obtain ⟨l, hl, H⟩ := ok_bind_inv H
    cases H
    refine ⟨rfl, ?_⟩
    cases hl' : ExtTypeList.unmarshal .debug r with
    | ok l' =>
      rw [hl'] at hl
      cases hl
      unfold ExtTypeList.unmarshal at hl'
      obtain ⟨l, -, hl'⟩ := ok_bind_inv hl'
      split at hl'
      · cases hl'
      obtain ⟨n, -, hl'⟩ := ok_bind_inv hl'
      split at hl'
      rotate_left
      · cases hl'
      obtain ⟨v, -, hl'⟩ := ok_bind_inv hl'
      cases hl'
      rfl
    | err e => rw [hl'] at hl; cases hl
    | panic => rw [hl'] at hl; cases hl
    | diverge => rw [hl'] at hl; cases hl
  obtain ⟨rfl, hx⟩ := hx
  have h8 := header_ge8 x.header
  have hm : (sizedList x.list).marshal = x.list.marshal := by
    simp [ExtTypeList.marshal, sizedList]
  have hlen : x.list.marshal.length = x.list.list.length + 2 := by simp [ExtTypeList.marshal]
  have hwf : ListWF (sizedList x.list) := by
    refine ⟨hx, ?_, h0, h253⟩
    show (UInt8.ofNat x.list.list.length).toNat = x.list.list.length
    rw [UInt8.toNat_ofNat']
    omega
  have hs : Sendable x.header x.list.marshal := ⟨(k2 hp).2, by unfold afterFixed; omega, by unfold afterFixed; omega⟩
  have := (C30_supported_ext_partial m ⟨x.header, sizedList x.list⟩ ht hwf (by rw [hm]; exact hs)).1
  simp only [hm, seen_sized k1] at this
  rw [← this]
  simp only [SupportedExt.marshalInto, hm]

theorem gsn_type {m : Mode} {b : Bytes} {i : GsnAddress} (h : GsnAddress.unmarshal m b = .ok i) : GsnWF i := by
  unfold GsnAddress.unmarshal at h
  split at h
  rotate_left
  · cases h
  obtain ⟨l, -, h⟩ := ok_bind_inv h
  split at h
  · cases h
  obtain ⟨c, -, h⟩ := ok_bind_inv h
  split at h
  rotate_left
  · cases h
  split at h
  · next hl =>
    obtain ⟨a, -, h⟩ := ok_bind_inv h
    cases h
    exact ⟨rfl, hl⟩
  split at h
  · next hl =>
    split at h
    · obtain ⟨a, -, h⟩ := ok_bind_inv h
      cases h
      exact ⟨rfl, hl⟩
    · cases h
  · cases h

/-- What holds of the message under construction in the decoding loop of an Error Indication. -/
def IndInv (h : U.Header) (x : ErrorIndication) : Prop :=
  x.header = h ∧ x.teid.t = 16 ∧ GsnWF x.peer ∧ ∀ i, x.priv = some i → i.t = 255

theorem mapErr_inv {α : Type} {x : R Err α} {e : Err} {v : α} (h : x.mapErr e = .ok v) : x = .ok v := by
  cases x <;> first | exact h | cases h

theorem step_inv {m : Mode} {h : U.Header} {s s' : ErrorIndication.St} {b : Bytes} {n : Nat} (hi : IndInv h s.x)
    (e : ErrorIndication.step m s b = .ok (s', n)) : IndInv h s'.x := by
  obtain ⟨i1, i2, i3, i4⟩ := hi
  unfold ErrorIndication.step at e
  obtain ⟨t, hrd, e⟩ := ok_bind_inv e
  split at e
  rotate_left
  · cases e
  split at e
  · next h16 =>
    obtain ⟨i, hu, e⟩ := ok_bind_inv e
    obtain ⟨k, -, e⟩ := ok_bind_inv e
    cases e
    have hu := mapErr_inv hu
    have hit : i.t = 16 := by
      unfold Teid.unmarshal at hu
      split at hu
      rotate_left
      · cases hu
      obtain ⟨u, hu1, hu⟩ := ok_bind_inv hu
      obtain ⟨v, -, hu⟩ := ok_bind_inv hu
      cases hu
      rw [hrd] at hu1
      cases hu1
      exact h16
    by_cases hn : s.teidN = none
    · simp only [hn, if_true]
      exact ⟨i1, hit, i3, i4⟩
    · simp only [if_neg hn]
      exact ⟨i1, i2, i3, i4⟩
  split at e
  · obtain ⟨i, hu, e⟩ := ok_bind_inv e
    obtain ⟨k, -, e⟩ := ok_bind_inv e
    obtain ⟨n, -, e⟩ := ok_bind_inv e
    cases e
    by_cases hn : s.peerN = none
    · simp only [hn, if_true]
      exact ⟨i1, i2, gsn_type (mapErr_inv hu), i4⟩
    · simp only [if_neg hn]
      exact ⟨i1, i2, i3, i4⟩
  split at e
  rotate_left
  · cases e
  obtain ⟨i, hu, e⟩ := ok_bind_inv e
  obtain ⟨k, -, e⟩ := ok_bind_inv e
  obtain ⟨n, -, e⟩ := ok_bind_inv e
  cases e
  by_cases hn : s.privN = none
  · simp only [hn, if_true]
    refine ⟨i1, i2, i3, fun j hj => ?_⟩
    cases hj
    exact priv_type (mapErr_inv hu)
  · simp only [if_neg hn]
    exact ⟨i1, i2, i3, i4⟩

theorem ind_inv {m : Mode} {h : U.Header} : ∀ (f : Nat) (s s' : ErrorIndication.St) (b : Bytes), IndInv h s.x →
    ErrorIndication.loop m f s b = .ok s' → IndInv h s'.x := by
  intro f
  induction f with
  | zero => intro s s' b _ e; cases e
  | succ f ih =>
    intro s s' b hi e
    unfold ErrorIndication.loop at e
    split at e
    · cases e
      exact hi
    · obtain ⟨⟨s1, n⟩, h1, e⟩ := ok_bind_inv e
      exact ih s1 s' _ (step_inv hi h1) e

theorem sized_ind_body (x : ErrorIndication) : indBody { x with priv := x.priv.map sizedPriv } = indBody x := by
  simp only [indBody, sized_opt_octets]

/-- C69 for Error Indication. -/
theorem C69_error_indication_partial (m : Mode) (b : Bytes) (x : ErrorIndication) (H : ErrorIndication.unmarshal .debug b = .ok x)
    (hp : Plain x.header) (h1 : x.header.marshal.length + (indBody x).length < 65536) :
    ErrorIndication.unmarshal m (x.marshalInto []) =
      .ok { x with header := sizedHdr x.header (indBody x), priv := x.priv.map sizedPriv } := by
  unfold ErrorIndication.unmarshal at H
  obtain ⟨h, hr, H⟩ := ok_bind_inv H
  obtain ⟨hu, ht⟩ := read_header_inv hr
  obtain ⟨k1, k2⟩ := C69_decoded_header b h hu
  have hx : IndInv h x := by
    obtain ⟨n, -, H⟩ := ok_bind_inv H
    split at H
    rotate_left
    · cases H
    obtain ⟨c, -, H⟩ := ok_bind_inv H
    obtain ⟨s, hs, H⟩ := ok_bind_inv H
    split at H
    · cases H
      exact ind_inv _ _ _ _ ⟨rfl, rfl, ⟨rfl, rfl⟩, fun i hi => by cases hi⟩ hs
    · cases H
  obtain ⟨rfl, x1, x2, x3⟩ := hx
  have h8 := header_ge8 x.header
  have hb : 5 ≤ (indBody x).length := by simp [indBody, Teid.marshal, be32]
  have hs : Sendable x.header (indBody x) := ⟨(k2 hp).2, by unfold afterFixed; omega, by unfold afterFixed; omega⟩
  have hpw : ∀ i, x.priv.map sizedPriv = some i → PrivWF i := by
    refine sized_opt_wf (h := x.header) (r := x.teid.marshal ++ x.peer.marshal) x3 ?_
    have := hs.2.2
    rw [indBody, ← List.append_assoc] at this
    exact this
  have := (C30_error_indication_partial m { x with priv := x.priv.map sizedPriv } ht x1 x2 hpw (by
    rw [sized_ind_body]; exact hs)).1
  simp only [sized_ind_body, seen_sized k1] at this
  rw [← this]
  simp only [ErrorIndication.marshalInto, sized_opt_octets]

/-- C69 is violated: a G-PDU with an SCI header of two units is decoded, but encoded again it is rejected or decoded with another payload; an
Echo Request and an End Marker whose header announces one octet and that end with the header are decoded, but encoded again they are
rejected. -/
theorem C69_violation :
    (∃ b x, Gpdu.unmarshal .debug b = .ok x ∧ ∀ m, Gpdu.unmarshal m (x.marshalInto []) ≠ .ok x) ∧
    (∃ b x, EchoRequest.unmarshal .debug b = .ok x ∧ ∀ m, EchoRequest.unmarshal m (x.marshalInto []) = .err .headerInvalidLength) ∧
    (∃ b x, EndMarker.unmarshal .debug b = .ok x ∧ ∀ m, EndMarker.unmarshal m (x.marshalInto []) = .err .headerInvalidLength) := by
  refine ⟨⟨[0x36, 255, 0, 14, 0, 0, 0, 1, 0, 7, 0, 0x20, 2, 9, 0, 0, 0, 0, 0, 0, 1, 2], ⟨⟨255, 14, 1, some 7, none, some [.sci ⟨0x20, 2, 9⟩]⟩, [1, 2]⟩,
    by decide +kernel, fun m => by cases m <;> decide +kernel⟩, ⟨[0x30, 1, 0, 1, 0, 0, 0, 0], ⟨⟨1, 1, 0, none, none, none⟩, none⟩,
    by decide +kernel, fun m => by cases m <;> decide +kernel⟩, ⟨[0x30, 254, 0, 1, 0, 0, 0, 0], ⟨⟨254, 1, 0, none, none, none⟩, none⟩,
    by decide +kernel, fun m => by cases m <;> decide +kernel⟩⟩

/-- A G-PDU with a PDU session container, from a buffer with something behind the message. -/
example : ∃ x, Gpdu.unmarshal .debug [0x34, 255, 0, 10, 0, 0, 0, 1, 0, 7, 0, 0x85, 1, 9, 9, 0, 1, 2, 3] = .ok x ∧ Plain x.header := by
  refine ⟨⟨⟨255, 10, 1, some 7, some 0, some [.pduSessionContainer ⟨0x85, 1, [9, 9]⟩]⟩, [1, 2]⟩, by decide +kernel, ?_⟩
  intro l hl x hx
  cases hl
  simp only [List.mem_cons, List.not_mem_nil, or_false] at hx
  subst hx
  trivial

example : ∃ x, ErrorIndication.unmarshal .debug [0x32, 26, 0, 16, 0, 0, 0, 0, 0, 1, 0, 0, 16, 0, 0, 0, 7, 133, 0, 4, 10, 0, 0, 1] = .ok x ∧
    Plain x.header ∧ x.header.marshal.length + (indBody x).length < 65536 :=
  ⟨⟨⟨26, 16, 0, some 1, none, none⟩, ⟨16, 7⟩, ⟨133, 4, .v4 0x0a000001⟩, none⟩, by decide +kernel, (by intro l hl; cases hl), by decide +kernel⟩

end Gtp.Props
