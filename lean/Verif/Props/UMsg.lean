import Verif.Props.UHeader

/-!
# Properties C29-C33 (GTPv1-U messages)
-/

namespace Gtp.Props
open Gtp.V1 Gtp.U

/-! ## The length field -/

/-- `h` with another length field. -/
def withLen (h : Header) (l : UInt16) : Header := { h with length := l }

/-- The part of an encoded header after the length field. -/
theorem header_cons (h : Header) : ∃ r : Bytes, 4 ≤ r.length ∧ ∀ l,
    (withLen h l).marshal = h.flags :: h.msgtype :: hi16 l :: lo16 l :: r := by
  refine ⟨h.marshal.drop 4, by simp [Header.marshal, be16, be32], fun l => ?_⟩
  obtain ⟨msgtype, length, teid, sqn, npdu, exts⟩ := h
  cases sqn <;> cases npdu <;> cases exts <;> rfl

theorem withLen_self (h : Header) : withLen h h.length = h := rfl

theorem withLen_size (m : Mode) (h : Header) (l : UInt16) : (withLen h l).size m = h.size m := rfl

theorem marshal_withLen_length (h : Header) (l : UInt16) :
    (withLen h l).marshal.length = h.marshal.length := by
  obtain ⟨r, -, hr⟩ := header_cons h
  have := hr h.length
  rw [withLen_self] at this
  rw [hr l, this]
  simp

theorem header_ge8 (h : Header) : 8 ≤ h.marshal.length := by
  obtain ⟨r, h4, hr⟩ := header_cons h
  rw [← withLen_self h, hr]; simp; omega

/-- `set_length` on an encoded message replaces the length field of the header. -/
theorem setLen_eq (h : Header) (body : Bytes) :
    setMsgLength1 (h.marshal ++ body) =
      (withLen h (UInt16.ofNat (h.marshal.length + body.length - 8))).marshal ++ body := by
  obtain ⟨r, h4, hr⟩ := header_cons h
  have e := hr h.length
  rw [withLen_self] at e
  rw [hr, e]
  simp only [setMsgLength1, List.cons_append, put16, List.set_cons_succ, List.set_cons_zero,
    List.length_cons, List.length_append]
  have : r.length + body.length + 1 + 1 + 1 + 1 - 8 = r.length + 1 + 1 + 1 + 1 + body.length - 8 := by
    omega
  rw [this]

/-- A GTPv1-U message of any of the six kinds. -/
inductive UMsg where
  | gpdu (x : Gpdu)
  | endMarker (x : EndMarker)
  | echoRequest (x : EchoRequest)
  | echoResponse (x : EchoResponse)
  | supportedExt (x : SupportedExt)
  | errorIndication (x : ErrorIndication)

/-- What a call of `marshal` with buffer `buf` leaves in the buffer. -/
def UMsg.marshalInto (buf : Bytes) : UMsg → Bytes
  | .gpdu x => x.marshalInto buf
  | .endMarker x => x.marshalInto buf
  | .echoRequest x => x.marshalInto buf
  | .echoResponse x => x.marshalInto buf
  | .supportedExt x => x.marshalInto buf
  | .errorIndication x => x.marshalInto buf

/-- The header of a message. -/
def UMsg.header : UMsg → Header
  | .gpdu x => x.header
  | .endMarker x => x.header
  | .echoRequest x => x.header
  | .echoResponse x => x.header
  | .supportedExt x => x.header
  | .errorIndication x => x.header

/-- The octets a message writes after its header. -/
def UMsg.body : UMsg → Bytes
  | .gpdu x => x.tpdu
  | .endMarker x => privOctets x.priv
  | .echoRequest x => privOctets x.priv
  | .echoResponse x => x.recovery.marshal ++ privOctets x.priv
  | .supportedExt x => x.list.marshal
  | .errorIndication x => x.teid.marshal ++ (x.peer.marshal ++ privOctets x.priv)

theorem umsg_marshal (x : UMsg) (buf : Bytes) :
    x.marshalInto buf = setMsgLength1 (buf ++ (x.header.marshal ++ x.body)) := by
  cases x <;> simp [UMsg.marshalInto, UMsg.header, UMsg.body, Gpdu.marshalInto,
    EndMarker.marshalInto, EchoRequest.marshalInto, EchoResponse.marshalInto,
    SupportedExt.marshalInto, ErrorIndication.marshalInto]

/-- C31: octets 2 and 3 of an encoded message hold the number of octets after the mandatory 8-octet
header; everything else is what header and body encode to. -/
theorem C31_length_field (x : UMsg) (hl : (x.marshalInto []).length ≤ 65543) :
    ∃ h l : UInt8, ∃ r : Bytes,
      (x.marshalInto []) = x.header.flags :: x.header.msgtype :: h :: l :: r ∧
      h.toNat * 256 + l.toNat = (x.marshalInto []).length - 8 ∧
      (x.marshalInto []).length = x.header.marshal.length + x.body.length := by
  have e := umsg_marshal x []
  rw [List.nil_append, setLen_eq] at e
  obtain ⟨r, h4, hr⟩ := header_cons x.header
  have hlen : (x.marshalInto []).length = x.header.marshal.length + x.body.length := by
    rw [e]; simp [marshal_withLen_length]
  rw [hr] at e
  refine ⟨_, _, r ++ x.body, by rw [e]; rfl, ?_, hlen⟩
  have hb := of16_toNat (hi16 (UInt16.ofNat (x.header.marshal.length + x.body.length - 8)))
    (lo16 (UInt16.ofNat (x.header.marshal.length + x.body.length - 8)))
  rw [of16_be] at hb
  rw [← hb, hlen]
  simp
  omega

/-- Encoding into a buffer that already holds octets leaves the new message with its old length field
and overwrites octets 2 and 3 of the old contents. -/
theorem C31_nonempty_buffer : ∃ (x : UMsg) (buf : Bytes),
    buf <+: x.marshalInto buf → False := by
  refine ⟨.gpdu ⟨Header.default 255, [1, 2, 3]⟩, [1, 1, 1, 1, 1, 1, 1, 1], ?_⟩
  decide +kernel

example : (UMsg.marshalInto [] (.gpdu ⟨⟨255, 0, 7, none, none, none⟩, [1, 2, 3]⟩)).length ≤ 65543 := by
  decide +kernel

/-! ## Reading the header of an encoded message -/

/-- The decoder's view of the header is as long as the encoded header. -/
theorem seen_size (m : Mode) (h : Header) (wf : ∀ l, h.exts = some l → ∀ x ∈ l, ExtWF x) :
    (seen h).size m = .ok h.marshal.length := by
  rw [← C27_header_size_partial m h wf]
  obtain ⟨msgtype, length, teid, sqn, npdu, exts⟩ := h
  cases sqn <;> cases npdu <;> cases exts <;> rfl

theorem read_header (m : Mode) (ty : UInt8) (h : Header) (wf : UHeaderWF h) (ht : h.msgtype = ty)
    (tail : Bytes) : readHeader m ty (h.marshal ++ tail) = .ok (seen h) := by
  have : (seen h).msgtype = ty := by
    rw [← ht]
    obtain ⟨msgtype, length, teid, sqn, npdu, exts⟩ := h
    cases sqn <;> cases npdu <;> cases exts <;> rfl
  simp [readHeader, uheader_decode m h wf tail, this]

/-- Number of octets after the first eight. -/
def afterFixed (h : Header) (body : Bytes) : Nat := h.marshal.length + body.length - 8

/-- A message that can be sent: extension headers fit the wire format, and the length field can hold
the number `n` of octets after the first eight, at least one and at most 65527. -/
def Sendable (h : Header) (body : Bytes) : Prop :=
  (∀ l, h.exts = some l → ∀ x ∈ l, ExtWF x) ∧ 0 < afterFixed h body ∧ afterFixed h body < 65528

/-- The header as it goes on the wire: with the actual length. -/
def wireHdr (h : Header) (body : Bytes) : Header := withLen h (UInt16.ofNat (afterFixed h body))

theorem wireHdr_wf {h : Header} {body : Bytes} (s : Sendable h body) : UHeaderWF (wireHdr h body) := by
  obtain ⟨h1, h2, h3⟩ := s
  refine ⟨?_, h1⟩
  intro e
  have := congrArg UInt16.toNat e
  simp [wireHdr, withLen] at this
  omega

theorem wireHdr_length {h : Header} {body : Bytes} (s : Sendable h body) :
    (wireHdr h body).length.toNat = afterFixed h body := by
  obtain ⟨-, h2, h3⟩ := s
  simp [wireHdr, withLen]
  omega

theorem seen_length (h : Header) : (seen h).length = h.length := by
  obtain ⟨msgtype, length, teid, sqn, npdu, exts⟩ := h
  cases sqn <;> cases npdu <;> cases exts <;> rfl

/-- Everything the six decoders need to know about an encoded message. -/
theorem wire_read (m : Mode) (ty : UInt8) (h : Header) (body tail : Bytes) (s : Sendable h body)
    (ht : h.msgtype = ty) :
    setMsgLength1 (h.marshal ++ body) = (wireHdr h body).marshal ++ body ∧
    readHeader m ty (((wireHdr h body).marshal ++ body) ++ tail) = .ok (seen (wireHdr h body)) ∧
    (seen (wireHdr h body)).size m = .ok (wireHdr h body).marshal.length ∧
    (seen (wireHdr h body)).length.toNat = afterFixed h body ∧
    (wireHdr h body).marshal.length + body.length = afterFixed h body + 8 := by
  refine ⟨setLen_eq h body, ?_, seen_size m _ s.1, by rw [seen_length, wireHdr_length s], ?_⟩
  · rw [List.append_assoc]; exact read_header m ty _ (wireHdr_wf s) ht _
  · have := header_ge8 h
    have e : (wireHdr h body).marshal.length = h.marshal.length := marshal_withLen_length h _
    simp only [afterFixed]
    omega

theorem seen_self {h : Header} (hs : HasSqn h) : seen h = h := by
  obtain ⟨msgtype, length, teid, sqn, npdu, exts⟩ := h
  cases sqn with
  | some s => rfl
  | none =>
    rcases hs with hs | ⟨rfl, rfl⟩
    · exact absurd rfl hs
    · rfl

/-- The header is in the form in which it is decoded: sequence number present or no optional field,
and the actual length. -/
def Canonical (h : Header) (body : Bytes) : Prop :=
  HasSqn h ∧ h.length.toNat = afterFixed h body

theorem canonical_self {h : Header} {body : Bytes} (s : Sendable h body) (c : Canonical h body) :
    seen (wireHdr h body) = h := by
  have : wireHdr h body = h := by
    have : UInt16.ofNat (afterFixed h body) = h.length := by
      apply UInt16.toNat_inj.mp
      rw [c.2]; simp; have := s.2.2; omega
    simp only [wireHdr, this, withLen_self]
  rw [this, seen_self c.1]

theorem len8_ok {m : Mode} {l : UInt16} (h : l.toNat < 65528) : len8 m l = .ok (l.toNat + 8) := by
  have h4 : (8 : UInt16).toNat = 8 := rfl
  have e := add16_ok (ε := Err) (m := m) (a := l) (b := 8) (by omega)
  have e2 := toNat_add16 (a := l) (b := 8) (by omega)
  simp only [len8, e, R.ok_bind, R.pure_eq, e2, h4]

/-! ## C29 -/

/-- C29: encoding and decoding a G-PDU returns exactly the payload, whatever the header and whatever
follows the message; the message must be sendable with a length below 65528. -/
theorem C29_gpdu_payload_partial (m : Mode) (x : Gpdu) (ht : x.header.msgtype = 255)
    (s : Sendable x.header x.tpdu) (tail : Bytes) :
    ∃ g, Gpdu.unmarshal m (x.marshalInto [] ++ tail) = .ok g ∧ g.tpdu = x.tpdu ∧
      g.header.teid = x.header.teid ∧ g.header = seen (wireHdr x.header x.tpdu) := by
  obtain ⟨w1, w2, w3, w4, w5⟩ := wire_read m 255 x.header x.tpdu tail s ht
  refine ⟨⟨seen (wireHdr x.header x.tpdu), x.tpdu⟩, ?_, rfl, ?_, rfl⟩
  · have e : x.marshalInto [] = (wireHdr x.header x.tpdu).marshal ++ x.tpdu := by
      rw [← w1]; simp [Gpdu.marshalInto]
    have hl : (seen (wireHdr x.header x.tpdu)).length.toNat < 65528 := by rw [w4]; exact s.2.2
    rw [e]
    simp only [Gpdu.unmarshal, w2, R.ok_bind, len8_ok hl, w4, w3]
    rw [if_pos (by simp only [List.length_append]; omega),
      sl_mid _ _ _ _ _ rfl (by omega)]
    rfl
  · obtain ⟨⟨msgtype, length, teid, sqn, npdu, exts⟩, tp⟩ := x
    cases sqn <;> cases npdu <;> cases exts <;> rfl

/-- A G-PDU in canonical form comes back unchanged. -/
theorem C29_gpdu_roundtrip (m : Mode) (x : Gpdu) (ht : x.header.msgtype = 255)
    (s : Sendable x.header x.tpdu) (c : Canonical x.header x.tpdu) (tail : Bytes) :
    Gpdu.unmarshal m (x.marshalInto [] ++ tail) = .ok x := by
  obtain ⟨g, h1, h2, -, h4⟩ := C29_gpdu_payload_partial m x ht s tail
  rw [h1]
  obtain ⟨gh, gt⟩ := g
  obtain ⟨xh, xt⟩ := x
  simp only at h2 h4
  rw [h2, h4, canonical_self s c]

example : Sendable ⟨255, 13, 9, some 4, none, some [.udpPort ⟨0x40, 1, 2152⟩]⟩ [1, 2, 3, 4, 5] ∧
    Canonical ⟨255, 13, 9, some 4, none, some [.udpPort ⟨0x40, 1, 2152⟩]⟩ [1, 2, 3, 4, 5] := by
  refine ⟨⟨?_, by decide +kernel, by decide +kernel⟩, ⟨.inl (by decide), by decide +kernel⟩⟩
  intro l hl x hx
  cases hl
  simp only [List.mem_cons, List.not_mem_nil, or_false] at hx
  subst hx
  exact ⟨rfl, rfl⟩

theorem len8_debug {l : UInt16} (h : 65528 ≤ l.toNat) : len8 .debug l = .panic := by
  have h4 : (8 : UInt16).toNat = 8 := rfl
  have : ¬ l.toNat + (8 : UInt16).toNat < 65536 := by rw [h4]; omega
  simp only [len8, add16, this, if_false, R.panic_bind]

theorem len8_release {l : UInt16} (h : 65528 ≤ l.toNat) :
    len8 .release l = .ok (l.toNat + 8 - 65536) := by
  have h4 : (8 : UInt16).toNat = 8 := rfl
  have := l.toNat_lt
  have e : (l + 8).toNat = l.toNat + 8 - 65536 := by
    rw [UInt16.toNat_add, h4]
    omega
  have : ¬ l.toNat + (8 : UInt16).toNat < 65536 := by rw [h4]; omega
  simp only [len8, add16, R.ok_bind, R.pure_eq, this, if_false, e]

/-- C29 is violated by payloads of 65528 octets and more (which the length field can still
announce): the decoder panics in both builds.  And an empty payload is encoded with length 0, which
the decoder rejects. -/
theorem C29_violation (m : Mode) (p : Bytes) (h1 : 65528 ≤ p.length) (h2 : p.length ≤ 65535) :
    Gpdu.unmarshal m (Gpdu.marshalInto [] ⟨Header.default 255, p⟩) = .panic ∧
    Gpdu.unmarshal m (Gpdu.marshalInto [] ⟨Header.default 255, []⟩) = .err .headerInvalidLength := by
  constructor
  · have e : Gpdu.marshalInto [] ⟨Header.default 255, p⟩ =
        (withLen (Header.default 255) (UInt16.ofNat p.length)).marshal ++ p := by
      simp only [Gpdu.marshalInto, List.nil_append]
      rw [setLen_eq]
      have : (Header.default 255).marshal.length = 8 := by decide
      rw [this, Nat.add_sub_cancel_left]
    have hl : (UInt16.ofNat p.length).toNat = p.length := by simp; omega
    have wf : UHeaderWF (withLen (Header.default 255) (UInt16.ofNat p.length)) := by
      refine ⟨?_, fun l hl => by cases hl⟩
      intro e
      have := congrArg UInt16.toNat e
      rw [show (withLen (Header.default 255) (UInt16.ofNat p.length)).length
        = UInt16.ofNat p.length from rfl, hl] at this
      have h0 : (0 : UInt16).toNat = 0 := rfl
      omega
    have hr := read_header m 255 _ wf rfl p
    have hs : seen (withLen (Header.default 255) (UInt16.ofNat p.length)) =
        withLen (Header.default 255) (UInt16.ofNat p.length) := rfl
    rw [hs] at hr
    have hge : 65528 ≤ (withLen (Header.default 255) (UInt16.ofNat p.length)).length.toNat := by
      show 65528 ≤ (UInt16.ofNat p.length).toNat
      rw [hl]; exact h1
    rw [e]
    unfold Gpdu.unmarshal
    rw [hr, R.ok_bind]
    cases m with
    | debug => rw [len8_debug hge]; rfl
    | release =>
      rw [len8_release hge, R.ok_bind]
      have hsz : (withLen (Header.default 255) (UInt16.ofNat p.length)).size .release = .ok 8 := rfl
      have hlt := (withLen (Header.default 255) (UInt16.ofNat p.length)).length.toNat_lt
      rw [if_pos (by simp only [List.length_append]; omega), hsz, R.ok_bind, sl,
        if_neg (by omega)]
      rfl
  · cases m <;> decide +kernel

/-! ## C30 -/

/-- A private extension in the form in which it is decoded. -/
def PrivWF (p : PrivateExtension) : Prop :=
  p.t = 255 ∧ p.length.toNat = p.value.length + 2 ∧ p.length.toNat < 65533

theorem checkTlv_ok {m : Mode} {l : UInt16} {b : Bytes} (h : l.toNat < 65533) :
    (checkTlv m l b : R Err Bool) = .ok (decide (0 < l.toNat ∧ l.toNat + 3 ≤ b.length)) := by
  unfold checkTlv
  by_cases h0 : l = 0
  · simp [h0]
  · have hpos : 0 < l.toNat := by
      rcases Nat.eq_zero_or_pos l.toNat with h' | h'
      · exact absurd (UInt16.toNat_inj.mp (by simpa using h')) h0
      · exact h'
    have h4 : (3 : UInt16).toNat = 3 := rfl
    have e := add16_ok (ε := Err) (m := m) (a := l) (b := 3) (by omega)
    have e2 := toNat_add16 (a := l) (b := 3) (by omega)
    simp only [h0, if_false, e, R.ok_bind, R.pure_eq, e2, h4, hpos, true_and]

theorem setTlv_cons (a b c : UInt8) (l : Bytes) :
    setTlvIeLength (a :: b :: c :: l) = a :: hi16 (lenU16 l) :: lo16 (lenU16 l) :: l := by
  simp [setTlvIeLength, put16, lenU16]

theorem priv_octets {p : PrivateExtension} (wf : PrivWF p) :
    p.marshal = 255 :: hi16 p.length :: lo16 p.length :: hi16 p.id :: lo16 p.id :: p.value := by
  obtain ⟨t, l, i, v⟩ := p
  obtain ⟨rfl, h2, h3⟩ := wf
  simp only at h2 h3
  simp only [PrivateExtension.marshal, be16, List.cons_append, List.nil_append, setTlv_cons]
  rw [Gtp.V2.lenU16_eq (l := l) (by simp only [List.length_cons]; omega)]

theorem ne_zero_of_toNat {l : UInt16} (h : 0 < l.toNat) : l ≠ 0 := by
  rintro rfl; simp at h

theorem priv_rt (m : Mode) (p : PrivateExtension) (wf : PrivWF p) :
    PrivateExtension.unmarshal m p.marshal = .ok p := by
  rw [priv_octets wf]
  obtain ⟨t, l, i, v⟩ := p
  obtain ⟨rfl, h2, h3⟩ := wf
  simp only at h2 h3
  have h0 : l ≠ 0 := ne_zero_of_toNat (by omega)
  simp [PrivateExtension.unmarshal, rd16, h0, checkTlv_ok h3]
  omega

theorem opt_rt (m : Mode) (p : Option PrivateExtension) (wf : ∀ i, p = some i → PrivWF i) :
    optPrivate m (privOctets p) = .ok p := by
  cases p with
  | none => simp [optPrivate, privOctets, PrivateExtension.unmarshal]
  | some i => simp [optPrivate, privOctets, priv_rt m i (wf i rfl)]

/-- C30 for Echo Request. -/
theorem C30_echo_request_partial (m : Mode) (x : EchoRequest) (ht : x.header.msgtype = 1)
    (hp : ∀ i, x.priv = some i → PrivWF i) (s : Sendable x.header (privOctets x.priv)) :
    EchoRequest.unmarshal m (x.marshalInto []) =
      .ok ⟨seen (wireHdr x.header (privOctets x.priv)), x.priv⟩ ∧
    (Canonical x.header (privOctets x.priv) →
      EchoRequest.unmarshal m (x.marshalInto []) = .ok x) := by
  obtain ⟨w1, w2, w3, w4, w5⟩ := wire_read m 1 x.header (privOctets x.priv) [] s ht
  have e : x.marshalInto [] = (wireHdr x.header (privOctets x.priv)).marshal ++ privOctets x.priv := by
    rw [← w1]; simp [EchoRequest.marshalInto]
  have main : EchoRequest.unmarshal m (x.marshalInto []) =
      .ok ⟨seen (wireHdr x.header (privOctets x.priv)), x.priv⟩ := by
    rw [List.append_nil] at w2
    rw [e]
    simp only [EchoRequest.unmarshal, w2, R.ok_bind, w4, w3]
    rw [if_pos (by simp only [List.length_append]; omega), slFrom_ok (by simp), R.ok_bind,
      List.drop_left, opt_rt m _ hp]
    rfl
  refine ⟨main, fun c => ?_⟩
  rw [main, canonical_self s c]

/-- C30 for End Marker. -/
theorem C30_end_marker_partial (m : Mode) (x : EndMarker) (ht : x.header.msgtype = 254)
    (hp : ∀ i, x.priv = some i → PrivWF i) (s : Sendable x.header (privOctets x.priv)) :
    EndMarker.unmarshal m (x.marshalInto []) =
      .ok ⟨seen (wireHdr x.header (privOctets x.priv)), x.priv⟩ ∧
    (Canonical x.header (privOctets x.priv) →
      EndMarker.unmarshal m (x.marshalInto []) = .ok x) := by
  obtain ⟨w1, w2, w3, w4, w5⟩ := wire_read m 254 x.header (privOctets x.priv) [] s ht
  have e : x.marshalInto [] = (wireHdr x.header (privOctets x.priv)).marshal ++ privOctets x.priv := by
    rw [← w1]; simp [EndMarker.marshalInto]
  have main : EndMarker.unmarshal m (x.marshalInto []) =
      .ok ⟨seen (wireHdr x.header (privOctets x.priv)), x.priv⟩ := by
    rw [List.append_nil] at w2
    rw [e]
    simp only [EndMarker.unmarshal, w2, R.ok_bind, w4, w3]
    rw [if_pos (by simp only [List.length_append]; omega), slFrom_ok (by simp), R.ok_bind,
      List.drop_left, opt_rt m _ hp]
    rfl
  refine ⟨main, fun c => ?_⟩
  rw [main, canonical_self s c]

/-- C30 for Echo Response. -/
theorem C30_echo_response_partial (m : Mode) (x : EchoResponse) (ht : x.header.msgtype = 2)
    (hr : x.recovery.t = 14) (hp : ∀ i, x.priv = some i → PrivWF i)
    (s : Sendable x.header (x.recovery.marshal ++ privOctets x.priv)) :
    EchoResponse.unmarshal m (x.marshalInto []) =
      .ok ⟨seen (wireHdr x.header (x.recovery.marshal ++ privOctets x.priv)), x.recovery, x.priv⟩ ∧
    (Canonical x.header (x.recovery.marshal ++ privOctets x.priv) →
      EchoResponse.unmarshal m (x.marshalInto []) = .ok x) := by
  obtain ⟨xh, ⟨rt, rv⟩, xp⟩ := x
  simp only at ht hr hp s ⊢
  subst hr
  simp only [Recovery.marshal] at s ⊢
  obtain ⟨w1, w2, w3, w4, w5⟩ := wire_read m 2 xh ([14, rv] ++ privOctets xp) [] s ht
  have e : EchoResponse.marshalInto [] ⟨xh, ⟨14, rv⟩, xp⟩ =
      (wireHdr xh ([14, rv] ++ privOctets xp)).marshal ++ ([14, rv] ++ privOctets xp) := by
    rw [← w1]; simp [EchoResponse.marshalInto, Recovery.marshal]
  have main : EchoResponse.unmarshal m (EchoResponse.marshalInto [] ⟨xh, ⟨14, rv⟩, xp⟩) =
      .ok ⟨seen (wireHdr xh ([14, rv] ++ privOctets xp)), ⟨14, rv⟩, xp⟩ := by
    rw [List.append_nil] at w2
    rw [e]
    generalize hH : wireHdr xh ([14, rv] ++ privOctets xp) = H at w1 w2 w3 w4 w5 ⊢
    have hlen : (H.marshal ++ ([14, rv] ++ privOctets xp)).length =
        afterFixed xh ([14, rv] ++ privOctets xp) + 8 := by
      rw [List.length_append]; exact w5
    have hb : ([14, rv] ++ privOctets xp).length = (privOctets xp).length + 2 := by simp
    simp only [EchoResponse.unmarshal, w2, R.ok_bind, w4, w3]
    rw [if_pos (by rw [hlen]; omega), if_pos (by rw [List.length_append, hb]; omega),
      rd_append_right (Nat.le_refl _), Nat.sub_self, List.cons_append, rd_zero, R.ok_bind, if_pos rfl,
      slFrom_ok (by simp), R.ok_bind, List.drop_left]
    have hrec : Recovery.unmarshal (14 :: ([rv] ++ privOctets xp)) = .ok ⟨14, rv⟩ := by
      simp [Recovery.unmarshal]
    rw [hrec, R.ok_bind]
    have hrl : (Recovery.len ⟨14, rv⟩) = 2 := rfl
    rw [hrl]
    have hdrop : List.drop (H.marshal.length + 2) (H.marshal ++ 14 :: ([rv] ++ privOctets xp)) =
        privOctets xp := by
      rw [← List.drop_drop, List.drop_left]; rfl
    by_cases hc : H.marshal.length + 2 < (H.marshal ++ 14 :: ([rv] ++ privOctets xp)).length
    · rw [if_pos hc, slFrom_ok (Nat.le_of_lt hc), R.ok_bind, hdrop, opt_rt m xp hp]
      rfl
    · rw [if_neg hc]
      cases xp with
      | none => rfl
      | some i =>
        have := priv_octets (hp i rfl)
        simp [privOctets, this] at hc
  refine ⟨main, fun c => ?_⟩
  rw [main, canonical_self s c]

/-- A list of extension header types that fits its one-octet length. -/
def ListWF (x : ExtTypeList) : Prop :=
  x.t = 141 ∧ x.length.toNat = x.list.length ∧ 0 < x.list.length ∧ x.list.length ≤ 253

/-- C30 for Supported Extension Headers Notification. -/
theorem C30_supported_ext_partial (m : Mode) (x : SupportedExt) (ht : x.header.msgtype = 31)
    (hl : ListWF x.list) (s : Sendable x.header x.list.marshal) :
    SupportedExt.unmarshal m (x.marshalInto []) =
      .ok ⟨seen (wireHdr x.header x.list.marshal), x.list⟩ ∧
    (Canonical x.header x.list.marshal → SupportedExt.unmarshal m (x.marshalInto []) = .ok x) := by
  obtain ⟨xh, ⟨t, l, v⟩⟩ := x
  obtain ⟨h1, h2, h3, h4⟩ := hl
  simp only at ht h1 h2 h3 h4 s ⊢
  subst h1
  have hm : ExtTypeList.marshal ⟨141, l, v⟩ = 141 :: l :: v := by
    simp only [ExtTypeList.marshal, List.cons_append, List.nil_append, List.set_cons_succ,
      List.set_cons_zero, List.length_cons]
    have : UInt8.ofNat (v.length + 1 + 1 - 2) = l := by
      apply UInt8.toNat_inj.mp; simp; omega
    rw [this]
  rw [hm] at s ⊢
  obtain ⟨w1, w2, w3, w4, w5⟩ := wire_read m 31 xh (141 :: l :: v) [] s ht
  have e : SupportedExt.marshalInto [] ⟨xh, ⟨141, l, v⟩⟩ =
      (wireHdr xh (141 :: l :: v)).marshal ++ (141 :: l :: v) := by
    rw [← w1]; simp [SupportedExt.marshalInto, hm]
  have main : SupportedExt.unmarshal m (SupportedExt.marshalInto [] ⟨xh, ⟨141, l, v⟩⟩) =
      .ok ⟨seen (wireHdr xh (141 :: l :: v)), ⟨141, l, v⟩⟩ := by
    rw [List.append_nil] at w2
    rw [e]
    have hl8 : (seen (wireHdr xh (141 :: l :: v))).length.toNat < 65528 := by rw [w4]; exact s.2.2
    simp only [SupportedExt.unmarshal, w2, R.ok_bind, len8_ok hl8, w4, w3]
    rw [if_pos (by simp only [List.length_append]; omega), if_neg (by simp),
      rd_append_right (Nat.le_refl _), Nat.sub_self, rd_zero, R.ok_bind, if_pos rfl,
      slFrom_ok (by simp), R.ok_bind, List.drop_left]
    have l0 : l ≠ 0 := by rintro rfl; simp at h2; omega
    have h2' : (2 : UInt8).toNat = 2 := rfl
    have ea := add8_ok (ε := Err) (m := m) (a := l) (b := 2) (by omega)
    have el : (l + 2).toNat = l.toNat + 2 := by rw [UInt8.toNat_add, h2']; omega
    have hle : (l + 2).toNat ≤ (141 :: l :: v).length := by
      rw [el]; simp only [List.length_cons]; omega
    unfold ExtTypeList.unmarshal
    simp only [rd_succ, rd_zero, R.ok_bind, l0, if_false, ea, hle, if_true, slFrom_succ, slFrom_zero,
      R.pure_eq, R.mapErr_ok]
  refine ⟨main, fun c => ?_⟩
  rw [main, canonical_self s c]

/-- A GSN address in the form in which it is decoded. -/
def GsnWF (x : GsnAddress) : Prop :=
  x.t = 133 ∧ match x.ip with | .v4 _ => x.length = 4 | .v6 _ => x.length = 16

theorem gsn_octets {x : GsnAddress} (wf : GsnWF x) :
    x.marshal = 133 :: hi16 x.length :: lo16 x.length :: x.ip.octets ∧
    x.ip.octets.length = x.length.toNat := by
  obtain ⟨t, l, ip⟩ := x
  obtain ⟨rfl, h⟩ := wf
  cases ip with
  | v4 a =>
    simp only at h; subst h
    have : (IpAddr.v4 a).octets.length = (4 : UInt16).toNat := by simp [IpAddr.octets, be32]
    refine ⟨?_, this⟩
    simp only [GsnAddress.marshal, be16, List.cons_append, List.nil_append, setTlv_cons]
    rw [Gtp.V2.lenU16_eq this.symm]
  | v6 a =>
    simp only at h; subst h
    have : (IpAddr.v6 a).octets.length = (16 : UInt16).toNat := by
      simp [IpAddr.octets, Gtp.V2.Ip6.octets, be64]
    refine ⟨?_, this⟩
    simp only [GsnAddress.marshal, be16, List.cons_append, List.nil_append, setTlv_cons]
    rw [Gtp.V2.lenU16_eq this.symm]

theorem gsn_rt (m : Mode) (x : GsnAddress) (wf : GsnWF x) (tail : Bytes) :
    GsnAddress.unmarshal m (x.marshal ++ tail) = .ok x ∧ x.len m = .ok x.marshal.length := by
  obtain ⟨h1, h2⟩ := gsn_octets wf
  rw [h1]
  obtain ⟨t, l, ip⟩ := x
  obtain ⟨rfl, h⟩ := wf
  have a3 : ∀ l : UInt16, l.toNat < 65533 → len3 m l = .ok (l.toNat + 3) := by
    intro l hl
    have h4 : (3 : UInt16).toNat = 3 := rfl
    have e := add16_ok (ε := Err) (m := m) (a := l) (b := 3) (by omega)
    have e2 := toNat_add16 (a := l) (b := 3) (by omega)
    simp only [len3, e, R.ok_bind, R.pure_eq, e2, h4]
  cases ip with
  | v4 a =>
    simp only at h; subst h
    have hc : ∀ b : Bytes, (checkTlv m 4 b : R Err Bool) = .ok (decide (7 ≤ b.length)) := by
      intro b; rw [checkTlv_ok (by decide)]; simp
    refine ⟨?_, by rw [GsnAddress.len, a3 4 (by decide)]; simp [IpAddr.octets, be32]⟩
    simp [GsnAddress.unmarshal, IpAddr.octets, be32, rd16, rd32, hc]
  | v6 a =>
    simp only at h; subst h
    have hc : ∀ b : Bytes, (checkTlv m 16 b : R Err Bool) = .ok (decide (19 ≤ b.length)) := by
      intro b; rw [checkTlv_ok (by decide)]; simp
    refine ⟨?_, by rw [GsnAddress.len, a3 16 (by decide)]; simp [IpAddr.octets, Gtp.V2.Ip6.octets, be64]⟩
    obtain ⟨ah, al⟩ := a
    simp [GsnAddress.unmarshal, IpAddr.octets, Gtp.V2.Ip6.octets, be64, Gtp.V2.rdIp6, rd16, rd64, hc]

/-- The octets of an Error Indication after the header. -/
def indBody (x : ErrorIndication) : Bytes := x.teid.marshal ++ (x.peer.marshal ++ privOctets x.priv)

theorem len3_ok {m : Mode} {l : UInt16} (hl : l.toNat < 65533) : len3 m l = .ok (l.toNat + 3) := by
  have h4 : (3 : UInt16).toNat = 3 := rfl
  have e := add16_ok (ε := Err) (m := m) (a := l) (b := 3) (by omega)
  have e2 := toNat_add16 (a := l) (b := 3) (by omega)
  simp only [len3, e, R.ok_bind, R.pure_eq, e2, h4]

/-- The decoding loop over an encoded body. -/
theorem ind_loop (m : Mode) (h : Header) (t : Teid) (g : GsnAddress) (p : Option PrivateExtension)
    (ht : t.t = 16) (hg : GsnWF g) (hp : ∀ i, p = some i → PrivWF i) (f : Nat) :
    ∃ n i, ErrorIndication.loop m (f + 4)
      ⟨none, none, none, 0, ⟨h, Teid.default, GsnAddress.default, none⟩⟩
      (t.marshal ++ (g.marshal ++ privOctets p)) =
      .ok ⟨some 1, some 1, n, i, ⟨h, t, g, p⟩⟩ := by
  obtain ⟨g1, g2⟩ := gsn_rt m g hg (privOctets p)
  obtain ⟨g3, -⟩ := gsn_octets hg
  obtain ⟨tt, tv⟩ := t
  simp only at ht
  subst ht
  have hT : Teid.marshal ⟨16, tv⟩ ++ (g.marshal ++ privOctets p) =
      16 :: (be32 tv ++ (g.marshal ++ privOctets p)) := rfl
  have hTu : Teid.unmarshal (16 :: (be32 tv ++ (g.marshal ++ privOctets p))) = .ok ⟨16, tv⟩ := by
    simp [Teid.unmarshal, be32, rd32]
  have hTd : (16 :: (be32 tv ++ (g.marshal ++ privOctets p))).drop 5 = g.marshal ++ privOctets p := by
    simp [be32]
  have hGne : g.marshal ++ privOctets p ≠ [] := by rw [g3]; simp
  have hGrd : (rd (g.marshal ++ privOctets p) 0 : R Err UInt8) = .ok 133 := by rw [g3]; simp
  have hGd : (g.marshal ++ privOctets p).drop g.marshal.length = privOctets p := by simp
  have s1 : ∀ f' s, ErrorIndication.loop m (f' + 1) s (16 :: (be32 tv ++ (g.marshal ++ privOctets p)))
      = (ErrorIndication.step m s (16 :: (be32 tv ++ (g.marshal ++ privOctets p))) >>= fun q =>
        ErrorIndication.loop m f' q.1 ((16 :: (be32 tv ++ (g.marshal ++ privOctets p))).drop q.2)) := by
    intro f' s
    rw [ErrorIndication.loop, if_neg (by simp)]
  have s2 : ∀ f' s, ErrorIndication.loop m (f' + 1) s (g.marshal ++ privOctets p)
      = (ErrorIndication.step m s (g.marshal ++ privOctets p) >>= fun q =>
        ErrorIndication.loop m f' q.1 ((g.marshal ++ privOctets p).drop q.2)) := by
    intro f' s
    rw [ErrorIndication.loop, if_neg hGne]
  have le1 : (0 : UInt8) ≤ 16 := by decide
  have le2 : (16 : UInt8) ≤ 133 := by decide
  have le3 : (133 : UInt8) ≤ 255 := by decide
  rw [hT, s1]
  simp only [ErrorIndication.step, rd_zero, R.ok_bind, le1, if_true, hTu, R.mapErr_ok,
    ErrorIndication.count, R.pure_eq, Teid.len, hTd]
  rw [s2]
  simp only [ErrorIndication.step, hGrd, R.ok_bind, le2, if_true,
    show ((133 : UInt8) = 16) = False by decide, if_false, g1, R.mapErr_ok,
    ErrorIndication.count, g2, R.pure_eq, hGd]
  cases p with
  | none =>
    refine ⟨none, 133, ?_⟩
    simp [privOctets, ErrorIndication.loop]
  | some i =>
    have hi := hp i rfl
    have pr := priv_rt m i hi
    have po := priv_octets hi
    have pl : i.len m = .ok (i.length.toNat + 3) := len3_ok hi.2.2
    refine ⟨some 1, 255, ?_⟩
    simp only [privOctets]
    have pne : i.marshal ≠ [] := by rw [po]; simp
    have prd : (rd i.marshal 0 : R Err UInt8) = .ok 255 := by rw [po]; simp
    have pd : i.marshal.drop (i.length.toNat + 3) = [] := by
      rw [List.drop_eq_nil_iff, po]
      have := hi.2.1
      simp only [List.length_cons]; omega
    rw [ErrorIndication.loop, if_neg pne]
    simp only [ErrorIndication.step, prd, R.ok_bind, le3, if_true,
      show ((255 : UInt8) = 16) = False by decide, show ((255 : UInt8) = 133) = False by decide,
      if_false, pr, R.mapErr_ok, ErrorIndication.count, pl, R.pure_eq, pd]
    rw [ErrorIndication.loop, if_pos rfl]

/-- C30 for Error Indication. -/
theorem C30_error_indication_partial (m : Mode) (x : ErrorIndication) (ht : x.header.msgtype = 26)
    (h1 : x.teid.t = 16) (h2 : GsnWF x.peer) (hp : ∀ i, x.priv = some i → PrivWF i)
    (s : Sendable x.header (indBody x)) :
    ErrorIndication.unmarshal m (x.marshalInto []) =
      .ok ⟨seen (wireHdr x.header (indBody x)), x.teid, x.peer, x.priv⟩ ∧
    (Canonical x.header (indBody x) →
      ErrorIndication.unmarshal m (x.marshalInto []) = .ok x) := by
  obtain ⟨w1, w2, w3, w4, w5⟩ := wire_read m 26 x.header (indBody x) [] s ht
  have e : x.marshalInto [] = (wireHdr x.header (indBody x)).marshal ++ indBody x := by
    rw [← w1]; simp [ErrorIndication.marshalInto, indBody]
  have main : ErrorIndication.unmarshal m (x.marshalInto []) =
      .ok ⟨seen (wireHdr x.header (indBody x)), x.teid, x.peer, x.priv⟩ := by
    rw [List.append_nil] at w2
    rw [e]
    have hl8 : (seen (wireHdr x.header (indBody x))).length.toNat < 65528 := by rw [w4]; exact s.2.2
    simp only [ErrorIndication.unmarshal, w2, R.ok_bind, len8_ok hl8, w4, w3, List.drop_left]
    rw [if_pos (by simp only [List.length_append]; omega)]
    have h8 := header_ge8 (wireHdr x.header (indBody x))
    obtain ⟨f, hf⟩ : ∃ f, ((wireHdr x.header (indBody x)).marshal ++ indBody x).length + 1 = f + 4 :=
      ⟨((wireHdr x.header (indBody x)).marshal ++ indBody x).length - 3, by
        simp only [List.length_append]; omega⟩
    obtain ⟨n, i, hloop⟩ := ind_loop m (seen (wireHdr x.header (indBody x))) x.teid x.peer x.priv h1 h2
      hp f
    rw [hf]
    rw [show indBody x = x.teid.marshal ++ (x.peer.marshal ++ privOctets x.priv) from rfl] at hloop ⊢
    rw [hloop]
    simp
  refine ⟨main, fun c => ?_⟩
  rw [main, canonical_self s c]

/-- C30 is violated by: messages without any optional header field or IE (length 0, rejected);
a type list with no entry (rejected), with 254 entries (panics in a debug build), or with 256 entries
(length octet 0, rejected). -/
theorem C30_violation :
    (∃ x : EchoRequest, x.header.msgtype = 1 ∧ ∀ m, EchoRequest.unmarshal m (x.marshalInto [])
      = .err .headerInvalidLength) ∧
    (∃ x : EndMarker, x.header.msgtype = 254 ∧ ∀ m, EndMarker.unmarshal m (x.marshalInto [])
      = .err .headerInvalidLength) ∧
    (∃ x : SupportedExt, x.list.list = [] ∧ ∀ m, SupportedExt.unmarshal m (x.marshalInto [])
      = .err .messageMandatoryIEMissing) ∧
    (∃ x : SupportedExt, x.list.list.length = 254 ∧
      SupportedExt.unmarshal .debug (x.marshalInto []) = .panic) ∧
    (∃ x : SupportedExt, x.list.list.length = 256 ∧ ∀ m, SupportedExt.unmarshal m (x.marshalInto [])
      = .err .messageMandatoryIEMissing) := by
  refine ⟨⟨⟨Header.default 1, none⟩, rfl, fun m => by cases m <;> decide +kernel⟩,
    ⟨⟨Header.default 254, none⟩, rfl, fun m => by cases m <;> decide +kernel⟩,
    ⟨⟨Header.default 31, ⟨141, 0, []⟩⟩, rfl, fun m => by cases m <;> decide +kernel⟩,
    ⟨⟨Header.default 31, ⟨141, 254, List.replicate 254 0x40⟩⟩, List.length_replicate .., by decide +kernel⟩,
    ⟨⟨Header.default 31, ⟨141, 0, List.replicate 256 0x40⟩⟩, List.length_replicate .., fun m => by
      cases m <;> decide +kernel⟩⟩

example : ListWF ⟨141, 2, [0x85, 0xc0]⟩ ∧ PrivWF ⟨255, 4, 5, [6, 7]⟩ ∧
    GsnWF ⟨133, 16, .v6 ⟨1, 2⟩⟩ ∧
    Sendable ⟨26, 36, 0, some 1, none, none⟩
      (indBody ⟨⟨26, 36, 0, some 1, none, none⟩, ⟨16, 9⟩, ⟨133, 16, .v6 ⟨1, 2⟩⟩, some ⟨255, 4, 5, [6, 7]⟩⟩) ∧
    Canonical ⟨26, 35, 0, some 1, none, none⟩
      (indBody ⟨⟨26, 35, 0, some 1, none, none⟩, ⟨16, 9⟩, ⟨133, 16, .v6 ⟨1, 2⟩⟩, some ⟨255, 4, 5, [6, 7]⟩⟩) :=
  ⟨⟨rfl, by decide, by decide, by decide⟩, ⟨rfl, by decide, by decide⟩, ⟨rfl, rfl⟩,
    ⟨fun l hl => (by cases hl), by decide +kernel, by decide +kernel⟩,
    ⟨.inl (by decide), by decide +kernel⟩⟩

/-! ## C32 -/

/-- Octets 2 and 3: the length uAnnounced by a message. -/
def uAnnounced (b : Bytes) : Nat := (b.getD 2 0).toNat * 256 + (b.getD 3 0).toNat

theorem loop_size (m : Mode) : ∀ (f : Nat) (b : Bytes) (l : List ExtHdr),
    Header.extLoop m f b = .ok l → ∃ n, Header.extsLen m l = .ok n ∧ n + 1 ≤ b.length := by
  intro f
  induction f with
  | zero => intro b l h; cases h
  | succ f ih =>
    intro b l h
    unfold Header.extLoop at h
    match b with
    | [] => rw [ext_nil] at h; cases h
    | t :: b =>
      cases hx : ExtHdr.unmarshal m (t :: b) with
      | err e => rw [hx] at h; cases h
      | panic => rw [hx] at h; cases h
      | diverge => rw [hx] at h; cases h
      | ok x =>
        rw [hx, R.ok_bind] at h
        by_cases hn : x = .noMore
        · rw [if_pos hn] at h
          cases h
          exact ⟨0, rfl, by simp⟩
        · rw [if_neg hn] at h
          cases hlen : x.len m with
          | err e => rw [hlen] at h; cases h
          | panic => rw [hlen] at h; cases h
          | diverge => rw [hlen] at h; cases h
          | ok n =>
            rw [hlen, R.ok_bind] at h
            by_cases hle : n ≤ (t :: b).length
            rotate_left
            · rw [slFrom, if_neg hle] at h; cases h
            rw [slFrom_ok hle, R.ok_bind] at h
            cases hr : Header.extLoop m f ((t :: b).drop n) with
            | err e => rw [hr] at h; cases h
            | panic => rw [hr] at h; cases h
            | diverge => rw [hr] at h; cases h
            | ok r =>
              rw [hr] at h
              cases h
              obtain ⟨k, hk, hk2⟩ := ih _ _ hr
              refine ⟨n + k, by simp [Header.extsLen, hlen, hk], ?_⟩
              rw [List.length_drop] at hk2
              omega

/-- What is known of a decoded header: its size lies within the buffer. -/
theorem header_facts (m : Mode) (b : Bytes) (h : Header) (e : Header.unmarshal m b = .ok h) :
    (∃ s, h.size m = .ok s ∧ 8 ≤ s ∧ s ≤ b.length) ∧ h.length.toNat = uAnnounced b ∧
    h.msgtype = b.getD 1 0 ∧ 0 < h.length.toNat := by
  by_cases h8 : 8 ≤ b.length
  rotate_left
  · simp [Header.unmarshal, h8] at e
  match b, h8 with
  | b0 :: b1 :: b2 :: b3 :: b4 :: b5 :: b6 :: b7 :: r, h8 =>
    unfold Header.unmarshal at e
    rw [if_pos h8] at e
    simp only [rd_zero, rd_succ, rd16, rd32, R.ok_bind, R.pure_eq] at e
    have ha : (of16 b2 b3).toNat = uAnnounced (b0 :: b1 :: b2 :: b3 :: b4 :: b5 :: b6 :: b7 :: r) := by
      rw [of16_toNat]; simp [uAnnounced]
    split at e
    rotate_left
    · cases e
    split at e
    · cases e
    next hz =>
    have hz : 0 < (of16 b2 b3).toNat := by
      rcases Nat.eq_zero_or_pos (of16 b2 b3).toNat with h' | h'
      · exact absurd (UInt16.toNat_inj.mp (by simpa using h')) hz
      · exact h'
    split at e
    · cases e
      exact ⟨⟨8, rfl, by omega, h8⟩, ha, rfl, hz⟩
    split at e
    rotate_left
    · cases e
    next _ h4 =>
    simp only [List.length_cons] at h4
    match r, h4 with
    | c0 :: c1 :: c2 :: c3 :: r, h4 =>
      simp only [rd_zero, rd_succ, R.ok_bind, slFrom_succ, slFrom_zero] at e
      have chain : ∀ g : List ExtHdr → Header, (∀ x, (g x).exts = some x) →
          (∀ x, (g x).length = of16 b2 b3) → (∀ x, (g x).msgtype = b1) →
          (Header.unmarshalExts m (c3 :: r) >>= fun x => .ok (g x)) = .ok h →
          (∃ s, h.size m = .ok s ∧ 8 ≤ s ∧
            s ≤ (b0 :: b1 :: b2 :: b3 :: b4 :: b5 :: b6 :: b7 :: c0 :: c1 :: c2 :: c3 :: r).length) ∧
          h.length.toNat = uAnnounced
            (b0 :: b1 :: b2 :: b3 :: b4 :: b5 :: b6 :: b7 :: c0 :: c1 :: c2 :: c3 :: r) ∧
          h.msgtype = b1 ∧ 0 < h.length.toNat := by
        intro g g1 g2 g3 hh
        cases hx : Header.unmarshalExts m (c3 :: r) with
        | err e => rw [hx] at hh; cases hh
        | panic => rw [hx] at hh; cases hh
        | diverge => rw [hx] at hh; cases hh
        | ok x =>
          rw [hx] at hh
          cases hh
          obtain ⟨n, hn, hle⟩ := loop_size m _ _ _ hx
          refine ⟨⟨8 + 2 + 1 + n + 1, ?_, by omega, ?_⟩, by rw [g2, ha], g3 x, by rw [g2]; exact hz⟩
          · have := g1 x
            unfold Header.size
            rw [this]
            cases (g x).sqn <;> cases (g x).npdu <;> simp [hn]
          · simp only [List.length_cons] at hle ⊢; omega
      have plain : ∀ s p, (.ok ⟨b1, of16 b2 b3, of32 b4 b5 b6 b7, some s, p, none⟩ : R Err Header) = .ok h →
          (∃ s, h.size m = .ok s ∧ 8 ≤ s ∧
            s ≤ (b0 :: b1 :: b2 :: b3 :: b4 :: b5 :: b6 :: b7 :: c0 :: c1 :: c2 :: c3 :: r).length) ∧
          h.length.toNat = uAnnounced
            (b0 :: b1 :: b2 :: b3 :: b4 :: b5 :: b6 :: b7 :: c0 :: c1 :: c2 :: c3 :: r) ∧
          h.msgtype = b1 ∧ 0 < h.length.toNat := by
        intro s p hh
        cases hh
        exact ⟨⟨12, by simp [Header.size], by omega, by simp⟩, ha, rfl, hz⟩
      split at e
      · exact chain _ (fun _ => rfl) (fun _ => rfl) (fun _ => rfl) e
      · exact plain _ _ e
      · exact plain _ _ e
      · exact chain _ (fun _ => rfl) (fun _ => rfl) (fun _ => rfl) e
      · exact chain _ (fun _ => rfl) (fun _ => rfl) (fun _ => rfl) e

/-- Neither a panic nor an endless loop. -/
def Calm {ε α : Type} (x : R ε α) : Prop := x ≠ .panic ∧ x ≠ .diverge

theorem calm_cases {ε α : Type} {x : R ε α} (h : Calm x) : (∃ a, x = .ok a) ∨ ∃ e, x = .err e := by
  cases x with
  | ok a => exact .inl ⟨a, rfl⟩
  | err e => exact .inr ⟨e, rfl⟩
  | panic => exact absurd rfl h.1
  | diverge => exact absurd rfl h.2

/-- The header decodes to a header of type `ty` that takes `s` octets. -/
def AtHeader (m : Mode) (b : Bytes) (ty : UInt8) (h : Header) (s : Nat) : Prop :=
  Header.unmarshal m b = .ok h ∧ h.msgtype = ty ∧ h.size m = .ok s

theorem read_cases (m : Mode) (ty : UInt8) (b : Bytes) (hh : Calm (Header.unmarshal m b)) :
    (∃ e, readHeader m ty b = .err e) ∨
    ∃ h s, AtHeader m b ty h s ∧ readHeader m ty b = .ok h ∧ h.size m = .ok s ∧ 8 ≤ s ∧
      s ≤ b.length ∧ h.length.toNat = uAnnounced b := by
  rcases calm_cases hh with ⟨h, e⟩ | ⟨e, he⟩
  · obtain ⟨⟨s, h1, h2, h3⟩, h4, h5, -⟩ := header_facts m b h e
    by_cases ht : h.msgtype = ty
    · exact .inr ⟨h, s, ⟨e, ht, h1⟩, by simp [readHeader, e, ht], h1, h2, h3, h4⟩
    · exact .inl ⟨.messageIncorrectMessageType, by simp [readHeader, e, ht]⟩
  · exact .inl ⟨e, by simp [readHeader, he]⟩

theorem at_read {m : Mode} {b : Bytes} {ty : UInt8} {h : Header} {s : Nat} (a : AtHeader m b ty h s) :
    readHeader m ty b = .ok h ∧ 8 ≤ s ∧ s ≤ b.length ∧ h.length.toNat = uAnnounced b := by
  obtain ⟨h1, h2, h3⟩ := a
  obtain ⟨⟨s', e1, e2, e3⟩, h4, -⟩ := header_facts m b h h1
  rw [h3] at e1; cases e1
  exact ⟨by simp [readHeader, h1, h2], e2, e3, h4⟩

theorem read_panic {m : Mode} {b : Bytes} {ty : UInt8} (h : Header.unmarshal m b = .panic) :
    readHeader m ty b = .panic := by simp [readHeader, h]

/-- Turning a sufficient condition for a panic and its converse into an equivalence. -/
theorem panic_iff_of {α : Type} {x : R Err α} {b : Bytes} {P : Prop}
    (h1 : Header.unmarshal .debug b = .panic → x = .panic) (h2 : P → x = .panic)
    (h3 : Calm (Header.unmarshal .debug b) → ¬ P → Calm x) :
    x = .panic ↔ Header.unmarshal .debug b = .panic ∨ P := by
  constructor
  · intro hx
    by_cases hp : Header.unmarshal .debug b = .panic
    · exact .inl hp
    · by_cases hP : P
      · exact .inr hP
      · exact absurd hx (h3 ⟨hp, C26_terminates_debug b⟩ hP).1
  · rintro (h | h)
    · exact h1 h
    · exact h2 h

/-- The trouble with a G-PDU: a length from which `length + 8` overflows, or one that ends inside the
header. -/
def GpduBad (m : Mode) (b : Bytes) : Prop := ∃ h s, AtHeader m b 255 h s ∧
  (65528 ≤ uAnnounced b ∨ (uAnnounced b + 8 ≤ b.length ∧ uAnnounced b + 8 < s))

theorem C32_gpdu_calm (m : Mode) (b : Bytes) (hh : Calm (Header.unmarshal m b))
    (hc : ¬ GpduBad m b) : Calm (Gpdu.unmarshal m b) := by
  unfold Gpdu.unmarshal
  rcases read_cases m 255 b hh with ⟨e, he⟩ | ⟨h, s, ha, hr, hs, h8, hle, hl⟩
  · simp [he, Calm]
  · have hbad : ¬ (65528 ≤ uAnnounced b ∨ (uAnnounced b + 8 ≤ b.length ∧ uAnnounced b + 8 < s)) :=
      fun hb => hc ⟨h, s, ha, hb⟩
    rw [hr, R.ok_bind, len8_ok (by omega), R.ok_bind, hl]
    by_cases hn : uAnnounced b + 8 ≤ b.length
    · rw [if_pos hn, hs, R.ok_bind, sl, if_pos (by omega)]
      simp [Calm]
    · rw [if_neg hn]; simp [Calm]

/-- C32 (part) for G-PDU: exactly when decoding panics in a debug build. -/
theorem C32_gpdu_panic_iff_partial (b : Bytes) :
    Gpdu.unmarshal .debug b = .panic ↔ Header.unmarshal .debug b = .panic ∨ GpduBad .debug b := by
  refine panic_iff_of (fun h => by simp [Gpdu.unmarshal, read_panic h]) ?_ (C32_gpdu_calm .debug b)
  rintro ⟨h, s, ha, hbad⟩
  obtain ⟨hr, h8, hle, hl⟩ := at_read ha
  unfold Gpdu.unmarshal
  rw [hr, R.ok_bind]
  by_cases ho : 65528 ≤ uAnnounced b
  · rw [len8_debug (by omega)]; rfl
  · rw [len8_ok (by omega), R.ok_bind, hl, if_pos (by omega), ha.2.2, R.ok_bind, sl, if_neg (by omega)]
    rfl

/-- Octets on which the decoder of a private extension panics in a debug build: the declared length
overflows, or it is 1 in a buffer that ends after four octets. -/
def PrivBad (r : Bytes) : Prop :=
  3 ≤ r.length ∧ (65533 ≤ (r.getD 1 0).toNat * 256 + (r.getD 2 0).toNat ∨
    ((r.getD 1 0).toNat * 256 + (r.getD 2 0).toNat = 1 ∧ r.length = 4))

theorem checkTlv_debug {l : UInt16} {b : Bytes} (h : 65533 ≤ l.toNat) :
    (checkTlv .debug l b : R Err Bool) = .panic := by
  have h4 : (3 : UInt16).toNat = 3 := rfl
  have h0 : l ≠ 0 := ne_zero_of_toNat (by omega)
  have : ¬ l.toNat + (3 : UInt16).toNat < 65536 := by rw [h4]; omega
  simp only [checkTlv, h0, if_false, add16, this, R.panic_bind]

theorem priv_cases (m : Mode) (r : Bytes) (h : ¬ PrivBad r) :
    (∃ e, PrivateExtension.unmarshal m r = .err e) ∨
    ∃ i, PrivateExtension.unmarshal m r = .ok i ∧ 0 < i.length.toNat ∧
      i.length.toNat + 3 ≤ r.length ∧ i.length.toNat < 65533 := by
  unfold PrivateExtension.unmarshal
  match r with
  | [] => exact .inl ⟨_, rfl⟩
  | [_] => exact .inl ⟨_, rfl⟩
  | [_, _] => exact .inl ⟨_, rfl⟩
  | a :: b :: c :: r =>
    rw [if_pos (by simp)]
    simp only [rd16, rd_zero, rd_succ, R.ok_bind]
    have hlen : (of16 b c).toNat = b.toNat * 256 + c.toNat := of16_toNat b c
    have hl : ¬ (65533 ≤ (of16 b c).toNat ∨ ((of16 b c).toNat = 1 ∧ r.length = 1)) := by
      intro hb
      refine h ⟨by simp, ?_⟩
      simp only [List.getD_cons_succ, List.getD_cons_zero, List.length_cons]
      omega
    by_cases h0 : of16 b c = 0
    · simp [h0]
    have hpos : 0 < (of16 b c).toNat := by
      rcases Nat.eq_zero_or_pos (of16 b c).toNat with h' | h'
      · exact absurd (UInt16.toNat_inj.mp (by simpa using h')) h0
      · exact h'
    simp only [h0, if_false, R.pure_eq, R.ok_bind]
    rw [checkTlv_ok (by omega), R.ok_bind]
    by_cases hc : 0 < (of16 b c).toNat ∧ (of16 b c).toNat + 3 ≤ (a :: b :: c :: r).length
    · rw [if_pos (by simpa using hc)]
      have h2 := hc.2
      simp only [List.length_cons] at h2
      match r, h2, hl with
      | [], h2, hl => simp at h2; omega
      | [x], h2, hl => simp at h2 hl; omega
      | d :: e :: r, h2, hl =>
        refine .inr ⟨⟨255, of16 b c, of16 d e, r⟩, by simp, hpos, ?_, ?_⟩
        · simpa using h2
        · show (of16 b c).toNat < 65533
          omega
    · rw [if_neg (by simpa using hc)]
      exact .inl ⟨_, rfl⟩

theorem three {r : Bytes} (h : 3 ≤ r.length) : ∃ a b c r', r = a :: b :: c :: r' := by
  match r, h with
  | a :: b :: c :: r, _ => exact ⟨a, b, c, r, rfl⟩

theorem priv_panic (r : Bytes) (h : PrivBad r) : PrivateExtension.unmarshal .debug r = .panic := by
  unfold PrivateExtension.unmarshal
  obtain ⟨h3, hb⟩ := h
  obtain ⟨a, b, c, r, rfl⟩ := three h3
  · rw [if_pos h3]
    simp only [rd16, rd_zero, rd_succ, R.ok_bind, R.pure_eq]
    have hlen : (of16 b c).toNat = b.toNat * 256 + c.toNat := of16_toNat b c
    simp only [List.getD_cons_succ, List.getD_cons_zero, List.length_cons, ← hlen] at hb
    have h0 : of16 b c ≠ 0 := ne_zero_of_toNat (by omega)
    rw [if_neg h0]
    rcases hb with hb | ⟨hb, hr⟩
    · rw [checkTlv_debug hb]; rfl
    · match r, hr with
      | [x], _ =>
        rw [checkTlv_ok (by omega), R.ok_bind, if_pos (by simp; omega)]
        simp

theorem opt_calm (m : Mode) (r : Bytes) (h : ¬ PrivBad r) : ∃ p, optPrivate m r = .ok p := by
  unfold optPrivate
  rcases priv_cases m r h with ⟨e, he⟩ | ⟨i, hi, -⟩
  · rw [he]; exact ⟨none, rfl⟩
  · rw [hi]; exact ⟨some i, rfl⟩

theorem opt_panic (r : Bytes) (h : PrivBad r) : optPrivate .debug r = .panic := by
  unfold optPrivate
  rw [priv_panic r h]

/-- The trouble with a message that is a header and an optional private extension: the octets after
the header are a bad private extension (which is looked at when the buffer has more octets than the
uAnnounced length). -/
def TailBad (m : Mode) (ty : UInt8) (b : Bytes) : Prop := ∃ h s, AtHeader m b ty h s ∧
  uAnnounced b < b.length ∧ PrivBad (b.drop s)

theorem C32_echo_request_calm (m : Mode) (b : Bytes) (hh : Calm (Header.unmarshal m b))
    (hc : ¬ TailBad m 1 b) : Calm (EchoRequest.unmarshal m b) := by
  unfold EchoRequest.unmarshal
  rcases read_cases m 1 b hh with ⟨e, he⟩ | ⟨h, s, ha, hr, hs, h8, hle, hl⟩
  · simp [he, Calm]
  · rw [hr, R.ok_bind, hl]
    by_cases hn : uAnnounced b < b.length
    · rw [if_pos hn, hs, R.ok_bind, slFrom_ok hle, R.ok_bind]
      obtain ⟨p, hp⟩ := opt_calm m (b.drop s) (fun hb => hc ⟨h, s, ha, hn, hb⟩)
      rw [hp]; simp [Calm]
    · rw [if_neg hn]; simp [Calm]

/-- C32 (part) for Echo Request: exactly when decoding panics in a debug build. -/
theorem C32_echo_request_panic_iff_partial (b : Bytes) :
    EchoRequest.unmarshal .debug b = .panic ↔
      Header.unmarshal .debug b = .panic ∨ TailBad .debug 1 b := by
  refine panic_iff_of (fun h => by simp [EchoRequest.unmarshal, read_panic h]) ?_
    (C32_echo_request_calm .debug b)
  rintro ⟨h, s, ha, hlt, hbad⟩
  obtain ⟨hr, h8, hle, hl⟩ := at_read ha
  unfold EchoRequest.unmarshal
  rw [hr, R.ok_bind, hl, if_pos hlt, ha.2.2, R.ok_bind, slFrom_ok hle, R.ok_bind, opt_panic _ hbad]
  rfl

theorem C32_end_marker_calm (m : Mode) (b : Bytes) (hh : Calm (Header.unmarshal m b))
    (hc : ¬ TailBad m 254 b) : Calm (EndMarker.unmarshal m b) := by
  unfold EndMarker.unmarshal
  rcases read_cases m 254 b hh with ⟨e, he⟩ | ⟨h, s, ha, hr, hs, h8, hle, hl⟩
  · simp [he, Calm]
  · rw [hr, R.ok_bind, hl]
    by_cases hn : uAnnounced b < b.length
    · rw [if_pos hn, hs, R.ok_bind, slFrom_ok hle, R.ok_bind]
      obtain ⟨p, hp⟩ := opt_calm m (b.drop s) (fun hb => hc ⟨h, s, ha, hn, hb⟩)
      rw [hp]; simp [Calm]
    · rw [if_neg hn]; simp [Calm]

/-- C32 (part) for End Marker: exactly when decoding panics in a debug build. -/
theorem C32_end_marker_panic_iff_partial (b : Bytes) :
    EndMarker.unmarshal .debug b = .panic ↔
      Header.unmarshal .debug b = .panic ∨ TailBad .debug 254 b := by
  refine panic_iff_of (fun h => by simp [EndMarker.unmarshal, read_panic h]) ?_
    (C32_end_marker_calm .debug b)
  rintro ⟨h, s, ha, hlt, hbad⟩
  obtain ⟨hr, h8, hle, hl⟩ := at_read ha
  unfold EndMarker.unmarshal
  rw [hr, R.ok_bind, hl, if_pos hlt, ha.2.2, R.ok_bind, slFrom_ok hle, R.ok_bind, opt_panic _ hbad]
  rfl

/-- The trouble with an Echo Response: a bad private extension after the recovery IE. -/
def RespBad (m : Mode) (b : Bytes) : Prop := ∃ h s, AtHeader m b 2 h s ∧
  uAnnounced b + 4 < b.length ∧ b.getD s 0 = 14 ∧ PrivBad (b.drop (s + 2))

theorem recovery_len (x : Recovery) : x.len = 2 := rfl

theorem C32_echo_response_calm (m : Mode) (b : Bytes) (hh : Calm (Header.unmarshal m b))
    (hc : ¬ RespBad m b) : Calm (EchoResponse.unmarshal m b) := by
  unfold EchoResponse.unmarshal
  rcases read_cases m 2 b hh with ⟨e, he⟩ | ⟨h, s, ha, hr, hs, h8, hle, hl⟩
  · simp [he, Calm]
  · rw [hr, R.ok_bind, hl]
    by_cases hn : uAnnounced b + 4 < b.length
    rotate_left
    · rw [if_neg hn]; simp [Calm]
    rw [if_pos hn, hs, R.ok_bind]
    by_cases hs2 : s < b.length
    rotate_left
    · rw [if_neg hs2]; simp [Calm]
    rw [if_pos hs2, rd_lt hs2, R.ok_bind]
    by_cases ht : b[s] = 14
    rotate_left
    · rw [if_neg ht]; simp [Calm]
    have hgd : b.getD s 0 = 14 := by rw [List.getD_eq_getElem?_getD, List.getElem?_eq_getElem hs2]; simpa using ht
    rw [if_pos ht, slFrom_ok hle, R.ok_bind]
    unfold Recovery.unmarshal
    by_cases h1 : 1 < (b.drop s).length
    rotate_left
    · rw [if_neg h1]; simp [Calm]
    rw [if_pos h1, rd_lt (by omega), R.ok_bind, rd_lt h1, R.ok_bind, R.pure_eq, R.ok_bind]
    rw [recovery_len]
    by_cases h2 : s + 2 < b.length
    · rw [if_pos h2, slFrom_ok (by omega), R.ok_bind]
      obtain ⟨p, hp⟩ := opt_calm m (b.drop (s + 2)) (fun hb => hc ⟨h, s, ha, hn, hgd, hb⟩)
      rw [hp]; simp [Calm]
    · rw [if_neg h2]; simp [Calm]

/-- C32 (part) for Echo Response: exactly when decoding panics in a debug build. -/
theorem C32_echo_response_panic_iff_partial (b : Bytes) :
    EchoResponse.unmarshal .debug b = .panic ↔
      Header.unmarshal .debug b = .panic ∨ RespBad .debug b := by
  refine panic_iff_of (fun h => by simp [EchoResponse.unmarshal, read_panic h]) ?_
    (C32_echo_response_calm .debug b)
  rintro ⟨h, s, ha, hlt, ht, hbad⟩
  obtain ⟨hr, h8, hle, hl⟩ := at_read ha
  have h5 := hbad.1
  rw [List.length_drop] at h5
  have hs2 : s < b.length := by omega
  have hgd : b[s] = 14 := by
    rw [List.getD_eq_getElem?_getD, List.getElem?_eq_getElem hs2] at ht; simpa using ht
  unfold EchoResponse.unmarshal
  rw [hr, R.ok_bind, hl, if_pos hlt, ha.2.2, R.ok_bind, if_pos hs2, rd_lt hs2, R.ok_bind, if_pos hgd,
    slFrom_ok hle, R.ok_bind]
  have h1 : 1 < (b.drop s).length := by rw [List.length_drop]; omega
  unfold Recovery.unmarshal
  rw [if_pos h1, rd_lt (by omega), R.ok_bind, rd_lt h1, R.ok_bind, R.pure_eq, R.ok_bind]
  rw [recovery_len]
  rw [if_pos (by omega), slFrom_ok (by omega), R.ok_bind, opt_panic _ hbad]
  rfl

/-- The trouble with a Supported Extension Headers Notification: a length from which `length + 8`
overflows, a type list without length octet, or one that declares 254 or more entries. -/
def ListBad (m : Mode) (b : Bytes) : Prop := ∃ h s, AtHeader m b 31 h s ∧
  (65528 ≤ uAnnounced b ∨ (uAnnounced b + 8 ≤ b.length ∧ s < b.length ∧ b.getD s 0 = 141 ∧
    (b.length = s + 1 ∨ 254 ≤ (b.getD (s + 1) 0).toNat)))

theorem getD_lt {b : Bytes} {i : Nat} (h : i < b.length) : b.getD i 0 = b[i] := by
  rw [List.getD_eq_getElem?_getD, List.getElem?_eq_getElem h]; rfl

theorem C32_supported_ext_calm (m : Mode) (b : Bytes) (hh : Calm (Header.unmarshal m b))
    (hc : ¬ ListBad m b) : Calm (SupportedExt.unmarshal m b) := by
  unfold SupportedExt.unmarshal
  rcases read_cases m 31 b hh with ⟨e, he⟩ | ⟨h, s, ha, hr, hs, h8, hle, hl⟩
  · simp [he, Calm]
  · have hbad : ¬ (65528 ≤ uAnnounced b ∨ (uAnnounced b + 8 ≤ b.length ∧ s < b.length ∧ b.getD s 0 = 141 ∧
      (b.length = s + 1 ∨ 254 ≤ (b.getD (s + 1) 0).toNat))) := fun hb => hc ⟨h, s, ha, hb⟩
    rw [hr, R.ok_bind, len8_ok (by omega), R.ok_bind, hl]
    by_cases hn : uAnnounced b + 8 ≤ b.length
    rotate_left
    · rw [if_neg hn]; simp [Calm]
    rw [if_pos hn, hs, R.ok_bind]
    by_cases hs2 : s = b.length
    · rw [if_pos hs2]; simp [Calm]
    have hs3 : s < b.length := by omega
    rw [if_neg hs2, rd_lt hs3, R.ok_bind]
    by_cases ht : b[s] = 141
    rotate_left
    · rw [if_neg ht]; simp [Calm]
    rw [if_pos ht, slFrom_ok hle, R.ok_bind]
    have hx : ¬ (b.length = s + 1 ∨ 254 ≤ (b.getD (s + 1) 0).toNat) := fun hx =>
      hbad (.inr ⟨hn, hs3, by rw [getD_lt hs3, ht], hx⟩)
    have h1 : 1 < (b.drop s).length := by rw [List.length_drop]; omega
    have hv : (b.drop s)[1] = b[s + 1]'(by omega) := by simp
    rw [getD_lt (by omega)] at hx
    unfold ExtTypeList.unmarshal
    rw [rd_lt h1, R.ok_bind, hv]
    have hlt : (b[s + 1]'(by omega)).toNat < 254 := by omega
    generalize b[s + 1]'(by omega) = l at hlt
    by_cases h0 : l = 0
    · rw [if_pos h0]; simp [Calm]
    have h2' : (2 : UInt8).toNat = 2 := rfl
    rw [if_neg h0, add8_ok (by omega), R.ok_bind]
    split
    · rw [slFrom_ok (by omega)]; simp [Calm]
    · simp [Calm]

/-- C32 (part) for Supported Extension Headers Notification: exactly when decoding panics in a debug
build. -/
theorem C32_supported_ext_panic_iff_partial (b : Bytes) :
    SupportedExt.unmarshal .debug b = .panic ↔
      Header.unmarshal .debug b = .panic ∨ ListBad .debug b := by
  refine panic_iff_of (fun h => by simp [SupportedExt.unmarshal, read_panic h]) ?_
    (C32_supported_ext_calm .debug b)
  rintro ⟨h, s, ha, hbad⟩
  obtain ⟨hr, h8, hle, hl⟩ := at_read ha
  unfold SupportedExt.unmarshal
  rw [hr, R.ok_bind]
  by_cases ho : 65528 ≤ uAnnounced b
  · rw [len8_debug (by omega)]; rfl
  · rcases hbad with hbad | ⟨hn, hs3, ht, hx⟩
    · exact absurd hbad ho
    rw [len8_ok (by omega), R.ok_bind, hl, if_pos hn, ha.2.2, R.ok_bind, if_neg (by omega), rd_lt hs3,
      R.ok_bind, if_pos (by rw [← getD_lt hs3, ht]), slFrom_ok hle, R.ok_bind]
    unfold ExtTypeList.unmarshal
    by_cases h1 : 1 < (b.drop s).length
    · have h1' := h1
      rw [List.length_drop] at h1'
      have hv : (b.drop s)[1] = b[s + 1]'(by omega) := by simp
      rw [getD_lt (by omega)] at hx
      rw [rd_lt h1, R.ok_bind, hv]
      have hge : 254 ≤ (b[s + 1]'(by omega)).toNat := by omega
      generalize b[s + 1]'(by omega) = l at hge
      have h0 : l ≠ 0 := by rintro rfl; simp at hge
      have h2' : (2 : UInt8).toNat = 2 := rfl
      rw [if_neg h0]
      have : ¬ l.toNat + (2 : UInt8).toNat < 256 := by rw [h2']; omega
      have : (add8 .debug l 2 : R Err UInt8) = .panic := by simp only [add8, this, if_false]
      rw [this]
      rfl
    · rw [rd_ge (by omega)]
      rfl

/-- The number of times an IE has been seen. -/
def seenN (n : Option UInt8) : Nat := match n with | none => 0 | some k => k.toNat

theorem count_ok (m : Mode) (n : Option UInt8) (h : seenN n < 255) :
    ∃ k, ErrorIndication.count m n = .ok k ∧ k.toNat = seenN n + 1 := by
  cases n with
  | none => exact ⟨1, rfl, rfl⟩
  | some k =>
    simp only [seenN] at h ⊢
    have h1 : (1 : UInt8).toNat = 1 := rfl
    exact ⟨k + 1, add8_ok (by omega), by rw [UInt8.toNat_add, h1]; omega⟩

/-- Number of IEs the loop has counted so far. -/
def total (s : ErrorIndication.St) : Nat := max (seenN s.teidN) (max (seenN s.peerN) (seenN s.privN))

theorem gsn_cases (m : Mode) (b : Bytes) (h : ¬ 65533 ≤ (b.getD 1 0).toNat * 256 + (b.getD 2 0).toNat) :
    (∃ e, GsnAddress.unmarshal m b = .err e) ∨
    ∃ i, GsnAddress.unmarshal m b = .ok i ∧ 4 ≤ i.length.toNat ∧
      i.length.toNat + 3 ≤ b.length ∧ i.length.toNat < 65533 := by
  unfold GsnAddress.unmarshal
  by_cases h3 : 3 ≤ b.length
  rotate_left
  · rw [if_neg h3]; exact .inl ⟨_, rfl⟩
  obtain ⟨a, b, c, r, rfl⟩ := three h3
  · rw [if_pos (by simp)]
    simp only [rd16, rd_zero, rd_succ, R.ok_bind, R.pure_eq]
    have hlen : (of16 b c).toNat = b.toNat * 256 + c.toNat := of16_toNat b c
    simp only [List.getD_cons_succ, List.getD_cons_zero, ← hlen] at h
    by_cases h0 : of16 b c = 0
    · simp [h0]
    simp only [h0, if_false]
    rw [checkTlv_ok (by omega), R.ok_bind]
    by_cases hc : 0 < (of16 b c).toNat ∧ (of16 b c).toNat + 3 ≤ (a :: b :: c :: r).length
    rotate_left
    · rw [if_neg (by simpa using hc)]; exact .inl ⟨_, rfl⟩
    rw [if_pos (by simpa using hc)]
    have h2 := hc.2
    simp only [List.length_cons] at h2
    by_cases h4 : of16 b c = 4
    · have h4' : (of16 b c).toNat = 4 := by rw [h4]; rfl
      rw [if_pos h4]
      match r, h2 with
      | d :: e :: f :: g :: r, h2 =>
        refine .inr ⟨⟨133, of16 b c, .v4 (of32 d e f g)⟩, by simp [rd32], by simp [h4'], ?_, ?_⟩
        · simpa using h2
        · show (of16 b c).toNat < 65533
          omega
      | [], h2 => simp at h2; omega
      | [_], h2 => simp at h2; omega
      | [_, _], h2 => simp at h2; omega
      | [_, _, _], h2 => simp at h2; omega
    rw [if_neg h4]
    by_cases h16 : of16 b c = 16
    rotate_left
    · rw [if_neg h16]; exact .inl ⟨_, rfl⟩
    have h16' : (of16 b c).toNat = 16 := by rw [h16]; rfl
    have h19 : 19 ≤ (a :: b :: c :: r).length := by simp only [List.length_cons]; omega
    rw [if_pos h16, if_pos h19]
    have : ∃ v, (Gtp.V2.rdIp6 (a :: b :: c :: r) 3 : R Err _) = .ok v := by
      simp only [List.length_cons] at h19
      simp only [Gtp.V2.rdIp6, rd64]
      simp only [rd_lt (show 3 < (a :: b :: c :: r).length by simp; omega),
        rd_lt (show 3 + 1 < (a :: b :: c :: r).length by simp; omega),
        rd_lt (show 3 + 2 < (a :: b :: c :: r).length by simp; omega),
        rd_lt (show 3 + 3 < (a :: b :: c :: r).length by simp; omega),
        rd_lt (show 3 + 4 < (a :: b :: c :: r).length by simp; omega),
        rd_lt (show 3 + 5 < (a :: b :: c :: r).length by simp; omega),
        rd_lt (show 3 + 6 < (a :: b :: c :: r).length by simp; omega),
        rd_lt (show 3 + 7 < (a :: b :: c :: r).length by simp; omega),
        rd_lt (show 3 + 8 < (a :: b :: c :: r).length by simp; omega),
        rd_lt (show 3 + 8 + 1 < (a :: b :: c :: r).length by simp; omega),
        rd_lt (show 3 + 8 + 2 < (a :: b :: c :: r).length by simp; omega),
        rd_lt (show 3 + 8 + 3 < (a :: b :: c :: r).length by simp; omega),
        rd_lt (show 3 + 8 + 4 < (a :: b :: c :: r).length by simp; omega),
        rd_lt (show 3 + 8 + 5 < (a :: b :: c :: r).length by simp; omega),
        rd_lt (show 3 + 8 + 6 < (a :: b :: c :: r).length by simp; omega),
        rd_lt (show 3 + 8 + 7 < (a :: b :: c :: r).length by simp; omega), R.ok_bind, R.pure_eq]
      exact ⟨_, rfl⟩
    obtain ⟨v, hv⟩ := this
    rw [hv, R.ok_bind]
    refine .inr ⟨⟨133, of16 b c, .v6 v⟩, rfl, ?_, ?_, ?_⟩
    · show 4 ≤ (of16 b c).toNat
      omega
    · simpa using h2
    · show (of16 b c).toNat < 65533
      omega

/-- An IE in the body of an Error Indication that makes a debug build panic. -/
def IeBad (r : Bytes) : Prop :=
  (r.getD 0 0 = 133 ∧ 3 ≤ r.length ∧ 65533 ≤ (r.getD 1 0).toNat * 256 + (r.getD 2 0).toNat) ∨
  (r.getD 0 0 = 255 ∧ PrivBad r)

theorem step_cases (m : Mode) (s : ErrorIndication.St) (b : Bytes) (hb : b ≠ []) (hbad : ¬ IeBad b)
    (ht : total s < 255) :
    (∃ e, ErrorIndication.step m s b = .err e) ∨
    ∃ s' n, ErrorIndication.step m s b = .ok (s', n) ∧ 4 ≤ n ∧ n ≤ b.length ∧
      total s' ≤ total s + 1 := by
  match b, hb with
  | t :: r, _ =>
    unfold ErrorIndication.step
    rw [rd_zero, R.ok_bind]
    have t1 : seenN s.teidN < 255 ∧ seenN s.peerN < 255 ∧ seenN s.privN < 255 := by
      unfold total at ht; omega
    by_cases hi : s.increment ≤ t
    rotate_left
    · rw [if_neg hi]; exact .inl ⟨_, rfl⟩
    rw [if_pos hi]
    by_cases h16 : t = 16
    · rw [if_pos h16]
      unfold Teid.unmarshal
      by_cases h4 : 4 < (t :: r).length
      rotate_left
      · rw [if_neg h4]; exact .inl ⟨_, rfl⟩
      rw [if_pos h4]
      obtain ⟨k, hk, hk2⟩ := count_ok m s.teidN t1.1
      match r, h4 with
      | a :: b :: c :: d :: r, _ =>
        rw [hk]
        simp only [rd32, rd_zero, rd_succ, R.ok_bind, R.pure_eq, R.mapErr_ok]
        refine .inr ⟨_, _, rfl, by simp [Teid.len], by simp [Teid.len], ?_⟩
        simp only [total, seenN, hk2] at *
        omega
    rw [if_neg h16]
    by_cases h133 : t = 133
    · rw [if_pos h133]
      by_cases h3 : 3 ≤ (t :: r).length
      rotate_left
      · left; unfold GsnAddress.unmarshal; rw [if_neg h3]; exact ⟨_, rfl⟩
      rcases gsn_cases m (t :: r) (fun h => hbad (.inl ⟨by simp [h133], h3, h⟩)) with ⟨e, he⟩ | ⟨i, hi, l1, l2, l3⟩
      · rw [he]; exact .inl ⟨_, rfl⟩
      · obtain ⟨k, hk, hk2⟩ := count_ok m s.peerN t1.2.1
        rw [hi, R.mapErr_ok, R.ok_bind, hk, R.ok_bind, GsnAddress.len, len3_ok l3, R.ok_bind]
        refine .inr ⟨_, _, rfl, by omega, l2, ?_⟩
        simp only [total, seenN, hk2] at *
        omega
    rw [if_neg h133]
    by_cases h255 : t = 255
    rotate_left
    · rw [if_neg h255]; exact .inl ⟨_, rfl⟩
    rw [if_pos h255]
    rcases priv_cases m (t :: r) (fun h => hbad (.inr ⟨by simp [h255], h⟩)) with ⟨e, he⟩ | ⟨i, hi, l1, l2, l3⟩
    · rw [he]; exact .inl ⟨_, rfl⟩
    · obtain ⟨k, hk, hk2⟩ := count_ok m s.privN t1.2.2
      rw [hi, R.mapErr_ok, R.ok_bind, hk, R.ok_bind, PrivateExtension.len, len3_ok l3, R.ok_bind]
      refine .inr ⟨_, _, rfl, by omega, l2, ?_⟩
      simp only [total, seenN, hk2] at *
      omega

theorem ind_calm (m : Mode) : ∀ (f : Nat) (s : ErrorIndication.St) (b : Bytes),
    b.length < f → (∀ k, ¬ IeBad (b.drop k)) → total s * 4 + b.length < 1020 →
    (∃ s', ErrorIndication.loop m f s b = .ok s') ∨ ∃ e, ErrorIndication.loop m f s b = .err e := by
  intro f
  induction f with
  | zero => intro s b h; omega
  | succ f ih =>
    intro s b hf hbad ht
    unfold ErrorIndication.loop
    by_cases hb : b = []
    · rw [if_pos hb]; exact .inl ⟨s, rfl⟩
    rw [if_neg hb]
    have hpos : 0 < b.length := List.length_pos_iff.mpr hb
    rcases step_cases m s b hb (by simpa using hbad 0) (by omega) with ⟨e, he⟩ | ⟨s', n, hs, h4, hn, hk⟩
    · rw [he]; exact .inr ⟨e, rfl⟩
    · rw [hs, R.ok_bind]
      refine ih s' (b.drop n) (by rw [List.length_drop]; omega) ?_ (by rw [List.length_drop]; omega)
      intro k
      rw [List.drop_drop]
      exact hbad (n + k)

/-- C32 (part) for Error Indication: no panic and no endless loop, in either build, for messages with
fewer than 1028 octets, no IE with a bad declared length and no uAnnounced length that
overflows.  Missing: the panics and loops of `C32_violation`. -/
theorem C32_error_indication_calm_partial (m : Mode) (b : Bytes) (hh : Calm (Header.unmarshal m b))
    (h1 : uAnnounced b < 65528) (h2 : ∀ k, ¬ IeBad (b.drop k)) (h3 : b.length < 1028) :
    Calm (ErrorIndication.unmarshal m b) := by
  unfold ErrorIndication.unmarshal
  rcases read_cases m 26 b hh with ⟨e, he⟩ | ⟨h, s, ha, hr, hs, h8, hle, hl⟩
  · simp [he, Calm]
  rw [hr, R.ok_bind, len8_ok (by omega), R.ok_bind, hl]
  by_cases hn : uAnnounced b + 8 ≤ b.length
  rotate_left
  · rw [if_neg hn]; simp [Calm]
  rw [if_pos hn, hs, R.ok_bind]
  rcases ind_calm m (b.length + 1) ⟨none, none, none, 0, ⟨h, Teid.default, GsnAddress.default, none⟩⟩
    (b.drop s) (by rw [List.length_drop]; omega) (fun k => by rw [List.drop_drop]; exact h2 (s + k))
    (by rw [List.length_drop]; simp [total, seenN]; omega) with ⟨s', hs'⟩ | ⟨e, he⟩
  · rw [hs', R.ok_bind]; split <;> simp [Calm]
  · rw [he]; simp [Calm]

/-- C32 is violated: each type panics on some buffer in a debug build, and Error Indication can loop
for ever in a release build. -/
theorem C32_violation :
    Gpdu.unmarshal .debug [0x32, 255, 0, 2, 0, 0, 0, 0, 0, 1, 0, 0] = .panic ∧
    Gpdu.unmarshal .debug [0x30, 255, 255, 248, 0, 0, 0, 0] = .panic ∧
    Gpdu.unmarshal .release [0x30, 255, 255, 248, 0, 0, 0, 0] = .panic ∧
    EchoRequest.unmarshal .debug [0x30, 1, 0, 1, 0, 0, 0, 0, 255, 0, 1, 0] = .panic ∧
    EchoRequest.unmarshal .release [0x30, 1, 0, 1, 0, 0, 0, 0, 255, 0, 1, 0] = .panic ∧
    EndMarker.unmarshal .debug [0x30, 254, 0, 1, 0, 0, 0, 0, 255, 0, 1, 0] = .panic ∧
    EndMarker.unmarshal .release [0x30, 254, 0, 1, 0, 0, 0, 0, 255, 0, 1, 0] = .panic ∧
    EchoResponse.unmarshal .debug [0x30, 2, 0, 1, 0, 0, 0, 0, 14, 0, 255, 0, 1, 0] = .panic ∧
    EchoResponse.unmarshal .release [0x30, 2, 0, 1, 0, 0, 0, 0, 14, 0, 255, 0, 1, 0] = .panic ∧
    SupportedExt.unmarshal .debug [0x30, 31, 0, 1, 0, 0, 0, 0, 141] = .panic ∧
    SupportedExt.unmarshal .release [0x30, 31, 0, 1, 0, 0, 0, 0, 141] = .panic ∧
    ErrorIndication.unmarshal .debug [0x30, 26, 0, 1, 0, 0, 0, 0, 255, 0, 1, 0] = .panic ∧
    ErrorIndication.unmarshal .debug
      ([0x30, 26, 0, 1, 0, 0, 0, 0] ++ (List.replicate 256 [16, 0, 0, 0, 1]).flatten) = .panic ∧
    ErrorIndication.unmarshal .release [0x30, 26, 0, 1, 0, 0, 0, 0, 255, 255, 253, 0, 0] = .diverge := by
  decide +kernel

/-- In a release build the loop over a private extension of declared length 65533 really has no end:
however many iterations are allowed, it does not finish. -/
theorem C32_spins (f : Nat) (s : ErrorIndication.St) (r : Bytes) (hr : 2 ≤ r.length) :
    ErrorIndication.loop .release f s (255 :: 255 :: 253 :: r) = .diverge := by
  induction f generalizing s with
  | zero => rfl
  | succ f ih =>
    match r, hr with
    | a :: b :: r, _ =>
      unfold ErrorIndication.loop
      rw [if_neg (by simp)]
      have hp : PrivateExtension.unmarshal .release (255 :: 255 :: 253 :: a :: b :: r) =
          .ok ⟨255, 0xfffd, of16 a b, r⟩ := by
        have h65 : of16 255 253 = 0xfffd := by decide
        simp [PrivateExtension.unmarshal, rd16, h65, checkTlv, add16]
      have hl : (⟨255, 0xfffd, of16 a b, r⟩ : PrivateExtension).len .release = .ok 0 := by
        simp only [PrivateExtension.len]; decide
      have hle : s.increment ≤ 255 := by
        rw [UInt8.le_iff_toNat_le]; have := s.increment.toNat_lt; simp; omega
      have hcnt : ∃ k, ErrorIndication.count .release s.privN = .ok k := by
        cases s.privN with
        | none => exact ⟨1, rfl⟩
        | some k => exact ⟨k + 1, by simp [ErrorIndication.count, add8]⟩
      obtain ⟨k, hk⟩ := hcnt
      simp only [ErrorIndication.step, rd_zero, R.ok_bind, hle, if_true,
        show ((255 : UInt8) = 16) = False by decide, show ((255 : UInt8) = 133) = False by decide,
        if_false, hp, R.mapErr_ok, hk, hl, R.pure_eq, List.drop_zero]
      exact ih _

theorem term_of {α : Type} {x : R Err α} {b : Bytes} {P : Prop}
    (hi : x = .panic ↔ Header.unmarshal .debug b = .panic ∨ P)
    (h3 : Calm (Header.unmarshal .debug b) → ¬ P → Calm x) : x ≠ .diverge := by
  intro hx
  by_cases hp : Header.unmarshal .debug b = .panic
  · rw [hi.mpr (.inl hp)] at hx; cases hx
  · by_cases hP : P
    · rw [hi.mpr (.inr hP)] at hx; cases hx
    · exact (h3 ⟨hp, C26_terminates_debug b⟩ hP).2 hx

theorem len3_debug {l : UInt16} : (∃ n, len3 .debug l = .ok n ∧ 3 ≤ n) ∨ len3 .debug l = .panic := by
  have h4 : (3 : UInt16).toNat = 3 := rfl
  by_cases h : l.toNat < 65533
  · exact .inl ⟨_, len3_ok h, by omega⟩
  · have : ¬ l.toNat + (3 : UInt16).toNat < 65536 := by rw [h4]; omega
    exact .inr (by simp only [len3, add16, this, if_false, R.panic_bind])

theorem rd_fin {b : Bytes} {i : Nat} : (rd b i : R Err UInt8) ≠ .diverge := by
  by_cases h : i < b.length
  · rw [rd_lt h]; simp
  · rw [rd_ge (by omega)]; simp

/-- Neither outcome of a step is an endless loop, and the cursor moves. -/
theorem step_moves (s : ErrorIndication.St) (b : Bytes) :
    ErrorIndication.step .debug s b ≠ .diverge ∧
    ∀ s' n, ErrorIndication.step .debug s b = .ok (s', n) → 3 ≤ n := by
  have cnt : ∀ o, (∃ k, ErrorIndication.count .debug o = .ok k) ∨
      ErrorIndication.count .debug o = .panic := by
    intro o
    cases o with
    | none => exact .inl ⟨1, rfl⟩
    | some k => simp only [ErrorIndication.count, add8]; split <;> simp
  match b with
  | [] => simp [ErrorIndication.step]
  | t :: r =>
    unfold ErrorIndication.step
    rw [rd_zero, R.ok_bind]
    by_cases hi : s.increment ≤ t
    rotate_left
    · rw [if_neg hi]; simp
    rw [if_pos hi]
    by_cases h16 : t = 16
    · rw [if_pos h16]
      unfold Teid.unmarshal
      by_cases h4 : 4 < (t :: r).length
      rotate_left
      · rw [if_neg h4]; simp
      rw [if_pos h4]
      match r, h4 with
      | a :: b :: c :: d :: r, _ =>
        simp only [rd32, rd_zero, rd_succ, R.ok_bind, R.pure_eq, R.mapErr_ok]
        rcases cnt s.teidN with ⟨k, hk⟩ | hk
        · rw [hk]
          refine ⟨by simp, fun s' n h => ?_⟩
          cases h
          simp [Teid.len]
        · rw [hk]; simp
    rw [if_neg h16]
    by_cases h133 : t = 133
    · rw [if_pos h133]
      have hg : (∃ i, GsnAddress.unmarshal .debug (t :: r) = .ok i) ∨
          (∃ e, GsnAddress.unmarshal .debug (t :: r) = .err e) ∨
          GsnAddress.unmarshal .debug (t :: r) = .panic := by
        by_cases h3 : 3 ≤ (t :: r).length
        rotate_left
        · right; left; unfold GsnAddress.unmarshal; rw [if_neg h3]; exact ⟨_, rfl⟩
        by_cases hb : 65533 ≤ ((t :: r).getD 1 0).toNat * 256 + ((t :: r).getD 2 0).toNat
        · right; right
          obtain ⟨a, b, c, r', e⟩ := three h3
          rw [e] at hb ⊢
          have hlen : (of16 b c).toNat = b.toNat * 256 + c.toNat := of16_toNat b c
          simp only [List.getD_cons_succ, List.getD_cons_zero, ← hlen] at hb
          have h0 : of16 b c ≠ 0 := ne_zero_of_toNat (by omega)
          unfold GsnAddress.unmarshal
          rw [if_pos (by simp)]
          simp only [rd16, rd_zero, rd_succ, R.ok_bind, R.pure_eq, h0, if_false, checkTlv_debug hb,
            R.panic_bind]
        · rcases gsn_cases .debug (t :: r) hb with h | ⟨i, h, -⟩
          · exact .inr (.inl h)
          · exact .inl ⟨i, h⟩
      rcases hg with ⟨i, h⟩ | ⟨e, h⟩ | h
      · rw [h, R.mapErr_ok, R.ok_bind]
        rcases cnt s.peerN with ⟨k, hk⟩ | hk
        · rw [hk, R.ok_bind, GsnAddress.len]
          rcases len3_debug (l := i.length) with ⟨n, hn, hn3⟩ | hn
          · rw [hn]
            refine ⟨by simp, fun s' n h => ?_⟩
            cases h
            exact hn3
          · rw [hn]; simp
        · rw [hk]; simp
      · rw [h]; simp
      · rw [h]; simp
    rw [if_neg h133]
    by_cases h255 : t = 255
    rotate_left
    · rw [if_neg h255]; simp
    rw [if_pos h255]
    by_cases hb : PrivBad (t :: r)
    · rw [priv_panic _ hb]; simp
    rcases priv_cases .debug (t :: r) hb with ⟨e, h⟩ | ⟨i, h, -⟩
    · rw [h]; simp
    · rw [h, R.mapErr_ok, R.ok_bind]
      rcases cnt s.privN with ⟨k, hk⟩ | hk
      · rw [hk, R.ok_bind, PrivateExtension.len]
        rcases len3_debug (l := i.length) with ⟨n, hn, hn3⟩ | hn
        · rw [hn]
          refine ⟨by simp, fun s' n h => ?_⟩
          cases h
          exact hn3
        · rw [hn]; simp
      · rw [hk]; simp

theorem ind_terminates : ∀ (f : Nat) (s : ErrorIndication.St) (b : Bytes), b.length < f →
    ErrorIndication.loop .debug f s b ≠ .diverge := by
  intro f
  induction f with
  | zero => intro s b h; omega
  | succ f ih =>
    intro s b hf
    unfold ErrorIndication.loop
    by_cases hb : b = []
    · rw [if_pos hb]; simp
    rw [if_neg hb]
    have hpos : 0 < b.length := List.length_pos_iff.mpr hb
    obtain ⟨h1, h2⟩ := step_moves s b
    cases hs : ErrorIndication.step .debug s b with
    | err e => simp
    | panic => simp
    | diverge => exact absurd hs h1
    | ok q =>
      obtain ⟨s', n⟩ := q
      have := h2 s' n hs
      rw [R.ok_bind]
      exact ih s' (b.drop n) (by rw [List.length_drop]; omega)

/-- C32 (part): in a debug build decoding always terminates, for each of the six types. -/
theorem C32_terminates_debug (b : Bytes) :
    Gpdu.unmarshal .debug b ≠ .diverge ∧ EchoRequest.unmarshal .debug b ≠ .diverge ∧
    EndMarker.unmarshal .debug b ≠ .diverge ∧ EchoResponse.unmarshal .debug b ≠ .diverge ∧
    SupportedExt.unmarshal .debug b ≠ .diverge ∧ ErrorIndication.unmarshal .debug b ≠ .diverge := by
  refine ⟨term_of (C32_gpdu_panic_iff_partial b) (C32_gpdu_calm .debug b),
    term_of (C32_echo_request_panic_iff_partial b) (C32_echo_request_calm .debug b),
    term_of (C32_end_marker_panic_iff_partial b) (C32_end_marker_calm .debug b),
    term_of (C32_echo_response_panic_iff_partial b) (C32_echo_response_calm .debug b),
    term_of (C32_supported_ext_panic_iff_partial b) (C32_supported_ext_calm .debug b), ?_⟩
  unfold ErrorIndication.unmarshal
  by_cases hp : Header.unmarshal .debug b = .panic
  · rw [read_panic hp]; simp
  rcases read_cases .debug 26 b ⟨hp, C26_terminates_debug b⟩ with ⟨e, he⟩ | ⟨h, s, ha, hr, hs, h8, hle, hl⟩
  · simp [he]
  rw [hr, R.ok_bind]
  by_cases ho : 65528 ≤ uAnnounced b
  · rw [len8_debug (by omega)]; simp
  rw [len8_ok (by omega), R.ok_bind, hl]
  by_cases hn : uAnnounced b + 8 ≤ b.length
  rotate_left
  · rw [if_neg hn]; simp
  rw [if_pos hn, hs, R.ok_bind]
  have ht := ind_terminates (b.length + 1)
    ⟨none, none, none, 0, ⟨h, Teid.default, GsnAddress.default, none⟩⟩ (b.drop s)
    (by rw [List.length_drop]; omega)
  cases hloop : ErrorIndication.loop .debug (b.length + 1)
    ⟨none, none, none, 0, ⟨h, Teid.default, GsnAddress.default, none⟩⟩ (b.drop s) with
  | err e => simp
  | panic => simp
  | diverge => exact absurd hloop ht
  | ok s' => rw [R.ok_bind]; split <;> simp

example : ¬ GpduBad .debug [0x30, 255, 0, 2, 0, 0, 0, 0, 1, 2] := by
  rintro ⟨h, s, ⟨h1, -, h3⟩, h4⟩
  have : Header.unmarshal .debug [0x30, 255, 0, 2, 0, 0, 0, 0, 1, 2] =
    .ok ⟨255, 2, 0, none, none, none⟩ := by decide +kernel
  rw [this] at h1
  cases h1
  cases h3
  simp [uAnnounced] at h4

/-! ## C33 -/

theorem ok_ne {α : Type} {x : α} {e : Err} : (R.err e : R Err α) ≠ .ok x := by intro h; cases h

theorem read_ok {m : Mode} {ty : UInt8} {b : Bytes} {h : Header} (e : readHeader m ty b = .ok h) :
    h.length.toNat = uAnnounced b ∧ ∃ s, h.size m = .ok s ∧ 8 ≤ s ∧ s ≤ b.length := by
  unfold readHeader at e
  cases hu : Header.unmarshal m b with
  | err _ => rw [hu] at e; cases e
  | panic => rw [hu] at e; cases e
  | diverge => rw [hu] at e; cases e
  | ok h' =>
    rw [hu, R.ok_bind] at e
    split at e
    · cases e
    · cases e
      obtain ⟨a, b, -⟩ := header_facts m _ _ hu
      exact ⟨b, a⟩

/-- C33 (part): a G-PDU with fewer octets than uAnnounced is never accepted; nor is an Error Indication
or Supported Extension Headers Notification, except in a release build when `length + 8` overflows; an
Echo Response is rejected if four octets more are missing.  Missing: `C33_violation`. -/
theorem C33_truncated_partial (m : Mode) (b : Bytes) (hb : b.length < uAnnounced b + 8) :
    (∀ x, Gpdu.unmarshal m b ≠ .ok x) ∧
    ((m = .debug ∨ uAnnounced b < 65528) →
      (∀ x, ErrorIndication.unmarshal m b ≠ .ok x) ∧ (∀ x, SupportedExt.unmarshal m b ≠ .ok x)) ∧
    (b.length ≤ uAnnounced b + 4 → ∀ x, EchoResponse.unmarshal m b ≠ .ok x) := by
  have key : ∀ h : Header, h.length.toNat = uAnnounced b →
      (∃ n, len8 m h.length = .ok n ∧ (b.length < n ∨ (m = .release ∧ n < 8 ∧ 65528 ≤ uAnnounced b))) ∨
      (len8 m h.length = .panic) := by
    intro h hl
    by_cases ho : uAnnounced b < 65528
    · exact .inl ⟨_, len8_ok (by omega), .inl (by omega)⟩
    · cases m with
      | debug => exact .inr (len8_debug (by omega))
      | release =>
        have := h.length.toNat_lt
        exact .inl ⟨_, len8_release (by omega), .inr ⟨rfl, by omega, by omega⟩⟩
  refine ⟨fun x hx => ?_, fun hm => ⟨fun x hx => ?_, fun x hx => ?_⟩, fun h4 x hx => ?_⟩
  · unfold Gpdu.unmarshal at hx
    cases hr : readHeader m 255 b with
    | err _ => rw [hr] at hx; cases hx
    | panic => rw [hr] at hx; cases hx
    | diverge => rw [hr] at hx; cases hx
    | ok h =>
      obtain ⟨hl, s, hs, h8, hle⟩ := read_ok hr
      rw [hr, R.ok_bind] at hx
      rcases key h hl with ⟨n, hn, hn2⟩ | hp
      · rw [hn, R.ok_bind] at hx
        by_cases hlt : n ≤ b.length
        · rw [if_pos hlt, hs, R.ok_bind, sl, if_neg (by omega)] at hx
          cases hx
        · rw [if_neg hlt] at hx; cases hx
      · rw [hp] at hx; cases hx
  · unfold ErrorIndication.unmarshal at hx
    cases hr : readHeader m 26 b with
    | err _ => rw [hr] at hx; cases hx
    | panic => rw [hr] at hx; cases hx
    | diverge => rw [hr] at hx; cases hx
    | ok h =>
      obtain ⟨hl, s, hs, h8, hle⟩ := read_ok hr
      rw [hr, R.ok_bind] at hx
      rcases key h hl with ⟨n, hn, hn2⟩ | hp
      · have : ¬ n ≤ b.length := by
          rcases hm with rfl | hm
          · rcases hn2 with h | h
            · omega
            · cases h.1
          · omega
        rw [hn, R.ok_bind, if_neg this] at hx; cases hx
      · rw [hp] at hx; cases hx
  · unfold SupportedExt.unmarshal at hx
    cases hr : readHeader m 31 b with
    | err _ => rw [hr] at hx; cases hx
    | panic => rw [hr] at hx; cases hx
    | diverge => rw [hr] at hx; cases hx
    | ok h =>
      obtain ⟨hl, s, hs, h8, hle⟩ := read_ok hr
      rw [hr, R.ok_bind] at hx
      rcases key h hl with ⟨n, hn, hn2⟩ | hp
      · have : ¬ n ≤ b.length := by
          rcases hm with rfl | hm
          · rcases hn2 with h | h
            · omega
            · cases h.1
          · omega
        rw [hn, R.ok_bind, if_neg this] at hx; cases hx
      · rw [hp] at hx; cases hx
  · unfold EchoResponse.unmarshal at hx
    cases hr : readHeader m 2 b with
    | err _ => rw [hr] at hx; cases hx
    | panic => rw [hr] at hx; cases hx
    | diverge => rw [hr] at hx; cases hx
    | ok h =>
      obtain ⟨hl, s, hs, h8, hle⟩ := read_ok hr
      rw [hr, R.ok_bind, hl, if_neg (by omega)] at hx
      cases hx

/-- C33 is violated by Echo Request and End Marker (the uAnnounced length is never checked), by Echo
Response (up to three octets may be missing) and, in a release build, by Error Indication. -/
theorem C33_violation :
    (∃ b, b.length < uAnnounced b + 8 ∧ ∀ m, ∃ x, EchoRequest.unmarshal m b = .ok x) ∧
    (∃ b, b.length < uAnnounced b + 8 ∧ ∀ m, ∃ x, EndMarker.unmarshal m b = .ok x) ∧
    (∃ b, b.length < uAnnounced b + 8 ∧ ∀ m, ∃ x, EchoResponse.unmarshal m b = .ok x) ∧
    (∃ b, b.length < uAnnounced b + 8 ∧ ∃ x, ErrorIndication.unmarshal .release b = .ok x) := by
  refine ⟨⟨[0x30, 1, 200, 0, 0, 0, 0, 0], by decide, fun m => ⟨⟨⟨1, 51200, 0, none, none, none⟩, none⟩,
      by cases m <;> decide +kernel⟩⟩,
    ⟨[0x30, 254, 200, 0, 0, 0, 0, 0], by decide, fun m => ⟨⟨⟨254, 51200, 0, none, none, none⟩, none⟩,
      by cases m <;> decide +kernel⟩⟩,
    ⟨[0x30, 2, 0, 5, 0, 0, 0, 0, 14, 9], by decide, fun m => ⟨⟨⟨2, 5, 0, none, none, none⟩, ⟨14, 9⟩, none⟩,
      by cases m <;> decide +kernel⟩⟩,
    ⟨[0x30, 26, 255, 248, 0, 0, 0, 0, 16, 0, 0, 0, 1, 133, 0, 4, 1, 2, 3, 4], by decide,
      ⟨⟨26, 65528, 0, none, none, none⟩, ⟨16, 1⟩, ⟨133, 4, .v4 0x01020304⟩, none⟩, by decide +kernel⟩⟩

example : ([0x30, 255, 0, 3, 0, 0, 0, 0, 1, 2] : Bytes).length <
    uAnnounced [0x30, 255, 0, 3, 0, 0, 0, 0, 1, 2] + 8 := by decide

end Gtp.Props
