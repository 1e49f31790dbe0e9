import Verif.C1.Simple
import Verif.Props.CMsgRecv

/-!
# Properties C36, C50, C52, C53 and C55 for the GTPv1-C messages without a loop
-/

namespace Gtp.Props.C1
open Gtp.C1 Gtp.V1

/-- The header as it is written in front of `body`. -/
def sentHeader (h : Header) (body : Bytes) : Header := withLen h (UInt16.ofNat (h.marshal.length + body.length - 8))

/-- What the decoders do with the header of an encoded message. -/
theorem read_sent (m : Mode) (ty : UInt8) (h : Header) (wf : HeaderWF h) (ht : h.msgtype = ty) (body : Bytes) :
    readHeader m ty ((sentHeader h body).marshal ++ body) = .ok (sentHeader h body) ∧ (sentHeader h body).len m = .ok h.marshal.length ∧
    (sentHeader h body).marshal.length = h.marshal.length ∧
    (h.marshal.length + body.length < 65544 → (sentHeader h body).length.toNat + 8 = h.marshal.length + body.length) := by
  have h8 := header_ge8 h
  refine ⟨?_, ?_, marshal_withLen_length h _, fun hl => ?_⟩
  · rw [readHeader, sentHeader, C34_header_roundtrip m _ (withLen_wf wf _), R.ok_bind, if_neg (by simp [withLen, ht])]
    rfl
  · rw [sentHeader, C41_header_len_partial m _ (withLen_wf wf _), marshal_withLen_length]
  · simp [sentHeader, withLen]
    omega

theorem optPrivate_rt (m : Mode) (p : Option PrivateExtension) (wf : ∀ i, p = some i → i.WF) :
    optPrivate m (optOctets PrivateExtension.marshal p) = .ok p := by
  cases p with
  | none => rfl
  | some i => simp [optPrivate, optOctets, PrivateExtension.rt m i (wf i rfl)]

/-- C36 for Echo Request. -/
theorem C36_echo_request (m : Mode) (x : EchoRequest) (wf : HeaderWF x.header) (ht : x.header.msgtype = 1)
    (hp : ∀ i, x.private_ext = some i → i.WF) (hs : (EchoRequest.marshalInto [] x).length < 65544) :
    EchoRequest.unmarshal m (EchoRequest.marshalInto [] x) =
      .ok { x with header := sentHeader x.header (optOctets PrivateExtension.marshal x.private_ext) } := by
  have e : EchoRequest.marshalInto [] x = _ := setLen_eq x.header (optOctets PrivateExtension.marshal x.private_ext)
  rw [e, List.length_append, marshal_withLen_length] at hs
  rw [e]
  obtain ⟨h1, h2, h3, h4⟩ := read_sent m 1 x.header wf ht (optOctets PrivateExtension.marshal x.private_ext)
  have h4 := h4 hs
  show EchoRequest.unmarshal m ((sentHeader x.header _).marshal ++ _) = _
  rw [EchoRequest.unmarshal, h1, R.ok_bind, if_pos (by rw [List.length_append, h3]; omega), h2, R.ok_bind, ← h3,
    slFrom_ok (by simp), R.ok_bind, List.drop_left, optPrivate_rt m _ hp]
  rfl

/-- C36 for Echo Response. -/
theorem C36_echo_response (m : Mode) (x : EchoResponse) (wf : HeaderWF x.header) (ht : x.header.msgtype = 2) (hr : x.recovery.WF)
    (hp : ∀ i, x.private_ext = some i → i.WF) (hs : (EchoResponse.marshalInto [] x).length < 65544) :
    EchoResponse.unmarshal m (EchoResponse.marshalInto [] x) =
      .ok { x with header := sentHeader x.header (x.recovery.marshal ++ optOctets PrivateExtension.marshal x.private_ext) } := by
  have e : EchoResponse.marshalInto [] x = _ :=
    setLen_eq x.header (x.recovery.marshal ++ optOctets PrivateExtension.marshal x.private_ext)
  rw [e, List.length_append, marshal_withLen_length] at hs
  rw [e]
  obtain ⟨h1, h2, h3, h4⟩ := read_sent m 2 x.header wf ht (x.recovery.marshal ++ optOctets PrivateExtension.marshal x.private_ext)
  have h4 := h4 hs
  show EchoResponse.unmarshal m ((sentHeader x.header _).marshal ++ _) = _
  have hrl : x.recovery.marshal.length = 2 := rfl
  rw [List.length_append] at h4
  generalize hH : sentHeader x.header (x.recovery.marshal ++ optOctets PrivateExtension.marshal x.private_ext) = H at *
  rw [EchoResponse.unmarshal, h1, R.ok_bind, if_pos (by simp only [List.length_append, h3]; omega), h2, R.ok_bind,
    if_pos (by simp only [List.length_append, h3]; omega), ← h3, rd_append_right (Nat.le_refl _), Nat.sub_self]
  have hrd : rd (ε := Err) (x.recovery.marshal ++ optOctets PrivateExtension.marshal x.private_ext) 0 = .ok 14 := rfl
  rw [hrd, R.ok_bind, if_pos rfl, slFrom_ok (by simp), R.ok_bind, List.drop_left, Recovery.rt m x.recovery _ hr, R.ok_bind,
    Recovery.len_ok m x.recovery hr, R.ok_bind]
  have hd : List.drop (H.marshal.length + x.recovery.marshal.length) (H.marshal ++ (x.recovery.marshal ++ optOctets PrivateExtension.marshal x.private_ext)) =
      optOctets PrivateExtension.marshal x.private_ext := by
    rw [← List.append_assoc, ← List.length_append, List.drop_left]
  split
  · rename_i hc
    rw [slFrom_ok (by omega), R.ok_bind, hd, optPrivate_rt m _ hp]
    rfl
  · rename_i hc
    cases hx : x.private_ext with
    | none => rfl
    | some i =>
      rw [hx] at hc
      have : 3 ≤ i.marshal.length := by rw [PrivateExtension.marshal, tlv_length]; omega
      simp only [optOctets, List.length_append] at hc
      omega

/-- C36 for Version Not Supported. -/
theorem C36_version_not_supported (m : Mode) (x : VersionNotSupported) (wf : HeaderWF x.header) (ht : x.header.msgtype = 3) :
    VersionNotSupported.unmarshal m (VersionNotSupported.marshalInto [] x) = .ok ⟨sentHeader x.header []⟩ := by
  have e := setLen_eq x.header []
  rw [List.append_nil, List.append_nil] at e
  have h1 := (read_sent m 3 x.header wf ht []).1
  rw [List.append_nil] at h1
  have e' : VersionNotSupported.marshalInto [] x = (sentHeader x.header []).marshal := e
  rw [e', VersionNotSupported.unmarshal, h1]
  rfl

/-- C36 for Supported Extension Headers Notification. -/
theorem C36_supported_ext (m : Mode) (x : SupportedExtensionHeadersNotification) (wf : HeaderWF x.header) (ht : x.header.msgtype = 31)
    (hl : x.list.WF) (hs : (SupportedExtensionHeadersNotification.marshalInto [] x).length < 65536) :
    SupportedExtensionHeadersNotification.unmarshal m (SupportedExtensionHeadersNotification.marshalInto [] x) =
      .ok { x with header := sentHeader x.header x.list.marshal } := by
  have e : SupportedExtensionHeadersNotification.marshalInto [] x = _ := setLen_eq x.header x.list.marshal
  rw [e, List.length_append, marshal_withLen_length] at hs
  rw [e]
  obtain ⟨h1, h2, h3, h4⟩ := read_sent m 31 x.header wf ht x.list.marshal
  have h4 := h4 (by omega)
  show SupportedExtensionHeadersNotification.unmarshal m ((sentHeader x.header _).marshal ++ _) = _
  generalize hH : sentHeader x.header x.list.marshal = H at *
  have hm := ExtensionHeaderTypeList.marshal_eq hl
  have hpos : 0 < x.list.marshal.length := by rw [hm]; simp
  rw [SupportedExtensionHeadersNotification.unmarshal, h1, R.ok_bind, len8_small m (by omega), R.ok_bind,
    if_pos (by rw [List.length_append, h3]; omega), h2, R.ok_bind, if_neg (by rw [List.length_append, h3]; omega), ← h3,
    rd_append_right (Nat.le_refl _), Nat.sub_self]
  have hrd : rd (ε := Err) x.list.marshal 0 = .ok 141 := by rw [hm]; rfl
  rw [hrd, R.ok_bind, if_pos rfl, slFrom_ok (by simp), R.ok_bind, List.drop_left, ExtensionHeaderTypeList.rt m x.list hl]
  rfl

example : HeaderWF ⟨31, 0, 0, some 5, none, none⟩ ∧ (⟨141, 2, [0xc0, 1]⟩ : ExtensionHeaderTypeList).WF := ⟨(fun l h => by cases h), by decide⟩
example : (⟨255, 5, 10415, [1, 2, 3]⟩ : PrivateExtension).WF ∧ (⟨14, 8⟩ : Recovery).WF := by decide

/-- C50 (violated): Echo Request and Version Not Supported do not check the announced length, Echo Response tolerates up
to three missing octets. -/
theorem C50_simple_violation (m : Mode) :
    (∃ x, EchoRequest.unmarshal m [0x30, 1, 0xff, 0, 0, 0, 0, 0] = .ok x) ∧
    (∃ x, VersionNotSupported.unmarshal m [0x30, 3, 0xff, 0, 0, 0, 0, 0] = .ok x) ∧
    ∃ x, EchoResponse.unmarshal m [0x30, 2, 0, 5, 0, 0, 0, 0, 14, 7] = .ok x := by
  cases m <;> exact ⟨⟨_, rfl⟩, ⟨_, rfl⟩, ⟨_, rfl⟩⟩

/-- C50 (partial): a Supported Extension Headers Notification is only accepted when the announced octets are there, an Echo
Response when at most three are missing. -/
theorem C50_simple_partial (m : Mode) (b : Bytes) :
    (∀ x, SupportedExtensionHeadersNotification.unmarshal m b = .ok x → lengthField b + 8 ≤ b.length ∨ m = .release ∧ 65528 ≤ lengthField b) ∧
    (∀ x, EchoResponse.unmarshal m b = .ok x → lengthField b + 5 ≤ b.length) := by
  have hdr : ∀ ty h, readHeader m ty b = .ok h → h.length.toNat = lengthField b := by
    intro ty h e
    obtain ⟨g, h1, h2⟩ := ok_of_bind e
    split at h2
    · cases h2
    · cases h2
      exact (header_fields h1).2.2
  constructor
  · intro x e
    obtain ⟨h, h1, e⟩ := ok_of_bind e
    obtain ⟨n, h2, e⟩ := ok_of_bind e
    have := hdr _ _ h1
    split at e
    · rcases len8_ok h2 with h5 | h5
      · left; omega
      · right; exact ⟨h5.1, by omega⟩
    · cases e
  · intro x e
    obtain ⟨h, h1, e⟩ := ok_of_bind e
    have := hdr _ _ h1
    split at e
    · omega
    · cases e

/-- C52 (violated): an Echo Request with the S flag whose header ends behind the sequence number panics, and so does a
Supported Extension Headers Notification; the private extension panics as in the other messages. -/
theorem C52_simple_violation (m : Mode) :
    EchoRequest.unmarshal m [0x32, 1, 0, 2, 0, 0, 0, 0, 0, 5] = .panic ∧
    SupportedExtensionHeadersNotification.unmarshal m [0x32, 31, 0, 2, 0, 0, 0, 0, 0, 5] = .panic ∧
    EchoRequest.unmarshal m [0x30, 1, 0, 4, 0, 0, 0, 0, 255, 0, 1, 7] = .panic ∧
    EchoResponse.unmarshal m [0x30, 2, 0, 6, 0, 0, 0, 0, 14, 7, 255, 0, 1, 7] = .panic := by
  cases m <;> exact ⟨rfl, rfl, rfl, rfl⟩

/-- C52: Version Not Supported panics only when the header decoder does. -/
theorem C52_version_not_supported (m : Mode) (b : Bytes) :
    VersionNotSupported.unmarshal m b = .panic ↔ Header.unmarshal m b = .panic := by
  unfold VersionNotSupported.unmarshal readHeader
  cases Header.unmarshal m b with
  | ok h =>
    simp only [R.ok_bind]
    split <;> simp
  | err e => simp
  | panic => simp
  | diverge => simp

theorem optPrivate_ends (m : Mode) (b : Bytes) : optPrivate m b ≠ .diverge := by
  have := ((Kind.panics .PrivateExtension) m b).2
  unfold optPrivate
  split
  · simp
  · simp
  · simp
  · rename_i h
    exact absurd h this

theorem bind_ends {ε α β : Type} {x : R ε α} {f : α → R ε β} (h1 : x ≠ .diverge) (h2 : ∀ a, x = .ok a → f a ≠ .diverge) :
    (x >>= f) ≠ .diverge := by
  cases x with
  | ok a => exact h2 a rfl
  | err e => simp
  | panic => simp
  | diverge => exact absurd rfl h1

theorem rd_ends (b : Bytes) (i : Nat) : (rd b i : R Err UInt8) ≠ .diverge := by
  unfold rd; split <;> simp

theorem slFrom_ends (b : Bytes) (i : Nat) : (slFrom b i : R Err Bytes) ≠ .diverge := by
  unfold slFrom; split <;> simp

/-- C53 for the four messages: their decoders end in debug builds on every buffer. In release builds they end
whenever the header decoder does. -/
theorem C53_simple (m : Mode) (b : Bytes) (hh : Header.unmarshal m b ≠ .diverge) :
    EchoRequest.unmarshal m b ≠ .diverge ∧ EchoResponse.unmarshal m b ≠ .diverge ∧ VersionNotSupported.unmarshal m b ≠ .diverge ∧
    SupportedExtensionHeadersNotification.unmarshal m b ≠ .diverge := by
  have hr : ∀ ty, readHeader m ty b ≠ .diverge := by
    intro ty
    refine bind_ends hh fun h _ => ?_
    split <;> simp
  have hl : ∀ ty h, readHeader m ty b = .ok h → h.len m ≠ .diverge := by
    intro ty h e
    obtain ⟨g, h1, h2⟩ := ok_of_bind e
    split at h2
    · cases h2
    · cases h2
      obtain ⟨n, hn⟩ := header_len_ok h1
      rw [hn]
      simp
  refine ⟨?_, ?_, ?_, ?_⟩
  · refine bind_ends (hr _) fun h e => ?_
    split
    · refine bind_ends (hl _ _ e) fun n _ => bind_ends (slFrom_ends _ _) fun r _ => bind_ends (optPrivate_ends _ _) fun p _ => by simp
    · simp
  · refine bind_ends (hr _) fun h e => ?_
    split
    · refine bind_ends (hl _ _ e) fun n _ => ?_
      split
      · refine bind_ends (rd_ends _ _) fun t _ => ?_
        split
        · refine bind_ends (slFrom_ends _ _) fun r _ => bind_ends ((Kind.panics .Recovery) m r).2 fun rec _ => bind_ends (by simp [Recovery.len]) fun k _ => ?_
          split
          · exact bind_ends (slFrom_ends _ _) fun r _ => bind_ends (optPrivate_ends _ _) fun p _ => by simp
          · simp
        · simp
      · simp
    · simp
  · exact bind_ends (hr _) fun h e => by simp
  · refine bind_ends (hr _) fun h e => bind_ends ?_ fun n _ => ?_
    · unfold Gtp.U.len8
      refine bind_ends ?_ fun _ _ => by simp
      cases m
      · simp only [add16]
        split <;> simp
      · simp [add16]
    split
    · refine bind_ends (hl _ _ e) fun s _ => ?_
      split
      · simp
      · refine bind_ends (rd_ends _ _) fun t _ => ?_
        split
        · refine bind_ends (slFrom_ends _ _) fun r _ => bind_ends ?_ fun _ _ => by simp
          have := ((Kind.panics .ExtensionHeaderTypeList) m r).2
          have this : ExtensionHeaderTypeList.unmarshal m r ≠ .diverge := this
          cases hx : ExtensionHeaderTypeList.unmarshal m r with
          | ok a => simp
          | err e => simp
          | panic => simp
          | diverge => exact absurd hx this
        · simp
    · simp

end Gtp.Props.C1
