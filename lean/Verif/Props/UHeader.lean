import Verif.U.Lemmas

/-!
# Properties C25-C28 (GTPv1-U header and extension headers)

The specification side is the wire format of 3GPP TS 29.281 §5.1-5.2: an extension header is a type
octet, a length octet counting units of four octets, and contents filling those units; the chain is
closed by a type octet 0.
-/

namespace Gtp.Props
open Gtp.V1 Gtp.U

/-- Extension header types of TS 29.281 figure 5.2.1-3 known to the crate. -/
def extTypes : List UInt8 := [0x00, 0x03, 0x20, 0x40, 0x81, 0x82, 0x83, 0x84, 0x85, 0xc0]

/-- The contents `c` and the length octet fill whole units of four octets, at most 63 of them. -/
def Units (length : UInt8) (c : Bytes) : Prop :=
  length.toNat < 64 ∧ 2 + c.length = 4 * length.toNat

/-- An extension header that fits the wire format. -/
def ExtWF : ExtHdr → Prop
  | .noMore => False
  | .pdcpPduNumber x => x.t = 0xc0 ∧ x.length = 1
  | .udpPort x => x.t = 0x40 ∧ x.length = 1
  | .longPdcpPduNumber x => (x.t = 0x03 ∨ x.t = 0x82) ∧ x.length = 2 ∧ x.number.toNat < 2 ^ 24
  | .sci x => x.t = 0x20 ∧ x.length = 1
  | .ranContainer x => x.t = 0x81 ∧ Units x.length x.container
  | .xwRanContainer x => x.t = 0x83 ∧ Units x.length x.container
  | .nrRanContainer x => x.t = 0x84 ∧ Units x.length x.container
  | .pduSessionContainer x => x.t = 0x85 ∧ Units x.length x.container
  | .unknown x => x.t ∉ extTypes ∧ Units x.length x.container

theorem units_enc {l : UInt8} {c : Bytes} (h : Units l c) (m : Mode) (t : UInt8) (tail : Bytes) :
    l ≠ 0 ∧ len4 m l = .ok (2 + c.length) ∧
    (sl (t :: l :: (c ++ tail)) 2 (2 + c.length) : R Err Bytes) = .ok c ∧
    2 + c.length ≤ (c ++ tail).length + 2 := by
  obtain ⟨h1, h2⟩ := h
  refine ⟨?_, by rw [len4_ok h1, h2], ?_, by simp; omega⟩
  · rintro rfl; simp at h2
  · rw [Nat.add_comm]; simp

theorem fixedRead_none : ∀ t : UInt8, fixedRead t = none →
    t ≠ 0xc0 ∧ t ≠ 0x40 ∧ t ≠ 0x03 ∧ t ≠ 0x82 ∧ t ≠ 0x20 := by decide +kernel

theorem long_shift {n : UInt32} (h : n.toNat < 2 ^ 24) :
    be32 (n <<< 8) = [oct32 2 n, oct32 1 n, oct32 0 n, 0] := by
  have e : (n <<< 8).toNat = n.toNat * 256 := by
    rw [UInt32.toNat_shiftLeft]
    have : (8 : UInt32).toNat % 32 = 8 := rfl
    rw [this, Nat.shiftLeft_eq]
    omega
  simp only [be32, oct32, e, List.cons.injEq, and_true]
  refine ⟨?_, ?_, ?_, ?_⟩ <;> apply UInt8.toNat_inj.mp <;> simp <;> omega

/-- One extension header: decoding its encoding gives it back whatever follows; it occupies a
multiple of four octets, which is what `len` says. -/
theorem C28_ext_header (m : Mode) (x : ExtHdr) (wf : ExtWF x) (tail : Bytes) :
    ExtHdr.unmarshal m (x.marshal ++ tail) = .ok x ∧ x.len m = .ok x.marshal.length ∧
    x.marshal.length % 4 = 0 ∧ 0 < x.marshal.length ∧ x.marshal.length ≤ 252 := by
  have l1 : len4 m 1 = .ok 4 := len4_ok (m := m) (l := 1) (by decide)
  have l2 : len4 m 2 = .ok 8 := len4_ok (m := m) (l := 2) (by decide)
  have cont : ∀ (t l : UInt8) (c : Bytes), Units l c → t ≠ 0 →
      (fixedRead t = none) →
      ExtHdr.unmarshal m ([t, l] ++ c ++ tail) = .ok
        (if t = 0x81 then .ranContainer ⟨0x81, l, c⟩
         else if t = 0x83 then .xwRanContainer ⟨0x83, l, c⟩
         else if t = 0x84 then .nrRanContainer ⟨0x84, l, c⟩
         else if t = 0x85 then .pduSessionContainer ⟨0x85, l, c⟩
         else .unknown ⟨t, l, c⟩) ∧ len4 m l = .ok (2 + c.length) ∧ (2 + c.length) % 4 = 0 ∧
      0 < 2 + c.length ∧ 2 + c.length ≤ 252 := by
    intro t l c hu ht hf
    obtain ⟨a, b, c', d⟩ := units_enc hu m t tail
    obtain ⟨u1, u2⟩ := hu
    refine ⟨?_, b, by omega, by omega, by omega⟩
    obtain ⟨f1, f2, f3, f4, f5⟩ := fixedRead_none t hf
    show ExtHdr.unmarshal m (t :: l :: (c ++ tail)) = _
    rw [ext_cons m t l _ ht, if_neg a, b, R.ok_bind, if_pos d]
    unfold extBody
    simp only [f1, f2, f3, f4, f5, if_false, or_self]
    rw [c']
    rfl
  cases x with
  | noMore => exact absurd wf id
  | pdcpPduNumber x =>
    obtain ⟨t, l, v⟩ := x
    obtain ⟨rfl, rfl⟩ := wf
    simp [ExtHdr.marshal, PdcpPduNumber.marshal, be16, ext_cons, l1, extBody, rd16, ExtHdr.len,
      ExtHdr.length?]
  | udpPort x =>
    obtain ⟨t, l, v⟩ := x
    obtain ⟨rfl, rfl⟩ := wf
    simp [ExtHdr.marshal, UdpPort.marshal, be16, ext_cons, l1, extBody, rd16, ExtHdr.len,
      ExtHdr.length?]
  | longPdcpPduNumber x =>
    obtain ⟨t, l, v⟩ := x
    obtain ⟨ht, rfl, hv⟩ := wf
    simp only at hv ht
    have hv' := of24_be hv
    rcases ht with rfl | rfl <;>
      simp [ExtHdr.marshal, LongPdcpPduNumber.marshal, long_shift hv, ext_cons, l2, extBody, rd24,
        hv', ExtHdr.len, ExtHdr.length?]
  | sci x =>
    obtain ⟨t, l, v⟩ := x
    obtain ⟨rfl, rfl⟩ := wf
    simp [ExtHdr.marshal, Sci.marshal, ext_cons, l1, extBody, ExtHdr.len, ExtHdr.length?]
  | ranContainer x =>
    obtain ⟨t, l, c⟩ := x
    obtain ⟨rfl, hu⟩ := wf
    obtain ⟨h1, h2, h3⟩ := cont 0x81 l c hu (by decide) (by decide)
    refine ⟨h1, ?_, ?_, ?_⟩ <;>
      simp only [ExtHdr.len, ExtHdr.length?, h2, ExtHdr.marshal, Container.marshal,
        List.length_append, List.length_cons, List.length_nil] <;> omega
  | xwRanContainer x =>
    obtain ⟨t, l, c⟩ := x
    obtain ⟨rfl, hu⟩ := wf
    obtain ⟨h1, h2, h3⟩ := cont 0x83 l c hu (by decide) (by decide)
    refine ⟨h1, ?_, ?_, ?_⟩ <;>
      simp only [ExtHdr.len, ExtHdr.length?, h2, ExtHdr.marshal, Container.marshal,
        List.length_append, List.length_cons, List.length_nil] <;> omega
  | nrRanContainer x =>
    obtain ⟨t, l, c⟩ := x
    obtain ⟨rfl, hu⟩ := wf
    obtain ⟨h1, h2, h3⟩ := cont 0x84 l c hu (by decide) (by decide)
    refine ⟨h1, ?_, ?_, ?_⟩ <;>
      simp only [ExtHdr.len, ExtHdr.length?, h2, ExtHdr.marshal, Container.marshal,
        List.length_append, List.length_cons, List.length_nil] <;> omega
  | pduSessionContainer x =>
    obtain ⟨t, l, c⟩ := x
    obtain ⟨rfl, hu⟩ := wf
    obtain ⟨h1, h2, h3⟩ := cont 0x85 l c hu (by decide) (by decide)
    refine ⟨h1, ?_, ?_, ?_⟩ <;>
      simp only [ExtHdr.len, ExtHdr.length?, h2, ExtHdr.marshal, Container.marshal,
        List.length_append, List.length_cons, List.length_nil] <;> omega
  | unknown x =>
    obtain ⟨t, l, c⟩ := x
    obtain ⟨ht, hu⟩ := wf
    simp only at ht hu
    have ht' : t ≠ 0 ∧ fixedRead t = none ∧ t ≠ 0x81 ∧ t ≠ 0x83 ∧ t ≠ 0x84 ∧ t ≠ 0x85 := by
      clear hu; revert ht; revert t; decide +kernel
    obtain ⟨t0, t1, t2, t3, t4, t5⟩ := ht'
    obtain ⟨h1, h2, h3⟩ := cont t l c hu t0 t1
    simp only [t2, t3, t4, t5, if_false] at h1
    refine ⟨h1, ?_, ?_, ?_⟩ <;>
      simp only [ExtHdr.len, ExtHdr.length?, h2, ExtHdr.marshal, Container.marshal,
        List.length_append, List.length_cons, List.length_nil] <;> omega

example : ExtWF (.pduSessionContainer ⟨0x85, 2, [0, 9, 1, 2, 3, 4]⟩) := ⟨rfl, by decide, rfl⟩
example : ExtWF (.longPdcpPduNumber ⟨0x82, 2, 0xabcdef⟩) := ⟨.inr rfl, rfl, by decide⟩
example : ExtWF (.unknown ⟨0x99, 1, [7, 8]⟩) := ⟨by decide, by decide, rfl⟩

/-- The octets of a chain: the headers one after the other, then the closing type 0. -/
def chainOctets : List ExtHdr → Bytes
  | [] => [0]
  | x :: r => x.marshal ++ chainOctets r

theorem ext_ne_noMore {x : ExtHdr} (wf : ExtWF x) : x ≠ .noMore := by
  rintro rfl; exact wf

theorem chain_loop (m : Mode) : ∀ (l : List ExtHdr) (fuel : Nat) (tail : Bytes),
    (∀ x ∈ l, ExtWF x) → l.length < fuel →
    Header.extLoop m fuel (chainOctets l ++ tail) = .ok l := by
  intro l
  induction l with
  | nil =>
    intro fuel tail _ hf
    match fuel with
    | f + 1 => simp [Header.extLoop, chainOctets, ext_zero]
  | cons x r ih =>
    intro fuel tail wf hf
    match fuel with
    | f + 1 =>
      have hx := wf x (by simp)
      obtain ⟨h1, h2, h3, h4, h5⟩ := C28_ext_header m x hx (chainOctets r ++ tail)
      simp only [Header.extLoop, chainOctets, List.append_assoc, h1, R.ok_bind, ext_ne_noMore hx,
        if_false, h2]
      rw [slFrom_ok (by simp)]
      simp only [R.ok_bind, List.drop_left]
      rw [ih f tail (fun y hy => wf y (by simp [hy])) (by simp at hf; omega)]
      rfl

theorem chain_length : ∀ (l : List ExtHdr), (∀ x ∈ l, ExtWF x) →
    l.length < (chainOctets l).length ∧ (chainOctets l).length % 4 = 1
  | [], _ => by simp [chainOctets]
  | x :: r, wf => by
    obtain ⟨-, -, h3, h4, -⟩ := C28_ext_header .debug x (wf x (by simp)) []
    have ih := chain_length r (fun y hy => wf y (by simp [hy]))
    simp only [chainOctets, List.length_cons, List.length_append]
    omega

/-- C28: a chain of well-formed extension headers is decoded back in the same order with the same
contents, whatever follows; it occupies a multiple of four octets plus the closing octet. -/
theorem C28_chain_roundtrip (m : Mode) (l : List ExtHdr) (wf : ∀ x ∈ l, ExtWF x) (tail : Bytes) :
    Header.unmarshalExts m (chainOctets l ++ tail) = .ok l ∧
    (chainOctets l).length % 4 = 1 ∧ (chainOctets l).getLast? = some 0 := by
  have hl := chain_length l wf
  refine ⟨chain_loop m l _ tail wf (by simp; omega), hl.2, ?_⟩
  clear hl wf
  induction l with
  | nil => rfl
  | cons x r ih =>
    have : chainOctets r ≠ [] := by intro h; rw [h] at ih; cases ih
    simp [chainOctets, List.getLast?_append, ih]

theorem marshalExts_eq (h : Header) (l : List ExtHdr) (e : h.exts = some l) :
    h.marshalExts = chainOctets l := by
  have aux : ∀ l : List ExtHdr, l.flatMap ExtHdr.marshal ++ [0] = chainOctets l := by
    intro l
    induction l with
    | nil => rfl
    | cons x r ih => simp [chainOctets, ← ih]
  unfold Header.marshalExts
  rw [e]
  cases l with
  | nil => rfl
  | cons x r => exact aux (x :: r)

theorem marshalExts_some (a : UInt8) (b : UInt16) (c : UInt32) (d : Option UInt16)
    (e : Option UInt8) (l : List ExtHdr) :
    Header.marshalExts ⟨a, b, c, d, e, some l⟩ = chainOctets l := marshalExts_eq _ l rfl

/-! ## C25 -/

/-- A header whose extension headers fit the wire format and whose length field is not zero (the
decoder rejects a zero length). -/
def UHeaderWF (h : Header) : Prop :=
  h.length ≠ 0 ∧ ∀ l, h.exts = some l → ∀ x ∈ l, ExtWF x

/-- A header without optional fields, or with a sequence number. -/
def HasSqn (h : Header) : Prop := h.sqn ≠ none ∨ (h.npdu = none ∧ h.exts = none)

/-- What the decoder makes of the encoding of a header: if the sequence number is absent but another
optional field is present, all three come out as present. -/
def seen (h : Header) : Header :=
  match h.sqn, h.npdu, h.exts with
  | none, none, none => h
  | some _, _, _ => h
  | none, n, x => { h with sqn := some 0, npdu := some (n.getD 0), exts := some (x.getD []) }

theorem uheader_decode (m : Mode) (h : Header) (wf : UHeaderWF h) (tail : Bytes) :
    Header.unmarshal m (h.marshal ++ tail) = .ok (seen h) := by
  obtain ⟨msgtype, length, teid, sqn, npdu, exts⟩ := h
  obtain ⟨h0, hx⟩ := wf
  simp only at h0 hx
  have z : of16 0 0 = 0 := by decide
  cases exts with
  | none =>
    have hz : Header.unmarshalExts m (0 :: tail) = .ok [] :=
      (C28_chain_roundtrip m [] (by simp) tail).1
    cases sqn <;> cases npdu <;>
      simp [Header.unmarshal, Header.marshal, Header.flags, be16, be32, rd16, rd32, h0, seen, hz, z]
  | some l =>
    have hc := (C28_chain_roundtrip m l (hx l rfl) tail).1
    obtain ⟨c, cs, hcs⟩ : ∃ c cs, chainOctets l = c :: cs := by
      have := chain_length l (hx l rfl)
      match hl : chainOctets l with
      | [] => rw [hl] at this; simp at this
      | c :: cs => exact ⟨c, cs, rfl⟩
    rw [hcs] at hc
    simp only [List.cons_append] at hc
    cases sqn <;> cases npdu <;>
      simp [Header.unmarshal, Header.marshal, Header.flags, be16, be32, rd16, rd32, h0, seen,
        marshalExts_some, hcs, hc, z]

/-- C25 (part): headers with a sequence number, or without any optional field, round trip, with any
N-PDU number and any chain of extension headers, whatever follows.  Missing: headers without
sequence number that carry an N-PDU number or extension headers (`C25_violation`). -/
theorem C25_header_roundtrip_partial (m : Mode) (h : Header) (wf : UHeaderWF h) (hs : HasSqn h)
    (tail : Bytes) : Header.unmarshal m (h.marshal ++ tail) = .ok h := by
  rw [uheader_decode m h wf tail]
  obtain ⟨msgtype, length, teid, sqn, npdu, exts⟩ := h
  cases sqn with
  | some s => rfl
  | none =>
    rcases hs with hs | ⟨rfl, rfl⟩
    · exact absurd rfl hs
    · rfl

/-- The header fields that do survive in every case. -/
theorem C25_header_fields (m : Mode) (h : Header) (wf : UHeaderWF h) (tail : Bytes) :
    ∃ g, Header.unmarshal m (h.marshal ++ tail) = .ok g ∧ g.msgtype = h.msgtype ∧
      g.length = h.length ∧ g.teid = h.teid ∧
      (∀ s, h.sqn = some s → g.sqn = some s) ∧ (∀ n, h.npdu = some n → g.npdu = some n) ∧
      (∀ x, h.exts = some x → g.exts = some x) := by
  refine ⟨_, uheader_decode m h wf tail, ?_⟩
  obtain ⟨msgtype, length, teid, sqn, npdu, exts⟩ := h
  cases sqn <;> cases npdu <;> cases exts <;> simp [seen]

/-- C25 is violated exactly by the headers outside `HasSqn`. -/
theorem C25_violation_iff (m : Mode) (h : Header) (wf : UHeaderWF h) (tail : Bytes) :
    Header.unmarshal m (h.marshal ++ tail) = .ok h ↔ HasSqn h := by
  constructor
  · intro e
    rw [uheader_decode m h wf tail] at e
    have e := R.ok.inj e
    obtain ⟨msgtype, length, teid, sqn, npdu, exts⟩ := h
    cases sqn with
    | some s => exact .inl (by simp)
    | none =>
      cases npdu <;> cases exts <;> simp [seen] at e
      exact .inr ⟨rfl, rfl⟩
  · intro hs; exact C25_header_roundtrip_partial m h wf hs tail

/-- Witnesses: a G-PDU header with only a PDU session container (the usual 5G user-plane header) and
one with only an N-PDU number. -/
theorem C25_violation :
    (∃ h : Header, UHeaderWF h ∧ h.sqn = none ∧ h.npdu = none ∧
      Header.unmarshal .debug h.marshal ≠ .ok h) ∧
    (∃ h : Header, UHeaderWF h ∧ h.exts = none ∧ Header.unmarshal .debug h.marshal ≠ .ok h) := by
  refine ⟨⟨⟨255, 100, 1, none, none, some [.pduSessionContainer ⟨0x85, 1, [0, 9]⟩]⟩, ?_, rfl, rfl,
    by decide +kernel⟩, ⟨⟨255, 100, 1, none, some 5, none⟩, ?_, rfl, by decide +kernel⟩⟩
  · refine ⟨by decide, ?_⟩
    intro l hl x hx
    cases hl
    simp only [List.mem_cons, List.not_mem_nil, or_false] at hx
    subst hx
    exact ⟨rfl, by decide, rfl⟩
  · exact ⟨by decide, fun l hl => by cases hl⟩

example : UHeaderWF ⟨255, 100, 1, some 77, some 9,
    some [.udpPort ⟨0x40, 1, 2152⟩, .unknown ⟨0x99, 1, [7, 8]⟩]⟩ := by
  refine ⟨by decide, ?_⟩
  intro l hl x hx
  cases hl
  simp only [List.mem_cons, List.not_mem_nil, or_false] at hx
  rcases hx with rfl | rfl
  · exact ⟨rfl, rfl⟩
  · exact ⟨by decide, by decide, rfl⟩

/-! ## C27 -/

theorem exts_len (m : Mode) : ∀ (l : List ExtHdr), (∀ x ∈ l, ExtWF x) →
    ∃ n, Header.extsLen m l = .ok n ∧ n + 1 = (chainOctets l).length
  | [], _ => ⟨0, rfl, rfl⟩
  | x :: r, wf => by
    obtain ⟨-, h2, -⟩ := C28_ext_header m x (wf x (by simp)) []
    obtain ⟨n, h3, h4⟩ := exts_len m r (fun y hy => wf y (by simp [hy]))
    refine ⟨x.marshal.length + n, by simp [Header.extsLen, h2, h3], ?_⟩
    simp only [chainOctets, List.length_append]
    omega

/-- C27 (part): the computed header size is the number of octets written, for headers whose extension
headers fit the wire format.  Missing: arbitrary values of the public fields (`C27_violation`). -/
theorem C27_header_size_partial (m : Mode) (h : Header)
    (wf : ∀ l, h.exts = some l → ∀ x ∈ l, ExtWF x) : h.size m = .ok h.marshal.length := by
  obtain ⟨msgtype, length, teid, sqn, npdu, exts⟩ := h
  cases exts with
  | none =>
    cases sqn <;> cases npdu <;> simp [Header.size, Header.marshal, be16, be32]
  | some l =>
    obtain ⟨n, h1, h2⟩ := exts_len m l (wf l rfl)
    cases sqn <;> cases npdu <;>
      simp [Header.size, Header.marshal, be16, be32, h1, marshalExts_some, ← h2]
    all_goals omega

/-- C27 fails when the chain holds the end marker itself, or a length octet that disagrees with the
contents; and the computation itself overflows for a length octet of 64 or more. -/
theorem C27_violation :
    (∃ h : Header, h.exts = some [.noMore] ∧ h.size .debug ≠ .ok h.marshal.length) ∧
    (∃ h : Header, h.exts = some [.sci ⟨0x20, 2, 1⟩] ∧ h.size .debug ≠ .ok h.marshal.length) ∧
    (∃ h : Header, h.exts = some [.sci ⟨0x20, 64, 1⟩] ∧ h.size .debug = .panic ∧
      h.size .release = .ok 12 ∧ h.marshal.length = 16) := by
  refine ⟨⟨⟨1, 1, 1, none, none, some [.noMore]⟩, rfl, by decide +kernel⟩,
    ⟨⟨1, 1, 1, none, none, some [.sci ⟨0x20, 2, 1⟩]⟩, rfl, by decide +kernel⟩,
    ⟨⟨1, 1, 1, none, none, some [.sci ⟨0x20, 64, 1⟩]⟩, rfl, ?_⟩⟩
  decide +kernel

/-! ## C26 -/

/-- A chain on the wire that makes a debug build panic: it ends before its closing octet, or a length
octet is 64 or more. -/
inductive ChainPanics : Bytes → Prop
  | empty : ChainPanics []
  | noLength (t : UInt8) : t ≠ 0 → ChainPanics [t]
  | long (t l : UInt8) (r : Bytes) : t ≠ 0 → 64 ≤ l.toNat → ChainPanics (t :: l :: r)
  | next (t l : UInt8) (r : Bytes) : t ≠ 0 → 0 < l.toNat → l.toNat < 64 →
      4 * l.toNat ≤ (t :: l :: r).length → ChainPanics ((t :: l :: r).drop (4 * l.toNat)) →
      ChainPanics (t :: l :: r)

/-- A chain on the wire that closes with a type octet 0, all length octets being 1..63. -/
inductive ChainCloses : Bytes → Prop
  | done (r : Bytes) : ChainCloses (0 :: r)
  | next (t l : UInt8) (r : Bytes) : t ≠ 0 → 0 < l.toNat → l.toNat < 64 →
      4 * l.toNat ≤ (t :: l :: r).length → ChainCloses ((t :: l :: r).drop (4 * l.toNat)) →
      ChainCloses (t :: l :: r)

/-- A chain with a header of length 0, or one that announces more than the buffer holds. -/
inductive ChainRejected : Bytes → Prop
  | zero (t : UInt8) (r : Bytes) : t ≠ 0 → ChainRejected (t :: 0 :: r)
  | short (t l : UInt8) (r : Bytes) : t ≠ 0 → 0 < l.toNat → l.toNat < 64 →
      (t :: l :: r).length < 4 * l.toNat → ChainRejected (t :: l :: r)
  | next (t l : UInt8) (r : Bytes) : t ≠ 0 → 0 < l.toNat → l.toNat < 64 →
      4 * l.toNat ≤ (t :: l :: r).length → ChainRejected ((t :: l :: r).drop (4 * l.toNat)) →
      ChainRejected (t :: l :: r)

/-- One step over a header whose length octet is fine and whose octets are there. -/
theorem ext_step (m : Mode) (t l : UInt8) (r : Bytes) (ht : t ≠ 0) (h1 : 0 < l.toNat)
    (h2 : l.toNat < 64) (h3 : 4 * l.toNat ≤ (t :: l :: r).length) :
    (∃ x, ExtHdr.unmarshal m (t :: l :: r) = .ok x ∧ x ≠ .noMore ∧ x.len m = .ok (4 * l.toNat)) ∨
    (ExtHdr.unmarshal m (t :: l :: r) = .panic ∧ (t :: l :: r).length = 4 ∧ l.toNat = 1) := by
  have hl : l ≠ 0 := by rintro rfl; simp at h1
  have h3' : 4 * l.toNat ≤ r.length + 2 := h3
  rw [ext_cons m t l r ht, if_neg hl, len4_ok h2, R.ok_bind, if_pos h3']
  rcases extBody_cases t l (4 * l.toNat) r with ⟨⟨x, hx⟩, -⟩ | ⟨hp, hk⟩
  · obtain ⟨a, b⟩ := extBody_post m _ _ _ _ _ hx
    exact .inl ⟨x, hx, a, by rw [b, len4_ok h2]⟩
  · refine .inr ⟨hp, ?_⟩
    have : ∀ k, fixedRead t = some k → k ≤ 3 := by
      have : ∀ t : UInt8, ∀ k, fixedRead t = some k → k ≤ 3 := by
        intro t k; unfold fixedRead; repeat' split
        all_goals intro h; cases h
        all_goals omega
      exact this t
    rcases hk with ⟨k, hk, hlt⟩ | ⟨-, hk⟩
    · have := this k hk; simp only [List.length_cons]; omega
    · omega

theorem loop_step {m : Mode} {f : Nat} {b : Bytes} {x : ExtHdr} {n : Nat}
    (h1 : ExtHdr.unmarshal m b = .ok x) (h2 : x ≠ .noMore) (h3 : x.len m = .ok n)
    (h4 : n ≤ b.length) :
    Header.extLoop m (f + 1) b = (Header.extLoop m f (b.drop n) >>= fun r => .ok (x :: r)) := by
  simp only [Header.extLoop, h1, R.ok_bind, h2, if_false, h3]
  rw [slFrom_ok h4]
  rfl

/-- The three kinds of chain cover every byte string. -/
theorem chain_cases : ∀ (k : Nat) (b : Bytes), b.length ≤ k →
    ChainPanics b ∨ ChainCloses b ∨ ChainRejected b := by
  intro k
  induction k with
  | zero => intro b hb; exact .inl (by rw [List.length_eq_zero_iff.mp (Nat.le_zero.mp hb)]; exact .empty)
  | succ k ih =>
    intro b hb
    match b with
    | [] => exact .inl .empty
    | [t] =>
      by_cases ht : t = 0
      · subst ht; exact .inr (.inl (.done []))
      · exact .inl (.noLength t ht)
    | t :: l :: r =>
      by_cases ht : t = 0
      · subst ht; exact .inr (.inl (.done _))
      by_cases h0 : l = 0
      · subst h0; exact .inr (.inr (.zero t r ht))
      have h0' : 0 < l.toNat := by
        rcases Nat.eq_zero_or_pos l.toNat with h | h
        · exact absurd (UInt8.toNat_inj.mp (by simpa using h)) h0
        · exact h
      by_cases h64 : l.toNat < 64
      · by_cases hle : 4 * l.toNat ≤ (t :: l :: r).length
        · rcases ih ((t :: l :: r).drop (4 * l.toNat)) (by
            simp only [List.length_drop]; omega) with h | h | h
          · exact .inl (.next t l r ht h0' h64 hle h)
          · exact .inr (.inl (.next t l r ht h0' h64 hle h))
          · exact .inr (.inr (.next t l r ht h0' h64 hle h))
        · exact .inr (.inr (.short t l r ht h0' h64 (by omega)))
      · exact .inl (.long t l r ht (by omega))

theorem chain_panics (b : Bytes) (h : ChainPanics b) : ∀ f, b.length < f →
    Header.extLoop .debug f b = .panic := by
  induction h with
  | empty =>
    intro f hf
    match f with
    | f + 1 => simp [Header.extLoop, ext_nil]
  | noLength t ht =>
    intro f hf
    match f with
    | f + 1 => simp [Header.extLoop, ext_one _ t ht]
  | long t l r ht hl =>
    intro f hf
    match f with
    | f + 1 =>
      have h0 : l ≠ 0 := by rintro rfl; simp at hl
      simp [Header.extLoop, ext_cons _ t l r ht, h0, len4_debug hl]
  | next t l r ht h0 h64 hle _ ih =>
    intro f hf
    match f with
    | f + 1 =>
      rcases ext_step .debug t l r ht h0 h64 hle with ⟨x, e1, e2, e3⟩ | ⟨e1, -⟩
      · rw [loop_step e1 e2 e3 hle, ih f (by simp only [List.length_drop]; omega)]
        rfl
      · simp [Header.extLoop, e1]

theorem chain_closes (m : Mode) (b : Bytes) (h : ChainCloses b) : ∀ f, b.length < f →
    ∃ l, Header.extLoop m f b = .ok l := by
  induction h with
  | done r =>
    intro f hf
    match f with
    | f + 1 => exact ⟨[], by simp [Header.extLoop, ext_zero]⟩
  | next t l r ht h0 h64 hle hc ih =>
    intro f hf
    match f with
    | f + 1 =>
      rcases ext_step m t l r ht h0 h64 hle with ⟨x, e1, e2, e3⟩ | ⟨e1, e2, e3⟩
      · obtain ⟨l', hl'⟩ := ih f (by simp only [List.length_drop]; omega)
        exact ⟨x :: l', by rw [loop_step e1 e2 e3 hle, hl']; rfl⟩
      · have : (t :: l :: r).drop (4 * l.toNat) = [] := List.drop_eq_nil_of_le (by omega)
        rw [this] at hc
        cases hc

theorem chain_rejected (m : Mode) (b : Bytes) (h : ChainRejected b) : ∀ f, b.length < f →
    Header.extLoop m f b = .err .extHeaderInvalidLength := by
  induction h with
  | zero t r ht =>
    intro f hf
    match f with
    | f + 1 => simp [Header.extLoop, ext_cons _ t 0 r ht]
  | short t l r ht h0 h64 hlt =>
    intro f hf
    match f with
    | f + 1 =>
      have hl : l ≠ 0 := by rintro rfl; simp at h0
      have : ¬ 4 * l.toNat ≤ r.length + 2 := by simp only [List.length_cons] at hlt; omega
      simp [Header.extLoop, ext_cons _ t l r ht, hl, len4_ok h64, this]
  | next t l r ht h0 h64 hle hc ih =>
    intro f hf
    match f with
    | f + 1 =>
      rcases ext_step m t l r ht h0 h64 hle with ⟨x, e1, e2, e3⟩ | ⟨e1, e2, e3⟩
      · rw [loop_step e1 e2 e3 hle, ih f (by simp only [List.length_drop]; omega)]
        rfl
      · have : (t :: l :: r).drop (4 * l.toNat) = [] := List.drop_eq_nil_of_le (by omega)
        rw [this] at hc
        cases hc

/-- The first octet of a GTPv1 (version 1, protocol type GTP) header, and whether its flags announce
a chain of extension headers to be read: E set, or PN set without S. -/
def isV1 (b0 : UInt8) : Prop := b0.toNat / 16 = 3
instance (b0 : UInt8) : Decidable (isV1 b0) := inferInstanceAs (Decidable (_ = _))
/-- Some optional field is announced. -/
def hasOpt (b0 : UInt8) : Prop := b0.toNat % 8 ≠ 0
instance (b0 : UInt8) : Decidable (hasOpt b0) := inferInstanceAs (Decidable (_ ≠ _))
/-- The code walks the chain: E is set, or PN without S. -/
def readsChain (b0 : UInt8) : Prop := b0.toNat / 4 % 2 = 1 ∨ b0.toNat % 4 = 1
instance (b0 : UInt8) : Decidable (readsChain b0) := inferInstanceAs (Decidable (_ ∨ _))

/-- A buffer whose fixed part is accepted by the decoder. -/
def FixedOk (b : Bytes) : Prop :=
  8 ≤ b.length ∧ isV1 (b.getD 0 0) ∧ (b.getD 2 0, b.getD 3 0) ≠ (0, 0) ∧
  (hasOpt (b.getD 0 0) → 12 ≤ b.length)

theorem flag_bits : ∀ x : UInt8,
    ((x >>> 5 = 1 ∧ (x &&& 0x10) >>> 4 = 1) ↔ isV1 x) ∧
    ((decide ((x &&& 0x02) >>> 1 = 1) = false ∧ decide (x &&& 0x01 = 1) = false ∧
      decide ((x &&& 0x04) >>> 2 = 1) = false) ↔ ¬ hasOpt x) ∧
    (readsChain x ↔ (decide ((x &&& 0x04) >>> 2 = 1) = true ∨
      (decide ((x &&& 0x02) >>> 1 = 1) = false ∧ decide (x &&& 0x01 = 1) = true))) := by
  decide +kernel

/-- Shape of the decoder's outcome on every buffer. -/
theorem uheader_shape (m : Mode) (b : Bytes) :
    (¬ FixedOk b → Header.unmarshal m b = .err .headerInvalidLength ∨
      Header.unmarshal m b = .err .headerVersionNotSupported) ∧
    (FixedOk b → ¬ readsChain (b.getD 0 0) → ∃ h, Header.unmarshal m b = .ok h) ∧
    (FixedOk b → readsChain (b.getD 0 0) → ∃ g : List ExtHdr → Header, Header.unmarshal m b =
      (Header.unmarshalExts m (b.drop 11) >>= fun x => .ok (g x))) := by
  by_cases h8 : 8 ≤ b.length
  rotate_left
  · refine ⟨fun _ => .inl (by simp [Header.unmarshal, h8]), fun h => absurd h.1 h8,
      fun h => absurd h.1 h8⟩
  match b, h8 with
  | b0 :: b1 :: b2 :: b3 :: b4 :: b5 :: b6 :: b7 :: r, h8 =>
    obtain ⟨f1, f2, f3⟩ := flag_bits b0
    have g0 : (b0 :: b1 :: b2 :: b3 :: b4 :: b5 :: b6 :: b7 :: r).getD 0 0 = b0 := rfl
    have hlen : ((b2, b3) ≠ (0, 0)) ↔ of16 b2 b3 ≠ 0 := by
      refine not_congr ?_
      rw [Prod.mk.injEq, ← UInt16.toNat_inj, of16_toNat]
      constructor
      · rintro ⟨rfl, rfl⟩; rfl
      · intro h
        simp only [UInt16.toNat_zero] at h
        exact ⟨UInt8.toNat_inj.mp (by simp; omega), UInt8.toNat_inj.mp (by simp; omega)⟩
    have hfix : FixedOk (b0 :: b1 :: b2 :: b3 :: b4 :: b5 :: b6 :: b7 :: r) ↔
        isV1 b0 ∧ of16 b2 b3 ≠ 0 ∧ (hasOpt b0 → 4 ≤ r.length) := by
      unfold FixedOk
      simp only [g0, ← hlen, List.length_cons]
      simp
    rw [hfix, g0, f3]
    unfold Header.unmarshal
    rw [if_pos h8]
    simp only [rd_zero, rd_succ, rd16, rd32, R.ok_bind, R.pure_eq, f1]
    by_cases hv : isV1 b0
    rotate_left
    · simp [hv]
    by_cases hz : of16 b2 b3 = 0
    · simp [hv, hz]
    simp only [hv, hz, if_true, if_false, f2, ne_eq, not_false_eq_true, true_and]
    by_cases ho : hasOpt b0
    rotate_left
    · have f2' := f2.mpr ho
      simp [ho, f2'.1, f2'.2.1, f2'.2.2]
    simp only [ho, not_true_eq_false, if_false, true_implies, List.length_cons]
    by_cases hr : 4 ≤ r.length
    rotate_left
    · have : ¬ 4 ≤ r.length + 1 + 1 + 1 + 1 + 1 + 1 + 1 + 1 - 8 := by omega
      simp [hr, this]
    match r, hr with
    | c0 :: c1 :: c2 :: c3 :: r, hr =>
      have hr' : 4 ≤ (c0 :: c1 :: c2 :: c3 :: r).length + 1 + 1 + 1 + 1 + 1 + 1 + 1 + 1 - 8 := by
        simp
      simp only [hr, hr', if_true, rd_zero, rd_succ, R.ok_bind, slFrom_succ, slFrom_zero,
        List.drop_succ_cons, List.drop_zero]
      have no : ¬ (decide ((b0 &&& 0x02) >>> 1 = 1) = false ∧ decide (b0 &&& 0x01 = 1) = false ∧
        decide ((b0 &&& 0x04) >>> 2 = 1) = false) := fun h => (f2.mp h) ho
      generalize decide ((b0 &&& 0x02) >>> 1 = 1) = s at no ⊢
      generalize decide (b0 &&& 0x01 = 1) = p at no ⊢
      generalize decide ((b0 &&& 0x04) >>> 2 = 1) = e at no ⊢
      cases s <;> cases p <;> cases e <;> simp at no ⊢
      all_goals exact ⟨_, rfl⟩

/-- C26 (part): in a debug build, header decoding panics exactly on the buffers whose fixed part is
accepted, whose flags make the code walk a chain, and whose chain is one of `ChainPanics`.  Missing:
that this never happens (`C26_violation`). -/
theorem C26_panic_iff_partial (b : Bytes) :
    Header.unmarshal .debug b = .panic ↔
      FixedOk b ∧ readsChain (b.getD 0 0) ∧ ChainPanics (b.drop 11) := by
  obtain ⟨s1, s2, s3⟩ := uheader_shape .debug b
  by_cases hf : FixedOk b
  rotate_left
  · rcases s1 hf with h | h <;> simp [h, hf]
  by_cases hc : readsChain (b.getD 0 0)
  rotate_left
  · obtain ⟨h, hh⟩ := s2 hf hc
    exact ⟨fun e => (by rw [hh] at e; cases e), fun e => absurd e.2.1 hc⟩
  obtain ⟨g, hg⟩ := s3 hf hc
  rw [hg]
  simp only [hf, hc, true_and]
  constructor
  · intro h
    rcases chain_cases _ (b.drop 11) (Nat.le_refl _) with h' | h' | h'
    · exact h'
    · obtain ⟨l, hl⟩ := chain_closes .debug _ h' _ (Nat.lt_succ_self _)
      rw [Header.unmarshalExts, hl] at h; cases h
    · rw [Header.unmarshalExts, chain_rejected .debug _ h' _ (Nat.lt_succ_self _)] at h; cases h
  · intro h
    rw [Header.unmarshalExts, chain_panics _ h _ (Nat.lt_succ_self _)]
    rfl

/-- C26 (part): in a debug build header decoding always terminates. -/
theorem C26_terminates_debug (b : Bytes) : Header.unmarshal .debug b ≠ .diverge := by
  obtain ⟨s1, s2, s3⟩ := uheader_shape .debug b
  by_cases hf : FixedOk b
  rotate_left
  · rcases s1 hf with h | h <;> simp [h]
  by_cases hc : readsChain (b.getD 0 0)
  rotate_left
  · obtain ⟨h, hh⟩ := s2 hf hc
    simp [hh]
  obtain ⟨g, hg⟩ := s3 hf hc
  rw [hg, Header.unmarshalExts]
  rcases chain_cases _ (b.drop 11) (Nat.le_refl _) with h' | h' | h'
  · rw [chain_panics _ h' _ (Nat.lt_succ_self _)]; simp
  · obtain ⟨l, hl⟩ := chain_closes .debug _ h' _ (Nat.lt_succ_self _)
    rw [hl]; simp
  · rw [chain_rejected .debug _ h' _ (Nat.lt_succ_self _)]; simp

/-- C26 (part): in either build, a header whose chain closes is accepted, one whose chain is cut short
or has a zero length is rejected with an error; without a chain to walk the outcome is a header or an
error.  Missing: the chains of `ChainPanics`. -/
theorem C26_no_panic_partial (m : Mode) (b : Bytes)
    (h : readsChain (b.getD 0 0) → ¬ ChainPanics (b.drop 11)) :
    Header.unmarshal m b ≠ .panic ∧ Header.unmarshal m b ≠ .diverge := by
  obtain ⟨s1, s2, s3⟩ := uheader_shape m b
  by_cases hf : FixedOk b
  rotate_left
  · rcases s1 hf with h | h <;> simp [h]
  by_cases hc : readsChain (b.getD 0 0)
  rotate_left
  · obtain ⟨h, hh⟩ := s2 hf hc
    simp [hh]
  obtain ⟨g, hg⟩ := s3 hf hc
  rw [hg, Header.unmarshalExts]
  rcases chain_cases _ (b.drop 11) (Nat.le_refl _) with h' | h' | h'
  · exact absurd h' (h hc)
  · obtain ⟨l, hl⟩ := chain_closes m _ h' _ (Nat.lt_succ_self _)
    rw [hl]; simp
  · rw [chain_rejected m _ h' _ (Nat.lt_succ_self _)]; simp

/-- Chains on which the loop of a release build never ends: `length * 4` wraps to 0 for a header kind
whose decoder does not slice, so the cursor does not move. -/
inductive ChainSpins : Bytes → Prop
  | stuck (t l : UInt8) (k : Nat) (r : Bytes) : l.toNat % 64 = 0 → 0 < l.toNat →
      (t, k) ∈ [((0xc0 : UInt8), 2), (0x40, 2), (0x03, 3), (0x82, 3), (0x20, 1)] → k ≤ r.length →
      ChainSpins (t :: l :: r)
  | next (t l : UInt8) (r : Bytes) : t ≠ 0 → 0 < 4 * l.toNat % 256 →
      4 * l.toNat % 256 ≤ (t :: l :: r).length →
      ChainSpins ((t :: l :: r).drop (4 * l.toNat % 256)) → ChainSpins (t :: l :: r)

theorem chain_spins (b : Bytes) (h : ChainSpins b) : ∀ f, Header.extLoop .release f b = .diverge := by
  induction h with
  | stuck t l k r h1 h2 hk hr =>
    have hl : l ≠ 0 := by rintro rfl; simp at h2
    have ht : t ≠ 0 ∧ fixedRead t = some k := by
      simp only [List.mem_cons, Prod.mk.injEq, List.not_mem_nil, or_false] at hk
      rcases hk with ⟨rfl, rfl⟩ | ⟨rfl, rfl⟩ | ⟨rfl, rfl⟩ | ⟨rfl, rfl⟩ | ⟨rfl, rfl⟩ <;> decide
    have hn : 4 * l.toNat % 256 = 0 := by omega
    have he : ∃ x, ExtHdr.unmarshal .release (t :: l :: r) = .ok x ∧ x ≠ .noMore ∧
        x.len .release = .ok 0 := by
      rw [ext_cons _ t l r ht.1, if_neg hl, len4_release, R.ok_bind, hn, if_pos (by omega)]
      rcases extBody_cases t l 0 r with ⟨⟨x, hx⟩, -⟩ | ⟨-, ⟨k', hk', hlt⟩ | ⟨hk', -⟩⟩
      · obtain ⟨a, c⟩ := extBody_post .release _ _ _ _ _ hx
        exact ⟨x, hx, a, by rw [c, len4_release, hn]⟩
      · rw [ht.2] at hk'; cases hk'; omega
      · rw [ht.2] at hk'; cases hk'
    obtain ⟨x, e1, e2, e3⟩ := he
    intro f
    induction f with
    | zero => rfl
    | succ f ih =>
      rw [loop_step e1 e2 e3 (by omega), List.drop_zero, ih]
      rfl
  | next t l r ht h0 hle hs ih =>
    intro f
    match f with
    | 0 => rfl
    | f + 1 =>
      have hl : l ≠ 0 := by rintro rfl; simp at h0
      have hle' : 4 * l.toNat % 256 ≤ r.length + 2 := hle
      have he : ExtHdr.unmarshal .release (t :: l :: r) =
          extBody t l (4 * l.toNat % 256) (t :: l :: r) := by
        rw [ext_cons _ t l r ht, if_neg hl, len4_release, R.ok_bind, if_pos hle']
      rcases extBody_cases t l (4 * l.toNat % 256) r with ⟨⟨x, hx⟩, -⟩ | ⟨hp, hk⟩
      · obtain ⟨a, c⟩ := extBody_post .release _ _ _ _ _ hx
        rw [loop_step (he.trans hx) a (by rw [c, len4_release]) hle, ih f]
        rfl
      · exfalso
        have hk3 : ∀ k, fixedRead t = some k → k ≤ 3 := by
          intro k; unfold fixedRead; repeat' split
          all_goals intro h; cases h
          all_goals omega
        have hshort : (t :: l :: r).drop (4 * l.toNat % 256) = [] := by
          apply List.drop_eq_nil_of_le
          simp only [List.length_cons]
          rcases hk with ⟨k, hk, hlt⟩ | ⟨-, hk⟩
          · have := hk3 k hk; omega
          · omega
        rw [hshort] at hs
        cases hs

/-- C26 (part): when a release build loops forever. -/
theorem C26_spins (b : Bytes) (hf : FixedOk b) (hc : readsChain (b.getD 0 0))
    (h : ChainSpins (b.drop 11)) : Header.unmarshal .release b = .diverge := by
  obtain ⟨g, hg⟩ := (uheader_shape .release b).2.2 hf hc
  rw [hg, Header.unmarshalExts, chain_spins _ h]
  rfl

/-- C26 is violated: a header cut before its extension headers end, and a length octet of 64, panic;
in a release build the latter makes the decoder loop forever. -/
theorem C26_violation :
    Header.unmarshal .debug [0x36, 2, 0, 8, 0, 0, 0, 0, 0, 0, 0, 0x40] = .panic ∧
    Header.unmarshal .debug [0x36, 2, 0, 8, 0, 0, 0, 0, 0, 0, 0, 0x40, 64, 0, 0, 0] = .panic ∧
    Header.unmarshal .release [0x36, 2, 0, 8, 0, 0, 0, 0, 0, 0, 0, 0x40, 64, 0, 0, 0] = .diverge := by
  refine ⟨by decide +kernel, by decide +kernel, ?_⟩
  refine C26_spins _ ⟨by decide, by decide, by decide, by decide⟩ (by decide) ?_
  exact .stuck 0x40 64 2 [0, 0, 0] (by decide) (by decide) (by decide) (by decide)

example : FixedOk [0x36, 2, 0, 8, 0, 0, 0, 0, 0, 0, 0, 0x40] ∧
    ChainPanics ([0x36, 2, 0, 8, 0, 0, 0, 0, 0, 0, 0, 0x40].drop 11) :=
  ⟨⟨by decide, by decide, by decide, by decide⟩, .noLength 0x40 (by decide)⟩

end Gtp.Props
