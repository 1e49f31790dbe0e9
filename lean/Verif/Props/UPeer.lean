import Verif.Props.Unused
import Verif.Props.UFigure
import Verif.Props.UExact

/-!
# C99: a GTPv1-U message that a peer writes as TS 29.281 has it

`C78` says what the crate writes and `C30` that it reads that. A peer may set the spare bit, leave anything in the fields of the header
whose flag is not set, and anything in the spare octets of an extension header. `UExtDrawn` and `UHeadDrawn` are the figures of §5 with all
of these; they do not use the encoder.
-/

namespace Gtp.Props.UPeer
open Gtp.V1 Gtp.U Gtp.Props.Unused

/-- An extension header and its octets (§5.2): a PDCP PDU number and a UDP port in one unit of four octets; a long PDCP PDU number of 18
bits in two, with six spare bits `s` before it and three spare octets behind it; a service class indicator and a spare octet; containers and
headers of other types in any number of units. -/
inductive UExtDrawn : ExtHdr → Bytes → Prop
  | pdcp (n : UInt16) : UExtDrawn (.pdcpPduNumber ⟨0xc0, 1, n⟩) ([0xc0, 1] ++ num 2 n.toNat)
  | udp (n : UInt16) : UExtDrawn (.udpPort ⟨0x40, 1, n⟩) ([0x40, 1] ++ num 2 n.toNat)
  | long (t : UInt8) (n : UInt32) (s : Nat) (a b c : UInt8) (ht : t = 0x03 ∨ t = 0x82) (hn : n.toNat < 2 ^ 18) (hs : s < 64) :
    UExtDrawn (.longPdcpPduNumber ⟨t, 2, n⟩) ([t, 2] ++ num 3 (s * 2 ^ 18 + n.toNat) ++ [a, b, c])
  | sci (v a : UInt8) : UExtDrawn (.sci ⟨0x20, 1, v⟩) [0x20, 1, v, a]
  | ran (l : UInt8) (c : Bytes) (h : 2 + c.length = 4 * l.toNat) : UExtDrawn (.ranContainer ⟨0x81, l, c⟩) ([0x81, l] ++ c)
  | xwRan (l : UInt8) (c : Bytes) (h : 2 + c.length = 4 * l.toNat) : UExtDrawn (.xwRanContainer ⟨0x83, l, c⟩) ([0x83, l] ++ c)
  | nrRan (l : UInt8) (c : Bytes) (h : 2 + c.length = 4 * l.toNat) : UExtDrawn (.nrRanContainer ⟨0x84, l, c⟩) ([0x84, l] ++ c)
  | pduSession (l : UInt8) (c : Bytes) (h : 2 + c.length = 4 * l.toNat) : UExtDrawn (.pduSessionContainer ⟨0x85, l, c⟩) ([0x85, l] ++ c)
  | other (t l : UInt8) (c : Bytes) (ht : t ∉ extTypes) (h : 2 + c.length = 4 * l.toNat) : UExtDrawn (.unknown ⟨t, l, c⟩) ([t, l] ++ c)

/-- The header (§5.1): `s` is the spare bit; `q`, `n` and `x` are what is in the fields whose flag is not set;
`ps` are the extension headers with their octets. -/
def UHeadDrawn (h : U.Header) (ps : List (ExtHdr × Bytes)) (o : Bytes) : Prop :=
  h.exts.getD [] = ps.map (·.1) ∧ (∀ p ∈ ps, UExtDrawn p.1 p.2) ∧ ∃ (s : Bool) (q : UInt16) (n x : UInt8),
    o = [UInt8.ofNat (32 + 16 + bitIf s 8 + bitIf h.exts.isSome 4 + bitIf h.sqn.isSome 2 + bitIf h.npdu.isSome 1), h.msgtype] ++
      num 2 h.length.toNat ++ num 4 h.teid.toNat ++
      if h.exts.isSome || h.sqn.isSome || h.npdu.isSome then
        num 2 (h.sqn.getD q).toNat ++ [h.npdu.getD n] ++ ps.flatMap (·.2) ++ [if h.exts.isSome then 0 else x]
      else []

/-- What the decoder can take: at most 63 units, and no spare bit in a long PDCP PDU number. -/
def ExtReadable (x : ExtHdr) (o : Bytes) : Prop :=
  (∀ l, x.length? = some l → l.toNat < 64) ∧ ∀ y, x = .longPdcpPduNumber y → (o.getD 2 0).toNat < 4

/-! ## Extension headers -/

theorem num3 (n : Nat) : num 3 n = [UInt8.ofNat (n / 65536), UInt8.ofNat (n / 256), UInt8.ofNat n] := by
  simp [num, ofNat_mod]

theorem of32_num (n : Nat) (h : n < 2 ^ 24) : (of32 0 (UInt8.ofNat (n / 65536)) (UInt8.ofNat (n / 256)) (UInt8.ofNat n)).toNat = n := by
  simp [of32]
  omega

/-- A long PDCP PDU number is read with the spare bits in front of it. -/
theorem long_read (m : Mode) (t : UInt8) (ht : t = 0x03 ∨ t = 0x82) (k : Nat) (a b c : UInt8) (tail : Bytes) :
    ExtHdr.unmarshal m ([t, 2] ++ num 3 k ++ [a, b, c] ++ tail) =
      .ok (.longPdcpPduNumber ⟨t, 2, of32 0 (UInt8.ofNat (k / 65536)) (UInt8.ofNat (k / 256)) (UInt8.ofNat k)⟩) := by
  have l2 : len4 m 2 = .ok 8 := len4_ok (m := m) (l := 2) (by decide)
  rw [num3]
  rcases ht with rfl | rfl <;> simp [ext_cons, l2, extBody, rd24]

theorem drawn_size {x : ExtHdr} {o : Bytes} (h : UExtDrawn x o) : o.length = x.marshal.length ∧ x ≠ .noMore ∧ 0 < o.length := by
  rw [C57_u_ext]
  cases h <;> simp [uExtOctets, num]

theorem drawn_wf {x : ExtHdr} {o : Bytes} (h : UExtDrawn x o) (r : ∀ l, x.length? = some l → l.toNat < 64) : ExtWF x := by
  cases h with
  | pdcp n => exact ⟨rfl, rfl⟩
  | udp n => exact ⟨rfl, rfl⟩
  | long t n s a b c ht hn hs => exact ⟨ht, rfl, by simp only; omega⟩
  | sci v a => exact ⟨rfl, rfl⟩
  | ran l c h => exact ⟨rfl, r l rfl, h⟩
  | xwRan l c h => exact ⟨rfl, r l rfl, h⟩
  | nrRan l c h => exact ⟨rfl, r l rfl, h⟩
  | pduSession l c h => exact ⟨rfl, r l rfl, h⟩
  | other t l c ht h => exact ⟨ht, r l rfl, h⟩

theorem drawn_read (m : Mode) {x : ExtHdr} {o : Bytes} (h : UExtDrawn x o) (r : ExtReadable x o) (tail : Bytes) :
    ExtHdr.unmarshal m (o ++ tail) = .ok x := by
  have wf := drawn_wf h r.1
  have key : o = x.marshal → ExtHdr.unmarshal m (o ++ tail) = .ok x := fun e => by rw [e]; exact (C28_ext_header m x wf tail).1
  have l1 : len4 m 1 = .ok 4 := len4_ok (m := m) (l := 1) (by decide)
  cases h with
  | long t n s a b c ht hn hs =>
    have hz := r.2 _ rfl
    rw [num3] at hz
    simp at hz
    have hs0 : s = 0 := by omega
    subst hs0
    rw [long_read m t ht]
    congr 3
    apply UInt32.toNat_inj.mp
    rw [of32_num (0 * 2 ^ 18 + n.toNat) (by omega)]
    omega
  | sci v a => simp [ext_cons, l1, extBody]
  | pdcp n => exact key (C57_u_ext (.pdcpPduNumber ⟨0xc0, 1, n⟩)).symm
  | udp n => exact key (C57_u_ext (.udpPort ⟨0x40, 1, n⟩)).symm
  | _ => exact key rfl

/-- The chain of a header. -/
theorem chain_read (m : Mode) : ∀ (ps : List (ExtHdr × Bytes)) (fuel : Nat) (tail : Bytes), (∀ p ∈ ps, UExtDrawn p.1 p.2) →
    (∀ p ∈ ps, ExtReadable p.1 p.2) → ps.length < fuel → Header.extLoop m fuel (ps.flatMap (·.2) ++ 0 :: tail) = .ok (ps.map (·.1)) := by
  intro ps
  induction ps with
  | nil =>
    intro fuel tail h1 h2 hf
    match fuel with
    | f + 1 => simp [Header.extLoop, ext_zero]
  | cons p ps ih =>
    intro fuel tail h1 h2 hf
    obtain ⟨x, o⟩ := p
    match fuel with
    | f + 1 =>
      have d1 := h1 _ List.mem_cons_self
      have r1 := h2 _ List.mem_cons_self
      simp only at d1 r1
      obtain ⟨hs, hne, -⟩ := drawn_size d1
      have hlen := (C28_ext_header m x (drawn_wf d1 r1.1) []).2.1
      rw [← hs] at hlen
      simp only [Header.extLoop, List.flatMap_cons, List.append_assoc, drawn_read m d1 r1, R.ok_bind, hne, if_false, hlen]
      rw [slFrom_ok (by simp)]
      simp only [R.ok_bind, List.drop_left]
      rw [ih f tail (fun q hq => h1 q (List.mem_cons_of_mem _ hq)) (fun q hq => h2 q (List.mem_cons_of_mem _ hq)) (by simp at hf; omega)]
      rfl

theorem chain_size : ∀ {ps : List (ExtHdr × Bytes)}, (∀ p ∈ ps, UExtDrawn p.1 p.2) →
    (ps.flatMap (·.2)).length = ((ps.map (·.1)).flatMap uExtOctets).length ∧ ps.length ≤ (ps.flatMap (·.2)).length
  | [], _ => ⟨rfl, Nat.le_refl _⟩
  | (x, o) :: ps, h => by
    obtain ⟨h1, -, h3⟩ := drawn_size (h _ List.mem_cons_self)
    obtain ⟨h4, h5⟩ := chain_size (fun q hq => h q (List.mem_cons_of_mem _ hq))
    rw [C57_u_ext] at h1
    simp only [List.flatMap_cons, List.length_append, List.map_cons, List.length_cons] at h1 h3 h4 h5 ⊢
    omega

theorem chain_exts (m : Mode) {ps : List (ExtHdr × Bytes)} (h1 : ∀ p ∈ ps, UExtDrawn p.1 p.2) (h2 : ∀ p ∈ ps, ExtReadable p.1 p.2) (tail : Bytes) :
    Header.unmarshalExts m (ps.flatMap (·.2) ++ 0 :: tail) = .ok (ps.map (·.1)) :=
  chain_read m ps _ tail h1 h2 (by have := (chain_size h1).2; simp only [List.length_append]; omega)

/-! ## The header -/

theorem head_size {h : U.Header} {ps : List (ExtHdr × Bytes)} {o : Bytes} (hd : UHeadDrawn h ps o) : o.length = h.marshal.length := by
  obtain ⟨h1, h2, s, q, n, x, rfl⟩ := hd
  have hc := (chain_size h2).1
  rw [← h1] at hc
  rw [C57_u_header, uHeaderOctets]
  split <;> simp [num, hc]

/-- A header as the specification draws it is read for what it is. -/
theorem head_read (m : Mode) {h : U.Header} {ps : List (ExtHdr × Bytes)} {o : Bytes} (hd : UHeadDrawn h ps o) (h0 : h.length ≠ 0) (hs : HasSqn h)
    (hr : ∀ p ∈ ps, ExtReadable p.1 p.2) (tail : Bytes) : Header.unmarshal m (o ++ tail) = .ok h := by
  obtain ⟨h1, h2, s, q, n, x, rfl⟩ := hd
  obtain ⟨msgtype, length, teid, sqn, npdu, exts⟩ := h
  rw [← be16_num, ← be32_num, ← be16_num]
  simp only at h0
  cases exts with
  | none =>
    have hp : ps = [] := List.map_eq_nil_iff.mp h1.symm
    subst hp
    cases sqn with
    | none =>
      cases npdu with
      | none => cases s <;> simp [Header.unmarshal, bitIf, be16, be32, rd16, rd32, h0]
      | some k => simp [HasSqn] at hs
    | some v =>
      cases npdu <;> cases s <;> simp [Header.unmarshal, bitIf, be16, be32, rd16, rd32, h0]
  | some l =>
    simp only [Option.getD_some] at h1
    subst h1
    cases sqn with
    | none => simp [HasSqn] at hs
    | some v =>
      have hc := chain_exts m h2 hr tail
      obtain ⟨c, cs, hcs⟩ : ∃ c cs, ps.flatMap (·.2) ++ 0 :: tail = c :: cs := by
        match hl : ps.flatMap (·.2) ++ 0 :: tail with
        | [] => simp at hl
        | c :: cs => exact ⟨c, cs, rfl⟩
      rw [hcs] at hc
      cases npdu <;> cases s <;> simp [Header.unmarshal, bitIf, be16, be32, rd16, rd32, h0, hcs, hc]

/-! ## Messages -/

/-- The buffer is decoded to this message. -/
def Reads (m : Mode) (b : Bytes) : UMsg → Prop
  | .gpdu x => Gpdu.unmarshal m b = .ok x
  | .endMarker x => EndMarker.unmarshal m b = .ok x
  | .echoRequest x => EchoRequest.unmarshal m b = .ok x
  | .echoResponse x => EchoResponse.unmarshal m b = .ok x
  | .supportedExt x => SupportedExt.unmarshal m b = .ok x
  | .errorIndication x => ErrorIndication.unmarshal m b = .ok x

/-- The length fields inside a message, and the type fields that are not written. -/
def PartsFit : UMsg → Prop
  | .gpdu _ => True
  | .endMarker x => ∀ p ∈ x.priv, p.length.toNat = 2 + p.value.length
  | .echoRequest x => ∀ p ∈ x.priv, p.length.toNat = 2 + p.value.length
  | .echoResponse x => x.recovery.t = 14 ∧ ∀ p ∈ x.priv, p.length.toNat = 2 + p.value.length
  | .supportedExt x => x.list.length.toNat = x.list.list.length
  | .errorIndication x => x.teid.t = 16 ∧ (match x.peer.ip with | .v4 _ => x.peer.length = 4 | .v6 _ => x.peer.length = 16) ∧
      ∀ p ∈ x.priv, p.length.toNat = 2 + p.value.length

/-- A message of a peer (TS 29.281 §5, §7): the header as it is drawn, with a length field that counts what follows its first eight octets; the elements
of the message behind it; the path management messages, the Error Indication and the Supported Extension Headers Notification with a sequence number
(§5.1: for them the flag S shall be set). -/
structure USent (x : UMsg) (ps : List (ExtHdr × Bytes)) (b : Bytes) : Prop where
  head : ∃ o, UHeadDrawn x.header ps o ∧ b = o ++ uBody x
  typed : UTyped x
  parts : PartsFit x
  length : x.header.length.toNat + 8 = b.length
  sqn : uType x ∈ [1, 2, 26, 31] → x.header.sqn.isSome

/-- What the crate does not take: a length field 0, in three messages a length field above 65527, fields of the header without a sequence number, long
extension headers, spare bits in a long PDCP PDU number, and a list of no or of more than 253 types. -/
structure Takes (x : UMsg) (ps : List (ExtHdr × Bytes)) : Prop where
  length : 0 < x.header.length.toNat ∧ (uType x ∈ [26, 31, 255] → x.header.length.toNat < 65528)
  sqn : x.header.sqn.isSome ∨ x.header.npdu = none ∧ x.header.exts = none
  exts : ∀ p ∈ ps, ExtReadable p.1 p.2
  list : ∀ y, x = .supportedExt y → 0 < y.list.list.length ∧ y.list.list.length ≤ 253

theorem priv_fits {p : Option PrivateExtension} (h1 : ∀ i ∈ p, i.t = 255) (h2 : ∀ i ∈ p, i.length.toNat = 2 + i.value.length)
    (h3 : (privOctets p).length < 65536) : ∀ i, p = some i → PrivWF i := by
  intro i hi
  subst hi
  have e := h2 i rfl
  refine ⟨h1 i rfl, by omega, ?_⟩
  have : (privOctets (some i)).length = i.value.length + 5 := by
    show i.marshal.length = _
    rw [upriv_octets]; simp [uPriv, num]
  omega

/-- C99: what a peer sends as the specification has it, within the limits of the crate, is understood. -/
theorem C99_partial (m : Mode) (x : UMsg) (ps : List (ExtHdr × Bytes)) (b : Bytes) (hx : USent x ps b) (ht : Takes x ps) : Reads m b x := by
  obtain ⟨⟨o, hd, rfl⟩, ty, pf, hl, -⟩ := hx
  obtain ⟨⟨l0, l1⟩, hq, hr, hli⟩ := ht
  have hb : x.body = uBody x := ((ubody_octets x).2.mpr ty).2
  have hsz := head_size hd
  have h0 : x.header.length ≠ 0 := ne_zero_of_toNat l0
  have hs : HasSqn x.header := hq.imp (fun h => by rw [← Option.isSome_iff_ne_none]; exact h) id
  have hx : ∀ l, x.header.exts = some l → ∀ y ∈ l, ExtWF y := by
    intro l e y hy
    have e1 := hd.1
    rw [e, Option.getD_some] at e1
    rw [e1] at hy
    obtain ⟨p, hp, rfl⟩ := List.mem_map.mp hy
    exact drawn_wf (hd.2.1 p hp) (hr p hp).1
  rw [← hb] at hl ⊢
  have ha : afterFixed x.header x.body = x.header.length.toNat := by
    rw [List.length_append, hsz] at hl
    rw [afterFixed]; omega
  have hw : wireHdr x.header x.body = x.header := by
    rw [wireHdr, ha, show UInt16.ofNat x.header.length.toNat = x.header.length from UInt16.toNat_inj.mp (by simp), withLen_self]
  have same : SameU m (o ++ x.body) (x.marshalInto []) := by
    rw [umsg_marshal, List.nil_append, wire_eq, hw]
    have e1 := head_read m hd h0 hs hr x.body
    have e2 := C25_header_roundtrip_partial m x.header ⟨h0, hx⟩ hs x.body
    refine u_same (by simp [hsz]) (by rw [e1, e2]) fun h l hu hn i hi => ?_
    rw [e2] at hu
    cases hu
    rw [C27_header_size_partial m _ hx] at hn
    cases hn
    rw [List.drop_append, List.drop_append, List.drop_eq_nil_of_le (by omega), List.drop_eq_nil_of_le hi, hsz]
  have hread : ∀ ty, x.header.msgtype = ty → readHeader m ty (o ++ x.body) = .ok x.header := fun ty e => by
    rw [readHeader, head_read m hd h0 hs hr x.body, R.ok_bind, if_neg (by simpa using e)]; rfl
  have hsize : x.header.size m = .ok o.length := by rw [hsz]; exact C27_header_size_partial m _ hx
  have hfrom : (slFrom (o ++ x.body) o.length : R Err Bytes) = .ok x.body := by rw [slFrom_ok (by simp), List.drop_left]
  have send : uType x ∈ [26, 31, 255] → Sendable x.header x.body := fun h => ⟨hx, by omega, by have := l1 h; omega⟩
  have can : Canonical x.header x.body := ⟨hs, ha.symm⟩
  have hmt := ty.1
  have hbl : x.body.length < 65536 := by
    have := header_ge8 x.header
    have := x.header.length.toNat_lt
    rw [afterFixed] at ha; omega
  cases x with
  | gpdu x =>
    have := C29_gpdu_roundtrip m x hmt (send (by simp [uType])) can []
    rw [List.append_nil] at this
    exact same.gpdu.trans this
  | endMarker x =>
    have hp := opt_rt m x.priv (priv_fits ty.2 pf hbl)
    simp only [UMsg.header, UMsg.body] at hread hsize hfrom hl
    simp only [Reads, EndMarker.unmarshal, UMsg.body, hread 254 hmt, R.ok_bind, hsize, hfrom, hp]
    rw [if_pos (by omega)]; rfl
  | echoRequest x =>
    have hp := opt_rt m x.priv (priv_fits ty.2 pf hbl)
    simp only [UMsg.header, UMsg.body] at hread hsize hfrom hl
    simp only [Reads, EchoRequest.unmarshal, UMsg.body, hread 1 hmt, R.ok_bind, hsize, hfrom, hp]
    rw [if_pos (by omega)]; rfl
  | echoResponse x =>
    obtain ⟨h, ⟨rt, rv⟩, p⟩ := x
    obtain ⟨hrt, pf⟩ := pf
    simp only at hrt
    subst hrt
    have hbl2 := hbl
    simp only [UMsg.body, List.length_append, Recovery.marshal] at hbl2
    have hp := opt_rt m p (priv_fits ty.2 pf (by omega))
    have hrd : (rd (o ++ UMsg.body (.echoResponse ⟨h, ⟨14, rv⟩, p⟩)) o.length : R Err UInt8) = .ok 14 := by
      simp [UMsg.body, Recovery.marshal, rd]
    have hfrom2 : (slFrom (o ++ UMsg.body (.echoResponse ⟨h, ⟨14, rv⟩, p⟩)) (o.length + 2) : R Err Bytes) = .ok (privOctets p) := by
      rw [slFrom_ok (by simp [UMsg.body, Recovery.marshal])]
      simp [UMsg.body, Recovery.marshal]
    have hrec : Recovery.unmarshal (UMsg.body (.echoResponse ⟨h, ⟨14, rv⟩, p⟩)) = .ok ⟨14, rv⟩ := by
      simp [UMsg.body, Recovery.marshal, Recovery.unmarshal]
    have hpos : 2 ≤ (UMsg.body (.echoResponse ⟨h, ⟨14, rv⟩, p⟩)).length := by simp [UMsg.body, Recovery.marshal]
    simp only [UMsg.header] at hread hsize hl
    simp only [Reads, EchoResponse.unmarshal, hread 2 hmt, R.ok_bind, hsize, hfrom, hrd, hrec, Recovery.len, hfrom2, hp]
    rw [if_pos (by omega), if_pos (by simp only [List.length_append]; omega), if_pos trivial]
    split
    · rfl
    · next hlt =>
      have : privOctets p = [] := by
        apply List.eq_nil_of_length_eq_zero
        simp only [UMsg.body, List.length_append, Recovery.marshal, List.length_cons, List.length_nil] at hlt
        omega
      cases p with
      | none => rfl
      | some i =>
        rw [show privOctets (some i) = i.marshal from rfl, upriv_octets] at this
        cases this
  | supportedExt x => exact same.supportedExt.trans ((C30_supported_ext_partial m x hmt ⟨ty.2, pf, hli x rfl⟩ (send (by simp [uType]))).2 can)
  | errorIndication x =>
    refine same.errorIndication.trans
      ((C30_error_indication_partial m x hmt pf.1 ⟨ty.2.1, pf.2.1⟩ (priv_fits ty.2.2 pf.2.2 ?_) (send (by simp [uType]))).2 can)
    simp only [UMsg.body, List.length_append] at hbl; omega

/-! ## Nothing else is understood, in debug builds -/

theorem drawn_exact {x : ExtHdr} {o : Bytes} (h : UExtDrawn x o) (tail : Bytes) (e : ExtHdr.unmarshal .debug (o ++ tail) = .ok x) : ExtReadable x o := by
  have cont : ∀ (t l : UInt8) (c : Bytes), t ≠ 0 → ExtHdr.unmarshal .debug ([t, l] ++ c ++ tail) = .ok x → l.toNat < 64 := by
    intro t l c ht he
    rw [List.append_assoc, List.cons_append, List.cons_append, List.nil_append, ext_cons _ t l _ ht] at he
    split at he
    · cases he
    rcases Nat.lt_or_ge l.toNat 64 with h | h
    · exact h
    · rw [len4_debug h] at he; cases he
  cases h with
  | pdcp n => exact ⟨fun l hl => by cases hl; simp only; decide, fun y hy => by cases hy⟩
  | udp n => exact ⟨fun l hl => by cases hl; simp only; decide, fun y hy => by cases hy⟩
  | long t n s a b c ht hn hs =>
    refine ⟨fun l hl => by cases hl; simp only; decide, fun y hy => ?_⟩
    rw [long_read .debug t ht] at e
    simp only [R.ok.injEq, ExtHdr.longPdcpPduNumber.injEq, LongPdcpPduNumber.mk.injEq, true_and] at e
    have e2 := congrArg UInt32.toNat e
    rw [of32_num (s * 2 ^ 18 + n.toNat) (by omega)] at e2
    rw [num3]
    simp
    omega
  | sci v a => exact ⟨fun l hl => by cases hl; simp only; decide, fun y hy => by cases hy⟩
  | ran l c h => exact ⟨fun l hl => by cases hl; exact cont _ _ _ (by decide) e, fun y hy => by cases hy⟩
  | xwRan l c h => exact ⟨fun l hl => by cases hl; exact cont _ _ _ (by decide) e, fun y hy => by cases hy⟩
  | nrRan l c h => exact ⟨fun l hl => by cases hl; exact cont _ _ _ (by decide) e, fun y hy => by cases hy⟩
  | pduSession l c h => exact ⟨fun l hl => by cases hl; exact cont _ _ _ (by decide) e, fun y hy => by cases hy⟩
  | other t l c ht h =>
    have h0 : t ≠ 0 := by
      rintro rfl
      exact ht (by decide)
    exact ⟨fun l hl => by cases hl; exact cont _ _ _ h0 e, fun y hy => by cases hy⟩

theorem chain_exact : ∀ (ps : List (ExtHdr × Bytes)) (fuel : Nat) (tail : Bytes), (∀ p ∈ ps, UExtDrawn p.1 p.2) →
    Header.extLoop .debug fuel (ps.flatMap (·.2) ++ 0 :: tail) = .ok (ps.map (·.1)) → ∀ p ∈ ps, ExtReadable p.1 p.2
  | [], _, _, _, _ => fun p hp => by cases hp
  | (x, o) :: ps, 0, _, _, h => by cases h
  | (x, o) :: ps, fuel + 1, tail, hd, h => by
    have d1 := hd _ List.mem_cons_self
    simp only at d1
    rw [Header.extLoop, List.flatMap_cons, List.append_assoc] at h
    obtain ⟨i, hi, h⟩ := C1.ok_of_bind h
    split at h
    · cases h
    obtain ⟨n, hn, h⟩ := C1.ok_of_bind h
    obtain ⟨b, hb, h⟩ := C1.ok_of_bind h
    obtain ⟨r, hr, h⟩ := C1.ok_of_bind h
    simp only [R.pure_eq, R.ok.injEq, List.map_cons, List.cons.injEq] at h
    obtain ⟨rfl, rfl⟩ := h
    have r1 := drawn_exact d1 _ hi
    rw [(C28_ext_header .debug i (drawn_wf d1 r1.1) []).2.1, ← (drawn_size d1).1] at hn
    cases hn
    rw [slFrom_ok (by simp), List.drop_left] at hb
    cases hb
    intro p hp
    rcases List.mem_cons.mp hp with rfl | hp
    · exact r1
    · exact chain_exact ps fuel tail (fun q hq => hd q (List.mem_cons_of_mem _ hq)) hr p hp

theorem head_exact {h : U.Header} {ps : List (ExtHdr × Bytes)} {o : Bytes} (hd : UHeadDrawn h ps o) (tail : Bytes)
    (e : Header.unmarshal .debug (o ++ tail) = .ok h) : h.length ≠ 0 ∧ HasSqn h ∧ ∀ p ∈ ps, ExtReadable p.1 p.2 := by
  obtain ⟨h1, h2, s, q, n, x, rfl⟩ := hd
  obtain ⟨msgtype, length, teid, sqn, npdu, exts⟩ := h
  rw [← be16_num, ← be32_num, ← be16_num] at e
  have h0 : length ≠ 0 := by
    rintro rfl
    cases s <;> cases sqn <;> cases npdu <;> cases exts <;> simp [Header.unmarshal, bitIf, be16, be32, rd16, rd32] at e
  refine ⟨h0, ?_⟩
  cases exts with
  | none =>
    have hp : ps = [] := List.map_eq_nil_iff.mp h1.symm
    subst hp
    refine ⟨?_, fun p hp => by cases hp⟩
    cases sqn with
    | some v => exact .inl (by simp)
    | none =>
      cases npdu with
      | none => exact .inr ⟨rfl, rfl⟩
      | some k =>
        exfalso
        cases s <;> simp [Header.unmarshal, bitIf, be16, be32, rd16, rd32, h0] at e <;>
          (obtain ⟨_, -, e⟩ := C1.ok_of_bind e; cases e)
  | some l =>
    simp only [Option.getD_some] at h1
    subst h1
    obtain ⟨c, cs, hcs⟩ : ∃ c cs, ps.flatMap (·.2) ++ 0 :: tail = c :: cs := by
      match hl : ps.flatMap (·.2) ++ 0 :: tail with
      | [] => simp at hl
      | c :: cs => exact ⟨c, cs, rfl⟩
    cases sqn with
    | none =>
      exfalso
      cases npdu <;> cases s <;> simp [Header.unmarshal, bitIf, be16, be32, rd16, rd32, h0, hcs] at e <;>
          (obtain ⟨_, -, e⟩ := C1.ok_of_bind e; cases e)
    | some v =>
      refine ⟨.inl (by simp), chain_exact ps ((c :: cs).length + 1) tail h2 ?_⟩
      rw [hcs]
      cases npdu <;> cases s <;> simp [Header.unmarshal, bitIf, be16, be32, rd16, rd32, h0, hcs] at e <;>
        (obtain ⟨_, e1, e⟩ := C1.ok_of_bind e; cases e; exact e1)

/-- C99 exactly: of the messages that a peer sends as the specification has them, those within the limits of the crate are understood and no others. -/
theorem C99_exact (x : UMsg) (ps : List (ExtHdr × Bytes)) (b : Bytes) (hx : USent x ps b) : Reads .debug b x ↔ Takes x ps := by
  refine ⟨fun e => ?_, C99_partial .debug x ps b hx⟩
  obtain ⟨⟨o, hd, rfl⟩, ty, pf, hl, -⟩ := hx
  have key : Header.unmarshal .debug (o ++ uBody x) = .ok x.header → (uType x ∈ [26, 31, 255] → x.header.length.toNat < 65528) →
      (∀ y, x = .supportedExt y → 0 < y.list.list.length ∧ y.list.list.length ≤ 253) → Takes x ps := by
    intro hu hlen hli
    obtain ⟨h0, hs, hr⟩ := head_exact hd _ hu
    refine ⟨⟨?_, hlen⟩, hs.imp (fun h => Option.isSome_iff_ne_none.mpr h) id, hr, hli⟩
    rcases Nat.eq_zero_or_pos x.header.length.toNat with h | h
    · exact absurd (UInt16.toNat_inj.mp h) h0
    · exact h
  cases x with
  | gpdu x =>
    obtain ⟨s, ha, h1, -⟩ := (C80_gpdu _ x).mp e
    exact key ha.1 (fun _ => by rw [← (at_read ha).2.2.2] at h1; exact h1) (fun y hy => by cases hy)
  | endMarker x =>
    obtain ⟨s, ha, -⟩ := (C80_end_marker _ x).mp e
    exact key ha.1 (fun h => by simp [uType] at h) (fun y hy => by cases hy)
  | echoRequest x =>
    obtain ⟨s, ha, -⟩ := (C80_echo_request _ x).mp e
    exact key ha.1 (fun h => by simp [uType] at h) (fun y hy => by cases hy)
  | echoResponse x =>
    obtain ⟨s, r, ha, -⟩ := (C80_echo_response _ x).mp e
    exact key ha.1 (fun h => by simp [uType] at h) (fun y hy => by cases hy)
  | supportedExt x =>
    obtain ⟨s, ha, h1, -, -, -, h2, h3, -⟩ := (C80_supported_ext _ x).mp e
    have hp : x.list.length.toNat = x.list.list.length := pf
    exact key ha.1 (fun _ => by rw [← (at_read ha).2.2.2] at h1; exact h1) (fun y hy => by cases hy; omega)
  | errorIndication x =>
    obtain ⟨s, es, ha, h1, -⟩ := (C80_error_indication _ x).mp e
    exact key ha.1 (fun _ => by rw [← (at_read ha).2.2.2] at h1; exact h1) (fun y hy => by cases hy)

/-- C99 is violated: the usual G-PDU of 5G, with a PDU session container and without a sequence number, gets a sequence number and an N-PDU number that
were not sent; spare bits in front of a long PDCP PDU number become part of it; an End Marker without anything is rejected. -/
theorem C99_violation (m : Mode) :
    (∃ x ps b, USent x ps b ∧ b = [0x34, 255, 0, 9, 0, 0, 0, 1, 0x12, 0x34, 0x56, 0x85, 1, 0, 9, 0, 0x45] ∧ ¬ Reads m b x ∧
      Gpdu.unmarshal m b = .ok ⟨⟨255, 9, 1, some 0x1234, some 0x56, some [.pduSessionContainer ⟨0x85, 1, [0, 9]⟩]⟩, [0x45]⟩) ∧
    (∃ x ps b, USent x ps b ∧ x.header.exts = some [.longPdcpPduNumber ⟨0x82, 2, 5⟩] ∧ ¬ Reads m b x ∧
      Gpdu.unmarshal m b = .ok ⟨⟨255, 13, 1, some 7, none, some [.longPdcpPduNumber ⟨0x82, 2, 0x40005⟩]⟩, [0x45]⟩) ∧
    ∃ x ps b, USent x ps b ∧ b = [0x30, 254, 0, 0, 0, 0, 0, 1] ∧ EndMarker.unmarshal m b = .err .headerInvalidLength ∧ ¬ Reads m b x := by
  refine ⟨⟨.gpdu ⟨⟨255, 9, 1, none, none, some [.pduSessionContainer ⟨0x85, 1, [0, 9]⟩]⟩, [0x45]⟩, [(.pduSessionContainer ⟨0x85, 1, [0, 9]⟩, [0x85, 1, 0, 9])],
      _, ⟨⟨[0x34, 255, 0, 9, 0, 0, 0, 1, 0x12, 0x34, 0x56, 0x85, 1, 0, 9, 0], ⟨rfl, fun p hp => ?_, false, 0x1234, 0x56, 0, by decide +kernel⟩, rfl⟩,
        ⟨rfl, trivial⟩, trivial, rfl, fun h => by simp [uType] at h⟩, rfl, ?_, by cases m <;> decide +kernel⟩,
    ⟨.gpdu ⟨⟨255, 13, 1, some 7, none, some [.longPdcpPduNumber ⟨0x82, 2, 5⟩]⟩, [0x45]⟩, [(.longPdcpPduNumber ⟨0x82, 2, 5⟩, [0x82, 2, 4, 0, 5, 0, 0, 0])],
      _, ⟨⟨[0x36, 255, 0, 13, 0, 0, 0, 1, 0, 7, 0, 0x82, 2, 4, 0, 5, 0, 0, 0, 0], ⟨rfl, fun p hp => ?_, false, 0, 0, 0, by decide +kernel⟩, rfl⟩,
        ⟨rfl, trivial⟩, trivial, rfl, fun h => by simp [uType] at h⟩, rfl, ?_, by cases m <;> decide +kernel⟩,
    ⟨.endMarker ⟨⟨254, 0, 1, none, none, none⟩, none⟩, [],
      _, ⟨⟨[0x30, 254, 0, 0, 0, 0, 0, 1], ⟨rfl, fun p hp => (by cases hp), false, 0, 0, 0, by decide +kernel⟩, rfl⟩,
        ⟨rfl, fun p hp => by cases hp⟩, fun p hp => (by cases hp), rfl, fun h => by simp [uType] at h⟩, rfl, by cases m <;> decide +kernel, ?_⟩⟩
  · rcases List.mem_cons.mp hp with rfl | hp
    · exact .pduSession 1 [0, 9] rfl
    · cases hp
  · intro h
    rw [Reads] at h
    revert h
    cases m <;> decide +kernel
  · rcases List.mem_cons.mp hp with rfl | hp
    · exact .long 0x82 5 1 0 0 0 (.inr rfl) (by decide) (by decide)
    · cases hp
  · intro h
    rw [Reads] at h
    revert h
    cases m <;> decide +kernel
  · intro h
    rw [Reads] at h
    revert h
    cases m <;> decide +kernel

/-! ## Examples -/

/-- A G-PDU with sequence number, a UDP port, a service class indicator with its spare octet set, a header of a type that the crate does not know, the spare
bit of the header set and an unused N-PDU number. -/
example : ∃ ps, USent (.gpdu ⟨⟨255, 19, 1, some 7, none, some [.udpPort ⟨0x40, 1, 2152⟩, .sci ⟨0x20, 1, 9⟩, .unknown ⟨0x99, 1, [7, 8]⟩]⟩, [0x45, 0, 1]⟩) ps
      [0x3e, 255, 0, 19, 0, 0, 0, 1, 0, 7, 0xaa, 0x40, 1, 8, 0x68, 0x20, 1, 9, 0xff, 0x99, 1, 7, 8, 0, 0x45, 0, 1] ∧
    Takes (.gpdu ⟨⟨255, 19, 1, some 7, none, some [.udpPort ⟨0x40, 1, 2152⟩, .sci ⟨0x20, 1, 9⟩, .unknown ⟨0x99, 1, [7, 8]⟩]⟩, [0x45, 0, 1]⟩) ps := by
  refine ⟨[(.udpPort ⟨0x40, 1, 2152⟩, [0x40, 1, 8, 0x68]), (.sci ⟨0x20, 1, 9⟩, [0x20, 1, 9, 0xff]), (.unknown ⟨0x99, 1, [7, 8]⟩, [0x99, 1, 7, 8])],
    ⟨⟨[0x3e, 255, 0, 19, 0, 0, 0, 1, 0, 7, 0xaa, 0x40, 1, 8, 0x68, 0x20, 1, 9, 0xff, 0x99, 1, 7, 8, 0],
      ⟨rfl, fun p hp => ?_, true, 0, 0xaa, 0, by decide +kernel⟩, rfl⟩, ⟨rfl, trivial⟩, trivial, rfl, fun h => by simp [uType] at h⟩,
    ⟨⟨by decide, fun _ => by decide⟩, .inl rfl, fun p hp => ?_, fun y hy => by cases hy⟩⟩
  · simp only [List.mem_cons, List.not_mem_nil, or_false] at hp
    rcases hp with rfl | rfl | rfl
    · exact .udp 2152
    · exact .sci 9 0xff
    · exact .other 0x99 1 [7, 8] (by decide) rfl
  · simp only [List.mem_cons, List.not_mem_nil, or_false] at hp
    rcases hp with rfl | rfl | rfl <;> exact ⟨fun l hl => by cases hl; decide, fun y hy => by cases hy⟩

/-- An Error Indication of a peer with an IPv4 address. -/
example : USent (.errorIndication ⟨⟨26, 16, 0, some 1, none, none⟩, ⟨16, 0x01020304⟩, ⟨133, 4, .v4 0x0a000001⟩, none⟩) []
      [0x3a, 26, 0, 16, 0, 0, 0, 0, 0, 1, 0xde, 0xad, 16, 1, 2, 3, 4, 133, 0, 4, 10, 0, 0, 1] ∧
    Takes (.errorIndication ⟨⟨26, 16, 0, some 1, none, none⟩, ⟨16, 0x01020304⟩, ⟨133, 4, .v4 0x0a000001⟩, none⟩) [] :=
  ⟨⟨⟨[0x3a, 26, 0, 16, 0, 0, 0, 0, 0, 1, 0xde, 0xad], ⟨rfl, fun p hp => (by cases hp), true, 0, 0xde, 0xad, by decide +kernel⟩, by decide +kernel⟩,
    ⟨rfl, rfl, fun p hp => (by cases hp)⟩, ⟨rfl, rfl, fun p hp => (by cases hp)⟩, rfl, fun _ => rfl⟩,
   ⟨⟨by decide, fun _ => by decide⟩, .inl rfl, fun p hp => (by cases hp), fun y hy => by cases hy⟩⟩

end Gtp.Props.UPeer
