import Verif.Props.UHeader
import Verif.Props.CHeader
import Verif.V2.Header

/-!
# Property C57: the octets of the headers

The encoders are compared octet by octet with the figures of the 3GPP specifications: TS 29.281 §5.1-5.2 (GTPv1-U),
TS 29.060 §6 (GTPv1-C), TS 29.274 §5.1 (GTPv2-C). Spare octets and unused optional fields are zero.
-/

namespace Gtp.Props

/-- The number `n` in `k` octets, most significant first. -/
def num : Nat → Nat → Bytes
  | 0, _ => []
  | k + 1, n => UInt8.ofNat (n / 256 ^ k % 256) :: num k n

/-- A flag of weight `w`. -/
def bitIf (c : Bool) (w : Nat) : Nat := if c then w else 0

theorem ofNat_mod (n : Nat) : UInt8.ofNat (n % 256) = UInt8.ofNat n := by
  apply UInt8.toNat_inj.mp; simp

theorem be16_num (x : UInt16) : be16 x = num 2 x.toNat := by
  simp [be16, num, hi16, lo16, ofNat_mod]

theorem be24_num (x : UInt32) : be24 x = num 3 x.toNat := by
  simp [be24, num, oct32, ofNat_mod]

theorem be32_num (x : UInt32) : be32 x = num 4 x.toNat := by
  simp [be32, num, oct32, ofNat_mod]

/-! ## GTPv1-U -/

/-- Type, length in units of four octets and contents of an extension header (TS 29.281 §5.2): a PDCP PDU number has two
octets; a UDP port two; a long PDCP PDU number three, followed by three spare octets; a service class indicator one, followed
by one spare octet; a container what it contains. -/
def uExtOctets : U.ExtHdr → Bytes
  | .noMore => []
  | .pdcpPduNumber x => [x.t, x.length] ++ num 2 x.number.toNat
  | .udpPort x => [x.t, x.length] ++ num 2 x.port.toNat
  | .longPdcpPduNumber x => [x.t, x.length] ++ num 3 x.number.toNat ++ [0, 0, 0]
  | .sci x => [x.t, x.length, x.sci, 0]
  | .ranContainer x | .xwRanContainer x | .nrRanContainer x | .pduSessionContainer x | .unknown x =>
    [x.t, x.length] ++ x.container

/-- The header: version 1, protocol type 1, flags E, S and PN; type; length; TEID; if one of the flags is set then the sequence
number, the N-PDU number, the extension headers, and the octet 0 that ends them. -/
def uHeaderOctets (h : U.Header) : Bytes :=
  [UInt8.ofNat (32 + 16 + bitIf h.exts.isSome 4 + bitIf h.sqn.isSome 2 + bitIf h.npdu.isSome 1), h.msgtype] ++
  num 2 h.length.toNat ++ num 4 h.teid.toNat ++
  if h.exts.isSome || h.sqn.isSome || h.npdu.isSome then
    num 2 (h.sqn.getD 0).toNat ++ [h.npdu.getD 0] ++ (h.exts.getD []).flatMap uExtOctets ++ [0]
  else []

theorem long_octets (n : UInt32) : be32 (n <<< 8) = num 3 n.toNat ++ [0] := by
  have e : (n <<< 8).toNat = n.toNat * 256 % 2 ^ 32 := by
    rw [UInt32.toNat_shiftLeft]
    have : (8 : UInt32).toNat % 32 = 8 := rfl
    rw [this, Nat.shiftLeft_eq]
  simp only [be32, oct32, e, num, List.cons_append, List.nil_append, List.cons.injEq, and_true]
  refine ⟨?_, ?_, ?_, ?_⟩ <;> apply UInt8.toNat_inj.mp <;> simp <;> omega

theorem C57_u_ext (x : U.ExtHdr) : x.marshal = uExtOctets x := by
  cases x with
  | pdcpPduNumber x => simp [U.ExtHdr.marshal, U.PdcpPduNumber.marshal, uExtOctets, be16_num]
  | udpPort x => simp [U.ExtHdr.marshal, U.UdpPort.marshal, uExtOctets, be16_num]
  | longPdcpPduNumber x => simp [U.ExtHdr.marshal, U.LongPdcpPduNumber.marshal, uExtOctets, long_octets]
  | _ => rfl

/-- C57, GTPv1-U: the encoder writes the header of the specification; of a long PDCP PDU number it takes the lower 24 bits. -/
theorem C57_u_header (h : U.Header) : h.marshal = uHeaderOctets h := by
  obtain ⟨ty, length, teid, sqn, npdu, exts⟩ := h
  have he : U.ExtHdr.marshal = uExtOctets := funext C57_u_ext
  cases exts with
  | none =>
    cases sqn <;> cases npdu <;>
      simp [U.Header.marshal, uHeaderOctets, U.Header.flags, bitIf, be16_num, be32_num] <;> simp [num]
  | some l =>
    cases l with
    | nil =>
      cases sqn <;> cases npdu <;>
        simp [U.Header.marshal, U.Header.marshalExts, uHeaderOctets, U.Header.flags, bitIf, be16_num, be32_num] <;> simp [num]
    | cons x r =>
      cases sqn <;> cases npdu <;>
        simp [U.Header.marshal, U.Header.marshalExts, uHeaderOctets, U.Header.flags, bitIf, be16_num, be32_num, he] <;>
        simp [num]

example : (U.Header.marshal ⟨255, 20, 0x01020304, some 7, none, some [.longPdcpPduNumber ⟨0x82, 2, 0x3ffff⟩, .sci ⟨0x20, 1, 9⟩]⟩) =
    [0x36, 255, 0, 20, 1, 2, 3, 4, 0, 7, 0, 0x82, 2, 3, 0xff, 0xff, 0, 0, 0, 0x20, 1, 9, 0, 0] := by decide +kernel

/-! ## GTPv1-C -/

/-- Type, length and contents of an extension header (TS 29.060 §6.1). -/
def cExtOctets : C1.ExtHdr → Bytes
  | .noMore => []
  | .pdcpPduNumber x | .suspendRequest x | .suspendResponse x | .mbmsSupport x | .msInfoChange x =>
    [x.t, x.length] ++ num 2 x.value.toNat
  | .unknown x => [x.t, x.length] ++ x.value

/-- The header, as for GTPv1-U. -/
def cHeaderOctets (h : C1.Header) : Bytes :=
  [UInt8.ofNat (32 + 16 + bitIf h.exts.isSome 4 + bitIf h.sqn.isSome 2 + bitIf h.npdu.isSome 1), h.msgtype] ++
  num 2 h.length.toNat ++ num 4 h.teid.toNat ++
  if h.exts.isSome || h.sqn.isSome || h.npdu.isSome then
    num 2 (h.sqn.getD 0).toNat ++ [h.npdu.getD 0] ++ (h.exts.getD []).flatMap cExtOctets ++ [0]
  else []

theorem C57_c_ext (x : C1.ExtHdr) : x.marshal = cExtOctets x := by
  cases x <;> simp [C1.ExtHdr.marshal, C1.Fixed.marshal, C1.Unknown.marshal, cExtOctets, be16_num]

/-- C57, GTPv1-C: the encoder writes the header of the specification. -/
theorem C57_c_header (h : C1.Header) : h.marshal = cHeaderOctets h := by
  obtain ⟨ty, length, teid, sqn, npdu, exts⟩ := h
  have he : C1.ExtHdr.marshal = cExtOctets := funext C57_c_ext
  cases exts with
  | none =>
    cases sqn <;> cases npdu <;>
      simp [C1.Header.marshal, cHeaderOctets, C1.Header.flags, bitIf, be16_num, be32_num]
  | some l =>
    cases l with
    | nil =>
      cases sqn <;> cases npdu <;>
        simp [C1.Header.marshal, C1.Header.marshalExts, cHeaderOctets, C1.Header.flags, bitIf, be16_num, be32_num]
    | cons x r =>
      cases sqn <;> cases npdu <;>
        simp [C1.Header.marshal, C1.Header.marshalExts, cHeaderOctets, C1.Header.flags, bitIf, be16_num, be32_num, he]

example : (C1.Header.marshal ⟨16, 20, 0x01020304, some 7, some 8, some [.mbmsSupport ⟨1, 1, 0x1234⟩]⟩) =
    [0x37, 16, 0, 20, 1, 2, 3, 4, 0, 7, 8, 1, 1, 0x12, 0x34, 0] := by decide +kernel

/-! ## GTPv2-C -/

/-- The header: version 2, flags P, T and MP; type; length; TEID if T; sequence number; message priority in the upper half of
the last octet. -/
def v2HeaderOctets (h : V2.Header) : Bytes :=
  [UInt8.ofNat (64 + bitIf h.piggyback 16 + bitIf h.teid.isSome 8 + bitIf h.prio.isSome 4), h.msgtype] ++ num 2 h.length.toNat ++
  (h.teid.toList.flatMap fun i => num 4 i.toNat) ++ num 3 h.sqn.toNat ++ [UInt8.ofNat ((h.prio.getD 0).toNat % 16 * 16)]

theorem prio_octet : ∀ p : UInt8, p <<< 4 = UInt8.ofNat (p.toNat % 16 * 16) := by decide +kernel

/-- C57, GTPv2-C: the encoder writes the header of the specification; of sequence number and priority it takes the lower 24 and
4 bits. -/
theorem C57_v2_header (h : V2.Header) : h.marshal = v2HeaderOctets h := by
  obtain ⟨ty, pb, prio, length, teid, sqn⟩ := h
  cases prio <;> cases teid <;> cases pb <;>
    simp [V2.Header.marshal, V2.Header.flags, v2HeaderOctets, bitIf, be16_num, be24_num, be32_num, prio_octet]

example : (V2.Header.marshal ⟨32, true, some 5, 100, some 0x01020304, 0x0a0b0c⟩) =
    [0x5c, 32, 0, 100, 1, 2, 3, 4, 0x0a, 0x0b, 0x0c, 0x50] := by decide +kernel

end Gtp.Props
