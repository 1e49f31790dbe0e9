import Verif.C1.Header

/-!
# Properties C34 and C40-C42 (GTPv1-C header and extension headers)

The specification side is the wire format of 3GPP TS 29.060 §6: flags E, S, PN, then the optional
four octets if any flag is set, an extension header being a type octet, a length octet counting units
of four octets, and contents filling those units; the chain is closed by a type octet 0.
-/

namespace Gtp.Props.C1
open Gtp.V1 Gtp.C1
open Gtp.U (len4 len4_ok len4_debug len4_release)

/-! ## Extension headers -/

/-- Extension header types known to the crate (TS 29.060 figure 3). -/
def extTypes : List UInt8 := [0x00, 0x01, 0x02, 0xc0, 0xc1, 0xc2]

/-- An extension header that fits the wire format. -/
def ExtWF : ExtHdr → Prop
  | .noMore => False
  | .pdcpPduNumber x => x.t = 0xc0 ∧ x.length = 1
  | .suspendRequest x => x.t = 0xc1 ∧ x.length = 1
  | .suspendResponse x => x.t = 0xc2 ∧ x.length = 1
  | .mbmsSupport x => x.t = 0x01 ∧ x.length = 1
  | .msInfoChange x => x.t = 0x02 ∧ x.length = 1
  | .unknown x => x.t ∉ extTypes ∧ x.length.toNat < 64 ∧ 2 + x.value.length = 4 * x.length.toNat

theorem fixed_rt (m : Mode) (code : UInt8) (v : UInt16) (tail : Bytes) :
    Fixed.unmarshal code m (Fixed.marshal ⟨code, 1, v⟩ ++ tail) = .ok ⟨code, 1, v⟩ := by
  have h : len4 m 1 = .ok 4 := len4_ok (l := 1) (by decide)
  simp [Fixed.unmarshal, Fixed.marshal, be16, rd16, h]

/-- One extension header: decoding its encoding gives it back whatever follows; it occupies a
multiple of four octets, which is what `len` says. -/
theorem C42_ext_header (m : Mode) (x : ExtHdr) (wf : ExtWF x) (tail : Bytes) :
    ExtHdr.unmarshal m (x.marshal ++ tail) = .ok x ∧ x.len m = .ok x.marshal.length ∧
    x.marshal.length % 4 = 0 ∧ 0 < x.marshal.length ∧ x.marshal.length ≤ 252 := by
  have h1 : len4 m 1 = .ok 4 := len4_ok (l := 1) (by decide)
  have fx := fixed_rt m
  cases x with
  | noMore => exact wf.elim
  | pdcpPduNumber x =>
    obtain ⟨t, l, v⟩ := x; obtain ⟨rfl, rfl⟩ : t = 0xc0 ∧ l = 1 := wf
    have := fx 0xc0 v tail
    simp only [Fixed.marshal, List.cons_append, List.nil_append, be16] at this
    simp [ExtHdr.unmarshal, ExtHdr.marshal, Fixed.marshal, ExtHdr.len, ExtHdr.length?, h1, this, be16]
  | suspendRequest x =>
    obtain ⟨t, l, v⟩ := x; obtain ⟨rfl, rfl⟩ : t = 0xc1 ∧ l = 1 := wf
    have := fx 0xc1 v tail
    simp only [Fixed.marshal, List.cons_append, List.nil_append, be16] at this
    simp [ExtHdr.unmarshal, ExtHdr.marshal, Fixed.marshal, ExtHdr.len, ExtHdr.length?, h1, this, be16]
  | suspendResponse x =>
    obtain ⟨t, l, v⟩ := x; obtain ⟨rfl, rfl⟩ : t = 0xc2 ∧ l = 1 := wf
    have := fx 0xc2 v tail
    simp only [Fixed.marshal, List.cons_append, List.nil_append, be16] at this
    simp [ExtHdr.unmarshal, ExtHdr.marshal, Fixed.marshal, ExtHdr.len, ExtHdr.length?, h1, this, be16]
  | mbmsSupport x =>
    obtain ⟨t, l, v⟩ := x; obtain ⟨rfl, rfl⟩ : t = 1 ∧ l = 1 := wf
    have := fx 1 v tail
    simp only [Fixed.marshal, List.cons_append, List.nil_append, be16] at this
    simp [ExtHdr.unmarshal, ExtHdr.marshal, Fixed.marshal, ExtHdr.len, ExtHdr.length?, h1, this, be16]
  | msInfoChange x =>
    obtain ⟨t, l, v⟩ := x; obtain ⟨rfl, rfl⟩ : t = 2 ∧ l = 1 := wf
    have := fx 2 v tail
    simp only [Fixed.marshal, List.cons_append, List.nil_append, be16] at this
    simp [ExtHdr.unmarshal, ExtHdr.marshal, Fixed.marshal, ExtHdr.len, ExtHdr.length?, h1, this, be16]
  | unknown x =>
    obtain ⟨t, l, c⟩ := x; obtain ⟨ht, hl, hc⟩ := wf
    simp only at ht hl hc
    simp only [extTypes, List.mem_cons, List.not_mem_nil, or_false, not_or] at ht
    have e1 : l ≠ 0 := by rintro rfl; simp at hc
    have e2 : len4 m l = .ok (2 + c.length) := by rw [len4_ok hl, hc]
    have e3 : (sl (t :: l :: (c ++ tail)) 2 (2 + c.length) : R Err Bytes) = .ok c := by
      rw [Nat.add_comm]; simp
    have e4 : 2 + c.length ≤ c.length + tail.length + 1 + 1 := by omega
    simp [ExtHdr.unmarshal, ExtHdr.marshal, Unknown.unmarshal, Unknown.marshal, ExtHdr.len,
      ExtHdr.length?, ht, e1, e2, e3, e4]
    omega

example : ExtWF (.unknown ⟨0x99, 1, [7, 8]⟩) := ⟨by decide, by decide, rfl⟩
example : ExtWF (.suspendRequest ⟨0xc1, 1, 0xbeef⟩) := ⟨rfl, rfl⟩

/-- The octets of a chain: the headers one after the other, then the closing type 0. -/
def chainOctets : List ExtHdr → Bytes
  | [] => [0]
  | x :: r => x.marshal ++ chainOctets r

theorem ext_ne_noMore {x : ExtHdr} (wf : ExtWF x) : x ≠ .noMore := by
  rintro rfl; exact wf

theorem ext_nil (m : Mode) : ExtHdr.unmarshal m [] = .panic := by
  simp [ExtHdr.unmarshal]

theorem ext_zero (m : Mode) (r : Bytes) : ExtHdr.unmarshal m (0 :: r) = .ok .noMore := by
  simp [ExtHdr.unmarshal]

theorem ext_one (m : Mode) (t : UInt8) (ht : t ≠ 0) : ExtHdr.unmarshal m [t] = .panic := by
  unfold ExtHdr.unmarshal
  simp only [rd_zero, R.ok_bind, ht, if_false]
  simp only [Fixed.unmarshal, Unknown.unmarshal, rd_zero, rd_succ, rd_nil, R.ok_bind, R.panic_bind]
  repeat' split
  all_goals simp_all

theorem chain_loop (m : Mode) : ∀ (l : List ExtHdr) (fuel : Nat) (tail : Bytes),
    (∀ x ∈ l, ExtWF x) → l.length < fuel →
    Header.extLoop m fuel (chainOctets l ++ tail) = .ok l := by
  intro l
  induction l with
  | nil =>
    intro fuel tail _ hf
    match fuel with
    | f + 1 => simp [Header.extLoop, chainOctets, ext_zero]
  | cons x r ih =>
    intro fuel tail wf hf
    match fuel with
    | f + 1 =>
      have hx := wf x (by simp)
      obtain ⟨h1, h2, h3, h4, h5⟩ := C42_ext_header m x hx (chainOctets r ++ tail)
      simp only [Header.extLoop, chainOctets, List.append_assoc, h1, R.ok_bind, ext_ne_noMore hx,
        if_false, h2]
      rw [slFrom_ok (by simp)]
      simp only [R.ok_bind, List.drop_left]
      rw [ih f tail (fun y hy => wf y (by simp [hy])) (by simp at hf; omega)]
      rfl

theorem chain_length : ∀ (l : List ExtHdr), (∀ x ∈ l, ExtWF x) →
    l.length < (chainOctets l).length ∧ (chainOctets l).length % 4 = 1
  | [], _ => by simp [chainOctets]
  | x :: r, wf => by
    obtain ⟨-, -, h3, h4, -⟩ := C42_ext_header .debug x (wf x (by simp)) []
    have ih := chain_length r (fun y hy => wf y (by simp [hy]))
    simp only [chainOctets, List.length_cons, List.length_append]
    omega

/-- C42: a chain of well-formed extension headers is decoded back in the same order with the same
contents, whatever follows; it occupies a multiple of four octets plus the closing octet. -/
theorem C42_chain_roundtrip (m : Mode) (l : List ExtHdr) (wf : ∀ x ∈ l, ExtWF x) (tail : Bytes) :
    Header.unmarshalExts m (chainOctets l ++ tail) = .ok l ∧
    (chainOctets l).length % 4 = 1 ∧ (chainOctets l).getLast? = some 0 := by
  have hl := chain_length l wf
  refine ⟨chain_loop m l _ tail wf (by simp; omega), hl.2, ?_⟩
  clear hl wf
  induction l with
  | nil => rfl
  | cons x r ih =>
    have : chainOctets r ≠ [] := by intro h; rw [h] at ih; cases ih
    simp [chainOctets, List.getLast?_append, ih]

theorem marshalExts_eq (h : Header) (l : List ExtHdr) (e : h.exts = some l) :
    h.marshalExts = chainOctets l := by
  have aux : ∀ l : List ExtHdr, l.flatMap ExtHdr.marshal ++ [0] = chainOctets l := by
    intro l
    induction l with
    | nil => rfl
    | cons x r ih => simp [chainOctets, ← ih]
  unfold Header.marshalExts
  rw [e]
  cases l with
  | nil => rfl
  | cons x r => exact aux (x :: r)

theorem marshalExts_some (a : UInt8) (b : UInt16) (c : UInt32) (d : Option UInt16)
    (e : Option UInt8) (l : List ExtHdr) :
    Header.marshalExts ⟨a, b, c, d, e, some l⟩ = chainOctets l := marshalExts_eq _ l rfl

/-! ## C34 -/

/-- A header whose extension headers fit the wire format. -/
def HeaderWF (h : Header) : Prop := ∀ l, h.exts = some l → ∀ x ∈ l, ExtWF x

/-- C34: every header round trips, with any combination of sequence number, N-PDU number and
extension headers, whatever follows. -/
theorem C34_header_roundtrip (m : Mode) (h : Header) (wf : HeaderWF h) (tail : Bytes) :
    Header.unmarshal m (h.marshal ++ tail) = .ok h := by
  obtain ⟨msgtype, length, teid, sqn, npdu, exts⟩ := h
  have hx := wf
  cases exts with
  | none =>
    cases sqn <;> cases npdu <;>
      simp [Header.unmarshal, Header.marshal, Header.flags, be16, be32, rd16, rd32, Header.rdSqn,
        Header.rdNpdu, Header.rdExts] <;> simp (disch := omega) only [if_neg, R.ok_bind]
  | some l =>
    have hc := (C42_chain_roundtrip m l (hx l rfl) tail).1
    obtain ⟨c, cs, hcs⟩ : ∃ c cs, chainOctets l = c :: cs := by
      have := chain_length l (hx l rfl)
      match hl : chainOctets l with
      | [] => rw [hl] at this; simp at this
      | c :: cs => exact ⟨c, cs, rfl⟩
    rw [hcs] at hc
    simp only [List.cons_append] at hc
    cases sqn <;> cases npdu <;>
      simp [Header.unmarshal, Header.marshal, Header.flags, be16, be32, rd16, rd32, Header.rdSqn,
        Header.rdNpdu, Header.rdExts, marshalExts_some, hcs, hc] <;>
      simp (disch := omega) only [if_neg, R.ok_bind]

/-- The wire layout: version 1, protocol type 1, and the flags E, S, PN say which fields are
present; the four optional octets are there exactly when some flag is set. -/
theorem C34_wire_format (h : Header) :
    ∃ b0 rest, h.marshal = b0 :: h.msgtype :: (be16 h.length ++ (be32 h.teid ++ rest)) ∧
      b0.toNat = 48 + (if h.exts.isSome then 4 else 0) + (if h.sqn.isSome then 2 else 0) +
        (if h.npdu.isSome then 1 else 0) ∧
      (rest = [] ↔ h.exts = none ∧ h.sqn = none ∧ h.npdu = none) ∧
      (rest ≠ [] → ∃ chain, rest = be16 (h.sqn.getD 0) ++ (h.npdu.getD 0 :: chain) ∧
        chain = chainOctets (h.exts.getD [])) := by
  obtain ⟨msgtype, length, teid, sqn, npdu, exts⟩ := h
  refine ⟨_, _, rfl, ?_, ?_, ?_⟩
  · cases exts <;> cases sqn <;> cases npdu <;> simp [Header.flags]
  · cases exts <;> cases sqn <;> cases npdu <;> simp [be16]
  · cases exts <;> cases sqn <;> cases npdu <;> simp [be16, marshalExts_some, chainOctets]

/-- C34: two different headers never have the same octets, and neither is a prefix of the other's. -/
theorem C34_injective (h g : Header) (wf : HeaderWF h) (wg : HeaderWF g) (t u : Bytes)
    (e : h.marshal ++ t = g.marshal ++ u) : h = g ∧ t = u := by
  have a := C34_header_roundtrip .debug h wf t
  have b := C34_header_roundtrip .debug g wg u
  rw [e, b] at a
  have hg : g = h := R.ok.inj a
  subst hg
  exact ⟨rfl, List.append_cancel_left e⟩

example : HeaderWF ⟨16, 100, 1, some 77, none,
    some [.suspendRequest ⟨0xc1, 1, 2152⟩, .unknown ⟨0x99, 1, [7, 8]⟩]⟩ := by
  intro l hl x hx
  cases hl
  simp only [List.mem_cons, List.not_mem_nil, or_false] at hx
  rcases hx with rfl | rfl
  · exact ⟨rfl, rfl⟩
  · exact ⟨by decide, by decide, rfl⟩

/-! ## C41 -/

theorem exts_len (m : Mode) : ∀ (l : List ExtHdr), (∀ x ∈ l, ExtWF x) →
    ∃ n, Header.extsLen m l = .ok n ∧ n + 1 = (chainOctets l).length
  | [], _ => ⟨0, rfl, rfl⟩
  | x :: r, wf => by
    obtain ⟨-, h2, -⟩ := C42_ext_header m x (wf x (by simp)) []
    obtain ⟨n, h3, h4⟩ := exts_len m r (fun y hy => wf y (by simp [hy]))
    refine ⟨x.marshal.length + n, by simp [Header.extsLen, h2, h3], ?_⟩
    simp only [chainOctets, List.length_append]
    omega

/-- C41 (part): `len` is the number of octets written, for headers whose extension headers fit the
wire format.  Missing: arbitrary values of the public fields (`C41_violation`). -/
theorem C41_header_len_partial (m : Mode) (h : Header) (wf : HeaderWF h) :
    h.len m = .ok h.marshal.length := by
  obtain ⟨msgtype, length, teid, sqn, npdu, exts⟩ := h
  cases exts with
  | none =>
    cases sqn <;> cases npdu <;> simp [Header.len, Header.marshal, be16, be32]
  | some l =>
    obtain ⟨n, h1, h2⟩ := exts_len m l (wf l rfl)
    cases sqn <;> cases npdu <;>
      simp [Header.len, Header.marshal, be16, be32, h1, marshalExts_some, ← h2]
    all_goals omega

/-- C41 fails when the chain holds the end marker itself, or a length octet that disagrees with the
contents; the computation itself overflows for a length octet of 64 or more; and a decoded header can
claim more octets than the buffer it was decoded from (a sequence number without the two octets that
must follow it). -/
theorem C41_violation :
    (∃ h : Header, h.exts = some [.noMore] ∧ h.len .debug ≠ .ok h.marshal.length) ∧
    (∃ h : Header, h.exts = some [.mbmsSupport ⟨1, 2, 1⟩] ∧ h.len .debug ≠ .ok h.marshal.length) ∧
    (∃ h : Header, h.exts = some [.mbmsSupport ⟨1, 64, 1⟩] ∧ h.len .debug = .panic ∧
      h.len .release = .ok 12 ∧ h.marshal.length = 16) ∧
    (∃ (b : Bytes) (h : Header), Header.unmarshal .debug b = .ok h ∧ b.length = 10 ∧
      h.len .debug = .ok 12) := by
  refine ⟨⟨⟨1, 1, 1, none, none, some [.noMore]⟩, rfl, by decide +kernel⟩,
    ⟨⟨1, 1, 1, none, none, some [.mbmsSupport ⟨1, 2, 1⟩]⟩, rfl, by decide +kernel⟩,
    ⟨⟨1, 1, 1, none, none, some [.mbmsSupport ⟨1, 64, 1⟩]⟩, rfl, ?_⟩,
    ⟨[0x32, 1, 0, 4, 0, 0, 0, 0, 0, 7], ⟨1, 4, 0, some 7, none, none⟩, ?_⟩⟩ <;> decide +kernel

/-! ## C40 -/

/-- The types whose decoder reads a 16-bit value at a fixed position. -/
def isFixed (t : UInt8) : Prop := t ∈ [(0xc0 : UInt8), 0xc1, 0xc2, 1, 2]
instance (t : UInt8) : Decidable (isFixed t) := inferInstanceAs (Decidable (_ ∈ _))

/-- What `ExtensionHeader::unmarshal` does once the length has been accepted. -/
def extBody (t l : UInt8) (n : Nat) (b : Bytes) : R Err ExtHdr :=
  if t = 0xc0 then rd16 b 2 >>= fun v => .ok (.pdcpPduNumber ⟨0xc0, l, v⟩)
  else if t = 0xc1 then rd16 b 2 >>= fun v => .ok (.suspendRequest ⟨0xc1, l, v⟩)
  else if t = 0xc2 then rd16 b 2 >>= fun v => .ok (.suspendResponse ⟨0xc2, l, v⟩)
  else if t = 1 then rd16 b 2 >>= fun v => .ok (.mbmsSupport ⟨1, l, v⟩)
  else if t = 2 then rd16 b 2 >>= fun v => .ok (.msInfoChange ⟨2, l, v⟩)
  else sl b 2 n >>= fun v => .ok (.unknown ⟨t, l, v⟩)

theorem ext_types (t : UInt8) : t = 0xc0 ∨ t = 0xc1 ∨ t = 0xc2 ∨ t = 1 ∨ t = 2 ∨
    (t ≠ 0xc0 ∧ t ≠ 0xc1 ∧ t ≠ 0xc2 ∧ t ≠ 1 ∧ t ≠ 2) := by
  revert t; decide +kernel

theorem bind_ok_assoc {α β γ : Type} (x : R Err α) (f : α → β) (g : β → γ) :
    ((x >>= fun v => R.ok (f v)) >>= fun w => R.ok (g w)) = (x >>= fun v => R.ok (g (f v))) := by
  cases x <;> rfl

theorem ext_cons (m : Mode) (t l : UInt8) (r : Bytes) (ht : t ≠ 0) :
    ExtHdr.unmarshal m (t :: l :: r) =
      if l = 0 then .err .extHeaderInvalidLength
      else len4 m l >>= fun n =>
        if n ≤ r.length + 2 then extBody t l n (t :: l :: r) else .err .extHeaderInvalidLength := by
  have fx : ∀ (code : UInt8) (k : Fixed → ExtHdr), (Fixed.unmarshal code m (t :: l :: r) >>=
      fun x => R.ok (k x)) = if l = 0 then .err .extHeaderInvalidLength
      else len4 m l >>= fun n => if n ≤ r.length + 2 then
        (rd16 (t :: l :: r) 2 >>= fun v => .ok (k ⟨code, l, v⟩))
        else .err .extHeaderInvalidLength := by
    intro code k
    unfold Fixed.unmarshal
    simp only [rd_succ, rd_zero, R.ok_bind, R.pure_eq, List.length_cons]
    by_cases hl : l = 0
    · simp [hl]
    simp only [hl, if_false]
    cases len4 m l with
    | ok n =>
      simp only [R.ok_bind]
      by_cases hn : n ≤ r.length + 1 + 1
      · simp only [hn, if_true]; rw [bind_ok_assoc]
      · simp [hn]
    | _ => rfl
  have ux : (Unknown.unmarshal m (t :: l :: r) >>=
      fun x => R.ok (ExtHdr.unknown x)) = if l = 0 then .err .extHeaderInvalidLength
      else len4 m l >>= fun n => if n ≤ r.length + 2 then
        (sl (t :: l :: r) 2 n >>= fun v => .ok (.unknown ⟨t, l, v⟩))
        else .err .extHeaderInvalidLength := by
    unfold Unknown.unmarshal
    simp only [rd_succ, rd_zero, R.ok_bind, R.pure_eq, List.length_cons]
    by_cases hl : l = 0
    · simp [hl]
    simp only [hl, if_false]
    cases len4 m l with
    | ok n =>
      simp only [R.ok_bind]
      by_cases hn : n ≤ r.length + 1 + 1
      · simp only [hn, if_true]; rw [bind_ok_assoc]
      · simp [hn]
    | _ => rfl
  unfold ExtHdr.unmarshal
  simp only [rd_zero, R.ok_bind, R.pure_eq, ht, if_false, fx, ux]
  unfold extBody
  rcases ext_types t with h | h | h | h | h | h
  all_goals simp only [h, if_true, if_false]
  all_goals rfl

/-- A decoded extension header is accounted with the length octet it was read from. -/
theorem extBody_post (m : Mode) (t l : UInt8) (n : Nat) (b : Bytes) (x : ExtHdr)
    (h : extBody t l n b = .ok x) : x ≠ .noMore ∧ x.len m = len4 m l := by
  unfold extBody at h
  split at h
  · cases hv : (rd16 b 2 : R Err UInt16) <;> simp [hv] at h; subst h; simp [ExtHdr.len, ExtHdr.length?]
  split at h
  · cases hv : (rd16 b 2 : R Err UInt16) <;> simp [hv] at h; subst h; simp [ExtHdr.len, ExtHdr.length?]
  split at h
  · cases hv : (rd16 b 2 : R Err UInt16) <;> simp [hv] at h; subst h; simp [ExtHdr.len, ExtHdr.length?]
  split at h
  · cases hv : (rd16 b 2 : R Err UInt16) <;> simp [hv] at h; subst h; simp [ExtHdr.len, ExtHdr.length?]
  split at h
  · cases hv : (rd16 b 2 : R Err UInt16) <;> simp [hv] at h; subst h; simp [ExtHdr.len, ExtHdr.length?]
  · cases hv : (sl b 2 n : R Err Bytes) <;> simp [hv] at h; subst h
    simp [ExtHdr.len, ExtHdr.length?]

theorem extBody_cases (t l : UInt8) (n : Nat) (r : Bytes) :
    (∃ x, extBody t l n (t :: l :: r) = .ok x) ∧
      (isFixed t ∧ 2 ≤ r.length ∨ ¬ isFixed t ∧ 2 ≤ n ∧ n ≤ r.length + 2) ∨
    extBody t l n (t :: l :: r) = .panic ∧
      (isFixed t ∧ r.length < 2 ∨ ¬ isFixed t ∧ ¬ (2 ≤ n ∧ n ≤ r.length + 2)) := by
  unfold extBody
  rcases ext_types t with h | h | h | h | h | h
  case' inr.inr.inr.inr.inr =>
    have hf : ¬ isFixed t := by simp [isFixed, h]
    have e : (t :: l :: r).length = r.length + 2 := rfl
    by_cases hn : 2 ≤ n ∧ n ≤ r.length + 2
    · left
      simp only [h, if_false, sl, e, hn, and_self, if_true, R.ok_bind]
      exact ⟨⟨_, rfl⟩, .inr ⟨hf, trivial⟩⟩
    · right
      refine ⟨by simp only [h, if_false, sl, e, hn, R.panic_bind], .inr ⟨hf, hn⟩⟩
  all_goals
    subst h
    match r with
    | [] => right; simp [rd16, isFixed]
    | [a] => right; simp [rd16, isFixed]
    | a :: b :: r => left; simp [rd16, isFixed]

/-- A chain on the wire that makes a debug build panic: it ends before its closing octet, or a length
octet is 64 or more. -/
inductive ChainPanics : Bytes → Prop
  | empty : ChainPanics []
  | noLength (t : UInt8) : t ≠ 0 → ChainPanics [t]
  | long (t l : UInt8) (r : Bytes) : t ≠ 0 → 64 ≤ l.toNat → ChainPanics (t :: l :: r)
  | next (t l : UInt8) (r : Bytes) : t ≠ 0 → 0 < l.toNat → l.toNat < 64 →
      4 * l.toNat ≤ (t :: l :: r).length → ChainPanics ((t :: l :: r).drop (4 * l.toNat)) →
      ChainPanics (t :: l :: r)

/-- A chain on the wire that closes with a type octet 0, all length octets being 1..63. -/
inductive ChainCloses : Bytes → Prop
  | done (r : Bytes) : ChainCloses (0 :: r)
  | next (t l : UInt8) (r : Bytes) : t ≠ 0 → 0 < l.toNat → l.toNat < 64 →
      4 * l.toNat ≤ (t :: l :: r).length → ChainCloses ((t :: l :: r).drop (4 * l.toNat)) →
      ChainCloses (t :: l :: r)

/-- A chain with a header of length 0, or one that announces more than the buffer holds. -/
inductive ChainRejected : Bytes → Prop
  | zero (t : UInt8) (r : Bytes) : t ≠ 0 → ChainRejected (t :: 0 :: r)
  | short (t l : UInt8) (r : Bytes) : t ≠ 0 → 0 < l.toNat → l.toNat < 64 →
      (t :: l :: r).length < 4 * l.toNat → ChainRejected (t :: l :: r)
  | next (t l : UInt8) (r : Bytes) : t ≠ 0 → 0 < l.toNat → l.toNat < 64 →
      4 * l.toNat ≤ (t :: l :: r).length → ChainRejected ((t :: l :: r).drop (4 * l.toNat)) →
      ChainRejected (t :: l :: r)

/-- One step over a header whose length octet is fine and whose octets are there. -/
theorem ext_step (m : Mode) (t l : UInt8) (r : Bytes) (ht : t ≠ 0) (h1 : 0 < l.toNat)
    (h2 : l.toNat < 64) (h3 : 4 * l.toNat ≤ (t :: l :: r).length) :
    ∃ x, ExtHdr.unmarshal m (t :: l :: r) = .ok x ∧ x ≠ .noMore ∧ x.len m = .ok (4 * l.toNat) := by
  have hl : l ≠ 0 := by rintro rfl; simp at h1
  have h3' : 4 * l.toNat ≤ r.length + 2 := h3
  rw [ext_cons m t l r ht, if_neg hl, len4_ok h2, R.ok_bind, if_pos h3']
  rcases extBody_cases t l (4 * l.toNat) r with ⟨⟨x, hx⟩, -⟩ | ⟨hp, hk⟩
  · obtain ⟨a, b⟩ := extBody_post m _ _ _ _ _ hx
    exact ⟨x, hx, a, by rw [b, len4_ok h2]⟩
  · omega

theorem loop_step {m : Mode} {f : Nat} {b : Bytes} {x : ExtHdr} {n : Nat}
    (h1 : ExtHdr.unmarshal m b = .ok x) (h2 : x ≠ .noMore) (h3 : x.len m = .ok n)
    (h4 : n ≤ b.length) :
    Header.extLoop m (f + 1) b = (Header.extLoop m f (b.drop n) >>= fun r => .ok (x :: r)) := by
  simp only [Header.extLoop, h1, R.ok_bind, h2, if_false, h3]
  rw [slFrom_ok h4]
  rfl

/-- The three kinds of chain cover every byte string. -/
theorem chain_cases : ∀ (k : Nat) (b : Bytes), b.length ≤ k →
    ChainPanics b ∨ ChainCloses b ∨ ChainRejected b := by
  intro k
  induction k with
  | zero => intro b hb; exact .inl (by rw [List.length_eq_zero_iff.mp (Nat.le_zero.mp hb)]; exact .empty)
  | succ k ih =>
    intro b hb
    match b with
    | [] => exact .inl .empty
    | [t] =>
      by_cases ht : t = 0
      · subst ht; exact .inr (.inl (.done []))
      · exact .inl (.noLength t ht)
    | t :: l :: r =>
      by_cases ht : t = 0
      · subst ht; exact .inr (.inl (.done _))
      by_cases h0 : l = 0
      · subst h0; exact .inr (.inr (.zero t r ht))
      have h0' : 0 < l.toNat := by
        rcases Nat.eq_zero_or_pos l.toNat with h | h
        · exact absurd (UInt8.toNat_inj.mp (by simpa using h)) h0
        · exact h
      by_cases h64 : l.toNat < 64
      · by_cases hle : 4 * l.toNat ≤ (t :: l :: r).length
        · rcases ih ((t :: l :: r).drop (4 * l.toNat)) (by
            simp only [List.length_drop]; omega) with h | h | h
          · exact .inl (.next t l r ht h0' h64 hle h)
          · exact .inr (.inl (.next t l r ht h0' h64 hle h))
          · exact .inr (.inr (.next t l r ht h0' h64 hle h))
        · exact .inr (.inr (.short t l r ht h0' h64 (by omega)))
      · exact .inl (.long t l r ht (by omega))

theorem chain_panics (b : Bytes) (h : ChainPanics b) : ∀ f, b.length < f →
    Header.extLoop .debug f b = .panic := by
  induction h with
  | empty =>
    intro f hf
    match f with
    | f + 1 => simp [Header.extLoop, ext_nil]
  | noLength t ht =>
    intro f hf
    match f with
    | f + 1 => simp [Header.extLoop, ext_one _ t ht]
  | long t l r ht hl =>
    intro f hf
    match f with
    | f + 1 =>
      have h0 : l ≠ 0 := by rintro rfl; simp at hl
      simp [Header.extLoop, ext_cons _ t l r ht, h0, len4_debug hl]
  | next t l r ht h0 h64 hle _ ih =>
    intro f hf
    match f with
    | f + 1 =>
      obtain ⟨x, e1, e2, e3⟩ := ext_step .debug t l r ht h0 h64 hle
      rw [loop_step e1 e2 e3 hle, ih f (by simp only [List.length_drop]; omega)]
      rfl

theorem chain_closes (m : Mode) (b : Bytes) (h : ChainCloses b) : ∀ f, b.length < f →
    ∃ l, Header.extLoop m f b = .ok l := by
  induction h with
  | done r =>
    intro f hf
    match f with
    | f + 1 => exact ⟨[], by simp [Header.extLoop, ext_zero]⟩
  | next t l r ht h0 h64 hle hc ih =>
    intro f hf
    match f with
    | f + 1 =>
      obtain ⟨x, e1, e2, e3⟩ := ext_step m t l r ht h0 h64 hle
      obtain ⟨l', hl'⟩ := ih f (by simp only [List.length_drop]; omega)
      exact ⟨x :: l', by rw [loop_step e1 e2 e3 hle, hl']; rfl⟩

theorem chain_rejected (m : Mode) (b : Bytes) (h : ChainRejected b) : ∀ f, b.length < f →
    Header.extLoop m f b = .err .extHeaderInvalidLength := by
  induction h with
  | zero t r ht =>
    intro f hf
    match f with
    | f + 1 => simp [Header.extLoop, ext_cons _ t 0 r ht]
  | short t l r ht h0 h64 hlt =>
    intro f hf
    match f with
    | f + 1 =>
      have hl : l ≠ 0 := by rintro rfl; simp at h0
      have : ¬ 4 * l.toNat ≤ r.length + 2 := by simp only [List.length_cons] at hlt; omega
      simp [Header.extLoop, ext_cons _ t l r ht, hl, len4_ok h64, this]
  | next t l r ht h0 h64 hle hc ih =>
    intro f hf
    match f with
    | f + 1 =>
      obtain ⟨x, e1, e2, e3⟩ := ext_step m t l r ht h0 h64 hle
      rw [loop_step e1 e2 e3 hle, ih f (by simp only [List.length_drop]; omega)]
      rfl

/-- First octet of a GTPv1 header: version 1, protocol type GTP. -/
def isV1 (b0 : UInt8) : Prop := b0.toNat / 16 = 3
instance (b0 : UInt8) : Decidable (isV1 b0) := inferInstanceAs (Decidable (_ = _))

/-- Number of octets the flags make the decoder look at before the chain: PN needs three after the
fixed part, S two, E four. -/
def need (b0 : UInt8) : Nat :=
  if b0.toNat / 4 % 2 = 1 then 12 else if b0.toNat % 2 = 1 then 11
  else if b0.toNat / 2 % 2 = 1 then 10 else 8

/-- A buffer whose fixed part is accepted by the decoder. -/
def FixedOk (b : Bytes) : Prop :=
  8 ≤ b.length ∧ isV1 (b.getD 0 0) ∧ need (b.getD 0 0) ≤ b.length

/-- The flag E announces a chain. -/
def hasChain (b0 : UInt8) : Prop := b0.toNat / 4 % 2 = 1
instance (b0 : UInt8) : Decidable (hasChain b0) := inferInstanceAs (Decidable (_ = _))

theorem flag_bits : ∀ x : UInt8,
    ((x >>> 5 = 1 ∧ (x >>> 4) &&& 1 = 1) ↔ isV1 x) ∧
    ((x >>> 2) &&& 1 = 1 ↔ x.toNat / 4 % 2 = 1) ∧ ((x >>> 1) &&& 1 = 1 ↔ x.toNat / 2 % 2 = 1) ∧
    (x &&& 1 = 1 ↔ x.toNat % 2 = 1) ∧
    (x &&& 7 = 0 ↔ x.toNat / 4 % 2 = 0 ∧ x.toNat / 2 % 2 = 0 ∧ x.toNat % 2 = 0) := by
  decide +kernel

theorem exts_bind (u : R Err (List ExtHdr)) (f : Option (List ExtHdr) → Header)
    (hf : ∀ o, (f o).exts = o) :
    ∃ g : List ExtHdr → Header, ((u >>= fun v => R.ok (some v)) >>= fun e => R.ok (f e)) =
      (u >>= fun x => .ok (g x)) ∧ ∀ x, (g x).exts = some x :=
  ⟨fun x => f (some x), by cases u <;> rfl, fun x => hf _⟩

/-- Shape of the decoder's outcome on every buffer. -/
theorem header_shape (m : Mode) (b : Bytes) :
    (¬ FixedOk b → Header.unmarshal m b = .err .headerInvalidLength ∨
      Header.unmarshal m b = .err .headerVersionNotSupported) ∧
    (FixedOk b → ¬ hasChain (b.getD 0 0) → ∃ h, Header.unmarshal m b = .ok h ∧ h.exts = none) ∧
    (FixedOk b → hasChain (b.getD 0 0) → ∃ g : List ExtHdr → Header, Header.unmarshal m b =
      (Header.unmarshalExts m (b.drop 11) >>= fun x => .ok (g x)) ∧ ∀ x, (g x).exts = some x) := by
  by_cases h8 : 8 ≤ b.length
  rotate_left
  · refine ⟨fun _ => .inl (by simp [Header.unmarshal, show b.length < 8 by omega]),
      fun h => absurd h.1 h8, fun h => absurd h.1 h8⟩
  match b, h8 with
  | b0 :: b1 :: b2 :: b3 :: b4 :: b5 :: b6 :: b7 :: r, h8 =>
    obtain ⟨f1, f2, f3, f4, f5⟩ := flag_bits b0
    have g0 : (b0 :: b1 :: b2 :: b3 :: b4 :: b5 :: b6 :: b7 :: r).getD 0 0 = b0 := rfl
    have gl : (b0 :: b1 :: b2 :: b3 :: b4 :: b5 :: b6 :: b7 :: r).length = r.length + 8 := rfl
    have hfix : FixedOk (b0 :: b1 :: b2 :: b3 :: b4 :: b5 :: b6 :: b7 :: r) ↔
        isV1 b0 ∧ need b0 ≤ r.length + 8 := by
      unfold FixedOk
      rw [g0, gl]
      simp
    rw [hfix, g0]
    unfold Header.unmarshal
    rw [if_neg (by rw [gl]; omega)]
    simp only [rd_zero, rd_succ, rd16, rd32, R.ok_bind, R.pure_eq, f1, f5]
    by_cases hv : isV1 b0
    rotate_left
    · simp [hv]
    simp only [hv, if_true, true_and]
    unfold need hasChain
    simp only [Header.rdSqn, Header.rdNpdu, Header.rdExts, f2, f3, f4, gl]
    rcases Nat.mod_two_eq_zero_or_one (b0.toNat / 4) with he | he <;>
    rcases Nat.mod_two_eq_zero_or_one (b0.toNat / 2) with hs | hs <;>
    rcases Nat.mod_two_eq_zero_or_one b0.toNat with hp | hp <;>
    (simp only [he, hs, hp]
     match r with
     | [] => simp [rd16]
     | [c0] => simp [rd16]
     | [c0, c1] => simp [rd16]
     | [c0, c1, c2] => simp [rd16]
     | c0 :: c1 :: c2 :: c3 :: r =>
       have l2 : ¬ r.length + 1 + 1 + 1 + 1 < 2 := by omega
       have l3 : ¬ r.length + 1 + 1 + 1 + 1 < 3 := by omega
       have l4 : ¬ r.length + 1 + 1 + 1 + 1 < 4 := by omega
       simp [rd16, l2, l3, l4]
       try exact exts_bind _ _ (fun _ => rfl))

/-- C40 (part): in a debug build, header decoding panics exactly on the buffers whose fixed part is
accepted, which announce extension headers, and whose chain is one of `ChainPanics`.  Missing: that
this never happens (`C40_violation`). -/
theorem C40_panic_iff_partial (b : Bytes) :
    Header.unmarshal .debug b = .panic ↔
      FixedOk b ∧ hasChain (b.getD 0 0) ∧ ChainPanics (b.drop 11) := by
  obtain ⟨s1, s2, s3⟩ := header_shape .debug b
  by_cases hf : FixedOk b
  rotate_left
  · rcases s1 hf with h | h <;> simp [h, hf]
  by_cases hc : hasChain (b.getD 0 0)
  rotate_left
  · obtain ⟨h, hh, -⟩ := s2 hf hc
    exact ⟨fun e => (by rw [hh] at e; cases e), fun e => absurd e.2.1 hc⟩
  obtain ⟨g, hg, -⟩ := s3 hf hc
  rw [hg]
  simp only [hf, hc, true_and]
  constructor
  · intro h
    rcases chain_cases _ (b.drop 11) (Nat.le_refl _) with h' | h' | h'
    · exact h'
    · obtain ⟨l, hl⟩ := chain_closes .debug _ h' _ (Nat.lt_succ_self _)
      rw [Header.unmarshalExts, hl] at h; cases h
    · rw [Header.unmarshalExts, chain_rejected .debug _ h' _ (Nat.lt_succ_self _)] at h; cases h
  · intro h
    rw [Header.unmarshalExts, chain_panics _ h _ (Nat.lt_succ_self _)]
    rfl

/-- C40 (part): in a debug build header decoding always terminates. -/
theorem C40_terminates_debug (b : Bytes) : Header.unmarshal .debug b ≠ .diverge := by
  obtain ⟨s1, s2, s3⟩ := header_shape .debug b
  by_cases hf : FixedOk b
  rotate_left
  · rcases s1 hf with h | h <;> simp [h]
  by_cases hc : hasChain (b.getD 0 0)
  rotate_left
  · obtain ⟨h, hh, -⟩ := s2 hf hc
    simp [hh]
  obtain ⟨g, hg, -⟩ := s3 hf hc
  rw [hg, Header.unmarshalExts]
  rcases chain_cases _ (b.drop 11) (Nat.le_refl _) with h' | h' | h'
  · rw [chain_panics _ h' _ (Nat.lt_succ_self _)]; simp
  · obtain ⟨l, hl⟩ := chain_closes .debug _ h' _ (Nat.lt_succ_self _)
    rw [hl]; simp
  · rw [chain_rejected .debug _ h' _ (Nat.lt_succ_self _)]; simp

/-- C40 (part): in either build, header decoding returns a header or an error unless a chain is
announced and is one of `ChainPanics`; in particular without extension headers it never panics. -/
theorem C40_no_panic_partial (m : Mode) (b : Bytes)
    (h : hasChain (b.getD 0 0) → ¬ ChainPanics (b.drop 11)) :
    Header.unmarshal m b ≠ .panic ∧ Header.unmarshal m b ≠ .diverge := by
  obtain ⟨s1, s2, s3⟩ := header_shape m b
  by_cases hf : FixedOk b
  rotate_left
  · rcases s1 hf with h | h <;> simp [h]
  by_cases hc : hasChain (b.getD 0 0)
  rotate_left
  · obtain ⟨h, hh, -⟩ := s2 hf hc
    simp [hh]
  obtain ⟨g, hg, -⟩ := s3 hf hc
  rw [hg, Header.unmarshalExts]
  rcases chain_cases _ (b.drop 11) (Nat.le_refl _) with h' | h' | h'
  · exact absurd h' (h hc)
  · obtain ⟨l, hl⟩ := chain_closes m _ h' _ (Nat.lt_succ_self _)
    rw [hl]; simp
  · rw [chain_rejected m _ h' _ (Nat.lt_succ_self _)]; simp

/-- Chains on which the loop of a release build never ends: `length * 4` wraps to 0 for a known header
kind (whose decoder does not slice), so the cursor does not move. -/
inductive ChainSpins : Bytes → Prop
  | stuck (t l : UInt8) (r : Bytes) : l.toNat % 64 = 0 → 0 < l.toNat → isFixed t → 2 ≤ r.length →
      ChainSpins (t :: l :: r)
  | next (t l : UInt8) (r : Bytes) : t ≠ 0 → 0 < 4 * l.toNat % 256 →
      4 * l.toNat % 256 ≤ (t :: l :: r).length →
      ChainSpins ((t :: l :: r).drop (4 * l.toNat % 256)) → ChainSpins (t :: l :: r)

theorem chain_spins (b : Bytes) (h : ChainSpins b) : ∀ f, Header.extLoop .release f b = .diverge := by
  induction h with
  | stuck t l r h1 h2 hk hr =>
    have hl : l ≠ 0 := by rintro rfl; simp at h2
    have ht : t ≠ 0 := by rintro rfl; revert hk; decide
    have hn : 4 * l.toNat % 256 = 0 := by omega
    have he : ∃ x, ExtHdr.unmarshal .release (t :: l :: r) = .ok x ∧ x ≠ .noMore ∧
        x.len .release = .ok 0 := by
      rw [ext_cons _ t l r ht, if_neg hl, len4_release, R.ok_bind, hn, if_pos (by omega)]
      rcases extBody_cases t l 0 r with ⟨⟨x, hx⟩, -⟩ | ⟨-, ⟨-, hlt⟩ | ⟨hk', -⟩⟩
      · obtain ⟨a, c⟩ := extBody_post .release _ _ _ _ _ hx
        exact ⟨x, hx, a, by rw [c, len4_release, hn]⟩
      · omega
      · exact absurd hk hk'
    obtain ⟨x, e1, e2, e3⟩ := he
    intro f
    induction f with
    | zero => rfl
    | succ f ih =>
      rw [loop_step e1 e2 e3 (by omega), List.drop_zero, ih]
      rfl
  | next t l r ht h0 hle hs ih =>
    intro f
    match f with
    | 0 => rfl
    | f + 1 =>
      have hl : l ≠ 0 := by rintro rfl; simp at h0
      have hle' : 4 * l.toNat % 256 ≤ r.length + 2 := hle
      have he : ExtHdr.unmarshal .release (t :: l :: r) =
          extBody t l (4 * l.toNat % 256) (t :: l :: r) := by
        rw [ext_cons _ t l r ht, if_neg hl, len4_release, R.ok_bind, if_pos hle']
      rcases extBody_cases t l (4 * l.toNat % 256) r with ⟨⟨x, hx⟩, -⟩ | ⟨hp, hk⟩
      · obtain ⟨a, c⟩ := extBody_post .release _ _ _ _ _ hx
        rw [loop_step (he.trans hx) a (by rw [c, len4_release]) hle, ih f]
        rfl
      · omega

/-- C40 (part): when a release build loops forever. -/
theorem C40_spins (b : Bytes) (hf : FixedOk b) (hc : hasChain (b.getD 0 0))
    (h : ChainSpins (b.drop 11)) : Header.unmarshal .release b = .diverge := by
  obtain ⟨g, hg, -⟩ := (header_shape .release b).2.2 hf hc
  rw [hg, Header.unmarshalExts, chain_spins _ h]
  rfl

/-- C40 is violated: a header cut before its extension headers end, and a length octet of 64, panic;
in a release build the latter makes the decoder loop forever. -/
theorem C40_violation :
    Header.unmarshal .debug [0x36, 2, 0, 8, 0, 0, 0, 0, 0, 0, 0, 0xc0] = .panic ∧
    Header.unmarshal .debug [0x36, 2, 0, 8, 0, 0, 0, 0, 0, 0, 0, 0xc0, 64, 0, 0, 0] = .panic ∧
    Header.unmarshal .release [0x36, 2, 0, 8, 0, 0, 0, 0, 0, 0, 0, 0xc0, 64, 0, 0, 0] = .diverge := by
  refine ⟨by decide +kernel, by decide +kernel, ?_⟩
  refine C40_spins _ ⟨by decide, by decide, by decide⟩ (by decide) ?_
  exact .stuck 0xc0 64 [0, 0, 0] (by decide) (by decide) (by decide) (by decide)

example : FixedOk [0x36, 2, 0, 8, 0, 0, 0, 0, 0, 0, 0, 0xc0] ∧
    ChainPanics ([0x36, 2, 0, 8, 0, 0, 0, 0, 0, 0, 0, 0xc0].drop 11) :=
  ⟨⟨by decide, by decide, by decide⟩, .noLength 0xc0 (by decide)⟩

end Gtp.Props.C1
