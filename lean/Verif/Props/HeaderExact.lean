import Verif.Props.Header
import Verif.Props.UHeader
import Verif.Props.CHeader

/-!
# C01, C25, C27, C28, C34, C41, C42: the conditions of the header theorems are necessary

A GTPv2-C header survives encoding and decoding if and only if it is well-formed. An extension header is decoded back and accounted
with the octets it takes if and only if it is well-formed, and the computed size of a GTPv1 header is right if and only if the length
octets of its extension headers add up to the octets written.
-/

namespace Gtp.Props

theorem of24_lt (a b c : UInt8) : (of32 0 a b c).toNat < 2 ^ 24 := by
  have := a.toNat_lt; have := b.toNat_lt; have := c.toNat_lt
  simp [of32]; omega

theorem rd24_lt {ε : Type} {b : Bytes} {i : Nat} {v : UInt32} (h : (rd24 b i : R ε UInt32) = .ok v) : v.toNat < 2 ^ 24 := by
  unfold rd24 at h
  cases h0 : (rd b i : R ε UInt8) <;> simp [h0] at h
  cases h1 : (rd b (i + 1) : R ε UInt8) <;> simp [h1] at h
  cases h2 : (rd b (i + 2) : R ε UInt8) <;> simp [h2] at h
  rw [← h]; exact of24_lt _ _ _

theorem prio_unshift : ∀ p : UInt8, (p <<< 4) >>> 4 = p → p.toNat < 16 := by decide +kernel

/-! ## GTPv2-C -/

open Gtp.V2 in
/-- C01, exactly. -/
theorem C01_exact (h : V2.Header) (tail : Bytes) : V2.Header.unmarshal (h.marshal ++ tail) = .ok h ↔ HeaderWF h := by
  refine ⟨fun e => ?_, fun wf => C01_header_roundtrip h wf tail⟩
  obtain ⟨msgtype, pig, prio, length, teid, sqn⟩ := h
  cases teid with
  | none =>
    by_cases h4 : 4 ≤ length.toNat
    · have e0 : ¬ length = 0 := by rintro rfl; simp at h4
      have e4 : ¬ length < 4 := by rw [UInt16.lt_iff_toNat_lt]; simp; omega
      cases prio with
      | none =>
        refine ⟨?_, by simp, fun _ => h4, by simp⟩
        cases pig <;>
          simp [Header.unmarshal, Header.marshal, Header.flags, be16, be24, rd16, rd24, e0, e4, Header.default] at e <;>
          · rw [← e]; exact of24_lt _ _ _
      | some p =>
        cases pig <;>
          simp [Header.unmarshal, Header.marshal, Header.flags, be16, be24, rd16, rd24, e0, e4, Header.default] at e
    · have e4 : length < 4 := by rw [UInt16.lt_iff_toNat_lt]; simp; omega
      cases prio <;> cases pig <;>
        simp [Header.unmarshal, Header.marshal, Header.flags, be16, be24, rd16, rd24, e4, Header.default] at e <;>
        split at e <;> cases e
  | some t =>
    by_cases h8 : 8 ≤ length.toNat
    · have e8 : ¬ length < 8 := by rw [UInt16.lt_iff_toNat_lt]; simp; omega
      refine ⟨?_, fun p hp => ⟨?_, by simp⟩, by simp, fun _ => h8⟩
      · cases prio <;> cases pig <;>
          simp [Header.unmarshal, Header.marshal, Header.flags, be16, be24, be32, rd16, rd24, rd32, e8] at e
        all_goals first | (rw [← e]; exact of24_lt _ _ _) | (rw [← e.2]; exact of24_lt _ _ _)
      · cases hp
        cases pig <;>
          simp [Header.unmarshal, Header.marshal, Header.flags, be16, be24, be32, rd16, rd24, rd32, e8] at e
        all_goals exact prio_unshift p e.1
    · have e8 : length < 8 := by rw [UInt16.lt_iff_toNat_lt]; simp; omega
      cases prio <;> cases pig <;>
        simp [Header.unmarshal, Header.marshal, Header.flags, be16, be24, be32, rd16, rd24, rd32, e8] at e

/-! ## GTPv1-U -/

section
open Gtp.V1 Gtp.U

/-- What a decoded extension header says about the octets it was read from. -/
def ReadFrom (t l : UInt8) (n : Nat) : ExtHdr → Prop
  | .noMore => False
  | .pdcpPduNumber x => t = 0xc0 ∧ x.t = 0xc0 ∧ x.length = l
  | .udpPort x => t = 0x40 ∧ x.t = 0x40 ∧ x.length = l
  | .longPdcpPduNumber x => (t = 0x03 ∨ t = 0x82) ∧ x.t = t ∧ x.length = l ∧ x.number.toNat < 2 ^ 24
  | .sci x => t = 0x20 ∧ x.t = 0x20 ∧ x.length = l
  | .ranContainer x => t = 0x81 ∧ x.t = t ∧ x.length = l ∧ 2 + x.container.length = n
  | .xwRanContainer x => t = 0x83 ∧ x.t = t ∧ x.length = l ∧ 2 + x.container.length = n
  | .nrRanContainer x => t = 0x84 ∧ x.t = t ∧ x.length = l ∧ 2 + x.container.length = n
  | .pduSessionContainer x => t = 0x85 ∧ x.t = t ∧ x.length = l ∧ 2 + x.container.length = n
  | .unknown x => x.t = t ∧ t ∉ extTypes ∧ x.length = l ∧ 2 + x.container.length = n

theorem extBody_readFrom {t l : UInt8} {n : Nat} {b : Bytes} {x : ExtHdr} (ht : t ≠ 0) (h : extBody t l n b = .ok x) :
    ReadFrom t l n x := by
  unfold extBody at h
  split at h
  · rename_i h1
    cases hv : (rd16 b 2 : R Err UInt16) <;> simp [hv] at h; subst h; exact ⟨h1, rfl, rfl⟩
  split at h
  · rename_i h1
    cases hv : (rd16 b 2 : R Err UInt16) <;> simp [hv] at h; subst h; exact ⟨h1, rfl, rfl⟩
  split at h
  · rename_i h1
    cases hv : (rd24 b 2 : R Err UInt32) <;> simp [hv] at h; subst h; exact ⟨h1, rfl, rfl, rd24_lt hv⟩
  split at h
  · rename_i h1
    cases hv : (rd b 2 : R Err UInt8) <;> simp [hv] at h; subst h; exact ⟨h1, rfl, rfl⟩
  · rename_i h1 h2 h3 h4
    cases hv : (sl b 2 n : R Err Bytes) <;> simp [hv] at h; subst h
    rename_i v
    have hl : 2 + v.length = n := by
      unfold sl at hv
      split at hv
      · have := R.ok.inj hv; subst this; simp; omega
      · cases hv
    split
    · rename_i h; exact ⟨h, h.symm, rfl, hl⟩
    split
    · rename_i h; exact ⟨h, h.symm, rfl, hl⟩
    split
    · rename_i h; exact ⟨h, h.symm, rfl, hl⟩
    split
    · rename_i h; exact ⟨h, h.symm, rfl, hl⟩
    · refine ⟨rfl, ?_, rfl, hl⟩
      simp [extTypes]
      simp_all

theorem len4_inv {l : UInt8} {n : Nat} (h : len4 .debug l = .ok n) : l.toNat < 64 ∧ n = 4 * l.toNat := by
  by_cases hl : l.toNat < 64
  · rw [len4_ok hl] at h; exact ⟨hl, (R.ok.inj h).symm⟩
  · rw [len4_debug (by omega)] at h; cases h

theorem uext_readFrom {t l : UInt8} {r : Bytes} {x : ExtHdr} (h : ExtHdr.unmarshal .debug (t :: l :: r) = .ok x) (hx : x ≠ .noMore) :
    l.toNat < 64 ∧ ReadFrom t l (4 * l.toNat) x := by
  by_cases ht : t = 0
  · subst ht; rw [ext_zero] at h; exact absurd (R.ok.inj h).symm hx
  · rw [ext_cons _ _ _ _ ht] at h
    split at h
    · cases h
    by_cases hl : l.toNat < 64
    · rw [len4_ok hl, R.ok_bind] at h
      split at h
      · exact ⟨hl, extBody_readFrom ht h⟩
      · cases h
    · rw [len4_debug (by omega)] at h; cases h

/-- C28, exactly: an extension header is decoded back, and is accounted with the octets it takes, if and only if it is well-formed. -/
theorem C28_exact (x : ExtHdr) (tail : Bytes) : (ExtHdr.unmarshal .debug (x.marshal ++ tail) = .ok x ∧
    x.len .debug = .ok x.marshal.length) ↔ ExtWF x := by
  refine ⟨?_, fun wf => ⟨(C28_ext_header .debug x wf tail).1, (C28_ext_header .debug x wf tail).2.1⟩⟩
  rintro ⟨h, hl⟩
  have one : ∀ {l : UInt8} {k : Nat}, l.toNat < 64 → 4 * k = 4 * l.toNat → k < 256 → l = UInt8.ofNat k := fun h1 h2 h3 => by
    apply UInt8.toNat_inj.mp; simp; omega
  cases x with
  | noMore => cases hl
  | pdcpPduNumber x =>
    obtain ⟨t, l, v⟩ := x
    obtain ⟨h1, h2, h3, -⟩ := uext_readFrom h (by simp)
    exact ⟨h3, one (k := 1) h1 (len4_inv hl).2 (by omega)⟩
  | udpPort x =>
    obtain ⟨t, l, v⟩ := x
    obtain ⟨h1, h2, h3, -⟩ := uext_readFrom h (by simp)
    exact ⟨h3, one (k := 1) h1 (len4_inv hl).2 (by omega)⟩
  | longPdcpPduNumber x =>
    obtain ⟨t, l, v⟩ := x
    obtain ⟨h1, h2, -, -, h3⟩ := uext_readFrom h (by simp)
    exact ⟨h2, one (k := 2) h1 (len4_inv hl).2 (by omega), h3⟩
  | sci x =>
    obtain ⟨t, l, v⟩ := x
    obtain ⟨h1, h2, h3, -⟩ := uext_readFrom h (by simp)
    exact ⟨h3, one (k := 1) h1 (len4_inv hl).2 (by omega)⟩
  | ranContainer x =>
    obtain ⟨t, l, v⟩ := x
    obtain ⟨h1, h2, -, -, h3⟩ := uext_readFrom h (by simp)
    exact ⟨h2, h1, h3⟩
  | xwRanContainer x =>
    obtain ⟨t, l, v⟩ := x
    obtain ⟨h1, h2, -, -, h3⟩ := uext_readFrom h (by simp)
    exact ⟨h2, h1, h3⟩
  | nrRanContainer x =>
    obtain ⟨t, l, v⟩ := x
    obtain ⟨h1, h2, -, -, h3⟩ := uext_readFrom h (by simp)
    exact ⟨h2, h1, h3⟩
  | pduSessionContainer x =>
    obtain ⟨t, l, v⟩ := x
    obtain ⟨h1, h2, -, -, h3⟩ := uext_readFrom h (by simp)
    exact ⟨h2, h1, h3⟩
  | unknown x =>
    obtain ⟨t, l, v⟩ := x
    obtain ⟨h1, -, h2, -, h3⟩ := uext_readFrom h (by simp)
    exact ⟨h2, h1, h3⟩

theorem chainOctets_cons (l : List ExtHdr) : ∃ c cs, chainOctets l = c :: cs := by
  match hl : chainOctets l with
  | c :: cs => exact ⟨c, cs, rfl⟩
  | [] =>
    have : ∀ l : List ExtHdr, 0 < (chainOctets l).length := by
      intro l; induction l <;> simp [chainOctets]; omega
    have := this l
    rw [hl] at this; cases this

/-- A chain of extension headers that are accounted with the octets they take is decoded back only if all are well-formed. -/
theorem chain_exact : ∀ (l : List ExtHdr) (fuel : Nat) (tail : Bytes), (∀ x ∈ l, x.len .debug = .ok x.marshal.length) →
    U.Header.extLoop .debug fuel (chainOctets l ++ tail) = .ok l → ∀ x ∈ l, ExtWF x
  | [], _, _, _, _ => by simp
  | x :: r, 0, _, _, h => by cases h
  | x :: r, fuel + 1, tail, hl, h => by
    have hx := hl x (by simp)
    simp only [U.Header.extLoop, chainOctets, List.append_assoc] at h
    cases hu : ExtHdr.unmarshal .debug (x.marshal ++ (chainOctets r ++ tail)) with
    | ok i =>
      rw [hu, R.ok_bind] at h
      split at h
      · cases h
      · cases hn : i.len .debug with
        | ok n =>
          rw [hn, R.ok_bind] at h
          cases hs : (slFrom (x.marshal ++ (chainOctets r ++ tail)) n : R Err Bytes) with
          | ok b' =>
            rw [hs, R.ok_bind] at h
            cases ho : U.Header.extLoop .debug fuel b' with
            | ok rest =>
              rw [ho] at h
              obtain ⟨rfl, rfl⟩ := List.cons.inj (R.ok.inj h)
              rw [hx] at hn
              cases R.ok.inj hn
              rw [slFrom_ok (by simp), List.drop_left] at hs
              rw [← R.ok.inj hs] at ho
              have ih := chain_exact _ fuel tail (fun y hy => hl y (by simp [hy])) ho
              intro y hy
              rcases List.mem_cons.mp hy with rfl | hy
              · exact (C28_exact _ _).mp ⟨hu, hx⟩
              · exact ih y hy
            | _ => rw [ho] at h; cases h
          | _ => rw [hs] at h; cases h
        | _ => rw [hn] at h; cases h
    | _ => rw [hu] at h; cases h

/-- C25, exactly, for headers whose extension headers are accounted with the octets they take. -/
theorem C25_exact (h : U.Header) (tail : Bytes) (hl : ∀ l, h.exts = some l → ∀ x ∈ l, x.len .debug = .ok x.marshal.length) :
    U.Header.unmarshal .debug (h.marshal ++ tail) = .ok h ↔ UHeaderWF h ∧ HasSqn h := by
  refine ⟨fun e => ?_, fun ⟨wf, hs⟩ => C25_header_roundtrip_partial .debug h wf hs tail⟩
  have wf : UHeaderWF h := by
    obtain ⟨msgtype, length, teid, sqn, npdu, exts⟩ := h
    have h0 : length ≠ 0 := by
      rintro rfl
      have z : of16 0 0 = 0 := by decide
      cases sqn <;> cases npdu <;> cases exts <;>
        simp [U.Header.unmarshal, U.Header.marshal, U.Header.flags, be16, rd16, be32, z] at e
    refine ⟨h0, ?_⟩
    rintro l hx
    simp only at h0 hx
    subst hx
    obtain ⟨c, cs, hcs⟩ := chainOctets_cons l
    have key : U.Header.unmarshalExts .debug (chainOctets l ++ tail) = .ok l := by
      rw [hcs]
      cases hu : U.Header.unmarshalExts .debug (c :: (cs ++ tail)) <;> cases sqn <;> cases npdu <;>
        simp [U.Header.unmarshal, U.Header.marshal, U.Header.flags, be16, be32, rd16, rd32, h0, marshalExts_some, hcs, hu] at e
      all_goals simp_all
    exact chain_exact l _ tail (hl l rfl) key
  exact ⟨wf, (C25_violation_iff .debug h wf tail).mp e⟩

/-- The octets that an extension header claims by its length octet: units of four. -/
def claimed : ExtHdr → Nat
  | .noMore => 1
  | .pdcpPduNumber x => 4 * x.length.toNat
  | .udpPort x => 4 * x.length.toNat
  | .longPdcpPduNumber x => 4 * x.length.toNat
  | .sci x => 4 * x.length.toNat
  | .ranContainer x => 4 * x.length.toNat
  | .xwRanContainer x => 4 * x.length.toNat
  | .nrRanContainer x => 4 * x.length.toNat
  | .pduSessionContainer x => 4 * x.length.toNat
  | .unknown x => 4 * x.length.toNat

theorem ulen_claimed (x : ExtHdr) : x.len .debug = (if claimed x < 256 then .ok (claimed x) else .panic) ∧
    x.len .release = .ok (claimed x % 256) := by
  have key : ∀ l : UInt8, len4 .debug l = (if 4 * l.toNat < 256 then .ok (4 * l.toNat) else .panic) := fun l => by
    by_cases h : l.toNat < 64
    · rw [len4_ok h, if_pos (by omega)]
    · rw [len4_debug (by omega), if_neg (by omega)]
  cases x <;> first | exact ⟨rfl, rfl⟩ | exact ⟨key _, len4_release _⟩

theorem uextsLen_debug : ∀ l : List ExtHdr, U.Header.extsLen .debug l =
    if ∀ x ∈ l, claimed x < 256 then .ok (l.map claimed).sum else .panic
  | [] => by simp [U.Header.extsLen]
  | x :: r => by
    simp only [U.Header.extsLen, (ulen_claimed x).1, uextsLen_debug r, List.forall_mem_cons, List.map_cons, List.sum_cons]
    by_cases h1 : claimed x < 256
    · by_cases h2 : ∀ x ∈ r, claimed x < 256
      · rw [if_pos h1, if_pos h2, if_pos ⟨h1, h2⟩]; rfl
      · rw [if_pos h1, if_neg h2, if_neg (fun h => h2 h.2)]; rfl
    · rw [if_neg h1, if_neg (fun h : _ ∧ _ => h1 h.1)]; rfl

theorem uextsLen_release : ∀ l : List ExtHdr, U.Header.extsLen .release l = .ok (l.map fun x => claimed x % 256).sum
  | [] => rfl
  | x :: r => by simp [U.Header.extsLen, (ulen_claimed x).2, uextsLen_release r]

theorem chainOctets_length : ∀ l : List ExtHdr, (chainOctets l).length = (l.map fun x => x.marshal.length).sum + 1
  | [] => rfl
  | x :: r => by simp only [chainOctets, List.length_append, chainOctets_length r, List.map_cons, List.sum_cons]; omega

/-- C27, exactly: the computed size of a header is the number of octets written if and only if no extension header claims 256 octets
or more and the claimed octets add up to those written; a release build computes the claims modulo 256. -/
theorem C27_exact (h : U.Header) :
    (h.size .debug = .ok h.marshal.length ↔ ∀ l, h.exts = some l → (∀ x ∈ l, claimed x < 256) ∧
      (l.map claimed).sum = (l.map fun x => x.marshal.length).sum) ∧
    (h.size .debug = .panic ↔ ∃ l, h.exts = some l ∧ ∃ x ∈ l, 256 ≤ claimed x) ∧
    (h.size .release = .ok h.marshal.length ↔ ∀ l, h.exts = some l →
      (l.map fun x => claimed x % 256).sum = (l.map fun x => x.marshal.length).sum) := by
  obtain ⟨msgtype, length, teid, sqn, npdu, exts⟩ := h
  cases exts with
  | none => cases sqn <;> cases npdu <;> simp [U.Header.size, U.Header.marshal, be16, be32]
  | some l =>
    have hm : (U.Header.marshal ⟨msgtype, length, teid, sqn, npdu, some l⟩).length = 12 + (l.map fun x => x.marshal.length).sum := by
      cases sqn <;> cases npdu <;> simp [U.Header.marshal, be16, be32, marshalExts_some, chainOctets_length] <;> omega
    have hd : ∀ m, U.Header.size m ⟨msgtype, length, teid, sqn, npdu, some l⟩ =
        (U.Header.extsLen m l >>= fun n => .ok (8 + 2 + 1 + n + 1)) := fun m => by
      cases sqn <;> cases npdu <;> rfl
    simp only [hm, hd, uextsLen_debug, uextsLen_release, R.ok_bind, R.ok.injEq, Option.some.injEq, forall_eq', exists_eq_left']
    by_cases hc : ∀ x ∈ l, claimed x < 256
    · rw [if_pos hc, R.ok_bind]
      refine ⟨⟨fun h => ⟨hc, by have := R.ok.inj h; omega⟩, fun h => by rw [h.2]; congr 1; omega⟩,
        ⟨(fun h => nomatch h), fun ⟨x, h1, h2⟩ => by have := hc x h1; omega⟩, by omega⟩
    · rw [if_neg hc]
      refine ⟨⟨(fun h => nomatch h), fun h => absurd h.1 hc⟩, ⟨fun _ => ?_, fun _ => rfl⟩, by omega⟩
      simpa using hc

/-- The condition of `C25_exact` holds for a chain of two. -/
example : ∀ x ∈ [ExtHdr.udpPort ⟨0x40, 1, 2152⟩, .longPdcpPduNumber ⟨0x82, 2, 0xabcdef⟩], x.len .debug = .ok x.marshal.length := by
  decide +kernel

/-- It is needed: this long PDCP PDU number claims four of the eight octets it takes, and its number ends in a zero octet, which is
taken for the end of the chain. -/
theorem C25_unaccounted : ∃ h : U.Header, h.exts = some [.longPdcpPduNumber ⟨3, 1, 0x010200⟩] ∧ ¬ UHeaderWF h ∧
    U.Header.unmarshal .debug (h.marshal ++ [7, 7]) = .ok h :=
  ⟨⟨255, 100, 1, some 77, none, some [.longPdcpPduNumber ⟨3, 1, 0x010200⟩]⟩, rfl,
    fun h => absurd (h.2 _ rfl _ (List.mem_singleton.mpr rfl)).2.1 (by decide), by decide +kernel⟩

/-- A chain whose claims add up although none of them is right, and one whose claim is too large. -/
example : (U.Header.size .debug ⟨255, 8, 1, none, none, some [.sci ⟨0x20, 2, 1⟩, .longPdcpPduNumber ⟨3, 1, 9⟩]⟩ = .ok 24) ∧
    (claimed (.sci ⟨0x20, 64, 1⟩) = 256) := by decide +kernel

end

end Gtp.Props

namespace Gtp.Props.C1

/-! ## GTPv1-C -/

open Gtp.V1 Gtp.C1
open Gtp.U (len4 len4_ok len4_debug len4_release)

/-- What a decoded extension header says about the octets it was read from. -/
def ReadFrom (t l : UInt8) (n : Nat) : ExtHdr → Prop
  | .noMore => False
  | .pdcpPduNumber x => x.t = 0xc0 ∧ x.length = l
  | .suspendRequest x => x.t = 0xc1 ∧ x.length = l
  | .suspendResponse x => x.t = 0xc2 ∧ x.length = l
  | .mbmsSupport x => x.t = 1 ∧ x.length = l
  | .msInfoChange x => x.t = 2 ∧ x.length = l
  | .unknown x => x.t = t ∧ t ∉ extTypes ∧ x.length = l ∧ 2 + x.value.length = n

theorem extBody_readFrom {t l : UInt8} {n : Nat} {b : Bytes} {x : ExtHdr} (ht : t ≠ 0) (h : extBody t l n b = .ok x) :
    ReadFrom t l n x := by
  unfold extBody at h
  split at h
  · cases hv : (rd16 b 2 : R Err UInt16) <;> simp [hv] at h; subst h; exact ⟨rfl, rfl⟩
  split at h
  · cases hv : (rd16 b 2 : R Err UInt16) <;> simp [hv] at h; subst h; exact ⟨rfl, rfl⟩
  split at h
  · cases hv : (rd16 b 2 : R Err UInt16) <;> simp [hv] at h; subst h; exact ⟨rfl, rfl⟩
  split at h
  · cases hv : (rd16 b 2 : R Err UInt16) <;> simp [hv] at h; subst h; exact ⟨rfl, rfl⟩
  split at h
  · cases hv : (rd16 b 2 : R Err UInt16) <;> simp [hv] at h; subst h; exact ⟨rfl, rfl⟩
  · cases hv : (sl b 2 n : R Err Bytes) <;> simp [hv] at h; subst h
    rename_i v
    have hl : 2 + v.length = n := by
      unfold sl at hv
      split at hv
      · have := R.ok.inj hv; subst this; simp; omega
      · cases hv
    refine ⟨rfl, ?_, rfl, hl⟩
    simp [extTypes]
    simp_all

theorem cext_readFrom {t l : UInt8} {r : Bytes} {x : ExtHdr} (h : ExtHdr.unmarshal .debug (t :: l :: r) = .ok x) (hx : x ≠ .noMore) :
    l.toNat < 64 ∧ ReadFrom t l (4 * l.toNat) x := by
  by_cases ht : t = 0
  · subst ht; rw [ext_zero] at h; exact absurd (R.ok.inj h).symm hx
  · rw [ext_cons _ _ _ _ ht] at h
    split at h
    · cases h
    by_cases hl : l.toNat < 64
    · rw [len4_ok hl, R.ok_bind] at h
      split at h
      · exact ⟨hl, extBody_readFrom ht h⟩
      · cases h
    · rw [len4_debug (by omega)] at h; cases h

/-- C42, exactly: an extension header is decoded back, and is accounted with the octets it takes, if and only if it is well-formed. -/
theorem C42_exact (x : ExtHdr) (tail : Bytes) : (ExtHdr.unmarshal .debug (x.marshal ++ tail) = .ok x ∧
    x.len .debug = .ok x.marshal.length) ↔ ExtWF x := by
  refine ⟨?_, fun wf => ⟨(C42_ext_header .debug x wf tail).1, (C42_ext_header .debug x wf tail).2.1⟩⟩
  rintro ⟨h, hl⟩
  have one : ∀ {l : UInt8}, len4 .debug l = .ok 4 → l = 1 := fun h => by
    have := len4_inv h
    apply UInt8.toNat_inj.mp; simp; omega
  cases x with
  | noMore => cases hl
  | pdcpPduNumber x =>
    obtain ⟨t, l, v⟩ := x
    exact ⟨(cext_readFrom h (by simp)).2.1, one hl⟩
  | suspendRequest x =>
    obtain ⟨t, l, v⟩ := x
    exact ⟨(cext_readFrom h (by simp)).2.1, one hl⟩
  | suspendResponse x =>
    obtain ⟨t, l, v⟩ := x
    exact ⟨(cext_readFrom h (by simp)).2.1, one hl⟩
  | mbmsSupport x =>
    obtain ⟨t, l, v⟩ := x
    exact ⟨(cext_readFrom h (by simp)).2.1, one hl⟩
  | msInfoChange x =>
    obtain ⟨t, l, v⟩ := x
    exact ⟨(cext_readFrom h (by simp)).2.1, one hl⟩
  | unknown x =>
    obtain ⟨t, l, v⟩ := x
    obtain ⟨h1, -, h2, -, h3⟩ := cext_readFrom h (by simp)
    exact ⟨h2, h1, h3⟩

theorem chainOctets_cons (l : List ExtHdr) : ∃ c cs, chainOctets l = c :: cs := by
  match hl : chainOctets l with
  | c :: cs => exact ⟨c, cs, rfl⟩
  | [] =>
    have : ∀ l : List ExtHdr, 0 < (chainOctets l).length := by
      intro l; induction l <;> simp [chainOctets]; omega
    have := this l
    rw [hl] at this; cases this

/-- A chain of extension headers that are accounted with the octets they take is decoded back only if all are well-formed. -/
theorem chain_exact : ∀ (l : List ExtHdr) (fuel : Nat) (tail : Bytes), (∀ x ∈ l, x.len .debug = .ok x.marshal.length) →
    C1.Header.extLoop .debug fuel (chainOctets l ++ tail) = .ok l → ∀ x ∈ l, ExtWF x
  | [], _, _, _, _ => by simp
  | x :: r, 0, _, _, h => by cases h
  | x :: r, fuel + 1, tail, hl, h => by
    have hx := hl x (by simp)
    simp only [C1.Header.extLoop, chainOctets, List.append_assoc] at h
    cases hu : ExtHdr.unmarshal .debug (x.marshal ++ (chainOctets r ++ tail)) with
    | ok i =>
      rw [hu, R.ok_bind] at h
      split at h
      · cases h
      · cases hn : i.len .debug with
        | ok n =>
          rw [hn, R.ok_bind] at h
          cases hs : (slFrom (x.marshal ++ (chainOctets r ++ tail)) n : R Err Bytes) with
          | ok b' =>
            rw [hs, R.ok_bind] at h
            cases ho : C1.Header.extLoop .debug fuel b' with
            | ok rest =>
              rw [ho] at h
              obtain ⟨rfl, rfl⟩ := List.cons.inj (R.ok.inj h)
              rw [hx] at hn
              cases R.ok.inj hn
              rw [slFrom_ok (by simp), List.drop_left] at hs
              rw [← R.ok.inj hs] at ho
              have ih := chain_exact _ fuel tail (fun y hy => hl y (by simp [hy])) ho
              intro y hy
              rcases List.mem_cons.mp hy with rfl | hy
              · exact (C42_exact _ _).mp ⟨hu, hx⟩
              · exact ih y hy
            | _ => rw [ho] at h; cases h
          | _ => rw [hs] at h; cases h
        | _ => rw [hn] at h; cases h
    | _ => rw [hu] at h; cases h

/-- C34, exactly, for headers whose extension headers are accounted with the octets they take. -/
theorem C34_exact (h : C1.Header) (tail : Bytes) (hl : ∀ l, h.exts = some l → ∀ x ∈ l, x.len .debug = .ok x.marshal.length) :
    C1.Header.unmarshal .debug (h.marshal ++ tail) = .ok h ↔ HeaderWF h := by
  refine ⟨fun e => ?_, fun wf => C34_header_roundtrip .debug h wf tail⟩
  obtain ⟨msgtype, length, teid, sqn, npdu, exts⟩ := h
  rintro l hx
  simp only at hx
  subst hx
  obtain ⟨c, cs, hcs⟩ := chainOctets_cons l
  have key : C1.Header.unmarshalExts .debug (chainOctets l ++ tail) = .ok l := by
    rw [hcs]
    cases hu : C1.Header.unmarshalExts .debug (c :: (cs ++ tail)) <;> cases sqn <;> cases npdu <;>
      simp [C1.Header.unmarshal, C1.Header.marshal, C1.Header.flags, be16, be32, rd16, rd32, C1.Header.rdSqn,
        C1.Header.rdNpdu, C1.Header.rdExts, marshalExts_some, hcs, hu] at e
    all_goals (repeat' split at e) <;> simp_all
  exact chain_exact l _ tail (hl l rfl) key

/-- The octets that an extension header claims by its length octet: units of four. -/
def claimed : ExtHdr → Nat
  | .noMore => 1
  | .pdcpPduNumber x => 4 * x.length.toNat
  | .suspendRequest x => 4 * x.length.toNat
  | .suspendResponse x => 4 * x.length.toNat
  | .mbmsSupport x => 4 * x.length.toNat
  | .msInfoChange x => 4 * x.length.toNat
  | .unknown x => 4 * x.length.toNat

theorem clen_claimed (x : ExtHdr) : x.len .debug = (if claimed x < 256 then .ok (claimed x) else .panic) ∧
    x.len .release = .ok (claimed x % 256) := by
  have key : ∀ l : UInt8, len4 .debug l = (if 4 * l.toNat < 256 then .ok (4 * l.toNat) else .panic) := fun l => by
    by_cases h : l.toNat < 64
    · rw [len4_ok h, if_pos (by omega)]
    · rw [len4_debug (by omega), if_neg (by omega)]
  cases x <;> first | exact ⟨rfl, rfl⟩ | exact ⟨key _, len4_release _⟩

theorem cextsLen_debug : ∀ l : List ExtHdr, C1.Header.extsLen .debug l =
    if ∀ x ∈ l, claimed x < 256 then .ok (l.map claimed).sum else .panic
  | [] => by simp [C1.Header.extsLen]
  | x :: r => by
    simp only [C1.Header.extsLen, (clen_claimed x).1, cextsLen_debug r, List.forall_mem_cons, List.map_cons, List.sum_cons]
    by_cases h1 : claimed x < 256
    · by_cases h2 : ∀ x ∈ r, claimed x < 256
      · rw [if_pos h1, if_pos h2, if_pos ⟨h1, h2⟩]; rfl
      · rw [if_pos h1, if_neg h2, if_neg (fun h => h2 h.2)]; rfl
    · rw [if_neg h1, if_neg (fun h : _ ∧ _ => h1 h.1)]; rfl

theorem cextsLen_release : ∀ l : List ExtHdr, C1.Header.extsLen .release l = .ok (l.map fun x => claimed x % 256).sum
  | [] => rfl
  | x :: r => by simp [C1.Header.extsLen, (clen_claimed x).2, cextsLen_release r]

theorem chainOctets_length : ∀ l : List ExtHdr, (chainOctets l).length = (l.map fun x => x.marshal.length).sum + 1
  | [] => rfl
  | x :: r => by simp only [chainOctets, List.length_append, chainOctets_length r, List.map_cons, List.sum_cons]; omega

/-- C41, exactly: `len` of a header is the number of octets written if and only if no extension header claims 256 octets
or more and the claimed octets add up to those written; a release build computes the claims modulo 256. -/
theorem C41_exact (h : C1.Header) :
    (h.len .debug = .ok h.marshal.length ↔ ∀ l, h.exts = some l → (∀ x ∈ l, claimed x < 256) ∧
      (l.map claimed).sum = (l.map fun x => x.marshal.length).sum) ∧
    (h.len .debug = .panic ↔ ∃ l, h.exts = some l ∧ ∃ x ∈ l, 256 ≤ claimed x) ∧
    (h.len .release = .ok h.marshal.length ↔ ∀ l, h.exts = some l →
      (l.map fun x => claimed x % 256).sum = (l.map fun x => x.marshal.length).sum) := by
  obtain ⟨msgtype, length, teid, sqn, npdu, exts⟩ := h
  cases exts with
  | none => cases sqn <;> cases npdu <;> simp [C1.Header.len, C1.Header.marshal, be16, be32]
  | some l =>
    have hm : (C1.Header.marshal ⟨msgtype, length, teid, sqn, npdu, some l⟩).length = 12 + (l.map fun x => x.marshal.length).sum := by
      cases sqn <;> cases npdu <;> simp [C1.Header.marshal, be16, be32, marshalExts_some, chainOctets_length] <;> omega
    have hd : ∀ m, C1.Header.len m ⟨msgtype, length, teid, sqn, npdu, some l⟩ =
        (C1.Header.extsLen m l >>= fun n => .ok (8 + 2 + 1 + n + 1)) := fun m => by
      cases sqn <;> cases npdu <;> rfl
    simp only [hm, hd, cextsLen_debug, cextsLen_release, R.ok_bind, R.ok.injEq, Option.some.injEq, forall_eq', exists_eq_left']
    by_cases hc : ∀ x ∈ l, claimed x < 256
    · rw [if_pos hc, R.ok_bind]
      refine ⟨⟨fun h => ⟨hc, by have := R.ok.inj h; omega⟩, fun h => by rw [h.2]; congr 1; omega⟩,
        ⟨(fun h => nomatch h), fun ⟨x, h1, h2⟩ => by have := hc x h1; omega⟩, by omega⟩
    · rw [if_neg hc]
      refine ⟨⟨(fun h => nomatch h), fun h => absurd h.1 hc⟩, ⟨fun _ => ?_, fun _ => rfl⟩, by omega⟩
      simpa using hc

example : ∀ x ∈ [ExtHdr.suspendRequest ⟨0xc1, 1, 2152⟩, .unknown ⟨0x99, 1, [7, 8]⟩], x.len .debug = .ok x.marshal.length := by
  decide +kernel

/-- A chain whose claims add up although none of them is right. -/
example : C1.Header.len .debug ⟨16, 8, 1, none, none, some [.mbmsSupport ⟨1, 2, 1⟩, .unknown ⟨0x99, 1, [1, 2, 3, 4, 5, 6]⟩]⟩ = .ok 24 ∧
    C1.Header.len .debug ⟨16, 8, 1, none, none, some [.mbmsSupport ⟨1, 64, 1⟩]⟩ = .panic := by decide +kernel

end Gtp.Props.C1
