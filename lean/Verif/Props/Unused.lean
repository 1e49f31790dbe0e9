import Verif.Props.Peer
import Verif.Props.CTable
import Verif.Props.Decode1
import Verif.U.Msgs

/-!
# C98: spare bits and unused fields of a header are not evaluated by the receiver

TS 29.274, clause 5; TS 29.060, clause 6; TS 29.281, clause 5.1: "The receiver shall not evaluate the unused fields." For whole messages: two buffers that differ
only in such bits and octets give the same result, be it a message, an error or a panic.
-/

namespace Gtp.Props.Unused
open Gtp.V1

/-! ## GTPv2-C -/

/-- Two first octets that differ in the two spare bits at most. -/
def SameFlags2 (f g : UInt8) : Prop := f.toNat / 4 = g.toNat / 4

/-- Two last octets of a header: the spare bits, and without the flag MP the whole octet, may be different. -/
def SameLast (f p q : UInt8) : Prop := f.toNat / 4 % 2 = 1 → p.toNat / 16 = q.toNat / 16

theorem sl_same {ε : Type} {b c : Bytes} {i : Nat} (hl : b.length = c.length) (hd : b.drop i = c.drop i) (j : Nat) : (sl b i j : R ε Bytes) = sl c i j := by
  rw [sl, sl, hl, List.drop_take, List.drop_take, hd]

theorem slFrom_same {ε : Type} {b c : Bytes} {i : Nat} (hl : b.length = c.length) (hd : b.drop i = c.drop i) : (slFrom b i : R ε Bytes) = slFrom c i := by
  rw [slFrom, slFrom, hl, hd]

theorem rd_same {ε : Type} {b c : Bytes} {i : Nat} (hd : b.drop i = c.drop i) : (rd b i : R ε UInt8) = rd c i := by
  have : b[i]? = c[i]? := by
    have h1 : (b.drop i)[0]? = b[i]? := by rw [List.getElem?_drop]; rfl
    have h2 : (c.drop i)[0]? = c[i]? := by rw [List.getElem?_drop]; rfl
    rw [← h1, hd, h2]
  rw [rd, rd, this]

open Gtp.V2 in
theorem v2_same (m : Mode) (k : MsgKind) {b c : Bytes} (hl : b.length = c.length) (hh : Header.unmarshal b = Header.unmarshal c)
    (hd : ∀ s, k.codec.start = some s → b.drop s = c.drop s) : k.codec.unmarshal m b = k.codec.unmarshal m c := by
  unfold Codec.unmarshal
  rw [hh]
  cases Header.unmarshal c with
  | ok h =>
    simp only [R.ok_bind]
    cases hs : k.codec.start with
    | none => rfl
    | some s => simp only [hl, sl_same hl (hd s hs)]
  | err e => rfl
  | panic => rfl
  | diverge => rfl

open Gtp.V2 in
/-- C98, GTPv2-C, with a TEID: for every type that has one. -/
theorem C98_v2_teid (m : Mode) (k : MsgKind) (hk : k ∉ Peer.noTeid) (f g p q : UInt8) (o rest : Bytes) (ho : o.length = 10) (ht : f.toNat / 8 % 2 = 1)
    (hf : SameFlags2 f g) (hp : SameLast f p q) :
    k.codec.unmarshal m (f :: (o ++ p :: rest)) = k.codec.unmarshal m (g :: (o ++ q :: rest)) := by
  match o, ho with
  | [o1, o2, o3, o4, o5, o6, o7, o8, o9, oa], _ =>
  refine v2_same m k rfl ?_ fun s hs => ?_
  · rw [C02_header_total_precise, C02_header_total_precise]
    have a0 : oct (f :: ([o1, o2, o3, o4, o5, o6, o7, o8, o9, oa] ++ p :: rest)) 0 = f.toNat := rfl
    have a1 : oct (g :: ([o1, o2, o3, o4, o5, o6, o7, o8, o9, oa] ++ q :: rest)) 0 = g.toNat := rfl
    have b0 : oct (f :: ([o1, o2, o3, o4, o5, o6, o7, o8, o9, oa] ++ p :: rest)) 11 = p.toNat := rfl
    have b1 : oct (g :: ([o1, o2, o3, o4, o5, o6, o7, o8, o9, oa] ++ q :: rest)) 11 = q.toNat := rfl
    have c : ∀ i, 0 < i → i < 11 → oct (f :: ([o1, o2, o3, o4, o5, o6, o7, o8, o9, oa] ++ p :: rest)) i =
        oct (g :: ([o1, o2, o3, o4, o5, o6, o7, o8, o9, oa] ++ q :: rest)) i := by
      intro i h1 h2
      match i, h1, h2 with
      | 1, _, _ | 2, _, _ | 3, _, _ | 4, _, _ | 5, _, _ | 6, _, _ | 7, _, _ | 8, _, _ | 9, _, _ | 10, _, _ => rfl
    have l : (f :: ([o1, o2, o3, o4, o5, o6, o7, o8, o9, oa] ++ p :: rest)).length = (g :: ([o1, o2, o3, o4, o5, o6, o7, o8, o9, oa] ++ q :: rest)).length := rfl
    unfold SameFlags2 at hf
    unfold SameLast at hp
    have e1 : f.toNat / 32 = g.toNat / 32 := by omega
    have e2 : f.toNat / 8 = g.toNat / 8 := by omega
    have e3 : f.toNat / 16 = g.toNat / 16 := by omega
    simp only [headerSpec, a0, a1, b0, b1, c 1 (by decide) (by decide), c 2 (by decide) (by decide), c 3 (by decide) (by decide), c 4 (by decide) (by decide),
      c 5 (by decide) (by decide), c 6 (by decide) (by decide), c 7 (by decide) (by decide), c 8 (by decide) (by decide), c 9 (by decide) (by decide),
      c 10 (by decide) (by decide), l, e1, e2, e3, hf]
    by_cases h4 : g.toNat / 4 % 2 = 1
    · rw [hp (by omega)]
    · simp only [h4, if_false]
  · have hv : k ≠ .VersionNotSupported := by rintro rfl; exact hk (by decide)
    have := (Peer.start_eq k hv).symm.trans hs
    rw [if_neg hk, Option.some.injEq] at this
    subst this
    rfl

open Gtp.V2 in
/-- C98, GTPv2-C, without a TEID: for all types. -/
theorem C98_v2_plain (m : Mode) (k : MsgKind) (f g p q : UInt8) (o rest : Bytes) (ho : o.length = 6) (ht : f.toNat / 8 % 2 = 0)
    (hf : SameFlags2 f g) :
    k.codec.unmarshal m (f :: (o ++ p :: rest)) = k.codec.unmarshal m (g :: (o ++ q :: rest)) := by
  match o, ho with
  | [o1, o2, o3, o4, o5, o6], _ =>
  refine v2_same m k rfl ?_ fun s hs => ?_
  · rw [C02_header_total_precise, C02_header_total_precise]
    have a0 : oct (f :: ([o1, o2, o3, o4, o5, o6] ++ p :: rest)) 0 = f.toNat := rfl
    have a1 : oct (g :: ([o1, o2, o3, o4, o5, o6] ++ q :: rest)) 0 = g.toNat := rfl
    have c : ∀ i, 0 < i → i < 7 → oct (f :: ([o1, o2, o3, o4, o5, o6] ++ p :: rest)) i = oct (g :: ([o1, o2, o3, o4, o5, o6] ++ q :: rest)) i := by
      intro i h1 h2
      match i, h1, h2 with
      | 1, _, _ | 2, _, _ | 3, _, _ | 4, _, _ | 5, _, _ | 6, _, _ => rfl
    have l : (f :: ([o1, o2, o3, o4, o5, o6] ++ p :: rest)).length = (g :: ([o1, o2, o3, o4, o5, o6] ++ q :: rest)).length := rfl
    unfold SameFlags2 at hf
    have e1 : f.toNat / 32 = g.toNat / 32 := by omega
    have e2 : f.toNat / 8 = g.toNat / 8 := by omega
    have e3 : f.toNat / 16 = g.toNat / 16 := by omega
    rw [e2] at ht
    simp only [headerSpec, a0, a1, c 1 (by decide) (by decide), c 2 (by decide) (by decide), c 3 (by decide) (by decide), c 4 (by decide) (by decide),
      c 5 (by decide) (by decide), c 6 (by decide) (by decide), l, e1, e2, e3, ht, if_true]
  · by_cases hv : k = .VersionNotSupported
    · subst hv; cases hs
    have := (Peer.start_eq k hv).symm.trans hs
    rw [Option.some.injEq] at this
    subst this
    split <;> rfl

/-! ## GTPv1 -/

/-- Two first octets that differ in the spare bit at most. -/
def SameFlags1 (f g : UInt8) : Prop := f.toNat / 16 = g.toNat / 16 ∧ f.toNat % 8 = g.toNat % 8

/-- The octets 9 to 12 of two headers: the fields whose flag is set are the same. -/
def SameUsed (f : UInt8) (u v : Bytes) : Prop :=
  u.length = 4 ∧ v.length = 4 ∧ (f.toNat / 2 % 2 = 1 → u.take 2 = v.take 2) ∧ (f.toNat % 2 = 1 → u[2]? = v[2]?) ∧ (f.toNat / 4 % 2 = 1 → u[3]? = v[3]?)

theorem c_same (m : Mode) (t : C1.Msg) {b c : Bytes} (hl : b.length = c.length) (hh : C1.Header.unmarshal m b = C1.Header.unmarshal m c)
    (hd : ∀ h l, C1.Header.unmarshal m c = .ok h → h.len m = .ok l → b.drop l = c.drop l) : t.desc.unmarshal m b = t.desc.unmarshal m c := by
  unfold C1.Desc.unmarshal
  rw [hh]
  cases hu : C1.Header.unmarshal m c with
  | ok h =>
    simp only [R.ok_bind, hl]
    split
    · rfl
    refine congrArg _ (funext fun n => ?_)
    split
    · cases hn : h.len m with
      | ok l => simp only [R.ok_bind, hd h l hu hn]
      | err e => rfl
      | panic => rfl
      | diverge => rfl
    · rfl
  | err e => rfl
  | panic => rfl
  | diverge => rfl

theorem c_bits : ∀ x : UInt8, (x >>> 5 = 1 ↔ x.toNat / 32 = 1) ∧ ((x >>> 4) &&& 1 = 1 ↔ x.toNat / 16 % 2 = 1) ∧ (x &&& 7 = UInt8.ofNat (x.toNat % 8)) ∧
    ((x >>> 1) &&& 1 = UInt8.ofNat (x.toNat / 2 % 2)) ∧ (x &&& 1 = UInt8.ofNat (x.toNat % 2)) ∧ ((x >>> 2) &&& 1 = UInt8.ofNat (x.toNat / 4 % 2)) ∧
    ((x &&& 0x10) >>> 4 = 1 ↔ x.toNat / 16 % 2 = 1) ∧ ((x &&& 0x02) >>> 1 = 1 ↔ x.toNat / 2 % 2 = 1) ∧ (x &&& 0x01 = 1 ↔ x.toNat % 2 = 1) ∧
    ((x &&& 0x04) >>> 2 = 1 ↔ x.toNat / 4 % 2 = 1) := by decide +kernel

/-- With one of the three flags a header has at least twelve octets. -/
theorem c_len12 {m : Mode} {c : Bytes} {f : UInt8} {h : C1.Header} {l : Nat} (hc : (rd c 0 : R Err UInt8) = .ok f) (hany : f.toNat % 8 ≠ 0)
    (hu : C1.Header.unmarshal m c = .ok h) (hn : h.len m = .ok l) : 12 ≤ l := by
  obtain ⟨-, -, f3, f4, f5, f6, -⟩ := c_bits f
  have hsome : h.sqn.isSome ∨ h.npdu.isSome ∨ h.exts.isSome := by
    rw [C1.Header.unmarshal] at hu
    split at hu
    · cases hu
    rw [hc, R.ok_bind] at hu
    split at hu
    rotate_left
    · cases hu
    obtain ⟨_, -, hu⟩ := C1.ok_of_bind hu
    obtain ⟨_, -, hu⟩ := C1.ok_of_bind hu
    obtain ⟨_, -, hu⟩ := C1.ok_of_bind hu
    rw [if_neg (by rw [f3]; intro h; have := congrArg UInt8.toNat h; rw [UInt8.toNat_ofNat'] at this; simp at this; omega)] at hu
    obtain ⟨s, hs, hu⟩ := C1.ok_of_bind hu
    obtain ⟨n, hn2, hu⟩ := C1.ok_of_bind hu
    obtain ⟨x, hx, hu⟩ := C1.ok_of_bind hu
    cases hu
    rw [f4] at hs
    rw [f5] at hn2
    rw [f6] at hx
    rcases (by omega : f.toNat / 2 % 2 = 1 ∨ f.toNat % 2 = 1 ∨ f.toNat / 4 % 2 = 1) with h | h | h
    · left
      rw [h, C1.Header.rdSqn, if_pos (by decide)] at hs
      split at hs
      · cases hs
      obtain ⟨_, -, hs⟩ := C1.ok_of_bind hs
      cases hs; rfl
    · right; left
      rw [h, C1.Header.rdNpdu, if_pos (by decide)] at hn2
      split at hn2
      · cases hn2
      obtain ⟨_, -, hn2⟩ := C1.ok_of_bind hn2
      cases hn2; rfl
    · right; right
      rw [h, C1.Header.rdExts, if_pos (by decide)] at hx
      split at hx
      · cases hx
      obtain ⟨_, -, hx⟩ := C1.ok_of_bind hx
      obtain ⟨_, -, hx⟩ := C1.ok_of_bind hx
      cases hx; rfl
  unfold C1.Header.len at hn
  split at hn
  · next h1 h2 h3 => simp [h1, h2, h3] at hsome
  · cases hn; omega
  · obtain ⟨k, _, hk⟩ := C1.ok_of_bind hn
    cases hk
    omega

/-- C98, GTPv1-C: the spare bit. -/
theorem C98_c_spare (m : Mode) (t : C1.Msg) (f g : UInt8) (r : Bytes) (hf : SameFlags1 f g) :
    t.desc.unmarshal m (f :: r) = t.desc.unmarshal m (g :: r) := by
  have hd : ∀ i, 0 < i → (f :: r).drop i = (g :: r).drop i := fun i hi => by
    obtain ⟨j, rfl⟩ : ∃ j, i = j + 1 := ⟨i - 1, by omega⟩
    rfl
  have hl : (f :: r).length = (g :: r).length := rfl
  refine c_same m t rfl ?_ fun h l _ hn => hd l (by have := C1.header_len_ge hn; omega)
  obtain ⟨f1, f2, f3, f4, f5, f6, -⟩ := c_bits f
  obtain ⟨g1, g2, g3, g4, g5, g6, -⟩ := c_bits g
  obtain ⟨s1, s2⟩ := hf
  have e1 : f.toNat / 32 = g.toNat / 32 := by omega
  have e2 : f.toNat / 2 % 2 = g.toNat / 2 % 2 := by omega
  have e3 : f.toNat % 2 = g.toNat % 2 := by omega
  have e4 : f.toNat / 4 % 2 = g.toNat / 4 % 2 := by omega
  have z1 : (rd (f :: r) 0 : R Err UInt8) = .ok f := rfl
  have z2 : (rd (g :: r) 0 : R Err UInt8) = .ok g := rfl
  have a1 : ∀ i, 0 < i → (rd (f :: r) i : R Err UInt8) = rd (g :: r) i := fun i hi => rd_same (hd i hi)
  have a2 : ∀ i, 0 < i → (rd16 (f :: r) i : R Err UInt16) = rd16 (g :: r) i := fun i hi => by rw [rd16, rd16, a1 i hi, a1 (i + 1) (by omega)]
  have a3 : (rd32 (f :: r) 4 : R Err UInt32) = rd32 (g :: r) 4 := by
    rw [rd32, rd32, a1 4 (by decide), a1 (4 + 1) (by decide), a1 (4 + 2) (by decide), a1 (4 + 3) (by decide)]
  have b1 : ∀ x, C1.Header.rdSqn x (f :: r) = C1.Header.rdSqn x (g :: r) := fun x => by
    rw [C1.Header.rdSqn, C1.Header.rdSqn, hl, a2 8 (by decide)]
  have b2 : ∀ x, C1.Header.rdNpdu x (f :: r) = C1.Header.rdNpdu x (g :: r) := fun x => by
    rw [C1.Header.rdNpdu, C1.Header.rdNpdu, hl, a1 10 (by decide)]
  have b3 : ∀ x, C1.Header.rdExts m x (f :: r) = C1.Header.rdExts m x (g :: r) := fun x => by
    rw [C1.Header.rdExts, C1.Header.rdExts, hl, slFrom_same hl (hd 11 (by decide))]
  simp only [C1.Header.unmarshal, z1, z2, R.ok_bind, f1, f2, f3, f4, f5, f6, g1, g2, g3, g4, g5, g6, e1, s1, s2, e2, e3, e4, hl,
    a1 1 (by decide), a2 2 (by decide), a3, b1, b2, b3]

/-- C98, GTPv1-C: the fields whose flag is not set, if they are there. -/
theorem C98_c_unused (m : Mode) (t : C1.Msg) (f : UInt8) (o u v rest : Bytes) (ho : o.length = 7) (hany : f.toNat % 8 ≠ 0) (hu : SameUsed f u v) :
    t.desc.unmarshal m (f :: (o ++ u ++ rest)) = t.desc.unmarshal m (f :: (o ++ v ++ rest)) := by
  obtain ⟨hu1, hu2, hs, hn, hx⟩ := hu
  match o, ho, u, hu1, v, hu2 with
  | [o1, o2, o3, o4, o5, o6, o7], _, [u1, u2, u3, u4], _, [v1, v2, v3, v4], _ =>
  simp only [List.take_succ_cons, List.take_zero, List.cons.injEq, and_true] at hs
  have hn : f.toNat % 2 = 1 → u3 = v3 := fun h => Option.some.inj (hn h)
  have hx : f.toNat / 4 % 2 = 1 → u4 = v4 := fun h => Option.some.inj (hx h)
  clear hu1 hu2
  simp only [List.cons_append, List.nil_append]
  generalize hb : f :: o1 :: o2 :: o3 :: o4 :: o5 :: o6 :: o7 :: u1 :: u2 :: u3 :: u4 :: rest = b
  generalize hc : f :: o1 :: o2 :: o3 :: o4 :: o5 :: o6 :: o7 :: v1 :: v2 :: v3 :: v4 :: rest = c
  have hl : b.length = c.length := by rw [← hb, ← hc]; rfl
  have hd : ∀ i, 12 ≤ i → b.drop i = c.drop i := fun i hi => by
    obtain ⟨j, rfl⟩ : ∃ j, i = j + 12 := ⟨i - 12, by omega⟩
    rw [← hb, ← hc]
    rfl
  obtain ⟨f1, f2, f3, f4, f5, f6, -⟩ := c_bits f
  have hh : C1.Header.unmarshal m b = C1.Header.unmarshal m c := by
    have b1 : C1.Header.rdSqn ((f >>> 1) &&& 1) b = C1.Header.rdSqn ((f >>> 1) &&& 1) c := by
      rw [f4]
      by_cases h : f.toNat / 2 % 2 = 1
      · obtain ⟨rfl, rfl⟩ := hs h
        rw [← hb, ← hc]; rfl
      · have : f.toNat / 2 % 2 = 0 := by omega
        rw [this]; rfl
    have b2 : C1.Header.rdNpdu (f &&& 1) b = C1.Header.rdNpdu (f &&& 1) c := by
      rw [f5]
      by_cases h : f.toNat % 2 = 1
      · obtain rfl := hn h
        rw [← hb, ← hc]; rfl
      · have : f.toNat % 2 = 0 := by omega
        rw [this]; rfl
    have b3 : C1.Header.rdExts m ((f >>> 2) &&& 1) b = C1.Header.rdExts m ((f >>> 2) &&& 1) c := by
      rw [f6]
      by_cases h : f.toNat / 4 % 2 = 1
      · obtain rfl := hx h
        have : b.drop 11 = c.drop 11 := by rw [← hb, ← hc]; rfl
        rw [C1.Header.rdExts, C1.Header.rdExts, hl, slFrom_same hl this]
      · have : f.toNat / 4 % 2 = 0 := by omega
        rw [this]; rfl
    have z1 : (rd b 0 : R Err UInt8) = .ok f := by rw [← hb]; rfl
    have z2 : (rd c 0 : R Err UInt8) = .ok f := by rw [← hc]; rfl
    have a1 : (rd b 1 : R Err UInt8) = rd c 1 := by rw [← hb, ← hc]; rfl
    have a2 : (rd16 b 2 : R Err UInt16) = rd16 c 2 := by rw [← hb, ← hc]; rfl
    have a3 : (rd32 b 4 : R Err UInt32) = rd32 c 4 := by rw [← hb, ← hc]; rfl
    simp only [C1.Header.unmarshal, z1, z2, R.ok_bind, a1, a2, a3, b1, b2, b3, hl]
  refine c_same m t hl hh fun h l hu hn' => hd l (c_len12 (f := f) (by rw [← hc]; rfl) hany hu hn')

/-- Two buffers are the same for all six types of GTPv1-U messages. -/
structure SameU (m : Mode) (b c : Bytes) : Prop where
  gpdu : U.Gpdu.unmarshal m b = U.Gpdu.unmarshal m c
  endMarker : U.EndMarker.unmarshal m b = U.EndMarker.unmarshal m c
  echoRequest : U.EchoRequest.unmarshal m b = U.EchoRequest.unmarshal m c
  echoResponse : U.EchoResponse.unmarshal m b = U.EchoResponse.unmarshal m c
  supportedExt : U.SupportedExt.unmarshal m b = U.SupportedExt.unmarshal m c
  errorIndication : U.ErrorIndication.unmarshal m b = U.ErrorIndication.unmarshal m c

theorem u_same {m : Mode} {b c : Bytes} (hl : b.length = c.length) (hh : U.Header.unmarshal m b = U.Header.unmarshal m c)
    (hd : ∀ h l, U.Header.unmarshal m c = .ok h → h.size m = .ok l → ∀ i, l ≤ i → b.drop i = c.drop i) : SameU m b c := by
  have key : ∀ (α : Type) (F : Bytes → U.Header → R Err α) (ty : UInt8),
      (∀ h, U.Header.unmarshal m c = .ok h → F b h = F c h) → (U.readHeader m ty b >>= F b) = (U.readHeader m ty c >>= F c) := by
    intro α F ty hF
    unfold U.readHeader
    rw [hh]
    cases hu : U.Header.unmarshal m c with
    | ok h =>
      simp only [R.ok_bind]
      split
      · rfl
      · exact hF h hu
    | err e => rfl
    | panic => rfl
    | diverge => rfl
  have size : ∀ (α : Type) (h : U.Header) (F G : Nat → R Err α), U.Header.unmarshal m c = .ok h →
      (∀ s, h.size m = .ok s → F s = G s) → (h.size m >>= F) = (h.size m >>= G) := by
    intro α h F G _ hF
    cases hs : h.size m with
    | ok s => exact hF s hs
    | err e => rfl
    | panic => rfl
    | diverge => rfl
  refine ⟨?_, ?_, ?_, ?_, ?_, ?_⟩
  · refine key U.Gpdu (fun b h => do
      let n ← U.len8 m h.length
      if n ≤ b.length then
        let s ← h.size m
        let v ← sl b s n
        return ⟨h, v⟩
      else .err .messageLengthError) 255 fun h hu => ?_
    simp only [hl]
    refine congrArg _ (funext fun n => ?_)
    split
    · exact size _ h _ _ hu fun s hs => by rw [sl_same hl (hd h s hu hs s (Nat.le_refl _))]
    · rfl
  · refine key U.EndMarker (fun b h => if h.length.toNat < b.length then do
        let s ← h.size m
        let r ← slFrom b s
        let p ← U.optPrivate m r
        return ⟨h, p⟩
      else return ⟨h, none⟩) 254 fun h hu => ?_
    simp only [hl]
    split
    · exact size _ h _ _ hu fun s hs => by rw [slFrom_same hl (hd h s hu hs s (Nat.le_refl _))]
    · rfl
  · refine key U.EchoRequest (fun b h => if h.length.toNat < b.length then do
        let s ← h.size m
        let r ← slFrom b s
        let p ← U.optPrivate m r
        return ⟨h, p⟩
      else return ⟨h, none⟩) 1 fun h hu => ?_
    simp only [hl]
    split
    · exact size _ h _ _ hu fun s hs => by rw [slFrom_same hl (hd h s hu hs s (Nat.le_refl _))]
    · rfl
  · refine key U.EchoResponse (fun b h => if h.length.toNat + 4 < b.length then do
        let cursor ← h.size m
        if cursor < b.length then
          let t ← rd b cursor
          if t = 14 then
            let r ← slFrom b cursor
            let rec ← U.Recovery.unmarshal r
            let cursor := cursor + rec.len
            if cursor < b.length then
              let r ← slFrom b cursor
              let p ← U.optPrivate m r
              return ⟨h, rec, p⟩
            else return ⟨h, rec, none⟩
          else .err .messageMandatoryIEMissing
        else .err .messageMandatoryIEMissing
      else .err .messageLengthError) 2 fun h hu => ?_
    simp only [hl]
    split
    · refine size _ h _ _ hu fun s hs => ?_
      have e := hd h s hu hs
      rw [rd_same (e s (Nat.le_refl _)), slFrom_same hl (e s (Nat.le_refl _))]
      split
      · refine congrArg _ (funext fun t => ?_)
        split
        · refine congrArg _ (funext fun r => congrArg _ (funext fun q => ?_))
          rw [slFrom_same hl (e _ (Nat.le_add_right _ _))]
        · rfl
      · rfl
    · rfl
  · refine key U.SupportedExt (fun b h => do
      let n ← U.len8 m h.length
      if n ≤ b.length then
        let s ← h.size m
        if s = b.length then .err .messageMandatoryIEMissing
        else
          let t ← rd b s
          if t = 141 then
            let r ← slFrom b s
            let l ← (U.ExtTypeList.unmarshal m r).mapErr .messageMandatoryIEMissing
            return ⟨h, l⟩
          else .err .messageInvalidMessageFormat
      else .err .messageLengthError) 31 fun h hu => ?_
    simp only [hl]
    refine congrArg _ (funext fun n => ?_)
    split
    · refine size _ h _ _ hu fun s hs => ?_
      have e := hd h s hu hs s (Nat.le_refl _)
      rw [rd_same e, slFrom_same hl e]
    · rfl
  · refine key U.ErrorIndication (fun b h => do
      let n ← U.len8 m h.length
      if n ≤ b.length then
        let cursor ← h.size m
        let s ← U.ErrorIndication.loop m (b.length + 1) ⟨none, none, none, 0, ⟨h, U.Teid.default, U.GsnAddress.default, none⟩⟩ (b.drop cursor)
        if s.teidN.isSome ∧ s.peerN.isSome then return s.x
        else .err .messageMandatoryIEMissing
      else .err .messageLengthError) 26 fun h hu => ?_
    simp only [hl]
    refine congrArg _ (funext fun n => ?_)
    split
    · exact size _ h _ _ hu fun s hs => by rw [hd h s hu hs s (Nat.le_refl _)]
    · rfl

theorem u_size8 {m : Mode} {h : U.Header} {l : Nat} (hn : h.size m = .ok l) : 8 ≤ l ∧ (h.sqn.isSome → 12 ≤ l) := by
  unfold U.Header.size at hn
  split at hn
  · next h1 _ _ =>
    cases hn
    exact ⟨Nat.le_refl _, fun h => by rw [h1] at h; cases h⟩
  · cases hn
    exact ⟨by omega, fun _ => Nat.le_refl _⟩
  · obtain ⟨k, _, hk⟩ := C1.ok_of_bind hn
    cases hk
    exact ⟨by omega, fun _ => by omega⟩

/-- C98, GTPv1-U: the spare bit. -/
theorem C98_u_spare (m : Mode) (f g : UInt8) (r : Bytes) (hf : SameFlags1 f g) : SameU m (f :: r) (g :: r) := by
  have hd : ∀ i, 0 < i → (f :: r).drop i = (g :: r).drop i := fun i hi => by
    obtain ⟨j, rfl⟩ : ∃ j, i = j + 1 := ⟨i - 1, by omega⟩
    rfl
  have hl : (f :: r).length = (g :: r).length := rfl
  refine u_same rfl ?_ fun h l _ hn i hi => hd i (by have := (u_size8 hn).1; omega)
  obtain ⟨f1, -, -, -, -, -, f2, f3, f4, f5⟩ := c_bits f
  obtain ⟨g1, -, -, -, -, -, g2, g3, g4, g5⟩ := c_bits g
  obtain ⟨s1, s2⟩ := hf
  have e1 : f.toNat / 32 = g.toNat / 32 := by omega
  have e2 : f.toNat / 2 % 2 = g.toNat / 2 % 2 := by omega
  have e3 : f.toNat % 2 = g.toNat % 2 := by omega
  have e4 : f.toNat / 4 % 2 = g.toNat / 4 % 2 := by omega
  have z1 : (rd (f :: r) 0 : R Err UInt8) = .ok f := rfl
  have z2 : (rd (g :: r) 0 : R Err UInt8) = .ok g := rfl
  have a1 : ∀ i, 0 < i → (rd (f :: r) i : R Err UInt8) = rd (g :: r) i := fun i hi => rd_same (hd i hi)
  have a2 : ∀ i, 0 < i → (rd16 (f :: r) i : R Err UInt16) = rd16 (g :: r) i := fun i hi => by rw [rd16, rd16, a1 i hi, a1 (i + 1) (by omega)]
  have a3 : (rd32 (f :: r) 4 : R Err UInt32) = rd32 (g :: r) 4 := by
    rw [rd32, rd32, a1 4 (by decide), a1 (4 + 1) (by decide), a1 (4 + 2) (by decide), a1 (4 + 3) (by decide)]
  have a4 : (slFrom (f :: r) 11 : R Err Bytes) = slFrom (g :: r) 11 := slFrom_same hl (hd 11 (by decide))
  have d1 : decide ((f &&& 0x02) >>> 1 = 1) = decide ((g &&& 0x02) >>> 1 = 1) := decide_eq_decide.mpr (by rw [f3, g3, e2])
  have d2 : decide (f &&& 0x01 = 1) = decide (g &&& 0x01 = 1) := decide_eq_decide.mpr (by rw [f4, g4, e3])
  have d3 : decide ((f &&& 0x04) >>> 2 = 1) = decide ((g &&& 0x04) >>> 2 = 1) := decide_eq_decide.mpr (by rw [f5, g5, e4])
  unfold U.Header.unmarshal
  have c : (f >>> 5 = 1 ∧ (f &&& 0x10) >>> 4 = 1) ↔ (g >>> 5 = 1 ∧ (g &&& 0x10) >>> 4 = 1) := by rw [f1, f2, g1, g2, e1, s1]
  rw [z1, z2, R.ok_bind, R.ok_bind, d1, d2, d3, a1 1 (by decide), a2 2 (by decide), a3, a2 8 (by decide), a1 10 (by decide), a4, hl]
  simp only [c]

/-- With one of the three flags the octets 9 and 10 are the sequence number, and without S the octet 11 is the N-PDU number. -/
theorem u_fields {m : Mode} {f s0 s1 n : UInt8} {o rest : Bytes} {h : U.Header} (ho : o.length = 7) (hany : f.toNat % 8 ≠ 0)
    (e : U.Header.unmarshal m (f :: (o ++ s0 :: s1 :: n :: rest)) = .ok h) : h.sqn = some (of16 s0 s1) ∧ (f.toNat / 2 % 2 = 0 → h.npdu = some n) := by
  match o, ho with
  | [o1, o2, o3, o4, o5, o6, o7], _ =>
  obtain ⟨-, -, -, -, -, -, -, f3, f4, f5⟩ := c_bits f
  have z : (rd (f :: ([o1, o2, o3, o4, o5, o6, o7] ++ s0 :: s1 :: n :: rest)) 0 : R Err UInt8) = .ok f := rfl
  have a2 : (rd16 (f :: ([o1, o2, o3, o4, o5, o6, o7] ++ s0 :: s1 :: n :: rest)) 8 : R Err UInt16) = .ok (of16 s0 s1) := rfl
  have a1 : (rd (f :: ([o1, o2, o3, o4, o5, o6, o7] ++ s0 :: s1 :: n :: rest)) 10 : R Err UInt8) = .ok n := rfl
  generalize f :: ([o1, o2, o3, o4, o5, o6, o7] ++ s0 :: s1 :: n :: rest) = b at *
  unfold U.Header.unmarshal at e
  split at e
  rotate_left
  · cases e
  rw [z, R.ok_bind] at e
  split at e
  rotate_left
  · cases e
  obtain ⟨_, -, e⟩ := C1.ok_of_bind e
  obtain ⟨_, -, e⟩ := C1.ok_of_bind e
  split at e
  · cases e
  obtain ⟨_, -, e⟩ := C1.ok_of_bind e
  simp only at e
  split at e
  · next hz =>
    simp only [decide_eq_false_iff_not, f3, f4, f5] at hz
    omega
  split at e
  rotate_left
  · cases e
  rw [a2, R.ok_bind, a1, R.ok_bind] at e
  obtain ⟨_, -, e⟩ := C1.ok_of_bind e
  split at e
  all_goals first
    | (next hs _ _ =>
        simp only [decide_eq_true_eq, f3] at hs
        first
          | (cases e; exact ⟨rfl, fun h => by omega⟩)
          | (obtain ⟨_, -, e⟩ := C1.ok_of_bind e
             cases e; exact ⟨rfl, fun h => by omega⟩))
    | (obtain ⟨_, -, e⟩ := C1.ok_of_bind e
       cases e; exact ⟨rfl, fun h => rfl⟩)

/-- C98, GTPv1-U: the fields whose flag is not set, if there is a sequence number. -/
theorem C98_u_unused_partial (m : Mode) (f : UInt8) (o u v rest : Bytes) (ho : o.length = 7) (hs : f.toNat / 2 % 2 = 1) (hu : SameUsed f u v) :
    SameU m (f :: (o ++ u ++ rest)) (f :: (o ++ v ++ rest)) := by
  obtain ⟨hu1, hu2, hsq, hn, hx⟩ := hu
  match u, hu1, v, hu2 with
  | [u1, u2, u3, u4], _, [v1, v2, v3, v4], _ =>
  have hsq := hsq hs
  simp only [List.take_succ_cons, List.take_zero, List.cons.injEq, and_true] at hsq
  obtain ⟨rfl, rfl⟩ := hsq
  have hn : f.toNat % 2 = 1 → u3 = v3 := fun h => Option.some.inj (hn h)
  have hx : f.toNat / 4 % 2 = 1 → u4 = v4 := fun h => Option.some.inj (hx h)
  clear hu1 hu2
  have hf := fun h => u_fields (m := m) (f := f) (s0 := u1) (s1 := u2) (n := v3) (o := o) (rest := v4 :: rest) (h := h) ho (by omega)
  match o, ho with
  | [o1, o2, o3, o4, o5, o6, o7], _ =>
  simp only [List.cons_append, List.nil_append] at hf ⊢
  generalize hb : f :: o1 :: o2 :: o3 :: o4 :: o5 :: o6 :: o7 :: u1 :: u2 :: u3 :: u4 :: rest = b
  generalize hc : f :: o1 :: o2 :: o3 :: o4 :: o5 :: o6 :: o7 :: u1 :: u2 :: v3 :: v4 :: rest = c at *
  have hl : b.length = c.length := by rw [← hb, ← hc]; rfl
  have hd : ∀ i, 12 ≤ i → b.drop i = c.drop i := fun i hi => by
    obtain ⟨j, rfl⟩ : ∃ j, i = j + 12 := ⟨i - 12, by omega⟩
    rw [← hb, ← hc]
    rfl
  refine u_same hl ?_ fun h l hu' hn' i hi => hd i (by
    have := (u_size8 hn').2 (by rw [(hf h hu').1]; rfl)
    omega)
  have z1 : (rd b 0 : R Err UInt8) = .ok f := by rw [← hb]; rfl
  have z2 : (rd c 0 : R Err UInt8) = .ok f := by rw [← hc]; rfl
  have a1 : (rd b 1 : R Err UInt8) = rd c 1 := by rw [← hb, ← hc]; rfl
  have a2 : (rd16 b 2 : R Err UInt16) = rd16 c 2 := by rw [← hb, ← hc]; rfl
  have a3 : (rd32 b 4 : R Err UInt32) = rd32 c 4 := by rw [← hb, ← hc]; rfl
  have a4 : (rd16 b 8 : R Err UInt16) = rd16 c 8 := by rw [← hb, ← hc]; rfl
  have n1 : (rd b 10 : R Err UInt8) = .ok u3 := by rw [← hb]; rfl
  have n2 : (rd c 10 : R Err UInt8) = .ok v3 := by rw [← hc]; rfl
  have x1 : (slFrom b 11 : R Err Bytes) = .ok (u4 :: rest) := by rw [← hb]; simp [slFrom]
  have x2 : (slFrom c 11 : R Err Bytes) = .ok (v4 :: rest) := by rw [← hc]; simp [slFrom]
  obtain ⟨-, -, -, -, -, -, -, f3, f4, f5⟩ := c_bits f
  have d1 : decide ((f &&& 0x02) >>> 1 = 1) = true := decide_eq_true (f3.mpr hs)
  have d2 : decide (f &&& 0x01 = 1) = decide (f.toNat % 2 = 1) := decide_eq_decide.mpr f4
  have d3 : decide ((f &&& 0x04) >>> 2 = 1) = decide (f.toNat / 4 % 2 = 1) := decide_eq_decide.mpr f5
  unfold U.Header.unmarshal
  rw [z1, z2, R.ok_bind, R.ok_bind, d1, d2, d3, a1, a2, a3, a4, n1, n2, x1, x2, hl]
  by_cases p : f.toNat % 2 = 1 <;> by_cases q : f.toNat / 4 % 2 = 1
  · rw [hn p, hx q]
  · rw [hn p, decide_eq_true p, decide_eq_false q]; rfl
  · rw [hx q, decide_eq_false p, decide_eq_true q]; rfl
  · rw [decide_eq_false p, decide_eq_false q]; rfl

/-- C98 is violated without one: the unused octets are the sequence number and the N-PDU number of every header that is accepted. -/
theorem C98_u_evaluated (m : Mode) (f s0 s1 n : UInt8) (o rest : Bytes) (h : U.Header) (ho : o.length = 7) (hany : f.toNat % 8 ≠ 0) (hs : f.toNat / 2 % 2 = 0)
    (e : U.Header.unmarshal m (f :: (o ++ s0 :: s1 :: n :: rest)) = .ok h) : h.sqn = some (of16 s0 s1) ∧ h.npdu = some n :=
  ⟨(u_fields ho hany e).1, (u_fields ho hany e).2 hs⟩

/-- C98: a G-PDU with an N-PDU number only. The unused last octet of its header is taken for the type of an extension header, and the first octets of the T-PDU
for that header. -/
theorem C98_u_violation (m : Mode) :
    U.Gpdu.unmarshal m [0x31, 255, 0, 12, 0, 0, 0, 1, 0, 0, 5, 0, 1, 0x45, 0x46, 0, 4, 5, 6, 7] =
      .ok ⟨⟨255, 12, 1, some 0, some 5, some []⟩, [1, 0x45, 0x46, 0, 4, 5, 6, 7]⟩ ∧
    U.Gpdu.unmarshal m [0x31, 255, 0, 12, 0, 0, 0, 1, 0, 0, 5, 0x40, 1, 0x45, 0x46, 0, 4, 5, 6, 7] =
      .ok ⟨⟨255, 12, 1, some 0, some 5, some [.udpPort ⟨0x40, 1, 0x4546⟩]⟩, [4, 5, 6, 7]⟩ := by
  cases m <;> decide +kernel

/-! ## Examples -/

/-- A Delete Session Response with spare bits set, and without a priority but with an octet for it. -/
example (m : Mode) : Gtp.V2.MsgKind.DeleteSessionResponse.codec.unmarshal m [0x48, 37, 0, 14, 0, 0, 0, 1, 0, 0, 7, 0, 2, 0, 2, 0, 16, 0] =
    Gtp.V2.MsgKind.DeleteSessionResponse.codec.unmarshal m [0x4b, 37, 0, 14, 0, 0, 0, 1, 0, 0, 7, 0xff, 2, 0, 2, 0, 16, 0] :=
  C98_v2_teid m .DeleteSessionResponse (by decide) 0x48 0x4b 0 0xff [37, 0, 14, 0, 0, 0, 1, 0, 0, 7] [2, 0, 2, 0, 16, 0] rfl (by decide) (by unfold SameFlags2; decide)
    (by unfold SameLast; decide)

/-- An Echo Request without a TEID. -/
example (m : Mode) : Gtp.V2.MsgKind.EchoRequest.codec.unmarshal m [0x40, 1, 0, 9, 0, 0, 7, 0, 3, 0, 1, 0, 5] =
    Gtp.V2.MsgKind.EchoRequest.codec.unmarshal m [0x43, 1, 0, 9, 0, 0, 7, 0xa5, 3, 0, 1, 0, 5] :=
  C98_v2_plain m .EchoRequest 0x40 0x43 0 0xa5 [1, 0, 9, 0, 0, 7] [3, 0, 1, 0, 5] rfl (by decide) (by unfold SameFlags2; decide)

/-- A Delete PDP Context Response with a sequence number only; N-PDU number and type of an extension header are not there, whatever the octets are. -/
example (m : Mode) : (C1.Msg.DeletePDPContextResponse).desc.unmarshal m [0x32, 21, 0, 6, 0, 0, 0, 9, 0, 1, 0, 0, 1, 128] =
    (C1.Msg.DeletePDPContextResponse).desc.unmarshal m [0x32, 21, 0, 6, 0, 0, 0, 9, 0, 1, 7, 0xc0, 1, 128] :=
  C98_c_unused m .DeletePDPContextResponse 0x32 [21, 0, 6, 0, 0, 0, 9] [0, 1, 0, 0] [0, 1, 7, 0xc0] [1, 128] rfl (by decide) (by unfold SameUsed; decide)

/-- The same for a G-PDU with a sequence number. -/
example (m : Mode) : U.Gpdu.unmarshal m [0x32, 255, 0, 6, 0, 0, 0, 9, 0, 1, 0, 0, 0x45, 0] = U.Gpdu.unmarshal m [0x32, 255, 0, 6, 0, 0, 0, 9, 0, 1, 7, 0xc0, 0x45, 0] :=
  (C98_u_unused_partial m 0x32 [255, 0, 6, 0, 0, 0, 9] [0, 1, 0, 0] [0, 1, 7, 0xc0] [0x45, 0] rfl (by decide) (by unfold SameUsed; decide)).gpdu

example (m : Mode) : U.Gpdu.unmarshal m [0x38, 255, 0, 2, 0, 0, 0, 9, 0x45, 0] = U.Gpdu.unmarshal m [0x30, 255, 0, 2, 0, 0, 0, 9, 0x45, 0] :=
  (C98_u_spare m 0x38 0x30 _ (by unfold SameFlags1; decide)).gpdu

example (m : Mode) : (C1.Msg.DeletePDPContextResponse).desc.unmarshal m [0x38, 21, 0, 2, 0, 0, 0, 9, 1, 128] =
    (C1.Msg.DeletePDPContextResponse).desc.unmarshal m [0x30, 21, 0, 2, 0, 0, 0, 9, 1, 128] :=
  C98_c_spare m _ 0x38 0x30 _ (by unfold SameFlags1; decide)

/-- A G-PDU with the PDU session container of a gNB and no sequence number. -/
example (m : Mode) (h : U.Header) (e : U.Header.unmarshal m [0x34, 255, 0, 8, 0, 0, 0, 9, 0xab, 0xcd, 0x11, 0x85, 1, 0, 9, 0] = .ok h) :
    h.sqn = some 0xabcd ∧ h.npdu = some 0x11 :=
  C98_u_evaluated m 0x34 0xab 0xcd 0x11 [255, 0, 8, 0, 0, 0, 9] [0x85, 1, 0, 9, 0] h rfl (by decide) (by decide) e

end Gtp.Props.Unused
