import Verif.C1.MsgLemmas
import Verif.C1.Msgs
import Verif.Props.CHeader

/-!
# Properties of the GTPv1-C messages that carry information elements

`t.desc.marshalInto buf x` is the buffer after `x.marshal(&mut buf)`, `t.desc.unmarshal m b` is
`X::unmarshal(b)` for the message type `t : Msg`.
-/

namespace Gtp.Props.C1
open Gtp.C1 Gtp.V1 Gtp.C1.Desc

/-! ## Headers in front of elements -/

/-- The header with another length field. -/
def withLen (h : Header) (l : UInt16) : Header := { h with length := l }

theorem header_cons (h : Header) : ∃ r : Bytes, 4 ≤ r.length ∧ ∀ l : UInt16,
    (withLen h l).marshal = h.flags :: h.msgtype :: hi16 l :: lo16 l :: r := by
  refine ⟨h.marshal.drop 4, by simp [Header.marshal, be16, be32], fun l => ?_⟩
  obtain ⟨msgtype, length, teid, sqn, npdu, exts⟩ := h
  cases sqn <;> cases npdu <;> cases exts <;> rfl

theorem marshal_withLen_length (h : Header) (l : UInt16) : (withLen h l).marshal.length = h.marshal.length := by
  obtain ⟨r, -, hr⟩ := header_cons h
  have : (withLen h h.length).marshal = _ := hr h.length
  rw [show withLen h h.length = h from rfl] at this
  rw [hr l, this]
  simp

theorem header_ge8 (h : Header) : 8 ≤ h.marshal.length := by
  obtain ⟨r, h4, hr⟩ := header_cons h
  have := hr h.length
  rw [show withLen h h.length = h from rfl] at this
  rw [this]; simp; omega

theorem setLen_eq (h : Header) (body : Bytes) : setMsgLength1 (h.marshal ++ body) =
    (withLen h (UInt16.ofNat (h.marshal.length + body.length - 8))).marshal ++ body := by
  obtain ⟨r, h4, hr⟩ := header_cons h
  have e := hr h.length
  rw [show withLen h h.length = h from rfl] at e
  rw [hr, e]
  simp only [setMsgLength1, List.cons_append, put16, List.set_cons_succ, List.set_cons_zero,
    List.length_cons, List.length_append]
  have : r.length + body.length + 1 + 1 + 1 + 1 - 8 = r.length + 1 + 1 + 1 + 1 + body.length - 8 := by omega
  rw [this]

theorem withLen_wf {h : Header} (wf : HeaderWF h) (l : UInt16) : HeaderWF (withLen h l) := wf

/-! ## Lists of elements -/

/-- The octets of a list of elements. -/
def octets (es : List IE) : Bytes := es.flatMap IE.mar

/-- The type codes do not decrease. -/
def Ascending (es : List IE) : Prop := es.Pairwise fun a b => a.code ≤ b.code

/-- Well-formed elements that the message type knows, of which only the last one may be a private
extension, and at most 255 of each type. -/
structure Carried (t : Msg) (es : List IE) : Prop where
  wf : ∀ e ∈ es, e.WF
  known : ∀ e ∈ es, t.desc.Knows e
  last : es.Pairwise fun e _ => e.1 ≠ .PrivateExtension
  few : ∀ c, (es.filter (fun e => e.code == c)).length < 256

theorem asc_of : ∀ {es : List IE} {c : UInt8}, (∀ e ∈ es, c ≤ e.code) → Ascending es → Asc c es
  | [], _, _, _ => trivial
  | e :: es, c, h, hp => by
    rw [Ascending, List.pairwise_cons] at hp
    exact ⟨h e (by simp), asc_of hp.1 hp.2⟩

theorem asc_zero {es : List IE} (h : Ascending es) : Asc 0 es := asc_of (fun e _ => by simp) h

theorem not_list (t : Msg) : ∀ p ∈ t.desc.arms, p.2.kind ≠ .ExtensionHeaderTypeList := by
  cases t <;> (show ∀ p ∈ (_ : List (UInt8 × Arm _)), _) <;> decide +kernel

theorem knows_greedy {t : Msg} {e : IE} (h : t.desc.Knows e) (hp : e.1 ≠ .PrivateExtension) : e.1.greedy = false := by
  obtain ⟨a, h1, h2⟩ := h
  have := not_list t _ (mem_of_lookup h1)
  simp only [h2] at this
  revert hp this
  generalize e.1 = k
  intro hp this
  cases k <;> first | rfl | exact absurd rfl hp | exact absurd rfl this

theorem greedy_of_last {t : Msg} {es : List IE} (hk : ∀ e ∈ es, t.desc.Knows e) (hl : es.Pairwise fun e _ => e.1 ≠ .PrivateExtension)
    {tail : Bytes} (ht : tail = [] ∨ ∀ e ∈ es, e.1 ≠ .PrivateExtension) :
    ∀ a b e, es = a ++ e :: b → e.1.greedy = false ∨ b = [] ∧ tail = [] := by
  intro a b e h
  by_cases hp : e.1 = .PrivateExtension
  · right
    have hb : b = [] := by
      subst h
      rw [List.pairwise_append] at hl
      have := hl.2.1
      rw [List.pairwise_cons] at this
      cases b with
      | nil => rfl
      | cons f b => exact absurd hp (this.1 f (by simp))
    refine ⟨hb, ?_⟩
    rcases ht with ht | ht
    · exact ht
    · exact absurd hp (ht e (by simp [h]))
  · exact .inl (knows_greedy (hk e (by simp [h])) hp)

theorem len8_small (m : Mode) {l : UInt16} (h : l.toNat < 65528) : Gtp.U.len8 m l = .ok (l.toNat + 8) := by
  have h8 : (8 : UInt16).toNat = 8 := rfl
  rw [Gtp.U.len8, add16_ok (by omega), R.ok_bind]
  show R.ok _ = R.ok _
  rw [UInt16.toNat_add, h8, Nat.mod_eq_of_lt (by omega)]

/-- The decoder on a header of its type followed by at least as many octets as announced. -/
theorem unmarshal_body (t : Msg) (m : Mode) (h : Header) (wf : HeaderWF h) (hc : h.msgtype = t.desc.code) (l : UInt16)
    (h1 : l.toNat < 65528) (body : Bytes) (h2 : l.toNat + 8 ≤ h.marshal.length + body.length) :
    t.desc.unmarshal m ((withLen h l).marshal ++ body) =
      (t.desc.scan m (h.marshal.length + body.length + 1) body (t.desc.start (withLen h l)) >>= t.desc.finish) := by
  have e0 : (withLen h l).msgtype = t.desc.code := hc
  have e1 : (withLen h l).length = l := rfl
  rw [Desc.unmarshal, C34_header_roundtrip m _ (withLen_wf wf l), R.ok_bind, if_neg (by simp [e0]), e1, len8_small m h1, R.ok_bind,
    if_pos (by rw [List.length_append, marshal_withLen_length]; omega), C41_header_len_partial m _ (withLen_wf wf l), R.ok_bind,
    List.drop_left, List.length_append, marshal_withLen_length]

/-- The result of the loop on a list of elements in ascending order. -/
theorem scan_carried (t : Msg) (m : Mode) {es : List IE} (hc : Carried t es) (ha : Ascending es) (hr : ∀ e ∈ es, e.1 ≠ .ApnRestriction)
    (h : Header) (tail : Bytes) (ht : tail = [] ∨ ∀ e ∈ es, e.1 ≠ .PrivateExtension) (fuel : Nat)
    (hf : (octets es ++ tail).length < fuel) : ∃ fuel' st, tail.length < fuel' ∧ Good t.desc h st es ∧ (∀ e, es.getLast? = some e → st.inc = e.code) ∧
      t.desc.scan m fuel (octets es ++ tail) (t.desc.start h) = t.desc.scan m fuel' tail st := by
  obtain ⟨f, h1, h2⟩ := scan_list (d := t.desc) m tail es [] (t.desc.start h) fuel (fun e he => ⟨hc.wf e he, hc.known e he, hr e he⟩)
    (greedy_of_last hc.known hc.last ht) (asc_zero ha) (counts_start h) (by simpa [cnt] using hc.few) hf
  have hg := good_foldl t.lawful es [] (t.desc.start h) (good_start t.lawful h) hc.known (by simpa [cnt] using hc.few)
  refine ⟨f, _, h1, hg, fun e he => ?_, h2⟩
  obtain ⟨pre, rfl⟩ : ∃ pre, es = pre ++ [e] := by
    rw [List.getLast?_eq_some_iff] at he
    exact he
  rw [List.foldl_append]
  obtain ⟨a, h3, _⟩ := hc.known e (by simp)
  simp [Desc.push, h3, St.next]

/-- All mandatory types are among the elements. -/
def Complete (t : Msg) (es : List IE) : Prop := ∀ c ∈ t.desc.mandatory, ∃ e ∈ es, e.code = c

/-- The message that consists of the elements `es`: the `i`-th element of each type is in the `i`-th field for
this type, fields without an element have their default. -/
structure Assembled (t : Msg) (h : Header) (es : List IE) (x : t.desc.X) : Prop where
  header : t.desc.header x = h
  field : ∀ s, t.desc.view x s = match (es.filter (fun e => e.code == (t.desc.place s).1))[(t.desc.place s).2]? with
    | some e => e.as (t.desc.kind s)
    | none => t.desc.view t.desc.dflt s

theorem finish_good {t : Msg} {h : Header} {st : St t.desc} {es : List IE} (hg : Good t.desc h st es)
    : (Complete t es → ∃ x, Assembled t h es x ∧ t.desc.finish st = .ok x) ∧
      (¬ Complete t es → t.desc.finish st = .err .messageMandatoryIEMissing) := by
  have key : t.desc.mandatory.all (fun c => (st.hash c).isSome) = true ↔ Complete t es := by
    rw [List.all_eq_true]
    refine forall_congr' fun c => forall_congr' fun _ => ?_
    rw [hg.counts c]
    by_cases h0 : cnt c es = 0
    · simp only [h0, if_true, Option.isSome_none]
      rw [cnt, List.length_eq_zero_iff, List.filter_eq_nil_iff] at h0
      simpa using h0
    · simp only [h0, if_false, Option.isSome_some, true_iff]
      rw [cnt, List.length_eq_zero_iff, List.filter_eq_nil_iff] at h0
      simpa using h0
  constructor
  · intro hc
    exact ⟨st.x, ⟨hg.header, hg.view⟩, by rw [finish, if_pos (key.mpr hc)]⟩
  · intro hc
    rw [finish, if_neg (by rw [key]; exact hc)]

/-- Decoding a header and elements in ascending order. -/
theorem decode_elements (t : Msg) (m : Mode) (h : Header) (wf : HeaderWF h) (hc : h.msgtype = t.desc.code) (es : List IE) (hca : Carried t es)
    (ha : Ascending es) (hr : ∀ e ∈ es, e.1 ≠ .ApnRestriction) (l : UInt16) (h1 : l.toNat < 65528)
    (h2 : l.toNat + 8 ≤ h.marshal.length + (octets es).length) :
    (Complete t es → ∃ x, Assembled t (withLen h l) es x ∧ t.desc.unmarshal m ((withLen h l).marshal ++ octets es) = .ok x) ∧
    (¬ Complete t es → t.desc.unmarshal m ((withLen h l).marshal ++ octets es) = .err .messageMandatoryIEMissing) := by
  rw [unmarshal_body t m h wf hc l h1 _ h2]
  obtain ⟨f, st, _, hg, _, hs⟩ := scan_carried t m hca ha hr (withLen h l) [] (.inl rfl) (h.marshal.length + (octets es).length + 1)
    (by simp; omega)
  rw [List.append_nil, scan_nil] at hs
  rw [hs, R.ok_bind]
  exact finish_good hg

/-- A list with a descent: what is in front of it is ascending. -/
theorem first_descent : ∀ {es : List IE}, ¬ Ascending es → ∃ a e f b, es = a ++ e :: f :: b ∧ Ascending (a ++ [e]) ∧ f.code < e.code
  | [], h => absurd List.Pairwise.nil h
  | [e], h => absurd (List.pairwise_singleton _ _) h
  | e :: f :: es, h => by
    by_cases hle : f.code < e.code
    · exact ⟨[], e, f, es, rfl, List.pairwise_singleton _ _, hle⟩
    · have h2 : ¬ Ascending (f :: es) := by
        intro h2
        apply h
        rw [Ascending, List.pairwise_cons]
        refine ⟨fun x hx => ?_, h2⟩
        have hef : e.code ≤ f.code := by simpa using hle
        rw [List.mem_cons] at hx
        rcases hx with rfl | hx
        · exact hef
        · exact UInt8.le_trans hef ((List.pairwise_cons.mp h2).1 x hx)
      obtain ⟨a, e', f', b, h3, h4, h5⟩ := first_descent h2
      cases a with
      | nil =>
        simp only [List.nil_append, List.cons.injEq] at h3
        obtain ⟨rfl, rfl⟩ := h3
        refine ⟨[e], f, f', b, rfl, ?_, h5⟩
        simp only [Ascending, List.cons_append, List.nil_append, List.pairwise_cons, List.mem_cons, List.not_mem_nil, or_false, forall_eq,
          List.Pairwise.nil, false_implies, implies_true, and_true]
        simpa using hle
      | cons a0 a =>
        simp only [List.cons_append, List.cons.injEq] at h3
        obtain ⟨rfl, rfl⟩ := h3
        refine ⟨e :: f :: a, e', f', b, rfl, ?_, h5⟩
        have hef : e.code ≤ f.code := by simpa using hle
        rw [List.cons_append, Ascending, List.pairwise_cons]
        refine ⟨fun x hx => ?_, h4⟩
        have h4' : Ascending (f :: (a ++ [e'])) := by simpa using h4
        rw [List.cons_append, List.mem_cons] at hx
        rcases hx with rfl | hx
        · exact hef
        · exact UInt8.le_trans hef ((List.pairwise_cons.mp h4').1 x hx)

theorem Carried.take {t : Msg} {a b : List IE} (h : Carried t (a ++ b)) : Carried t a where
  wf := fun e he => h.wf e (by simp [he])
  known := fun e he => h.known e (by simp [he])
  last := (List.pairwise_append.mp h.last).1
  few := fun c => by
    have := h.few c
    rw [List.filter_append, List.length_append] at this
    omega

theorem Carried.noPrivate {t : Msg} {a b : List IE} (h : Carried t (a ++ b)) (hb : b ≠ []) : ∀ e ∈ a, e.1 ≠ .PrivateExtension := by
  intro e he
  obtain ⟨f, b', rfl⟩ := List.exists_cons_of_ne_nil hb
  exact (List.pairwise_append.mp h.last).2.2 e he f (by simp)

/-- The loop stops at an octet that is lower than the last type, or not a known type. -/
theorem decode_stops (t : Msg) (m : Mode) (h : Header) (wf : HeaderWF h) (hc : h.msgtype = t.desc.code) (es : List IE) (hca : Carried t es)
    (ha : Ascending es) (hr : ∀ e ∈ es, e.1 ≠ .ApnRestriction) (hp : ∀ e ∈ es, e.1 ≠ .PrivateExtension) (c : UInt8) (r : Bytes)
    (hbad : (∃ e, es.getLast? = some e ∧ c < e.code) ∨ t.desc.arm c = none) (l : UInt16) (h1 : l.toNat < 65528)
    (h2 : l.toNat + 8 ≤ h.marshal.length + (octets es ++ c :: r).length) :
    t.desc.unmarshal m ((withLen h l).marshal ++ (octets es ++ c :: r)) = .err .messageInvalidMessageFormat := by
  rw [unmarshal_body t m h wf hc l h1 _ h2]
  obtain ⟨f, st, hf, hg, hi, hs⟩ := scan_carried t m hca ha hr (withLen h l) (c :: r) (.inr hp)
    (h.marshal.length + (octets es ++ c :: r).length + 1) (by omega)
  obtain ⟨f, rfl⟩ : ∃ g, f = g + 1 := ⟨f - 1, by omega⟩
  rw [hs, scan]
  rcases hbad with ⟨e, he, hlt⟩ | hn
  · rw [if_pos (by rw [hi e he]; exact hlt)]
    rfl
  · split
    · rfl
    · rw [hn]
      rfl

/-- Elements out of order are rejected, and so is every list with an APN restriction. -/
theorem decode_rejects (t : Msg) (m : Mode) (h : Header) (wf : HeaderWF h) (hc : h.msgtype = t.desc.code) (es : List IE) (hca : Carried t es)
    (hbad : ¬ Ascending es ∨ ∃ e ∈ es, e.1 = .ApnRestriction) (l : UInt16) (h1 : l.toNat < 65528)
    (h2 : l.toNat + 8 ≤ h.marshal.length + (octets es).length) :
    t.desc.unmarshal m ((withLen h l).marshal ++ octets es) = .err .messageInvalidMessageFormat := by
  -- a descent with no restriction in front of it
  have descent : ∀ a b, es = a ++ b → ¬ Ascending a → (∀ e ∈ a, e.1 ≠ .ApnRestriction) →
      t.desc.unmarshal m ((withLen h l).marshal ++ octets es) = .err .messageInvalidMessageFormat := by
    intro a b e0 hna hnr
    obtain ⟨a1, e, f, b1, rfl, h4, h5⟩ := first_descent hna
    have e1 : es = (a1 ++ [e]) ++ (f :: (b1 ++ b)) := by simp [e0]
    have hca' : Carried t ((a1 ++ [e]) ++ (f :: (b1 ++ b))) := e1 ▸ hca
    obtain ⟨r, hr, _⟩ := IE.mar_first (hca'.wf f (by simp))
    have e2 : octets es = octets (a1 ++ [e]) ++ f.code :: (r ++ octets (b1 ++ b)) := by
      rw [e1, octets, List.flatMap_append, List.flatMap_cons, hr]
      rfl
    rw [e2] at h2 ⊢
    exact decode_stops t m h wf hc _ hca'.take h4 (fun x hx => hnr x (by simp at hx ⊢; rcases hx with hx | hx <;> simp [hx]))
      (hca'.noPrivate (by simp)) _ _ (.inl ⟨e, by simp, h5⟩) l h1 h2
  by_cases hx : ∃ e ∈ es, e.1 = .ApnRestriction
  · -- the first restriction
    obtain ⟨a, r, b, e0, hr, hnr⟩ : ∃ a r b, es = a ++ r :: b ∧ r.1 = .ApnRestriction ∧ ∀ e ∈ a, e.1 ≠ .ApnRestriction := by
      clear descent h2 hbad hca
      induction es with
      | nil => simp at hx
      | cons e es ih =>
        by_cases he : e.1 = .ApnRestriction
        · exact ⟨[], e, es, rfl, he, by simp⟩
        · obtain ⟨a, r, b, h3, h4, h5⟩ := ih (by
            obtain ⟨x, hx1, hx2⟩ := hx
            rw [List.mem_cons] at hx1
            rcases hx1 with rfl | hx1
            · exact absurd hx2 he
            · exact ⟨x, hx1, hx2⟩)
          exact ⟨e :: a, r, b, by simp [h3], h4, by
            intro x hx
            rw [List.mem_cons] at hx
            rcases hx with rfl | hx
            · exact he
            · exact h5 x hx⟩
    by_cases ha : Ascending a
    · subst e0
      have e2 : octets (a ++ r :: b) = octets a ++ (r.mar ++ octets b) := by simp [octets]
      rw [unmarshal_body t m h wf hc l h1 _ h2, e2]
      obtain ⟨f, st, hf, hg, hi, hs⟩ := scan_carried t m hca.take ha hnr (withLen h l) (r.mar ++ octets b)
        (.inr (hca.noPrivate (by simp))) (h.marshal.length + (octets a ++ (r.mar ++ octets b)).length + 1) (by omega)
      have hw : r.WF := hca.wf r (by simp)
      have hpos := IE.mar_pos hw
      have h4 : 2 ≤ r.mar.length := by
        obtain ⟨k, x⟩ := r
        simp only at hr
        subst hr
        show 2 ≤ (tlv _ _ _).length
        rw [tlv_eq]
        simp
      rw [List.length_append] at hf
      obtain ⟨f, rfl⟩ : ∃ g, f = g + 2 := ⟨f - 2, by omega⟩
      have hcr : cnt r.code a < 255 := by
        have := hca.few r.code
        rw [List.filter_append, List.length_append, List.filter_cons_of_pos (by simp), List.length_cons] at this
        rw [cnt]
        omega
      rw [hs, scan_restriction m f hw (hca.known r (by simp)) hr (hg.counts.fits hcr)]
      rfl
    · exact descent a _ e0 ha hnr
  · rcases hbad with hbad | hbad
    · exact descent es [] (by simp) hbad (fun e he hr => hx ⟨e, he, hr⟩)
    · exact absurd hbad hx

/-! ## C36: round trip -/

/-- A message whose header and elements can be represented: the extension headers and the elements are well
formed, the elements carry the type octets of their fields, and the length field does not overflow. -/
structure Regular (t : Msg) (x : t.desc.X) : Prop where
  header : HeaderWF (t.desc.header x)
  msgtype : (t.desc.header x).msgtype = t.desc.code
  fields : ∀ s i, t.desc.view x s = some i → (t.desc.kind s).codec.WF i ∧
    ((t.desc.kind s).codec.mar i).head? = some (t.desc.place s).1
  size : (t.desc.marshalInto [] x).length < 65536

/-- The elements of a message, in the order in which they are written. -/
def elements (t : Msg) (x : t.desc.X) : List IE := t.desc.ies x

/-- When a field is present, so are all fields in front of it for the same type of element. -/
def NoGaps (t : Msg) (x : t.desc.X) : Prop := ∀ s s', (t.desc.place s').1 = (t.desc.place s).1 → (t.desc.place s).2 ≤ (t.desc.place s').2 →
  (t.desc.view x s').isSome → (t.desc.view x s).isSome

/-- The message with the length field that `set_length` writes. -/
def sent (t : Msg) (x : t.desc.X) : t.desc.X :=
  t.desc.setHeader (withLen (t.desc.header x) (UInt16.ofNat ((t.desc.marshalInto [] x).length - 8))) x

theorem body_octets (t : Msg) (x : t.desc.X) : t.desc.body x = octets (elements t x) := by
  rw [t.lawful.body_eq, elements, ies, octets]
  induction t.desc.order with
  | nil => rfl
  | cons s l ih =>
    rw [List.flatMap_cons, ih, List.filterMap_cons]
    cases h : t.desc.view x s <;> simp [ie, h, optOctets, IE.mar]

theorem marshal_len (t : Msg) (x : t.desc.X) : (t.desc.marshalInto [] x).length =
    (t.desc.header x).marshal.length + (octets (elements t x)).length := by
  rw [marshalInto, List.nil_append, body_octets, setLen_eq, List.length_append, marshal_withLen_length]

theorem marshal_octets (t : Msg) (x : t.desc.X) : t.desc.marshalInto [] x =
    (withLen (t.desc.header x) (UInt16.ofNat ((t.desc.marshalInto [] x).length - 8))).marshal ++ octets (elements t x) := by
  rw [marshal_len, marshalInto, List.nil_append, body_octets, setLen_eq]

theorem ie_some {t : Msg} {x : t.desc.X} {s : t.desc.S} {e : IE} (h : t.desc.ie x s = some e) :
    ∃ i, t.desc.view x s = some i ∧ e = ⟨t.desc.kind s, i⟩ := by
  rw [ie, Option.map_eq_some_iff] at h
  obtain ⟨i, h1, h2⟩ := h
  exact ⟨i, h1, h2.symm⟩

theorem Regular.code {t : Msg} {x : t.desc.X} (h : Regular t x) {s : t.desc.S} {e : IE} (he : t.desc.ie x s = some e) :
    e.WF ∧ e.code = (t.desc.place s).1 := by
  obtain ⟨i, h1, rfl⟩ := ie_some he
  obtain ⟨h2, h3⟩ := h.fields s i h1
  refine ⟨h2, ?_⟩
  rw [IE.code, List.headD_eq_head?_getD]
  show (((t.desc.kind s).codec.mar i).head?).getD 0 = _
  rw [h3]
  rfl

theorem place_arm (t : Msg) (s : t.desc.S) : ∃ a, t.desc.arm (t.desc.place s).1 = some a ∧ a.slots[(t.desc.place s).2]? = some s ∧
    t.desc.kind s = a.kind := by
  have h := t.lawful.arm_place s
  cases ha : t.desc.arms.lookup (t.desc.place s).1 with
  | none => rw [ha] at h; cases h
  | some a =>
    rw [ha] at h
    simp only [Option.map_some, Option.getD_some] at h
    exact ⟨a, ha, h, (t.lawful.arm_kind _ (mem_of_lookup ha)).1 s (List.mem_of_getElem? h)⟩

theorem order_table (t : Msg) : (t.desc.order.Pairwise fun s _ => t.desc.kind s ≠ .PrivateExtension) ∧ t.desc.order.length < 256 := by
  cases t <;> exact ⟨by (show List.Pairwise (fun (s : _) _ => _) (_ : List _)); decide +kernel, by decide +kernel⟩

theorem Regular.carried {t : Msg} {x : t.desc.X} (h : Regular t x) : Carried t (elements t x) where
  wf := by
    intro e he
    obtain ⟨s, _, hs⟩ := List.mem_filterMap.mp he
    exact (h.code hs).1
  known := by
    intro e he
    obtain ⟨s, _, hs⟩ := List.mem_filterMap.mp he
    obtain ⟨a, h1, _, h3⟩ := place_arm t s
    refine ⟨a, by rw [(h.code hs).2]; exact h1, ?_⟩
    obtain ⟨i, _, rfl⟩ := ie_some hs
    exact h3.symm
  last := by
    refine List.Pairwise.filterMap _ ?_ (order_table t).1
    intro s s' hs e he e' _
    obtain ⟨i, _, rfl⟩ := ie_some he
    exact hs
  few := by
    intro c
    have h1 := List.length_filter_le (fun e : IE => e.code == c) (elements t x)
    have h2 := List.length_filterMap_le (t.desc.ie x) t.desc.order
    have h3 := (order_table t).2
    have h4 : (elements t x).length = (t.desc.order.filterMap (t.desc.ie x)).length := rfl
    omega

theorem elements_of_type {t : Msg} {x : t.desc.X} (h : Regular t x) {c : UInt8} {a : Arm t.desc.S} (ha : t.desc.arm c = some a) :
    (elements t x).filter (fun e => e.code == c) = a.slots.filterMap (t.desc.ie x) := by
  rw [← t.lawful.arm_slots _ (mem_of_lookup ha), elements, ies]
  induction t.desc.order with
  | nil => rfl
  | cons s l ih =>
    rw [List.filterMap_cons]
    cases hs : t.desc.ie x s with
    | none =>
      simp only [ih]
      by_cases hc : (t.desc.place s).1 = c
      · rw [List.filter_cons_of_pos (by simpa using hc), List.filterMap_cons, hs]
      · rw [List.filter_cons_of_neg (by simpa using hc)]
    | some e =>
      have h1 := (h.code hs).2
      by_cases hc : (t.desc.place s).1 = c
      · simp only
        rw [List.filter_cons_of_pos (by simpa [h1] using hc), ih, List.filter_cons_of_pos (by simpa using hc), List.filterMap_cons, hs]
      · simp only
        rw [List.filter_cons_of_neg (by simpa [h1] using hc), ih, List.filter_cons_of_neg (by simpa using hc)]

theorem filterMap_get {α β : Type} (f : α → Option β) : ∀ (l : List α) (p : Nat),
    (∀ i j : Nat, i ≤ j → (l[j]?.bind f).isSome → (l[i]?.bind f).isSome) → (l.filterMap f)[p]? = l[p]?.bind f
  | [], p, _ => by simp
  | a :: l, p, h => by
    have hl : ∀ i j : Nat, i ≤ j → (l[j]?.bind f).isSome → (l[i]?.bind f).isSome := by
      intro i j hij hj
      simpa using h (i + 1) (j + 1) (by omega) (by simpa using hj)
    rw [List.filterMap_cons]
    cases ha : f a with
    | none =>
      have hn : ∀ j : Nat, ((a :: l)[j]?.bind f) = none := by
        intro j
        cases hj : (a :: l)[j]?.bind f with
        | none => rfl
        | some v =>
          have := h 0 j (by omega) (by rw [hj]; rfl)
          simp [ha] at this
      simp only
      rw [hn p, filterMap_get f l p hl]
      have := hn (p + 1)
      simpa using this
    | some v =>
      cases p with
      | zero => simp [ha]
      | succ p => simp [filterMap_get f l p hl]

/-- The elements of a message without gaps are at the places of their fields. -/
theorem pick_elements {t : Msg} {x : t.desc.X} (h : Regular t x) (hg : NoGaps t x) (s : t.desc.S) :
    ((elements t x).filter (fun e => e.code == (t.desc.place s).1))[(t.desc.place s).2]? = t.desc.ie x s := by
  obtain ⟨a, h1, h2, _⟩ := place_arm t s
  rw [elements_of_type h h1, filterMap_get, h2]
  · rfl
  · intro i j hij hj
    cases hj' : a.slots[j]? with
    | none => rw [hj'] at hj; cases hj
    | some s' =>
      rw [hj'] at hj
      have hjl : j < a.slots.length := by
        rcases Nat.lt_or_ge j a.slots.length with h' | h'
        · exact h'
        · rw [List.getElem?_eq_none h'] at hj'; cases hj'
      have hi' : a.slots[i]? = some (a.slots[i]'(by omega)) := List.getElem?_eq_getElem _
      have p1 := (t.lawful.place_eq h1).mp hi'
      have p2 := (t.lawful.place_eq h1).mp hj'
      rw [hi']
      have := hg (a.slots[i]'(by omega)) s' (by rw [p1, p2]) (by rw [p1, p2]; exact hij)
        (by simpa [ie] using hj)
      simpa [ie] using this

theorem mand_table (t : Msg) : (∀ c ∈ t.desc.mandatory, ∃ s ∈ t.desc.order, t.desc.mand s = true ∧ (t.desc.place s).1 = c) ∧
    ∀ s' ∈ t.desc.order, t.desc.mand s' = true → ∀ s ∈ t.desc.order, (t.desc.place s').1 = (t.desc.place s).1 →
      (t.desc.place s).2 ≤ (t.desc.place s').2 → t.desc.mand s = true := by
  cases t <;> refine ⟨?_, ?_⟩ <;> (show ∀ _ ∈ (_ : List _), _) <;> decide +kernel

theorem Regular.complete {t : Msg} {x : t.desc.X} (h : Regular t x) : Complete t (elements t x) := by
  intro c hc
  obtain ⟨s, hs, h1, h2⟩ := (mand_table t).1 c hc
  obtain ⟨i, hi⟩ := Option.isSome_iff_exists.mp (t.lawful.mand_view x s h1)
  have he : t.desc.ie x s = some ⟨t.desc.kind s, i⟩ := by simp [ie, hi]
  exact ⟨_, List.mem_filterMap.mpr ⟨s, hs, he⟩, by rw [(h.code he).2, h2]⟩

theorem assembled_sent {t : Msg} {x y : t.desc.X} (h : Regular t x) (hg : NoGaps t x)
    (hy : Assembled t (t.desc.header (sent t x)) (elements t x) y) : y = sent t x := by
  refine t.lawful.ext _ _ hy.header fun s => ?_
  rw [hy.field s, pick_elements h hg, sent, t.lawful.view_set, ie]
  cases hv : t.desc.view x s with
  | some i => simp
  | none =>
    simp only [Option.map_none]
    refine t.lawful.dflt_view s ?_
    cases hm : t.desc.mand s with
    | false => rfl
    | true =>
      have := t.lawful.mand_view x s hm
      rw [hv] at this
      cases this

theorem assembled_nogaps {t : Msg} {x : t.desc.X} {h : Header} {es : List IE} (ha : Assembled t h es x) (hk : ∀ e ∈ es, t.desc.Knows e) : NoGaps t x := by
  intro s s' h1 h2 h3
  by_cases hm : t.desc.mand s = true
  · exact t.lawful.mand_view x s hm
  rw [ha.field s'] at h3
  rw [ha.field s]
  have hm' : t.desc.mand s' = false := by
    cases hx : t.desc.mand s' with
    | false => rfl
    | true => exact absurd ((mand_table t).2 s' (t.lawful.order_all s') hx s (t.lawful.order_all s) h1 h2) hm
  cases hp : (es.filter (fun e => e.code == (t.desc.place s').1))[(t.desc.place s').2]? with
  | none =>
    rw [hp, t.lawful.dflt_view s' hm'] at h3
    cases h3
  | some e' =>
    have hl : (t.desc.place s').2 < (es.filter (fun e => e.code == (t.desc.place s').1)).length := by
      rcases Nat.lt_or_ge (t.desc.place s').2 (es.filter (fun e => e.code == (t.desc.place s').1)).length with h' | h'
      · exact h'
      · rw [List.getElem?_eq_none h'] at hp; cases hp
    rw [h1] at hl
    have hl2 : (t.desc.place s).2 < (es.filter (fun e => e.code == (t.desc.place s).1)).length := by omega
    rw [List.getElem?_eq_getElem hl2]
    have hmem := List.getElem_mem hl2
    generalize (es.filter (fun e => e.code == (t.desc.place s).1))[(t.desc.place s).2] = e at hmem
    simp only
    rw [List.mem_filter] at hmem
    obtain ⟨a, h4, h5⟩ := hk e hmem.1
    obtain ⟨a', h6, _, h7⟩ := place_arm t s
    have hc : e.code = (t.desc.place s).1 := by simpa using hmem.2
    rw [hc, h6] at h4
    cases h4
    rw [IE.as, dif_pos (by rw [h7, h5])]
    rfl

theorem sent_len {t : Msg} {x : t.desc.X} (h : Regular t x) :
    (UInt16.ofNat ((t.desc.marshalInto [] x).length - 8)).toNat + 8 = (t.desc.marshalInto [] x).length := by
  have h1 := h.size
  have h2 := header_ge8 (t.desc.header x)
  have h3 := marshal_len t x
  simp
  omega

/-- C36, exactly: a message that can be represented is decoded from its own encoding if and only if the type
codes are written in ascending order, there is no APN restriction, and there are no gaps. -/
theorem C36_roundtrip_iff (t : Msg) (m : Mode) (x : t.desc.X) (h : Regular t x) :
    t.desc.unmarshal m (t.desc.marshalInto [] x) = .ok (sent t x) ↔
      Ascending (elements t x) ∧ (∀ e ∈ elements t x, e.1 ≠ .ApnRestriction) ∧ NoGaps t x := by
  have hl := sent_len h
  have hsz := h.size
  have hlen := marshal_len t x
  by_cases hok : Ascending (elements t x) ∧ ∀ e ∈ elements t x, e.1 ≠ .ApnRestriction
  · obtain ⟨y, hy, hd⟩ := (decode_elements t m _ h.header h.msgtype _ h.carried hok.1 hok.2
      (UInt16.ofNat ((t.desc.marshalInto [] x).length - 8)) (by omega) (by omega)).1 h.complete
    rw [← marshal_octets t x] at hd
    have hh : withLen (t.desc.header x) (UInt16.ofNat ((t.desc.marshalInto [] x).length - 8)) = t.desc.header (sent t x) := by
      rw [sent, t.lawful.header_set]
    rw [hh] at hy
    constructor
    · intro e
      rw [hd] at e
      cases e
      refine ⟨hok.1, hok.2, ?_⟩
      have hng := assembled_nogaps hy h.carried.known
      intro s s' h1 h2 h3
      have := hng s s' h1 h2 (by rw [sent, t.lawful.view_set]; exact h3)
      rwa [sent, t.lawful.view_set] at this
    · intro hg
      rw [hd, assembled_sent h hg.2.2 hy]
  · have hbad : ¬ Ascending (elements t x) ∨ ∃ e ∈ elements t x, e.1 = .ApnRestriction := by
      by_cases ha : Ascending (elements t x)
      · right
        by_cases hx : ∃ e ∈ elements t x, e.1 = .ApnRestriction
        · exact hx
        · exact absurd ⟨ha, fun e he hr => hx ⟨e, he, hr⟩⟩ hok
      · exact .inl ha
    have hd := decode_rejects t m _ h.header h.msgtype _ h.carried hbad
      (UInt16.ofNat ((t.desc.marshalInto [] x).length - 8)) (by omega) (by omega)
    rw [← marshal_octets t x] at hd
    rw [hd]
    constructor
    · intro e; cases e
    · intro hg; exact absurd ⟨hg.1, hg.2.1⟩ hok

/-- C36 (violation): a message with an APN restriction, or whose type codes are not written in ascending order, is
rejected by its own decoder. -/
theorem C36_rejected (t : Msg) (m : Mode) (x : t.desc.X) (h : Regular t x)
    (hbad : ¬ Ascending (elements t x) ∨ ∃ e ∈ elements t x, e.1 = .ApnRestriction) :
    t.desc.unmarshal m (t.desc.marshalInto [] x) = .err .messageInvalidMessageFormat := by
  have hl := sent_len h
  have hsz := h.size
  have hlen := marshal_len t x
  have hd := decode_rejects t m _ h.header h.msgtype _ h.carried hbad
      (UInt16.ofNat ((t.desc.marshalInto [] x).length - 8)) (by omega) (by omega)
  rwa [← marshal_octets t x] at hd

/-- The three message types with fields that are not written in ascending order, or can have gaps. -/
def Tricky (t : Msg) : Prop := t = .CreatePDPContextResponse ∨ t = .UpdatePDPContextResponse ∨ t = .UpdatePDPContextRequest

theorem asc_table (t : Msg) (h : t ≠ .CreatePDPContextResponse ∧ t ≠ .UpdatePDPContextResponse) :
    t.desc.order.Pairwise fun a b => (t.desc.place a).1 ≤ (t.desc.place b).1 := by
  cases t
  all_goals first
    | exact absurd rfl h.1
    | exact absurd rfl h.2
    | ((show List.Pairwise (fun (a : _) b => _) (_ : List _)); decide +kernel)

theorem gap_table (t : Msg) (h : ¬ Tricky t) : ∀ s ∈ t.desc.order, ∀ s' ∈ t.desc.order, (t.desc.place s').1 = (t.desc.place s).1 →
    (t.desc.place s).2 ≤ (t.desc.place s').2 → s = s' ∨ t.desc.mand s = true := by
  cases t
  all_goals first
    | exact absurd (.inl rfl) h
    | exact absurd (.inr (.inl rfl)) h
    | exact absurd (.inr (.inr rfl)) h
    | ((show ∀ _ ∈ (_ : List _), ∀ _ ∈ (_ : List _), _); decide +kernel)

/-- The fields of 14 message types are written in ascending order. -/
theorem C36_ascending (t : Msg) (ht : t ≠ .CreatePDPContextResponse ∧ t ≠ .UpdatePDPContextResponse) (x : t.desc.X) (h : Regular t x) :
    Ascending (elements t x) := by
  refine List.Pairwise.filterMap _ ?_ (asc_table t ht)
  intro s s' hs e he e' he'
  rw [(h.code he).2, (h.code he').2]
  exact hs

/-- C36 (partial): 13 of the 16 message types round trip, unless an APN restriction is present. Missing: the three
others (`C36_roundtrip_iff` says which of their values do) and messages with an APN restriction (`C36_rejected`). -/
theorem C36_message_roundtrip_partial (t : Msg) (ht : ¬ Tricky t) (m : Mode) (x : t.desc.X) (h : Regular t x)
    (hr : ∀ s, t.desc.kind s = .ApnRestriction → t.desc.view x s = none) :
    t.desc.unmarshal m (t.desc.marshalInto [] x) = .ok (sent t x) := by
  rw [C36_roundtrip_iff t m x h]
  refine ⟨C36_ascending t ⟨fun e => ht (.inl e), fun e => ht (.inr (.inl e))⟩ x h, ?_, ?_⟩
  · intro e he hk
    obtain ⟨s, _, hs⟩ := List.mem_filterMap.mp he
    obtain ⟨i, hi, rfl⟩ := ie_some hs
    rw [hr s hk] at hi
    cases hi
  · intro s s' h1 h2 h3
    rcases gap_table t ht s (t.lawful.order_all s) s' (t.lawful.order_all s') h1 h2 with rfl | hm
    · exact h3
    · exact t.lawful.mand_view x s hm

/-- When the length field is already right, the decoded message is the message itself. -/
theorem C36_exact (t : Msg) (x : t.desc.X) (h : (t.desc.header x).length = UInt16.ofNat ((t.desc.marshalInto [] x).length - 8)) :
    sent t x = x := by
  rw [sent, ← h]
  exact t.lawful.set_header x

/-- A Create PDP Context Request with 14 elements. -/
def exCreate : CreatePDPContextRequest :=
  { CreatePDPContextRequest.dflt with
    header := ⟨16, 0, 0x01020304, some 77, none, none⟩
    imsi := some ⟨2, "310260123456789".toList⟩
    teid_data := ⟨16, 0x11⟩
    teid_control := some ⟨17, 0x22⟩
    nsapi := ⟨20, 5⟩
    linked_nsapi := some ⟨20, 6⟩
    apn := some ⟨131, 9, "abc.mnc1".toList⟩
    sgsn_ip_control := ⟨133, 4, .v4 0x0a000001⟩
    sgsn_ip_user := ⟨133, 16, .v6 ⟨1, 2⟩⟩
    msisdn := some ⟨134, 9, 1, 1, 1, "491721234567890".toList⟩
    qos := ⟨135, 4, 2, [1, 2, 3]⟩
    rat_type := some ⟨151, 1, .utran⟩
    private_extension := some ⟨255, 5, 10415, [1, 2, 3]⟩ }

/-- A Create PDP Context Response with a charging gateway address and common flags. -/
def exResponse : CreatePDPContextResponse :=
  { CreatePDPContextResponse.dflt with
    charging_gw_addr := some ⟨251, 4, .v4 1⟩
    common_flags := some (Kind.codec .CommonFlags).dflt }

/-- A Create PDP Context Response with a user plane address only. -/
def exGap : CreatePDPContextResponse :=
  { CreatePDPContextResponse.dflt with ggsn_ip_user := some ⟨133, 4, .v4 1⟩ }

/-- `Regular`, checked field by field. -/
def regularB (t : Msg) (x : t.desc.X) : Bool :=
  (t.desc.header x).exts.isNone && (t.desc.header x).msgtype == t.desc.code &&
  t.desc.order.all (fun s => match t.desc.view x s with
    | none => true
    | some i => decide ((t.desc.kind s).codec.WF i) && ((t.desc.kind s).codec.mar i).head? == some (t.desc.place s).1) &&
  decide ((t.desc.marshalInto [] x).length < 65536)

theorem regular_of {t : Msg} {x : t.desc.X} (h : regularB t x = true) : Regular t x := by
  rw [regularB, Bool.and_eq_true, Bool.and_eq_true, Bool.and_eq_true, List.all_eq_true] at h
  obtain ⟨⟨⟨h1, h2⟩, h3⟩, h4⟩ := h
  refine ⟨?_, by simpa using h2, ?_, by simpa using h4⟩
  · intro l hl
    rw [hl] at h1
    cases h1
  · intro s i hi
    have := h3 s (t.lawful.order_all s)
    rw [hi] at this
    simpa using this

example : Regular .CreatePDPContextRequest exCreate ∧ ¬ Tricky .CreatePDPContextRequest ∧
    ∀ s, (Msg.desc .CreatePDPContextRequest).kind s = .ApnRestriction → (Msg.desc .CreatePDPContextRequest).view exCreate s = none := by
  refine ⟨regular_of (by decide +kernel), by simp [Tricky], ?_⟩
  intro s
  cases s <;> decide +kernel

/-- Two fields that are written in the wrong order. -/
theorem not_ascending {t : Msg} {x : t.desc.X} (h : Regular t x) {s1 s2 : t.desc.S} {p q r : List t.desc.S}
    (ho : t.desc.order = p ++ s1 :: (q ++ s2 :: r)) (h1 : (t.desc.view x s1).isSome) (h2 : (t.desc.view x s2).isSome)
    (hlt : (t.desc.place s2).1 < (t.desc.place s1).1) : ¬ Ascending (elements t x) := by
  obtain ⟨a, ha⟩ := Option.isSome_iff_exists.mp h1
  obtain ⟨b, hb⟩ := Option.isSome_iff_exists.mp h2
  have ea : t.desc.ie x s1 = some ⟨t.desc.kind s1, a⟩ := by rw [ie, ha]; rfl
  have eb : t.desc.ie x s2 = some ⟨t.desc.kind s2, b⟩ := by rw [ie, hb]; rfl
  intro hasc
  rw [Ascending, elements, ies, ho, List.filterMap_append, List.filterMap_cons, ea, List.filterMap_append, List.filterMap_cons, eb,
    List.pairwise_append, List.pairwise_cons] at hasc
  have := hasc.2.1.1 ⟨t.desc.kind s2, b⟩ (by simp)
  rw [(h.code ea).2, (h.code eb).2, UInt8.le_iff_toNat_le] at this
  rw [UInt8.lt_iff_toNat_lt] at hlt
  omega

/-- C36 is violated: a Create PDP Context Response with a charging gateway address and common flags is never decoded,
because the address (type 251) is written first. -/
theorem C36_violation_order (m : Mode) (x : CreatePDPContextResponse) (h : Regular .CreatePDPContextResponse x)
    (h1 : x.charging_gw_addr.isSome) (h2 : x.common_flags.isSome) :
    CreatePDPContextResponse.unmarshal m (CreatePDPContextResponse.marshalInto [] x) = .err .messageInvalidMessageFormat := by
  obtain ⟨p, q, r, ho⟩ : ∃ p q r, CreatePDPContextResponse.order = p ++ .charging_gw_addr :: (q ++ .common_flags :: r) := by
    refine ⟨CreatePDPContextResponse.order.takeWhile (· ≠ .charging_gw_addr),
      ((CreatePDPContextResponse.order.dropWhile (· ≠ .charging_gw_addr)).drop 1).takeWhile (· ≠ .common_flags),
      (CreatePDPContextResponse.order.dropWhile (· ≠ .common_flags)).drop 1, by decide⟩
  exact C36_rejected .CreatePDPContextResponse m x h (.inl (not_ascending (t := .CreatePDPContextResponse) h
    (s1 := CreatePDPContextResponse.S.charging_gw_addr) (s2 := CreatePDPContextResponse.S.common_flags) ho h1 h2 (by decide)))

example : Regular .CreatePDPContextResponse exResponse ∧ exResponse.charging_gw_addr.isSome ∧ exResponse.common_flags.isSome :=
  ⟨regular_of (by decide +kernel), rfl, rfl⟩

/-- C36 is violated: a user plane address without control plane address comes back as the latter; and the default
PDU Notification Request is not decoded (its TEID carries the type of the other TEID). -/
theorem C36_violation (m : Mode) : Regular .CreatePDPContextResponse exGap ∧
    (∃ y, CreatePDPContextResponse.unmarshal m (CreatePDPContextResponse.marshalInto [] exGap) = .ok y ∧
      y.ggsn_ip_control = exGap.ggsn_ip_user ∧ y.ggsn_ip_user = none) ∧
    PDUNotificationRequest.unmarshal m (PDUNotificationRequest.marshalInto [] PDUNotificationRequest.dflt) =
      .err .messageInvalidMessageFormat := by
  refine ⟨regular_of (by decide +kernel), ⟨_, by cases m <;> rfl, by rfl, by rfl⟩, by cases m <;> decide +kernel⟩

end Gtp.Props.C1
