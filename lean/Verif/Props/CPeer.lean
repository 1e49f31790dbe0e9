import Verif.Props.CTable
import Verif.Props.CFigureRead
import Verif.Props.Layout

/-!
# C97: a GTPv1-C message that a peer writes as TS 29.060 has it is understood

Header (clause 6), figures of the elements (clause 7.7) and tables of the messages (clause 7.3 to 7.5) together; as C96 for GTPv2-C. Nothing of what the
peer writes is described with the encoders of the crate.
-/

namespace Gtp.Props.C1
open Gtp.C1 Gtp.V1 Gtp.C1.Desc Gtp.Props Gtp.Props.Row

/-- An element as its figure has it, with the type of the figure stored in the value. Excluded are values that the decoder takes for something else (C91). -/
structure AsDrawn (b : Bytes) (e : IE) : Prop where
  drawn : ∃ f, figure e.1 e.2 = some f ∧ (∀ r ∈ f.2, r.Fits) ∧ Drawn b f ∧ e.mar.head?.map UInt8.toNat = some f.1
  read : deviates e.1 e.2 = false ∧ e.WF ∨ ∃ x, e = ⟨.Imsi, x⟩

theorem imsi_length {x : Gtp.C1.Imsi} {f : Nat × List Row} (h : figure .Imsi x = some f) (hf : ∀ r ∈ f.2, r.Fits) {b : Bytes} (hb : Drawn b f) :
    b.length = 9 := by
  obtain ⟨t, s⟩ := x
  have e : figure .Imsi (⟨t, s⟩ : Gtp.C1.Imsi) = if s.length ≤ 15 then some (2, digits s :: List.replicate (8 - (s.length + 1) / 2) (Row.num 1 255))
    else none := rfl
  rw [e] at h
  have hl : s.length ≤ 15 := Classical.byContradiction fun hn => by simp [hn] at h
  simp only [hl, if_true, Option.some.injEq] at h
  subst h
  have hg := hf _ (.head _)
  have n := C04_tbcd_length s hg
  have hfill : ∀ n, ((List.replicate n (Row.num 1 255)).flatMap draw).length = n := by
    intro n
    induction n with
    | zero => rfl
    | succ n ih => rw [List.replicate_succ, List.flatMap_cons, List.length_append, ih]; exact Nat.add_comm _ _
  have hb' : b.map UInt8.toNat = 2 :: (digits s :: List.replicate (8 - (s.length + 1) / 2) (Row.num 1 255)).flatMap draw := hb
  have := congrArg List.length hb'
  simp only [List.length_map, List.flatMap_cons, draw_digits hg, List.length_cons, List.length_append, hfill, n] at this
  omega

/-- Such an element is read, and its length is that of its octets. -/
theorem AsDrawn.reads {b : Bytes} {e : IE} (h : AsDrawn b e) (m : Mode) (hx1 : e.1 ≠ .ApnRestriction) (hx2 : e.1 ≠ .ExtensionHeaderTypeList) (tail : Bytes)
    (ht : e.1 ≠ .PrivateExtension ∨ tail = []) :
    e.1.codec.unm m (b ++ tail) = .ok e.2 ∧ e.1.codec.len m e.2 = .ok b.length ∧ b ≠ [] := by
  obtain ⟨f, h1, h2, h3, h4⟩ := h.drawn
  have hne : b ≠ [] := by
    rintro rfl
    have := congrArg List.length h3
    split at this
    · cases this
    · split at this <;> cases this
  rcases h.read with ⟨hd, hw⟩ | ⟨x, rfl⟩
  · obtain rfl : b = e.mar := drawn_unique h3 ((C75_octets_partial e.1 e.2 f h1 h2).mpr ⟨h4, hd⟩)
    refine ⟨?_, e.1.lenOk hx1 m e.2 hw, hne⟩
    rcases ht with ht | rfl
    · exact e.1.rt (greedy_of fun hs => hs.elim ht hx2) m e.2 tail hw
    · rw [List.append_nil]; exact e.1.rtLast m e.2 hw
  · refine ⟨C91_imsi m x f h1 h2 ?_ b tail h3, ?_, hne⟩
    · have h5 : f.1 = 2 := by
        dsimp only at h1
        have e' : figure .Imsi x = if x.imsi.length ≤ 15 then some (2, digits x.imsi :: List.replicate (8 - (x.imsi.length + 1) / 2) (Row.num 1 255)) else none := rfl
        rw [e'] at h1
        split at h1
        · cases h1; rfl
        · cases h1
      rw [h5] at h4
      exact UInt8.toNat_inj.mp (Option.some.inj h4)
    · rw [imsi_length h1 h2 h3]; rfl

theorem arm_list (t : Msg) (c : UInt8) (a : Arm t.desc.S) (h : t.desc.arm c = some a) : a.kind ≠ .ExtensionHeaderTypeList := by
  have : (t.desc.arms.all fun p => decide (p.2.kind ≠ .ExtensionHeaderTypeList)) = true := by cases t <;> decide +kernel
  exact of_decide_eq_true (List.all_eq_true.mp this _ (mem_of_lookup h))

/-- The items of `ps`. -/
def items (ps : List (Bytes × IE)) : List Item := ps.map fun p => (p.1.headD 0, p.2)

theorem parsed_drawn (t : Msg) (m : Mode) : ∀ (ps : List (Bytes × IE)), (∀ p ∈ ps, AsDrawn p.1 p.2) →
    (∀ p ∈ ps, p.1.headD 0 ∈ Ts060.ies t ∧ Ts060.kind (p.1.headD 0) = some p.2.1) → (∀ p ∈ ps, p.2.1 ≠ .ApnRestriction) →
    (ps.Pairwise fun p _ => p.2.1 ≠ .PrivateExtension) → Parsed t m (ps.flatMap (·.1)) (items ps)
  | [], _, _, _, _ => .nil
  | p :: ps, hd, hk, h1, h2 => by
    obtain ⟨hk1, hk2⟩ := hk p (.head _)
    have hkn := of_decide_eq_true (List.all_eq_true.mp (known_table t) _ hk1)
    obtain ⟨a, ha⟩ := Option.isSome_iff_exists.mp hkn.2
    have hak : a.kind = p.2.1 := by
      have h' := hkn.1
      rw [ha, hk2] at h'
      exact Option.some.inj h'
    have hlist : p.2.1 ≠ .ExtensionHeaderTypeList := hak ▸ arm_list t _ _ ha
    obtain ⟨r1, r2, r3⟩ := (hd p (.head _)).reads m (h1 p (.head _)) hlist (ps.flatMap (·.1)) (by
      cases ps with
      | nil => exact .inr rfl
      | cons q qs => exact .inl ((List.pairwise_cons.mp h2).1 q (.head _)))
    have ih := parsed_drawn t m ps (fun q hq => hd q (.tail _ hq)) (fun q hq => hk q (.tail _ hq)) (fun q hq => h1 q (.tail _ hq)) (List.pairwise_cons.mp h2).2
    obtain ⟨b, k, x⟩ := p
    dsimp only at hak r1 r2 r3 ha
    subst hak
    cases b with
    | nil => exact absurd rfl r3
    | cons c r =>
      refine Parsed.cons (t := t) (a := a) ha r1 r2 ?_
      have : ((c :: r) ++ ps.flatMap (·.1)).drop (c :: r).length = ps.flatMap (·.1) := List.drop_left
      exact this ▸ ih

/-- A header and a sequence of elements that is acceptable. -/
theorem accept_parsed (t : Msg) (m : Mode) (h : Header) (wf : HeaderWF h) (hc : h.msgtype = t.desc.code) (body : Bytes) (es : List Item)
    (hp : Parsed t m body es) (hf : Few es) (ha : es.Pairwise fun a b => a.1 ≤ b.1) (hr : ∀ c ∈ t.desc.mandatory, ∃ e ∈ es, e.1 = c)
    (h1 : h.length.toNat < 65528) (h2 : h.length.toNat + 8 ≤ h.marshal.length + body.length) :
    ∃ x, t.desc.unmarshal m (h.marshal ++ body) = .ok x ∧ Prescribed t h es x := by
  have hg := good_parsed hp [] _ (goodI_start t h) (by simpa using hf)
  rw [List.nil_append] at hg
  have hs := scan_of_parsed hp (h.marshal.length + body.length + 1) (t.desc.start h) [] (ascI_iff.mpr ⟨fun e _ => by simp [start], ha⟩)
    (goodI_start t h).counts (by simpa using hf) (by omega)
  refine ⟨_, ?_, ha, hr, hg.header, hg.view⟩
  have := unmarshal_body t m h wf hc h.length h1 body h2
  rw [show withLen h h.length = h from rfl, hs, R.ok_bind, finish, if_pos ((finishI hg hf).mpr hr)] at this
  exact this

/-- The elements `es` are in the result, of each type as many as the table has rows for it. -/
theorem prescribed_kept {t : Msg} {h : Header} {es : List Item} {x : t.desc.X} (hA : Prescribed t h es x)
    (hk : ∀ e ∈ es, e.1 ∈ Ts060.ies t ∧ Ts060.kind e.1 = some e.2.1) (c : UInt8) (e : Item)
    (he : e ∈ (ofType c es).take ((Ts060.ies t).count c)) : e.2 ∈ elements t x := by
  obtain ⟨j, hj, rfl⟩ := List.mem_iff_getElem.mp he
  rw [List.length_take] at hj
  rw [List.getElem_take]
  have hmem : (ofType c es)[j] ∈ ofType c es := List.getElem_mem _
  generalize hy : (ofType c es)[j] = y at hmem
  obtain ⟨hy1, hy2⟩ := List.mem_filter.mp hmem
  rw [beq_iff_eq] at hy2
  have hky := hk y hy1
  rw [hy2] at hky
  obtain ⟨a, ha⟩ := Option.isSome_iff_exists.mp (of_decide_eq_true (List.all_eq_true.mp (known_table t) _ hky.1)).2
  obtain ⟨-, hka, hslots⟩ := arm_mem ha
  obtain ⟨q1, -, -, -, -, q6⟩ := t.lawful.arm_kind _ (mem_of_lookup ha)
  have hjs : j < a.slots.length := by omega
  have hpl := q6 j hjs
  dsimp only at hpl
  rw [List.getElem?_eq_getElem hjs, Option.map_some, Option.some.injEq] at hpl
  have hf := hA.field a.slots[j]
  rw [hpl] at hf
  dsimp only at hf
  rw [List.getElem?_eq_getElem (by omega), hy] at hf
  have hks : t.desc.kind a.slots[j] = y.2.1 := (q1 _ (List.getElem_mem _)).trans (Option.some.inj (hka.symm.trans hky.2))
  obtain ⟨c', k', y'⟩ := y
  dsimp only at hks hf
  subst hks
  rw [IE.as_mk] at hf
  exact mem_ies (t.lawful.order_all _) hf

/-- C97: a message as a peer writes it, with elements of its table in ascending order and the mandatory ones among them, is accepted; the header is the one
that was written, and of each type the result has as many elements as the table has rows, the first ones. Missing: APN Restriction (C36), a private extension in
front of something else, and time zones (C91_zone). -/
theorem C97_partial (t : Msg) (m : Mode) (h : Header) (wf : HeaderWF h) (hc : h.msgtype = Ts060.code t) (ps : List (Bytes × IE))
    (hd : ∀ p ∈ ps, AsDrawn p.1 p.2) (hk : ∀ p ∈ ps, p.1.headD 0 ∈ Ts060.ies t ∧ Ts060.kind (p.1.headD 0) = some p.2.1)
    (ha : ps.Pairwise fun p q => p.1.headD 0 ≤ q.1.headD 0) (hfew : ∀ c, (ps.filter fun p => p.1.headD 0 == c).length ≤ 255)
    (hr : ∀ r ∈ required t, ∃ p ∈ ps, p.1.headD 0 = r.1)
    (hx1 : ∀ p ∈ ps, p.2.1 ≠ .ApnRestriction) (hx2 : ps.Pairwise fun p _ => p.2.1 ≠ .PrivateExtension)
    (h1 : h.length.toNat < 65528) (h2 : h.length.toNat + 8 = (cHeaderOctets h).length + (ps.flatMap (·.1)).length) :
    ∃ x, t.desc.unmarshal m (cHeaderOctets h ++ ps.flatMap (·.1)) = .ok x ∧ t.desc.header x = h ∧
      ∀ c, ∀ p ∈ (ps.filter fun p => p.1.headD 0 == c).take ((Ts060.ies t).count c), p.2 ∈ elements t x := by
  rw [← C57_c_header] at h2 ⊢
  have hfl : ∀ c, ofType c (items ps) = (ps.filter fun p => p.1.headD 0 == c).map fun p => (p.1.headD 0, p.2) := fun c => by
    rw [ofType, items, List.filter_map]; rfl
  obtain ⟨x, hu, hA⟩ := accept_parsed t m h wf (hc.trans (C87_code t).symm) _ _ (parsed_drawn t m ps hd hk hx1 hx2)
    (fun c => by rw [hfl, List.length_map]; exact Nat.lt_succ_of_le (hfew c)) (by
      rw [items, List.pairwise_map]
      exact ha) (fun c hcm => by
      rw [required_eq] at hcm
      obtain ⟨r, hr', rfl⟩ := List.mem_map.mp hcm
      obtain ⟨p, hp, hp'⟩ := hr r hr'
      exact ⟨_, List.mem_map_of_mem hp, hp'⟩) h1 (Nat.le_of_eq h2)
  refine ⟨x, hu, hA.header, fun c p hp => ?_⟩
  refine prescribed_kept hA (fun e he => ?_) c (p.1.headD 0, p.2) ?_
  · obtain ⟨p, hp, rfl⟩ := List.mem_map.mp he
    exact hk p hp
  · rw [hfl, ← List.map_take]
    exact List.mem_map_of_mem (f := fun p : Bytes × IE => (p.1.headD 0, p.2)) hp

/-- C97 is violated: a message that is the same but for an APN Restriction among its elements is rejected, whatever else is in it; so is one whose elements
are in another order. -/
theorem C97_violation (t : Msg) (m : Mode) (h : Header) (wf : HeaderWF h) (hc : h.msgtype = Ts060.code t) (ps : List (Bytes × IE))
    (hd : ∀ p ∈ ps, AsDrawn p.1 p.2 ∧ deviates p.2.1 p.2.2 = false ∧ p.2.WF)
    (hk : ∀ p ∈ ps, p.1.headD 0 ∈ Ts060.ies t ∧ Ts060.kind (p.1.headD 0) = some p.2.1) (hfew : ∀ c, (ps.filter fun p => p.1.headD 0 == c).length ≤ 255)
    (hx1 : (∃ p ∈ ps, p.2.1 = .ApnRestriction) ∨ ¬ ps.Pairwise fun p q => p.1.headD 0 ≤ q.1.headD 0)
    (hx2 : ps.Pairwise fun p _ => p.2.1 ≠ .PrivateExtension)
    (h1 : h.length.toNat < 65528) (h2 : h.length.toNat + 8 = (cHeaderOctets h).length + (ps.flatMap (·.1)).length) :
    t.desc.unmarshal m (cHeaderOctets h ++ ps.flatMap (·.1)) = .err .messageInvalidMessageFormat := by
  have hps : ps = (ps.map (·.2)).map fun e => (e.mar, e) := by
    rw [List.map_map]
    refine (List.map_id ps).symm.trans (List.map_congr_left fun p hp => ?_)
    obtain ⟨hp1, hp2, -⟩ := hd p hp
    obtain ⟨f, f1, f2, f3, f4⟩ := hp1.drawn
    exact Prod.ext (drawn_unique f3 ((C75_octets_partial p.2.1 p.2.2 f f1 f2).mpr ⟨f4, hp2⟩)) rfl
  have hwf : ∀ e ∈ ps.map (·.2), e.WF := fun e he => by
    obtain ⟨p, hp, rfl⟩ := List.mem_map.mp he
    exact (hd p hp).2.2
  clear hd
  generalize ps.map (·.2) = es at hps hwf
  subst hps
  have hoct : (es.map fun e => (e.mar, e)).flatMap (·.1) = octets es := by rw [List.flatMap_map]; rfl
  rw [hoct, ← C57_c_header] at h2 ⊢
  have hk : ∀ e ∈ es, e.code ∈ Ts060.ies t ∧ Ts060.kind e.code = some e.1 := fun e he => hk _ (List.mem_map_of_mem he)
  have hca : Carried t es := ⟨hwf, fun e he => by
    have := of_decide_eq_true (List.all_eq_true.mp (known_table t) _ (hk e he).1)
    obtain ⟨a, ha⟩ := Option.isSome_iff_exists.mp this.2
    refine ⟨a, ha, ?_⟩
    have h' := this.1
    rw [ha, (hk e he).2] at h'
    exact Option.some.inj h', List.pairwise_map.mp hx2, fun c => Nat.lt_succ_of_le (by
      have := hfew c
      rwa [List.filter_map, List.length_map] at this)⟩
  refine decode_rejects t m h wf (hc.trans (C87_code t).symm) es hca ?_ h.length h1 (Nat.le_of_eq h2)
  rcases hx1 with ⟨p, hp, hp'⟩ | hn
  · obtain ⟨e, he, rfl⟩ := List.mem_map.mp hp
    exact .inr ⟨e, he, hp'⟩
  · refine .inl fun ha => hn (List.pairwise_map.mpr ?_)
    exact ha

/-- A Delete PDP Context Request with a sequence number, teardown indication and NSAPI, and a user location, as a peer writes it. -/
def exPeer : List (Bytes × IE) := [([19, 0xff], ⟨.TeardownInd, ⟨19, true⟩⟩), ([20, 5], ⟨.Nsapi, ⟨20, 5⟩⟩),
  ([152, 0, 8, 2, 0x62, 0xf2, 0x30, 0xbc, 0x3e, 7, 0xff], ⟨.Uli, ⟨152, 8, 262, 3, false, 48190, .rac 7⟩⟩)]

example (m : Mode) : ∃ x : DeletePDPContextRequest, DeletePDPContextRequest.desc.unmarshal m
    [0x32, 20, 0, 19, 0, 0, 0, 9, 0, 1, 0, 0, 19, 0xff, 20, 5, 152, 0, 8, 2, 0x62, 0xf2, 0x30, 0xbc, 0x3e, 7, 0xff] = .ok x ∧
    x.header = ⟨20, 19, 9, some 1, none, none⟩ ∧ (⟨.Uli, ⟨152, 8, 262, 3, false, 48190, .rac 7⟩⟩ : IE) ∈ elements .DeletePDPContextRequest x := by
  obtain ⟨x, h1, h2, h3⟩ := C97_partial .DeletePDPContextRequest m ⟨20, 19, 9, some 1, none, none⟩ (by intro l hl; cases hl) rfl exPeer
    (by
      intro p hp
      simp only [exPeer, List.mem_cons, List.not_mem_nil, or_false] at hp
      rcases hp with rfl | rfl | rfl
      all_goals exact ⟨⟨_, rfl, by decide +kernel, by decide +kernel, by decide +kernel⟩, .inl ⟨by decide +kernel, by decide +kernel⟩⟩)
    (by decide +kernel) (by decide +kernel) (fun c => Nat.le_trans (List.length_filter_le _ _) (by decide)) (by decide +kernel) (by decide +kernel)
    (by decide +kernel) (by decide +kernel) (by decide +kernel)
  exact ⟨x, h1, h2, h3 152 _ (.head _)⟩

/-- An MS Info Change Notification Request with an IMSI of 14 digits, RAT type and user location. -/
def exShort : List (Bytes × IE) := [([2, 0x62, 0x02, 0x21, 0x43, 0x65, 0x87, 0x09, 0xff], ⟨.Imsi, ⟨2, "26201234567890".toList⟩⟩),
  ([151, 0, 1, 6], ⟨.RatType, ⟨151, 1, .eutran⟩⟩),
  ([152, 0, 8, 2, 0x62, 0xf2, 0x30, 0xbc, 0x3e, 7, 0xff], ⟨.Uli, ⟨152, 8, 262, 3, false, 48190, .rac 7⟩⟩)]

example (m : Mode) : ∃ x : MSInfoChangeNotificationRequest, MSInfoChangeNotificationRequest.desc.unmarshal m
    [0x32, 128, 0, 28, 0, 0, 0, 9, 0, 1, 0, 0, 2, 0x62, 0x02, 0x21, 0x43, 0x65, 0x87, 0x09, 0xff, 151, 0, 1, 6,
      152, 0, 8, 2, 0x62, 0xf2, 0x30, 0xbc, 0x3e, 7, 0xff] = .ok x ∧
    (⟨.Imsi, ⟨2, "26201234567890".toList⟩⟩ : IE) ∈ elements .MSInfoChangeNotificationRequest x := by
  obtain ⟨x, h1, h2, h3⟩ := C97_partial .MSInfoChangeNotificationRequest m ⟨128, 28, 9, some 1, none, none⟩ (by intro l hl; cases hl) rfl exShort
    (by
      intro p hp
      simp only [exShort, List.mem_cons, List.not_mem_nil, or_false] at hp
      rcases hp with rfl | rfl | rfl
      · exact ⟨⟨_, rfl, by decide +kernel, by decide +kernel, by decide +kernel⟩, .inr ⟨_, rfl⟩⟩
      all_goals exact ⟨⟨_, rfl, by decide +kernel, by decide +kernel, by decide +kernel⟩, .inl ⟨by decide +kernel, by decide +kernel⟩⟩)
    (by decide +kernel) (by decide +kernel) (fun c => Nat.le_trans (List.length_filter_le _ _) (by decide)) (by decide +kernel) (by decide +kernel)
    (by decide +kernel) (by decide +kernel) (by decide +kernel)
  exact ⟨x, h1, h3 2 _ (.head _)⟩

/-- An Update PDP Context Response with an APN Restriction and a charging gateway address. -/
def exRestriction : List (Bytes × IE) := [([1, 128], ⟨.Cause, ⟨1, 128⟩⟩), ([149, 0, 1, 2], ⟨.ApnRestriction, ⟨149, 1, .public2⟩⟩),
  ([251, 0, 4, 10, 0, 0, 1], ⟨.ChargingGWAddress, ⟨251, 4, .v4 0x0a000001⟩⟩)]

example (m : Mode) : UpdatePDPContextResponse.desc.unmarshal m
    [0x32, 19, 0, 17, 0, 0, 0, 9, 0, 1, 0, 0, 1, 128, 149, 0, 1, 2, 251, 0, 4, 10, 0, 0, 1] = .err .messageInvalidMessageFormat :=
  C97_violation .UpdatePDPContextResponse m ⟨19, 17, 9, some 1, none, none⟩ (by intro l hl; cases hl) rfl exRestriction
    (by
      intro p hp
      simp only [exRestriction, List.mem_cons, List.not_mem_nil, or_false] at hp
      rcases hp with rfl | rfl | rfl
      all_goals exact ⟨⟨⟨_, rfl, by decide +kernel, by decide +kernel, by decide +kernel⟩, .inl ⟨by decide +kernel, by decide +kernel⟩⟩,
        by decide +kernel, by decide +kernel⟩)
    (by decide +kernel) (fun c => Nat.le_trans (List.length_filter_le _ _) (by decide)) (.inl ⟨_, .tail _ (.head _), rfl⟩)
    (by decide +kernel) (by decide +kernel) (by decide +kernel)

end Gtp.Props.C1
