import Verif.Props.GroupedWrite
import Verif.Props.FigureRead

/-!
# C90 for grouped IEs

A grouped IE is read from what its members are read from, in whatever order they come. Together with `C94_kept_partial` and `C90_understood_partial`: a
grouped IE that a peer writes with members as the figures have them is understood, at any depth.
-/

namespace Gtp.Props.Grouped
open Gtp.V2

/-- The octets are read as this IE, whatever follows. -/
def Reads (m : Mode) (b : Bytes) (e : IE) : Prop := b ≠ [] ∧ ∀ tail, decodeOne (decoder m) m (b ++ tail) = .ok (e, b.length)

theorem decoder_reads {m : Mode} (ps : List (Bytes × IE)) (h : ∀ p ∈ ps, Reads m p.1 p.2) : decoder m (ps.flatMap (·.1)) = .ok (ps.map (·.2)) := by
  induction ps with
  | nil => exact decoder_nil m
  | cons p ps ih =>
    obtain ⟨hne, hp⟩ := h p (.head _)
    have ih := ih fun q hq => h q (.tail _ hq)
    rw [List.flatMap_cons, decoder_eq, if_neg (by simp [hne]), hp, R.ok_bind]
    simp only
    rw [if_neg (by simpa using hne), List.drop_left, ih]
    rfl

/-- The header of a grouped IE. -/
def wrap (t i : UInt8) (body : Bytes) : Bytes := t :: UInt8.ofNat (body.length / 256) :: UInt8.ofNat body.length :: i :: body

/-- C90, grouped IEs: octets that are read as the members, one behind the other behind a header, are read as the value that the members prescribe. -/
theorem C90_grouped (m : Mode) (t i : UInt8) (hk : kindOf t ∈ grouped) (ps : List (Bytes × IE)) (h : ∀ p ∈ ps, Reads m p.1 p.2)
    (h0 : ps ≠ []) (hl : (ps.flatMap (·.1)).length < 65532) (h5 : kindOf t = .PC5QosParameters → ∃ p ∈ ps, (Ms 212 0).At p.2) :
    Reads m (wrap t i (ps.flatMap (·.1))) (built (kindOf t) t (UInt16.ofNat (ps.flatMap (·.1)).length) i (ps.map (·.2))) := by
  refine ⟨by simp [wrap], fun tail => ?_⟩
  have hd := decoder_reads ps h
  have hpos : 0 < (ps.flatMap (·.1)).length := by
    cases ps with
    | nil => exact absurd rfl h0
    | cons p ps =>
      have := List.length_pos_iff.mpr (h p (.head _)).1
      rw [List.flatMap_cons, List.length_append]
      omega
  have h5 : kindOf t = .PC5QosParameters → thePC5QosFlow (exactly 0) (ps.map (·.2)) ≠ [] := by
    intro hk
    obtain ⟨p, hp, ha⟩ := h5 hk
    obtain ⟨x, hx, hy⟩ := in_PC5QosFlow (List.mem_map.mpr ⟨p, hp, rfl⟩) (ha.1.trans (by decide +kernel)) (c := exactly 0) (by rw [ha.2]; rfl)
    exact List.ne_nil_of_mem hy
  generalize ps.flatMap (·.1) = body at *
  generalize ps.map (·.2) = l at *
  have hn : (UInt16.ofNat body.length).toNat = body.length := by rw [UInt16.toNat_ofNat']; omega
  have hdl : declLen (wrap t i body ++ tail) = UInt16.ofNat body.length := by
    apply UInt16.toNat_inj.mp
    rw [hn]
    simp only [declLen, wrap, List.cons_append, List.getD_cons_succ, List.getD_cons_zero, of16, UInt16.toNat_ofNat', UInt8.toNat_ofNat']
    omega
  have hu := (C94_accepted (kindOf t) hk m (wrap t i body ++ tail) (built (kindOf t) t (UInt16.ofNat body.length) i l)).mpr
    ⟨l, by simp [wrap], by rw [hdl, hn]; exact hpos, by rw [hdl, hn]; exact hl, by rw [hdl, hn]; simp [wrap], by
      rw [hdl, hn]
      have : (wrap t i body ++ tail).take (body.length + 4) = wrap t i body := by
        rw [show body.length + 4 = (wrap t i body).length from rfl, List.take_left]
      rw [this]
      exact hd, h5, by rw [hdl]; rfl⟩
  unfold decodeOne
  have r0 : (rd (wrap t i body ++ tail) 0 : R Err UInt8) = .ok t := rd_zero _ _
  rw [r0, R.ok_bind, hu, R.ok_bind]
  have hlen : (built (kindOf t) t (UInt16.ofNat body.length) i l).len m = .ok (body.length + 4) := by
    have h1 : (built (kindOf t) t (UInt16.ofNat body.length) i l).len m = ieLenU (UInt16.ofNat body.length) := by
      generalize kindOf t = k at hk
      cases k <;> first | (exact absurd hk (by decide)) | rfl
    rw [h1, ieLenU, hn]
  rw [hlen]
  rfl

/-- A member as its figure has it, with anything in the spare half of the fourth octet. -/
structure AsDrawn (b : Bytes) (e : IE) : Prop where
  size : 4 ≤ b.length
  drawn : ∃ f, figure e = some f ∧ (∀ r ∈ f.2, r.Fits) ∧ Drawn b f
  ins : instanceOf (b.getD 0 0) (b.getD 3 0) = e.ins ∧ e.ins < 16
  same : deviates e = false
  wf : e.WF
  short : e.marshal.length < 65536

theorem reads_drawn (m : Mode) {b : Bytes} {e : IE} (h : AsDrawn b e) : Reads m b e := by
  obtain ⟨f, h1, h2, h3⟩ := h.drawn
  refine ⟨fun h' => ?_, fun tail => ?_⟩
  · have := h.size
    rw [h'] at this
    exact absurd this (by decide)
  · exact (C90_understood_partial m e f h1 h2 h.same h.ins.2 h.short).mpr h.wf b tail h.size h3 h.ins.1

/-- C90, grouped IEs written by a peer: members as the figures have them, in any order, are read as a value that has every member of a row of the
table, as far as the code keeps it (`lost`, `oneOnly`, `Rival`: see C94), whatever follows. -/
theorem C90_grouped_partial (m : Mode) (t i : UInt8) (hk : kindOf t ∈ grouped) (ps : List (Bytes × IE)) (h : ∀ p ∈ ps, AsDrawn p.1 p.2)
    (h0 : ps ≠ []) (hl : (ps.flatMap (·.1)).length < 65532) (h5 : kindOf t = .PC5QosParameters → ∃ p ∈ ps, (Ms 212 0).At p.2) :
    ∃ v, Reads m (wrap t i (ps.flatMap (·.1))) v ∧ v.kind = kindOf t ∧ v.ins = i ∧
      (∀ p ∈ ps, ∀ r ∈ rows (kindOf t), (kindOf t, r) ∉ lost → (kindOf t, r) ∉ oneOnly → r.At p.2 →
        (r.several = true ∨ ∀ q ∈ ps, Rival (kindOf t) r q.2 → q.2 = p.2) → p.2 ∈ contents v) ∧
      ∀ y ∈ contents v, (∃ p ∈ ps, p.2 = y) ∨ ∃ r ∈ rows (kindOf t), r.must = true ∧ (∀ p ∈ ps, ¬ r.At p.2) ∧ standIn r.type = some y := by
  refine ⟨_, C90_grouped m t i hk ps (fun p hp => reads_drawn m (h p hp)) h0 hl h5, ?_, ?_, fun p hp r hr h1 h2 ha hs => ?_, fun y hy => ?_⟩
  · generalize kindOf t = k at hk
    cases k <;> first | (exact absurd hk (by decide)) | rfl
  · generalize kindOf t = k at hk
    cases k <;> first | (exact absurd hk (by decide)) | rfl
  · refine C94_kept_partial _ r hr h1 h2 _ _ _ _ _ (List.mem_map.mpr ⟨p, hp, rfl⟩) ha (hs.imp_right fun hs z hz => ?_)
    obtain ⟨q, hq, rfl⟩ := List.mem_map.mp hz
    exact hs q hq
  · rcases C94_source_partial _ hk _ _ _ _ y hy with h' | ⟨r, hr, hm, hz, hs⟩
    · obtain ⟨p, hp, rfl⟩ := List.mem_map.mp h'
      exact .inl ⟨p, hp, rfl⟩
    · exact .inr ⟨r, hr, hm, fun p hp => hz _ (List.mem_map.mpr ⟨p, hp, rfl⟩), hs⟩

/-- A bearer context with a charging id in front of the EBI, spare bits set in the fourth octets of both. -/
example : AsDrawn [94, 0, 4, 0x10, 0, 0, 0, 7] (.ChargingId ⟨94, 4, 0, 7⟩) ∧ AsDrawn [73, 0, 1, 0xf0, 5] (.Ebi ⟨73, 1, 0, 5⟩) ∧
    kindOf 93 ∈ grouped ∧ (C 94 0) ∈ rows .BearerContext := by
  refine ⟨⟨by decide, ⟨_, rfl, by decide +kernel, by decide +kernel⟩, by decide +kernel, rfl, by decide +kernel, by decide +kernel⟩,
    ⟨by decide, ⟨_, rfl, by decide +kernel, by decide +kernel⟩, by decide +kernel, rfl, by decide +kernel, by decide +kernel⟩, by decide +kernel, by decide +kernel⟩

/-! ## C74 for grouped IEs -/

/-- An IE that can be drawn: it has a figure, its values have room there and it is none of those that are written differently, or it is grouped and this
is so for all that it contains, BSS container, transaction identifier, PGW change info and UP security policy excepted (C95). -/
inductive Drawable : IE → Prop
  | leaf (e : IE) (f : Nat × List Props.Row) (h : figure e = some f) (hf : ∀ r ∈ f.2, r.Fits) (hd : deviates e = false) : Drawable e
  | group (e : IE) (hk : e.kind ∈ grouped) (h : ∀ y ∈ contents (written e), Drawable y) (hl : e.marshal.length < 65540) : Drawable e

/-- The octets show the IE: as its figure has it, or as type, number of octets and instance with the members behind, in any order. -/
inductive Shows : Bytes → IE → Prop
  | leaf (b : Bytes) (e : IE) (f : Nat × List Props.Row) (h : figure e = some f) (hb : Drawn b f) (hi : b.getD 3 0 = e.ins) : Shows b e
  | group (e : IE) (ps : List (Bytes × IE)) (x y : UInt8) (hk : e.kind ∈ grouped) (hp : (ps.map (·.2)).Perm (contents (written e)))
      (h : ∀ p ∈ ps, Shows p.1 p.2) (hl : x.toNat * 256 + y.toNat = (ps.flatMap (·.1)).length) :
      Shows (groupType e.kind :: x :: y :: e.ins :: ps.flatMap (·.1)) e

/-- C74, grouped IEs: a grouped IE is written as header and members, and these as their figures have them, at any depth. -/
theorem C74_grouped_partial (e : IE) (h : Drawable e) : Shows e.marshal e := by
  induction h with
  | leaf e f h hf hd => exact .leaf _ e f h (C74_octets e f h hf hd) (marshal_ins e f h)
  | group e hk h hl ih =>
    obtain ⟨l, x, y, hp, hm, hn⟩ := C95_partial e hk
    have hps : (l.map fun y => (y.marshal, y)).flatMap (·.1) = l.flatMap IE.marshal := by rw [List.flatMap_map]
    have hlen : (l.flatMap IE.marshal).length < 65536 := by
      rw [hm] at hl
      simp only [List.length_cons] at hl
      omega
    rw [hm, ← hps]
    refine .group e (l.map fun y => (y.marshal, y)) x y hk ?_ ?_ ?_
    · rw [List.map_map]
      exact (List.map_id l).symm ▸ hp
    · intro p hp'
      obtain ⟨y, hy, rfl⟩ := List.mem_map.mp hp'
      exact ih y (hp.mem_iff.mp hy)
    · rw [hps, hn]
      omega

/-- A bearer context with a charging id can be drawn. -/
example : Drawable (.BearerContext { expectedBearerContext 93 0 0 [.Ebi ⟨73, 1, 0, 5⟩] with charging_id := some ⟨94, 4, 0, 7⟩ }) := by
  refine .group _ (by decide +kernel) (fun y hy => ?_) (by decide +kernel)
  have hc : contents (written (.BearerContext { expectedBearerContext 93 0 0 [.Ebi ⟨73, 1, 0, 5⟩] with charging_id := some ⟨94, 4, 0, 7⟩ })) =
    [.Ebi ⟨73, 1, 0, 5⟩, .ChargingId ⟨94, 4, 0, 7⟩] := rfl
  rw [hc] at hy
  simp only [List.mem_cons, List.not_mem_nil, or_false] at hy
  rcases hy with rfl | rfl
  · exact .leaf _ _ rfl (by decide +kernel) rfl
  · exact .leaf _ _ rfl (by decide +kernel) rfl

end Gtp.Props.Grouped
