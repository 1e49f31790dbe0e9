import Verif.Props.GroupedRead
import Verif.Props.MsgTable

/-!
# C96: a message that a peer writes as TS 29.274 has it is understood

From the octets of a peer to the fields of the message: header (clause 5), figures of the IEs (clause 8), tables of the grouped IEs and of the messages
(clause 7). Nothing of what the peer writes is described with the encoders of the crate.
-/

namespace Gtp.Props.Peer
open Gtp.V2 Gtp.Props.Grouped Ts274

/-- What a peer writes for an IE: octets that show its figure, or a header with members in any order. The value of a grouped IE is the one that its
members prescribe (C94). -/
inductive Writes : Bytes → IE → Prop
  | leaf (b : Bytes) (e : IE) (h : AsDrawn b e) : Writes b e
  | group (t i : UInt8) (ps : List (Bytes × IE)) (hk : kindOf t ∈ grouped) (h : ∀ p ∈ ps, Writes p.1 p.2) (h0 : ps ≠ [])
      (hl : (ps.flatMap (·.1)).length < 65532) (h5 : kindOf t = .PC5QosParameters → ∃ p ∈ ps, (Grouped.Ms 212 0).At p.2) :
      Writes (wrap t i (ps.flatMap (·.1))) (built (kindOf t) t (UInt16.ofNat (ps.flatMap (·.1)).length) i (ps.map (·.2)))

theorem Writes.reads {b : Bytes} {e : IE} (h : Writes b e) (m : Mode) : Grouped.Reads m b e := by
  induction h with
  | leaf b e h => exact reads_drawn m h
  | group t i ps hk h h0 hl h5 ih => exact C90_grouped m t i hk ps ih h0 hl h5

/-- Messages without TEID (clause 5.3). -/
def noTeid : List MsgKind := [.EchoRequest, .EchoResponse, .VersionNotSupported]

/-- The header of a message (figures 5.4-1 and 5.5.1-1): version 2, piggybacking, TEID and message priority flag and two spare bits, type, number of
octets behind the fourth, TEID, sequence number, and an octet with the priority and spare bits. -/
structure Head where
  piggy : Bool
  prio : Option UInt8
  spare : Nat
  teid : Nat
  sqn : Nat
  last : Nat

/-- The values have room in the figure. -/
structure Head.Fits (h : Head) : Prop where
  prio : ∀ p, h.prio = some p → p.toNat < 16
  spare : h.spare < 4
  teid : h.teid < 2 ^ 32
  sqn : h.sqn < 2 ^ 24
  last : h.last < 16

def Head.octets (h : Head) (k : MsgKind) (n : Nat) : List Nat :=
  if k ∈ noTeid then [64 + (if h.piggy then 16 else 0) + h.spare, (code k).toNat, (n + 4) / 256, (n + 4) % 256] ++
    [h.sqn / 65536, h.sqn / 256 % 256, h.sqn % 256, h.last]
  else [64 + (if h.piggy then 16 else 0) + 8 + (if h.prio.isSome then 4 else 0) + h.spare, (code k).toNat, (n + 8) / 256, (n + 8) % 256] ++
    [h.teid / 2 ^ 24, h.teid / 2 ^ 16 % 256, h.teid / 2 ^ 8 % 256, h.teid % 256] ++
    [h.sqn / 65536, h.sqn / 256 % 256, h.sqn % 256, (match h.prio with | some p => p.toNat * 16 | none => 0) + h.last]

theorem start_eq (k : MsgKind) (hk : k ≠ .VersionNotSupported) : k.codec.start = some (if k ∈ noTeid then 8 else 12) := by
  have : MsgKind.all.all (fun k => k == .VersionNotSupported || k.codec.start == some (if k ∈ noTeid then 8 else 12)) = true := by decide +kernel
  have := List.all_eq_true.mp this k (MsgKind.mem_all k)
  simp only [Bool.or_eq_true, beq_iff_eq] at this
  exact this.resolve_left hk

theorem reads_list {m : Mode} (ps : List (Bytes × IE)) (h : ∀ p ∈ ps, Grouped.Reads m p.1 p.2) :
    Props.Reads m (ps.flatMap (·.1)) (ps.map fun p => (p.1.headD 0, p.2)) := by
  induction ps with
  | nil => exact .nil
  | cons p ps ih =>
    obtain ⟨b, e⟩ := p
    obtain ⟨hne, hp⟩ := h (b, e) (.head _)
    have ih := ih fun q hq => h q (.tail _ hq)
    have hd := hp (ps.flatMap (·.1))
    rw [List.flatMap_cons, List.map_cons]
    cases b with
    | nil => exact absurd rfl hne
    | cons t b =>
      have hl := (decodeOne_inv hd).1
      refine .cons (n := (t :: b).length) ?_ hl (Nat.succ_pos _) ?_
      · simp only [decodeOne, List.cons_append, rd_zero, R.ok_bind] at hd
        cases hx : unmKind (decoder m) m (t :: (b ++ ps.flatMap (·.1))) (kindOf t) with
        | ok x =>
          rw [hx, R.ok_bind] at hd
          cases hn : x.len m with
          | ok n =>
            rw [hn] at hd
            injection hd with hd
            injection hd with h1 h2
            exact congrArg R.ok h1
          | _ => rw [hn] at hd; cases hd
        | _ => rw [hx] at hd; cases hd
      · have : (t :: (b ++ List.flatMap (fun x => x.fst) ps)).drop (t :: b).length = ps.flatMap (·.1) := List.drop_left (l₁ := t :: b)
        exact this.symm ▸ ih

/-- The header of the message is read from the octets of the peer. -/
theorem head_spec (k : MsgKind) (h : Head) (hh : h.Fits) (b body tail : Bytes) (hb : b.map UInt8.toNat = h.octets k body.length) (hl : body.length < 65528) :
    ∃ g, headerSpec (b ++ body ++ tail) = .ok g ∧ oct (b ++ body ++ tail) 1 = (code k).toNat ∧
      announced (b ++ body ++ tail) = b.length + body.length ∧ b.length = (if k ∈ noTeid then 8 else 12) ∧
      g.sqn.toNat = h.sqn ∧ g.piggyback = h.piggy ∧ (k ∉ noTeid → g.prio = h.prio ∧ ∃ t, g.teid = some t ∧ t.toNat = h.teid) := by
  obtain ⟨f1, f2, f3, f4, f5⟩ := hh
  obtain ⟨pg, pr, sp, te, sq, la⟩ := h
  simp only at f1 f2 f3 f4 f5
  unfold Head.octets at hb
  by_cases hn : k ∈ noTeid
  · rw [if_pos hn] at hb
    simp only [List.cons_append, List.nil_append, List.map_eq_cons_iff, List.map_eq_nil_iff] at hb
    obtain ⟨b0, _, rfl, e0, b1, _, rfl, e1, b2, _, rfl, e2, b3, _, rfl, e3, b4, _, rfl, e4, b5, _, rfl, e5, b6, _, rfl, e6, b7, _, rfl, e7, rfl⟩ := hb
    have o0 : oct ([b0, b1, b2, b3, b4, b5, b6, b7] ++ body ++ tail) 0 = b0.toNat := rfl
    have o1 : oct ([b0, b1, b2, b3, b4, b5, b6, b7] ++ body ++ tail) 1 = b1.toNat := rfl
    have o2 : oct ([b0, b1, b2, b3, b4, b5, b6, b7] ++ body ++ tail) 2 = b2.toNat := rfl
    have o3 : oct ([b0, b1, b2, b3, b4, b5, b6, b7] ++ body ++ tail) 3 = b3.toNat := rfl
    have o4 : oct ([b0, b1, b2, b3, b4, b5, b6, b7] ++ body ++ tail) 4 = b4.toNat := rfl
    have o5 : oct ([b0, b1, b2, b3, b4, b5, b6, b7] ++ body ++ tail) 5 = b5.toNat := rfl
    have o6 : oct ([b0, b1, b2, b3, b4, b5, b6, b7] ++ body ++ tail) 6 = b6.toNat := rfl
    have hlen : ([b0, b1, b2, b3, b4, b5, b6, b7] ++ body ++ tail).length = 8 + body.length + tail.length := by
      simp only [List.length_append, List.length_cons, List.length_nil]
    simp only [headerSpec, announced, hlen, o0, o1, o2, o3, o4, o5, o6]
    have hp : b0.toNat / 16 % 2 = if pg then 1 else 0 := by cases pg <;> simp at e0 ⊢ <;> omega
    rw [if_neg (by omega), if_neg (by cases pg <;> simp at e0 <;> omega), if_pos (by cases pg <;> simp at e0 <;> omega), if_neg (by omega), if_neg (by omega)]
    refine ⟨_, rfl, e1, by simp only [List.length_cons, List.length_nil]; omega, by rw [if_pos hn]; rfl, ?_, ?_, fun h => absurd hn h⟩
    · simp only [UInt32.toNat_ofNat']
      omega
    · simp only [hp]
      cases pg <;> rfl
  · rw [if_neg hn] at hb
    simp only [List.cons_append, List.nil_append, List.map_eq_cons_iff, List.map_eq_nil_iff] at hb
    obtain ⟨b0, _, rfl, e0, b1, _, rfl, e1, b2, _, rfl, e2, b3, _, rfl, e3, b4, _, rfl, e4, b5, _, rfl, e5, b6, _, rfl, e6, b7, _, rfl, e7,
      b8, _, rfl, e8, b9, _, rfl, e9, ba, _, rfl, ea, bb, _, rfl, eb, rfl⟩ := hb
    have o0 : oct ([b0, b1, b2, b3, b4, b5, b6, b7, b8, b9, ba, bb] ++ body ++ tail) 0 = b0.toNat := rfl
    have o1 : oct ([b0, b1, b2, b3, b4, b5, b6, b7, b8, b9, ba, bb] ++ body ++ tail) 1 = b1.toNat := rfl
    have o2 : oct ([b0, b1, b2, b3, b4, b5, b6, b7, b8, b9, ba, bb] ++ body ++ tail) 2 = b2.toNat := rfl
    have o3 : oct ([b0, b1, b2, b3, b4, b5, b6, b7, b8, b9, ba, bb] ++ body ++ tail) 3 = b3.toNat := rfl
    have o4 : oct ([b0, b1, b2, b3, b4, b5, b6, b7, b8, b9, ba, bb] ++ body ++ tail) 4 = b4.toNat := rfl
    have o5 : oct ([b0, b1, b2, b3, b4, b5, b6, b7, b8, b9, ba, bb] ++ body ++ tail) 5 = b5.toNat := rfl
    have o6 : oct ([b0, b1, b2, b3, b4, b5, b6, b7, b8, b9, ba, bb] ++ body ++ tail) 6 = b6.toNat := rfl
    have o7 : oct ([b0, b1, b2, b3, b4, b5, b6, b7, b8, b9, ba, bb] ++ body ++ tail) 7 = b7.toNat := rfl
    have o8 : oct ([b0, b1, b2, b3, b4, b5, b6, b7, b8, b9, ba, bb] ++ body ++ tail) 8 = b8.toNat := rfl
    have o9 : oct ([b0, b1, b2, b3, b4, b5, b6, b7, b8, b9, ba, bb] ++ body ++ tail) 9 = b9.toNat := rfl
    have oa : oct ([b0, b1, b2, b3, b4, b5, b6, b7, b8, b9, ba, bb] ++ body ++ tail) 10 = ba.toNat := rfl
    have ob : oct ([b0, b1, b2, b3, b4, b5, b6, b7, b8, b9, ba, bb] ++ body ++ tail) 11 = bb.toNat := rfl
    have hlen : ([b0, b1, b2, b3, b4, b5, b6, b7, b8, b9, ba, bb] ++ body ++ tail).length = 12 + body.length + tail.length := by
      simp only [List.length_append, List.length_cons, List.length_nil]
    simp only [headerSpec, announced, hlen, o0, o1, o2, o3, o4, o5, o6, o7, o8, o9, oa, ob]
    have hf : b0.toNat / 16 % 2 = (if pg then 1 else 0) ∧ b0.toNat / 32 = 2 ∧ b0.toNat / 8 % 2 = 1 ∧ b0.toNat / 4 % 2 = (if pr.isSome then 1 else 0) := by
      cases pg <;> cases pr <;> simp at e0 ⊢ <;> omega
    obtain ⟨hp, hv, ht, hq⟩ := hf
    rw [if_neg (by omega), if_neg (by omega), if_neg (by omega), if_neg (by omega)]
    refine ⟨_, rfl, e1, by simp only [List.length_cons, List.length_nil]; omega, by rw [if_neg hn]; rfl, ?_, ?_, fun _ => ⟨?_, _, rfl, ?_⟩⟩
    · simp only [UInt32.toNat_ofNat']
      omega
    · simp only [hp]
      cases pg <;> rfl
    · cases pr with
      | none => simp only [hq]; rfl
      | some q =>
        have := f1 q rfl
        simp only [hq, Option.isSome_some, if_true]
        refine congrArg some (UInt8.toNat_inj.mp ?_)
        simp only at eb
        rw [UInt8.toNat_ofNat']
        omega
    · simp only [UInt32.toNat_ofNat']
      omega

/-- C96: a message as a peer writes it, with the IEs that TS 29.274 calls mandatory, is accepted in whatever order they come and whatever follows; TEID,
sequence number, priority and piggybacking flag are those that were written, and every IE of a row of the table is in the message. Missing: the message
types with a wrong code (C84) and with wrong conditions (C85), the rows that the code does not keep (C86), and within grouped IEs what C94 says. -/
theorem C96_partial (m : Mode) (k : MsgKind) (hk : k ∉ misjudged) (hc : k ∉ miscoded) (hv : k ≠ .VersionNotSupported) (h : Head) (hh : h.Fits) (b tail : Bytes)
    (ps : List (Bytes × IE)) (hb : b.map UInt8.toNat = h.octets k (ps.flatMap (·.1)).length) (hl : (ps.flatMap (·.1)).length < 65528)
    (hw : ∀ p ∈ ps, Writes p.1 p.2)
    (hm : ∀ r ∈ rows k, r.must = true → ∃ p ∈ ps, r.At (p.1.headD 0, p.2)) :
    ∃ y, k.codec.unmarshal m (b ++ ps.flatMap (·.1) ++ tail) = .ok y ∧
      (k.codec.header y).sqn.toNat = h.sqn ∧ (k.codec.header y).piggyback = h.piggy ∧
      (k ∉ noTeid → (k.codec.header y).prio = h.prio ∧ ∃ t, (k.codec.header y).teid = some t ∧ t.toNat = h.teid) ∧
      ∀ p ∈ ps, ∀ r ∈ rows k, (k, r) ∉ nowhere ++ onlyOne ++ confused → r.At (p.1.headD 0, p.2) →
        (r.several = true ∨ ∀ q ∈ ps, r.At (q.1.headD 0, q.2) → q = p) → p.2 ∈ k.codec.tovec y := by
  have hr := reads_list ps fun p hp => (hw p hp).reads m
  obtain ⟨g, g1, g2, g3, g4, g5, g6, g7⟩ := head_spec k h hh b (ps.flatMap (·.1)) tail hb hl
  have hs := start_eq k hv
  rw [← g4] at hs
  have hbody : ((b ++ ps.flatMap (·.1) ++ tail).take (announced (b ++ ps.flatMap (·.1) ++ tail))).drop b.length = ps.flatMap (·.1) := by
    rw [g3, ← List.length_append, List.take_left, List.drop_left]
  have hle : announced (b ++ ps.flatMap (·.1) ++ tail) ≤ (b ++ ps.flatMap (·.1) ++ tail).length := by
    rw [g3]
    simp only [List.length_append]
    omega
  have hcode : oct (b ++ ps.flatMap (·.1) ++ tail) 1 = k.codec.msgtype.toNat := by rw [g2, (C84_code_partial k).mpr hc]
  have hf : Frames m k (b ++ ps.flatMap (·.1) ++ tail) (ps.map fun p => (p.1.headD 0, p.2)) :=
    ⟨g, b.length, g1, hcode, hle, hs, by omega, hbody.symm ▸ hr⟩
  obtain ⟨y, hy⟩ := (C85_mandatory_partial m k hk _ _ hf).mpr fun r hr hm' => by
    obtain ⟨p, hp, ha⟩ := hm r hr hm'
    exact ⟨_, List.mem_map_of_mem hp, ha⟩
  have hu : k ∉ MsgKind.unchecked := fun h => hk (by simp only [MsgKind.unchecked, List.mem_singleton] at h; subst h; decide)
  have hcar : Carries m k (b ++ ps.flatMap (·.1) ++ tail) g ((ps.map fun p => (p.1.headD 0, p.2)).map (·.2)) :=
    ⟨g1, hcode, hle, b.length, hs, by omega, (C79_sequence _ _ _).mpr (hbody.symm ▸ hr.spells)⟩
  have hy' := (hcar.fields (.inl hu) hy).2
  refine ⟨y, hy, by rw [hy']; exact g5, by rw [hy']; exact g6, by rw [hy']; exact g7, fun p hp r hr' hx ha hs' => ?_⟩
  refine C86_kept_partial m k _ _ hf y hy r hr' hx _ (List.mem_map_of_mem (f := fun p : Bytes × IE => (p.1.headD 0, p.2)) hp) ha (hs'.imp_right fun hs' q hq hqa => ?_)
  obtain ⟨q', hq', rfl⟩ := List.mem_map.mp hq
  rw [hs' q' hq' hqa]

/-- A Delete Bearer Command: TEID 1, sequence number 2, priority 3, spare bits set, with a bearer context of a charging id and an EBI; another message may
follow. -/
def exampleBearer : List (Bytes × IE) := [([94, 0, 4, 0x10, 0, 0, 0, 7], .ChargingId ⟨94, 4, 0, 7⟩), ([73, 0, 1, 0xf0, 5], .Ebi ⟨73, 1, 0, 5⟩)]

def exampleHead : Head := ⟨true, some 3, 3, 1, 2, 15⟩

example (m : Mode) (tail : Bytes) : ∃ y, MsgKind.DeleteBearerCommand.codec.unmarshal m
      ([0x5f, 66, 0, 25, 0, 0, 0, 1, 0, 0, 2, 0x3f] ++ [93, 0, 13, 0, 94, 0, 4, 0x10, 0, 0, 0, 7, 73, 0, 1, 0xf0, 5] ++ tail) = .ok y ∧
    (MsgKind.DeleteBearerCommand.codec.header y).sqn.toNat = 2 ∧
    .BearerContext (expectedBearerContext 93 13 0 [.ChargingId ⟨94, 4, 0, 7⟩, .Ebi ⟨73, 1, 0, 5⟩]) ∈ MsgKind.DeleteBearerCommand.codec.tovec y := by
  have hw : Writes (wrap 93 0 (exampleBearer.flatMap (·.1))) (built (kindOf 93) 93 13 0 (exampleBearer.map (·.2))) := by
    refine .group 93 0 exampleBearer (by decide +kernel) (fun p hp => ?_) (by decide) (by decide) (fun h => absurd h (by decide +kernel))
    simp only [exampleBearer, List.mem_cons, List.not_mem_nil, or_false] at hp
    rcases hp with rfl | rfl
    · exact .leaf _ _ ⟨by decide, ⟨_, rfl, by decide +kernel, by decide +kernel⟩, by decide +kernel, rfl, by decide +kernel, by decide +kernel⟩
    · exact .leaf _ _ ⟨by decide, ⟨_, rfl, by decide +kernel, by decide +kernel⟩, by decide +kernel, rfl, by decide +kernel, by decide +kernel⟩
  have hk : kindOf 93 = .BearerContext := by decide +kernel
  rw [hk] at hw
  obtain ⟨y, h1, h2, -, -, h3⟩ := C96_partial m .DeleteBearerCommand (by decide) (by decide) (by decide) exampleHead
    ⟨fun p hp => by cases hp; decide, by decide, by decide, by decide, by decide⟩ [0x5f, 66, 0, 25, 0, 0, 0, 1, 0, 0, 2, 0x3f] tail
    [(wrap 93 0 (exampleBearer.flatMap (·.1)), built .BearerContext 93 13 0 (exampleBearer.map (·.2)))] (by decide +kernel) (by decide +kernel)
    (fun p hp => by cases List.mem_singleton.mp hp; exact hw)
    (fun r hr hm => ⟨_, .head _, by
      have : ∀ r ∈ rows .DeleteBearerCommand, r.must = true → r = Ts274.Ms 93 0 := by decide +kernel
      rw [this r hr hm]
      decide +kernel⟩)
  exact ⟨y, h1, h2, h3 _ (.head _) (Ts274.Ms 93 0) (by decide +kernel) (by decide +kernel) (by decide +kernel) (.inl rfl)⟩

end Gtp.Props.Peer
