import Verif.V2.MmExact

/-!
# EPS security contexts that survive a round trip

As in V2/MmExact.lean. An absent capability or equipment identity moves the cursor one octet too far, an absent extended access
restriction and absent rate control statuses leave it one octet behind. With the three strings present, the survivors are exactly
`WF` and `Bare`; without them there are others, of which `Blank` is a family.
-/

namespace Gtp.V2
set_option linter.unusedSimpArgs false
set_option linter.unusedVariables false

theorem rdNextHop_pace {flag : Bool} {b : Bytes} {c : Nat} : (rdNextHop flag b c).Post fun p => p.2 = c + (nextHopEnc p.1.1 p.1.2).length := by
  unfold rdNextHop
  refine Post_ite_any (Post_bind_sl fun s hs => Post_bind_any fun n => ?_) rfl
  show c + 33 = c + (s ++ [n &&& 0x07]).length
  simp only [List.length_append, List.length_cons, List.length_nil]
  omega

theorem rdIfItem_pace {α : Type} {unm : Bytes → R Err α} {len : α → Nat} {enc : α → Bytes} {flag : Bool} {e : Err} {b : Bytes} {c : Nat} {W : α → Prop}
    (hi : ItemOk W enc unm len) (hu : ∀ s, (unm s).Post W) : (rdIf flag (rdItem unm len e b) c).Post fun p => p.2 = c + (optEnc enc p.1).length := by
  unfold rdIf
  refine Post_ite_any ?_ rfl
  refine Post_of (Q := fun p => W p.1 ∧ p.2 = c + len p.1) ?_ fun ⟨v, c1⟩ h1 => ?_
  · unfold rdItem
    exact Post_bind_any fun s => Post_of (Post_mapErr (hu s)) fun v hv => ⟨hv, rfl⟩
  · show c1 = c + (enc v).length
    rw [← (hi v [] h1.1).2]
    exact h1.2

/-- A status is decoded from any sufficiently long buffer. -/
theorem ApnRateControlStatusMM.unm_long {b : Bytes} (h : 131100 ≤ b.length) : ∃ y, ApnRateControlStatusMM.unm b = .ok y := by
  have hr : ∀ i, i < b.length → ∃ v, (rd b i : R Err UInt8) = .ok v := fun i hi => ⟨b[i], by simp [rd, List.getElem?_eq_getElem hi]⟩
  have h16 : ∀ i, i + 1 < b.length → ∃ v, (rd16 b i : R Err UInt16) = .ok v := fun i hi => by
    obtain ⟨v, hv⟩ := hr i (by omega)
    obtain ⟨w, hw⟩ := hr (i + 1) (by omega)
    exact ⟨_, by simp only [rd16, hv, hw, R.ok_bind]; rfl⟩
  have h32 : ∀ i, i + 3 < b.length → ∃ v, (rd32 b i : R Err UInt32) = .ok v := fun i hi => by
    obtain ⟨v, hv⟩ := hr i (by omega)
    obtain ⟨w, hw⟩ := hr (i + 1) (by omega)
    obtain ⟨x, hx⟩ := hr (i + 2) (by omega)
    obtain ⟨y, hy⟩ := hr (i + 3) (by omega)
    exact ⟨_, by simp only [rd32, hv, hw, hx, hy, R.ok_bind]; rfl⟩
  have hs : ∀ i j, i ≤ j → j ≤ b.length → ∃ v, (sl b i j : R Err Bytes) = .ok v := fun i j h1 h2 => ⟨_, by simp only [sl]; rw [if_pos ⟨h1, h2⟩]⟩
  obtain ⟨l, hl⟩ := h16 0 (by omega)
  obtain ⟨n, hn⟩ := h16 2 (by omega)
  have l1 := l.toNat_lt
  have n1 := n.toNat_lt
  obtain ⟨s, hs1⟩ := hs 4 (4 + n.toNat) (by omega) (by omega)
  obtain ⟨u, hu⟩ := h32 (4 + n.toNat) (by omega)
  obtain ⟨w, hw⟩ := h32 (4 + n.toNat + 4) (by omega)
  obtain ⟨d, hd⟩ := h32 (4 + n.toNat + 4 + 4) (by omega)
  obtain ⟨v, hv⟩ := hs (4 + n.toNat + 4 + 4 + 4) (4 + n.toNat + 4 + 4 + 4 + 8) (by omega) (by omega)
  refine ⟨⟨fromUtf8Lossy s, u, w, d, v⟩, ?_⟩
  unfold ApnRateControlStatusMM.unm
  rw [if_pos (by omega), hl, R.ok_bind, if_pos (by omega), hn, R.ok_bind, if_pos (by omega), hs1, R.ok_bind]
  simp only
  rw [if_pos (by omega), hu, R.ok_bind, hw, R.ok_bind, hd, R.ok_bind, hv, R.ok_bind]
  rfl

theorem rdApnRates_stop {e : Err} {b : Bytes} {c c' : Nat} {l : List ApnRateControlStatusMM} (h : rdApnRates e b c = .ok (some l, c')) :
    ∀ y, ApnRateControlStatusMM.unm (b.drop (c + 1 + (l.flatMap ApnRateControlStatusMM.octets).length)) ≠ .ok y := by
  have h1 : (rdApnRates e b c).Post fun p => ∀ l, p.1 = some l →
      ∀ y, ApnRateControlStatusMM.unm (b.drop (c + 1 + (l.flatMap ApnRateControlStatusMM.octets).length)) ≠ .ok y := by
    unfold rdApnRates
    refine Post_bind_any fun n => Post_ite_any (fun l h => nomatch h) (Post_ite_any ?_ trivial)
    refine Post_of (rdRates_pace _ (c + 1)) fun ⟨vs, c2⟩ h2 => ?_
    rintro l ⟨⟩
    have h3 := h2.1
    simp only at h3
    rw [← h3]
    exact h2.2.2
  exact Post.elim h1 h l rfl

theorem rdLv0_zero {e : Err} {b r : Bytes} {c c' : Nat} {v : Option Bytes} (h : At b c (0 :: r)) (hr : rdLv 0 e b c = .ok (v, c')) :
    v = none ∧ c' = c + 1 := by
  have e2 : rdLv 0 e b c = .ok (none, c + 1) := by simp [rdLv, h.rd]
  rw [e2] at hr
  cases hr
  exact ⟨rfl, rfl⟩

/-- Reading the last four fields from where they were written, or from a zero before them. -/
theorem epsTail_zero {b r : Bytes} {c : Nat} {apn : Option (List ApnRateControlStatusMM)} {core radio : Option Bytes} {ensct : Option UInt8}
    (hr : rdEpsTail b c = .ok (apn, core, radio, ensct)) (h0 : ∃ r, At b c (0 :: r)) :
    apn = none ∧ core = none ∧ ∃ c1, rdLv 0 (.ieInvalidLength 107) b (c + 1) = .ok (radio, c1) ∧ rdEnsct b c1 = .ok ensct := by
  obtain ⟨r, h0⟩ := h0
  have e1 : rdApnRates (.ieInvalidLength 107) b c = .ok (none, c) := by simp [rdApnRates, h0.rd]
  have e2 : rdLv 0 (.ieInvalidLength 107) b c = .ok (none, c + 1) := by simp [rdLv, h0.rd]
  simp only [rdEpsTail, e1, e2, R.ok_bind] at hr
  cases h3 : rdLv 0 (.ieInvalidLength 107) b (c + 1) with
  | ok p =>
    obtain ⟨q, c1⟩ := p
    rw [h3] at hr
    simp only [R.ok_bind] at hr
    cases h4 : rdEnsct b c1 with
    | ok q2 =>
      rw [h4] at hr
      simp only [R.ok_bind, R.pure_eq, R.ok.injEq, Prod.mk.injEq] at hr
      obtain ⟨rfl, rfl, rfl, rfl⟩ := hr
      exact ⟨rfl, rfl, c1, rfl, h4⟩
    | _ => rw [h4] at hr; cases hr
  | _ => rw [h3] at hr; cases hr

theorem rdEnsct_zero {b r : Bytes} {c : Nat} {v : Option UInt8} (h : At b c (0 :: r)) (hr : rdEnsct b c = .ok v) : v = some 0 := by
  have hle := h.le
  have e4 : rdEnsct b c = .ok (some 0) := by
    simp only [rdEnsct]
    rw [if_pos hle, h.rd]
    rfl
  rw [e4] at hr
  cases hr
  rfl

/-- The fields behind the capability for paging. -/
theorem eps_last {b tail : Bytes} {c c1 c2 c3 : Nat} {ext : Option ExtendedAccessRestrictionMM} {add nr core radio : Option Bytes}
    {apn : Option (List ApnRateControlStatusMM)} {ensct : Option UInt8} (ht : 131100 ≤ tail.length)
    (h : At b c (extAccEnc ext ++ (lvOpt add ++ (lvOpt nr ++ (apnRatesEnc apn ++ (lvOpt core ++ (lvOpt radio ++ (ensct.toList ++ tail))))))))
    (h1 : rdExtAcc (.ieInvalidLength 107) b c = .ok (ext, c1)) (h2 : rdLv 0 (.ieInvalidLength 107) b c1 = .ok (add, c2))
    (h3 : rdLv 0 (.ieInvalidLength 107) b c2 = .ok (nr, c3)) (h4 : rdEpsTail b c3 = .ok (apn, core, radio, ensct)) :
    (ext.isSome ∨ add = none ∧ nr = none ∧ ext = none) ∧ apn = none ∧ core = none ∧ radio = none ∧ ensct = some 0 := by
  cases ext with
  | some i =>
    obtain ⟨d1, e1, a1⟩ := rdExtAcc_some (e := .ieInvalidLength 107) h rfl
    rw [e1] at h1
    cases h1
    obtain ⟨d2, e2, a2⟩ := rdLv_at0 (e := .ieInvalidLength 107) a1 (Post.elim rdLv_mm h2)
    rw [e2] at h2
    cases h2
    obtain ⟨d3, e3, a3⟩ := rdLv_at0 (e := .ieInvalidLength 107) a2 (Post.elim rdLv_mm h3)
    rw [e3] at h3
    cases h3
    refine ⟨.inl rfl, ?_⟩
    cases apn with
    | none =>
      simp only [apnRatesEnc, List.cons_append, List.nil_append] at a3
      obtain ⟨-, rfl, c4, h5, h6⟩ := epsTail_zero (r := []) h4 ⟨_, a3⟩
      rw [show lvOpt none = [0] from rfl, List.cons_append, List.nil_append] at a3
      obtain ⟨rfl, rfl⟩ := rdLv0_zero a3.next h5
      rw [show lvOpt none = [0] from rfl, List.cons_append, List.nil_append] at a3
      exact ⟨rfl, rfl, rfl, rdEnsct_zero a3.next.next h6⟩
    | some l =>
      exfalso
      unfold rdEpsTail at h4
      cases h5 : rdApnRates (.ieInvalidLength 107) b c3 with
      | ok p =>
        obtain ⟨p, c4⟩ := p
        have hp : p = some l := by
          rw [h5] at h4
          simp only [R.ok_bind] at h4
          revert h4
          cases rdLv 0 (.ieInvalidLength 107) b c4 with
          | ok q =>
            obtain ⟨q, c5⟩ := q
            simp only [R.ok_bind]
            cases rdLv 0 (.ieInvalidLength 107) b c5 with
            | ok q =>
              obtain ⟨q, c6⟩ := q
              simp only [R.ok_bind]
              cases rdEnsct b c6 with
              | ok q =>
                simp only [R.ok_bind, R.pure_eq, R.ok.injEq, Prod.mk.injEq]
                exact fun h => h.1
              | _ => intro h; cases h
            | _ => intro h; cases h
          | _ => intro h; cases h
        subst hp
        simp only [apnRatesEnc, List.cons_append] at a3
        have a4 := (a3.next.skip (n := c3 + 1 + (l.flatMap ApnRateControlStatusMM.octets).length) rfl).eq
        have := rdApnRates_stop h5
        rw [a4] at this
        obtain ⟨y, hy⟩ := ApnRateControlStatusMM.unm_long (b := lvOpt core ++ (lvOpt radio ++ (ensct.toList ++ tail))) (by
          simp only [List.length_append]
          omega)
        exact this y hy
      | _ => rw [h5] at h4; cases h4
  | none =>
    simp only [extAccEnc, List.cons_append, List.nil_append] at h
    have e1 : rdExtAcc (.ieInvalidLength 107) b c = .ok (none, c) := by simp [rdExtAcc, h.rd]
    rw [e1] at h1
    cases h1
    obtain ⟨rfl, rfl⟩ := rdLv0_zero h h2
    rw [show lvOpt none = [0] from rfl, List.cons_append, List.nil_append] at h
    obtain ⟨rfl, rfl⟩ := rdLv0_zero h.next h3
    rw [show lvOpt none = [0] from rfl, List.cons_append, List.nil_append] at h
    obtain ⟨rfl, rfl, c4, h5, h6⟩ := epsTail_zero (r := []) h4 ⟨_, h.next.next⟩
    rw [show lvOpt none = [0] from rfl] at h
    simp only [apnRatesEnc, List.cons_append, List.nil_append] at h
    obtain ⟨rfl, rfl⟩ := rdLv0_zero h.next.next.next h5
    exact ⟨.inr ⟨rfl, rfl, rfl⟩, rfl, rfl, rfl, rdEnsct_zero h.next.next.next.next h6⟩


namespace MmContextEpsSecurityContextQuadruplets

/-- The octets behind the next hop up to the capability for paging. -/
def middle (x : MmContextEpsSecurityContextQuadruplets) : Bytes :=
  optEnc AmbrMM.octets x.subscr_ue_ambr ++ (optEnc AmbrMM.octets x.used_ue_ambr ++
    (lvOpt x.ue_ntwk_cap ++ (lvOpt x.ms_ntwk_cap ++ (lvOpt x.mei ++ (x.access_res.toU8 ::
    (optEnc OldEpsSecurityContext.octets x.old_eps_sec_ctx ++ (lvOpt x.vdn_pref_ue_usage ++ lvOpt x.ue_radio_cap_for_paging)))))))

/-- The octets behind the capability for paging. -/
def rear (x : MmContextEpsSecurityContextQuadruplets) : Bytes :=
  extAccEnc x.ext_access_res ++ (lvOpt x.ue_add_security_cap ++ (lvOpt x.ue_nr_security_cap ++
    (apnRatesEnc x.apn_rate_controls ++ (lvOpt x.core_nw_res ++ (lvOpt x.ue_radio_cap_id ++ x.ensct.toList)))))

/-- The octets behind the flags and before the next hop. -/
def front (x : MmContextEpsSecurityContextQuadruplets) : Bytes :=
  be24 x.nas_dl_count ++ (be24 x.nas_ul_count ++ (x.kasme ++ (optEnc (fun l => l.flatMap AuthQuadruplet.octets) x.auth_quadruplets ++
    (optEnc (fun l => l.flatMap AuthQuintuplet.octets) x.auth_quintuplets ++ optEnc id x.drx_params))))

theorem body_split (x : MmContextEpsSecurityContextQuadruplets) : ∃ a b c : UInt8,
    x.body = a :: b :: c :: (x.front ++ (nextHopEnc x.next_hop x.ncc ++ (x.middle ++ x.rear))) :=
  ⟨epsOct4 x.sec_mode x.next_hop.isSome x.drx_params.isSome x.ksi,
    mmOct5q (authN x.auth_quintuplets) (authN x.auth_quadruplets) x.used_ue_ambr.isSome x.old_eps_sec_ctx.isSome,
    epsOct6 x.subscr_ue_ambr.isSome x.nas_integrity x.nas_cipher,
    by simp only [body, front, middle, rear, List.append_assoc, List.cons_append]⟩

theorem pace (m : Mode) (b : Bytes) : (unmarshal m b).Post fun x =>
    (∃ f c c', c = 7 + x.front.length ∧ rdNextHop f b c = .ok ((x.next_hop, x.ncc), c')) ∧
    ∃ c c1 c2 c3, c = 7 + x.front.length + (nextHopEnc x.next_hop x.ncc).length + x.middle.length +
        (absent x.ue_ntwk_cap + absent x.ms_ntwk_cap + absent x.mei) ∧
      rdExtAcc (.ieInvalidLength 107) b c = .ok (x.ext_access_res, c1) ∧
      rdLv 0 (.ieInvalidLength 107) b c1 = .ok (x.ue_add_security_cap, c2) ∧
      rdLv 0 (.ieInvalidLength 107) b c2 = .ok (x.ue_nr_security_cap, c3) ∧
      rdEpsTail b c3 = .ok (x.apn_rate_controls, x.core_nw_res, x.ue_radio_cap_id, x.ensct) := by
  unfold unmarshal
  refine Post_ite_any ?_ trivial
  refine Post_bind_any fun _ => Post_bind_any fun _ => Post_bind_any fun f4 => Post_bind_any fun _ => Post_bind_any fun _ => ?_
  refine Post_bind_any fun _ => Post_bind_any fun _ => Post_bind_sl fun _ s1 => ?_
  refine Post_of (rdAuth_pace AuthQuadruplet.ok AuthQuadruplet.post) fun ⟨_, _⟩ h0 => ?_
  refine Post_of (rdAuth_pace AuthQuintuplet.ok AuthQuintuplet.post) fun ⟨_, _⟩ h1 => Post_of rdDrx_pace fun ⟨_, cn⟩ h2 => ?_
  refine Post_of_eq fun ⟨⟨_, _⟩, cn'⟩ hn => ?_
  have h3 := Post.elim rdNextHop_pace hn
  refine Post_of rdAmbr_pace fun ⟨_, _⟩ h4 => Post_of rdAmbr_pace fun ⟨_, _⟩ h5 => ?_
  refine Post_of rdLv_pace fun ⟨_, _⟩ h6 => Post_of rdLv_pace fun ⟨_, _⟩ h7 => Post_of rdLv_pace fun ⟨_, _⟩ h8 => Post_of rd8s_pace fun ⟨_, _⟩ h9 => ?_
  refine Post_of (rdIfItem_pace OldEpsSecurityContext.ok OldEpsSecurityContext.post) fun ⟨_, _⟩ h10 => ?_
  refine Post_of rdLv_pace fun ⟨_, _⟩ h11 => Post_of rdLv_pace fun ⟨_, c⟩ h12 => Post_of_eq fun ⟨_, c1⟩ e1 => ?_
  refine Post_of_eq fun ⟨_, c2⟩ e2 => Post_of_eq fun ⟨_, c3⟩ e3 => Post_of_eq fun ⟨_, _, _, _⟩ e4 => ?_
  simp only at h0 h1 h2 h3 h4 h5 h6 h7 h8 h9 h10 h11 h12
  refine ⟨⟨_, cn, cn', ?_, hn⟩, c, c1, c2, c3, ?_, e1, e2, e3, e4⟩
  · simp only [front, List.length_append, be24, List.length_cons, List.length_nil]
    omega
  · simp only [front, middle, List.length_append, be24, List.length_cons, List.length_nil]
    omega

/-- An EPS security context with its capabilities and the equipment identity that is read back from its encoding. -/
theorem exact {m : Mode} {x : MmContextEpsSecurityContextQuadruplets} (hu : x.ue_ntwk_cap ≠ none) (hm : x.ms_ntwk_cap ≠ none) (he : x.mei ≠ none)
    (hU : ∀ tail, unmarshal m (x.marshal ++ tail) = .ok x) : (∀ n ∈ x.ncc, n < 8) ∧
    (x.ext_access_res.isSome ∨ x.ue_add_security_cap = none ∧ x.ue_nr_security_cap = none ∧ x.ext_access_res = none) ∧
    x.apn_rate_controls = none ∧ x.core_nw_res = none ∧ x.ue_radio_cap_id = none ∧ x.ensct = some 0 := by
  obtain ⟨⟨f, cn, cn', hc, hn⟩, c, c1, c2, c3, hc1, e1, e2, e3, e4⟩ := Post.elim (pace m _) (hU (List.replicate 131100 0))
  have z1 : absent x.ue_ntwk_cap = 0 := if_neg hu
  have z2 : absent x.ms_ntwk_cap = 0 := if_neg hm
  have z3 : absent x.mei = 0 := if_neg he
  rw [z1, z2, z3] at hc1
  generalize htl : List.replicate 131100 (0 : UInt8) = tail at *
  have ht : 131100 ≤ tail.length := by rw [← htl, List.length_replicate]; exact Nat.le_refl _
  generalize hb : x.marshal ++ tail = b at *
  have a0 := At.of_eq hb
  obtain ⟨g1, g2, g3, hbody⟩ := x.body_split
  have a7 : At b 7 (x.front ++ (nextHopEnc x.next_hop x.ncc ++ (x.middle ++ (x.rear ++ tail)))) := by
    rw [marshal, tliv_eq, hbody] at a0
    simp only [be16, List.cons_append, List.append_assoc, List.nil_append] at a0
    exact a0.next.next.next.next.next.next.next
  have a8 : At b cn _ := a7.skip hc
  constructor
  · intro n hnn
    have hnn : x.ncc = some n := hnn
    unfold rdNextHop at hn
    split at hn
    · next hf =>
      cases hs : (sl b cn (cn + 32) : R Err Bytes) with
      | ok s =>
        have hsl : s.length = 32 := by
          have := Post.elim (P := fun s => s.length = 32) (x := (sl b cn (cn + 32) : R Err Bytes)) (by
            have h1 : ((sl b cn (cn + 32) : R Err Bytes) >>= fun s => (pure s : R Err Bytes)).Post fun s => s.length = 32 :=
              Post_bind_sl fun s h => (by show s.length = 32; omega)
            rw [hs] at h1 ⊢
            exact h1) hs
          exact this
        rw [hs] at hn
        simp only [R.ok_bind] at hn
        cases hr : (rd b (cn + 32) : R Err UInt8) with
        | ok w =>
          rw [hr] at hn
          simp only [R.ok_bind, R.pure_eq, R.ok.injEq, Prod.mk.injEq] at hn
          obtain ⟨⟨n1, n2⟩, -⟩ := hn
          rw [hnn] at n2
          obtain rfl := Option.some.inj n2
          rw [← n1, hnn] at a8
          simp only [nextHopEnc, List.append_assoc, List.cons_append, List.nil_append] at a8
          have h9 := (a8.skip (n := cn + 32) (by omega)).rd (ε := Err)
          rw [hr] at h9
          have h10 := R.ok.inj h9
          rw [h10]
          exact and7 _
        | _ => rw [hr] at hn; cases hn
      | _ => rw [hs] at hn; cases hn
    · simp only [R.pure_eq, R.ok.injEq, Prod.mk.injEq] at hn
      rw [hnn] at hn
      exact absurd hn.1.2 (by simp)
  · have a9 : At b (cn + (nextHopEnc x.next_hop x.ncc).length) _ := a8.skip rfl
    have a10 : At b c _ := a9.skip (by omega)
    simp only [rear, List.append_assoc] at a10
    exact eps_last ht a10 e1 e2 e3 e4

theorem bare_stable (m : Mode) (b : Bytes) : (unmarshal m b).Post fun x =>
    x.ue_ntwk_cap ≠ none → x.ms_ntwk_cap ≠ none → x.mei ≠ none → (∀ n ∈ x.ncc, n < 8) → x.ext_access_res = none → x.ue_add_security_cap = none →
    x.ue_nr_security_cap = none → x.apn_rate_controls = none → x.core_nw_res = none → x.ue_radio_cap_id = none → x.ensct = some 0 →
    x.length.toNat = x.body.length → x.Bare := by
  unfold unmarshal
  refine Post_ite_any ?_ trivial
  refine Post_bind_any fun _ => Post_bind_any fun _ => Post_bind_any fun f4 => Post_bind_any fun _ => Post_bind_any fun _ => ?_
  refine Post_bind_rd24 fun _ n1 => Post_bind_rd24 fun _ n2 => Post_bind_sl fun _ s1 => Post_of (rdAuth_post AuthQuadruplet.post) fun ⟨_, _⟩ h0 => ?_
  refine Post_of (rdAuth_post AuthQuintuplet.post) fun ⟨_, _⟩ h1 => Post_of rdDrx_post fun ⟨_, _⟩ h2 => ?_
  refine Post_of rdNextHop_post fun ⟨⟨_, _⟩, _⟩ hn => Post_bind_any fun ⟨_, _⟩ => Post_bind_any fun ⟨_, _⟩ => ?_
  refine Post_of rdLv_mm fun ⟨_, _⟩ h3 => Post_of rdLv_mm fun ⟨_, _⟩ h4 => Post_of rdLv_mm fun ⟨_, _⟩ h5 => Post_bind_any fun ⟨_, _⟩ => ?_
  refine Post_of (rdIf_mm fun _ => rdItem_post OldEpsSecurityContext.post) fun ⟨_, _⟩ ho => ?_
  refine Post_of rdLv_mm fun ⟨_, _⟩ h6 => Post_of rdLv_mm fun ⟨_, _⟩ h7 => Post_bind_any fun ⟨_, _⟩ => ?_
  refine Post_bind_any fun ⟨_, _⟩ => Post_bind_any fun ⟨_, _⟩ => Post_bind_any fun ⟨_, _, _, _⟩ => ?_
  intro k1 k2 k3 k4 k5 k6 k7 k8 k9 k10 k11 hl
  exact ⟨rfl, hl, and15 _, and7 _, h2, h3.ok k1, h4.ok k2, h5.ok k3, n1, n2, s1, h0, h1, hn.1, k4, hn.2, ho, h6, h7, k5, k6, k7, k8, k9, k10, k11⟩

theorem WF_or_bare {m : Mode} {x : MmContextEpsSecurityContextQuadruplets} (hu : x.ue_ntwk_cap ≠ none) (hm : x.ms_ntwk_cap ≠ none) (he : x.mei ≠ none)
    (hlen : x.length.toNat + 4 = x.marshal.length) (hl : x.length.toNat < 65532)
    (hU : ∀ tail, unmarshal m (x.marshal ++ tail) = .ok x) : x.WF ∨ x.Bare := by
  obtain ⟨h1, h2, h3, h4, h5, h6⟩ := exact hu hm he hU
  rcases h2 with h2 | ⟨h7, h8, h9⟩
  · have := Post.elim (stable m _) (hU []) ⟨hu, hm, he, h1, h2, h3, h4, h5, h6⟩ x.length hlen hl
    exact .inl this
  · rw [marshal, tliv_length] at hlen
    exact .inr (Post.elim (bare_stable m _) (hU []) hu hm he h1 h9 h7 h8 h3 h4 h5 h6 (by omega))

/-- The same about one turn of the decoder's loop. -/
theorem WF_or_bare_of_rt {m : Mode} {x : MmContextEpsSecurityContextQuadruplets} (hu : x.ue_ntwk_cap ≠ none) (hm : x.ms_ntwk_cap ≠ none) (he : x.mei ≠ none)
    (hl : x.marshal.length < 65536)
    (h : ∀ tail, decodeOne (decoder m) m ((IE.MmContext (.MmContextEpsSecurityContextQuadruplets x)).marshal ++ tail) =
      .ok (.MmContext (.MmContextEpsSecurityContextQuadruplets x), (IE.MmContext (.MmContextEpsSecurityContextQuadruplets x)).marshal.length)) : x.WF ∨ x.Bare := by
  have hU : ∀ tail, unmKind (decoder m) m ((IE.MmContext (.MmContextEpsSecurityContextQuadruplets x)).marshal ++ tail) .MmContext = .ok (.MmContext (.MmContextEpsSecurityContextQuadruplets x)) := by
    intro tail
    obtain ⟨_, h1, _⟩ := decodeOne_inv (h tail)
    have hk := Post.elim (unmKind_kind (decoder m) m _ _) h1
    rw [← hk] at h1
    exact h1
  have hm2 : ∀ tail, V2.MmContext.unmarshal m (x.marshal ++ tail) = .ok (.MmContextEpsSecurityContextQuadruplets x) := fun tail => bind_some (fun _ _ h => IE.MmContext.inj h) (by
    have := hU tail
    rw [IE.marshal_eq] at this
    exact this) rfl
  have hx : ∀ tail, unmarshal m (x.marshal ++ tail) = .ok x := fun tail => by
    have e0 : (rd (x.marshal ++ tail) 0 : R Err UInt8) = .ok 107 := by simp [marshal, tliv_eq, rd]
    have h := hm2 tail
    simp only [V2.MmContext.unmarshal, e0, R.ok_bind, if_true] at h
    exact bind_some (fun _ _ h => MmContext.MmContextEpsSecurityContextQuadruplets.inj h) h rfl
  have hlen : x.length.toNat + 4 = x.marshal.length := by
    have h1 : x.length = _ := Post.elim (unmKind_length (decoder m) m _ _) (hU [])
    have hl2 := hl
    rw [marshal, tliv_length] at hl2
    have h2 : declLen ((IE.MmContext (.MmContextEpsSecurityContextQuadruplets x)).marshal ++ []) = lenU16 x.body := by
      rw [IE.marshal_eq]
      show declLen (x.marshal ++ []) = _
      rw [marshal, tliv_eq]
      simp only [declLen, be16, List.cons_append, List.append_assoc, List.getD_cons_succ, List.getD_cons_zero]
      exact of16_be _
    rw [h1, h2, marshal, tliv_length, lenU16, UInt16.toNat_ofNat']
    omega
  exact WF_or_bare hu hm he hlen (by omega) hx

/-- The conditions of `Bare`, except that the capability of the mobile station and the equipment identity are absent, and with them
everything up to the end: no access is restricted, and there is no old security context. -/
def Blank (x : MmContextEpsSecurityContextQuadruplets) : Prop :=
  x.t = 107 ∧
  x.length.toNat = x.body.length ∧
  x.ins < 16 ∧
  x.ksi < 8 ∧
  (∀ s ∈ x.drx_params, s.length = 2) ∧
  LvOk x.ue_ntwk_cap ∧
  x.ms_ntwk_cap = none ∧
  x.mei = none ∧
  x.nas_dl_count.toNat < 16777216 ∧
  x.nas_ul_count.toNat < 16777216 ∧
  x.kasme.length = 32 ∧
  AuthOk AuthQuadruplet.WF x.auth_quadruplets ∧
  AuthOk AuthQuintuplet.WF x.auth_quintuplets ∧
  (∀ s ∈ x.next_hop, s.length = 32) ∧
  (∀ n ∈ x.ncc, n < 8) ∧
  x.ncc.isSome = x.next_hop.isSome ∧
  x.old_eps_sec_ctx = none ∧
  x.vdn_pref_ue_usage = none ∧
  x.ue_radio_cap_for_paging = none ∧
  x.ext_access_res = none ∧
  x.ue_add_security_cap = none ∧
  x.ue_nr_security_cap = none ∧
  x.apn_rate_controls = none ∧
  x.core_nw_res = none ∧
  x.ue_radio_cap_id = none ∧
  x.ensct = some 0 ∧
  x.access_res = AccessRestrictionMM.ofU8 0

instance (x : MmContextEpsSecurityContextQuadruplets) : Decidable x.Blank := by unfold Blank; infer_instance

theorem rt_blank : RoundTrips Blank marshal unmarshal := by
  intro m x tail h
  obtain ⟨t, length, ins, sec_mode, ksi, nas_integrity, nas_cipher, nas_dl_count, nas_ul_count, kasme, auth_quadruplets, auth_quintuplets, drx_params, next_hop, ncc, subscr_ue_ambr, used_ue_ambr, ue_ntwk_cap, ms_ntwk_cap, mei, access_res, old_eps_sec_ctx, vdn_pref_ue_usage, ue_radio_cap_for_paging, ext_access_res, ue_add_security_cap, ue_nr_security_cap, apn_rate_controls, core_nw_res, ue_radio_cap_id, ensct⟩ := x
  obtain ⟨ht, hl, hi, hk, hdrx, hun, hms, hme, hdl, hul, hka, haq, hau, hnh, hnc, hnn, hol, hvd, hpa, hex, had, hnr, hap, hco, hri, hen, hac⟩ := h
  simp only at ht hl hi hk hdrx hun hms hme hdl hul hka haq hau hnh hnc hnn hol hvd hpa hex had hnr hap hco hri hen hac
  simp only [marshal]
  obtain ⟨b, hb, e1, e2, p4, hbl0⟩ := tliv_at (ty := 107) (ins := ins) tail hl
  simp only [body, List.append_assoc, List.cons_append, List.nil_append] at p4
  have p5 : At b 5 _ := p4.next
  have p6 : At b 6 _ := p5.next
  have p7 : At b 7 _ := p6.next
  subst hap hco hri hen hex had hnr hms hme hvd hpa hol hac
  simp only [apnRatesEnc, extAccEnc, Option.isSome_none, List.cons_append, List.nil_append, List.append_assoc, Option.toList_some] at p4 p5 p6 p7
  rw [show lvOpt none = [0] from rfl] at p4 p5 p6 p7
  simp only [List.cons_append, List.nil_append] at p4 p5 p6 p7
  have r10 : At b 10 _ := p7.skip (by simp [be24])
  have r13 : At b 13 _ := r10.skip (by simp [be24])
  have q0 : At b 45 _ := r13.skip (by omega)
  have hbl := q0.length
  have w0 := lvOpt_length_pos ue_ntwk_cap
  simp only [List.length_append, List.length_cons] at hbl
  have s13 := r13.sl (ε := Err) (n := 45) (by omega)
  obtain ⟨d1, d2, d3, d8⟩ := epsOct4_dec sec_mode next_hop.isSome drx_params.isSome hk
  obtain ⟨d4, d5, d6, d7⟩ := mmOct5q_dec (authN_le hau) (authN_le haq) used_ue_ambr.isSome false
  obtain ⟨d9, d10, d11⟩ := epsOct6_dec subscr_ue_ambr.isSome nas_integrity nas_cipher
  obtain ⟨c1, a1, q1⟩ := rdAuth_at (e := .ieIncorrect 107) AuthQuadruplet.ok q0 haq
  obtain ⟨c2, a2, q2⟩ := rdAuth_at (e := .ieIncorrect 107) AuthQuintuplet.ok q1 hau
  obtain ⟨c3, a3, q3⟩ := rdDrx_at q2 hdrx
  obtain ⟨c4, a4, q4⟩ := rdNextHop_at q3 hnh hnc hnn
  obtain ⟨c5, a5, q5⟩ := rdIf_at (st := rdAmbr 107 b) q4 (fun _ _ hat => rdAmbr_at hat)
  obtain ⟨c6, a6, q6⟩ := rdIf_at (st := rdAmbr 107 b) q5 (fun _ _ hat => rdAmbr_at hat)
  obtain ⟨c7, a7, q7⟩ := rdLv_at (skip := 1) (e := .ieInvalidLength 107) q6 hun
  have z : (AccessRestrictionMM.ofU8 0).toU8 = 0 := by decide +kernel
  rw [z] at q7
  simp only [optEnc, List.nil_append] at q7
  have q8 : At b (c7 + 2) _ := q7.next.next
  have q9 : At b (c7 + 4) _ := q8.next.next
  have q10 : At b (c7 + 5) _ := q9.next
  have q11 : At b (c7 + 6) _ := q10.next
  have q12 : At b (c7 + 7) _ := q11.next
  have q13 : At b (c7 + 8) _ := q12.next
  have q14 : At b (c7 + 9) _ := q13.next
  have q15 : At b (c7 + 10) _ := q14.next
  have q16 : At b (c7 + 11) _ := q15.next
  have a8 : rdLv 1 (.ieInvalidLength 107) b c7 = .ok (none, c7 + 2) := by simp [rdLv, q7.rd]
  have a9 : rdLv 1 (.ieInvalidLength 107) b (c7 + 2) = .ok (none, c7 + 4) := by simp [rdLv, q8.rd]
  have a10 : rd8s b (c7 + 4) = .ok (0, c7 + 5) := by simp [rd8s, q9.rd]
  have a11 : rdIf false (rdItem OldEpsSecurityContext.unm OldEpsSecurityContext.size (.ieIncorrect 107) b) (c7 + 5) = .ok (none, c7 + 5) := by simp [rdIf]
  have a12 : rdLv 0 (.ieInvalidLength 107) b (c7 + 5) = .ok (none, c7 + 6) := by simp [rdLv, q10.rd]
  have a13 : rdLv 0 (.ieInvalidLength 107) b (c7 + 6) = .ok (none, c7 + 7) := by simp [rdLv, q11.rd]
  have a14 : rdExtAcc (.ieInvalidLength 107) b (c7 + 7) = .ok (none, c7 + 7) := by simp [rdExtAcc, q12.rd]
  have a15 : rdLv 0 (.ieInvalidLength 107) b (c7 + 7) = .ok (none, c7 + 8) := by simp [rdLv, q12.rd]
  have a16 : rdLv 0 (.ieInvalidLength 107) b (c7 + 8) = .ok (none, c7 + 9) := by simp [rdLv, q13.rd]
  have a17 : rdEpsTail b (c7 + 9) = .ok (none, none, none, some 0) := by
    have hle := q16.le
    have e1 : rdApnRates (.ieInvalidLength 107) b (c7 + 9) = .ok (none, c7 + 9) := by simp [rdApnRates, q14.rd]
    have e2 : rdLv 0 (.ieInvalidLength 107) b (c7 + 9) = .ok (none, c7 + 10) := by simp [rdLv, q14.rd]
    have e3 : rdLv 0 (.ieInvalidLength 107) b (c7 + 10) = .ok (none, c7 + 11) := by simp [rdLv, q15.rd]
    have e4 : rdEnsct b (c7 + 11) = .ok (some 0) := by cur_simp [rdEnsct, q16.rd]
    simp only [rdEpsTail, e1, e2, e3, e4, R.ok_bind, R.pure_eq]
  simp only [hb]
  cur_simp [unmarshal, Option.isSome_none, e1, e2, p4.rd, p5.rd, p6.rd, p7.rd24 hdl, r10.rd24 hul, s13, d1, d2, d3, d4, d5, d6, d7, d8, d9, d10, d11, a1, a2, a3, a4, a5, a6, a7, a8, a9, a10, a11, a12, a13, a14, a15, a16, a17, AccessRestrictionMM.ofU8_toU8, ht, hi]


theorem survives_blank {m : Mode} {x : MmContextEpsSecurityContextQuadruplets} (h : x.Blank) (tail : Bytes) :
    decodeOne (decoder m) m ((IE.MmContext (.MmContextEpsSecurityContextQuadruplets x)).marshal ++ tail) =
      .ok (.MmContext (.MmContextEpsSecurityContextQuadruplets x), (IE.MmContext (.MmContextEpsSecurityContextQuadruplets x)).marshal.length) := by
  have e := rt_blank m x tail h
  have e0 : (rd (x.marshal ++ tail) 0 : R Err UInt8) = .ok 107 := by simp [marshal, tliv_eq, rd]
  have e1 : V2.MmContext.unmarshal m (x.marshal ++ tail) = .ok (.MmContextEpsSecurityContextQuadruplets x) := by
    simp [V2.MmContext.unmarshal, e0, e]
  have e2 : x.len m = .ok x.marshal.length := by simp [marshal, tliv_eq, len, ieLenU, h.2.1]
  rw [IE.marshal_eq]
  show decodeOne (decoder m) m (x.marshal ++ tail) = .ok (_, x.marshal.length)
  have e3 : kindOf 107 = .MmContext := by decide +kernel
  rw [decodeOne, e0, R.ok_bind, e3]
  show ((V2.MmContext.unmarshal m (x.marshal ++ tail) >>= fun x => pure (IE.MmContext x)) >>= _) = _
  rw [e1]
  simp only [R.ok_bind, R.pure_eq]
  show (x.len m >>= _) = _
  rw [e2]
  rfl

end MmContextEpsSecurityContextQuadruplets

end Gtp.V2
