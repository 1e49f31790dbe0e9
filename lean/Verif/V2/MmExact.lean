import Verif.V2.Exact

/-!
# MM contexts that survive a round trip

The decoders of the MM contexts 103 to 106 leave their cursor behind the octets that the encoder writes for the decoded value, plus one
octet for each capability or equipment identity that is absent. A value that is read back from its own encoding therefore has none absent;
the fields at the end are compared octet by octet.
-/

namespace Gtp.V2
set_option linter.unusedSimpArgs false
set_option linter.unusedVariables false

theorem Post_of_eq {α β : Type} {x : R Err α} {f : α → R Err β} {P : β → Prop} (h : ∀ a, x = .ok a → (f a).Post P) : (x >>= f).Post P := by
  cases x with
  | ok a => exact h a rfl
  | _ => trivial

/-- The octet that the decoder skips behind an absent string. -/
def absent (v : Option Bytes) : Nat := if v = none then 1 else 0

theorem absent_zero {v : Option Bytes} (h : absent v = 0) : v ≠ none := by
  intro h2
  simp [absent, h2] at h

theorem lvOpt_length (v : Option Bytes) : (lvOpt v).length = 1 + (match v with | some s => s.length | none => 0) := by
  cases v <;> simp [lvOpt, Nat.add_comm]

theorem rdLv_pace {skip : Nat} {e : Err} {b : Bytes} {c : Nat} : (rdLv skip e b c).Post fun p =>
    p.2 = c + (lvOpt p.1).length + skip * absent p.1 ∧ c < b.length ∧ (skip = 0 → p.2 ≤ b.length) := by
  unfold rdLv
  rw [Post_bind, Post_rd]
  intro hc
  refine Post_ite' (fun h => ?_) fun _ => ?_
  · refine Post_ite' (fun h1 => ?_) fun _ => trivial
    refine Post_bind_sl fun s hs => ?_
    show _ = _ ∧ _ ∧ _
    rw [lvOpt_length]
    simp only [absent, reduceCtorEq, if_false]
    exact ⟨by omega, hc, fun _ => h1⟩
  · show _ = _ ∧ _ ∧ _
    simp only [lvOpt, absent, if_true, List.length_cons, List.length_nil]
    exact ⟨by omega, hc, fun _ => by omega⟩

theorem rdDrx_pace {flag : Bool} {b : Bytes} {c : Nat} : (rdDrx flag b c).Post fun p => p.2 = c + (optEnc id p.1).length := by
  unfold rdDrx
  refine Post_ite_any (Post_bind_sl fun s hs => ?_) rfl
  show c + 2 = c + s.length
  omega

theorem rdAmbr_pace {ty : UInt8} {flag : Bool} {b : Bytes} {c : Nat} :
    (rdIf flag (rdAmbr ty b) c).Post fun p => p.2 = c + (optEnc AmbrMM.octets p.1).length := by
  unfold rdIf
  refine Post_ite_any ?_ rfl
  refine Post_of (Q := fun p => p.2 = c + 8) ?_ fun ⟨v, c'⟩ h => ?_
  · unfold rdAmbr
    refine Post_ite_any ?_ trivial
    unfold rdItem
    exact Post_bind_any fun s => Post_bind_any fun v => rfl
  · show c' = c + v.octets.length
    simp only [AmbrMM.octets, be32, List.length_append, List.length_cons, List.length_nil]
    exact h

theorem rdItems_pace {α : Type} {unm : Bytes → R Err α} {len : α → Nat} {enc : α → Bytes} {e : Err} {b : Bytes} {W : α → Prop}
    (hi : ItemOk W enc unm len) (hu : ∀ s, (unm s).Post W) :
    ∀ n c, (rdItems unm len e b n c).Post fun p => p.2 = c + (p.1.flatMap enc).length
  | 0, c => rfl
  | n + 1, c => by
    unfold rdItems
    refine Post_of (Q := fun p => W p.1 ∧ p.2 = c + len p.1) ?_ fun ⟨v, c1⟩ h1 => ?_
    · unfold rdItem
      exact Post_bind_any fun s => Post_of (Post_mapErr (hu s)) fun v hv => ⟨hv, rfl⟩
    · refine Post_of (rdItems_pace hi hu n c1) fun ⟨vs, c2⟩ h2 => ?_
      simp only at h1 h2
      show c2 = c + ((v :: vs).flatMap enc).length
      rw [List.flatMap_cons, List.length_append, ← (hi v [] h1.1).2]
      omega

theorem rdAuth_pace {α : Type} {unm : Bytes → R Err α} {len : α → Nat} {enc : α → Bytes} {e : Err} {b : Bytes} {n : UInt8} {c : Nat}
    {W : α → Prop} (hi : ItemOk W enc unm len) (hu : ∀ s, (unm s).Post W) :
    (rdAuth unm len e b n c).Post fun p => p.2 = c + (optEnc (fun l => l.flatMap enc) p.1).length := by
  unfold rdAuth
  refine Post_ite_any rfl (Post_ite_any ?_ trivial)
  exact Post_of (rdItems_pace hi hu n.toNat c) fun ⟨vs, c⟩ h => h

theorem rdTriplets_pace {b : Bytes} {n : UInt8} {c : Nat} :
    (rdTriplets b n c).Post fun p => p.2 = c + (optEnc (fun l => l.flatMap AuthTriplet.octets) p.1).length := by
  unfold rdTriplets
  exact Post_ite_any trivial (rdAuth_pace AuthTriplet.ok AuthTriplet.post)

theorem rd8s_pace {b : Bytes} {c : Nat} : (rd8s b c).Post fun p => p.2 = c + 1 := by
  unfold rd8s
  exact Post_bind_any fun _ => rfl

theorem MmContextGsmKeyTriplets.exact {m : Mode} {x : MmContextGsmKeyTriplets} (hU : MmContextGsmKeyTriplets.unmarshal m x.marshal = .ok x) :
    (MmContext.MmContextGsmKeyTriplets x).Faithful := by
  have key : ∀ b, (MmContextGsmKeyTriplets.unmarshal m b).Post fun x =>
      4 + x.body.length + absent x.ue_ntwk_cap + absent x.ms_ntwk_cap + absent x.mei ≤ b.length := by
    intro b
    unfold MmContextGsmKeyTriplets.unmarshal
    refine Post_ite_any ?_ trivial
    refine Post_bind_any fun _ => Post_bind_any fun _ => Post_bind_any fun f4 => Post_bind_any fun _ => Post_bind_any fun _ => Post_bind_any fun _ => ?_
    refine Post_of rdTriplets_pace fun ⟨_, _⟩ h1 => Post_of rdDrx_pace fun ⟨_, _⟩ h2 => Post_of rdAmbr_pace fun ⟨_, _⟩ h3 => Post_of rdAmbr_pace fun ⟨_, _⟩ h4 => ?_
    refine Post_of rdLv_pace fun ⟨_, _⟩ h5 => Post_of rdLv_pace fun ⟨_, _⟩ h6 => Post_of rdLv_pace fun ⟨_, _⟩ h7 => Post_of rd8s_pace fun ⟨_, _⟩ h8 => ?_
    refine Post_of rdLv_pace fun ⟨_, _⟩ h9 => ?_
    show _ ≤ _
    have := h9.2.2 rfl
    simp only at h1 h2 h3 h4 h5 h6 h7 h8 h9 this
    simp only [MmContextGsmKeyTriplets.body, List.length_cons, List.length_append, be64, List.length_nil]
    omega
  have h := Post.elim (key _) hU
  rw [MmContextGsmKeyTriplets.marshal, tliv_length] at h
  exact ⟨absent_zero (by omega), absent_zero (by omega), absent_zero (by omega)⟩

theorem rd_past {b : Bytes} {c : Nat} (h : b.length ≤ c) : (rd b c : R Err UInt8) = .panic := by
  simp [rd, List.getElem?_eq_none h]

theorem rdHigher_past {b : Bytes} {c : Nat} (h : b.length ≤ c) : rdHigher b c = .panic := by
  simp [rdHigher, rd_past h]

theorem rdIov_past {f : Bool} {e : Err} {b : Bytes} {c : Nat} (h : b.length ≤ c) {p : Option UInt8 × Nat} : rdIov f e b c ≠ .ok p := by
  unfold rdIov
  rw [rd_past h]
  split <;> simp

theorem rdExtAcc_past {e : Err} {b : Bytes} {c : Nat} (h : b.length ≤ c) : rdExtAcc e b c = .panic := by
  simp [rdExtAcc, rd_past h]

/-- The last field of context 105. -/
theorem higher_last {b : Bytes} {p k c' : Nat} {v : Bool} (h : At b p (higherEnc v)) (hr : rdHigher b (p + k) = .ok (v, c')) :
    k = 0 ∧ v = true := by
  have hl := h.length
  cases v with
  | false =>
    simp only [higherEnc, Bool.false_eq_true, if_false, List.length_cons, List.length_nil] at h hl
    rcases Nat.eq_zero_or_pos k with rfl | hk
    · have h1 := rd_past (b := b) (c := p + 1) (by omega)
      simp only [rdHigher, Nat.add_zero, h.rd, R.ok_bind, h1] at hr
      rw [if_pos (by simp; omega)] at hr
      cases hr
    · rw [rdHigher_past (by omega)] at hr
      cases hr
  | true =>
    simp only [higherEnc, if_true, List.length_cons, List.length_nil] at h hl
    refine ⟨?_, rfl⟩
    match k, hr with
    | 0, _ => rfl
    | 1, hr =>
      have h1 := rd_past (b := b) (c := p + 1 + 1) (by omega)
      simp only [rdHigher, h.next.rd, R.ok_bind, h1] at hr
      split at hr <;> cases hr
    | k + 2, hr =>
      rw [rdHigher_past (by omega)] at hr
      cases hr

theorem MmContextGsmKeyCipherQuintuplets.exact {m : Mode} {x : MmContextGsmKeyCipherQuintuplets}
    (hU : MmContextGsmKeyCipherQuintuplets.unmarshal m x.marshal = .ok x) : (MmContext.MmContextGsmKeyCipherQuintuplets x).Faithful := by
  have key : ∀ b, (MmContextGsmKeyCipherQuintuplets.unmarshal m b).Post fun x =>
      ∃ c c', c + (higherEnc x.higher_than_16_mbps).length = 4 + x.body.length + (absent x.ue_ntwk_cap + absent x.ms_ntwk_cap + absent x.mei) ∧
        rdHigher b c = .ok (x.higher_than_16_mbps, c') := by
    intro b
    unfold MmContextGsmKeyCipherQuintuplets.unmarshal
    refine Post_ite_any ?_ trivial
    refine Post_bind_any fun _ => Post_bind_any fun _ => Post_bind_any fun f4 => Post_bind_any fun _ => Post_bind_any fun _ => Post_bind_any fun _ => ?_
    refine Post_of (rdAuth_pace AuthQuintuplet.ok AuthQuintuplet.post) fun ⟨_, _⟩ h1 => Post_of rdDrx_pace fun ⟨_, _⟩ h2 => Post_of rdAmbr_pace fun ⟨_, _⟩ h3 => Post_of rdAmbr_pace fun ⟨_, _⟩ h4 => ?_
    refine Post_of rdLv_pace fun ⟨_, _⟩ h5 => Post_of rdLv_pace fun ⟨_, _⟩ h6 => Post_of rdLv_pace fun ⟨_, _⟩ h7 => Post_of rd8s_pace fun ⟨_, _⟩ h8 => ?_
    refine Post_of rdLv_pace fun ⟨_, c9⟩ h9 => Post_of_eq fun ⟨_, c'⟩ h10 => ?_
    refine ⟨c9, c', ?_, h10⟩
    simp only at h1 h2 h3 h4 h5 h6 h7 h8 h9
    simp only [MmContextGsmKeyCipherQuintuplets.body, List.length_cons, List.length_append, be64, List.length_nil]
    omega
  obtain ⟨c, c', h, hr⟩ := Post.elim (key _) hU
  have hp : ∃ p, x.marshal = p ++ higherEnc x.higher_than_16_mbps := by
    simp only [MmContextGsmKeyCipherQuintuplets.marshal, tliv_eq, MmContextGsmKeyCipherQuintuplets.body, ← List.append_assoc, ← List.cons_append]
    exact ⟨_, rfl⟩
  obtain ⟨p, hp⟩ := hp
  have hpl : p.length + (higherEnc x.higher_than_16_mbps).length = 4 + x.body.length := by
    rw [← List.length_append, ← hp, MmContextGsmKeyCipherQuintuplets.marshal, tliv_length]
    omega
  obtain ⟨k1, k2⟩ := higher_last (b := x.marshal) (v := x.higher_than_16_mbps) (c' := c') (p := p.length) (k := absent x.ue_ntwk_cap + absent x.ms_ntwk_cap + absent x.mei) ⟨by rw [hp]; simp, by rw [hp]; simp⟩ (by
    rw [← hr]; congr 1; omega)
  exact ⟨absent_zero (by omega), absent_zero (by omega), absent_zero (by omega), k2⟩

/-- The last fields of context 104. -/
theorem iov_last {f : Bool} {e : Err} {b : Bytes} {p k c' c'' : Nat} {v : Bool} {i : Option UInt8} (h : At b p (higherEnc v ++ i.toList))
    (hr : rdHigher b (p + k) = .ok (v, c')) (hi : rdIov f e b c' = .ok (i, c'')) : k = 0 ∧ i.isSome ∧ (v = true ∨ i ≠ some 1) := by
  cases i with
  | none =>
    unfold rdIov at hi
    split at hi
    · revert hi
      cases (rd b c' : R Err UInt8) <;> simp
    · cases hi
  | some i =>
    have hl := h.length
    cases v with
    | false =>
      simp only [higherEnc, Bool.false_eq_true, if_false, List.length_cons, List.length_nil, Option.toList, List.cons_append, List.nil_append] at h hl
      match k, hr with
      | 0, hr =>
        simp only [rdHigher, Nat.add_zero, h.rd, h.next.rd, R.ok_bind] at hr
        rw [if_pos (by simp; omega)] at hr
        simp only [R.pure_eq, R.ok.injEq, Prod.mk.injEq, beq_eq_false_iff_ne, ne_eq] at hr
        exact ⟨rfl, rfl, .inr fun h => hr.1 (Option.some.inj h)⟩
      | 1, hr =>
        have h1 := rd_past (b := b) (c := p + 1 + 1) (by omega)
        simp only [rdHigher, h.next.rd, R.ok_bind, h1] at hr
        split at hr
        · cases hr
        · cases hr
          exact absurd hi (rdIov_past (by omega))
      | k + 2, hr =>
        rw [rdHigher_past (by omega)] at hr
        cases hr
    | true =>
      simp only [higherEnc, if_true, List.length_cons, List.length_nil, Option.toList, List.cons_append, List.nil_append] at h hl
      refine ⟨?_, rfl, .inl rfl⟩
      match k, hr with
      | 0, hr => rfl
      | 1, hr =>
        simp only [rdHigher, h.next.rd, h.next.next.rd, R.ok_bind] at hr
        rw [if_pos (by simp; omega)] at hr
        simp only [R.pure_eq, R.ok.injEq, Prod.mk.injEq] at hr
        have := hr.2
        have e1 : (1 : UInt8).toNat = 1 := rfl
        rw [e1] at this
        exact absurd hi (rdIov_past (by omega))
      | 2, hr =>
        have h1 := rd_past (b := b) (c := p + 2 + 1) (by omega)
        simp only [rdHigher, h.next.next.rd, R.ok_bind, h1] at hr
        split at hr <;> cases hr
      | k + 3, hr =>
        rw [rdHigher_past (by omega)] at hr
        cases hr


theorem MmContextUmtsKeyCipherQuintuplets.exact {m : Mode} {x : MmContextUmtsKeyCipherQuintuplets}
    (hU : MmContextUmtsKeyCipherQuintuplets.unmarshal m x.marshal = .ok x) : (MmContext.MmContextUmtsKeyCipherQuintuplets x).Faithful := by
  have key : ∀ b, (MmContextUmtsKeyCipherQuintuplets.unmarshal m b).Post fun x =>
      ∃ f c c' c'', c + (higherEnc x.higher_than_16_mbps ++ x.iov_updates_counter.toList).length = 4 + x.body.length + (absent x.ue_ntwk_cap + absent x.ms_ntwk_cap + absent x.mei + absent x.vdn_pref_ue_usage) ∧
        rdHigher b c = .ok (x.higher_than_16_mbps, c') ∧ rdIov f (.ieInvalidLength 104) b c' = .ok (x.iov_updates_counter, c'') := by
    intro b
    unfold MmContextUmtsKeyCipherQuintuplets.unmarshal
    refine Post_ite_any ?_ trivial
    refine Post_bind_any fun _ => Post_bind_any fun _ => Post_bind_any fun f4 => Post_bind_any fun f5 => Post_bind_any fun _ => ?_
    refine Post_bind_sl fun _ k1 => Post_bind_sl fun _ k2 => ?_
    refine Post_of (rdAuth_pace AuthQuintuplet.ok AuthQuintuplet.post) fun ⟨_, _⟩ h1 => Post_of rdDrx_pace fun ⟨_, _⟩ h2 => Post_of rdAmbr_pace fun ⟨_, _⟩ h3 => Post_of rdAmbr_pace fun ⟨_, _⟩ h4 => ?_
    refine Post_of rdLv_pace fun ⟨_, _⟩ h5 => Post_of rdLv_pace fun ⟨_, _⟩ h6 => Post_of rdLv_pace fun ⟨_, _⟩ h7 => Post_of rd8s_pace fun ⟨_, _⟩ h8 => ?_
    refine Post_of rdLv_pace fun ⟨_, c9⟩ h9 => Post_of_eq fun ⟨_, c'⟩ h10 => Post_of_eq fun ⟨_, c''⟩ h11 => ?_
    skip
    refine ⟨hasBits f5 0x10, c9, c', c'', ?_, h10, h11⟩
    simp only at h1 h2 h3 h4 h5 h6 h7 h8 h9
    simp only [MmContextUmtsKeyCipherQuintuplets.body, List.length_cons, List.length_append, List.length_nil]
    omega
  obtain ⟨f, c, c', c'', h, hr, hi⟩ := Post.elim (key _) hU
  have hp : ∃ p, x.marshal = p ++ (higherEnc x.higher_than_16_mbps ++ x.iov_updates_counter.toList) := by
    simp only [MmContextUmtsKeyCipherQuintuplets.marshal, tliv_eq, MmContextUmtsKeyCipherQuintuplets.body]
    simp only [← List.append_assoc, ← List.cons_append]
    exact ⟨_, rfl⟩
  obtain ⟨p, hp⟩ := hp
  have hpl : p.length + (higherEnc x.higher_than_16_mbps ++ x.iov_updates_counter.toList).length = 4 + x.body.length := by
    rw [← List.length_append, ← hp, MmContextUmtsKeyCipherQuintuplets.marshal, tliv_length]
    omega
  obtain ⟨k1, k2, k3⟩ := iov_last (b := x.marshal) (p := p.length) (k := absent x.ue_ntwk_cap + absent x.ms_ntwk_cap + absent x.mei + absent x.vdn_pref_ue_usage) (c' := c') (c'' := c'') (v := x.higher_than_16_mbps)
    (i := x.iov_updates_counter) ⟨by rw [hp]; simp, by rw [hp]; simp⟩ (by rw [← hr]; congr 1; omega) hi
  exact ⟨absent_zero (by omega), absent_zero (by omega), absent_zero (by omega), absent_zero (by omega), k2, k3⟩


/-! Reading at a position of a buffer is reading at the corresponding position of its end. -/

theorem rd_shift {b r : Bytes} {p : Nat} (h : At b p r) (j : Nat) : (rd b (p + j) : R Err UInt8) = rd r j := by
  rw [← h.eq]
  simp [rd, List.getElem?_drop]

theorem rdHigher_shift {b r : Bytes} {p j c : Nat} {v : Bool} (h : At b p r) (hr : rdHigher b (p + j) = .ok (v, c)) :
    ∃ j', c = p + j' ∧ rdHigher r j = .ok (v, j') := by
  have hl := h.length
  unfold rdHigher at hr ⊢
  rw [rd_shift h] at hr
  cases h1 : (rd r j : R Err UInt8) with
  | ok l =>
    rw [h1] at hr
    simp only [R.ok_bind] at hr ⊢
    by_cases h2 : j + 1 + l.toNat ≤ r.length
    · rw [if_pos (by omega), show p + j + 1 = p + (j + 1) by omega, rd_shift h] at hr
      rw [if_pos h2]
      cases h3 : (rd r (j + 1) : R Err UInt8) with
      | ok w =>
        rw [h3] at hr
        simp only [R.ok_bind, R.pure_eq, R.ok.injEq, Prod.mk.injEq] at hr ⊢
        exact ⟨j + 1 + l.toNat, by omega, hr.1, rfl⟩
      | _ => rw [h3] at hr; cases hr
    · rw [if_neg (by omega)] at hr
      rw [if_neg h2]
      simp only [R.pure_eq, R.ok.injEq, Prod.mk.injEq] at hr ⊢
      exact ⟨j + 1, by omega, hr.1, rfl⟩
  | _ => rw [h1] at hr; cases hr

theorem rdIov_shift {f : Bool} {e : Err} {b r : Bytes} {p j c : Nat} {v : Option UInt8} (h : At b p r) (hr : rdIov f e b (p + j) = .ok (v, c)) :
    ∃ j', c = p + j' ∧ rdIov true e r j = .ok (v, j') := by
  have hl := h.length
  unfold rdIov at hr ⊢
  rw [rd_shift h] at hr
  split at hr
  · next h2 =>
    rw [if_pos ⟨rfl, by omega⟩]
    cases h1 : (rd r j : R Err UInt8) with
    | ok l =>
      rw [h1] at hr
      simp only [R.ok_bind, R.pure_eq, R.ok.injEq, Prod.mk.injEq] at hr ⊢
      exact ⟨j + 1, by omega, hr.1, rfl⟩
    | _ => rw [h1] at hr; cases hr
  · cases hr

theorem rdExtAcc_shift {e : Err} {b r : Bytes} {p j c : Nat} {v : Option ExtendedAccessRestrictionMM} (h : At b p r)
    (hr : rdExtAcc e b (p + j) = .ok (v, c)) : ∃ j', c = p + j' ∧ rdExtAcc e r j = .ok (v, j') := by
  have hl := h.length
  unfold rdExtAcc at hr ⊢
  rw [rd_shift h] at hr
  cases h1 : (rd r j : R Err UInt8) with
  | ok l =>
    rw [h1] at hr
    simp only [R.ok_bind] at hr ⊢
    split at hr
    · next h3 =>
      rw [if_pos h3]
      split at hr
      · rw [if_pos (by omega)]
        rw [show p + j + 1 = p + (j + 1) by omega, rd_shift h] at hr
        cases h4 : (rd r (j + 1) : R Err UInt8) with
        | ok w =>
          rw [h4] at hr
          simp only [R.ok_bind, R.pure_eq, R.ok.injEq, Prod.mk.injEq] at hr ⊢
          exact ⟨j + 2, by omega, hr.1, rfl⟩
        | _ => rw [h4] at hr; cases hr
      · cases hr
    · next h3 =>
      rw [if_neg h3]
      split at hr
      · next h4 =>
        rw [if_pos h4]
        simp only [R.pure_eq, R.ok.injEq, Prod.mk.injEq] at hr ⊢
        exact ⟨j, by omega, hr.1, rfl⟩
      · cases hr
  | _ => rw [h1] at hr; cases hr

/-- The last three fields of context 106, read from the `k`-th octet of `r` on, are the given ones. -/
def readsLast (r : Bytes) (k : Nat) (v : Bool) (i : UInt8) (x : Option ExtendedAccessRestrictionMM) : Bool :=
  match rdHigher r k with
  | .ok (v', c) => match rdIov true (.ieInvalidLength 106) r c with
    | .ok (i', c) => match rdExtAcc (.ieInvalidLength 106) r c with
      | .ok (x', _) => v' == v && i' == some i && x' == x
      | _ => false
    | _ => false
  | _ => false

theorem readsLast_only (i : UInt8) (v : Bool) (x : Option ExtendedAccessRestrictionMM) (k : Fin 5)
    (h : readsLast (higherEnc v ++ (i :: extAccEnc x)) k v i x = true) : k.val = 0 ∧ (v = true ∨ i ≠ 1) := by
  have c0 : (0 : UInt8).toNat = 0 := rfl
  have c1 : (1 : UInt8).toNat = 1 := rfl
  have c2 : (2 : UInt8).toNat = 2 := rfl
  have hi : i = 0 ∨ i = 1 ∨ i = 2 ∨ i ≠ 0 ∧ i ≠ 1 ∧ i ≠ 2 ∧ ¬ 2 + i.toNat ≤ 3 ∧ ¬ 2 + i.toNat ≤ 4 ∧ ¬ 3 + i.toNat ≤ 4 ∧ ¬ 3 + i.toNat ≤ 5 := by
    simp only [ne_eq, ← UInt8.toNat_inj, c0, c1, c2]
    omega
  obtain ⟨k, hk⟩ := k
  simp only at h ⊢
  have hk : k = 0 ∨ k = 1 ∨ k = 2 ∨ k = 3 ∨ k = 4 := by omega
  rcases hk with rfl | hk
  · refine ⟨rfl, ?_⟩
    cases v with
    | true => exact .inl rfl
    | false =>
      refine .inr fun hi => ?_
      subst hi
      cases x <;> simp [readsLast, rdHigher, rd, higherEnc, extAccEnc, c0, c1, c2, rdIov, rdExtAcc] at h
  · exfalso
    rcases hk with rfl | rfl | rfl | rfl <;> cases v <;> rcases x with _ | y <;> rcases hi with rfl | rfl | rfl | ⟨n0, n1, n2, i1, i2, i3, i4⟩ <;>
      simp [readsLast, rdHigher, rd, higherEnc, extAccEnc, c0, c1, c2, rdIov, rdExtAcc, *] at h
    all_goals
      by_cases e1 : y.toU8 = 1
      · simp [e1, c1] at h
      · by_cases e0 : y.toU8 = 0
        · simp [e0, c0] at h
        · by_cases e4 : 4 + y.toU8.toNat ≤ 4
          · exact e0 (UInt8.toNat_inj.mp (show y.toU8.toNat = 0 by omega))
          · by_cases e5 : 5 + y.toU8.toNat ≤ 5
            · omega
            · simp [e0, e1, e4, e5] at h

/-- The last fields of context 106. -/
theorem ext_last {f : Bool} {b : Bytes} {p k c' c'' c3 : Nat} {v : Bool} {i : Option UInt8} {x : Option ExtendedAccessRestrictionMM}
    (h : At b p (higherEnc v ++ (i.toList ++ extAccEnc x)))
    (hr : rdHigher b (p + k) = .ok (v, c')) (hi : rdIov f (.ieInvalidLength 106) b c' = .ok (i, c''))
    (hx : rdExtAcc (.ieInvalidLength 106) b c'' = .ok (x, c3)) : k = 0 ∧ i.isSome ∧ (v = true ∨ i ≠ some 1) := by
  cases i with
  | none =>
    unfold rdIov at hi
    split at hi
    · revert hi
      cases (rd b c' : R Err UInt8) <;> simp
    · cases hi
  | some i =>
    simp only [Option.toList, List.cons_append, List.nil_append] at h
    have hk : k < 5 := by
      have hl := h.length
      have h2 : (higherEnc v ++ (i :: extAccEnc x)).length ≤ 5 := by
        cases v <;> cases x <;> simp [higherEnc, extAccEnc]
      apply Decidable.byContradiction
      intro hk
      rw [rdHigher_past (by omega)] at hr
      cases hr
    obtain ⟨j1, rfl, e1⟩ := rdHigher_shift h hr
    obtain ⟨j2, rfl, e2⟩ := rdIov_shift h hi
    obtain ⟨j3, rfl, e3⟩ := rdExtAcc_shift h hx
    obtain ⟨k0, k1⟩ := readsLast_only i v x ⟨k, hk⟩ (by simp [readsLast, e1, e2, e3])
    exact ⟨k0, rfl, k1.imp id fun h1 h2 => h1 (Option.some.inj h2)⟩

theorem MmContextUmtsKeyQuintuplets.exact {m : Mode} {x : MmContextUmtsKeyQuintuplets}
    (hU : MmContextUmtsKeyQuintuplets.unmarshal m x.marshal = .ok x) : (MmContext.MmContextUmtsKeyQuintuplets x).Faithful := by
  have key : ∀ b, (MmContextUmtsKeyQuintuplets.unmarshal m b).Post fun x =>
      ∃ f c c' c'' c3, c + (higherEnc x.higher_than_16_mbps ++ (x.iov_updates_counter.toList ++ extAccEnc x.ext_access_res)).length = 4 + x.body.length + (absent x.ue_ntwk_cap + absent x.ms_ntwk_cap + absent x.mei + absent x.vdn_pref_ue_usage) ∧
        rdHigher b c = .ok (x.higher_than_16_mbps, c') ∧ rdIov f (.ieInvalidLength 106) b c' = .ok (x.iov_updates_counter, c'') ∧ rdExtAcc (.ieInvalidLength 106) b c'' = .ok (x.ext_access_res, c3) := by
    intro b
    unfold MmContextUmtsKeyQuintuplets.unmarshal
    refine Post_ite_any ?_ trivial
    refine Post_bind_any fun _ => Post_bind_any fun _ => Post_bind_any fun f4 => Post_bind_any fun f5 => Post_bind_any fun _ => ?_
    refine Post_bind_sl fun _ k1 => Post_bind_sl fun _ k2 => ?_
    refine Post_of (rdAuth_pace AuthQuintuplet.ok AuthQuintuplet.post) fun ⟨_, _⟩ h1 => Post_of rdDrx_pace fun ⟨_, _⟩ h2 => Post_of rdAmbr_pace fun ⟨_, _⟩ h3 => Post_of rdAmbr_pace fun ⟨_, _⟩ h4 => ?_
    refine Post_of rdLv_pace fun ⟨_, _⟩ h5 => Post_of rdLv_pace fun ⟨_, _⟩ h6 => Post_of rdLv_pace fun ⟨_, _⟩ h7 => Post_of rd8s_pace fun ⟨_, _⟩ h8 => ?_
    refine Post_of rdLv_pace fun ⟨_, c9⟩ h9 => Post_of_eq fun ⟨_, c'⟩ h10 => Post_of_eq fun ⟨_, c''⟩ h11 => ?_
    refine Post_of_eq fun ⟨_, c3⟩ h12 => ?_
    refine ⟨hasBits f5 0x10, c9, c', c'', c3, ?_, h10, h11, h12⟩
    simp only at h1 h2 h3 h4 h5 h6 h7 h8 h9
    simp only [MmContextUmtsKeyQuintuplets.body, List.length_cons, List.length_append, List.length_nil]
    omega
  obtain ⟨f, c, c', c'', c3, h, hr, hi, he⟩ := Post.elim (key _) hU
  have hp : ∃ p, x.marshal = p ++ (higherEnc x.higher_than_16_mbps ++ (x.iov_updates_counter.toList ++ extAccEnc x.ext_access_res)) := by
    simp only [MmContextUmtsKeyQuintuplets.marshal, tliv_eq, MmContextUmtsKeyQuintuplets.body]
    simp only [← List.append_assoc, ← List.cons_append]
    exact ⟨_, rfl⟩
  obtain ⟨p, hp⟩ := hp
  have hpl : p.length + (higherEnc x.higher_than_16_mbps ++ (x.iov_updates_counter.toList ++ extAccEnc x.ext_access_res)).length = 4 + x.body.length := by
    rw [← List.length_append, ← hp, MmContextUmtsKeyQuintuplets.marshal, tliv_length]
    omega
  obtain ⟨k1, k2, k3⟩ := ext_last (b := x.marshal) (p := p.length) (k := absent x.ue_ntwk_cap + absent x.ms_ntwk_cap + absent x.mei + absent x.vdn_pref_ue_usage) (c' := c') (c'' := c'') (c3 := c3) (v := x.higher_than_16_mbps)
    (i := x.iov_updates_counter) (x := x.ext_access_res) ⟨by rw [hp]; simp, by rw [hp]; simp⟩ (by rw [← hr]; congr 1; omega) hi he
  exact ⟨absent_zero (by omega), absent_zero (by omega), absent_zero (by omega), absent_zero (by omega), k2, k3⟩


theorem ApnRateControlStatusMM.pace (b : Bytes) : (ApnRateControlStatusMM.unm b).Post fun v => v.octets.length = v.size := by
  unfold ApnRateControlStatusMM.unm
  refine Post_ite_any (Post_bind_any fun _ => Post_ite_any (Post_bind_any fun _ => Post_ite_any (Post_bind_any fun s => Post_ite_any ?_ trivial) trivial) trivial) trivial
  refine Post_bind_any fun _ => Post_bind_any fun _ => Post_bind_any fun _ => Post_bind_sl fun v hv => ?_
  show List.length _ = _
  simp only [ApnRateControlStatusMM.octets, ApnRateControlStatusMM.body, ApnRateControlStatusMM.size, be16, be32, List.length_append, List.length_cons,
    List.length_nil]
  omega

theorem rdRates_pace {b : Bytes} : ∀ n c, (rdRates b n c).Post fun p =>
    p.2 = c + (p.1.flatMap ApnRateControlStatusMM.octets).length ∧ p.2 ≤ b.length ∧ ∀ y, ApnRateControlStatusMM.unm (b.drop p.2) ≠ .ok y
  | 0, c => trivial
  | n + 1, c => by
    unfold rdRates
    refine Post_of_eq fun s hs => ?_
    have hc : c ≤ b.length ∧ s = b.drop c := by
      unfold slFrom at hs
      split at hs
      · exact ⟨by assumption, (R.ok.inj hs).symm⟩
      · cases hs
    cases hv : ApnRateControlStatusMM.unm s with
    | ok v =>
      refine Post_of (rdRates_pace n (c + v.size)) fun ⟨vs, c'⟩ h => ?_
      have h1 := Post.elim (ApnRateControlStatusMM.pace s) hv
      refine ⟨?_, h.2⟩
      have h2 := h.1
      simp only at h2
      show c' = c + ((v :: vs).flatMap _).length
      rw [List.flatMap_cons, List.length_append]
      omega
    | err e =>
      refine ⟨rfl, hc.1, fun y hy => ?_⟩
      rw [← hc.2, hv] at hy
      cases hy
    | panic => trivial
    | diverge => trivial

/-- A status that could follow. -/
def anyRate : ApnRateControlStatusMM := ⟨[], 0, 0, 0, [0, 0, 0, 0, 0, 0, 0, 0]⟩

theorem MmContextUmtsKeyQuadrupletsQuintuplets.exact {m : Mode} {x : MmContextUmtsKeyQuadrupletsQuintuplets}
    (hU : ∀ tail, MmContextUmtsKeyQuadrupletsQuintuplets.unmarshal m (x.marshal ++ tail) = .ok x) :
    (MmContext.MmContextUmtsKeyQuadrupletsQuintuplets x).Faithful := by
  have key : ∀ b, (MmContextUmtsKeyQuadrupletsQuintuplets.unmarshal m b).Post fun x =>
      ∃ c c', c + (apnRatesEnc x.apn_rate_controls).length = 4 + x.body.length + (absent x.ue_ntwk_cap + absent x.ms_ntwk_cap + absent x.mei) ∧
        rdApnRates (.ieInvalidLength 108) b c = .ok (x.apn_rate_controls, c') := by
    intro b
    unfold MmContextUmtsKeyQuadrupletsQuintuplets.unmarshal
    refine Post_ite_any ?_ trivial
    refine Post_bind_any fun _ => Post_bind_any fun _ => Post_bind_any fun f4 => Post_bind_any fun f5 => ?_
    refine Post_bind_sl fun _ k1 => Post_bind_sl fun _ k2 => ?_
    refine Post_of (rdAuth_pace AuthQuadruplet.ok AuthQuadruplet.post) fun ⟨_, _⟩ h0 => ?_
    refine Post_of (rdAuth_pace AuthQuintuplet.ok AuthQuintuplet.post) fun ⟨_, _⟩ h1 => Post_of rdDrx_pace fun ⟨_, _⟩ h2 => Post_of rdAmbr_pace fun ⟨_, _⟩ h3 => Post_of rdAmbr_pace fun ⟨_, _⟩ h4 => ?_
    refine Post_of rdLv_pace fun ⟨_, _⟩ h5 => Post_of rdLv_pace fun ⟨_, _⟩ h6 => Post_of rdLv_pace fun ⟨_, _⟩ h7 => Post_of rd8s_pace fun ⟨_, _⟩ h8 => ?_
    refine Post_of rdLv_pace fun ⟨_, c9⟩ h9 => Post_of_eq fun ⟨_, c'⟩ h10 => ?_
    refine ⟨c9, c', ?_, h10⟩
    simp only at h0 h1 h2 h3 h4 h5 h6 h7 h8 h9
    simp only [MmContextUmtsKeyQuadrupletsQuintuplets.body, List.length_cons, List.length_append, List.length_nil]
    omega
  have hl : x.marshal.length = 4 + x.body.length := by
    rw [MmContextUmtsKeyQuadrupletsQuintuplets.marshal, tliv_length]
    omega
  have rates : ∀ b c c' l, rdApnRates (.ieInvalidLength 108) b c = .ok (some l, c') →
      c + 1 + (l.flatMap ApnRateControlStatusMM.octets).length ≤ b.length ∧
      ∀ y, ApnRateControlStatusMM.unm (b.drop (c + 1 + (l.flatMap ApnRateControlStatusMM.octets).length)) ≠ .ok y := by
    intro b c c' l h
    have h1 : (rdApnRates (.ieInvalidLength 108) b c).Post fun p => ∀ l, p.1 = some l →
        c + 1 + (l.flatMap ApnRateControlStatusMM.octets).length ≤ b.length ∧
        ∀ y, ApnRateControlStatusMM.unm (b.drop (c + 1 + (l.flatMap ApnRateControlStatusMM.octets).length)) ≠ .ok y := by
      unfold rdApnRates
      refine Post_bind_any fun n => Post_ite_any (fun l h => nomatch h) (Post_ite_any ?_ trivial)
      refine Post_of (rdRates_pace _ (c + 1)) fun ⟨vs, c2⟩ h2 => ?_
      rintro l ⟨⟩
      have h3 := h2.1
      simp only at h3
      rw [← h3]
      exact h2.2
    exact Post.elim h1 h l rfl
  obtain ⟨c, c', h, hr⟩ := Post.elim (key _) (hU [])
  rw [List.append_nil] at hr
  cases hv : x.apn_rate_controls with
  | none =>
    rw [hv] at h hr
    simp only [apnRatesEnc, List.length_cons, List.length_nil] at h
    have hc : c < x.marshal.length := by
      apply Decidable.byContradiction
      intro hc
      rw [rdApnRates, rd_past (by omega)] at hr
      cases hr
    exact ⟨absent_zero (by omega), absent_zero (by omega), absent_zero (by omega), hv⟩
  | some l =>
    exfalso
    obtain ⟨c2, c3, h2, hr2⟩ := Post.elim (key _) (hU anyRate.octets)
    rw [hv] at h hr h2 hr2
    simp only [apnRatesEnc, List.length_cons] at h h2
    have h3 := (rates _ _ _ _ hr).1
    refine (rates _ _ _ _ hr2).2 anyRate ?_
    rw [show c2 + 1 + (l.flatMap ApnRateControlStatusMM.octets).length = x.marshal.length by omega, List.drop_left]
    have h4 := (ApnRateControlStatusMM.ok anyRate [] (by decide +kernel)).1
    rwa [List.append_nil] at h4


/-- The EPS security context, the one MM context left out here. -/
def MmContext.IsEps : MmContext → Prop
  | .MmContextEpsSecurityContextQuadruplets _ => True
  | _ => False

theorem MmContext.exact {m : Mode} {x : MmContext} (hx : ¬ x.IsEps) (hU : ∀ tail, MmContext.unmarshal m (x.marshal ++ tail) = .ok x) : x.Faithful := by
  cases x with
  | MmContextEpsSecurityContextQuadruplets v => exact absurd trivial hx
  | MmContextUmtsKeyQuintuplets v =>
    have e : ∀ tail, V2.MmContextUmtsKeyQuintuplets.unmarshal m (v.marshal ++ tail) = .ok v := fun tail => by
      have e0 : (rd (v.marshal ++ tail) 0 : R Err UInt8) = .ok 106 := by simp [V2.MmContextUmtsKeyQuintuplets.marshal, tliv_eq, rd]
      have h := hU tail
      simp only [marshal, unmarshal, e0, R.ok_bind, if_true] at h
      exact bind_some (fun _ _ h => MmContext.MmContextUmtsKeyQuintuplets.inj h) h rfl
    exact V2.MmContextUmtsKeyQuintuplets.exact (by simpa using e [])
  | MmContextUmtsKeyQuadrupletsQuintuplets v =>
    have e : ∀ tail, V2.MmContextUmtsKeyQuadrupletsQuintuplets.unmarshal m (v.marshal ++ tail) = .ok v := fun tail => by
      have e0 : (rd (v.marshal ++ tail) 0 : R Err UInt8) = .ok 108 := by simp [V2.MmContextUmtsKeyQuadrupletsQuintuplets.marshal, tliv_eq, rd]
      have h := hU tail
      simp only [marshal, unmarshal, e0, R.ok_bind, if_true] at h
      exact bind_some (fun _ _ h => MmContext.MmContextUmtsKeyQuadrupletsQuintuplets.inj h) h rfl
    exact V2.MmContextUmtsKeyQuadrupletsQuintuplets.exact e
  | MmContextUmtsKeyCipherQuintuplets v =>
    have e : ∀ tail, V2.MmContextUmtsKeyCipherQuintuplets.unmarshal m (v.marshal ++ tail) = .ok v := fun tail => by
      have e0 : (rd (v.marshal ++ tail) 0 : R Err UInt8) = .ok 104 := by simp [V2.MmContextUmtsKeyCipherQuintuplets.marshal, tliv_eq, rd]
      have h := hU tail
      simp only [marshal, unmarshal, e0, R.ok_bind, if_true] at h
      exact bind_some (fun _ _ h => MmContext.MmContextUmtsKeyCipherQuintuplets.inj h) h rfl
    exact V2.MmContextUmtsKeyCipherQuintuplets.exact (by simpa using e [])
  | MmContextGsmKeyTriplets v =>
    have e : ∀ tail, V2.MmContextGsmKeyTriplets.unmarshal m (v.marshal ++ tail) = .ok v := fun tail => by
      have e0 : (rd (v.marshal ++ tail) 0 : R Err UInt8) = .ok 103 := by simp [V2.MmContextGsmKeyTriplets.marshal, tliv_eq, rd]
      have h := hU tail
      simp only [marshal, unmarshal, e0, R.ok_bind, if_true] at h
      exact bind_some (fun _ _ h => MmContext.MmContextGsmKeyTriplets.inj h) h rfl
    exact V2.MmContextGsmKeyTriplets.exact (by simpa using e [])
  | MmContextGsmKeyCipherQuintuplets v =>
    have e : ∀ tail, V2.MmContextGsmKeyCipherQuintuplets.unmarshal m (v.marshal ++ tail) = .ok v := fun tail => by
      have e0 : (rd (v.marshal ++ tail) 0 : R Err UInt8) = .ok 105 := by simp [V2.MmContextGsmKeyCipherQuintuplets.marshal, tliv_eq, rd]
      have h := hU tail
      simp only [marshal, unmarshal, e0, R.ok_bind, if_true] at h
      exact bind_some (fun _ _ h => MmContext.MmContextGsmKeyCipherQuintuplets.inj h) h rfl
    exact V2.MmContextGsmKeyCipherQuintuplets.exact (by simpa using e [])

/-- One turn of the decoder's loop reads an MM context other than that of EPS back from its encoding, whatever follows, only when it
satisfies `IE.WF`. -/
theorem MmContext.WF_of_rt {m : Mode} {x : V2.MmContext} (hx : ¬ x.IsEps) (hl : (IE.MmContext x).marshal.length < 65536)
    (h : ∀ tail, decodeOne (decoder m) m ((IE.MmContext x).marshal ++ tail) = .ok (IE.MmContext x, (IE.MmContext x).marshal.length)) :
    (IE.MmContext x).WF := by
  generalize he : IE.MmContext x = e at hl h ⊢
  have hU : ∀ tail, unmKind (decoder m) m (e.marshal ++ tail) e.kind = .ok e := by
    intro tail
    obtain ⟨_, h1, _⟩ := decodeOne_inv (h tail)
    have hk := Post.elim (unmKind_kind (decoder m) m _ _) h1
    obtain ⟨r, hr, _⟩ := IE.marshal_cons e
    have h0 : (e.marshal ++ tail).getD 0 0 = e.wireType := by rw [hr]; rfl
    rw [h0] at hk h1
    rw [hk]
    exact h1
  have hlen : e.length.toNat + 4 = e.marshal.length := by
    have h1 := Post.elim (unmKind_length (decoder m) m _ _) (hU [])
    obtain ⟨l, i, body, hb⟩ := IE.marshal_tliv e
    rw [hb, tliv_length] at hl
    have h2 : declLen (e.marshal ++ []) = lenU16 body := by
      rw [hb, tliv_eq]
      simp only [declLen, be16, List.cons_append, List.append_assoc, List.getD_cons_succ, List.getD_cons_zero]
      exact of16_be _
    rw [h1, h2, hb, tliv_length, lenU16, UInt16.toNat_ofNat']
    omega
  have hf : e.Faithful := by
    subst he
    have hm : ∀ tail, V2.MmContext.unmarshal m (x.marshal ++ tail) = .ok x := fun tail => bind_some (fun _ _ h => IE.MmContext.inj h) (by
      have := hU tail
      rw [IE.marshal_eq] at this
      exact this) rfl
    exact MmContext.exact hx hm
  have := Post.elim (unmKind_stable (decoder m) m _ _) (hU []) hf e.length hlen (by omega)
  rwa [IE.setLength_self] at this


/-! ### The EPS security context

For this context `WF` is not necessary: the absent extended access restriction is not skipped, but when the two security capabilities
behind it are absent too, the octets that are read instead are zeros as well. -/

namespace MmContextEpsSecurityContextQuadruplets

/-- The conditions of `WF`, except that the extended access restriction and the two security capabilities behind it are absent. -/
def Bare (x : MmContextEpsSecurityContextQuadruplets) : Prop :=
  x.t = 107 ∧
  x.length.toNat = x.body.length ∧
  x.ins < 16 ∧
  x.ksi < 8 ∧
  (∀ s ∈ x.drx_params, s.length = 2) ∧
  LvOk x.ue_ntwk_cap ∧
  LvOk x.ms_ntwk_cap ∧
  LvOk x.mei ∧
  x.nas_dl_count.toNat < 16777216 ∧
  x.nas_ul_count.toNat < 16777216 ∧
  x.kasme.length = 32 ∧
  AuthOk AuthQuadruplet.WF x.auth_quadruplets ∧
  AuthOk AuthQuintuplet.WF x.auth_quintuplets ∧
  (∀ s ∈ x.next_hop, s.length = 32) ∧
  (∀ n ∈ x.ncc, n < 8) ∧
  x.ncc.isSome = x.next_hop.isSome ∧
  (∀ s ∈ x.old_eps_sec_ctx, s.WF) ∧
  LvOk0 x.vdn_pref_ue_usage ∧
  LvOk0 x.ue_radio_cap_for_paging ∧
  x.ext_access_res = none ∧
  x.ue_add_security_cap = none ∧
  x.ue_nr_security_cap = none ∧
  x.apn_rate_controls = none ∧
  x.core_nw_res = none ∧
  x.ue_radio_cap_id = none ∧
  x.ensct = some 0

instance (x : MmContextEpsSecurityContextQuadruplets) : Decidable x.Bare := by unfold Bare; infer_instance

theorem rt_bare : RoundTrips Bare marshal unmarshal := by
  intro m x tail h
  obtain ⟨t, length, ins, sec_mode, ksi, nas_integrity, nas_cipher, nas_dl_count, nas_ul_count, kasme, auth_quadruplets, auth_quintuplets, drx_params, next_hop, ncc, subscr_ue_ambr, used_ue_ambr, ue_ntwk_cap, ms_ntwk_cap, mei, access_res, old_eps_sec_ctx, vdn_pref_ue_usage, ue_radio_cap_for_paging, ext_access_res, ue_add_security_cap, ue_nr_security_cap, apn_rate_controls, core_nw_res, ue_radio_cap_id, ensct⟩ := x
  obtain ⟨ht, hl, hi, hk, hdrx, hun, hms, hme, hdl, hul, hka, haq, hau, hnh, hnc, hnn, hol, hvd, hpa, hex, had, hnr, hap, hco, hri, hen⟩ := h
  simp only at ht hl hi hk hdrx hun hms hme hdl hul hka haq hau hnh hnc hnn hol hvd hpa hex had hnr hap hco hri hen
  simp only [marshal]
  obtain ⟨b, hb, e1, e2, p4, hbl0⟩ := tliv_at (ty := 107) (ins := ins) tail hl
  simp only [body, List.append_assoc, List.cons_append, List.nil_append] at p4
  have p5 : At b 5 _ := p4.next
  have p6 : At b 6 _ := p5.next
  have p7 : At b 7 _ := p6.next
  subst hap hco hri hen hex had hnr
  simp only [apnRatesEnc, extAccEnc, List.cons_append, List.nil_append, List.append_assoc, Option.toList_some] at p4 p5 p6 p7
  rw [show lvOpt none = [0] from rfl] at p4 p5 p6 p7
  simp only [List.cons_append, List.nil_append] at p4 p5 p6 p7
  have r10 : At b 10 _ := p7.skip (by simp [be24])
  have r13 : At b 13 _ := r10.skip (by simp [be24])
  have q0 : At b 45 _ := r13.skip (by omega)
  have hbl := q0.length
  have w0 := lvOpt_length_pos ue_ntwk_cap
  have w1 := lvOpt_length_pos ms_ntwk_cap
  have w2 := lvOpt_length_pos mei
  have w3 := lvOpt_length_pos vdn_pref_ue_usage
  simp only [List.length_append, List.length_cons] at hbl
  have s13 := r13.sl (ε := Err) (n := 45) (by omega)
  obtain ⟨d1, d2, d3, d8⟩ := epsOct4_dec sec_mode next_hop.isSome drx_params.isSome hk
  obtain ⟨d4, d5, d6, d7⟩ := mmOct5q_dec (authN_le hau) (authN_le haq) used_ue_ambr.isSome old_eps_sec_ctx.isSome
  obtain ⟨d9, d10, d11⟩ := epsOct6_dec subscr_ue_ambr.isSome nas_integrity nas_cipher
  obtain ⟨c1, a1, q1⟩ := rdAuth_at (e := .ieIncorrect 107) AuthQuadruplet.ok q0 haq
  obtain ⟨c2, a2, q2⟩ := rdAuth_at (e := .ieIncorrect 107) AuthQuintuplet.ok q1 hau
  obtain ⟨c3, a3, q3⟩ := rdDrx_at q2 hdrx
  obtain ⟨c4, a4, q4⟩ := rdNextHop_at q3 hnh hnc hnn
  obtain ⟨c5, a5, q5⟩ := rdIf_at (st := rdAmbr 107 b) q4 (fun _ _ hat => rdAmbr_at hat)
  obtain ⟨c6, a6, q6⟩ := rdIf_at (st := rdAmbr 107 b) q5 (fun _ _ hat => rdAmbr_at hat)
  obtain ⟨c7, a7, q7⟩ := rdLv_at (skip := 1) (e := .ieInvalidLength 107) q6 hun
  obtain ⟨c8, a8, q8⟩ := rdLv_at (skip := 1) (e := .ieInvalidLength 107) q7 hms
  obtain ⟨c9, a9, q9⟩ := rdLv_at (skip := 1) (e := .ieInvalidLength 107) q8 hme
  obtain ⟨c10, a10, q10⟩ := rd8s_at q9
  obtain ⟨c11, a11, q11⟩ := rdIf_at (st := rdItem OldEpsSecurityContext.unm OldEpsSecurityContext.size (.ieIncorrect 107) b) q10 (fun x hx hat => rdItem_at OldEpsSecurityContext.ok hat (hol x hx))
  obtain ⟨c12, a12, q12⟩ := rdLv_at0 (e := .ieInvalidLength 107) q11 hvd
  obtain ⟨c13, a13, q13⟩ := rdLv_at0 (e := .ieInvalidLength 107) q12 hpa
  have a14 : rdExtAcc (.ieInvalidLength 107) b c13 = .ok (none, c13) := by simp [rdExtAcc, q13.rd]
  have a15 : rdLv 0 (.ieInvalidLength 107) b c13 = .ok (none, c13 + 1) := by simp [rdLv, q13.rd]
  have a16 : rdLv 0 (.ieInvalidLength 107) b (c13 + 1) = .ok (none, c13 + 1 + 1) := by simp [rdLv, q13.next.rd]
  have q16 : At b (c13 + 1 + 1) _ := q13.next.next
  have a17 := rdEpsTail_zero q16
  simp only [hb]
  cur_simp [unmarshal, e1, e2, p4.rd, p5.rd, p6.rd, p7.rd24 hdl, r10.rd24 hul, s13, d1, d2, d3, d4, d5, d6, d7, d8, d9, d10, d11, a1, a2, a3, a4, a5, a6, a7, a8, a9, a10, a11, a12, a13, a14, a15, a16, a17, AccessRestrictionMM.ofU8_toU8, ht, hi]


theorem survives_bare {m : Mode} {x : MmContextEpsSecurityContextQuadruplets} (h : x.Bare) (tail : Bytes) :
    decodeOne (decoder m) m ((IE.MmContext (.MmContextEpsSecurityContextQuadruplets x)).marshal ++ tail) =
      .ok (.MmContext (.MmContextEpsSecurityContextQuadruplets x), (IE.MmContext (.MmContextEpsSecurityContextQuadruplets x)).marshal.length) := by
  have e := rt_bare m x tail h
  have e0 : (rd (x.marshal ++ tail) 0 : R Err UInt8) = .ok 107 := by simp [marshal, tliv_eq, rd]
  have e1 : V2.MmContext.unmarshal m (x.marshal ++ tail) = .ok (.MmContextEpsSecurityContextQuadruplets x) := by
    simp [V2.MmContext.unmarshal, e0, e]
  have e2 : x.len m = .ok x.marshal.length := by simp [marshal, tliv_eq, len, ieLenU, h.2.1]
  rw [IE.marshal_eq]
  show decodeOne (decoder m) m (x.marshal ++ tail) = .ok (_, x.marshal.length)
  have e3 : kindOf 107 = .MmContext := by decide +kernel
  rw [decodeOne, e0, R.ok_bind, e3]
  show ((V2.MmContext.unmarshal m (x.marshal ++ tail) >>= fun x => pure (IE.MmContext x)) >>= _) = _
  rw [e1]
  simp only [R.ok_bind, R.pure_eq]
  show (x.len m >>= _) = _
  rw [e2]
  rfl

theorem not_WF_of_bare {x : MmContextEpsSecurityContextQuadruplets} (h : x.Bare) : ¬ x.WF := by
  intro hw
  have h1 := hw.2.2.2.2.2.2.2.2.2.2.2.2.2.2.2.2.2.2.2.1
  have h2 := h.2.2.2.2.2.2.2.2.2.2.2.2.2.2.2.2.2.2.2.1
  simp [h2] at h1

end MmContextEpsSecurityContextQuadruplets

end Gtp.V2
