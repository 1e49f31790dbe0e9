import Verif.V2.StableBase

/-!
# Decoded MM contexts

What the stages of the six decoders guarantee, the conditions under which a decoded MM context can be written and read again, and the
proof that they suffice.
-/

namespace Gtp.V2
set_option linter.unusedSimpArgs false

theorem Post_of {α β : Type} {x : R Err α} {f : α → R Err β} {Q : α → Prop} {P : β → Prop} (hx : x.Post Q)
    (h : ∀ a, Q a → (f a).Post P) : (x >>= f).Post P := (Post_bind ..).mpr (Post.mono hx h)

theorem rdLv_mm {skip : Nat} {e : Err} {b : Bytes} {c : Nat} : (rdLv skip e b c).Post fun p => LvOk0 p.1 := by
  unfold rdLv
  refine Post_bind_rd fun v hv => ?_
  refine Post_ite' (fun h => ?_) fun _ => .inl rfl
  refine Post_ite_any ?_ trivial
  exact Post_bind_sl fun s hs => .inr ⟨s, rfl, by omega, by omega⟩

theorem rdDrx_post {flag : Bool} {b : Bytes} {c : Nat} : (rdDrx flag b c).Post fun p => ∀ s ∈ p.1, s.length = 2 := by
  unfold rdDrx
  refine Post_ite_any (Post_bind_sl fun s hs => ?_) ?_
  · rintro t ⟨⟩
    omega
  · rintro t ⟨⟩

theorem rdLvC_mm {e : Err} {b : Bytes} {c : Nat} : (rdLvC e b c).Post fun p => p.1.length < 256 := by
  unfold rdLvC
  refine Post_bind_rd fun v hv => Post_ite_any (Post_bind_sl fun s hs => ?_) trivial
  show s.length < 256
  omega

theorem rdN_mm {k : Nat} {b : Bytes} {c : Nat} : (rdN k b c).Post fun p => p.1.length = k := by
  unfold rdN
  refine Post_bind_sl fun s hs => ?_
  show s.length = k
  omega

theorem AuthTriplet.post (b : Bytes) : (AuthTriplet.unm b).Post AuthTriplet.WF := by
  unfold AuthTriplet.unm
  exact Post_ite_any (Post_bind_sl fun _ h1 => Post_bind_sl fun _ h2 => Post_bind_sl fun _ h3 => ⟨h1, h2, h3⟩) trivial

theorem AuthQuintuplet.post (b : Bytes) : (AuthQuintuplet.unm b).Post AuthQuintuplet.WF := by
  unfold AuthQuintuplet.unm
  refine Post_ite_any (Post_bind_sl fun _ h1 => Post_of rdLvC_mm fun ⟨_, _⟩ h2 => ?_) trivial
  refine Post_ite_any ?_ trivial
  exact Post_of rdN_mm fun ⟨_, _⟩ h3 => Post_of rdN_mm fun ⟨_, _⟩ h4 => Post_of rdLvC_mm fun ⟨_, _⟩ h5 => ⟨h1, h2, h3, h4, h5⟩

theorem AuthQuadruplet.post (b : Bytes) : (AuthQuadruplet.unm b).Post AuthQuadruplet.WF := by
  unfold AuthQuadruplet.unm
  refine Post_ite_any (Post_bind_sl fun _ h1 => Post_of rdLvC_mm fun ⟨_, _⟩ h2 => Post_of rdLvC_mm fun ⟨_, _⟩ h3 => ?_) trivial
  refine Post_ite_any ?_ trivial
  exact Post_of rdN_mm fun ⟨_, _⟩ h4 => ⟨h1, h2, h3, h4⟩

theorem OldEpsSecurityContext.post (b : Bytes) : (OldEpsSecurityContext.unm b).Post OldEpsSecurityContext.WF := by
  have key : ∀ f : UInt8, (f &&& 0x38) >>> 3 < 8 := by decide +kernel
  unfold OldEpsSecurityContext.unm
  refine Post_bind_any fun f => Post_ite_any ?_ (Post_ite_any ?_ trivial)
  · refine Post_ite_any (Post_bind_sl fun s h1 => ?_) trivial
    exact ⟨key f, (fun _ h => nomatch h), h1, (fun _ h => nomatch h), rfl⟩
  · refine Post_ite_any (Post_bind_sl fun s h1 => Post_bind_sl fun s2 h2 => ?_) trivial
    refine ⟨key f, ?_, h1, ?_, rfl⟩
    · rintro n ⟨⟩
      exact and7 f
    · rintro k ⟨⟩
      exact h2

theorem rdItem_post {α : Type} {unm : Bytes → R Err α} {len : α → Nat} {e : Err} {b : Bytes} {c : Nat} {W : α → Prop}
    (hu : ∀ s, (unm s).Post W) : (rdItem unm len e b c).Post fun p => W p.1 := by
  unfold rdItem
  exact Post_bind_any fun s => Post_of (Post_mapErr (hu s)) fun v hv => hv

theorem rdItems_post {α : Type} {unm : Bytes → R Err α} {len : α → Nat} {e : Err} {b : Bytes} {W : α → Prop}
    (hu : ∀ s, (unm s).Post W) : ∀ n c, (rdItems unm len e b n c).Post fun p => p.1.length = n ∧ ∀ x ∈ p.1, W x
  | 0, c => ⟨rfl, by simp⟩
  | n + 1, c => by
    unfold rdItems
    refine Post_of (rdItem_post hu) fun ⟨v, c⟩ hv => ?_
    refine Post_of (rdItems_post hu n c) fun ⟨vs, c⟩ hvs => ?_
    refine ⟨by simpa using hvs.1, fun x hx => ?_⟩
    rcases List.mem_cons.mp hx with rfl | hx
    · exact hv
    · exact hvs.2 x hx

theorem rdAuth_post {α : Type} {unm : Bytes → R Err α} {len : α → Nat} {e : Err} {b : Bytes} {n : UInt8} {c : Nat} {W : α → Prop}
    (hu : ∀ s, (unm s).Post W) : (rdAuth unm len e b n c).Post fun p => AuthOk W p.1 := by
  unfold rdAuth
  refine Post_ite' (fun _ => fun l hl => nomatch hl) fun h0 => Post_ite' (fun h5 => ?_) (fun _ => trivial)
  refine Post_of (rdItems_post hu n.toNat c) fun ⟨vs, c⟩ hvs => ?_
  rintro l ⟨⟩
  have h5 : n.toNat ≤ 5 := UInt8.le_iff_toNat_le.mp h5
  have h0 : n.toNat ≠ 0 := fun h => h0 (UInt8.toNat_inj.mp h)
  have h1 : vs.length = n.toNat := hvs.1
  exact ⟨by omega, by omega, hvs.2⟩

theorem rdTriplets_post {b : Bytes} {n : UInt8} {c : Nat} : (rdTriplets b n c).Post fun p => AuthOk AuthTriplet.WF p.1 := by
  unfold rdTriplets
  exact Post_ite_any trivial (rdAuth_post AuthTriplet.post)

theorem rdNextHop_post {flag : Bool} {b : Bytes} {c : Nat} :
    (rdNextHop flag b c).Post fun p => (∀ s ∈ p.1.1, s.length = 32) ∧ p.1.2.isSome = p.1.1.isSome := by
  unfold rdNextHop
  refine Post_ite_any (Post_bind_sl fun s hs => Post_bind_any fun n => ⟨?_, rfl⟩) ⟨(fun _ h => nomatch h), rfl⟩
  rintro t ⟨⟩
  omega

theorem rdIf_mm {α : Type} {flag : Bool} {st : Nat → R Err (α × Nat)} {c : Nat} {W : α → Prop} (h : ∀ c, (st c).Post fun p => W p.1) :
    (rdIf flag st c).Post fun p => ∀ x ∈ p.1, W x := by
  unfold rdIf
  refine Post_ite_any (Post_of (h c) fun ⟨v, c⟩ hv => ?_) (fun _ h => nomatch h)
  rintro t ⟨⟩
  exact hv

theorem LvOk0.ok {v : Option Bytes} (h : LvOk0 v) (hv : v ≠ none) : LvOk v := h.resolve_left hv

/-- What an MM context must satisfy, beyond having been decoded, so that its encoding is decoded to it: an absent capability or
equipment identity is written in one octet and read as two; `higher_than_16_mbps` is read from the octet behind its length octet,
which is that of the next field or IE if it is false; an absent integrity counter or access restriction or rate control status is
not skipped; and the NCC is written with three bits and read with eight. -/
def MmContext.Faithful : MmContext → Prop
  | .MmContextEpsSecurityContextQuadruplets x => x.ue_ntwk_cap ≠ none ∧ x.ms_ntwk_cap ≠ none ∧ x.mei ≠ none ∧ (∀ n ∈ x.ncc, n < 8) ∧
      x.ext_access_res.isSome ∧ x.apn_rate_controls = none ∧ x.core_nw_res = none ∧ x.ue_radio_cap_id = none ∧ x.ensct = some 0
  | .MmContextUmtsKeyQuintuplets x => x.ue_ntwk_cap ≠ none ∧ x.ms_ntwk_cap ≠ none ∧ x.mei ≠ none ∧ x.vdn_pref_ue_usage ≠ none ∧
      x.iov_updates_counter.isSome ∧ (x.higher_than_16_mbps = true ∨ x.iov_updates_counter ≠ some 1)
  | .MmContextUmtsKeyQuadrupletsQuintuplets x => x.ue_ntwk_cap ≠ none ∧ x.ms_ntwk_cap ≠ none ∧ x.mei ≠ none ∧ x.apn_rate_controls = none
  | .MmContextUmtsKeyCipherQuintuplets x => x.ue_ntwk_cap ≠ none ∧ x.ms_ntwk_cap ≠ none ∧ x.mei ≠ none ∧ x.vdn_pref_ue_usage ≠ none ∧
      x.iov_updates_counter.isSome ∧ (x.higher_than_16_mbps = true ∨ x.iov_updates_counter ≠ some 1)
  | .MmContextGsmKeyTriplets x => x.ue_ntwk_cap ≠ none ∧ x.ms_ntwk_cap ≠ none ∧ x.mei ≠ none
  | .MmContextGsmKeyCipherQuintuplets x => x.ue_ntwk_cap ≠ none ∧ x.ms_ntwk_cap ≠ none ∧ x.mei ≠ none ∧ x.higher_than_16_mbps = true

instance (x : MmContext) : Decidable x.Faithful := by cases x <;> unfold MmContext.Faithful <;> infer_instance

theorem MmContextGsmKeyTriplets.stable (m : Mode) (b : Bytes) : (MmContextGsmKeyTriplets.unmarshal m b).Post fun x =>
    (MmContext.MmContextGsmKeyTriplets x).Faithful → ∀ n : UInt16, n.toNat + 4 = x.marshal.length → n.toNat < 65532 →
    ({ x with length := n } : MmContextGsmKeyTriplets).WF := by
  unfold MmContextGsmKeyTriplets.unmarshal
  refine Post_ite_any ?_ trivial
  refine Post_bind_any fun _ => Post_bind_any fun _ => Post_bind_any fun f4 => Post_bind_any fun _ => Post_bind_any fun _ => Post_bind_any fun _ => ?_
  refine Post_of rdTriplets_post fun ⟨_, _⟩ h1 => Post_of rdDrx_post fun ⟨_, _⟩ h2 => Post_bind_any fun ⟨_, _⟩ => Post_bind_any fun ⟨_, _⟩ => ?_
  refine Post_of rdLv_mm fun ⟨_, _⟩ h3 => Post_of rdLv_mm fun ⟨_, _⟩ h4 => Post_of rdLv_mm fun ⟨_, _⟩ h5 => Post_bind_any fun ⟨_, _⟩ => ?_
  refine Post_of rdLv_mm fun ⟨_, _⟩ h6 => ?_
  rintro ⟨k1, k2, k3⟩ n hn hN
  rw [MmContextGsmKeyTriplets.marshal, tliv_length] at hn
  exact ⟨rfl, Nat.add_right_cancel hn, and15 _, and7 _, h2, h3.ok k1, h4.ok k2, h5.ok k3, h1, h6⟩

theorem MmContextGsmKeyCipherQuintuplets.stable (m : Mode) (b : Bytes) : (MmContextGsmKeyCipherQuintuplets.unmarshal m b).Post fun x =>
    (MmContext.MmContextGsmKeyCipherQuintuplets x).Faithful → ∀ n : UInt16, n.toNat + 4 = x.marshal.length → n.toNat < 65532 →
    ({ x with length := n } : MmContextGsmKeyCipherQuintuplets).WF := by
  unfold MmContextGsmKeyCipherQuintuplets.unmarshal
  refine Post_ite_any ?_ trivial
  refine Post_bind_any fun _ => Post_bind_any fun _ => Post_bind_any fun f4 => Post_bind_any fun _ => Post_bind_any fun _ => Post_bind_any fun _ => ?_
  refine Post_of (rdAuth_post AuthQuintuplet.post) fun ⟨_, _⟩ h1 => Post_of rdDrx_post fun ⟨_, _⟩ h2 => Post_bind_any fun ⟨_, _⟩ => Post_bind_any fun ⟨_, _⟩ => ?_
  refine Post_of rdLv_mm fun ⟨_, _⟩ h3 => Post_of rdLv_mm fun ⟨_, _⟩ h4 => Post_of rdLv_mm fun ⟨_, _⟩ h5 => Post_bind_any fun ⟨_, _⟩ => ?_
  refine Post_of rdLv_mm fun ⟨_, _⟩ h6 => Post_bind_any fun ⟨_, _⟩ => ?_
  rintro ⟨k1, k2, k3, k4⟩ n hn hN
  rw [MmContextGsmKeyCipherQuintuplets.marshal, tliv_length] at hn
  exact ⟨rfl, Nat.add_right_cancel hn, and15 _, and7 _, h2, h3.ok k1, h4.ok k2, h5.ok k3, h1, h6, k4⟩

theorem MmContextUmtsKeyCipherQuintuplets.stable (m : Mode) (b : Bytes) : (MmContextUmtsKeyCipherQuintuplets.unmarshal m b).Post fun x =>
    (MmContext.MmContextUmtsKeyCipherQuintuplets x).Faithful → ∀ n : UInt16, n.toNat + 4 = x.marshal.length → n.toNat < 65532 →
    ({ x with length := n } : MmContextUmtsKeyCipherQuintuplets).WF := by
  unfold MmContextUmtsKeyCipherQuintuplets.unmarshal
  refine Post_ite_any ?_ trivial
  refine Post_bind_any fun _ => Post_bind_any fun _ => Post_bind_any fun f4 => Post_bind_any fun _ => Post_bind_any fun _ => ?_
  refine Post_bind_sl fun _ s1 => Post_bind_sl fun _ s2 => ?_
  refine Post_of (rdAuth_post AuthQuintuplet.post) fun ⟨_, _⟩ h1 => Post_of rdDrx_post fun ⟨_, _⟩ h2 => Post_bind_any fun ⟨_, _⟩ => Post_bind_any fun ⟨_, _⟩ => ?_
  refine Post_of rdLv_mm fun ⟨_, _⟩ h3 => Post_of rdLv_mm fun ⟨_, _⟩ h4 => Post_of rdLv_mm fun ⟨_, _⟩ h5 => Post_bind_any fun ⟨_, _⟩ => ?_
  refine Post_of rdLv_mm fun ⟨_, _⟩ h6 => Post_bind_any fun ⟨_, _⟩ => Post_bind_any fun ⟨_, _⟩ => ?_
  rintro ⟨k1, k2, k3, k4, k5, k6⟩ n hn hN
  rw [MmContextUmtsKeyCipherQuintuplets.marshal, tliv_length] at hn
  exact ⟨rfl, Nat.add_right_cancel hn, and15 _, and7 _, h2, h3.ok k1, h4.ok k2, h5.ok k3, s1, s2, h1, h6.ok k4, k5, k6⟩

theorem MmContextUmtsKeyQuintuplets.stable (m : Mode) (b : Bytes) : (MmContextUmtsKeyQuintuplets.unmarshal m b).Post fun x =>
    (MmContext.MmContextUmtsKeyQuintuplets x).Faithful → ∀ n : UInt16, n.toNat + 4 = x.marshal.length → n.toNat < 65532 →
    ({ x with length := n } : MmContextUmtsKeyQuintuplets).WF := by
  unfold MmContextUmtsKeyQuintuplets.unmarshal
  refine Post_ite_any ?_ trivial
  refine Post_bind_any fun _ => Post_bind_any fun _ => Post_bind_any fun f4 => Post_bind_any fun _ => Post_bind_any fun _ => ?_
  refine Post_bind_sl fun _ s1 => Post_bind_sl fun _ s2 => ?_
  refine Post_of (rdAuth_post AuthQuintuplet.post) fun ⟨_, _⟩ h1 => Post_of rdDrx_post fun ⟨_, _⟩ h2 => Post_bind_any fun ⟨_, _⟩ => Post_bind_any fun ⟨_, _⟩ => ?_
  refine Post_of rdLv_mm fun ⟨_, _⟩ h3 => Post_of rdLv_mm fun ⟨_, _⟩ h4 => Post_of rdLv_mm fun ⟨_, _⟩ h5 => Post_bind_any fun ⟨_, _⟩ => ?_
  refine Post_of rdLv_mm fun ⟨_, _⟩ h6 => Post_bind_any fun ⟨_, _⟩ => Post_bind_any fun ⟨_, _⟩ => Post_bind_any fun ⟨_, _⟩ => ?_
  rintro ⟨k1, k2, k3, k4, k5, k6⟩ n hn hN
  rw [MmContextUmtsKeyQuintuplets.marshal, tliv_length] at hn
  exact ⟨rfl, Nat.add_right_cancel hn, and15 _, and7 _, h2, h3.ok k1, h4.ok k2, h5.ok k3, s1, s2, h1, h6.ok k4, k5, k6⟩

theorem MmContextUmtsKeyQuadrupletsQuintuplets.stable (m : Mode) (b : Bytes) : (MmContextUmtsKeyQuadrupletsQuintuplets.unmarshal m b).Post fun x =>
    (MmContext.MmContextUmtsKeyQuadrupletsQuintuplets x).Faithful → ∀ n : UInt16, n.toNat + 4 = x.marshal.length → n.toNat < 65532 →
    ({ x with length := n } : MmContextUmtsKeyQuadrupletsQuintuplets).WF := by
  unfold MmContextUmtsKeyQuadrupletsQuintuplets.unmarshal
  refine Post_ite_any ?_ trivial
  refine Post_bind_any fun _ => Post_bind_any fun _ => Post_bind_any fun f4 => Post_bind_any fun _ => ?_
  refine Post_bind_sl fun _ s1 => Post_bind_sl fun _ s2 => Post_of (rdAuth_post AuthQuadruplet.post) fun ⟨_, _⟩ h0 => ?_
  refine Post_of (rdAuth_post AuthQuintuplet.post) fun ⟨_, _⟩ h1 => Post_of rdDrx_post fun ⟨_, _⟩ h2 => Post_bind_any fun ⟨_, _⟩ => Post_bind_any fun ⟨_, _⟩ => ?_
  refine Post_of rdLv_mm fun ⟨_, _⟩ h3 => Post_of rdLv_mm fun ⟨_, _⟩ h4 => Post_of rdLv_mm fun ⟨_, _⟩ h5 => Post_bind_any fun ⟨_, _⟩ => ?_
  refine Post_of rdLv_mm fun ⟨_, _⟩ h6 => Post_bind_any fun ⟨_, _⟩ => ?_
  rintro ⟨k1, k2, k3, k4⟩ n hn hN
  rw [MmContextUmtsKeyQuadrupletsQuintuplets.marshal, tliv_length] at hn
  exact ⟨rfl, Nat.add_right_cancel hn, and15 _, and7 _, h2, h3.ok k1, h4.ok k2, h5.ok k3, s1, s2, h0, h1, h6, k4⟩

theorem MmContextEpsSecurityContextQuadruplets.stable (m : Mode) (b : Bytes) : (MmContextEpsSecurityContextQuadruplets.unmarshal m b).Post fun x =>
    (MmContext.MmContextEpsSecurityContextQuadruplets x).Faithful → ∀ n : UInt16, n.toNat + 4 = x.marshal.length → n.toNat < 65532 →
    ({ x with length := n } : MmContextEpsSecurityContextQuadruplets).WF := by
  unfold MmContextEpsSecurityContextQuadruplets.unmarshal
  refine Post_ite_any ?_ trivial
  refine Post_bind_any fun _ => Post_bind_any fun _ => Post_bind_any fun f4 => Post_bind_any fun _ => Post_bind_any fun _ => ?_
  refine Post_bind_rd24 fun _ n1 => Post_bind_rd24 fun _ n2 => Post_bind_sl fun _ s1 => Post_of (rdAuth_post AuthQuadruplet.post) fun ⟨_, _⟩ h0 => ?_
  refine Post_of (rdAuth_post AuthQuintuplet.post) fun ⟨_, _⟩ h1 => Post_of rdDrx_post fun ⟨_, _⟩ h2 => ?_
  refine Post_of rdNextHop_post fun ⟨⟨_, _⟩, _⟩ hn => Post_bind_any fun ⟨_, _⟩ => Post_bind_any fun ⟨_, _⟩ => ?_
  refine Post_of rdLv_mm fun ⟨_, _⟩ h3 => Post_of rdLv_mm fun ⟨_, _⟩ h4 => Post_of rdLv_mm fun ⟨_, _⟩ h5 => Post_bind_any fun ⟨_, _⟩ => ?_
  refine Post_of (rdIf_mm fun _ => rdItem_post OldEpsSecurityContext.post) fun ⟨_, _⟩ ho => ?_
  refine Post_of rdLv_mm fun ⟨_, _⟩ h6 => Post_of rdLv_mm fun ⟨_, _⟩ h7 => Post_bind_any fun ⟨_, _⟩ => ?_
  refine Post_of rdLv_mm fun ⟨_, _⟩ h8 => Post_of rdLv_mm fun ⟨_, _⟩ h9 => Post_bind_any fun ⟨_, _, _, _⟩ => ?_
  rintro ⟨k1, k2, k3, k4, k5, k6, k7, k8, k9⟩ n hl hN
  rw [MmContextEpsSecurityContextQuadruplets.marshal, tliv_length] at hl
  exact ⟨rfl, Nat.add_right_cancel hl, and15 _, and7 _, h2, h3.ok k1, h4.ok k2, h5.ok k3, n1, n2, s1, h0, h1, hn.1, k4, hn.2, ho, h6, h7, k5, h8, h9,
    k6, k7, k8, k9⟩

theorem MmContext.stable (m : Mode) (b : Bytes) : (MmContext.unmarshal m b).Post fun x =>
    x.Faithful → ∀ n : UInt16, n.toNat + 4 = x.marshal.length → n.toNat < 65532 → (x.setLength n).WF := by
  unfold MmContext.unmarshal
  refine Post_bind_any fun t => ?_
  refine Post_ite_any (Post_of (V2.MmContextEpsSecurityContextQuadruplets.stable m b) fun _ h => h) ?_
  refine Post_ite_any (Post_of (V2.MmContextUmtsKeyQuintuplets.stable m b) fun _ h => h) ?_
  refine Post_ite_any (Post_of (V2.MmContextUmtsKeyQuadrupletsQuintuplets.stable m b) fun _ h => h) ?_
  refine Post_ite_any (Post_of (V2.MmContextUmtsKeyCipherQuintuplets.stable m b) fun _ h => h) ?_
  refine Post_ite_any (Post_of (V2.MmContextGsmKeyTriplets.stable m b) fun _ h => h) ?_
  refine Post_ite_any (Post_of (V2.MmContextGsmKeyCipherQuintuplets.stable m b) fun _ h => h) trivial

end Gtp.V2
