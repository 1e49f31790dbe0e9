import Verif.V2.StableMm

/-!
# Decoded IEs

Expanded by `scripts/gen_stable.py`. For every kind of IE: once its length field is set to the length it is encoded with, a decoded
value satisfies `WF`, that is, it is a value which the encoding represents. For some kinds this takes a condition, which is stated in
front of the conclusion and collected in `IE.Faithful`.
-/

namespace Gtp.V2
set_option linter.unusedSimpArgs false

theorem rdLv_post (skip : Nat) (e : Err) (b : Bytes) (c : Nat) : (rdLv skip e b c).Post fun p => LvOk0 p.1 := by
  unfold rdLv
  refine Post_bind_rd fun v hv => Post_ite' (fun h => ?_) fun _ => .inl rfl
  refine Post_ite_any ?_ trivial
  exact Post_bind_sl fun s hs => .inr ⟨s, rfl, by omega, by omega⟩

theorem rdLvU_post (b : Bytes) (c : Nat) : (rdLvU b c).Post fun p => p.1.length < 256 := by
  unfold rdLvU
  refine Post_bind_rd fun v hv => ?_
  exact Post_bind_sl fun s hs => (by omega : s.length < 256)

theorem rdLvC_post (e : Err) (b : Bytes) (c : Nat) : (rdLvC e b c).Post fun p => p.1.length < 256 := by
  unfold rdLvC
  stable_steps
  all_goals (simp only; omega)

theorem rdN_post (k : Nat) (b : Bytes) (c : Nat) : (rdN k b c).Post fun p => p.1.length = k := by
  unfold rdN
  exact Post_bind_sl fun s hs => (by omega : s.length = k)

theorem rdIf_post {α : Type} {P : α → Prop} {flag : Bool} {st : Nat → R Err (α × Nat)} {c : Nat}
    (h : ∀ c, (st c).Post fun p => P p.1) : (rdIf flag st c).Post fun p => ∀ x ∈ p.1, P x := by
  unfold rdIf
  refine Post_ite' (fun _ => (Post_bind ..).mpr (Post.mono (h c) fun p hp => ?_)) fun _ => ?_
  · intro x hx
    cases hx
    exact hp
  · intro x hx
    cases hx

theorem rdLe_post {α : Type} {P : α → Prop} {e : Err} {b : Bytes} {st : Nat → R Err α} {c : Nat} (h : (st c).Post P) : (rdLe e b st c).Post P :=
  Post_ite' (fun _ => h) fun _ => trivial

theorem rdPlmnS_post (b : Bytes) (c : Nat) : (rdPlmnS b c).Post fun p => PlmnOk p.1.1 p.1.2.1 p.1.2.2 := by
  unfold rdPlmnS
  exact Post_bind_any fun _ => Post_bind_mcc fun _ _ _ h1 h2 h3 => ⟨h1, h2, h3⟩

theorem rdName_post (b : Bytes) (c : Nat) : (TwanId.rdName b c).Post fun p => (utf8 p.1).length < 256 := by
  unfold TwanId.rdName
  refine (Post_bind ..).mpr (Post.mono (rdLvU_post ..) fun p hp => ?_)
  exact Post_bind_utf8 fun t ht => (by omega : (utf8 t).length < 256)

theorem rdRelay_post (flag : Bool) (b : Bytes) (c : Nat) : (TwanId.rdRelay flag b c).Post fun p =>
    (∀ q ∈ p.1, q.2.length < 256) ∧ (∀ s ∈ p.2, s.length < 256) ∧ p.2.isSome = p.1.isSome := by
  unfold TwanId.rdRelay
  refine Post_ite' (fun _ => Post_ite_any ?_ trivial) fun _ => ⟨by simp, by simp, rfl⟩
  refine Post_bind_any fun r => (Post_bind ..).mpr (Post.mono (rdLvC_post ..) fun p hp => ?_)
  refine (Post_bind ..).mpr (Post.mono (rdLe_post (rdLvC_post ..)) fun q hq => ?_)
  exact ⟨by simpa using hp, by simpa using hq, rfl⟩

theorem cap_le : ∀ v : UInt8, (if v ≤ 100 then v else 0) ≤ 100 := by decide +kernel

theorem ofOctets_val (a b c d : UInt8) : (PresenceReportingArea.ofOctets a b c d).val.toNat < 16777216 := by
  unfold PresenceReportingArea.ofOctets
  split
  · exact of32_lt ..
  · split <;> exact of32_lt ..

theorem more_val : ∀ (r : Bytes) (p : PresenceReportingArea), p ∈ PresenceReportingArea.more r → p.val.toNat < 16777216
  | a :: b :: c :: d :: r, p, h => by
    rw [PresenceReportingArea.more] at h
    rcases List.mem_cons.mp h with rfl | h
    · exact ofOctets_val ..
    · split at h
      · cases h
      · exact more_val r p h
  | [], _, h => by cases h
  | [_], _, h => by cases h
  | [_, _], _, h => by cases h
  | [_, _, _], _, h => by cases h

theorem MacroEnbIdentifier.stable (b : Bytes) : (MacroEnbIdentifier.unmarshal b).Post MacroEnbIdentifier.WF := by
  unfold MacroEnbIdentifier.unmarshal
  refine Post_ite_any (Post_bind_any fun s => ?_) trivial
  refine (Post_bind ..).mpr (Post_mapErr (Post.mono (MacroEnbId.stable s) fun i hi => ?_))
  exact Post_bind_any fun t => hi

theorem ExtendedMacroEnbIdentifier.stable (b : Bytes) : (ExtendedMacroEnbIdentifier.unmarshal b).Post ExtendedMacroEnbIdentifier.WF := by
  unfold ExtendedMacroEnbIdentifier.unmarshal
  refine Post_ite_any (Post_bind_any fun s => ?_) trivial
  refine (Post_bind ..).mpr (Post_mapErr (Post.mono (ExtMacroEnbId.stable s) fun i hi => ?_))
  exact Post_bind_any fun t => hi

theorem MacronGeNbIdentifier.stable (b : Bytes) : (MacronGeNbIdentifier.unmarshal b).Post MacronGeNbIdentifier.WF := by
  unfold MacronGeNbIdentifier.unmarshal
  refine Post_ite_any (Post_bind_any fun s => ?_) trivial
  refine (Post_bind ..).mpr (Post_mapErr (Post.mono (MacroEnbId.stable s) fun i hi => ?_))
  exact Post_bind_sl fun t ht => ⟨hi, ht⟩

theorem ExtendedGeNbIdentifier.stable (b : Bytes) : (ExtendedGeNbIdentifier.unmarshal b).Post ExtendedGeNbIdentifier.WF := by
  unfold ExtendedGeNbIdentifier.unmarshal
  refine Post_ite_any (Post_bind_any fun s => ?_) trivial
  refine (Post_bind ..).mpr (Post_mapErr (Post.mono (ExtMacroEnbId.stable s) fun i hi => ?_))
  exact Post_bind_sl fun t ht => ⟨hi, ht⟩

theorem CellIdentifier.stable (b : Bytes) : (CellIdentifier.unmarshal b).Post CellIdentifier.WF := by
  unfold CellIdentifier.unmarshal
  refine Post_ite_any (Post_bind_any fun s => Post_bind_mcc fun _ _ _ h1 h2 h3 => ?_) trivial
  exact Post_bind_any fun _ => Post_bind_any fun _ => Post_bind_any fun _ => ⟨h1, h2, h3⟩

theorem GNbIdentifier.stable (b : Bytes) : (GNbIdentifier.unmarshal b).Post GNbIdentifier.WF := by
  unfold GNbIdentifier.unmarshal
  refine Post_ite_any (Post_bind_any fun s => Post_bind_mcc fun _ _ _ h1 h2 h3 => ?_) trivial
  exact Post_bind_any fun _ => Post_bind_any fun _ => Post_bind_sl fun _ h => ⟨⟨h1, h2, h3⟩, h⟩

theorem RncIdentifier.stable (b : Bytes) : (RncIdentifier.unmarshal b).Post fun x => x.rai.WF := by
  unfold RncIdentifier.unmarshal
  refine Post_ite' (fun _ => Post_bind_any fun s => ?_) fun _ => Post_ite_any (Post_bind_any fun s => ?_) trivial
  · refine (Post_bind ..).mpr (Post_mapErr (Post.mono (Rai.stable s) fun i hi => ?_))
    exact Post_bind_any fun _ => hi
  · refine (Post_bind ..).mpr (Post_mapErr (Post.mono (Rai.stable s) fun i hi => ?_))
    exact Post_bind_any fun _ => Post_bind_any fun _ => hi

theorem SourceRncIdentifier.stable (b : Bytes) : (SourceRncIdentifier.unmarshal b).Post fun x => PlmnOk x.mcc x.mnc x.mnc_is_three_digits := by
  unfold SourceRncIdentifier.unmarshal
  refine Post_ite' (fun _ => Post_bind_any fun s => ?_) fun _ => Post_ite_any (Post_bind_any fun s => ?_) trivial
  · exact Post_bind_mcc fun _ _ _ h1 h2 h3 => Post_bind_any fun _ => ⟨h1, h2, h3⟩
  · exact Post_bind_mcc fun _ _ _ h1 h2 h3 => Post_bind_any fun _ => Post_bind_any fun _ => ⟨h1, h2, h3⟩

/-- Targets that are written so that they can be read: not `Spare`, an EN-gNB (its `len` is one too large), or an RNC without extension. -/
def TargetType.Faithful : TargetType → Prop
  | .RncId i => i.ext_rnc_id.isSome = true
  | .MacroeNbId _ | .CellId _ | .HomeeNbId _ | .ExtendedMacroeNbId _ | .GNbId _ | .MacrongeNbId _ | .ExtendedngeNbId _ => True
  | _ => False

instance (x : TargetType) : Decidable x.Faithful := by cases x <;> unfold TargetType.Faithful <;> infer_instance

/-- Sources that are written so that they can be read: not `Spare`, and not an RNC without extension. -/
def SourceType.Faithful : SourceType → Prop
  | .SourceRncId i => i.ext_rnc_id.isSome = true
  | .SourceCellId _ => True
  | .Spare => False

instance (x : SourceType) : Decidable x.Faithful := by cases x <;> unfold SourceType.Faithful <;> infer_instance

theorem TargetType.stable (b : Bytes) : (TargetType.unmarshal b).Post fun x => x.Faithful → x.Ok 2 := by
  unfold TargetType.unmarshal
  refine Post_bind_any fun v => ?_
  refine Post_ite' (fun _ => Post_bind_any fun s => ?_) fun _ => ?_
  · exact (Post_bind ..).mpr (Post_mapErr (Post.mono (RncIdentifier.stable s) fun i hi h => ⟨hi, .inl h⟩))
  refine Post_ite' (fun _ => Post_bind_any fun s => ?_) fun _ => ?_
  · exact (Post_bind ..).mpr (Post_mapErr (Post.mono (MacroEnbIdentifier.stable s) fun i hi h => hi))
  refine Post_ite' (fun _ => Post_bind_any fun s => ?_) fun _ => ?_
  · exact (Post_bind ..).mpr (Post_mapErr (Post.mono (CellIdentifier.stable s) fun i hi h => hi))
  refine Post_ite' (fun _ => Post_bind_any fun s => ?_) fun _ => ?_
  · exact (Post_bind ..).mpr (Post_mapErr (Post.mono (MacroEnbIdentifier.stable s) fun i hi h => hi))
  refine Post_ite' (fun _ => Post_bind_any fun s => ?_) fun _ => ?_
  · exact (Post_bind ..).mpr (Post_mapErr (Post.mono (ExtendedMacroEnbIdentifier.stable s) fun i hi h => hi))
  refine Post_ite' (fun _ => Post_bind_any fun s => ?_) fun _ => ?_
  · exact (Post_bind ..).mpr (Post_mapErr (Post.mono (GNbIdentifier.stable s) fun i hi h => hi))
  refine Post_ite' (fun _ => Post_bind_any fun s => ?_) fun _ => ?_
  · exact (Post_bind ..).mpr (Post_mapErr (Post.mono (MacronGeNbIdentifier.stable s) fun i hi h => hi))
  refine Post_ite' (fun _ => Post_bind_any fun s => ?_) fun _ => ?_
  · exact (Post_bind ..).mpr (Post_mapErr (Post.mono (ExtendedGeNbIdentifier.stable s) fun i hi h => hi))
  refine Post_ite' (fun _ => Post_bind_any fun s => ?_) fun _ h => h
  exact (Post_bind ..).mpr (Post.trivial _ fun i h => h)

theorem SourceType.stable (b : Bytes) : (SourceType.unmarshal b).Post fun x => x.Faithful → x.Ok 1 := by
  unfold SourceType.unmarshal
  refine Post_bind_any fun v => ?_
  refine Post_ite' (fun _ => Post_bind_any fun s => ?_) fun _ => ?_
  · exact (Post_bind ..).mpr (Post_mapErr (Post.mono (CellIdentifier.stable s) fun i hi h => hi))
  refine Post_ite' (fun _ => Post_bind_any fun s => ?_) fun _ h => h
  exact (Post_bind ..).mpr (Post_mapErr (Post.mono (SourceRncIdentifier.stable s) fun i hi h => ⟨hi, .inl h⟩))

theorem Imsi.stable (m : Mode) (b : Bytes) : (Imsi.unmarshal m b).Post fun x => (x.imsi ≠ []) → ∀ n : UInt16, n.toNat + 4 = x.marshal.length → n.toNat < 65532 →
    ({ x with length := n } : Imsi).WF := by
  unfold Imsi.unmarshal
  try simp only []
  stable_steps
  all_goals (simp only [Imsi.WF, Imsi.marshal])
  all_goals intro h0
  all_goals stable_fin []

theorem Cause.stable (m : Mode) (b : Bytes) : (Cause.unmarshal m b).Post fun x => ∀ n : UInt16, n.toNat + 4 = x.marshal.length → n.toNat < 65532 →
    ({ x with length := n } : Cause).WF := by
  unfold Cause.unmarshal
  try simp only []
  stable_steps
  all_goals (simp only [Cause.WF, Cause.marshal])
  all_goals skip
  all_goals stable_fin []

theorem Recovery.stable (m : Mode) (b : Bytes) : (Recovery.unmarshal m b).Post fun x => ∀ n : UInt16, n.toNat + 4 = x.marshal.length → n.toNat < 65532 →
    ({ x with length := n } : Recovery).WF := by
  unfold Recovery.unmarshal
  try simp only []
  stable_steps
  all_goals (simp only [Recovery.WF, Recovery.marshal])
  all_goals skip
  all_goals stable_fin []

theorem StnSr.stable (m : Mode) (b : Bytes) : (StnSr.unmarshal m b).Post fun x => ∀ n : UInt16, n.toNat + 4 = x.marshal.length → n.toNat < 65532 →
    ({ x with length := n } : StnSr).WF := by
  unfold StnSr.unmarshal
  try simp only []
  stable_steps
  all_goals (simp only [StnSr.WF, StnSr.marshal])
  all_goals skip
  all_goals stable_fin []

theorem SrvccCause.stable (m : Mode) (b : Bytes) : (SrvccCause.unmarshal m b).Post fun x => ∀ n : UInt16, n.toNat + 4 = x.marshal.length → n.toNat < 65532 →
    ({ x with length := n } : SrvccCause).WF := by
  unfold SrvccCause.unmarshal
  try simp only []
  stable_steps
  all_goals (simp only [SrvccCause.WF, SrvccCause.marshal])
  all_goals skip
  all_goals stable_fin []

theorem Apn.stable (m : Mode) (b : Bytes) : (Apn.unmarshal m b).Post fun x => (NameOk x.name) → ∀ n : UInt16, n.toNat + 4 = x.marshal.length → n.toNat < 65532 →
    ({ x with length := n } : Apn).WF := by
  unfold Apn.unmarshal
  try simp only []
  stable_steps
  all_goals (simp only [Apn.WF, Apn.marshal])
  all_goals intro h0
  all_goals stable_fin [encName_length h0]
  · exact h0.1
  · exact h0.2

theorem Ambr.stable (m : Mode) (b : Bytes) : (Ambr.unmarshal m b).Post fun x => ∀ n : UInt16, n.toNat + 4 = x.marshal.length → n.toNat < 65532 →
    ({ x with length := n } : Ambr).WF := by
  unfold Ambr.unmarshal
  try simp only []
  stable_steps
  all_goals (simp only [Ambr.WF, Ambr.marshal])
  all_goals skip
  all_goals stable_fin []

theorem Ebi.stable (m : Mode) (b : Bytes) : (Ebi.unmarshal m b).Post fun x => ∀ n : UInt16, n.toNat + 4 = x.marshal.length → n.toNat < 65532 →
    ({ x with length := n } : Ebi).WF := by
  unfold Ebi.unmarshal
  try simp only []
  stable_steps
  all_goals (simp only [Ebi.WF, Ebi.marshal])
  all_goals skip
  all_goals stable_fin []

theorem IpAddress.stable (m : Mode) (b : Bytes) : (IpAddress.unmarshal m b).Post fun x => ∀ n : UInt16, n.toNat + 4 = x.marshal.length → n.toNat < 65532 →
    ({ x with length := n } : IpAddress).WF := by
  unfold IpAddress.unmarshal
  try simp only []
  stable_steps
  all_goals (simp only [IpAddress.WF, IpAddress.marshal])
  all_goals skip
  all_goals stable_fin []

theorem Mei.stable (m : Mode) (b : Bytes) : (Mei.unmarshal m b).Post fun x => ((x.mei.length + 1) / 2 = 8) → ∀ n : UInt16, n.toNat + 4 = x.marshal.length → n.toNat < 65532 →
    ({ x with length := n } : Mei).WF := by
  unfold Mei.unmarshal
  try simp only []
  stable_steps
  all_goals (simp only [Mei.WF, Mei.marshal])
  all_goals intro h0
  all_goals stable_fin []

theorem Msisdn.stable (m : Mode) (b : Bytes) : (Msisdn.unmarshal m b).Post fun x => (x.msisdn ≠ []) → ∀ n : UInt16, n.toNat + 4 = x.marshal.length → n.toNat < 65532 →
    ({ x with length := n } : Msisdn).WF := by
  unfold Msisdn.unmarshal
  try simp only []
  stable_steps
  all_goals (simp only [Msisdn.WF, Msisdn.marshal])
  all_goals intro h0
  all_goals stable_fin []

theorem Indication.stable (m : Mode) (b : Bytes) : (Indication.unmarshal m b).Post fun x => ∀ n : UInt16, n.toNat + 4 = x.marshal.length → n.toNat < 65532 →
    ({ x with length := n } : Indication).WF := by
  unfold Indication.unmarshal
  try simp only []
  stable_steps
  all_goals (simp only [Indication.WF, Indication.marshal])
  all_goals skip
  all_goals stable_fin [Indication.body, Indication.convert]

theorem Pco.stable (m : Mode) (b : Bytes) : (Pco.unmarshal m b).Post fun x => ∀ n : UInt16, n.toNat + 4 = x.marshal.length → n.toNat < 65532 →
    ({ x with length := n } : Pco).WF := by
  unfold Pco.unmarshal
  try simp only []
  stable_steps
  all_goals (simp only [Pco.WF, Pco.marshal])
  all_goals skip
  all_goals stable_fin []

theorem PdnAddressAllocation.stable (m : Mode) (b : Bytes) : (PdnAddressAllocation.unmarshal m b).Post fun x => ∀ n : UInt16, n.toNat + 4 = x.marshal.length → n.toNat < 65532 →
    ({ x with length := n } : PdnAddressAllocation).WF := by
  unfold PdnAddressAllocation.unmarshal
  try simp only []
  stable_steps
  all_goals (simp only [PdnAddressAllocation.WF, PdnAddressAllocation.marshal])
  all_goals skip
  all_goals stable_fin []

theorem BearerQos.stable (m : Mode) (b : Bytes) : (BearerQos.unmarshal m b).Post fun x => ∀ n : UInt16, n.toNat + 4 = x.marshal.length → n.toNat < 65532 →
    ({ x with length := n } : BearerQos).WF := by
  unfold BearerQos.unmarshal
  try simp only []
  stable_steps
  all_goals (simp only [BearerQos.WF, BearerQos.marshal])
  all_goals skip
  all_goals stable_fin []

theorem FlowQos.stable (m : Mode) (b : Bytes) : (FlowQos.unmarshal m b).Post fun x => ∀ n : UInt16, n.toNat + 4 = x.marshal.length → n.toNat < 65532 →
    ({ x with length := n } : FlowQos).WF := by
  unfold FlowQos.unmarshal
  try simp only []
  stable_steps
  all_goals (simp only [FlowQos.WF, FlowQos.marshal])
  all_goals skip
  all_goals stable_fin []

theorem RatType.stable (m : Mode) (b : Bytes) : (RatType.unmarshal m b).Post fun x => ∀ n : UInt16, n.toNat + 4 = x.marshal.length → n.toNat < 65532 →
    ({ x with length := n } : RatType).WF := by
  unfold RatType.unmarshal
  try simp only []
  stable_steps
  all_goals (simp only [RatType.WF, RatType.marshal])
  all_goals skip
  all_goals stable_fin []

theorem ServingNetwork.stable (m : Mode) (b : Bytes) : (ServingNetwork.unmarshal m b).Post fun x => ∀ n : UInt16, n.toNat + 4 = x.marshal.length → n.toNat < 65532 →
    ({ x with length := n } : ServingNetwork).WF := by
  unfold ServingNetwork.unmarshal
  try simp only []
  stable_steps
  all_goals (simp only [ServingNetwork.WF, ServingNetwork.marshal])
  all_goals skip
  all_goals stable_fin []

theorem BearerTft.stable (m : Mode) (b : Bytes) : (BearerTft.unmarshal m b).Post fun x => ∀ n : UInt16, n.toNat + 4 = x.marshal.length → n.toNat < 65532 →
    ({ x with length := n } : BearerTft).WF := by
  unfold BearerTft.unmarshal
  try simp only []
  stable_steps
  all_goals (simp only [BearerTft.WF, BearerTft.marshal])
  all_goals skip
  all_goals stable_fin []

theorem TrafficAggregateDescription.stable (m : Mode) (b : Bytes) : (TrafficAggregateDescription.unmarshal m b).Post fun x => ∀ n : UInt16, n.toNat + 4 = x.marshal.length → n.toNat < 65532 →
    ({ x with length := n } : TrafficAggregateDescription).WF := by
  unfold TrafficAggregateDescription.unmarshal
  try simp only []
  stable_steps
  all_goals (simp only [TrafficAggregateDescription.WF, TrafficAggregateDescription.marshal])
  all_goals skip
  all_goals stable_fin []

theorem Uli.stable (m : Mode) (b : Bytes) : (Uli.unmarshal m b).Post fun x => ∀ n : UInt16, n.toNat + 4 = x.marshal.length → n.toNat < 65532 →
    ({ x with length := n } : Uli).WF := by
  unfold Uli.unmarshal
  refine Post_ite_any ?_ trivial
  refine Post_bind_any fun _ => Post_bind_any fun _ => Post_bind_chk (fun _ => ?_) trivial
  refine Post_bind_any fun _ => Post_bind_readAll fun ls h1 h2 => ?_
  intro n hn hN
  rw [Uli.marshal, tliv_length, Uli.body_eq h1] at hn
  exact ⟨rfl, by simp at hn ⊢; omega, and15 _, hN, h1, h2⟩

theorem Fteid.stable (m : Mode) (b : Bytes) : (Fteid.unmarshal m b).Post fun x => ∀ n : UInt16, n.toNat + 4 = x.marshal.length → n.toNat < 65532 →
    ({ x with length := n } : Fteid).WF := by
  unfold Fteid.unmarshal
  try simp only []
  stable_steps
  all_goals (simp only [Fteid.WF, Fteid.marshal])
  all_goals skip
  all_goals stable_fin []

theorem Tmsi.stable (m : Mode) (b : Bytes) : (Tmsi.unmarshal m b).Post fun x => ∀ n : UInt16, n.toNat + 4 = x.marshal.length → n.toNat < 65532 →
    ({ x with length := n } : Tmsi).WF := by
  unfold Tmsi.unmarshal
  try simp only []
  stable_steps
  all_goals (simp only [Tmsi.WF, Tmsi.marshal])
  all_goals skip
  all_goals stable_fin []

theorem GlobalCnId.stable (m : Mode) (b : Bytes) : (GlobalCnId.unmarshal m b).Post fun x => ∀ n : UInt16, n.toNat + 4 = x.marshal.length → n.toNat < 65532 →
    ({ x with length := n } : GlobalCnId).WF := by
  unfold GlobalCnId.unmarshal
  try simp only []
  stable_steps
  all_goals (simp only [GlobalCnId.WF, GlobalCnId.marshal])
  all_goals skip
  all_goals stable_fin []

theorem S103pdf.stable (m : Mode) (b : Bytes) : (S103pdf.unmarshal m b).Post fun x => ∀ n : UInt16, n.toNat + 4 = x.marshal.length → n.toNat < 65532 →
    ({ x with length := n } : S103pdf).WF := by
  unfold S103pdf.unmarshal
  try simp only []
  stable_steps
  all_goals (simp only [S103pdf.WF, S103pdf.marshal])
  all_goals skip
  all_goals stable_fin []

theorem S1udf.stable (m : Mode) (b : Bytes) : (S1udf.unmarshal m b).Post fun x => ∀ n : UInt16, n.toNat + 4 = x.marshal.length → n.toNat < 65532 →
    ({ x with length := n } : S1udf).WF := by
  unfold S1udf.unmarshal
  try simp only []
  stable_steps
  all_goals (simp only [S1udf.WF, S1udf.marshal])
  all_goals skip
  all_goals stable_fin []

theorem DelayValue.stable (m : Mode) (b : Bytes) : (DelayValue.unmarshal m b).Post fun x => ∀ n : UInt16, n.toNat + 4 = x.marshal.length → n.toNat < 65532 →
    ({ x with length := n } : DelayValue).WF := by
  unfold DelayValue.unmarshal
  try simp only []
  stable_steps
  all_goals (simp only [DelayValue.WF, DelayValue.marshal])
  all_goals skip
  all_goals stable_fin []

theorem ChargingId.stable (m : Mode) (b : Bytes) : (ChargingId.unmarshal m b).Post fun x => ∀ n : UInt16, n.toNat + 4 = x.marshal.length → n.toNat < 65532 →
    ({ x with length := n } : ChargingId).WF := by
  unfold ChargingId.unmarshal
  try simp only []
  stable_steps
  all_goals (simp only [ChargingId.WF, ChargingId.marshal])
  all_goals skip
  all_goals stable_fin []

theorem ChargingCharacteristics.stable (m : Mode) (b : Bytes) : (ChargingCharacteristics.unmarshal m b).Post fun x => ∀ n : UInt16, n.toNat + 4 = x.marshal.length → n.toNat < 65532 →
    ({ x with length := n } : ChargingCharacteristics).WF := by
  unfold ChargingCharacteristics.unmarshal
  try simp only []
  stable_steps
  all_goals (simp only [ChargingCharacteristics.WF, ChargingCharacteristics.marshal])
  all_goals skip
  all_goals stable_fin []

theorem TraceInformation.stable (m : Mode) (b : Bytes) : (TraceInformation.unmarshal m b).Post fun x => ∀ n : UInt16, n.toNat + 4 = x.marshal.length → n.toNat < 65532 →
    ({ x with length := n } : TraceInformation).WF := by
  unfold TraceInformation.unmarshal
  try simp only []
  stable_steps
  all_goals (simp only [TraceInformation.WF, TraceInformation.marshal])
  all_goals skip
  all_goals stable_fin []

theorem BearerFlags.stable (m : Mode) (b : Bytes) : (BearerFlags.unmarshal m b).Post fun x => ∀ n : UInt16, n.toNat + 4 = x.marshal.length → n.toNat < 65532 →
    ({ x with length := n } : BearerFlags).WF := by
  unfold BearerFlags.unmarshal
  try simp only []
  stable_steps
  all_goals (simp only [BearerFlags.WF, BearerFlags.marshal])
  all_goals skip
  all_goals stable_fin []

theorem PdnType.stable (m : Mode) (b : Bytes) : (PdnType.unmarshal m b).Post fun x => ∀ n : UInt16, n.toNat + 4 = x.marshal.length → n.toNat < 65532 →
    ({ x with length := n } : PdnType).WF := by
  unfold PdnType.unmarshal
  try simp only []
  stable_steps
  all_goals (simp only [PdnType.WF, PdnType.marshal])
  all_goals skip
  all_goals stable_fin []

theorem Pti.stable (m : Mode) (b : Bytes) : (Pti.unmarshal m b).Post fun x => ∀ n : UInt16, n.toNat + 4 = x.marshal.length → n.toNat < 65532 →
    ({ x with length := n } : Pti).WF := by
  unfold Pti.unmarshal
  try simp only []
  stable_steps
  all_goals (simp only [Pti.WF, Pti.marshal])
  all_goals skip
  all_goals stable_fin []

theorem PduNumbers.stable (m : Mode) (b : Bytes) : (PduNumbers.unmarshal m b).Post fun x => ∀ n : UInt16, n.toNat + 4 = x.marshal.length → n.toNat < 65532 →
    ({ x with length := n } : PduNumbers).WF := by
  unfold PduNumbers.unmarshal
  try simp only []
  stable_steps
  all_goals (simp only [PduNumbers.WF, PduNumbers.marshal])
  all_goals skip
  all_goals stable_fin []

theorem Ptmsi.stable (m : Mode) (b : Bytes) : (Ptmsi.unmarshal m b).Post fun x => ∀ n : UInt16, n.toNat + 4 = x.marshal.length → n.toNat < 65532 →
    ({ x with length := n } : Ptmsi).WF := by
  unfold Ptmsi.unmarshal
  try simp only []
  stable_steps
  all_goals (simp only [Ptmsi.WF, Ptmsi.marshal])
  all_goals skip
  all_goals stable_fin []

theorem PtmsiSignature.stable (m : Mode) (b : Bytes) : (PtmsiSignature.unmarshal m b).Post fun x => ∀ n : UInt16, n.toNat + 4 = x.marshal.length → n.toNat < 65532 →
    ({ x with length := n } : PtmsiSignature).WF := by
  unfold PtmsiSignature.unmarshal
  try simp only []
  stable_steps
  all_goals (simp only [PtmsiSignature.WF, PtmsiSignature.marshal])
  all_goals skip
  all_goals stable_fin []

theorem HopCounter.stable (m : Mode) (b : Bytes) : (HopCounter.unmarshal m b).Post fun x => ∀ n : UInt16, n.toNat + 4 = x.marshal.length → n.toNat < 65532 →
    ({ x with length := n } : HopCounter).WF := by
  unfold HopCounter.unmarshal
  try simp only []
  stable_steps
  all_goals (simp only [HopCounter.WF, HopCounter.marshal])
  all_goals skip
  all_goals stable_fin []

theorem UeTimeZone.stable (m : Mode) (b : Bytes) : (UeTimeZone.unmarshal m b).Post fun x => ∀ n : UInt16, n.toNat + 4 = x.marshal.length → n.toNat < 65532 →
    ({ x with length := n } : UeTimeZone).WF := by
  unfold UeTimeZone.unmarshal
  try simp only []
  stable_steps
  all_goals (simp only [UeTimeZone.WF, UeTimeZone.marshal])
  all_goals skip
  all_goals stable_fin []
  all_goals exact zoneOf_ne _

theorem TraceReference.stable (m : Mode) (b : Bytes) : (TraceReference.unmarshal m b).Post fun x => ∀ n : UInt16, n.toNat + 4 = x.marshal.length → n.toNat < 65532 →
    ({ x with length := n } : TraceReference).WF := by
  unfold TraceReference.unmarshal
  try simp only []
  stable_steps
  all_goals (simp only [TraceReference.WF, TraceReference.marshal])
  all_goals skip
  all_goals stable_fin []

theorem CompleteRequestMessage.stable (m : Mode) (b : Bytes) : (CompleteRequestMessage.unmarshal m b).Post fun x => ∀ n : UInt16, n.toNat + 4 = x.marshal.length → n.toNat < 65532 →
    ({ x with length := n } : CompleteRequestMessage).WF := by
  unfold CompleteRequestMessage.unmarshal
  try simp only []
  stable_steps
  all_goals (simp only [CompleteRequestMessage.WF, CompleteRequestMessage.marshal])
  all_goals skip
  all_goals stable_fin []

theorem Guti.stable (m : Mode) (b : Bytes) : (Guti.unmarshal m b).Post fun x => ∀ n : UInt16, n.toNat + 4 = x.marshal.length → n.toNat < 65532 →
    ({ x with length := n } : Guti).WF := by
  unfold Guti.unmarshal
  try simp only []
  stable_steps
  all_goals (simp only [Guti.WF, Guti.marshal])
  all_goals skip
  all_goals stable_fin []

theorem Fcontainer.stable (m : Mode) (b : Bytes) : (Fcontainer.unmarshal m b).Post fun x => ∀ n : UInt16, n.toNat + 4 = x.marshal.length → n.toNat < 65532 →
    ({ x with length := n } : Fcontainer).WF := by
  unfold Fcontainer.unmarshal
  refine Post_ite_any ?_ trivial
  refine Post_bind_any fun l => Post_bind_any fun _ => Post_bind_chk (fun hl => ?_) trivial
  simp only [if_true]
  refine (Post_bind ..).mpr ((Post_rd ..).mpr fun hb => ?_)
  refine (Post_bind ..).mpr (Post.mono (Container.read_stable (by omega)) fun c hc => ?_)
  intro n hn hN
  simp only [Fcontainer.marshal, tliv_length] at hn
  exact ⟨rfl, by simp only; omega, and15 _, hN, hc⟩

theorem Fcause.stable (m : Mode) (b : Bytes) : (Fcause.unmarshal m b).Post fun x => ∀ n : UInt16, n.toNat + 4 = x.marshal.length → n.toNat < 65532 →
    ({ x with length := n } : Fcause).WF := by
  unfold Fcause.unmarshal
  try simp only []
  stable_steps
  all_goals (simp only [Fcause.WF, Fcause.marshal])
  all_goals skip
  all_goals stable_fin []

theorem PlmnId.stable (m : Mode) (b : Bytes) : (PlmnId.unmarshal m b).Post fun x => ∀ n : UInt16, n.toNat + 4 = x.marshal.length → n.toNat < 65532 →
    ({ x with length := n } : PlmnId).WF := by
  unfold PlmnId.unmarshal
  try simp only []
  stable_steps
  all_goals (simp only [PlmnId.WF, PlmnId.marshal])
  all_goals skip
  all_goals stable_fin []

theorem TargetIdentification.stable (m : Mode) (b : Bytes) : (TargetIdentification.unmarshal m b).Post fun x => x.target_type.Faithful → ∀ n : UInt16, n.toNat + 4 = x.marshal.length → n.toNat < 65532 →
    ({ x with length := n } : TargetIdentification).WF := by
  unfold TargetIdentification.unmarshal
  refine Post_ite_any (Post_bind_any fun _ => Post_bind_any fun _ => Post_bind_any fun s => ?_) trivial
  refine (Post_bind ..).mpr (Post_mapErr (Post.mono (TargetType.stable s) fun t ht => ?_))
  intro h0 n hn hN
  have h1 := ht h0
  have h2 := (TargetType.rt (tail := []) (TargetIdentification.Ok_any h1 _)).1
  simp only [TargetIdentification.marshal, tliv_length, List.length_cons] at hn
  exact ⟨rfl, by simp only; omega, h1⟩

theorem PacketFlowId.stable (m : Mode) (b : Bytes) : (PacketFlowId.unmarshal m b).Post fun x => ∀ n : UInt16, n.toNat + 4 = x.marshal.length → n.toNat < 65532 →
    ({ x with length := n } : PacketFlowId).WF := by
  unfold PacketFlowId.unmarshal
  try simp only []
  stable_steps
  all_goals (simp only [PacketFlowId.WF, PacketFlowId.marshal])
  all_goals skip
  all_goals stable_fin []

theorem RabContext.stable (m : Mode) (b : Bytes) : (RabContext.unmarshal m b).Post fun x => ∀ n : UInt16, n.toNat + 4 = x.marshal.length → n.toNat < 65532 →
    ({ x with length := n } : RabContext).WF := by
  unfold RabContext.unmarshal
  try simp only []
  stable_steps
  all_goals (simp only [RabContext.WF, RabContext.marshal])
  all_goals skip
  all_goals stable_fin []

theorem SourceRncPdcpContextInfo.stable (m : Mode) (b : Bytes) : (SourceRncPdcpContextInfo.unmarshal m b).Post fun x => ∀ n : UInt16, n.toNat + 4 = x.marshal.length → n.toNat < 65532 →
    ({ x with length := n } : SourceRncPdcpContextInfo).WF := by
  unfold SourceRncPdcpContextInfo.unmarshal
  try simp only []
  stable_steps
  all_goals (simp only [SourceRncPdcpContextInfo.WF, SourceRncPdcpContextInfo.marshal])
  all_goals skip
  all_goals stable_fin []

theorem PortNumber.stable (m : Mode) (b : Bytes) : (PortNumber.unmarshal m b).Post fun x => ∀ n : UInt16, n.toNat + 4 = x.marshal.length → n.toNat < 65532 →
    ({ x with length := n } : PortNumber).WF := by
  unfold PortNumber.unmarshal
  try simp only []
  stable_steps
  all_goals (simp only [PortNumber.WF, PortNumber.marshal])
  all_goals skip
  all_goals stable_fin []

theorem ApnRestriction.stable (m : Mode) (b : Bytes) : (ApnRestriction.unmarshal m b).Post fun x => ∀ n : UInt16, n.toNat + 4 = x.marshal.length → n.toNat < 65532 →
    ({ x with length := n } : ApnRestriction).WF := by
  unfold ApnRestriction.unmarshal
  try simp only []
  stable_steps
  all_goals (simp only [ApnRestriction.WF, ApnRestriction.marshal])
  all_goals skip
  all_goals stable_fin []

theorem SelectionMode.stable (m : Mode) (b : Bytes) : (SelectionMode.unmarshal m b).Post fun x => ∀ n : UInt16, n.toNat + 4 = x.marshal.length → n.toNat < 65532 →
    ({ x with length := n } : SelectionMode).WF := by
  unfold SelectionMode.unmarshal
  try simp only []
  stable_steps
  all_goals (simp only [SelectionMode.WF, SelectionMode.marshal])
  all_goals skip
  all_goals stable_fin []

theorem SourceIdentification.stable (m : Mode) (b : Bytes) : (SourceIdentification.unmarshal m b).Post fun x => x.source_type.Faithful → ∀ n : UInt16, n.toNat + 4 = x.marshal.length → n.toNat < 65532 →
    ({ x with length := n } : SourceIdentification).WF := by
  unfold SourceIdentification.unmarshal
  refine Post_ite_any (Post_bind_any fun _ => Post_bind_any fun _ => Post_bind_any fun s => ?_) trivial
  refine (Post_bind ..).mpr (Post_mapErr (Post.mono (CellIdentifier.stable s) fun c hc => ?_))
  refine Post_bind_any fun s => (Post_bind ..).mpr (Post_mapErr (Post.mono (SourceType.stable s) fun t ht => ?_))
  intro h0 n hn hN
  have h1 := ht h0
  have h2 := (SourceType.rt (tail := []) (SourceIdentification.Ok_any h1 _)).1
  have h3 := (CellIdentifier.elem c hc).1
  simp only [SourceIdentification.marshal, tliv_length, List.length_cons, List.length_append] at hn
  exact ⟨rfl, by simp only; omega, hc, h1⟩

theorem ChangeReportingAction.stable (m : Mode) (b : Bytes) : (ChangeReportingAction.unmarshal m b).Post fun x => ∀ n : UInt16, n.toNat + 4 = x.marshal.length → n.toNat < 65532 →
    ({ x with length := n } : ChangeReportingAction).WF := by
  unfold ChangeReportingAction.unmarshal
  try simp only []
  stable_steps
  all_goals (simp only [ChangeReportingAction.WF, ChangeReportingAction.marshal])
  all_goals skip
  all_goals stable_fin []

theorem Fqcsid.stable (m : Mode) (b : Bytes) : (Fqcsid.unmarshal m b).Post fun x => ∀ n : UInt16, n.toNat + 4 = x.marshal.length → n.toNat < 65532 →
    ({ x with length := n } : Fqcsid).WF := by
  unfold Fqcsid.unmarshal
  refine Post_ite_any ?_ trivial
  refine Post_bind_any fun _ => Post_bind_any fun _ => Post_bind_chk (fun _ => ?_) trivial
  refine Post_bind_any fun f => ?_
  have hf := and15n f
  simp only [if_true]
  stable_steps
  all_goals (simp only [Fqcsid.WF, Fqcsid.marshal])
  all_goals stable_fin [rd16s_length]

theorem ChannelNeeded.stable (m : Mode) (b : Bytes) : (ChannelNeeded.unmarshal m b).Post fun x => ∀ n : UInt16, n.toNat + 4 = x.marshal.length → n.toNat < 65532 →
    ({ x with length := n } : ChannelNeeded).WF := by
  unfold ChannelNeeded.unmarshal
  try simp only []
  stable_steps
  all_goals (simp only [ChannelNeeded.WF, ChannelNeeded.marshal])
  all_goals skip
  all_goals stable_fin []

theorem EmlppPriority.stable (m : Mode) (b : Bytes) : (EmlppPriority.unmarshal m b).Post fun x => ∀ n : UInt16, n.toNat + 4 = x.marshal.length → n.toNat < 65532 →
    ({ x with length := n } : EmlppPriority).WF := by
  unfold EmlppPriority.unmarshal
  try simp only []
  stable_steps
  all_goals (simp only [EmlppPriority.WF, EmlppPriority.marshal])
  all_goals skip
  all_goals stable_fin []

theorem NodeType.stable (m : Mode) (b : Bytes) : (NodeType.unmarshal m b).Post fun x => ∀ n : UInt16, n.toNat + 4 = x.marshal.length → n.toNat < 65532 →
    ({ x with length := n } : NodeType).WF := by
  unfold NodeType.unmarshal
  try simp only []
  stable_steps
  all_goals (simp only [NodeType.WF, NodeType.marshal])
  all_goals skip
  all_goals stable_fin []

theorem Fqdn.stable (m : Mode) (b : Bytes) : (Fqdn.unmarshal m b).Post fun x => (NameOk x.name) → ∀ n : UInt16, n.toNat + 4 = x.marshal.length → n.toNat < 65532 →
    ({ x with length := n } : Fqdn).WF := by
  unfold Fqdn.unmarshal
  try simp only []
  stable_steps
  all_goals (simp only [Fqdn.WF, Fqdn.marshal])
  all_goals intro h0
  all_goals stable_fin [encName_length h0]
  · exact h0.1
  · exact h0.2

theorem TransactionIdentifier.stable (m : Mode) (b : Bytes) : (TransactionIdentifier.unmarshal m b).Post fun x => ∀ n : UInt16, n.toNat + 4 = x.marshal.length → n.toNat < 65532 →
    ({ x with length := n } : TransactionIdentifier).WF := by
  unfold TransactionIdentifier.unmarshal
  stable_steps
  all_goals
    simp only [TransactionIdentifier.WF, TransactionIdentifier.marshal, tliv_length]
    intro n hn hN
    refine ⟨trivial, ?_, and15 _⟩
    split at hn <;> simp only [List.length_cons, List.length_nil] at hn <;> split <;> first | omega | contradiction

theorem MbmsServiceArea.stable (m : Mode) (b : Bytes) : (MbmsServiceArea.unmarshal m b).Post fun x => ∀ n : UInt16, n.toNat + 4 = x.marshal.length → n.toNat < 65532 →
    ({ x with length := n } : MbmsServiceArea).WF := by
  unfold MbmsServiceArea.unmarshal
  try simp only []
  stable_steps
  all_goals (simp only [MbmsServiceArea.WF, MbmsServiceArea.marshal])
  all_goals skip
  all_goals stable_fin [rd16s_length]
  all_goals (rename_i hn; rw [if_neg (by omega)] at hn; simp only [List.length_append, List.length_cons, List.length_nil, gtplen, rd16s_length] at hn; omega)

theorem MbmsSessionDuration.stable (m : Mode) (b : Bytes) : (MbmsSessionDuration.unmarshal m b).Post fun x => ∀ n : UInt16, n.toNat + 4 = x.marshal.length → n.toNat < 65532 →
    ({ x with length := n } : MbmsSessionDuration).WF := by
  unfold MbmsSessionDuration.unmarshal
  try simp only []
  stable_steps
  all_goals (simp only [MbmsSessionDuration.WF, MbmsSessionDuration.marshal])
  all_goals skip
  all_goals stable_fin []

theorem MbmsSessionId.stable (m : Mode) (b : Bytes) : (MbmsSessionId.unmarshal m b).Post fun x => ∀ n : UInt16, n.toNat + 4 = x.marshal.length → n.toNat < 65532 →
    ({ x with length := n } : MbmsSessionId).WF := by
  unfold MbmsSessionId.unmarshal
  try simp only []
  stable_steps
  all_goals (simp only [MbmsSessionId.WF, MbmsSessionId.marshal])
  all_goals skip
  all_goals stable_fin []

theorem MbmsFlowId.stable (m : Mode) (b : Bytes) : (MbmsFlowId.unmarshal m b).Post fun x => ∀ n : UInt16, n.toNat + 4 = x.marshal.length → n.toNat < 65532 →
    ({ x with length := n } : MbmsFlowId).WF := by
  unfold MbmsFlowId.unmarshal
  try simp only []
  stable_steps
  all_goals (simp only [MbmsFlowId.WF, MbmsFlowId.marshal])
  all_goals skip
  all_goals stable_fin []

theorem MbmsIpMulticastDistribution.stable (m : Mode) (b : Bytes) : (MbmsIpMulticastDistribution.unmarshal m b).Post fun x => ∀ n : UInt16, n.toNat + 4 = x.marshal.length → n.toNat < 65532 →
    ({ x with length := n } : MbmsIpMulticastDistribution).WF := by
  unfold MbmsIpMulticastDistribution.unmarshal
  try simp only [rdIp50]
  stable_steps
  all_goals (simp only [MbmsIpMulticastDistribution.WF, MbmsIpMulticastDistribution.marshal])
  all_goals skip
  all_goals stable_fin [ip50]

theorem MbmsDistributionAck.stable (m : Mode) (b : Bytes) : (MbmsDistributionAck.unmarshal m b).Post fun x => ∀ n : UInt16, n.toNat + 4 = x.marshal.length → n.toNat < 65532 →
    ({ x with length := n } : MbmsDistributionAck).WF := by
  unfold MbmsDistributionAck.unmarshal
  try simp only []
  stable_steps
  all_goals (simp only [MbmsDistributionAck.WF, MbmsDistributionAck.marshal])
  all_goals skip
  all_goals stable_fin []

theorem RfspIndex.stable (m : Mode) (b : Bytes) : (RfspIndex.unmarshal m b).Post fun x => ∀ n : UInt16, n.toNat + 4 = x.marshal.length → n.toNat < 65532 →
    ({ x with length := n } : RfspIndex).WF := by
  unfold RfspIndex.unmarshal
  try simp only []
  stable_steps
  all_goals (simp only [RfspIndex.WF, RfspIndex.marshal])
  all_goals skip
  all_goals stable_fin []

theorem Uci.stable (m : Mode) (b : Bytes) : (Uci.unmarshal m b).Post fun x => (x.csgid.toNat < 2 ^ 27) → ∀ n : UInt16, n.toNat + 4 = x.marshal.length → n.toNat < 65532 →
    ({ x with length := n } : Uci).WF := by
  unfold Uci.unmarshal
  try simp only []
  stable_steps
  all_goals (simp only [Uci.WF, Uci.marshal])
  all_goals intro h0
  all_goals stable_fin []

theorem CSGInformationReportingAction.stable (m : Mode) (b : Bytes) : (CSGInformationReportingAction.unmarshal m b).Post fun x => ∀ n : UInt16, n.toNat + 4 = x.marshal.length → n.toNat < 65532 →
    ({ x with length := n } : CSGInformationReportingAction).WF := by
  unfold CSGInformationReportingAction.unmarshal
  try simp only []
  stable_steps
  all_goals (simp only [CSGInformationReportingAction.WF, CSGInformationReportingAction.marshal])
  all_goals skip
  all_goals stable_fin []

theorem CsgId.stable (m : Mode) (b : Bytes) : (CsgId.unmarshal m b).Post fun x => ∀ n : UInt16, n.toNat + 4 = x.marshal.length → n.toNat < 65532 →
    ({ x with length := n } : CsgId).WF := by
  unfold CsgId.unmarshal
  try simp only []
  stable_steps
  all_goals (simp only [CsgId.WF, CsgId.marshal])
  all_goals skip
  all_goals stable_fin []

theorem CsgMembershipIndication.stable (m : Mode) (b : Bytes) : (CsgMembershipIndication.unmarshal m b).Post fun x => ∀ n : UInt16, n.toNat + 4 = x.marshal.length → n.toNat < 65532 →
    ({ x with length := n } : CsgMembershipIndication).WF := by
  unfold CsgMembershipIndication.unmarshal
  try simp only []
  stable_steps
  all_goals (simp only [CsgMembershipIndication.WF, CsgMembershipIndication.marshal])
  all_goals skip
  all_goals stable_fin []

theorem ServiceIndicator.stable (m : Mode) (b : Bytes) : (ServiceIndicator.unmarshal m b).Post fun x => ∀ n : UInt16, n.toNat + 4 = x.marshal.length → n.toNat < 65532 →
    ({ x with length := n } : ServiceIndicator).WF := by
  unfold ServiceIndicator.unmarshal
  try simp only []
  stable_steps
  all_goals (simp only [ServiceIndicator.WF, ServiceIndicator.marshal])
  all_goals skip
  all_goals stable_fin []

theorem DetachType.stable (m : Mode) (b : Bytes) : (DetachType.unmarshal m b).Post fun x => ∀ n : UInt16, n.toNat + 4 = x.marshal.length → n.toNat < 65532 →
    ({ x with length := n } : DetachType).WF := by
  unfold DetachType.unmarshal
  try simp only []
  stable_steps
  all_goals (simp only [DetachType.WF, DetachType.marshal])
  all_goals skip
  all_goals stable_fin []

theorem Ldn.stable (m : Mode) (b : Bytes) : (Ldn.unmarshal m b).Post fun x => (∀ c ∈ x.name, IsAscii c) → ∀ n : UInt16, n.toNat + 4 = x.marshal.length → n.toNat < 65532 →
    ({ x with length := n } : Ldn).WF := by
  unfold Ldn.unmarshal
  try simp only []
  stable_steps
  all_goals (simp only [Ldn.WF, Ldn.marshal])
  all_goals intro h0
  all_goals stable_fin [utf8_length h0, latin1_length]
  all_goals (apply List.ne_nil_of_length_pos; rw [latin1_length]; omega)

theorem NodeFeatures.stable (m : Mode) (b : Bytes) : (NodeFeatures.unmarshal m b).Post fun x => ∀ n : UInt16, n.toNat + 4 = x.marshal.length → n.toNat < 65532 →
    ({ x with length := n } : NodeFeatures).WF := by
  unfold NodeFeatures.unmarshal
  try simp only []
  stable_steps
  all_goals (simp only [NodeFeatures.WF, NodeFeatures.marshal])
  all_goals skip
  all_goals stable_fin []

theorem MbmsTimeToDataTransfer.stable (m : Mode) (b : Bytes) : (MbmsTimeToDataTransfer.unmarshal m b).Post fun x => ∀ n : UInt16, n.toNat + 4 = x.marshal.length → n.toNat < 65532 →
    ({ x with length := n } : MbmsTimeToDataTransfer).WF := by
  unfold MbmsTimeToDataTransfer.unmarshal
  try simp only []
  stable_steps
  all_goals (simp only [MbmsTimeToDataTransfer.WF, MbmsTimeToDataTransfer.marshal])
  all_goals skip
  all_goals stable_fin []

theorem Throttling.stable (m : Mode) (b : Bytes) : (Throttling.unmarshal m b).Post fun x => ∀ n : UInt16, n.toNat + 4 = x.marshal.length → n.toNat < 65532 →
    ({ x with length := n } : Throttling).WF := by
  unfold Throttling.unmarshal
  try simp only []
  stable_steps
  all_goals (simp only [Throttling.WF, Throttling.marshal])
  all_goals skip
  all_goals stable_fin []
  · exact throttling_unit _
  · exact throttling_factor _

theorem Arp.stable (m : Mode) (b : Bytes) : (Arp.unmarshal m b).Post fun x => ∀ n : UInt16, n.toNat + 4 = x.marshal.length → n.toNat < 65532 →
    ({ x with length := n } : Arp).WF := by
  unfold Arp.unmarshal
  try simp only []
  stable_steps
  all_goals (simp only [Arp.WF, Arp.marshal])
  all_goals skip
  all_goals stable_fin []

theorem EpcTimer.stable (m : Mode) (b : Bytes) : (EpcTimer.unmarshal m b).Post fun x => ∀ n : UInt16, n.toNat + 4 = x.marshal.length → n.toNat < 65532 →
    ({ x with length := n } : EpcTimer).WF := by
  unfold EpcTimer.unmarshal
  try simp only []
  stable_steps
  all_goals (simp only [EpcTimer.WF, EpcTimer.marshal])
  all_goals skip
  all_goals stable_fin []
  all_goals exact epc_unit _

theorem Spi.stable (m : Mode) (b : Bytes) : (Spi.unmarshal m b).Post fun x => ∀ n : UInt16, n.toNat + 4 = x.marshal.length → n.toNat < 65532 →
    ({ x with length := n } : Spi).WF := by
  unfold Spi.unmarshal
  try simp only []
  stable_steps
  all_goals (simp only [Spi.WF, Spi.marshal])
  all_goals skip
  all_goals stable_fin []

theorem Tmgi.stable (m : Mode) (b : Bytes) : (Tmgi.unmarshal m b).Post fun x => ∀ n : UInt16, n.toNat + 4 = x.marshal.length → n.toNat < 65532 →
    ({ x with length := n } : Tmgi).WF := by
  unfold Tmgi.unmarshal
  try simp only []
  stable_steps
  all_goals (simp only [Tmgi.WF, Tmgi.marshal])
  all_goals skip
  all_goals stable_fin []

theorem AdditionalMmContextForSrvcc.stable (m : Mode) (b : Bytes) : (AdditionalMmContextForSrvcc.unmarshal m b).Post fun x => (x.mobile_station_classmark2 ≠ none ∧ x.mobile_station_classmark3 ≠ none) → ∀ n : UInt16, n.toNat + 4 = x.marshal.length → n.toNat < 65532 →
    ({ x with length := n } : AdditionalMmContextForSrvcc).WF := by
  unfold AdditionalMmContextForSrvcc.unmarshal
  refine Post_ite_any ?_ trivial
  refine Post_bind_any fun _ => Post_bind_any fun _ => ?_
  refine (Post_bind ..).mpr (Post.mono (rdLv_post ..) fun p1 h1 => ?_)
  refine (Post_bind ..).mpr (Post.mono (rdLv_post ..) fun p2 h2 => ?_)
  refine (Post_bind ..).mpr (Post.mono (rdLv_post ..) fun p3 h3 => ?_)
  intro h0 n hn hN
  simp only [AdditionalMmContextForSrvcc.marshal, tliv_length] at hn
  exact ⟨rfl, Nat.add_right_cancel hn, and15 _, h1.resolve_left h0.1, h2.resolve_left h0.2, h3⟩

theorem AdditionalFlagsSrvcc.stable (m : Mode) (b : Bytes) : (AdditionalFlagsSrvcc.unmarshal m b).Post fun x => ∀ n : UInt16, n.toNat + 4 = x.marshal.length → n.toNat < 65532 →
    ({ x with length := n } : AdditionalFlagsSrvcc).WF := by
  unfold AdditionalFlagsSrvcc.unmarshal
  try simp only []
  stable_steps
  all_goals (simp only [AdditionalFlagsSrvcc.WF, AdditionalFlagsSrvcc.marshal])
  all_goals skip
  all_goals stable_fin []

theorem MdtConfiguration.stable (m : Mode) (b : Bytes) : (MdtConfiguration.unmarshal m b).Post fun x => x.mdt_plmns_list = none → ∀ n : UInt16, n.toNat + 4 = x.marshal.length → n.toNat < 65532 →
    ({ x with length := n } : MdtConfiguration).WF := by
  unfold MdtConfiguration.unmarshal
  simp only [MdtConfiguration.rdScope]
  stable_steps
  all_goals
    intro h0 n hn hN
    simp only [MdtConfiguration.marshal, tliv_length] at hn
    refine ⟨rfl, ?_, and15 _, by assumption, ?_, h0⟩
    · exact Nat.add_right_cancel hn
  · exact .inl rfl
  · exact .inr ⟨_, rfl, by omega, by omega⟩

theorem Apco.stable (m : Mode) (b : Bytes) : (Apco.unmarshal m b).Post fun x => ∀ n : UInt16, n.toNat + 4 = x.marshal.length → n.toNat < 65532 →
    ({ x with length := n } : Apco).WF := by
  unfold Apco.unmarshal
  try simp only []
  stable_steps
  all_goals (simp only [Apco.WF, Apco.marshal])
  all_goals skip
  all_goals stable_fin []

theorem AbsoluteTimeMbmsDataTransfer.stable (m : Mode) (b : Bytes) : (AbsoluteTimeMbmsDataTransfer.unmarshal m b).Post fun x => ∀ n : UInt16, n.toNat + 4 = x.marshal.length → n.toNat < 65532 →
    ({ x with length := n } : AbsoluteTimeMbmsDataTransfer).WF := by
  unfold AbsoluteTimeMbmsDataTransfer.unmarshal
  try simp only []
  stable_steps
  all_goals (simp only [AbsoluteTimeMbmsDataTransfer.WF, AbsoluteTimeMbmsDataTransfer.marshal])
  all_goals skip
  all_goals stable_fin []

theorem HenbInfoReporting.stable (m : Mode) (b : Bytes) : (HenbInfoReporting.unmarshal m b).Post fun x => ∀ n : UInt16, n.toNat + 4 = x.marshal.length → n.toNat < 65532 →
    ({ x with length := n } : HenbInfoReporting).WF := by
  unfold HenbInfoReporting.unmarshal
  try simp only []
  stable_steps
  all_goals (simp only [HenbInfoReporting.WF, HenbInfoReporting.marshal])
  all_goals skip
  all_goals stable_fin []

theorem Ip4Cp.stable (m : Mode) (b : Bytes) : (Ip4Cp.unmarshal m b).Post fun x => ∀ n : UInt16, n.toNat + 4 = x.marshal.length → n.toNat < 65532 →
    ({ x with length := n } : Ip4Cp).WF := by
  unfold Ip4Cp.unmarshal
  try simp only []
  stable_steps
  all_goals (simp only [Ip4Cp.WF, Ip4Cp.marshal])
  all_goals skip
  all_goals stable_fin []

theorem ChangeToReportFlags.stable (m : Mode) (b : Bytes) : (ChangeToReportFlags.unmarshal m b).Post fun x => ∀ n : UInt16, n.toNat + 4 = x.marshal.length → n.toNat < 65532 →
    ({ x with length := n } : ChangeToReportFlags).WF := by
  unfold ChangeToReportFlags.unmarshal
  try simp only []
  stable_steps
  all_goals (simp only [ChangeToReportFlags.WF, ChangeToReportFlags.marshal])
  all_goals skip
  all_goals stable_fin []

theorem ActionIndication.stable (m : Mode) (b : Bytes) : (ActionIndication.unmarshal m b).Post fun x => ∀ n : UInt16, n.toNat + 4 = x.marshal.length → n.toNat < 65532 →
    ({ x with length := n } : ActionIndication).WF := by
  unfold ActionIndication.unmarshal
  try simp only []
  stable_steps
  all_goals (simp only [ActionIndication.WF, ActionIndication.marshal])
  all_goals skip
  all_goals stable_fin []

theorem TwanId.stable (m : Mode) (b : Bytes) : (TwanId.unmarshal m b).Post fun x => ∀ n : UInt16, n.toNat + 4 = x.marshal.length → n.toNat < 65532 →
    ({ x with length := n } : TwanId).WF := by
  unfold TwanId.unmarshal
  refine Post_ite_any ?_ trivial
  refine Post_bind_any fun _ => Post_bind_any fun _ => Post_bind_any fun _ => ?_
  refine (Post_bind ..).mpr (Post.mono (rdLvU_post ..) fun p1 h1 => ?_)
  refine (Post_bind ..).mpr (Post.mono (rdIf_post (P := fun s => s.length = 6) fun c => rdN_post ..) fun p2 h2 => ?_)
  refine (Post_bind ..).mpr (Post.mono (rdIf_post (P := fun s => s.length < 256) fun c => rdLe_post (rdLvU_post ..)) fun p3 h3 => ?_)
  refine (Post_bind ..).mpr (Post.mono (rdIf_post (P := fun p => PlmnOk p.1 p.2.1 p.2.2) fun c => rdPlmnS_post ..) fun p4 h4 => ?_)
  refine (Post_bind ..).mpr (Post.mono (rdIf_post (P := fun s => (utf8 s).length < 256) fun c => rdLe_post (rdName_post ..)) fun p5 h5 => ?_)
  refine (Post_bind ..).mpr (Post.mono (rdRelay_post ..) fun p6 h6 => ?_)
  intro n hn hN
  simp only [TwanId.marshal, tliv_length] at hn
  exact ⟨rfl, Nat.add_right_cancel hn, and15 _, h1, h2, h3, h4, h5, h6.1, h6.2.1, h6.2.2⟩

theorem UliTimestamp.stable (m : Mode) (b : Bytes) : (UliTimestamp.unmarshal m b).Post fun x => ∀ n : UInt16, n.toNat + 4 = x.marshal.length → n.toNat < 65532 →
    ({ x with length := n } : UliTimestamp).WF := by
  unfold UliTimestamp.unmarshal
  try simp only []
  stable_steps
  all_goals (simp only [UliTimestamp.WF, UliTimestamp.marshal])
  all_goals skip
  all_goals stable_fin []

theorem MbmsFlags.stable (m : Mode) (b : Bytes) : (MbmsFlags.unmarshal m b).Post fun x => ∀ n : UInt16, n.toNat + 4 = x.marshal.length → n.toNat < 65532 →
    ({ x with length := n } : MbmsFlags).WF := by
  unfold MbmsFlags.unmarshal
  try simp only []
  stable_steps
  all_goals (simp only [MbmsFlags.WF, MbmsFlags.marshal])
  all_goals skip
  all_goals stable_fin []

theorem RanNasCause.stable (m : Mode) (b : Bytes) : (RanNasCause.unmarshal m b).Post fun x => ∀ n : UInt16, n.toNat + 4 = x.marshal.length → n.toNat < 65532 →
    ({ x with length := n } : RanNasCause).WF := by
  unfold RanNasCause.unmarshal
  try simp only []
  stable_steps
  all_goals (simp only [RanNasCause.WF, RanNasCause.marshal])
  all_goals skip
  all_goals stable_fin [CauseValue.octets, CauseValue.size, s1ap_len]

theorem CnOperatorSelectionEntity.stable (m : Mode) (b : Bytes) : (CnOperatorSelectionEntity.unmarshal m b).Post fun x => ∀ n : UInt16, n.toNat + 4 = x.marshal.length → n.toNat < 65532 →
    ({ x with length := n } : CnOperatorSelectionEntity).WF := by
  unfold CnOperatorSelectionEntity.unmarshal
  try simp only []
  stable_steps
  all_goals (simp only [CnOperatorSelectionEntity.WF, CnOperatorSelectionEntity.marshal])
  all_goals skip
  all_goals stable_fin []

theorem Twmi.stable (m : Mode) (b : Bytes) : (Twmi.unmarshal m b).Post fun x => ∀ n : UInt16, n.toNat + 4 = x.marshal.length → n.toNat < 65532 →
    ({ x with length := n } : Twmi).WF := by
  unfold Twmi.unmarshal
  try simp only []
  stable_steps
  all_goals (simp only [Twmi.WF, Twmi.marshal])
  all_goals skip
  all_goals stable_fin []

theorem NodeNumber.stable (m : Mode) (b : Bytes) : (NodeNumber.unmarshal m b).Post fun x => ∀ n : UInt16, n.toNat + 4 = x.marshal.length → n.toNat < 65532 →
    ({ x with length := n } : NodeNumber).WF := by
  unfold NodeNumber.unmarshal
  try simp only []
  stable_steps
  all_goals (simp only [NodeNumber.WF, NodeNumber.marshal])
  all_goals skip
  all_goals stable_fin []

theorem NodeIdentifier.stable (m : Mode) (b : Bytes) : (NodeIdentifier.unmarshal m b).Post fun x => ((∀ c ∈ x.node_name, IsAscii c) ∧ ∀ c ∈ x.node_realm, IsAscii c) → ∀ n : UInt16, n.toNat + 4 = x.marshal.length → n.toNat < 65532 →
    ({ x with length := n } : NodeIdentifier).WF := by
  unfold NodeIdentifier.unmarshal
  try simp only []
  stable_steps
  all_goals (simp only [NodeIdentifier.WF, NodeIdentifier.marshal])
  all_goals intro h0
  all_goals stable_fin [utf8_length h0.1, utf8_length h0.2, latin1_length]
  all_goals first | exact h0.1 | exact h0.2

theorem PresenceReportingAreaAction.stable (m : Mode) (b : Bytes) : (PresenceReportingAreaAction.unmarshal m b).Post fun x => x.ext_macro_enb.length ≤ 63 → ∀ n : UInt16, n.toNat + 4 = x.marshal.length → n.toNat < 65532 →
    ({ x with length := n } : PresenceReportingAreaAction).WF := by
  unfold PresenceReportingAreaAction.unmarshal
  refine Post_ite_any ?_ trivial
  refine Post_bind_any fun _ => Post_bind_any fun _ => Post_bind_chk (fun hl => ?_) trivial
  simp only [if_true]
  refine Post_bind_any fun _ => Post_bind_rd24 fun _ hp => Post_bind_any fun n0 => Post_bind_any fun n1 => Post_bind_any fun n2 =>
    Post_bind_any fun n3 => Post_bind_any fun n4 => Post_bind_any fun n5 => Post_ite_any trivial ?_
  refine Post_bind_rdElems Tai.WF Tai.stable fun l1 _ a1 b1 => ?_
  refine Post_bind_rdElems MacroEnbId.WF MacroEnbId.stable fun l2 _ a2 b2 => ?_
  refine Post_bind_rdElems MacroEnbId.WF MacroEnbId.stable fun l3 _ a3 b3 => ?_
  refine Post_bind_rdElems Ecgi.WF Ecgi.stable fun l4 _ a4 b4 => ?_
  refine Post_bind_rdElems Rai.WF Rai.stable fun l5 _ a5 b5 => ?_
  refine Post_bind_rdElems Sai.WF Sai.stable fun l6 _ a6 b6 => ?_
  refine Post_bind_rdElems Cgi.WF Cgi.stable fun l7 c a7 b7 => ?_
  have := and15n n0; have := shr4 n0; have := and63n n1; have := and63n n2; have := and63n n3; have := and63n n4; have := and63n n5
  have key : ∀ l8 : List ExtMacroEnbId, (∀ y ∈ l8, y.WF) → ∀ (l : UInt16) (i : UInt8) (ia : Bool) (f : UInt8) (p : UInt32), p.toNat < 16777216 →
      ∀ x : PresenceReportingAreaAction, x = { t := 177, length := l, ins := i &&& 15, inapra := ia, action := (f &&& 0x07), prai := p, tai := l1, rai := l5, macro_enb := l2, home_enb := l3, ecgi := l4, sai := l6, cgi := l7, ext_macro_enb := l8 } →
      x.ext_macro_enb.length ≤ 63 → ∀ n : UInt16, n.toNat + 4 = x.marshal.length → n.toNat < 65532 →
      ({ x with length := n } : PresenceReportingAreaAction).WF := by
    rintro l8 b8 l i ia f p hp x rfl h8 n hn hN
    simp only at h8
    simp only [PresenceReportingAreaAction.marshal, tliv_length, be24, List.length_append, List.length_cons, List.length_nil,
      List.take_of_length_le (l := l1) (i := 15) (by omega), List.take_of_length_le (l := l2) (i := 63) (by omega),
      List.take_of_length_le (l := l3) (i := 63) (by omega), List.take_of_length_le (l := l4) (i := 63) (by omega),
      List.take_of_length_le (l := l5) (i := 15) (by omega), List.take_of_length_le (l := l6) (i := 63) (by omega),
      List.take_of_length_le (l := l7) (i := 63) (by omega), List.take_of_length_le (l := l8) (i := 63) (by omega),
      rdElems_flat fun x hx => (Tai.elem x (b1 x hx)).1, rdElems_flat fun x hx => (MacroEnbId.elem x (b2 x hx)).1,
      rdElems_flat fun x hx => (MacroEnbId.elem x (b3 x hx)).1, rdElems_flat fun x hx => (Ecgi.elem x (b4 x hx)).1,
      rdElems_flat fun x hx => (Rai.elem x (b5 x hx)).1, rdElems_flat fun x hx => (Sai.elem x (b6 x hx)).1,
      rdElems_flat fun x hx => (Cgi.elem x (b7 x hx)).1, rdElems_flat fun x hx => (ExtMacroEnbId.elem x (b8 x hx)).1] at hn
    refine ⟨rfl, ?_, and15 _, hN, and7 _, hp, ?_, ?_, ?_, ?_, ?_, ?_, ?_, h8, b1, b5, b2, b3, b4, b6, b7, b8⟩
    all_goals (simp only; omega)
  refine Post_bind_ite (fun _ => ?_) fun _ => ?_
  · refine Post_bind_bind (Post_bind_any fun _ => Post_bind_bind (Post_bind_rdElems ExtMacroEnbId.WF ExtMacroEnbId.stable fun l8 _ _ b8 => ?_))
    exact key l8 b8 _ _ _ _ _ hp _ rfl
  · exact key [] (by simp) _ _ _ _ _ hp _ rfl

theorem PresenceReportingAreaInformation.stable (m : Mode) (b : Bytes) : (PresenceReportingAreaInformation.unmarshal m b).Post fun x => (∃ q, x.add_prai = some [q]) → ∀ n : UInt16, n.toNat + 4 = x.marshal.length → n.toNat < 65532 →
    ({ x with length := n } : PresenceReportingAreaInformation).WF := by
  unfold PresenceReportingAreaInformation.unmarshal
  refine Post_ite_any ?_ trivial
  refine Post_bind_any fun _ => Post_bind_any fun _ => Post_bind_any fun a => Post_bind_any fun b => Post_bind_any fun c => Post_bind_any fun d => ?_
  simp only
  refine Post_ite' (fun _ => Post_bind_any fun r => ?_) fun _ => ?_
  · rintro ⟨q, hq⟩ n hn hN
    simp only [PresenceReportingAreaInformation.marshal, tliv_length] at hn
    simp only at hq
    rw [Option.some.inj hq] at hn
    have h1 := PresenceReportingArea.chain_length (PresenceReportingArea.ofOctets a b c d :: [q])
    simp only [List.length_cons, List.length_nil] at h1
    have h2 := more_val r
    refine ⟨rfl, by simp only; simp only [h1] at hn; omega, and15 _, ⟨q, by simp only [hq]; simp, hq⟩, ?_⟩
    intro p hp
    simp only [Option.getD_some, List.mem_cons] at hp
    rcases hp with rfl | hp
    · exact ofOctets_val ..
    · exact h2 p hp
  · rintro ⟨q, hq⟩
    cases hq

theorem TwanIdTimeStamp.stable (m : Mode) (b : Bytes) : (TwanIdTimeStamp.unmarshal m b).Post fun x => ∀ n : UInt16, n.toNat + 4 = x.marshal.length → n.toNat < 65532 →
    ({ x with length := n } : TwanIdTimeStamp).WF := by
  unfold TwanIdTimeStamp.unmarshal
  try simp only []
  stable_steps
  all_goals (simp only [TwanIdTimeStamp.WF, TwanIdTimeStamp.marshal])
  all_goals skip
  all_goals stable_fin []

theorem Metric.stable (m : Mode) (b : Bytes) : (Metric.unmarshal m b).Post fun x => ∀ n : UInt16, n.toNat + 4 = x.marshal.length → n.toNat < 65532 →
    ({ x with length := n } : Metric).WF := by
  unfold Metric.unmarshal
  try simp only []
  stable_steps
  all_goals (simp only [Metric.WF, Metric.marshal])
  all_goals skip
  all_goals stable_fin []
  all_goals exact UInt8.not_lt.mp ‹_›

theorem Sqn.stable (m : Mode) (b : Bytes) : (Sqn.unmarshal m b).Post fun x => ∀ n : UInt16, n.toNat + 4 = x.marshal.length → n.toNat < 65532 →
    ({ x with length := n } : Sqn).WF := by
  unfold Sqn.unmarshal
  try simp only []
  stable_steps
  all_goals (simp only [Sqn.WF, Sqn.marshal])
  all_goals skip
  all_goals stable_fin []

theorem ApnRelativeCapacity.stable (m : Mode) (b : Bytes) : (ApnRelativeCapacity.unmarshal m b).Post fun x => (NameOk x.name) → ∀ n : UInt16, n.toNat + 4 = x.marshal.length → n.toNat < 65532 →
    ({ x with length := n } : ApnRelativeCapacity).WF := by
  unfold ApnRelativeCapacity.unmarshal
  try simp only []
  stable_steps
  all_goals (simp only [ApnRelativeCapacity.WF, ApnRelativeCapacity.marshal])
  all_goals intro h0
  all_goals stable_fin [encName_length h0]
  all_goals first | exact h0.1 | exact h0.2 | exact cap_le _

theorem WlanOffloadIndication.stable (m : Mode) (b : Bytes) : (WlanOffloadIndication.unmarshal m b).Post fun x => ∀ n : UInt16, n.toNat + 4 = x.marshal.length → n.toNat < 65532 →
    ({ x with length := n } : WlanOffloadIndication).WF := by
  unfold WlanOffloadIndication.unmarshal
  try simp only []
  stable_steps
  all_goals (simp only [WlanOffloadIndication.WF, WlanOffloadIndication.marshal])
  all_goals skip
  all_goals stable_fin []

theorem PagingServiceInfo.stable (m : Mode) (b : Bytes) : (PagingServiceInfo.unmarshal m b).Post fun x => ∀ n : UInt16, n.toNat + 4 = x.marshal.length → n.toNat < 65532 →
    ({ x with length := n } : PagingServiceInfo).WF := by
  unfold PagingServiceInfo.unmarshal
  try simp only []
  stable_steps
  all_goals (simp only [PagingServiceInfo.WF, PagingServiceInfo.marshal])
  all_goals skip
  all_goals stable_fin []

theorem IntegerNumber.stable (m : Mode) (b : Bytes) : (IntegerNumber.unmarshal m b).Post fun x => ∀ n : UInt16, n.toNat + 4 = x.marshal.length → n.toNat < 65532 →
    ({ x with length := n } : IntegerNumber).WF := by
  unfold IntegerNumber.unmarshal
  try simp only []
  stable_steps
  all_goals (simp only [IntegerNumber.WF, IntegerNumber.marshal])
  all_goals skip
  all_goals stable_fin []

theorem MilliSecondTimeStamp.stable (m : Mode) (b : Bytes) : (MilliSecondTimeStamp.unmarshal m b).Post fun x => ∀ n : UInt16, n.toNat + 4 = x.marshal.length → n.toNat < 65532 →
    ({ x with length := n } : MilliSecondTimeStamp).WF := by
  unfold MilliSecondTimeStamp.unmarshal
  try simp only []
  stable_steps
  all_goals (simp only [MilliSecondTimeStamp.WF, MilliSecondTimeStamp.marshal])
  all_goals skip
  all_goals stable_fin []

theorem MonitoringEventInformation.stable (m : Mode) (b : Bytes) : (MonitoringEventInformation.unmarshal m b).Post fun x => ∀ n : UInt16, n.toNat + 4 = x.marshal.length → n.toNat < 65532 →
    ({ x with length := n } : MonitoringEventInformation).WF := by
  unfold MonitoringEventInformation.unmarshal
  try simp only []
  stable_steps
  all_goals (simp only [MonitoringEventInformation.WF, MonitoringEventInformation.marshal])
  all_goals skip
  all_goals stable_fin []

theorem EcgiList.stable (m : Mode) (b : Bytes) : (EcgiList.unmarshal m b).Post fun x => ∀ n : UInt16, n.toNat + 4 = x.marshal.length → n.toNat < 65532 →
    ({ x with length := n } : EcgiList).WF := by
  unfold EcgiList.unmarshal
  refine Post_ite_any ?_ trivial
  refine Post_bind_any fun _ => Post_bind_any fun _ => Post_bind_any fun k => ?_
  refine Post_ite' (fun _ => ?_) fun hk => Post_ite_any ?_ trivial
  · intro n hn hN
    simp only [EcgiList.marshal, tliv_length, List.length_cons, List.length_nil] at hn
    exact ⟨rfl, by simp; omega, and15 _, by simp, by simp⟩
  · refine Post_bind_rdElems Ecgi.WF Ecgi.stable fun l c h1 h2 => ?_
    intro n hn hN
    simp only [EcgiList.marshal, tliv_length, be16, List.length_append, List.length_cons, List.length_nil,
      rdElems_flat fun x hx => (Ecgi.elem x (h2 x hx)).1] at hn
    refine ⟨rfl, by simp; omega, and15 _, h2, ?_⟩
    rintro ⟨⟩
    exact hk (UInt16.toNat_inj.mp h1.symm)

theorem RemoteUserId.stable (m : Mode) (b : Bytes) : (RemoteUserId.unmarshal m b).Post fun x => ∀ n : UInt16, n.toNat + 4 = x.marshal.length → n.toNat < 65532 →
    ({ x with length := n } : RemoteUserId).WF := by
  unfold RemoteUserId.unmarshal
  try simp only [rdStr]
  stable_steps
  all_goals (simp only [RemoteUserId.WF, RemoteUserId.marshal])
  all_goals skip
  all_goals stable_fin [RemoteUserId.lv, Option.mem_def, Option.some.injEq, forall_eq']

theorem RemoteUeIpInformation.stable (m : Mode) (b : Bytes) : (RemoteUeIpInformation.unmarshal m b).Post fun x => ∀ n : UInt16, n.toNat + 4 = x.marshal.length → n.toNat < 65532 →
    ({ x with length := n } : RemoteUeIpInformation).WF := by
  unfold RemoteUeIpInformation.unmarshal
  try simp only []
  stable_steps
  all_goals (simp only [RemoteUeIpInformation.WF, RemoteUeIpInformation.marshal])
  all_goals skip
  all_goals stable_fin []

theorem CIoTOptimizationSupportIndication.stable (m : Mode) (b : Bytes) : (CIoTOptimizationSupportIndication.unmarshal m b).Post fun x => ∀ n : UInt16, n.toNat + 4 = x.marshal.length → n.toNat < 65532 →
    ({ x with length := n } : CIoTOptimizationSupportIndication).WF := by
  unfold CIoTOptimizationSupportIndication.unmarshal
  try simp only []
  stable_steps
  all_goals (simp only [CIoTOptimizationSupportIndication.WF, CIoTOptimizationSupportIndication.marshal])
  all_goals skip
  all_goals stable_fin []

theorem HeaderCompressionConfiguration.stable (m : Mode) (b : Bytes) : (HeaderCompressionConfiguration.unmarshal m b).Post fun x => ∀ n : UInt16, n.toNat + 4 = x.marshal.length → n.toNat < 65532 →
    ({ x with length := n } : HeaderCompressionConfiguration).WF := by
  unfold HeaderCompressionConfiguration.unmarshal
  try simp only []
  stable_steps
  all_goals (simp only [HeaderCompressionConfiguration.WF, HeaderCompressionConfiguration.marshal])
  all_goals skip
  all_goals stable_fin []
  exact profiles_sub _

theorem Epco.stable (m : Mode) (b : Bytes) : (Epco.unmarshal m b).Post fun x => ∀ n : UInt16, n.toNat + 4 = x.marshal.length → n.toNat < 65532 →
    ({ x with length := n } : Epco).WF := by
  unfold Epco.unmarshal
  try simp only []
  stable_steps
  all_goals (simp only [Epco.WF, Epco.marshal])
  all_goals skip
  all_goals stable_fin []

theorem ServingPlmnRateControl.stable (m : Mode) (b : Bytes) : (ServingPlmnRateControl.unmarshal m b).Post fun x => ∀ n : UInt16, n.toNat + 4 = x.marshal.length → n.toNat < 65532 →
    ({ x with length := n } : ServingPlmnRateControl).WF := by
  unfold ServingPlmnRateControl.unmarshal
  try simp only []
  stable_steps
  all_goals (simp only [ServingPlmnRateControl.WF, ServingPlmnRateControl.marshal])
  all_goals skip
  all_goals stable_fin []

theorem Counter.stable (m : Mode) (b : Bytes) : (Counter.unmarshal m b).Post fun x => ∀ n : UInt16, n.toNat + 4 = x.marshal.length → n.toNat < 65532 →
    ({ x with length := n } : Counter).WF := by
  unfold Counter.unmarshal
  try simp only []
  stable_steps
  all_goals (simp only [Counter.WF, Counter.marshal])
  all_goals skip
  all_goals stable_fin []

theorem MappedUeUsageType.stable (m : Mode) (b : Bytes) : (MappedUeUsageType.unmarshal m b).Post fun x => ∀ n : UInt16, n.toNat + 4 = x.marshal.length → n.toNat < 65532 →
    ({ x with length := n } : MappedUeUsageType).WF := by
  unfold MappedUeUsageType.unmarshal
  try simp only []
  stable_steps
  all_goals (simp only [MappedUeUsageType.WF, MappedUeUsageType.marshal])
  all_goals skip
  all_goals stable_fin []

theorem SecondaryRatUsageDataReport.stable (m : Mode) (b : Bytes) : (SecondaryRatUsageDataReport.unmarshal m b).Post fun x => ∀ n : UInt16, n.toNat + 4 = x.marshal.length → n.toNat < 65532 →
    ({ x with length := n } : SecondaryRatUsageDataReport).WF := by
  unfold SecondaryRatUsageDataReport.unmarshal
  try simp only []
  stable_steps
  all_goals (simp only [SecondaryRatUsageDataReport.WF, SecondaryRatUsageDataReport.marshal])
  all_goals skip
  all_goals stable_fin []

theorem UpFunctionSelectionIndicationFlags.stable (m : Mode) (b : Bytes) : (UpFunctionSelectionIndicationFlags.unmarshal m b).Post fun x => ∀ n : UInt16, n.toNat + 4 = x.marshal.length → n.toNat < 65532 →
    ({ x with length := n } : UpFunctionSelectionIndicationFlags).WF := by
  unfold UpFunctionSelectionIndicationFlags.unmarshal
  try simp only []
  stable_steps
  all_goals (simp only [UpFunctionSelectionIndicationFlags.WF, UpFunctionSelectionIndicationFlags.marshal])
  all_goals skip
  all_goals stable_fin []

theorem MaxPacketLossRate.stable (m : Mode) (b : Bytes) : (MaxPacketLossRate.unmarshal m b).Post fun x => ∀ n : UInt16, n.toNat + 4 = x.marshal.length → n.toNat < 65532 →
    ({ x with length := n } : MaxPacketLossRate).WF := by
  unfold MaxPacketLossRate.unmarshal
  try simp only []
  stable_steps
  all_goals (simp only [MaxPacketLossRate.WF, MaxPacketLossRate.marshal])
  all_goals skip
  all_goals stable_fin []

theorem ApnRateControlStatus.stable (m : Mode) (b : Bytes) : (ApnRateControlStatus.unmarshal m b).Post fun x => ∀ n : UInt16, n.toNat + 4 = x.marshal.length → n.toNat < 65532 →
    ({ x with length := n } : ApnRateControlStatus).WF := by
  unfold ApnRateControlStatus.unmarshal
  try simp only []
  stable_steps
  all_goals (simp only [ApnRateControlStatus.WF, ApnRateControlStatus.marshal])
  all_goals skip
  all_goals stable_fin []

theorem ExtendedTraceInformation.stable (m : Mode) (b : Bytes) : (ExtendedTraceInformation.unmarshal m b).Post fun x => ∀ n : UInt16, n.toNat + 4 = x.marshal.length → n.toNat < 65532 →
    ({ x with length := n } : ExtendedTraceInformation).WF := by
  unfold ExtendedTraceInformation.unmarshal
  try simp only [rdLvC]
  stable_steps
  all_goals (simp only [ExtendedTraceInformation.WF, ExtendedTraceInformation.marshal])
  all_goals skip
  all_goals stable_fin []

theorem MonitoringEventExtensionInfo.stable (m : Mode) (b : Bytes) : (MonitoringEventExtensionInfo.unmarshal m b).Post fun x => ∀ n : UInt16, n.toNat + 4 = x.marshal.length → n.toNat < 65532 →
    ({ x with length := n } : MonitoringEventExtensionInfo).WF := by
  unfold MonitoringEventExtensionInfo.unmarshal
  try simp only []
  stable_steps
  all_goals (simp only [MonitoringEventExtensionInfo.WF, MonitoringEventExtensionInfo.marshal])
  all_goals skip
  all_goals stable_fin []

theorem AdditionalRrmPolicyIndex.stable (m : Mode) (b : Bytes) : (AdditionalRrmPolicyIndex.unmarshal m b).Post fun x => ∀ n : UInt16, n.toNat + 4 = x.marshal.length → n.toNat < 65532 →
    ({ x with length := n } : AdditionalRrmPolicyIndex).WF := by
  unfold AdditionalRrmPolicyIndex.unmarshal
  try simp only []
  stable_steps
  all_goals (simp only [AdditionalRrmPolicyIndex.WF, AdditionalRrmPolicyIndex.marshal])
  all_goals skip
  all_goals stable_fin []

theorem ServicesAuthorized.stable (m : Mode) (b : Bytes) : (ServicesAuthorized.unmarshal m b).Post fun x => ∀ n : UInt16, n.toNat + 4 = x.marshal.length → n.toNat < 65532 →
    ({ x with length := n } : ServicesAuthorized).WF := by
  unfold ServicesAuthorized.unmarshal
  try simp only []
  stable_steps
  all_goals (simp only [ServicesAuthorized.WF, ServicesAuthorized.marshal])
  all_goals skip
  all_goals stable_fin []

theorem BitRate.stable (m : Mode) (b : Bytes) : (BitRate.unmarshal m b).Post fun x => ∀ n : UInt16, n.toNat + 4 = x.marshal.length → n.toNat < 65532 →
    ({ x with length := n } : BitRate).WF := by
  unfold BitRate.unmarshal
  try simp only []
  stable_steps
  all_goals (simp only [BitRate.WF, BitRate.marshal])
  all_goals skip
  all_goals stable_fin []

theorem PC5QosFlow.stable (m : Mode) (b : Bytes) : (PC5QosFlow.unmarshal m b).Post fun x => ∀ n : UInt16, n.toNat + 4 = x.marshal.length → n.toNat < 65532 →
    ({ x with length := n } : PC5QosFlow).WF := by
  unfold PC5QosFlow.unmarshal
  try simp only []
  stable_steps
  all_goals (simp only [PC5QosFlow.WF, PC5QosFlow.marshal])
  all_goals skip
  all_goals stable_fin []

theorem SgiPtpTunnelAddress.stable (m : Mode) (b : Bytes) : (SgiPtpTunnelAddress.unmarshal m b).Post fun x => ∀ n : UInt16, n.toNat + 4 = x.marshal.length → n.toNat < 65532 →
    ({ x with length := n } : SgiPtpTunnelAddress).WF := by
  unfold SgiPtpTunnelAddress.unmarshal
  try simp only []
  stable_steps
  all_goals (simp only [SgiPtpTunnelAddress.WF, SgiPtpTunnelAddress.marshal])
  all_goals skip
  all_goals stable_fin []

theorem PgwFqdn.stable (m : Mode) (b : Bytes) : (PgwFqdn.unmarshal m b).Post fun x => (NameOk x.name) → ∀ n : UInt16, n.toNat + 4 = x.marshal.length → n.toNat < 65532 →
    ({ x with length := n } : PgwFqdn).WF := by
  unfold PgwFqdn.unmarshal
  try simp only []
  stable_steps
  all_goals (simp only [PgwFqdn.WF, PgwFqdn.marshal])
  all_goals intro h0
  all_goals stable_fin [encName_length h0]
  · exact h0.1
  · exact h0.2

theorem GroupId.stable (m : Mode) (b : Bytes) : (GroupId.unmarshal m b).Post fun x => ∀ n : UInt16, n.toNat + 4 = x.marshal.length → n.toNat < 65532 →
    ({ x with length := n } : GroupId).WF := by
  unfold GroupId.unmarshal
  try simp only []
  stable_steps
  all_goals (simp only [GroupId.WF, GroupId.marshal])
  all_goals skip
  all_goals stable_fin []

theorem PSCellId.stable (m : Mode) (b : Bytes) : (PSCellId.unmarshal m b).Post fun x => ∀ n : UInt16, n.toNat + 4 = x.marshal.length → n.toNat < 65532 →
    ({ x with length := n } : PSCellId).WF := by
  unfold PSCellId.unmarshal
  try simp only []
  stable_steps
  all_goals (simp only [PSCellId.WF, PSCellId.marshal])
  all_goals skip
  all_goals stable_fin []

theorem UpSecurityPolicy.stable (m : Mode) (b : Bytes) : (UpSecurityPolicy.unmarshal m b).Post fun x => ∀ n : UInt16, n.toNat + 4 = x.marshal.length → n.toNat < 65532 →
    ({ x with length := n } : UpSecurityPolicy).WF := by
  unfold UpSecurityPolicy.unmarshal
  try simp only []
  stable_steps
  all_goals (simp only [UpSecurityPolicy.WF, UpSecurityPolicy.marshal])
  all_goals skip
  all_goals stable_fin []

theorem AlternativeImsi.stable (m : Mode) (b : Bytes) : (AlternativeImsi.unmarshal m b).Post fun x => (x.imsi ≠ []) → ∀ n : UInt16, n.toNat + 4 = x.marshal.length → n.toNat < 65532 →
    ({ x with length := n } : AlternativeImsi).WF := by
  unfold AlternativeImsi.unmarshal
  try simp only []
  stable_steps
  all_goals (simp only [AlternativeImsi.WF, AlternativeImsi.marshal])
  all_goals intro h0
  all_goals stable_fin []

theorem SpecialIEWithTypeExt.stable (m : Mode) (b : Bytes) : (SpecialIEWithTypeExt.unmarshal m b).Post fun x => ∀ n : UInt16, n.toNat + 4 = x.marshal.length → n.toNat < 65532 →
    ({ x with length := n } : SpecialIEWithTypeExt).WF := by
  unfold SpecialIEWithTypeExt.unmarshal
  try simp only []
  stable_steps
  all_goals (simp only [SpecialIEWithTypeExt.WF, SpecialIEWithTypeExt.marshal])
  all_goals skip
  all_goals stable_fin []

theorem PrivateExtension.stable (m : Mode) (b : Bytes) : (PrivateExtension.unmarshal m b).Post fun x => (x.value ≠ []) → ∀ n : UInt16, n.toNat + 4 = x.marshal.length → n.toNat < 65532 →
    ({ x with length := n } : PrivateExtension).WF := by
  unfold PrivateExtension.unmarshal
  try simp only []
  stable_steps
  all_goals (simp only [PrivateExtension.WF, PrivateExtension.marshal])
  all_goals intro h0
  all_goals stable_fin []

theorem Unknown.stable (m : Mode) (b : Bytes) : (Unknown.unmarshal m b).Post fun x => ∀ n : UInt16, n.toNat + 4 = (tliv x.t x.length x.ins x.value).length → n.toNat < 65532 →
    (IE.Unknown { x with length := n }).WF := by
  unfold Unknown.unmarshal
  stable_steps
  all_goals (simp only [IE.WF, IE.WFWith])
  all_goals stable_fin []

/-- The IEs for which the decoded value is written so that it can be read again. Grouped IEs are left out (see `IE.Good`); a
trace reference and a TWAN identifier are written with the type of another IE. -/
def IE.Faithful : IE → Prop
  | .Imsi x => x.imsi ≠ []
  | .Apn x => NameOk x.name
  | .Mei x => (x.mei.length + 1) / 2 = 8
  | .Msisdn x => x.msisdn ≠ []
  | .BearerContext _ => False
  | .MmContext x => x.Faithful
  | .PdnConnections _ => False
  | .TraceReference _ => False
  | .TargetIdentification x => x.target_type.Faithful
  | .SourceIdentification x => x.source_type.Faithful
  | .Fqdn x => NameOk x.name
  | .Uci x => x.csgid.toNat < 2 ^ 27
  | .Ldn x => ∀ c ∈ x.name, IsAscii c
  | .AdditionalMmContextForSrvcc x => x.mobile_station_classmark2 ≠ none ∧ x.mobile_station_classmark3 ≠ none
  | .MdtConfiguration x => x.mdt_plmns_list = none
  | .TwanId _ => False
  | .NodeIdentifier x => (∀ c ∈ x.node_name, IsAscii c) ∧ ∀ c ∈ x.node_realm, IsAscii c
  | .PresenceReportingAreaAction x => x.ext_macro_enb.length ≤ 63
  | .PresenceReportingAreaInformation x => ∃ q, x.add_prai = some [q]
  | .OverloadControlInfo _ => False
  | .LoadControlInfo _ => False
  | .ApnRelativeCapacity x => NameOk x.name
  | .RemoteUeContext _ => False
  | .ScefPdnConnections _ => False
  | .V2xInformation _ => False
  | .PC5QosParameters _ => False
  | .PgwChangeInfo _ => False
  | .PgwFqdn x => NameOk x.name
  | .AlternativeImsi x => x.imsi ≠ []
  | .PrivateExtension x => x.value ≠ []
  | _ => True

theorem unmKind_stable (dec : Bytes → R Err (List IE)) (m : Mode) (b : Bytes) (k : Kind) :
    (unmKind dec m b k).Post fun e => e.Faithful → ∀ n : UInt16, n.toNat + 4 = e.marshal.length → n.toNat < 65532 → (e.setLength n).WF := by
  cases k with
  | Imsi => simp only [unmKind]; rw [Post_bind]; exact Post.mono (Imsi.stable m b) fun _ h => h
  | Cause => simp only [unmKind]; rw [Post_bind]; exact Post.mono (Cause.stable m b) fun _ h _ => h
  | Recovery => simp only [unmKind]; rw [Post_bind]; exact Post.mono (Recovery.stable m b) fun _ h _ => h
  | StnSr => simp only [unmKind]; rw [Post_bind]; exact Post.mono (StnSr.stable m b) fun _ h _ => h
  | SrvccCause => simp only [unmKind]; rw [Post_bind]; exact Post.mono (SrvccCause.stable m b) fun _ h _ => h
  | Apn => simp only [unmKind]; rw [Post_bind]; exact Post.mono (Apn.stable m b) fun _ h => h
  | ApnAmbr => simp only [unmKind]; rw [Post_bind]; exact Post.mono (Ambr.stable m b) fun _ h _ => h
  | Ebi => simp only [unmKind]; rw [Post_bind]; exact Post.mono (Ebi.stable m b) fun _ h _ => h
  | IpAddress => simp only [unmKind]; rw [Post_bind]; exact Post.mono (IpAddress.stable m b) fun _ h _ => h
  | Mei => simp only [unmKind]; rw [Post_bind]; exact Post.mono (Mei.stable m b) fun _ h => h
  | Msisdn => simp only [unmKind]; rw [Post_bind]; exact Post.mono (Msisdn.stable m b) fun _ h => h
  | Indication => simp only [unmKind]; rw [Post_bind]; exact Post.mono (Indication.stable m b) fun _ h _ => h
  | Pco => simp only [unmKind]; rw [Post_bind]; exact Post.mono (Pco.stable m b) fun _ h _ => h
  | PdnAddressAllocation => simp only [unmKind]; rw [Post_bind]; exact Post.mono (PdnAddressAllocation.stable m b) fun _ h _ => h
  | BearerQos => simp only [unmKind]; rw [Post_bind]; exact Post.mono (BearerQos.stable m b) fun _ h _ => h
  | FlowQos => simp only [unmKind]; rw [Post_bind]; exact Post.mono (FlowQos.stable m b) fun _ h _ => h
  | RatType => simp only [unmKind]; rw [Post_bind]; exact Post.mono (RatType.stable m b) fun _ h _ => h
  | ServingNetwork => simp only [unmKind]; rw [Post_bind]; exact Post.mono (ServingNetwork.stable m b) fun _ h _ => h
  | BearerTft => simp only [unmKind]; rw [Post_bind]; exact Post.mono (BearerTft.stable m b) fun _ h _ => h
  | TrafficAggregateDescription => simp only [unmKind]; rw [Post_bind]; exact Post.mono (TrafficAggregateDescription.stable m b) fun _ h _ => h
  | Uli => simp only [unmKind]; rw [Post_bind]; exact Post.mono (Uli.stable m b) fun _ h _ => h
  | Fteid => simp only [unmKind]; rw [Post_bind]; exact Post.mono (Fteid.stable m b) fun _ h _ => h
  | Tmsi => simp only [unmKind]; rw [Post_bind]; exact Post.mono (Tmsi.stable m b) fun _ h _ => h
  | GlobalCnId => simp only [unmKind]; rw [Post_bind]; exact Post.mono (GlobalCnId.stable m b) fun _ h _ => h
  | S103pdf => simp only [unmKind]; rw [Post_bind]; exact Post.mono (S103pdf.stable m b) fun _ h _ => h
  | S1udf => simp only [unmKind]; rw [Post_bind]; exact Post.mono (S1udf.stable m b) fun _ h _ => h
  | DelayValue => simp only [unmKind]; rw [Post_bind]; exact Post.mono (DelayValue.stable m b) fun _ h _ => h
  | BearerContext =>
    simp only [unmKind]; repeat refine Post_bind_any fun _ => ?_
    first | exact fun h => False.elim h | exact Post_ite_any trivial fun h => False.elim h
  | ChargingId => simp only [unmKind]; rw [Post_bind]; exact Post.mono (ChargingId.stable m b) fun _ h _ => h
  | ChargingCharacteristics => simp only [unmKind]; rw [Post_bind]; exact Post.mono (ChargingCharacteristics.stable m b) fun _ h _ => h
  | TraceInformation => simp only [unmKind]; rw [Post_bind]; exact Post.mono (TraceInformation.stable m b) fun _ h _ => h
  | BearerFlags => simp only [unmKind]; rw [Post_bind]; exact Post.mono (BearerFlags.stable m b) fun _ h _ => h
  | PdnType => simp only [unmKind]; rw [Post_bind]; exact Post.mono (PdnType.stable m b) fun _ h _ => h
  | Pti => simp only [unmKind]; rw [Post_bind]; exact Post.mono (Pti.stable m b) fun _ h _ => h
  | MmContext => simp only [unmKind]; rw [Post_bind]; exact Post.mono (MmContext.stable m b) fun _ h => h
  | PdnConnections =>
    simp only [unmKind]; repeat refine Post_bind_any fun _ => ?_
    first | exact fun h => False.elim h | exact Post_ite_any trivial fun h => False.elim h
  | PduNumbers => simp only [unmKind]; rw [Post_bind]; exact Post.mono (PduNumbers.stable m b) fun _ h _ => h
  | Ptmsi => simp only [unmKind]; rw [Post_bind]; exact Post.mono (Ptmsi.stable m b) fun _ h _ => h
  | PtmsiSignature => simp only [unmKind]; rw [Post_bind]; exact Post.mono (PtmsiSignature.stable m b) fun _ h _ => h
  | HopCounter => simp only [unmKind]; rw [Post_bind]; exact Post.mono (HopCounter.stable m b) fun _ h _ => h
  | UeTimeZone => simp only [unmKind]; rw [Post_bind]; exact Post.mono (UeTimeZone.stable m b) fun _ h _ => h
  | TraceReference =>
    simp only [unmKind]; repeat refine Post_bind_any fun _ => ?_
    first | exact fun h => False.elim h | exact Post_ite_any trivial fun h => False.elim h
  | CompleteRequestMessage => simp only [unmKind]; rw [Post_bind]; exact Post.mono (CompleteRequestMessage.stable m b) fun _ h _ => h
  | Guti => simp only [unmKind]; rw [Post_bind]; exact Post.mono (Guti.stable m b) fun _ h _ => h
  | Fcontainer => simp only [unmKind]; rw [Post_bind]; exact Post.mono (Fcontainer.stable m b) fun _ h _ => h
  | Fcause => simp only [unmKind]; rw [Post_bind]; exact Post.mono (Fcause.stable m b) fun _ h _ => h
  | PlmnId => simp only [unmKind]; rw [Post_bind]; exact Post.mono (PlmnId.stable m b) fun _ h _ => h
  | TargetIdentification => simp only [unmKind]; rw [Post_bind]; exact Post.mono (TargetIdentification.stable m b) fun _ h => h
  | PacketFlowId => simp only [unmKind]; rw [Post_bind]; exact Post.mono (PacketFlowId.stable m b) fun _ h _ => h
  | RabContext => simp only [unmKind]; rw [Post_bind]; exact Post.mono (RabContext.stable m b) fun _ h _ => h
  | SrcRncPdcpCtxInfo => simp only [unmKind]; rw [Post_bind]; exact Post.mono (SourceRncPdcpContextInfo.stable m b) fun _ h _ => h
  | PortNumber => simp only [unmKind]; rw [Post_bind]; exact Post.mono (PortNumber.stable m b) fun _ h _ => h
  | ApnRestriction => simp only [unmKind]; rw [Post_bind]; exact Post.mono (ApnRestriction.stable m b) fun _ h _ => h
  | SelectionMode => simp only [unmKind]; rw [Post_bind]; exact Post.mono (SelectionMode.stable m b) fun _ h _ => h
  | SourceIdentification => simp only [unmKind]; rw [Post_bind]; exact Post.mono (SourceIdentification.stable m b) fun _ h => h
  | ChangeReportingAction => simp only [unmKind]; rw [Post_bind]; exact Post.mono (ChangeReportingAction.stable m b) fun _ h _ => h
  | Fqcsid => simp only [unmKind]; rw [Post_bind]; exact Post.mono (Fqcsid.stable m b) fun _ h _ => h
  | ChannelNeeded => simp only [unmKind]; rw [Post_bind]; exact Post.mono (ChannelNeeded.stable m b) fun _ h _ => h
  | EmlppPriority => simp only [unmKind]; rw [Post_bind]; exact Post.mono (EmlppPriority.stable m b) fun _ h _ => h
  | NodeType => simp only [unmKind]; rw [Post_bind]; exact Post.mono (NodeType.stable m b) fun _ h _ => h
  | Fqdn => simp only [unmKind]; rw [Post_bind]; exact Post.mono (Fqdn.stable m b) fun _ h => h
  | TransactionIdentifier => simp only [unmKind]; rw [Post_bind]; exact Post.mono (TransactionIdentifier.stable m b) fun _ h _ => h
  | MbmsSa => simp only [unmKind]; rw [Post_bind]; exact Post.mono (MbmsServiceArea.stable m b) fun _ h _ => h
  | MbmsSd => simp only [unmKind]; rw [Post_bind]; exact Post.mono (MbmsSessionDuration.stable m b) fun _ h _ => h
  | MbmsSessionId => simp only [unmKind]; rw [Post_bind]; exact Post.mono (MbmsSessionId.stable m b) fun _ h _ => h
  | MbmsFlowId => simp only [unmKind]; rw [Post_bind]; exact Post.mono (MbmsFlowId.stable m b) fun _ h _ => h
  | MbmsIpMulticastDistribution => simp only [unmKind]; rw [Post_bind]; exact Post.mono (MbmsIpMulticastDistribution.stable m b) fun _ h _ => h
  | MbmsDistributionAck => simp only [unmKind]; rw [Post_bind]; exact Post.mono (MbmsDistributionAck.stable m b) fun _ h _ => h
  | RfspIndex => simp only [unmKind]; rw [Post_bind]; exact Post.mono (RfspIndex.stable m b) fun _ h _ => h
  | Uci => simp only [unmKind]; rw [Post_bind]; exact Post.mono (Uci.stable m b) fun _ h => h
  | CSGInformationReportingAction => simp only [unmKind]; rw [Post_bind]; exact Post.mono (CSGInformationReportingAction.stable m b) fun _ h _ => h
  | CsgId => simp only [unmKind]; rw [Post_bind]; exact Post.mono (CsgId.stable m b) fun _ h _ => h
  | CsgMembershipIndication => simp only [unmKind]; rw [Post_bind]; exact Post.mono (CsgMembershipIndication.stable m b) fun _ h _ => h
  | ServiceIndicator => simp only [unmKind]; rw [Post_bind]; exact Post.mono (ServiceIndicator.stable m b) fun _ h _ => h
  | DetachType => simp only [unmKind]; rw [Post_bind]; exact Post.mono (DetachType.stable m b) fun _ h _ => h
  | Ldn => simp only [unmKind]; rw [Post_bind]; exact Post.mono (Ldn.stable m b) fun _ h => h
  | NodeFeatures => simp only [unmKind]; rw [Post_bind]; exact Post.mono (NodeFeatures.stable m b) fun _ h _ => h
  | MbmsTimeToDataTransfer => simp only [unmKind]; rw [Post_bind]; exact Post.mono (MbmsTimeToDataTransfer.stable m b) fun _ h _ => h
  | Throttling => simp only [unmKind]; rw [Post_bind]; exact Post.mono (Throttling.stable m b) fun _ h _ => h
  | Arp => simp only [unmKind]; rw [Post_bind]; exact Post.mono (Arp.stable m b) fun _ h _ => h
  | EpcTimer => simp only [unmKind]; rw [Post_bind]; exact Post.mono (EpcTimer.stable m b) fun _ h _ => h
  | Spi => simp only [unmKind]; rw [Post_bind]; exact Post.mono (Spi.stable m b) fun _ h _ => h
  | Tmgi => simp only [unmKind]; rw [Post_bind]; exact Post.mono (Tmgi.stable m b) fun _ h _ => h
  | AdditionalMmContextForSrvcc => simp only [unmKind]; rw [Post_bind]; exact Post.mono (AdditionalMmContextForSrvcc.stable m b) fun _ h => h
  | AdditionalFlagsSrvcc => simp only [unmKind]; rw [Post_bind]; exact Post.mono (AdditionalFlagsSrvcc.stable m b) fun _ h _ => h
  | MdtConfiguration => simp only [unmKind]; rw [Post_bind]; exact Post.mono (MdtConfiguration.stable m b) fun _ h => h
  | Apco => simp only [unmKind]; rw [Post_bind]; exact Post.mono (Apco.stable m b) fun _ h _ => h
  | AbsoluteTimeMbmsDataTransfer => simp only [unmKind]; rw [Post_bind]; exact Post.mono (AbsoluteTimeMbmsDataTransfer.stable m b) fun _ h _ => h
  | HenbInfoReporting => simp only [unmKind]; rw [Post_bind]; exact Post.mono (HenbInfoReporting.stable m b) fun _ h _ => h
  | Ip4Cp => simp only [unmKind]; rw [Post_bind]; exact Post.mono (Ip4Cp.stable m b) fun _ h _ => h
  | ChangeToReportFlags => simp only [unmKind]; rw [Post_bind]; exact Post.mono (ChangeToReportFlags.stable m b) fun _ h _ => h
  | ActionIndication => simp only [unmKind]; rw [Post_bind]; exact Post.mono (ActionIndication.stable m b) fun _ h _ => h
  | TwanId =>
    simp only [unmKind]; repeat refine Post_bind_any fun _ => ?_
    first | exact fun h => False.elim h | exact Post_ite_any trivial fun h => False.elim h
  | UliTimestamp => simp only [unmKind]; rw [Post_bind]; exact Post.mono (UliTimestamp.stable m b) fun _ h _ => h
  | MbmsFlags => simp only [unmKind]; rw [Post_bind]; exact Post.mono (MbmsFlags.stable m b) fun _ h _ => h
  | RanNasCause => simp only [unmKind]; rw [Post_bind]; exact Post.mono (RanNasCause.stable m b) fun _ h _ => h
  | CnOperatorSelectionEntity => simp only [unmKind]; rw [Post_bind]; exact Post.mono (CnOperatorSelectionEntity.stable m b) fun _ h _ => h
  | Twmi => simp only [unmKind]; rw [Post_bind]; exact Post.mono (Twmi.stable m b) fun _ h _ => h
  | NodeNumber => simp only [unmKind]; rw [Post_bind]; exact Post.mono (NodeNumber.stable m b) fun _ h _ => h
  | NodeIdentifier => simp only [unmKind]; rw [Post_bind]; exact Post.mono (NodeIdentifier.stable m b) fun _ h => h
  | PresenceReportingAreaAction => simp only [unmKind]; rw [Post_bind]; exact Post.mono (PresenceReportingAreaAction.stable m b) fun _ h => h
  | PresenceReportingAreaInformation => simp only [unmKind]; rw [Post_bind]; exact Post.mono (PresenceReportingAreaInformation.stable m b) fun _ h => h
  | TwanIdTimeStamp => simp only [unmKind]; rw [Post_bind]; exact Post.mono (TwanIdTimeStamp.stable m b) fun _ h _ => h
  | OverloadControlInfo =>
    simp only [unmKind]; repeat refine Post_bind_any fun _ => ?_
    first | exact fun h => False.elim h | exact Post_ite_any trivial fun h => False.elim h
  | LoadControlInfo =>
    simp only [unmKind]; repeat refine Post_bind_any fun _ => ?_
    first | exact fun h => False.elim h | exact Post_ite_any trivial fun h => False.elim h
  | Metric => simp only [unmKind]; rw [Post_bind]; exact Post.mono (Metric.stable m b) fun _ h _ => h
  | Sqn => simp only [unmKind]; rw [Post_bind]; exact Post.mono (Sqn.stable m b) fun _ h _ => h
  | ApnRelativeCapacity => simp only [unmKind]; rw [Post_bind]; exact Post.mono (ApnRelativeCapacity.stable m b) fun _ h => h
  | WlanOffloadIndication => simp only [unmKind]; rw [Post_bind]; exact Post.mono (WlanOffloadIndication.stable m b) fun _ h _ => h
  | PagingServiceInfo => simp only [unmKind]; rw [Post_bind]; exact Post.mono (PagingServiceInfo.stable m b) fun _ h _ => h
  | IntegerNumber => simp only [unmKind]; rw [Post_bind]; exact Post.mono (IntegerNumber.stable m b) fun _ h _ => h
  | MilliSecondTimeStamp => simp only [unmKind]; rw [Post_bind]; exact Post.mono (MilliSecondTimeStamp.stable m b) fun _ h _ => h
  | MonitoringEventInformation => simp only [unmKind]; rw [Post_bind]; exact Post.mono (MonitoringEventInformation.stable m b) fun _ h _ => h
  | EcgiList => simp only [unmKind]; rw [Post_bind]; exact Post.mono (EcgiList.stable m b) fun _ h _ => h
  | RemoteUeContext =>
    simp only [unmKind]; repeat refine Post_bind_any fun _ => ?_
    first | exact fun h => False.elim h | exact Post_ite_any trivial fun h => False.elim h
  | RemoteUserId => simp only [unmKind]; rw [Post_bind]; exact Post.mono (RemoteUserId.stable m b) fun _ h _ => h
  | RemoteUeIpInformation => simp only [unmKind]; rw [Post_bind]; exact Post.mono (RemoteUeIpInformation.stable m b) fun _ h _ => h
  | CIoTOptimizationSupportIndication => simp only [unmKind]; rw [Post_bind]; exact Post.mono (CIoTOptimizationSupportIndication.stable m b) fun _ h _ => h
  | ScefPdnConnections =>
    simp only [unmKind]; repeat refine Post_bind_any fun _ => ?_
    first | exact fun h => False.elim h | exact Post_ite_any trivial fun h => False.elim h
  | HeaderCompressionConfiguration => simp only [unmKind]; rw [Post_bind]; exact Post.mono (HeaderCompressionConfiguration.stable m b) fun _ h _ => h
  | Epco => simp only [unmKind]; rw [Post_bind]; exact Post.mono (Epco.stable m b) fun _ h _ => h
  | ServingPlmnRateControl => simp only [unmKind]; rw [Post_bind]; exact Post.mono (ServingPlmnRateControl.stable m b) fun _ h _ => h
  | Counter => simp only [unmKind]; rw [Post_bind]; exact Post.mono (Counter.stable m b) fun _ h _ => h
  | MappedUeUsageType => simp only [unmKind]; rw [Post_bind]; exact Post.mono (MappedUeUsageType.stable m b) fun _ h _ => h
  | SecondaryRatUsageDataReport => simp only [unmKind]; rw [Post_bind]; exact Post.mono (SecondaryRatUsageDataReport.stable m b) fun _ h _ => h
  | UpFunctionSelectionIndicationFlags => simp only [unmKind]; rw [Post_bind]; exact Post.mono (UpFunctionSelectionIndicationFlags.stable m b) fun _ h _ => h
  | MaxPacketLossRate => simp only [unmKind]; rw [Post_bind]; exact Post.mono (MaxPacketLossRate.stable m b) fun _ h _ => h
  | ApnRateControlStatus => simp only [unmKind]; rw [Post_bind]; exact Post.mono (ApnRateControlStatus.stable m b) fun _ h _ => h
  | ExtendedTraceInformation => simp only [unmKind]; rw [Post_bind]; exact Post.mono (ExtendedTraceInformation.stable m b) fun _ h _ => h
  | MonitoringEventExtensionInfo => simp only [unmKind]; rw [Post_bind]; exact Post.mono (MonitoringEventExtensionInfo.stable m b) fun _ h _ => h
  | AdditionalRrmPolicyIndex => simp only [unmKind]; rw [Post_bind]; exact Post.mono (AdditionalRrmPolicyIndex.stable m b) fun _ h _ => h
  | V2xInformation =>
    simp only [unmKind]; repeat refine Post_bind_any fun _ => ?_
    first | exact fun h => False.elim h | exact Post_ite_any trivial fun h => False.elim h
  | PC5QosParameters =>
    simp only [unmKind]; repeat refine Post_bind_any fun _ => ?_
    first | exact fun h => False.elim h | exact Post_ite_any trivial fun h => False.elim h
  | ServicesAuthorized => simp only [unmKind]; rw [Post_bind]; exact Post.mono (ServicesAuthorized.stable m b) fun _ h _ => h
  | BitRate => simp only [unmKind]; rw [Post_bind]; exact Post.mono (BitRate.stable m b) fun _ h _ => h
  | PC5QosFlow => simp only [unmKind]; rw [Post_bind]; exact Post.mono (PC5QosFlow.stable m b) fun _ h _ => h
  | SgiPtpTunnelAddress => simp only [unmKind]; rw [Post_bind]; exact Post.mono (SgiPtpTunnelAddress.stable m b) fun _ h _ => h
  | PgwChangeInfo =>
    simp only [unmKind]; repeat refine Post_bind_any fun _ => ?_
    first | exact fun h => False.elim h | exact Post_ite_any trivial fun h => False.elim h
  | PgwFqdn => simp only [unmKind]; rw [Post_bind]; exact Post.mono (PgwFqdn.stable m b) fun _ h => h
  | GroupId => simp only [unmKind]; rw [Post_bind]; exact Post.mono (GroupId.stable m b) fun _ h _ => h
  | PSCellId => simp only [unmKind]; rw [Post_bind]; exact Post.mono (PSCellId.stable m b) fun _ h _ => h
  | UpSecurityPolicy => simp only [unmKind]; rw [Post_bind]; exact Post.mono (UpSecurityPolicy.stable m b) fun _ h _ => h
  | AlternativeImsi => simp only [unmKind]; rw [Post_bind]; exact Post.mono (AlternativeImsi.stable m b) fun _ h => h
  | SpecialIEWithTypeExt => simp only [unmKind]; rw [Post_bind]; exact Post.mono (SpecialIEWithTypeExt.stable m b) fun _ h _ => h
  | PrivateExtension => simp only [unmKind]; rw [Post_bind]; exact Post.mono (PrivateExtension.stable m b) fun _ h => h
  | Unknown => simp only [unmKind]; rw [Post_bind]; exact Post.mono (Unknown.stable m b) fun _ h _ => h

end Gtp.V2
