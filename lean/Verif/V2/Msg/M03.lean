import Verif.V2.Msg.Tactic

/-!
# GTPv2-C messages, part 3

Generated by `scripts/gen_msgs.py` from the Rust sources: `CreateForwardingTunnelResponse`, `CreateIndirectDataForwardingTunnelRequest`, `CreateIndirectDataForwardingTunnelResponse`, `CreateSessionResponse`, `CsPagingIndication`.
-/

namespace Gtp.V2.Msg

/-- `CreateForwardingTunnelResponse` (createforwardingtunnelresp.rs:15-20). -/
structure CreateForwardingTunnelResponse where
  header : Header
  cause : V2.Cause
  s1udf : List V2.S1udf
  private_ext : List V2.PrivateExtension
deriving DecidableEq

namespace CreateForwardingTunnelResponse

/-- `default` (createforwardingtunnelresp.rs:23-34). -/
def dflt : CreateForwardingTunnelResponse :=
  { header := { Header.default with msgtype := 161, teid := some 0 }, cause := V2.Cause.dflt, s1udf := [], private_ext := [] }

/-- `tovec` (createforwardingtunnelresp.rs:71-85). -/
def tovec (x : CreateForwardingTunnelResponse) : List IE :=
  [.Cause x.cause] ++ (
  x.s1udf.map .S1udf ++ (
  x.private_ext.map .PrivateExtension))

/-- The variables of `fromvec`: the message and the array `mandatory` (createforwardingtunnelresp.rs:87-111). -/
structure St where
  x : CreateForwardingTunnelResponse
  m0 : Bool

/-- One turn of the loop of `fromvec` (createforwardingtunnelresp.rs:87-111). -/
def step (s : St) : IE → St
  | .Cause j => if j.ins = 0 then { s with x := { s.x with cause := j }, m0 := true } else s
  | .S1udf j => if j.ins = 0 then { s with x := { s.x with s1udf := s.x.s1udf ++ [j] } } else s
  | .PrivateExtension j => { s with x := { s.x with private_ext := s.x.private_ext ++ [j] } }
  | _ => s

/-- The end of `fromvec` (createforwardingtunnelresp.rs:87-111). -/
def finish (s : St) : R Err CreateForwardingTunnelResponse :=
  if s.m0 then .ok s.x else .err (.messageMandatoryIEMissing 90)

/-- `fromvec` (createforwardingtunnelresp.rs:87-111). -/
def fromvec (x : CreateForwardingTunnelResponse) (els : List IE) : R Err CreateForwardingTunnelResponse := finish (els.foldl step ⟨x, false⟩)

/-- The message type (createforwardingtunnelresp.rs:38-69). -/
def codec : Codec CreateForwardingTunnelResponse :=
  { msgtype := 161, start := some 12, dflt, header := header, setHeader := fun x h => { x with header := h }, tovec, fromvec }

/-- One slot per field. -/
def schema : Schema :=
  [⟨.Cause, .is 0, .oneLast⟩,
   ⟨.S1udf, .is 0, .many⟩,
   ⟨.PrivateExtension, .any, .many⟩]

/-- The fields as lists of IEs. -/
def fields (x : CreateForwardingTunnelResponse) : List (List IE) :=
  [[.Cause x.cause],
   x.s1udf.map .S1udf,
   x.private_ext.map .PrivateExtension]

/-- What the state has collected so far. -/
def St.view (s : St) : List (List IE) :=
  [if s.m0 then [.Cause s.x.cause] else [],
   s.x.s1udf.map .S1udf,
   s.x.private_ext.map .PrivateExtension]

/-- The header is left alone; flags of mandatory lists tell whether the list is empty. -/
def St.Inv (h : Header) (s : St) : Prop :=
  s.x.header = h

theorem step_view (h : Header) (s : St) (e : IE) (hi : s.Inv h) : (step s e).view = Schema.step schema s.view e ∧ (step s e).Inv h := by
  cases e
  case Cause j =>
    simp only [step]
    repeat' split
    all_goals refine ⟨cons_congr ?_ ((Schema.step_other rfl rfl).symm), ?_⟩
    all_goals first | exact hi | msg_field | (simp_all [St.Inv]; done)
  case S1udf j =>
    simp only [step]
    repeat' split
    all_goals refine ⟨cons_congr (Slot.step_ne rfl).symm (cons_congr ?_ ((Schema.step_other rfl rfl).symm)), ?_⟩
    all_goals first | exact hi | msg_field | (simp_all [St.Inv]; done)
  case PrivateExtension j =>
    simp only [step]
    all_goals refine ⟨cons_congr (Slot.step_ne rfl).symm (cons_congr (Slot.step_ne rfl).symm (cons_congr ?_ (rfl))), ?_⟩
    all_goals first | exact hi | msg_field | (simp_all [St.Inv]; done)
  all_goals exact ⟨(Schema.step_other rfl rfl).symm, hi⟩

theorem loop (h : Header) (els : List IE) :
    (els.foldl step ⟨{ dflt with header := h }, false⟩).view = schema.map (·.select els) ∧ (els.foldl step ⟨{ dflt with header := h }, false⟩).Inv h := by
  have := foldl_view (Q := fun _ => True) (fun s e hp _ => step_view h s e hp) els ⟨{ dflt with header := h }, false⟩ (fun _ _ => trivial) (by simp [St.Inv])
  rw [show St.view ⟨{ dflt with header := h }, false⟩ = schema.map (fun _ => []) from rfl, Schema.foldl_nil] at this
  exact this

theorem ext {x y : CreateForwardingTunnelResponse} (hh : x.header = y.header) (h : fields x = fields y) : x = y := by
  cases x; cases y
  simp only at hh
  subst hh
  injection h with h0 h
  cases h0
  injection h with h1 h
  cases map_inj (fun _ _ h => IE.S1udf.inj h) h1
  injection h with h2 h
  cases map_inj (fun _ _ h => IE.PrivateExtension.inj h) h2
  rfl

theorem mand : schema.filter (·.card.mandatory) = [(⟨.Cause, .is 0, .oneLast⟩ : Slot)] := rfl

/-- The flags tell which mandatory IEs are absent. -/
theorem flags (h : Header) (els : List IE) : ∃ x m0, els.foldl step ⟨{ dflt with header := h }, false⟩ = ⟨x, m0⟩ ∧ St.view ⟨x, m0⟩ = schema.map (·.select els) ∧ x.header = h ∧
    (⟨.Cause, .is 0, .oneLast⟩ : Slot).lacks els = (!m0) := by
  obtain ⟨hv, hi⟩ := loop h els
  generalize els.foldl step ⟨{ dflt with header := h }, false⟩ = s at hv hi ⊢
  obtain ⟨x, m0⟩ := s
  simp only [St.Inv] at hi
  have l0 : (⟨.Cause, .is 0, .oneLast⟩ : Slot).lacks els = (!m0) := by
    rw [Slot.lacks_eq els rfl]
    have e := congrArg (fun l => l.getD 0 []) hv
    rw [show (⟨.Cause, .is 0, .oneLast⟩ : Slot).select els = if m0 then [.Cause x.cause] else [] from e.symm]
    cases m0 <;> rfl
  exact ⟨x, m0, rfl, hv, hi, l0⟩

theorem complete (h : Header) (els : List IE) (hm : schema.missing els = []) : ∃ y, fromvec { dflt with header := h } els = .ok y ∧ y.header = h ∧ fields y = schema.map (·.select els) := by
  obtain ⟨x, m0, hs, hv, hh, l0⟩ := flags h els
  unfold fromvec
  rw [hs]
  dsimp only [finish]
  have f0 := l0.symm.trans (Schema.of_missing_nil mand (by simp) hm)
  cases m0 <;> first | exact ⟨x, rfl, hh, hv⟩ | contradiction

theorem describes : Describes codec schema fields where
  header_set _ _ := rfl
  fields_set _ _ := rfl
  ext _ _ hh h := ext hh h
  shape x := Aligned.one (fun _ => rfl) <| Aligned.many (fun _ => rfl) <| Aligned.many (fun _ => rfl) <| trivial
  tovec x := by simp [codec, tovec, fields]
  complete h els _ hm := complete h els hm

theorem reports (h : Header) (els : List IE) (hm : schema.missing els ≠ []) :
    ∃ t, fromvec { dflt with header := h } els = .err (.messageMandatoryIEMissing t) := by
  obtain ⟨x, m0, hs, hv, hh, l0⟩ := flags h els
  unfold fromvec
  rw [hs]
  dsimp only [finish]
  cases m0 <;>
    first | exact ⟨_, rfl⟩ | exact absurd (Schema.missing_nil mand (by simp [l0])) hm

theorem settled (h : Header) (els els' : List IE) (he : ∀ s ∈ schema, s.card.mandatory = true → s.lacks els = s.lacks els')
    (hm : schema.missing els ≠ []) : fromvec { dflt with header := h } els = fromvec { dflt with header := h } els' := by
  obtain ⟨x, m0, hs, hv, hh, l0⟩ := flags h els
  obtain ⟨x', m0', hs', hv', hh', l0'⟩ := flags h els'
  unfold fromvec
  rw [hs, hs']
  obtain rfl := Bool.not_inj (l0.symm.trans ((he _ (by decide) rfl).trans l0'))
  dsimp only [finish]
  cases m0 <;>
    first | rfl | exact absurd (Schema.missing_nil mand (by simp [l0])) hm

end CreateForwardingTunnelResponse

/-- `CreateIndirectDataForwardingTunnelRequest` (createindirectdatafwtunnelreq.rs:15-24). -/
structure CreateIndirectDataForwardingTunnelRequest where
  header : Header
  imsi : Option V2.Imsi
  mei : Option V2.Mei
  indication : Option V2.Indication
  fteid_control : Option V2.Fteid
  bearer_ctxs : List V2.BearerContext
  recovery : Option V2.Recovery
  private_ext : List V2.PrivateExtension
deriving DecidableEq

namespace CreateIndirectDataForwardingTunnelRequest

/-- `default` (createindirectdatafwtunnelreq.rs:27-42). -/
def dflt : CreateIndirectDataForwardingTunnelRequest :=
  { header := { Header.default with msgtype := 166, teid := some 0 }, imsi := none, mei := none, indication := none, fteid_control := none, bearer_ctxs := [], recovery := none, private_ext := [] }

/-- `tovec` (createindirectdatafwtunnelreq.rs:79-111). -/
def tovec (x : CreateIndirectDataForwardingTunnelRequest) : List IE :=
  optV .Imsi x.imsi ++ (
  optV .Mei x.mei ++ (
  optV .Indication x.indication ++ (
  optV .Fteid x.fteid_control ++ (
  x.bearer_ctxs.map .BearerContext ++ (
  optV .Recovery x.recovery ++ (
  x.private_ext.map .PrivateExtension))))))

/-- The variables of `fromvec`: the message and the array `mandatory` (createindirectdatafwtunnelreq.rs:113-157). -/
structure St where
  x : CreateIndirectDataForwardingTunnelRequest
  m0 : Bool

/-- One turn of the loop of `fromvec` (createindirectdatafwtunnelreq.rs:113-157). -/
def step (s : St) : IE → St
  | .Imsi j => if j.ins = 0 ∧ s.x.imsi.isNone = true then { s with x := { s.x with imsi := some j } } else s
  | .Mei j => if j.ins = 0 ∧ s.x.mei.isNone = true then { s with x := { s.x with mei := some j } } else s
  | .Indication j => if j.ins = 0 ∧ s.x.indication.isNone = true then { s with x := { s.x with indication := some j } } else s
  | .Fteid j => if j.ins = 0 ∧ s.x.fteid_control.isNone = true then { s with x := { s.x with fteid_control := some j } } else s
  | .BearerContext j => if j.ins = 0 then { s with x := { s.x with bearer_ctxs := s.x.bearer_ctxs ++ [j] }, m0 := true } else s
  | .Recovery j => if j.ins = 0 ∧ s.x.recovery.isNone = true then { s with x := { s.x with recovery := some j } } else s
  | .PrivateExtension j => { s with x := { s.x with private_ext := s.x.private_ext ++ [j] } }
  | _ => s

/-- The end of `fromvec` (createindirectdatafwtunnelreq.rs:113-157). -/
def finish (s : St) : R Err CreateIndirectDataForwardingTunnelRequest :=
  if s.m0 then .ok s.x else .err (.messageMandatoryIEMissing 93)

/-- `fromvec` (createindirectdatafwtunnelreq.rs:113-157). -/
def fromvec (x : CreateIndirectDataForwardingTunnelRequest) (els : List IE) : R Err CreateIndirectDataForwardingTunnelRequest := finish (els.foldl step ⟨x, false⟩)

/-- The message type (createindirectdatafwtunnelreq.rs:46-77). -/
def codec : Codec CreateIndirectDataForwardingTunnelRequest :=
  { msgtype := 166, start := some 12, dflt, header := header, setHeader := fun x h => { x with header := h }, tovec, fromvec }

/-- One slot per field. -/
def schema : Schema :=
  [⟨.Imsi, .is 0, .opt⟩,
   ⟨.Mei, .is 0, .opt⟩,
   ⟨.Indication, .is 0, .opt⟩,
   ⟨.Fteid, .is 0, .opt⟩,
   ⟨.BearerContext, .is 0, .many1 (.is 0)⟩,
   ⟨.Recovery, .is 0, .opt⟩,
   ⟨.PrivateExtension, .any, .many⟩]

/-- The fields as lists of IEs. -/
def fields (x : CreateIndirectDataForwardingTunnelRequest) : List (List IE) :=
  [optV .Imsi x.imsi,
   optV .Mei x.mei,
   optV .Indication x.indication,
   optV .Fteid x.fteid_control,
   x.bearer_ctxs.map .BearerContext,
   optV .Recovery x.recovery,
   x.private_ext.map .PrivateExtension]

/-- What the state has collected so far. -/
def St.view (s : St) : List (List IE) :=
  [optV .Imsi s.x.imsi,
   optV .Mei s.x.mei,
   optV .Indication s.x.indication,
   optV .Fteid s.x.fteid_control,
   s.x.bearer_ctxs.map .BearerContext,
   optV .Recovery s.x.recovery,
   s.x.private_ext.map .PrivateExtension]

/-- The header is left alone; flags of mandatory lists tell whether the list is empty. -/
def St.Inv (h : Header) (s : St) : Prop :=
  s.x.header = h ∧ s.m0 = !s.x.bearer_ctxs.isEmpty

theorem step_view (h : Header) (s : St) (e : IE) (hi : s.Inv h) : (step s e).view = Schema.step schema s.view e ∧ (step s e).Inv h := by
  cases e
  case Imsi j =>
    simp only [step]
    repeat' split
    all_goals refine ⟨cons_congr ?_ ((Schema.step_other rfl rfl).symm), ?_⟩
    all_goals first | exact hi | msg_field | (simp_all [St.Inv]; done)
  case Mei j =>
    simp only [step]
    repeat' split
    all_goals refine ⟨cons_congr (Slot.step_ne rfl).symm (cons_congr ?_ ((Schema.step_other rfl rfl).symm)), ?_⟩
    all_goals first | exact hi | msg_field | (simp_all [St.Inv]; done)
  case Indication j =>
    simp only [step]
    repeat' split
    all_goals refine ⟨cons_congr (Slot.step_ne rfl).symm (cons_congr (Slot.step_ne rfl).symm (cons_congr ?_ ((Schema.step_other rfl rfl).symm))), ?_⟩
    all_goals first | exact hi | msg_field | (simp_all [St.Inv]; done)
  case Fteid j =>
    simp only [step]
    repeat' split
    all_goals refine ⟨cons_congr (Slot.step_ne rfl).symm (cons_congr (Slot.step_ne rfl).symm (cons_congr (Slot.step_ne rfl).symm (cons_congr ?_ ((Schema.step_other rfl rfl).symm)))), ?_⟩
    all_goals first | exact hi | msg_field | (simp_all [St.Inv]; done)
  case BearerContext j =>
    simp only [step]
    repeat' split
    all_goals refine ⟨cons_congr (Slot.step_ne rfl).symm (cons_congr (Slot.step_ne rfl).symm (cons_congr (Slot.step_ne rfl).symm (cons_congr (Slot.step_ne rfl).symm (cons_congr ?_ ((Schema.step_other rfl rfl).symm))))), ?_⟩
    all_goals first | exact hi | msg_field | (simp_all [St.Inv]; done)
  case Recovery j =>
    simp only [step]
    repeat' split
    all_goals refine ⟨cons_congr (Slot.step_ne rfl).symm (cons_congr (Slot.step_ne rfl).symm (cons_congr (Slot.step_ne rfl).symm (cons_congr (Slot.step_ne rfl).symm (cons_congr (Slot.step_ne rfl).symm (cons_congr ?_ ((Schema.step_other rfl rfl).symm)))))), ?_⟩
    all_goals first | exact hi | msg_field | (simp_all [St.Inv]; done)
  case PrivateExtension j =>
    simp only [step]
    all_goals refine ⟨cons_congr (Slot.step_ne rfl).symm (cons_congr (Slot.step_ne rfl).symm (cons_congr (Slot.step_ne rfl).symm (cons_congr (Slot.step_ne rfl).symm (cons_congr (Slot.step_ne rfl).symm (cons_congr (Slot.step_ne rfl).symm (cons_congr ?_ (rfl))))))), ?_⟩
    all_goals first | exact hi | msg_field | (simp_all [St.Inv]; done)
  all_goals exact ⟨(Schema.step_other rfl rfl).symm, hi⟩

theorem loop (h : Header) (els : List IE) :
    (els.foldl step ⟨{ dflt with header := h }, false⟩).view = schema.map (·.select els) ∧ (els.foldl step ⟨{ dflt with header := h }, false⟩).Inv h := by
  have := foldl_view (Q := fun _ => True) (fun s e hp _ => step_view h s e hp) els ⟨{ dflt with header := h }, false⟩ (fun _ _ => trivial) (by simp [St.Inv, dflt])
  rw [show St.view ⟨{ dflt with header := h }, false⟩ = schema.map (fun _ => []) from rfl, Schema.foldl_nil] at this
  exact this

theorem ext {x y : CreateIndirectDataForwardingTunnelRequest} (hh : x.header = y.header) (h : fields x = fields y) : x = y := by
  cases x; cases y
  simp only at hh
  subst hh
  injection h with h0 h
  cases optV_inj (fun _ _ h => IE.Imsi.inj h) h0
  injection h with h1 h
  cases optV_inj (fun _ _ h => IE.Mei.inj h) h1
  injection h with h2 h
  cases optV_inj (fun _ _ h => IE.Indication.inj h) h2
  injection h with h3 h
  cases optV_inj (fun _ _ h => IE.Fteid.inj h) h3
  injection h with h4 h
  cases map_inj (fun _ _ h => IE.BearerContext.inj h) h4
  injection h with h5 h
  cases optV_inj (fun _ _ h => IE.Recovery.inj h) h5
  injection h with h6 h
  cases map_inj (fun _ _ h => IE.PrivateExtension.inj h) h6
  rfl

theorem mand : schema.filter (·.card.mandatory) = [(⟨.BearerContext, .is 0, .many1 (.is 0)⟩ : Slot)] := rfl

/-- The flags tell which mandatory IEs are absent. -/
theorem flags (h : Header) (els : List IE) : ∃ x m0, els.foldl step ⟨{ dflt with header := h }, false⟩ = ⟨x, m0⟩ ∧ St.view ⟨x, m0⟩ = schema.map (·.select els) ∧ x.header = h ∧
    (⟨.BearerContext, .is 0, .many1 (.is 0)⟩ : Slot).lacks els = (!m0) := by
  obtain ⟨hv, hi⟩ := loop h els
  generalize els.foldl step ⟨{ dflt with header := h }, false⟩ = s at hv hi ⊢
  obtain ⟨x, m0⟩ := s
  simp only [St.Inv] at hi
  have l0 : (⟨.BearerContext, .is 0, .many1 (.is 0)⟩ : Slot).lacks els = (!m0) := by
    rw [Slot.lacks_eq els rfl]
    have e := congrArg (fun l => l.getD 4 []) hv
    rw [show (⟨.BearerContext, .is 0, .many1 (.is 0)⟩ : Slot).select els = x.bearer_ctxs.map .BearerContext from e.symm]
    rw [hi.2, Bool.not_not]
    cases x.bearer_ctxs <;> rfl
  exact ⟨x, m0, rfl, hv, hi.1, l0⟩

theorem complete (h : Header) (els : List IE) (hm : schema.missing els = []) : ∃ y, fromvec { dflt with header := h } els = .ok y ∧ y.header = h ∧ fields y = schema.map (·.select els) := by
  obtain ⟨x, m0, hs, hv, hh, l0⟩ := flags h els
  unfold fromvec
  rw [hs]
  dsimp only [finish]
  have f0 := l0.symm.trans (Schema.of_missing_nil mand (by simp) hm)
  cases m0 <;> first | exact ⟨x, rfl, hh, hv⟩ | contradiction

theorem describes : Describes codec schema fields where
  header_set _ _ := rfl
  fields_set _ _ := rfl
  ext _ _ hh h := ext hh h
  shape x := Aligned.opt (fun _ => rfl) <| Aligned.opt (fun _ => rfl) <| Aligned.opt (fun _ => rfl) <| Aligned.opt (fun _ => rfl) <| Aligned.many (fun _ => rfl) <| Aligned.opt (fun _ => rfl) <| Aligned.many (fun _ => rfl) <| trivial
  tovec x := by simp [codec, tovec, fields]
  complete h els _ hm := complete h els hm

theorem reports (h : Header) (els : List IE) (hm : schema.missing els ≠ []) :
    ∃ s ∈ schema.missing els, ∃ t, fromvec { dflt with header := h } els = .err (.messageMandatoryIEMissing t) ∧ kindOf t = s.kind := by
  obtain ⟨x, m0, hs, hv, hh, l0⟩ := flags h els
  unfold fromvec
  rw [hs]
  dsimp only [finish]
  cases m0 <;>
    first | exact ⟨_, Schema.mem_missing mand (by simp) l0, _, rfl, rfl⟩ | exact absurd (Schema.missing_nil mand (by simp [l0])) hm

theorem settled (h : Header) (els els' : List IE) (he : ∀ s ∈ schema, s.card.mandatory = true → s.lacks els = s.lacks els')
    (hm : schema.missing els ≠ []) : fromvec { dflt with header := h } els = fromvec { dflt with header := h } els' := by
  obtain ⟨x, m0, hs, hv, hh, l0⟩ := flags h els
  obtain ⟨x', m0', hs', hv', hh', l0'⟩ := flags h els'
  unfold fromvec
  rw [hs, hs']
  obtain rfl := Bool.not_inj (l0.symm.trans ((he _ (by decide) rfl).trans l0'))
  dsimp only [finish]
  cases m0 <;>
    first | rfl | exact absurd (Schema.missing_nil mand (by simp [l0])) hm

end CreateIndirectDataForwardingTunnelRequest

/-- `CreateIndirectDataForwardingTunnelResponse` (createindirectdatafwtunnelresp.rs:15-22). -/
structure CreateIndirectDataForwardingTunnelResponse where
  header : Header
  cause : V2.Cause
  fteid_control : Option V2.Fteid
  bearer_ctxs : List V2.BearerContext
  recovery : Option V2.Recovery
  private_ext : List V2.PrivateExtension
deriving DecidableEq

namespace CreateIndirectDataForwardingTunnelResponse

/-- `default` (createindirectdatafwtunnelresp.rs:25-38). -/
def dflt : CreateIndirectDataForwardingTunnelResponse :=
  { header := { Header.default with msgtype := 167, teid := some 0 }, cause := V2.Cause.dflt, fteid_control := none, bearer_ctxs := [], recovery := none, private_ext := [] }

/-- `tovec` (createindirectdatafwtunnelresp.rs:75-97). -/
def tovec (x : CreateIndirectDataForwardingTunnelResponse) : List IE :=
  [.Cause x.cause] ++ (
  optV .Fteid x.fteid_control ++ (
  x.bearer_ctxs.map .BearerContext ++ (
  optV .Recovery x.recovery ++ (
  x.private_ext.map .PrivateExtension))))

/-- The variables of `fromvec`: the message and the array `mandatory` (createindirectdatafwtunnelresp.rs:99-135). -/
structure St where
  x : CreateIndirectDataForwardingTunnelResponse
  m0 : Bool
  m1 : Bool

/-- One turn of the loop of `fromvec` (createindirectdatafwtunnelresp.rs:99-135). -/
def step (s : St) : IE → St
  | .Cause j => if j.ins = 0 then { s with x := { s.x with cause := j }, m0 := true } else s
  | .Fteid j => if j.ins = 0 ∧ s.x.fteid_control.isNone = true then { s with x := { s.x with fteid_control := some j } } else s
  | .BearerContext j => if j.ins = 0 then { s with x := { s.x with bearer_ctxs := s.x.bearer_ctxs ++ [j] }, m1 := true } else s
  | .Recovery j => if j.ins = 0 ∧ s.x.recovery.isNone = true then { s with x := { s.x with recovery := some j } } else s
  | .PrivateExtension j => { s with x := { s.x with private_ext := s.x.private_ext ++ [j] } }
  | _ => s

/-- The end of `fromvec` (createindirectdatafwtunnelresp.rs:99-135). -/
def finish (s : St) : R Err CreateIndirectDataForwardingTunnelResponse :=
  match s.m0, s.m1 with
  | true, true => .ok s.x
  | false, true => .err (.messageMandatoryIEMissing 2)
  | true, false => .err (.messageMandatoryIEMissing 93)
  | false, false => .err (.messageMandatoryIEMissing 0)

/-- `fromvec` (createindirectdatafwtunnelresp.rs:99-135). -/
def fromvec (x : CreateIndirectDataForwardingTunnelResponse) (els : List IE) : R Err CreateIndirectDataForwardingTunnelResponse := finish (els.foldl step ⟨x, false, false⟩)

/-- The message type (createindirectdatafwtunnelresp.rs:42-73). -/
def codec : Codec CreateIndirectDataForwardingTunnelResponse :=
  { msgtype := 167, start := some 12, dflt, header := header, setHeader := fun x h => { x with header := h }, tovec, fromvec }

/-- One slot per field. -/
def schema : Schema :=
  [⟨.Cause, .is 0, .oneLast⟩,
   ⟨.Fteid, .is 0, .opt⟩,
   ⟨.BearerContext, .is 0, .many1 (.is 0)⟩,
   ⟨.Recovery, .is 0, .opt⟩,
   ⟨.PrivateExtension, .any, .many⟩]

/-- The fields as lists of IEs. -/
def fields (x : CreateIndirectDataForwardingTunnelResponse) : List (List IE) :=
  [[.Cause x.cause],
   optV .Fteid x.fteid_control,
   x.bearer_ctxs.map .BearerContext,
   optV .Recovery x.recovery,
   x.private_ext.map .PrivateExtension]

/-- What the state has collected so far. -/
def St.view (s : St) : List (List IE) :=
  [if s.m0 then [.Cause s.x.cause] else [],
   optV .Fteid s.x.fteid_control,
   s.x.bearer_ctxs.map .BearerContext,
   optV .Recovery s.x.recovery,
   s.x.private_ext.map .PrivateExtension]

/-- The header is left alone; flags of mandatory lists tell whether the list is empty. -/
def St.Inv (h : Header) (s : St) : Prop :=
  s.x.header = h ∧ s.m1 = !s.x.bearer_ctxs.isEmpty

theorem step_view (h : Header) (s : St) (e : IE) (hi : s.Inv h) : (step s e).view = Schema.step schema s.view e ∧ (step s e).Inv h := by
  cases e
  case Cause j =>
    simp only [step]
    repeat' split
    all_goals refine ⟨cons_congr ?_ ((Schema.step_other rfl rfl).symm), ?_⟩
    all_goals first | exact hi | msg_field | (simp_all [St.Inv]; done)
  case Fteid j =>
    simp only [step]
    repeat' split
    all_goals refine ⟨cons_congr (Slot.step_ne rfl).symm (cons_congr ?_ ((Schema.step_other rfl rfl).symm)), ?_⟩
    all_goals first | exact hi | msg_field | (simp_all [St.Inv]; done)
  case BearerContext j =>
    simp only [step]
    repeat' split
    all_goals refine ⟨cons_congr (Slot.step_ne rfl).symm (cons_congr (Slot.step_ne rfl).symm (cons_congr ?_ ((Schema.step_other rfl rfl).symm))), ?_⟩
    all_goals first | exact hi | msg_field | (simp_all [St.Inv]; done)
  case Recovery j =>
    simp only [step]
    repeat' split
    all_goals refine ⟨cons_congr (Slot.step_ne rfl).symm (cons_congr (Slot.step_ne rfl).symm (cons_congr (Slot.step_ne rfl).symm (cons_congr ?_ ((Schema.step_other rfl rfl).symm)))), ?_⟩
    all_goals first | exact hi | msg_field | (simp_all [St.Inv]; done)
  case PrivateExtension j =>
    simp only [step]
    all_goals refine ⟨cons_congr (Slot.step_ne rfl).symm (cons_congr (Slot.step_ne rfl).symm (cons_congr (Slot.step_ne rfl).symm (cons_congr (Slot.step_ne rfl).symm (cons_congr ?_ (rfl))))), ?_⟩
    all_goals first | exact hi | msg_field | (simp_all [St.Inv]; done)
  all_goals exact ⟨(Schema.step_other rfl rfl).symm, hi⟩

theorem loop (h : Header) (els : List IE) :
    (els.foldl step ⟨{ dflt with header := h }, false, false⟩).view = schema.map (·.select els) ∧ (els.foldl step ⟨{ dflt with header := h }, false, false⟩).Inv h := by
  have := foldl_view (Q := fun _ => True) (fun s e hp _ => step_view h s e hp) els ⟨{ dflt with header := h }, false, false⟩ (fun _ _ => trivial) (by simp [St.Inv, dflt])
  rw [show St.view ⟨{ dflt with header := h }, false, false⟩ = schema.map (fun _ => []) from rfl, Schema.foldl_nil] at this
  exact this

theorem ext {x y : CreateIndirectDataForwardingTunnelResponse} (hh : x.header = y.header) (h : fields x = fields y) : x = y := by
  cases x; cases y
  simp only at hh
  subst hh
  injection h with h0 h
  cases h0
  injection h with h1 h
  cases optV_inj (fun _ _ h => IE.Fteid.inj h) h1
  injection h with h2 h
  cases map_inj (fun _ _ h => IE.BearerContext.inj h) h2
  injection h with h3 h
  cases optV_inj (fun _ _ h => IE.Recovery.inj h) h3
  injection h with h4 h
  cases map_inj (fun _ _ h => IE.PrivateExtension.inj h) h4
  rfl

theorem mand : schema.filter (·.card.mandatory) = [(⟨.Cause, .is 0, .oneLast⟩ : Slot), (⟨.BearerContext, .is 0, .many1 (.is 0)⟩ : Slot)] := rfl

/-- The flags tell which mandatory IEs are absent. -/
theorem flags (h : Header) (els : List IE) : ∃ x m0 m1, els.foldl step ⟨{ dflt with header := h }, false, false⟩ = ⟨x, m0, m1⟩ ∧ St.view ⟨x, m0, m1⟩ = schema.map (·.select els) ∧ x.header = h ∧
    (⟨.Cause, .is 0, .oneLast⟩ : Slot).lacks els = (!m0) ∧
    (⟨.BearerContext, .is 0, .many1 (.is 0)⟩ : Slot).lacks els = (!m1) := by
  obtain ⟨hv, hi⟩ := loop h els
  generalize els.foldl step ⟨{ dflt with header := h }, false, false⟩ = s at hv hi ⊢
  obtain ⟨x, m0, m1⟩ := s
  simp only [St.Inv] at hi
  have l0 : (⟨.Cause, .is 0, .oneLast⟩ : Slot).lacks els = (!m0) := by
    rw [Slot.lacks_eq els rfl]
    have e := congrArg (fun l => l.getD 0 []) hv
    rw [show (⟨.Cause, .is 0, .oneLast⟩ : Slot).select els = if m0 then [.Cause x.cause] else [] from e.symm]
    cases m0 <;> rfl
  have l1 : (⟨.BearerContext, .is 0, .many1 (.is 0)⟩ : Slot).lacks els = (!m1) := by
    rw [Slot.lacks_eq els rfl]
    have e := congrArg (fun l => l.getD 2 []) hv
    rw [show (⟨.BearerContext, .is 0, .many1 (.is 0)⟩ : Slot).select els = x.bearer_ctxs.map .BearerContext from e.symm]
    rw [hi.2, Bool.not_not]
    cases x.bearer_ctxs <;> rfl
  exact ⟨x, m0, m1, rfl, hv, hi.1, l0, l1⟩

theorem complete (h : Header) (els : List IE) (hm : schema.missing els = []) : ∃ y, fromvec { dflt with header := h } els = .ok y ∧ y.header = h ∧ fields y = schema.map (·.select els) := by
  obtain ⟨x, m0, m1, hs, hv, hh, l0, l1⟩ := flags h els
  unfold fromvec
  rw [hs]
  dsimp only [finish]
  have f0 := l0.symm.trans (Schema.of_missing_nil mand (by simp) hm)
  have f1 := l1.symm.trans (Schema.of_missing_nil mand (by simp) hm)
  cases m0 <;> cases m1 <;> first | exact ⟨x, rfl, hh, hv⟩ | contradiction

theorem describes : Describes codec schema fields where
  header_set _ _ := rfl
  fields_set _ _ := rfl
  ext _ _ hh h := ext hh h
  shape x := Aligned.one (fun _ => rfl) <| Aligned.opt (fun _ => rfl) <| Aligned.many (fun _ => rfl) <| Aligned.opt (fun _ => rfl) <| Aligned.many (fun _ => rfl) <| trivial
  tovec x := by simp [codec, tovec, fields]
  complete h els _ hm := complete h els hm

theorem reports (h : Header) (els : List IE) (hm : schema.missing els ≠ []) :
    ∃ t, fromvec { dflt with header := h } els = .err (.messageMandatoryIEMissing t) := by
  obtain ⟨x, m0, m1, hs, hv, hh, l0, l1⟩ := flags h els
  unfold fromvec
  rw [hs]
  dsimp only [finish]
  cases m0 <;> cases m1 <;>
    first | exact ⟨_, rfl⟩ | exact absurd (Schema.missing_nil mand (by simp [l0, l1])) hm

theorem settled (h : Header) (els els' : List IE) (he : ∀ s ∈ schema, s.card.mandatory = true → s.lacks els = s.lacks els')
    (hm : schema.missing els ≠ []) : fromvec { dflt with header := h } els = fromvec { dflt with header := h } els' := by
  obtain ⟨x, m0, m1, hs, hv, hh, l0, l1⟩ := flags h els
  obtain ⟨x', m0', m1', hs', hv', hh', l0', l1'⟩ := flags h els'
  unfold fromvec
  rw [hs, hs']
  obtain rfl := Bool.not_inj (l0.symm.trans ((he _ (by decide) rfl).trans l0'))
  obtain rfl := Bool.not_inj (l1.symm.trans ((he _ (by decide) rfl).trans l1'))
  dsimp only [finish]
  cases m0 <;> cases m1 <;>
    first | rfl | exact absurd (Schema.missing_nil mand (by simp [l0, l1])) hm

end CreateIndirectDataForwardingTunnelResponse

/-- `CreateSessionResponse` (createsessionresp.rs:15-53). -/
structure CreateSessionResponse where
  header : Header
  cause : V2.Cause
  cra : Option V2.ChangeReportingAction
  csg_ira : Option V2.CSGInformationReportingAction
  henb_info_report : Option V2.HenbInfoReporting
  fteid_control : Option V2.Fteid
  fteid_pgw : Option V2.Fteid
  paa : Option V2.PdnAddressAllocation
  apn_restriction : Option V2.ApnRestriction
  apn_ambr : Option V2.Ambr
  linked_ebi : Option V2.Ebi
  pco : Option V2.Pco
  bearer_ctxs : List V2.BearerContext
  recovery : Option V2.Recovery
  charging_gw_name : Option V2.Fqdn
  charging_gw_ip : Option V2.IpAddress
  pgw_fqcsid : Option V2.Fqcsid
  sgw_fqcsid : Option V2.Fqcsid
  sgw_ldn : Option V2.Ldn
  pgw_ldn : Option V2.Ldn
  pgw_backoff_time : Option V2.EpcTimer
  apco : Option V2.Apco
  twan_ip_params : Option V2.Ip4Cp
  indication : Option V2.Indication
  praa : Option V2.PresenceReportingAreaAction
  load_control : List V2.LoadControl
  overload_info : List V2.OverloadControlInfo
  nbifom : Option V2.Fcontainer
  charging_id : Option V2.ChargingId
  epco : Option V2.Epco
  pgw_node_name : Option V2.Fqdn
  sgi_ptp_tunnel_addr : Option V2.SgiPtpTunnelAddress
  pgw_chng_info : Option V2.PgwChangeInfo
  alt_pgw_smf_fqdn : List V2.Fqdn
  alt_pgw_smf_ip : List V2.IpAddress
  upsp : Option V2.UpSecurityPolicy
  private_ext : List V2.PrivateExtension
deriving DecidableEq

namespace CreateSessionResponse

/-- `default` (createsessionresp.rs:56-101). -/
def dflt : CreateSessionResponse :=
  { header := { Header.default with msgtype := 33, teid := some 0 }, cause := V2.Cause.dflt, cra := none, csg_ira := none, henb_info_report := none, fteid_control := none, fteid_pgw := none, paa := none, apn_restriction := none, apn_ambr := none, linked_ebi := none, pco := none, bearer_ctxs := [], recovery := none, charging_gw_name := none, charging_gw_ip := none, pgw_fqcsid := none, sgw_fqcsid := none, sgw_ldn := none, pgw_ldn := none, pgw_backoff_time := none, apco := none, twan_ip_params := none, indication := none, praa := none, load_control := [], overload_info := [], nbifom := none, charging_id := none, epco := none, pgw_node_name := none, sgi_ptp_tunnel_addr := none, pgw_chng_info := none, alt_pgw_smf_fqdn := [], alt_pgw_smf_ip := [], upsp := none, private_ext := [] }

/-- `tovec` (createsessionresp.rs:137-283). -/
def tovec (x : CreateSessionResponse) : List IE :=
  [.Cause x.cause] ++ (
  optV .ChangeReportingAction x.cra ++ (
  optV .CSGInformationReportingAction x.csg_ira ++ (
  optV .HenbInfoReporting x.henb_info_report ++ (
  optV .Fteid x.fteid_control ++ (
  optV .Fteid x.fteid_pgw ++ (
  optV .PdnAddressAllocation x.paa ++ (
  optV .ApnRestriction x.apn_restriction ++ (
  optV .ApnAmbr x.apn_ambr ++ (
  optV .Ebi x.linked_ebi ++ (
  optV .Pco x.pco ++ (
  x.bearer_ctxs.map .BearerContext ++ (
  optV .Recovery x.recovery ++ (
  optV .Fqdn x.charging_gw_name ++ (
  optV .IpAddress x.charging_gw_ip ++ (
  optV .Fqcsid x.pgw_fqcsid ++ (
  optV .Fqcsid x.sgw_fqcsid ++ (
  optV .Ldn x.sgw_ldn ++ (
  optV .Ldn x.pgw_ldn ++ (
  optV .EpcTimer x.pgw_backoff_time ++ (
  optV .Apco x.apco ++ (
  optV .Ip4Cp x.twan_ip_params ++ (
  optV .Indication x.indication ++ (
  optV .PresenceReportingAreaAction x.praa ++ (
  x.load_control.map .LoadControlInfo ++ (
  x.overload_info.map .OverloadControlInfo ++ (
  optV .Fcontainer x.nbifom ++ (
  optV .ChargingId x.charging_id ++ (
  optV .Epco x.epco ++ (
  optV .Fqdn x.pgw_node_name ++ (
  optV .SgiPtpTunnelAddress x.sgi_ptp_tunnel_addr ++ (
  optV .PgwChangeInfo x.pgw_chng_info ++ (
  x.alt_pgw_smf_fqdn.map .Fqdn ++ (
  x.alt_pgw_smf_ip.map .IpAddress ++ (
  optV .UpSecurityPolicy x.upsp ++ (
  x.private_ext.map .PrivateExtension)))))))))))))))))))))))))))))))))))

/-- The variables of `fromvec`: the message and the array `mandatory` (createsessionresp.rs:285-469). -/
structure St where
  x : CreateSessionResponse
  m0 : Bool
  m1 : Bool

/-- One turn of the loop of `fromvec` (createsessionresp.rs:285-469). -/
def step (s : St) : IE → St
  | .Cause j => if j.ins = 0 ∧ s.m0 = false then { s with x := { s.x with cause := j }, m0 := true } else s
  | .ChangeReportingAction j => if j.ins = 0 ∧ s.x.cra.isNone = true then { s with x := { s.x with cra := some j } } else s
  | .CSGInformationReportingAction j => if j.ins = 0 ∧ s.x.csg_ira.isNone = true then { s with x := { s.x with csg_ira := some j } } else s
  | .HenbInfoReporting j => if j.ins = 0 ∧ s.x.henb_info_report.isNone = true then { s with x := { s.x with henb_info_report := some j } } else s
  | .Fteid j => if j.ins = 0 ∧ s.x.fteid_control.isNone = true then { s with x := { s.x with fteid_control := some j } } else if j.ins = 1 ∧ s.x.fteid_pgw.isNone = true then { s with x := { s.x with fteid_pgw := some j } } else s
  | .PdnAddressAllocation j => if j.ins = 0 ∧ s.x.paa.isNone = true then { s with x := { s.x with paa := some j } } else s
  | .ApnRestriction j => if j.ins = 0 ∧ s.x.apn_restriction.isNone = true then { s with x := { s.x with apn_restriction := some j } } else s
  | .ApnAmbr j => if j.ins = 0 ∧ s.x.apn_ambr.isNone = true then { s with x := { s.x with apn_ambr := some j } } else s
  | .Ebi j => if j.ins = 0 ∧ s.x.linked_ebi.isNone = true then { s with x := { s.x with linked_ebi := some j } } else s
  | .Pco j => if j.ins = 0 ∧ s.x.pco.isNone = true then { s with x := { s.x with pco := some j } } else s
  | .BearerContext j => if j.ins = 0 then { s with x := { s.x with bearer_ctxs := s.x.bearer_ctxs ++ [j] }, m1 := true } else s
  | .Recovery j => if j.ins = 0 ∧ s.x.recovery.isNone = true then { s with x := { s.x with recovery := some j } } else s
  | .Fqcsid j => if j.ins = 0 ∧ s.x.pgw_fqcsid.isNone = true then { s with x := { s.x with pgw_fqcsid := some j } } else if j.ins = 1 ∧ s.x.sgw_fqcsid.isNone = true then { s with x := { s.x with sgw_fqcsid := some j } } else s
  | .Ldn j => if j.ins = 0 ∧ s.x.sgw_ldn.isNone = true then { s with x := { s.x with sgw_ldn := some j } } else if j.ins = 1 ∧ s.x.pgw_ldn.isNone = true then { s with x := { s.x with pgw_ldn := some j } } else s
  | .EpcTimer j => if j.ins = 0 ∧ s.x.pgw_backoff_time.isNone = true then { s with x := { s.x with pgw_backoff_time := some j } } else s
  | .Apco j => if j.ins = 0 ∧ s.x.apco.isNone = true then { s with x := { s.x with apco := some j } } else s
  | .Ip4Cp j => if j.ins = 0 ∧ s.x.twan_ip_params.isNone = true then { s with x := { s.x with twan_ip_params := some j } } else s
  | .Indication j => if j.ins = 0 ∧ s.x.indication.isNone = true then { s with x := { s.x with indication := some j } } else s
  | .PresenceReportingAreaAction j => if j.ins = 0 ∧ s.x.praa.isNone = true then { s with x := { s.x with praa := some j } } else s
  | .LoadControlInfo j => if j.ins < 3 then { s with x := { s.x with load_control := s.x.load_control ++ [j] } } else s
  | .OverloadControlInfo j => if j.ins < 2 then { s with x := { s.x with overload_info := s.x.overload_info ++ [j] } } else s
  | .Fcontainer j => if j.ins = 0 ∧ s.x.nbifom.isNone = true then { s with x := { s.x with nbifom := some j } } else s
  | .ChargingId j => if j.ins = 0 ∧ s.x.charging_id.isNone = true then { s with x := { s.x with charging_id := some j } } else s
  | .Epco j => if j.ins = 0 ∧ s.x.epco.isNone = true then { s with x := { s.x with epco := some j } } else s
  | .Fqdn j => if j.ins = 0 ∧ s.x.charging_gw_name.isNone = true then { s with x := { s.x with charging_gw_name := some j } } else if j.ins = 1 ∧ s.x.pgw_node_name.isNone = true then { s with x := { s.x with pgw_node_name := some j } } else if j.ins = 3 then { s with x := { s.x with alt_pgw_smf_fqdn := s.x.alt_pgw_smf_fqdn ++ [j] } } else s
  | .SgiPtpTunnelAddress j => if j.ins = 0 ∧ s.x.sgi_ptp_tunnel_addr.isNone = true then { s with x := { s.x with sgi_ptp_tunnel_addr := some j } } else s
  | .PgwChangeInfo j => if j.ins = 0 ∧ s.x.pgw_chng_info.isNone = true then { s with x := { s.x with pgw_chng_info := some j } } else s
  | .IpAddress j => if j.ins = 0 ∧ s.x.charging_gw_ip.isNone = true then { s with x := { s.x with charging_gw_ip := some j } } else if j.ins = 1 then { s with x := { s.x with alt_pgw_smf_ip := s.x.alt_pgw_smf_ip ++ [j] } } else s
  | .UpSecurityPolicy j => if j.ins = 0 ∧ s.x.upsp.isNone = true then { s with x := { s.x with upsp := some j } } else s
  | .PrivateExtension j => { s with x := { s.x with private_ext := s.x.private_ext ++ [j] } }
  | _ => s

/-- The end of `fromvec` (createsessionresp.rs:285-469). -/
def finish (s : St) : R Err CreateSessionResponse :=
  match s.m0, s.m1 with
  | false, false => .err (.messageMandatoryIEMissing 2)
  | false, true => .err (.messageMandatoryIEMissing 2)
  | true, false => .err (.messageMandatoryIEMissing 93)
  | true, true => .ok s.x

/-- `fromvec` (createsessionresp.rs:285-469). -/
def fromvec (x : CreateSessionResponse) (els : List IE) : R Err CreateSessionResponse := finish (els.foldl step ⟨x, false, false⟩)

/-- The message type (createsessionresp.rs:105-135). -/
def codec : Codec CreateSessionResponse :=
  { msgtype := 33, start := some 12, dflt, header := header, setHeader := fun x h => { x with header := h }, tovec, fromvec }

/-- One slot per field. -/
def schema : Schema :=
  [⟨.Cause, .is 0, .one⟩,
   ⟨.ChangeReportingAction, .is 0, .opt⟩,
   ⟨.CSGInformationReportingAction, .is 0, .opt⟩,
   ⟨.HenbInfoReporting, .is 0, .opt⟩,
   ⟨.Fteid, .is 0, .opt⟩,
   ⟨.Fteid, .is 1, .opt⟩,
   ⟨.PdnAddressAllocation, .is 0, .opt⟩,
   ⟨.ApnRestriction, .is 0, .opt⟩,
   ⟨.ApnAmbr, .is 0, .opt⟩,
   ⟨.Ebi, .is 0, .opt⟩,
   ⟨.Pco, .is 0, .opt⟩,
   ⟨.BearerContext, .is 0, .many1 (.is 0)⟩,
   ⟨.Recovery, .is 0, .opt⟩,
   ⟨.Fqdn, .is 0, .opt⟩,
   ⟨.IpAddress, .is 0, .opt⟩,
   ⟨.Fqcsid, .is 0, .opt⟩,
   ⟨.Fqcsid, .is 1, .opt⟩,
   ⟨.Ldn, .is 0, .opt⟩,
   ⟨.Ldn, .is 1, .opt⟩,
   ⟨.EpcTimer, .is 0, .opt⟩,
   ⟨.Apco, .is 0, .opt⟩,
   ⟨.Ip4Cp, .is 0, .opt⟩,
   ⟨.Indication, .is 0, .opt⟩,
   ⟨.PresenceReportingAreaAction, .is 0, .opt⟩,
   ⟨.LoadControlInfo, .lt 3, .many⟩,
   ⟨.OverloadControlInfo, .lt 2, .many⟩,
   ⟨.Fcontainer, .is 0, .opt⟩,
   ⟨.ChargingId, .is 0, .opt⟩,
   ⟨.Epco, .is 0, .opt⟩,
   ⟨.Fqdn, .is 1, .opt⟩,
   ⟨.SgiPtpTunnelAddress, .is 0, .opt⟩,
   ⟨.PgwChangeInfo, .is 0, .opt⟩,
   ⟨.Fqdn, .is 3, .many⟩,
   ⟨.IpAddress, .is 1, .many⟩,
   ⟨.UpSecurityPolicy, .is 0, .opt⟩,
   ⟨.PrivateExtension, .any, .many⟩]

/-- The fields as lists of IEs. -/
def fields (x : CreateSessionResponse) : List (List IE) :=
  [[.Cause x.cause],
   optV .ChangeReportingAction x.cra,
   optV .CSGInformationReportingAction x.csg_ira,
   optV .HenbInfoReporting x.henb_info_report,
   optV .Fteid x.fteid_control,
   optV .Fteid x.fteid_pgw,
   optV .PdnAddressAllocation x.paa,
   optV .ApnRestriction x.apn_restriction,
   optV .ApnAmbr x.apn_ambr,
   optV .Ebi x.linked_ebi,
   optV .Pco x.pco,
   x.bearer_ctxs.map .BearerContext,
   optV .Recovery x.recovery,
   optV .Fqdn x.charging_gw_name,
   optV .IpAddress x.charging_gw_ip,
   optV .Fqcsid x.pgw_fqcsid,
   optV .Fqcsid x.sgw_fqcsid,
   optV .Ldn x.sgw_ldn,
   optV .Ldn x.pgw_ldn,
   optV .EpcTimer x.pgw_backoff_time,
   optV .Apco x.apco,
   optV .Ip4Cp x.twan_ip_params,
   optV .Indication x.indication,
   optV .PresenceReportingAreaAction x.praa,
   x.load_control.map .LoadControlInfo,
   x.overload_info.map .OverloadControlInfo,
   optV .Fcontainer x.nbifom,
   optV .ChargingId x.charging_id,
   optV .Epco x.epco,
   optV .Fqdn x.pgw_node_name,
   optV .SgiPtpTunnelAddress x.sgi_ptp_tunnel_addr,
   optV .PgwChangeInfo x.pgw_chng_info,
   x.alt_pgw_smf_fqdn.map .Fqdn,
   x.alt_pgw_smf_ip.map .IpAddress,
   optV .UpSecurityPolicy x.upsp,
   x.private_ext.map .PrivateExtension]

/-- What the state has collected so far. -/
def St.view (s : St) : List (List IE) :=
  [if s.m0 then [.Cause s.x.cause] else [],
   optV .ChangeReportingAction s.x.cra,
   optV .CSGInformationReportingAction s.x.csg_ira,
   optV .HenbInfoReporting s.x.henb_info_report,
   optV .Fteid s.x.fteid_control,
   optV .Fteid s.x.fteid_pgw,
   optV .PdnAddressAllocation s.x.paa,
   optV .ApnRestriction s.x.apn_restriction,
   optV .ApnAmbr s.x.apn_ambr,
   optV .Ebi s.x.linked_ebi,
   optV .Pco s.x.pco,
   s.x.bearer_ctxs.map .BearerContext,
   optV .Recovery s.x.recovery,
   optV .Fqdn s.x.charging_gw_name,
   optV .IpAddress s.x.charging_gw_ip,
   optV .Fqcsid s.x.pgw_fqcsid,
   optV .Fqcsid s.x.sgw_fqcsid,
   optV .Ldn s.x.sgw_ldn,
   optV .Ldn s.x.pgw_ldn,
   optV .EpcTimer s.x.pgw_backoff_time,
   optV .Apco s.x.apco,
   optV .Ip4Cp s.x.twan_ip_params,
   optV .Indication s.x.indication,
   optV .PresenceReportingAreaAction s.x.praa,
   s.x.load_control.map .LoadControlInfo,
   s.x.overload_info.map .OverloadControlInfo,
   optV .Fcontainer s.x.nbifom,
   optV .ChargingId s.x.charging_id,
   optV .Epco s.x.epco,
   optV .Fqdn s.x.pgw_node_name,
   optV .SgiPtpTunnelAddress s.x.sgi_ptp_tunnel_addr,
   optV .PgwChangeInfo s.x.pgw_chng_info,
   s.x.alt_pgw_smf_fqdn.map .Fqdn,
   s.x.alt_pgw_smf_ip.map .IpAddress,
   optV .UpSecurityPolicy s.x.upsp,
   s.x.private_ext.map .PrivateExtension]

/-- The header is left alone; flags of mandatory lists tell whether the list is empty. -/
def St.Inv (h : Header) (s : St) : Prop :=
  s.x.header = h ∧ s.m1 = !s.x.bearer_ctxs.isEmpty

theorem step_view (h : Header) (s : St) (e : IE) (hi : s.Inv h) : (step s e).view = Schema.step schema s.view e ∧ (step s e).Inv h := by
  cases e
  case Cause j =>
    simp only [step]
    repeat' split
    all_goals refine ⟨cons_congr ?_ ((Schema.step_other rfl rfl).symm), ?_⟩
    all_goals first | exact hi | msg_field | (simp_all [St.Inv]; done)
  case ChangeReportingAction j =>
    simp only [step]
    repeat' split
    all_goals refine ⟨cons_congr (Slot.step_ne rfl).symm (cons_congr ?_ ((Schema.step_other rfl rfl).symm)), ?_⟩
    all_goals first | exact hi | msg_field | (simp_all [St.Inv]; done)
  case CSGInformationReportingAction j =>
    simp only [step]
    repeat' split
    all_goals refine ⟨cons_congr (Slot.step_ne rfl).symm (cons_congr (Slot.step_ne rfl).symm (cons_congr ?_ ((Schema.step_other rfl rfl).symm))), ?_⟩
    all_goals first | exact hi | msg_field | (simp_all [St.Inv]; done)
  case HenbInfoReporting j =>
    simp only [step]
    repeat' split
    all_goals refine ⟨cons_congr (Slot.step_ne rfl).symm (cons_congr (Slot.step_ne rfl).symm (cons_congr (Slot.step_ne rfl).symm (cons_congr ?_ ((Schema.step_other rfl rfl).symm)))), ?_⟩
    all_goals first | exact hi | msg_field | (simp_all [St.Inv]; done)
  case Fteid j =>
    simp only [step]
    repeat' split
    all_goals refine ⟨cons_congr (Slot.step_ne rfl).symm (cons_congr (Slot.step_ne rfl).symm (cons_congr (Slot.step_ne rfl).symm (cons_congr (Slot.step_ne rfl).symm (cons_congr ?_ (cons_congr ?_ ((Schema.step_other rfl rfl).symm)))))), ?_⟩
    all_goals first | exact hi | msg_field | (simp_all [St.Inv]; done)
  case PdnAddressAllocation j =>
    simp only [step]
    repeat' split
    all_goals refine ⟨cons_congr (Slot.step_ne rfl).symm (cons_congr (Slot.step_ne rfl).symm (cons_congr (Slot.step_ne rfl).symm (cons_congr (Slot.step_ne rfl).symm (cons_congr (Slot.step_ne rfl).symm (cons_congr (Slot.step_ne rfl).symm (cons_congr ?_ ((Schema.step_other rfl rfl).symm))))))), ?_⟩
    all_goals first | exact hi | msg_field | (simp_all [St.Inv]; done)
  case ApnRestriction j =>
    simp only [step]
    repeat' split
    all_goals refine ⟨cons_congr (Slot.step_ne rfl).symm (cons_congr (Slot.step_ne rfl).symm (cons_congr (Slot.step_ne rfl).symm (cons_congr (Slot.step_ne rfl).symm (cons_congr (Slot.step_ne rfl).symm (cons_congr (Slot.step_ne rfl).symm (cons_congr (Slot.step_ne rfl).symm (cons_congr ?_ ((Schema.step_other rfl rfl).symm)))))))), ?_⟩
    all_goals first | exact hi | msg_field | (simp_all [St.Inv]; done)
  case ApnAmbr j =>
    simp only [step]
    repeat' split
    all_goals refine ⟨cons_congr (Slot.step_ne rfl).symm (cons_congr (Slot.step_ne rfl).symm (cons_congr (Slot.step_ne rfl).symm (cons_congr (Slot.step_ne rfl).symm (cons_congr (Slot.step_ne rfl).symm (cons_congr (Slot.step_ne rfl).symm (cons_congr (Slot.step_ne rfl).symm (cons_congr (Slot.step_ne rfl).symm (cons_congr ?_ ((Schema.step_other rfl rfl).symm))))))))), ?_⟩
    all_goals first | exact hi | msg_field | (simp_all [St.Inv]; done)
  case Ebi j =>
    simp only [step]
    repeat' split
    all_goals refine ⟨cons_congr (Slot.step_ne rfl).symm (cons_congr (Slot.step_ne rfl).symm (cons_congr (Slot.step_ne rfl).symm (cons_congr (Slot.step_ne rfl).symm (cons_congr (Slot.step_ne rfl).symm (cons_congr (Slot.step_ne rfl).symm (cons_congr (Slot.step_ne rfl).symm (cons_congr (Slot.step_ne rfl).symm (cons_congr (Slot.step_ne rfl).symm (cons_congr ?_ ((Schema.step_other rfl rfl).symm)))))))))), ?_⟩
    all_goals first | exact hi | msg_field | (simp_all [St.Inv]; done)
  case Pco j =>
    simp only [step]
    repeat' split
    all_goals refine ⟨cons_congr (Slot.step_ne rfl).symm (cons_congr (Slot.step_ne rfl).symm (cons_congr (Slot.step_ne rfl).symm (cons_congr (Slot.step_ne rfl).symm (cons_congr (Slot.step_ne rfl).symm (cons_congr (Slot.step_ne rfl).symm (cons_congr (Slot.step_ne rfl).symm (cons_congr (Slot.step_ne rfl).symm (cons_congr (Slot.step_ne rfl).symm (cons_congr (Slot.step_ne rfl).symm (cons_congr ?_ ((Schema.step_other rfl rfl).symm))))))))))), ?_⟩
    all_goals first | exact hi | msg_field | (simp_all [St.Inv]; done)
  case BearerContext j =>
    simp only [step]
    repeat' split
    all_goals refine ⟨cons_congr (Slot.step_ne rfl).symm (cons_congr (Slot.step_ne rfl).symm (cons_congr (Slot.step_ne rfl).symm (cons_congr (Slot.step_ne rfl).symm (cons_congr (Slot.step_ne rfl).symm (cons_congr (Slot.step_ne rfl).symm (cons_congr (Slot.step_ne rfl).symm (cons_congr (Slot.step_ne rfl).symm (cons_congr (Slot.step_ne rfl).symm (cons_congr (Slot.step_ne rfl).symm (cons_congr (Slot.step_ne rfl).symm (cons_congr ?_ ((Schema.step_other rfl rfl).symm)))))))))))), ?_⟩
    all_goals first | exact hi | msg_field | (simp_all [St.Inv]; done)
  case Recovery j =>
    simp only [step]
    repeat' split
    all_goals refine ⟨cons_congr (Slot.step_ne rfl).symm (cons_congr (Slot.step_ne rfl).symm (cons_congr (Slot.step_ne rfl).symm (cons_congr (Slot.step_ne rfl).symm (cons_congr (Slot.step_ne rfl).symm (cons_congr (Slot.step_ne rfl).symm (cons_congr (Slot.step_ne rfl).symm (cons_congr (Slot.step_ne rfl).symm (cons_congr (Slot.step_ne rfl).symm (cons_congr (Slot.step_ne rfl).symm (cons_congr (Slot.step_ne rfl).symm (cons_congr (Slot.step_ne rfl).symm (cons_congr ?_ ((Schema.step_other rfl rfl).symm))))))))))))), ?_⟩
    all_goals first | exact hi | msg_field | (simp_all [St.Inv]; done)
  case Fqcsid j =>
    simp only [step]
    repeat' split
    all_goals refine ⟨cons_congr (Slot.step_ne rfl).symm (cons_congr (Slot.step_ne rfl).symm (cons_congr (Slot.step_ne rfl).symm (cons_congr (Slot.step_ne rfl).symm (cons_congr (Slot.step_ne rfl).symm (cons_congr (Slot.step_ne rfl).symm (cons_congr (Slot.step_ne rfl).symm (cons_congr (Slot.step_ne rfl).symm (cons_congr (Slot.step_ne rfl).symm (cons_congr (Slot.step_ne rfl).symm (cons_congr (Slot.step_ne rfl).symm (cons_congr (Slot.step_ne rfl).symm (cons_congr (Slot.step_ne rfl).symm (cons_congr (Slot.step_ne rfl).symm (cons_congr (Slot.step_ne rfl).symm (cons_congr ?_ (cons_congr ?_ ((Schema.step_other rfl rfl).symm))))))))))))))))), ?_⟩
    all_goals first | exact hi | msg_field | (simp_all [St.Inv]; done)
  case Ldn j =>
    simp only [step]
    repeat' split
    all_goals refine ⟨cons_congr (Slot.step_ne rfl).symm (cons_congr (Slot.step_ne rfl).symm (cons_congr (Slot.step_ne rfl).symm (cons_congr (Slot.step_ne rfl).symm (cons_congr (Slot.step_ne rfl).symm (cons_congr (Slot.step_ne rfl).symm (cons_congr (Slot.step_ne rfl).symm (cons_congr (Slot.step_ne rfl).symm (cons_congr (Slot.step_ne rfl).symm (cons_congr (Slot.step_ne rfl).symm (cons_congr (Slot.step_ne rfl).symm (cons_congr (Slot.step_ne rfl).symm (cons_congr (Slot.step_ne rfl).symm (cons_congr (Slot.step_ne rfl).symm (cons_congr (Slot.step_ne rfl).symm (cons_congr (Slot.step_ne rfl).symm (cons_congr (Slot.step_ne rfl).symm (cons_congr ?_ (cons_congr ?_ ((Schema.step_other rfl rfl).symm))))))))))))))))))), ?_⟩
    all_goals first | exact hi | msg_field | (simp_all [St.Inv]; done)
  case EpcTimer j =>
    simp only [step]
    repeat' split
    all_goals refine ⟨cons_congr (Slot.step_ne rfl).symm (cons_congr (Slot.step_ne rfl).symm (cons_congr (Slot.step_ne rfl).symm (cons_congr (Slot.step_ne rfl).symm (cons_congr (Slot.step_ne rfl).symm (cons_congr (Slot.step_ne rfl).symm (cons_congr (Slot.step_ne rfl).symm (cons_congr (Slot.step_ne rfl).symm (cons_congr (Slot.step_ne rfl).symm (cons_congr (Slot.step_ne rfl).symm (cons_congr (Slot.step_ne rfl).symm (cons_congr (Slot.step_ne rfl).symm (cons_congr (Slot.step_ne rfl).symm (cons_congr (Slot.step_ne rfl).symm (cons_congr (Slot.step_ne rfl).symm (cons_congr (Slot.step_ne rfl).symm (cons_congr (Slot.step_ne rfl).symm (cons_congr (Slot.step_ne rfl).symm (cons_congr (Slot.step_ne rfl).symm (cons_congr ?_ ((Schema.step_other rfl rfl).symm)))))))))))))))))))), ?_⟩
    all_goals first | exact hi | msg_field | (simp_all [St.Inv]; done)
  case Apco j =>
    simp only [step]
    repeat' split
    all_goals refine ⟨cons_congr (Slot.step_ne rfl).symm (cons_congr (Slot.step_ne rfl).symm (cons_congr (Slot.step_ne rfl).symm (cons_congr (Slot.step_ne rfl).symm (cons_congr (Slot.step_ne rfl).symm (cons_congr (Slot.step_ne rfl).symm (cons_congr (Slot.step_ne rfl).symm (cons_congr (Slot.step_ne rfl).symm (cons_congr (Slot.step_ne rfl).symm (cons_congr (Slot.step_ne rfl).symm (cons_congr (Slot.step_ne rfl).symm (cons_congr (Slot.step_ne rfl).symm (cons_congr (Slot.step_ne rfl).symm (cons_congr (Slot.step_ne rfl).symm (cons_congr (Slot.step_ne rfl).symm (cons_congr (Slot.step_ne rfl).symm (cons_congr (Slot.step_ne rfl).symm (cons_congr (Slot.step_ne rfl).symm (cons_congr (Slot.step_ne rfl).symm (cons_congr (Slot.step_ne rfl).symm (cons_congr ?_ ((Schema.step_other rfl rfl).symm))))))))))))))))))))), ?_⟩
    all_goals first | exact hi | msg_field | (simp_all [St.Inv]; done)
  case Ip4Cp j =>
    simp only [step]
    repeat' split
    all_goals refine ⟨cons_congr (Slot.step_ne rfl).symm (cons_congr (Slot.step_ne rfl).symm (cons_congr (Slot.step_ne rfl).symm (cons_congr (Slot.step_ne rfl).symm (cons_congr (Slot.step_ne rfl).symm (cons_congr (Slot.step_ne rfl).symm (cons_congr (Slot.step_ne rfl).symm (cons_congr (Slot.step_ne rfl).symm (cons_congr (Slot.step_ne rfl).symm (cons_congr (Slot.step_ne rfl).symm (cons_congr (Slot.step_ne rfl).symm (cons_congr (Slot.step_ne rfl).symm (cons_congr (Slot.step_ne rfl).symm (cons_congr (Slot.step_ne rfl).symm (cons_congr (Slot.step_ne rfl).symm (cons_congr (Slot.step_ne rfl).symm (cons_congr (Slot.step_ne rfl).symm (cons_congr (Slot.step_ne rfl).symm (cons_congr (Slot.step_ne rfl).symm (cons_congr (Slot.step_ne rfl).symm (cons_congr (Slot.step_ne rfl).symm (cons_congr ?_ ((Schema.step_other rfl rfl).symm)))))))))))))))))))))), ?_⟩
    all_goals first | exact hi | msg_field | (simp_all [St.Inv]; done)
  case Indication j =>
    simp only [step]
    repeat' split
    all_goals refine ⟨cons_congr (Slot.step_ne rfl).symm (cons_congr (Slot.step_ne rfl).symm (cons_congr (Slot.step_ne rfl).symm (cons_congr (Slot.step_ne rfl).symm (cons_congr (Slot.step_ne rfl).symm (cons_congr (Slot.step_ne rfl).symm (cons_congr (Slot.step_ne rfl).symm (cons_congr (Slot.step_ne rfl).symm (cons_congr (Slot.step_ne rfl).symm (cons_congr (Slot.step_ne rfl).symm (cons_congr (Slot.step_ne rfl).symm (cons_congr (Slot.step_ne rfl).symm (cons_congr (Slot.step_ne rfl).symm (cons_congr (Slot.step_ne rfl).symm (cons_congr (Slot.step_ne rfl).symm (cons_congr (Slot.step_ne rfl).symm (cons_congr (Slot.step_ne rfl).symm (cons_congr (Slot.step_ne rfl).symm (cons_congr (Slot.step_ne rfl).symm (cons_congr (Slot.step_ne rfl).symm (cons_congr (Slot.step_ne rfl).symm (cons_congr (Slot.step_ne rfl).symm (cons_congr ?_ ((Schema.step_other rfl rfl).symm))))))))))))))))))))))), ?_⟩
    all_goals first | exact hi | msg_field | (simp_all [St.Inv]; done)
  case PresenceReportingAreaAction j =>
    simp only [step]
    repeat' split
    all_goals refine ⟨cons_congr (Slot.step_ne rfl).symm (cons_congr (Slot.step_ne rfl).symm (cons_congr (Slot.step_ne rfl).symm (cons_congr (Slot.step_ne rfl).symm (cons_congr (Slot.step_ne rfl).symm (cons_congr (Slot.step_ne rfl).symm (cons_congr (Slot.step_ne rfl).symm (cons_congr (Slot.step_ne rfl).symm (cons_congr (Slot.step_ne rfl).symm (cons_congr (Slot.step_ne rfl).symm (cons_congr (Slot.step_ne rfl).symm (cons_congr (Slot.step_ne rfl).symm (cons_congr (Slot.step_ne rfl).symm (cons_congr (Slot.step_ne rfl).symm (cons_congr (Slot.step_ne rfl).symm (cons_congr (Slot.step_ne rfl).symm (cons_congr (Slot.step_ne rfl).symm (cons_congr (Slot.step_ne rfl).symm (cons_congr (Slot.step_ne rfl).symm (cons_congr (Slot.step_ne rfl).symm (cons_congr (Slot.step_ne rfl).symm (cons_congr (Slot.step_ne rfl).symm (cons_congr (Slot.step_ne rfl).symm (cons_congr ?_ ((Schema.step_other rfl rfl).symm)))))))))))))))))))))))), ?_⟩
    all_goals first | exact hi | msg_field | (simp_all [St.Inv]; done)
  case LoadControlInfo j =>
    simp only [step]
    repeat' split
    all_goals refine ⟨cons_congr (Slot.step_ne rfl).symm (cons_congr (Slot.step_ne rfl).symm (cons_congr (Slot.step_ne rfl).symm (cons_congr (Slot.step_ne rfl).symm (cons_congr (Slot.step_ne rfl).symm (cons_congr (Slot.step_ne rfl).symm (cons_congr (Slot.step_ne rfl).symm (cons_congr (Slot.step_ne rfl).symm (cons_congr (Slot.step_ne rfl).symm (cons_congr (Slot.step_ne rfl).symm (cons_congr (Slot.step_ne rfl).symm (cons_congr (Slot.step_ne rfl).symm (cons_congr (Slot.step_ne rfl).symm (cons_congr (Slot.step_ne rfl).symm (cons_congr (Slot.step_ne rfl).symm (cons_congr (Slot.step_ne rfl).symm (cons_congr (Slot.step_ne rfl).symm (cons_congr (Slot.step_ne rfl).symm (cons_congr (Slot.step_ne rfl).symm (cons_congr (Slot.step_ne rfl).symm (cons_congr (Slot.step_ne rfl).symm (cons_congr (Slot.step_ne rfl).symm (cons_congr (Slot.step_ne rfl).symm (cons_congr (Slot.step_ne rfl).symm (cons_congr ?_ ((Schema.step_other rfl rfl).symm))))))))))))))))))))))))), ?_⟩
    all_goals first | exact hi | msg_field | (simp_all [St.Inv]; done)
  case OverloadControlInfo j =>
    simp only [step]
    repeat' split
    all_goals refine ⟨cons_congr (Slot.step_ne rfl).symm (cons_congr (Slot.step_ne rfl).symm (cons_congr (Slot.step_ne rfl).symm (cons_congr (Slot.step_ne rfl).symm (cons_congr (Slot.step_ne rfl).symm (cons_congr (Slot.step_ne rfl).symm (cons_congr (Slot.step_ne rfl).symm (cons_congr (Slot.step_ne rfl).symm (cons_congr (Slot.step_ne rfl).symm (cons_congr (Slot.step_ne rfl).symm (cons_congr (Slot.step_ne rfl).symm (cons_congr (Slot.step_ne rfl).symm (cons_congr (Slot.step_ne rfl).symm (cons_congr (Slot.step_ne rfl).symm (cons_congr (Slot.step_ne rfl).symm (cons_congr (Slot.step_ne rfl).symm (cons_congr (Slot.step_ne rfl).symm (cons_congr (Slot.step_ne rfl).symm (cons_congr (Slot.step_ne rfl).symm (cons_congr (Slot.step_ne rfl).symm (cons_congr (Slot.step_ne rfl).symm (cons_congr (Slot.step_ne rfl).symm (cons_congr (Slot.step_ne rfl).symm (cons_congr (Slot.step_ne rfl).symm (cons_congr (Slot.step_ne rfl).symm (cons_congr ?_ ((Schema.step_other rfl rfl).symm)))))))))))))))))))))))))), ?_⟩
    all_goals first | exact hi | msg_field | (simp_all [St.Inv]; done)
  case Fcontainer j =>
    simp only [step]
    repeat' split
    all_goals refine ⟨cons_congr (Slot.step_ne rfl).symm (cons_congr (Slot.step_ne rfl).symm (cons_congr (Slot.step_ne rfl).symm (cons_congr (Slot.step_ne rfl).symm (cons_congr (Slot.step_ne rfl).symm (cons_congr (Slot.step_ne rfl).symm (cons_congr (Slot.step_ne rfl).symm (cons_congr (Slot.step_ne rfl).symm (cons_congr (Slot.step_ne rfl).symm (cons_congr (Slot.step_ne rfl).symm (cons_congr (Slot.step_ne rfl).symm (cons_congr (Slot.step_ne rfl).symm (cons_congr (Slot.step_ne rfl).symm (cons_congr (Slot.step_ne rfl).symm (cons_congr (Slot.step_ne rfl).symm (cons_congr (Slot.step_ne rfl).symm (cons_congr (Slot.step_ne rfl).symm (cons_congr (Slot.step_ne rfl).symm (cons_congr (Slot.step_ne rfl).symm (cons_congr (Slot.step_ne rfl).symm (cons_congr (Slot.step_ne rfl).symm (cons_congr (Slot.step_ne rfl).symm (cons_congr (Slot.step_ne rfl).symm (cons_congr (Slot.step_ne rfl).symm (cons_congr (Slot.step_ne rfl).symm (cons_congr (Slot.step_ne rfl).symm (cons_congr ?_ ((Schema.step_other rfl rfl).symm))))))))))))))))))))))))))), ?_⟩
    all_goals first | exact hi | msg_field | (simp_all [St.Inv]; done)
  case ChargingId j =>
    simp only [step]
    repeat' split
    all_goals refine ⟨cons_congr (Slot.step_ne rfl).symm (cons_congr (Slot.step_ne rfl).symm (cons_congr (Slot.step_ne rfl).symm (cons_congr (Slot.step_ne rfl).symm (cons_congr (Slot.step_ne rfl).symm (cons_congr (Slot.step_ne rfl).symm (cons_congr (Slot.step_ne rfl).symm (cons_congr (Slot.step_ne rfl).symm (cons_congr (Slot.step_ne rfl).symm (cons_congr (Slot.step_ne rfl).symm (cons_congr (Slot.step_ne rfl).symm (cons_congr (Slot.step_ne rfl).symm (cons_congr (Slot.step_ne rfl).symm (cons_congr (Slot.step_ne rfl).symm (cons_congr (Slot.step_ne rfl).symm (cons_congr (Slot.step_ne rfl).symm (cons_congr (Slot.step_ne rfl).symm (cons_congr (Slot.step_ne rfl).symm (cons_congr (Slot.step_ne rfl).symm (cons_congr (Slot.step_ne rfl).symm (cons_congr (Slot.step_ne rfl).symm (cons_congr (Slot.step_ne rfl).symm (cons_congr (Slot.step_ne rfl).symm (cons_congr (Slot.step_ne rfl).symm (cons_congr (Slot.step_ne rfl).symm (cons_congr (Slot.step_ne rfl).symm (cons_congr (Slot.step_ne rfl).symm (cons_congr ?_ ((Schema.step_other rfl rfl).symm)))))))))))))))))))))))))))), ?_⟩
    all_goals first | exact hi | msg_field | (simp_all [St.Inv]; done)
  case Epco j =>
    simp only [step]
    repeat' split
    all_goals refine ⟨cons_congr (Slot.step_ne rfl).symm (cons_congr (Slot.step_ne rfl).symm (cons_congr (Slot.step_ne rfl).symm (cons_congr (Slot.step_ne rfl).symm (cons_congr (Slot.step_ne rfl).symm (cons_congr (Slot.step_ne rfl).symm (cons_congr (Slot.step_ne rfl).symm (cons_congr (Slot.step_ne rfl).symm (cons_congr (Slot.step_ne rfl).symm (cons_congr (Slot.step_ne rfl).symm (cons_congr (Slot.step_ne rfl).symm (cons_congr (Slot.step_ne rfl).symm (cons_congr (Slot.step_ne rfl).symm (cons_congr (Slot.step_ne rfl).symm (cons_congr (Slot.step_ne rfl).symm (cons_congr (Slot.step_ne rfl).symm (cons_congr (Slot.step_ne rfl).symm (cons_congr (Slot.step_ne rfl).symm (cons_congr (Slot.step_ne rfl).symm (cons_congr (Slot.step_ne rfl).symm (cons_congr (Slot.step_ne rfl).symm (cons_congr (Slot.step_ne rfl).symm (cons_congr (Slot.step_ne rfl).symm (cons_congr (Slot.step_ne rfl).symm (cons_congr (Slot.step_ne rfl).symm (cons_congr (Slot.step_ne rfl).symm (cons_congr (Slot.step_ne rfl).symm (cons_congr (Slot.step_ne rfl).symm (cons_congr ?_ ((Schema.step_other rfl rfl).symm))))))))))))))))))))))))))))), ?_⟩
    all_goals first | exact hi | msg_field | (simp_all [St.Inv]; done)
  case Fqdn j =>
    simp only [step]
    repeat' split
    all_goals refine ⟨cons_congr (Slot.step_ne rfl).symm (cons_congr (Slot.step_ne rfl).symm (cons_congr (Slot.step_ne rfl).symm (cons_congr (Slot.step_ne rfl).symm (cons_congr (Slot.step_ne rfl).symm (cons_congr (Slot.step_ne rfl).symm (cons_congr (Slot.step_ne rfl).symm (cons_congr (Slot.step_ne rfl).symm (cons_congr (Slot.step_ne rfl).symm (cons_congr (Slot.step_ne rfl).symm (cons_congr (Slot.step_ne rfl).symm (cons_congr (Slot.step_ne rfl).symm (cons_congr (Slot.step_ne rfl).symm (cons_congr ?_ (cons_congr (Slot.step_ne rfl).symm (cons_congr (Slot.step_ne rfl).symm (cons_congr (Slot.step_ne rfl).symm (cons_congr (Slot.step_ne rfl).symm (cons_congr (Slot.step_ne rfl).symm (cons_congr (Slot.step_ne rfl).symm (cons_congr (Slot.step_ne rfl).symm (cons_congr (Slot.step_ne rfl).symm (cons_congr (Slot.step_ne rfl).symm (cons_congr (Slot.step_ne rfl).symm (cons_congr (Slot.step_ne rfl).symm (cons_congr (Slot.step_ne rfl).symm (cons_congr (Slot.step_ne rfl).symm (cons_congr (Slot.step_ne rfl).symm (cons_congr (Slot.step_ne rfl).symm (cons_congr ?_ (cons_congr (Slot.step_ne rfl).symm (cons_congr (Slot.step_ne rfl).symm (cons_congr ?_ ((Schema.step_other rfl rfl).symm))))))))))))))))))))))))))))))))), ?_⟩
    all_goals first | exact hi | msg_field | (simp_all [St.Inv]; done)
  case SgiPtpTunnelAddress j =>
    simp only [step]
    repeat' split
    all_goals refine ⟨cons_congr (Slot.step_ne rfl).symm (cons_congr (Slot.step_ne rfl).symm (cons_congr (Slot.step_ne rfl).symm (cons_congr (Slot.step_ne rfl).symm (cons_congr (Slot.step_ne rfl).symm (cons_congr (Slot.step_ne rfl).symm (cons_congr (Slot.step_ne rfl).symm (cons_congr (Slot.step_ne rfl).symm (cons_congr (Slot.step_ne rfl).symm (cons_congr (Slot.step_ne rfl).symm (cons_congr (Slot.step_ne rfl).symm (cons_congr (Slot.step_ne rfl).symm (cons_congr (Slot.step_ne rfl).symm (cons_congr (Slot.step_ne rfl).symm (cons_congr (Slot.step_ne rfl).symm (cons_congr (Slot.step_ne rfl).symm (cons_congr (Slot.step_ne rfl).symm (cons_congr (Slot.step_ne rfl).symm (cons_congr (Slot.step_ne rfl).symm (cons_congr (Slot.step_ne rfl).symm (cons_congr (Slot.step_ne rfl).symm (cons_congr (Slot.step_ne rfl).symm (cons_congr (Slot.step_ne rfl).symm (cons_congr (Slot.step_ne rfl).symm (cons_congr (Slot.step_ne rfl).symm (cons_congr (Slot.step_ne rfl).symm (cons_congr (Slot.step_ne rfl).symm (cons_congr (Slot.step_ne rfl).symm (cons_congr (Slot.step_ne rfl).symm (cons_congr (Slot.step_ne rfl).symm (cons_congr ?_ ((Schema.step_other rfl rfl).symm))))))))))))))))))))))))))))))), ?_⟩
    all_goals first | exact hi | msg_field | (simp_all [St.Inv]; done)
  case PgwChangeInfo j =>
    simp only [step]
    repeat' split
    all_goals refine ⟨cons_congr (Slot.step_ne rfl).symm (cons_congr (Slot.step_ne rfl).symm (cons_congr (Slot.step_ne rfl).symm (cons_congr (Slot.step_ne rfl).symm (cons_congr (Slot.step_ne rfl).symm (cons_congr (Slot.step_ne rfl).symm (cons_congr (Slot.step_ne rfl).symm (cons_congr (Slot.step_ne rfl).symm (cons_congr (Slot.step_ne rfl).symm (cons_congr (Slot.step_ne rfl).symm (cons_congr (Slot.step_ne rfl).symm (cons_congr (Slot.step_ne rfl).symm (cons_congr (Slot.step_ne rfl).symm (cons_congr (Slot.step_ne rfl).symm (cons_congr (Slot.step_ne rfl).symm (cons_congr (Slot.step_ne rfl).symm (cons_congr (Slot.step_ne rfl).symm (cons_congr (Slot.step_ne rfl).symm (cons_congr (Slot.step_ne rfl).symm (cons_congr (Slot.step_ne rfl).symm (cons_congr (Slot.step_ne rfl).symm (cons_congr (Slot.step_ne rfl).symm (cons_congr (Slot.step_ne rfl).symm (cons_congr (Slot.step_ne rfl).symm (cons_congr (Slot.step_ne rfl).symm (cons_congr (Slot.step_ne rfl).symm (cons_congr (Slot.step_ne rfl).symm (cons_congr (Slot.step_ne rfl).symm (cons_congr (Slot.step_ne rfl).symm (cons_congr (Slot.step_ne rfl).symm (cons_congr (Slot.step_ne rfl).symm (cons_congr ?_ ((Schema.step_other rfl rfl).symm)))))))))))))))))))))))))))))))), ?_⟩
    all_goals first | exact hi | msg_field | (simp_all [St.Inv]; done)
  case IpAddress j =>
    simp only [step]
    repeat' split
    all_goals refine ⟨cons_congr (Slot.step_ne rfl).symm (cons_congr (Slot.step_ne rfl).symm (cons_congr (Slot.step_ne rfl).symm (cons_congr (Slot.step_ne rfl).symm (cons_congr (Slot.step_ne rfl).symm (cons_congr (Slot.step_ne rfl).symm (cons_congr (Slot.step_ne rfl).symm (cons_congr (Slot.step_ne rfl).symm (cons_congr (Slot.step_ne rfl).symm (cons_congr (Slot.step_ne rfl).symm (cons_congr (Slot.step_ne rfl).symm (cons_congr (Slot.step_ne rfl).symm (cons_congr (Slot.step_ne rfl).symm (cons_congr (Slot.step_ne rfl).symm (cons_congr ?_ (cons_congr (Slot.step_ne rfl).symm (cons_congr (Slot.step_ne rfl).symm (cons_congr (Slot.step_ne rfl).symm (cons_congr (Slot.step_ne rfl).symm (cons_congr (Slot.step_ne rfl).symm (cons_congr (Slot.step_ne rfl).symm (cons_congr (Slot.step_ne rfl).symm (cons_congr (Slot.step_ne rfl).symm (cons_congr (Slot.step_ne rfl).symm (cons_congr (Slot.step_ne rfl).symm (cons_congr (Slot.step_ne rfl).symm (cons_congr (Slot.step_ne rfl).symm (cons_congr (Slot.step_ne rfl).symm (cons_congr (Slot.step_ne rfl).symm (cons_congr (Slot.step_ne rfl).symm (cons_congr (Slot.step_ne rfl).symm (cons_congr (Slot.step_ne rfl).symm (cons_congr (Slot.step_ne rfl).symm (cons_congr ?_ ((Schema.step_other rfl rfl).symm)))))))))))))))))))))))))))))))))), ?_⟩
    all_goals first | exact hi | msg_field | (simp_all [St.Inv]; done)
  case UpSecurityPolicy j =>
    simp only [step]
    repeat' split
    all_goals refine ⟨cons_congr (Slot.step_ne rfl).symm (cons_congr (Slot.step_ne rfl).symm (cons_congr (Slot.step_ne rfl).symm (cons_congr (Slot.step_ne rfl).symm (cons_congr (Slot.step_ne rfl).symm (cons_congr (Slot.step_ne rfl).symm (cons_congr (Slot.step_ne rfl).symm (cons_congr (Slot.step_ne rfl).symm (cons_congr (Slot.step_ne rfl).symm (cons_congr (Slot.step_ne rfl).symm (cons_congr (Slot.step_ne rfl).symm (cons_congr (Slot.step_ne rfl).symm (cons_congr (Slot.step_ne rfl).symm (cons_congr (Slot.step_ne rfl).symm (cons_congr (Slot.step_ne rfl).symm (cons_congr (Slot.step_ne rfl).symm (cons_congr (Slot.step_ne rfl).symm (cons_congr (Slot.step_ne rfl).symm (cons_congr (Slot.step_ne rfl).symm (cons_congr (Slot.step_ne rfl).symm (cons_congr (Slot.step_ne rfl).symm (cons_congr (Slot.step_ne rfl).symm (cons_congr (Slot.step_ne rfl).symm (cons_congr (Slot.step_ne rfl).symm (cons_congr (Slot.step_ne rfl).symm (cons_congr (Slot.step_ne rfl).symm (cons_congr (Slot.step_ne rfl).symm (cons_congr (Slot.step_ne rfl).symm (cons_congr (Slot.step_ne rfl).symm (cons_congr (Slot.step_ne rfl).symm (cons_congr (Slot.step_ne rfl).symm (cons_congr (Slot.step_ne rfl).symm (cons_congr (Slot.step_ne rfl).symm (cons_congr (Slot.step_ne rfl).symm (cons_congr ?_ ((Schema.step_other rfl rfl).symm))))))))))))))))))))))))))))))))))), ?_⟩
    all_goals first | exact hi | msg_field | (simp_all [St.Inv]; done)
  case PrivateExtension j =>
    simp only [step]
    all_goals refine ⟨cons_congr (Slot.step_ne rfl).symm (cons_congr (Slot.step_ne rfl).symm (cons_congr (Slot.step_ne rfl).symm (cons_congr (Slot.step_ne rfl).symm (cons_congr (Slot.step_ne rfl).symm (cons_congr (Slot.step_ne rfl).symm (cons_congr (Slot.step_ne rfl).symm (cons_congr (Slot.step_ne rfl).symm (cons_congr (Slot.step_ne rfl).symm (cons_congr (Slot.step_ne rfl).symm (cons_congr (Slot.step_ne rfl).symm (cons_congr (Slot.step_ne rfl).symm (cons_congr (Slot.step_ne rfl).symm (cons_congr (Slot.step_ne rfl).symm (cons_congr (Slot.step_ne rfl).symm (cons_congr (Slot.step_ne rfl).symm (cons_congr (Slot.step_ne rfl).symm (cons_congr (Slot.step_ne rfl).symm (cons_congr (Slot.step_ne rfl).symm (cons_congr (Slot.step_ne rfl).symm (cons_congr (Slot.step_ne rfl).symm (cons_congr (Slot.step_ne rfl).symm (cons_congr (Slot.step_ne rfl).symm (cons_congr (Slot.step_ne rfl).symm (cons_congr (Slot.step_ne rfl).symm (cons_congr (Slot.step_ne rfl).symm (cons_congr (Slot.step_ne rfl).symm (cons_congr (Slot.step_ne rfl).symm (cons_congr (Slot.step_ne rfl).symm (cons_congr (Slot.step_ne rfl).symm (cons_congr (Slot.step_ne rfl).symm (cons_congr (Slot.step_ne rfl).symm (cons_congr (Slot.step_ne rfl).symm (cons_congr (Slot.step_ne rfl).symm (cons_congr (Slot.step_ne rfl).symm (cons_congr ?_ (rfl)))))))))))))))))))))))))))))))))))), ?_⟩
    all_goals first | exact hi | msg_field | (simp_all [St.Inv]; done)
  all_goals exact ⟨(Schema.step_other rfl rfl).symm, hi⟩

theorem loop (h : Header) (els : List IE) :
    (els.foldl step ⟨{ dflt with header := h }, false, false⟩).view = schema.map (·.select els) ∧ (els.foldl step ⟨{ dflt with header := h }, false, false⟩).Inv h := by
  have := foldl_view (Q := fun _ => True) (fun s e hp _ => step_view h s e hp) els ⟨{ dflt with header := h }, false, false⟩ (fun _ _ => trivial) (by simp [St.Inv, dflt])
  rw [show St.view ⟨{ dflt with header := h }, false, false⟩ = schema.map (fun _ => []) from rfl, Schema.foldl_nil] at this
  exact this

theorem ext {x y : CreateSessionResponse} (hh : x.header = y.header) (h : fields x = fields y) : x = y := by
  cases x; cases y
  simp only at hh
  subst hh
  injection h with h0 h
  cases h0
  injection h with h1 h
  cases optV_inj (fun _ _ h => IE.ChangeReportingAction.inj h) h1
  injection h with h2 h
  cases optV_inj (fun _ _ h => IE.CSGInformationReportingAction.inj h) h2
  injection h with h3 h
  cases optV_inj (fun _ _ h => IE.HenbInfoReporting.inj h) h3
  injection h with h4 h
  cases optV_inj (fun _ _ h => IE.Fteid.inj h) h4
  injection h with h5 h
  cases optV_inj (fun _ _ h => IE.Fteid.inj h) h5
  injection h with h6 h
  cases optV_inj (fun _ _ h => IE.PdnAddressAllocation.inj h) h6
  injection h with h7 h
  cases optV_inj (fun _ _ h => IE.ApnRestriction.inj h) h7
  injection h with h8 h
  cases optV_inj (fun _ _ h => IE.ApnAmbr.inj h) h8
  injection h with h9 h
  cases optV_inj (fun _ _ h => IE.Ebi.inj h) h9
  injection h with h10 h
  cases optV_inj (fun _ _ h => IE.Pco.inj h) h10
  injection h with h11 h
  cases map_inj (fun _ _ h => IE.BearerContext.inj h) h11
  injection h with h12 h
  cases optV_inj (fun _ _ h => IE.Recovery.inj h) h12
  injection h with h13 h
  cases optV_inj (fun _ _ h => IE.Fqdn.inj h) h13
  injection h with h14 h
  cases optV_inj (fun _ _ h => IE.IpAddress.inj h) h14
  injection h with h15 h
  cases optV_inj (fun _ _ h => IE.Fqcsid.inj h) h15
  injection h with h16 h
  cases optV_inj (fun _ _ h => IE.Fqcsid.inj h) h16
  injection h with h17 h
  cases optV_inj (fun _ _ h => IE.Ldn.inj h) h17
  injection h with h18 h
  cases optV_inj (fun _ _ h => IE.Ldn.inj h) h18
  injection h with h19 h
  cases optV_inj (fun _ _ h => IE.EpcTimer.inj h) h19
  injection h with h20 h
  cases optV_inj (fun _ _ h => IE.Apco.inj h) h20
  injection h with h21 h
  cases optV_inj (fun _ _ h => IE.Ip4Cp.inj h) h21
  injection h with h22 h
  cases optV_inj (fun _ _ h => IE.Indication.inj h) h22
  injection h with h23 h
  cases optV_inj (fun _ _ h => IE.PresenceReportingAreaAction.inj h) h23
  injection h with h24 h
  cases map_inj (fun _ _ h => IE.LoadControlInfo.inj h) h24
  injection h with h25 h
  cases map_inj (fun _ _ h => IE.OverloadControlInfo.inj h) h25
  injection h with h26 h
  cases optV_inj (fun _ _ h => IE.Fcontainer.inj h) h26
  injection h with h27 h
  cases optV_inj (fun _ _ h => IE.ChargingId.inj h) h27
  injection h with h28 h
  cases optV_inj (fun _ _ h => IE.Epco.inj h) h28
  injection h with h29 h
  cases optV_inj (fun _ _ h => IE.Fqdn.inj h) h29
  injection h with h30 h
  cases optV_inj (fun _ _ h => IE.SgiPtpTunnelAddress.inj h) h30
  injection h with h31 h
  cases optV_inj (fun _ _ h => IE.PgwChangeInfo.inj h) h31
  injection h with h32 h
  cases map_inj (fun _ _ h => IE.Fqdn.inj h) h32
  injection h with h33 h
  cases map_inj (fun _ _ h => IE.IpAddress.inj h) h33
  injection h with h34 h
  cases optV_inj (fun _ _ h => IE.UpSecurityPolicy.inj h) h34
  injection h with h35 h
  cases map_inj (fun _ _ h => IE.PrivateExtension.inj h) h35
  rfl

theorem mand : schema.filter (·.card.mandatory) = [(⟨.Cause, .is 0, .one⟩ : Slot), (⟨.BearerContext, .is 0, .many1 (.is 0)⟩ : Slot)] := rfl

/-- The flags tell which mandatory IEs are absent. -/
theorem flags (h : Header) (els : List IE) : ∃ x m0 m1, els.foldl step ⟨{ dflt with header := h }, false, false⟩ = ⟨x, m0, m1⟩ ∧ St.view ⟨x, m0, m1⟩ = schema.map (·.select els) ∧ x.header = h ∧
    (⟨.Cause, .is 0, .one⟩ : Slot).lacks els = (!m0) ∧
    (⟨.BearerContext, .is 0, .many1 (.is 0)⟩ : Slot).lacks els = (!m1) := by
  obtain ⟨hv, hi⟩ := loop h els
  generalize els.foldl step ⟨{ dflt with header := h }, false, false⟩ = s at hv hi ⊢
  obtain ⟨x, m0, m1⟩ := s
  simp only [St.Inv] at hi
  have l0 : (⟨.Cause, .is 0, .one⟩ : Slot).lacks els = (!m0) := by
    rw [Slot.lacks_eq els rfl]
    have e := congrArg (fun l => l.getD 0 []) hv
    rw [show (⟨.Cause, .is 0, .one⟩ : Slot).select els = if m0 then [.Cause x.cause] else [] from e.symm]
    cases m0 <;> rfl
  have l1 : (⟨.BearerContext, .is 0, .many1 (.is 0)⟩ : Slot).lacks els = (!m1) := by
    rw [Slot.lacks_eq els rfl]
    have e := congrArg (fun l => l.getD 11 []) hv
    rw [show (⟨.BearerContext, .is 0, .many1 (.is 0)⟩ : Slot).select els = x.bearer_ctxs.map .BearerContext from e.symm]
    rw [hi.2, Bool.not_not]
    cases x.bearer_ctxs <;> rfl
  exact ⟨x, m0, m1, rfl, hv, hi.1, l0, l1⟩

theorem complete (h : Header) (els : List IE) (hm : schema.missing els = []) : ∃ y, fromvec { dflt with header := h } els = .ok y ∧ y.header = h ∧ fields y = schema.map (·.select els) := by
  obtain ⟨x, m0, m1, hs, hv, hh, l0, l1⟩ := flags h els
  unfold fromvec
  rw [hs]
  dsimp only [finish]
  have f0 := l0.symm.trans (Schema.of_missing_nil mand (by simp) hm)
  have f1 := l1.symm.trans (Schema.of_missing_nil mand (by simp) hm)
  cases m0 <;> cases m1 <;> first | exact ⟨x, rfl, hh, hv⟩ | contradiction

theorem describes : Describes codec schema fields where
  header_set _ _ := rfl
  fields_set _ _ := rfl
  ext _ _ hh h := ext hh h
  shape x := Aligned.one (fun _ => rfl) <| Aligned.opt (fun _ => rfl) <| Aligned.opt (fun _ => rfl) <| Aligned.opt (fun _ => rfl) <| Aligned.opt (fun _ => rfl) <| Aligned.opt (fun _ => rfl) <| Aligned.opt (fun _ => rfl) <| Aligned.opt (fun _ => rfl) <| Aligned.opt (fun _ => rfl) <| Aligned.opt (fun _ => rfl) <| Aligned.opt (fun _ => rfl) <| Aligned.many (fun _ => rfl) <| Aligned.opt (fun _ => rfl) <| Aligned.opt (fun _ => rfl) <| Aligned.opt (fun _ => rfl) <| Aligned.opt (fun _ => rfl) <| Aligned.opt (fun _ => rfl) <| Aligned.opt (fun _ => rfl) <| Aligned.opt (fun _ => rfl) <| Aligned.opt (fun _ => rfl) <| Aligned.opt (fun _ => rfl) <| Aligned.opt (fun _ => rfl) <| Aligned.opt (fun _ => rfl) <| Aligned.opt (fun _ => rfl) <| Aligned.many (fun _ => rfl) <| Aligned.many (fun _ => rfl) <| Aligned.opt (fun _ => rfl) <| Aligned.opt (fun _ => rfl) <| Aligned.opt (fun _ => rfl) <| Aligned.opt (fun _ => rfl) <| Aligned.opt (fun _ => rfl) <| Aligned.opt (fun _ => rfl) <| Aligned.many (fun _ => rfl) <| Aligned.many (fun _ => rfl) <| Aligned.opt (fun _ => rfl) <| Aligned.many (fun _ => rfl) <| trivial
  tovec x := by simp [codec, tovec, fields]
  complete h els _ hm := complete h els hm

theorem reports (h : Header) (els : List IE) (hm : schema.missing els ≠ []) :
    ∃ s ∈ schema.missing els, ∃ t, fromvec { dflt with header := h } els = .err (.messageMandatoryIEMissing t) ∧ kindOf t = s.kind := by
  obtain ⟨x, m0, m1, hs, hv, hh, l0, l1⟩ := flags h els
  unfold fromvec
  rw [hs]
  dsimp only [finish]
  cases m0 <;> cases m1 <;>
    first | exact ⟨_, Schema.mem_missing mand (by simp) l0, _, rfl, rfl⟩ | exact ⟨_, Schema.mem_missing mand (by simp) l1, _, rfl, rfl⟩ | exact absurd (Schema.missing_nil mand (by simp [l0, l1])) hm

theorem settled (h : Header) (els els' : List IE) (he : ∀ s ∈ schema, s.card.mandatory = true → s.lacks els = s.lacks els')
    (hm : schema.missing els ≠ []) : fromvec { dflt with header := h } els = fromvec { dflt with header := h } els' := by
  obtain ⟨x, m0, m1, hs, hv, hh, l0, l1⟩ := flags h els
  obtain ⟨x', m0', m1', hs', hv', hh', l0', l1'⟩ := flags h els'
  unfold fromvec
  rw [hs, hs']
  obtain rfl := Bool.not_inj (l0.symm.trans ((he _ (by decide) rfl).trans l0'))
  obtain rfl := Bool.not_inj (l1.symm.trans ((he _ (by decide) rfl).trans l1'))
  dsimp only [finish]
  cases m0 <;> cases m1 <;>
    first | rfl | exact absurd (Schema.missing_nil mand (by simp [l0, l1])) hm

end CreateSessionResponse

/-- `CsPagingIndication` (cspagingindication.rs:15-26). -/
structure CsPagingIndication where
  header : Header
  imsi : V2.Imsi
  vlr : V2.Fqdn
  tmsi : Option V2.Tmsi
  lai : Option V2.Uli
  global_cnid : Option V2.GlobalCnId
  channel_needed : Option V2.ChannelNeeded
  emlpp_prio : Option V2.EmlppPriority
  service_indicator : Option V2.ServiceIndicator
  private_ext : List V2.PrivateExtension
deriving DecidableEq

namespace CsPagingIndication

/-- `default` (cspagingindication.rs:29-47). -/
def dflt : CsPagingIndication :=
  { header := { Header.default with msgtype := 151, teid := some 0 }, imsi := V2.Imsi.dflt, vlr := V2.Fqdn.dflt, tmsi := none, lai := none, global_cnid := none, channel_needed := none, emlpp_prio := none, service_indicator := none, private_ext := [] }

/-- `tovec` (cspagingindication.rs:84-115). -/
def tovec (x : CsPagingIndication) : List IE :=
  [.Imsi x.imsi] ++ (
  [.Fqdn x.vlr] ++ (
  optV .Tmsi x.tmsi ++ (
  optV .Uli x.lai ++ (
  optV .GlobalCnId x.global_cnid ++ (
  optV .ChannelNeeded x.channel_needed ++ (
  optV .EmlppPriority x.emlpp_prio ++ (
  optV .ServiceIndicator x.service_indicator ++ (
  x.private_ext.map .PrivateExtension))))))))

/-- The variables of `fromvec`: the message and the array `mandatory` (cspagingindication.rs:117-173). -/
structure St where
  x : CsPagingIndication
  m0 : Bool
  m1 : Bool

/-- One turn of the loop of `fromvec` (cspagingindication.rs:117-173). -/
def step (s : St) : IE → St
  | .Imsi j => if j.ins = 0 ∧ s.m0 = false then { s with x := { s.x with imsi := j }, m0 := true } else s
  | .Fqdn j => if j.ins = 0 ∧ s.m1 = false then { s with x := { s.x with vlr := j }, m1 := true } else s
  | .Tmsi j => if j.ins = 0 ∧ s.x.tmsi.isNone = true then { s with x := { s.x with tmsi := some j } } else s
  | .Uli j => if j.ins = 0 ∧ s.x.lai.isNone = true then { s with x := { s.x with lai := some j } } else s
  | .GlobalCnId j => if j.ins = 0 ∧ s.x.global_cnid.isNone = true then { s with x := { s.x with global_cnid := some j } } else s
  | .ChannelNeeded j => if j.ins = 0 ∧ s.x.channel_needed.isNone = true then { s with x := { s.x with channel_needed := some j } } else s
  | .EmlppPriority j => if j.ins = 0 ∧ s.x.emlpp_prio.isNone = true then { s with x := { s.x with emlpp_prio := some j } } else s
  | .ServiceIndicator j => if j.ins = 0 ∧ s.x.service_indicator.isNone = true then { s with x := { s.x with service_indicator := some j } } else s
  | .PrivateExtension j => { s with x := { s.x with private_ext := s.x.private_ext ++ [j] } }
  | _ => s

/-- The end of `fromvec` (cspagingindication.rs:117-173). -/
def finish (s : St) : R Err CsPagingIndication :=
  match s.m0, s.m1 with
  | true, true => .ok s.x
  | false, _ => .err (.messageMandatoryIEMissing 1)
  | _, false => .err (.messageMandatoryIEMissing 136)

/-- `fromvec` (cspagingindication.rs:117-173). -/
def fromvec (x : CsPagingIndication) (els : List IE) : R Err CsPagingIndication := finish (els.foldl step ⟨x, false, false⟩)

/-- The message type (cspagingindication.rs:51-82). -/
def codec : Codec CsPagingIndication :=
  { msgtype := 151, start := some 12, dflt, header := header, setHeader := fun x h => { x with header := h }, tovec, fromvec }

/-- One slot per field. -/
def schema : Schema :=
  [⟨.Imsi, .is 0, .one⟩,
   ⟨.Fqdn, .is 0, .one⟩,
   ⟨.Tmsi, .is 0, .opt⟩,
   ⟨.Uli, .is 0, .opt⟩,
   ⟨.GlobalCnId, .is 0, .opt⟩,
   ⟨.ChannelNeeded, .is 0, .opt⟩,
   ⟨.EmlppPriority, .is 0, .opt⟩,
   ⟨.ServiceIndicator, .is 0, .opt⟩,
   ⟨.PrivateExtension, .any, .many⟩]

/-- The fields as lists of IEs. -/
def fields (x : CsPagingIndication) : List (List IE) :=
  [[.Imsi x.imsi],
   [.Fqdn x.vlr],
   optV .Tmsi x.tmsi,
   optV .Uli x.lai,
   optV .GlobalCnId x.global_cnid,
   optV .ChannelNeeded x.channel_needed,
   optV .EmlppPriority x.emlpp_prio,
   optV .ServiceIndicator x.service_indicator,
   x.private_ext.map .PrivateExtension]

/-- What the state has collected so far. -/
def St.view (s : St) : List (List IE) :=
  [if s.m0 then [.Imsi s.x.imsi] else [],
   if s.m1 then [.Fqdn s.x.vlr] else [],
   optV .Tmsi s.x.tmsi,
   optV .Uli s.x.lai,
   optV .GlobalCnId s.x.global_cnid,
   optV .ChannelNeeded s.x.channel_needed,
   optV .EmlppPriority s.x.emlpp_prio,
   optV .ServiceIndicator s.x.service_indicator,
   s.x.private_ext.map .PrivateExtension]

/-- The header is left alone; flags of mandatory lists tell whether the list is empty. -/
def St.Inv (h : Header) (s : St) : Prop :=
  s.x.header = h

theorem step_view (h : Header) (s : St) (e : IE) (hi : s.Inv h) : (step s e).view = Schema.step schema s.view e ∧ (step s e).Inv h := by
  cases e
  case Imsi j =>
    simp only [step]
    repeat' split
    all_goals refine ⟨cons_congr ?_ ((Schema.step_other rfl rfl).symm), ?_⟩
    all_goals first | exact hi | msg_field | (simp_all [St.Inv]; done)
  case Fqdn j =>
    simp only [step]
    repeat' split
    all_goals refine ⟨cons_congr (Slot.step_ne rfl).symm (cons_congr ?_ ((Schema.step_other rfl rfl).symm)), ?_⟩
    all_goals first | exact hi | msg_field | (simp_all [St.Inv]; done)
  case Tmsi j =>
    simp only [step]
    repeat' split
    all_goals refine ⟨cons_congr (Slot.step_ne rfl).symm (cons_congr (Slot.step_ne rfl).symm (cons_congr ?_ ((Schema.step_other rfl rfl).symm))), ?_⟩
    all_goals first | exact hi | msg_field | (simp_all [St.Inv]; done)
  case Uli j =>
    simp only [step]
    repeat' split
    all_goals refine ⟨cons_congr (Slot.step_ne rfl).symm (cons_congr (Slot.step_ne rfl).symm (cons_congr (Slot.step_ne rfl).symm (cons_congr ?_ ((Schema.step_other rfl rfl).symm)))), ?_⟩
    all_goals first | exact hi | msg_field | (simp_all [St.Inv]; done)
  case GlobalCnId j =>
    simp only [step]
    repeat' split
    all_goals refine ⟨cons_congr (Slot.step_ne rfl).symm (cons_congr (Slot.step_ne rfl).symm (cons_congr (Slot.step_ne rfl).symm (cons_congr (Slot.step_ne rfl).symm (cons_congr ?_ ((Schema.step_other rfl rfl).symm))))), ?_⟩
    all_goals first | exact hi | msg_field | (simp_all [St.Inv]; done)
  case ChannelNeeded j =>
    simp only [step]
    repeat' split
    all_goals refine ⟨cons_congr (Slot.step_ne rfl).symm (cons_congr (Slot.step_ne rfl).symm (cons_congr (Slot.step_ne rfl).symm (cons_congr (Slot.step_ne rfl).symm (cons_congr (Slot.step_ne rfl).symm (cons_congr ?_ ((Schema.step_other rfl rfl).symm)))))), ?_⟩
    all_goals first | exact hi | msg_field | (simp_all [St.Inv]; done)
  case EmlppPriority j =>
    simp only [step]
    repeat' split
    all_goals refine ⟨cons_congr (Slot.step_ne rfl).symm (cons_congr (Slot.step_ne rfl).symm (cons_congr (Slot.step_ne rfl).symm (cons_congr (Slot.step_ne rfl).symm (cons_congr (Slot.step_ne rfl).symm (cons_congr (Slot.step_ne rfl).symm (cons_congr ?_ ((Schema.step_other rfl rfl).symm))))))), ?_⟩
    all_goals first | exact hi | msg_field | (simp_all [St.Inv]; done)
  case ServiceIndicator j =>
    simp only [step]
    repeat' split
    all_goals refine ⟨cons_congr (Slot.step_ne rfl).symm (cons_congr (Slot.step_ne rfl).symm (cons_congr (Slot.step_ne rfl).symm (cons_congr (Slot.step_ne rfl).symm (cons_congr (Slot.step_ne rfl).symm (cons_congr (Slot.step_ne rfl).symm (cons_congr (Slot.step_ne rfl).symm (cons_congr ?_ ((Schema.step_other rfl rfl).symm)))))))), ?_⟩
    all_goals first | exact hi | msg_field | (simp_all [St.Inv]; done)
  case PrivateExtension j =>
    simp only [step]
    all_goals refine ⟨cons_congr (Slot.step_ne rfl).symm (cons_congr (Slot.step_ne rfl).symm (cons_congr (Slot.step_ne rfl).symm (cons_congr (Slot.step_ne rfl).symm (cons_congr (Slot.step_ne rfl).symm (cons_congr (Slot.step_ne rfl).symm (cons_congr (Slot.step_ne rfl).symm (cons_congr (Slot.step_ne rfl).symm (cons_congr ?_ (rfl))))))))), ?_⟩
    all_goals first | exact hi | msg_field | (simp_all [St.Inv]; done)
  all_goals exact ⟨(Schema.step_other rfl rfl).symm, hi⟩

theorem loop (h : Header) (els : List IE) :
    (els.foldl step ⟨{ dflt with header := h }, false, false⟩).view = schema.map (·.select els) ∧ (els.foldl step ⟨{ dflt with header := h }, false, false⟩).Inv h := by
  have := foldl_view (Q := fun _ => True) (fun s e hp _ => step_view h s e hp) els ⟨{ dflt with header := h }, false, false⟩ (fun _ _ => trivial) (by simp [St.Inv])
  rw [show St.view ⟨{ dflt with header := h }, false, false⟩ = schema.map (fun _ => []) from rfl, Schema.foldl_nil] at this
  exact this

theorem ext {x y : CsPagingIndication} (hh : x.header = y.header) (h : fields x = fields y) : x = y := by
  cases x; cases y
  simp only at hh
  subst hh
  injection h with h0 h
  cases h0
  injection h with h1 h
  cases h1
  injection h with h2 h
  cases optV_inj (fun _ _ h => IE.Tmsi.inj h) h2
  injection h with h3 h
  cases optV_inj (fun _ _ h => IE.Uli.inj h) h3
  injection h with h4 h
  cases optV_inj (fun _ _ h => IE.GlobalCnId.inj h) h4
  injection h with h5 h
  cases optV_inj (fun _ _ h => IE.ChannelNeeded.inj h) h5
  injection h with h6 h
  cases optV_inj (fun _ _ h => IE.EmlppPriority.inj h) h6
  injection h with h7 h
  cases optV_inj (fun _ _ h => IE.ServiceIndicator.inj h) h7
  injection h with h8 h
  cases map_inj (fun _ _ h => IE.PrivateExtension.inj h) h8
  rfl

theorem mand : schema.filter (·.card.mandatory) = [(⟨.Imsi, .is 0, .one⟩ : Slot), (⟨.Fqdn, .is 0, .one⟩ : Slot)] := rfl

/-- The flags tell which mandatory IEs are absent. -/
theorem flags (h : Header) (els : List IE) : ∃ x m0 m1, els.foldl step ⟨{ dflt with header := h }, false, false⟩ = ⟨x, m0, m1⟩ ∧ St.view ⟨x, m0, m1⟩ = schema.map (·.select els) ∧ x.header = h ∧
    (⟨.Imsi, .is 0, .one⟩ : Slot).lacks els = (!m0) ∧
    (⟨.Fqdn, .is 0, .one⟩ : Slot).lacks els = (!m1) := by
  obtain ⟨hv, hi⟩ := loop h els
  generalize els.foldl step ⟨{ dflt with header := h }, false, false⟩ = s at hv hi ⊢
  obtain ⟨x, m0, m1⟩ := s
  simp only [St.Inv] at hi
  have l0 : (⟨.Imsi, .is 0, .one⟩ : Slot).lacks els = (!m0) := by
    rw [Slot.lacks_eq els rfl]
    have e := congrArg (fun l => l.getD 0 []) hv
    rw [show (⟨.Imsi, .is 0, .one⟩ : Slot).select els = if m0 then [.Imsi x.imsi] else [] from e.symm]
    cases m0 <;> rfl
  have l1 : (⟨.Fqdn, .is 0, .one⟩ : Slot).lacks els = (!m1) := by
    rw [Slot.lacks_eq els rfl]
    have e := congrArg (fun l => l.getD 1 []) hv
    rw [show (⟨.Fqdn, .is 0, .one⟩ : Slot).select els = if m1 then [.Fqdn x.vlr] else [] from e.symm]
    cases m1 <;> rfl
  exact ⟨x, m0, m1, rfl, hv, hi, l0, l1⟩

theorem complete (h : Header) (els : List IE) (hm : schema.missing els = []) : ∃ y, fromvec { dflt with header := h } els = .ok y ∧ y.header = h ∧ fields y = schema.map (·.select els) := by
  obtain ⟨x, m0, m1, hs, hv, hh, l0, l1⟩ := flags h els
  unfold fromvec
  rw [hs]
  dsimp only [finish]
  have f0 := l0.symm.trans (Schema.of_missing_nil mand (by simp) hm)
  have f1 := l1.symm.trans (Schema.of_missing_nil mand (by simp) hm)
  cases m0 <;> cases m1 <;> first | exact ⟨x, rfl, hh, hv⟩ | contradiction

theorem describes : Describes codec schema fields where
  header_set _ _ := rfl
  fields_set _ _ := rfl
  ext _ _ hh h := ext hh h
  shape x := Aligned.one (fun _ => rfl) <| Aligned.one (fun _ => rfl) <| Aligned.opt (fun _ => rfl) <| Aligned.opt (fun _ => rfl) <| Aligned.opt (fun _ => rfl) <| Aligned.opt (fun _ => rfl) <| Aligned.opt (fun _ => rfl) <| Aligned.opt (fun _ => rfl) <| Aligned.many (fun _ => rfl) <| trivial
  tovec x := by simp [codec, tovec, fields]
  complete h els _ hm := complete h els hm

theorem reports (h : Header) (els : List IE) (hm : schema.missing els ≠ []) :
    ∃ s ∈ schema.missing els, ∃ t, fromvec { dflt with header := h } els = .err (.messageMandatoryIEMissing t) ∧ kindOf t = s.kind := by
  obtain ⟨x, m0, m1, hs, hv, hh, l0, l1⟩ := flags h els
  unfold fromvec
  rw [hs]
  dsimp only [finish]
  cases m0 <;> cases m1 <;>
    first | exact ⟨_, Schema.mem_missing mand (by simp) l0, _, rfl, rfl⟩ | exact ⟨_, Schema.mem_missing mand (by simp) l1, _, rfl, rfl⟩ | exact absurd (Schema.missing_nil mand (by simp [l0, l1])) hm

theorem settled (h : Header) (els els' : List IE) (he : ∀ s ∈ schema, s.card.mandatory = true → s.lacks els = s.lacks els')
    (hm : schema.missing els ≠ []) : fromvec { dflt with header := h } els = fromvec { dflt with header := h } els' := by
  obtain ⟨x, m0, m1, hs, hv, hh, l0, l1⟩ := flags h els
  obtain ⟨x', m0', m1', hs', hv', hh', l0', l1'⟩ := flags h els'
  unfold fromvec
  rw [hs, hs']
  obtain rfl := Bool.not_inj (l0.symm.trans ((he _ (by decide) rfl).trans l0'))
  obtain rfl := Bool.not_inj (l1.symm.trans ((he _ (by decide) rfl).trans l1'))
  dsimp only [finish]
  cases m0 <;> cases m1 <;>
    first | rfl | exact absurd (Schema.missing_nil mand (by simp [l0, l1])) hm

end CsPagingIndication

end Gtp.V2.Msg
