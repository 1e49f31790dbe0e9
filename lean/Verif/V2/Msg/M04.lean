import Verif.V2.Msg.Tactic

/-!
# GTPv2-C messages, part 4

Generated by `scripts/gen_msgs.py` from the Rust sources: `DeleteBearerCommand`, `DeleteBearerFailureInd`, `DeleteBearerRequest`, `DeleteBearerResponse`, `DeleteIndirectDataForwardingTunnelRequest`, `DeleteIndirectDataForwardingTunnelResponse`, `DeletePdnConnectionSetRequest`, `DeletePndConnectionSetResponse`.
-/

namespace Gtp.V2.Msg

/-- `DeleteBearerCommand` (deletebearercommand.rs:15-26). -/
structure DeleteBearerCommand where
  header : Header
  bearer_ctxs : List V2.BearerContext
  uli : Option V2.Uli
  uli_timestamp : Option V2.UliTimestamp
  uetimezone : Option V2.UeTimeZone
  overload_info : List V2.OverloadControlInfo
  fteid_control : Option V2.Fteid
  secondary_rat_usage_report : List V2.SecondaryRatUsageDataReport
  pscellid : Option V2.PSCellId
  private_ext : List V2.PrivateExtension
deriving DecidableEq

namespace DeleteBearerCommand

/-- `default` (deletebearercommand.rs:29-48). -/
def dflt : DeleteBearerCommand :=
  { header := { Header.default with msgtype := 66, teid := some 0 }, bearer_ctxs := [], uli := none, uli_timestamp := none, uetimezone := none, overload_info := [], fteid_control := none, secondary_rat_usage_report := [], pscellid := none, private_ext := [] }

/-- `tovec` (deletebearercommand.rs:84-122). -/
def tovec (x : DeleteBearerCommand) : List IE :=
  x.bearer_ctxs.map .BearerContext ++ (
  optV .Uli x.uli ++ (
  optV .UliTimestamp x.uli_timestamp ++ (
  optV .UeTimeZone x.uetimezone ++ (
  x.overload_info.map .OverloadControlInfo ++ (
  optV .Fteid x.fteid_control ++ (
  x.secondary_rat_usage_report.map .SecondaryRatUsageDataReport ++ (
  optV .PSCellId x.pscellid ++ (
  x.private_ext.map .PrivateExtension))))))))

/-- The variables of `fromvec`: the message and the array `mandatory` (deletebearercommand.rs:124-178). -/
structure St where
  x : DeleteBearerCommand
  m0 : Bool

/-- One turn of the loop of `fromvec` (deletebearercommand.rs:124-178). -/
def step (s : St) : IE → St
  | .BearerContext j => if j.ins = 0 then { s with x := { s.x with bearer_ctxs := s.x.bearer_ctxs ++ [j] }, m0 := true } else s
  | .Uli j => if j.ins = 0 ∧ s.x.uli.isNone = true then { s with x := { s.x with uli := some j } } else s
  | .UliTimestamp j => if j.ins = 0 ∧ s.x.uli_timestamp.isNone = true then { s with x := { s.x with uli_timestamp := some j } } else s
  | .UeTimeZone j => if j.ins = 0 ∧ s.x.uetimezone.isNone = true then { s with x := { s.x with uetimezone := some j } } else s
  | .OverloadControlInfo j => if j.ins < 2 then { s with x := { s.x with overload_info := s.x.overload_info ++ [j] } } else s
  | .Fteid j => if j.ins = 0 ∧ s.x.fteid_control.isNone = true then { s with x := { s.x with fteid_control := some j } } else s
  | .SecondaryRatUsageDataReport j => if j.ins = 0 then { s with x := { s.x with secondary_rat_usage_report := s.x.secondary_rat_usage_report ++ [j] } } else s
  | .PSCellId j => if j.ins = 0 ∧ s.x.pscellid.isNone = true then { s with x := { s.x with pscellid := some j } } else s
  | .PrivateExtension j => { s with x := { s.x with private_ext := s.x.private_ext ++ [j] } }
  | _ => s

/-- The end of `fromvec` (deletebearercommand.rs:124-178). -/
def finish (s : St) : R Err DeleteBearerCommand :=
  if s.m0 then .ok s.x else .err (.messageMandatoryIEMissing 93)

/-- `fromvec` (deletebearercommand.rs:124-178). -/
def fromvec (x : DeleteBearerCommand) (els : List IE) : R Err DeleteBearerCommand := finish (els.foldl step ⟨x, false⟩)

/-- The message type (deletebearercommand.rs:52-82). -/
def codec : Codec DeleteBearerCommand :=
  { msgtype := 66, start := some 12, dflt, header := header, setHeader := fun x h => { x with header := h }, tovec, fromvec }

/-- One slot per field. -/
def schema : Schema :=
  [⟨.BearerContext, .is 0, .many1 (.is 0)⟩,
   ⟨.Uli, .is 0, .opt⟩,
   ⟨.UliTimestamp, .is 0, .opt⟩,
   ⟨.UeTimeZone, .is 0, .opt⟩,
   ⟨.OverloadControlInfo, .lt 2, .many⟩,
   ⟨.Fteid, .is 0, .opt⟩,
   ⟨.SecondaryRatUsageDataReport, .is 0, .many⟩,
   ⟨.PSCellId, .is 0, .opt⟩,
   ⟨.PrivateExtension, .any, .many⟩]

/-- The fields as lists of IEs. -/
def fields (x : DeleteBearerCommand) : List (List IE) :=
  [x.bearer_ctxs.map .BearerContext,
   optV .Uli x.uli,
   optV .UliTimestamp x.uli_timestamp,
   optV .UeTimeZone x.uetimezone,
   x.overload_info.map .OverloadControlInfo,
   optV .Fteid x.fteid_control,
   x.secondary_rat_usage_report.map .SecondaryRatUsageDataReport,
   optV .PSCellId x.pscellid,
   x.private_ext.map .PrivateExtension]

/-- What the state has collected so far. -/
def St.view (s : St) : List (List IE) :=
  [s.x.bearer_ctxs.map .BearerContext,
   optV .Uli s.x.uli,
   optV .UliTimestamp s.x.uli_timestamp,
   optV .UeTimeZone s.x.uetimezone,
   s.x.overload_info.map .OverloadControlInfo,
   optV .Fteid s.x.fteid_control,
   s.x.secondary_rat_usage_report.map .SecondaryRatUsageDataReport,
   optV .PSCellId s.x.pscellid,
   s.x.private_ext.map .PrivateExtension]

/-- The header is left alone; flags of mandatory lists tell whether the list is empty. -/
def St.Inv (h : Header) (s : St) : Prop :=
  s.x.header = h ∧ s.m0 = !s.x.bearer_ctxs.isEmpty

theorem step_view (h : Header) (s : St) (e : IE) (hi : s.Inv h) : (step s e).view = Schema.step schema s.view e ∧ (step s e).Inv h := by
  cases e
  case BearerContext j =>
    simp only [step]
    repeat' split
    all_goals refine ⟨cons_congr ?_ ((Schema.step_other rfl rfl).symm), ?_⟩
    all_goals first | exact hi | msg_field | (simp_all [St.Inv]; done)
  case Uli j =>
    simp only [step]
    repeat' split
    all_goals refine ⟨cons_congr (Slot.step_ne rfl).symm (cons_congr ?_ ((Schema.step_other rfl rfl).symm)), ?_⟩
    all_goals first | exact hi | msg_field | (simp_all [St.Inv]; done)
  case UliTimestamp j =>
    simp only [step]
    repeat' split
    all_goals refine ⟨cons_congr (Slot.step_ne rfl).symm (cons_congr (Slot.step_ne rfl).symm (cons_congr ?_ ((Schema.step_other rfl rfl).symm))), ?_⟩
    all_goals first | exact hi | msg_field | (simp_all [St.Inv]; done)
  case UeTimeZone j =>
    simp only [step]
    repeat' split
    all_goals refine ⟨cons_congr (Slot.step_ne rfl).symm (cons_congr (Slot.step_ne rfl).symm (cons_congr (Slot.step_ne rfl).symm (cons_congr ?_ ((Schema.step_other rfl rfl).symm)))), ?_⟩
    all_goals first | exact hi | msg_field | (simp_all [St.Inv]; done)
  case OverloadControlInfo j =>
    simp only [step]
    repeat' split
    all_goals refine ⟨cons_congr (Slot.step_ne rfl).symm (cons_congr (Slot.step_ne rfl).symm (cons_congr (Slot.step_ne rfl).symm (cons_congr (Slot.step_ne rfl).symm (cons_congr ?_ ((Schema.step_other rfl rfl).symm))))), ?_⟩
    all_goals first | exact hi | msg_field | (simp_all [St.Inv]; done)
  case Fteid j =>
    simp only [step]
    repeat' split
    all_goals refine ⟨cons_congr (Slot.step_ne rfl).symm (cons_congr (Slot.step_ne rfl).symm (cons_congr (Slot.step_ne rfl).symm (cons_congr (Slot.step_ne rfl).symm (cons_congr (Slot.step_ne rfl).symm (cons_congr ?_ ((Schema.step_other rfl rfl).symm)))))), ?_⟩
    all_goals first | exact hi | msg_field | (simp_all [St.Inv]; done)
  case SecondaryRatUsageDataReport j =>
    simp only [step]
    repeat' split
    all_goals refine ⟨cons_congr (Slot.step_ne rfl).symm (cons_congr (Slot.step_ne rfl).symm (cons_congr (Slot.step_ne rfl).symm (cons_congr (Slot.step_ne rfl).symm (cons_congr (Slot.step_ne rfl).symm (cons_congr (Slot.step_ne rfl).symm (cons_congr ?_ ((Schema.step_other rfl rfl).symm))))))), ?_⟩
    all_goals first | exact hi | msg_field | (simp_all [St.Inv]; done)
  case PSCellId j =>
    simp only [step]
    repeat' split
    all_goals refine ⟨cons_congr (Slot.step_ne rfl).symm (cons_congr (Slot.step_ne rfl).symm (cons_congr (Slot.step_ne rfl).symm (cons_congr (Slot.step_ne rfl).symm (cons_congr (Slot.step_ne rfl).symm (cons_congr (Slot.step_ne rfl).symm (cons_congr (Slot.step_ne rfl).symm (cons_congr ?_ ((Schema.step_other rfl rfl).symm)))))))), ?_⟩
    all_goals first | exact hi | msg_field | (simp_all [St.Inv]; done)
  case PrivateExtension j =>
    simp only [step]
    all_goals refine ⟨cons_congr (Slot.step_ne rfl).symm (cons_congr (Slot.step_ne rfl).symm (cons_congr (Slot.step_ne rfl).symm (cons_congr (Slot.step_ne rfl).symm (cons_congr (Slot.step_ne rfl).symm (cons_congr (Slot.step_ne rfl).symm (cons_congr (Slot.step_ne rfl).symm (cons_congr (Slot.step_ne rfl).symm (cons_congr ?_ (rfl))))))))), ?_⟩
    all_goals first | exact hi | msg_field | (simp_all [St.Inv]; done)
  all_goals exact ⟨(Schema.step_other rfl rfl).symm, hi⟩

theorem loop (h : Header) (els : List IE) :
    (els.foldl step ⟨{ dflt with header := h }, false⟩).view = schema.map (·.select els) ∧ (els.foldl step ⟨{ dflt with header := h }, false⟩).Inv h := by
  have := foldl_view (Q := fun _ => True) (fun s e hp _ => step_view h s e hp) els ⟨{ dflt with header := h }, false⟩ (fun _ _ => trivial) (by simp [St.Inv, dflt])
  rw [show St.view ⟨{ dflt with header := h }, false⟩ = schema.map (fun _ => []) from rfl, Schema.foldl_nil] at this
  exact this

theorem ext {x y : DeleteBearerCommand} (hh : x.header = y.header) (h : fields x = fields y) : x = y := by
  cases x; cases y
  simp only at hh
  subst hh
  injection h with h0 h
  cases map_inj (fun _ _ h => IE.BearerContext.inj h) h0
  injection h with h1 h
  cases optV_inj (fun _ _ h => IE.Uli.inj h) h1
  injection h with h2 h
  cases optV_inj (fun _ _ h => IE.UliTimestamp.inj h) h2
  injection h with h3 h
  cases optV_inj (fun _ _ h => IE.UeTimeZone.inj h) h3
  injection h with h4 h
  cases map_inj (fun _ _ h => IE.OverloadControlInfo.inj h) h4
  injection h with h5 h
  cases optV_inj (fun _ _ h => IE.Fteid.inj h) h5
  injection h with h6 h
  cases map_inj (fun _ _ h => IE.SecondaryRatUsageDataReport.inj h) h6
  injection h with h7 h
  cases optV_inj (fun _ _ h => IE.PSCellId.inj h) h7
  injection h with h8 h
  cases map_inj (fun _ _ h => IE.PrivateExtension.inj h) h8
  rfl

theorem mand : schema.filter (·.card.mandatory) = [(⟨.BearerContext, .is 0, .many1 (.is 0)⟩ : Slot)] := rfl

/-- The flags tell which mandatory IEs are absent. -/
theorem flags (h : Header) (els : List IE) : ∃ x m0, els.foldl step ⟨{ dflt with header := h }, false⟩ = ⟨x, m0⟩ ∧ St.view ⟨x, m0⟩ = schema.map (·.select els) ∧ x.header = h ∧
    (⟨.BearerContext, .is 0, .many1 (.is 0)⟩ : Slot).lacks els = (!m0) := by
  obtain ⟨hv, hi⟩ := loop h els
  generalize els.foldl step ⟨{ dflt with header := h }, false⟩ = s at hv hi ⊢
  obtain ⟨x, m0⟩ := s
  simp only [St.Inv] at hi
  have l0 : (⟨.BearerContext, .is 0, .many1 (.is 0)⟩ : Slot).lacks els = (!m0) := by
    rw [Slot.lacks_eq els rfl]
    have e := congrArg (fun l => l.getD 0 []) hv
    rw [show (⟨.BearerContext, .is 0, .many1 (.is 0)⟩ : Slot).select els = x.bearer_ctxs.map .BearerContext from e.symm]
    rw [hi.2, Bool.not_not]
    cases x.bearer_ctxs <;> rfl
  exact ⟨x, m0, rfl, hv, hi.1, l0⟩

theorem complete (h : Header) (els : List IE) (hm : schema.missing els = []) : ∃ y, fromvec { dflt with header := h } els = .ok y ∧ y.header = h ∧ fields y = schema.map (·.select els) := by
  obtain ⟨x, m0, hs, hv, hh, l0⟩ := flags h els
  unfold fromvec
  rw [hs]
  dsimp only [finish]
  have f0 := l0.symm.trans (Schema.of_missing_nil mand (by simp) hm)
  cases m0 <;> first | exact ⟨x, rfl, hh, hv⟩ | contradiction

theorem describes : Describes codec schema fields where
  header_set _ _ := rfl
  fields_set _ _ := rfl
  ext _ _ hh h := ext hh h
  shape x := Aligned.many (fun _ => rfl) <| Aligned.opt (fun _ => rfl) <| Aligned.opt (fun _ => rfl) <| Aligned.opt (fun _ => rfl) <| Aligned.many (fun _ => rfl) <| Aligned.opt (fun _ => rfl) <| Aligned.many (fun _ => rfl) <| Aligned.opt (fun _ => rfl) <| Aligned.many (fun _ => rfl) <| trivial
  tovec x := by simp [codec, tovec, fields]
  complete h els _ hm := complete h els hm

theorem reports (h : Header) (els : List IE) (hm : schema.missing els ≠ []) :
    ∃ s ∈ schema.missing els, ∃ t, fromvec { dflt with header := h } els = .err (.messageMandatoryIEMissing t) ∧ kindOf t = s.kind := by
  obtain ⟨x, m0, hs, hv, hh, l0⟩ := flags h els
  unfold fromvec
  rw [hs]
  dsimp only [finish]
  cases m0 <;>
    first | exact ⟨_, Schema.mem_missing mand (by simp) l0, _, rfl, rfl⟩ | exact absurd (Schema.missing_nil mand (by simp [l0])) hm

theorem settled (h : Header) (els els' : List IE) (he : ∀ s ∈ schema, s.card.mandatory = true → s.lacks els = s.lacks els')
    (hm : schema.missing els ≠ []) : fromvec { dflt with header := h } els = fromvec { dflt with header := h } els' := by
  obtain ⟨x, m0, hs, hv, hh, l0⟩ := flags h els
  obtain ⟨x', m0', hs', hv', hh', l0'⟩ := flags h els'
  unfold fromvec
  rw [hs, hs']
  obtain rfl := Bool.not_inj (l0.symm.trans ((he _ (by decide) rfl).trans l0'))
  dsimp only [finish]
  cases m0 <;>
    first | rfl | exact absurd (Schema.missing_nil mand (by simp [l0])) hm

end DeleteBearerCommand

/-- `DeleteBearerFailureInd` (deletebearerfailureind.rs:15-23). -/
structure DeleteBearerFailureInd where
  header : Header
  cause : V2.Cause
  bearer_ctxs : List V2.BearerContext
  recovery : Option V2.Recovery
  indication : Option V2.Indication
  overload_info : List V2.OverloadControlInfo
  private_ext : List V2.PrivateExtension
deriving DecidableEq

namespace DeleteBearerFailureInd

/-- `default` (deletebearerfailureind.rs:26-41). -/
def dflt : DeleteBearerFailureInd :=
  { header := { Header.default with msgtype := 67, teid := some 0 }, cause := V2.Cause.dflt, bearer_ctxs := [], recovery := none, indication := none, overload_info := [], private_ext := [] }

/-- `tovec` (deletebearerfailureind.rs:78-103). -/
def tovec (x : DeleteBearerFailureInd) : List IE :=
  [.Cause x.cause] ++ (
  x.bearer_ctxs.map .BearerContext ++ (
  optV .Recovery x.recovery ++ (
  optV .Indication x.indication ++ (
  x.overload_info.map .OverloadControlInfo ++ (
  x.private_ext.map .PrivateExtension)))))

/-- The variables of `fromvec`: the message and the array `mandatory` (deletebearerfailureind.rs:105-144). -/
structure St where
  x : DeleteBearerFailureInd
  m0 : Bool

/-- One turn of the loop of `fromvec` (deletebearerfailureind.rs:105-144). -/
def step (s : St) : IE → St
  | .Cause j => if j.ins = 0 ∧ s.m0 = false then { s with x := { s.x with cause := j }, m0 := true } else s
  | .BearerContext j => if j.ins = 0 then { s with x := { s.x with bearer_ctxs := s.x.bearer_ctxs ++ [j] } } else s
  | .Recovery j => if j.ins = 0 ∧ s.x.recovery.isNone = true then { s with x := { s.x with recovery := some j } } else s
  | .Indication j => if j.ins = 0 ∧ s.x.indication.isNone = true then { s with x := { s.x with indication := some j } } else s
  | .OverloadControlInfo j => if j.ins < 2 then { s with x := { s.x with overload_info := s.x.overload_info ++ [j] } } else s
  | .PrivateExtension j => { s with x := { s.x with private_ext := s.x.private_ext ++ [j] } }
  | _ => s

/-- The end of `fromvec` (deletebearerfailureind.rs:105-144). -/
def finish (s : St) : R Err DeleteBearerFailureInd :=
  match s.m0, s.x.bearer_ctxs.isEmpty with
  | false, false => .err (.messageMandatoryIEMissing 2)
  | true, true => .err (.messageMandatoryIEMissing 93)
  | false, true => .err (.messageMandatoryIEMissing 2)
  | true, false => .ok s.x

/-- `fromvec` (deletebearerfailureind.rs:105-144). -/
def fromvec (x : DeleteBearerFailureInd) (els : List IE) : R Err DeleteBearerFailureInd := finish (els.foldl step ⟨x, false⟩)

/-- The message type (deletebearerfailureind.rs:45-76). -/
def codec : Codec DeleteBearerFailureInd :=
  { msgtype := 67, start := some 12, dflt, header := header, setHeader := fun x h => { x with header := h }, tovec, fromvec }

/-- One slot per field. -/
def schema : Schema :=
  [⟨.Cause, .is 0, .one⟩,
   ⟨.BearerContext, .is 0, .many1 (.is 0)⟩,
   ⟨.Recovery, .is 0, .opt⟩,
   ⟨.Indication, .is 0, .opt⟩,
   ⟨.OverloadControlInfo, .lt 2, .many⟩,
   ⟨.PrivateExtension, .any, .many⟩]

/-- The fields as lists of IEs. -/
def fields (x : DeleteBearerFailureInd) : List (List IE) :=
  [[.Cause x.cause],
   x.bearer_ctxs.map .BearerContext,
   optV .Recovery x.recovery,
   optV .Indication x.indication,
   x.overload_info.map .OverloadControlInfo,
   x.private_ext.map .PrivateExtension]

/-- What the state has collected so far. -/
def St.view (s : St) : List (List IE) :=
  [if s.m0 then [.Cause s.x.cause] else [],
   s.x.bearer_ctxs.map .BearerContext,
   optV .Recovery s.x.recovery,
   optV .Indication s.x.indication,
   s.x.overload_info.map .OverloadControlInfo,
   s.x.private_ext.map .PrivateExtension]

/-- The header is left alone; flags of mandatory lists tell whether the list is empty. -/
def St.Inv (h : Header) (s : St) : Prop :=
  s.x.header = h

theorem step_view (h : Header) (s : St) (e : IE) (hi : s.Inv h) : (step s e).view = Schema.step schema s.view e ∧ (step s e).Inv h := by
  cases e
  case Cause j =>
    simp only [step]
    repeat' split
    all_goals refine ⟨cons_congr ?_ ((Schema.step_other rfl rfl).symm), ?_⟩
    all_goals first | exact hi | msg_field | (simp_all [St.Inv]; done)
  case BearerContext j =>
    simp only [step]
    repeat' split
    all_goals refine ⟨cons_congr (Slot.step_ne rfl).symm (cons_congr ?_ ((Schema.step_other rfl rfl).symm)), ?_⟩
    all_goals first | exact hi | msg_field | (simp_all [St.Inv]; done)
  case Recovery j =>
    simp only [step]
    repeat' split
    all_goals refine ⟨cons_congr (Slot.step_ne rfl).symm (cons_congr (Slot.step_ne rfl).symm (cons_congr ?_ ((Schema.step_other rfl rfl).symm))), ?_⟩
    all_goals first | exact hi | msg_field | (simp_all [St.Inv]; done)
  case Indication j =>
    simp only [step]
    repeat' split
    all_goals refine ⟨cons_congr (Slot.step_ne rfl).symm (cons_congr (Slot.step_ne rfl).symm (cons_congr (Slot.step_ne rfl).symm (cons_congr ?_ ((Schema.step_other rfl rfl).symm)))), ?_⟩
    all_goals first | exact hi | msg_field | (simp_all [St.Inv]; done)
  case OverloadControlInfo j =>
    simp only [step]
    repeat' split
    all_goals refine ⟨cons_congr (Slot.step_ne rfl).symm (cons_congr (Slot.step_ne rfl).symm (cons_congr (Slot.step_ne rfl).symm (cons_congr (Slot.step_ne rfl).symm (cons_congr ?_ ((Schema.step_other rfl rfl).symm))))), ?_⟩
    all_goals first | exact hi | msg_field | (simp_all [St.Inv]; done)
  case PrivateExtension j =>
    simp only [step]
    all_goals refine ⟨cons_congr (Slot.step_ne rfl).symm (cons_congr (Slot.step_ne rfl).symm (cons_congr (Slot.step_ne rfl).symm (cons_congr (Slot.step_ne rfl).symm (cons_congr (Slot.step_ne rfl).symm (cons_congr ?_ (rfl)))))), ?_⟩
    all_goals first | exact hi | msg_field | (simp_all [St.Inv]; done)
  all_goals exact ⟨(Schema.step_other rfl rfl).symm, hi⟩

theorem loop (h : Header) (els : List IE) :
    (els.foldl step ⟨{ dflt with header := h }, false⟩).view = schema.map (·.select els) ∧ (els.foldl step ⟨{ dflt with header := h }, false⟩).Inv h := by
  have := foldl_view (Q := fun _ => True) (fun s e hp _ => step_view h s e hp) els ⟨{ dflt with header := h }, false⟩ (fun _ _ => trivial) (by simp [St.Inv])
  rw [show St.view ⟨{ dflt with header := h }, false⟩ = schema.map (fun _ => []) from rfl, Schema.foldl_nil] at this
  exact this

theorem ext {x y : DeleteBearerFailureInd} (hh : x.header = y.header) (h : fields x = fields y) : x = y := by
  cases x; cases y
  simp only at hh
  subst hh
  injection h with h0 h
  cases h0
  injection h with h1 h
  cases map_inj (fun _ _ h => IE.BearerContext.inj h) h1
  injection h with h2 h
  cases optV_inj (fun _ _ h => IE.Recovery.inj h) h2
  injection h with h3 h
  cases optV_inj (fun _ _ h => IE.Indication.inj h) h3
  injection h with h4 h
  cases map_inj (fun _ _ h => IE.OverloadControlInfo.inj h) h4
  injection h with h5 h
  cases map_inj (fun _ _ h => IE.PrivateExtension.inj h) h5
  rfl

theorem mand : schema.filter (·.card.mandatory) = [(⟨.Cause, .is 0, .one⟩ : Slot), (⟨.BearerContext, .is 0, .many1 (.is 0)⟩ : Slot)] := rfl

/-- The flags tell which mandatory IEs are absent. -/
theorem flags (h : Header) (els : List IE) : ∃ x m0, els.foldl step ⟨{ dflt with header := h }, false⟩ = ⟨x, m0⟩ ∧ St.view ⟨x, m0⟩ = schema.map (·.select els) ∧ x.header = h ∧
    (⟨.Cause, .is 0, .one⟩ : Slot).lacks els = (!m0) ∧
    (⟨.BearerContext, .is 0, .many1 (.is 0)⟩ : Slot).lacks els = (x.bearer_ctxs.isEmpty) := by
  obtain ⟨hv, hi⟩ := loop h els
  generalize els.foldl step ⟨{ dflt with header := h }, false⟩ = s at hv hi ⊢
  obtain ⟨x, m0⟩ := s
  simp only [St.Inv] at hi
  have l0 : (⟨.Cause, .is 0, .one⟩ : Slot).lacks els = (!m0) := by
    rw [Slot.lacks_eq els rfl]
    have e := congrArg (fun l => l.getD 0 []) hv
    rw [show (⟨.Cause, .is 0, .one⟩ : Slot).select els = if m0 then [.Cause x.cause] else [] from e.symm]
    cases m0 <;> rfl
  have l1 : (⟨.BearerContext, .is 0, .many1 (.is 0)⟩ : Slot).lacks els = (x.bearer_ctxs.isEmpty) := by
    rw [Slot.lacks_eq els rfl]
    have e := congrArg (fun l => l.getD 1 []) hv
    rw [show (⟨.BearerContext, .is 0, .many1 (.is 0)⟩ : Slot).select els = x.bearer_ctxs.map .BearerContext from e.symm]
    cases x.bearer_ctxs <;> rfl
  exact ⟨x, m0, rfl, hv, hi, l0, l1⟩

theorem complete (h : Header) (els : List IE) (hm : schema.missing els = []) : ∃ y, fromvec { dflt with header := h } els = .ok y ∧ y.header = h ∧ fields y = schema.map (·.select els) := by
  obtain ⟨x, m0, hs, hv, hh, l0, l1⟩ := flags h els
  unfold fromvec
  rw [hs]
  dsimp only [finish]
  generalize x.bearer_ctxs.isEmpty = b at *
  have f0 := l0.symm.trans (Schema.of_missing_nil mand (by simp) hm)
  have f1 := l1.symm.trans (Schema.of_missing_nil mand (by simp) hm)
  cases m0 <;> cases b <;> first | exact ⟨x, rfl, hh, hv⟩ | contradiction

theorem describes : Describes codec schema fields where
  header_set _ _ := rfl
  fields_set _ _ := rfl
  ext _ _ hh h := ext hh h
  shape x := Aligned.one (fun _ => rfl) <| Aligned.many (fun _ => rfl) <| Aligned.opt (fun _ => rfl) <| Aligned.opt (fun _ => rfl) <| Aligned.many (fun _ => rfl) <| Aligned.many (fun _ => rfl) <| trivial
  tovec x := by simp [codec, tovec, fields]
  complete h els _ hm := complete h els hm

theorem reports (h : Header) (els : List IE) (hm : schema.missing els ≠ []) :
    ∃ s ∈ schema.missing els, ∃ t, fromvec { dflt with header := h } els = .err (.messageMandatoryIEMissing t) ∧ kindOf t = s.kind := by
  obtain ⟨x, m0, hs, hv, hh, l0, l1⟩ := flags h els
  unfold fromvec
  rw [hs]
  dsimp only [finish]
  generalize x.bearer_ctxs.isEmpty = b at *
  cases m0 <;> cases b <;>
    first | exact ⟨_, Schema.mem_missing mand (by simp) l0, _, rfl, rfl⟩ | exact ⟨_, Schema.mem_missing mand (by simp) l1, _, rfl, rfl⟩ | exact absurd (Schema.missing_nil mand (by simp [l0, l1])) hm

theorem settled (h : Header) (els els' : List IE) (he : ∀ s ∈ schema, s.card.mandatory = true → s.lacks els = s.lacks els')
    (hm : schema.missing els ≠ []) : fromvec { dflt with header := h } els = fromvec { dflt with header := h } els' := by
  obtain ⟨x, m0, hs, hv, hh, l0, l1⟩ := flags h els
  obtain ⟨x', m0', hs', hv', hh', l0', l1'⟩ := flags h els'
  unfold fromvec
  rw [hs, hs']
  obtain rfl := Bool.not_inj (l0.symm.trans ((he _ (by decide) rfl).trans l0'))
  have e1 := l1.symm.trans ((he _ (by decide) rfl).trans l1')
  dsimp only [finish]
  rw [← e1]
  clear e1 l1' hv' hs'
  generalize x.bearer_ctxs.isEmpty = b at *
  cases m0 <;> cases b <;>
    first | rfl | exact absurd (Schema.missing_nil mand (by simp [l0, l1])) hm

end DeleteBearerFailureInd

/-- `DeleteBearerRequest` (deletebearerreq.rs:15-34). -/
structure DeleteBearerRequest where
  header : Header
  linked_ebi : Option V2.Ebi
  ebi : Option V2.Ebi
  bearer_ctxs : List V2.BearerContext
  pti : Option V2.Pti
  pco : Option V2.Pco
  pgw_fqcsid : Option V2.Fqcsid
  sgw_fqcsid : Option V2.Fqcsid
  cause : Option V2.Cause
  indication : Option V2.Indication
  load_control : List V2.LoadControl
  overload_info : List V2.OverloadControlInfo
  nbifom : Option V2.Fcontainer
  apn_rate_control_status : Option V2.ApnRateControlStatus
  epco : Option V2.Epco
  pgw_change_info : List V2.PgwChangeInfo
  fteid_control : Option V2.Fteid
  private_ext : List V2.PrivateExtension
deriving DecidableEq

namespace DeleteBearerRequest

/-- `default` (deletebearerreq.rs:37-63). -/
def dflt : DeleteBearerRequest :=
  { header := { Header.default with msgtype := 99, teid := some 0 }, linked_ebi := none, ebi := none, bearer_ctxs := [], pti := none, pco := none, pgw_fqcsid := none, sgw_fqcsid := none, cause := none, indication := none, load_control := [], overload_info := [], nbifom := none, apn_rate_control_status := none, epco := none, pgw_change_info := [], fteid_control := none, private_ext := [] }

/-- `tovec` (deletebearerreq.rs:100-172). -/
def tovec (x : DeleteBearerRequest) : List IE :=
  optV .Ebi x.linked_ebi ++ (
  optV .Ebi x.ebi ++ (
  x.bearer_ctxs.map .BearerContext ++ (
  optV .Pti x.pti ++ (
  optV .Pco x.pco ++ (
  optV .Fqcsid x.pgw_fqcsid ++ (
  optV .Fqcsid x.sgw_fqcsid ++ (
  optV .Cause x.cause ++ (
  optV .Indication x.indication ++ (
  x.load_control.map .LoadControlInfo ++ (
  x.overload_info.map .OverloadControlInfo ++ (
  optV .Fcontainer x.nbifom ++ (
  optV .ApnRateControlStatus x.apn_rate_control_status ++ (
  optV .Epco x.epco ++ (
  x.pgw_change_info.map .PgwChangeInfo ++ (
  optV .Fteid x.fteid_control ++ (
  x.private_ext.map .PrivateExtension))))))))))))))))

/-- The variables of `fromvec`: the message and the array `mandatory` (deletebearerreq.rs:174-258). -/
structure St where
  x : DeleteBearerRequest

/-- One turn of the loop of `fromvec` (deletebearerreq.rs:174-258). -/
def step (s : St) : IE → St
  | .Ebi j => if j.ins = 0 ∧ s.x.linked_ebi.isNone = true then { s with x := { s.x with linked_ebi := some j } } else if j.ins = 1 ∧ s.x.ebi.isNone = true then { s with x := { s.x with ebi := some j } } else s
  | .BearerContext j => if j.ins = 0 then { s with x := { s.x with bearer_ctxs := s.x.bearer_ctxs ++ [j] } } else s
  | .Pti j => if j.ins = 0 ∧ s.x.pti.isNone = true then { s with x := { s.x with pti := some j } } else s
  | .Pco j => if j.ins = 0 ∧ s.x.pco.isNone = true then { s with x := { s.x with pco := some j } } else s
  | .Fqcsid j => if j.ins = 0 ∧ s.x.pgw_fqcsid.isNone = true then { s with x := { s.x with pgw_fqcsid := some j } } else if j.ins = 1 ∧ s.x.sgw_fqcsid.isNone = true then { s with x := { s.x with sgw_fqcsid := some j } } else s
  | .Cause j => if j.ins = 0 ∧ s.x.cause.isNone = true then { s with x := { s.x with cause := some j } } else s
  | .Indication j => if j.ins = 0 ∧ s.x.indication.isNone = true then { s with x := { s.x with indication := some j } } else s
  | .LoadControlInfo j => if j.ins < 3 then { s with x := { s.x with load_control := s.x.load_control ++ [j] } } else s
  | .OverloadControlInfo j => if j.ins < 2 then { s with x := { s.x with overload_info := s.x.overload_info ++ [j] } } else s
  | .Fcontainer j => if j.ins = 0 ∧ s.x.nbifom.isNone = true then { s with x := { s.x with nbifom := some j } } else s
  | .ApnRateControlStatus j => if j.ins = 0 ∧ s.x.apn_rate_control_status.isNone = true then { s with x := { s.x with apn_rate_control_status := some j } } else s
  | .Epco j => if j.ins = 0 ∧ s.x.epco.isNone = true then { s with x := { s.x with epco := some j } } else s
  | .PgwChangeInfo j => if j.ins = 2 then { s with x := { s.x with pgw_change_info := s.x.pgw_change_info ++ [j] } } else s
  | .Fteid j => if j.ins = 0 ∧ s.x.fteid_control.isNone = true then { s with x := { s.x with fteid_control := some j } } else s
  | .PrivateExtension j => { s with x := { s.x with private_ext := s.x.private_ext ++ [j] } }
  | _ => s

/-- The end of `fromvec` (deletebearerreq.rs:174-258). -/
def finish (s : St) : R Err DeleteBearerRequest :=
  .ok s.x

/-- `fromvec` (deletebearerreq.rs:174-258). -/
def fromvec (x : DeleteBearerRequest) (els : List IE) : R Err DeleteBearerRequest := finish (els.foldl step ⟨x⟩)

/-- The message type (deletebearerreq.rs:67-98). -/
def codec : Codec DeleteBearerRequest :=
  { msgtype := 99, start := some 12, dflt, header := header, setHeader := fun x h => { x with header := h }, tovec, fromvec }

/-- One slot per field. -/
def schema : Schema :=
  [⟨.Ebi, .is 0, .opt⟩,
   ⟨.Ebi, .is 1, .opt⟩,
   ⟨.BearerContext, .is 0, .many⟩,
   ⟨.Pti, .is 0, .opt⟩,
   ⟨.Pco, .is 0, .opt⟩,
   ⟨.Fqcsid, .is 0, .opt⟩,
   ⟨.Fqcsid, .is 1, .opt⟩,
   ⟨.Cause, .is 0, .opt⟩,
   ⟨.Indication, .is 0, .opt⟩,
   ⟨.LoadControlInfo, .lt 3, .many⟩,
   ⟨.OverloadControlInfo, .lt 2, .many⟩,
   ⟨.Fcontainer, .is 0, .opt⟩,
   ⟨.ApnRateControlStatus, .is 0, .opt⟩,
   ⟨.Epco, .is 0, .opt⟩,
   ⟨.PgwChangeInfo, .is 2, .many⟩,
   ⟨.Fteid, .is 0, .opt⟩,
   ⟨.PrivateExtension, .any, .many⟩]

/-- The fields as lists of IEs. -/
def fields (x : DeleteBearerRequest) : List (List IE) :=
  [optV .Ebi x.linked_ebi,
   optV .Ebi x.ebi,
   x.bearer_ctxs.map .BearerContext,
   optV .Pti x.pti,
   optV .Pco x.pco,
   optV .Fqcsid x.pgw_fqcsid,
   optV .Fqcsid x.sgw_fqcsid,
   optV .Cause x.cause,
   optV .Indication x.indication,
   x.load_control.map .LoadControlInfo,
   x.overload_info.map .OverloadControlInfo,
   optV .Fcontainer x.nbifom,
   optV .ApnRateControlStatus x.apn_rate_control_status,
   optV .Epco x.epco,
   x.pgw_change_info.map .PgwChangeInfo,
   optV .Fteid x.fteid_control,
   x.private_ext.map .PrivateExtension]

/-- What the state has collected so far. -/
def St.view (s : St) : List (List IE) :=
  [optV .Ebi s.x.linked_ebi,
   optV .Ebi s.x.ebi,
   s.x.bearer_ctxs.map .BearerContext,
   optV .Pti s.x.pti,
   optV .Pco s.x.pco,
   optV .Fqcsid s.x.pgw_fqcsid,
   optV .Fqcsid s.x.sgw_fqcsid,
   optV .Cause s.x.cause,
   optV .Indication s.x.indication,
   s.x.load_control.map .LoadControlInfo,
   s.x.overload_info.map .OverloadControlInfo,
   optV .Fcontainer s.x.nbifom,
   optV .ApnRateControlStatus s.x.apn_rate_control_status,
   optV .Epco s.x.epco,
   s.x.pgw_change_info.map .PgwChangeInfo,
   optV .Fteid s.x.fteid_control,
   s.x.private_ext.map .PrivateExtension]

/-- The header is left alone; flags of mandatory lists tell whether the list is empty. -/
def St.Inv (h : Header) (s : St) : Prop :=
  s.x.header = h

theorem step_view (h : Header) (s : St) (e : IE) (hi : s.Inv h) : (step s e).view = Schema.step schema s.view e ∧ (step s e).Inv h := by
  cases e
  case Ebi j =>
    simp only [step]
    repeat' split
    all_goals refine ⟨cons_congr ?_ (cons_congr ?_ ((Schema.step_other rfl rfl).symm)), ?_⟩
    all_goals first | exact hi | msg_field | (simp_all [St.Inv]; done)
  case BearerContext j =>
    simp only [step]
    repeat' split
    all_goals refine ⟨cons_congr (Slot.step_ne rfl).symm (cons_congr (Slot.step_ne rfl).symm (cons_congr ?_ ((Schema.step_other rfl rfl).symm))), ?_⟩
    all_goals first | exact hi | msg_field | (simp_all [St.Inv]; done)
  case Pti j =>
    simp only [step]
    repeat' split
    all_goals refine ⟨cons_congr (Slot.step_ne rfl).symm (cons_congr (Slot.step_ne rfl).symm (cons_congr (Slot.step_ne rfl).symm (cons_congr ?_ ((Schema.step_other rfl rfl).symm)))), ?_⟩
    all_goals first | exact hi | msg_field | (simp_all [St.Inv]; done)
  case Pco j =>
    simp only [step]
    repeat' split
    all_goals refine ⟨cons_congr (Slot.step_ne rfl).symm (cons_congr (Slot.step_ne rfl).symm (cons_congr (Slot.step_ne rfl).symm (cons_congr (Slot.step_ne rfl).symm (cons_congr ?_ ((Schema.step_other rfl rfl).symm))))), ?_⟩
    all_goals first | exact hi | msg_field | (simp_all [St.Inv]; done)
  case Fqcsid j =>
    simp only [step]
    repeat' split
    all_goals refine ⟨cons_congr (Slot.step_ne rfl).symm (cons_congr (Slot.step_ne rfl).symm (cons_congr (Slot.step_ne rfl).symm (cons_congr (Slot.step_ne rfl).symm (cons_congr (Slot.step_ne rfl).symm (cons_congr ?_ (cons_congr ?_ ((Schema.step_other rfl rfl).symm))))))), ?_⟩
    all_goals first | exact hi | msg_field | (simp_all [St.Inv]; done)
  case Cause j =>
    simp only [step]
    repeat' split
    all_goals refine ⟨cons_congr (Slot.step_ne rfl).symm (cons_congr (Slot.step_ne rfl).symm (cons_congr (Slot.step_ne rfl).symm (cons_congr (Slot.step_ne rfl).symm (cons_congr (Slot.step_ne rfl).symm (cons_congr (Slot.step_ne rfl).symm (cons_congr (Slot.step_ne rfl).symm (cons_congr ?_ ((Schema.step_other rfl rfl).symm)))))))), ?_⟩
    all_goals first | exact hi | msg_field | (simp_all [St.Inv]; done)
  case Indication j =>
    simp only [step]
    repeat' split
    all_goals refine ⟨cons_congr (Slot.step_ne rfl).symm (cons_congr (Slot.step_ne rfl).symm (cons_congr (Slot.step_ne rfl).symm (cons_congr (Slot.step_ne rfl).symm (cons_congr (Slot.step_ne rfl).symm (cons_congr (Slot.step_ne rfl).symm (cons_congr (Slot.step_ne rfl).symm (cons_congr (Slot.step_ne rfl).symm (cons_congr ?_ ((Schema.step_other rfl rfl).symm))))))))), ?_⟩
    all_goals first | exact hi | msg_field | (simp_all [St.Inv]; done)
  case LoadControlInfo j =>
    simp only [step]
    repeat' split
    all_goals refine ⟨cons_congr (Slot.step_ne rfl).symm (cons_congr (Slot.step_ne rfl).symm (cons_congr (Slot.step_ne rfl).symm (cons_congr (Slot.step_ne rfl).symm (cons_congr (Slot.step_ne rfl).symm (cons_congr (Slot.step_ne rfl).symm (cons_congr (Slot.step_ne rfl).symm (cons_congr (Slot.step_ne rfl).symm (cons_congr (Slot.step_ne rfl).symm (cons_congr ?_ ((Schema.step_other rfl rfl).symm)))))))))), ?_⟩
    all_goals first | exact hi | msg_field | (simp_all [St.Inv]; done)
  case OverloadControlInfo j =>
    simp only [step]
    repeat' split
    all_goals refine ⟨cons_congr (Slot.step_ne rfl).symm (cons_congr (Slot.step_ne rfl).symm (cons_congr (Slot.step_ne rfl).symm (cons_congr (Slot.step_ne rfl).symm (cons_congr (Slot.step_ne rfl).symm (cons_congr (Slot.step_ne rfl).symm (cons_congr (Slot.step_ne rfl).symm (cons_congr (Slot.step_ne rfl).symm (cons_congr (Slot.step_ne rfl).symm (cons_congr (Slot.step_ne rfl).symm (cons_congr ?_ ((Schema.step_other rfl rfl).symm))))))))))), ?_⟩
    all_goals first | exact hi | msg_field | (simp_all [St.Inv]; done)
  case Fcontainer j =>
    simp only [step]
    repeat' split
    all_goals refine ⟨cons_congr (Slot.step_ne rfl).symm (cons_congr (Slot.step_ne rfl).symm (cons_congr (Slot.step_ne rfl).symm (cons_congr (Slot.step_ne rfl).symm (cons_congr (Slot.step_ne rfl).symm (cons_congr (Slot.step_ne rfl).symm (cons_congr (Slot.step_ne rfl).symm (cons_congr (Slot.step_ne rfl).symm (cons_congr (Slot.step_ne rfl).symm (cons_congr (Slot.step_ne rfl).symm (cons_congr (Slot.step_ne rfl).symm (cons_congr ?_ ((Schema.step_other rfl rfl).symm)))))))))))), ?_⟩
    all_goals first | exact hi | msg_field | (simp_all [St.Inv]; done)
  case ApnRateControlStatus j =>
    simp only [step]
    repeat' split
    all_goals refine ⟨cons_congr (Slot.step_ne rfl).symm (cons_congr (Slot.step_ne rfl).symm (cons_congr (Slot.step_ne rfl).symm (cons_congr (Slot.step_ne rfl).symm (cons_congr (Slot.step_ne rfl).symm (cons_congr (Slot.step_ne rfl).symm (cons_congr (Slot.step_ne rfl).symm (cons_congr (Slot.step_ne rfl).symm (cons_congr (Slot.step_ne rfl).symm (cons_congr (Slot.step_ne rfl).symm (cons_congr (Slot.step_ne rfl).symm (cons_congr (Slot.step_ne rfl).symm (cons_congr ?_ ((Schema.step_other rfl rfl).symm))))))))))))), ?_⟩
    all_goals first | exact hi | msg_field | (simp_all [St.Inv]; done)
  case Epco j =>
    simp only [step]
    repeat' split
    all_goals refine ⟨cons_congr (Slot.step_ne rfl).symm (cons_congr (Slot.step_ne rfl).symm (cons_congr (Slot.step_ne rfl).symm (cons_congr (Slot.step_ne rfl).symm (cons_congr (Slot.step_ne rfl).symm (cons_congr (Slot.step_ne rfl).symm (cons_congr (Slot.step_ne rfl).symm (cons_congr (Slot.step_ne rfl).symm (cons_congr (Slot.step_ne rfl).symm (cons_congr (Slot.step_ne rfl).symm (cons_congr (Slot.step_ne rfl).symm (cons_congr (Slot.step_ne rfl).symm (cons_congr (Slot.step_ne rfl).symm (cons_congr ?_ ((Schema.step_other rfl rfl).symm)))))))))))))), ?_⟩
    all_goals first | exact hi | msg_field | (simp_all [St.Inv]; done)
  case PgwChangeInfo j =>
    simp only [step]
    repeat' split
    all_goals refine ⟨cons_congr (Slot.step_ne rfl).symm (cons_congr (Slot.step_ne rfl).symm (cons_congr (Slot.step_ne rfl).symm (cons_congr (Slot.step_ne rfl).symm (cons_congr (Slot.step_ne rfl).symm (cons_congr (Slot.step_ne rfl).symm (cons_congr (Slot.step_ne rfl).symm (cons_congr (Slot.step_ne rfl).symm (cons_congr (Slot.step_ne rfl).symm (cons_congr (Slot.step_ne rfl).symm (cons_congr (Slot.step_ne rfl).symm (cons_congr (Slot.step_ne rfl).symm (cons_congr (Slot.step_ne rfl).symm (cons_congr (Slot.step_ne rfl).symm (cons_congr ?_ ((Schema.step_other rfl rfl).symm))))))))))))))), ?_⟩
    all_goals first | exact hi | msg_field | (simp_all [St.Inv]; done)
  case Fteid j =>
    simp only [step]
    repeat' split
    all_goals refine ⟨cons_congr (Slot.step_ne rfl).symm (cons_congr (Slot.step_ne rfl).symm (cons_congr (Slot.step_ne rfl).symm (cons_congr (Slot.step_ne rfl).symm (cons_congr (Slot.step_ne rfl).symm (cons_congr (Slot.step_ne rfl).symm (cons_congr (Slot.step_ne rfl).symm (cons_congr (Slot.step_ne rfl).symm (cons_congr (Slot.step_ne rfl).symm (cons_congr (Slot.step_ne rfl).symm (cons_congr (Slot.step_ne rfl).symm (cons_congr (Slot.step_ne rfl).symm (cons_congr (Slot.step_ne rfl).symm (cons_congr (Slot.step_ne rfl).symm (cons_congr (Slot.step_ne rfl).symm (cons_congr ?_ ((Schema.step_other rfl rfl).symm)))))))))))))))), ?_⟩
    all_goals first | exact hi | msg_field | (simp_all [St.Inv]; done)
  case PrivateExtension j =>
    simp only [step]
    all_goals refine ⟨cons_congr (Slot.step_ne rfl).symm (cons_congr (Slot.step_ne rfl).symm (cons_congr (Slot.step_ne rfl).symm (cons_congr (Slot.step_ne rfl).symm (cons_congr (Slot.step_ne rfl).symm (cons_congr (Slot.step_ne rfl).symm (cons_congr (Slot.step_ne rfl).symm (cons_congr (Slot.step_ne rfl).symm (cons_congr (Slot.step_ne rfl).symm (cons_congr (Slot.step_ne rfl).symm (cons_congr (Slot.step_ne rfl).symm (cons_congr (Slot.step_ne rfl).symm (cons_congr (Slot.step_ne rfl).symm (cons_congr (Slot.step_ne rfl).symm (cons_congr (Slot.step_ne rfl).symm (cons_congr (Slot.step_ne rfl).symm (cons_congr ?_ (rfl))))))))))))))))), ?_⟩
    all_goals first | exact hi | msg_field | (simp_all [St.Inv]; done)
  all_goals exact ⟨(Schema.step_other rfl rfl).symm, hi⟩

theorem loop (h : Header) (els : List IE) :
    (els.foldl step ⟨{ dflt with header := h }⟩).view = schema.map (·.select els) ∧ (els.foldl step ⟨{ dflt with header := h }⟩).Inv h := by
  have := foldl_view (Q := fun _ => True) (fun s e hp _ => step_view h s e hp) els ⟨{ dflt with header := h }⟩ (fun _ _ => trivial) (by simp [St.Inv])
  rw [show St.view ⟨{ dflt with header := h }⟩ = schema.map (fun _ => []) from rfl, Schema.foldl_nil] at this
  exact this

theorem ext {x y : DeleteBearerRequest} (hh : x.header = y.header) (h : fields x = fields y) : x = y := by
  cases x; cases y
  simp only at hh
  subst hh
  injection h with h0 h
  cases optV_inj (fun _ _ h => IE.Ebi.inj h) h0
  injection h with h1 h
  cases optV_inj (fun _ _ h => IE.Ebi.inj h) h1
  injection h with h2 h
  cases map_inj (fun _ _ h => IE.BearerContext.inj h) h2
  injection h with h3 h
  cases optV_inj (fun _ _ h => IE.Pti.inj h) h3
  injection h with h4 h
  cases optV_inj (fun _ _ h => IE.Pco.inj h) h4
  injection h with h5 h
  cases optV_inj (fun _ _ h => IE.Fqcsid.inj h) h5
  injection h with h6 h
  cases optV_inj (fun _ _ h => IE.Fqcsid.inj h) h6
  injection h with h7 h
  cases optV_inj (fun _ _ h => IE.Cause.inj h) h7
  injection h with h8 h
  cases optV_inj (fun _ _ h => IE.Indication.inj h) h8
  injection h with h9 h
  cases map_inj (fun _ _ h => IE.LoadControlInfo.inj h) h9
  injection h with h10 h
  cases map_inj (fun _ _ h => IE.OverloadControlInfo.inj h) h10
  injection h with h11 h
  cases optV_inj (fun _ _ h => IE.Fcontainer.inj h) h11
  injection h with h12 h
  cases optV_inj (fun _ _ h => IE.ApnRateControlStatus.inj h) h12
  injection h with h13 h
  cases optV_inj (fun _ _ h => IE.Epco.inj h) h13
  injection h with h14 h
  cases map_inj (fun _ _ h => IE.PgwChangeInfo.inj h) h14
  injection h with h15 h
  cases optV_inj (fun _ _ h => IE.Fteid.inj h) h15
  injection h with h16 h
  cases map_inj (fun _ _ h => IE.PrivateExtension.inj h) h16
  rfl

theorem mand : schema.filter (·.card.mandatory) = [] := rfl

/-- The flags tell which mandatory IEs are absent. -/
theorem flags (h : Header) (els : List IE) : ∃ x , els.foldl step ⟨{ dflt with header := h }⟩ = ⟨x⟩ ∧ St.view ⟨x⟩ = schema.map (·.select els) ∧ x.header = h := by
  obtain ⟨hv, hi⟩ := loop h els
  generalize els.foldl step ⟨{ dflt with header := h }⟩ = s at hv hi ⊢
  obtain ⟨x⟩ := s
  simp only [St.Inv] at hi
  exact ⟨x, rfl, hv, hi⟩

theorem complete (h : Header) (els : List IE) (_hm : schema.missing els = []) : ∃ y, fromvec { dflt with header := h } els = .ok y ∧ y.header = h ∧ fields y = schema.map (·.select els) := by
  obtain ⟨x, hs, hv, hh⟩ := flags h els
  unfold fromvec
  rw [hs]
  exact ⟨x, rfl, hh, hv⟩

theorem describes : Describes codec schema fields where
  header_set _ _ := rfl
  fields_set _ _ := rfl
  ext _ _ hh h := ext hh h
  shape x := Aligned.opt (fun _ => rfl) <| Aligned.opt (fun _ => rfl) <| Aligned.many (fun _ => rfl) <| Aligned.opt (fun _ => rfl) <| Aligned.opt (fun _ => rfl) <| Aligned.opt (fun _ => rfl) <| Aligned.opt (fun _ => rfl) <| Aligned.opt (fun _ => rfl) <| Aligned.opt (fun _ => rfl) <| Aligned.many (fun _ => rfl) <| Aligned.many (fun _ => rfl) <| Aligned.opt (fun _ => rfl) <| Aligned.opt (fun _ => rfl) <| Aligned.opt (fun _ => rfl) <| Aligned.many (fun _ => rfl) <| Aligned.opt (fun _ => rfl) <| Aligned.many (fun _ => rfl) <| trivial
  tovec x := by simp [codec, tovec, fields]
  complete h els _ hm := complete h els hm

end DeleteBearerRequest

/-- `DeleteBearerResponse` (deletebearerresp.rs:15-41). -/
structure DeleteBearerResponse where
  header : Header
  cause : V2.Cause
  linked_ebi : Option V2.Ebi
  bearer_ctxs : List V2.BearerContext
  recovery : Option V2.Recovery
  mme_fqcsid : Option V2.Fqcsid
  sgw_fqcsid : Option V2.Fqcsid
  epdg_fqcsid : Option V2.Fqcsid
  twan_fqcsid : Option V2.Fqcsid
  pco : Option V2.Pco
  uetimezone : Option V2.UeTimeZone
  uli : Option V2.Uli
  uli_timestamp : Option V2.UliTimestamp
  twan_id : Option V2.TwanId
  twan_id_timestamp : Option V2.TwanIdTimeStamp
  overload_info : List V2.OverloadControlInfo
  ip : Option V2.IpAddress
  wlan_loc : Option V2.TwanId
  wlan_loc_timestamp : Option V2.TwanIdTimeStamp
  ue_udpport : Option V2.PortNumber
  nbifom : Option V2.Fcontainer
  ue_tcpport : Option V2.PortNumber
  secondary_rat_usage_report : List V2.SecondaryRatUsageDataReport
  pscellid : Option V2.PSCellId
  private_ext : List V2.PrivateExtension
deriving DecidableEq

namespace DeleteBearerResponse

/-- `default` (deletebearerresp.rs:44-77). -/
def dflt : DeleteBearerResponse :=
  { header := { Header.default with msgtype := 100, teid := some 0 }, cause := V2.Cause.dflt, linked_ebi := none, bearer_ctxs := [], recovery := none, mme_fqcsid := none, sgw_fqcsid := none, epdg_fqcsid := none, twan_fqcsid := none, pco := none, uetimezone := none, uli := none, uli_timestamp := none, twan_id := none, twan_id_timestamp := none, overload_info := [], ip := none, wlan_loc := none, wlan_loc_timestamp := none, ue_udpport := none, nbifom := none, ue_tcpport := none, secondary_rat_usage_report := [], pscellid := none, private_ext := [] }

/-- `tovec` (deletebearerresp.rs:114-197). -/
def tovec (x : DeleteBearerResponse) : List IE :=
  [.Cause x.cause] ++ (
  optV .Ebi x.linked_ebi ++ (
  x.bearer_ctxs.map .BearerContext ++ (
  optV .Recovery x.recovery ++ (
  optV .Fqcsid x.mme_fqcsid ++ (
  optV .Fqcsid x.sgw_fqcsid ++ (
  optV .Fqcsid x.epdg_fqcsid ++ (
  optV .Fqcsid x.twan_fqcsid ++ (
  optV .Pco x.pco ++ (
  optV .UeTimeZone x.uetimezone ++ (
  optV .Uli x.uli ++ (
  optV .UliTimestamp x.uli_timestamp ++ (
  optV .TwanId x.twan_id ++ (
  optV .TwanIdTimeStamp x.twan_id_timestamp ++ (
  x.overload_info.map .OverloadControlInfo ++ (
  optV .IpAddress x.ip ++ (
  optV .TwanId x.wlan_loc ++ (
  optV .TwanIdTimeStamp x.wlan_loc_timestamp ++ (
  optV .PortNumber x.ue_udpport ++ (
  optV .Fcontainer x.nbifom ++ (
  optV .PortNumber x.ue_tcpport ++ (
  x.secondary_rat_usage_report.map .SecondaryRatUsageDataReport ++ (
  optV .PSCellId x.pscellid ++ (
  x.private_ext.map .PrivateExtension)))))))))))))))))))))))

/-- The variables of `fromvec`: the message and the array `mandatory` (deletebearerresp.rs:199-322). -/
structure St where
  x : DeleteBearerResponse
  m0 : Bool

/-- One turn of the loop of `fromvec` (deletebearerresp.rs:199-322). -/
def step (s : St) : IE → St
  | .Cause j => if j.ins = 0 ∧ s.m0 = false then { s with x := { s.x with cause := j }, m0 := true } else s
  | .Ebi j => if j.ins = 0 ∧ s.x.linked_ebi.isNone = true then { s with x := { s.x with linked_ebi := some j } } else s
  | .BearerContext j => if j.ins = 0 then { s with x := { s.x with bearer_ctxs := s.x.bearer_ctxs ++ [j] } } else s
  | .Recovery j => if j.ins = 0 ∧ s.x.recovery.isNone = true then { s with x := { s.x with recovery := some j } } else s
  | .Fqcsid j => if j.ins = 0 ∧ s.x.mme_fqcsid.isNone = true then { s with x := { s.x with mme_fqcsid := some j } } else if j.ins = 1 ∧ s.x.sgw_fqcsid.isNone = true then { s with x := { s.x with sgw_fqcsid := some j } } else if j.ins = 2 ∧ s.x.epdg_fqcsid.isNone = true then { s with x := { s.x with epdg_fqcsid := some j } } else if j.ins = 3 ∧ s.x.twan_fqcsid.isNone = true then { s with x := { s.x with twan_fqcsid := some j } } else s
  | .Pco j => if j.ins = 0 ∧ s.x.pco.isNone = true then { s with x := { s.x with pco := some j } } else s
  | .UeTimeZone j => if j.ins = 0 ∧ s.x.uetimezone.isNone = true then { s with x := { s.x with uetimezone := some j } } else s
  | .Uli j => if j.ins = 0 ∧ s.x.uli.isNone = true then { s with x := { s.x with uli := some j } } else s
  | .UliTimestamp j => if j.ins = 0 ∧ s.x.uli_timestamp.isNone = true then { s with x := { s.x with uli_timestamp := some j } } else s
  | .TwanId j => if j.ins = 0 ∧ s.x.twan_id.isNone = true then { s with x := { s.x with twan_id := some j } } else if j.ins = 1 ∧ s.x.wlan_loc.isNone = true then { s with x := { s.x with wlan_loc := some j } } else s
  | .TwanIdTimeStamp j => if j.ins = 0 ∧ s.x.twan_id_timestamp.isNone = true then { s with x := { s.x with twan_id_timestamp := some j } } else if j.ins = 1 ∧ s.x.wlan_loc_timestamp.isNone = true then { s with x := { s.x with wlan_loc_timestamp := some j } } else s
  | .OverloadControlInfo j => if j.ins < 3 then { s with x := { s.x with overload_info := s.x.overload_info ++ [j] } } else s
  | .IpAddress j => if j.ins = 0 ∧ s.x.ip.isNone = true then { s with x := { s.x with ip := some j } } else s
  | .PortNumber j => if j.ins = 0 ∧ s.x.ue_udpport.isNone = true then { s with x := { s.x with ue_udpport := some j } } else if j.ins = 1 ∧ s.x.ue_tcpport.isNone = true then { s with x := { s.x with ue_tcpport := some j } } else s
  | .Fcontainer j => if j.ins = 0 ∧ s.x.nbifom.isNone = true then { s with x := { s.x with nbifom := some j } } else s
  | .SecondaryRatUsageDataReport j => { s with x := { s.x with secondary_rat_usage_report := s.x.secondary_rat_usage_report ++ [j] } }
  | .PSCellId j => if j.ins = 0 ∧ s.x.pscellid.isNone = true then { s with x := { s.x with pscellid := some j } } else s
  | .PrivateExtension j => { s with x := { s.x with private_ext := s.x.private_ext ++ [j] } }
  | _ => s

/-- The end of `fromvec` (deletebearerresp.rs:199-322). -/
def finish (s : St) : R Err DeleteBearerResponse :=
  if s.m0 then .ok s.x else .err (.messageMandatoryIEMissing 2)

/-- `fromvec` (deletebearerresp.rs:199-322). -/
def fromvec (x : DeleteBearerResponse) (els : List IE) : R Err DeleteBearerResponse := finish (els.foldl step ⟨x, false⟩)

/-- The message type (deletebearerresp.rs:81-112). -/
def codec : Codec DeleteBearerResponse :=
  { msgtype := 100, start := some 12, dflt, header := header, setHeader := fun x h => { x with header := h }, tovec, fromvec }

/-- One slot per field. -/
def schema : Schema :=
  [⟨.Cause, .is 0, .one⟩,
   ⟨.Ebi, .is 0, .opt⟩,
   ⟨.BearerContext, .is 0, .many⟩,
   ⟨.Recovery, .is 0, .opt⟩,
   ⟨.Fqcsid, .is 0, .opt⟩,
   ⟨.Fqcsid, .is 1, .opt⟩,
   ⟨.Fqcsid, .is 2, .opt⟩,
   ⟨.Fqcsid, .is 3, .opt⟩,
   ⟨.Pco, .is 0, .opt⟩,
   ⟨.UeTimeZone, .is 0, .opt⟩,
   ⟨.Uli, .is 0, .opt⟩,
   ⟨.UliTimestamp, .is 0, .opt⟩,
   ⟨.TwanId, .is 0, .opt⟩,
   ⟨.TwanIdTimeStamp, .is 0, .opt⟩,
   ⟨.OverloadControlInfo, .lt 3, .many⟩,
   ⟨.IpAddress, .is 0, .opt⟩,
   ⟨.TwanId, .is 1, .opt⟩,
   ⟨.TwanIdTimeStamp, .is 1, .opt⟩,
   ⟨.PortNumber, .is 0, .opt⟩,
   ⟨.Fcontainer, .is 0, .opt⟩,
   ⟨.PortNumber, .is 1, .opt⟩,
   ⟨.SecondaryRatUsageDataReport, .any, .many⟩,
   ⟨.PSCellId, .is 0, .opt⟩,
   ⟨.PrivateExtension, .any, .many⟩]

/-- The fields as lists of IEs. -/
def fields (x : DeleteBearerResponse) : List (List IE) :=
  [[.Cause x.cause],
   optV .Ebi x.linked_ebi,
   x.bearer_ctxs.map .BearerContext,
   optV .Recovery x.recovery,
   optV .Fqcsid x.mme_fqcsid,
   optV .Fqcsid x.sgw_fqcsid,
   optV .Fqcsid x.epdg_fqcsid,
   optV .Fqcsid x.twan_fqcsid,
   optV .Pco x.pco,
   optV .UeTimeZone x.uetimezone,
   optV .Uli x.uli,
   optV .UliTimestamp x.uli_timestamp,
   optV .TwanId x.twan_id,
   optV .TwanIdTimeStamp x.twan_id_timestamp,
   x.overload_info.map .OverloadControlInfo,
   optV .IpAddress x.ip,
   optV .TwanId x.wlan_loc,
   optV .TwanIdTimeStamp x.wlan_loc_timestamp,
   optV .PortNumber x.ue_udpport,
   optV .Fcontainer x.nbifom,
   optV .PortNumber x.ue_tcpport,
   x.secondary_rat_usage_report.map .SecondaryRatUsageDataReport,
   optV .PSCellId x.pscellid,
   x.private_ext.map .PrivateExtension]

/-- What the state has collected so far. -/
def St.view (s : St) : List (List IE) :=
  [if s.m0 then [.Cause s.x.cause] else [],
   optV .Ebi s.x.linked_ebi,
   s.x.bearer_ctxs.map .BearerContext,
   optV .Recovery s.x.recovery,
   optV .Fqcsid s.x.mme_fqcsid,
   optV .Fqcsid s.x.sgw_fqcsid,
   optV .Fqcsid s.x.epdg_fqcsid,
   optV .Fqcsid s.x.twan_fqcsid,
   optV .Pco s.x.pco,
   optV .UeTimeZone s.x.uetimezone,
   optV .Uli s.x.uli,
   optV .UliTimestamp s.x.uli_timestamp,
   optV .TwanId s.x.twan_id,
   optV .TwanIdTimeStamp s.x.twan_id_timestamp,
   s.x.overload_info.map .OverloadControlInfo,
   optV .IpAddress s.x.ip,
   optV .TwanId s.x.wlan_loc,
   optV .TwanIdTimeStamp s.x.wlan_loc_timestamp,
   optV .PortNumber s.x.ue_udpport,
   optV .Fcontainer s.x.nbifom,
   optV .PortNumber s.x.ue_tcpport,
   s.x.secondary_rat_usage_report.map .SecondaryRatUsageDataReport,
   optV .PSCellId s.x.pscellid,
   s.x.private_ext.map .PrivateExtension]

/-- The header is left alone; flags of mandatory lists tell whether the list is empty. -/
def St.Inv (h : Header) (s : St) : Prop :=
  s.x.header = h

theorem step_view (h : Header) (s : St) (e : IE) (hi : s.Inv h) : (step s e).view = Schema.step schema s.view e ∧ (step s e).Inv h := by
  cases e
  case Cause j =>
    simp only [step]
    repeat' split
    all_goals refine ⟨cons_congr ?_ ((Schema.step_other rfl rfl).symm), ?_⟩
    all_goals first | exact hi | msg_field | (simp_all [St.Inv]; done)
  case Ebi j =>
    simp only [step]
    repeat' split
    all_goals refine ⟨cons_congr (Slot.step_ne rfl).symm (cons_congr ?_ ((Schema.step_other rfl rfl).symm)), ?_⟩
    all_goals first | exact hi | msg_field | (simp_all [St.Inv]; done)
  case BearerContext j =>
    simp only [step]
    repeat' split
    all_goals refine ⟨cons_congr (Slot.step_ne rfl).symm (cons_congr (Slot.step_ne rfl).symm (cons_congr ?_ ((Schema.step_other rfl rfl).symm))), ?_⟩
    all_goals first | exact hi | msg_field | (simp_all [St.Inv]; done)
  case Recovery j =>
    simp only [step]
    repeat' split
    all_goals refine ⟨cons_congr (Slot.step_ne rfl).symm (cons_congr (Slot.step_ne rfl).symm (cons_congr (Slot.step_ne rfl).symm (cons_congr ?_ ((Schema.step_other rfl rfl).symm)))), ?_⟩
    all_goals first | exact hi | msg_field | (simp_all [St.Inv]; done)
  case Fqcsid j =>
    simp only [step]
    repeat' split
    all_goals refine ⟨cons_congr (Slot.step_ne rfl).symm (cons_congr (Slot.step_ne rfl).symm (cons_congr (Slot.step_ne rfl).symm (cons_congr (Slot.step_ne rfl).symm (cons_congr ?_ (cons_congr ?_ (cons_congr ?_ (cons_congr ?_ ((Schema.step_other rfl rfl).symm)))))))), ?_⟩
    all_goals first | exact hi | msg_field | (simp_all [St.Inv]; done)
  case Pco j =>
    simp only [step]
    repeat' split
    all_goals refine ⟨cons_congr (Slot.step_ne rfl).symm (cons_congr (Slot.step_ne rfl).symm (cons_congr (Slot.step_ne rfl).symm (cons_congr (Slot.step_ne rfl).symm (cons_congr (Slot.step_ne rfl).symm (cons_congr (Slot.step_ne rfl).symm (cons_congr (Slot.step_ne rfl).symm (cons_congr (Slot.step_ne rfl).symm (cons_congr ?_ ((Schema.step_other rfl rfl).symm))))))))), ?_⟩
    all_goals first | exact hi | msg_field | (simp_all [St.Inv]; done)
  case UeTimeZone j =>
    simp only [step]
    repeat' split
    all_goals refine ⟨cons_congr (Slot.step_ne rfl).symm (cons_congr (Slot.step_ne rfl).symm (cons_congr (Slot.step_ne rfl).symm (cons_congr (Slot.step_ne rfl).symm (cons_congr (Slot.step_ne rfl).symm (cons_congr (Slot.step_ne rfl).symm (cons_congr (Slot.step_ne rfl).symm (cons_congr (Slot.step_ne rfl).symm (cons_congr (Slot.step_ne rfl).symm (cons_congr ?_ ((Schema.step_other rfl rfl).symm)))))))))), ?_⟩
    all_goals first | exact hi | msg_field | (simp_all [St.Inv]; done)
  case Uli j =>
    simp only [step]
    repeat' split
    all_goals refine ⟨cons_congr (Slot.step_ne rfl).symm (cons_congr (Slot.step_ne rfl).symm (cons_congr (Slot.step_ne rfl).symm (cons_congr (Slot.step_ne rfl).symm (cons_congr (Slot.step_ne rfl).symm (cons_congr (Slot.step_ne rfl).symm (cons_congr (Slot.step_ne rfl).symm (cons_congr (Slot.step_ne rfl).symm (cons_congr (Slot.step_ne rfl).symm (cons_congr (Slot.step_ne rfl).symm (cons_congr ?_ ((Schema.step_other rfl rfl).symm))))))))))), ?_⟩
    all_goals first | exact hi | msg_field | (simp_all [St.Inv]; done)
  case UliTimestamp j =>
    simp only [step]
    repeat' split
    all_goals refine ⟨cons_congr (Slot.step_ne rfl).symm (cons_congr (Slot.step_ne rfl).symm (cons_congr (Slot.step_ne rfl).symm (cons_congr (Slot.step_ne rfl).symm (cons_congr (Slot.step_ne rfl).symm (cons_congr (Slot.step_ne rfl).symm (cons_congr (Slot.step_ne rfl).symm (cons_congr (Slot.step_ne rfl).symm (cons_congr (Slot.step_ne rfl).symm (cons_congr (Slot.step_ne rfl).symm (cons_congr (Slot.step_ne rfl).symm (cons_congr ?_ ((Schema.step_other rfl rfl).symm)))))))))))), ?_⟩
    all_goals first | exact hi | msg_field | (simp_all [St.Inv]; done)
  case TwanId j =>
    simp only [step]
    repeat' split
    all_goals refine ⟨cons_congr (Slot.step_ne rfl).symm (cons_congr (Slot.step_ne rfl).symm (cons_congr (Slot.step_ne rfl).symm (cons_congr (Slot.step_ne rfl).symm (cons_congr (Slot.step_ne rfl).symm (cons_congr (Slot.step_ne rfl).symm (cons_congr (Slot.step_ne rfl).symm (cons_congr (Slot.step_ne rfl).symm (cons_congr (Slot.step_ne rfl).symm (cons_congr (Slot.step_ne rfl).symm (cons_congr (Slot.step_ne rfl).symm (cons_congr (Slot.step_ne rfl).symm (cons_congr ?_ (cons_congr (Slot.step_ne rfl).symm (cons_congr (Slot.step_ne rfl).symm (cons_congr (Slot.step_ne rfl).symm (cons_congr ?_ ((Schema.step_other rfl rfl).symm))))))))))))))))), ?_⟩
    all_goals first | exact hi | msg_field | (simp_all [St.Inv]; done)
  case TwanIdTimeStamp j =>
    simp only [step]
    repeat' split
    all_goals refine ⟨cons_congr (Slot.step_ne rfl).symm (cons_congr (Slot.step_ne rfl).symm (cons_congr (Slot.step_ne rfl).symm (cons_congr (Slot.step_ne rfl).symm (cons_congr (Slot.step_ne rfl).symm (cons_congr (Slot.step_ne rfl).symm (cons_congr (Slot.step_ne rfl).symm (cons_congr (Slot.step_ne rfl).symm (cons_congr (Slot.step_ne rfl).symm (cons_congr (Slot.step_ne rfl).symm (cons_congr (Slot.step_ne rfl).symm (cons_congr (Slot.step_ne rfl).symm (cons_congr (Slot.step_ne rfl).symm (cons_congr ?_ (cons_congr (Slot.step_ne rfl).symm (cons_congr (Slot.step_ne rfl).symm (cons_congr (Slot.step_ne rfl).symm (cons_congr ?_ ((Schema.step_other rfl rfl).symm)))))))))))))))))), ?_⟩
    all_goals first | exact hi | msg_field | (simp_all [St.Inv]; done)
  case OverloadControlInfo j =>
    simp only [step]
    repeat' split
    all_goals refine ⟨cons_congr (Slot.step_ne rfl).symm (cons_congr (Slot.step_ne rfl).symm (cons_congr (Slot.step_ne rfl).symm (cons_congr (Slot.step_ne rfl).symm (cons_congr (Slot.step_ne rfl).symm (cons_congr (Slot.step_ne rfl).symm (cons_congr (Slot.step_ne rfl).symm (cons_congr (Slot.step_ne rfl).symm (cons_congr (Slot.step_ne rfl).symm (cons_congr (Slot.step_ne rfl).symm (cons_congr (Slot.step_ne rfl).symm (cons_congr (Slot.step_ne rfl).symm (cons_congr (Slot.step_ne rfl).symm (cons_congr (Slot.step_ne rfl).symm (cons_congr ?_ ((Schema.step_other rfl rfl).symm))))))))))))))), ?_⟩
    all_goals first | exact hi | msg_field | (simp_all [St.Inv]; done)
  case IpAddress j =>
    simp only [step]
    repeat' split
    all_goals refine ⟨cons_congr (Slot.step_ne rfl).symm (cons_congr (Slot.step_ne rfl).symm (cons_congr (Slot.step_ne rfl).symm (cons_congr (Slot.step_ne rfl).symm (cons_congr (Slot.step_ne rfl).symm (cons_congr (Slot.step_ne rfl).symm (cons_congr (Slot.step_ne rfl).symm (cons_congr (Slot.step_ne rfl).symm (cons_congr (Slot.step_ne rfl).symm (cons_congr (Slot.step_ne rfl).symm (cons_congr (Slot.step_ne rfl).symm (cons_congr (Slot.step_ne rfl).symm (cons_congr (Slot.step_ne rfl).symm (cons_congr (Slot.step_ne rfl).symm (cons_congr (Slot.step_ne rfl).symm (cons_congr ?_ ((Schema.step_other rfl rfl).symm)))))))))))))))), ?_⟩
    all_goals first | exact hi | msg_field | (simp_all [St.Inv]; done)
  case PortNumber j =>
    simp only [step]
    repeat' split
    all_goals refine ⟨cons_congr (Slot.step_ne rfl).symm (cons_congr (Slot.step_ne rfl).symm (cons_congr (Slot.step_ne rfl).symm (cons_congr (Slot.step_ne rfl).symm (cons_congr (Slot.step_ne rfl).symm (cons_congr (Slot.step_ne rfl).symm (cons_congr (Slot.step_ne rfl).symm (cons_congr (Slot.step_ne rfl).symm (cons_congr (Slot.step_ne rfl).symm (cons_congr (Slot.step_ne rfl).symm (cons_congr (Slot.step_ne rfl).symm (cons_congr (Slot.step_ne rfl).symm (cons_congr (Slot.step_ne rfl).symm (cons_congr (Slot.step_ne rfl).symm (cons_congr (Slot.step_ne rfl).symm (cons_congr (Slot.step_ne rfl).symm (cons_congr (Slot.step_ne rfl).symm (cons_congr (Slot.step_ne rfl).symm (cons_congr ?_ (cons_congr (Slot.step_ne rfl).symm (cons_congr ?_ ((Schema.step_other rfl rfl).symm))))))))))))))))))))), ?_⟩
    all_goals first | exact hi | msg_field | (simp_all [St.Inv]; done)
  case Fcontainer j =>
    simp only [step]
    repeat' split
    all_goals refine ⟨cons_congr (Slot.step_ne rfl).symm (cons_congr (Slot.step_ne rfl).symm (cons_congr (Slot.step_ne rfl).symm (cons_congr (Slot.step_ne rfl).symm (cons_congr (Slot.step_ne rfl).symm (cons_congr (Slot.step_ne rfl).symm (cons_congr (Slot.step_ne rfl).symm (cons_congr (Slot.step_ne rfl).symm (cons_congr (Slot.step_ne rfl).symm (cons_congr (Slot.step_ne rfl).symm (cons_congr (Slot.step_ne rfl).symm (cons_congr (Slot.step_ne rfl).symm (cons_congr (Slot.step_ne rfl).symm (cons_congr (Slot.step_ne rfl).symm (cons_congr (Slot.step_ne rfl).symm (cons_congr (Slot.step_ne rfl).symm (cons_congr (Slot.step_ne rfl).symm (cons_congr (Slot.step_ne rfl).symm (cons_congr (Slot.step_ne rfl).symm (cons_congr ?_ ((Schema.step_other rfl rfl).symm)))))))))))))))))))), ?_⟩
    all_goals first | exact hi | msg_field | (simp_all [St.Inv]; done)
  case SecondaryRatUsageDataReport j =>
    simp only [step]
    all_goals refine ⟨cons_congr (Slot.step_ne rfl).symm (cons_congr (Slot.step_ne rfl).symm (cons_congr (Slot.step_ne rfl).symm (cons_congr (Slot.step_ne rfl).symm (cons_congr (Slot.step_ne rfl).symm (cons_congr (Slot.step_ne rfl).symm (cons_congr (Slot.step_ne rfl).symm (cons_congr (Slot.step_ne rfl).symm (cons_congr (Slot.step_ne rfl).symm (cons_congr (Slot.step_ne rfl).symm (cons_congr (Slot.step_ne rfl).symm (cons_congr (Slot.step_ne rfl).symm (cons_congr (Slot.step_ne rfl).symm (cons_congr (Slot.step_ne rfl).symm (cons_congr (Slot.step_ne rfl).symm (cons_congr (Slot.step_ne rfl).symm (cons_congr (Slot.step_ne rfl).symm (cons_congr (Slot.step_ne rfl).symm (cons_congr (Slot.step_ne rfl).symm (cons_congr (Slot.step_ne rfl).symm (cons_congr (Slot.step_ne rfl).symm (cons_congr ?_ ((Schema.step_other rfl rfl).symm)))))))))))))))))))))), ?_⟩
    all_goals first | exact hi | msg_field | (simp_all [St.Inv]; done)
  case PSCellId j =>
    simp only [step]
    repeat' split
    all_goals refine ⟨cons_congr (Slot.step_ne rfl).symm (cons_congr (Slot.step_ne rfl).symm (cons_congr (Slot.step_ne rfl).symm (cons_congr (Slot.step_ne rfl).symm (cons_congr (Slot.step_ne rfl).symm (cons_congr (Slot.step_ne rfl).symm (cons_congr (Slot.step_ne rfl).symm (cons_congr (Slot.step_ne rfl).symm (cons_congr (Slot.step_ne rfl).symm (cons_congr (Slot.step_ne rfl).symm (cons_congr (Slot.step_ne rfl).symm (cons_congr (Slot.step_ne rfl).symm (cons_congr (Slot.step_ne rfl).symm (cons_congr (Slot.step_ne rfl).symm (cons_congr (Slot.step_ne rfl).symm (cons_congr (Slot.step_ne rfl).symm (cons_congr (Slot.step_ne rfl).symm (cons_congr (Slot.step_ne rfl).symm (cons_congr (Slot.step_ne rfl).symm (cons_congr (Slot.step_ne rfl).symm (cons_congr (Slot.step_ne rfl).symm (cons_congr (Slot.step_ne rfl).symm (cons_congr ?_ ((Schema.step_other rfl rfl).symm))))))))))))))))))))))), ?_⟩
    all_goals first | exact hi | msg_field | (simp_all [St.Inv]; done)
  case PrivateExtension j =>
    simp only [step]
    all_goals refine ⟨cons_congr (Slot.step_ne rfl).symm (cons_congr (Slot.step_ne rfl).symm (cons_congr (Slot.step_ne rfl).symm (cons_congr (Slot.step_ne rfl).symm (cons_congr (Slot.step_ne rfl).symm (cons_congr (Slot.step_ne rfl).symm (cons_congr (Slot.step_ne rfl).symm (cons_congr (Slot.step_ne rfl).symm (cons_congr (Slot.step_ne rfl).symm (cons_congr (Slot.step_ne rfl).symm (cons_congr (Slot.step_ne rfl).symm (cons_congr (Slot.step_ne rfl).symm (cons_congr (Slot.step_ne rfl).symm (cons_congr (Slot.step_ne rfl).symm (cons_congr (Slot.step_ne rfl).symm (cons_congr (Slot.step_ne rfl).symm (cons_congr (Slot.step_ne rfl).symm (cons_congr (Slot.step_ne rfl).symm (cons_congr (Slot.step_ne rfl).symm (cons_congr (Slot.step_ne rfl).symm (cons_congr (Slot.step_ne rfl).symm (cons_congr (Slot.step_ne rfl).symm (cons_congr (Slot.step_ne rfl).symm (cons_congr ?_ (rfl)))))))))))))))))))))))), ?_⟩
    all_goals first | exact hi | msg_field | (simp_all [St.Inv]; done)
  all_goals exact ⟨(Schema.step_other rfl rfl).symm, hi⟩

theorem loop (h : Header) (els : List IE) :
    (els.foldl step ⟨{ dflt with header := h }, false⟩).view = schema.map (·.select els) ∧ (els.foldl step ⟨{ dflt with header := h }, false⟩).Inv h := by
  have := foldl_view (Q := fun _ => True) (fun s e hp _ => step_view h s e hp) els ⟨{ dflt with header := h }, false⟩ (fun _ _ => trivial) (by simp [St.Inv])
  rw [show St.view ⟨{ dflt with header := h }, false⟩ = schema.map (fun _ => []) from rfl, Schema.foldl_nil] at this
  exact this

theorem ext {x y : DeleteBearerResponse} (hh : x.header = y.header) (h : fields x = fields y) : x = y := by
  cases x; cases y
  simp only at hh
  subst hh
  injection h with h0 h
  cases h0
  injection h with h1 h
  cases optV_inj (fun _ _ h => IE.Ebi.inj h) h1
  injection h with h2 h
  cases map_inj (fun _ _ h => IE.BearerContext.inj h) h2
  injection h with h3 h
  cases optV_inj (fun _ _ h => IE.Recovery.inj h) h3
  injection h with h4 h
  cases optV_inj (fun _ _ h => IE.Fqcsid.inj h) h4
  injection h with h5 h
  cases optV_inj (fun _ _ h => IE.Fqcsid.inj h) h5
  injection h with h6 h
  cases optV_inj (fun _ _ h => IE.Fqcsid.inj h) h6
  injection h with h7 h
  cases optV_inj (fun _ _ h => IE.Fqcsid.inj h) h7
  injection h with h8 h
  cases optV_inj (fun _ _ h => IE.Pco.inj h) h8
  injection h with h9 h
  cases optV_inj (fun _ _ h => IE.UeTimeZone.inj h) h9
  injection h with h10 h
  cases optV_inj (fun _ _ h => IE.Uli.inj h) h10
  injection h with h11 h
  cases optV_inj (fun _ _ h => IE.UliTimestamp.inj h) h11
  injection h with h12 h
  cases optV_inj (fun _ _ h => IE.TwanId.inj h) h12
  injection h with h13 h
  cases optV_inj (fun _ _ h => IE.TwanIdTimeStamp.inj h) h13
  injection h with h14 h
  cases map_inj (fun _ _ h => IE.OverloadControlInfo.inj h) h14
  injection h with h15 h
  cases optV_inj (fun _ _ h => IE.IpAddress.inj h) h15
  injection h with h16 h
  cases optV_inj (fun _ _ h => IE.TwanId.inj h) h16
  injection h with h17 h
  cases optV_inj (fun _ _ h => IE.TwanIdTimeStamp.inj h) h17
  injection h with h18 h
  cases optV_inj (fun _ _ h => IE.PortNumber.inj h) h18
  injection h with h19 h
  cases optV_inj (fun _ _ h => IE.Fcontainer.inj h) h19
  injection h with h20 h
  cases optV_inj (fun _ _ h => IE.PortNumber.inj h) h20
  injection h with h21 h
  cases map_inj (fun _ _ h => IE.SecondaryRatUsageDataReport.inj h) h21
  injection h with h22 h
  cases optV_inj (fun _ _ h => IE.PSCellId.inj h) h22
  injection h with h23 h
  cases map_inj (fun _ _ h => IE.PrivateExtension.inj h) h23
  rfl

theorem mand : schema.filter (·.card.mandatory) = [(⟨.Cause, .is 0, .one⟩ : Slot)] := rfl

/-- The flags tell which mandatory IEs are absent. -/
theorem flags (h : Header) (els : List IE) : ∃ x m0, els.foldl step ⟨{ dflt with header := h }, false⟩ = ⟨x, m0⟩ ∧ St.view ⟨x, m0⟩ = schema.map (·.select els) ∧ x.header = h ∧
    (⟨.Cause, .is 0, .one⟩ : Slot).lacks els = (!m0) := by
  obtain ⟨hv, hi⟩ := loop h els
  generalize els.foldl step ⟨{ dflt with header := h }, false⟩ = s at hv hi ⊢
  obtain ⟨x, m0⟩ := s
  simp only [St.Inv] at hi
  have l0 : (⟨.Cause, .is 0, .one⟩ : Slot).lacks els = (!m0) := by
    rw [Slot.lacks_eq els rfl]
    have e := congrArg (fun l => l.getD 0 []) hv
    rw [show (⟨.Cause, .is 0, .one⟩ : Slot).select els = if m0 then [.Cause x.cause] else [] from e.symm]
    cases m0 <;> rfl
  exact ⟨x, m0, rfl, hv, hi, l0⟩

theorem complete (h : Header) (els : List IE) (hm : schema.missing els = []) : ∃ y, fromvec { dflt with header := h } els = .ok y ∧ y.header = h ∧ fields y = schema.map (·.select els) := by
  obtain ⟨x, m0, hs, hv, hh, l0⟩ := flags h els
  unfold fromvec
  rw [hs]
  dsimp only [finish]
  have f0 := l0.symm.trans (Schema.of_missing_nil mand (by simp) hm)
  cases m0 <;> first | exact ⟨x, rfl, hh, hv⟩ | contradiction

theorem describes : Describes codec schema fields where
  header_set _ _ := rfl
  fields_set _ _ := rfl
  ext _ _ hh h := ext hh h
  shape x := Aligned.one (fun _ => rfl) <| Aligned.opt (fun _ => rfl) <| Aligned.many (fun _ => rfl) <| Aligned.opt (fun _ => rfl) <| Aligned.opt (fun _ => rfl) <| Aligned.opt (fun _ => rfl) <| Aligned.opt (fun _ => rfl) <| Aligned.opt (fun _ => rfl) <| Aligned.opt (fun _ => rfl) <| Aligned.opt (fun _ => rfl) <| Aligned.opt (fun _ => rfl) <| Aligned.opt (fun _ => rfl) <| Aligned.opt (fun _ => rfl) <| Aligned.opt (fun _ => rfl) <| Aligned.many (fun _ => rfl) <| Aligned.opt (fun _ => rfl) <| Aligned.opt (fun _ => rfl) <| Aligned.opt (fun _ => rfl) <| Aligned.opt (fun _ => rfl) <| Aligned.opt (fun _ => rfl) <| Aligned.opt (fun _ => rfl) <| Aligned.many (fun _ => rfl) <| Aligned.opt (fun _ => rfl) <| Aligned.many (fun _ => rfl) <| trivial
  tovec x := by simp [codec, tovec, fields]
  complete h els _ hm := complete h els hm

theorem reports (h : Header) (els : List IE) (hm : schema.missing els ≠ []) :
    ∃ s ∈ schema.missing els, ∃ t, fromvec { dflt with header := h } els = .err (.messageMandatoryIEMissing t) ∧ kindOf t = s.kind := by
  obtain ⟨x, m0, hs, hv, hh, l0⟩ := flags h els
  unfold fromvec
  rw [hs]
  dsimp only [finish]
  cases m0 <;>
    first | exact ⟨_, Schema.mem_missing mand (by simp) l0, _, rfl, rfl⟩ | exact absurd (Schema.missing_nil mand (by simp [l0])) hm

theorem settled (h : Header) (els els' : List IE) (he : ∀ s ∈ schema, s.card.mandatory = true → s.lacks els = s.lacks els')
    (hm : schema.missing els ≠ []) : fromvec { dflt with header := h } els = fromvec { dflt with header := h } els' := by
  obtain ⟨x, m0, hs, hv, hh, l0⟩ := flags h els
  obtain ⟨x', m0', hs', hv', hh', l0'⟩ := flags h els'
  unfold fromvec
  rw [hs, hs']
  obtain rfl := Bool.not_inj (l0.symm.trans ((he _ (by decide) rfl).trans l0'))
  dsimp only [finish]
  cases m0 <;>
    first | rfl | exact absurd (Schema.missing_nil mand (by simp [l0])) hm

end DeleteBearerResponse

/-- `DeleteIndirectDataForwardingTunnelRequest` (deleteindirectdatafwtunnelreq.rs:15-18). -/
structure DeleteIndirectDataForwardingTunnelRequest where
  header : Header
  private_ext : List V2.PrivateExtension
deriving DecidableEq

namespace DeleteIndirectDataForwardingTunnelRequest

/-- `default` (deleteindirectdatafwtunnelreq.rs:21-30). -/
def dflt : DeleteIndirectDataForwardingTunnelRequest :=
  { header := { Header.default with msgtype := 168, teid := some 0 }, private_ext := [] }

/-- `tovec` (deleteindirectdatafwtunnelreq.rs:67-75). -/
def tovec (x : DeleteIndirectDataForwardingTunnelRequest) : List IE :=
  x.private_ext.map .PrivateExtension

/-- The variables of `fromvec`: the message and the array `mandatory` (deleteindirectdatafwtunnelreq.rs:77-84). -/
structure St where
  x : DeleteIndirectDataForwardingTunnelRequest

/-- One turn of the loop of `fromvec` (deleteindirectdatafwtunnelreq.rs:77-84). -/
def step (s : St) : IE → St
  | .PrivateExtension j => { s with x := { s.x with private_ext := s.x.private_ext ++ [j] } }
  | _ => s

/-- The end of `fromvec` (deleteindirectdatafwtunnelreq.rs:77-84). -/
def finish (s : St) : R Err DeleteIndirectDataForwardingTunnelRequest :=
  .ok s.x

/-- `fromvec` (deleteindirectdatafwtunnelreq.rs:77-84). -/
def fromvec (x : DeleteIndirectDataForwardingTunnelRequest) (els : List IE) : R Err DeleteIndirectDataForwardingTunnelRequest := finish (els.foldl step ⟨x⟩)

/-- The message type (deleteindirectdatafwtunnelreq.rs:34-65). -/
def codec : Codec DeleteIndirectDataForwardingTunnelRequest :=
  { msgtype := 168, start := some 12, dflt, header := header, setHeader := fun x h => { x with header := h }, tovec, fromvec }

/-- One slot per field. -/
def schema : Schema :=
  [⟨.PrivateExtension, .any, .many⟩]

/-- The fields as lists of IEs. -/
def fields (x : DeleteIndirectDataForwardingTunnelRequest) : List (List IE) :=
  [x.private_ext.map .PrivateExtension]

/-- What the state has collected so far. -/
def St.view (s : St) : List (List IE) :=
  [s.x.private_ext.map .PrivateExtension]

/-- The header is left alone; flags of mandatory lists tell whether the list is empty. -/
def St.Inv (h : Header) (s : St) : Prop :=
  s.x.header = h

theorem step_view (h : Header) (s : St) (e : IE) (hi : s.Inv h) : (step s e).view = Schema.step schema s.view e ∧ (step s e).Inv h := by
  cases e
  case PrivateExtension j =>
    simp only [step]
    all_goals refine ⟨cons_congr ?_ (rfl), ?_⟩
    all_goals first | exact hi | msg_field | (simp_all [St.Inv]; done)
  all_goals exact ⟨(Schema.step_other rfl rfl).symm, hi⟩

theorem loop (h : Header) (els : List IE) :
    (els.foldl step ⟨{ dflt with header := h }⟩).view = schema.map (·.select els) ∧ (els.foldl step ⟨{ dflt with header := h }⟩).Inv h := by
  have := foldl_view (Q := fun _ => True) (fun s e hp _ => step_view h s e hp) els ⟨{ dflt with header := h }⟩ (fun _ _ => trivial) (by simp [St.Inv])
  rw [show St.view ⟨{ dflt with header := h }⟩ = schema.map (fun _ => []) from rfl, Schema.foldl_nil] at this
  exact this

theorem ext {x y : DeleteIndirectDataForwardingTunnelRequest} (hh : x.header = y.header) (h : fields x = fields y) : x = y := by
  cases x; cases y
  simp only at hh
  subst hh
  injection h with h0 h
  cases map_inj (fun _ _ h => IE.PrivateExtension.inj h) h0
  rfl

theorem mand : schema.filter (·.card.mandatory) = [] := rfl

/-- The flags tell which mandatory IEs are absent. -/
theorem flags (h : Header) (els : List IE) : ∃ x , els.foldl step ⟨{ dflt with header := h }⟩ = ⟨x⟩ ∧ St.view ⟨x⟩ = schema.map (·.select els) ∧ x.header = h := by
  obtain ⟨hv, hi⟩ := loop h els
  generalize els.foldl step ⟨{ dflt with header := h }⟩ = s at hv hi ⊢
  obtain ⟨x⟩ := s
  simp only [St.Inv] at hi
  exact ⟨x, rfl, hv, hi⟩

theorem complete (h : Header) (els : List IE) (_hm : schema.missing els = []) : ∃ y, fromvec { dflt with header := h } els = .ok y ∧ y.header = h ∧ fields y = schema.map (·.select els) := by
  obtain ⟨x, hs, hv, hh⟩ := flags h els
  unfold fromvec
  rw [hs]
  exact ⟨x, rfl, hh, hv⟩

theorem describes : Describes codec schema fields where
  header_set _ _ := rfl
  fields_set _ _ := rfl
  ext _ _ hh h := ext hh h
  shape x := Aligned.many (fun _ => rfl) <| trivial
  tovec x := by simp [codec, tovec, fields]
  complete h els _ hm := complete h els hm

end DeleteIndirectDataForwardingTunnelRequest

/-- `DeleteIndirectDataForwardingTunnelResponse` (deleteindirectdatafwtunnelresp.rs:15-20). -/
structure DeleteIndirectDataForwardingTunnelResponse where
  header : Header
  cause : V2.Cause
  recovery : Option V2.Recovery
  private_ext : List V2.PrivateExtension
deriving DecidableEq

namespace DeleteIndirectDataForwardingTunnelResponse

/-- `default` (deleteindirectdatafwtunnelresp.rs:23-34). -/
def dflt : DeleteIndirectDataForwardingTunnelResponse :=
  { header := { Header.default with msgtype := 169, teid := some 0 }, cause := V2.Cause.dflt, recovery := none, private_ext := [] }

/-- `tovec` (deleteindirectdatafwtunnelresp.rs:71-85). -/
def tovec (x : DeleteIndirectDataForwardingTunnelResponse) : List IE :=
  [.Cause x.cause] ++ (
  optV .Recovery x.recovery ++ (
  x.private_ext.map .PrivateExtension))

/-- The variables of `fromvec`: the message and the array `mandatory` (deleteindirectdatafwtunnelresp.rs:87-111). -/
structure St where
  x : DeleteIndirectDataForwardingTunnelResponse
  m0 : Bool

/-- One turn of the loop of `fromvec` (deleteindirectdatafwtunnelresp.rs:87-111). -/
def step (s : St) : IE → St
  | .Cause j => if j.ins = 0 then { s with x := { s.x with cause := j }, m0 := true } else s
  | .Recovery j => if j.ins = 0 ∧ s.x.recovery.isNone = true then { s with x := { s.x with recovery := some j } } else s
  | .PrivateExtension j => { s with x := { s.x with private_ext := s.x.private_ext ++ [j] } }
  | _ => s

/-- The end of `fromvec` (deleteindirectdatafwtunnelresp.rs:87-111). -/
def finish (s : St) : R Err DeleteIndirectDataForwardingTunnelResponse :=
  if s.m0 then .ok s.x else .err (.messageMandatoryIEMissing 2)

/-- `fromvec` (deleteindirectdatafwtunnelresp.rs:87-111). -/
def fromvec (x : DeleteIndirectDataForwardingTunnelResponse) (els : List IE) : R Err DeleteIndirectDataForwardingTunnelResponse := finish (els.foldl step ⟨x, false⟩)

/-- The message type (deleteindirectdatafwtunnelresp.rs:38-69). -/
def codec : Codec DeleteIndirectDataForwardingTunnelResponse :=
  { msgtype := 169, start := some 12, dflt, header := header, setHeader := fun x h => { x with header := h }, tovec, fromvec }

/-- One slot per field. -/
def schema : Schema :=
  [⟨.Cause, .is 0, .oneLast⟩,
   ⟨.Recovery, .is 0, .opt⟩,
   ⟨.PrivateExtension, .any, .many⟩]

/-- The fields as lists of IEs. -/
def fields (x : DeleteIndirectDataForwardingTunnelResponse) : List (List IE) :=
  [[.Cause x.cause],
   optV .Recovery x.recovery,
   x.private_ext.map .PrivateExtension]

/-- What the state has collected so far. -/
def St.view (s : St) : List (List IE) :=
  [if s.m0 then [.Cause s.x.cause] else [],
   optV .Recovery s.x.recovery,
   s.x.private_ext.map .PrivateExtension]

/-- The header is left alone; flags of mandatory lists tell whether the list is empty. -/
def St.Inv (h : Header) (s : St) : Prop :=
  s.x.header = h

theorem step_view (h : Header) (s : St) (e : IE) (hi : s.Inv h) : (step s e).view = Schema.step schema s.view e ∧ (step s e).Inv h := by
  cases e
  case Cause j =>
    simp only [step]
    repeat' split
    all_goals refine ⟨cons_congr ?_ ((Schema.step_other rfl rfl).symm), ?_⟩
    all_goals first | exact hi | msg_field | (simp_all [St.Inv]; done)
  case Recovery j =>
    simp only [step]
    repeat' split
    all_goals refine ⟨cons_congr (Slot.step_ne rfl).symm (cons_congr ?_ ((Schema.step_other rfl rfl).symm)), ?_⟩
    all_goals first | exact hi | msg_field | (simp_all [St.Inv]; done)
  case PrivateExtension j =>
    simp only [step]
    all_goals refine ⟨cons_congr (Slot.step_ne rfl).symm (cons_congr (Slot.step_ne rfl).symm (cons_congr ?_ (rfl))), ?_⟩
    all_goals first | exact hi | msg_field | (simp_all [St.Inv]; done)
  all_goals exact ⟨(Schema.step_other rfl rfl).symm, hi⟩

theorem loop (h : Header) (els : List IE) :
    (els.foldl step ⟨{ dflt with header := h }, false⟩).view = schema.map (·.select els) ∧ (els.foldl step ⟨{ dflt with header := h }, false⟩).Inv h := by
  have := foldl_view (Q := fun _ => True) (fun s e hp _ => step_view h s e hp) els ⟨{ dflt with header := h }, false⟩ (fun _ _ => trivial) (by simp [St.Inv])
  rw [show St.view ⟨{ dflt with header := h }, false⟩ = schema.map (fun _ => []) from rfl, Schema.foldl_nil] at this
  exact this

theorem ext {x y : DeleteIndirectDataForwardingTunnelResponse} (hh : x.header = y.header) (h : fields x = fields y) : x = y := by
  cases x; cases y
  simp only at hh
  subst hh
  injection h with h0 h
  cases h0
  injection h with h1 h
  cases optV_inj (fun _ _ h => IE.Recovery.inj h) h1
  injection h with h2 h
  cases map_inj (fun _ _ h => IE.PrivateExtension.inj h) h2
  rfl

theorem mand : schema.filter (·.card.mandatory) = [(⟨.Cause, .is 0, .oneLast⟩ : Slot)] := rfl

/-- The flags tell which mandatory IEs are absent. -/
theorem flags (h : Header) (els : List IE) : ∃ x m0, els.foldl step ⟨{ dflt with header := h }, false⟩ = ⟨x, m0⟩ ∧ St.view ⟨x, m0⟩ = schema.map (·.select els) ∧ x.header = h ∧
    (⟨.Cause, .is 0, .oneLast⟩ : Slot).lacks els = (!m0) := by
  obtain ⟨hv, hi⟩ := loop h els
  generalize els.foldl step ⟨{ dflt with header := h }, false⟩ = s at hv hi ⊢
  obtain ⟨x, m0⟩ := s
  simp only [St.Inv] at hi
  have l0 : (⟨.Cause, .is 0, .oneLast⟩ : Slot).lacks els = (!m0) := by
    rw [Slot.lacks_eq els rfl]
    have e := congrArg (fun l => l.getD 0 []) hv
    rw [show (⟨.Cause, .is 0, .oneLast⟩ : Slot).select els = if m0 then [.Cause x.cause] else [] from e.symm]
    cases m0 <;> rfl
  exact ⟨x, m0, rfl, hv, hi, l0⟩

theorem complete (h : Header) (els : List IE) (hm : schema.missing els = []) : ∃ y, fromvec { dflt with header := h } els = .ok y ∧ y.header = h ∧ fields y = schema.map (·.select els) := by
  obtain ⟨x, m0, hs, hv, hh, l0⟩ := flags h els
  unfold fromvec
  rw [hs]
  dsimp only [finish]
  have f0 := l0.symm.trans (Schema.of_missing_nil mand (by simp) hm)
  cases m0 <;> first | exact ⟨x, rfl, hh, hv⟩ | contradiction

theorem describes : Describes codec schema fields where
  header_set _ _ := rfl
  fields_set _ _ := rfl
  ext _ _ hh h := ext hh h
  shape x := Aligned.one (fun _ => rfl) <| Aligned.opt (fun _ => rfl) <| Aligned.many (fun _ => rfl) <| trivial
  tovec x := by simp [codec, tovec, fields]
  complete h els _ hm := complete h els hm

theorem reports (h : Header) (els : List IE) (hm : schema.missing els ≠ []) :
    ∃ s ∈ schema.missing els, ∃ t, fromvec { dflt with header := h } els = .err (.messageMandatoryIEMissing t) ∧ kindOf t = s.kind := by
  obtain ⟨x, m0, hs, hv, hh, l0⟩ := flags h els
  unfold fromvec
  rw [hs]
  dsimp only [finish]
  cases m0 <;>
    first | exact ⟨_, Schema.mem_missing mand (by simp) l0, _, rfl, rfl⟩ | exact absurd (Schema.missing_nil mand (by simp [l0])) hm

theorem settled (h : Header) (els els' : List IE) (he : ∀ s ∈ schema, s.card.mandatory = true → s.lacks els = s.lacks els')
    (hm : schema.missing els ≠ []) : fromvec { dflt with header := h } els = fromvec { dflt with header := h } els' := by
  obtain ⟨x, m0, hs, hv, hh, l0⟩ := flags h els
  obtain ⟨x', m0', hs', hv', hh', l0'⟩ := flags h els'
  unfold fromvec
  rw [hs, hs']
  obtain rfl := Bool.not_inj (l0.symm.trans ((he _ (by decide) rfl).trans l0'))
  dsimp only [finish]
  cases m0 <;>
    first | rfl | exact absurd (Schema.missing_nil mand (by simp [l0])) hm

end DeleteIndirectDataForwardingTunnelResponse

/-- `DeletePdnConnectionSetRequest` (deletepdnconnectionsetreq.rs:15-23). -/
structure DeletePdnConnectionSetRequest where
  header : Header
  mme_fqcsid : Option V2.Fqcsid
  sgw_fqcsid : Option V2.Fqcsid
  pgw_fqcsid : Option V2.Fqcsid
  epdg_fqcsid : Option V2.Fqcsid
  twan_fqcsid : Option V2.Fqcsid
  private_ext : List V2.PrivateExtension
deriving DecidableEq

namespace DeletePdnConnectionSetRequest

/-- `default` (deletepdnconnectionsetreq.rs:26-41). -/
def dflt : DeletePdnConnectionSetRequest :=
  { header := { Header.default with msgtype := 101, teid := some 0 }, mme_fqcsid := none, sgw_fqcsid := none, pgw_fqcsid := none, epdg_fqcsid := none, twan_fqcsid := none, private_ext := [] }

/-- `tovec` (deletepdnconnectionsetreq.rs:78-106). -/
def tovec (x : DeletePdnConnectionSetRequest) : List IE :=
  optV .Fqcsid x.mme_fqcsid ++ (
  optV .Fqcsid x.sgw_fqcsid ++ (
  optV .Fqcsid x.pgw_fqcsid ++ (
  optV .Fqcsid x.epdg_fqcsid ++ (
  optV .Fqcsid x.twan_fqcsid ++ (
  x.private_ext.map .PrivateExtension)))))

/-- The variables of `fromvec`: the message and the array `mandatory` (deletepdnconnectionsetreq.rs:108-144). -/
structure St where
  x : DeletePdnConnectionSetRequest

/-- One turn of the loop of `fromvec` (deletepdnconnectionsetreq.rs:108-144). -/
def step (s : St) : IE → St
  | .Fqcsid j => if j.ins = 0 ∧ s.x.mme_fqcsid.isNone = true then { s with x := { s.x with mme_fqcsid := some j } } else if j.ins = 1 ∧ s.x.sgw_fqcsid.isNone = true then { s with x := { s.x with sgw_fqcsid := some j } } else if j.ins = 2 ∧ s.x.pgw_fqcsid.isNone = true then { s with x := { s.x with pgw_fqcsid := some j } } else if j.ins = 3 ∧ s.x.epdg_fqcsid.isNone = true then { s with x := { s.x with epdg_fqcsid := some j } } else if j.ins = 4 ∧ s.x.twan_fqcsid.isNone = true then { s with x := { s.x with twan_fqcsid := some j } } else s
  | .PrivateExtension j => { s with x := { s.x with private_ext := s.x.private_ext ++ [j] } }
  | _ => s

/-- The end of `fromvec` (deletepdnconnectionsetreq.rs:108-144). -/
def finish (s : St) : R Err DeletePdnConnectionSetRequest :=
  .ok s.x

/-- `fromvec` (deletepdnconnectionsetreq.rs:108-144). -/
def fromvec (x : DeletePdnConnectionSetRequest) (els : List IE) : R Err DeletePdnConnectionSetRequest := finish (els.foldl step ⟨x⟩)

/-- The message type (deletepdnconnectionsetreq.rs:45-76). -/
def codec : Codec DeletePdnConnectionSetRequest :=
  { msgtype := 101, start := some 12, dflt, header := header, setHeader := fun x h => { x with header := h }, tovec, fromvec }

/-- One slot per field. -/
def schema : Schema :=
  [⟨.Fqcsid, .is 0, .opt⟩,
   ⟨.Fqcsid, .is 1, .opt⟩,
   ⟨.Fqcsid, .is 2, .opt⟩,
   ⟨.Fqcsid, .is 3, .opt⟩,
   ⟨.Fqcsid, .is 4, .opt⟩,
   ⟨.PrivateExtension, .any, .many⟩]

/-- The fields as lists of IEs. -/
def fields (x : DeletePdnConnectionSetRequest) : List (List IE) :=
  [optV .Fqcsid x.mme_fqcsid,
   optV .Fqcsid x.sgw_fqcsid,
   optV .Fqcsid x.pgw_fqcsid,
   optV .Fqcsid x.epdg_fqcsid,
   optV .Fqcsid x.twan_fqcsid,
   x.private_ext.map .PrivateExtension]

/-- What the state has collected so far. -/
def St.view (s : St) : List (List IE) :=
  [optV .Fqcsid s.x.mme_fqcsid,
   optV .Fqcsid s.x.sgw_fqcsid,
   optV .Fqcsid s.x.pgw_fqcsid,
   optV .Fqcsid s.x.epdg_fqcsid,
   optV .Fqcsid s.x.twan_fqcsid,
   s.x.private_ext.map .PrivateExtension]

/-- The header is left alone; flags of mandatory lists tell whether the list is empty. -/
def St.Inv (h : Header) (s : St) : Prop :=
  s.x.header = h

theorem step_view (h : Header) (s : St) (e : IE) (hi : s.Inv h) : (step s e).view = Schema.step schema s.view e ∧ (step s e).Inv h := by
  cases e
  case Fqcsid j =>
    simp only [step]
    repeat' split
    all_goals refine ⟨cons_congr ?_ (cons_congr ?_ (cons_congr ?_ (cons_congr ?_ (cons_congr ?_ ((Schema.step_other rfl rfl).symm))))), ?_⟩
    all_goals first | exact hi | msg_field | (simp_all [St.Inv]; done)
  case PrivateExtension j =>
    simp only [step]
    all_goals refine ⟨cons_congr (Slot.step_ne rfl).symm (cons_congr (Slot.step_ne rfl).symm (cons_congr (Slot.step_ne rfl).symm (cons_congr (Slot.step_ne rfl).symm (cons_congr (Slot.step_ne rfl).symm (cons_congr ?_ (rfl)))))), ?_⟩
    all_goals first | exact hi | msg_field | (simp_all [St.Inv]; done)
  all_goals exact ⟨(Schema.step_other rfl rfl).symm, hi⟩

theorem loop (h : Header) (els : List IE) :
    (els.foldl step ⟨{ dflt with header := h }⟩).view = schema.map (·.select els) ∧ (els.foldl step ⟨{ dflt with header := h }⟩).Inv h := by
  have := foldl_view (Q := fun _ => True) (fun s e hp _ => step_view h s e hp) els ⟨{ dflt with header := h }⟩ (fun _ _ => trivial) (by simp [St.Inv])
  rw [show St.view ⟨{ dflt with header := h }⟩ = schema.map (fun _ => []) from rfl, Schema.foldl_nil] at this
  exact this

theorem ext {x y : DeletePdnConnectionSetRequest} (hh : x.header = y.header) (h : fields x = fields y) : x = y := by
  cases x; cases y
  simp only at hh
  subst hh
  injection h with h0 h
  cases optV_inj (fun _ _ h => IE.Fqcsid.inj h) h0
  injection h with h1 h
  cases optV_inj (fun _ _ h => IE.Fqcsid.inj h) h1
  injection h with h2 h
  cases optV_inj (fun _ _ h => IE.Fqcsid.inj h) h2
  injection h with h3 h
  cases optV_inj (fun _ _ h => IE.Fqcsid.inj h) h3
  injection h with h4 h
  cases optV_inj (fun _ _ h => IE.Fqcsid.inj h) h4
  injection h with h5 h
  cases map_inj (fun _ _ h => IE.PrivateExtension.inj h) h5
  rfl

theorem mand : schema.filter (·.card.mandatory) = [] := rfl

/-- The flags tell which mandatory IEs are absent. -/
theorem flags (h : Header) (els : List IE) : ∃ x , els.foldl step ⟨{ dflt with header := h }⟩ = ⟨x⟩ ∧ St.view ⟨x⟩ = schema.map (·.select els) ∧ x.header = h := by
  obtain ⟨hv, hi⟩ := loop h els
  generalize els.foldl step ⟨{ dflt with header := h }⟩ = s at hv hi ⊢
  obtain ⟨x⟩ := s
  simp only [St.Inv] at hi
  exact ⟨x, rfl, hv, hi⟩

theorem complete (h : Header) (els : List IE) (_hm : schema.missing els = []) : ∃ y, fromvec { dflt with header := h } els = .ok y ∧ y.header = h ∧ fields y = schema.map (·.select els) := by
  obtain ⟨x, hs, hv, hh⟩ := flags h els
  unfold fromvec
  rw [hs]
  exact ⟨x, rfl, hh, hv⟩

theorem describes : Describes codec schema fields where
  header_set _ _ := rfl
  fields_set _ _ := rfl
  ext _ _ hh h := ext hh h
  shape x := Aligned.opt (fun _ => rfl) <| Aligned.opt (fun _ => rfl) <| Aligned.opt (fun _ => rfl) <| Aligned.opt (fun _ => rfl) <| Aligned.opt (fun _ => rfl) <| Aligned.many (fun _ => rfl) <| trivial
  tovec x := by simp [codec, tovec, fields]
  complete h els _ hm := complete h els hm

end DeletePdnConnectionSetRequest

/-- `DeletePndConnectionSetResponse` (deletepdnconnectionsetresp.rs:15-20). -/
structure DeletePndConnectionSetResponse where
  header : Header
  cause : V2.Cause
  recovery : Option V2.Recovery
  private_ext : List V2.PrivateExtension
deriving DecidableEq

namespace DeletePndConnectionSetResponse

/-- `default` (deletepdnconnectionsetresp.rs:23-34). -/
def dflt : DeletePndConnectionSetResponse :=
  { header := { Header.default with msgtype := 102, teid := some 0 }, cause := V2.Cause.dflt, recovery := none, private_ext := [] }

/-- `tovec` (deletepdnconnectionsetresp.rs:71-85). -/
def tovec (x : DeletePndConnectionSetResponse) : List IE :=
  [.Cause x.cause] ++ (
  optV .Recovery x.recovery ++ (
  x.private_ext.map .PrivateExtension))

/-- The variables of `fromvec`: the message and the array `mandatory` (deletepdnconnectionsetresp.rs:87-111). -/
structure St where
  x : DeletePndConnectionSetResponse
  m0 : Bool

/-- One turn of the loop of `fromvec` (deletepdnconnectionsetresp.rs:87-111). -/
def step (s : St) : IE → St
  | .Cause j => if j.ins = 0 then { s with x := { s.x with cause := j }, m0 := true } else s
  | .Recovery j => if j.ins = 0 ∧ s.x.recovery.isNone = true then { s with x := { s.x with recovery := some j } } else s
  | .PrivateExtension j => { s with x := { s.x with private_ext := s.x.private_ext ++ [j] } }
  | _ => s

/-- The end of `fromvec` (deletepdnconnectionsetresp.rs:87-111). -/
def finish (s : St) : R Err DeletePndConnectionSetResponse :=
  if s.m0 then .ok s.x else .err (.messageMandatoryIEMissing 2)

/-- `fromvec` (deletepdnconnectionsetresp.rs:87-111). -/
def fromvec (x : DeletePndConnectionSetResponse) (els : List IE) : R Err DeletePndConnectionSetResponse := finish (els.foldl step ⟨x, false⟩)

/-- The message type (deletepdnconnectionsetresp.rs:38-69). -/
def codec : Codec DeletePndConnectionSetResponse :=
  { msgtype := 102, start := some 12, dflt, header := header, setHeader := fun x h => { x with header := h }, tovec, fromvec }

/-- One slot per field. -/
def schema : Schema :=
  [⟨.Cause, .is 0, .oneLast⟩,
   ⟨.Recovery, .is 0, .opt⟩,
   ⟨.PrivateExtension, .any, .many⟩]

/-- The fields as lists of IEs. -/
def fields (x : DeletePndConnectionSetResponse) : List (List IE) :=
  [[.Cause x.cause],
   optV .Recovery x.recovery,
   x.private_ext.map .PrivateExtension]

/-- What the state has collected so far. -/
def St.view (s : St) : List (List IE) :=
  [if s.m0 then [.Cause s.x.cause] else [],
   optV .Recovery s.x.recovery,
   s.x.private_ext.map .PrivateExtension]

/-- The header is left alone; flags of mandatory lists tell whether the list is empty. -/
def St.Inv (h : Header) (s : St) : Prop :=
  s.x.header = h

theorem step_view (h : Header) (s : St) (e : IE) (hi : s.Inv h) : (step s e).view = Schema.step schema s.view e ∧ (step s e).Inv h := by
  cases e
  case Cause j =>
    simp only [step]
    repeat' split
    all_goals refine ⟨cons_congr ?_ ((Schema.step_other rfl rfl).symm), ?_⟩
    all_goals first | exact hi | msg_field | (simp_all [St.Inv]; done)
  case Recovery j =>
    simp only [step]
    repeat' split
    all_goals refine ⟨cons_congr (Slot.step_ne rfl).symm (cons_congr ?_ ((Schema.step_other rfl rfl).symm)), ?_⟩
    all_goals first | exact hi | msg_field | (simp_all [St.Inv]; done)
  case PrivateExtension j =>
    simp only [step]
    all_goals refine ⟨cons_congr (Slot.step_ne rfl).symm (cons_congr (Slot.step_ne rfl).symm (cons_congr ?_ (rfl))), ?_⟩
    all_goals first | exact hi | msg_field | (simp_all [St.Inv]; done)
  all_goals exact ⟨(Schema.step_other rfl rfl).symm, hi⟩

theorem loop (h : Header) (els : List IE) :
    (els.foldl step ⟨{ dflt with header := h }, false⟩).view = schema.map (·.select els) ∧ (els.foldl step ⟨{ dflt with header := h }, false⟩).Inv h := by
  have := foldl_view (Q := fun _ => True) (fun s e hp _ => step_view h s e hp) els ⟨{ dflt with header := h }, false⟩ (fun _ _ => trivial) (by simp [St.Inv])
  rw [show St.view ⟨{ dflt with header := h }, false⟩ = schema.map (fun _ => []) from rfl, Schema.foldl_nil] at this
  exact this

theorem ext {x y : DeletePndConnectionSetResponse} (hh : x.header = y.header) (h : fields x = fields y) : x = y := by
  cases x; cases y
  simp only at hh
  subst hh
  injection h with h0 h
  cases h0
  injection h with h1 h
  cases optV_inj (fun _ _ h => IE.Recovery.inj h) h1
  injection h with h2 h
  cases map_inj (fun _ _ h => IE.PrivateExtension.inj h) h2
  rfl

theorem mand : schema.filter (·.card.mandatory) = [(⟨.Cause, .is 0, .oneLast⟩ : Slot)] := rfl

/-- The flags tell which mandatory IEs are absent. -/
theorem flags (h : Header) (els : List IE) : ∃ x m0, els.foldl step ⟨{ dflt with header := h }, false⟩ = ⟨x, m0⟩ ∧ St.view ⟨x, m0⟩ = schema.map (·.select els) ∧ x.header = h ∧
    (⟨.Cause, .is 0, .oneLast⟩ : Slot).lacks els = (!m0) := by
  obtain ⟨hv, hi⟩ := loop h els
  generalize els.foldl step ⟨{ dflt with header := h }, false⟩ = s at hv hi ⊢
  obtain ⟨x, m0⟩ := s
  simp only [St.Inv] at hi
  have l0 : (⟨.Cause, .is 0, .oneLast⟩ : Slot).lacks els = (!m0) := by
    rw [Slot.lacks_eq els rfl]
    have e := congrArg (fun l => l.getD 0 []) hv
    rw [show (⟨.Cause, .is 0, .oneLast⟩ : Slot).select els = if m0 then [.Cause x.cause] else [] from e.symm]
    cases m0 <;> rfl
  exact ⟨x, m0, rfl, hv, hi, l0⟩

theorem complete (h : Header) (els : List IE) (hm : schema.missing els = []) : ∃ y, fromvec { dflt with header := h } els = .ok y ∧ y.header = h ∧ fields y = schema.map (·.select els) := by
  obtain ⟨x, m0, hs, hv, hh, l0⟩ := flags h els
  unfold fromvec
  rw [hs]
  dsimp only [finish]
  have f0 := l0.symm.trans (Schema.of_missing_nil mand (by simp) hm)
  cases m0 <;> first | exact ⟨x, rfl, hh, hv⟩ | contradiction

theorem describes : Describes codec schema fields where
  header_set _ _ := rfl
  fields_set _ _ := rfl
  ext _ _ hh h := ext hh h
  shape x := Aligned.one (fun _ => rfl) <| Aligned.opt (fun _ => rfl) <| Aligned.many (fun _ => rfl) <| trivial
  tovec x := by simp [codec, tovec, fields]
  complete h els _ hm := complete h els hm

theorem reports (h : Header) (els : List IE) (hm : schema.missing els ≠ []) :
    ∃ s ∈ schema.missing els, ∃ t, fromvec { dflt with header := h } els = .err (.messageMandatoryIEMissing t) ∧ kindOf t = s.kind := by
  obtain ⟨x, m0, hs, hv, hh, l0⟩ := flags h els
  unfold fromvec
  rw [hs]
  dsimp only [finish]
  cases m0 <;>
    first | exact ⟨_, Schema.mem_missing mand (by simp) l0, _, rfl, rfl⟩ | exact absurd (Schema.missing_nil mand (by simp [l0])) hm

theorem settled (h : Header) (els els' : List IE) (he : ∀ s ∈ schema, s.card.mandatory = true → s.lacks els = s.lacks els')
    (hm : schema.missing els ≠ []) : fromvec { dflt with header := h } els = fromvec { dflt with header := h } els' := by
  obtain ⟨x, m0, hs, hv, hh, l0⟩ := flags h els
  obtain ⟨x', m0', hs', hv', hh', l0'⟩ := flags h els'
  unfold fromvec
  rw [hs, hs']
  obtain rfl := Bool.not_inj (l0.symm.trans ((he _ (by decide) rfl).trans l0'))
  dsimp only [finish]
  cases m0 <;>
    first | rfl | exact absurd (Schema.missing_nil mand (by simp [l0])) hm

end DeletePndConnectionSetResponse

end Gtp.V2.Msg
