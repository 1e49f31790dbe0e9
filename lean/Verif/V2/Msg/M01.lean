import Verif.V2.Msg.Tactic

/-!
# GTPv2-C messages, part 1

Generated by `scripts/gen_msgs.py` from the Rust sources: `AlertMmeAcknowledge`, `AlertMmeNotification`, `BearerResourceCommand`, `BearerResourceFailureInd`, `ChangeNotificationRequest`, `ChangeNotificationResponse`, `ContextAcknowledge`, `ContextRequest`.
-/

namespace Gtp.V2.Msg

/-- `AlertMmeAcknowledge` (alertmmeacknowledge.rs:15-19). -/
structure AlertMmeAcknowledge where
  header : Header
  cause : V2.Cause
  private_ext : List V2.PrivateExtension
deriving DecidableEq

namespace AlertMmeAcknowledge

/-- `default` (alertmmeacknowledge.rs:22-33). -/
def dflt : AlertMmeAcknowledge :=
  { header := { Header.default with msgtype := 154, teid := some 0 }, cause := V2.Cause.dflt, private_ext := [] }

/-- `tovec` (alertmmeacknowledge.rs:69-79). -/
def tovec (x : AlertMmeAcknowledge) : List IE :=
  [.Cause x.cause] ++ (
  x.private_ext.map .PrivateExtension)

/-- The variables of `fromvec`: the message and the array `mandatory` (alertmmeacknowledge.rs:81-99). -/
structure St where
  x : AlertMmeAcknowledge
  m0 : Bool

/-- One turn of the loop of `fromvec` (alertmmeacknowledge.rs:81-99). -/
def step (s : St) : IE → St
  | .Cause j => if j.ins = 0 ∧ s.m0 = false then { s with x := { s.x with cause := j }, m0 := true } else s
  | .PrivateExtension j => { s with x := { s.x with private_ext := s.x.private_ext ++ [j] } }
  | _ => s

/-- The end of `fromvec` (alertmmeacknowledge.rs:81-99). -/
def finish (s : St) : R Err AlertMmeAcknowledge :=
  if s.m0 then .ok s.x else .err (.messageMandatoryIEMissing 2)

/-- `fromvec` (alertmmeacknowledge.rs:81-99). -/
def fromvec (x : AlertMmeAcknowledge) (els : List IE) : R Err AlertMmeAcknowledge := finish (els.foldl step ⟨x, false⟩)

/-- The message type (alertmmeacknowledge.rs:37-67). -/
def codec : Codec AlertMmeAcknowledge :=
  { msgtype := 154, start := some 12, dflt, header := header, setHeader := fun x h => { x with header := h }, tovec, fromvec }

/-- One slot per field. -/
def schema : Schema :=
  [⟨.Cause, .is 0, .one⟩,
   ⟨.PrivateExtension, .any, .many⟩]

/-- The fields as lists of IEs. -/
def fields (x : AlertMmeAcknowledge) : List (List IE) :=
  [[.Cause x.cause],
   x.private_ext.map .PrivateExtension]

/-- What the state has collected so far. -/
def St.view (s : St) : List (List IE) :=
  [if s.m0 then [.Cause s.x.cause] else [],
   s.x.private_ext.map .PrivateExtension]

/-- The header is left alone; flags of mandatory lists tell whether the list is empty. -/
def St.Inv (h : Header) (s : St) : Prop :=
  s.x.header = h

theorem step_view (h : Header) (s : St) (e : IE) (hi : s.Inv h) : (step s e).view = Schema.step schema s.view e ∧ (step s e).Inv h := by
  cases e
  case Cause j =>
    simp only [step]
    repeat' split
    all_goals refine ⟨cons_congr ?_ ((Schema.step_other rfl rfl).symm), ?_⟩
    all_goals first | exact hi | msg_field | (simp_all [St.Inv]; done)
  case PrivateExtension j =>
    simp only [step]
    all_goals refine ⟨cons_congr (Slot.step_ne rfl).symm (cons_congr ?_ (rfl)), ?_⟩
    all_goals first | exact hi | msg_field | (simp_all [St.Inv]; done)
  all_goals exact ⟨(Schema.step_other rfl rfl).symm, hi⟩

theorem loop (h : Header) (els : List IE) :
    (els.foldl step ⟨{ dflt with header := h }, false⟩).view = schema.map (·.select els) ∧ (els.foldl step ⟨{ dflt with header := h }, false⟩).Inv h := by
  have := foldl_view (Q := fun _ => True) (fun s e hp _ => step_view h s e hp) els ⟨{ dflt with header := h }, false⟩ (fun _ _ => trivial) (by simp [St.Inv])
  rw [show St.view ⟨{ dflt with header := h }, false⟩ = schema.map (fun _ => []) from rfl, Schema.foldl_nil] at this
  exact this

theorem ext {x y : AlertMmeAcknowledge} (hh : x.header = y.header) (h : fields x = fields y) : x = y := by
  cases x; cases y
  simp only at hh
  subst hh
  injection h with h0 h
  cases h0
  injection h with h1 h
  cases map_inj (fun _ _ h => IE.PrivateExtension.inj h) h1
  rfl

theorem mand : schema.filter (·.card.mandatory) = [(⟨.Cause, .is 0, .one⟩ : Slot)] := rfl

/-- The flags tell which mandatory IEs are absent. -/
theorem flags (h : Header) (els : List IE) : ∃ x m0, els.foldl step ⟨{ dflt with header := h }, false⟩ = ⟨x, m0⟩ ∧ St.view ⟨x, m0⟩ = schema.map (·.select els) ∧ x.header = h ∧
    (⟨.Cause, .is 0, .one⟩ : Slot).lacks els = (!m0) := by
  obtain ⟨hv, hi⟩ := loop h els
  generalize els.foldl step ⟨{ dflt with header := h }, false⟩ = s at hv hi ⊢
  obtain ⟨x, m0⟩ := s
  simp only [St.Inv] at hi
  have l0 : (⟨.Cause, .is 0, .one⟩ : Slot).lacks els = (!m0) := by
    rw [Slot.lacks_eq els rfl]
    have e := congrArg (fun l => l.getD 0 []) hv
    rw [show (⟨.Cause, .is 0, .one⟩ : Slot).select els = if m0 then [.Cause x.cause] else [] from e.symm]
    cases m0 <;> rfl
  exact ⟨x, m0, rfl, hv, hi, l0⟩

theorem complete (h : Header) (els : List IE) (hm : schema.missing els = []) : ∃ y, fromvec { dflt with header := h } els = .ok y ∧ y.header = h ∧ fields y = schema.map (·.select els) := by
  obtain ⟨x, m0, hs, hv, hh, l0⟩ := flags h els
  unfold fromvec
  rw [hs]
  dsimp only [finish]
  have f0 := l0.symm.trans (Schema.of_missing_nil mand (by simp) hm)
  cases m0 <;> first | exact ⟨x, rfl, hh, hv⟩ | contradiction

theorem describes : Describes codec schema fields where
  header_set _ _ := rfl
  fields_set _ _ := rfl
  ext _ _ hh h := ext hh h
  shape x := Aligned.one (fun _ => rfl) <| Aligned.many (fun _ => rfl) <| trivial
  tovec x := by simp [codec, tovec, fields]
  complete h els _ hm := complete h els hm

theorem reports (h : Header) (els : List IE) (hm : schema.missing els ≠ []) :
    ∃ s ∈ schema.missing els, ∃ t, fromvec { dflt with header := h } els = .err (.messageMandatoryIEMissing t) ∧ kindOf t = s.kind := by
  obtain ⟨x, m0, hs, hv, hh, l0⟩ := flags h els
  unfold fromvec
  rw [hs]
  dsimp only [finish]
  cases m0 <;>
    first | exact ⟨_, Schema.mem_missing mand (by simp) l0, _, rfl, rfl⟩ | exact absurd (Schema.missing_nil mand (by simp [l0])) hm

theorem settled (h : Header) (els els' : List IE) (he : ∀ s ∈ schema, s.card.mandatory = true → s.lacks els = s.lacks els')
    (hm : schema.missing els ≠ []) : fromvec { dflt with header := h } els = fromvec { dflt with header := h } els' := by
  obtain ⟨x, m0, hs, hv, hh, l0⟩ := flags h els
  obtain ⟨x', m0', hs', hv', hh', l0'⟩ := flags h els'
  unfold fromvec
  rw [hs, hs']
  obtain rfl := Bool.not_inj (l0.symm.trans ((he _ (by decide) rfl).trans l0'))
  dsimp only [finish]
  cases m0 <;>
    first | rfl | exact absurd (Schema.missing_nil mand (by simp [l0])) hm

end AlertMmeAcknowledge

/-- `AlertMmeNotification` (alertmmenotification.rs:15-18). -/
structure AlertMmeNotification where
  header : Header
  private_ext : List V2.PrivateExtension
deriving DecidableEq

namespace AlertMmeNotification

/-- `default` (alertmmenotification.rs:21-31). -/
def dflt : AlertMmeNotification :=
  { header := { Header.default with msgtype := 153, teid := some 0 }, private_ext := [] }

/-- `tovec` (alertmmenotification.rs:67-75). -/
def tovec (x : AlertMmeNotification) : List IE :=
  x.private_ext.map .PrivateExtension

/-- The variables of `fromvec`: the message and the array `mandatory` (alertmmenotification.rs:77-84). -/
structure St where
  x : AlertMmeNotification

/-- One turn of the loop of `fromvec` (alertmmenotification.rs:77-84). -/
def step (s : St) : IE → St
  | .PrivateExtension j => { s with x := { s.x with private_ext := s.x.private_ext ++ [j] } }
  | _ => s

/-- The end of `fromvec` (alertmmenotification.rs:77-84). -/
def finish (s : St) : R Err AlertMmeNotification :=
  .ok s.x

/-- `fromvec` (alertmmenotification.rs:77-84). -/
def fromvec (x : AlertMmeNotification) (els : List IE) : R Err AlertMmeNotification := finish (els.foldl step ⟨x⟩)

/-- The message type (alertmmenotification.rs:35-65). -/
def codec : Codec AlertMmeNotification :=
  { msgtype := 153, start := some 12, dflt, header := header, setHeader := fun x h => { x with header := h }, tovec, fromvec }

/-- One slot per field. -/
def schema : Schema :=
  [⟨.PrivateExtension, .any, .many⟩]

/-- The fields as lists of IEs. -/
def fields (x : AlertMmeNotification) : List (List IE) :=
  [x.private_ext.map .PrivateExtension]

/-- What the state has collected so far. -/
def St.view (s : St) : List (List IE) :=
  [s.x.private_ext.map .PrivateExtension]

/-- The header is left alone; flags of mandatory lists tell whether the list is empty. -/
def St.Inv (h : Header) (s : St) : Prop :=
  s.x.header = h

theorem step_view (h : Header) (s : St) (e : IE) (hi : s.Inv h) : (step s e).view = Schema.step schema s.view e ∧ (step s e).Inv h := by
  cases e
  case PrivateExtension j =>
    simp only [step]
    all_goals refine ⟨cons_congr ?_ (rfl), ?_⟩
    all_goals first | exact hi | msg_field | (simp_all [St.Inv]; done)
  all_goals exact ⟨(Schema.step_other rfl rfl).symm, hi⟩

theorem loop (h : Header) (els : List IE) :
    (els.foldl step ⟨{ dflt with header := h }⟩).view = schema.map (·.select els) ∧ (els.foldl step ⟨{ dflt with header := h }⟩).Inv h := by
  have := foldl_view (Q := fun _ => True) (fun s e hp _ => step_view h s e hp) els ⟨{ dflt with header := h }⟩ (fun _ _ => trivial) (by simp [St.Inv])
  rw [show St.view ⟨{ dflt with header := h }⟩ = schema.map (fun _ => []) from rfl, Schema.foldl_nil] at this
  exact this

theorem ext {x y : AlertMmeNotification} (hh : x.header = y.header) (h : fields x = fields y) : x = y := by
  cases x; cases y
  simp only at hh
  subst hh
  injection h with h0 h
  cases map_inj (fun _ _ h => IE.PrivateExtension.inj h) h0
  rfl

theorem mand : schema.filter (·.card.mandatory) = [] := rfl

/-- The flags tell which mandatory IEs are absent. -/
theorem flags (h : Header) (els : List IE) : ∃ x , els.foldl step ⟨{ dflt with header := h }⟩ = ⟨x⟩ ∧ St.view ⟨x⟩ = schema.map (·.select els) ∧ x.header = h := by
  obtain ⟨hv, hi⟩ := loop h els
  generalize els.foldl step ⟨{ dflt with header := h }⟩ = s at hv hi ⊢
  obtain ⟨x⟩ := s
  simp only [St.Inv] at hi
  exact ⟨x, rfl, hv, hi⟩

theorem complete (h : Header) (els : List IE) (_hm : schema.missing els = []) : ∃ y, fromvec { dflt with header := h } els = .ok y ∧ y.header = h ∧ fields y = schema.map (·.select els) := by
  obtain ⟨x, hs, hv, hh⟩ := flags h els
  unfold fromvec
  rw [hs]
  exact ⟨x, rfl, hh, hv⟩

theorem describes : Describes codec schema fields where
  header_set _ _ := rfl
  fields_set _ _ := rfl
  ext _ _ hh h := ext hh h
  shape x := Aligned.many (fun _ => rfl) <| trivial
  tovec x := by simp [codec, tovec, fields]
  complete h els _ hm := complete h els hm

end AlertMmeNotification

/-- `BearerResourceCommand` (bearerresourcecommand.rs:15-36). -/
structure BearerResourceCommand where
  header : Header
  linked_ebi : V2.Ebi
  pti : V2.Pti
  flow_qos : Option V2.FlowQos
  tad : Option V2.TrafficAggregateDescription
  rattype : Option V2.RatType
  servingnetwork : Option V2.ServingNetwork
  uli : Option V2.Uli
  ebi : Option V2.Ebi
  indication : Option V2.Indication
  sgsn_fteid : Option V2.Fteid
  rnc_fteid : Option V2.Fteid
  pco : Option V2.Pco
  spi : Option V2.Spi
  overload_info : List V2.OverloadControlInfo
  nbifom : Option V2.Fcontainer
  epco : Option V2.Epco
  fteid_control : Option V2.Fteid
  pscellid : Option V2.PSCellId
  private_ext : List V2.PrivateExtension
deriving DecidableEq

namespace BearerResourceCommand

/-- `default` (bearerresourcecommand.rs:39-67). -/
def dflt : BearerResourceCommand :=
  { header := { Header.default with msgtype := 68, teid := some 0 }, linked_ebi := V2.Ebi.dflt, pti := V2.Pti.dflt, flow_qos := none, tad := none, rattype := none, servingnetwork := none, uli := none, ebi := none, indication := none, sgsn_fteid := none, rnc_fteid := none, pco := none, spi := none, overload_info := [], nbifom := none, epco := none, fteid_control := none, pscellid := none, private_ext := [] }

/-- `tovec` (bearerresourcecommand.rs:103-176). -/
def tovec (x : BearerResourceCommand) : List IE :=
  [.Ebi x.linked_ebi] ++ (
  [.Pti x.pti] ++ (
  optV .FlowQos x.flow_qos ++ (
  optV .TrafficAggregateDescription x.tad ++ (
  optV .RatType x.rattype ++ (
  optV .ServingNetwork x.servingnetwork ++ (
  optV .Uli x.uli ++ (
  optV .Ebi x.ebi ++ (
  optV .Indication x.indication ++ (
  optV .Fteid x.sgsn_fteid ++ (
  optV .Fteid x.rnc_fteid ++ (
  optV .Pco x.pco ++ (
  optV .Spi x.spi ++ (
  x.overload_info.map .OverloadControlInfo ++ (
  optV .Fcontainer x.nbifom ++ (
  optV .Epco x.epco ++ (
  optV .Fteid x.fteid_control ++ (
  optV .PSCellId x.pscellid ++ (
  x.private_ext.map .PrivateExtension))))))))))))))))))

/-- The variables of `fromvec`: the message and the array `mandatory` (bearerresourcecommand.rs:178-275). -/
structure St where
  x : BearerResourceCommand
  m0 : Bool
  m1 : Bool

/-- One turn of the loop of `fromvec` (bearerresourcecommand.rs:178-275). -/
def step (s : St) : IE → St
  | .Ebi j => if j.ins = 0 ∧ s.m0 = false then { s with x := { s.x with linked_ebi := j }, m0 := true } else if j.ins = 1 ∧ s.x.ebi.isNone = true then { s with x := { s.x with ebi := some j } } else s
  | .Pti j => if j.ins = 0 ∧ s.m1 = false then { s with x := { s.x with pti := j }, m1 := true } else s
  | .FlowQos j => if j.ins = 0 ∧ s.x.flow_qos.isNone = true then { s with x := { s.x with flow_qos := some j } } else s
  | .TrafficAggregateDescription j => if j.ins = 0 ∧ s.x.tad.isNone = true then { s with x := { s.x with tad := some j } } else s
  | .RatType j => if j.ins = 0 ∧ s.x.rattype.isNone = true then { s with x := { s.x with rattype := some j } } else s
  | .ServingNetwork j => if j.ins = 0 ∧ s.x.servingnetwork.isNone = true then { s with x := { s.x with servingnetwork := some j } } else s
  | .Uli j => if j.ins = 0 ∧ s.x.uli.isNone = true then { s with x := { s.x with uli := some j } } else s
  | .Indication j => if j.ins = 0 ∧ s.x.indication.isNone = true then { s with x := { s.x with indication := some j } } else s
  | .Fteid j => if j.ins = 0 ∧ s.x.sgsn_fteid.isNone = true then { s with x := { s.x with sgsn_fteid := some j } } else if j.ins = 1 ∧ s.x.rnc_fteid.isNone = true then { s with x := { s.x with rnc_fteid := some j } } else if j.ins = 2 ∧ s.x.fteid_control.isNone = true then { s with x := { s.x with fteid_control := some j } } else s
  | .Pco j => if j.ins = 0 ∧ s.x.pco.isNone = true then { s with x := { s.x with pco := some j } } else s
  | .Spi j => if j.ins = 0 ∧ s.x.spi.isNone = true then { s with x := { s.x with spi := some j } } else s
  | .OverloadControlInfo j => if j.ins < 2 then { s with x := { s.x with overload_info := s.x.overload_info ++ [j] } } else s
  | .Fcontainer j => if j.ins = 0 ∧ s.x.nbifom.isNone = true then { s with x := { s.x with nbifom := some j } } else s
  | .Epco j => if j.ins = 0 ∧ s.x.epco.isNone = true then { s with x := { s.x with epco := some j } } else s
  | .PSCellId j => if j.ins = 0 ∧ s.x.pscellid.isNone = true then { s with x := { s.x with pscellid := some j } } else s
  | .PrivateExtension j => { s with x := { s.x with private_ext := s.x.private_ext ++ [j] } }
  | _ => s

/-- The end of `fromvec` (bearerresourcecommand.rs:178-275). -/
def finish (s : St) : R Err BearerResourceCommand :=
  match s.m0, s.m1 with
  | false, _ => .err (.messageMandatoryIEMissing 73)
  | _, false => .err (.messageMandatoryIEMissing 100)
  | true, true => .ok s.x

/-- `fromvec` (bearerresourcecommand.rs:178-275). -/
def fromvec (x : BearerResourceCommand) (els : List IE) : R Err BearerResourceCommand := finish (els.foldl step ⟨x, false, false⟩)

/-- The message type (bearerresourcecommand.rs:71-101). -/
def codec : Codec BearerResourceCommand :=
  { msgtype := 68, start := some 12, dflt, header := header, setHeader := fun x h => { x with header := h }, tovec, fromvec }

/-- One slot per field. -/
def schema : Schema :=
  [⟨.Ebi, .is 0, .one⟩,
   ⟨.Pti, .is 0, .one⟩,
   ⟨.FlowQos, .is 0, .opt⟩,
   ⟨.TrafficAggregateDescription, .is 0, .opt⟩,
   ⟨.RatType, .is 0, .opt⟩,
   ⟨.ServingNetwork, .is 0, .opt⟩,
   ⟨.Uli, .is 0, .opt⟩,
   ⟨.Ebi, .is 1, .opt⟩,
   ⟨.Indication, .is 0, .opt⟩,
   ⟨.Fteid, .is 0, .opt⟩,
   ⟨.Fteid, .is 1, .opt⟩,
   ⟨.Pco, .is 0, .opt⟩,
   ⟨.Spi, .is 0, .opt⟩,
   ⟨.OverloadControlInfo, .lt 2, .many⟩,
   ⟨.Fcontainer, .is 0, .opt⟩,
   ⟨.Epco, .is 0, .opt⟩,
   ⟨.Fteid, .is 2, .opt⟩,
   ⟨.PSCellId, .is 0, .opt⟩,
   ⟨.PrivateExtension, .any, .many⟩]

/-- The fields as lists of IEs. -/
def fields (x : BearerResourceCommand) : List (List IE) :=
  [[.Ebi x.linked_ebi],
   [.Pti x.pti],
   optV .FlowQos x.flow_qos,
   optV .TrafficAggregateDescription x.tad,
   optV .RatType x.rattype,
   optV .ServingNetwork x.servingnetwork,
   optV .Uli x.uli,
   optV .Ebi x.ebi,
   optV .Indication x.indication,
   optV .Fteid x.sgsn_fteid,
   optV .Fteid x.rnc_fteid,
   optV .Pco x.pco,
   optV .Spi x.spi,
   x.overload_info.map .OverloadControlInfo,
   optV .Fcontainer x.nbifom,
   optV .Epco x.epco,
   optV .Fteid x.fteid_control,
   optV .PSCellId x.pscellid,
   x.private_ext.map .PrivateExtension]

/-- What the state has collected so far. -/
def St.view (s : St) : List (List IE) :=
  [if s.m0 then [.Ebi s.x.linked_ebi] else [],
   if s.m1 then [.Pti s.x.pti] else [],
   optV .FlowQos s.x.flow_qos,
   optV .TrafficAggregateDescription s.x.tad,
   optV .RatType s.x.rattype,
   optV .ServingNetwork s.x.servingnetwork,
   optV .Uli s.x.uli,
   optV .Ebi s.x.ebi,
   optV .Indication s.x.indication,
   optV .Fteid s.x.sgsn_fteid,
   optV .Fteid s.x.rnc_fteid,
   optV .Pco s.x.pco,
   optV .Spi s.x.spi,
   s.x.overload_info.map .OverloadControlInfo,
   optV .Fcontainer s.x.nbifom,
   optV .Epco s.x.epco,
   optV .Fteid s.x.fteid_control,
   optV .PSCellId s.x.pscellid,
   s.x.private_ext.map .PrivateExtension]

/-- The header is left alone; flags of mandatory lists tell whether the list is empty. -/
def St.Inv (h : Header) (s : St) : Prop :=
  s.x.header = h

theorem step_view (h : Header) (s : St) (e : IE) (hi : s.Inv h) : (step s e).view = Schema.step schema s.view e ∧ (step s e).Inv h := by
  cases e
  case Ebi j =>
    simp only [step]
    repeat' split
    all_goals refine ⟨cons_congr ?_ (cons_congr (Slot.step_ne rfl).symm (cons_congr (Slot.step_ne rfl).symm (cons_congr (Slot.step_ne rfl).symm (cons_congr (Slot.step_ne rfl).symm (cons_congr (Slot.step_ne rfl).symm (cons_congr (Slot.step_ne rfl).symm (cons_congr ?_ ((Schema.step_other rfl rfl).symm)))))))), ?_⟩
    all_goals first | exact hi | msg_field | (simp_all [St.Inv]; done)
  case Pti j =>
    simp only [step]
    repeat' split
    all_goals refine ⟨cons_congr (Slot.step_ne rfl).symm (cons_congr ?_ ((Schema.step_other rfl rfl).symm)), ?_⟩
    all_goals first | exact hi | msg_field | (simp_all [St.Inv]; done)
  case FlowQos j =>
    simp only [step]
    repeat' split
    all_goals refine ⟨cons_congr (Slot.step_ne rfl).symm (cons_congr (Slot.step_ne rfl).symm (cons_congr ?_ ((Schema.step_other rfl rfl).symm))), ?_⟩
    all_goals first | exact hi | msg_field | (simp_all [St.Inv]; done)
  case TrafficAggregateDescription j =>
    simp only [step]
    repeat' split
    all_goals refine ⟨cons_congr (Slot.step_ne rfl).symm (cons_congr (Slot.step_ne rfl).symm (cons_congr (Slot.step_ne rfl).symm (cons_congr ?_ ((Schema.step_other rfl rfl).symm)))), ?_⟩
    all_goals first | exact hi | msg_field | (simp_all [St.Inv]; done)
  case RatType j =>
    simp only [step]
    repeat' split
    all_goals refine ⟨cons_congr (Slot.step_ne rfl).symm (cons_congr (Slot.step_ne rfl).symm (cons_congr (Slot.step_ne rfl).symm (cons_congr (Slot.step_ne rfl).symm (cons_congr ?_ ((Schema.step_other rfl rfl).symm))))), ?_⟩
    all_goals first | exact hi | msg_field | (simp_all [St.Inv]; done)
  case ServingNetwork j =>
    simp only [step]
    repeat' split
    all_goals refine ⟨cons_congr (Slot.step_ne rfl).symm (cons_congr (Slot.step_ne rfl).symm (cons_congr (Slot.step_ne rfl).symm (cons_congr (Slot.step_ne rfl).symm (cons_congr (Slot.step_ne rfl).symm (cons_congr ?_ ((Schema.step_other rfl rfl).symm)))))), ?_⟩
    all_goals first | exact hi | msg_field | (simp_all [St.Inv]; done)
  case Uli j =>
    simp only [step]
    repeat' split
    all_goals refine ⟨cons_congr (Slot.step_ne rfl).symm (cons_congr (Slot.step_ne rfl).symm (cons_congr (Slot.step_ne rfl).symm (cons_congr (Slot.step_ne rfl).symm (cons_congr (Slot.step_ne rfl).symm (cons_congr (Slot.step_ne rfl).symm (cons_congr ?_ ((Schema.step_other rfl rfl).symm))))))), ?_⟩
    all_goals first | exact hi | msg_field | (simp_all [St.Inv]; done)
  case Indication j =>
    simp only [step]
    repeat' split
    all_goals refine ⟨cons_congr (Slot.step_ne rfl).symm (cons_congr (Slot.step_ne rfl).symm (cons_congr (Slot.step_ne rfl).symm (cons_congr (Slot.step_ne rfl).symm (cons_congr (Slot.step_ne rfl).symm (cons_congr (Slot.step_ne rfl).symm (cons_congr (Slot.step_ne rfl).symm (cons_congr (Slot.step_ne rfl).symm (cons_congr ?_ ((Schema.step_other rfl rfl).symm))))))))), ?_⟩
    all_goals first | exact hi | msg_field | (simp_all [St.Inv]; done)
  case Fteid j =>
    simp only [step]
    repeat' split
    all_goals refine ⟨cons_congr (Slot.step_ne rfl).symm (cons_congr (Slot.step_ne rfl).symm (cons_congr (Slot.step_ne rfl).symm (cons_congr (Slot.step_ne rfl).symm (cons_congr (Slot.step_ne rfl).symm (cons_congr (Slot.step_ne rfl).symm (cons_congr (Slot.step_ne rfl).symm (cons_congr (Slot.step_ne rfl).symm (cons_congr (Slot.step_ne rfl).symm (cons_congr ?_ (cons_congr ?_ (cons_congr (Slot.step_ne rfl).symm (cons_congr (Slot.step_ne rfl).symm (cons_congr (Slot.step_ne rfl).symm (cons_congr (Slot.step_ne rfl).symm (cons_congr (Slot.step_ne rfl).symm (cons_congr ?_ ((Schema.step_other rfl rfl).symm))))))))))))))))), ?_⟩
    all_goals first | exact hi | msg_field | (simp_all [St.Inv]; done)
  case Pco j =>
    simp only [step]
    repeat' split
    all_goals refine ⟨cons_congr (Slot.step_ne rfl).symm (cons_congr (Slot.step_ne rfl).symm (cons_congr (Slot.step_ne rfl).symm (cons_congr (Slot.step_ne rfl).symm (cons_congr (Slot.step_ne rfl).symm (cons_congr (Slot.step_ne rfl).symm (cons_congr (Slot.step_ne rfl).symm (cons_congr (Slot.step_ne rfl).symm (cons_congr (Slot.step_ne rfl).symm (cons_congr (Slot.step_ne rfl).symm (cons_congr (Slot.step_ne rfl).symm (cons_congr ?_ ((Schema.step_other rfl rfl).symm)))))))))))), ?_⟩
    all_goals first | exact hi | msg_field | (simp_all [St.Inv]; done)
  case Spi j =>
    simp only [step]
    repeat' split
    all_goals refine ⟨cons_congr (Slot.step_ne rfl).symm (cons_congr (Slot.step_ne rfl).symm (cons_congr (Slot.step_ne rfl).symm (cons_congr (Slot.step_ne rfl).symm (cons_congr (Slot.step_ne rfl).symm (cons_congr (Slot.step_ne rfl).symm (cons_congr (Slot.step_ne rfl).symm (cons_congr (Slot.step_ne rfl).symm (cons_congr (Slot.step_ne rfl).symm (cons_congr (Slot.step_ne rfl).symm (cons_congr (Slot.step_ne rfl).symm (cons_congr (Slot.step_ne rfl).symm (cons_congr ?_ ((Schema.step_other rfl rfl).symm))))))))))))), ?_⟩
    all_goals first | exact hi | msg_field | (simp_all [St.Inv]; done)
  case OverloadControlInfo j =>
    simp only [step]
    repeat' split
    all_goals refine ⟨cons_congr (Slot.step_ne rfl).symm (cons_congr (Slot.step_ne rfl).symm (cons_congr (Slot.step_ne rfl).symm (cons_congr (Slot.step_ne rfl).symm (cons_congr (Slot.step_ne rfl).symm (cons_congr (Slot.step_ne rfl).symm (cons_congr (Slot.step_ne rfl).symm (cons_congr (Slot.step_ne rfl).symm (cons_congr (Slot.step_ne rfl).symm (cons_congr (Slot.step_ne rfl).symm (cons_congr (Slot.step_ne rfl).symm (cons_congr (Slot.step_ne rfl).symm (cons_congr (Slot.step_ne rfl).symm (cons_congr ?_ ((Schema.step_other rfl rfl).symm)))))))))))))), ?_⟩
    all_goals first | exact hi | msg_field | (simp_all [St.Inv]; done)
  case Fcontainer j =>
    simp only [step]
    repeat' split
    all_goals refine ⟨cons_congr (Slot.step_ne rfl).symm (cons_congr (Slot.step_ne rfl).symm (cons_congr (Slot.step_ne rfl).symm (cons_congr (Slot.step_ne rfl).symm (cons_congr (Slot.step_ne rfl).symm (cons_congr (Slot.step_ne rfl).symm (cons_congr (Slot.step_ne rfl).symm (cons_congr (Slot.step_ne rfl).symm (cons_congr (Slot.step_ne rfl).symm (cons_congr (Slot.step_ne rfl).symm (cons_congr (Slot.step_ne rfl).symm (cons_congr (Slot.step_ne rfl).symm (cons_congr (Slot.step_ne rfl).symm (cons_congr (Slot.step_ne rfl).symm (cons_congr ?_ ((Schema.step_other rfl rfl).symm))))))))))))))), ?_⟩
    all_goals first | exact hi | msg_field | (simp_all [St.Inv]; done)
  case Epco j =>
    simp only [step]
    repeat' split
    all_goals refine ⟨cons_congr (Slot.step_ne rfl).symm (cons_congr (Slot.step_ne rfl).symm (cons_congr (Slot.step_ne rfl).symm (cons_congr (Slot.step_ne rfl).symm (cons_congr (Slot.step_ne rfl).symm (cons_congr (Slot.step_ne rfl).symm (cons_congr (Slot.step_ne rfl).symm (cons_congr (Slot.step_ne rfl).symm (cons_congr (Slot.step_ne rfl).symm (cons_congr (Slot.step_ne rfl).symm (cons_congr (Slot.step_ne rfl).symm (cons_congr (Slot.step_ne rfl).symm (cons_congr (Slot.step_ne rfl).symm (cons_congr (Slot.step_ne rfl).symm (cons_congr (Slot.step_ne rfl).symm (cons_congr ?_ ((Schema.step_other rfl rfl).symm)))))))))))))))), ?_⟩
    all_goals first | exact hi | msg_field | (simp_all [St.Inv]; done)
  case PSCellId j =>
    simp only [step]
    repeat' split
    all_goals refine ⟨cons_congr (Slot.step_ne rfl).symm (cons_congr (Slot.step_ne rfl).symm (cons_congr (Slot.step_ne rfl).symm (cons_congr (Slot.step_ne rfl).symm (cons_congr (Slot.step_ne rfl).symm (cons_congr (Slot.step_ne rfl).symm (cons_congr (Slot.step_ne rfl).symm (cons_congr (Slot.step_ne rfl).symm (cons_congr (Slot.step_ne rfl).symm (cons_congr (Slot.step_ne rfl).symm (cons_congr (Slot.step_ne rfl).symm (cons_congr (Slot.step_ne rfl).symm (cons_congr (Slot.step_ne rfl).symm (cons_congr (Slot.step_ne rfl).symm (cons_congr (Slot.step_ne rfl).symm (cons_congr (Slot.step_ne rfl).symm (cons_congr (Slot.step_ne rfl).symm (cons_congr ?_ ((Schema.step_other rfl rfl).symm)))))))))))))))))), ?_⟩
    all_goals first | exact hi | msg_field | (simp_all [St.Inv]; done)
  case PrivateExtension j =>
    simp only [step]
    all_goals refine ⟨cons_congr (Slot.step_ne rfl).symm (cons_congr (Slot.step_ne rfl).symm (cons_congr (Slot.step_ne rfl).symm (cons_congr (Slot.step_ne rfl).symm (cons_congr (Slot.step_ne rfl).symm (cons_congr (Slot.step_ne rfl).symm (cons_congr (Slot.step_ne rfl).symm (cons_congr (Slot.step_ne rfl).symm (cons_congr (Slot.step_ne rfl).symm (cons_congr (Slot.step_ne rfl).symm (cons_congr (Slot.step_ne rfl).symm (cons_congr (Slot.step_ne rfl).symm (cons_congr (Slot.step_ne rfl).symm (cons_congr (Slot.step_ne rfl).symm (cons_congr (Slot.step_ne rfl).symm (cons_congr (Slot.step_ne rfl).symm (cons_congr (Slot.step_ne rfl).symm (cons_congr (Slot.step_ne rfl).symm (cons_congr ?_ (rfl))))))))))))))))))), ?_⟩
    all_goals first | exact hi | msg_field | (simp_all [St.Inv]; done)
  all_goals exact ⟨(Schema.step_other rfl rfl).symm, hi⟩

theorem loop (h : Header) (els : List IE) :
    (els.foldl step ⟨{ dflt with header := h }, false, false⟩).view = schema.map (·.select els) ∧ (els.foldl step ⟨{ dflt with header := h }, false, false⟩).Inv h := by
  have := foldl_view (Q := fun _ => True) (fun s e hp _ => step_view h s e hp) els ⟨{ dflt with header := h }, false, false⟩ (fun _ _ => trivial) (by simp [St.Inv])
  rw [show St.view ⟨{ dflt with header := h }, false, false⟩ = schema.map (fun _ => []) from rfl, Schema.foldl_nil] at this
  exact this

theorem ext {x y : BearerResourceCommand} (hh : x.header = y.header) (h : fields x = fields y) : x = y := by
  cases x; cases y
  simp only at hh
  subst hh
  injection h with h0 h
  cases h0
  injection h with h1 h
  cases h1
  injection h with h2 h
  cases optV_inj (fun _ _ h => IE.FlowQos.inj h) h2
  injection h with h3 h
  cases optV_inj (fun _ _ h => IE.TrafficAggregateDescription.inj h) h3
  injection h with h4 h
  cases optV_inj (fun _ _ h => IE.RatType.inj h) h4
  injection h with h5 h
  cases optV_inj (fun _ _ h => IE.ServingNetwork.inj h) h5
  injection h with h6 h
  cases optV_inj (fun _ _ h => IE.Uli.inj h) h6
  injection h with h7 h
  cases optV_inj (fun _ _ h => IE.Ebi.inj h) h7
  injection h with h8 h
  cases optV_inj (fun _ _ h => IE.Indication.inj h) h8
  injection h with h9 h
  cases optV_inj (fun _ _ h => IE.Fteid.inj h) h9
  injection h with h10 h
  cases optV_inj (fun _ _ h => IE.Fteid.inj h) h10
  injection h with h11 h
  cases optV_inj (fun _ _ h => IE.Pco.inj h) h11
  injection h with h12 h
  cases optV_inj (fun _ _ h => IE.Spi.inj h) h12
  injection h with h13 h
  cases map_inj (fun _ _ h => IE.OverloadControlInfo.inj h) h13
  injection h with h14 h
  cases optV_inj (fun _ _ h => IE.Fcontainer.inj h) h14
  injection h with h15 h
  cases optV_inj (fun _ _ h => IE.Epco.inj h) h15
  injection h with h16 h
  cases optV_inj (fun _ _ h => IE.Fteid.inj h) h16
  injection h with h17 h
  cases optV_inj (fun _ _ h => IE.PSCellId.inj h) h17
  injection h with h18 h
  cases map_inj (fun _ _ h => IE.PrivateExtension.inj h) h18
  rfl

theorem mand : schema.filter (·.card.mandatory) = [(⟨.Ebi, .is 0, .one⟩ : Slot), (⟨.Pti, .is 0, .one⟩ : Slot)] := rfl

/-- The flags tell which mandatory IEs are absent. -/
theorem flags (h : Header) (els : List IE) : ∃ x m0 m1, els.foldl step ⟨{ dflt with header := h }, false, false⟩ = ⟨x, m0, m1⟩ ∧ St.view ⟨x, m0, m1⟩ = schema.map (·.select els) ∧ x.header = h ∧
    (⟨.Ebi, .is 0, .one⟩ : Slot).lacks els = (!m0) ∧
    (⟨.Pti, .is 0, .one⟩ : Slot).lacks els = (!m1) := by
  obtain ⟨hv, hi⟩ := loop h els
  generalize els.foldl step ⟨{ dflt with header := h }, false, false⟩ = s at hv hi ⊢
  obtain ⟨x, m0, m1⟩ := s
  simp only [St.Inv] at hi
  have l0 : (⟨.Ebi, .is 0, .one⟩ : Slot).lacks els = (!m0) := by
    rw [Slot.lacks_eq els rfl]
    have e := congrArg (fun l => l.getD 0 []) hv
    rw [show (⟨.Ebi, .is 0, .one⟩ : Slot).select els = if m0 then [.Ebi x.linked_ebi] else [] from e.symm]
    cases m0 <;> rfl
  have l1 : (⟨.Pti, .is 0, .one⟩ : Slot).lacks els = (!m1) := by
    rw [Slot.lacks_eq els rfl]
    have e := congrArg (fun l => l.getD 1 []) hv
    rw [show (⟨.Pti, .is 0, .one⟩ : Slot).select els = if m1 then [.Pti x.pti] else [] from e.symm]
    cases m1 <;> rfl
  exact ⟨x, m0, m1, rfl, hv, hi, l0, l1⟩

theorem complete (h : Header) (els : List IE) (hm : schema.missing els = []) : ∃ y, fromvec { dflt with header := h } els = .ok y ∧ y.header = h ∧ fields y = schema.map (·.select els) := by
  obtain ⟨x, m0, m1, hs, hv, hh, l0, l1⟩ := flags h els
  unfold fromvec
  rw [hs]
  dsimp only [finish]
  have f0 := l0.symm.trans (Schema.of_missing_nil mand (by simp) hm)
  have f1 := l1.symm.trans (Schema.of_missing_nil mand (by simp) hm)
  cases m0 <;> cases m1 <;> first | exact ⟨x, rfl, hh, hv⟩ | contradiction

theorem describes : Describes codec schema fields where
  header_set _ _ := rfl
  fields_set _ _ := rfl
  ext _ _ hh h := ext hh h
  shape x := Aligned.one (fun _ => rfl) <| Aligned.one (fun _ => rfl) <| Aligned.opt (fun _ => rfl) <| Aligned.opt (fun _ => rfl) <| Aligned.opt (fun _ => rfl) <| Aligned.opt (fun _ => rfl) <| Aligned.opt (fun _ => rfl) <| Aligned.opt (fun _ => rfl) <| Aligned.opt (fun _ => rfl) <| Aligned.opt (fun _ => rfl) <| Aligned.opt (fun _ => rfl) <| Aligned.opt (fun _ => rfl) <| Aligned.opt (fun _ => rfl) <| Aligned.many (fun _ => rfl) <| Aligned.opt (fun _ => rfl) <| Aligned.opt (fun _ => rfl) <| Aligned.opt (fun _ => rfl) <| Aligned.opt (fun _ => rfl) <| Aligned.many (fun _ => rfl) <| trivial
  tovec x := by simp [codec, tovec, fields]
  complete h els _ hm := complete h els hm

theorem reports (h : Header) (els : List IE) (hm : schema.missing els ≠ []) :
    ∃ s ∈ schema.missing els, ∃ t, fromvec { dflt with header := h } els = .err (.messageMandatoryIEMissing t) ∧ kindOf t = s.kind := by
  obtain ⟨x, m0, m1, hs, hv, hh, l0, l1⟩ := flags h els
  unfold fromvec
  rw [hs]
  dsimp only [finish]
  cases m0 <;> cases m1 <;>
    first | exact ⟨_, Schema.mem_missing mand (by simp) l0, _, rfl, rfl⟩ | exact ⟨_, Schema.mem_missing mand (by simp) l1, _, rfl, rfl⟩ | exact absurd (Schema.missing_nil mand (by simp [l0, l1])) hm

theorem settled (h : Header) (els els' : List IE) (he : ∀ s ∈ schema, s.card.mandatory = true → s.lacks els = s.lacks els')
    (hm : schema.missing els ≠ []) : fromvec { dflt with header := h } els = fromvec { dflt with header := h } els' := by
  obtain ⟨x, m0, m1, hs, hv, hh, l0, l1⟩ := flags h els
  obtain ⟨x', m0', m1', hs', hv', hh', l0', l1'⟩ := flags h els'
  unfold fromvec
  rw [hs, hs']
  obtain rfl := Bool.not_inj (l0.symm.trans ((he _ (by decide) rfl).trans l0'))
  obtain rfl := Bool.not_inj (l1.symm.trans ((he _ (by decide) rfl).trans l1'))
  dsimp only [finish]
  cases m0 <;> cases m1 <;>
    first | rfl | exact absurd (Schema.missing_nil mand (by simp [l0, l1])) hm

end BearerResourceCommand

/-- `BearerResourceFailureInd` (bearerresourcefailureind.rs:15-25). -/
structure BearerResourceFailureInd where
  header : Header
  cause : V2.Cause
  linked_ebi : V2.Ebi
  pti : V2.Pti
  indication : Option V2.Indication
  overload_info : List V2.OverloadControlInfo
  recovery : Option V2.Recovery
  nbifom : Option V2.Fcontainer
  private_ext : List V2.PrivateExtension
deriving DecidableEq

namespace BearerResourceFailureInd

/-- `default` (bearerresourcefailureind.rs:28-45). -/
def dflt : BearerResourceFailureInd :=
  { header := { Header.default with msgtype := 69, teid := some 0 }, cause := V2.Cause.dflt, linked_ebi := V2.Ebi.dflt, pti := V2.Pti.dflt, indication := none, overload_info := [], recovery := none, nbifom := none, private_ext := [] }

/-- `tovec` (bearerresourcefailureind.rs:82-111). -/
def tovec (x : BearerResourceFailureInd) : List IE :=
  [.Cause x.cause] ++ (
  [.Ebi x.linked_ebi] ++ (
  [.Pti x.pti] ++ (
  optV .Indication x.indication ++ (
  x.overload_info.map .OverloadControlInfo ++ (
  optV .Recovery x.recovery ++ (
  optV .Fcontainer x.nbifom ++ (
  x.private_ext.map .PrivateExtension)))))))

/-- The variables of `fromvec`: the message and the array `mandatory` (bearerresourcefailureind.rs:113-162). -/
structure St where
  x : BearerResourceFailureInd
  m0 : Bool
  m1 : Bool
  m2 : Bool

/-- One turn of the loop of `fromvec` (bearerresourcefailureind.rs:113-162). -/
def step (s : St) : IE → St
  | .Cause j => if j.ins = 0 ∧ s.m0 = false then { s with x := { s.x with cause := j }, m0 := true } else s
  | .Ebi j => if j.ins = 0 ∧ s.m1 = false then { s with x := { s.x with linked_ebi := j }, m1 := true } else s
  | .Pti j => if j.ins = 0 ∧ s.m2 = false then { s with x := { s.x with pti := j }, m2 := true } else s
  | .Indication j => if j.ins = 0 ∧ s.x.indication.isNone = true then { s with x := { s.x with indication := some j } } else s
  | .OverloadControlInfo j => if j.ins < 2 then { s with x := { s.x with overload_info := s.x.overload_info ++ [j] } } else s
  | .Recovery j => if j.ins = 0 ∧ s.x.recovery.isNone = true then { s with x := { s.x with recovery := some j } } else s
  | .Fcontainer j => if j.ins = 0 ∧ s.x.nbifom.isNone = true then { s with x := { s.x with nbifom := some j } } else s
  | .PrivateExtension j => { s with x := { s.x with private_ext := s.x.private_ext ++ [j] } }
  | _ => s

/-- The end of `fromvec` (bearerresourcefailureind.rs:113-162). -/
def finish (s : St) : R Err BearerResourceFailureInd :=
  match s.m0, s.m1, s.m2 with
  | false, _, _ => .err (.messageMandatoryIEMissing 2)
  | true, false, _ => .err (.messageMandatoryIEMissing 73)
  | true, true, false => .err (.messageMandatoryIEMissing 100)
  | true, true, true => .ok s.x

/-- `fromvec` (bearerresourcefailureind.rs:113-162). -/
def fromvec (x : BearerResourceFailureInd) (els : List IE) : R Err BearerResourceFailureInd := finish (els.foldl step ⟨x, false, false, false⟩)

/-- The message type (bearerresourcefailureind.rs:49-80). -/
def codec : Codec BearerResourceFailureInd :=
  { msgtype := 69, start := some 12, dflt, header := header, setHeader := fun x h => { x with header := h }, tovec, fromvec }

/-- One slot per field. -/
def schema : Schema :=
  [⟨.Cause, .is 0, .one⟩,
   ⟨.Ebi, .is 0, .one⟩,
   ⟨.Pti, .is 0, .one⟩,
   ⟨.Indication, .is 0, .opt⟩,
   ⟨.OverloadControlInfo, .lt 2, .many⟩,
   ⟨.Recovery, .is 0, .opt⟩,
   ⟨.Fcontainer, .is 0, .opt⟩,
   ⟨.PrivateExtension, .any, .many⟩]

/-- The fields as lists of IEs. -/
def fields (x : BearerResourceFailureInd) : List (List IE) :=
  [[.Cause x.cause],
   [.Ebi x.linked_ebi],
   [.Pti x.pti],
   optV .Indication x.indication,
   x.overload_info.map .OverloadControlInfo,
   optV .Recovery x.recovery,
   optV .Fcontainer x.nbifom,
   x.private_ext.map .PrivateExtension]

/-- What the state has collected so far. -/
def St.view (s : St) : List (List IE) :=
  [if s.m0 then [.Cause s.x.cause] else [],
   if s.m1 then [.Ebi s.x.linked_ebi] else [],
   if s.m2 then [.Pti s.x.pti] else [],
   optV .Indication s.x.indication,
   s.x.overload_info.map .OverloadControlInfo,
   optV .Recovery s.x.recovery,
   optV .Fcontainer s.x.nbifom,
   s.x.private_ext.map .PrivateExtension]

/-- The header is left alone; flags of mandatory lists tell whether the list is empty. -/
def St.Inv (h : Header) (s : St) : Prop :=
  s.x.header = h

theorem step_view (h : Header) (s : St) (e : IE) (hi : s.Inv h) : (step s e).view = Schema.step schema s.view e ∧ (step s e).Inv h := by
  cases e
  case Cause j =>
    simp only [step]
    repeat' split
    all_goals refine ⟨cons_congr ?_ ((Schema.step_other rfl rfl).symm), ?_⟩
    all_goals first | exact hi | msg_field | (simp_all [St.Inv]; done)
  case Ebi j =>
    simp only [step]
    repeat' split
    all_goals refine ⟨cons_congr (Slot.step_ne rfl).symm (cons_congr ?_ ((Schema.step_other rfl rfl).symm)), ?_⟩
    all_goals first | exact hi | msg_field | (simp_all [St.Inv]; done)
  case Pti j =>
    simp only [step]
    repeat' split
    all_goals refine ⟨cons_congr (Slot.step_ne rfl).symm (cons_congr (Slot.step_ne rfl).symm (cons_congr ?_ ((Schema.step_other rfl rfl).symm))), ?_⟩
    all_goals first | exact hi | msg_field | (simp_all [St.Inv]; done)
  case Indication j =>
    simp only [step]
    repeat' split
    all_goals refine ⟨cons_congr (Slot.step_ne rfl).symm (cons_congr (Slot.step_ne rfl).symm (cons_congr (Slot.step_ne rfl).symm (cons_congr ?_ ((Schema.step_other rfl rfl).symm)))), ?_⟩
    all_goals first | exact hi | msg_field | (simp_all [St.Inv]; done)
  case OverloadControlInfo j =>
    simp only [step]
    repeat' split
    all_goals refine ⟨cons_congr (Slot.step_ne rfl).symm (cons_congr (Slot.step_ne rfl).symm (cons_congr (Slot.step_ne rfl).symm (cons_congr (Slot.step_ne rfl).symm (cons_congr ?_ ((Schema.step_other rfl rfl).symm))))), ?_⟩
    all_goals first | exact hi | msg_field | (simp_all [St.Inv]; done)
  case Recovery j =>
    simp only [step]
    repeat' split
    all_goals refine ⟨cons_congr (Slot.step_ne rfl).symm (cons_congr (Slot.step_ne rfl).symm (cons_congr (Slot.step_ne rfl).symm (cons_congr (Slot.step_ne rfl).symm (cons_congr (Slot.step_ne rfl).symm (cons_congr ?_ ((Schema.step_other rfl rfl).symm)))))), ?_⟩
    all_goals first | exact hi | msg_field | (simp_all [St.Inv]; done)
  case Fcontainer j =>
    simp only [step]
    repeat' split
    all_goals refine ⟨cons_congr (Slot.step_ne rfl).symm (cons_congr (Slot.step_ne rfl).symm (cons_congr (Slot.step_ne rfl).symm (cons_congr (Slot.step_ne rfl).symm (cons_congr (Slot.step_ne rfl).symm (cons_congr (Slot.step_ne rfl).symm (cons_congr ?_ ((Schema.step_other rfl rfl).symm))))))), ?_⟩
    all_goals first | exact hi | msg_field | (simp_all [St.Inv]; done)
  case PrivateExtension j =>
    simp only [step]
    all_goals refine ⟨cons_congr (Slot.step_ne rfl).symm (cons_congr (Slot.step_ne rfl).symm (cons_congr (Slot.step_ne rfl).symm (cons_congr (Slot.step_ne rfl).symm (cons_congr (Slot.step_ne rfl).symm (cons_congr (Slot.step_ne rfl).symm (cons_congr (Slot.step_ne rfl).symm (cons_congr ?_ (rfl)))))))), ?_⟩
    all_goals first | exact hi | msg_field | (simp_all [St.Inv]; done)
  all_goals exact ⟨(Schema.step_other rfl rfl).symm, hi⟩

theorem loop (h : Header) (els : List IE) :
    (els.foldl step ⟨{ dflt with header := h }, false, false, false⟩).view = schema.map (·.select els) ∧ (els.foldl step ⟨{ dflt with header := h }, false, false, false⟩).Inv h := by
  have := foldl_view (Q := fun _ => True) (fun s e hp _ => step_view h s e hp) els ⟨{ dflt with header := h }, false, false, false⟩ (fun _ _ => trivial) (by simp [St.Inv])
  rw [show St.view ⟨{ dflt with header := h }, false, false, false⟩ = schema.map (fun _ => []) from rfl, Schema.foldl_nil] at this
  exact this

theorem ext {x y : BearerResourceFailureInd} (hh : x.header = y.header) (h : fields x = fields y) : x = y := by
  cases x; cases y
  simp only at hh
  subst hh
  injection h with h0 h
  cases h0
  injection h with h1 h
  cases h1
  injection h with h2 h
  cases h2
  injection h with h3 h
  cases optV_inj (fun _ _ h => IE.Indication.inj h) h3
  injection h with h4 h
  cases map_inj (fun _ _ h => IE.OverloadControlInfo.inj h) h4
  injection h with h5 h
  cases optV_inj (fun _ _ h => IE.Recovery.inj h) h5
  injection h with h6 h
  cases optV_inj (fun _ _ h => IE.Fcontainer.inj h) h6
  injection h with h7 h
  cases map_inj (fun _ _ h => IE.PrivateExtension.inj h) h7
  rfl

theorem mand : schema.filter (·.card.mandatory) = [(⟨.Cause, .is 0, .one⟩ : Slot), (⟨.Ebi, .is 0, .one⟩ : Slot), (⟨.Pti, .is 0, .one⟩ : Slot)] := rfl

/-- The flags tell which mandatory IEs are absent. -/
theorem flags (h : Header) (els : List IE) : ∃ x m0 m1 m2, els.foldl step ⟨{ dflt with header := h }, false, false, false⟩ = ⟨x, m0, m1, m2⟩ ∧ St.view ⟨x, m0, m1, m2⟩ = schema.map (·.select els) ∧ x.header = h ∧
    (⟨.Cause, .is 0, .one⟩ : Slot).lacks els = (!m0) ∧
    (⟨.Ebi, .is 0, .one⟩ : Slot).lacks els = (!m1) ∧
    (⟨.Pti, .is 0, .one⟩ : Slot).lacks els = (!m2) := by
  obtain ⟨hv, hi⟩ := loop h els
  generalize els.foldl step ⟨{ dflt with header := h }, false, false, false⟩ = s at hv hi ⊢
  obtain ⟨x, m0, m1, m2⟩ := s
  simp only [St.Inv] at hi
  have l0 : (⟨.Cause, .is 0, .one⟩ : Slot).lacks els = (!m0) := by
    rw [Slot.lacks_eq els rfl]
    have e := congrArg (fun l => l.getD 0 []) hv
    rw [show (⟨.Cause, .is 0, .one⟩ : Slot).select els = if m0 then [.Cause x.cause] else [] from e.symm]
    cases m0 <;> rfl
  have l1 : (⟨.Ebi, .is 0, .one⟩ : Slot).lacks els = (!m1) := by
    rw [Slot.lacks_eq els rfl]
    have e := congrArg (fun l => l.getD 1 []) hv
    rw [show (⟨.Ebi, .is 0, .one⟩ : Slot).select els = if m1 then [.Ebi x.linked_ebi] else [] from e.symm]
    cases m1 <;> rfl
  have l2 : (⟨.Pti, .is 0, .one⟩ : Slot).lacks els = (!m2) := by
    rw [Slot.lacks_eq els rfl]
    have e := congrArg (fun l => l.getD 2 []) hv
    rw [show (⟨.Pti, .is 0, .one⟩ : Slot).select els = if m2 then [.Pti x.pti] else [] from e.symm]
    cases m2 <;> rfl
  exact ⟨x, m0, m1, m2, rfl, hv, hi, l0, l1, l2⟩

theorem complete (h : Header) (els : List IE) (hm : schema.missing els = []) : ∃ y, fromvec { dflt with header := h } els = .ok y ∧ y.header = h ∧ fields y = schema.map (·.select els) := by
  obtain ⟨x, m0, m1, m2, hs, hv, hh, l0, l1, l2⟩ := flags h els
  unfold fromvec
  rw [hs]
  dsimp only [finish]
  have f0 := l0.symm.trans (Schema.of_missing_nil mand (by simp) hm)
  have f1 := l1.symm.trans (Schema.of_missing_nil mand (by simp) hm)
  have f2 := l2.symm.trans (Schema.of_missing_nil mand (by simp) hm)
  cases m0 <;> cases m1 <;> cases m2 <;> first | exact ⟨x, rfl, hh, hv⟩ | contradiction

theorem describes : Describes codec schema fields where
  header_set _ _ := rfl
  fields_set _ _ := rfl
  ext _ _ hh h := ext hh h
  shape x := Aligned.one (fun _ => rfl) <| Aligned.one (fun _ => rfl) <| Aligned.one (fun _ => rfl) <| Aligned.opt (fun _ => rfl) <| Aligned.many (fun _ => rfl) <| Aligned.opt (fun _ => rfl) <| Aligned.opt (fun _ => rfl) <| Aligned.many (fun _ => rfl) <| trivial
  tovec x := by simp [codec, tovec, fields]
  complete h els _ hm := complete h els hm

theorem reports (h : Header) (els : List IE) (hm : schema.missing els ≠ []) :
    ∃ s ∈ schema.missing els, ∃ t, fromvec { dflt with header := h } els = .err (.messageMandatoryIEMissing t) ∧ kindOf t = s.kind := by
  obtain ⟨x, m0, m1, m2, hs, hv, hh, l0, l1, l2⟩ := flags h els
  unfold fromvec
  rw [hs]
  dsimp only [finish]
  cases m0 <;> cases m1 <;> cases m2 <;>
    first | exact ⟨_, Schema.mem_missing mand (by simp) l0, _, rfl, rfl⟩ | exact ⟨_, Schema.mem_missing mand (by simp) l1, _, rfl, rfl⟩ | exact ⟨_, Schema.mem_missing mand (by simp) l2, _, rfl, rfl⟩ | exact absurd (Schema.missing_nil mand (by simp [l0, l1, l2])) hm

theorem settled (h : Header) (els els' : List IE) (he : ∀ s ∈ schema, s.card.mandatory = true → s.lacks els = s.lacks els')
    (hm : schema.missing els ≠ []) : fromvec { dflt with header := h } els = fromvec { dflt with header := h } els' := by
  obtain ⟨x, m0, m1, m2, hs, hv, hh, l0, l1, l2⟩ := flags h els
  obtain ⟨x', m0', m1', m2', hs', hv', hh', l0', l1', l2'⟩ := flags h els'
  unfold fromvec
  rw [hs, hs']
  obtain rfl := Bool.not_inj (l0.symm.trans ((he _ (by decide) rfl).trans l0'))
  obtain rfl := Bool.not_inj (l1.symm.trans ((he _ (by decide) rfl).trans l1'))
  obtain rfl := Bool.not_inj (l2.symm.trans ((he _ (by decide) rfl).trans l2'))
  dsimp only [finish]
  cases m0 <;> cases m1 <;> cases m2 <;>
    first | rfl | exact absurd (Schema.missing_nil mand (by simp [l0, l1, l2])) hm

end BearerResourceFailureInd

/-- `ChangeNotificationRequest` (changenotificationreq.rs:15-30). -/
structure ChangeNotificationRequest where
  header : Header
  imsi : Option V2.Imsi
  mei : Option V2.Mei
  indication : Option V2.Indication
  rattype : V2.RatType
  uli : Option V2.Uli
  uci : Option V2.Uci
  pgw_addr_control : Option V2.IpAddress
  linked_ebi : Option V2.Ebi
  prai : Option V2.PresenceReportingAreaInformation
  mo_exception_data_counter : Option V2.Counter
  secondary_rat_usage_report : List V2.SecondaryRatUsageDataReport
  pscellid : Option V2.PSCellId
  private_ext : List V2.PrivateExtension
deriving DecidableEq

namespace ChangeNotificationRequest

/-- `default` (changenotificationreq.rs:33-55). -/
def dflt : ChangeNotificationRequest :=
  { header := { Header.default with msgtype := 38, teid := some 0 }, imsi := none, mei := none, indication := none, rattype := V2.RatType.dflt, uli := none, uci := none, pgw_addr_control := none, linked_ebi := none, prai := none, mo_exception_data_counter := none, secondary_rat_usage_report := [], pscellid := none, private_ext := [] }

/-- `tovec` (changenotificationreq.rs:92-138). -/
def tovec (x : ChangeNotificationRequest) : List IE :=
  optV .Imsi x.imsi ++ (
  optV .Mei x.mei ++ (
  optV .Indication x.indication ++ (
  [.RatType x.rattype] ++ (
  optV .Uli x.uli ++ (
  optV .Uci x.uci ++ (
  optV .IpAddress x.pgw_addr_control ++ (
  optV .Ebi x.linked_ebi ++ (
  optV .PresenceReportingAreaInformation x.prai ++ (
  optV .Counter x.mo_exception_data_counter ++ (
  x.secondary_rat_usage_report.map .SecondaryRatUsageDataReport ++ (
  optV .PSCellId x.pscellid ++ (
  x.private_ext.map .PrivateExtension))))))))))))

/-- The variables of `fromvec`: the message and the array `mandatory` (changenotificationreq.rs:140-213). -/
structure St where
  x : ChangeNotificationRequest
  m0 : Bool

/-- One turn of the loop of `fromvec` (changenotificationreq.rs:140-213). -/
def step (s : St) : IE → St
  | .Imsi j => if j.ins = 0 ∧ s.x.imsi.isNone = true then { s with x := { s.x with imsi := some j } } else s
  | .Mei j => if j.ins = 0 ∧ s.x.mei.isNone = true then { s with x := { s.x with mei := some j } } else s
  | .Indication j => if j.ins = 0 ∧ s.x.indication.isNone = true then { s with x := { s.x with indication := some j } } else s
  | .RatType j => if j.ins = 0 ∧ s.m0 = false then { s with x := { s.x with rattype := j }, m0 := true } else s
  | .Uli j => if j.ins = 0 ∧ s.x.uli.isNone = true then { s with x := { s.x with uli := some j } } else s
  | .Uci j => if j.ins = 0 ∧ s.x.uci.isNone = true then { s with x := { s.x with uci := some j } } else s
  | .IpAddress j => if j.ins = 0 ∧ s.x.pgw_addr_control.isNone = true then { s with x := { s.x with pgw_addr_control := some j } } else s
  | .Ebi j => if j.ins = 0 ∧ s.x.linked_ebi.isNone = true then { s with x := { s.x with linked_ebi := some j } } else s
  | .PresenceReportingAreaInformation j => if j.ins = 0 ∧ s.x.prai.isNone = true then { s with x := { s.x with prai := some j } } else s
  | .Counter j => if j.ins = 0 ∧ s.x.mo_exception_data_counter.isNone = true then { s with x := { s.x with mo_exception_data_counter := some j } } else s
  | .SecondaryRatUsageDataReport j => if j.ins = 0 then { s with x := { s.x with secondary_rat_usage_report := s.x.secondary_rat_usage_report ++ [j] } } else s
  | .PSCellId j => if j.ins = 0 ∧ s.x.pscellid.isNone = true then { s with x := { s.x with pscellid := some j } } else s
  | .PrivateExtension j => { s with x := { s.x with private_ext := s.x.private_ext ++ [j] } }
  | _ => s

/-- The end of `fromvec` (changenotificationreq.rs:140-213). -/
def finish (s : St) : R Err ChangeNotificationRequest :=
  if s.m0 then .ok s.x else .err (.messageMandatoryIEMissing 82)

/-- `fromvec` (changenotificationreq.rs:140-213). -/
def fromvec (x : ChangeNotificationRequest) (els : List IE) : R Err ChangeNotificationRequest := finish (els.foldl step ⟨x, false⟩)

/-- The message type (changenotificationreq.rs:59-90). -/
def codec : Codec ChangeNotificationRequest :=
  { msgtype := 38, start := some 12, dflt, header := header, setHeader := fun x h => { x with header := h }, tovec, fromvec }

/-- One slot per field. -/
def schema : Schema :=
  [⟨.Imsi, .is 0, .opt⟩,
   ⟨.Mei, .is 0, .opt⟩,
   ⟨.Indication, .is 0, .opt⟩,
   ⟨.RatType, .is 0, .one⟩,
   ⟨.Uli, .is 0, .opt⟩,
   ⟨.Uci, .is 0, .opt⟩,
   ⟨.IpAddress, .is 0, .opt⟩,
   ⟨.Ebi, .is 0, .opt⟩,
   ⟨.PresenceReportingAreaInformation, .is 0, .opt⟩,
   ⟨.Counter, .is 0, .opt⟩,
   ⟨.SecondaryRatUsageDataReport, .is 0, .many⟩,
   ⟨.PSCellId, .is 0, .opt⟩,
   ⟨.PrivateExtension, .any, .many⟩]

/-- The fields as lists of IEs. -/
def fields (x : ChangeNotificationRequest) : List (List IE) :=
  [optV .Imsi x.imsi,
   optV .Mei x.mei,
   optV .Indication x.indication,
   [.RatType x.rattype],
   optV .Uli x.uli,
   optV .Uci x.uci,
   optV .IpAddress x.pgw_addr_control,
   optV .Ebi x.linked_ebi,
   optV .PresenceReportingAreaInformation x.prai,
   optV .Counter x.mo_exception_data_counter,
   x.secondary_rat_usage_report.map .SecondaryRatUsageDataReport,
   optV .PSCellId x.pscellid,
   x.private_ext.map .PrivateExtension]

/-- What the state has collected so far. -/
def St.view (s : St) : List (List IE) :=
  [optV .Imsi s.x.imsi,
   optV .Mei s.x.mei,
   optV .Indication s.x.indication,
   if s.m0 then [.RatType s.x.rattype] else [],
   optV .Uli s.x.uli,
   optV .Uci s.x.uci,
   optV .IpAddress s.x.pgw_addr_control,
   optV .Ebi s.x.linked_ebi,
   optV .PresenceReportingAreaInformation s.x.prai,
   optV .Counter s.x.mo_exception_data_counter,
   s.x.secondary_rat_usage_report.map .SecondaryRatUsageDataReport,
   optV .PSCellId s.x.pscellid,
   s.x.private_ext.map .PrivateExtension]

/-- The header is left alone; flags of mandatory lists tell whether the list is empty. -/
def St.Inv (h : Header) (s : St) : Prop :=
  s.x.header = h

theorem step_view (h : Header) (s : St) (e : IE) (hi : s.Inv h) : (step s e).view = Schema.step schema s.view e ∧ (step s e).Inv h := by
  cases e
  case Imsi j =>
    simp only [step]
    repeat' split
    all_goals refine ⟨cons_congr ?_ ((Schema.step_other rfl rfl).symm), ?_⟩
    all_goals first | exact hi | msg_field | (simp_all [St.Inv]; done)
  case Mei j =>
    simp only [step]
    repeat' split
    all_goals refine ⟨cons_congr (Slot.step_ne rfl).symm (cons_congr ?_ ((Schema.step_other rfl rfl).symm)), ?_⟩
    all_goals first | exact hi | msg_field | (simp_all [St.Inv]; done)
  case Indication j =>
    simp only [step]
    repeat' split
    all_goals refine ⟨cons_congr (Slot.step_ne rfl).symm (cons_congr (Slot.step_ne rfl).symm (cons_congr ?_ ((Schema.step_other rfl rfl).symm))), ?_⟩
    all_goals first | exact hi | msg_field | (simp_all [St.Inv]; done)
  case RatType j =>
    simp only [step]
    repeat' split
    all_goals refine ⟨cons_congr (Slot.step_ne rfl).symm (cons_congr (Slot.step_ne rfl).symm (cons_congr (Slot.step_ne rfl).symm (cons_congr ?_ ((Schema.step_other rfl rfl).symm)))), ?_⟩
    all_goals first | exact hi | msg_field | (simp_all [St.Inv]; done)
  case Uli j =>
    simp only [step]
    repeat' split
    all_goals refine ⟨cons_congr (Slot.step_ne rfl).symm (cons_congr (Slot.step_ne rfl).symm (cons_congr (Slot.step_ne rfl).symm (cons_congr (Slot.step_ne rfl).symm (cons_congr ?_ ((Schema.step_other rfl rfl).symm))))), ?_⟩
    all_goals first | exact hi | msg_field | (simp_all [St.Inv]; done)
  case Uci j =>
    simp only [step]
    repeat' split
    all_goals refine ⟨cons_congr (Slot.step_ne rfl).symm (cons_congr (Slot.step_ne rfl).symm (cons_congr (Slot.step_ne rfl).symm (cons_congr (Slot.step_ne rfl).symm (cons_congr (Slot.step_ne rfl).symm (cons_congr ?_ ((Schema.step_other rfl rfl).symm)))))), ?_⟩
    all_goals first | exact hi | msg_field | (simp_all [St.Inv]; done)
  case IpAddress j =>
    simp only [step]
    repeat' split
    all_goals refine ⟨cons_congr (Slot.step_ne rfl).symm (cons_congr (Slot.step_ne rfl).symm (cons_congr (Slot.step_ne rfl).symm (cons_congr (Slot.step_ne rfl).symm (cons_congr (Slot.step_ne rfl).symm (cons_congr (Slot.step_ne rfl).symm (cons_congr ?_ ((Schema.step_other rfl rfl).symm))))))), ?_⟩
    all_goals first | exact hi | msg_field | (simp_all [St.Inv]; done)
  case Ebi j =>
    simp only [step]
    repeat' split
    all_goals refine ⟨cons_congr (Slot.step_ne rfl).symm (cons_congr (Slot.step_ne rfl).symm (cons_congr (Slot.step_ne rfl).symm (cons_congr (Slot.step_ne rfl).symm (cons_congr (Slot.step_ne rfl).symm (cons_congr (Slot.step_ne rfl).symm (cons_congr (Slot.step_ne rfl).symm (cons_congr ?_ ((Schema.step_other rfl rfl).symm)))))))), ?_⟩
    all_goals first | exact hi | msg_field | (simp_all [St.Inv]; done)
  case PresenceReportingAreaInformation j =>
    simp only [step]
    repeat' split
    all_goals refine ⟨cons_congr (Slot.step_ne rfl).symm (cons_congr (Slot.step_ne rfl).symm (cons_congr (Slot.step_ne rfl).symm (cons_congr (Slot.step_ne rfl).symm (cons_congr (Slot.step_ne rfl).symm (cons_congr (Slot.step_ne rfl).symm (cons_congr (Slot.step_ne rfl).symm (cons_congr (Slot.step_ne rfl).symm (cons_congr ?_ ((Schema.step_other rfl rfl).symm))))))))), ?_⟩
    all_goals first | exact hi | msg_field | (simp_all [St.Inv]; done)
  case Counter j =>
    simp only [step]
    repeat' split
    all_goals refine ⟨cons_congr (Slot.step_ne rfl).symm (cons_congr (Slot.step_ne rfl).symm (cons_congr (Slot.step_ne rfl).symm (cons_congr (Slot.step_ne rfl).symm (cons_congr (Slot.step_ne rfl).symm (cons_congr (Slot.step_ne rfl).symm (cons_congr (Slot.step_ne rfl).symm (cons_congr (Slot.step_ne rfl).symm (cons_congr (Slot.step_ne rfl).symm (cons_congr ?_ ((Schema.step_other rfl rfl).symm)))))))))), ?_⟩
    all_goals first | exact hi | msg_field | (simp_all [St.Inv]; done)
  case SecondaryRatUsageDataReport j =>
    simp only [step]
    repeat' split
    all_goals refine ⟨cons_congr (Slot.step_ne rfl).symm (cons_congr (Slot.step_ne rfl).symm (cons_congr (Slot.step_ne rfl).symm (cons_congr (Slot.step_ne rfl).symm (cons_congr (Slot.step_ne rfl).symm (cons_congr (Slot.step_ne rfl).symm (cons_congr (Slot.step_ne rfl).symm (cons_congr (Slot.step_ne rfl).symm (cons_congr (Slot.step_ne rfl).symm (cons_congr (Slot.step_ne rfl).symm (cons_congr ?_ ((Schema.step_other rfl rfl).symm))))))))))), ?_⟩
    all_goals first | exact hi | msg_field | (simp_all [St.Inv]; done)
  case PSCellId j =>
    simp only [step]
    repeat' split
    all_goals refine ⟨cons_congr (Slot.step_ne rfl).symm (cons_congr (Slot.step_ne rfl).symm (cons_congr (Slot.step_ne rfl).symm (cons_congr (Slot.step_ne rfl).symm (cons_congr (Slot.step_ne rfl).symm (cons_congr (Slot.step_ne rfl).symm (cons_congr (Slot.step_ne rfl).symm (cons_congr (Slot.step_ne rfl).symm (cons_congr (Slot.step_ne rfl).symm (cons_congr (Slot.step_ne rfl).symm (cons_congr (Slot.step_ne rfl).symm (cons_congr ?_ ((Schema.step_other rfl rfl).symm)))))))))))), ?_⟩
    all_goals first | exact hi | msg_field | (simp_all [St.Inv]; done)
  case PrivateExtension j =>
    simp only [step]
    all_goals refine ⟨cons_congr (Slot.step_ne rfl).symm (cons_congr (Slot.step_ne rfl).symm (cons_congr (Slot.step_ne rfl).symm (cons_congr (Slot.step_ne rfl).symm (cons_congr (Slot.step_ne rfl).symm (cons_congr (Slot.step_ne rfl).symm (cons_congr (Slot.step_ne rfl).symm (cons_congr (Slot.step_ne rfl).symm (cons_congr (Slot.step_ne rfl).symm (cons_congr (Slot.step_ne rfl).symm (cons_congr (Slot.step_ne rfl).symm (cons_congr (Slot.step_ne rfl).symm (cons_congr ?_ (rfl))))))))))))), ?_⟩
    all_goals first | exact hi | msg_field | (simp_all [St.Inv]; done)
  all_goals exact ⟨(Schema.step_other rfl rfl).symm, hi⟩

theorem loop (h : Header) (els : List IE) :
    (els.foldl step ⟨{ dflt with header := h }, false⟩).view = schema.map (·.select els) ∧ (els.foldl step ⟨{ dflt with header := h }, false⟩).Inv h := by
  have := foldl_view (Q := fun _ => True) (fun s e hp _ => step_view h s e hp) els ⟨{ dflt with header := h }, false⟩ (fun _ _ => trivial) (by simp [St.Inv])
  rw [show St.view ⟨{ dflt with header := h }, false⟩ = schema.map (fun _ => []) from rfl, Schema.foldl_nil] at this
  exact this

theorem ext {x y : ChangeNotificationRequest} (hh : x.header = y.header) (h : fields x = fields y) : x = y := by
  cases x; cases y
  simp only at hh
  subst hh
  injection h with h0 h
  cases optV_inj (fun _ _ h => IE.Imsi.inj h) h0
  injection h with h1 h
  cases optV_inj (fun _ _ h => IE.Mei.inj h) h1
  injection h with h2 h
  cases optV_inj (fun _ _ h => IE.Indication.inj h) h2
  injection h with h3 h
  cases h3
  injection h with h4 h
  cases optV_inj (fun _ _ h => IE.Uli.inj h) h4
  injection h with h5 h
  cases optV_inj (fun _ _ h => IE.Uci.inj h) h5
  injection h with h6 h
  cases optV_inj (fun _ _ h => IE.IpAddress.inj h) h6
  injection h with h7 h
  cases optV_inj (fun _ _ h => IE.Ebi.inj h) h7
  injection h with h8 h
  cases optV_inj (fun _ _ h => IE.PresenceReportingAreaInformation.inj h) h8
  injection h with h9 h
  cases optV_inj (fun _ _ h => IE.Counter.inj h) h9
  injection h with h10 h
  cases map_inj (fun _ _ h => IE.SecondaryRatUsageDataReport.inj h) h10
  injection h with h11 h
  cases optV_inj (fun _ _ h => IE.PSCellId.inj h) h11
  injection h with h12 h
  cases map_inj (fun _ _ h => IE.PrivateExtension.inj h) h12
  rfl

theorem mand : schema.filter (·.card.mandatory) = [(⟨.RatType, .is 0, .one⟩ : Slot)] := rfl

/-- The flags tell which mandatory IEs are absent. -/
theorem flags (h : Header) (els : List IE) : ∃ x m0, els.foldl step ⟨{ dflt with header := h }, false⟩ = ⟨x, m0⟩ ∧ St.view ⟨x, m0⟩ = schema.map (·.select els) ∧ x.header = h ∧
    (⟨.RatType, .is 0, .one⟩ : Slot).lacks els = (!m0) := by
  obtain ⟨hv, hi⟩ := loop h els
  generalize els.foldl step ⟨{ dflt with header := h }, false⟩ = s at hv hi ⊢
  obtain ⟨x, m0⟩ := s
  simp only [St.Inv] at hi
  have l0 : (⟨.RatType, .is 0, .one⟩ : Slot).lacks els = (!m0) := by
    rw [Slot.lacks_eq els rfl]
    have e := congrArg (fun l => l.getD 3 []) hv
    rw [show (⟨.RatType, .is 0, .one⟩ : Slot).select els = if m0 then [.RatType x.rattype] else [] from e.symm]
    cases m0 <;> rfl
  exact ⟨x, m0, rfl, hv, hi, l0⟩

theorem complete (h : Header) (els : List IE) (hm : schema.missing els = []) : ∃ y, fromvec { dflt with header := h } els = .ok y ∧ y.header = h ∧ fields y = schema.map (·.select els) := by
  obtain ⟨x, m0, hs, hv, hh, l0⟩ := flags h els
  unfold fromvec
  rw [hs]
  dsimp only [finish]
  have f0 := l0.symm.trans (Schema.of_missing_nil mand (by simp) hm)
  cases m0 <;> first | exact ⟨x, rfl, hh, hv⟩ | contradiction

theorem describes : Describes codec schema fields where
  header_set _ _ := rfl
  fields_set _ _ := rfl
  ext _ _ hh h := ext hh h
  shape x := Aligned.opt (fun _ => rfl) <| Aligned.opt (fun _ => rfl) <| Aligned.opt (fun _ => rfl) <| Aligned.one (fun _ => rfl) <| Aligned.opt (fun _ => rfl) <| Aligned.opt (fun _ => rfl) <| Aligned.opt (fun _ => rfl) <| Aligned.opt (fun _ => rfl) <| Aligned.opt (fun _ => rfl) <| Aligned.opt (fun _ => rfl) <| Aligned.many (fun _ => rfl) <| Aligned.opt (fun _ => rfl) <| Aligned.many (fun _ => rfl) <| trivial
  tovec x := by simp [codec, tovec, fields]
  complete h els _ hm := complete h els hm

theorem reports (h : Header) (els : List IE) (hm : schema.missing els ≠ []) :
    ∃ s ∈ schema.missing els, ∃ t, fromvec { dflt with header := h } els = .err (.messageMandatoryIEMissing t) ∧ kindOf t = s.kind := by
  obtain ⟨x, m0, hs, hv, hh, l0⟩ := flags h els
  unfold fromvec
  rw [hs]
  dsimp only [finish]
  cases m0 <;>
    first | exact ⟨_, Schema.mem_missing mand (by simp) l0, _, rfl, rfl⟩ | exact absurd (Schema.missing_nil mand (by simp [l0])) hm

theorem settled (h : Header) (els els' : List IE) (he : ∀ s ∈ schema, s.card.mandatory = true → s.lacks els = s.lacks els')
    (hm : schema.missing els ≠ []) : fromvec { dflt with header := h } els = fromvec { dflt with header := h } els' := by
  obtain ⟨x, m0, hs, hv, hh, l0⟩ := flags h els
  obtain ⟨x', m0', hs', hv', hh', l0'⟩ := flags h els'
  unfold fromvec
  rw [hs, hs']
  obtain rfl := Bool.not_inj (l0.symm.trans ((he _ (by decide) rfl).trans l0'))
  dsimp only [finish]
  cases m0 <;>
    first | rfl | exact absurd (Schema.missing_nil mand (by simp [l0])) hm

end ChangeNotificationRequest

/-- `ChangeNotificationResponse` (changenotificationresp.rs:15-24). -/
structure ChangeNotificationResponse where
  header : Header
  imsi : Option V2.Imsi
  mei : Option V2.Mei
  cause : V2.Cause
  cra : Option V2.ChangeReportingAction
  csg_ira : Option V2.CSGInformationReportingAction
  praa : Option V2.PresenceReportingAreaAction
  private_ext : List V2.PrivateExtension
deriving DecidableEq

namespace ChangeNotificationResponse

/-- `default` (changenotificationresp.rs:27-43). -/
def dflt : ChangeNotificationResponse :=
  { header := { Header.default with msgtype := 39, teid := some 0 }, imsi := none, mei := none, cause := V2.Cause.dflt, cra := none, csg_ira := none, praa := none, private_ext := [] }

/-- `tovec` (changenotificationresp.rs:80-107). -/
def tovec (x : ChangeNotificationResponse) : List IE :=
  optV .Imsi x.imsi ++ (
  optV .Mei x.mei ++ (
  [.Cause x.cause] ++ (
  optV .ChangeReportingAction x.cra ++ (
  optV .CSGInformationReportingAction x.csg_ira ++ (
  optV .PresenceReportingAreaAction x.praa ++ (
  x.private_ext.map .PrivateExtension))))))

/-- The variables of `fromvec`: the message and the array `mandatory` (changenotificationresp.rs:109-152). -/
structure St where
  x : ChangeNotificationResponse
  m0 : Bool

/-- One turn of the loop of `fromvec` (changenotificationresp.rs:109-152). -/
def step (s : St) : IE → St
  | .Imsi j => if j.ins = 0 ∧ s.x.imsi.isNone = true then { s with x := { s.x with imsi := some j } } else s
  | .Mei j => if j.ins = 0 ∧ s.x.mei.isNone = true then { s with x := { s.x with mei := some j } } else s
  | .Cause j => if j.ins = 0 ∧ s.m0 = false then { s with x := { s.x with cause := j }, m0 := true } else s
  | .ChangeReportingAction j => if j.ins = 0 ∧ s.x.cra.isNone = true then { s with x := { s.x with cra := some j } } else s
  | .CSGInformationReportingAction j => if j.ins = 0 ∧ s.x.csg_ira.isNone = true then { s with x := { s.x with csg_ira := some j } } else s
  | .PresenceReportingAreaAction j => if j.ins = 0 ∧ s.x.praa.isNone = true then { s with x := { s.x with praa := some j } } else s
  | .PrivateExtension j => { s with x := { s.x with private_ext := s.x.private_ext ++ [j] } }
  | _ => s

/-- The end of `fromvec` (changenotificationresp.rs:109-152). -/
def finish (s : St) : R Err ChangeNotificationResponse :=
  if s.m0 then .ok s.x else .err (.messageMandatoryIEMissing 2)

/-- `fromvec` (changenotificationresp.rs:109-152). -/
def fromvec (x : ChangeNotificationResponse) (els : List IE) : R Err ChangeNotificationResponse := finish (els.foldl step ⟨x, false⟩)

/-- The message type (changenotificationresp.rs:47-78). -/
def codec : Codec ChangeNotificationResponse :=
  { msgtype := 39, start := some 12, dflt, header := header, setHeader := fun x h => { x with header := h }, tovec, fromvec }

/-- One slot per field. -/
def schema : Schema :=
  [⟨.Imsi, .is 0, .opt⟩,
   ⟨.Mei, .is 0, .opt⟩,
   ⟨.Cause, .is 0, .one⟩,
   ⟨.ChangeReportingAction, .is 0, .opt⟩,
   ⟨.CSGInformationReportingAction, .is 0, .opt⟩,
   ⟨.PresenceReportingAreaAction, .is 0, .opt⟩,
   ⟨.PrivateExtension, .any, .many⟩]

/-- The fields as lists of IEs. -/
def fields (x : ChangeNotificationResponse) : List (List IE) :=
  [optV .Imsi x.imsi,
   optV .Mei x.mei,
   [.Cause x.cause],
   optV .ChangeReportingAction x.cra,
   optV .CSGInformationReportingAction x.csg_ira,
   optV .PresenceReportingAreaAction x.praa,
   x.private_ext.map .PrivateExtension]

/-- What the state has collected so far. -/
def St.view (s : St) : List (List IE) :=
  [optV .Imsi s.x.imsi,
   optV .Mei s.x.mei,
   if s.m0 then [.Cause s.x.cause] else [],
   optV .ChangeReportingAction s.x.cra,
   optV .CSGInformationReportingAction s.x.csg_ira,
   optV .PresenceReportingAreaAction s.x.praa,
   s.x.private_ext.map .PrivateExtension]

/-- The header is left alone; flags of mandatory lists tell whether the list is empty. -/
def St.Inv (h : Header) (s : St) : Prop :=
  s.x.header = h

theorem step_view (h : Header) (s : St) (e : IE) (hi : s.Inv h) : (step s e).view = Schema.step schema s.view e ∧ (step s e).Inv h := by
  cases e
  case Imsi j =>
    simp only [step]
    repeat' split
    all_goals refine ⟨cons_congr ?_ ((Schema.step_other rfl rfl).symm), ?_⟩
    all_goals first | exact hi | msg_field | (simp_all [St.Inv]; done)
  case Mei j =>
    simp only [step]
    repeat' split
    all_goals refine ⟨cons_congr (Slot.step_ne rfl).symm (cons_congr ?_ ((Schema.step_other rfl rfl).symm)), ?_⟩
    all_goals first | exact hi | msg_field | (simp_all [St.Inv]; done)
  case Cause j =>
    simp only [step]
    repeat' split
    all_goals refine ⟨cons_congr (Slot.step_ne rfl).symm (cons_congr (Slot.step_ne rfl).symm (cons_congr ?_ ((Schema.step_other rfl rfl).symm))), ?_⟩
    all_goals first | exact hi | msg_field | (simp_all [St.Inv]; done)
  case ChangeReportingAction j =>
    simp only [step]
    repeat' split
    all_goals refine ⟨cons_congr (Slot.step_ne rfl).symm (cons_congr (Slot.step_ne rfl).symm (cons_congr (Slot.step_ne rfl).symm (cons_congr ?_ ((Schema.step_other rfl rfl).symm)))), ?_⟩
    all_goals first | exact hi | msg_field | (simp_all [St.Inv]; done)
  case CSGInformationReportingAction j =>
    simp only [step]
    repeat' split
    all_goals refine ⟨cons_congr (Slot.step_ne rfl).symm (cons_congr (Slot.step_ne rfl).symm (cons_congr (Slot.step_ne rfl).symm (cons_congr (Slot.step_ne rfl).symm (cons_congr ?_ ((Schema.step_other rfl rfl).symm))))), ?_⟩
    all_goals first | exact hi | msg_field | (simp_all [St.Inv]; done)
  case PresenceReportingAreaAction j =>
    simp only [step]
    repeat' split
    all_goals refine ⟨cons_congr (Slot.step_ne rfl).symm (cons_congr (Slot.step_ne rfl).symm (cons_congr (Slot.step_ne rfl).symm (cons_congr (Slot.step_ne rfl).symm (cons_congr (Slot.step_ne rfl).symm (cons_congr ?_ ((Schema.step_other rfl rfl).symm)))))), ?_⟩
    all_goals first | exact hi | msg_field | (simp_all [St.Inv]; done)
  case PrivateExtension j =>
    simp only [step]
    all_goals refine ⟨cons_congr (Slot.step_ne rfl).symm (cons_congr (Slot.step_ne rfl).symm (cons_congr (Slot.step_ne rfl).symm (cons_congr (Slot.step_ne rfl).symm (cons_congr (Slot.step_ne rfl).symm (cons_congr (Slot.step_ne rfl).symm (cons_congr ?_ (rfl))))))), ?_⟩
    all_goals first | exact hi | msg_field | (simp_all [St.Inv]; done)
  all_goals exact ⟨(Schema.step_other rfl rfl).symm, hi⟩

theorem loop (h : Header) (els : List IE) :
    (els.foldl step ⟨{ dflt with header := h }, false⟩).view = schema.map (·.select els) ∧ (els.foldl step ⟨{ dflt with header := h }, false⟩).Inv h := by
  have := foldl_view (Q := fun _ => True) (fun s e hp _ => step_view h s e hp) els ⟨{ dflt with header := h }, false⟩ (fun _ _ => trivial) (by simp [St.Inv])
  rw [show St.view ⟨{ dflt with header := h }, false⟩ = schema.map (fun _ => []) from rfl, Schema.foldl_nil] at this
  exact this

theorem ext {x y : ChangeNotificationResponse} (hh : x.header = y.header) (h : fields x = fields y) : x = y := by
  cases x; cases y
  simp only at hh
  subst hh
  injection h with h0 h
  cases optV_inj (fun _ _ h => IE.Imsi.inj h) h0
  injection h with h1 h
  cases optV_inj (fun _ _ h => IE.Mei.inj h) h1
  injection h with h2 h
  cases h2
  injection h with h3 h
  cases optV_inj (fun _ _ h => IE.ChangeReportingAction.inj h) h3
  injection h with h4 h
  cases optV_inj (fun _ _ h => IE.CSGInformationReportingAction.inj h) h4
  injection h with h5 h
  cases optV_inj (fun _ _ h => IE.PresenceReportingAreaAction.inj h) h5
  injection h with h6 h
  cases map_inj (fun _ _ h => IE.PrivateExtension.inj h) h6
  rfl

theorem mand : schema.filter (·.card.mandatory) = [(⟨.Cause, .is 0, .one⟩ : Slot)] := rfl

/-- The flags tell which mandatory IEs are absent. -/
theorem flags (h : Header) (els : List IE) : ∃ x m0, els.foldl step ⟨{ dflt with header := h }, false⟩ = ⟨x, m0⟩ ∧ St.view ⟨x, m0⟩ = schema.map (·.select els) ∧ x.header = h ∧
    (⟨.Cause, .is 0, .one⟩ : Slot).lacks els = (!m0) := by
  obtain ⟨hv, hi⟩ := loop h els
  generalize els.foldl step ⟨{ dflt with header := h }, false⟩ = s at hv hi ⊢
  obtain ⟨x, m0⟩ := s
  simp only [St.Inv] at hi
  have l0 : (⟨.Cause, .is 0, .one⟩ : Slot).lacks els = (!m0) := by
    rw [Slot.lacks_eq els rfl]
    have e := congrArg (fun l => l.getD 2 []) hv
    rw [show (⟨.Cause, .is 0, .one⟩ : Slot).select els = if m0 then [.Cause x.cause] else [] from e.symm]
    cases m0 <;> rfl
  exact ⟨x, m0, rfl, hv, hi, l0⟩

theorem complete (h : Header) (els : List IE) (hm : schema.missing els = []) : ∃ y, fromvec { dflt with header := h } els = .ok y ∧ y.header = h ∧ fields y = schema.map (·.select els) := by
  obtain ⟨x, m0, hs, hv, hh, l0⟩ := flags h els
  unfold fromvec
  rw [hs]
  dsimp only [finish]
  have f0 := l0.symm.trans (Schema.of_missing_nil mand (by simp) hm)
  cases m0 <;> first | exact ⟨x, rfl, hh, hv⟩ | contradiction

theorem describes : Describes codec schema fields where
  header_set _ _ := rfl
  fields_set _ _ := rfl
  ext _ _ hh h := ext hh h
  shape x := Aligned.opt (fun _ => rfl) <| Aligned.opt (fun _ => rfl) <| Aligned.one (fun _ => rfl) <| Aligned.opt (fun _ => rfl) <| Aligned.opt (fun _ => rfl) <| Aligned.opt (fun _ => rfl) <| Aligned.many (fun _ => rfl) <| trivial
  tovec x := by simp [codec, tovec, fields]
  complete h els _ hm := complete h els hm

theorem reports (h : Header) (els : List IE) (hm : schema.missing els ≠ []) :
    ∃ s ∈ schema.missing els, ∃ t, fromvec { dflt with header := h } els = .err (.messageMandatoryIEMissing t) ∧ kindOf t = s.kind := by
  obtain ⟨x, m0, hs, hv, hh, l0⟩ := flags h els
  unfold fromvec
  rw [hs]
  dsimp only [finish]
  cases m0 <;>
    first | exact ⟨_, Schema.mem_missing mand (by simp) l0, _, rfl, rfl⟩ | exact absurd (Schema.missing_nil mand (by simp [l0])) hm

theorem settled (h : Header) (els els' : List IE) (he : ∀ s ∈ schema, s.card.mandatory = true → s.lacks els = s.lacks els')
    (hm : schema.missing els ≠ []) : fromvec { dflt with header := h } els = fromvec { dflt with header := h } els' := by
  obtain ⟨x, m0, hs, hv, hh, l0⟩ := flags h els
  obtain ⟨x', m0', hs', hv', hh', l0'⟩ := flags h els'
  unfold fromvec
  rw [hs, hs']
  obtain rfl := Bool.not_inj (l0.symm.trans ((he _ (by decide) rfl).trans l0'))
  dsimp only [finish]
  cases m0 <;>
    first | rfl | exact absurd (Schema.missing_nil mand (by simp [l0])) hm

end ChangeNotificationResponse

/-- `ContextAcknowledge` (contextacknowledge.rs:15-24). -/
structure ContextAcknowledge where
  header : Header
  cause : V2.Cause
  indication : Option V2.Indication
  fwd_fteid : Option V2.Fteid
  bearer_ctxs : List V2.BearerContext
  node_nbrs : List V2.NodeNumber
  node_ids : List V2.NodeIdentifier
  private_ext : List V2.PrivateExtension
deriving DecidableEq

namespace ContextAcknowledge

/-- `default` (contextacknowledge.rs:27-43). -/
def dflt : ContextAcknowledge :=
  { header := { Header.default with msgtype := 132, teid := some 0 }, cause := V2.Cause.dflt, indication := none, fwd_fteid := none, bearer_ctxs := [], node_nbrs := [], node_ids := [], private_ext := [] }

/-- `tovec` (contextacknowledge.rs:79-109). -/
def tovec (x : ContextAcknowledge) : List IE :=
  [.Cause x.cause] ++ (
  optV .Indication x.indication ++ (
  optV .Fteid x.fwd_fteid ++ (
  x.bearer_ctxs.map .BearerContext ++ (
  x.node_nbrs.map .NodeNumber ++ (
  x.node_ids.map .NodeIdentifier ++ (
  x.private_ext.map .PrivateExtension))))))

/-- The variables of `fromvec`: the message and the array `mandatory` (contextacknowledge.rs:111-155). -/
structure St where
  x : ContextAcknowledge
  m0 : Bool

/-- One turn of the loop of `fromvec` (contextacknowledge.rs:111-155). -/
def step (s : St) : IE → St
  | .Cause j => if j.ins = 0 ∧ s.m0 = false then { s with x := { s.x with cause := j }, m0 := true } else s
  | .Indication j => if j.ins = 0 ∧ s.x.indication.isNone = true then { s with x := { s.x with indication := some j } } else s
  | .Fteid j => if j.ins = 0 ∧ s.x.fwd_fteid.isNone = true then { s with x := { s.x with fwd_fteid := some j } } else s
  | .BearerContext j => if j.ins = 0 then { s with x := { s.x with bearer_ctxs := s.x.bearer_ctxs ++ [j] } } else s
  | .NodeNumber j => if j.ins < 3 then { s with x := { s.x with node_nbrs := s.x.node_nbrs ++ [j] } } else s
  | .NodeIdentifier j => if j.ins < 3 then { s with x := { s.x with node_ids := s.x.node_ids ++ [j] } } else s
  | .PrivateExtension j => { s with x := { s.x with private_ext := s.x.private_ext ++ [j] } }
  | _ => s

/-- The end of `fromvec` (contextacknowledge.rs:111-155). -/
def finish (s : St) : R Err ContextAcknowledge :=
  if s.m0 then .ok s.x else .err (.messageMandatoryIEMissing 2)

/-- `fromvec` (contextacknowledge.rs:111-155). -/
def fromvec (x : ContextAcknowledge) (els : List IE) : R Err ContextAcknowledge := finish (els.foldl step ⟨x, false⟩)

/-- The message type (contextacknowledge.rs:47-77). -/
def codec : Codec ContextAcknowledge :=
  { msgtype := 132, start := some 12, dflt, header := header, setHeader := fun x h => { x with header := h }, tovec, fromvec }

/-- One slot per field. -/
def schema : Schema :=
  [⟨.Cause, .is 0, .one⟩,
   ⟨.Indication, .is 0, .opt⟩,
   ⟨.Fteid, .is 0, .opt⟩,
   ⟨.BearerContext, .is 0, .many⟩,
   ⟨.NodeNumber, .lt 3, .many⟩,
   ⟨.NodeIdentifier, .lt 3, .many⟩,
   ⟨.PrivateExtension, .any, .many⟩]

/-- The fields as lists of IEs. -/
def fields (x : ContextAcknowledge) : List (List IE) :=
  [[.Cause x.cause],
   optV .Indication x.indication,
   optV .Fteid x.fwd_fteid,
   x.bearer_ctxs.map .BearerContext,
   x.node_nbrs.map .NodeNumber,
   x.node_ids.map .NodeIdentifier,
   x.private_ext.map .PrivateExtension]

/-- What the state has collected so far. -/
def St.view (s : St) : List (List IE) :=
  [if s.m0 then [.Cause s.x.cause] else [],
   optV .Indication s.x.indication,
   optV .Fteid s.x.fwd_fteid,
   s.x.bearer_ctxs.map .BearerContext,
   s.x.node_nbrs.map .NodeNumber,
   s.x.node_ids.map .NodeIdentifier,
   s.x.private_ext.map .PrivateExtension]

/-- The header is left alone; flags of mandatory lists tell whether the list is empty. -/
def St.Inv (h : Header) (s : St) : Prop :=
  s.x.header = h

theorem step_view (h : Header) (s : St) (e : IE) (hi : s.Inv h) : (step s e).view = Schema.step schema s.view e ∧ (step s e).Inv h := by
  cases e
  case Cause j =>
    simp only [step]
    repeat' split
    all_goals refine ⟨cons_congr ?_ ((Schema.step_other rfl rfl).symm), ?_⟩
    all_goals first | exact hi | msg_field | (simp_all [St.Inv]; done)
  case Indication j =>
    simp only [step]
    repeat' split
    all_goals refine ⟨cons_congr (Slot.step_ne rfl).symm (cons_congr ?_ ((Schema.step_other rfl rfl).symm)), ?_⟩
    all_goals first | exact hi | msg_field | (simp_all [St.Inv]; done)
  case Fteid j =>
    simp only [step]
    repeat' split
    all_goals refine ⟨cons_congr (Slot.step_ne rfl).symm (cons_congr (Slot.step_ne rfl).symm (cons_congr ?_ ((Schema.step_other rfl rfl).symm))), ?_⟩
    all_goals first | exact hi | msg_field | (simp_all [St.Inv]; done)
  case BearerContext j =>
    simp only [step]
    repeat' split
    all_goals refine ⟨cons_congr (Slot.step_ne rfl).symm (cons_congr (Slot.step_ne rfl).symm (cons_congr (Slot.step_ne rfl).symm (cons_congr ?_ ((Schema.step_other rfl rfl).symm)))), ?_⟩
    all_goals first | exact hi | msg_field | (simp_all [St.Inv]; done)
  case NodeNumber j =>
    simp only [step]
    repeat' split
    all_goals refine ⟨cons_congr (Slot.step_ne rfl).symm (cons_congr (Slot.step_ne rfl).symm (cons_congr (Slot.step_ne rfl).symm (cons_congr (Slot.step_ne rfl).symm (cons_congr ?_ ((Schema.step_other rfl rfl).symm))))), ?_⟩
    all_goals first | exact hi | msg_field | (simp_all [St.Inv]; done)
  case NodeIdentifier j =>
    simp only [step]
    repeat' split
    all_goals refine ⟨cons_congr (Slot.step_ne rfl).symm (cons_congr (Slot.step_ne rfl).symm (cons_congr (Slot.step_ne rfl).symm (cons_congr (Slot.step_ne rfl).symm (cons_congr (Slot.step_ne rfl).symm (cons_congr ?_ ((Schema.step_other rfl rfl).symm)))))), ?_⟩
    all_goals first | exact hi | msg_field | (simp_all [St.Inv]; done)
  case PrivateExtension j =>
    simp only [step]
    all_goals refine ⟨cons_congr (Slot.step_ne rfl).symm (cons_congr (Slot.step_ne rfl).symm (cons_congr (Slot.step_ne rfl).symm (cons_congr (Slot.step_ne rfl).symm (cons_congr (Slot.step_ne rfl).symm (cons_congr (Slot.step_ne rfl).symm (cons_congr ?_ (rfl))))))), ?_⟩
    all_goals first | exact hi | msg_field | (simp_all [St.Inv]; done)
  all_goals exact ⟨(Schema.step_other rfl rfl).symm, hi⟩

theorem loop (h : Header) (els : List IE) :
    (els.foldl step ⟨{ dflt with header := h }, false⟩).view = schema.map (·.select els) ∧ (els.foldl step ⟨{ dflt with header := h }, false⟩).Inv h := by
  have := foldl_view (Q := fun _ => True) (fun s e hp _ => step_view h s e hp) els ⟨{ dflt with header := h }, false⟩ (fun _ _ => trivial) (by simp [St.Inv])
  rw [show St.view ⟨{ dflt with header := h }, false⟩ = schema.map (fun _ => []) from rfl, Schema.foldl_nil] at this
  exact this

theorem ext {x y : ContextAcknowledge} (hh : x.header = y.header) (h : fields x = fields y) : x = y := by
  cases x; cases y
  simp only at hh
  subst hh
  injection h with h0 h
  cases h0
  injection h with h1 h
  cases optV_inj (fun _ _ h => IE.Indication.inj h) h1
  injection h with h2 h
  cases optV_inj (fun _ _ h => IE.Fteid.inj h) h2
  injection h with h3 h
  cases map_inj (fun _ _ h => IE.BearerContext.inj h) h3
  injection h with h4 h
  cases map_inj (fun _ _ h => IE.NodeNumber.inj h) h4
  injection h with h5 h
  cases map_inj (fun _ _ h => IE.NodeIdentifier.inj h) h5
  injection h with h6 h
  cases map_inj (fun _ _ h => IE.PrivateExtension.inj h) h6
  rfl

theorem mand : schema.filter (·.card.mandatory) = [(⟨.Cause, .is 0, .one⟩ : Slot)] := rfl

/-- The flags tell which mandatory IEs are absent. -/
theorem flags (h : Header) (els : List IE) : ∃ x m0, els.foldl step ⟨{ dflt with header := h }, false⟩ = ⟨x, m0⟩ ∧ St.view ⟨x, m0⟩ = schema.map (·.select els) ∧ x.header = h ∧
    (⟨.Cause, .is 0, .one⟩ : Slot).lacks els = (!m0) := by
  obtain ⟨hv, hi⟩ := loop h els
  generalize els.foldl step ⟨{ dflt with header := h }, false⟩ = s at hv hi ⊢
  obtain ⟨x, m0⟩ := s
  simp only [St.Inv] at hi
  have l0 : (⟨.Cause, .is 0, .one⟩ : Slot).lacks els = (!m0) := by
    rw [Slot.lacks_eq els rfl]
    have e := congrArg (fun l => l.getD 0 []) hv
    rw [show (⟨.Cause, .is 0, .one⟩ : Slot).select els = if m0 then [.Cause x.cause] else [] from e.symm]
    cases m0 <;> rfl
  exact ⟨x, m0, rfl, hv, hi, l0⟩

theorem complete (h : Header) (els : List IE) (hm : schema.missing els = []) : ∃ y, fromvec { dflt with header := h } els = .ok y ∧ y.header = h ∧ fields y = schema.map (·.select els) := by
  obtain ⟨x, m0, hs, hv, hh, l0⟩ := flags h els
  unfold fromvec
  rw [hs]
  dsimp only [finish]
  have f0 := l0.symm.trans (Schema.of_missing_nil mand (by simp) hm)
  cases m0 <;> first | exact ⟨x, rfl, hh, hv⟩ | contradiction

theorem describes : Describes codec schema fields where
  header_set _ _ := rfl
  fields_set _ _ := rfl
  ext _ _ hh h := ext hh h
  shape x := Aligned.one (fun _ => rfl) <| Aligned.opt (fun _ => rfl) <| Aligned.opt (fun _ => rfl) <| Aligned.many (fun _ => rfl) <| Aligned.many (fun _ => rfl) <| Aligned.many (fun _ => rfl) <| Aligned.many (fun _ => rfl) <| trivial
  tovec x := by simp [codec, tovec, fields]
  complete h els _ hm := complete h els hm

theorem reports (h : Header) (els : List IE) (hm : schema.missing els ≠ []) :
    ∃ s ∈ schema.missing els, ∃ t, fromvec { dflt with header := h } els = .err (.messageMandatoryIEMissing t) ∧ kindOf t = s.kind := by
  obtain ⟨x, m0, hs, hv, hh, l0⟩ := flags h els
  unfold fromvec
  rw [hs]
  dsimp only [finish]
  cases m0 <;>
    first | exact ⟨_, Schema.mem_missing mand (by simp) l0, _, rfl, rfl⟩ | exact absurd (Schema.missing_nil mand (by simp [l0])) hm

theorem settled (h : Header) (els els' : List IE) (he : ∀ s ∈ schema, s.card.mandatory = true → s.lacks els = s.lacks els')
    (hm : schema.missing els ≠ []) : fromvec { dflt with header := h } els = fromvec { dflt with header := h } els' := by
  obtain ⟨x, m0, hs, hv, hh, l0⟩ := flags h els
  obtain ⟨x', m0', hs', hv', hh', l0'⟩ := flags h els'
  unfold fromvec
  rw [hs, hs']
  obtain rfl := Bool.not_inj (l0.symm.trans ((he _ (by decide) rfl).trans l0'))
  dsimp only [finish]
  cases m0 <;>
    first | rfl | exact absurd (Schema.missing_nil mand (by simp [l0])) hm

end ContextAcknowledge

/-- `ContextRequest` (contextreq.rs:15-37). -/
structure ContextRequest where
  header : Header
  imsi : Option V2.Imsi
  guti : Option V2.Guti
  rai : Option V2.Uli
  ptmsi : Option V2.Ptmsi
  ptmsi_signature : Option V2.PtmsiSignature
  complete_tau_req_msg : Option V2.CompleteRequestMessage
  fteid_control : Option V2.Fteid
  udp_src_port : Option V2.PortNumber
  rat_type : Option V2.RatType
  indication : Option V2.Indication
  hop_counter : Option V2.HopCounter
  target_plmnid : Option V2.ServingNetwork
  mme_sgsn_ldn : Option V2.Ldn
  sgsn_fqdn : Option V2.Fqdn
  mme_fqdn : Option V2.Fqdn
  sgsn_number : Option V2.NodeNumber
  sgsn_id : Option V2.NodeIdentifier
  mme_id : Option V2.NodeIdentifier
  ciot_optim_supp_ind : Option V2.CIoTOptimizationSupportIndication
  private_ext : List V2.PrivateExtension
deriving DecidableEq

namespace ContextRequest

/-- `default` (contextreq.rs:40-69). -/
def dflt : ContextRequest :=
  { header := { Header.default with msgtype := 130, teid := some 0 }, imsi := none, guti := none, rai := none, ptmsi := none, ptmsi_signature := none, complete_tau_req_msg := none, fteid_control := none, udp_src_port := none, rat_type := none, indication := none, hop_counter := none, target_plmnid := none, mme_sgsn_ldn := none, sgsn_fqdn := none, mme_fqdn := none, sgsn_number := none, sgsn_id := none, mme_id := none, ciot_optim_supp_ind := none, private_ext := [] }

/-- `tovec` (contextreq.rs:105-189). -/
def tovec (x : ContextRequest) : List IE :=
  optV .Imsi x.imsi ++ (
  optV .Guti x.guti ++ (
  optV .Uli x.rai ++ (
  optV .Ptmsi x.ptmsi ++ (
  optV .PtmsiSignature x.ptmsi_signature ++ (
  optV .CompleteRequestMessage x.complete_tau_req_msg ++ (
  optV .Fteid x.fteid_control ++ (
  optV .PortNumber x.udp_src_port ++ (
  optV .RatType x.rat_type ++ (
  optV .Indication x.indication ++ (
  optV .HopCounter x.hop_counter ++ (
  optV .ServingNetwork x.target_plmnid ++ (
  optV .Ldn x.mme_sgsn_ldn ++ (
  optV .Fqdn x.sgsn_fqdn ++ (
  optV .Fqdn x.mme_fqdn ++ (
  optV .NodeNumber x.sgsn_number ++ (
  optV .NodeIdentifier x.sgsn_id ++ (
  optV .NodeIdentifier x.mme_id ++ (
  optV .CIoTOptimizationSupportIndication x.ciot_optim_supp_ind ++ (
  x.private_ext.map .PrivateExtension)))))))))))))))))))

/-- The variables of `fromvec`: the message and the array `mandatory` (contextreq.rs:191-288). -/
structure St where
  x : ContextRequest

/-- One turn of the loop of `fromvec` (contextreq.rs:191-288). -/
def step (s : St) : IE → St
  | .Imsi j => if j.ins = 0 ∧ s.x.imsi.isNone = true then { s with x := { s.x with imsi := some j } } else s
  | .Guti j => if j.ins = 0 ∧ s.x.guti.isNone = true then { s with x := { s.x with guti := some j } } else s
  | .Uli j => if j.ins = 0 ∧ s.x.rai.isNone = true then { s with x := { s.x with rai := some j } } else s
  | .Ptmsi j => if j.ins = 0 ∧ s.x.ptmsi.isNone = true then { s with x := { s.x with ptmsi := some j } } else s
  | .PtmsiSignature j => if j.ins = 0 ∧ s.x.ptmsi_signature.isNone = true then { s with x := { s.x with ptmsi_signature := some j } } else s
  | .CompleteRequestMessage j => if j.ins = 0 ∧ s.x.complete_tau_req_msg.isNone = true then { s with x := { s.x with complete_tau_req_msg := some j } } else s
  | .Fteid j => if j.ins = 0 ∧ s.x.fteid_control.isNone = true then { s with x := { s.x with fteid_control := some j } } else s
  | .PortNumber j => if j.ins = 0 ∧ s.x.udp_src_port.isNone = true then { s with x := { s.x with udp_src_port := some j } } else s
  | .RatType j => if j.ins = 0 ∧ s.x.rat_type.isNone = true then { s with x := { s.x with rat_type := some j } } else s
  | .Indication j => if j.ins = 0 ∧ s.x.indication.isNone = true then { s with x := { s.x with indication := some j } } else s
  | .HopCounter j => if j.ins = 0 ∧ s.x.hop_counter.isNone = true then { s with x := { s.x with hop_counter := some j } } else s
  | .ServingNetwork j => if j.ins = 0 ∧ s.x.target_plmnid.isNone = true then { s with x := { s.x with target_plmnid := some j } } else s
  | .Ldn j => if j.ins = 0 ∧ s.x.mme_sgsn_ldn.isNone = true then { s with x := { s.x with mme_sgsn_ldn := some j } } else s
  | .Fqdn j => if j.ins = 0 ∧ s.x.sgsn_fqdn.isNone = true then { s with x := { s.x with sgsn_fqdn := some j } } else if j.ins = 1 ∧ s.x.mme_fqdn.isNone = true then { s with x := { s.x with mme_fqdn := some j } } else s
  | .NodeNumber j => if j.ins = 0 ∧ s.x.sgsn_number.isNone = true then { s with x := { s.x with sgsn_number := some j } } else s
  | .NodeIdentifier j => if j.ins = 0 ∧ s.x.sgsn_id.isNone = true then { s with x := { s.x with sgsn_id := some j } } else if j.ins = 1 ∧ s.x.mme_id.isNone = true then { s with x := { s.x with mme_id := some j } } else s
  | .CIoTOptimizationSupportIndication j => if j.ins = 0 ∧ s.x.ciot_optim_supp_ind.isNone = true then { s with x := { s.x with ciot_optim_supp_ind := some j } } else s
  | .PrivateExtension j => { s with x := { s.x with private_ext := s.x.private_ext ++ [j] } }
  | _ => s

/-- The end of `fromvec` (contextreq.rs:191-288). -/
def finish (s : St) : R Err ContextRequest :=
  .ok s.x

/-- `fromvec` (contextreq.rs:191-288). -/
def fromvec (x : ContextRequest) (els : List IE) : R Err ContextRequest := finish (els.foldl step ⟨x⟩)

/-- The message type (contextreq.rs:73-103). -/
def codec : Codec ContextRequest :=
  { msgtype := 130, start := some 12, dflt, header := header, setHeader := fun x h => { x with header := h }, tovec, fromvec }

/-- One slot per field. -/
def schema : Schema :=
  [⟨.Imsi, .is 0, .opt⟩,
   ⟨.Guti, .is 0, .opt⟩,
   ⟨.Uli, .is 0, .opt⟩,
   ⟨.Ptmsi, .is 0, .opt⟩,
   ⟨.PtmsiSignature, .is 0, .opt⟩,
   ⟨.CompleteRequestMessage, .is 0, .opt⟩,
   ⟨.Fteid, .is 0, .opt⟩,
   ⟨.PortNumber, .is 0, .opt⟩,
   ⟨.RatType, .is 0, .opt⟩,
   ⟨.Indication, .is 0, .opt⟩,
   ⟨.HopCounter, .is 0, .opt⟩,
   ⟨.ServingNetwork, .is 0, .opt⟩,
   ⟨.Ldn, .is 0, .opt⟩,
   ⟨.Fqdn, .is 0, .opt⟩,
   ⟨.Fqdn, .is 1, .opt⟩,
   ⟨.NodeNumber, .is 0, .opt⟩,
   ⟨.NodeIdentifier, .is 0, .opt⟩,
   ⟨.NodeIdentifier, .is 1, .opt⟩,
   ⟨.CIoTOptimizationSupportIndication, .is 0, .opt⟩,
   ⟨.PrivateExtension, .any, .many⟩]

/-- The fields as lists of IEs. -/
def fields (x : ContextRequest) : List (List IE) :=
  [optV .Imsi x.imsi,
   optV .Guti x.guti,
   optV .Uli x.rai,
   optV .Ptmsi x.ptmsi,
   optV .PtmsiSignature x.ptmsi_signature,
   optV .CompleteRequestMessage x.complete_tau_req_msg,
   optV .Fteid x.fteid_control,
   optV .PortNumber x.udp_src_port,
   optV .RatType x.rat_type,
   optV .Indication x.indication,
   optV .HopCounter x.hop_counter,
   optV .ServingNetwork x.target_plmnid,
   optV .Ldn x.mme_sgsn_ldn,
   optV .Fqdn x.sgsn_fqdn,
   optV .Fqdn x.mme_fqdn,
   optV .NodeNumber x.sgsn_number,
   optV .NodeIdentifier x.sgsn_id,
   optV .NodeIdentifier x.mme_id,
   optV .CIoTOptimizationSupportIndication x.ciot_optim_supp_ind,
   x.private_ext.map .PrivateExtension]

/-- What the state has collected so far. -/
def St.view (s : St) : List (List IE) :=
  [optV .Imsi s.x.imsi,
   optV .Guti s.x.guti,
   optV .Uli s.x.rai,
   optV .Ptmsi s.x.ptmsi,
   optV .PtmsiSignature s.x.ptmsi_signature,
   optV .CompleteRequestMessage s.x.complete_tau_req_msg,
   optV .Fteid s.x.fteid_control,
   optV .PortNumber s.x.udp_src_port,
   optV .RatType s.x.rat_type,
   optV .Indication s.x.indication,
   optV .HopCounter s.x.hop_counter,
   optV .ServingNetwork s.x.target_plmnid,
   optV .Ldn s.x.mme_sgsn_ldn,
   optV .Fqdn s.x.sgsn_fqdn,
   optV .Fqdn s.x.mme_fqdn,
   optV .NodeNumber s.x.sgsn_number,
   optV .NodeIdentifier s.x.sgsn_id,
   optV .NodeIdentifier s.x.mme_id,
   optV .CIoTOptimizationSupportIndication s.x.ciot_optim_supp_ind,
   s.x.private_ext.map .PrivateExtension]

/-- The header is left alone; flags of mandatory lists tell whether the list is empty. -/
def St.Inv (h : Header) (s : St) : Prop :=
  s.x.header = h

theorem step_view (h : Header) (s : St) (e : IE) (hi : s.Inv h) : (step s e).view = Schema.step schema s.view e ∧ (step s e).Inv h := by
  cases e
  case Imsi j =>
    simp only [step]
    repeat' split
    all_goals refine ⟨cons_congr ?_ ((Schema.step_other rfl rfl).symm), ?_⟩
    all_goals first | exact hi | msg_field | (simp_all [St.Inv]; done)
  case Guti j =>
    simp only [step]
    repeat' split
    all_goals refine ⟨cons_congr (Slot.step_ne rfl).symm (cons_congr ?_ ((Schema.step_other rfl rfl).symm)), ?_⟩
    all_goals first | exact hi | msg_field | (simp_all [St.Inv]; done)
  case Uli j =>
    simp only [step]
    repeat' split
    all_goals refine ⟨cons_congr (Slot.step_ne rfl).symm (cons_congr (Slot.step_ne rfl).symm (cons_congr ?_ ((Schema.step_other rfl rfl).symm))), ?_⟩
    all_goals first | exact hi | msg_field | (simp_all [St.Inv]; done)
  case Ptmsi j =>
    simp only [step]
    repeat' split
    all_goals refine ⟨cons_congr (Slot.step_ne rfl).symm (cons_congr (Slot.step_ne rfl).symm (cons_congr (Slot.step_ne rfl).symm (cons_congr ?_ ((Schema.step_other rfl rfl).symm)))), ?_⟩
    all_goals first | exact hi | msg_field | (simp_all [St.Inv]; done)
  case PtmsiSignature j =>
    simp only [step]
    repeat' split
    all_goals refine ⟨cons_congr (Slot.step_ne rfl).symm (cons_congr (Slot.step_ne rfl).symm (cons_congr (Slot.step_ne rfl).symm (cons_congr (Slot.step_ne rfl).symm (cons_congr ?_ ((Schema.step_other rfl rfl).symm))))), ?_⟩
    all_goals first | exact hi | msg_field | (simp_all [St.Inv]; done)
  case CompleteRequestMessage j =>
    simp only [step]
    repeat' split
    all_goals refine ⟨cons_congr (Slot.step_ne rfl).symm (cons_congr (Slot.step_ne rfl).symm (cons_congr (Slot.step_ne rfl).symm (cons_congr (Slot.step_ne rfl).symm (cons_congr (Slot.step_ne rfl).symm (cons_congr ?_ ((Schema.step_other rfl rfl).symm)))))), ?_⟩
    all_goals first | exact hi | msg_field | (simp_all [St.Inv]; done)
  case Fteid j =>
    simp only [step]
    repeat' split
    all_goals refine ⟨cons_congr (Slot.step_ne rfl).symm (cons_congr (Slot.step_ne rfl).symm (cons_congr (Slot.step_ne rfl).symm (cons_congr (Slot.step_ne rfl).symm (cons_congr (Slot.step_ne rfl).symm (cons_congr (Slot.step_ne rfl).symm (cons_congr ?_ ((Schema.step_other rfl rfl).symm))))))), ?_⟩
    all_goals first | exact hi | msg_field | (simp_all [St.Inv]; done)
  case PortNumber j =>
    simp only [step]
    repeat' split
    all_goals refine ⟨cons_congr (Slot.step_ne rfl).symm (cons_congr (Slot.step_ne rfl).symm (cons_congr (Slot.step_ne rfl).symm (cons_congr (Slot.step_ne rfl).symm (cons_congr (Slot.step_ne rfl).symm (cons_congr (Slot.step_ne rfl).symm (cons_congr (Slot.step_ne rfl).symm (cons_congr ?_ ((Schema.step_other rfl rfl).symm)))))))), ?_⟩
    all_goals first | exact hi | msg_field | (simp_all [St.Inv]; done)
  case RatType j =>
    simp only [step]
    repeat' split
    all_goals refine ⟨cons_congr (Slot.step_ne rfl).symm (cons_congr (Slot.step_ne rfl).symm (cons_congr (Slot.step_ne rfl).symm (cons_congr (Slot.step_ne rfl).symm (cons_congr (Slot.step_ne rfl).symm (cons_congr (Slot.step_ne rfl).symm (cons_congr (Slot.step_ne rfl).symm (cons_congr (Slot.step_ne rfl).symm (cons_congr ?_ ((Schema.step_other rfl rfl).symm))))))))), ?_⟩
    all_goals first | exact hi | msg_field | (simp_all [St.Inv]; done)
  case Indication j =>
    simp only [step]
    repeat' split
    all_goals refine ⟨cons_congr (Slot.step_ne rfl).symm (cons_congr (Slot.step_ne rfl).symm (cons_congr (Slot.step_ne rfl).symm (cons_congr (Slot.step_ne rfl).symm (cons_congr (Slot.step_ne rfl).symm (cons_congr (Slot.step_ne rfl).symm (cons_congr (Slot.step_ne rfl).symm (cons_congr (Slot.step_ne rfl).symm (cons_congr (Slot.step_ne rfl).symm (cons_congr ?_ ((Schema.step_other rfl rfl).symm)))))))))), ?_⟩
    all_goals first | exact hi | msg_field | (simp_all [St.Inv]; done)
  case HopCounter j =>
    simp only [step]
    repeat' split
    all_goals refine ⟨cons_congr (Slot.step_ne rfl).symm (cons_congr (Slot.step_ne rfl).symm (cons_congr (Slot.step_ne rfl).symm (cons_congr (Slot.step_ne rfl).symm (cons_congr (Slot.step_ne rfl).symm (cons_congr (Slot.step_ne rfl).symm (cons_congr (Slot.step_ne rfl).symm (cons_congr (Slot.step_ne rfl).symm (cons_congr (Slot.step_ne rfl).symm (cons_congr (Slot.step_ne rfl).symm (cons_congr ?_ ((Schema.step_other rfl rfl).symm))))))))))), ?_⟩
    all_goals first | exact hi | msg_field | (simp_all [St.Inv]; done)
  case ServingNetwork j =>
    simp only [step]
    repeat' split
    all_goals refine ⟨cons_congr (Slot.step_ne rfl).symm (cons_congr (Slot.step_ne rfl).symm (cons_congr (Slot.step_ne rfl).symm (cons_congr (Slot.step_ne rfl).symm (cons_congr (Slot.step_ne rfl).symm (cons_congr (Slot.step_ne rfl).symm (cons_congr (Slot.step_ne rfl).symm (cons_congr (Slot.step_ne rfl).symm (cons_congr (Slot.step_ne rfl).symm (cons_congr (Slot.step_ne rfl).symm (cons_congr (Slot.step_ne rfl).symm (cons_congr ?_ ((Schema.step_other rfl rfl).symm)))))))))))), ?_⟩
    all_goals first | exact hi | msg_field | (simp_all [St.Inv]; done)
  case Ldn j =>
    simp only [step]
    repeat' split
    all_goals refine ⟨cons_congr (Slot.step_ne rfl).symm (cons_congr (Slot.step_ne rfl).symm (cons_congr (Slot.step_ne rfl).symm (cons_congr (Slot.step_ne rfl).symm (cons_congr (Slot.step_ne rfl).symm (cons_congr (Slot.step_ne rfl).symm (cons_congr (Slot.step_ne rfl).symm (cons_congr (Slot.step_ne rfl).symm (cons_congr (Slot.step_ne rfl).symm (cons_congr (Slot.step_ne rfl).symm (cons_congr (Slot.step_ne rfl).symm (cons_congr (Slot.step_ne rfl).symm (cons_congr ?_ ((Schema.step_other rfl rfl).symm))))))))))))), ?_⟩
    all_goals first | exact hi | msg_field | (simp_all [St.Inv]; done)
  case Fqdn j =>
    simp only [step]
    repeat' split
    all_goals refine ⟨cons_congr (Slot.step_ne rfl).symm (cons_congr (Slot.step_ne rfl).symm (cons_congr (Slot.step_ne rfl).symm (cons_congr (Slot.step_ne rfl).symm (cons_congr (Slot.step_ne rfl).symm (cons_congr (Slot.step_ne rfl).symm (cons_congr (Slot.step_ne rfl).symm (cons_congr (Slot.step_ne rfl).symm (cons_congr (Slot.step_ne rfl).symm (cons_congr (Slot.step_ne rfl).symm (cons_congr (Slot.step_ne rfl).symm (cons_congr (Slot.step_ne rfl).symm (cons_congr (Slot.step_ne rfl).symm (cons_congr ?_ (cons_congr ?_ ((Schema.step_other rfl rfl).symm))))))))))))))), ?_⟩
    all_goals first | exact hi | msg_field | (simp_all [St.Inv]; done)
  case NodeNumber j =>
    simp only [step]
    repeat' split
    all_goals refine ⟨cons_congr (Slot.step_ne rfl).symm (cons_congr (Slot.step_ne rfl).symm (cons_congr (Slot.step_ne rfl).symm (cons_congr (Slot.step_ne rfl).symm (cons_congr (Slot.step_ne rfl).symm (cons_congr (Slot.step_ne rfl).symm (cons_congr (Slot.step_ne rfl).symm (cons_congr (Slot.step_ne rfl).symm (cons_congr (Slot.step_ne rfl).symm (cons_congr (Slot.step_ne rfl).symm (cons_congr (Slot.step_ne rfl).symm (cons_congr (Slot.step_ne rfl).symm (cons_congr (Slot.step_ne rfl).symm (cons_congr (Slot.step_ne rfl).symm (cons_congr (Slot.step_ne rfl).symm (cons_congr ?_ ((Schema.step_other rfl rfl).symm)))))))))))))))), ?_⟩
    all_goals first | exact hi | msg_field | (simp_all [St.Inv]; done)
  case NodeIdentifier j =>
    simp only [step]
    repeat' split
    all_goals refine ⟨cons_congr (Slot.step_ne rfl).symm (cons_congr (Slot.step_ne rfl).symm (cons_congr (Slot.step_ne rfl).symm (cons_congr (Slot.step_ne rfl).symm (cons_congr (Slot.step_ne rfl).symm (cons_congr (Slot.step_ne rfl).symm (cons_congr (Slot.step_ne rfl).symm (cons_congr (Slot.step_ne rfl).symm (cons_congr (Slot.step_ne rfl).symm (cons_congr (Slot.step_ne rfl).symm (cons_congr (Slot.step_ne rfl).symm (cons_congr (Slot.step_ne rfl).symm (cons_congr (Slot.step_ne rfl).symm (cons_congr (Slot.step_ne rfl).symm (cons_congr (Slot.step_ne rfl).symm (cons_congr (Slot.step_ne rfl).symm (cons_congr ?_ (cons_congr ?_ ((Schema.step_other rfl rfl).symm)))))))))))))))))), ?_⟩
    all_goals first | exact hi | msg_field | (simp_all [St.Inv]; done)
  case CIoTOptimizationSupportIndication j =>
    simp only [step]
    repeat' split
    all_goals refine ⟨cons_congr (Slot.step_ne rfl).symm (cons_congr (Slot.step_ne rfl).symm (cons_congr (Slot.step_ne rfl).symm (cons_congr (Slot.step_ne rfl).symm (cons_congr (Slot.step_ne rfl).symm (cons_congr (Slot.step_ne rfl).symm (cons_congr (Slot.step_ne rfl).symm (cons_congr (Slot.step_ne rfl).symm (cons_congr (Slot.step_ne rfl).symm (cons_congr (Slot.step_ne rfl).symm (cons_congr (Slot.step_ne rfl).symm (cons_congr (Slot.step_ne rfl).symm (cons_congr (Slot.step_ne rfl).symm (cons_congr (Slot.step_ne rfl).symm (cons_congr (Slot.step_ne rfl).symm (cons_congr (Slot.step_ne rfl).symm (cons_congr (Slot.step_ne rfl).symm (cons_congr (Slot.step_ne rfl).symm (cons_congr ?_ ((Schema.step_other rfl rfl).symm))))))))))))))))))), ?_⟩
    all_goals first | exact hi | msg_field | (simp_all [St.Inv]; done)
  case PrivateExtension j =>
    simp only [step]
    all_goals refine ⟨cons_congr (Slot.step_ne rfl).symm (cons_congr (Slot.step_ne rfl).symm (cons_congr (Slot.step_ne rfl).symm (cons_congr (Slot.step_ne rfl).symm (cons_congr (Slot.step_ne rfl).symm (cons_congr (Slot.step_ne rfl).symm (cons_congr (Slot.step_ne rfl).symm (cons_congr (Slot.step_ne rfl).symm (cons_congr (Slot.step_ne rfl).symm (cons_congr (Slot.step_ne rfl).symm (cons_congr (Slot.step_ne rfl).symm (cons_congr (Slot.step_ne rfl).symm (cons_congr (Slot.step_ne rfl).symm (cons_congr (Slot.step_ne rfl).symm (cons_congr (Slot.step_ne rfl).symm (cons_congr (Slot.step_ne rfl).symm (cons_congr (Slot.step_ne rfl).symm (cons_congr (Slot.step_ne rfl).symm (cons_congr (Slot.step_ne rfl).symm (cons_congr ?_ (rfl)))))))))))))))))))), ?_⟩
    all_goals first | exact hi | msg_field | (simp_all [St.Inv]; done)
  all_goals exact ⟨(Schema.step_other rfl rfl).symm, hi⟩

theorem loop (h : Header) (els : List IE) :
    (els.foldl step ⟨{ dflt with header := h }⟩).view = schema.map (·.select els) ∧ (els.foldl step ⟨{ dflt with header := h }⟩).Inv h := by
  have := foldl_view (Q := fun _ => True) (fun s e hp _ => step_view h s e hp) els ⟨{ dflt with header := h }⟩ (fun _ _ => trivial) (by simp [St.Inv])
  rw [show St.view ⟨{ dflt with header := h }⟩ = schema.map (fun _ => []) from rfl, Schema.foldl_nil] at this
  exact this

theorem ext {x y : ContextRequest} (hh : x.header = y.header) (h : fields x = fields y) : x = y := by
  cases x; cases y
  simp only at hh
  subst hh
  injection h with h0 h
  cases optV_inj (fun _ _ h => IE.Imsi.inj h) h0
  injection h with h1 h
  cases optV_inj (fun _ _ h => IE.Guti.inj h) h1
  injection h with h2 h
  cases optV_inj (fun _ _ h => IE.Uli.inj h) h2
  injection h with h3 h
  cases optV_inj (fun _ _ h => IE.Ptmsi.inj h) h3
  injection h with h4 h
  cases optV_inj (fun _ _ h => IE.PtmsiSignature.inj h) h4
  injection h with h5 h
  cases optV_inj (fun _ _ h => IE.CompleteRequestMessage.inj h) h5
  injection h with h6 h
  cases optV_inj (fun _ _ h => IE.Fteid.inj h) h6
  injection h with h7 h
  cases optV_inj (fun _ _ h => IE.PortNumber.inj h) h7
  injection h with h8 h
  cases optV_inj (fun _ _ h => IE.RatType.inj h) h8
  injection h with h9 h
  cases optV_inj (fun _ _ h => IE.Indication.inj h) h9
  injection h with h10 h
  cases optV_inj (fun _ _ h => IE.HopCounter.inj h) h10
  injection h with h11 h
  cases optV_inj (fun _ _ h => IE.ServingNetwork.inj h) h11
  injection h with h12 h
  cases optV_inj (fun _ _ h => IE.Ldn.inj h) h12
  injection h with h13 h
  cases optV_inj (fun _ _ h => IE.Fqdn.inj h) h13
  injection h with h14 h
  cases optV_inj (fun _ _ h => IE.Fqdn.inj h) h14
  injection h with h15 h
  cases optV_inj (fun _ _ h => IE.NodeNumber.inj h) h15
  injection h with h16 h
  cases optV_inj (fun _ _ h => IE.NodeIdentifier.inj h) h16
  injection h with h17 h
  cases optV_inj (fun _ _ h => IE.NodeIdentifier.inj h) h17
  injection h with h18 h
  cases optV_inj (fun _ _ h => IE.CIoTOptimizationSupportIndication.inj h) h18
  injection h with h19 h
  cases map_inj (fun _ _ h => IE.PrivateExtension.inj h) h19
  rfl

theorem mand : schema.filter (·.card.mandatory) = [] := rfl

/-- The flags tell which mandatory IEs are absent. -/
theorem flags (h : Header) (els : List IE) : ∃ x , els.foldl step ⟨{ dflt with header := h }⟩ = ⟨x⟩ ∧ St.view ⟨x⟩ = schema.map (·.select els) ∧ x.header = h := by
  obtain ⟨hv, hi⟩ := loop h els
  generalize els.foldl step ⟨{ dflt with header := h }⟩ = s at hv hi ⊢
  obtain ⟨x⟩ := s
  simp only [St.Inv] at hi
  exact ⟨x, rfl, hv, hi⟩

theorem complete (h : Header) (els : List IE) (_hm : schema.missing els = []) : ∃ y, fromvec { dflt with header := h } els = .ok y ∧ y.header = h ∧ fields y = schema.map (·.select els) := by
  obtain ⟨x, hs, hv, hh⟩ := flags h els
  unfold fromvec
  rw [hs]
  exact ⟨x, rfl, hh, hv⟩

theorem describes : Describes codec schema fields where
  header_set _ _ := rfl
  fields_set _ _ := rfl
  ext _ _ hh h := ext hh h
  shape x := Aligned.opt (fun _ => rfl) <| Aligned.opt (fun _ => rfl) <| Aligned.opt (fun _ => rfl) <| Aligned.opt (fun _ => rfl) <| Aligned.opt (fun _ => rfl) <| Aligned.opt (fun _ => rfl) <| Aligned.opt (fun _ => rfl) <| Aligned.opt (fun _ => rfl) <| Aligned.opt (fun _ => rfl) <| Aligned.opt (fun _ => rfl) <| Aligned.opt (fun _ => rfl) <| Aligned.opt (fun _ => rfl) <| Aligned.opt (fun _ => rfl) <| Aligned.opt (fun _ => rfl) <| Aligned.opt (fun _ => rfl) <| Aligned.opt (fun _ => rfl) <| Aligned.opt (fun _ => rfl) <| Aligned.opt (fun _ => rfl) <| Aligned.opt (fun _ => rfl) <| Aligned.many (fun _ => rfl) <| trivial
  tovec x := by simp [codec, tovec, fields]
  complete h els _ hm := complete h els hm

end ContextRequest

end Gtp.V2.Msg
