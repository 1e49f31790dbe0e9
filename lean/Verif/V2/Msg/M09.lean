import Verif.V2.Msg.Tactic

/-!
# GTPv2-C messages, part 9

Generated by `scripts/gen_msgs.py` from the Rust sources: `PgwDownlinkTriggeringAcknowledge`, `PgwDownlinkTriggeringNotification`, `PgwRestartNotification`, `PgwRestartNotificationAcknowledge`, `RanInformationRelay`, `ReleaseAccessBearersRequest`, `ReleaseAccessBearersResponse`, `RelocationCancelRequest`, `RelocationCancelResponse`, `RemoteUeReportAcknowledge`, `RemoteUeReportNotification`, `ResumeAcknowledge`, `ResumeNotification`, `StopPagingIndication`, `SuspendAcknowledge`, `SuspendNotification`, `TraceSessionActivation`, `TraceSessionDeactivation`, `UeActivityAcknowledge`, `UeActivityNotification`, `UeRegistrationQueryRequest`, `UeRegistrationQueryResponse`, `UpdateBearerRequest`.
-/

namespace Gtp.V2.Msg

/-- `PgwDownlinkTriggeringAcknowledge` (pgwdownlinktriggeringacknowledge.rs:15-21). -/
structure PgwDownlinkTriggeringAcknowledge where
  header : Header
  cause : V2.Cause
  imsi : Option V2.Imsi
  mme_sgsn_id : Option V2.IpAddress
  private_ext : List V2.PrivateExtension
deriving DecidableEq

namespace PgwDownlinkTriggeringAcknowledge

/-- `default` (pgwdownlinktriggeringacknowledge.rs:24-36). -/
def dflt : PgwDownlinkTriggeringAcknowledge :=
  { header := { Header.default with msgtype := 104, teid := some 0 }, cause := V2.Cause.dflt, imsi := none, mme_sgsn_id := none, private_ext := [] }

/-- `tovec` (pgwdownlinktriggeringacknowledge.rs:73-91). -/
def tovec (x : PgwDownlinkTriggeringAcknowledge) : List IE :=
  [.Cause x.cause] ++ (
  optV .Imsi x.imsi ++ (
  optV .IpAddress x.mme_sgsn_id ++ (
  x.private_ext.map .PrivateExtension)))

/-- The variables of `fromvec`: the message and the array `mandatory` (pgwdownlinktriggeringacknowledge.rs:93-122). -/
structure St where
  x : PgwDownlinkTriggeringAcknowledge
  m0 : Bool

/-- One turn of the loop of `fromvec` (pgwdownlinktriggeringacknowledge.rs:93-122). -/
def step (s : St) : IE → St
  | .Cause j => if j.ins = 0 ∧ s.m0 = false then { s with x := { s.x with cause := j }, m0 := true } else s
  | .Imsi j => if j.ins = 0 ∧ s.x.imsi.isNone = true then { s with x := { s.x with imsi := some j } } else s
  | .IpAddress j => if j.ins = 0 ∧ s.x.mme_sgsn_id.isNone = true then { s with x := { s.x with mme_sgsn_id := some j } } else s
  | .PrivateExtension j => { s with x := { s.x with private_ext := s.x.private_ext ++ [j] } }
  | _ => s

/-- The end of `fromvec` (pgwdownlinktriggeringacknowledge.rs:93-122). -/
def finish (s : St) : R Err PgwDownlinkTriggeringAcknowledge :=
  if s.m0 then .ok s.x else .err (.messageMandatoryIEMissing 2)

/-- `fromvec` (pgwdownlinktriggeringacknowledge.rs:93-122). -/
def fromvec (x : PgwDownlinkTriggeringAcknowledge) (els : List IE) : R Err PgwDownlinkTriggeringAcknowledge := finish (els.foldl step ⟨x, false⟩)

/-- The message type (pgwdownlinktriggeringacknowledge.rs:40-71). -/
def codec : Codec PgwDownlinkTriggeringAcknowledge :=
  { msgtype := 104, start := some 12, dflt, header := header, setHeader := fun x h => { x with header := h }, tovec, fromvec }

/-- One slot per field. -/
def schema : Schema :=
  [⟨.Cause, .is 0, .one⟩,
   ⟨.Imsi, .is 0, .opt⟩,
   ⟨.IpAddress, .is 0, .opt⟩,
   ⟨.PrivateExtension, .any, .many⟩]

/-- The fields as lists of IEs. -/
def fields (x : PgwDownlinkTriggeringAcknowledge) : List (List IE) :=
  [[.Cause x.cause],
   optV .Imsi x.imsi,
   optV .IpAddress x.mme_sgsn_id,
   x.private_ext.map .PrivateExtension]

/-- What the state has collected so far. -/
def St.view (s : St) : List (List IE) :=
  [if s.m0 then [.Cause s.x.cause] else [],
   optV .Imsi s.x.imsi,
   optV .IpAddress s.x.mme_sgsn_id,
   s.x.private_ext.map .PrivateExtension]

/-- The header is left alone; flags of mandatory lists tell whether the list is empty. -/
def St.Inv (h : Header) (s : St) : Prop :=
  s.x.header = h

theorem step_view (h : Header) (s : St) (e : IE) (hi : s.Inv h) : (step s e).view = Schema.step schema s.view e ∧ (step s e).Inv h := by
  cases e
  case Cause j =>
    simp only [step]
    repeat' split
    all_goals refine ⟨cons_congr ?_ ((Schema.step_other rfl rfl).symm), ?_⟩
    all_goals first | exact hi | msg_field | (simp_all [St.Inv]; done)
  case Imsi j =>
    simp only [step]
    repeat' split
    all_goals refine ⟨cons_congr (Slot.step_ne rfl).symm (cons_congr ?_ ((Schema.step_other rfl rfl).symm)), ?_⟩
    all_goals first | exact hi | msg_field | (simp_all [St.Inv]; done)
  case IpAddress j =>
    simp only [step]
    repeat' split
    all_goals refine ⟨cons_congr (Slot.step_ne rfl).symm (cons_congr (Slot.step_ne rfl).symm (cons_congr ?_ ((Schema.step_other rfl rfl).symm))), ?_⟩
    all_goals first | exact hi | msg_field | (simp_all [St.Inv]; done)
  case PrivateExtension j =>
    simp only [step]
    all_goals refine ⟨cons_congr (Slot.step_ne rfl).symm (cons_congr (Slot.step_ne rfl).symm (cons_congr (Slot.step_ne rfl).symm (cons_congr ?_ (rfl)))), ?_⟩
    all_goals first | exact hi | msg_field | (simp_all [St.Inv]; done)
  all_goals exact ⟨(Schema.step_other rfl rfl).symm, hi⟩

theorem loop (h : Header) (els : List IE) :
    (els.foldl step ⟨{ dflt with header := h }, false⟩).view = schema.map (·.select els) ∧ (els.foldl step ⟨{ dflt with header := h }, false⟩).Inv h := by
  have := foldl_view (Q := fun _ => True) (fun s e hp _ => step_view h s e hp) els ⟨{ dflt with header := h }, false⟩ (fun _ _ => trivial) (by simp [St.Inv])
  rw [show St.view ⟨{ dflt with header := h }, false⟩ = schema.map (fun _ => []) from rfl, Schema.foldl_nil] at this
  exact this

theorem ext {x y : PgwDownlinkTriggeringAcknowledge} (hh : x.header = y.header) (h : fields x = fields y) : x = y := by
  cases x; cases y
  simp only at hh
  subst hh
  injection h with h0 h
  cases h0
  injection h with h1 h
  cases optV_inj (fun _ _ h => IE.Imsi.inj h) h1
  injection h with h2 h
  cases optV_inj (fun _ _ h => IE.IpAddress.inj h) h2
  injection h with h3 h
  cases map_inj (fun _ _ h => IE.PrivateExtension.inj h) h3
  rfl

theorem mand : schema.filter (·.card.mandatory) = [(⟨.Cause, .is 0, .one⟩ : Slot)] := rfl

/-- The flags tell which mandatory IEs are absent. -/
theorem flags (h : Header) (els : List IE) : ∃ x m0, els.foldl step ⟨{ dflt with header := h }, false⟩ = ⟨x, m0⟩ ∧ St.view ⟨x, m0⟩ = schema.map (·.select els) ∧ x.header = h ∧
    (⟨.Cause, .is 0, .one⟩ : Slot).lacks els = (!m0) := by
  obtain ⟨hv, hi⟩ := loop h els
  generalize els.foldl step ⟨{ dflt with header := h }, false⟩ = s at hv hi ⊢
  obtain ⟨x, m0⟩ := s
  simp only [St.Inv] at hi
  have l0 : (⟨.Cause, .is 0, .one⟩ : Slot).lacks els = (!m0) := by
    rw [Slot.lacks_eq els rfl]
    have e := congrArg (fun l => l.getD 0 []) hv
    rw [show (⟨.Cause, .is 0, .one⟩ : Slot).select els = if m0 then [.Cause x.cause] else [] from e.symm]
    cases m0 <;> rfl
  exact ⟨x, m0, rfl, hv, hi, l0⟩

theorem complete (h : Header) (els : List IE) (hm : schema.missing els = []) : ∃ y, fromvec { dflt with header := h } els = .ok y ∧ y.header = h ∧ fields y = schema.map (·.select els) := by
  obtain ⟨x, m0, hs, hv, hh, l0⟩ := flags h els
  unfold fromvec
  rw [hs]
  dsimp only [finish]
  have f0 := l0.symm.trans (Schema.of_missing_nil mand (by simp) hm)
  cases m0 <;> first | exact ⟨x, rfl, hh, hv⟩ | contradiction

theorem describes : Describes codec schema fields where
  header_set _ _ := rfl
  fields_set _ _ := rfl
  ext _ _ hh h := ext hh h
  shape x := Aligned.one (fun _ => rfl) <| Aligned.opt (fun _ => rfl) <| Aligned.opt (fun _ => rfl) <| Aligned.many (fun _ => rfl) <| trivial
  tovec x := by simp [codec, tovec, fields]
  complete h els _ hm := complete h els hm

theorem reports (h : Header) (els : List IE) (hm : schema.missing els ≠ []) :
    ∃ s ∈ schema.missing els, ∃ t, fromvec { dflt with header := h } els = .err (.messageMandatoryIEMissing t) ∧ kindOf t = s.kind := by
  obtain ⟨x, m0, hs, hv, hh, l0⟩ := flags h els
  unfold fromvec
  rw [hs]
  dsimp only [finish]
  cases m0 <;>
    first | exact ⟨_, Schema.mem_missing mand (by simp) l0, _, rfl, rfl⟩ | exact absurd (Schema.missing_nil mand (by simp [l0])) hm

theorem settled (h : Header) (els els' : List IE) (he : ∀ s ∈ schema, s.card.mandatory = true → s.lacks els = s.lacks els')
    (hm : schema.missing els ≠ []) : fromvec { dflt with header := h } els = fromvec { dflt with header := h } els' := by
  obtain ⟨x, m0, hs, hv, hh, l0⟩ := flags h els
  obtain ⟨x', m0', hs', hv', hh', l0'⟩ := flags h els'
  unfold fromvec
  rw [hs, hs']
  obtain rfl := Bool.not_inj (l0.symm.trans ((he _ (by decide) rfl).trans l0'))
  dsimp only [finish]
  cases m0 <;>
    first | rfl | exact absurd (Schema.missing_nil mand (by simp [l0])) hm

end PgwDownlinkTriggeringAcknowledge

/-- `PgwDownlinkTriggeringNotification` (pgwdownlinktriggeringnotification.rs:15-21). -/
structure PgwDownlinkTriggeringNotification where
  header : Header
  imsi : V2.Imsi
  mme_sgsn_id : Option V2.IpAddress
  pgw_fteid : Option V2.Fteid
  private_ext : List V2.PrivateExtension
deriving DecidableEq

namespace PgwDownlinkTriggeringNotification

/-- `default` (pgwdownlinktriggeringnotification.rs:24-36). -/
def dflt : PgwDownlinkTriggeringNotification :=
  { header := { Header.default with msgtype := 103, teid := some 0 }, imsi := V2.Imsi.dflt, mme_sgsn_id := none, pgw_fteid := none, private_ext := [] }

/-- `tovec` (pgwdownlinktriggeringnotification.rs:73-91). -/
def tovec (x : PgwDownlinkTriggeringNotification) : List IE :=
  [.Imsi x.imsi] ++ (
  optV .IpAddress x.mme_sgsn_id ++ (
  optV .Fteid x.pgw_fteid ++ (
  x.private_ext.map .PrivateExtension)))

/-- The variables of `fromvec`: the message and the array `mandatory` (pgwdownlinktriggeringnotification.rs:93-122). -/
structure St where
  x : PgwDownlinkTriggeringNotification
  m0 : Bool

/-- One turn of the loop of `fromvec` (pgwdownlinktriggeringnotification.rs:93-122). -/
def step (s : St) : IE → St
  | .Imsi j => if j.ins = 0 ∧ s.m0 = false then { s with x := { s.x with imsi := j }, m0 := true } else s
  | .IpAddress j => if j.ins = 0 ∧ s.x.mme_sgsn_id.isNone = true then { s with x := { s.x with mme_sgsn_id := some j } } else s
  | .Fteid j => if j.ins = 0 ∧ s.x.pgw_fteid.isNone = true then { s with x := { s.x with pgw_fteid := some j } } else s
  | .PrivateExtension j => { s with x := { s.x with private_ext := s.x.private_ext ++ [j] } }
  | _ => s

/-- The end of `fromvec` (pgwdownlinktriggeringnotification.rs:93-122). -/
def finish (s : St) : R Err PgwDownlinkTriggeringNotification :=
  if s.m0 then .ok s.x else .err (.messageMandatoryIEMissing 1)

/-- `fromvec` (pgwdownlinktriggeringnotification.rs:93-122). -/
def fromvec (x : PgwDownlinkTriggeringNotification) (els : List IE) : R Err PgwDownlinkTriggeringNotification := finish (els.foldl step ⟨x, false⟩)

/-- The message type (pgwdownlinktriggeringnotification.rs:40-71). -/
def codec : Codec PgwDownlinkTriggeringNotification :=
  { msgtype := 103, start := some 12, dflt, header := header, setHeader := fun x h => { x with header := h }, tovec, fromvec }

/-- One slot per field. -/
def schema : Schema :=
  [⟨.Imsi, .is 0, .one⟩,
   ⟨.IpAddress, .is 0, .opt⟩,
   ⟨.Fteid, .is 0, .opt⟩,
   ⟨.PrivateExtension, .any, .many⟩]

/-- The fields as lists of IEs. -/
def fields (x : PgwDownlinkTriggeringNotification) : List (List IE) :=
  [[.Imsi x.imsi],
   optV .IpAddress x.mme_sgsn_id,
   optV .Fteid x.pgw_fteid,
   x.private_ext.map .PrivateExtension]

/-- What the state has collected so far. -/
def St.view (s : St) : List (List IE) :=
  [if s.m0 then [.Imsi s.x.imsi] else [],
   optV .IpAddress s.x.mme_sgsn_id,
   optV .Fteid s.x.pgw_fteid,
   s.x.private_ext.map .PrivateExtension]

/-- The header is left alone; flags of mandatory lists tell whether the list is empty. -/
def St.Inv (h : Header) (s : St) : Prop :=
  s.x.header = h

theorem step_view (h : Header) (s : St) (e : IE) (hi : s.Inv h) : (step s e).view = Schema.step schema s.view e ∧ (step s e).Inv h := by
  cases e
  case Imsi j =>
    simp only [step]
    repeat' split
    all_goals refine ⟨cons_congr ?_ ((Schema.step_other rfl rfl).symm), ?_⟩
    all_goals first | exact hi | msg_field | (simp_all [St.Inv]; done)
  case IpAddress j =>
    simp only [step]
    repeat' split
    all_goals refine ⟨cons_congr (Slot.step_ne rfl).symm (cons_congr ?_ ((Schema.step_other rfl rfl).symm)), ?_⟩
    all_goals first | exact hi | msg_field | (simp_all [St.Inv]; done)
  case Fteid j =>
    simp only [step]
    repeat' split
    all_goals refine ⟨cons_congr (Slot.step_ne rfl).symm (cons_congr (Slot.step_ne rfl).symm (cons_congr ?_ ((Schema.step_other rfl rfl).symm))), ?_⟩
    all_goals first | exact hi | msg_field | (simp_all [St.Inv]; done)
  case PrivateExtension j =>
    simp only [step]
    all_goals refine ⟨cons_congr (Slot.step_ne rfl).symm (cons_congr (Slot.step_ne rfl).symm (cons_congr (Slot.step_ne rfl).symm (cons_congr ?_ (rfl)))), ?_⟩
    all_goals first | exact hi | msg_field | (simp_all [St.Inv]; done)
  all_goals exact ⟨(Schema.step_other rfl rfl).symm, hi⟩

theorem loop (h : Header) (els : List IE) :
    (els.foldl step ⟨{ dflt with header := h }, false⟩).view = schema.map (·.select els) ∧ (els.foldl step ⟨{ dflt with header := h }, false⟩).Inv h := by
  have := foldl_view (Q := fun _ => True) (fun s e hp _ => step_view h s e hp) els ⟨{ dflt with header := h }, false⟩ (fun _ _ => trivial) (by simp [St.Inv])
  rw [show St.view ⟨{ dflt with header := h }, false⟩ = schema.map (fun _ => []) from rfl, Schema.foldl_nil] at this
  exact this

theorem ext {x y : PgwDownlinkTriggeringNotification} (hh : x.header = y.header) (h : fields x = fields y) : x = y := by
  cases x; cases y
  simp only at hh
  subst hh
  injection h with h0 h
  cases h0
  injection h with h1 h
  cases optV_inj (fun _ _ h => IE.IpAddress.inj h) h1
  injection h with h2 h
  cases optV_inj (fun _ _ h => IE.Fteid.inj h) h2
  injection h with h3 h
  cases map_inj (fun _ _ h => IE.PrivateExtension.inj h) h3
  rfl

theorem mand : schema.filter (·.card.mandatory) = [(⟨.Imsi, .is 0, .one⟩ : Slot)] := rfl

/-- The flags tell which mandatory IEs are absent. -/
theorem flags (h : Header) (els : List IE) : ∃ x m0, els.foldl step ⟨{ dflt with header := h }, false⟩ = ⟨x, m0⟩ ∧ St.view ⟨x, m0⟩ = schema.map (·.select els) ∧ x.header = h ∧
    (⟨.Imsi, .is 0, .one⟩ : Slot).lacks els = (!m0) := by
  obtain ⟨hv, hi⟩ := loop h els
  generalize els.foldl step ⟨{ dflt with header := h }, false⟩ = s at hv hi ⊢
  obtain ⟨x, m0⟩ := s
  simp only [St.Inv] at hi
  have l0 : (⟨.Imsi, .is 0, .one⟩ : Slot).lacks els = (!m0) := by
    rw [Slot.lacks_eq els rfl]
    have e := congrArg (fun l => l.getD 0 []) hv
    rw [show (⟨.Imsi, .is 0, .one⟩ : Slot).select els = if m0 then [.Imsi x.imsi] else [] from e.symm]
    cases m0 <;> rfl
  exact ⟨x, m0, rfl, hv, hi, l0⟩

theorem complete (h : Header) (els : List IE) (hm : schema.missing els = []) : ∃ y, fromvec { dflt with header := h } els = .ok y ∧ y.header = h ∧ fields y = schema.map (·.select els) := by
  obtain ⟨x, m0, hs, hv, hh, l0⟩ := flags h els
  unfold fromvec
  rw [hs]
  dsimp only [finish]
  have f0 := l0.symm.trans (Schema.of_missing_nil mand (by simp) hm)
  cases m0 <;> first | exact ⟨x, rfl, hh, hv⟩ | contradiction

theorem describes : Describes codec schema fields where
  header_set _ _ := rfl
  fields_set _ _ := rfl
  ext _ _ hh h := ext hh h
  shape x := Aligned.one (fun _ => rfl) <| Aligned.opt (fun _ => rfl) <| Aligned.opt (fun _ => rfl) <| Aligned.many (fun _ => rfl) <| trivial
  tovec x := by simp [codec, tovec, fields]
  complete h els _ hm := complete h els hm

theorem reports (h : Header) (els : List IE) (hm : schema.missing els ≠ []) :
    ∃ s ∈ schema.missing els, ∃ t, fromvec { dflt with header := h } els = .err (.messageMandatoryIEMissing t) ∧ kindOf t = s.kind := by
  obtain ⟨x, m0, hs, hv, hh, l0⟩ := flags h els
  unfold fromvec
  rw [hs]
  dsimp only [finish]
  cases m0 <;>
    first | exact ⟨_, Schema.mem_missing mand (by simp) l0, _, rfl, rfl⟩ | exact absurd (Schema.missing_nil mand (by simp [l0])) hm

theorem settled (h : Header) (els els' : List IE) (he : ∀ s ∈ schema, s.card.mandatory = true → s.lacks els = s.lacks els')
    (hm : schema.missing els ≠ []) : fromvec { dflt with header := h } els = fromvec { dflt with header := h } els' := by
  obtain ⟨x, m0, hs, hv, hh, l0⟩ := flags h els
  obtain ⟨x', m0', hs', hv', hh', l0'⟩ := flags h els'
  unfold fromvec
  rw [hs, hs']
  obtain rfl := Bool.not_inj (l0.symm.trans ((he _ (by decide) rfl).trans l0'))
  dsimp only [finish]
  cases m0 <;>
    first | rfl | exact absurd (Schema.missing_nil mand (by simp [l0])) hm

end PgwDownlinkTriggeringNotification

/-- `PgwRestartNotification` (pgwrestartnotification.rs:15-21). -/
structure PgwRestartNotification where
  header : Header
  pgw_addr_control : V2.IpAddress
  sgw_addr_control : V2.IpAddress
  cause : Option V2.Cause
  private_ext : List V2.PrivateExtension
deriving DecidableEq

namespace PgwRestartNotification

/-- `default` (pgwrestartnotification.rs:24-36). -/
def dflt : PgwRestartNotification :=
  { header := { Header.default with msgtype := 180, teid := some 0 }, pgw_addr_control := V2.IpAddress.dflt, sgw_addr_control := V2.IpAddress.dflt, cause := none, private_ext := [] }

/-- `tovec` (pgwrestartnotification.rs:73-88). -/
def tovec (x : PgwRestartNotification) : List IE :=
  [.IpAddress x.pgw_addr_control] ++ (
  [.IpAddress x.sgw_addr_control] ++ (
  optV .Cause x.cause ++ (
  x.private_ext.map .PrivateExtension)))

/-- The variables of `fromvec`: the message and the array `mandatory` (pgwrestartnotification.rs:90-119). -/
structure St where
  x : PgwRestartNotification
  m0 : Bool
  m1 : Bool

/-- One turn of the loop of `fromvec` (pgwrestartnotification.rs:90-119). -/
def step (s : St) : IE → St
  | .IpAddress j => if j.ins = 0 ∧ s.m0 = false then { s with x := { s.x with pgw_addr_control := j }, m0 := true } else if j.ins = 1 ∧ s.m1 = false then { s with x := { s.x with sgw_addr_control := j }, m1 := true } else s
  | .Cause j => if j.ins = 0 then { s with x := { s.x with cause := some j } } else s
  | .PrivateExtension j => { s with x := { s.x with private_ext := s.x.private_ext ++ [j] } }
  | _ => s

/-- The end of `fromvec` (pgwrestartnotification.rs:90-119). -/
def finish (s : St) : R Err PgwRestartNotification :=
  if s.m0 && s.m1 then .ok s.x else .err (.messageMandatoryIEMissing 74)

/-- `fromvec` (pgwrestartnotification.rs:90-119). -/
def fromvec (x : PgwRestartNotification) (els : List IE) : R Err PgwRestartNotification := finish (els.foldl step ⟨x, false, false⟩)

/-- The message type (pgwrestartnotification.rs:40-71). -/
def codec : Codec PgwRestartNotification :=
  { msgtype := 180, start := some 12, dflt, header := header, setHeader := fun x h => { x with header := h }, tovec, fromvec }

/-- One slot per field. -/
def schema : Schema :=
  [⟨.IpAddress, .is 0, .one⟩,
   ⟨.IpAddress, .is 1, .one⟩,
   ⟨.Cause, .is 0, .optLast⟩,
   ⟨.PrivateExtension, .any, .many⟩]

/-- The fields as lists of IEs. -/
def fields (x : PgwRestartNotification) : List (List IE) :=
  [[.IpAddress x.pgw_addr_control],
   [.IpAddress x.sgw_addr_control],
   optV .Cause x.cause,
   x.private_ext.map .PrivateExtension]

/-- What the state has collected so far. -/
def St.view (s : St) : List (List IE) :=
  [if s.m0 then [.IpAddress s.x.pgw_addr_control] else [],
   if s.m1 then [.IpAddress s.x.sgw_addr_control] else [],
   optV .Cause s.x.cause,
   s.x.private_ext.map .PrivateExtension]

/-- The header is left alone; flags of mandatory lists tell whether the list is empty. -/
def St.Inv (h : Header) (s : St) : Prop :=
  s.x.header = h

theorem step_view (h : Header) (s : St) (e : IE) (hi : s.Inv h) : (step s e).view = Schema.step schema s.view e ∧ (step s e).Inv h := by
  cases e
  case IpAddress j =>
    simp only [step]
    repeat' split
    all_goals refine ⟨cons_congr ?_ (cons_congr ?_ ((Schema.step_other rfl rfl).symm)), ?_⟩
    all_goals first | exact hi | msg_field | (simp_all [St.Inv]; done)
  case Cause j =>
    simp only [step]
    repeat' split
    all_goals refine ⟨cons_congr (Slot.step_ne rfl).symm (cons_congr (Slot.step_ne rfl).symm (cons_congr ?_ ((Schema.step_other rfl rfl).symm))), ?_⟩
    all_goals first | exact hi | msg_field | (simp_all [St.Inv]; done)
  case PrivateExtension j =>
    simp only [step]
    all_goals refine ⟨cons_congr (Slot.step_ne rfl).symm (cons_congr (Slot.step_ne rfl).symm (cons_congr (Slot.step_ne rfl).symm (cons_congr ?_ (rfl)))), ?_⟩
    all_goals first | exact hi | msg_field | (simp_all [St.Inv]; done)
  all_goals exact ⟨(Schema.step_other rfl rfl).symm, hi⟩

theorem loop (h : Header) (els : List IE) :
    (els.foldl step ⟨{ dflt with header := h }, false, false⟩).view = schema.map (·.select els) ∧ (els.foldl step ⟨{ dflt with header := h }, false, false⟩).Inv h := by
  have := foldl_view (Q := fun _ => True) (fun s e hp _ => step_view h s e hp) els ⟨{ dflt with header := h }, false, false⟩ (fun _ _ => trivial) (by simp [St.Inv])
  rw [show St.view ⟨{ dflt with header := h }, false, false⟩ = schema.map (fun _ => []) from rfl, Schema.foldl_nil] at this
  exact this

theorem ext {x y : PgwRestartNotification} (hh : x.header = y.header) (h : fields x = fields y) : x = y := by
  cases x; cases y
  simp only at hh
  subst hh
  injection h with h0 h
  cases h0
  injection h with h1 h
  cases h1
  injection h with h2 h
  cases optV_inj (fun _ _ h => IE.Cause.inj h) h2
  injection h with h3 h
  cases map_inj (fun _ _ h => IE.PrivateExtension.inj h) h3
  rfl

theorem mand : schema.filter (·.card.mandatory) = [(⟨.IpAddress, .is 0, .one⟩ : Slot), (⟨.IpAddress, .is 1, .one⟩ : Slot)] := rfl

/-- The flags tell which mandatory IEs are absent. -/
theorem flags (h : Header) (els : List IE) : ∃ x m0 m1, els.foldl step ⟨{ dflt with header := h }, false, false⟩ = ⟨x, m0, m1⟩ ∧ St.view ⟨x, m0, m1⟩ = schema.map (·.select els) ∧ x.header = h ∧
    (⟨.IpAddress, .is 0, .one⟩ : Slot).lacks els = (!m0) ∧
    (⟨.IpAddress, .is 1, .one⟩ : Slot).lacks els = (!m1) := by
  obtain ⟨hv, hi⟩ := loop h els
  generalize els.foldl step ⟨{ dflt with header := h }, false, false⟩ = s at hv hi ⊢
  obtain ⟨x, m0, m1⟩ := s
  simp only [St.Inv] at hi
  have l0 : (⟨.IpAddress, .is 0, .one⟩ : Slot).lacks els = (!m0) := by
    rw [Slot.lacks_eq els rfl]
    have e := congrArg (fun l => l.getD 0 []) hv
    rw [show (⟨.IpAddress, .is 0, .one⟩ : Slot).select els = if m0 then [.IpAddress x.pgw_addr_control] else [] from e.symm]
    cases m0 <;> rfl
  have l1 : (⟨.IpAddress, .is 1, .one⟩ : Slot).lacks els = (!m1) := by
    rw [Slot.lacks_eq els rfl]
    have e := congrArg (fun l => l.getD 1 []) hv
    rw [show (⟨.IpAddress, .is 1, .one⟩ : Slot).select els = if m1 then [.IpAddress x.sgw_addr_control] else [] from e.symm]
    cases m1 <;> rfl
  exact ⟨x, m0, m1, rfl, hv, hi, l0, l1⟩

theorem complete (h : Header) (els : List IE) (hm : schema.missing els = []) : ∃ y, fromvec { dflt with header := h } els = .ok y ∧ y.header = h ∧ fields y = schema.map (·.select els) := by
  obtain ⟨x, m0, m1, hs, hv, hh, l0, l1⟩ := flags h els
  unfold fromvec
  rw [hs]
  dsimp only [finish]
  have f0 := l0.symm.trans (Schema.of_missing_nil mand (by simp) hm)
  have f1 := l1.symm.trans (Schema.of_missing_nil mand (by simp) hm)
  cases m0 <;> cases m1 <;> first | exact ⟨x, rfl, hh, hv⟩ | contradiction

theorem describes : Describes codec schema fields where
  header_set _ _ := rfl
  fields_set _ _ := rfl
  ext _ _ hh h := ext hh h
  shape x := Aligned.one (fun _ => rfl) <| Aligned.one (fun _ => rfl) <| Aligned.opt (fun _ => rfl) <| Aligned.many (fun _ => rfl) <| trivial
  tovec x := by simp [codec, tovec, fields]
  complete h els _ hm := complete h els hm

theorem reports (h : Header) (els : List IE) (hm : schema.missing els ≠ []) :
    ∃ s ∈ schema.missing els, ∃ t, fromvec { dflt with header := h } els = .err (.messageMandatoryIEMissing t) ∧ kindOf t = s.kind := by
  obtain ⟨x, m0, m1, hs, hv, hh, l0, l1⟩ := flags h els
  unfold fromvec
  rw [hs]
  dsimp only [finish]
  cases m0 <;> cases m1 <;>
    first | exact ⟨_, Schema.mem_missing mand (by simp) l0, _, rfl, rfl⟩ | exact ⟨_, Schema.mem_missing mand (by simp) l1, _, rfl, rfl⟩ | exact absurd (Schema.missing_nil mand (by simp [l0, l1])) hm

theorem settled (h : Header) (els els' : List IE) (he : ∀ s ∈ schema, s.card.mandatory = true → s.lacks els = s.lacks els')
    (hm : schema.missing els ≠ []) : fromvec { dflt with header := h } els = fromvec { dflt with header := h } els' := by
  obtain ⟨x, m0, m1, hs, hv, hh, l0, l1⟩ := flags h els
  obtain ⟨x', m0', m1', hs', hv', hh', l0', l1'⟩ := flags h els'
  unfold fromvec
  rw [hs, hs']
  obtain rfl := Bool.not_inj (l0.symm.trans ((he _ (by decide) rfl).trans l0'))
  obtain rfl := Bool.not_inj (l1.symm.trans ((he _ (by decide) rfl).trans l1'))
  dsimp only [finish]
  cases m0 <;> cases m1 <;>
    first | rfl | exact absurd (Schema.missing_nil mand (by simp [l0, l1])) hm

end PgwRestartNotification

/-- `PgwRestartNotificationAcknowledge` (pgwrestartnotificationacknowledge.rs:15-19). -/
structure PgwRestartNotificationAcknowledge where
  header : Header
  cause : V2.Cause
  private_ext : List V2.PrivateExtension
deriving DecidableEq

namespace PgwRestartNotificationAcknowledge

/-- `default` (pgwrestartnotificationacknowledge.rs:22-32). -/
def dflt : PgwRestartNotificationAcknowledge :=
  { header := { Header.default with msgtype := 180, teid := some 0 }, cause := V2.Cause.dflt, private_ext := [] }

/-- `tovec` (pgwrestartnotificationacknowledge.rs:69-79). -/
def tovec (x : PgwRestartNotificationAcknowledge) : List IE :=
  [.Cause x.cause] ++ (
  x.private_ext.map .PrivateExtension)

/-- The variables of `fromvec`: the message and the array `mandatory` (pgwrestartnotificationacknowledge.rs:81-100). -/
structure St where
  x : PgwRestartNotificationAcknowledge
  m0 : Bool

/-- One turn of the loop of `fromvec` (pgwrestartnotificationacknowledge.rs:81-100). -/
def step (s : St) : IE → St
  | .Cause j => if j.ins = 0 then { s with x := { s.x with cause := j }, m0 := true } else s
  | .PrivateExtension j => { s with x := { s.x with private_ext := s.x.private_ext ++ [j] } }
  | _ => s

/-- The end of `fromvec` (pgwrestartnotificationacknowledge.rs:81-100). -/
def finish (s : St) : R Err PgwRestartNotificationAcknowledge :=
  if s.m0 then .ok s.x else .err (.messageMandatoryIEMissing 2)

/-- `fromvec` (pgwrestartnotificationacknowledge.rs:81-100). -/
def fromvec (x : PgwRestartNotificationAcknowledge) (els : List IE) : R Err PgwRestartNotificationAcknowledge := finish (els.foldl step ⟨x, false⟩)

/-- The message type (pgwrestartnotificationacknowledge.rs:36-67). -/
def codec : Codec PgwRestartNotificationAcknowledge :=
  { msgtype := 180, start := some 12, dflt, header := header, setHeader := fun x h => { x with header := h }, tovec, fromvec }

/-- One slot per field. -/
def schema : Schema :=
  [⟨.Cause, .is 0, .oneLast⟩,
   ⟨.PrivateExtension, .any, .many⟩]

/-- The fields as lists of IEs. -/
def fields (x : PgwRestartNotificationAcknowledge) : List (List IE) :=
  [[.Cause x.cause],
   x.private_ext.map .PrivateExtension]

/-- What the state has collected so far. -/
def St.view (s : St) : List (List IE) :=
  [if s.m0 then [.Cause s.x.cause] else [],
   s.x.private_ext.map .PrivateExtension]

/-- The header is left alone; flags of mandatory lists tell whether the list is empty. -/
def St.Inv (h : Header) (s : St) : Prop :=
  s.x.header = h

theorem step_view (h : Header) (s : St) (e : IE) (hi : s.Inv h) : (step s e).view = Schema.step schema s.view e ∧ (step s e).Inv h := by
  cases e
  case Cause j =>
    simp only [step]
    repeat' split
    all_goals refine ⟨cons_congr ?_ ((Schema.step_other rfl rfl).symm), ?_⟩
    all_goals first | exact hi | msg_field | (simp_all [St.Inv]; done)
  case PrivateExtension j =>
    simp only [step]
    all_goals refine ⟨cons_congr (Slot.step_ne rfl).symm (cons_congr ?_ (rfl)), ?_⟩
    all_goals first | exact hi | msg_field | (simp_all [St.Inv]; done)
  all_goals exact ⟨(Schema.step_other rfl rfl).symm, hi⟩

theorem loop (h : Header) (els : List IE) :
    (els.foldl step ⟨{ dflt with header := h }, false⟩).view = schema.map (·.select els) ∧ (els.foldl step ⟨{ dflt with header := h }, false⟩).Inv h := by
  have := foldl_view (Q := fun _ => True) (fun s e hp _ => step_view h s e hp) els ⟨{ dflt with header := h }, false⟩ (fun _ _ => trivial) (by simp [St.Inv])
  rw [show St.view ⟨{ dflt with header := h }, false⟩ = schema.map (fun _ => []) from rfl, Schema.foldl_nil] at this
  exact this

theorem ext {x y : PgwRestartNotificationAcknowledge} (hh : x.header = y.header) (h : fields x = fields y) : x = y := by
  cases x; cases y
  simp only at hh
  subst hh
  injection h with h0 h
  cases h0
  injection h with h1 h
  cases map_inj (fun _ _ h => IE.PrivateExtension.inj h) h1
  rfl

theorem mand : schema.filter (·.card.mandatory) = [(⟨.Cause, .is 0, .oneLast⟩ : Slot)] := rfl

/-- The flags tell which mandatory IEs are absent. -/
theorem flags (h : Header) (els : List IE) : ∃ x m0, els.foldl step ⟨{ dflt with header := h }, false⟩ = ⟨x, m0⟩ ∧ St.view ⟨x, m0⟩ = schema.map (·.select els) ∧ x.header = h ∧
    (⟨.Cause, .is 0, .oneLast⟩ : Slot).lacks els = (!m0) := by
  obtain ⟨hv, hi⟩ := loop h els
  generalize els.foldl step ⟨{ dflt with header := h }, false⟩ = s at hv hi ⊢
  obtain ⟨x, m0⟩ := s
  simp only [St.Inv] at hi
  have l0 : (⟨.Cause, .is 0, .oneLast⟩ : Slot).lacks els = (!m0) := by
    rw [Slot.lacks_eq els rfl]
    have e := congrArg (fun l => l.getD 0 []) hv
    rw [show (⟨.Cause, .is 0, .oneLast⟩ : Slot).select els = if m0 then [.Cause x.cause] else [] from e.symm]
    cases m0 <;> rfl
  exact ⟨x, m0, rfl, hv, hi, l0⟩

theorem complete (h : Header) (els : List IE) (hm : schema.missing els = []) : ∃ y, fromvec { dflt with header := h } els = .ok y ∧ y.header = h ∧ fields y = schema.map (·.select els) := by
  obtain ⟨x, m0, hs, hv, hh, l0⟩ := flags h els
  unfold fromvec
  rw [hs]
  dsimp only [finish]
  have f0 := l0.symm.trans (Schema.of_missing_nil mand (by simp) hm)
  cases m0 <;> first | exact ⟨x, rfl, hh, hv⟩ | contradiction

theorem describes : Describes codec schema fields where
  header_set _ _ := rfl
  fields_set _ _ := rfl
  ext _ _ hh h := ext hh h
  shape x := Aligned.one (fun _ => rfl) <| Aligned.many (fun _ => rfl) <| trivial
  tovec x := by simp [codec, tovec, fields]
  complete h els _ hm := complete h els hm

theorem reports (h : Header) (els : List IE) (hm : schema.missing els ≠ []) :
    ∃ s ∈ schema.missing els, ∃ t, fromvec { dflt with header := h } els = .err (.messageMandatoryIEMissing t) ∧ kindOf t = s.kind := by
  obtain ⟨x, m0, hs, hv, hh, l0⟩ := flags h els
  unfold fromvec
  rw [hs]
  dsimp only [finish]
  cases m0 <;>
    first | exact ⟨_, Schema.mem_missing mand (by simp) l0, _, rfl, rfl⟩ | exact absurd (Schema.missing_nil mand (by simp [l0])) hm

theorem settled (h : Header) (els els' : List IE) (he : ∀ s ∈ schema, s.card.mandatory = true → s.lacks els = s.lacks els')
    (hm : schema.missing els ≠ []) : fromvec { dflt with header := h } els = fromvec { dflt with header := h } els' := by
  obtain ⟨x, m0, hs, hv, hh, l0⟩ := flags h els
  obtain ⟨x', m0', hs', hv', hh', l0'⟩ := flags h els'
  unfold fromvec
  rw [hs, hs']
  obtain rfl := Bool.not_inj (l0.symm.trans ((he _ (by decide) rfl).trans l0'))
  dsimp only [finish]
  cases m0 <;>
    first | rfl | exact absurd (Schema.missing_nil mand (by simp [l0])) hm

end PgwRestartNotificationAcknowledge

/-- `RanInformationRelay` (raninformationrelay.rs:15-20). -/
structure RanInformationRelay where
  header : Header
  bss_container : V2.Fcause
  rim_routing_addr : Option V2.TargetIdentification
  private_ext : List V2.PrivateExtension
deriving DecidableEq

namespace RanInformationRelay

/-- `default` (raninformationrelay.rs:23-34). -/
def dflt : RanInformationRelay :=
  { header := { Header.default with msgtype := 152, teid := some 0 }, bss_container := V2.Fcause.dflt, rim_routing_addr := none, private_ext := [] }

/-- `tovec` (raninformationrelay.rs:71-85). -/
def tovec (x : RanInformationRelay) : List IE :=
  [.Fcause x.bss_container] ++ (
  optV .TargetIdentification x.rim_routing_addr ++ (
  x.private_ext.map .PrivateExtension))

/-- The variables of `fromvec`: the message and the array `mandatory` (raninformationrelay.rs:87-111). -/
structure St where
  x : RanInformationRelay
  m0 : Bool

/-- One turn of the loop of `fromvec` (raninformationrelay.rs:87-111). -/
def step (s : St) : IE → St
  | .Fcause j => if j.ins = 0 ∧ s.m0 = false then { s with x := { s.x with bss_container := j }, m0 := true } else s
  | .TargetIdentification j => if j.ins = 0 ∧ s.x.rim_routing_addr.isNone = true then { s with x := { s.x with rim_routing_addr := some j } } else s
  | .PrivateExtension j => { s with x := { s.x with private_ext := s.x.private_ext ++ [j] } }
  | _ => s

/-- The end of `fromvec` (raninformationrelay.rs:87-111). -/
def finish (s : St) : R Err RanInformationRelay :=
  if s.m0 then .ok s.x else .err (.messageMandatoryIEMissing 119)

/-- `fromvec` (raninformationrelay.rs:87-111). -/
def fromvec (x : RanInformationRelay) (els : List IE) : R Err RanInformationRelay := finish (els.foldl step ⟨x, false⟩)

/-- The message type (raninformationrelay.rs:38-69). -/
def codec : Codec RanInformationRelay :=
  { msgtype := 152, start := some 12, dflt, header := header, setHeader := fun x h => { x with header := h }, tovec, fromvec }

/-- One slot per field. -/
def schema : Schema :=
  [⟨.Fcause, .is 0, .one⟩,
   ⟨.TargetIdentification, .is 0, .opt⟩,
   ⟨.PrivateExtension, .any, .many⟩]

/-- The fields as lists of IEs. -/
def fields (x : RanInformationRelay) : List (List IE) :=
  [[.Fcause x.bss_container],
   optV .TargetIdentification x.rim_routing_addr,
   x.private_ext.map .PrivateExtension]

/-- What the state has collected so far. -/
def St.view (s : St) : List (List IE) :=
  [if s.m0 then [.Fcause s.x.bss_container] else [],
   optV .TargetIdentification s.x.rim_routing_addr,
   s.x.private_ext.map .PrivateExtension]

/-- The header is left alone; flags of mandatory lists tell whether the list is empty. -/
def St.Inv (h : Header) (s : St) : Prop :=
  s.x.header = h

theorem step_view (h : Header) (s : St) (e : IE) (hi : s.Inv h) : (step s e).view = Schema.step schema s.view e ∧ (step s e).Inv h := by
  cases e
  case Fcause j =>
    simp only [step]
    repeat' split
    all_goals refine ⟨cons_congr ?_ ((Schema.step_other rfl rfl).symm), ?_⟩
    all_goals first | exact hi | msg_field | (simp_all [St.Inv]; done)
  case TargetIdentification j =>
    simp only [step]
    repeat' split
    all_goals refine ⟨cons_congr (Slot.step_ne rfl).symm (cons_congr ?_ ((Schema.step_other rfl rfl).symm)), ?_⟩
    all_goals first | exact hi | msg_field | (simp_all [St.Inv]; done)
  case PrivateExtension j =>
    simp only [step]
    all_goals refine ⟨cons_congr (Slot.step_ne rfl).symm (cons_congr (Slot.step_ne rfl).symm (cons_congr ?_ (rfl))), ?_⟩
    all_goals first | exact hi | msg_field | (simp_all [St.Inv]; done)
  all_goals exact ⟨(Schema.step_other rfl rfl).symm, hi⟩

theorem loop (h : Header) (els : List IE) :
    (els.foldl step ⟨{ dflt with header := h }, false⟩).view = schema.map (·.select els) ∧ (els.foldl step ⟨{ dflt with header := h }, false⟩).Inv h := by
  have := foldl_view (Q := fun _ => True) (fun s e hp _ => step_view h s e hp) els ⟨{ dflt with header := h }, false⟩ (fun _ _ => trivial) (by simp [St.Inv])
  rw [show St.view ⟨{ dflt with header := h }, false⟩ = schema.map (fun _ => []) from rfl, Schema.foldl_nil] at this
  exact this

theorem ext {x y : RanInformationRelay} (hh : x.header = y.header) (h : fields x = fields y) : x = y := by
  cases x; cases y
  simp only at hh
  subst hh
  injection h with h0 h
  cases h0
  injection h with h1 h
  cases optV_inj (fun _ _ h => IE.TargetIdentification.inj h) h1
  injection h with h2 h
  cases map_inj (fun _ _ h => IE.PrivateExtension.inj h) h2
  rfl

theorem mand : schema.filter (·.card.mandatory) = [(⟨.Fcause, .is 0, .one⟩ : Slot)] := rfl

/-- The flags tell which mandatory IEs are absent. -/
theorem flags (h : Header) (els : List IE) : ∃ x m0, els.foldl step ⟨{ dflt with header := h }, false⟩ = ⟨x, m0⟩ ∧ St.view ⟨x, m0⟩ = schema.map (·.select els) ∧ x.header = h ∧
    (⟨.Fcause, .is 0, .one⟩ : Slot).lacks els = (!m0) := by
  obtain ⟨hv, hi⟩ := loop h els
  generalize els.foldl step ⟨{ dflt with header := h }, false⟩ = s at hv hi ⊢
  obtain ⟨x, m0⟩ := s
  simp only [St.Inv] at hi
  have l0 : (⟨.Fcause, .is 0, .one⟩ : Slot).lacks els = (!m0) := by
    rw [Slot.lacks_eq els rfl]
    have e := congrArg (fun l => l.getD 0 []) hv
    rw [show (⟨.Fcause, .is 0, .one⟩ : Slot).select els = if m0 then [.Fcause x.bss_container] else [] from e.symm]
    cases m0 <;> rfl
  exact ⟨x, m0, rfl, hv, hi, l0⟩

theorem complete (h : Header) (els : List IE) (hm : schema.missing els = []) : ∃ y, fromvec { dflt with header := h } els = .ok y ∧ y.header = h ∧ fields y = schema.map (·.select els) := by
  obtain ⟨x, m0, hs, hv, hh, l0⟩ := flags h els
  unfold fromvec
  rw [hs]
  dsimp only [finish]
  have f0 := l0.symm.trans (Schema.of_missing_nil mand (by simp) hm)
  cases m0 <;> first | exact ⟨x, rfl, hh, hv⟩ | contradiction

theorem describes : Describes codec schema fields where
  header_set _ _ := rfl
  fields_set _ _ := rfl
  ext _ _ hh h := ext hh h
  shape x := Aligned.one (fun _ => rfl) <| Aligned.opt (fun _ => rfl) <| Aligned.many (fun _ => rfl) <| trivial
  tovec x := by simp [codec, tovec, fields]
  complete h els _ hm := complete h els hm

theorem reports (h : Header) (els : List IE) (hm : schema.missing els ≠ []) :
    ∃ s ∈ schema.missing els, ∃ t, fromvec { dflt with header := h } els = .err (.messageMandatoryIEMissing t) ∧ kindOf t = s.kind := by
  obtain ⟨x, m0, hs, hv, hh, l0⟩ := flags h els
  unfold fromvec
  rw [hs]
  dsimp only [finish]
  cases m0 <;>
    first | exact ⟨_, Schema.mem_missing mand (by simp) l0, _, rfl, rfl⟩ | exact absurd (Schema.missing_nil mand (by simp [l0])) hm

theorem settled (h : Header) (els els' : List IE) (he : ∀ s ∈ schema, s.card.mandatory = true → s.lacks els = s.lacks els')
    (hm : schema.missing els ≠ []) : fromvec { dflt with header := h } els = fromvec { dflt with header := h } els' := by
  obtain ⟨x, m0, hs, hv, hh, l0⟩ := flags h els
  obtain ⟨x', m0', hs', hv', hh', l0'⟩ := flags h els'
  unfold fromvec
  rw [hs, hs']
  obtain rfl := Bool.not_inj (l0.symm.trans ((he _ (by decide) rfl).trans l0'))
  dsimp only [finish]
  cases m0 <;>
    first | rfl | exact absurd (Schema.missing_nil mand (by simp [l0])) hm

end RanInformationRelay

/-- `ReleaseAccessBearersRequest` (releaseaccessbearersreq.rs:15-23). -/
structure ReleaseAccessBearersRequest where
  header : Header
  list_rabs : List V2.Ebi
  orig_node : Option V2.NodeType
  indication : Option V2.Indication
  secondary_rat_usage_report : List V2.SecondaryRatUsageDataReport
  pscellid : Option V2.PSCellId
  private_ext : List V2.PrivateExtension
deriving DecidableEq

namespace ReleaseAccessBearersRequest

/-- `default` (releaseaccessbearersreq.rs:26-41). -/
def dflt : ReleaseAccessBearersRequest :=
  { header := { Header.default with msgtype := 170, teid := some 0 }, list_rabs := [], orig_node := none, indication := none, secondary_rat_usage_report := [], pscellid := none, private_ext := [] }

/-- `tovec` (releaseaccessbearersreq.rs:78-106). -/
def tovec (x : ReleaseAccessBearersRequest) : List IE :=
  x.list_rabs.map .Ebi ++ (
  optV .NodeType x.orig_node ++ (
  optV .Indication x.indication ++ (
  x.secondary_rat_usage_report.map .SecondaryRatUsageDataReport ++ (
  optV .PSCellId x.pscellid ++ (
  x.private_ext.map .PrivateExtension)))))

/-- The variables of `fromvec`: the message and the array `mandatory` (releaseaccessbearersreq.rs:108-141). -/
structure St where
  x : ReleaseAccessBearersRequest

/-- One turn of the loop of `fromvec` (releaseaccessbearersreq.rs:108-141). -/
def step (s : St) : IE → St
  | .Ebi j => if j.ins = 0 then { s with x := { s.x with list_rabs := s.x.list_rabs ++ [j] } } else s
  | .NodeType j => if j.ins = 0 ∧ s.x.orig_node.isNone = true then { s with x := { s.x with orig_node := some j } } else s
  | .Indication j => if j.ins = 0 ∧ s.x.indication.isNone = true then { s with x := { s.x with indication := some j } } else s
  | .SecondaryRatUsageDataReport j => if j.ins = 0 then { s with x := { s.x with secondary_rat_usage_report := s.x.secondary_rat_usage_report ++ [j] } } else s
  | .PSCellId j => if j.ins = 0 ∧ s.x.pscellid.isNone = true then { s with x := { s.x with pscellid := some j } } else s
  | .PrivateExtension j => { s with x := { s.x with private_ext := s.x.private_ext ++ [j] } }
  | _ => s

/-- The end of `fromvec` (releaseaccessbearersreq.rs:108-141). -/
def finish (s : St) : R Err ReleaseAccessBearersRequest :=
  .ok s.x

/-- `fromvec` (releaseaccessbearersreq.rs:108-141). -/
def fromvec (x : ReleaseAccessBearersRequest) (els : List IE) : R Err ReleaseAccessBearersRequest := finish (els.foldl step ⟨x⟩)

/-- The message type (releaseaccessbearersreq.rs:45-76). -/
def codec : Codec ReleaseAccessBearersRequest :=
  { msgtype := 170, start := some 12, dflt, header := header, setHeader := fun x h => { x with header := h }, tovec, fromvec }

/-- One slot per field. -/
def schema : Schema :=
  [⟨.Ebi, .is 0, .many⟩,
   ⟨.NodeType, .is 0, .opt⟩,
   ⟨.Indication, .is 0, .opt⟩,
   ⟨.SecondaryRatUsageDataReport, .is 0, .many⟩,
   ⟨.PSCellId, .is 0, .opt⟩,
   ⟨.PrivateExtension, .any, .many⟩]

/-- The fields as lists of IEs. -/
def fields (x : ReleaseAccessBearersRequest) : List (List IE) :=
  [x.list_rabs.map .Ebi,
   optV .NodeType x.orig_node,
   optV .Indication x.indication,
   x.secondary_rat_usage_report.map .SecondaryRatUsageDataReport,
   optV .PSCellId x.pscellid,
   x.private_ext.map .PrivateExtension]

/-- What the state has collected so far. -/
def St.view (s : St) : List (List IE) :=
  [s.x.list_rabs.map .Ebi,
   optV .NodeType s.x.orig_node,
   optV .Indication s.x.indication,
   s.x.secondary_rat_usage_report.map .SecondaryRatUsageDataReport,
   optV .PSCellId s.x.pscellid,
   s.x.private_ext.map .PrivateExtension]

/-- The header is left alone; flags of mandatory lists tell whether the list is empty. -/
def St.Inv (h : Header) (s : St) : Prop :=
  s.x.header = h

theorem step_view (h : Header) (s : St) (e : IE) (hi : s.Inv h) : (step s e).view = Schema.step schema s.view e ∧ (step s e).Inv h := by
  cases e
  case Ebi j =>
    simp only [step]
    repeat' split
    all_goals refine ⟨cons_congr ?_ ((Schema.step_other rfl rfl).symm), ?_⟩
    all_goals first | exact hi | msg_field | (simp_all [St.Inv]; done)
  case NodeType j =>
    simp only [step]
    repeat' split
    all_goals refine ⟨cons_congr (Slot.step_ne rfl).symm (cons_congr ?_ ((Schema.step_other rfl rfl).symm)), ?_⟩
    all_goals first | exact hi | msg_field | (simp_all [St.Inv]; done)
  case Indication j =>
    simp only [step]
    repeat' split
    all_goals refine ⟨cons_congr (Slot.step_ne rfl).symm (cons_congr (Slot.step_ne rfl).symm (cons_congr ?_ ((Schema.step_other rfl rfl).symm))), ?_⟩
    all_goals first | exact hi | msg_field | (simp_all [St.Inv]; done)
  case SecondaryRatUsageDataReport j =>
    simp only [step]
    repeat' split
    all_goals refine ⟨cons_congr (Slot.step_ne rfl).symm (cons_congr (Slot.step_ne rfl).symm (cons_congr (Slot.step_ne rfl).symm (cons_congr ?_ ((Schema.step_other rfl rfl).symm)))), ?_⟩
    all_goals first | exact hi | msg_field | (simp_all [St.Inv]; done)
  case PSCellId j =>
    simp only [step]
    repeat' split
    all_goals refine ⟨cons_congr (Slot.step_ne rfl).symm (cons_congr (Slot.step_ne rfl).symm (cons_congr (Slot.step_ne rfl).symm (cons_congr (Slot.step_ne rfl).symm (cons_congr ?_ ((Schema.step_other rfl rfl).symm))))), ?_⟩
    all_goals first | exact hi | msg_field | (simp_all [St.Inv]; done)
  case PrivateExtension j =>
    simp only [step]
    all_goals refine ⟨cons_congr (Slot.step_ne rfl).symm (cons_congr (Slot.step_ne rfl).symm (cons_congr (Slot.step_ne rfl).symm (cons_congr (Slot.step_ne rfl).symm (cons_congr (Slot.step_ne rfl).symm (cons_congr ?_ (rfl)))))), ?_⟩
    all_goals first | exact hi | msg_field | (simp_all [St.Inv]; done)
  all_goals exact ⟨(Schema.step_other rfl rfl).symm, hi⟩

theorem loop (h : Header) (els : List IE) :
    (els.foldl step ⟨{ dflt with header := h }⟩).view = schema.map (·.select els) ∧ (els.foldl step ⟨{ dflt with header := h }⟩).Inv h := by
  have := foldl_view (Q := fun _ => True) (fun s e hp _ => step_view h s e hp) els ⟨{ dflt with header := h }⟩ (fun _ _ => trivial) (by simp [St.Inv])
  rw [show St.view ⟨{ dflt with header := h }⟩ = schema.map (fun _ => []) from rfl, Schema.foldl_nil] at this
  exact this

theorem ext {x y : ReleaseAccessBearersRequest} (hh : x.header = y.header) (h : fields x = fields y) : x = y := by
  cases x; cases y
  simp only at hh
  subst hh
  injection h with h0 h
  cases map_inj (fun _ _ h => IE.Ebi.inj h) h0
  injection h with h1 h
  cases optV_inj (fun _ _ h => IE.NodeType.inj h) h1
  injection h with h2 h
  cases optV_inj (fun _ _ h => IE.Indication.inj h) h2
  injection h with h3 h
  cases map_inj (fun _ _ h => IE.SecondaryRatUsageDataReport.inj h) h3
  injection h with h4 h
  cases optV_inj (fun _ _ h => IE.PSCellId.inj h) h4
  injection h with h5 h
  cases map_inj (fun _ _ h => IE.PrivateExtension.inj h) h5
  rfl

theorem mand : schema.filter (·.card.mandatory) = [] := rfl

/-- The flags tell which mandatory IEs are absent. -/
theorem flags (h : Header) (els : List IE) : ∃ x , els.foldl step ⟨{ dflt with header := h }⟩ = ⟨x⟩ ∧ St.view ⟨x⟩ = schema.map (·.select els) ∧ x.header = h := by
  obtain ⟨hv, hi⟩ := loop h els
  generalize els.foldl step ⟨{ dflt with header := h }⟩ = s at hv hi ⊢
  obtain ⟨x⟩ := s
  simp only [St.Inv] at hi
  exact ⟨x, rfl, hv, hi⟩

theorem complete (h : Header) (els : List IE) (_hm : schema.missing els = []) : ∃ y, fromvec { dflt with header := h } els = .ok y ∧ y.header = h ∧ fields y = schema.map (·.select els) := by
  obtain ⟨x, hs, hv, hh⟩ := flags h els
  unfold fromvec
  rw [hs]
  exact ⟨x, rfl, hh, hv⟩

theorem describes : Describes codec schema fields where
  header_set _ _ := rfl
  fields_set _ _ := rfl
  ext _ _ hh h := ext hh h
  shape x := Aligned.many (fun _ => rfl) <| Aligned.opt (fun _ => rfl) <| Aligned.opt (fun _ => rfl) <| Aligned.many (fun _ => rfl) <| Aligned.opt (fun _ => rfl) <| Aligned.many (fun _ => rfl) <| trivial
  tovec x := by simp [codec, tovec, fields]
  complete h els _ hm := complete h els hm

end ReleaseAccessBearersRequest

/-- `ReleaseAccessBearersResponse` (releaseaccessbearersresp.rs:15-23). -/
structure ReleaseAccessBearersResponse where
  header : Header
  cause : V2.Cause
  recovery : Option V2.Recovery
  indication : Option V2.Indication
  load_control : List V2.LoadControl
  overload_info : List V2.OverloadControlInfo
  private_ext : List V2.PrivateExtension
deriving DecidableEq

namespace ReleaseAccessBearersResponse

/-- `default` (releaseaccessbearersresp.rs:26-41). -/
def dflt : ReleaseAccessBearersResponse :=
  { header := { Header.default with msgtype := 171, teid := some 0 }, cause := V2.Cause.dflt, recovery := none, indication := none, load_control := [], overload_info := [], private_ext := [] }

/-- `tovec` (releaseaccessbearersresp.rs:78-104). -/
def tovec (x : ReleaseAccessBearersResponse) : List IE :=
  [.Cause x.cause] ++ (
  optV .Recovery x.recovery ++ (
  optV .Indication x.indication ++ (
  x.load_control.map .LoadControlInfo ++ (
  x.overload_info.map .OverloadControlInfo ++ (
  x.private_ext.map .PrivateExtension)))))

/-- The variables of `fromvec`: the message and the array `mandatory` (releaseaccessbearersresp.rs:106-144). -/
structure St where
  x : ReleaseAccessBearersResponse
  m0 : Bool

/-- One turn of the loop of `fromvec` (releaseaccessbearersresp.rs:106-144). -/
def step (s : St) : IE → St
  | .Cause j => if j.ins = 0 ∧ s.m0 = false then { s with x := { s.x with cause := j }, m0 := true } else s
  | .Recovery j => if j.ins = 0 ∧ s.x.recovery.isNone = true then { s with x := { s.x with recovery := some j } } else s
  | .Indication j => if j.ins = 0 ∧ s.x.indication.isNone = true then { s with x := { s.x with indication := some j } } else s
  | .LoadControlInfo j => if j.ins < 3 then { s with x := { s.x with load_control := s.x.load_control ++ [j] } } else s
  | .OverloadControlInfo j => if j.ins < 2 then { s with x := { s.x with overload_info := s.x.overload_info ++ [j] } } else s
  | .PrivateExtension j => { s with x := { s.x with private_ext := s.x.private_ext ++ [j] } }
  | _ => s

/-- The end of `fromvec` (releaseaccessbearersresp.rs:106-144). -/
def finish (s : St) : R Err ReleaseAccessBearersResponse :=
  if s.m0 then .ok s.x else .err (.messageMandatoryIEMissing 2)

/-- `fromvec` (releaseaccessbearersresp.rs:106-144). -/
def fromvec (x : ReleaseAccessBearersResponse) (els : List IE) : R Err ReleaseAccessBearersResponse := finish (els.foldl step ⟨x, false⟩)

/-- The message type (releaseaccessbearersresp.rs:45-76). -/
def codec : Codec ReleaseAccessBearersResponse :=
  { msgtype := 171, start := some 12, dflt, header := header, setHeader := fun x h => { x with header := h }, tovec, fromvec }

/-- One slot per field. -/
def schema : Schema :=
  [⟨.Cause, .is 0, .one⟩,
   ⟨.Recovery, .is 0, .opt⟩,
   ⟨.Indication, .is 0, .opt⟩,
   ⟨.LoadControlInfo, .lt 3, .many⟩,
   ⟨.OverloadControlInfo, .lt 2, .many⟩,
   ⟨.PrivateExtension, .any, .many⟩]

/-- The fields as lists of IEs. -/
def fields (x : ReleaseAccessBearersResponse) : List (List IE) :=
  [[.Cause x.cause],
   optV .Recovery x.recovery,
   optV .Indication x.indication,
   x.load_control.map .LoadControlInfo,
   x.overload_info.map .OverloadControlInfo,
   x.private_ext.map .PrivateExtension]

/-- What the state has collected so far. -/
def St.view (s : St) : List (List IE) :=
  [if s.m0 then [.Cause s.x.cause] else [],
   optV .Recovery s.x.recovery,
   optV .Indication s.x.indication,
   s.x.load_control.map .LoadControlInfo,
   s.x.overload_info.map .OverloadControlInfo,
   s.x.private_ext.map .PrivateExtension]

/-- The header is left alone; flags of mandatory lists tell whether the list is empty. -/
def St.Inv (h : Header) (s : St) : Prop :=
  s.x.header = h

theorem step_view (h : Header) (s : St) (e : IE) (hi : s.Inv h) : (step s e).view = Schema.step schema s.view e ∧ (step s e).Inv h := by
  cases e
  case Cause j =>
    simp only [step]
    repeat' split
    all_goals refine ⟨cons_congr ?_ ((Schema.step_other rfl rfl).symm), ?_⟩
    all_goals first | exact hi | msg_field | (simp_all [St.Inv]; done)
  case Recovery j =>
    simp only [step]
    repeat' split
    all_goals refine ⟨cons_congr (Slot.step_ne rfl).symm (cons_congr ?_ ((Schema.step_other rfl rfl).symm)), ?_⟩
    all_goals first | exact hi | msg_field | (simp_all [St.Inv]; done)
  case Indication j =>
    simp only [step]
    repeat' split
    all_goals refine ⟨cons_congr (Slot.step_ne rfl).symm (cons_congr (Slot.step_ne rfl).symm (cons_congr ?_ ((Schema.step_other rfl rfl).symm))), ?_⟩
    all_goals first | exact hi | msg_field | (simp_all [St.Inv]; done)
  case LoadControlInfo j =>
    simp only [step]
    repeat' split
    all_goals refine ⟨cons_congr (Slot.step_ne rfl).symm (cons_congr (Slot.step_ne rfl).symm (cons_congr (Slot.step_ne rfl).symm (cons_congr ?_ ((Schema.step_other rfl rfl).symm)))), ?_⟩
    all_goals first | exact hi | msg_field | (simp_all [St.Inv]; done)
  case OverloadControlInfo j =>
    simp only [step]
    repeat' split
    all_goals refine ⟨cons_congr (Slot.step_ne rfl).symm (cons_congr (Slot.step_ne rfl).symm (cons_congr (Slot.step_ne rfl).symm (cons_congr (Slot.step_ne rfl).symm (cons_congr ?_ ((Schema.step_other rfl rfl).symm))))), ?_⟩
    all_goals first | exact hi | msg_field | (simp_all [St.Inv]; done)
  case PrivateExtension j =>
    simp only [step]
    all_goals refine ⟨cons_congr (Slot.step_ne rfl).symm (cons_congr (Slot.step_ne rfl).symm (cons_congr (Slot.step_ne rfl).symm (cons_congr (Slot.step_ne rfl).symm (cons_congr (Slot.step_ne rfl).symm (cons_congr ?_ (rfl)))))), ?_⟩
    all_goals first | exact hi | msg_field | (simp_all [St.Inv]; done)
  all_goals exact ⟨(Schema.step_other rfl rfl).symm, hi⟩

theorem loop (h : Header) (els : List IE) :
    (els.foldl step ⟨{ dflt with header := h }, false⟩).view = schema.map (·.select els) ∧ (els.foldl step ⟨{ dflt with header := h }, false⟩).Inv h := by
  have := foldl_view (Q := fun _ => True) (fun s e hp _ => step_view h s e hp) els ⟨{ dflt with header := h }, false⟩ (fun _ _ => trivial) (by simp [St.Inv])
  rw [show St.view ⟨{ dflt with header := h }, false⟩ = schema.map (fun _ => []) from rfl, Schema.foldl_nil] at this
  exact this

theorem ext {x y : ReleaseAccessBearersResponse} (hh : x.header = y.header) (h : fields x = fields y) : x = y := by
  cases x; cases y
  simp only at hh
  subst hh
  injection h with h0 h
  cases h0
  injection h with h1 h
  cases optV_inj (fun _ _ h => IE.Recovery.inj h) h1
  injection h with h2 h
  cases optV_inj (fun _ _ h => IE.Indication.inj h) h2
  injection h with h3 h
  cases map_inj (fun _ _ h => IE.LoadControlInfo.inj h) h3
  injection h with h4 h
  cases map_inj (fun _ _ h => IE.OverloadControlInfo.inj h) h4
  injection h with h5 h
  cases map_inj (fun _ _ h => IE.PrivateExtension.inj h) h5
  rfl

theorem mand : schema.filter (·.card.mandatory) = [(⟨.Cause, .is 0, .one⟩ : Slot)] := rfl

/-- The flags tell which mandatory IEs are absent. -/
theorem flags (h : Header) (els : List IE) : ∃ x m0, els.foldl step ⟨{ dflt with header := h }, false⟩ = ⟨x, m0⟩ ∧ St.view ⟨x, m0⟩ = schema.map (·.select els) ∧ x.header = h ∧
    (⟨.Cause, .is 0, .one⟩ : Slot).lacks els = (!m0) := by
  obtain ⟨hv, hi⟩ := loop h els
  generalize els.foldl step ⟨{ dflt with header := h }, false⟩ = s at hv hi ⊢
  obtain ⟨x, m0⟩ := s
  simp only [St.Inv] at hi
  have l0 : (⟨.Cause, .is 0, .one⟩ : Slot).lacks els = (!m0) := by
    rw [Slot.lacks_eq els rfl]
    have e := congrArg (fun l => l.getD 0 []) hv
    rw [show (⟨.Cause, .is 0, .one⟩ : Slot).select els = if m0 then [.Cause x.cause] else [] from e.symm]
    cases m0 <;> rfl
  exact ⟨x, m0, rfl, hv, hi, l0⟩

theorem complete (h : Header) (els : List IE) (hm : schema.missing els = []) : ∃ y, fromvec { dflt with header := h } els = .ok y ∧ y.header = h ∧ fields y = schema.map (·.select els) := by
  obtain ⟨x, m0, hs, hv, hh, l0⟩ := flags h els
  unfold fromvec
  rw [hs]
  dsimp only [finish]
  have f0 := l0.symm.trans (Schema.of_missing_nil mand (by simp) hm)
  cases m0 <;> first | exact ⟨x, rfl, hh, hv⟩ | contradiction

theorem describes : Describes codec schema fields where
  header_set _ _ := rfl
  fields_set _ _ := rfl
  ext _ _ hh h := ext hh h
  shape x := Aligned.one (fun _ => rfl) <| Aligned.opt (fun _ => rfl) <| Aligned.opt (fun _ => rfl) <| Aligned.many (fun _ => rfl) <| Aligned.many (fun _ => rfl) <| Aligned.many (fun _ => rfl) <| trivial
  tovec x := by simp [codec, tovec, fields]
  complete h els _ hm := complete h els hm

theorem reports (h : Header) (els : List IE) (hm : schema.missing els ≠ []) :
    ∃ s ∈ schema.missing els, ∃ t, fromvec { dflt with header := h } els = .err (.messageMandatoryIEMissing t) ∧ kindOf t = s.kind := by
  obtain ⟨x, m0, hs, hv, hh, l0⟩ := flags h els
  unfold fromvec
  rw [hs]
  dsimp only [finish]
  cases m0 <;>
    first | exact ⟨_, Schema.mem_missing mand (by simp) l0, _, rfl, rfl⟩ | exact absurd (Schema.missing_nil mand (by simp [l0])) hm

theorem settled (h : Header) (els els' : List IE) (he : ∀ s ∈ schema, s.card.mandatory = true → s.lacks els = s.lacks els')
    (hm : schema.missing els ≠ []) : fromvec { dflt with header := h } els = fromvec { dflt with header := h } els' := by
  obtain ⟨x, m0, hs, hv, hh, l0⟩ := flags h els
  obtain ⟨x', m0', hs', hv', hh', l0'⟩ := flags h els'
  unfold fromvec
  rw [hs, hs']
  obtain rfl := Bool.not_inj (l0.symm.trans ((he _ (by decide) rfl).trans l0'))
  dsimp only [finish]
  cases m0 <;>
    first | rfl | exact absurd (Schema.missing_nil mand (by simp [l0])) hm

end ReleaseAccessBearersResponse

/-- `RelocationCancelRequest` (relocationcancelreq.rs:15-22). -/
structure RelocationCancelRequest where
  header : Header
  imsi : Option V2.Imsi
  mei : Option V2.Mei
  indication : Option V2.Indication
  ranap_cause : Option V2.Fcause
  private_ext : List V2.PrivateExtension
deriving DecidableEq

namespace RelocationCancelRequest

/-- `default` (relocationcancelreq.rs:25-38). -/
def dflt : RelocationCancelRequest :=
  { header := { Header.default with msgtype := 139, teid := some 0 }, imsi := none, mei := none, indication := none, ranap_cause := none, private_ext := [] }

/-- `tovec` (relocationcancelreq.rs:75-99). -/
def tovec (x : RelocationCancelRequest) : List IE :=
  optV .Imsi x.imsi ++ (
  optV .Mei x.mei ++ (
  optV .Indication x.indication ++ (
  optV .Fcause x.ranap_cause ++ (
  x.private_ext.map .PrivateExtension))))

/-- The variables of `fromvec`: the message and the array `mandatory` (relocationcancelreq.rs:101-129). -/
structure St where
  x : RelocationCancelRequest

/-- One turn of the loop of `fromvec` (relocationcancelreq.rs:101-129). -/
def step (s : St) : IE → St
  | .Imsi j => if j.ins = 0 ∧ s.x.imsi.isNone = true then { s with x := { s.x with imsi := some j } } else s
  | .Mei j => if j.ins = 0 ∧ s.x.mei.isNone = true then { s with x := { s.x with mei := some j } } else s
  | .Indication j => if j.ins = 0 ∧ s.x.indication.isNone = true then { s with x := { s.x with indication := some j } } else s
  | .Fcause j => if j.ins = 0 ∧ s.x.ranap_cause.isNone = true then { s with x := { s.x with ranap_cause := some j } } else s
  | .PrivateExtension j => { s with x := { s.x with private_ext := s.x.private_ext ++ [j] } }
  | _ => s

/-- The end of `fromvec` (relocationcancelreq.rs:101-129). -/
def finish (s : St) : R Err RelocationCancelRequest :=
  .ok s.x

/-- `fromvec` (relocationcancelreq.rs:101-129). -/
def fromvec (x : RelocationCancelRequest) (els : List IE) : R Err RelocationCancelRequest := finish (els.foldl step ⟨x⟩)

/-- The message type (relocationcancelreq.rs:42-73). -/
def codec : Codec RelocationCancelRequest :=
  { msgtype := 139, start := some 12, dflt, header := header, setHeader := fun x h => { x with header := h }, tovec, fromvec }

/-- One slot per field. -/
def schema : Schema :=
  [⟨.Imsi, .is 0, .opt⟩,
   ⟨.Mei, .is 0, .opt⟩,
   ⟨.Indication, .is 0, .opt⟩,
   ⟨.Fcause, .is 0, .opt⟩,
   ⟨.PrivateExtension, .any, .many⟩]

/-- The fields as lists of IEs. -/
def fields (x : RelocationCancelRequest) : List (List IE) :=
  [optV .Imsi x.imsi,
   optV .Mei x.mei,
   optV .Indication x.indication,
   optV .Fcause x.ranap_cause,
   x.private_ext.map .PrivateExtension]

/-- What the state has collected so far. -/
def St.view (s : St) : List (List IE) :=
  [optV .Imsi s.x.imsi,
   optV .Mei s.x.mei,
   optV .Indication s.x.indication,
   optV .Fcause s.x.ranap_cause,
   s.x.private_ext.map .PrivateExtension]

/-- The header is left alone; flags of mandatory lists tell whether the list is empty. -/
def St.Inv (h : Header) (s : St) : Prop :=
  s.x.header = h

theorem step_view (h : Header) (s : St) (e : IE) (hi : s.Inv h) : (step s e).view = Schema.step schema s.view e ∧ (step s e).Inv h := by
  cases e
  case Imsi j =>
    simp only [step]
    repeat' split
    all_goals refine ⟨cons_congr ?_ ((Schema.step_other rfl rfl).symm), ?_⟩
    all_goals first | exact hi | msg_field | (simp_all [St.Inv]; done)
  case Mei j =>
    simp only [step]
    repeat' split
    all_goals refine ⟨cons_congr (Slot.step_ne rfl).symm (cons_congr ?_ ((Schema.step_other rfl rfl).symm)), ?_⟩
    all_goals first | exact hi | msg_field | (simp_all [St.Inv]; done)
  case Indication j =>
    simp only [step]
    repeat' split
    all_goals refine ⟨cons_congr (Slot.step_ne rfl).symm (cons_congr (Slot.step_ne rfl).symm (cons_congr ?_ ((Schema.step_other rfl rfl).symm))), ?_⟩
    all_goals first | exact hi | msg_field | (simp_all [St.Inv]; done)
  case Fcause j =>
    simp only [step]
    repeat' split
    all_goals refine ⟨cons_congr (Slot.step_ne rfl).symm (cons_congr (Slot.step_ne rfl).symm (cons_congr (Slot.step_ne rfl).symm (cons_congr ?_ ((Schema.step_other rfl rfl).symm)))), ?_⟩
    all_goals first | exact hi | msg_field | (simp_all [St.Inv]; done)
  case PrivateExtension j =>
    simp only [step]
    all_goals refine ⟨cons_congr (Slot.step_ne rfl).symm (cons_congr (Slot.step_ne rfl).symm (cons_congr (Slot.step_ne rfl).symm (cons_congr (Slot.step_ne rfl).symm (cons_congr ?_ (rfl))))), ?_⟩
    all_goals first | exact hi | msg_field | (simp_all [St.Inv]; done)
  all_goals exact ⟨(Schema.step_other rfl rfl).symm, hi⟩

theorem loop (h : Header) (els : List IE) :
    (els.foldl step ⟨{ dflt with header := h }⟩).view = schema.map (·.select els) ∧ (els.foldl step ⟨{ dflt with header := h }⟩).Inv h := by
  have := foldl_view (Q := fun _ => True) (fun s e hp _ => step_view h s e hp) els ⟨{ dflt with header := h }⟩ (fun _ _ => trivial) (by simp [St.Inv])
  rw [show St.view ⟨{ dflt with header := h }⟩ = schema.map (fun _ => []) from rfl, Schema.foldl_nil] at this
  exact this

theorem ext {x y : RelocationCancelRequest} (hh : x.header = y.header) (h : fields x = fields y) : x = y := by
  cases x; cases y
  simp only at hh
  subst hh
  injection h with h0 h
  cases optV_inj (fun _ _ h => IE.Imsi.inj h) h0
  injection h with h1 h
  cases optV_inj (fun _ _ h => IE.Mei.inj h) h1
  injection h with h2 h
  cases optV_inj (fun _ _ h => IE.Indication.inj h) h2
  injection h with h3 h
  cases optV_inj (fun _ _ h => IE.Fcause.inj h) h3
  injection h with h4 h
  cases map_inj (fun _ _ h => IE.PrivateExtension.inj h) h4
  rfl

theorem mand : schema.filter (·.card.mandatory) = [] := rfl

/-- The flags tell which mandatory IEs are absent. -/
theorem flags (h : Header) (els : List IE) : ∃ x , els.foldl step ⟨{ dflt with header := h }⟩ = ⟨x⟩ ∧ St.view ⟨x⟩ = schema.map (·.select els) ∧ x.header = h := by
  obtain ⟨hv, hi⟩ := loop h els
  generalize els.foldl step ⟨{ dflt with header := h }⟩ = s at hv hi ⊢
  obtain ⟨x⟩ := s
  simp only [St.Inv] at hi
  exact ⟨x, rfl, hv, hi⟩

theorem complete (h : Header) (els : List IE) (_hm : schema.missing els = []) : ∃ y, fromvec { dflt with header := h } els = .ok y ∧ y.header = h ∧ fields y = schema.map (·.select els) := by
  obtain ⟨x, hs, hv, hh⟩ := flags h els
  unfold fromvec
  rw [hs]
  exact ⟨x, rfl, hh, hv⟩

theorem describes : Describes codec schema fields where
  header_set _ _ := rfl
  fields_set _ _ := rfl
  ext _ _ hh h := ext hh h
  shape x := Aligned.opt (fun _ => rfl) <| Aligned.opt (fun _ => rfl) <| Aligned.opt (fun _ => rfl) <| Aligned.opt (fun _ => rfl) <| Aligned.many (fun _ => rfl) <| trivial
  tovec x := by simp [codec, tovec, fields]
  complete h els _ hm := complete h els hm

end RelocationCancelRequest

/-- `RelocationCancelResponse` (relocationcancelresp.rs:15-19). -/
structure RelocationCancelResponse where
  header : Header
  cause : V2.Cause
  private_ext : List V2.PrivateExtension
deriving DecidableEq

namespace RelocationCancelResponse

/-- `default` (relocationcancelresp.rs:22-33). -/
def dflt : RelocationCancelResponse :=
  { header := { Header.default with msgtype := 140, teid := some 0 }, cause := V2.Cause.dflt, private_ext := [] }

/-- `tovec` (relocationcancelresp.rs:69-79). -/
def tovec (x : RelocationCancelResponse) : List IE :=
  [.Cause x.cause] ++ (
  x.private_ext.map .PrivateExtension)

/-- The variables of `fromvec`: the message and the array `mandatory` (relocationcancelresp.rs:81-99). -/
structure St where
  x : RelocationCancelResponse
  m0 : Bool

/-- One turn of the loop of `fromvec` (relocationcancelresp.rs:81-99). -/
def step (s : St) : IE → St
  | .Cause j => if j.ins = 0 ∧ s.m0 = false then { s with x := { s.x with cause := j }, m0 := true } else s
  | .PrivateExtension j => { s with x := { s.x with private_ext := s.x.private_ext ++ [j] } }
  | _ => s

/-- The end of `fromvec` (relocationcancelresp.rs:81-99). -/
def finish (s : St) : R Err RelocationCancelResponse :=
  if s.m0 then .ok s.x else .err (.messageMandatoryIEMissing 2)

/-- `fromvec` (relocationcancelresp.rs:81-99). -/
def fromvec (x : RelocationCancelResponse) (els : List IE) : R Err RelocationCancelResponse := finish (els.foldl step ⟨x, false⟩)

/-- The message type (relocationcancelresp.rs:37-67). -/
def codec : Codec RelocationCancelResponse :=
  { msgtype := 140, start := some 12, dflt, header := header, setHeader := fun x h => { x with header := h }, tovec, fromvec }

/-- One slot per field. -/
def schema : Schema :=
  [⟨.Cause, .is 0, .one⟩,
   ⟨.PrivateExtension, .any, .many⟩]

/-- The fields as lists of IEs. -/
def fields (x : RelocationCancelResponse) : List (List IE) :=
  [[.Cause x.cause],
   x.private_ext.map .PrivateExtension]

/-- What the state has collected so far. -/
def St.view (s : St) : List (List IE) :=
  [if s.m0 then [.Cause s.x.cause] else [],
   s.x.private_ext.map .PrivateExtension]

/-- The header is left alone; flags of mandatory lists tell whether the list is empty. -/
def St.Inv (h : Header) (s : St) : Prop :=
  s.x.header = h

theorem step_view (h : Header) (s : St) (e : IE) (hi : s.Inv h) : (step s e).view = Schema.step schema s.view e ∧ (step s e).Inv h := by
  cases e
  case Cause j =>
    simp only [step]
    repeat' split
    all_goals refine ⟨cons_congr ?_ ((Schema.step_other rfl rfl).symm), ?_⟩
    all_goals first | exact hi | msg_field | (simp_all [St.Inv]; done)
  case PrivateExtension j =>
    simp only [step]
    all_goals refine ⟨cons_congr (Slot.step_ne rfl).symm (cons_congr ?_ (rfl)), ?_⟩
    all_goals first | exact hi | msg_field | (simp_all [St.Inv]; done)
  all_goals exact ⟨(Schema.step_other rfl rfl).symm, hi⟩

theorem loop (h : Header) (els : List IE) :
    (els.foldl step ⟨{ dflt with header := h }, false⟩).view = schema.map (·.select els) ∧ (els.foldl step ⟨{ dflt with header := h }, false⟩).Inv h := by
  have := foldl_view (Q := fun _ => True) (fun s e hp _ => step_view h s e hp) els ⟨{ dflt with header := h }, false⟩ (fun _ _ => trivial) (by simp [St.Inv])
  rw [show St.view ⟨{ dflt with header := h }, false⟩ = schema.map (fun _ => []) from rfl, Schema.foldl_nil] at this
  exact this

theorem ext {x y : RelocationCancelResponse} (hh : x.header = y.header) (h : fields x = fields y) : x = y := by
  cases x; cases y
  simp only at hh
  subst hh
  injection h with h0 h
  cases h0
  injection h with h1 h
  cases map_inj (fun _ _ h => IE.PrivateExtension.inj h) h1
  rfl

theorem mand : schema.filter (·.card.mandatory) = [(⟨.Cause, .is 0, .one⟩ : Slot)] := rfl

/-- The flags tell which mandatory IEs are absent. -/
theorem flags (h : Header) (els : List IE) : ∃ x m0, els.foldl step ⟨{ dflt with header := h }, false⟩ = ⟨x, m0⟩ ∧ St.view ⟨x, m0⟩ = schema.map (·.select els) ∧ x.header = h ∧
    (⟨.Cause, .is 0, .one⟩ : Slot).lacks els = (!m0) := by
  obtain ⟨hv, hi⟩ := loop h els
  generalize els.foldl step ⟨{ dflt with header := h }, false⟩ = s at hv hi ⊢
  obtain ⟨x, m0⟩ := s
  simp only [St.Inv] at hi
  have l0 : (⟨.Cause, .is 0, .one⟩ : Slot).lacks els = (!m0) := by
    rw [Slot.lacks_eq els rfl]
    have e := congrArg (fun l => l.getD 0 []) hv
    rw [show (⟨.Cause, .is 0, .one⟩ : Slot).select els = if m0 then [.Cause x.cause] else [] from e.symm]
    cases m0 <;> rfl
  exact ⟨x, m0, rfl, hv, hi, l0⟩

theorem complete (h : Header) (els : List IE) (hm : schema.missing els = []) : ∃ y, fromvec { dflt with header := h } els = .ok y ∧ y.header = h ∧ fields y = schema.map (·.select els) := by
  obtain ⟨x, m0, hs, hv, hh, l0⟩ := flags h els
  unfold fromvec
  rw [hs]
  dsimp only [finish]
  have f0 := l0.symm.trans (Schema.of_missing_nil mand (by simp) hm)
  cases m0 <;> first | exact ⟨x, rfl, hh, hv⟩ | contradiction

theorem describes : Describes codec schema fields where
  header_set _ _ := rfl
  fields_set _ _ := rfl
  ext _ _ hh h := ext hh h
  shape x := Aligned.one (fun _ => rfl) <| Aligned.many (fun _ => rfl) <| trivial
  tovec x := by simp [codec, tovec, fields]
  complete h els _ hm := complete h els hm

theorem reports (h : Header) (els : List IE) (hm : schema.missing els ≠ []) :
    ∃ s ∈ schema.missing els, ∃ t, fromvec { dflt with header := h } els = .err (.messageMandatoryIEMissing t) ∧ kindOf t = s.kind := by
  obtain ⟨x, m0, hs, hv, hh, l0⟩ := flags h els
  unfold fromvec
  rw [hs]
  dsimp only [finish]
  cases m0 <;>
    first | exact ⟨_, Schema.mem_missing mand (by simp) l0, _, rfl, rfl⟩ | exact absurd (Schema.missing_nil mand (by simp [l0])) hm

theorem settled (h : Header) (els els' : List IE) (he : ∀ s ∈ schema, s.card.mandatory = true → s.lacks els = s.lacks els')
    (hm : schema.missing els ≠ []) : fromvec { dflt with header := h } els = fromvec { dflt with header := h } els' := by
  obtain ⟨x, m0, hs, hv, hh, l0⟩ := flags h els
  obtain ⟨x', m0', hs', hv', hh', l0'⟩ := flags h els'
  unfold fromvec
  rw [hs, hs']
  obtain rfl := Bool.not_inj (l0.symm.trans ((he _ (by decide) rfl).trans l0'))
  dsimp only [finish]
  cases m0 <;>
    first | rfl | exact absurd (Schema.missing_nil mand (by simp [l0])) hm

end RelocationCancelResponse

/-- `RemoteUeReportAcknowledge` (remoteuereportacknowledge.rs:15-19). -/
structure RemoteUeReportAcknowledge where
  header : Header
  cause : V2.Cause
  private_ext : List V2.PrivateExtension
deriving DecidableEq

namespace RemoteUeReportAcknowledge

/-- `default` (remoteuereportacknowledge.rs:22-32). -/
def dflt : RemoteUeReportAcknowledge :=
  { header := { Header.default with msgtype := 41, teid := some 0 }, cause := V2.Cause.dflt, private_ext := [] }

/-- `tovec` (remoteuereportacknowledge.rs:69-79). -/
def tovec (x : RemoteUeReportAcknowledge) : List IE :=
  [.Cause x.cause] ++ (
  x.private_ext.map .PrivateExtension)

/-- The variables of `fromvec`: the message and the array `mandatory` (remoteuereportacknowledge.rs:81-100). -/
structure St where
  x : RemoteUeReportAcknowledge
  m0 : Bool

/-- One turn of the loop of `fromvec` (remoteuereportacknowledge.rs:81-100). -/
def step (s : St) : IE → St
  | .Cause j => if j.ins = 0 then { s with x := { s.x with cause := j }, m0 := true } else s
  | .PrivateExtension j => { s with x := { s.x with private_ext := s.x.private_ext ++ [j] } }
  | _ => s

/-- The end of `fromvec` (remoteuereportacknowledge.rs:81-100). -/
def finish (s : St) : R Err RemoteUeReportAcknowledge :=
  if s.m0 then .ok s.x else .err (.messageMandatoryIEMissing 2)

/-- `fromvec` (remoteuereportacknowledge.rs:81-100). -/
def fromvec (x : RemoteUeReportAcknowledge) (els : List IE) : R Err RemoteUeReportAcknowledge := finish (els.foldl step ⟨x, false⟩)

/-- The message type (remoteuereportacknowledge.rs:36-67). -/
def codec : Codec RemoteUeReportAcknowledge :=
  { msgtype := 41, start := some 12, dflt, header := header, setHeader := fun x h => { x with header := h }, tovec, fromvec }

/-- One slot per field. -/
def schema : Schema :=
  [⟨.Cause, .is 0, .oneLast⟩,
   ⟨.PrivateExtension, .any, .many⟩]

/-- The fields as lists of IEs. -/
def fields (x : RemoteUeReportAcknowledge) : List (List IE) :=
  [[.Cause x.cause],
   x.private_ext.map .PrivateExtension]

/-- What the state has collected so far. -/
def St.view (s : St) : List (List IE) :=
  [if s.m0 then [.Cause s.x.cause] else [],
   s.x.private_ext.map .PrivateExtension]

/-- The header is left alone; flags of mandatory lists tell whether the list is empty. -/
def St.Inv (h : Header) (s : St) : Prop :=
  s.x.header = h

theorem step_view (h : Header) (s : St) (e : IE) (hi : s.Inv h) : (step s e).view = Schema.step schema s.view e ∧ (step s e).Inv h := by
  cases e
  case Cause j =>
    simp only [step]
    repeat' split
    all_goals refine ⟨cons_congr ?_ ((Schema.step_other rfl rfl).symm), ?_⟩
    all_goals first | exact hi | msg_field | (simp_all [St.Inv]; done)
  case PrivateExtension j =>
    simp only [step]
    all_goals refine ⟨cons_congr (Slot.step_ne rfl).symm (cons_congr ?_ (rfl)), ?_⟩
    all_goals first | exact hi | msg_field | (simp_all [St.Inv]; done)
  all_goals exact ⟨(Schema.step_other rfl rfl).symm, hi⟩

theorem loop (h : Header) (els : List IE) :
    (els.foldl step ⟨{ dflt with header := h }, false⟩).view = schema.map (·.select els) ∧ (els.foldl step ⟨{ dflt with header := h }, false⟩).Inv h := by
  have := foldl_view (Q := fun _ => True) (fun s e hp _ => step_view h s e hp) els ⟨{ dflt with header := h }, false⟩ (fun _ _ => trivial) (by simp [St.Inv])
  rw [show St.view ⟨{ dflt with header := h }, false⟩ = schema.map (fun _ => []) from rfl, Schema.foldl_nil] at this
  exact this

theorem ext {x y : RemoteUeReportAcknowledge} (hh : x.header = y.header) (h : fields x = fields y) : x = y := by
  cases x; cases y
  simp only at hh
  subst hh
  injection h with h0 h
  cases h0
  injection h with h1 h
  cases map_inj (fun _ _ h => IE.PrivateExtension.inj h) h1
  rfl

theorem mand : schema.filter (·.card.mandatory) = [(⟨.Cause, .is 0, .oneLast⟩ : Slot)] := rfl

/-- The flags tell which mandatory IEs are absent. -/
theorem flags (h : Header) (els : List IE) : ∃ x m0, els.foldl step ⟨{ dflt with header := h }, false⟩ = ⟨x, m0⟩ ∧ St.view ⟨x, m0⟩ = schema.map (·.select els) ∧ x.header = h ∧
    (⟨.Cause, .is 0, .oneLast⟩ : Slot).lacks els = (!m0) := by
  obtain ⟨hv, hi⟩ := loop h els
  generalize els.foldl step ⟨{ dflt with header := h }, false⟩ = s at hv hi ⊢
  obtain ⟨x, m0⟩ := s
  simp only [St.Inv] at hi
  have l0 : (⟨.Cause, .is 0, .oneLast⟩ : Slot).lacks els = (!m0) := by
    rw [Slot.lacks_eq els rfl]
    have e := congrArg (fun l => l.getD 0 []) hv
    rw [show (⟨.Cause, .is 0, .oneLast⟩ : Slot).select els = if m0 then [.Cause x.cause] else [] from e.symm]
    cases m0 <;> rfl
  exact ⟨x, m0, rfl, hv, hi, l0⟩

theorem complete (h : Header) (els : List IE) (hm : schema.missing els = []) : ∃ y, fromvec { dflt with header := h } els = .ok y ∧ y.header = h ∧ fields y = schema.map (·.select els) := by
  obtain ⟨x, m0, hs, hv, hh, l0⟩ := flags h els
  unfold fromvec
  rw [hs]
  dsimp only [finish]
  have f0 := l0.symm.trans (Schema.of_missing_nil mand (by simp) hm)
  cases m0 <;> first | exact ⟨x, rfl, hh, hv⟩ | contradiction

theorem describes : Describes codec schema fields where
  header_set _ _ := rfl
  fields_set _ _ := rfl
  ext _ _ hh h := ext hh h
  shape x := Aligned.one (fun _ => rfl) <| Aligned.many (fun _ => rfl) <| trivial
  tovec x := by simp [codec, tovec, fields]
  complete h els _ hm := complete h els hm

theorem reports (h : Header) (els : List IE) (hm : schema.missing els ≠ []) :
    ∃ s ∈ schema.missing els, ∃ t, fromvec { dflt with header := h } els = .err (.messageMandatoryIEMissing t) ∧ kindOf t = s.kind := by
  obtain ⟨x, m0, hs, hv, hh, l0⟩ := flags h els
  unfold fromvec
  rw [hs]
  dsimp only [finish]
  cases m0 <;>
    first | exact ⟨_, Schema.mem_missing mand (by simp) l0, _, rfl, rfl⟩ | exact absurd (Schema.missing_nil mand (by simp [l0])) hm

theorem settled (h : Header) (els els' : List IE) (he : ∀ s ∈ schema, s.card.mandatory = true → s.lacks els = s.lacks els')
    (hm : schema.missing els ≠ []) : fromvec { dflt with header := h } els = fromvec { dflt with header := h } els' := by
  obtain ⟨x, m0, hs, hv, hh, l0⟩ := flags h els
  obtain ⟨x', m0', hs', hv', hh', l0'⟩ := flags h els'
  unfold fromvec
  rw [hs, hs']
  obtain rfl := Bool.not_inj (l0.symm.trans ((he _ (by decide) rfl).trans l0'))
  dsimp only [finish]
  cases m0 <;>
    first | rfl | exact absurd (Schema.missing_nil mand (by simp [l0])) hm

end RemoteUeReportAcknowledge

/-- `RemoteUeReportNotification` (remoteuereportnotification.rs:15-20). -/
structure RemoteUeReportNotification where
  header : Header
  remote_ue_ctx_connected : List V2.RemoteUeContext
  remote_ue_ctx_disconnected : List V2.RemoteUeContext
  private_ext : List V2.PrivateExtension
deriving DecidableEq

namespace RemoteUeReportNotification

/-- `default` (remoteuereportnotification.rs:23-35). -/
def dflt : RemoteUeReportNotification :=
  { header := { Header.default with msgtype := 40, teid := some 0 }, remote_ue_ctx_connected := [], remote_ue_ctx_disconnected := [], private_ext := [] }

/-- `tovec` (remoteuereportnotification.rs:71-87). -/
def tovec (x : RemoteUeReportNotification) : List IE :=
  x.remote_ue_ctx_connected.map .RemoteUeContext ++ (
  x.remote_ue_ctx_disconnected.map .RemoteUeContext ++ (
  x.private_ext.map .PrivateExtension))

/-- The variables of `fromvec`: the message and the array `mandatory` (remoteuereportnotification.rs:89-102). -/
structure St where
  x : RemoteUeReportNotification

/-- One turn of the loop of `fromvec` (remoteuereportnotification.rs:89-102). -/
def step (s : St) : IE → St
  | .RemoteUeContext j => if j.ins = 0 then { s with x := { s.x with remote_ue_ctx_connected := s.x.remote_ue_ctx_connected ++ [j] } } else if j.ins = 1 then { s with x := { s.x with remote_ue_ctx_disconnected := s.x.remote_ue_ctx_disconnected ++ [j] } } else s
  | .PrivateExtension j => { s with x := { s.x with private_ext := s.x.private_ext ++ [j] } }
  | _ => s

/-- The end of `fromvec` (remoteuereportnotification.rs:89-102). -/
def finish (s : St) : R Err RemoteUeReportNotification :=
  .ok s.x

/-- `fromvec` (remoteuereportnotification.rs:89-102). -/
def fromvec (x : RemoteUeReportNotification) (els : List IE) : R Err RemoteUeReportNotification := finish (els.foldl step ⟨x⟩)

/-- The message type (remoteuereportnotification.rs:39-69). -/
def codec : Codec RemoteUeReportNotification :=
  { msgtype := 40, start := some 12, dflt, header := header, setHeader := fun x h => { x with header := h }, tovec, fromvec }

/-- One slot per field. -/
def schema : Schema :=
  [⟨.RemoteUeContext, .is 0, .many⟩,
   ⟨.RemoteUeContext, .is 1, .many⟩,
   ⟨.PrivateExtension, .any, .many⟩]

/-- The fields as lists of IEs. -/
def fields (x : RemoteUeReportNotification) : List (List IE) :=
  [x.remote_ue_ctx_connected.map .RemoteUeContext,
   x.remote_ue_ctx_disconnected.map .RemoteUeContext,
   x.private_ext.map .PrivateExtension]

/-- What the state has collected so far. -/
def St.view (s : St) : List (List IE) :=
  [s.x.remote_ue_ctx_connected.map .RemoteUeContext,
   s.x.remote_ue_ctx_disconnected.map .RemoteUeContext,
   s.x.private_ext.map .PrivateExtension]

/-- The header is left alone; flags of mandatory lists tell whether the list is empty. -/
def St.Inv (h : Header) (s : St) : Prop :=
  s.x.header = h

theorem step_view (h : Header) (s : St) (e : IE) (hi : s.Inv h) : (step s e).view = Schema.step schema s.view e ∧ (step s e).Inv h := by
  cases e
  case RemoteUeContext j =>
    simp only [step]
    repeat' split
    all_goals refine ⟨cons_congr ?_ (cons_congr ?_ ((Schema.step_other rfl rfl).symm)), ?_⟩
    all_goals first | exact hi | msg_field | (simp_all [St.Inv]; done)
  case PrivateExtension j =>
    simp only [step]
    all_goals refine ⟨cons_congr (Slot.step_ne rfl).symm (cons_congr (Slot.step_ne rfl).symm (cons_congr ?_ (rfl))), ?_⟩
    all_goals first | exact hi | msg_field | (simp_all [St.Inv]; done)
  all_goals exact ⟨(Schema.step_other rfl rfl).symm, hi⟩

theorem loop (h : Header) (els : List IE) :
    (els.foldl step ⟨{ dflt with header := h }⟩).view = schema.map (·.select els) ∧ (els.foldl step ⟨{ dflt with header := h }⟩).Inv h := by
  have := foldl_view (Q := fun _ => True) (fun s e hp _ => step_view h s e hp) els ⟨{ dflt with header := h }⟩ (fun _ _ => trivial) (by simp [St.Inv])
  rw [show St.view ⟨{ dflt with header := h }⟩ = schema.map (fun _ => []) from rfl, Schema.foldl_nil] at this
  exact this

theorem ext {x y : RemoteUeReportNotification} (hh : x.header = y.header) (h : fields x = fields y) : x = y := by
  cases x; cases y
  simp only at hh
  subst hh
  injection h with h0 h
  cases map_inj (fun _ _ h => IE.RemoteUeContext.inj h) h0
  injection h with h1 h
  cases map_inj (fun _ _ h => IE.RemoteUeContext.inj h) h1
  injection h with h2 h
  cases map_inj (fun _ _ h => IE.PrivateExtension.inj h) h2
  rfl

theorem mand : schema.filter (·.card.mandatory) = [] := rfl

/-- The flags tell which mandatory IEs are absent. -/
theorem flags (h : Header) (els : List IE) : ∃ x , els.foldl step ⟨{ dflt with header := h }⟩ = ⟨x⟩ ∧ St.view ⟨x⟩ = schema.map (·.select els) ∧ x.header = h := by
  obtain ⟨hv, hi⟩ := loop h els
  generalize els.foldl step ⟨{ dflt with header := h }⟩ = s at hv hi ⊢
  obtain ⟨x⟩ := s
  simp only [St.Inv] at hi
  exact ⟨x, rfl, hv, hi⟩

theorem complete (h : Header) (els : List IE) (_hm : schema.missing els = []) : ∃ y, fromvec { dflt with header := h } els = .ok y ∧ y.header = h ∧ fields y = schema.map (·.select els) := by
  obtain ⟨x, hs, hv, hh⟩ := flags h els
  unfold fromvec
  rw [hs]
  exact ⟨x, rfl, hh, hv⟩

theorem describes : Describes codec schema fields where
  header_set _ _ := rfl
  fields_set _ _ := rfl
  ext _ _ hh h := ext hh h
  shape x := Aligned.many (fun _ => rfl) <| Aligned.many (fun _ => rfl) <| Aligned.many (fun _ => rfl) <| trivial
  tovec x := by simp [codec, tovec, fields]
  complete h els _ hm := complete h els hm

end RemoteUeReportNotification

/-- `ResumeAcknowledge` (resumeacknowledge.rs:15-19). -/
structure ResumeAcknowledge where
  header : Header
  cause : V2.Cause
  private_ext : List V2.PrivateExtension
deriving DecidableEq

namespace ResumeAcknowledge

/-- `default` (resumeacknowledge.rs:22-33). -/
def dflt : ResumeAcknowledge :=
  { header := { Header.default with msgtype := 165, teid := some 0 }, cause := V2.Cause.dflt, private_ext := [] }

/-- `tovec` (resumeacknowledge.rs:70-80). -/
def tovec (x : ResumeAcknowledge) : List IE :=
  [.Cause x.cause] ++ (
  x.private_ext.map .PrivateExtension)

/-- The variables of `fromvec`: the message and the array `mandatory` (resumeacknowledge.rs:82-100). -/
structure St where
  x : ResumeAcknowledge
  m0 : Bool

/-- One turn of the loop of `fromvec` (resumeacknowledge.rs:82-100). -/
def step (s : St) : IE → St
  | .Cause j => if j.ins = 0 ∧ s.m0 = false then { s with x := { s.x with cause := j }, m0 := true } else s
  | .PrivateExtension j => { s with x := { s.x with private_ext := s.x.private_ext ++ [j] } }
  | _ => s

/-- The end of `fromvec` (resumeacknowledge.rs:82-100). -/
def finish (s : St) : R Err ResumeAcknowledge :=
  if s.m0 then .ok s.x else .err (.messageMandatoryIEMissing 2)

/-- `fromvec` (resumeacknowledge.rs:82-100). -/
def fromvec (x : ResumeAcknowledge) (els : List IE) : R Err ResumeAcknowledge := finish (els.foldl step ⟨x, false⟩)

/-- The message type (resumeacknowledge.rs:37-68). -/
def codec : Codec ResumeAcknowledge :=
  { msgtype := 165, start := some 12, dflt, header := header, setHeader := fun x h => { x with header := h }, tovec, fromvec }

/-- One slot per field. -/
def schema : Schema :=
  [⟨.Cause, .is 0, .one⟩,
   ⟨.PrivateExtension, .any, .many⟩]

/-- The fields as lists of IEs. -/
def fields (x : ResumeAcknowledge) : List (List IE) :=
  [[.Cause x.cause],
   x.private_ext.map .PrivateExtension]

/-- What the state has collected so far. -/
def St.view (s : St) : List (List IE) :=
  [if s.m0 then [.Cause s.x.cause] else [],
   s.x.private_ext.map .PrivateExtension]

/-- The header is left alone; flags of mandatory lists tell whether the list is empty. -/
def St.Inv (h : Header) (s : St) : Prop :=
  s.x.header = h

theorem step_view (h : Header) (s : St) (e : IE) (hi : s.Inv h) : (step s e).view = Schema.step schema s.view e ∧ (step s e).Inv h := by
  cases e
  case Cause j =>
    simp only [step]
    repeat' split
    all_goals refine ⟨cons_congr ?_ ((Schema.step_other rfl rfl).symm), ?_⟩
    all_goals first | exact hi | msg_field | (simp_all [St.Inv]; done)
  case PrivateExtension j =>
    simp only [step]
    all_goals refine ⟨cons_congr (Slot.step_ne rfl).symm (cons_congr ?_ (rfl)), ?_⟩
    all_goals first | exact hi | msg_field | (simp_all [St.Inv]; done)
  all_goals exact ⟨(Schema.step_other rfl rfl).symm, hi⟩

theorem loop (h : Header) (els : List IE) :
    (els.foldl step ⟨{ dflt with header := h }, false⟩).view = schema.map (·.select els) ∧ (els.foldl step ⟨{ dflt with header := h }, false⟩).Inv h := by
  have := foldl_view (Q := fun _ => True) (fun s e hp _ => step_view h s e hp) els ⟨{ dflt with header := h }, false⟩ (fun _ _ => trivial) (by simp [St.Inv])
  rw [show St.view ⟨{ dflt with header := h }, false⟩ = schema.map (fun _ => []) from rfl, Schema.foldl_nil] at this
  exact this

theorem ext {x y : ResumeAcknowledge} (hh : x.header = y.header) (h : fields x = fields y) : x = y := by
  cases x; cases y
  simp only at hh
  subst hh
  injection h with h0 h
  cases h0
  injection h with h1 h
  cases map_inj (fun _ _ h => IE.PrivateExtension.inj h) h1
  rfl

theorem mand : schema.filter (·.card.mandatory) = [(⟨.Cause, .is 0, .one⟩ : Slot)] := rfl

/-- The flags tell which mandatory IEs are absent. -/
theorem flags (h : Header) (els : List IE) : ∃ x m0, els.foldl step ⟨{ dflt with header := h }, false⟩ = ⟨x, m0⟩ ∧ St.view ⟨x, m0⟩ = schema.map (·.select els) ∧ x.header = h ∧
    (⟨.Cause, .is 0, .one⟩ : Slot).lacks els = (!m0) := by
  obtain ⟨hv, hi⟩ := loop h els
  generalize els.foldl step ⟨{ dflt with header := h }, false⟩ = s at hv hi ⊢
  obtain ⟨x, m0⟩ := s
  simp only [St.Inv] at hi
  have l0 : (⟨.Cause, .is 0, .one⟩ : Slot).lacks els = (!m0) := by
    rw [Slot.lacks_eq els rfl]
    have e := congrArg (fun l => l.getD 0 []) hv
    rw [show (⟨.Cause, .is 0, .one⟩ : Slot).select els = if m0 then [.Cause x.cause] else [] from e.symm]
    cases m0 <;> rfl
  exact ⟨x, m0, rfl, hv, hi, l0⟩

theorem complete (h : Header) (els : List IE) (hm : schema.missing els = []) : ∃ y, fromvec { dflt with header := h } els = .ok y ∧ y.header = h ∧ fields y = schema.map (·.select els) := by
  obtain ⟨x, m0, hs, hv, hh, l0⟩ := flags h els
  unfold fromvec
  rw [hs]
  dsimp only [finish]
  have f0 := l0.symm.trans (Schema.of_missing_nil mand (by simp) hm)
  cases m0 <;> first | exact ⟨x, rfl, hh, hv⟩ | contradiction

theorem describes : Describes codec schema fields where
  header_set _ _ := rfl
  fields_set _ _ := rfl
  ext _ _ hh h := ext hh h
  shape x := Aligned.one (fun _ => rfl) <| Aligned.many (fun _ => rfl) <| trivial
  tovec x := by simp [codec, tovec, fields]
  complete h els _ hm := complete h els hm

theorem reports (h : Header) (els : List IE) (hm : schema.missing els ≠ []) :
    ∃ s ∈ schema.missing els, ∃ t, fromvec { dflt with header := h } els = .err (.messageMandatoryIEMissing t) ∧ kindOf t = s.kind := by
  obtain ⟨x, m0, hs, hv, hh, l0⟩ := flags h els
  unfold fromvec
  rw [hs]
  dsimp only [finish]
  cases m0 <;>
    first | exact ⟨_, Schema.mem_missing mand (by simp) l0, _, rfl, rfl⟩ | exact absurd (Schema.missing_nil mand (by simp [l0])) hm

theorem settled (h : Header) (els els' : List IE) (he : ∀ s ∈ schema, s.card.mandatory = true → s.lacks els = s.lacks els')
    (hm : schema.missing els ≠ []) : fromvec { dflt with header := h } els = fromvec { dflt with header := h } els' := by
  obtain ⟨x, m0, hs, hv, hh, l0⟩ := flags h els
  obtain ⟨x', m0', hs', hv', hh', l0'⟩ := flags h els'
  unfold fromvec
  rw [hs, hs']
  obtain rfl := Bool.not_inj (l0.symm.trans ((he _ (by decide) rfl).trans l0'))
  dsimp only [finish]
  cases m0 <;>
    first | rfl | exact absurd (Schema.missing_nil mand (by simp [l0])) hm

end ResumeAcknowledge

/-- `ResumeNotification` (resumenotification.rs:15-22). -/
structure ResumeNotification where
  header : Header
  imsi : V2.Imsi
  linked_ebi : Option V2.Ebi
  orig_node : Option V2.NodeType
  fteid_control : Option V2.Fteid
  private_ext : List V2.PrivateExtension
deriving DecidableEq

namespace ResumeNotification

/-- `default` (resumenotification.rs:25-39). -/
def dflt : ResumeNotification :=
  { header := { Header.default with msgtype := 164, teid := some 0 }, imsi := V2.Imsi.dflt, linked_ebi := none, orig_node := none, fteid_control := none, private_ext := [] }

/-- `tovec` (resumenotification.rs:75-95). -/
def tovec (x : ResumeNotification) : List IE :=
  [.Imsi x.imsi] ++ (
  optV .Ebi x.linked_ebi ++ (
  optV .NodeType x.orig_node ++ (
  optV .Fteid x.fteid_control ++ (
  x.private_ext.map .PrivateExtension))))

/-- The variables of `fromvec`: the message and the array `mandatory` (resumenotification.rs:97-130). -/
structure St where
  x : ResumeNotification
  m0 : Bool

/-- One turn of the loop of `fromvec` (resumenotification.rs:97-130). -/
def step (s : St) : IE → St
  | .Imsi j => if j.ins = 0 ∧ s.m0 = false then { s with x := { s.x with imsi := j }, m0 := true } else s
  | .Ebi j => if j.ins = 0 ∧ s.x.linked_ebi.isNone = true then { s with x := { s.x with linked_ebi := some j } } else s
  | .NodeType j => if j.ins = 0 ∧ s.x.orig_node.isNone = true then { s with x := { s.x with orig_node := some j } } else s
  | .Fteid j => if j.ins = 0 ∧ s.x.fteid_control.isNone = true then { s with x := { s.x with fteid_control := some j } } else s
  | .PrivateExtension j => { s with x := { s.x with private_ext := s.x.private_ext ++ [j] } }
  | _ => s

/-- The end of `fromvec` (resumenotification.rs:97-130). -/
def finish (s : St) : R Err ResumeNotification :=
  if s.m0 then .ok s.x else .err (.messageMandatoryIEMissing 1)

/-- `fromvec` (resumenotification.rs:97-130). -/
def fromvec (x : ResumeNotification) (els : List IE) : R Err ResumeNotification := finish (els.foldl step ⟨x, false⟩)

/-- The message type (resumenotification.rs:43-73). -/
def codec : Codec ResumeNotification :=
  { msgtype := 164, start := some 12, dflt, header := header, setHeader := fun x h => { x with header := h }, tovec, fromvec }

/-- One slot per field. -/
def schema : Schema :=
  [⟨.Imsi, .is 0, .one⟩,
   ⟨.Ebi, .is 0, .opt⟩,
   ⟨.NodeType, .is 0, .opt⟩,
   ⟨.Fteid, .is 0, .opt⟩,
   ⟨.PrivateExtension, .any, .many⟩]

/-- The fields as lists of IEs. -/
def fields (x : ResumeNotification) : List (List IE) :=
  [[.Imsi x.imsi],
   optV .Ebi x.linked_ebi,
   optV .NodeType x.orig_node,
   optV .Fteid x.fteid_control,
   x.private_ext.map .PrivateExtension]

/-- What the state has collected so far. -/
def St.view (s : St) : List (List IE) :=
  [if s.m0 then [.Imsi s.x.imsi] else [],
   optV .Ebi s.x.linked_ebi,
   optV .NodeType s.x.orig_node,
   optV .Fteid s.x.fteid_control,
   s.x.private_ext.map .PrivateExtension]

/-- The header is left alone; flags of mandatory lists tell whether the list is empty. -/
def St.Inv (h : Header) (s : St) : Prop :=
  s.x.header = h

theorem step_view (h : Header) (s : St) (e : IE) (hi : s.Inv h) : (step s e).view = Schema.step schema s.view e ∧ (step s e).Inv h := by
  cases e
  case Imsi j =>
    simp only [step]
    repeat' split
    all_goals refine ⟨cons_congr ?_ ((Schema.step_other rfl rfl).symm), ?_⟩
    all_goals first | exact hi | msg_field | (simp_all [St.Inv]; done)
  case Ebi j =>
    simp only [step]
    repeat' split
    all_goals refine ⟨cons_congr (Slot.step_ne rfl).symm (cons_congr ?_ ((Schema.step_other rfl rfl).symm)), ?_⟩
    all_goals first | exact hi | msg_field | (simp_all [St.Inv]; done)
  case NodeType j =>
    simp only [step]
    repeat' split
    all_goals refine ⟨cons_congr (Slot.step_ne rfl).symm (cons_congr (Slot.step_ne rfl).symm (cons_congr ?_ ((Schema.step_other rfl rfl).symm))), ?_⟩
    all_goals first | exact hi | msg_field | (simp_all [St.Inv]; done)
  case Fteid j =>
    simp only [step]
    repeat' split
    all_goals refine ⟨cons_congr (Slot.step_ne rfl).symm (cons_congr (Slot.step_ne rfl).symm (cons_congr (Slot.step_ne rfl).symm (cons_congr ?_ ((Schema.step_other rfl rfl).symm)))), ?_⟩
    all_goals first | exact hi | msg_field | (simp_all [St.Inv]; done)
  case PrivateExtension j =>
    simp only [step]
    all_goals refine ⟨cons_congr (Slot.step_ne rfl).symm (cons_congr (Slot.step_ne rfl).symm (cons_congr (Slot.step_ne rfl).symm (cons_congr (Slot.step_ne rfl).symm (cons_congr ?_ (rfl))))), ?_⟩
    all_goals first | exact hi | msg_field | (simp_all [St.Inv]; done)
  all_goals exact ⟨(Schema.step_other rfl rfl).symm, hi⟩

theorem loop (h : Header) (els : List IE) :
    (els.foldl step ⟨{ dflt with header := h }, false⟩).view = schema.map (·.select els) ∧ (els.foldl step ⟨{ dflt with header := h }, false⟩).Inv h := by
  have := foldl_view (Q := fun _ => True) (fun s e hp _ => step_view h s e hp) els ⟨{ dflt with header := h }, false⟩ (fun _ _ => trivial) (by simp [St.Inv])
  rw [show St.view ⟨{ dflt with header := h }, false⟩ = schema.map (fun _ => []) from rfl, Schema.foldl_nil] at this
  exact this

theorem ext {x y : ResumeNotification} (hh : x.header = y.header) (h : fields x = fields y) : x = y := by
  cases x; cases y
  simp only at hh
  subst hh
  injection h with h0 h
  cases h0
  injection h with h1 h
  cases optV_inj (fun _ _ h => IE.Ebi.inj h) h1
  injection h with h2 h
  cases optV_inj (fun _ _ h => IE.NodeType.inj h) h2
  injection h with h3 h
  cases optV_inj (fun _ _ h => IE.Fteid.inj h) h3
  injection h with h4 h
  cases map_inj (fun _ _ h => IE.PrivateExtension.inj h) h4
  rfl

theorem mand : schema.filter (·.card.mandatory) = [(⟨.Imsi, .is 0, .one⟩ : Slot)] := rfl

/-- The flags tell which mandatory IEs are absent. -/
theorem flags (h : Header) (els : List IE) : ∃ x m0, els.foldl step ⟨{ dflt with header := h }, false⟩ = ⟨x, m0⟩ ∧ St.view ⟨x, m0⟩ = schema.map (·.select els) ∧ x.header = h ∧
    (⟨.Imsi, .is 0, .one⟩ : Slot).lacks els = (!m0) := by
  obtain ⟨hv, hi⟩ := loop h els
  generalize els.foldl step ⟨{ dflt with header := h }, false⟩ = s at hv hi ⊢
  obtain ⟨x, m0⟩ := s
  simp only [St.Inv] at hi
  have l0 : (⟨.Imsi, .is 0, .one⟩ : Slot).lacks els = (!m0) := by
    rw [Slot.lacks_eq els rfl]
    have e := congrArg (fun l => l.getD 0 []) hv
    rw [show (⟨.Imsi, .is 0, .one⟩ : Slot).select els = if m0 then [.Imsi x.imsi] else [] from e.symm]
    cases m0 <;> rfl
  exact ⟨x, m0, rfl, hv, hi, l0⟩

theorem complete (h : Header) (els : List IE) (hm : schema.missing els = []) : ∃ y, fromvec { dflt with header := h } els = .ok y ∧ y.header = h ∧ fields y = schema.map (·.select els) := by
  obtain ⟨x, m0, hs, hv, hh, l0⟩ := flags h els
  unfold fromvec
  rw [hs]
  dsimp only [finish]
  have f0 := l0.symm.trans (Schema.of_missing_nil mand (by simp) hm)
  cases m0 <;> first | exact ⟨x, rfl, hh, hv⟩ | contradiction

theorem describes : Describes codec schema fields where
  header_set _ _ := rfl
  fields_set _ _ := rfl
  ext _ _ hh h := ext hh h
  shape x := Aligned.one (fun _ => rfl) <| Aligned.opt (fun _ => rfl) <| Aligned.opt (fun _ => rfl) <| Aligned.opt (fun _ => rfl) <| Aligned.many (fun _ => rfl) <| trivial
  tovec x := by simp [codec, tovec, fields]
  complete h els _ hm := complete h els hm

theorem reports (h : Header) (els : List IE) (hm : schema.missing els ≠ []) :
    ∃ s ∈ schema.missing els, ∃ t, fromvec { dflt with header := h } els = .err (.messageMandatoryIEMissing t) ∧ kindOf t = s.kind := by
  obtain ⟨x, m0, hs, hv, hh, l0⟩ := flags h els
  unfold fromvec
  rw [hs]
  dsimp only [finish]
  cases m0 <;>
    first | exact ⟨_, Schema.mem_missing mand (by simp) l0, _, rfl, rfl⟩ | exact absurd (Schema.missing_nil mand (by simp [l0])) hm

theorem settled (h : Header) (els els' : List IE) (he : ∀ s ∈ schema, s.card.mandatory = true → s.lacks els = s.lacks els')
    (hm : schema.missing els ≠ []) : fromvec { dflt with header := h } els = fromvec { dflt with header := h } els' := by
  obtain ⟨x, m0, hs, hv, hh, l0⟩ := flags h els
  obtain ⟨x', m0', hs', hv', hh', l0'⟩ := flags h els'
  unfold fromvec
  rw [hs, hs']
  obtain rfl := Bool.not_inj (l0.symm.trans ((he _ (by decide) rfl).trans l0'))
  dsimp only [finish]
  cases m0 <;>
    first | rfl | exact absurd (Schema.missing_nil mand (by simp [l0])) hm

end ResumeNotification

/-- `StopPagingIndication` (stoppagingindication.rs:15-19). -/
structure StopPagingIndication where
  header : Header
  imsi : Option V2.Imsi
  private_ext : List V2.PrivateExtension
deriving DecidableEq

namespace StopPagingIndication

/-- `default` (stoppagingindication.rs:22-33). -/
def dflt : StopPagingIndication :=
  { header := { Header.default with msgtype := 164, teid := some 0 }, imsi := none, private_ext := [] }

/-- `tovec` (stoppagingindication.rs:69-81). -/
def tovec (x : StopPagingIndication) : List IE :=
  optV .Imsi x.imsi ++ (
  x.private_ext.map .PrivateExtension)

/-- The variables of `fromvec`: the message and the array `mandatory` (stoppagingindication.rs:83-96). -/
structure St where
  x : StopPagingIndication

/-- One turn of the loop of `fromvec` (stoppagingindication.rs:83-96). -/
def step (s : St) : IE → St
  | .Imsi j => if j.ins = 0 then { s with x := { s.x with imsi := some j } } else s
  | .PrivateExtension j => { s with x := { s.x with private_ext := s.x.private_ext ++ [j] } }
  | _ => s

/-- The end of `fromvec` (stoppagingindication.rs:83-96). -/
def finish (s : St) : R Err StopPagingIndication :=
  .ok s.x

/-- `fromvec` (stoppagingindication.rs:83-96). -/
def fromvec (x : StopPagingIndication) (els : List IE) : R Err StopPagingIndication := finish (els.foldl step ⟨x⟩)

/-- The message type (stoppagingindication.rs:37-67). -/
def codec : Codec StopPagingIndication :=
  { msgtype := 164, start := some 12, dflt, header := header, setHeader := fun x h => { x with header := h }, tovec, fromvec }

/-- One slot per field. -/
def schema : Schema :=
  [⟨.Imsi, .is 0, .optLast⟩,
   ⟨.PrivateExtension, .any, .many⟩]

/-- The fields as lists of IEs. -/
def fields (x : StopPagingIndication) : List (List IE) :=
  [optV .Imsi x.imsi,
   x.private_ext.map .PrivateExtension]

/-- What the state has collected so far. -/
def St.view (s : St) : List (List IE) :=
  [optV .Imsi s.x.imsi,
   s.x.private_ext.map .PrivateExtension]

/-- The header is left alone; flags of mandatory lists tell whether the list is empty. -/
def St.Inv (h : Header) (s : St) : Prop :=
  s.x.header = h

theorem step_view (h : Header) (s : St) (e : IE) (hi : s.Inv h) : (step s e).view = Schema.step schema s.view e ∧ (step s e).Inv h := by
  cases e
  case Imsi j =>
    simp only [step]
    repeat' split
    all_goals refine ⟨cons_congr ?_ ((Schema.step_other rfl rfl).symm), ?_⟩
    all_goals first | exact hi | msg_field | (simp_all [St.Inv]; done)
  case PrivateExtension j =>
    simp only [step]
    all_goals refine ⟨cons_congr (Slot.step_ne rfl).symm (cons_congr ?_ (rfl)), ?_⟩
    all_goals first | exact hi | msg_field | (simp_all [St.Inv]; done)
  all_goals exact ⟨(Schema.step_other rfl rfl).symm, hi⟩

theorem loop (h : Header) (els : List IE) :
    (els.foldl step ⟨{ dflt with header := h }⟩).view = schema.map (·.select els) ∧ (els.foldl step ⟨{ dflt with header := h }⟩).Inv h := by
  have := foldl_view (Q := fun _ => True) (fun s e hp _ => step_view h s e hp) els ⟨{ dflt with header := h }⟩ (fun _ _ => trivial) (by simp [St.Inv])
  rw [show St.view ⟨{ dflt with header := h }⟩ = schema.map (fun _ => []) from rfl, Schema.foldl_nil] at this
  exact this

theorem ext {x y : StopPagingIndication} (hh : x.header = y.header) (h : fields x = fields y) : x = y := by
  cases x; cases y
  simp only at hh
  subst hh
  injection h with h0 h
  cases optV_inj (fun _ _ h => IE.Imsi.inj h) h0
  injection h with h1 h
  cases map_inj (fun _ _ h => IE.PrivateExtension.inj h) h1
  rfl

theorem mand : schema.filter (·.card.mandatory) = [] := rfl

/-- The flags tell which mandatory IEs are absent. -/
theorem flags (h : Header) (els : List IE) : ∃ x , els.foldl step ⟨{ dflt with header := h }⟩ = ⟨x⟩ ∧ St.view ⟨x⟩ = schema.map (·.select els) ∧ x.header = h := by
  obtain ⟨hv, hi⟩ := loop h els
  generalize els.foldl step ⟨{ dflt with header := h }⟩ = s at hv hi ⊢
  obtain ⟨x⟩ := s
  simp only [St.Inv] at hi
  exact ⟨x, rfl, hv, hi⟩

theorem complete (h : Header) (els : List IE) (_hm : schema.missing els = []) : ∃ y, fromvec { dflt with header := h } els = .ok y ∧ y.header = h ∧ fields y = schema.map (·.select els) := by
  obtain ⟨x, hs, hv, hh⟩ := flags h els
  unfold fromvec
  rw [hs]
  exact ⟨x, rfl, hh, hv⟩

theorem describes : Describes codec schema fields where
  header_set _ _ := rfl
  fields_set _ _ := rfl
  ext _ _ hh h := ext hh h
  shape x := Aligned.opt (fun _ => rfl) <| Aligned.many (fun _ => rfl) <| trivial
  tovec x := by simp [codec, tovec, fields]
  complete h els _ hm := complete h els hm

end StopPagingIndication

/-- `SuspendAcknowledge` (suspendacknowledge.rs:15-19). -/
structure SuspendAcknowledge where
  header : Header
  cause : V2.Cause
  private_ext : List V2.PrivateExtension
deriving DecidableEq

namespace SuspendAcknowledge

/-- `default` (suspendacknowledge.rs:22-33). -/
def dflt : SuspendAcknowledge :=
  { header := { Header.default with msgtype := 163, teid := some 0 }, cause := V2.Cause.dflt, private_ext := [] }

/-- `tovec` (suspendacknowledge.rs:70-80). -/
def tovec (x : SuspendAcknowledge) : List IE :=
  [.Cause x.cause] ++ (
  x.private_ext.map .PrivateExtension)

/-- The variables of `fromvec`: the message and the array `mandatory` (suspendacknowledge.rs:82-100). -/
structure St where
  x : SuspendAcknowledge
  m0 : Bool

/-- One turn of the loop of `fromvec` (suspendacknowledge.rs:82-100). -/
def step (s : St) : IE → St
  | .Cause j => if j.ins = 0 ∧ s.m0 = false then { s with x := { s.x with cause := j }, m0 := true } else s
  | .PrivateExtension j => { s with x := { s.x with private_ext := s.x.private_ext ++ [j] } }
  | _ => s

/-- The end of `fromvec` (suspendacknowledge.rs:82-100). -/
def finish (s : St) : R Err SuspendAcknowledge :=
  if s.m0 then .ok s.x else .err (.messageMandatoryIEMissing 2)

/-- `fromvec` (suspendacknowledge.rs:82-100). -/
def fromvec (x : SuspendAcknowledge) (els : List IE) : R Err SuspendAcknowledge := finish (els.foldl step ⟨x, false⟩)

/-- The message type (suspendacknowledge.rs:37-68). -/
def codec : Codec SuspendAcknowledge :=
  { msgtype := 163, start := some 12, dflt, header := header, setHeader := fun x h => { x with header := h }, tovec, fromvec }

/-- One slot per field. -/
def schema : Schema :=
  [⟨.Cause, .is 0, .one⟩,
   ⟨.PrivateExtension, .any, .many⟩]

/-- The fields as lists of IEs. -/
def fields (x : SuspendAcknowledge) : List (List IE) :=
  [[.Cause x.cause],
   x.private_ext.map .PrivateExtension]

/-- What the state has collected so far. -/
def St.view (s : St) : List (List IE) :=
  [if s.m0 then [.Cause s.x.cause] else [],
   s.x.private_ext.map .PrivateExtension]

/-- The header is left alone; flags of mandatory lists tell whether the list is empty. -/
def St.Inv (h : Header) (s : St) : Prop :=
  s.x.header = h

theorem step_view (h : Header) (s : St) (e : IE) (hi : s.Inv h) : (step s e).view = Schema.step schema s.view e ∧ (step s e).Inv h := by
  cases e
  case Cause j =>
    simp only [step]
    repeat' split
    all_goals refine ⟨cons_congr ?_ ((Schema.step_other rfl rfl).symm), ?_⟩
    all_goals first | exact hi | msg_field | (simp_all [St.Inv]; done)
  case PrivateExtension j =>
    simp only [step]
    all_goals refine ⟨cons_congr (Slot.step_ne rfl).symm (cons_congr ?_ (rfl)), ?_⟩
    all_goals first | exact hi | msg_field | (simp_all [St.Inv]; done)
  all_goals exact ⟨(Schema.step_other rfl rfl).symm, hi⟩

theorem loop (h : Header) (els : List IE) :
    (els.foldl step ⟨{ dflt with header := h }, false⟩).view = schema.map (·.select els) ∧ (els.foldl step ⟨{ dflt with header := h }, false⟩).Inv h := by
  have := foldl_view (Q := fun _ => True) (fun s e hp _ => step_view h s e hp) els ⟨{ dflt with header := h }, false⟩ (fun _ _ => trivial) (by simp [St.Inv])
  rw [show St.view ⟨{ dflt with header := h }, false⟩ = schema.map (fun _ => []) from rfl, Schema.foldl_nil] at this
  exact this

theorem ext {x y : SuspendAcknowledge} (hh : x.header = y.header) (h : fields x = fields y) : x = y := by
  cases x; cases y
  simp only at hh
  subst hh
  injection h with h0 h
  cases h0
  injection h with h1 h
  cases map_inj (fun _ _ h => IE.PrivateExtension.inj h) h1
  rfl

theorem mand : schema.filter (·.card.mandatory) = [(⟨.Cause, .is 0, .one⟩ : Slot)] := rfl

/-- The flags tell which mandatory IEs are absent. -/
theorem flags (h : Header) (els : List IE) : ∃ x m0, els.foldl step ⟨{ dflt with header := h }, false⟩ = ⟨x, m0⟩ ∧ St.view ⟨x, m0⟩ = schema.map (·.select els) ∧ x.header = h ∧
    (⟨.Cause, .is 0, .one⟩ : Slot).lacks els = (!m0) := by
  obtain ⟨hv, hi⟩ := loop h els
  generalize els.foldl step ⟨{ dflt with header := h }, false⟩ = s at hv hi ⊢
  obtain ⟨x, m0⟩ := s
  simp only [St.Inv] at hi
  have l0 : (⟨.Cause, .is 0, .one⟩ : Slot).lacks els = (!m0) := by
    rw [Slot.lacks_eq els rfl]
    have e := congrArg (fun l => l.getD 0 []) hv
    rw [show (⟨.Cause, .is 0, .one⟩ : Slot).select els = if m0 then [.Cause x.cause] else [] from e.symm]
    cases m0 <;> rfl
  exact ⟨x, m0, rfl, hv, hi, l0⟩

theorem complete (h : Header) (els : List IE) (hm : schema.missing els = []) : ∃ y, fromvec { dflt with header := h } els = .ok y ∧ y.header = h ∧ fields y = schema.map (·.select els) := by
  obtain ⟨x, m0, hs, hv, hh, l0⟩ := flags h els
  unfold fromvec
  rw [hs]
  dsimp only [finish]
  have f0 := l0.symm.trans (Schema.of_missing_nil mand (by simp) hm)
  cases m0 <;> first | exact ⟨x, rfl, hh, hv⟩ | contradiction

theorem describes : Describes codec schema fields where
  header_set _ _ := rfl
  fields_set _ _ := rfl
  ext _ _ hh h := ext hh h
  shape x := Aligned.one (fun _ => rfl) <| Aligned.many (fun _ => rfl) <| trivial
  tovec x := by simp [codec, tovec, fields]
  complete h els _ hm := complete h els hm

theorem reports (h : Header) (els : List IE) (hm : schema.missing els ≠ []) :
    ∃ s ∈ schema.missing els, ∃ t, fromvec { dflt with header := h } els = .err (.messageMandatoryIEMissing t) ∧ kindOf t = s.kind := by
  obtain ⟨x, m0, hs, hv, hh, l0⟩ := flags h els
  unfold fromvec
  rw [hs]
  dsimp only [finish]
  cases m0 <;>
    first | exact ⟨_, Schema.mem_missing mand (by simp) l0, _, rfl, rfl⟩ | exact absurd (Schema.missing_nil mand (by simp [l0])) hm

theorem settled (h : Header) (els els' : List IE) (he : ∀ s ∈ schema, s.card.mandatory = true → s.lacks els = s.lacks els')
    (hm : schema.missing els ≠ []) : fromvec { dflt with header := h } els = fromvec { dflt with header := h } els' := by
  obtain ⟨x, m0, hs, hv, hh, l0⟩ := flags h els
  obtain ⟨x', m0', hs', hv', hh', l0'⟩ := flags h els'
  unfold fromvec
  rw [hs, hs']
  obtain rfl := Bool.not_inj (l0.symm.trans ((he _ (by decide) rfl).trans l0'))
  dsimp only [finish]
  cases m0 <;>
    first | rfl | exact absurd (Schema.missing_nil mand (by simp [l0])) hm

end SuspendAcknowledge

/-- `SuspendNotification` (suspendnotification.rs:15-27). -/
structure SuspendNotification where
  header : Header
  imsi : Option V2.Imsi
  rai : Option V2.Uli
  linked_ebi : Option V2.Ebi
  ptmsi : Option V2.Ptmsi
  orig_node : Option V2.NodeType
  ip_control : Option V2.IpAddress
  udp_port : Option V2.PortNumber
  hop_counter : Option V2.HopCounter
  fteid_control : Option V2.Fteid
  private_ext : List V2.PrivateExtension
deriving DecidableEq

namespace SuspendNotification

/-- `default` (suspendnotification.rs:30-49). -/
def dflt : SuspendNotification :=
  { header := { Header.default with msgtype := 162, teid := some 0 }, imsi := none, rai := none, linked_ebi := none, ptmsi := none, orig_node := none, ip_control := none, udp_port := none, hop_counter := none, fteid_control := none, private_ext := [] }

/-- `tovec` (suspendnotification.rs:86-122). -/
def tovec (x : SuspendNotification) : List IE :=
  optV .Imsi x.imsi ++ (
  optV .Uli x.rai ++ (
  optV .Ebi x.linked_ebi ++ (
  optV .Ptmsi x.ptmsi ++ (
  optV .NodeType x.orig_node ++ (
  optV .IpAddress x.ip_control ++ (
  optV .PortNumber x.udp_port ++ (
  optV .HopCounter x.hop_counter ++ (
  optV .Fteid x.fteid_control ++ (
  x.private_ext.map .PrivateExtension)))))))))

/-- The variables of `fromvec`: the message and the array `mandatory` (suspendnotification.rs:124-177). -/
structure St where
  x : SuspendNotification

/-- One turn of the loop of `fromvec` (suspendnotification.rs:124-177). -/
def step (s : St) : IE → St
  | .Imsi j => if j.ins = 0 ∧ s.x.imsi.isNone = true then { s with x := { s.x with imsi := some j } } else s
  | .Uli j => if j.ins = 0 ∧ s.x.rai.isNone = true then { s with x := { s.x with rai := some j } } else s
  | .Ebi j => if j.ins = 0 ∧ s.x.linked_ebi.isNone = true then { s with x := { s.x with linked_ebi := some j } } else s
  | .Ptmsi j => if j.ins = 0 ∧ s.x.ptmsi.isNone = true then { s with x := { s.x with ptmsi := some j } } else s
  | .NodeType j => if j.ins = 0 ∧ s.x.orig_node.isNone = true then { s with x := { s.x with orig_node := some j } } else s
  | .IpAddress j => if j.ins = 0 ∧ s.x.ip_control.isNone = true then { s with x := { s.x with ip_control := some j } } else s
  | .PortNumber j => if j.ins = 0 ∧ s.x.udp_port.isNone = true then { s with x := { s.x with udp_port := some j } } else s
  | .HopCounter j => if j.ins = 0 ∧ s.x.hop_counter.isNone = true then { s with x := { s.x with hop_counter := some j } } else s
  | .Fteid j => if j.ins = 0 ∧ s.x.fteid_control.isNone = true then { s with x := { s.x with fteid_control := some j } } else s
  | .PrivateExtension j => { s with x := { s.x with private_ext := s.x.private_ext ++ [j] } }
  | _ => s

/-- The end of `fromvec` (suspendnotification.rs:124-177). -/
def finish (s : St) : R Err SuspendNotification :=
  .ok s.x

/-- `fromvec` (suspendnotification.rs:124-177). -/
def fromvec (x : SuspendNotification) (els : List IE) : R Err SuspendNotification := finish (els.foldl step ⟨x⟩)

/-- The message type (suspendnotification.rs:53-84). -/
def codec : Codec SuspendNotification :=
  { msgtype := 162, start := some 12, dflt, header := header, setHeader := fun x h => { x with header := h }, tovec, fromvec }

/-- One slot per field. -/
def schema : Schema :=
  [⟨.Imsi, .is 0, .opt⟩,
   ⟨.Uli, .is 0, .opt⟩,
   ⟨.Ebi, .is 0, .opt⟩,
   ⟨.Ptmsi, .is 0, .opt⟩,
   ⟨.NodeType, .is 0, .opt⟩,
   ⟨.IpAddress, .is 0, .opt⟩,
   ⟨.PortNumber, .is 0, .opt⟩,
   ⟨.HopCounter, .is 0, .opt⟩,
   ⟨.Fteid, .is 0, .opt⟩,
   ⟨.PrivateExtension, .any, .many⟩]

/-- The fields as lists of IEs. -/
def fields (x : SuspendNotification) : List (List IE) :=
  [optV .Imsi x.imsi,
   optV .Uli x.rai,
   optV .Ebi x.linked_ebi,
   optV .Ptmsi x.ptmsi,
   optV .NodeType x.orig_node,
   optV .IpAddress x.ip_control,
   optV .PortNumber x.udp_port,
   optV .HopCounter x.hop_counter,
   optV .Fteid x.fteid_control,
   x.private_ext.map .PrivateExtension]

/-- What the state has collected so far. -/
def St.view (s : St) : List (List IE) :=
  [optV .Imsi s.x.imsi,
   optV .Uli s.x.rai,
   optV .Ebi s.x.linked_ebi,
   optV .Ptmsi s.x.ptmsi,
   optV .NodeType s.x.orig_node,
   optV .IpAddress s.x.ip_control,
   optV .PortNumber s.x.udp_port,
   optV .HopCounter s.x.hop_counter,
   optV .Fteid s.x.fteid_control,
   s.x.private_ext.map .PrivateExtension]

/-- The header is left alone; flags of mandatory lists tell whether the list is empty. -/
def St.Inv (h : Header) (s : St) : Prop :=
  s.x.header = h

theorem step_view (h : Header) (s : St) (e : IE) (hi : s.Inv h) : (step s e).view = Schema.step schema s.view e ∧ (step s e).Inv h := by
  cases e
  case Imsi j =>
    simp only [step]
    repeat' split
    all_goals refine ⟨cons_congr ?_ ((Schema.step_other rfl rfl).symm), ?_⟩
    all_goals first | exact hi | msg_field | (simp_all [St.Inv]; done)
  case Uli j =>
    simp only [step]
    repeat' split
    all_goals refine ⟨cons_congr (Slot.step_ne rfl).symm (cons_congr ?_ ((Schema.step_other rfl rfl).symm)), ?_⟩
    all_goals first | exact hi | msg_field | (simp_all [St.Inv]; done)
  case Ebi j =>
    simp only [step]
    repeat' split
    all_goals refine ⟨cons_congr (Slot.step_ne rfl).symm (cons_congr (Slot.step_ne rfl).symm (cons_congr ?_ ((Schema.step_other rfl rfl).symm))), ?_⟩
    all_goals first | exact hi | msg_field | (simp_all [St.Inv]; done)
  case Ptmsi j =>
    simp only [step]
    repeat' split
    all_goals refine ⟨cons_congr (Slot.step_ne rfl).symm (cons_congr (Slot.step_ne rfl).symm (cons_congr (Slot.step_ne rfl).symm (cons_congr ?_ ((Schema.step_other rfl rfl).symm)))), ?_⟩
    all_goals first | exact hi | msg_field | (simp_all [St.Inv]; done)
  case NodeType j =>
    simp only [step]
    repeat' split
    all_goals refine ⟨cons_congr (Slot.step_ne rfl).symm (cons_congr (Slot.step_ne rfl).symm (cons_congr (Slot.step_ne rfl).symm (cons_congr (Slot.step_ne rfl).symm (cons_congr ?_ ((Schema.step_other rfl rfl).symm))))), ?_⟩
    all_goals first | exact hi | msg_field | (simp_all [St.Inv]; done)
  case IpAddress j =>
    simp only [step]
    repeat' split
    all_goals refine ⟨cons_congr (Slot.step_ne rfl).symm (cons_congr (Slot.step_ne rfl).symm (cons_congr (Slot.step_ne rfl).symm (cons_congr (Slot.step_ne rfl).symm (cons_congr (Slot.step_ne rfl).symm (cons_congr ?_ ((Schema.step_other rfl rfl).symm)))))), ?_⟩
    all_goals first | exact hi | msg_field | (simp_all [St.Inv]; done)
  case PortNumber j =>
    simp only [step]
    repeat' split
    all_goals refine ⟨cons_congr (Slot.step_ne rfl).symm (cons_congr (Slot.step_ne rfl).symm (cons_congr (Slot.step_ne rfl).symm (cons_congr (Slot.step_ne rfl).symm (cons_congr (Slot.step_ne rfl).symm (cons_congr (Slot.step_ne rfl).symm (cons_congr ?_ ((Schema.step_other rfl rfl).symm))))))), ?_⟩
    all_goals first | exact hi | msg_field | (simp_all [St.Inv]; done)
  case HopCounter j =>
    simp only [step]
    repeat' split
    all_goals refine ⟨cons_congr (Slot.step_ne rfl).symm (cons_congr (Slot.step_ne rfl).symm (cons_congr (Slot.step_ne rfl).symm (cons_congr (Slot.step_ne rfl).symm (cons_congr (Slot.step_ne rfl).symm (cons_congr (Slot.step_ne rfl).symm (cons_congr (Slot.step_ne rfl).symm (cons_congr ?_ ((Schema.step_other rfl rfl).symm)))))))), ?_⟩
    all_goals first | exact hi | msg_field | (simp_all [St.Inv]; done)
  case Fteid j =>
    simp only [step]
    repeat' split
    all_goals refine ⟨cons_congr (Slot.step_ne rfl).symm (cons_congr (Slot.step_ne rfl).symm (cons_congr (Slot.step_ne rfl).symm (cons_congr (Slot.step_ne rfl).symm (cons_congr (Slot.step_ne rfl).symm (cons_congr (Slot.step_ne rfl).symm (cons_congr (Slot.step_ne rfl).symm (cons_congr (Slot.step_ne rfl).symm (cons_congr ?_ ((Schema.step_other rfl rfl).symm))))))))), ?_⟩
    all_goals first | exact hi | msg_field | (simp_all [St.Inv]; done)
  case PrivateExtension j =>
    simp only [step]
    all_goals refine ⟨cons_congr (Slot.step_ne rfl).symm (cons_congr (Slot.step_ne rfl).symm (cons_congr (Slot.step_ne rfl).symm (cons_congr (Slot.step_ne rfl).symm (cons_congr (Slot.step_ne rfl).symm (cons_congr (Slot.step_ne rfl).symm (cons_congr (Slot.step_ne rfl).symm (cons_congr (Slot.step_ne rfl).symm (cons_congr (Slot.step_ne rfl).symm (cons_congr ?_ (rfl)))))))))), ?_⟩
    all_goals first | exact hi | msg_field | (simp_all [St.Inv]; done)
  all_goals exact ⟨(Schema.step_other rfl rfl).symm, hi⟩

theorem loop (h : Header) (els : List IE) :
    (els.foldl step ⟨{ dflt with header := h }⟩).view = schema.map (·.select els) ∧ (els.foldl step ⟨{ dflt with header := h }⟩).Inv h := by
  have := foldl_view (Q := fun _ => True) (fun s e hp _ => step_view h s e hp) els ⟨{ dflt with header := h }⟩ (fun _ _ => trivial) (by simp [St.Inv])
  rw [show St.view ⟨{ dflt with header := h }⟩ = schema.map (fun _ => []) from rfl, Schema.foldl_nil] at this
  exact this

theorem ext {x y : SuspendNotification} (hh : x.header = y.header) (h : fields x = fields y) : x = y := by
  cases x; cases y
  simp only at hh
  subst hh
  injection h with h0 h
  cases optV_inj (fun _ _ h => IE.Imsi.inj h) h0
  injection h with h1 h
  cases optV_inj (fun _ _ h => IE.Uli.inj h) h1
  injection h with h2 h
  cases optV_inj (fun _ _ h => IE.Ebi.inj h) h2
  injection h with h3 h
  cases optV_inj (fun _ _ h => IE.Ptmsi.inj h) h3
  injection h with h4 h
  cases optV_inj (fun _ _ h => IE.NodeType.inj h) h4
  injection h with h5 h
  cases optV_inj (fun _ _ h => IE.IpAddress.inj h) h5
  injection h with h6 h
  cases optV_inj (fun _ _ h => IE.PortNumber.inj h) h6
  injection h with h7 h
  cases optV_inj (fun _ _ h => IE.HopCounter.inj h) h7
  injection h with h8 h
  cases optV_inj (fun _ _ h => IE.Fteid.inj h) h8
  injection h with h9 h
  cases map_inj (fun _ _ h => IE.PrivateExtension.inj h) h9
  rfl

theorem mand : schema.filter (·.card.mandatory) = [] := rfl

/-- The flags tell which mandatory IEs are absent. -/
theorem flags (h : Header) (els : List IE) : ∃ x , els.foldl step ⟨{ dflt with header := h }⟩ = ⟨x⟩ ∧ St.view ⟨x⟩ = schema.map (·.select els) ∧ x.header = h := by
  obtain ⟨hv, hi⟩ := loop h els
  generalize els.foldl step ⟨{ dflt with header := h }⟩ = s at hv hi ⊢
  obtain ⟨x⟩ := s
  simp only [St.Inv] at hi
  exact ⟨x, rfl, hv, hi⟩

theorem complete (h : Header) (els : List IE) (_hm : schema.missing els = []) : ∃ y, fromvec { dflt with header := h } els = .ok y ∧ y.header = h ∧ fields y = schema.map (·.select els) := by
  obtain ⟨x, hs, hv, hh⟩ := flags h els
  unfold fromvec
  rw [hs]
  exact ⟨x, rfl, hh, hv⟩

theorem describes : Describes codec schema fields where
  header_set _ _ := rfl
  fields_set _ _ := rfl
  ext _ _ hh h := ext hh h
  shape x := Aligned.opt (fun _ => rfl) <| Aligned.opt (fun _ => rfl) <| Aligned.opt (fun _ => rfl) <| Aligned.opt (fun _ => rfl) <| Aligned.opt (fun _ => rfl) <| Aligned.opt (fun _ => rfl) <| Aligned.opt (fun _ => rfl) <| Aligned.opt (fun _ => rfl) <| Aligned.opt (fun _ => rfl) <| Aligned.many (fun _ => rfl) <| trivial
  tovec x := by simp [codec, tovec, fields]
  complete h els _ hm := complete h els hm

end SuspendNotification

/-- `TraceSessionActivation` (tracesessionactivation.rs:15-20). -/
structure TraceSessionActivation where
  header : Header
  imsi : Option V2.Imsi
  trace_info : V2.TraceInformation
  mei : Option V2.Mei
deriving DecidableEq

namespace TraceSessionActivation

/-- `default` (tracesessionactivation.rs:23-35). -/
def dflt : TraceSessionActivation :=
  { header := { Header.default with msgtype := 71, teid := some 0 }, imsi := none, trace_info := V2.TraceInformation.dflt, mei := none }

/-- `tovec` (tracesessionactivation.rs:72-86). -/
def tovec (x : TraceSessionActivation) : List IE :=
  optV .Imsi x.imsi ++ (
  [.TraceInformation x.trace_info] ++ (
  optV .Mei x.mei))

/-- The variables of `fromvec`: the message and the array `mandatory` (tracesessionactivation.rs:88-115). -/
structure St where
  x : TraceSessionActivation
  m0 : Bool

/-- One turn of the loop of `fromvec` (tracesessionactivation.rs:88-115). -/
def step (s : St) : IE → St
  | .Imsi j => if j.ins = 0 ∧ s.x.imsi.isNone = true then { s with x := { s.x with imsi := some j } } else s
  | .TraceInformation j => if j.ins = 0 ∧ s.m0 = false then { s with x := { s.x with trace_info := j }, m0 := true } else s
  | .Mei j => if j.ins = 0 ∧ s.x.mei.isNone = true then { s with x := { s.x with mei := some j } } else s
  | _ => s

/-- The end of `fromvec` (tracesessionactivation.rs:88-115). -/
def finish (s : St) : R Err TraceSessionActivation :=
  if s.m0 then .ok s.x else .err (.messageMandatoryIEMissing 96)

/-- `fromvec` (tracesessionactivation.rs:88-115). -/
def fromvec (x : TraceSessionActivation) (els : List IE) : R Err TraceSessionActivation := finish (els.foldl step ⟨x, false⟩)

/-- The message type (tracesessionactivation.rs:39-70). -/
def codec : Codec TraceSessionActivation :=
  { msgtype := 71, start := some 12, dflt, header := header, setHeader := fun x h => { x with header := h }, tovec, fromvec }

/-- One slot per field. -/
def schema : Schema :=
  [⟨.Imsi, .is 0, .opt⟩,
   ⟨.TraceInformation, .is 0, .one⟩,
   ⟨.Mei, .is 0, .opt⟩]

/-- The fields as lists of IEs. -/
def fields (x : TraceSessionActivation) : List (List IE) :=
  [optV .Imsi x.imsi,
   [.TraceInformation x.trace_info],
   optV .Mei x.mei]

/-- What the state has collected so far. -/
def St.view (s : St) : List (List IE) :=
  [optV .Imsi s.x.imsi,
   if s.m0 then [.TraceInformation s.x.trace_info] else [],
   optV .Mei s.x.mei]

/-- The header is left alone; flags of mandatory lists tell whether the list is empty. -/
def St.Inv (h : Header) (s : St) : Prop :=
  s.x.header = h

theorem step_view (h : Header) (s : St) (e : IE) (hi : s.Inv h) : (step s e).view = Schema.step schema s.view e ∧ (step s e).Inv h := by
  cases e
  case Imsi j =>
    simp only [step]
    repeat' split
    all_goals refine ⟨cons_congr ?_ ((Schema.step_other rfl rfl).symm), ?_⟩
    all_goals first | exact hi | msg_field | (simp_all [St.Inv]; done)
  case TraceInformation j =>
    simp only [step]
    repeat' split
    all_goals refine ⟨cons_congr (Slot.step_ne rfl).symm (cons_congr ?_ ((Schema.step_other rfl rfl).symm)), ?_⟩
    all_goals first | exact hi | msg_field | (simp_all [St.Inv]; done)
  case Mei j =>
    simp only [step]
    repeat' split
    all_goals refine ⟨cons_congr (Slot.step_ne rfl).symm (cons_congr (Slot.step_ne rfl).symm (cons_congr ?_ (rfl))), ?_⟩
    all_goals first | exact hi | msg_field | (simp_all [St.Inv]; done)
  all_goals exact ⟨(Schema.step_other rfl rfl).symm, hi⟩

theorem loop (h : Header) (els : List IE) :
    (els.foldl step ⟨{ dflt with header := h }, false⟩).view = schema.map (·.select els) ∧ (els.foldl step ⟨{ dflt with header := h }, false⟩).Inv h := by
  have := foldl_view (Q := fun _ => True) (fun s e hp _ => step_view h s e hp) els ⟨{ dflt with header := h }, false⟩ (fun _ _ => trivial) (by simp [St.Inv])
  rw [show St.view ⟨{ dflt with header := h }, false⟩ = schema.map (fun _ => []) from rfl, Schema.foldl_nil] at this
  exact this

theorem ext {x y : TraceSessionActivation} (hh : x.header = y.header) (h : fields x = fields y) : x = y := by
  cases x; cases y
  simp only at hh
  subst hh
  injection h with h0 h
  cases optV_inj (fun _ _ h => IE.Imsi.inj h) h0
  injection h with h1 h
  cases h1
  injection h with h2 h
  cases optV_inj (fun _ _ h => IE.Mei.inj h) h2
  rfl

theorem mand : schema.filter (·.card.mandatory) = [(⟨.TraceInformation, .is 0, .one⟩ : Slot)] := rfl

/-- The flags tell which mandatory IEs are absent. -/
theorem flags (h : Header) (els : List IE) : ∃ x m0, els.foldl step ⟨{ dflt with header := h }, false⟩ = ⟨x, m0⟩ ∧ St.view ⟨x, m0⟩ = schema.map (·.select els) ∧ x.header = h ∧
    (⟨.TraceInformation, .is 0, .one⟩ : Slot).lacks els = (!m0) := by
  obtain ⟨hv, hi⟩ := loop h els
  generalize els.foldl step ⟨{ dflt with header := h }, false⟩ = s at hv hi ⊢
  obtain ⟨x, m0⟩ := s
  simp only [St.Inv] at hi
  have l0 : (⟨.TraceInformation, .is 0, .one⟩ : Slot).lacks els = (!m0) := by
    rw [Slot.lacks_eq els rfl]
    have e := congrArg (fun l => l.getD 1 []) hv
    rw [show (⟨.TraceInformation, .is 0, .one⟩ : Slot).select els = if m0 then [.TraceInformation x.trace_info] else [] from e.symm]
    cases m0 <;> rfl
  exact ⟨x, m0, rfl, hv, hi, l0⟩

theorem complete (h : Header) (els : List IE) (hm : schema.missing els = []) : ∃ y, fromvec { dflt with header := h } els = .ok y ∧ y.header = h ∧ fields y = schema.map (·.select els) := by
  obtain ⟨x, m0, hs, hv, hh, l0⟩ := flags h els
  unfold fromvec
  rw [hs]
  dsimp only [finish]
  have f0 := l0.symm.trans (Schema.of_missing_nil mand (by simp) hm)
  cases m0 <;> first | exact ⟨x, rfl, hh, hv⟩ | contradiction

theorem describes : Describes codec schema fields where
  header_set _ _ := rfl
  fields_set _ _ := rfl
  ext _ _ hh h := ext hh h
  shape x := Aligned.opt (fun _ => rfl) <| Aligned.one (fun _ => rfl) <| Aligned.opt (fun _ => rfl) <| trivial
  tovec x := by simp [codec, tovec, fields]
  complete h els _ hm := complete h els hm

theorem reports (h : Header) (els : List IE) (hm : schema.missing els ≠ []) :
    ∃ s ∈ schema.missing els, ∃ t, fromvec { dflt with header := h } els = .err (.messageMandatoryIEMissing t) ∧ kindOf t = s.kind := by
  obtain ⟨x, m0, hs, hv, hh, l0⟩ := flags h els
  unfold fromvec
  rw [hs]
  dsimp only [finish]
  cases m0 <;>
    first | exact ⟨_, Schema.mem_missing mand (by simp) l0, _, rfl, rfl⟩ | exact absurd (Schema.missing_nil mand (by simp [l0])) hm

theorem settled (h : Header) (els els' : List IE) (he : ∀ s ∈ schema, s.card.mandatory = true → s.lacks els = s.lacks els')
    (hm : schema.missing els ≠ []) : fromvec { dflt with header := h } els = fromvec { dflt with header := h } els' := by
  obtain ⟨x, m0, hs, hv, hh, l0⟩ := flags h els
  obtain ⟨x', m0', hs', hv', hh', l0'⟩ := flags h els'
  unfold fromvec
  rw [hs, hs']
  obtain rfl := Bool.not_inj (l0.symm.trans ((he _ (by decide) rfl).trans l0'))
  dsimp only [finish]
  cases m0 <;>
    first | rfl | exact absurd (Schema.missing_nil mand (by simp [l0])) hm

end TraceSessionActivation

/-- `TraceSessionDeactivation` (tracesessiondeactivation.rs:15-18). -/
structure TraceSessionDeactivation where
  header : Header
  trace_info : V2.TraceInformation
deriving DecidableEq

namespace TraceSessionDeactivation

/-- `default` (tracesessiondeactivation.rs:21-31). -/
def dflt : TraceSessionDeactivation :=
  { header := { Header.default with msgtype := 72, teid := some 0 }, trace_info := V2.TraceInformation.dflt }

/-- `tovec` (tracesessiondeactivation.rs:68-70). -/
def tovec (x : TraceSessionDeactivation) : List IE :=
  [.TraceInformation x.trace_info]

/-- The variables of `fromvec`: the message and the array `mandatory` (tracesessiondeactivation.rs:72-86). -/
structure St where
  x : TraceSessionDeactivation
  m0 : Bool

/-- One turn of the loop of `fromvec` (tracesessiondeactivation.rs:72-86). -/
def step (s : St) : IE → St
  | .TraceInformation j => if j.ins = 0 ∧ s.m0 = false then { s with x := { s.x with trace_info := j }, m0 := true } else s
  | _ => s

/-- The end of `fromvec` (tracesessiondeactivation.rs:72-86). -/
def finish (s : St) : R Err TraceSessionDeactivation :=
  if s.m0 then .ok s.x else .err (.messageMandatoryIEMissing 96)

/-- `fromvec` (tracesessiondeactivation.rs:72-86). -/
def fromvec (x : TraceSessionDeactivation) (els : List IE) : R Err TraceSessionDeactivation := finish (els.foldl step ⟨x, false⟩)

/-- The message type (tracesessiondeactivation.rs:35-66). -/
def codec : Codec TraceSessionDeactivation :=
  { msgtype := 72, start := some 12, dflt, header := header, setHeader := fun x h => { x with header := h }, tovec, fromvec }

/-- One slot per field. -/
def schema : Schema :=
  [⟨.TraceInformation, .is 0, .one⟩]

/-- The fields as lists of IEs. -/
def fields (x : TraceSessionDeactivation) : List (List IE) :=
  [[.TraceInformation x.trace_info]]

/-- What the state has collected so far. -/
def St.view (s : St) : List (List IE) :=
  [if s.m0 then [.TraceInformation s.x.trace_info] else []]

/-- The header is left alone; flags of mandatory lists tell whether the list is empty. -/
def St.Inv (h : Header) (s : St) : Prop :=
  s.x.header = h

theorem step_view (h : Header) (s : St) (e : IE) (hi : s.Inv h) : (step s e).view = Schema.step schema s.view e ∧ (step s e).Inv h := by
  cases e
  case TraceInformation j =>
    simp only [step]
    repeat' split
    all_goals refine ⟨cons_congr ?_ (rfl), ?_⟩
    all_goals first | exact hi | msg_field | (simp_all [St.Inv]; done)
  all_goals exact ⟨(Schema.step_other rfl rfl).symm, hi⟩

theorem loop (h : Header) (els : List IE) :
    (els.foldl step ⟨{ dflt with header := h }, false⟩).view = schema.map (·.select els) ∧ (els.foldl step ⟨{ dflt with header := h }, false⟩).Inv h := by
  have := foldl_view (Q := fun _ => True) (fun s e hp _ => step_view h s e hp) els ⟨{ dflt with header := h }, false⟩ (fun _ _ => trivial) (by simp [St.Inv])
  rw [show St.view ⟨{ dflt with header := h }, false⟩ = schema.map (fun _ => []) from rfl, Schema.foldl_nil] at this
  exact this

theorem ext {x y : TraceSessionDeactivation} (hh : x.header = y.header) (h : fields x = fields y) : x = y := by
  cases x; cases y
  simp only at hh
  subst hh
  injection h with h0 h
  cases h0
  rfl

theorem mand : schema.filter (·.card.mandatory) = [(⟨.TraceInformation, .is 0, .one⟩ : Slot)] := rfl

/-- The flags tell which mandatory IEs are absent. -/
theorem flags (h : Header) (els : List IE) : ∃ x m0, els.foldl step ⟨{ dflt with header := h }, false⟩ = ⟨x, m0⟩ ∧ St.view ⟨x, m0⟩ = schema.map (·.select els) ∧ x.header = h ∧
    (⟨.TraceInformation, .is 0, .one⟩ : Slot).lacks els = (!m0) := by
  obtain ⟨hv, hi⟩ := loop h els
  generalize els.foldl step ⟨{ dflt with header := h }, false⟩ = s at hv hi ⊢
  obtain ⟨x, m0⟩ := s
  simp only [St.Inv] at hi
  have l0 : (⟨.TraceInformation, .is 0, .one⟩ : Slot).lacks els = (!m0) := by
    rw [Slot.lacks_eq els rfl]
    have e := congrArg (fun l => l.getD 0 []) hv
    rw [show (⟨.TraceInformation, .is 0, .one⟩ : Slot).select els = if m0 then [.TraceInformation x.trace_info] else [] from e.symm]
    cases m0 <;> rfl
  exact ⟨x, m0, rfl, hv, hi, l0⟩

theorem complete (h : Header) (els : List IE) (hm : schema.missing els = []) : ∃ y, fromvec { dflt with header := h } els = .ok y ∧ y.header = h ∧ fields y = schema.map (·.select els) := by
  obtain ⟨x, m0, hs, hv, hh, l0⟩ := flags h els
  unfold fromvec
  rw [hs]
  dsimp only [finish]
  have f0 := l0.symm.trans (Schema.of_missing_nil mand (by simp) hm)
  cases m0 <;> first | exact ⟨x, rfl, hh, hv⟩ | contradiction

theorem describes : Describes codec schema fields where
  header_set _ _ := rfl
  fields_set _ _ := rfl
  ext _ _ hh h := ext hh h
  shape x := Aligned.one (fun _ => rfl) <| trivial
  tovec x := by simp [codec, tovec, fields]
  complete h els _ hm := complete h els hm

theorem reports (h : Header) (els : List IE) (hm : schema.missing els ≠ []) :
    ∃ s ∈ schema.missing els, ∃ t, fromvec { dflt with header := h } els = .err (.messageMandatoryIEMissing t) ∧ kindOf t = s.kind := by
  obtain ⟨x, m0, hs, hv, hh, l0⟩ := flags h els
  unfold fromvec
  rw [hs]
  dsimp only [finish]
  cases m0 <;>
    first | exact ⟨_, Schema.mem_missing mand (by simp) l0, _, rfl, rfl⟩ | exact absurd (Schema.missing_nil mand (by simp [l0])) hm

theorem settled (h : Header) (els els' : List IE) (he : ∀ s ∈ schema, s.card.mandatory = true → s.lacks els = s.lacks els')
    (hm : schema.missing els ≠ []) : fromvec { dflt with header := h } els = fromvec { dflt with header := h } els' := by
  obtain ⟨x, m0, hs, hv, hh, l0⟩ := flags h els
  obtain ⟨x', m0', hs', hv', hh', l0'⟩ := flags h els'
  unfold fromvec
  rw [hs, hs']
  obtain rfl := Bool.not_inj (l0.symm.trans ((he _ (by decide) rfl).trans l0'))
  dsimp only [finish]
  cases m0 <;>
    first | rfl | exact absurd (Schema.missing_nil mand (by simp [l0])) hm

end TraceSessionDeactivation

/-- `UeActivityAcknowledge` (ueactivityacknowledge.rs:15-19). -/
structure UeActivityAcknowledge where
  header : Header
  cause : V2.Cause
  private_ext : List V2.PrivateExtension
deriving DecidableEq

namespace UeActivityAcknowledge

/-- `default` (ueactivityacknowledge.rs:22-33). -/
def dflt : UeActivityAcknowledge :=
  { header := { Header.default with msgtype := 156, teid := some 0 }, cause := V2.Cause.dflt, private_ext := [] }

/-- `tovec` (ueactivityacknowledge.rs:70-80). -/
def tovec (x : UeActivityAcknowledge) : List IE :=
  [.Cause x.cause] ++ (
  x.private_ext.map .PrivateExtension)

/-- The variables of `fromvec`: the message and the array `mandatory` (ueactivityacknowledge.rs:82-100). -/
structure St where
  x : UeActivityAcknowledge
  m0 : Bool

/-- One turn of the loop of `fromvec` (ueactivityacknowledge.rs:82-100). -/
def step (s : St) : IE → St
  | .Cause j => if j.ins = 0 ∧ s.m0 = false then { s with x := { s.x with cause := j }, m0 := true } else s
  | .PrivateExtension j => { s with x := { s.x with private_ext := s.x.private_ext ++ [j] } }
  | _ => s

/-- The end of `fromvec` (ueactivityacknowledge.rs:82-100). -/
def finish (s : St) : R Err UeActivityAcknowledge :=
  if s.m0 then .ok s.x else .err (.messageMandatoryIEMissing 2)

/-- `fromvec` (ueactivityacknowledge.rs:82-100). -/
def fromvec (x : UeActivityAcknowledge) (els : List IE) : R Err UeActivityAcknowledge := finish (els.foldl step ⟨x, false⟩)

/-- The message type (ueactivityacknowledge.rs:37-68). -/
def codec : Codec UeActivityAcknowledge :=
  { msgtype := 156, start := some 12, dflt, header := header, setHeader := fun x h => { x with header := h }, tovec, fromvec }

/-- One slot per field. -/
def schema : Schema :=
  [⟨.Cause, .is 0, .one⟩,
   ⟨.PrivateExtension, .any, .many⟩]

/-- The fields as lists of IEs. -/
def fields (x : UeActivityAcknowledge) : List (List IE) :=
  [[.Cause x.cause],
   x.private_ext.map .PrivateExtension]

/-- What the state has collected so far. -/
def St.view (s : St) : List (List IE) :=
  [if s.m0 then [.Cause s.x.cause] else [],
   s.x.private_ext.map .PrivateExtension]

/-- The header is left alone; flags of mandatory lists tell whether the list is empty. -/
def St.Inv (h : Header) (s : St) : Prop :=
  s.x.header = h

theorem step_view (h : Header) (s : St) (e : IE) (hi : s.Inv h) : (step s e).view = Schema.step schema s.view e ∧ (step s e).Inv h := by
  cases e
  case Cause j =>
    simp only [step]
    repeat' split
    all_goals refine ⟨cons_congr ?_ ((Schema.step_other rfl rfl).symm), ?_⟩
    all_goals first | exact hi | msg_field | (simp_all [St.Inv]; done)
  case PrivateExtension j =>
    simp only [step]
    all_goals refine ⟨cons_congr (Slot.step_ne rfl).symm (cons_congr ?_ (rfl)), ?_⟩
    all_goals first | exact hi | msg_field | (simp_all [St.Inv]; done)
  all_goals exact ⟨(Schema.step_other rfl rfl).symm, hi⟩

theorem loop (h : Header) (els : List IE) :
    (els.foldl step ⟨{ dflt with header := h }, false⟩).view = schema.map (·.select els) ∧ (els.foldl step ⟨{ dflt with header := h }, false⟩).Inv h := by
  have := foldl_view (Q := fun _ => True) (fun s e hp _ => step_view h s e hp) els ⟨{ dflt with header := h }, false⟩ (fun _ _ => trivial) (by simp [St.Inv])
  rw [show St.view ⟨{ dflt with header := h }, false⟩ = schema.map (fun _ => []) from rfl, Schema.foldl_nil] at this
  exact this

theorem ext {x y : UeActivityAcknowledge} (hh : x.header = y.header) (h : fields x = fields y) : x = y := by
  cases x; cases y
  simp only at hh
  subst hh
  injection h with h0 h
  cases h0
  injection h with h1 h
  cases map_inj (fun _ _ h => IE.PrivateExtension.inj h) h1
  rfl

theorem mand : schema.filter (·.card.mandatory) = [(⟨.Cause, .is 0, .one⟩ : Slot)] := rfl

/-- The flags tell which mandatory IEs are absent. -/
theorem flags (h : Header) (els : List IE) : ∃ x m0, els.foldl step ⟨{ dflt with header := h }, false⟩ = ⟨x, m0⟩ ∧ St.view ⟨x, m0⟩ = schema.map (·.select els) ∧ x.header = h ∧
    (⟨.Cause, .is 0, .one⟩ : Slot).lacks els = (!m0) := by
  obtain ⟨hv, hi⟩ := loop h els
  generalize els.foldl step ⟨{ dflt with header := h }, false⟩ = s at hv hi ⊢
  obtain ⟨x, m0⟩ := s
  simp only [St.Inv] at hi
  have l0 : (⟨.Cause, .is 0, .one⟩ : Slot).lacks els = (!m0) := by
    rw [Slot.lacks_eq els rfl]
    have e := congrArg (fun l => l.getD 0 []) hv
    rw [show (⟨.Cause, .is 0, .one⟩ : Slot).select els = if m0 then [.Cause x.cause] else [] from e.symm]
    cases m0 <;> rfl
  exact ⟨x, m0, rfl, hv, hi, l0⟩

theorem complete (h : Header) (els : List IE) (hm : schema.missing els = []) : ∃ y, fromvec { dflt with header := h } els = .ok y ∧ y.header = h ∧ fields y = schema.map (·.select els) := by
  obtain ⟨x, m0, hs, hv, hh, l0⟩ := flags h els
  unfold fromvec
  rw [hs]
  dsimp only [finish]
  have f0 := l0.symm.trans (Schema.of_missing_nil mand (by simp) hm)
  cases m0 <;> first | exact ⟨x, rfl, hh, hv⟩ | contradiction

theorem describes : Describes codec schema fields where
  header_set _ _ := rfl
  fields_set _ _ := rfl
  ext _ _ hh h := ext hh h
  shape x := Aligned.one (fun _ => rfl) <| Aligned.many (fun _ => rfl) <| trivial
  tovec x := by simp [codec, tovec, fields]
  complete h els _ hm := complete h els hm

theorem reports (h : Header) (els : List IE) (hm : schema.missing els ≠ []) :
    ∃ s ∈ schema.missing els, ∃ t, fromvec { dflt with header := h } els = .err (.messageMandatoryIEMissing t) ∧ kindOf t = s.kind := by
  obtain ⟨x, m0, hs, hv, hh, l0⟩ := flags h els
  unfold fromvec
  rw [hs]
  dsimp only [finish]
  cases m0 <;>
    first | exact ⟨_, Schema.mem_missing mand (by simp) l0, _, rfl, rfl⟩ | exact absurd (Schema.missing_nil mand (by simp [l0])) hm

theorem settled (h : Header) (els els' : List IE) (he : ∀ s ∈ schema, s.card.mandatory = true → s.lacks els = s.lacks els')
    (hm : schema.missing els ≠ []) : fromvec { dflt with header := h } els = fromvec { dflt with header := h } els' := by
  obtain ⟨x, m0, hs, hv, hh, l0⟩ := flags h els
  obtain ⟨x', m0', hs', hv', hh', l0'⟩ := flags h els'
  unfold fromvec
  rw [hs, hs']
  obtain rfl := Bool.not_inj (l0.symm.trans ((he _ (by decide) rfl).trans l0'))
  dsimp only [finish]
  cases m0 <;>
    first | rfl | exact absurd (Schema.missing_nil mand (by simp [l0])) hm

end UeActivityAcknowledge

/-- `UeActivityNotification` (ueactivitynotification.rs:15-18). -/
structure UeActivityNotification where
  header : Header
  private_ext : List V2.PrivateExtension
deriving DecidableEq

namespace UeActivityNotification

/-- `default` (ueactivitynotification.rs:21-31). -/
def dflt : UeActivityNotification :=
  { header := { Header.default with msgtype := 155, teid := some 0 }, private_ext := [] }

/-- `tovec` (ueactivitynotification.rs:68-76). -/
def tovec (x : UeActivityNotification) : List IE :=
  x.private_ext.map .PrivateExtension

/-- The variables of `fromvec`: the message and the array `mandatory` (ueactivitynotification.rs:78-85). -/
structure St where
  x : UeActivityNotification

/-- One turn of the loop of `fromvec` (ueactivitynotification.rs:78-85). -/
def step (s : St) : IE → St
  | .PrivateExtension j => { s with x := { s.x with private_ext := s.x.private_ext ++ [j] } }
  | _ => s

/-- The end of `fromvec` (ueactivitynotification.rs:78-85). -/
def finish (s : St) : R Err UeActivityNotification :=
  .ok s.x

/-- `fromvec` (ueactivitynotification.rs:78-85). -/
def fromvec (x : UeActivityNotification) (els : List IE) : R Err UeActivityNotification := finish (els.foldl step ⟨x⟩)

/-- The message type (ueactivitynotification.rs:35-66). -/
def codec : Codec UeActivityNotification :=
  { msgtype := 155, start := some 12, dflt, header := header, setHeader := fun x h => { x with header := h }, tovec, fromvec }

/-- One slot per field. -/
def schema : Schema :=
  [⟨.PrivateExtension, .any, .many⟩]

/-- The fields as lists of IEs. -/
def fields (x : UeActivityNotification) : List (List IE) :=
  [x.private_ext.map .PrivateExtension]

/-- What the state has collected so far. -/
def St.view (s : St) : List (List IE) :=
  [s.x.private_ext.map .PrivateExtension]

/-- The header is left alone; flags of mandatory lists tell whether the list is empty. -/
def St.Inv (h : Header) (s : St) : Prop :=
  s.x.header = h

theorem step_view (h : Header) (s : St) (e : IE) (hi : s.Inv h) : (step s e).view = Schema.step schema s.view e ∧ (step s e).Inv h := by
  cases e
  case PrivateExtension j =>
    simp only [step]
    all_goals refine ⟨cons_congr ?_ (rfl), ?_⟩
    all_goals first | exact hi | msg_field | (simp_all [St.Inv]; done)
  all_goals exact ⟨(Schema.step_other rfl rfl).symm, hi⟩

theorem loop (h : Header) (els : List IE) :
    (els.foldl step ⟨{ dflt with header := h }⟩).view = schema.map (·.select els) ∧ (els.foldl step ⟨{ dflt with header := h }⟩).Inv h := by
  have := foldl_view (Q := fun _ => True) (fun s e hp _ => step_view h s e hp) els ⟨{ dflt with header := h }⟩ (fun _ _ => trivial) (by simp [St.Inv])
  rw [show St.view ⟨{ dflt with header := h }⟩ = schema.map (fun _ => []) from rfl, Schema.foldl_nil] at this
  exact this

theorem ext {x y : UeActivityNotification} (hh : x.header = y.header) (h : fields x = fields y) : x = y := by
  cases x; cases y
  simp only at hh
  subst hh
  injection h with h0 h
  cases map_inj (fun _ _ h => IE.PrivateExtension.inj h) h0
  rfl

theorem mand : schema.filter (·.card.mandatory) = [] := rfl

/-- The flags tell which mandatory IEs are absent. -/
theorem flags (h : Header) (els : List IE) : ∃ x , els.foldl step ⟨{ dflt with header := h }⟩ = ⟨x⟩ ∧ St.view ⟨x⟩ = schema.map (·.select els) ∧ x.header = h := by
  obtain ⟨hv, hi⟩ := loop h els
  generalize els.foldl step ⟨{ dflt with header := h }⟩ = s at hv hi ⊢
  obtain ⟨x⟩ := s
  simp only [St.Inv] at hi
  exact ⟨x, rfl, hv, hi⟩

theorem complete (h : Header) (els : List IE) (_hm : schema.missing els = []) : ∃ y, fromvec { dflt with header := h } els = .ok y ∧ y.header = h ∧ fields y = schema.map (·.select els) := by
  obtain ⟨x, hs, hv, hh⟩ := flags h els
  unfold fromvec
  rw [hs]
  exact ⟨x, rfl, hh, hv⟩

theorem describes : Describes codec schema fields where
  header_set _ _ := rfl
  fields_set _ _ := rfl
  ext _ _ hh h := ext hh h
  shape x := Aligned.many (fun _ => rfl) <| trivial
  tovec x := by simp [codec, tovec, fields]
  complete h els _ hm := complete h els hm

end UeActivityNotification

/-- `UeRegistrationQueryRequest` (ueregistrationqueryreq.rs:15-19). -/
structure UeRegistrationQueryRequest where
  header : Header
  imsi : V2.Imsi
  private_ext : List V2.PrivateExtension
deriving DecidableEq

namespace UeRegistrationQueryRequest

/-- `default` (ueregistrationqueryreq.rs:22-32). -/
def dflt : UeRegistrationQueryRequest :=
  { header := { Header.default with msgtype := 158, teid := some 0 }, imsi := V2.Imsi.dflt, private_ext := [] }

/-- `tovec` (ueregistrationqueryreq.rs:69-79). -/
def tovec (x : UeRegistrationQueryRequest) : List IE :=
  [.Imsi x.imsi] ++ (
  x.private_ext.map .PrivateExtension)

/-- The variables of `fromvec`: the message and the array `mandatory` (ueregistrationqueryreq.rs:81-100). -/
structure St where
  x : UeRegistrationQueryRequest
  m0 : Bool

/-- One turn of the loop of `fromvec` (ueregistrationqueryreq.rs:81-100). -/
def step (s : St) : IE → St
  | .Imsi j => if j.ins = 0 then { s with x := { s.x with imsi := j }, m0 := true } else s
  | .PrivateExtension j => { s with x := { s.x with private_ext := s.x.private_ext ++ [j] } }
  | _ => s

/-- The end of `fromvec` (ueregistrationqueryreq.rs:81-100). -/
def finish (s : St) : R Err UeRegistrationQueryRequest :=
  if s.m0 then .ok s.x else .err (.messageMandatoryIEMissing 1)

/-- `fromvec` (ueregistrationqueryreq.rs:81-100). -/
def fromvec (x : UeRegistrationQueryRequest) (els : List IE) : R Err UeRegistrationQueryRequest := finish (els.foldl step ⟨x, false⟩)

/-- The message type (ueregistrationqueryreq.rs:36-67). -/
def codec : Codec UeRegistrationQueryRequest :=
  { msgtype := 158, start := some 12, dflt, header := header, setHeader := fun x h => { x with header := h }, tovec, fromvec }

/-- One slot per field. -/
def schema : Schema :=
  [⟨.Imsi, .is 0, .oneLast⟩,
   ⟨.PrivateExtension, .any, .many⟩]

/-- The fields as lists of IEs. -/
def fields (x : UeRegistrationQueryRequest) : List (List IE) :=
  [[.Imsi x.imsi],
   x.private_ext.map .PrivateExtension]

/-- What the state has collected so far. -/
def St.view (s : St) : List (List IE) :=
  [if s.m0 then [.Imsi s.x.imsi] else [],
   s.x.private_ext.map .PrivateExtension]

/-- The header is left alone; flags of mandatory lists tell whether the list is empty. -/
def St.Inv (h : Header) (s : St) : Prop :=
  s.x.header = h

theorem step_view (h : Header) (s : St) (e : IE) (hi : s.Inv h) : (step s e).view = Schema.step schema s.view e ∧ (step s e).Inv h := by
  cases e
  case Imsi j =>
    simp only [step]
    repeat' split
    all_goals refine ⟨cons_congr ?_ ((Schema.step_other rfl rfl).symm), ?_⟩
    all_goals first | exact hi | msg_field | (simp_all [St.Inv]; done)
  case PrivateExtension j =>
    simp only [step]
    all_goals refine ⟨cons_congr (Slot.step_ne rfl).symm (cons_congr ?_ (rfl)), ?_⟩
    all_goals first | exact hi | msg_field | (simp_all [St.Inv]; done)
  all_goals exact ⟨(Schema.step_other rfl rfl).symm, hi⟩

theorem loop (h : Header) (els : List IE) :
    (els.foldl step ⟨{ dflt with header := h }, false⟩).view = schema.map (·.select els) ∧ (els.foldl step ⟨{ dflt with header := h }, false⟩).Inv h := by
  have := foldl_view (Q := fun _ => True) (fun s e hp _ => step_view h s e hp) els ⟨{ dflt with header := h }, false⟩ (fun _ _ => trivial) (by simp [St.Inv])
  rw [show St.view ⟨{ dflt with header := h }, false⟩ = schema.map (fun _ => []) from rfl, Schema.foldl_nil] at this
  exact this

theorem ext {x y : UeRegistrationQueryRequest} (hh : x.header = y.header) (h : fields x = fields y) : x = y := by
  cases x; cases y
  simp only at hh
  subst hh
  injection h with h0 h
  cases h0
  injection h with h1 h
  cases map_inj (fun _ _ h => IE.PrivateExtension.inj h) h1
  rfl

theorem mand : schema.filter (·.card.mandatory) = [(⟨.Imsi, .is 0, .oneLast⟩ : Slot)] := rfl

/-- The flags tell which mandatory IEs are absent. -/
theorem flags (h : Header) (els : List IE) : ∃ x m0, els.foldl step ⟨{ dflt with header := h }, false⟩ = ⟨x, m0⟩ ∧ St.view ⟨x, m0⟩ = schema.map (·.select els) ∧ x.header = h ∧
    (⟨.Imsi, .is 0, .oneLast⟩ : Slot).lacks els = (!m0) := by
  obtain ⟨hv, hi⟩ := loop h els
  generalize els.foldl step ⟨{ dflt with header := h }, false⟩ = s at hv hi ⊢
  obtain ⟨x, m0⟩ := s
  simp only [St.Inv] at hi
  have l0 : (⟨.Imsi, .is 0, .oneLast⟩ : Slot).lacks els = (!m0) := by
    rw [Slot.lacks_eq els rfl]
    have e := congrArg (fun l => l.getD 0 []) hv
    rw [show (⟨.Imsi, .is 0, .oneLast⟩ : Slot).select els = if m0 then [.Imsi x.imsi] else [] from e.symm]
    cases m0 <;> rfl
  exact ⟨x, m0, rfl, hv, hi, l0⟩

theorem complete (h : Header) (els : List IE) (hm : schema.missing els = []) : ∃ y, fromvec { dflt with header := h } els = .ok y ∧ y.header = h ∧ fields y = schema.map (·.select els) := by
  obtain ⟨x, m0, hs, hv, hh, l0⟩ := flags h els
  unfold fromvec
  rw [hs]
  dsimp only [finish]
  have f0 := l0.symm.trans (Schema.of_missing_nil mand (by simp) hm)
  cases m0 <;> first | exact ⟨x, rfl, hh, hv⟩ | contradiction

theorem describes : Describes codec schema fields where
  header_set _ _ := rfl
  fields_set _ _ := rfl
  ext _ _ hh h := ext hh h
  shape x := Aligned.one (fun _ => rfl) <| Aligned.many (fun _ => rfl) <| trivial
  tovec x := by simp [codec, tovec, fields]
  complete h els _ hm := complete h els hm

theorem reports (h : Header) (els : List IE) (hm : schema.missing els ≠ []) :
    ∃ s ∈ schema.missing els, ∃ t, fromvec { dflt with header := h } els = .err (.messageMandatoryIEMissing t) ∧ kindOf t = s.kind := by
  obtain ⟨x, m0, hs, hv, hh, l0⟩ := flags h els
  unfold fromvec
  rw [hs]
  dsimp only [finish]
  cases m0 <;>
    first | exact ⟨_, Schema.mem_missing mand (by simp) l0, _, rfl, rfl⟩ | exact absurd (Schema.missing_nil mand (by simp [l0])) hm

theorem settled (h : Header) (els els' : List IE) (he : ∀ s ∈ schema, s.card.mandatory = true → s.lacks els = s.lacks els')
    (hm : schema.missing els ≠ []) : fromvec { dflt with header := h } els = fromvec { dflt with header := h } els' := by
  obtain ⟨x, m0, hs, hv, hh, l0⟩ := flags h els
  obtain ⟨x', m0', hs', hv', hh', l0'⟩ := flags h els'
  unfold fromvec
  rw [hs, hs']
  obtain rfl := Bool.not_inj (l0.symm.trans ((he _ (by decide) rfl).trans l0'))
  dsimp only [finish]
  cases m0 <;>
    first | rfl | exact absurd (Schema.missing_nil mand (by simp [l0])) hm

end UeRegistrationQueryRequest

/-- `UeRegistrationQueryResponse` (ueregistrationqueryresp.rs:15-21). -/
structure UeRegistrationQueryResponse where
  header : Header
  cause : V2.Cause
  imsi : V2.Imsi
  selected_cnoid : V2.PlmnId
  private_ext : List V2.PrivateExtension
deriving DecidableEq

namespace UeRegistrationQueryResponse

/-- `default` (ueregistrationqueryresp.rs:24-36). -/
def dflt : UeRegistrationQueryResponse :=
  { header := { Header.default with msgtype := 159, teid := some 0 }, cause := V2.Cause.dflt, imsi := V2.Imsi.dflt, selected_cnoid := V2.PlmnId.dflt, private_ext := [] }

/-- `tovec` (ueregistrationqueryresp.rs:73-87). -/
def tovec (x : UeRegistrationQueryResponse) : List IE :=
  [.Cause x.cause] ++ (
  [.Imsi x.imsi] ++ (
  [.PlmnId x.selected_cnoid] ++ (
  x.private_ext.map .PrivateExtension)))

/-- The variables of `fromvec`: the message and the array `mandatory` (ueregistrationqueryresp.rs:89-121). -/
structure St where
  x : UeRegistrationQueryResponse
  m0 : Bool
  m1 : Bool
  m2 : Bool

/-- One turn of the loop of `fromvec` (ueregistrationqueryresp.rs:89-121). -/
def step (s : St) : IE → St
  | .Cause j => if j.ins = 0 ∧ s.m0 = false then { s with x := { s.x with cause := j }, m0 := true } else s
  | .Imsi j => if j.ins = 0 ∧ s.m1 = false then { s with x := { s.x with imsi := j }, m1 := true } else s
  | .PlmnId j => if j.ins = 0 ∧ s.m2 = false then { s with x := { s.x with selected_cnoid := j }, m2 := true } else s
  | .PrivateExtension j => { s with x := { s.x with private_ext := s.x.private_ext ++ [j] } }
  | _ => s

/-- The end of `fromvec` (ueregistrationqueryresp.rs:89-121). -/
def finish (s : St) : R Err UeRegistrationQueryResponse :=
  match s.m0, s.m1, s.m2 with
  | true, true, true => .ok s.x
  | false, _, _ => .err (.messageMandatoryIEMissing 2)
  | _, false, _ => .err (.messageMandatoryIEMissing 1)
  | _, _, false => .err (.messageMandatoryIEMissing 120)

/-- `fromvec` (ueregistrationqueryresp.rs:89-121). -/
def fromvec (x : UeRegistrationQueryResponse) (els : List IE) : R Err UeRegistrationQueryResponse := finish (els.foldl step ⟨x, false, false, false⟩)

/-- The message type (ueregistrationqueryresp.rs:40-71). -/
def codec : Codec UeRegistrationQueryResponse :=
  { msgtype := 159, start := some 12, dflt, header := header, setHeader := fun x h => { x with header := h }, tovec, fromvec }

/-- One slot per field. -/
def schema : Schema :=
  [⟨.Cause, .is 0, .one⟩,
   ⟨.Imsi, .is 0, .one⟩,
   ⟨.PlmnId, .is 0, .one⟩,
   ⟨.PrivateExtension, .any, .many⟩]

/-- The fields as lists of IEs. -/
def fields (x : UeRegistrationQueryResponse) : List (List IE) :=
  [[.Cause x.cause],
   [.Imsi x.imsi],
   [.PlmnId x.selected_cnoid],
   x.private_ext.map .PrivateExtension]

/-- What the state has collected so far. -/
def St.view (s : St) : List (List IE) :=
  [if s.m0 then [.Cause s.x.cause] else [],
   if s.m1 then [.Imsi s.x.imsi] else [],
   if s.m2 then [.PlmnId s.x.selected_cnoid] else [],
   s.x.private_ext.map .PrivateExtension]

/-- The header is left alone; flags of mandatory lists tell whether the list is empty. -/
def St.Inv (h : Header) (s : St) : Prop :=
  s.x.header = h

theorem step_view (h : Header) (s : St) (e : IE) (hi : s.Inv h) : (step s e).view = Schema.step schema s.view e ∧ (step s e).Inv h := by
  cases e
  case Cause j =>
    simp only [step]
    repeat' split
    all_goals refine ⟨cons_congr ?_ ((Schema.step_other rfl rfl).symm), ?_⟩
    all_goals first | exact hi | msg_field | (simp_all [St.Inv]; done)
  case Imsi j =>
    simp only [step]
    repeat' split
    all_goals refine ⟨cons_congr (Slot.step_ne rfl).symm (cons_congr ?_ ((Schema.step_other rfl rfl).symm)), ?_⟩
    all_goals first | exact hi | msg_field | (simp_all [St.Inv]; done)
  case PlmnId j =>
    simp only [step]
    repeat' split
    all_goals refine ⟨cons_congr (Slot.step_ne rfl).symm (cons_congr (Slot.step_ne rfl).symm (cons_congr ?_ ((Schema.step_other rfl rfl).symm))), ?_⟩
    all_goals first | exact hi | msg_field | (simp_all [St.Inv]; done)
  case PrivateExtension j =>
    simp only [step]
    all_goals refine ⟨cons_congr (Slot.step_ne rfl).symm (cons_congr (Slot.step_ne rfl).symm (cons_congr (Slot.step_ne rfl).symm (cons_congr ?_ (rfl)))), ?_⟩
    all_goals first | exact hi | msg_field | (simp_all [St.Inv]; done)
  all_goals exact ⟨(Schema.step_other rfl rfl).symm, hi⟩

theorem loop (h : Header) (els : List IE) :
    (els.foldl step ⟨{ dflt with header := h }, false, false, false⟩).view = schema.map (·.select els) ∧ (els.foldl step ⟨{ dflt with header := h }, false, false, false⟩).Inv h := by
  have := foldl_view (Q := fun _ => True) (fun s e hp _ => step_view h s e hp) els ⟨{ dflt with header := h }, false, false, false⟩ (fun _ _ => trivial) (by simp [St.Inv])
  rw [show St.view ⟨{ dflt with header := h }, false, false, false⟩ = schema.map (fun _ => []) from rfl, Schema.foldl_nil] at this
  exact this

theorem ext {x y : UeRegistrationQueryResponse} (hh : x.header = y.header) (h : fields x = fields y) : x = y := by
  cases x; cases y
  simp only at hh
  subst hh
  injection h with h0 h
  cases h0
  injection h with h1 h
  cases h1
  injection h with h2 h
  cases h2
  injection h with h3 h
  cases map_inj (fun _ _ h => IE.PrivateExtension.inj h) h3
  rfl

theorem mand : schema.filter (·.card.mandatory) = [(⟨.Cause, .is 0, .one⟩ : Slot), (⟨.Imsi, .is 0, .one⟩ : Slot), (⟨.PlmnId, .is 0, .one⟩ : Slot)] := rfl

/-- The flags tell which mandatory IEs are absent. -/
theorem flags (h : Header) (els : List IE) : ∃ x m0 m1 m2, els.foldl step ⟨{ dflt with header := h }, false, false, false⟩ = ⟨x, m0, m1, m2⟩ ∧ St.view ⟨x, m0, m1, m2⟩ = schema.map (·.select els) ∧ x.header = h ∧
    (⟨.Cause, .is 0, .one⟩ : Slot).lacks els = (!m0) ∧
    (⟨.Imsi, .is 0, .one⟩ : Slot).lacks els = (!m1) ∧
    (⟨.PlmnId, .is 0, .one⟩ : Slot).lacks els = (!m2) := by
  obtain ⟨hv, hi⟩ := loop h els
  generalize els.foldl step ⟨{ dflt with header := h }, false, false, false⟩ = s at hv hi ⊢
  obtain ⟨x, m0, m1, m2⟩ := s
  simp only [St.Inv] at hi
  have l0 : (⟨.Cause, .is 0, .one⟩ : Slot).lacks els = (!m0) := by
    rw [Slot.lacks_eq els rfl]
    have e := congrArg (fun l => l.getD 0 []) hv
    rw [show (⟨.Cause, .is 0, .one⟩ : Slot).select els = if m0 then [.Cause x.cause] else [] from e.symm]
    cases m0 <;> rfl
  have l1 : (⟨.Imsi, .is 0, .one⟩ : Slot).lacks els = (!m1) := by
    rw [Slot.lacks_eq els rfl]
    have e := congrArg (fun l => l.getD 1 []) hv
    rw [show (⟨.Imsi, .is 0, .one⟩ : Slot).select els = if m1 then [.Imsi x.imsi] else [] from e.symm]
    cases m1 <;> rfl
  have l2 : (⟨.PlmnId, .is 0, .one⟩ : Slot).lacks els = (!m2) := by
    rw [Slot.lacks_eq els rfl]
    have e := congrArg (fun l => l.getD 2 []) hv
    rw [show (⟨.PlmnId, .is 0, .one⟩ : Slot).select els = if m2 then [.PlmnId x.selected_cnoid] else [] from e.symm]
    cases m2 <;> rfl
  exact ⟨x, m0, m1, m2, rfl, hv, hi, l0, l1, l2⟩

theorem complete (h : Header) (els : List IE) (hm : schema.missing els = []) : ∃ y, fromvec { dflt with header := h } els = .ok y ∧ y.header = h ∧ fields y = schema.map (·.select els) := by
  obtain ⟨x, m0, m1, m2, hs, hv, hh, l0, l1, l2⟩ := flags h els
  unfold fromvec
  rw [hs]
  dsimp only [finish]
  have f0 := l0.symm.trans (Schema.of_missing_nil mand (by simp) hm)
  have f1 := l1.symm.trans (Schema.of_missing_nil mand (by simp) hm)
  have f2 := l2.symm.trans (Schema.of_missing_nil mand (by simp) hm)
  cases m0 <;> cases m1 <;> cases m2 <;> first | exact ⟨x, rfl, hh, hv⟩ | contradiction

theorem describes : Describes codec schema fields where
  header_set _ _ := rfl
  fields_set _ _ := rfl
  ext _ _ hh h := ext hh h
  shape x := Aligned.one (fun _ => rfl) <| Aligned.one (fun _ => rfl) <| Aligned.one (fun _ => rfl) <| Aligned.many (fun _ => rfl) <| trivial
  tovec x := by simp [codec, tovec, fields]
  complete h els _ hm := complete h els hm

theorem reports (h : Header) (els : List IE) (hm : schema.missing els ≠ []) :
    ∃ s ∈ schema.missing els, ∃ t, fromvec { dflt with header := h } els = .err (.messageMandatoryIEMissing t) ∧ kindOf t = s.kind := by
  obtain ⟨x, m0, m1, m2, hs, hv, hh, l0, l1, l2⟩ := flags h els
  unfold fromvec
  rw [hs]
  dsimp only [finish]
  cases m0 <;> cases m1 <;> cases m2 <;>
    first | exact ⟨_, Schema.mem_missing mand (by simp) l0, _, rfl, rfl⟩ | exact ⟨_, Schema.mem_missing mand (by simp) l1, _, rfl, rfl⟩ | exact ⟨_, Schema.mem_missing mand (by simp) l2, _, rfl, rfl⟩ | exact absurd (Schema.missing_nil mand (by simp [l0, l1, l2])) hm

theorem settled (h : Header) (els els' : List IE) (he : ∀ s ∈ schema, s.card.mandatory = true → s.lacks els = s.lacks els')
    (hm : schema.missing els ≠ []) : fromvec { dflt with header := h } els = fromvec { dflt with header := h } els' := by
  obtain ⟨x, m0, m1, m2, hs, hv, hh, l0, l1, l2⟩ := flags h els
  obtain ⟨x', m0', m1', m2', hs', hv', hh', l0', l1', l2'⟩ := flags h els'
  unfold fromvec
  rw [hs, hs']
  obtain rfl := Bool.not_inj (l0.symm.trans ((he _ (by decide) rfl).trans l0'))
  obtain rfl := Bool.not_inj (l1.symm.trans ((he _ (by decide) rfl).trans l1'))
  obtain rfl := Bool.not_inj (l2.symm.trans ((he _ (by decide) rfl).trans l2'))
  dsimp only [finish]
  cases m0 <;> cases m1 <;> cases m2 <;>
    first | rfl | exact absurd (Schema.missing_nil mand (by simp [l0, l1, l2])) hm

end UeRegistrationQueryResponse

/-- `UpdateBearerRequest` (updatebearerreq.rs:15-34). -/
structure UpdateBearerRequest where
  header : Header
  bearer_ctxs : List V2.BearerContext
  pti : Option V2.Pti
  pco : Option V2.Pco
  apnambr : V2.Ambr
  cra : Option V2.ChangeReportingAction
  csg_ira : Option V2.CSGInformationReportingAction
  henb_info_report : Option V2.HenbInfoReporting
  indication : Option V2.Indication
  pgw_fqcsid : Option V2.Fqcsid
  sgw_fqcsid : Option V2.Fqcsid
  praa : Option V2.PresenceReportingAreaAction
  load_control : List V2.LoadControl
  overload_info : List V2.OverloadControlInfo
  nbifom : Option V2.Fcontainer
  pgw_change_info : List V2.PgwChangeInfo
  fteid_control : Option V2.Fteid
  private_ext : List V2.PrivateExtension
deriving DecidableEq

namespace UpdateBearerRequest

/-- `default` (updatebearerreq.rs:37-63). -/
def dflt : UpdateBearerRequest :=
  { header := { Header.default with msgtype := 97, teid := some 0 }, bearer_ctxs := [], pti := none, pco := none, apnambr := V2.Ambr.dflt, cra := none, csg_ira := none, henb_info_report := none, indication := none, pgw_fqcsid := none, sgw_fqcsid := none, praa := none, load_control := [], overload_info := [], nbifom := none, pgw_change_info := [], fteid_control := none, private_ext := [] }

/-- `tovec` (updatebearerreq.rs:100-163). -/
def tovec (x : UpdateBearerRequest) : List IE :=
  x.bearer_ctxs.map .BearerContext ++ (
  optV .Pti x.pti ++ (
  optV .Pco x.pco ++ (
  [.ApnAmbr x.apnambr] ++ (
  optV .ChangeReportingAction x.cra ++ (
  optV .CSGInformationReportingAction x.csg_ira ++ (
  optV .HenbInfoReporting x.henb_info_report ++ (
  optV .Indication x.indication ++ (
  optV .Fqcsid x.pgw_fqcsid ++ (
  optV .Fqcsid x.sgw_fqcsid ++ (
  optV .PresenceReportingAreaAction x.praa ++ (
  x.load_control.map .LoadControlInfo ++ (
  x.overload_info.map .OverloadControlInfo ++ (
  optV .Fcontainer x.nbifom ++ (
  x.pgw_change_info.map .PgwChangeInfo ++ (
  optV .Fteid x.fteid_control ++ (
  x.private_ext.map .PrivateExtension))))))))))))))))

/-- The variables of `fromvec`: the message and the array `mandatory` (updatebearerreq.rs:165-258). -/
structure St where
  x : UpdateBearerRequest
  m0 : Bool

/-- One turn of the loop of `fromvec` (updatebearerreq.rs:165-258). -/
def step (s : St) : IE → St
  | .BearerContext j => if j.ins = 0 then { s with x := { s.x with bearer_ctxs := s.x.bearer_ctxs ++ [j] } } else s
  | .Pti j => if j.ins = 0 ∧ s.x.pti.isNone = true then { s with x := { s.x with pti := some j } } else s
  | .Pco j => if j.ins = 0 ∧ s.x.pco.isNone = true then { s with x := { s.x with pco := some j } } else s
  | .ApnAmbr j => if j.ins = 0 ∧ s.m0 = false then { s with x := { s.x with apnambr := j }, m0 := true } else s
  | .ChangeReportingAction j => if j.ins = 0 ∧ s.x.cra.isNone = true then { s with x := { s.x with cra := some j } } else s
  | .CSGInformationReportingAction j => if j.ins = 0 ∧ s.x.csg_ira.isNone = true then { s with x := { s.x with csg_ira := some j } } else s
  | .HenbInfoReporting j => if j.ins = 0 ∧ s.x.henb_info_report.isNone = true then { s with x := { s.x with henb_info_report := some j } } else s
  | .Indication j => if j.ins = 0 ∧ s.x.indication.isNone = true then { s with x := { s.x with indication := some j } } else s
  | .Fqcsid j => if j.ins = 0 ∧ s.x.pgw_fqcsid.isNone = true then { s with x := { s.x with pgw_fqcsid := some j } } else if j.ins = 1 ∧ s.x.sgw_fqcsid.isNone = true then { s with x := { s.x with sgw_fqcsid := some j } } else s
  | .PresenceReportingAreaAction j => if j.ins = 0 ∧ s.x.praa.isNone = true then { s with x := { s.x with praa := some j } } else s
  | .LoadControlInfo j => if j.ins < 3 then { s with x := { s.x with load_control := s.x.load_control ++ [j] } } else s
  | .OverloadControlInfo j => if j.ins < 2 then { s with x := { s.x with overload_info := s.x.overload_info ++ [j] } } else s
  | .Fcontainer j => if j.ins = 0 ∧ s.x.nbifom.isNone = true then { s with x := { s.x with nbifom := some j } } else s
  | .PgwChangeInfo j => if j.ins = 0 then { s with x := { s.x with pgw_change_info := s.x.pgw_change_info ++ [j] } } else s
  | .Fteid j => if j.ins = 0 ∧ s.x.fteid_control.isNone = true then { s with x := { s.x with fteid_control := some j } } else s
  | .PrivateExtension j => { s with x := { s.x with private_ext := s.x.private_ext ++ [j] } }
  | _ => s

/-- The end of `fromvec` (updatebearerreq.rs:165-258). -/
def finish (s : St) : R Err UpdateBearerRequest :=
  match s.m0, s.x.bearer_ctxs.isEmpty with
  | false, true => .err (.messageMandatoryIEMissing 93)
  | false, false => .err (.messageMandatoryIEMissing 72)
  | true, true => .err (.messageMandatoryIEMissing 93)
  | true, false => .ok s.x

/-- `fromvec` (updatebearerreq.rs:165-258). -/
def fromvec (x : UpdateBearerRequest) (els : List IE) : R Err UpdateBearerRequest := finish (els.foldl step ⟨x, false⟩)

/-- The message type (updatebearerreq.rs:67-98). -/
def codec : Codec UpdateBearerRequest :=
  { msgtype := 97, start := some 12, dflt, header := header, setHeader := fun x h => { x with header := h }, tovec, fromvec }

/-- One slot per field. -/
def schema : Schema :=
  [⟨.BearerContext, .is 0, .many1 (.is 0)⟩,
   ⟨.Pti, .is 0, .opt⟩,
   ⟨.Pco, .is 0, .opt⟩,
   ⟨.ApnAmbr, .is 0, .one⟩,
   ⟨.ChangeReportingAction, .is 0, .opt⟩,
   ⟨.CSGInformationReportingAction, .is 0, .opt⟩,
   ⟨.HenbInfoReporting, .is 0, .opt⟩,
   ⟨.Indication, .is 0, .opt⟩,
   ⟨.Fqcsid, .is 0, .opt⟩,
   ⟨.Fqcsid, .is 1, .opt⟩,
   ⟨.PresenceReportingAreaAction, .is 0, .opt⟩,
   ⟨.LoadControlInfo, .lt 3, .many⟩,
   ⟨.OverloadControlInfo, .lt 2, .many⟩,
   ⟨.Fcontainer, .is 0, .opt⟩,
   ⟨.PgwChangeInfo, .is 0, .many⟩,
   ⟨.Fteid, .is 0, .opt⟩,
   ⟨.PrivateExtension, .any, .many⟩]

/-- The fields as lists of IEs. -/
def fields (x : UpdateBearerRequest) : List (List IE) :=
  [x.bearer_ctxs.map .BearerContext,
   optV .Pti x.pti,
   optV .Pco x.pco,
   [.ApnAmbr x.apnambr],
   optV .ChangeReportingAction x.cra,
   optV .CSGInformationReportingAction x.csg_ira,
   optV .HenbInfoReporting x.henb_info_report,
   optV .Indication x.indication,
   optV .Fqcsid x.pgw_fqcsid,
   optV .Fqcsid x.sgw_fqcsid,
   optV .PresenceReportingAreaAction x.praa,
   x.load_control.map .LoadControlInfo,
   x.overload_info.map .OverloadControlInfo,
   optV .Fcontainer x.nbifom,
   x.pgw_change_info.map .PgwChangeInfo,
   optV .Fteid x.fteid_control,
   x.private_ext.map .PrivateExtension]

/-- What the state has collected so far. -/
def St.view (s : St) : List (List IE) :=
  [s.x.bearer_ctxs.map .BearerContext,
   optV .Pti s.x.pti,
   optV .Pco s.x.pco,
   if s.m0 then [.ApnAmbr s.x.apnambr] else [],
   optV .ChangeReportingAction s.x.cra,
   optV .CSGInformationReportingAction s.x.csg_ira,
   optV .HenbInfoReporting s.x.henb_info_report,
   optV .Indication s.x.indication,
   optV .Fqcsid s.x.pgw_fqcsid,
   optV .Fqcsid s.x.sgw_fqcsid,
   optV .PresenceReportingAreaAction s.x.praa,
   s.x.load_control.map .LoadControlInfo,
   s.x.overload_info.map .OverloadControlInfo,
   optV .Fcontainer s.x.nbifom,
   s.x.pgw_change_info.map .PgwChangeInfo,
   optV .Fteid s.x.fteid_control,
   s.x.private_ext.map .PrivateExtension]

/-- The header is left alone; flags of mandatory lists tell whether the list is empty. -/
def St.Inv (h : Header) (s : St) : Prop :=
  s.x.header = h

theorem step_view (h : Header) (s : St) (e : IE) (hi : s.Inv h) : (step s e).view = Schema.step schema s.view e ∧ (step s e).Inv h := by
  cases e
  case BearerContext j =>
    simp only [step]
    repeat' split
    all_goals refine ⟨cons_congr ?_ ((Schema.step_other rfl rfl).symm), ?_⟩
    all_goals first | exact hi | msg_field | (simp_all [St.Inv]; done)
  case Pti j =>
    simp only [step]
    repeat' split
    all_goals refine ⟨cons_congr (Slot.step_ne rfl).symm (cons_congr ?_ ((Schema.step_other rfl rfl).symm)), ?_⟩
    all_goals first | exact hi | msg_field | (simp_all [St.Inv]; done)
  case Pco j =>
    simp only [step]
    repeat' split
    all_goals refine ⟨cons_congr (Slot.step_ne rfl).symm (cons_congr (Slot.step_ne rfl).symm (cons_congr ?_ ((Schema.step_other rfl rfl).symm))), ?_⟩
    all_goals first | exact hi | msg_field | (simp_all [St.Inv]; done)
  case ApnAmbr j =>
    simp only [step]
    repeat' split
    all_goals refine ⟨cons_congr (Slot.step_ne rfl).symm (cons_congr (Slot.step_ne rfl).symm (cons_congr (Slot.step_ne rfl).symm (cons_congr ?_ ((Schema.step_other rfl rfl).symm)))), ?_⟩
    all_goals first | exact hi | msg_field | (simp_all [St.Inv]; done)
  case ChangeReportingAction j =>
    simp only [step]
    repeat' split
    all_goals refine ⟨cons_congr (Slot.step_ne rfl).symm (cons_congr (Slot.step_ne rfl).symm (cons_congr (Slot.step_ne rfl).symm (cons_congr (Slot.step_ne rfl).symm (cons_congr ?_ ((Schema.step_other rfl rfl).symm))))), ?_⟩
    all_goals first | exact hi | msg_field | (simp_all [St.Inv]; done)
  case CSGInformationReportingAction j =>
    simp only [step]
    repeat' split
    all_goals refine ⟨cons_congr (Slot.step_ne rfl).symm (cons_congr (Slot.step_ne rfl).symm (cons_congr (Slot.step_ne rfl).symm (cons_congr (Slot.step_ne rfl).symm (cons_congr (Slot.step_ne rfl).symm (cons_congr ?_ ((Schema.step_other rfl rfl).symm)))))), ?_⟩
    all_goals first | exact hi | msg_field | (simp_all [St.Inv]; done)
  case HenbInfoReporting j =>
    simp only [step]
    repeat' split
    all_goals refine ⟨cons_congr (Slot.step_ne rfl).symm (cons_congr (Slot.step_ne rfl).symm (cons_congr (Slot.step_ne rfl).symm (cons_congr (Slot.step_ne rfl).symm (cons_congr (Slot.step_ne rfl).symm (cons_congr (Slot.step_ne rfl).symm (cons_congr ?_ ((Schema.step_other rfl rfl).symm))))))), ?_⟩
    all_goals first | exact hi | msg_field | (simp_all [St.Inv]; done)
  case Indication j =>
    simp only [step]
    repeat' split
    all_goals refine ⟨cons_congr (Slot.step_ne rfl).symm (cons_congr (Slot.step_ne rfl).symm (cons_congr (Slot.step_ne rfl).symm (cons_congr (Slot.step_ne rfl).symm (cons_congr (Slot.step_ne rfl).symm (cons_congr (Slot.step_ne rfl).symm (cons_congr (Slot.step_ne rfl).symm (cons_congr ?_ ((Schema.step_other rfl rfl).symm)))))))), ?_⟩
    all_goals first | exact hi | msg_field | (simp_all [St.Inv]; done)
  case Fqcsid j =>
    simp only [step]
    repeat' split
    all_goals refine ⟨cons_congr (Slot.step_ne rfl).symm (cons_congr (Slot.step_ne rfl).symm (cons_congr (Slot.step_ne rfl).symm (cons_congr (Slot.step_ne rfl).symm (cons_congr (Slot.step_ne rfl).symm (cons_congr (Slot.step_ne rfl).symm (cons_congr (Slot.step_ne rfl).symm (cons_congr (Slot.step_ne rfl).symm (cons_congr ?_ (cons_congr ?_ ((Schema.step_other rfl rfl).symm)))))))))), ?_⟩
    all_goals first | exact hi | msg_field | (simp_all [St.Inv]; done)
  case PresenceReportingAreaAction j =>
    simp only [step]
    repeat' split
    all_goals refine ⟨cons_congr (Slot.step_ne rfl).symm (cons_congr (Slot.step_ne rfl).symm (cons_congr (Slot.step_ne rfl).symm (cons_congr (Slot.step_ne rfl).symm (cons_congr (Slot.step_ne rfl).symm (cons_congr (Slot.step_ne rfl).symm (cons_congr (Slot.step_ne rfl).symm (cons_congr (Slot.step_ne rfl).symm (cons_congr (Slot.step_ne rfl).symm (cons_congr (Slot.step_ne rfl).symm (cons_congr ?_ ((Schema.step_other rfl rfl).symm))))))))))), ?_⟩
    all_goals first | exact hi | msg_field | (simp_all [St.Inv]; done)
  case LoadControlInfo j =>
    simp only [step]
    repeat' split
    all_goals refine ⟨cons_congr (Slot.step_ne rfl).symm (cons_congr (Slot.step_ne rfl).symm (cons_congr (Slot.step_ne rfl).symm (cons_congr (Slot.step_ne rfl).symm (cons_congr (Slot.step_ne rfl).symm (cons_congr (Slot.step_ne rfl).symm (cons_congr (Slot.step_ne rfl).symm (cons_congr (Slot.step_ne rfl).symm (cons_congr (Slot.step_ne rfl).symm (cons_congr (Slot.step_ne rfl).symm (cons_congr (Slot.step_ne rfl).symm (cons_congr ?_ ((Schema.step_other rfl rfl).symm)))))))))))), ?_⟩
    all_goals first | exact hi | msg_field | (simp_all [St.Inv]; done)
  case OverloadControlInfo j =>
    simp only [step]
    repeat' split
    all_goals refine ⟨cons_congr (Slot.step_ne rfl).symm (cons_congr (Slot.step_ne rfl).symm (cons_congr (Slot.step_ne rfl).symm (cons_congr (Slot.step_ne rfl).symm (cons_congr (Slot.step_ne rfl).symm (cons_congr (Slot.step_ne rfl).symm (cons_congr (Slot.step_ne rfl).symm (cons_congr (Slot.step_ne rfl).symm (cons_congr (Slot.step_ne rfl).symm (cons_congr (Slot.step_ne rfl).symm (cons_congr (Slot.step_ne rfl).symm (cons_congr (Slot.step_ne rfl).symm (cons_congr ?_ ((Schema.step_other rfl rfl).symm))))))))))))), ?_⟩
    all_goals first | exact hi | msg_field | (simp_all [St.Inv]; done)
  case Fcontainer j =>
    simp only [step]
    repeat' split
    all_goals refine ⟨cons_congr (Slot.step_ne rfl).symm (cons_congr (Slot.step_ne rfl).symm (cons_congr (Slot.step_ne rfl).symm (cons_congr (Slot.step_ne rfl).symm (cons_congr (Slot.step_ne rfl).symm (cons_congr (Slot.step_ne rfl).symm (cons_congr (Slot.step_ne rfl).symm (cons_congr (Slot.step_ne rfl).symm (cons_congr (Slot.step_ne rfl).symm (cons_congr (Slot.step_ne rfl).symm (cons_congr (Slot.step_ne rfl).symm (cons_congr (Slot.step_ne rfl).symm (cons_congr (Slot.step_ne rfl).symm (cons_congr ?_ ((Schema.step_other rfl rfl).symm)))))))))))))), ?_⟩
    all_goals first | exact hi | msg_field | (simp_all [St.Inv]; done)
  case PgwChangeInfo j =>
    simp only [step]
    repeat' split
    all_goals refine ⟨cons_congr (Slot.step_ne rfl).symm (cons_congr (Slot.step_ne rfl).symm (cons_congr (Slot.step_ne rfl).symm (cons_congr (Slot.step_ne rfl).symm (cons_congr (Slot.step_ne rfl).symm (cons_congr (Slot.step_ne rfl).symm (cons_congr (Slot.step_ne rfl).symm (cons_congr (Slot.step_ne rfl).symm (cons_congr (Slot.step_ne rfl).symm (cons_congr (Slot.step_ne rfl).symm (cons_congr (Slot.step_ne rfl).symm (cons_congr (Slot.step_ne rfl).symm (cons_congr (Slot.step_ne rfl).symm (cons_congr (Slot.step_ne rfl).symm (cons_congr ?_ ((Schema.step_other rfl rfl).symm))))))))))))))), ?_⟩
    all_goals first | exact hi | msg_field | (simp_all [St.Inv]; done)
  case Fteid j =>
    simp only [step]
    repeat' split
    all_goals refine ⟨cons_congr (Slot.step_ne rfl).symm (cons_congr (Slot.step_ne rfl).symm (cons_congr (Slot.step_ne rfl).symm (cons_congr (Slot.step_ne rfl).symm (cons_congr (Slot.step_ne rfl).symm (cons_congr (Slot.step_ne rfl).symm (cons_congr (Slot.step_ne rfl).symm (cons_congr (Slot.step_ne rfl).symm (cons_congr (Slot.step_ne rfl).symm (cons_congr (Slot.step_ne rfl).symm (cons_congr (Slot.step_ne rfl).symm (cons_congr (Slot.step_ne rfl).symm (cons_congr (Slot.step_ne rfl).symm (cons_congr (Slot.step_ne rfl).symm (cons_congr (Slot.step_ne rfl).symm (cons_congr ?_ ((Schema.step_other rfl rfl).symm)))))))))))))))), ?_⟩
    all_goals first | exact hi | msg_field | (simp_all [St.Inv]; done)
  case PrivateExtension j =>
    simp only [step]
    all_goals refine ⟨cons_congr (Slot.step_ne rfl).symm (cons_congr (Slot.step_ne rfl).symm (cons_congr (Slot.step_ne rfl).symm (cons_congr (Slot.step_ne rfl).symm (cons_congr (Slot.step_ne rfl).symm (cons_congr (Slot.step_ne rfl).symm (cons_congr (Slot.step_ne rfl).symm (cons_congr (Slot.step_ne rfl).symm (cons_congr (Slot.step_ne rfl).symm (cons_congr (Slot.step_ne rfl).symm (cons_congr (Slot.step_ne rfl).symm (cons_congr (Slot.step_ne rfl).symm (cons_congr (Slot.step_ne rfl).symm (cons_congr (Slot.step_ne rfl).symm (cons_congr (Slot.step_ne rfl).symm (cons_congr (Slot.step_ne rfl).symm (cons_congr ?_ (rfl))))))))))))))))), ?_⟩
    all_goals first | exact hi | msg_field | (simp_all [St.Inv]; done)
  all_goals exact ⟨(Schema.step_other rfl rfl).symm, hi⟩

theorem loop (h : Header) (els : List IE) :
    (els.foldl step ⟨{ dflt with header := h }, false⟩).view = schema.map (·.select els) ∧ (els.foldl step ⟨{ dflt with header := h }, false⟩).Inv h := by
  have := foldl_view (Q := fun _ => True) (fun s e hp _ => step_view h s e hp) els ⟨{ dflt with header := h }, false⟩ (fun _ _ => trivial) (by simp [St.Inv])
  rw [show St.view ⟨{ dflt with header := h }, false⟩ = schema.map (fun _ => []) from rfl, Schema.foldl_nil] at this
  exact this

theorem ext {x y : UpdateBearerRequest} (hh : x.header = y.header) (h : fields x = fields y) : x = y := by
  cases x; cases y
  simp only at hh
  subst hh
  injection h with h0 h
  cases map_inj (fun _ _ h => IE.BearerContext.inj h) h0
  injection h with h1 h
  cases optV_inj (fun _ _ h => IE.Pti.inj h) h1
  injection h with h2 h
  cases optV_inj (fun _ _ h => IE.Pco.inj h) h2
  injection h with h3 h
  cases h3
  injection h with h4 h
  cases optV_inj (fun _ _ h => IE.ChangeReportingAction.inj h) h4
  injection h with h5 h
  cases optV_inj (fun _ _ h => IE.CSGInformationReportingAction.inj h) h5
  injection h with h6 h
  cases optV_inj (fun _ _ h => IE.HenbInfoReporting.inj h) h6
  injection h with h7 h
  cases optV_inj (fun _ _ h => IE.Indication.inj h) h7
  injection h with h8 h
  cases optV_inj (fun _ _ h => IE.Fqcsid.inj h) h8
  injection h with h9 h
  cases optV_inj (fun _ _ h => IE.Fqcsid.inj h) h9
  injection h with h10 h
  cases optV_inj (fun _ _ h => IE.PresenceReportingAreaAction.inj h) h10
  injection h with h11 h
  cases map_inj (fun _ _ h => IE.LoadControlInfo.inj h) h11
  injection h with h12 h
  cases map_inj (fun _ _ h => IE.OverloadControlInfo.inj h) h12
  injection h with h13 h
  cases optV_inj (fun _ _ h => IE.Fcontainer.inj h) h13
  injection h with h14 h
  cases map_inj (fun _ _ h => IE.PgwChangeInfo.inj h) h14
  injection h with h15 h
  cases optV_inj (fun _ _ h => IE.Fteid.inj h) h15
  injection h with h16 h
  cases map_inj (fun _ _ h => IE.PrivateExtension.inj h) h16
  rfl

theorem mand : schema.filter (·.card.mandatory) = [(⟨.BearerContext, .is 0, .many1 (.is 0)⟩ : Slot), (⟨.ApnAmbr, .is 0, .one⟩ : Slot)] := rfl

/-- The flags tell which mandatory IEs are absent. -/
theorem flags (h : Header) (els : List IE) : ∃ x m0, els.foldl step ⟨{ dflt with header := h }, false⟩ = ⟨x, m0⟩ ∧ St.view ⟨x, m0⟩ = schema.map (·.select els) ∧ x.header = h ∧
    (⟨.BearerContext, .is 0, .many1 (.is 0)⟩ : Slot).lacks els = (x.bearer_ctxs.isEmpty) ∧
    (⟨.ApnAmbr, .is 0, .one⟩ : Slot).lacks els = (!m0) := by
  obtain ⟨hv, hi⟩ := loop h els
  generalize els.foldl step ⟨{ dflt with header := h }, false⟩ = s at hv hi ⊢
  obtain ⟨x, m0⟩ := s
  simp only [St.Inv] at hi
  have l0 : (⟨.BearerContext, .is 0, .many1 (.is 0)⟩ : Slot).lacks els = (x.bearer_ctxs.isEmpty) := by
    rw [Slot.lacks_eq els rfl]
    have e := congrArg (fun l => l.getD 0 []) hv
    rw [show (⟨.BearerContext, .is 0, .many1 (.is 0)⟩ : Slot).select els = x.bearer_ctxs.map .BearerContext from e.symm]
    cases x.bearer_ctxs <;> rfl
  have l1 : (⟨.ApnAmbr, .is 0, .one⟩ : Slot).lacks els = (!m0) := by
    rw [Slot.lacks_eq els rfl]
    have e := congrArg (fun l => l.getD 3 []) hv
    rw [show (⟨.ApnAmbr, .is 0, .one⟩ : Slot).select els = if m0 then [.ApnAmbr x.apnambr] else [] from e.symm]
    cases m0 <;> rfl
  exact ⟨x, m0, rfl, hv, hi, l0, l1⟩

theorem complete (h : Header) (els : List IE) (hm : schema.missing els = []) : ∃ y, fromvec { dflt with header := h } els = .ok y ∧ y.header = h ∧ fields y = schema.map (·.select els) := by
  obtain ⟨x, m0, hs, hv, hh, l0, l1⟩ := flags h els
  unfold fromvec
  rw [hs]
  dsimp only [finish]
  generalize x.bearer_ctxs.isEmpty = b at *
  have f0 := l0.symm.trans (Schema.of_missing_nil mand (by simp) hm)
  have f1 := l1.symm.trans (Schema.of_missing_nil mand (by simp) hm)
  cases m0 <;> cases b <;> first | exact ⟨x, rfl, hh, hv⟩ | contradiction

theorem describes : Describes codec schema fields where
  header_set _ _ := rfl
  fields_set _ _ := rfl
  ext _ _ hh h := ext hh h
  shape x := Aligned.many (fun _ => rfl) <| Aligned.opt (fun _ => rfl) <| Aligned.opt (fun _ => rfl) <| Aligned.one (fun _ => rfl) <| Aligned.opt (fun _ => rfl) <| Aligned.opt (fun _ => rfl) <| Aligned.opt (fun _ => rfl) <| Aligned.opt (fun _ => rfl) <| Aligned.opt (fun _ => rfl) <| Aligned.opt (fun _ => rfl) <| Aligned.opt (fun _ => rfl) <| Aligned.many (fun _ => rfl) <| Aligned.many (fun _ => rfl) <| Aligned.opt (fun _ => rfl) <| Aligned.many (fun _ => rfl) <| Aligned.opt (fun _ => rfl) <| Aligned.many (fun _ => rfl) <| trivial
  tovec x := by simp [codec, tovec, fields]
  complete h els _ hm := complete h els hm

theorem reports (h : Header) (els : List IE) (hm : schema.missing els ≠ []) :
    ∃ s ∈ schema.missing els, ∃ t, fromvec { dflt with header := h } els = .err (.messageMandatoryIEMissing t) ∧ kindOf t = s.kind := by
  obtain ⟨x, m0, hs, hv, hh, l0, l1⟩ := flags h els
  unfold fromvec
  rw [hs]
  dsimp only [finish]
  generalize x.bearer_ctxs.isEmpty = b at *
  cases m0 <;> cases b <;>
    first | exact ⟨_, Schema.mem_missing mand (by simp) l0, _, rfl, rfl⟩ | exact ⟨_, Schema.mem_missing mand (by simp) l1, _, rfl, rfl⟩ | exact absurd (Schema.missing_nil mand (by simp [l0, l1])) hm

theorem settled (h : Header) (els els' : List IE) (he : ∀ s ∈ schema, s.card.mandatory = true → s.lacks els = s.lacks els')
    (hm : schema.missing els ≠ []) : fromvec { dflt with header := h } els = fromvec { dflt with header := h } els' := by
  obtain ⟨x, m0, hs, hv, hh, l0, l1⟩ := flags h els
  obtain ⟨x', m0', hs', hv', hh', l0', l1'⟩ := flags h els'
  unfold fromvec
  rw [hs, hs']
  have e0 := l0.symm.trans ((he _ (by decide) rfl).trans l0')
  obtain rfl := Bool.not_inj (l1.symm.trans ((he _ (by decide) rfl).trans l1'))
  dsimp only [finish]
  rw [← e0]
  clear e0 l0' hv' hs'
  generalize x.bearer_ctxs.isEmpty = b at *
  cases m0 <;> cases b <;>
    first | rfl | exact absurd (Schema.missing_nil mand (by simp [l0, l1])) hm

end UpdateBearerRequest

end Gtp.V2.Msg
