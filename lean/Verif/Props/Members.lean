import Verif.V2.IE

/-!
# What a decoded grouped IE holds (for C94)

Generated by `scripts/gen_members.py`. `From<GroupedIe>` of the grouped IEs walks over the members and fills the fields; here each field is
described by the members alone. `C94_X` is the whole value for the grouped IE `X`.
-/

namespace Gtp.Props
open Gtp.V2

/-- Conditions on the instance of a member. -/
def exactly (i : UInt8) : UInt8 → Bool := (· == i)
def below (i : UInt8) : UInt8 → Bool := fun j => decide (j < i)
def any : UInt8 → Bool := fun _ => true

/-! ## The members of one type -/

/-- The members of this type with an instance that meets the condition, in their order. -/
def theEbi (c : UInt8 → Bool) (l : List IE) : List V2.Ebi := l.filterMap fun | .Ebi x => if c x.ins then some x else none | _ => none

/-- The members of this type with an instance that meets the condition, in their order. -/
def theCause (c : UInt8 → Bool) (l : List IE) : List V2.Cause := l.filterMap fun | .Cause x => if c x.ins then some x else none | _ => none

/-- The members of this type with an instance that meets the condition, in their order. -/
def theBearerTft (c : UInt8 → Bool) (l : List IE) : List V2.BearerTft := l.filterMap fun | .BearerTft x => if c x.ins then some x else none | _ => none

/-- The members of this type with an instance that meets the condition, in their order. -/
def theFteid (c : UInt8 → Bool) (l : List IE) : List V2.Fteid := l.filterMap fun | .Fteid x => if c x.ins then some x else none | _ => none

/-- The members of this type with an instance that meets the condition, in their order. -/
def theBearerQos (c : UInt8 → Bool) (l : List IE) : List V2.BearerQos := l.filterMap fun | .BearerQos x => if c x.ins then some x else none | _ => none

/-- The members of this type with an instance that meets the condition, in their order. -/
def theChargingId (c : UInt8 → Bool) (l : List IE) : List V2.ChargingId := l.filterMap fun | .ChargingId x => if c x.ins then some x else none | _ => none

/-- The members of this type with an instance that meets the condition, in their order. -/
def theBearerFlags (c : UInt8 → Bool) (l : List IE) : List V2.BearerFlags := l.filterMap fun | .BearerFlags x => if c x.ins then some x else none | _ => none

/-- The members of this type with an instance that meets the condition, in their order. -/
def thePco (c : UInt8 → Bool) (l : List IE) : List V2.Pco := l.filterMap fun | .Pco x => if c x.ins then some x else none | _ => none

/-- The members of this type with an instance that meets the condition, in their order. -/
def theApco (c : UInt8 → Bool) (l : List IE) : List V2.Apco := l.filterMap fun | .Apco x => if c x.ins then some x else none | _ => none

/-- The members of this type with an instance that meets the condition, in their order. -/
def theEpco (c : UInt8 → Bool) (l : List IE) : List V2.Epco := l.filterMap fun | .Epco x => if c x.ins then some x else none | _ => none

/-- The members of this type with an instance that meets the condition, in their order. -/
def theMaxPacketLossRate (c : UInt8 → Bool) (l : List IE) : List V2.MaxPacketLossRate := l.filterMap fun | .MaxPacketLossRate x => if c x.ins then some x else none | _ => none

/-- The members of this type with an instance that meets the condition, in their order. -/
def theRanNasCause (c : UInt8 → Bool) (l : List IE) : List V2.RanNasCause := l.filterMap fun | .RanNasCause x => if c x.ins then some x else none | _ => none

/-- The members of this type with an instance that meets the condition, in their order. -/
def theFcontainer (c : UInt8 → Bool) (l : List IE) : List V2.Fcontainer := l.filterMap fun | .Fcontainer x => if c x.ins then some x else none | _ => none

/-- The members of this type with an instance that meets the condition, in their order. -/
def theTransactionIdentifier (c : UInt8 → Bool) (l : List IE) : List V2.TransactionIdentifier := l.filterMap fun | .TransactionIdentifier x => if c x.ins then some x else none | _ => none

/-- The members of this type with an instance that meets the condition, in their order. -/
def theSqn (c : UInt8 → Bool) (l : List IE) : List V2.Sqn := l.filterMap fun | .Sqn x => if c x.ins then some x else none | _ => none

/-- The members of this type with an instance that meets the condition, in their order. -/
def theMetric (c : UInt8 → Bool) (l : List IE) : List V2.Metric := l.filterMap fun | .Metric x => if c x.ins then some x else none | _ => none

/-- The members of this type with an instance that meets the condition, in their order. -/
def theApnRelativeCapacity (c : UInt8 → Bool) (l : List IE) : List V2.ApnRelativeCapacity := l.filterMap fun | .ApnRelativeCapacity x => if c x.ins then some x else none | _ => none

/-- The members of this type with an instance that meets the condition, in their order. -/
def theEpcTimer (c : UInt8 → Bool) (l : List IE) : List V2.EpcTimer := l.filterMap fun | .EpcTimer x => if c x.ins then some x else none | _ => none

/-- The members of this type with an instance that meets the condition, in their order. -/
def theApn (c : UInt8 → Bool) (l : List IE) : List V2.Apn := l.filterMap fun | .Apn x => if c x.ins then some x else none | _ => none

/-- The members of this type with an instance that meets the condition, in their order. -/
def theRemoteUserId (c : UInt8 → Bool) (l : List IE) : List V2.RemoteUserId := l.filterMap fun | .RemoteUserId x => if c x.ins then some x else none | _ => none

/-- The members of this type with an instance that meets the condition, in their order. -/
def theRemoteUeIpInformation (c : UInt8 → Bool) (l : List IE) : List V2.RemoteUeIpInformation := l.filterMap fun | .RemoteUeIpInformation x => if c x.ins then some x else none | _ => none

/-- The members of this type with an instance that meets the condition, in their order. -/
def theNodeIdentifier (c : UInt8 → Bool) (l : List IE) : List V2.NodeIdentifier := l.filterMap fun | .NodeIdentifier x => if c x.ins then some x else none | _ => none

/-- The members of this type with an instance that meets the condition, in their order. -/
def thePC5QosFlow (c : UInt8 → Bool) (l : List IE) : List V2.PC5QosFlow := l.filterMap fun | .PC5QosFlow x => if c x.ins then some x else none | _ => none

/-- The members of this type with an instance that meets the condition, in their order. -/
def theBitRate (c : UInt8 → Bool) (l : List IE) : List V2.BitRate := l.filterMap fun | .BitRate x => if c x.ins then some x else none | _ => none

/-- The members of this type with an instance that meets the condition, in their order. -/
def thePgwFqdn (c : UInt8 → Bool) (l : List IE) : List V2.PgwFqdn := l.filterMap fun | .PgwFqdn x => if c x.ins then some x else none | _ => none

/-- The members of this type with an instance that meets the condition, in their order. -/
def theIpAddress (c : UInt8 → Bool) (l : List IE) : List V2.IpAddress := l.filterMap fun | .IpAddress x => if c x.ins then some x else none | _ => none

/-- The members of this type with an instance that meets the condition, in their order. -/
def theFqcsid (c : UInt8 → Bool) (l : List IE) : List V2.Fqcsid := l.filterMap fun | .Fqcsid x => if c x.ins then some x else none | _ => none

/-- The members of this type with an instance that meets the condition, in their order. -/
def theGroupId (c : UInt8 → Bool) (l : List IE) : List V2.GroupId := l.filterMap fun | .GroupId x => if c x.ins then some x else none | _ => none

/-- The members of this type with an instance that meets the condition, in their order. -/
def theApnRestriction (c : UInt8 → Bool) (l : List IE) : List V2.ApnRestriction := l.filterMap fun | .ApnRestriction x => if c x.ins then some x else none | _ => none

/-- The members of this type with an instance that meets the condition, in their order. -/
def theSelectionMode (c : UInt8 → Bool) (l : List IE) : List V2.SelectionMode := l.filterMap fun | .SelectionMode x => if c x.ins then some x else none | _ => none

/-- The members of this type with an instance that meets the condition, in their order. -/
def theFqdn (c : UInt8 → Bool) (l : List IE) : List V2.Fqdn := l.filterMap fun | .Fqdn x => if c x.ins then some x else none | _ => none

/-- The members of this type with an instance that meets the condition, in their order. -/
def theBearerContext (c : UInt8 → Bool) (l : List IE) : List V2.BearerContext := l.filterMap fun | .BearerContext x => if c x.ins then some x else none | _ => none

/-- The members of this type with an instance that meets the condition, in their order. -/
def theApnAmbr (c : UInt8 → Bool) (l : List IE) : List V2.Ambr := l.filterMap fun | .ApnAmbr x => if c x.ins then some x else none | _ => none

/-- The members of this type with an instance that meets the condition, in their order. -/
def theChargingCharacteristics (c : UInt8 → Bool) (l : List IE) : List V2.ChargingCharacteristics := l.filterMap fun | .ChargingCharacteristics x => if c x.ins then some x else none | _ => none

/-- The members of this type with an instance that meets the condition, in their order. -/
def theChangeReportingAction (c : UInt8 → Bool) (l : List IE) : List V2.ChangeReportingAction := l.filterMap fun | .ChangeReportingAction x => if c x.ins then some x else none | _ => none

/-- The members of this type with an instance that meets the condition, in their order. -/
def theCSGInformationReportingAction (c : UInt8 → Bool) (l : List IE) : List V2.CSGInformationReportingAction := l.filterMap fun | .CSGInformationReportingAction x => if c x.ins then some x else none | _ => none

/-- The members of this type with an instance that meets the condition, in their order. -/
def theHenbInfoReporting (c : UInt8 → Bool) (l : List IE) : List V2.HenbInfoReporting := l.filterMap fun | .HenbInfoReporting x => if c x.ins then some x else none | _ => none

/-- The members of this type with an instance that meets the condition, in their order. -/
def theIndication (c : UInt8 → Bool) (l : List IE) : List V2.Indication := l.filterMap fun | .Indication x => if c x.ins then some x else none | _ => none

/-- The members of this type with an instance that meets the condition, in their order. -/
def theSpi (c : UInt8 → Bool) (l : List IE) : List V2.Spi := l.filterMap fun | .Spi x => if c x.ins then some x else none | _ => none

/-- The members of this type with an instance that meets the condition, in their order. -/
def theChangeToReportFlags (c : UInt8 → Bool) (l : List IE) : List V2.ChangeToReportFlags := l.filterMap fun | .ChangeToReportFlags x => if c x.ins then some x else none | _ => none

/-- The members of this type with an instance that meets the condition, in their order. -/
def thePresenceReportingAreaAction (c : UInt8 → Bool) (l : List IE) : List V2.PresenceReportingAreaAction := l.filterMap fun | .PresenceReportingAreaAction x => if c x.ins then some x else none | _ => none

/-- The members of this type with an instance that meets the condition, in their order. -/
def theWlanOffloadIndication (c : UInt8 → Bool) (l : List IE) : List V2.WlanOffloadIndication := l.filterMap fun | .WlanOffloadIndication x => if c x.ins then some x else none | _ => none

/-- The members of this type with an instance that meets the condition, in their order. -/
def theRemoteUeContext (c : UInt8 → Bool) (l : List IE) : List V2.RemoteUeContext := l.filterMap fun | .RemoteUeContext x => if c x.ins then some x else none | _ => none

/-- The members of this type with an instance that meets the condition, in their order. -/
def thePdnType (c : UInt8 → Bool) (l : List IE) : List V2.PdnType := l.filterMap fun | .PdnType x => if c x.ins then some x else none | _ => none

/-- The members of this type with an instance that meets the condition, in their order. -/
def theHeaderCompressionConfiguration (c : UInt8 → Bool) (l : List IE) : List V2.HeaderCompressionConfiguration := l.filterMap fun | .HeaderCompressionConfiguration x => if c x.ins then some x else none | _ => none

/-- The members of this type with an instance that meets the condition, in their order. -/
def theServicesAuthorized (c : UInt8 → Bool) (l : List IE) : List V2.ServicesAuthorized := l.filterMap fun | .ServicesAuthorized x => if c x.ins then some x else none | _ => none

/-- The members of this type with an instance that meets the condition, in their order. -/
def thePC5QosParameters (c : UInt8 → Bool) (l : List IE) : List V2.PC5QosParameters := l.filterMap fun | .PC5QosParameters x => if c x.ins then some x else none | _ => none

/-! ## Walking over the members -/

theorem keep {σ β : Type} {c : Prop} [Decidable c] {a b : σ} {f : σ → β} {v : β} (ha : f a = v) (hb : f b = v) : f (if c then a else b) = v := by
  split <;> assumption

section
variable {σ α : Type} {step : σ → IE → σ} {p : IE → Option α}

theorem walk_same {β : Type} {f : σ → β} (h : ∀ s e, f (step s e) = f s) (l : List IE) (s : σ) : f (l.foldl step s) = f s := by
  induction l generalizing s with
  | nil => rfl
  | cons e l ih => rw [List.foldl_cons, ih, h]

theorem walk_first {f : σ → Option α} (h : ∀ s e, f (step s e) = (f s).or (p e)) (l : List IE) (s : σ) :
    f (l.foldl step s) = (f s).or (l.filterMap p).head? := by
  induction l generalizing s with
  | nil => rw [List.foldl_nil, List.filterMap_nil, List.head?_nil, Option.or_none]
  | cons e l ih =>
    rw [List.foldl_cons, ih, h, List.filterMap_cons]
    cases f s <;> cases p e <;> rfl

theorem walk_all {f : σ → List α} (h : ∀ s e, f (step s e) = f s ++ (p e).toList) (l : List IE) (s : σ) :
    f (l.foldl step s) = f s ++ l.filterMap p := by
  induction l generalizing s with
  | nil => rw [List.foldl_nil, List.filterMap_nil, List.append_nil]
  | cons e l ih =>
    rw [List.foldl_cons, ih, h, List.filterMap_cons, List.append_assoc]
    cases p e <;> rfl

theorem last_cons (a : α) (l : List α) : (a :: l).getLast? = l.getLast?.or (some a) := by
  rw [List.getLast?_cons]
  cases l.getLast? <;> rfl

theorem walk_over {f : σ → Option α} (h : ∀ s e, f (step s e) = (p e).or (f s)) (l : List IE) (s : σ) :
    f (l.foldl step s) = (l.filterMap p).getLast?.or (f s) := by
  induction l generalizing s with
  | nil => rfl
  | cons e l ih =>
    rw [List.foldl_cons, ih, h, List.filterMap_cons]
    cases p e with
    | none => rfl
    | some a => simp only [last_cons]; cases (l.filterMap p).getLast? <;> rfl

theorem walk_last {f : σ → α} (h : ∀ s e, f (step s e) = (p e).getD (f s)) (l : List IE) (s : σ) :
    f (l.foldl step s) = (l.filterMap p).getLast?.getD (f s) := by
  have := walk_over (f := fun s => some (f s)) (p := p) (fun s e => by rw [h]; cases p e <;> rfl) l s
  revert this
  cases (l.filterMap p).getLast? <;> exact fun h => Option.some.inj h

theorem walk_only {f : σ → Option (List α)} (h : ∀ s e, f (step s e) = ((p e).map ([·])).or (f s)) (l : List IE) (s : σ) :
    f (l.foldl step s) = ((l.filterMap p).getLast?.map ([·])).or (f s) := by
  induction l generalizing s with
  | nil => rfl
  | cons e l ih =>
    rw [List.foldl_cons, ih, h, List.filterMap_cons]
    cases p e with
    | none => rfl
    | some a => simp only [last_cons]; cases (l.filterMap p).getLast? <;> rfl

end

/-! ## BearerContext -/

namespace BearerContext

theorem cause_step (s : V2.BearerContext × Bool) (e : IE) :
    let p : IE → Option V2.Cause := (fun | .Cause x => if (exactly 0) x.ins then some x else none | _ => none)
    (V2.BearerContext.step s e).1.cause = (s.1.cause).or (p e) := by
  cases e
  case Cause k =>
    simp only [V2.BearerContext.step, exactly]
    rcases ho : s.1.cause with _ | v
    all_goals repeat' split
    all_goals simp_all
  all_goals first
  | exact Option.or_none.symm
  | exact keep (f := fun s : V2.BearerContext × Bool => s.1.cause) Option.or_none.symm Option.or_none.symm
  | exact keep (f := fun s : V2.BearerContext × Bool => s.1.cause) Option.or_none.symm (keep (f := fun s : V2.BearerContext × Bool => s.1.cause) Option.or_none.symm Option.or_none.symm)

theorem tft_step (s : V2.BearerContext × Bool) (e : IE) :
    let p : IE → Option V2.BearerTft := (fun | .BearerTft x => if (exactly 0) x.ins then some x else none | _ => none)
    (V2.BearerContext.step s e).1.tft = (s.1.tft).or (p e) := by
  cases e
  case BearerTft k =>
    simp only [V2.BearerContext.step, exactly]
    rcases ho : s.1.tft with _ | v
    all_goals repeat' split
    all_goals simp_all
  all_goals first
  | exact Option.or_none.symm
  | exact keep (f := fun s : V2.BearerContext × Bool => s.1.tft) Option.or_none.symm Option.or_none.symm
  | exact keep (f := fun s : V2.BearerContext × Bool => s.1.tft) Option.or_none.symm (keep (f := fun s : V2.BearerContext × Bool => s.1.tft) Option.or_none.symm Option.or_none.symm)

theorem fteids_step (s : V2.BearerContext × Bool) (e : IE) :
    let p : IE → Option V2.Fteid := (fun | .Fteid x => if any x.ins then some x else none | _ => none)
    (V2.BearerContext.step s e).1.fteids = s.1.fteids ++ (p e).toList := by
  cases e
  case Fteid k =>
    simp only [V2.BearerContext.step, any]
    all_goals repeat' split
    all_goals simp_all
  all_goals first
  | exact (List.append_nil _).symm
  | exact keep (f := fun s : V2.BearerContext × Bool => s.1.fteids) (List.append_nil _).symm (List.append_nil _).symm
  | exact keep (f := fun s : V2.BearerContext × Bool => s.1.fteids) (List.append_nil _).symm (keep (f := fun s : V2.BearerContext × Bool => s.1.fteids) (List.append_nil _).symm (List.append_nil _).symm)

theorem bearer_qos_step (s : V2.BearerContext × Bool) (e : IE) :
    let p : IE → Option V2.BearerQos := (fun | .BearerQos x => if (exactly 0) x.ins then some x else none | _ => none)
    (V2.BearerContext.step s e).1.bearer_qos = (s.1.bearer_qos).or (p e) := by
  cases e
  case BearerQos k =>
    simp only [V2.BearerContext.step, exactly]
    rcases ho : s.1.bearer_qos with _ | v
    all_goals repeat' split
    all_goals simp_all
  all_goals first
  | exact Option.or_none.symm
  | exact keep (f := fun s : V2.BearerContext × Bool => s.1.bearer_qos) Option.or_none.symm Option.or_none.symm
  | exact keep (f := fun s : V2.BearerContext × Bool => s.1.bearer_qos) Option.or_none.symm (keep (f := fun s : V2.BearerContext × Bool => s.1.bearer_qos) Option.or_none.symm Option.or_none.symm)

theorem charging_id_step (s : V2.BearerContext × Bool) (e : IE) :
    let p : IE → Option V2.ChargingId := (fun | .ChargingId x => if (exactly 0) x.ins then some x else none | _ => none)
    (V2.BearerContext.step s e).1.charging_id = (s.1.charging_id).or (p e) := by
  cases e
  case ChargingId k =>
    simp only [V2.BearerContext.step, exactly]
    rcases ho : s.1.charging_id with _ | v
    all_goals repeat' split
    all_goals simp_all
  all_goals first
  | exact Option.or_none.symm
  | exact keep (f := fun s : V2.BearerContext × Bool => s.1.charging_id) Option.or_none.symm Option.or_none.symm
  | exact keep (f := fun s : V2.BearerContext × Bool => s.1.charging_id) Option.or_none.symm (keep (f := fun s : V2.BearerContext × Bool => s.1.charging_id) Option.or_none.symm Option.or_none.symm)

theorem bearer_flags_step (s : V2.BearerContext × Bool) (e : IE) :
    let p : IE → Option V2.BearerFlags := (fun | .BearerFlags x => if (exactly 0) x.ins then some x else none | _ => none)
    (V2.BearerContext.step s e).1.bearer_flags = (s.1.bearer_flags).or (p e) := by
  cases e
  case BearerFlags k =>
    simp only [V2.BearerContext.step, exactly]
    rcases ho : s.1.bearer_flags with _ | v
    all_goals repeat' split
    all_goals simp_all
  all_goals first
  | exact Option.or_none.symm
  | exact keep (f := fun s : V2.BearerContext × Bool => s.1.bearer_flags) Option.or_none.symm Option.or_none.symm
  | exact keep (f := fun s : V2.BearerContext × Bool => s.1.bearer_flags) Option.or_none.symm (keep (f := fun s : V2.BearerContext × Bool => s.1.bearer_flags) Option.or_none.symm Option.or_none.symm)

theorem pco_step (s : V2.BearerContext × Bool) (e : IE) :
    let p : IE → Option V2.Pco := (fun | .Pco x => if (exactly 0) x.ins then some x else none | _ => none)
    (V2.BearerContext.step s e).1.pco = (s.1.pco).or (p e) := by
  cases e
  case Pco k =>
    simp only [V2.BearerContext.step, exactly]
    rcases ho : s.1.pco with _ | v
    all_goals repeat' split
    all_goals simp_all
  all_goals first
  | exact Option.or_none.symm
  | exact keep (f := fun s : V2.BearerContext × Bool => s.1.pco) Option.or_none.symm Option.or_none.symm
  | exact keep (f := fun s : V2.BearerContext × Bool => s.1.pco) Option.or_none.symm (keep (f := fun s : V2.BearerContext × Bool => s.1.pco) Option.or_none.symm Option.or_none.symm)

theorem apco_step (s : V2.BearerContext × Bool) (e : IE) :
    let p : IE → Option V2.Apco := (fun | .Apco x => if (exactly 0) x.ins then some x else none | _ => none)
    (V2.BearerContext.step s e).1.apco = (s.1.apco).or (p e) := by
  cases e
  case Apco k =>
    simp only [V2.BearerContext.step, exactly]
    rcases ho : s.1.apco with _ | v
    all_goals repeat' split
    all_goals simp_all
  all_goals first
  | exact Option.or_none.symm
  | exact keep (f := fun s : V2.BearerContext × Bool => s.1.apco) Option.or_none.symm Option.or_none.symm
  | exact keep (f := fun s : V2.BearerContext × Bool => s.1.apco) Option.or_none.symm (keep (f := fun s : V2.BearerContext × Bool => s.1.apco) Option.or_none.symm Option.or_none.symm)

theorem epco_step (s : V2.BearerContext × Bool) (e : IE) :
    let p : IE → Option V2.Epco := (fun | .Epco x => if (exactly 0) x.ins then some x else none | _ => none)
    (V2.BearerContext.step s e).1.epco = (s.1.epco).or (p e) := by
  cases e
  case Epco k =>
    simp only [V2.BearerContext.step, exactly]
    rcases ho : s.1.epco with _ | v
    all_goals repeat' split
    all_goals simp_all
  all_goals first
  | exact Option.or_none.symm
  | exact keep (f := fun s : V2.BearerContext × Bool => s.1.epco) Option.or_none.symm Option.or_none.symm
  | exact keep (f := fun s : V2.BearerContext × Bool => s.1.epco) Option.or_none.symm (keep (f := fun s : V2.BearerContext × Bool => s.1.epco) Option.or_none.symm Option.or_none.symm)

theorem max_packet_loss_step (s : V2.BearerContext × Bool) (e : IE) :
    let p : IE → Option V2.MaxPacketLossRate := (fun | .MaxPacketLossRate x => if (exactly 0) x.ins then some x else none | _ => none)
    (V2.BearerContext.step s e).1.max_packet_loss = (s.1.max_packet_loss).or (p e) := by
  cases e
  case MaxPacketLossRate k =>
    simp only [V2.BearerContext.step, exactly]
    rcases ho : s.1.max_packet_loss with _ | v
    all_goals repeat' split
    all_goals simp_all
  all_goals first
  | exact Option.or_none.symm
  | exact keep (f := fun s : V2.BearerContext × Bool => s.1.max_packet_loss) Option.or_none.symm Option.or_none.symm
  | exact keep (f := fun s : V2.BearerContext × Bool => s.1.max_packet_loss) Option.or_none.symm (keep (f := fun s : V2.BearerContext × Bool => s.1.max_packet_loss) Option.or_none.symm Option.or_none.symm)

theorem ran_nas_cause_step (s : V2.BearerContext × Bool) (e : IE) :
    let p : IE → Option V2.RanNasCause := (fun | .RanNasCause x => if (exactly 0) x.ins then some x else none | _ => none)
    (V2.BearerContext.step s e).1.ran_nas_cause = (s.1.ran_nas_cause).or (p e) := by
  cases e
  case RanNasCause k =>
    simp only [V2.BearerContext.step, exactly]
    rcases ho : s.1.ran_nas_cause with _ | v
    all_goals repeat' split
    all_goals simp_all
  all_goals first
  | exact Option.or_none.symm
  | exact keep (f := fun s : V2.BearerContext × Bool => s.1.ran_nas_cause) Option.or_none.symm Option.or_none.symm
  | exact keep (f := fun s : V2.BearerContext × Bool => s.1.ran_nas_cause) Option.or_none.symm (keep (f := fun s : V2.BearerContext × Bool => s.1.ran_nas_cause) Option.or_none.symm Option.or_none.symm)

theorem bss_container_step (s : V2.BearerContext × Bool) (e : IE) :
    let p : IE → Option V2.Fcontainer := (fun | .Fcontainer x => if (exactly 0) x.ins then some x else none | _ => none)
    (V2.BearerContext.step s e).1.bss_container = (s.1.bss_container).or (p e) := by
  cases e
  case Fcontainer k =>
    simp only [V2.BearerContext.step, exactly]
    rcases ho : s.1.bss_container with _ | v
    all_goals repeat' split
    all_goals simp_all
  all_goals first
  | exact Option.or_none.symm
  | exact keep (f := fun s : V2.BearerContext × Bool => s.1.bss_container) Option.or_none.symm Option.or_none.symm
  | exact keep (f := fun s : V2.BearerContext × Bool => s.1.bss_container) Option.or_none.symm (keep (f := fun s : V2.BearerContext × Bool => s.1.bss_container) Option.or_none.symm Option.or_none.symm)

theorem transaction_id_step (s : V2.BearerContext × Bool) (e : IE) :
    let p : IE → Option V2.TransactionIdentifier := (fun | .TransactionIdentifier x => if (exactly 0) x.ins then some x else none | _ => none)
    (V2.BearerContext.step s e).1.transaction_id = (s.1.transaction_id).or (p e) := by
  cases e
  case TransactionIdentifier k =>
    simp only [V2.BearerContext.step, exactly]
    rcases ho : s.1.transaction_id with _ | v
    all_goals repeat' split
    all_goals simp_all
  all_goals first
  | exact Option.or_none.symm
  | exact keep (f := fun s : V2.BearerContext × Bool => s.1.transaction_id) Option.or_none.symm Option.or_none.symm
  | exact keep (f := fun s : V2.BearerContext × Bool => s.1.transaction_id) Option.or_none.symm (keep (f := fun s : V2.BearerContext × Bool => s.1.transaction_id) Option.or_none.symm Option.or_none.symm)

theorem t_step (s : V2.BearerContext × Bool) (e : IE) : (V2.BearerContext.step s e).1.t = s.1.t := by
  unfold V2.BearerContext.step
  repeat' split
  all_goals rfl

theorem length_step (s : V2.BearerContext × Bool) (e : IE) : (V2.BearerContext.step s e).1.length = s.1.length := by
  unfold V2.BearerContext.step
  repeat' split
  all_goals rfl

theorem ins_step (s : V2.BearerContext × Bool) (e : IE) : (V2.BearerContext.step s e).1.ins = s.1.ins := by
  unfold V2.BearerContext.step
  repeat' split
  all_goals rfl

/-- The bearer identity of the state together with the flag that tells that there was one. -/
def key (s : V2.BearerContext × Bool) : Option V2.Ebi := if s.2 then some s.1.ebi else none

theorem key_step (s : V2.BearerContext × Bool) (e : IE) :
    let p : IE → Option V2.Ebi := (fun | .Ebi x => if (exactly 0) x.ins then some x else none | _ => none)
    key (V2.BearerContext.step s e) = (key s).or (p e) := by
  cases e
  case Ebi k =>
    simp only [V2.BearerContext.step, exactly, key]
    repeat' split
    all_goals simp_all
  all_goals first
  | exact Option.or_none.symm
  | (simp only [V2.BearerContext.step]
     repeat' split
     all_goals exact Option.or_none.symm)

theorem other_step (s : V2.BearerContext × Bool) (e : IE) (h : (V2.BearerContext.step s e).2 = false) :
    s.2 = false ∧ (V2.BearerContext.step s e).1.ebi = s.1.ebi := by
  revert h
  unfold V2.BearerContext.step
  repeat' split
  all_goals first | exact fun h => ⟨h, rfl⟩ | exact fun h => by cases h

theorem other_walk (l : List IE) (s : V2.BearerContext × Bool) (h : (l.foldl V2.BearerContext.step s).2 = false) :
    (l.foldl V2.BearerContext.step s).1.ebi = s.1.ebi := by
  induction l generalizing s with
  | nil => rfl
  | cons e l ih =>
    have h2 := ih _ h
    rw [List.foldl_cons, h2]
    have : ∀ (l : List IE) (s : V2.BearerContext × Bool), (l.foldl V2.BearerContext.step s).2 = false → s.2 = false := by
      intro l
      induction l with
      | nil => exact fun s h => h
      | cons e l ih => exact fun s h => (other_step s e (ih _ h)).1
    exact (other_step s e (this l _ h)).2

theorem ebi_walk (l : List IE) (t : UInt8) (n : UInt16) (i : UInt8) :
    (V2.BearerContext.ofGroup t n i l).ebi = (theEbi (exactly 0) l).head?.getD ⟨73, 1, 0, 0⟩ := by
  have h := walk_first key_step l (V2.BearerContext.init t n i, false)
  have h0 : key (V2.BearerContext.init t n i, false) = none := rfl
  rw [h0, Option.none_or] at h
  change _ = (theEbi (exactly 0) l).head? at h
  rw [← h]
  unfold key
  split
  · rfl
  · next hc => exact other_walk l _ (by simpa using hc)

end BearerContext

/-- C94: `BearerContext` as its members prescribe it. -/
def expectedBearerContext (t : UInt8) (n : UInt16) (i : UInt8) (l : List IE) : V2.BearerContext :=
  { t := t, length := n, ins := i,
    ebi := (theEbi (exactly 0) l).head?.getD ⟨73, 1, 0, 0⟩,
    cause := (theCause (exactly 0) l).head?,
    tft := (theBearerTft (exactly 0) l).head?,
    fteids := theFteid any l,
    bearer_qos := (theBearerQos (exactly 0) l).head?,
    charging_id := (theChargingId (exactly 0) l).head?,
    bearer_flags := (theBearerFlags (exactly 0) l).head?,
    pco := (thePco (exactly 0) l).head?,
    apco := (theApco (exactly 0) l).head?,
    epco := (theEpco (exactly 0) l).head?,
    max_packet_loss := (theMaxPacketLossRate (exactly 0) l).head?,
    ran_nas_cause := (theRanNasCause (exactly 0) l).head?,
    bss_container := (theFcontainer (exactly 0) l).head?,
    transaction_id := (theTransactionIdentifier (exactly 0) l).head? }

theorem C94_BearerContext (t : UInt8) (n : UInt16) (i : UInt8) (l : List IE) : V2.BearerContext.ofGroup t n i l = expectedBearerContext t n i l := by
  have eta : ∀ a b : V2.BearerContext, a.t = b.t → a.length = b.length → a.ins = b.ins → a.ebi = b.ebi → a.cause = b.cause → a.tft = b.tft → a.fteids = b.fteids → a.bearer_qos = b.bearer_qos → a.charging_id = b.charging_id → a.bearer_flags = b.bearer_flags → a.pco = b.pco → a.apco = b.apco → a.epco = b.epco → a.max_packet_loss = b.max_packet_loss → a.ran_nas_cause = b.ran_nas_cause → a.bss_container = b.bss_container → a.transaction_id = b.transaction_id → a = b := by
    rintro ⟨⟩ ⟨⟩
    simp only
    intros
    subst_vars
    rfl
  refine eta _ _ ?_ ?_ ?_ ?_ ?_ ?_ ?_ ?_ ?_ ?_ ?_ ?_ ?_ ?_ ?_ ?_ ?_
  · exact walk_same (f := fun s : V2.BearerContext × Bool => s.1.t) BearerContext.t_step l (V2.BearerContext.init t n i, false)
  · exact walk_same (f := fun s : V2.BearerContext × Bool => s.1.length) BearerContext.length_step l (V2.BearerContext.init t n i, false)
  · exact walk_same (f := fun s : V2.BearerContext × Bool => s.1.ins) BearerContext.ins_step l (V2.BearerContext.init t n i, false)
  · exact BearerContext.ebi_walk l t n i
  · exact walk_first (f := fun s : V2.BearerContext × Bool => s.1.cause) BearerContext.cause_step l (V2.BearerContext.init t n i, false)
  · exact walk_first (f := fun s : V2.BearerContext × Bool => s.1.tft) BearerContext.tft_step l (V2.BearerContext.init t n i, false)
  · exact walk_all (f := fun s : V2.BearerContext × Bool => s.1.fteids) BearerContext.fteids_step l (V2.BearerContext.init t n i, false)
  · exact walk_first (f := fun s : V2.BearerContext × Bool => s.1.bearer_qos) BearerContext.bearer_qos_step l (V2.BearerContext.init t n i, false)
  · exact walk_first (f := fun s : V2.BearerContext × Bool => s.1.charging_id) BearerContext.charging_id_step l (V2.BearerContext.init t n i, false)
  · exact walk_first (f := fun s : V2.BearerContext × Bool => s.1.bearer_flags) BearerContext.bearer_flags_step l (V2.BearerContext.init t n i, false)
  · exact walk_first (f := fun s : V2.BearerContext × Bool => s.1.pco) BearerContext.pco_step l (V2.BearerContext.init t n i, false)
  · exact walk_first (f := fun s : V2.BearerContext × Bool => s.1.apco) BearerContext.apco_step l (V2.BearerContext.init t n i, false)
  · exact walk_first (f := fun s : V2.BearerContext × Bool => s.1.epco) BearerContext.epco_step l (V2.BearerContext.init t n i, false)
  · exact walk_first (f := fun s : V2.BearerContext × Bool => s.1.max_packet_loss) BearerContext.max_packet_loss_step l (V2.BearerContext.init t n i, false)
  · exact walk_first (f := fun s : V2.BearerContext × Bool => s.1.ran_nas_cause) BearerContext.ran_nas_cause_step l (V2.BearerContext.init t n i, false)
  · exact walk_first (f := fun s : V2.BearerContext × Bool => s.1.bss_container) BearerContext.bss_container_step l (V2.BearerContext.init t n i, false)
  · exact walk_first (f := fun s : V2.BearerContext × Bool => s.1.transaction_id) BearerContext.transaction_id_step l (V2.BearerContext.init t n i, false)

/-! ## LoadControl -/

namespace LoadControl

theorem sqn_step (s : V2.LoadControl) (e : IE) :
    let p : IE → Option V2.Sqn := (fun | .Sqn x => if any x.ins then some x else none | _ => none)
    (V2.LoadControl.step s e).sqn = (p e).getD (s.sqn) := by
  cases e
  case Sqn k =>
    simp only [V2.LoadControl.step, any]
    all_goals repeat' split
    all_goals simp_all
  all_goals first
  | exact rfl
  | exact keep (f := fun s : V2.LoadControl => s.sqn) rfl rfl
  | exact keep (f := fun s : V2.LoadControl => s.sqn) rfl (keep (f := fun s : V2.LoadControl => s.sqn) rfl rfl)

theorem load_metric_step (s : V2.LoadControl) (e : IE) :
    let p : IE → Option V2.Metric := (fun | .Metric x => if any x.ins then some x else none | _ => none)
    (V2.LoadControl.step s e).load_metric = (p e).getD (s.load_metric) := by
  cases e
  case Metric k =>
    simp only [V2.LoadControl.step, any]
    all_goals repeat' split
    all_goals simp_all
  all_goals first
  | exact rfl
  | exact keep (f := fun s : V2.LoadControl => s.load_metric) rfl rfl
  | exact keep (f := fun s : V2.LoadControl => s.load_metric) rfl (keep (f := fun s : V2.LoadControl => s.load_metric) rfl rfl)

theorem list_step (s : V2.LoadControl) (e : IE) :
    let p : IE → Option V2.ApnRelativeCapacity := (fun | .ApnRelativeCapacity x => if any x.ins then some x else none | _ => none)
    (V2.LoadControl.step s e).list = ((p e).map ([·])).or (s.list) := by
  cases e
  case ApnRelativeCapacity k =>
    simp only [V2.LoadControl.step, any]
    all_goals repeat' split
    all_goals simp_all
  all_goals first
  | exact rfl
  | exact keep (f := fun s : V2.LoadControl => s.list) rfl rfl
  | exact keep (f := fun s : V2.LoadControl => s.list) rfl (keep (f := fun s : V2.LoadControl => s.list) rfl rfl)

theorem t_step (s : V2.LoadControl) (e : IE) : (V2.LoadControl.step s e).t = s.t := by
  unfold V2.LoadControl.step
  repeat' split
  all_goals rfl

theorem length_step (s : V2.LoadControl) (e : IE) : (V2.LoadControl.step s e).length = s.length := by
  unfold V2.LoadControl.step
  repeat' split
  all_goals rfl

theorem ins_step (s : V2.LoadControl) (e : IE) : (V2.LoadControl.step s e).ins = s.ins := by
  unfold V2.LoadControl.step
  repeat' split
  all_goals rfl

end LoadControl

/-- C94: `LoadControl` as its members prescribe it. -/
def expectedLoadControl (t : UInt8) (n : UInt16) (i : UInt8) (l : List IE) : V2.LoadControl :=
  { t := t, length := n, ins := i,
    sqn := (theSqn any l).getLast?.getD ⟨183, 4, 0, 0⟩,
    load_metric := (theMetric any l).getLast?.getD ⟨182, 1, 0, 0⟩,
    list := (theApnRelativeCapacity any l).getLast?.map ([·]) }

theorem C94_LoadControl (t : UInt8) (n : UInt16) (i : UInt8) (l : List IE) : V2.LoadControl.ofGroup t n i l = expectedLoadControl t n i l := by
  have eta : ∀ a b : V2.LoadControl, a.t = b.t → a.length = b.length → a.ins = b.ins → a.sqn = b.sqn → a.load_metric = b.load_metric → a.list = b.list → a = b := by
    rintro ⟨⟩ ⟨⟩
    simp only
    intros
    subst_vars
    rfl
  refine eta _ _ ?_ ?_ ?_ ?_ ?_ ?_
  · exact walk_same (f := fun s : V2.LoadControl => s.t) LoadControl.t_step l (V2.LoadControl.init t n i)
  · exact walk_same (f := fun s : V2.LoadControl => s.length) LoadControl.length_step l (V2.LoadControl.init t n i)
  · exact walk_same (f := fun s : V2.LoadControl => s.ins) LoadControl.ins_step l (V2.LoadControl.init t n i)
  · exact walk_last (f := fun s : V2.LoadControl => s.sqn) LoadControl.sqn_step l (V2.LoadControl.init t n i)
  · exact walk_last (f := fun s : V2.LoadControl => s.load_metric) LoadControl.load_metric_step l (V2.LoadControl.init t n i)
  · exact (walk_only (f := fun s : V2.LoadControl => s.list) LoadControl.list_step l (V2.LoadControl.init t n i)).trans Option.or_none

/-! ## OverloadControlInfo -/

namespace OverloadControlInfo

theorem sqn_step (s : V2.OverloadControlInfo) (e : IE) :
    let p : IE → Option V2.Sqn := (fun | .Sqn x => if any x.ins then some x else none | _ => none)
    (V2.OverloadControlInfo.step s e).sqn = (p e).getD (s.sqn) := by
  cases e
  case Sqn k =>
    simp only [V2.OverloadControlInfo.step, any]
    all_goals repeat' split
    all_goals simp_all
  all_goals first
  | exact rfl
  | exact keep (f := fun s : V2.OverloadControlInfo => s.sqn) rfl rfl
  | exact keep (f := fun s : V2.OverloadControlInfo => s.sqn) rfl (keep (f := fun s : V2.OverloadControlInfo => s.sqn) rfl rfl)

theorem metric_step (s : V2.OverloadControlInfo) (e : IE) :
    let p : IE → Option V2.Metric := (fun | .Metric x => if any x.ins then some x else none | _ => none)
    (V2.OverloadControlInfo.step s e).metric = (p e).getD (s.metric) := by
  cases e
  case Metric k =>
    simp only [V2.OverloadControlInfo.step, any]
    all_goals repeat' split
    all_goals simp_all
  all_goals first
  | exact rfl
  | exact keep (f := fun s : V2.OverloadControlInfo => s.metric) rfl rfl
  | exact keep (f := fun s : V2.OverloadControlInfo => s.metric) rfl (keep (f := fun s : V2.OverloadControlInfo => s.metric) rfl rfl)

theorem validity_step (s : V2.OverloadControlInfo) (e : IE) :
    let p : IE → Option V2.EpcTimer := (fun | .EpcTimer x => if any x.ins then some x else none | _ => none)
    (V2.OverloadControlInfo.step s e).validity = (p e).getD (s.validity) := by
  cases e
  case EpcTimer k =>
    simp only [V2.OverloadControlInfo.step, any]
    all_goals repeat' split
    all_goals simp_all
  all_goals first
  | exact rfl
  | exact keep (f := fun s : V2.OverloadControlInfo => s.validity) rfl rfl
  | exact keep (f := fun s : V2.OverloadControlInfo => s.validity) rfl (keep (f := fun s : V2.OverloadControlInfo => s.validity) rfl rfl)

theorem list_step (s : V2.OverloadControlInfo) (e : IE) :
    let p : IE → Option V2.Apn := (fun | .Apn x => if any x.ins then some x else none | _ => none)
    (V2.OverloadControlInfo.step s e).list = ((p e).map ([·])).or (s.list) := by
  cases e
  case Apn k =>
    simp only [V2.OverloadControlInfo.step, any]
    all_goals repeat' split
    all_goals simp_all
  all_goals first
  | exact rfl
  | exact keep (f := fun s : V2.OverloadControlInfo => s.list) rfl rfl
  | exact keep (f := fun s : V2.OverloadControlInfo => s.list) rfl (keep (f := fun s : V2.OverloadControlInfo => s.list) rfl rfl)

theorem t_step (s : V2.OverloadControlInfo) (e : IE) : (V2.OverloadControlInfo.step s e).t = s.t := by
  unfold V2.OverloadControlInfo.step
  repeat' split
  all_goals rfl

theorem length_step (s : V2.OverloadControlInfo) (e : IE) : (V2.OverloadControlInfo.step s e).length = s.length := by
  unfold V2.OverloadControlInfo.step
  repeat' split
  all_goals rfl

theorem ins_step (s : V2.OverloadControlInfo) (e : IE) : (V2.OverloadControlInfo.step s e).ins = s.ins := by
  unfold V2.OverloadControlInfo.step
  repeat' split
  all_goals rfl

end OverloadControlInfo

/-- C94: `OverloadControlInfo` as its members prescribe it. -/
def expectedOverloadControlInfo (t : UInt8) (n : UInt16) (i : UInt8) (l : List IE) : V2.OverloadControlInfo :=
  { t := t, length := n, ins := i,
    sqn := (theSqn any l).getLast?.getD ⟨183, 4, 0, 0⟩,
    metric := (theMetric any l).getLast?.getD ⟨182, 1, 0, 0⟩,
    validity := (theEpcTimer any l).getLast?.getD ⟨156, 1, 0, 0, 0⟩,
    list := (theApn any l).getLast?.map ([·]) }

theorem C94_OverloadControlInfo (t : UInt8) (n : UInt16) (i : UInt8) (l : List IE) : V2.OverloadControlInfo.ofGroup t n i l = expectedOverloadControlInfo t n i l := by
  have eta : ∀ a b : V2.OverloadControlInfo, a.t = b.t → a.length = b.length → a.ins = b.ins → a.sqn = b.sqn → a.metric = b.metric → a.validity = b.validity → a.list = b.list → a = b := by
    rintro ⟨⟩ ⟨⟩
    simp only
    intros
    subst_vars
    rfl
  refine eta _ _ ?_ ?_ ?_ ?_ ?_ ?_ ?_
  · exact walk_same (f := fun s : V2.OverloadControlInfo => s.t) OverloadControlInfo.t_step l (V2.OverloadControlInfo.init t n i)
  · exact walk_same (f := fun s : V2.OverloadControlInfo => s.length) OverloadControlInfo.length_step l (V2.OverloadControlInfo.init t n i)
  · exact walk_same (f := fun s : V2.OverloadControlInfo => s.ins) OverloadControlInfo.ins_step l (V2.OverloadControlInfo.init t n i)
  · exact walk_last (f := fun s : V2.OverloadControlInfo => s.sqn) OverloadControlInfo.sqn_step l (V2.OverloadControlInfo.init t n i)
  · exact walk_last (f := fun s : V2.OverloadControlInfo => s.metric) OverloadControlInfo.metric_step l (V2.OverloadControlInfo.init t n i)
  · exact walk_last (f := fun s : V2.OverloadControlInfo => s.validity) OverloadControlInfo.validity_step l (V2.OverloadControlInfo.init t n i)
  · exact (walk_only (f := fun s : V2.OverloadControlInfo => s.list) OverloadControlInfo.list_step l (V2.OverloadControlInfo.init t n i)).trans Option.or_none

/-! ## RemoteUeContext -/

namespace RemoteUeContext

theorem user_id_step (s : V2.RemoteUeContext) (e : IE) :
    let p : IE → Option V2.RemoteUserId := (fun | .RemoteUserId x => if any x.ins then some x else none | _ => none)
    (V2.RemoteUeContext.step s e).user_id = (p e).getD (s.user_id) := by
  cases e
  case RemoteUserId k =>
    simp only [V2.RemoteUeContext.step, any]
    all_goals repeat' split
    all_goals simp_all
  all_goals first
  | exact rfl
  | exact keep (f := fun s : V2.RemoteUeContext => s.user_id) rfl rfl
  | exact keep (f := fun s : V2.RemoteUeContext => s.user_id) rfl (keep (f := fun s : V2.RemoteUeContext => s.user_id) rfl rfl)

theorem ue_ip_step (s : V2.RemoteUeContext) (e : IE) :
    let p : IE → Option V2.RemoteUeIpInformation := (fun | .RemoteUeIpInformation x => if any x.ins then some x else none | _ => none)
    (V2.RemoteUeContext.step s e).ue_ip = (p e).or (s.ue_ip) := by
  cases e
  case RemoteUeIpInformation k =>
    simp only [V2.RemoteUeContext.step, any]
    all_goals repeat' split
    all_goals simp_all
  all_goals first
  | exact rfl
  | exact keep (f := fun s : V2.RemoteUeContext => s.ue_ip) rfl rfl
  | exact keep (f := fun s : V2.RemoteUeContext => s.ue_ip) rfl (keep (f := fun s : V2.RemoteUeContext => s.ue_ip) rfl rfl)

theorem t_step (s : V2.RemoteUeContext) (e : IE) : (V2.RemoteUeContext.step s e).t = s.t := by
  unfold V2.RemoteUeContext.step
  repeat' split
  all_goals rfl

theorem length_step (s : V2.RemoteUeContext) (e : IE) : (V2.RemoteUeContext.step s e).length = s.length := by
  unfold V2.RemoteUeContext.step
  repeat' split
  all_goals rfl

theorem ins_step (s : V2.RemoteUeContext) (e : IE) : (V2.RemoteUeContext.step s e).ins = s.ins := by
  unfold V2.RemoteUeContext.step
  repeat' split
  all_goals rfl

end RemoteUeContext

/-- C94: `RemoteUeContext` as its members prescribe it. -/
def expectedRemoteUeContext (t : UInt8) (n : UInt16) (i : UInt8) (l : List IE) : V2.RemoteUeContext :=
  { t := t, length := n, ins := i,
    user_id := (theRemoteUserId any l).getLast?.getD ⟨192, 0, 0, [], none, none⟩,
    ue_ip := (theRemoteUeIpInformation any l).getLast? }

theorem C94_RemoteUeContext (t : UInt8) (n : UInt16) (i : UInt8) (l : List IE) : V2.RemoteUeContext.ofGroup t n i l = expectedRemoteUeContext t n i l := by
  have eta : ∀ a b : V2.RemoteUeContext, a.t = b.t → a.length = b.length → a.ins = b.ins → a.user_id = b.user_id → a.ue_ip = b.ue_ip → a = b := by
    rintro ⟨⟩ ⟨⟩
    simp only
    intros
    subst_vars
    rfl
  refine eta _ _ ?_ ?_ ?_ ?_ ?_
  · exact walk_same (f := fun s : V2.RemoteUeContext => s.t) RemoteUeContext.t_step l (V2.RemoteUeContext.init t n i)
  · exact walk_same (f := fun s : V2.RemoteUeContext => s.length) RemoteUeContext.length_step l (V2.RemoteUeContext.init t n i)
  · exact walk_same (f := fun s : V2.RemoteUeContext => s.ins) RemoteUeContext.ins_step l (V2.RemoteUeContext.init t n i)
  · exact walk_last (f := fun s : V2.RemoteUeContext => s.user_id) RemoteUeContext.user_id_step l (V2.RemoteUeContext.init t n i)
  · exact (walk_over (f := fun s : V2.RemoteUeContext => s.ue_ip) RemoteUeContext.ue_ip_step l (V2.RemoteUeContext.init t n i)).trans Option.or_none

/-! ## ScefPdnConnections -/

namespace ScefPdnConnections

theorem apn_step (s : V2.ScefPdnConnections) (e : IE) :
    let p : IE → Option V2.Apn := (fun | .Apn x => if (exactly 0) x.ins then some x else none | _ => none)
    (V2.ScefPdnConnections.step s e).apn = (p e).getD (s.apn) := by
  cases e
  case Apn k =>
    simp only [V2.ScefPdnConnections.step, exactly]
    all_goals repeat' split
    all_goals simp_all
  all_goals first
  | exact rfl
  | exact keep (f := fun s : V2.ScefPdnConnections => s.apn) rfl rfl
  | exact keep (f := fun s : V2.ScefPdnConnections => s.apn) rfl (keep (f := fun s : V2.ScefPdnConnections => s.apn) rfl rfl)

theorem default_ebi_step (s : V2.ScefPdnConnections) (e : IE) :
    let p : IE → Option V2.Ebi := (fun | .Ebi x => if (exactly 0) x.ins then some x else none | _ => none)
    (V2.ScefPdnConnections.step s e).default_ebi = (p e).getD (s.default_ebi) := by
  cases e
  case Ebi k =>
    simp only [V2.ScefPdnConnections.step, exactly]
    all_goals repeat' split
    all_goals simp_all
  all_goals first
  | exact rfl
  | exact keep (f := fun s : V2.ScefPdnConnections => s.default_ebi) rfl rfl
  | exact keep (f := fun s : V2.ScefPdnConnections => s.default_ebi) rfl (keep (f := fun s : V2.ScefPdnConnections => s.default_ebi) rfl rfl)

theorem scef_id_step (s : V2.ScefPdnConnections) (e : IE) :
    let p : IE → Option V2.NodeIdentifier := (fun | .NodeIdentifier x => if (exactly 0) x.ins then some x else none | _ => none)
    (V2.ScefPdnConnections.step s e).scef_id = (p e).getD (s.scef_id) := by
  cases e
  case NodeIdentifier k =>
    simp only [V2.ScefPdnConnections.step, exactly]
    all_goals repeat' split
    all_goals simp_all
  all_goals first
  | exact rfl
  | exact keep (f := fun s : V2.ScefPdnConnections => s.scef_id) rfl rfl
  | exact keep (f := fun s : V2.ScefPdnConnections => s.scef_id) rfl (keep (f := fun s : V2.ScefPdnConnections => s.scef_id) rfl rfl)

theorem t_step (s : V2.ScefPdnConnections) (e : IE) : (V2.ScefPdnConnections.step s e).t = s.t := by
  unfold V2.ScefPdnConnections.step
  repeat' split
  all_goals rfl

theorem length_step (s : V2.ScefPdnConnections) (e : IE) : (V2.ScefPdnConnections.step s e).length = s.length := by
  unfold V2.ScefPdnConnections.step
  repeat' split
  all_goals rfl

theorem ins_step (s : V2.ScefPdnConnections) (e : IE) : (V2.ScefPdnConnections.step s e).ins = s.ins := by
  unfold V2.ScefPdnConnections.step
  repeat' split
  all_goals rfl

end ScefPdnConnections

/-- C94: `ScefPdnConnections` as its members prescribe it. -/
def expectedScefPdnConnections (t : UInt8) (n : UInt16) (i : UInt8) (l : List IE) : V2.ScefPdnConnections :=
  { t := t, length := n, ins := i,
    apn := (theApn (exactly 0) l).getLast?.getD ⟨71, 0, 0, []⟩,
    default_ebi := (theEbi (exactly 0) l).getLast?.getD ⟨73, 1, 0, 0⟩,
    scef_id := (theNodeIdentifier (exactly 0) l).getLast?.getD ⟨176, 0, 0, [], []⟩ }

theorem C94_ScefPdnConnections (t : UInt8) (n : UInt16) (i : UInt8) (l : List IE) : V2.ScefPdnConnections.ofGroup t n i l = expectedScefPdnConnections t n i l := by
  have eta : ∀ a b : V2.ScefPdnConnections, a.t = b.t → a.length = b.length → a.ins = b.ins → a.apn = b.apn → a.default_ebi = b.default_ebi → a.scef_id = b.scef_id → a = b := by
    rintro ⟨⟩ ⟨⟩
    simp only
    intros
    subst_vars
    rfl
  refine eta _ _ ?_ ?_ ?_ ?_ ?_ ?_
  · exact walk_same (f := fun s : V2.ScefPdnConnections => s.t) ScefPdnConnections.t_step l (V2.ScefPdnConnections.init t n i)
  · exact walk_same (f := fun s : V2.ScefPdnConnections => s.length) ScefPdnConnections.length_step l (V2.ScefPdnConnections.init t n i)
  · exact walk_same (f := fun s : V2.ScefPdnConnections => s.ins) ScefPdnConnections.ins_step l (V2.ScefPdnConnections.init t n i)
  · exact walk_last (f := fun s : V2.ScefPdnConnections => s.apn) ScefPdnConnections.apn_step l (V2.ScefPdnConnections.init t n i)
  · exact walk_last (f := fun s : V2.ScefPdnConnections => s.default_ebi) ScefPdnConnections.default_ebi_step l (V2.ScefPdnConnections.init t n i)
  · exact walk_last (f := fun s : V2.ScefPdnConnections => s.scef_id) ScefPdnConnections.scef_id_step l (V2.ScefPdnConnections.init t n i)

/-! ## PC5QosParameters -/

namespace PC5QosParameters

theorem pc5_qos_flows_step (s : V2.PC5QosParameters) (e : IE) :
    let p : IE → Option V2.PC5QosFlow := (fun | .PC5QosFlow x => if (exactly 0) x.ins then some x else none | _ => none)
    (V2.PC5QosParameters.step s e).pc5_qos_flows = s.pc5_qos_flows ++ (p e).toList := by
  cases e
  case PC5QosFlow k =>
    simp only [V2.PC5QosParameters.step, exactly]
    all_goals repeat' split
    all_goals simp_all
  all_goals first
  | exact (List.append_nil _).symm
  | exact keep (f := fun s : V2.PC5QosParameters => s.pc5_qos_flows) (List.append_nil _).symm (List.append_nil _).symm
  | exact keep (f := fun s : V2.PC5QosParameters => s.pc5_qos_flows) (List.append_nil _).symm (keep (f := fun s : V2.PC5QosParameters => s.pc5_qos_flows) (List.append_nil _).symm (List.append_nil _).symm)

theorem pc5_link_abrs_step (s : V2.PC5QosParameters) (e : IE) :
    let p : IE → Option V2.BitRate := (fun | .BitRate x => if (exactly 0) x.ins then some x else none | _ => none)
    (V2.PC5QosParameters.step s e).pc5_link_abrs = (s.pc5_link_abrs).or (p e) := by
  cases e
  case BitRate k =>
    simp only [V2.PC5QosParameters.step, exactly]
    rcases ho : s.pc5_link_abrs with _ | v
    all_goals repeat' split
    all_goals simp_all
  all_goals first
  | exact Option.or_none.symm
  | exact keep (f := fun s : V2.PC5QosParameters => s.pc5_link_abrs) Option.or_none.symm Option.or_none.symm
  | exact keep (f := fun s : V2.PC5QosParameters => s.pc5_link_abrs) Option.or_none.symm (keep (f := fun s : V2.PC5QosParameters => s.pc5_link_abrs) Option.or_none.symm Option.or_none.symm)

theorem t_step (s : V2.PC5QosParameters) (e : IE) : (V2.PC5QosParameters.step s e).t = s.t := by
  unfold V2.PC5QosParameters.step
  repeat' split
  all_goals rfl

theorem length_step (s : V2.PC5QosParameters) (e : IE) : (V2.PC5QosParameters.step s e).length = s.length := by
  unfold V2.PC5QosParameters.step
  repeat' split
  all_goals rfl

theorem ins_step (s : V2.PC5QosParameters) (e : IE) : (V2.PC5QosParameters.step s e).ins = s.ins := by
  unfold V2.PC5QosParameters.step
  repeat' split
  all_goals rfl

end PC5QosParameters

/-- C94: `PC5QosParameters` as its members prescribe it. -/
def expectedPC5QosParameters (t : UInt8) (n : UInt16) (i : UInt8) (l : List IE) : V2.PC5QosParameters :=
  { t := t, length := n, ins := i,
    pc5_qos_flows := thePC5QosFlow (exactly 0) l,
    pc5_link_abrs := (theBitRate (exactly 0) l).head? }

theorem C94_PC5QosParameters (t : UInt8) (n : UInt16) (i : UInt8) (l : List IE) : V2.PC5QosParameters.ofGroup t n i l = expectedPC5QosParameters t n i l := by
  have eta : ∀ a b : V2.PC5QosParameters, a.t = b.t → a.length = b.length → a.ins = b.ins → a.pc5_qos_flows = b.pc5_qos_flows → a.pc5_link_abrs = b.pc5_link_abrs → a = b := by
    rintro ⟨⟩ ⟨⟩
    simp only
    intros
    subst_vars
    rfl
  refine eta _ _ ?_ ?_ ?_ ?_ ?_
  · exact walk_same (f := fun s : V2.PC5QosParameters => s.t) PC5QosParameters.t_step l (V2.PC5QosParameters.init t n i)
  · exact walk_same (f := fun s : V2.PC5QosParameters => s.length) PC5QosParameters.length_step l (V2.PC5QosParameters.init t n i)
  · exact walk_same (f := fun s : V2.PC5QosParameters => s.ins) PC5QosParameters.ins_step l (V2.PC5QosParameters.init t n i)
  · exact walk_all (f := fun s : V2.PC5QosParameters => s.pc5_qos_flows) PC5QosParameters.pc5_qos_flows_step l (V2.PC5QosParameters.init t n i)
  · exact walk_first (f := fun s : V2.PC5QosParameters => s.pc5_link_abrs) PC5QosParameters.pc5_link_abrs_step l (V2.PC5QosParameters.init t n i)

/-! ## PgwChangeInfo -/

namespace PgwChangeInfo

theorem pgw_fqdns_step (s : V2.PgwChangeInfo) (e : IE) :
    let p : IE → Option V2.PgwFqdn := (fun | .PgwFqdn x => if (below 2) x.ins then some x else none | _ => none)
    (V2.PgwChangeInfo.step s e).pgw_fqdns = s.pgw_fqdns ++ (p e).toList := by
  cases e
  case PgwFqdn k =>
    simp only [V2.PgwChangeInfo.step, below]
    all_goals repeat' split
    all_goals simp_all
  all_goals first
  | exact (List.append_nil _).symm
  | exact keep (f := fun s : V2.PgwChangeInfo => s.pgw_fqdns) (List.append_nil _).symm (List.append_nil _).symm
  | exact keep (f := fun s : V2.PgwChangeInfo => s.pgw_fqdns) (List.append_nil _).symm (keep (f := fun s : V2.PgwChangeInfo => s.pgw_fqdns) (List.append_nil _).symm (List.append_nil _).symm)

theorem sgw_pgw_smf_ips_step (s : V2.PgwChangeInfo) (e : IE) :
    let p : IE → Option V2.IpAddress := (fun | .IpAddress x => if (below 4) x.ins then some x else none | _ => none)
    (V2.PgwChangeInfo.step s e).sgw_pgw_smf_ips = s.sgw_pgw_smf_ips ++ (p e).toList := by
  cases e
  case IpAddress k =>
    simp only [V2.PgwChangeInfo.step, below]
    all_goals repeat' split
    all_goals simp_all
  all_goals first
  | exact (List.append_nil _).symm
  | exact keep (f := fun s : V2.PgwChangeInfo => s.sgw_pgw_smf_ips) (List.append_nil _).symm (List.append_nil _).symm
  | exact keep (f := fun s : V2.PgwChangeInfo => s.sgw_pgw_smf_ips) (List.append_nil _).symm (keep (f := fun s : V2.PgwChangeInfo => s.sgw_pgw_smf_ips) (List.append_nil _).symm (List.append_nil _).symm)

theorem pgw_smf_fqcsid_step (s : V2.PgwChangeInfo) (e : IE) :
    let p : IE → Option V2.Fqcsid := (fun | .Fqcsid x => if (exactly 0) x.ins then some x else none | _ => none)
    (V2.PgwChangeInfo.step s e).pgw_smf_fqcsid = s.pgw_smf_fqcsid ++ (p e).toList := by
  cases e
  case Fqcsid k =>
    simp only [V2.PgwChangeInfo.step, exactly]
    all_goals repeat' split
    all_goals simp_all
  all_goals first
  | exact (List.append_nil _).symm
  | exact keep (f := fun s : V2.PgwChangeInfo => s.pgw_smf_fqcsid) (List.append_nil _).symm (List.append_nil _).symm
  | exact keep (f := fun s : V2.PgwChangeInfo => s.pgw_smf_fqcsid) (List.append_nil _).symm (keep (f := fun s : V2.PgwChangeInfo => s.pgw_smf_fqcsid) (List.append_nil _).symm (List.append_nil _).symm)

theorem groupids_step (s : V2.PgwChangeInfo) (e : IE) :
    let p : IE → Option V2.GroupId := (fun | .GroupId x => if (below 2) x.ins then some x else none | _ => none)
    (V2.PgwChangeInfo.step s e).groupids = s.groupids ++ (p e).toList := by
  cases e
  case GroupId k =>
    simp only [V2.PgwChangeInfo.step, below]
    all_goals repeat' split
    all_goals simp_all
  all_goals first
  | exact (List.append_nil _).symm
  | exact keep (f := fun s : V2.PgwChangeInfo => s.groupids) (List.append_nil _).symm (List.append_nil _).symm
  | exact keep (f := fun s : V2.PgwChangeInfo => s.groupids) (List.append_nil _).symm (keep (f := fun s : V2.PgwChangeInfo => s.groupids) (List.append_nil _).symm (List.append_nil _).symm)

theorem t_step (s : V2.PgwChangeInfo) (e : IE) : (V2.PgwChangeInfo.step s e).t = s.t := by
  unfold V2.PgwChangeInfo.step
  repeat' split
  all_goals rfl

theorem length_step (s : V2.PgwChangeInfo) (e : IE) : (V2.PgwChangeInfo.step s e).length = s.length := by
  unfold V2.PgwChangeInfo.step
  repeat' split
  all_goals rfl

theorem ins_step (s : V2.PgwChangeInfo) (e : IE) : (V2.PgwChangeInfo.step s e).ins = s.ins := by
  unfold V2.PgwChangeInfo.step
  repeat' split
  all_goals rfl

end PgwChangeInfo

/-- C94: `PgwChangeInfo` as its members prescribe it. -/
def expectedPgwChangeInfo (t : UInt8) (n : UInt16) (i : UInt8) (l : List IE) : V2.PgwChangeInfo :=
  { t := t, length := n, ins := i,
    pgw_fqdns := thePgwFqdn (below 2) l,
    sgw_pgw_smf_ips := theIpAddress (below 4) l,
    pgw_smf_fqcsid := theFqcsid (exactly 0) l,
    groupids := theGroupId (below 2) l }

theorem C94_PgwChangeInfo (t : UInt8) (n : UInt16) (i : UInt8) (l : List IE) : V2.PgwChangeInfo.ofGroup t n i l = expectedPgwChangeInfo t n i l := by
  have eta : ∀ a b : V2.PgwChangeInfo, a.t = b.t → a.length = b.length → a.ins = b.ins → a.pgw_fqdns = b.pgw_fqdns → a.sgw_pgw_smf_ips = b.sgw_pgw_smf_ips → a.pgw_smf_fqcsid = b.pgw_smf_fqcsid → a.groupids = b.groupids → a = b := by
    rintro ⟨⟩ ⟨⟩
    simp only
    intros
    subst_vars
    rfl
  refine eta _ _ ?_ ?_ ?_ ?_ ?_ ?_ ?_
  · exact walk_same (f := fun s : V2.PgwChangeInfo => s.t) PgwChangeInfo.t_step l (V2.PgwChangeInfo.init t n i)
  · exact walk_same (f := fun s : V2.PgwChangeInfo => s.length) PgwChangeInfo.length_step l (V2.PgwChangeInfo.init t n i)
  · exact walk_same (f := fun s : V2.PgwChangeInfo => s.ins) PgwChangeInfo.ins_step l (V2.PgwChangeInfo.init t n i)
  · exact walk_all (f := fun s : V2.PgwChangeInfo => s.pgw_fqdns) PgwChangeInfo.pgw_fqdns_step l (V2.PgwChangeInfo.init t n i)
  · exact walk_all (f := fun s : V2.PgwChangeInfo => s.sgw_pgw_smf_ips) PgwChangeInfo.sgw_pgw_smf_ips_step l (V2.PgwChangeInfo.init t n i)
  · exact walk_all (f := fun s : V2.PgwChangeInfo => s.pgw_smf_fqcsid) PgwChangeInfo.pgw_smf_fqcsid_step l (V2.PgwChangeInfo.init t n i)
  · exact walk_all (f := fun s : V2.PgwChangeInfo => s.groupids) PgwChangeInfo.groupids_step l (V2.PgwChangeInfo.init t n i)

/-! ## PdnConnections -/

namespace PdnConnections

theorem apn_step (s : V2.PdnConnections) (e : IE) :
    let p : IE → Option V2.Apn := (fun | .Apn x => if (exactly 0) x.ins then some x else none | _ => none)
    (V2.PdnConnections.step s e).apn = (p e).getD (s.apn) := by
  cases e
  case Apn k =>
    simp only [V2.PdnConnections.step, exactly]
    all_goals repeat' split
    all_goals simp_all
  all_goals first
  | exact rfl
  | exact keep (f := fun s : V2.PdnConnections => s.apn) rfl rfl
  | exact keep (f := fun s : V2.PdnConnections => s.apn) rfl (keep (f := fun s : V2.PdnConnections => s.apn) rfl rfl)

theorem apn_restriction_step (s : V2.PdnConnections) (e : IE) :
    let p : IE → Option V2.ApnRestriction := (fun | .ApnRestriction x => if (exactly 0) x.ins then some x else none | _ => none)
    (V2.PdnConnections.step s e).apn_restriction = (s.apn_restriction).or (p e) := by
  cases e
  case ApnRestriction k =>
    simp only [V2.PdnConnections.step, exactly]
    rcases ho : s.apn_restriction with _ | v
    all_goals repeat' split
    all_goals simp_all
  all_goals first
  | exact Option.or_none.symm
  | exact keep (f := fun s : V2.PdnConnections => s.apn_restriction) Option.or_none.symm Option.or_none.symm
  | exact keep (f := fun s : V2.PdnConnections => s.apn_restriction) Option.or_none.symm (keep (f := fun s : V2.PdnConnections => s.apn_restriction) Option.or_none.symm Option.or_none.symm)

theorem selection_mode_step (s : V2.PdnConnections) (e : IE) :
    let p : IE → Option V2.SelectionMode := (fun | .SelectionMode x => if (exactly 0) x.ins then some x else none | _ => none)
    (V2.PdnConnections.step s e).selection_mode = (s.selection_mode).or (p e) := by
  cases e
  case SelectionMode k =>
    simp only [V2.PdnConnections.step, exactly]
    rcases ho : s.selection_mode with _ | v
    all_goals repeat' split
    all_goals simp_all
  all_goals first
  | exact Option.or_none.symm
  | exact keep (f := fun s : V2.PdnConnections => s.selection_mode) Option.or_none.symm Option.or_none.symm
  | exact keep (f := fun s : V2.PdnConnections => s.selection_mode) Option.or_none.symm (keep (f := fun s : V2.PdnConnections => s.selection_mode) Option.or_none.symm Option.or_none.symm)

theorem ipv4_step (s : V2.PdnConnections) (e : IE) :
    let p : IE → Option V2.IpAddress := (fun | .IpAddress x => if (exactly 0) x.ins then some x else none | _ => none)
    (V2.PdnConnections.step s e).ipv4 = (s.ipv4).or (p e) := by
  cases e
  case IpAddress k =>
    simp only [V2.PdnConnections.step, exactly]
    rcases ho : s.ipv4 with _ | v
    all_goals repeat' split
    all_goals simp_all
  all_goals first
  | exact Option.or_none.symm
  | exact keep (f := fun s : V2.PdnConnections => s.ipv4) Option.or_none.symm Option.or_none.symm
  | exact keep (f := fun s : V2.PdnConnections => s.ipv4) Option.or_none.symm (keep (f := fun s : V2.PdnConnections => s.ipv4) Option.or_none.symm Option.or_none.symm)

theorem ipv6_step (s : V2.PdnConnections) (e : IE) :
    let p : IE → Option V2.IpAddress := (fun | .IpAddress x => if (exactly 1) x.ins then some x else none | _ => none)
    (V2.PdnConnections.step s e).ipv6 = (s.ipv6).or (p e) := by
  cases e
  case IpAddress k =>
    simp only [V2.PdnConnections.step, exactly]
    rcases ho : s.ipv6 with _ | v
    all_goals repeat' split
    all_goals simp_all
  all_goals first
  | exact Option.or_none.symm
  | exact keep (f := fun s : V2.PdnConnections => s.ipv6) Option.or_none.symm Option.or_none.symm
  | exact keep (f := fun s : V2.PdnConnections => s.ipv6) Option.or_none.symm (keep (f := fun s : V2.PdnConnections => s.ipv6) Option.or_none.symm Option.or_none.symm)

theorem linked_ebi_step (s : V2.PdnConnections) (e : IE) :
    let p : IE → Option V2.Ebi := (fun | .Ebi x => if (exactly 0) x.ins then some x else none | _ => none)
    (V2.PdnConnections.step s e).linked_ebi = (p e).getD (s.linked_ebi) := by
  cases e
  case Ebi k =>
    simp only [V2.PdnConnections.step, exactly]
    all_goals repeat' split
    all_goals simp_all
  all_goals first
  | exact rfl
  | exact keep (f := fun s : V2.PdnConnections => s.linked_ebi) rfl rfl
  | exact keep (f := fun s : V2.PdnConnections => s.linked_ebi) rfl (keep (f := fun s : V2.PdnConnections => s.linked_ebi) rfl rfl)

theorem pgw_addr_control_step (s : V2.PdnConnections) (e : IE) :
    let p : IE → Option V2.Fteid := (fun | .Fteid x => if (exactly 0) x.ins then some x else none | _ => none)
    (V2.PdnConnections.step s e).pgw_addr_control = (p e).getD (s.pgw_addr_control) := by
  cases e
  case Fteid k =>
    simp only [V2.PdnConnections.step, exactly]
    all_goals repeat' split
    all_goals simp_all
  all_goals first
  | exact rfl
  | exact keep (f := fun s : V2.PdnConnections => s.pgw_addr_control) rfl rfl
  | exact keep (f := fun s : V2.PdnConnections => s.pgw_addr_control) rfl (keep (f := fun s : V2.PdnConnections => s.pgw_addr_control) rfl rfl)

theorem pgw_node_name_step (s : V2.PdnConnections) (e : IE) :
    let p : IE → Option V2.Fqdn := (fun | .Fqdn x => if (exactly 0) x.ins then some x else none | _ => none)
    (V2.PdnConnections.step s e).pgw_node_name = (s.pgw_node_name).or (p e) := by
  cases e
  case Fqdn k =>
    simp only [V2.PdnConnections.step, exactly]
    rcases ho : s.pgw_node_name with _ | v
    all_goals repeat' split
    all_goals simp_all
  all_goals first
  | exact Option.or_none.symm
  | exact keep (f := fun s : V2.PdnConnections => s.pgw_node_name) Option.or_none.symm Option.or_none.symm
  | exact keep (f := fun s : V2.PdnConnections => s.pgw_node_name) Option.or_none.symm (keep (f := fun s : V2.PdnConnections => s.pgw_node_name) Option.or_none.symm Option.or_none.symm)

theorem bearer_ctxs_step (s : V2.PdnConnections) (e : IE) :
    let p : IE → Option V2.BearerContext := (fun | .BearerContext x => if (exactly 0) x.ins then some x else none | _ => none)
    (V2.PdnConnections.step s e).bearer_ctxs = s.bearer_ctxs ++ (p e).toList := by
  cases e
  case BearerContext k =>
    simp only [V2.PdnConnections.step, exactly]
    all_goals repeat' split
    all_goals simp_all
  all_goals first
  | exact (List.append_nil _).symm
  | exact keep (f := fun s : V2.PdnConnections => s.bearer_ctxs) (List.append_nil _).symm (List.append_nil _).symm
  | exact keep (f := fun s : V2.PdnConnections => s.bearer_ctxs) (List.append_nil _).symm (keep (f := fun s : V2.PdnConnections => s.bearer_ctxs) (List.append_nil _).symm (List.append_nil _).symm)

theorem apn_ambr_step (s : V2.PdnConnections) (e : IE) :
    let p : IE → Option V2.Ambr := (fun | .ApnAmbr x => if (exactly 0) x.ins then some x else none | _ => none)
    (V2.PdnConnections.step s e).apn_ambr = (p e).getD (s.apn_ambr) := by
  cases e
  case ApnAmbr k =>
    simp only [V2.PdnConnections.step, exactly]
    all_goals repeat' split
    all_goals simp_all
  all_goals first
  | exact rfl
  | exact keep (f := fun s : V2.PdnConnections => s.apn_ambr) rfl rfl
  | exact keep (f := fun s : V2.PdnConnections => s.apn_ambr) rfl (keep (f := fun s : V2.PdnConnections => s.apn_ambr) rfl rfl)

theorem charging_char_step (s : V2.PdnConnections) (e : IE) :
    let p : IE → Option V2.ChargingCharacteristics := (fun | .ChargingCharacteristics x => if (exactly 0) x.ins then some x else none | _ => none)
    (V2.PdnConnections.step s e).charging_char = (s.charging_char).or (p e) := by
  cases e
  case ChargingCharacteristics k =>
    simp only [V2.PdnConnections.step, exactly]
    rcases ho : s.charging_char with _ | v
    all_goals repeat' split
    all_goals simp_all
  all_goals first
  | exact Option.or_none.symm
  | exact keep (f := fun s : V2.PdnConnections => s.charging_char) Option.or_none.symm Option.or_none.symm
  | exact keep (f := fun s : V2.PdnConnections => s.charging_char) Option.or_none.symm (keep (f := fun s : V2.PdnConnections => s.charging_char) Option.or_none.symm Option.or_none.symm)

theorem change_reporting_action_step (s : V2.PdnConnections) (e : IE) :
    let p : IE → Option V2.ChangeReportingAction := (fun | .ChangeReportingAction x => if (exactly 0) x.ins then some x else none | _ => none)
    (V2.PdnConnections.step s e).change_reporting_action = (s.change_reporting_action).or (p e) := by
  cases e
  case ChangeReportingAction k =>
    simp only [V2.PdnConnections.step, exactly]
    rcases ho : s.change_reporting_action with _ | v
    all_goals repeat' split
    all_goals simp_all
  all_goals first
  | exact Option.or_none.symm
  | exact keep (f := fun s : V2.PdnConnections => s.change_reporting_action) Option.or_none.symm Option.or_none.symm
  | exact keep (f := fun s : V2.PdnConnections => s.change_reporting_action) Option.or_none.symm (keep (f := fun s : V2.PdnConnections => s.change_reporting_action) Option.or_none.symm Option.or_none.symm)

theorem csg_info_reporting_action_step (s : V2.PdnConnections) (e : IE) :
    let p : IE → Option V2.CSGInformationReportingAction := (fun | .CSGInformationReportingAction x => if (exactly 0) x.ins then some x else none | _ => none)
    (V2.PdnConnections.step s e).csg_info_reporting_action = (s.csg_info_reporting_action).or (p e) := by
  cases e
  case CSGInformationReportingAction k =>
    simp only [V2.PdnConnections.step, exactly]
    rcases ho : s.csg_info_reporting_action with _ | v
    all_goals repeat' split
    all_goals simp_all
  all_goals first
  | exact Option.or_none.symm
  | exact keep (f := fun s : V2.PdnConnections => s.csg_info_reporting_action) Option.or_none.symm Option.or_none.symm
  | exact keep (f := fun s : V2.PdnConnections => s.csg_info_reporting_action) Option.or_none.symm (keep (f := fun s : V2.PdnConnections => s.csg_info_reporting_action) Option.or_none.symm Option.or_none.symm)

theorem henb_info_reporting_step (s : V2.PdnConnections) (e : IE) :
    let p : IE → Option V2.HenbInfoReporting := (fun | .HenbInfoReporting x => if (exactly 0) x.ins then some x else none | _ => none)
    (V2.PdnConnections.step s e).henb_info_reporting = (s.henb_info_reporting).or (p e) := by
  cases e
  case HenbInfoReporting k =>
    simp only [V2.PdnConnections.step, exactly]
    rcases ho : s.henb_info_reporting with _ | v
    all_goals repeat' split
    all_goals simp_all
  all_goals first
  | exact Option.or_none.symm
  | exact keep (f := fun s : V2.PdnConnections => s.henb_info_reporting) Option.or_none.symm Option.or_none.symm
  | exact keep (f := fun s : V2.PdnConnections => s.henb_info_reporting) Option.or_none.symm (keep (f := fun s : V2.PdnConnections => s.henb_info_reporting) Option.or_none.symm Option.or_none.symm)

theorem indication_step (s : V2.PdnConnections) (e : IE) :
    let p : IE → Option V2.Indication := (fun | .Indication x => if (exactly 0) x.ins then some x else none | _ => none)
    (V2.PdnConnections.step s e).indication = (s.indication).or (p e) := by
  cases e
  case Indication k =>
    simp only [V2.PdnConnections.step, exactly]
    rcases ho : s.indication with _ | v
    all_goals repeat' split
    all_goals simp_all
  all_goals first
  | exact Option.or_none.symm
  | exact keep (f := fun s : V2.PdnConnections => s.indication) Option.or_none.symm Option.or_none.symm
  | exact keep (f := fun s : V2.PdnConnections => s.indication) Option.or_none.symm (keep (f := fun s : V2.PdnConnections => s.indication) Option.or_none.symm Option.or_none.symm)

theorem signalling_priority_indication_step (s : V2.PdnConnections) (e : IE) :
    let p : IE → Option V2.Spi := (fun | .Spi x => if (exactly 0) x.ins then some x else none | _ => none)
    (V2.PdnConnections.step s e).signalling_priority_indication = (s.signalling_priority_indication).or (p e) := by
  cases e
  case Spi k =>
    simp only [V2.PdnConnections.step, exactly]
    rcases ho : s.signalling_priority_indication with _ | v
    all_goals repeat' split
    all_goals simp_all
  all_goals first
  | exact Option.or_none.symm
  | exact keep (f := fun s : V2.PdnConnections => s.signalling_priority_indication) Option.or_none.symm Option.or_none.symm
  | exact keep (f := fun s : V2.PdnConnections => s.signalling_priority_indication) Option.or_none.symm (keep (f := fun s : V2.PdnConnections => s.signalling_priority_indication) Option.or_none.symm Option.or_none.symm)

theorem change_to_report_flags_step (s : V2.PdnConnections) (e : IE) :
    let p : IE → Option V2.ChangeToReportFlags := (fun | .ChangeToReportFlags x => if (exactly 0) x.ins then some x else none | _ => none)
    (V2.PdnConnections.step s e).change_to_report_flags = (s.change_to_report_flags).or (p e) := by
  cases e
  case ChangeToReportFlags k =>
    simp only [V2.PdnConnections.step, exactly]
    rcases ho : s.change_to_report_flags with _ | v
    all_goals repeat' split
    all_goals simp_all
  all_goals first
  | exact Option.or_none.symm
  | exact keep (f := fun s : V2.PdnConnections => s.change_to_report_flags) Option.or_none.symm Option.or_none.symm
  | exact keep (f := fun s : V2.PdnConnections => s.change_to_report_flags) Option.or_none.symm (keep (f := fun s : V2.PdnConnections => s.change_to_report_flags) Option.or_none.symm Option.or_none.symm)

theorem local_home_network_id_step (s : V2.PdnConnections) (e : IE) :
    let p : IE → Option V2.Fqdn := (fun | .Fqdn x => if (exactly 1) x.ins then some x else none | _ => none)
    (V2.PdnConnections.step s e).local_home_network_id = (s.local_home_network_id).or (p e) := by
  cases e
  case Fqdn k =>
    simp only [V2.PdnConnections.step, exactly]
    rcases ho : s.local_home_network_id with _ | v
    all_goals repeat' split
    all_goals simp_all
  all_goals first
  | exact Option.or_none.symm
  | exact keep (f := fun s : V2.PdnConnections => s.local_home_network_id) Option.or_none.symm Option.or_none.symm
  | exact keep (f := fun s : V2.PdnConnections => s.local_home_network_id) Option.or_none.symm (keep (f := fun s : V2.PdnConnections => s.local_home_network_id) Option.or_none.symm Option.or_none.symm)

theorem praa_step (s : V2.PdnConnections) (e : IE) :
    let p : IE → Option V2.PresenceReportingAreaAction := (fun | .PresenceReportingAreaAction x => if (exactly 0) x.ins then some x else none | _ => none)
    (V2.PdnConnections.step s e).praa = (s.praa).or (p e) := by
  cases e
  case PresenceReportingAreaAction k =>
    simp only [V2.PdnConnections.step, exactly]
    rcases ho : s.praa with _ | v
    all_goals repeat' split
    all_goals simp_all
  all_goals first
  | exact Option.or_none.symm
  | exact keep (f := fun s : V2.PdnConnections => s.praa) Option.or_none.symm Option.or_none.symm
  | exact keep (f := fun s : V2.PdnConnections => s.praa) Option.or_none.symm (keep (f := fun s : V2.PdnConnections => s.praa) Option.or_none.symm Option.or_none.symm)

theorem wlan_offloadability_step (s : V2.PdnConnections) (e : IE) :
    let p : IE → Option V2.WlanOffloadIndication := (fun | .WlanOffloadIndication x => if (exactly 0) x.ins then some x else none | _ => none)
    (V2.PdnConnections.step s e).wlan_offloadability = (s.wlan_offloadability).or (p e) := by
  cases e
  case WlanOffloadIndication k =>
    simp only [V2.PdnConnections.step, exactly]
    rcases ho : s.wlan_offloadability with _ | v
    all_goals repeat' split
    all_goals simp_all
  all_goals first
  | exact Option.or_none.symm
  | exact keep (f := fun s : V2.PdnConnections => s.wlan_offloadability) Option.or_none.symm Option.or_none.symm
  | exact keep (f := fun s : V2.PdnConnections => s.wlan_offloadability) Option.or_none.symm (keep (f := fun s : V2.PdnConnections => s.wlan_offloadability) Option.or_none.symm Option.or_none.symm)

theorem remote_ue_ctxs_step (s : V2.PdnConnections) (e : IE) :
    let p : IE → Option V2.RemoteUeContext := (fun | .RemoteUeContext x => if (exactly 0) x.ins then some x else none | _ => none)
    (V2.PdnConnections.step s e).remote_ue_ctxs = s.remote_ue_ctxs ++ (p e).toList := by
  cases e
  case RemoteUeContext k =>
    simp only [V2.PdnConnections.step, exactly]
    all_goals repeat' split
    all_goals simp_all
  all_goals first
  | exact (List.append_nil _).symm
  | exact keep (f := fun s : V2.PdnConnections => s.remote_ue_ctxs) (List.append_nil _).symm (List.append_nil _).symm
  | exact keep (f := fun s : V2.PdnConnections => s.remote_ue_ctxs) (List.append_nil _).symm (keep (f := fun s : V2.PdnConnections => s.remote_ue_ctxs) (List.append_nil _).symm (List.append_nil _).symm)

theorem pdn_type_step (s : V2.PdnConnections) (e : IE) :
    let p : IE → Option V2.PdnType := (fun | .PdnType x => if (exactly 0) x.ins then some x else none | _ => none)
    (V2.PdnConnections.step s e).pdn_type = (s.pdn_type).or (p e) := by
  cases e
  case PdnType k =>
    simp only [V2.PdnConnections.step, exactly]
    rcases ho : s.pdn_type with _ | v
    all_goals repeat' split
    all_goals simp_all
  all_goals first
  | exact Option.or_none.symm
  | exact keep (f := fun s : V2.PdnConnections => s.pdn_type) Option.or_none.symm Option.or_none.symm
  | exact keep (f := fun s : V2.PdnConnections => s.pdn_type) Option.or_none.symm (keep (f := fun s : V2.PdnConnections => s.pdn_type) Option.or_none.symm Option.or_none.symm)

theorem hdr_compr_config_step (s : V2.PdnConnections) (e : IE) :
    let p : IE → Option V2.HeaderCompressionConfiguration := (fun | .HeaderCompressionConfiguration x => if (exactly 0) x.ins then some x else none | _ => none)
    (V2.PdnConnections.step s e).hdr_compr_config = (s.hdr_compr_config).or (p e) := by
  cases e
  case HeaderCompressionConfiguration k =>
    simp only [V2.PdnConnections.step, exactly]
    rcases ho : s.hdr_compr_config with _ | v
    all_goals repeat' split
    all_goals simp_all
  all_goals first
  | exact Option.or_none.symm
  | exact keep (f := fun s : V2.PdnConnections => s.hdr_compr_config) Option.or_none.symm Option.or_none.symm
  | exact keep (f := fun s : V2.PdnConnections => s.hdr_compr_config) Option.or_none.symm (keep (f := fun s : V2.PdnConnections => s.hdr_compr_config) Option.or_none.symm Option.or_none.symm)

theorem pgw_change_info_step (s : V2.PdnConnections) (e : IE) : (V2.PdnConnections.step s e).pgw_change_info = s.pgw_change_info := by
  cases e
  all_goals first
  | rfl
  | exact keep (f := fun s : V2.PdnConnections => s.pgw_change_info) rfl rfl
  | exact keep (f := fun s : V2.PdnConnections => s.pgw_change_info) rfl (keep (f := fun s : V2.PdnConnections => s.pgw_change_info) rfl rfl)

theorem up_security_policy_step (s : V2.PdnConnections) (e : IE) : (V2.PdnConnections.step s e).up_security_policy = s.up_security_policy := by
  cases e
  all_goals first
  | rfl
  | exact keep (f := fun s : V2.PdnConnections => s.up_security_policy) rfl rfl
  | exact keep (f := fun s : V2.PdnConnections => s.up_security_policy) rfl (keep (f := fun s : V2.PdnConnections => s.up_security_policy) rfl rfl)

theorem t_step (s : V2.PdnConnections) (e : IE) : (V2.PdnConnections.step s e).t = s.t := by
  unfold V2.PdnConnections.step
  repeat' split
  all_goals rfl

theorem length_step (s : V2.PdnConnections) (e : IE) : (V2.PdnConnections.step s e).length = s.length := by
  unfold V2.PdnConnections.step
  repeat' split
  all_goals rfl

theorem ins_step (s : V2.PdnConnections) (e : IE) : (V2.PdnConnections.step s e).ins = s.ins := by
  unfold V2.PdnConnections.step
  repeat' split
  all_goals rfl

end PdnConnections

/-- C94: `PdnConnections` as its members prescribe it. -/
def expectedPdnConnections (t : UInt8) (n : UInt16) (i : UInt8) (l : List IE) : V2.PdnConnections :=
  { t := t, length := n, ins := i,
    apn := (theApn (exactly 0) l).getLast?.getD ⟨71, 0, 0, []⟩,
    apn_restriction := (theApnRestriction (exactly 0) l).head?,
    selection_mode := (theSelectionMode (exactly 0) l).head?,
    ipv4 := (theIpAddress (exactly 0) l).head?,
    ipv6 := (theIpAddress (exactly 1) l).head?,
    linked_ebi := (theEbi (exactly 0) l).getLast?.getD ⟨73, 1, 0, 0⟩,
    pgw_addr_control := (theFteid (exactly 0) l).getLast?.getD ⟨87, 9, 0, 0, 0, some (ip4 0 0 0 0), none⟩,
    pgw_node_name := (theFqdn (exactly 0) l).head?,
    bearer_ctxs := theBearerContext (exactly 0) l,
    apn_ambr := (theApnAmbr (exactly 0) l).getLast?.getD ⟨72, 8, 0, 0, 0⟩,
    charging_char := (theChargingCharacteristics (exactly 0) l).head?,
    change_reporting_action := (theChangeReportingAction (exactly 0) l).head?,
    csg_info_reporting_action := (theCSGInformationReportingAction (exactly 0) l).head?,
    henb_info_reporting := (theHenbInfoReporting (exactly 0) l).head?,
    indication := (theIndication (exactly 0) l).head?,
    signalling_priority_indication := (theSpi (exactly 0) l).head?,
    change_to_report_flags := (theChangeToReportFlags (exactly 0) l).head?,
    local_home_network_id := (theFqdn (exactly 1) l).head?,
    praa := (thePresenceReportingAreaAction (exactly 0) l).head?,
    wlan_offloadability := (theWlanOffloadIndication (exactly 0) l).head?,
    remote_ue_ctxs := theRemoteUeContext (exactly 0) l,
    pdn_type := (thePdnType (exactly 0) l).head?,
    hdr_compr_config := (theHeaderCompressionConfiguration (exactly 0) l).head?,
    pgw_change_info := none,
    up_security_policy := none }

theorem C94_PdnConnections (t : UInt8) (n : UInt16) (i : UInt8) (l : List IE) : V2.PdnConnections.ofGroup t n i l = expectedPdnConnections t n i l := by
  have eta : ∀ a b : V2.PdnConnections, a.t = b.t → a.length = b.length → a.ins = b.ins → a.apn = b.apn → a.apn_restriction = b.apn_restriction → a.selection_mode = b.selection_mode → a.ipv4 = b.ipv4 → a.ipv6 = b.ipv6 → a.linked_ebi = b.linked_ebi → a.pgw_addr_control = b.pgw_addr_control → a.pgw_node_name = b.pgw_node_name → a.bearer_ctxs = b.bearer_ctxs → a.apn_ambr = b.apn_ambr → a.charging_char = b.charging_char → a.change_reporting_action = b.change_reporting_action → a.csg_info_reporting_action = b.csg_info_reporting_action → a.henb_info_reporting = b.henb_info_reporting → a.indication = b.indication → a.signalling_priority_indication = b.signalling_priority_indication → a.change_to_report_flags = b.change_to_report_flags → a.local_home_network_id = b.local_home_network_id → a.praa = b.praa → a.wlan_offloadability = b.wlan_offloadability → a.remote_ue_ctxs = b.remote_ue_ctxs → a.pdn_type = b.pdn_type → a.hdr_compr_config = b.hdr_compr_config → a.pgw_change_info = b.pgw_change_info → a.up_security_policy = b.up_security_policy → a = b := by
    rintro ⟨⟩ ⟨⟩
    simp only
    intros
    subst_vars
    rfl
  refine eta _ _ ?_ ?_ ?_ ?_ ?_ ?_ ?_ ?_ ?_ ?_ ?_ ?_ ?_ ?_ ?_ ?_ ?_ ?_ ?_ ?_ ?_ ?_ ?_ ?_ ?_ ?_ ?_ ?_
  · exact walk_same (f := fun s : V2.PdnConnections => s.t) PdnConnections.t_step l (V2.PdnConnections.init t n i)
  · exact walk_same (f := fun s : V2.PdnConnections => s.length) PdnConnections.length_step l (V2.PdnConnections.init t n i)
  · exact walk_same (f := fun s : V2.PdnConnections => s.ins) PdnConnections.ins_step l (V2.PdnConnections.init t n i)
  · exact walk_last (f := fun s : V2.PdnConnections => s.apn) PdnConnections.apn_step l (V2.PdnConnections.init t n i)
  · exact walk_first (f := fun s : V2.PdnConnections => s.apn_restriction) PdnConnections.apn_restriction_step l (V2.PdnConnections.init t n i)
  · exact walk_first (f := fun s : V2.PdnConnections => s.selection_mode) PdnConnections.selection_mode_step l (V2.PdnConnections.init t n i)
  · exact walk_first (f := fun s : V2.PdnConnections => s.ipv4) PdnConnections.ipv4_step l (V2.PdnConnections.init t n i)
  · exact walk_first (f := fun s : V2.PdnConnections => s.ipv6) PdnConnections.ipv6_step l (V2.PdnConnections.init t n i)
  · exact walk_last (f := fun s : V2.PdnConnections => s.linked_ebi) PdnConnections.linked_ebi_step l (V2.PdnConnections.init t n i)
  · exact walk_last (f := fun s : V2.PdnConnections => s.pgw_addr_control) PdnConnections.pgw_addr_control_step l (V2.PdnConnections.init t n i)
  · exact walk_first (f := fun s : V2.PdnConnections => s.pgw_node_name) PdnConnections.pgw_node_name_step l (V2.PdnConnections.init t n i)
  · exact walk_all (f := fun s : V2.PdnConnections => s.bearer_ctxs) PdnConnections.bearer_ctxs_step l (V2.PdnConnections.init t n i)
  · exact walk_last (f := fun s : V2.PdnConnections => s.apn_ambr) PdnConnections.apn_ambr_step l (V2.PdnConnections.init t n i)
  · exact walk_first (f := fun s : V2.PdnConnections => s.charging_char) PdnConnections.charging_char_step l (V2.PdnConnections.init t n i)
  · exact walk_first (f := fun s : V2.PdnConnections => s.change_reporting_action) PdnConnections.change_reporting_action_step l (V2.PdnConnections.init t n i)
  · exact walk_first (f := fun s : V2.PdnConnections => s.csg_info_reporting_action) PdnConnections.csg_info_reporting_action_step l (V2.PdnConnections.init t n i)
  · exact walk_first (f := fun s : V2.PdnConnections => s.henb_info_reporting) PdnConnections.henb_info_reporting_step l (V2.PdnConnections.init t n i)
  · exact walk_first (f := fun s : V2.PdnConnections => s.indication) PdnConnections.indication_step l (V2.PdnConnections.init t n i)
  · exact walk_first (f := fun s : V2.PdnConnections => s.signalling_priority_indication) PdnConnections.signalling_priority_indication_step l (V2.PdnConnections.init t n i)
  · exact walk_first (f := fun s : V2.PdnConnections => s.change_to_report_flags) PdnConnections.change_to_report_flags_step l (V2.PdnConnections.init t n i)
  · exact walk_first (f := fun s : V2.PdnConnections => s.local_home_network_id) PdnConnections.local_home_network_id_step l (V2.PdnConnections.init t n i)
  · exact walk_first (f := fun s : V2.PdnConnections => s.praa) PdnConnections.praa_step l (V2.PdnConnections.init t n i)
  · exact walk_first (f := fun s : V2.PdnConnections => s.wlan_offloadability) PdnConnections.wlan_offloadability_step l (V2.PdnConnections.init t n i)
  · exact walk_all (f := fun s : V2.PdnConnections => s.remote_ue_ctxs) PdnConnections.remote_ue_ctxs_step l (V2.PdnConnections.init t n i)
  · exact walk_first (f := fun s : V2.PdnConnections => s.pdn_type) PdnConnections.pdn_type_step l (V2.PdnConnections.init t n i)
  · exact walk_first (f := fun s : V2.PdnConnections => s.hdr_compr_config) PdnConnections.hdr_compr_config_step l (V2.PdnConnections.init t n i)
  · exact walk_same (f := fun s : V2.PdnConnections => s.pgw_change_info) PdnConnections.pgw_change_info_step l (V2.PdnConnections.init t n i)
  · exact walk_same (f := fun s : V2.PdnConnections => s.up_security_policy) PdnConnections.up_security_policy_step l (V2.PdnConnections.init t n i)

/-! ## V2xInformation -/

namespace V2xInformation

theorem services_auth_step (s : V2.V2xInformation) (e : IE) :
    let p : IE → Option V2.ServicesAuthorized := (fun | .ServicesAuthorized x => if (below 2) x.ins then some x else none | _ => none)
    (V2.V2xInformation.step s e).services_auth = s.services_auth ++ (p e).toList := by
  cases e
  case ServicesAuthorized k =>
    simp only [V2.V2xInformation.step, below]
    all_goals repeat' split
    all_goals simp_all
  all_goals first
  | exact (List.append_nil _).symm
  | exact keep (f := fun s : V2.V2xInformation => s.services_auth) (List.append_nil _).symm (List.append_nil _).symm
  | exact keep (f := fun s : V2.V2xInformation => s.services_auth) (List.append_nil _).symm (keep (f := fun s : V2.V2xInformation => s.services_auth) (List.append_nil _).symm (List.append_nil _).symm)

theorem sidelink_max_brs_step (s : V2.V2xInformation) (e : IE) :
    let p : IE → Option V2.BitRate := (fun | .BitRate x => if (below 2) x.ins then some x else none | _ => none)
    (V2.V2xInformation.step s e).sidelink_max_brs = s.sidelink_max_brs ++ (p e).toList := by
  cases e
  case BitRate k =>
    simp only [V2.V2xInformation.step, below]
    all_goals repeat' split
    all_goals simp_all
  all_goals first
  | exact (List.append_nil _).symm
  | exact keep (f := fun s : V2.V2xInformation => s.sidelink_max_brs) (List.append_nil _).symm (List.append_nil _).symm
  | exact keep (f := fun s : V2.V2xInformation => s.sidelink_max_brs) (List.append_nil _).symm (keep (f := fun s : V2.V2xInformation => s.sidelink_max_brs) (List.append_nil _).symm (List.append_nil _).symm)

theorem pc5_qos_params_step (s : V2.V2xInformation) (e : IE) :
    let p : IE → Option V2.PC5QosParameters := (fun | .PC5QosParameters x => if (exactly 0) x.ins then some x else none | _ => none)
    (V2.V2xInformation.step s e).pc5_qos_params = (s.pc5_qos_params).or (p e) := by
  cases e
  case PC5QosParameters k =>
    simp only [V2.V2xInformation.step, exactly]
    rcases ho : s.pc5_qos_params with _ | v
    all_goals repeat' split
    all_goals simp_all
  all_goals first
  | exact Option.or_none.symm
  | exact keep (f := fun s : V2.V2xInformation => s.pc5_qos_params) Option.or_none.symm Option.or_none.symm
  | exact keep (f := fun s : V2.V2xInformation => s.pc5_qos_params) Option.or_none.symm (keep (f := fun s : V2.V2xInformation => s.pc5_qos_params) Option.or_none.symm Option.or_none.symm)

theorem t_step (s : V2.V2xInformation) (e : IE) : (V2.V2xInformation.step s e).t = s.t := by
  unfold V2.V2xInformation.step
  repeat' split
  all_goals rfl

theorem length_step (s : V2.V2xInformation) (e : IE) : (V2.V2xInformation.step s e).length = s.length := by
  unfold V2.V2xInformation.step
  repeat' split
  all_goals rfl

theorem ins_step (s : V2.V2xInformation) (e : IE) : (V2.V2xInformation.step s e).ins = s.ins := by
  unfold V2.V2xInformation.step
  repeat' split
  all_goals rfl

end V2xInformation

/-- C94: `V2xInformation` as its members prescribe it. -/
def expectedV2xInformation (t : UInt8) (n : UInt16) (i : UInt8) (l : List IE) : V2.V2xInformation :=
  { t := t, length := n, ins := i,
    services_auth := theServicesAuthorized (below 2) l,
    sidelink_max_brs := theBitRate (below 2) l,
    pc5_qos_params := (thePC5QosParameters (exactly 0) l).head? }

theorem C94_V2xInformation (t : UInt8) (n : UInt16) (i : UInt8) (l : List IE) : V2.V2xInformation.ofGroup t n i l = expectedV2xInformation t n i l := by
  have eta : ∀ a b : V2.V2xInformation, a.t = b.t → a.length = b.length → a.ins = b.ins → a.services_auth = b.services_auth → a.sidelink_max_brs = b.sidelink_max_brs → a.pc5_qos_params = b.pc5_qos_params → a = b := by
    rintro ⟨⟩ ⟨⟩
    simp only
    intros
    subst_vars
    rfl
  refine eta _ _ ?_ ?_ ?_ ?_ ?_ ?_
  · exact walk_same (f := fun s : V2.V2xInformation => s.t) V2xInformation.t_step l (V2.V2xInformation.init t n i)
  · exact walk_same (f := fun s : V2.V2xInformation => s.length) V2xInformation.length_step l (V2.V2xInformation.init t n i)
  · exact walk_same (f := fun s : V2.V2xInformation => s.ins) V2xInformation.ins_step l (V2.V2xInformation.init t n i)
  · exact walk_all (f := fun s : V2.V2xInformation => s.services_auth) V2xInformation.services_auth_step l (V2.V2xInformation.init t n i)
  · exact walk_all (f := fun s : V2.V2xInformation => s.sidelink_max_brs) V2xInformation.sidelink_max_brs_step l (V2.V2xInformation.init t n i)
  · exact walk_first (f := fun s : V2.V2xInformation => s.pc5_qos_params) V2xInformation.pc5_qos_params_step l (V2.V2xInformation.init t n i)

end Gtp.Props
