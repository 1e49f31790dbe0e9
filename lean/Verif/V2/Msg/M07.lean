import Verif.V2.Msg.Tactic

/-!
# GTPv2-C messages, part 7

Generated by `scripts/gen_msgs.py` from the Rust sources: `ForwardRelocationResponse`, `IdentificationRequest`, `IdentificationResponse`, `IsrStatusIndication`, `MbmsSessionStartRequest`, `MbmsSessionStartResponse`, `MbmsSessionStopRequest`, `MbmsSessionStopResponse`, `MbmsSessionUpdateRequest`, `MbmsSessionUpdateResponse`, `ModifyAccessBearersRequest`, `ModifyAccessBearersResponse`, `ModifyBearerCommand`, `ModifyBearerFailureInd`.
-/

namespace Gtp.V2.Msg

/-- `ForwardRelocationResponse` (forwardrelocationresp.rs:15-30). -/
structure ForwardRelocationResponse where
  header : Header
  cause : V2.Cause
  fteid_control : Option V2.Fteid
  indication : Option V2.Indication
  bearer_ctxs : List V2.BearerContext
  f_causes : List V2.Fcause
  f_containers : List V2.Fcontainer
  mme_sgsn_ldn : Option V2.Ldn
  sgsn_fqdn : Option V2.Fqdn
  mme_fqdn : Option V2.Fqdn
  node_nbrs : List V2.NodeNumber
  node_ids : List V2.NodeIdentifier
  srvcc_reject_cause : Option V2.SrvccCause
  private_ext : List V2.PrivateExtension
deriving DecidableEq

namespace ForwardRelocationResponse

/-- `default` (forwardrelocationresp.rs:33-55). -/
def dflt : ForwardRelocationResponse :=
  { header := { Header.default with msgtype := 134, teid := some 0 }, cause := V2.Cause.dflt, fteid_control := none, indication := none, bearer_ctxs := [], f_causes := [], f_containers := [], mme_sgsn_ldn := none, sgsn_fqdn := none, mme_fqdn := none, node_nbrs := [], node_ids := [], srvcc_reject_cause := none, private_ext := [] }

/-- `tovec` (forwardrelocationresp.rs:91-145). -/
def tovec (x : ForwardRelocationResponse) : List IE :=
  [.Cause x.cause] ++ (
  optV .Fteid x.fteid_control ++ (
  optV .Indication x.indication ++ (
  x.bearer_ctxs.map .BearerContext ++ (
  x.f_causes.map .Fcause ++ (
  x.f_containers.map .Fcontainer ++ (
  optV .Ldn x.mme_sgsn_ldn ++ (
  optV .Fqdn x.sgsn_fqdn ++ (
  optV .Fqdn x.mme_fqdn ++ (
  x.node_nbrs.map .NodeNumber ++ (
  x.node_ids.map .NodeIdentifier ++ (
  optV .SrvccCause x.srvcc_reject_cause ++ (
  x.private_ext.map .PrivateExtension))))))))))))

/-- The variables of `fromvec`: the message and the array `mandatory` (forwardrelocationresp.rs:147-218). -/
structure St where
  x : ForwardRelocationResponse
  m0 : Bool

/-- One turn of the loop of `fromvec` (forwardrelocationresp.rs:147-218). -/
def step (s : St) : IE → St
  | .Cause j => if j.ins = 0 ∧ s.m0 = false then { s with x := { s.x with cause := j }, m0 := true } else s
  | .Fteid j => if j.ins = 0 ∧ s.x.fteid_control.isNone = true then { s with x := { s.x with fteid_control := some j } } else s
  | .Indication j => if j.ins = 0 ∧ s.x.indication.isNone = true then { s with x := { s.x with indication := some j } } else s
  | .BearerContext j => if j.ins < 4 then { s with x := { s.x with bearer_ctxs := s.x.bearer_ctxs ++ [j] } } else s
  | .Fcause j => if j.ins < 3 then { s with x := { s.x with f_causes := s.x.f_causes ++ [j] } } else s
  | .Fcontainer j => if j.ins < 3 then { s with x := { s.x with f_containers := s.x.f_containers ++ [j] } } else s
  | .Ldn j => if j.ins = 0 ∧ s.x.mme_sgsn_ldn.isNone = true then { s with x := { s.x with mme_sgsn_ldn := some j } } else s
  | .Fqdn j => if j.ins = 0 ∧ s.x.sgsn_fqdn.isNone = true then { s with x := { s.x with sgsn_fqdn := some j } } else if j.ins = 1 ∧ s.x.mme_fqdn.isNone = true then { s with x := { s.x with mme_fqdn := some j } } else s
  | .NodeNumber j => if j.ins < 3 then { s with x := { s.x with node_nbrs := s.x.node_nbrs ++ [j] } } else s
  | .NodeIdentifier j => if j.ins < 4 then { s with x := { s.x with node_ids := s.x.node_ids ++ [j] } } else s
  | .SrvccCause j => if j.ins = 0 ∧ s.x.srvcc_reject_cause.isNone = true then { s with x := { s.x with srvcc_reject_cause := some j } } else s
  | .PrivateExtension j => { s with x := { s.x with private_ext := s.x.private_ext ++ [j] } }
  | _ => s

/-- The end of `fromvec` (forwardrelocationresp.rs:147-218). -/
def finish (s : St) : R Err ForwardRelocationResponse :=
  if s.m0 then .ok s.x else .err (.messageMandatoryIEMissing 2)

/-- `fromvec` (forwardrelocationresp.rs:147-218). -/
def fromvec (x : ForwardRelocationResponse) (els : List IE) : R Err ForwardRelocationResponse := finish (els.foldl step ⟨x, false⟩)

/-- The message type (forwardrelocationresp.rs:59-89). -/
def codec : Codec ForwardRelocationResponse :=
  { msgtype := 134, start := some 12, dflt, header := header, setHeader := fun x h => { x with header := h }, tovec, fromvec }

/-- One slot per field. -/
def schema : Schema :=
  [⟨.Cause, .is 0, .one⟩,
   ⟨.Fteid, .is 0, .opt⟩,
   ⟨.Indication, .is 0, .opt⟩,
   ⟨.BearerContext, .lt 4, .many⟩,
   ⟨.Fcause, .lt 3, .many⟩,
   ⟨.Fcontainer, .lt 3, .many⟩,
   ⟨.Ldn, .is 0, .opt⟩,
   ⟨.Fqdn, .is 0, .opt⟩,
   ⟨.Fqdn, .is 1, .opt⟩,
   ⟨.NodeNumber, .lt 3, .many⟩,
   ⟨.NodeIdentifier, .lt 4, .many⟩,
   ⟨.SrvccCause, .is 0, .opt⟩,
   ⟨.PrivateExtension, .any, .many⟩]

/-- The fields as lists of IEs. -/
def fields (x : ForwardRelocationResponse) : List (List IE) :=
  [[.Cause x.cause],
   optV .Fteid x.fteid_control,
   optV .Indication x.indication,
   x.bearer_ctxs.map .BearerContext,
   x.f_causes.map .Fcause,
   x.f_containers.map .Fcontainer,
   optV .Ldn x.mme_sgsn_ldn,
   optV .Fqdn x.sgsn_fqdn,
   optV .Fqdn x.mme_fqdn,
   x.node_nbrs.map .NodeNumber,
   x.node_ids.map .NodeIdentifier,
   optV .SrvccCause x.srvcc_reject_cause,
   x.private_ext.map .PrivateExtension]

/-- What the state has collected so far. -/
def St.view (s : St) : List (List IE) :=
  [if s.m0 then [.Cause s.x.cause] else [],
   optV .Fteid s.x.fteid_control,
   optV .Indication s.x.indication,
   s.x.bearer_ctxs.map .BearerContext,
   s.x.f_causes.map .Fcause,
   s.x.f_containers.map .Fcontainer,
   optV .Ldn s.x.mme_sgsn_ldn,
   optV .Fqdn s.x.sgsn_fqdn,
   optV .Fqdn s.x.mme_fqdn,
   s.x.node_nbrs.map .NodeNumber,
   s.x.node_ids.map .NodeIdentifier,
   optV .SrvccCause s.x.srvcc_reject_cause,
   s.x.private_ext.map .PrivateExtension]

/-- The header is left alone; flags of mandatory lists tell whether the list is empty. -/
def St.Inv (h : Header) (s : St) : Prop :=
  s.x.header = h

theorem step_view (h : Header) (s : St) (e : IE) (hi : s.Inv h) : (step s e).view = Schema.step schema s.view e ∧ (step s e).Inv h := by
  cases e
  case Cause j =>
    simp only [step]
    repeat' split
    all_goals refine ⟨cons_congr ?_ ((Schema.step_other rfl rfl).symm), ?_⟩
    all_goals first | exact hi | msg_field | (simp_all [St.Inv]; done)
  case Fteid j =>
    simp only [step]
    repeat' split
    all_goals refine ⟨cons_congr (Slot.step_ne rfl).symm (cons_congr ?_ ((Schema.step_other rfl rfl).symm)), ?_⟩
    all_goals first | exact hi | msg_field | (simp_all [St.Inv]; done)
  case Indication j =>
    simp only [step]
    repeat' split
    all_goals refine ⟨cons_congr (Slot.step_ne rfl).symm (cons_congr (Slot.step_ne rfl).symm (cons_congr ?_ ((Schema.step_other rfl rfl).symm))), ?_⟩
    all_goals first | exact hi | msg_field | (simp_all [St.Inv]; done)
  case BearerContext j =>
    simp only [step]
    repeat' split
    all_goals refine ⟨cons_congr (Slot.step_ne rfl).symm (cons_congr (Slot.step_ne rfl).symm (cons_congr (Slot.step_ne rfl).symm (cons_congr ?_ ((Schema.step_other rfl rfl).symm)))), ?_⟩
    all_goals first | exact hi | msg_field | (simp_all [St.Inv]; done)
  case Fcause j =>
    simp only [step]
    repeat' split
    all_goals refine ⟨cons_congr (Slot.step_ne rfl).symm (cons_congr (Slot.step_ne rfl).symm (cons_congr (Slot.step_ne rfl).symm (cons_congr (Slot.step_ne rfl).symm (cons_congr ?_ ((Schema.step_other rfl rfl).symm))))), ?_⟩
    all_goals first | exact hi | msg_field | (simp_all [St.Inv]; done)
  case Fcontainer j =>
    simp only [step]
    repeat' split
    all_goals refine ⟨cons_congr (Slot.step_ne rfl).symm (cons_congr (Slot.step_ne rfl).symm (cons_congr (Slot.step_ne rfl).symm (cons_congr (Slot.step_ne rfl).symm (cons_congr (Slot.step_ne rfl).symm (cons_congr ?_ ((Schema.step_other rfl rfl).symm)))))), ?_⟩
    all_goals first | exact hi | msg_field | (simp_all [St.Inv]; done)
  case Ldn j =>
    simp only [step]
    repeat' split
    all_goals refine ⟨cons_congr (Slot.step_ne rfl).symm (cons_congr (Slot.step_ne rfl).symm (cons_congr (Slot.step_ne rfl).symm (cons_congr (Slot.step_ne rfl).symm (cons_congr (Slot.step_ne rfl).symm (cons_congr (Slot.step_ne rfl).symm (cons_congr ?_ ((Schema.step_other rfl rfl).symm))))))), ?_⟩
    all_goals first | exact hi | msg_field | (simp_all [St.Inv]; done)
  case Fqdn j =>
    simp only [step]
    repeat' split
    all_goals refine ⟨cons_congr (Slot.step_ne rfl).symm (cons_congr (Slot.step_ne rfl).symm (cons_congr (Slot.step_ne rfl).symm (cons_congr (Slot.step_ne rfl).symm (cons_congr (Slot.step_ne rfl).symm (cons_congr (Slot.step_ne rfl).symm (cons_congr (Slot.step_ne rfl).symm (cons_congr ?_ (cons_congr ?_ ((Schema.step_other rfl rfl).symm))))))))), ?_⟩
    all_goals first | exact hi | msg_field | (simp_all [St.Inv]; done)
  case NodeNumber j =>
    simp only [step]
    repeat' split
    all_goals refine ⟨cons_congr (Slot.step_ne rfl).symm (cons_congr (Slot.step_ne rfl).symm (cons_congr (Slot.step_ne rfl).symm (cons_congr (Slot.step_ne rfl).symm (cons_congr (Slot.step_ne rfl).symm (cons_congr (Slot.step_ne rfl).symm (cons_congr (Slot.step_ne rfl).symm (cons_congr (Slot.step_ne rfl).symm (cons_congr (Slot.step_ne rfl).symm (cons_congr ?_ ((Schema.step_other rfl rfl).symm)))))))))), ?_⟩
    all_goals first | exact hi | msg_field | (simp_all [St.Inv]; done)
  case NodeIdentifier j =>
    simp only [step]
    repeat' split
    all_goals refine ⟨cons_congr (Slot.step_ne rfl).symm (cons_congr (Slot.step_ne rfl).symm (cons_congr (Slot.step_ne rfl).symm (cons_congr (Slot.step_ne rfl).symm (cons_congr (Slot.step_ne rfl).symm (cons_congr (Slot.step_ne rfl).symm (cons_congr (Slot.step_ne rfl).symm (cons_congr (Slot.step_ne rfl).symm (cons_congr (Slot.step_ne rfl).symm (cons_congr (Slot.step_ne rfl).symm (cons_congr ?_ ((Schema.step_other rfl rfl).symm))))))))))), ?_⟩
    all_goals first | exact hi | msg_field | (simp_all [St.Inv]; done)
  case SrvccCause j =>
    simp only [step]
    repeat' split
    all_goals refine ⟨cons_congr (Slot.step_ne rfl).symm (cons_congr (Slot.step_ne rfl).symm (cons_congr (Slot.step_ne rfl).symm (cons_congr (Slot.step_ne rfl).symm (cons_congr (Slot.step_ne rfl).symm (cons_congr (Slot.step_ne rfl).symm (cons_congr (Slot.step_ne rfl).symm (cons_congr (Slot.step_ne rfl).symm (cons_congr (Slot.step_ne rfl).symm (cons_congr (Slot.step_ne rfl).symm (cons_congr (Slot.step_ne rfl).symm (cons_congr ?_ ((Schema.step_other rfl rfl).symm)))))))))))), ?_⟩
    all_goals first | exact hi | msg_field | (simp_all [St.Inv]; done)
  case PrivateExtension j =>
    simp only [step]
    all_goals refine ⟨cons_congr (Slot.step_ne rfl).symm (cons_congr (Slot.step_ne rfl).symm (cons_congr (Slot.step_ne rfl).symm (cons_congr (Slot.step_ne rfl).symm (cons_congr (Slot.step_ne rfl).symm (cons_congr (Slot.step_ne rfl).symm (cons_congr (Slot.step_ne rfl).symm (cons_congr (Slot.step_ne rfl).symm (cons_congr (Slot.step_ne rfl).symm (cons_congr (Slot.step_ne rfl).symm (cons_congr (Slot.step_ne rfl).symm (cons_congr (Slot.step_ne rfl).symm (cons_congr ?_ (rfl))))))))))))), ?_⟩
    all_goals first | exact hi | msg_field | (simp_all [St.Inv]; done)
  all_goals exact ⟨(Schema.step_other rfl rfl).symm, hi⟩

theorem loop (h : Header) (els : List IE) :
    (els.foldl step ⟨{ dflt with header := h }, false⟩).view = schema.map (·.select els) ∧ (els.foldl step ⟨{ dflt with header := h }, false⟩).Inv h := by
  have := foldl_view (Q := fun _ => True) (fun s e hp _ => step_view h s e hp) els ⟨{ dflt with header := h }, false⟩ (fun _ _ => trivial) (by simp [St.Inv])
  rw [show St.view ⟨{ dflt with header := h }, false⟩ = schema.map (fun _ => []) from rfl, Schema.foldl_nil] at this
  exact this

theorem ext {x y : ForwardRelocationResponse} (hh : x.header = y.header) (h : fields x = fields y) : x = y := by
  cases x; cases y
  simp only at hh
  subst hh
  injection h with h0 h
  cases h0
  injection h with h1 h
  cases optV_inj (fun _ _ h => IE.Fteid.inj h) h1
  injection h with h2 h
  cases optV_inj (fun _ _ h => IE.Indication.inj h) h2
  injection h with h3 h
  cases map_inj (fun _ _ h => IE.BearerContext.inj h) h3
  injection h with h4 h
  cases map_inj (fun _ _ h => IE.Fcause.inj h) h4
  injection h with h5 h
  cases map_inj (fun _ _ h => IE.Fcontainer.inj h) h5
  injection h with h6 h
  cases optV_inj (fun _ _ h => IE.Ldn.inj h) h6
  injection h with h7 h
  cases optV_inj (fun _ _ h => IE.Fqdn.inj h) h7
  injection h with h8 h
  cases optV_inj (fun _ _ h => IE.Fqdn.inj h) h8
  injection h with h9 h
  cases map_inj (fun _ _ h => IE.NodeNumber.inj h) h9
  injection h with h10 h
  cases map_inj (fun _ _ h => IE.NodeIdentifier.inj h) h10
  injection h with h11 h
  cases optV_inj (fun _ _ h => IE.SrvccCause.inj h) h11
  injection h with h12 h
  cases map_inj (fun _ _ h => IE.PrivateExtension.inj h) h12
  rfl

theorem mand : schema.filter (·.card.mandatory) = [(⟨.Cause, .is 0, .one⟩ : Slot)] := rfl

/-- The flags tell which mandatory IEs are absent. -/
theorem flags (h : Header) (els : List IE) : ∃ x m0, els.foldl step ⟨{ dflt with header := h }, false⟩ = ⟨x, m0⟩ ∧ St.view ⟨x, m0⟩ = schema.map (·.select els) ∧ x.header = h ∧
    (⟨.Cause, .is 0, .one⟩ : Slot).lacks els = (!m0) := by
  obtain ⟨hv, hi⟩ := loop h els
  generalize els.foldl step ⟨{ dflt with header := h }, false⟩ = s at hv hi ⊢
  obtain ⟨x, m0⟩ := s
  simp only [St.Inv] at hi
  have l0 : (⟨.Cause, .is 0, .one⟩ : Slot).lacks els = (!m0) := by
    rw [Slot.lacks_eq els rfl]
    have e := congrArg (fun l => l.getD 0 []) hv
    rw [show (⟨.Cause, .is 0, .one⟩ : Slot).select els = if m0 then [.Cause x.cause] else [] from e.symm]
    cases m0 <;> rfl
  exact ⟨x, m0, rfl, hv, hi, l0⟩

theorem complete (h : Header) (els : List IE) (hm : schema.missing els = []) : ∃ y, fromvec { dflt with header := h } els = .ok y ∧ y.header = h ∧ fields y = schema.map (·.select els) := by
  obtain ⟨x, m0, hs, hv, hh, l0⟩ := flags h els
  unfold fromvec
  rw [hs]
  dsimp only [finish]
  have f0 := l0.symm.trans (Schema.of_missing_nil mand (by simp) hm)
  cases m0 <;> first | exact ⟨x, rfl, hh, hv⟩ | contradiction

theorem describes : Describes codec schema fields where
  header_set _ _ := rfl
  fields_set _ _ := rfl
  ext _ _ hh h := ext hh h
  shape x := Aligned.one (fun _ => rfl) <| Aligned.opt (fun _ => rfl) <| Aligned.opt (fun _ => rfl) <| Aligned.many (fun _ => rfl) <| Aligned.many (fun _ => rfl) <| Aligned.many (fun _ => rfl) <| Aligned.opt (fun _ => rfl) <| Aligned.opt (fun _ => rfl) <| Aligned.opt (fun _ => rfl) <| Aligned.many (fun _ => rfl) <| Aligned.many (fun _ => rfl) <| Aligned.opt (fun _ => rfl) <| Aligned.many (fun _ => rfl) <| trivial
  tovec x := by simp [codec, tovec, fields]
  complete h els _ hm := complete h els hm

theorem reports (h : Header) (els : List IE) (hm : schema.missing els ≠ []) :
    ∃ s ∈ schema.missing els, ∃ t, fromvec { dflt with header := h } els = .err (.messageMandatoryIEMissing t) ∧ kindOf t = s.kind := by
  obtain ⟨x, m0, hs, hv, hh, l0⟩ := flags h els
  unfold fromvec
  rw [hs]
  dsimp only [finish]
  cases m0 <;>
    first | exact ⟨_, Schema.mem_missing mand (by simp) l0, _, rfl, rfl⟩ | exact absurd (Schema.missing_nil mand (by simp [l0])) hm

theorem settled (h : Header) (els els' : List IE) (he : ∀ s ∈ schema, s.card.mandatory = true → s.lacks els = s.lacks els')
    (hm : schema.missing els ≠ []) : fromvec { dflt with header := h } els = fromvec { dflt with header := h } els' := by
  obtain ⟨x, m0, hs, hv, hh, l0⟩ := flags h els
  obtain ⟨x', m0', hs', hv', hh', l0'⟩ := flags h els'
  unfold fromvec
  rw [hs, hs']
  obtain rfl := Bool.not_inj (l0.symm.trans ((he _ (by decide) rfl).trans l0'))
  dsimp only [finish]
  cases m0 <;>
    first | rfl | exact absurd (Schema.missing_nil mand (by simp [l0])) hm

end ForwardRelocationResponse

/-- `IdentificationRequest` (identificationreq.rs:15-27). -/
structure IdentificationRequest where
  header : Header
  guti : Option V2.Guti
  rai : Option V2.Uli
  ptmsi : Option V2.Ptmsi
  ptmsi_sig : Option V2.PtmsiSignature
  carm : Option V2.CompleteRequestMessage
  ip_cplane : Option V2.IpAddress
  udp_src_port : Option V2.PortNumber
  hop_counter : Option V2.HopCounter
  target_plmnid : Option V2.ServingNetwork
  private_ext : List V2.PrivateExtension
deriving DecidableEq

namespace IdentificationRequest

/-- `default` (identificationreq.rs:30-49). -/
def dflt : IdentificationRequest :=
  { header := { Header.default with msgtype := 128, teid := some 0 }, guti := none, rai := none, ptmsi := none, ptmsi_sig := none, carm := none, ip_cplane := none, udp_src_port := none, hop_counter := none, target_plmnid := none, private_ext := [] }

/-- `tovec` (identificationreq.rs:86-130). -/
def tovec (x : IdentificationRequest) : List IE :=
  optV .Guti x.guti ++ (
  optV .Uli x.rai ++ (
  optV .Ptmsi x.ptmsi ++ (
  optV .PtmsiSignature x.ptmsi_sig ++ (
  optV .CompleteRequestMessage x.carm ++ (
  optV .IpAddress x.ip_cplane ++ (
  optV .PortNumber x.udp_src_port ++ (
  optV .HopCounter x.hop_counter ++ (
  optV .ServingNetwork x.target_plmnid ++ (
  x.private_ext.map .PrivateExtension)))))))))

/-- The variables of `fromvec`: the message and the array `mandatory` (identificationreq.rs:132-185). -/
structure St where
  x : IdentificationRequest

/-- One turn of the loop of `fromvec` (identificationreq.rs:132-185). -/
def step (s : St) : IE → St
  | .Guti j => if j.ins = 0 ∧ s.x.guti.isNone = true then { s with x := { s.x with guti := some j } } else s
  | .Uli j => if j.ins = 0 ∧ s.x.rai.isNone = true then { s with x := { s.x with rai := some j } } else s
  | .Ptmsi j => if j.ins = 0 ∧ s.x.ptmsi.isNone = true then { s with x := { s.x with ptmsi := some j } } else s
  | .PtmsiSignature j => if j.ins = 0 ∧ s.x.ptmsi_sig.isNone = true then { s with x := { s.x with ptmsi_sig := some j } } else s
  | .CompleteRequestMessage j => if j.ins = 0 ∧ s.x.carm.isNone = true then { s with x := { s.x with carm := some j } } else s
  | .IpAddress j => if j.ins = 0 ∧ s.x.ip_cplane.isNone = true then { s with x := { s.x with ip_cplane := some j } } else s
  | .PortNumber j => if j.ins = 0 ∧ s.x.udp_src_port.isNone = true then { s with x := { s.x with udp_src_port := some j } } else s
  | .HopCounter j => if j.ins = 0 ∧ s.x.hop_counter.isNone = true then { s with x := { s.x with hop_counter := some j } } else s
  | .ServingNetwork j => if j.ins = 0 ∧ s.x.target_plmnid.isNone = true then { s with x := { s.x with target_plmnid := some j } } else s
  | .PrivateExtension j => { s with x := { s.x with private_ext := s.x.private_ext ++ [j] } }
  | _ => s

/-- The end of `fromvec` (identificationreq.rs:132-185). -/
def finish (s : St) : R Err IdentificationRequest :=
  .ok s.x

/-- `fromvec` (identificationreq.rs:132-185). -/
def fromvec (x : IdentificationRequest) (els : List IE) : R Err IdentificationRequest := finish (els.foldl step ⟨x⟩)

/-- The message type (identificationreq.rs:53-84). -/
def codec : Codec IdentificationRequest :=
  { msgtype := 128, start := some 12, dflt, header := header, setHeader := fun x h => { x with header := h }, tovec, fromvec }

/-- One slot per field. -/
def schema : Schema :=
  [⟨.Guti, .is 0, .opt⟩,
   ⟨.Uli, .is 0, .opt⟩,
   ⟨.Ptmsi, .is 0, .opt⟩,
   ⟨.PtmsiSignature, .is 0, .opt⟩,
   ⟨.CompleteRequestMessage, .is 0, .opt⟩,
   ⟨.IpAddress, .is 0, .opt⟩,
   ⟨.PortNumber, .is 0, .opt⟩,
   ⟨.HopCounter, .is 0, .opt⟩,
   ⟨.ServingNetwork, .is 0, .opt⟩,
   ⟨.PrivateExtension, .any, .many⟩]

/-- The fields as lists of IEs. -/
def fields (x : IdentificationRequest) : List (List IE) :=
  [optV .Guti x.guti,
   optV .Uli x.rai,
   optV .Ptmsi x.ptmsi,
   optV .PtmsiSignature x.ptmsi_sig,
   optV .CompleteRequestMessage x.carm,
   optV .IpAddress x.ip_cplane,
   optV .PortNumber x.udp_src_port,
   optV .HopCounter x.hop_counter,
   optV .ServingNetwork x.target_plmnid,
   x.private_ext.map .PrivateExtension]

/-- What the state has collected so far. -/
def St.view (s : St) : List (List IE) :=
  [optV .Guti s.x.guti,
   optV .Uli s.x.rai,
   optV .Ptmsi s.x.ptmsi,
   optV .PtmsiSignature s.x.ptmsi_sig,
   optV .CompleteRequestMessage s.x.carm,
   optV .IpAddress s.x.ip_cplane,
   optV .PortNumber s.x.udp_src_port,
   optV .HopCounter s.x.hop_counter,
   optV .ServingNetwork s.x.target_plmnid,
   s.x.private_ext.map .PrivateExtension]

/-- The header is left alone; flags of mandatory lists tell whether the list is empty. -/
def St.Inv (h : Header) (s : St) : Prop :=
  s.x.header = h

theorem step_view (h : Header) (s : St) (e : IE) (hi : s.Inv h) : (step s e).view = Schema.step schema s.view e ∧ (step s e).Inv h := by
  cases e
  case Guti j =>
    simp only [step]
    repeat' split
    all_goals refine ⟨cons_congr ?_ ((Schema.step_other rfl rfl).symm), ?_⟩
    all_goals first | exact hi | msg_field | (simp_all [St.Inv]; done)
  case Uli j =>
    simp only [step]
    repeat' split
    all_goals refine ⟨cons_congr (Slot.step_ne rfl).symm (cons_congr ?_ ((Schema.step_other rfl rfl).symm)), ?_⟩
    all_goals first | exact hi | msg_field | (simp_all [St.Inv]; done)
  case Ptmsi j =>
    simp only [step]
    repeat' split
    all_goals refine ⟨cons_congr (Slot.step_ne rfl).symm (cons_congr (Slot.step_ne rfl).symm (cons_congr ?_ ((Schema.step_other rfl rfl).symm))), ?_⟩
    all_goals first | exact hi | msg_field | (simp_all [St.Inv]; done)
  case PtmsiSignature j =>
    simp only [step]
    repeat' split
    all_goals refine ⟨cons_congr (Slot.step_ne rfl).symm (cons_congr (Slot.step_ne rfl).symm (cons_congr (Slot.step_ne rfl).symm (cons_congr ?_ ((Schema.step_other rfl rfl).symm)))), ?_⟩
    all_goals first | exact hi | msg_field | (simp_all [St.Inv]; done)
  case CompleteRequestMessage j =>
    simp only [step]
    repeat' split
    all_goals refine ⟨cons_congr (Slot.step_ne rfl).symm (cons_congr (Slot.step_ne rfl).symm (cons_congr (Slot.step_ne rfl).symm (cons_congr (Slot.step_ne rfl).symm (cons_congr ?_ ((Schema.step_other rfl rfl).symm))))), ?_⟩
    all_goals first | exact hi | msg_field | (simp_all [St.Inv]; done)
  case IpAddress j =>
    simp only [step]
    repeat' split
    all_goals refine ⟨cons_congr (Slot.step_ne rfl).symm (cons_congr (Slot.step_ne rfl).symm (cons_congr (Slot.step_ne rfl).symm (cons_congr (Slot.step_ne rfl).symm (cons_congr (Slot.step_ne rfl).symm (cons_congr ?_ ((Schema.step_other rfl rfl).symm)))))), ?_⟩
    all_goals first | exact hi | msg_field | (simp_all [St.Inv]; done)
  case PortNumber j =>
    simp only [step]
    repeat' split
    all_goals refine ⟨cons_congr (Slot.step_ne rfl).symm (cons_congr (Slot.step_ne rfl).symm (cons_congr (Slot.step_ne rfl).symm (cons_congr (Slot.step_ne rfl).symm (cons_congr (Slot.step_ne rfl).symm (cons_congr (Slot.step_ne rfl).symm (cons_congr ?_ ((Schema.step_other rfl rfl).symm))))))), ?_⟩
    all_goals first | exact hi | msg_field | (simp_all [St.Inv]; done)
  case HopCounter j =>
    simp only [step]
    repeat' split
    all_goals refine ⟨cons_congr (Slot.step_ne rfl).symm (cons_congr (Slot.step_ne rfl).symm (cons_congr (Slot.step_ne rfl).symm (cons_congr (Slot.step_ne rfl).symm (cons_congr (Slot.step_ne rfl).symm (cons_congr (Slot.step_ne rfl).symm (cons_congr (Slot.step_ne rfl).symm (cons_congr ?_ ((Schema.step_other rfl rfl).symm)))))))), ?_⟩
    all_goals first | exact hi | msg_field | (simp_all [St.Inv]; done)
  case ServingNetwork j =>
    simp only [step]
    repeat' split
    all_goals refine ⟨cons_congr (Slot.step_ne rfl).symm (cons_congr (Slot.step_ne rfl).symm (cons_congr (Slot.step_ne rfl).symm (cons_congr (Slot.step_ne rfl).symm (cons_congr (Slot.step_ne rfl).symm (cons_congr (Slot.step_ne rfl).symm (cons_congr (Slot.step_ne rfl).symm (cons_congr (Slot.step_ne rfl).symm (cons_congr ?_ ((Schema.step_other rfl rfl).symm))))))))), ?_⟩
    all_goals first | exact hi | msg_field | (simp_all [St.Inv]; done)
  case PrivateExtension j =>
    simp only [step]
    all_goals refine ⟨cons_congr (Slot.step_ne rfl).symm (cons_congr (Slot.step_ne rfl).symm (cons_congr (Slot.step_ne rfl).symm (cons_congr (Slot.step_ne rfl).symm (cons_congr (Slot.step_ne rfl).symm (cons_congr (Slot.step_ne rfl).symm (cons_congr (Slot.step_ne rfl).symm (cons_congr (Slot.step_ne rfl).symm (cons_congr (Slot.step_ne rfl).symm (cons_congr ?_ (rfl)))))))))), ?_⟩
    all_goals first | exact hi | msg_field | (simp_all [St.Inv]; done)
  all_goals exact ⟨(Schema.step_other rfl rfl).symm, hi⟩

theorem loop (h : Header) (els : List IE) :
    (els.foldl step ⟨{ dflt with header := h }⟩).view = schema.map (·.select els) ∧ (els.foldl step ⟨{ dflt with header := h }⟩).Inv h := by
  have := foldl_view (Q := fun _ => True) (fun s e hp _ => step_view h s e hp) els ⟨{ dflt with header := h }⟩ (fun _ _ => trivial) (by simp [St.Inv])
  rw [show St.view ⟨{ dflt with header := h }⟩ = schema.map (fun _ => []) from rfl, Schema.foldl_nil] at this
  exact this

theorem ext {x y : IdentificationRequest} (hh : x.header = y.header) (h : fields x = fields y) : x = y := by
  cases x; cases y
  simp only at hh
  subst hh
  injection h with h0 h
  cases optV_inj (fun _ _ h => IE.Guti.inj h) h0
  injection h with h1 h
  cases optV_inj (fun _ _ h => IE.Uli.inj h) h1
  injection h with h2 h
  cases optV_inj (fun _ _ h => IE.Ptmsi.inj h) h2
  injection h with h3 h
  cases optV_inj (fun _ _ h => IE.PtmsiSignature.inj h) h3
  injection h with h4 h
  cases optV_inj (fun _ _ h => IE.CompleteRequestMessage.inj h) h4
  injection h with h5 h
  cases optV_inj (fun _ _ h => IE.IpAddress.inj h) h5
  injection h with h6 h
  cases optV_inj (fun _ _ h => IE.PortNumber.inj h) h6
  injection h with h7 h
  cases optV_inj (fun _ _ h => IE.HopCounter.inj h) h7
  injection h with h8 h
  cases optV_inj (fun _ _ h => IE.ServingNetwork.inj h) h8
  injection h with h9 h
  cases map_inj (fun _ _ h => IE.PrivateExtension.inj h) h9
  rfl

theorem mand : schema.filter (·.card.mandatory) = [] := rfl

/-- The flags tell which mandatory IEs are absent. -/
theorem flags (h : Header) (els : List IE) : ∃ x , els.foldl step ⟨{ dflt with header := h }⟩ = ⟨x⟩ ∧ St.view ⟨x⟩ = schema.map (·.select els) ∧ x.header = h := by
  obtain ⟨hv, hi⟩ := loop h els
  generalize els.foldl step ⟨{ dflt with header := h }⟩ = s at hv hi ⊢
  obtain ⟨x⟩ := s
  simp only [St.Inv] at hi
  exact ⟨x, rfl, hv, hi⟩

theorem complete (h : Header) (els : List IE) (_hm : schema.missing els = []) : ∃ y, fromvec { dflt with header := h } els = .ok y ∧ y.header = h ∧ fields y = schema.map (·.select els) := by
  obtain ⟨x, hs, hv, hh⟩ := flags h els
  unfold fromvec
  rw [hs]
  exact ⟨x, rfl, hh, hv⟩

theorem describes : Describes codec schema fields where
  header_set _ _ := rfl
  fields_set _ _ := rfl
  ext _ _ hh h := ext hh h
  shape x := Aligned.opt (fun _ => rfl) <| Aligned.opt (fun _ => rfl) <| Aligned.opt (fun _ => rfl) <| Aligned.opt (fun _ => rfl) <| Aligned.opt (fun _ => rfl) <| Aligned.opt (fun _ => rfl) <| Aligned.opt (fun _ => rfl) <| Aligned.opt (fun _ => rfl) <| Aligned.opt (fun _ => rfl) <| Aligned.many (fun _ => rfl) <| trivial
  tovec x := by simp [codec, tovec, fields]
  complete h els _ hm := complete h els hm

end IdentificationRequest

/-- `IdentificationResponse` (identificationresp.rs:15-26). -/
structure IdentificationResponse where
  header : Header
  cause : V2.Cause
  imsi : Option V2.Imsi
  mmctx : Option V2.MmContext
  trace_info : Option V2.TraceInformation
  ue_usage_type : Option V2.IntegerNumber
  monitor_event_info : List V2.MonitoringEventInformation
  monitor_even_ext_info : List V2.MonitoringEventExtensionInfo
  ext_trace_info : Option V2.ExtendedTraceInformation
  private_ext : List V2.PrivateExtension
deriving DecidableEq

namespace IdentificationResponse

/-- `default` (identificationresp.rs:29-47). -/
def dflt : IdentificationResponse :=
  { header := { Header.default with msgtype := 129, teid := some 0 }, cause := V2.Cause.dflt, imsi := none, mmctx := none, trace_info := none, ue_usage_type := none, monitor_event_info := [], monitor_even_ext_info := [], ext_trace_info := none, private_ext := [] }

/-- `tovec` (identificationresp.rs:84-122). -/
def tovec (x : IdentificationResponse) : List IE :=
  [.Cause x.cause] ++ (
  optV .Imsi x.imsi ++ (
  optV .MmContext x.mmctx ++ (
  optV .TraceInformation x.trace_info ++ (
  optV .IntegerNumber x.ue_usage_type ++ (
  x.monitor_event_info.map .MonitoringEventInformation ++ (
  x.monitor_even_ext_info.map .MonitoringEventExtensionInfo ++ (
  optV .ExtendedTraceInformation x.ext_trace_info ++ (
  x.private_ext.map .PrivateExtension))))))))

/-- The variables of `fromvec`: the message and the array `mandatory` (identificationresp.rs:124-174). -/
structure St where
  x : IdentificationResponse
  m0 : Bool

/-- One turn of the loop of `fromvec` (identificationresp.rs:124-174). -/
def step (s : St) : IE → St
  | .Cause j => if j.ins = 0 ∧ s.m0 = false then { s with x := { s.x with cause := j }, m0 := true } else s
  | .Imsi j => if j.ins = 0 ∧ s.x.imsi.isNone = true then { s with x := { s.x with imsi := some j } } else s
  | .MmContext j => if j.ins = 0 ∧ s.x.mmctx.isNone = true then { s with x := { s.x with mmctx := some j } } else s
  | .TraceInformation j => if j.ins = 0 ∧ s.x.trace_info.isNone = true then { s with x := { s.x with trace_info := some j } } else s
  | .IntegerNumber j => if j.ins = 0 ∧ s.x.ue_usage_type.isNone = true then { s with x := { s.x with ue_usage_type := some j } } else s
  | .MonitoringEventInformation j => if j.ins = 0 then { s with x := { s.x with monitor_event_info := s.x.monitor_event_info ++ [j] } } else s
  | .MonitoringEventExtensionInfo j => if j.ins = 0 then { s with x := { s.x with monitor_even_ext_info := s.x.monitor_even_ext_info ++ [j] } } else s
  | .ExtendedTraceInformation j => if j.ins = 0 ∧ s.x.ext_trace_info.isNone = true then { s with x := { s.x with ext_trace_info := some j } } else s
  | .PrivateExtension j => { s with x := { s.x with private_ext := s.x.private_ext ++ [j] } }
  | _ => s

/-- The end of `fromvec` (identificationresp.rs:124-174). -/
def finish (s : St) : R Err IdentificationResponse :=
  .ok s.x

/-- `fromvec` (identificationresp.rs:124-174). -/
def fromvec (x : IdentificationResponse) (els : List IE) : R Err IdentificationResponse := finish (els.foldl step ⟨x, false⟩)

/-- The message type (identificationresp.rs:51-82). -/
def codec : Codec IdentificationResponse :=
  { msgtype := 129, start := some 12, dflt, header := header, setHeader := fun x h => { x with header := h }, tovec, fromvec }

/-- One slot per field. -/
def schema : Schema :=
  [⟨.Cause, .is 0, .one⟩,
   ⟨.Imsi, .is 0, .opt⟩,
   ⟨.MmContext, .is 0, .opt⟩,
   ⟨.TraceInformation, .is 0, .opt⟩,
   ⟨.IntegerNumber, .is 0, .opt⟩,
   ⟨.MonitoringEventInformation, .is 0, .many⟩,
   ⟨.MonitoringEventExtensionInfo, .is 0, .many⟩,
   ⟨.ExtendedTraceInformation, .is 0, .opt⟩,
   ⟨.PrivateExtension, .any, .many⟩]

/-- The fields as lists of IEs. -/
def fields (x : IdentificationResponse) : List (List IE) :=
  [[.Cause x.cause],
   optV .Imsi x.imsi,
   optV .MmContext x.mmctx,
   optV .TraceInformation x.trace_info,
   optV .IntegerNumber x.ue_usage_type,
   x.monitor_event_info.map .MonitoringEventInformation,
   x.monitor_even_ext_info.map .MonitoringEventExtensionInfo,
   optV .ExtendedTraceInformation x.ext_trace_info,
   x.private_ext.map .PrivateExtension]

/-- What the state has collected so far. -/
def St.view (s : St) : List (List IE) :=
  [if s.m0 then [.Cause s.x.cause] else [],
   optV .Imsi s.x.imsi,
   optV .MmContext s.x.mmctx,
   optV .TraceInformation s.x.trace_info,
   optV .IntegerNumber s.x.ue_usage_type,
   s.x.monitor_event_info.map .MonitoringEventInformation,
   s.x.monitor_even_ext_info.map .MonitoringEventExtensionInfo,
   optV .ExtendedTraceInformation s.x.ext_trace_info,
   s.x.private_ext.map .PrivateExtension]

/-- The header is left alone; flags of mandatory lists tell whether the list is empty. -/
def St.Inv (h : Header) (s : St) : Prop :=
  s.x.header = h

theorem step_view (h : Header) (s : St) (e : IE) (hi : s.Inv h) : (step s e).view = Schema.step schema s.view e ∧ (step s e).Inv h := by
  cases e
  case Cause j =>
    simp only [step]
    repeat' split
    all_goals refine ⟨cons_congr ?_ ((Schema.step_other rfl rfl).symm), ?_⟩
    all_goals first | exact hi | msg_field | (simp_all [St.Inv]; done)
  case Imsi j =>
    simp only [step]
    repeat' split
    all_goals refine ⟨cons_congr (Slot.step_ne rfl).symm (cons_congr ?_ ((Schema.step_other rfl rfl).symm)), ?_⟩
    all_goals first | exact hi | msg_field | (simp_all [St.Inv]; done)
  case MmContext j =>
    simp only [step]
    repeat' split
    all_goals refine ⟨cons_congr (Slot.step_ne rfl).symm (cons_congr (Slot.step_ne rfl).symm (cons_congr ?_ ((Schema.step_other rfl rfl).symm))), ?_⟩
    all_goals first | exact hi | msg_field | (simp_all [St.Inv]; done)
  case TraceInformation j =>
    simp only [step]
    repeat' split
    all_goals refine ⟨cons_congr (Slot.step_ne rfl).symm (cons_congr (Slot.step_ne rfl).symm (cons_congr (Slot.step_ne rfl).symm (cons_congr ?_ ((Schema.step_other rfl rfl).symm)))), ?_⟩
    all_goals first | exact hi | msg_field | (simp_all [St.Inv]; done)
  case IntegerNumber j =>
    simp only [step]
    repeat' split
    all_goals refine ⟨cons_congr (Slot.step_ne rfl).symm (cons_congr (Slot.step_ne rfl).symm (cons_congr (Slot.step_ne rfl).symm (cons_congr (Slot.step_ne rfl).symm (cons_congr ?_ ((Schema.step_other rfl rfl).symm))))), ?_⟩
    all_goals first | exact hi | msg_field | (simp_all [St.Inv]; done)
  case MonitoringEventInformation j =>
    simp only [step]
    repeat' split
    all_goals refine ⟨cons_congr (Slot.step_ne rfl).symm (cons_congr (Slot.step_ne rfl).symm (cons_congr (Slot.step_ne rfl).symm (cons_congr (Slot.step_ne rfl).symm (cons_congr (Slot.step_ne rfl).symm (cons_congr ?_ ((Schema.step_other rfl rfl).symm)))))), ?_⟩
    all_goals first | exact hi | msg_field | (simp_all [St.Inv]; done)
  case MonitoringEventExtensionInfo j =>
    simp only [step]
    repeat' split
    all_goals refine ⟨cons_congr (Slot.step_ne rfl).symm (cons_congr (Slot.step_ne rfl).symm (cons_congr (Slot.step_ne rfl).symm (cons_congr (Slot.step_ne rfl).symm (cons_congr (Slot.step_ne rfl).symm (cons_congr (Slot.step_ne rfl).symm (cons_congr ?_ ((Schema.step_other rfl rfl).symm))))))), ?_⟩
    all_goals first | exact hi | msg_field | (simp_all [St.Inv]; done)
  case ExtendedTraceInformation j =>
    simp only [step]
    repeat' split
    all_goals refine ⟨cons_congr (Slot.step_ne rfl).symm (cons_congr (Slot.step_ne rfl).symm (cons_congr (Slot.step_ne rfl).symm (cons_congr (Slot.step_ne rfl).symm (cons_congr (Slot.step_ne rfl).symm (cons_congr (Slot.step_ne rfl).symm (cons_congr (Slot.step_ne rfl).symm (cons_congr ?_ ((Schema.step_other rfl rfl).symm)))))))), ?_⟩
    all_goals first | exact hi | msg_field | (simp_all [St.Inv]; done)
  case PrivateExtension j =>
    simp only [step]
    all_goals refine ⟨cons_congr (Slot.step_ne rfl).symm (cons_congr (Slot.step_ne rfl).symm (cons_congr (Slot.step_ne rfl).symm (cons_congr (Slot.step_ne rfl).symm (cons_congr (Slot.step_ne rfl).symm (cons_congr (Slot.step_ne rfl).symm (cons_congr (Slot.step_ne rfl).symm (cons_congr (Slot.step_ne rfl).symm (cons_congr ?_ (rfl))))))))), ?_⟩
    all_goals first | exact hi | msg_field | (simp_all [St.Inv]; done)
  all_goals exact ⟨(Schema.step_other rfl rfl).symm, hi⟩

theorem loop (h : Header) (els : List IE) :
    (els.foldl step ⟨{ dflt with header := h }, false⟩).view = schema.map (·.select els) ∧ (els.foldl step ⟨{ dflt with header := h }, false⟩).Inv h := by
  have := foldl_view (Q := fun _ => True) (fun s e hp _ => step_view h s e hp) els ⟨{ dflt with header := h }, false⟩ (fun _ _ => trivial) (by simp [St.Inv])
  rw [show St.view ⟨{ dflt with header := h }, false⟩ = schema.map (fun _ => []) from rfl, Schema.foldl_nil] at this
  exact this

theorem ext {x y : IdentificationResponse} (hh : x.header = y.header) (h : fields x = fields y) : x = y := by
  cases x; cases y
  simp only at hh
  subst hh
  injection h with h0 h
  cases h0
  injection h with h1 h
  cases optV_inj (fun _ _ h => IE.Imsi.inj h) h1
  injection h with h2 h
  cases optV_inj (fun _ _ h => IE.MmContext.inj h) h2
  injection h with h3 h
  cases optV_inj (fun _ _ h => IE.TraceInformation.inj h) h3
  injection h with h4 h
  cases optV_inj (fun _ _ h => IE.IntegerNumber.inj h) h4
  injection h with h5 h
  cases map_inj (fun _ _ h => IE.MonitoringEventInformation.inj h) h5
  injection h with h6 h
  cases map_inj (fun _ _ h => IE.MonitoringEventExtensionInfo.inj h) h6
  injection h with h7 h
  cases optV_inj (fun _ _ h => IE.ExtendedTraceInformation.inj h) h7
  injection h with h8 h
  cases map_inj (fun _ _ h => IE.PrivateExtension.inj h) h8
  rfl

theorem mand : schema.filter (·.card.mandatory) = [(⟨.Cause, .is 0, .one⟩ : Slot)] := rfl

/-- The flags tell which mandatory IEs are absent. -/
theorem flags (h : Header) (els : List IE) : ∃ x m0, els.foldl step ⟨{ dflt with header := h }, false⟩ = ⟨x, m0⟩ ∧ St.view ⟨x, m0⟩ = schema.map (·.select els) ∧ x.header = h ∧
    (⟨.Cause, .is 0, .one⟩ : Slot).lacks els = (!m0) := by
  obtain ⟨hv, hi⟩ := loop h els
  generalize els.foldl step ⟨{ dflt with header := h }, false⟩ = s at hv hi ⊢
  obtain ⟨x, m0⟩ := s
  simp only [St.Inv] at hi
  have l0 : (⟨.Cause, .is 0, .one⟩ : Slot).lacks els = (!m0) := by
    rw [Slot.lacks_eq els rfl]
    have e := congrArg (fun l => l.getD 0 []) hv
    rw [show (⟨.Cause, .is 0, .one⟩ : Slot).select els = if m0 then [.Cause x.cause] else [] from e.symm]
    cases m0 <;> rfl
  exact ⟨x, m0, rfl, hv, hi, l0⟩

theorem complete (h : Header) (els : List IE) (hm : schema.missing els = []) : ∃ y, fromvec { dflt with header := h } els = .ok y ∧ y.header = h ∧ fields y = schema.map (·.select els) := by
  obtain ⟨x, m0, hs, hv, hh, l0⟩ := flags h els
  unfold fromvec
  rw [hs]
  dsimp only [finish]
  have f0 := l0.symm.trans (Schema.of_missing_nil mand (by simp) hm)
  cases m0 <;> first | exact ⟨x, rfl, hh, hv⟩ | contradiction

theorem describes : Describes codec schema fields where
  header_set _ _ := rfl
  fields_set _ _ := rfl
  ext _ _ hh h := ext hh h
  shape x := Aligned.one (fun _ => rfl) <| Aligned.opt (fun _ => rfl) <| Aligned.opt (fun _ => rfl) <| Aligned.opt (fun _ => rfl) <| Aligned.opt (fun _ => rfl) <| Aligned.many (fun _ => rfl) <| Aligned.many (fun _ => rfl) <| Aligned.opt (fun _ => rfl) <| Aligned.many (fun _ => rfl) <| trivial
  tovec x := by simp [codec, tovec, fields]
  complete h els _ hm := complete h els hm

end IdentificationResponse

/-- `IsrStatusIndication` (isrstatusindication.rs:15-19). -/
structure IsrStatusIndication where
  header : Header
  action_ind : V2.ActionIndication
  private_ext : List V2.PrivateExtension
deriving DecidableEq

namespace IsrStatusIndication

/-- `default` (isrstatusindication.rs:22-32). -/
def dflt : IsrStatusIndication :=
  { header := { Header.default with msgtype := 157, teid := some 0 }, action_ind := V2.ActionIndication.dflt, private_ext := [] }

/-- `tovec` (isrstatusindication.rs:69-79). -/
def tovec (x : IsrStatusIndication) : List IE :=
  [.ActionIndication x.action_ind] ++ (
  x.private_ext.map .PrivateExtension)

/-- The variables of `fromvec`: the message and the array `mandatory` (isrstatusindication.rs:81-100). -/
structure St where
  x : IsrStatusIndication
  m0 : Bool

/-- One turn of the loop of `fromvec` (isrstatusindication.rs:81-100). -/
def step (s : St) : IE → St
  | .ActionIndication j => if j.ins = 0 then { s with x := { s.x with action_ind := j }, m0 := true } else s
  | .PrivateExtension j => { s with x := { s.x with private_ext := s.x.private_ext ++ [j] } }
  | _ => s

/-- The end of `fromvec` (isrstatusindication.rs:81-100). -/
def finish (s : St) : R Err IsrStatusIndication :=
  if s.m0 then .ok s.x else .err (.messageMandatoryIEMissing 168)

/-- `fromvec` (isrstatusindication.rs:81-100). -/
def fromvec (x : IsrStatusIndication) (els : List IE) : R Err IsrStatusIndication := finish (els.foldl step ⟨x, false⟩)

/-- The message type (isrstatusindication.rs:36-67). -/
def codec : Codec IsrStatusIndication :=
  { msgtype := 157, start := some 12, dflt, header := header, setHeader := fun x h => { x with header := h }, tovec, fromvec }

/-- One slot per field. -/
def schema : Schema :=
  [⟨.ActionIndication, .is 0, .oneLast⟩,
   ⟨.PrivateExtension, .any, .many⟩]

/-- The fields as lists of IEs. -/
def fields (x : IsrStatusIndication) : List (List IE) :=
  [[.ActionIndication x.action_ind],
   x.private_ext.map .PrivateExtension]

/-- What the state has collected so far. -/
def St.view (s : St) : List (List IE) :=
  [if s.m0 then [.ActionIndication s.x.action_ind] else [],
   s.x.private_ext.map .PrivateExtension]

/-- The header is left alone; flags of mandatory lists tell whether the list is empty. -/
def St.Inv (h : Header) (s : St) : Prop :=
  s.x.header = h

theorem step_view (h : Header) (s : St) (e : IE) (hi : s.Inv h) : (step s e).view = Schema.step schema s.view e ∧ (step s e).Inv h := by
  cases e
  case ActionIndication j =>
    simp only [step]
    repeat' split
    all_goals refine ⟨cons_congr ?_ ((Schema.step_other rfl rfl).symm), ?_⟩
    all_goals first | exact hi | msg_field | (simp_all [St.Inv]; done)
  case PrivateExtension j =>
    simp only [step]
    all_goals refine ⟨cons_congr (Slot.step_ne rfl).symm (cons_congr ?_ (rfl)), ?_⟩
    all_goals first | exact hi | msg_field | (simp_all [St.Inv]; done)
  all_goals exact ⟨(Schema.step_other rfl rfl).symm, hi⟩

theorem loop (h : Header) (els : List IE) :
    (els.foldl step ⟨{ dflt with header := h }, false⟩).view = schema.map (·.select els) ∧ (els.foldl step ⟨{ dflt with header := h }, false⟩).Inv h := by
  have := foldl_view (Q := fun _ => True) (fun s e hp _ => step_view h s e hp) els ⟨{ dflt with header := h }, false⟩ (fun _ _ => trivial) (by simp [St.Inv])
  rw [show St.view ⟨{ dflt with header := h }, false⟩ = schema.map (fun _ => []) from rfl, Schema.foldl_nil] at this
  exact this

theorem ext {x y : IsrStatusIndication} (hh : x.header = y.header) (h : fields x = fields y) : x = y := by
  cases x; cases y
  simp only at hh
  subst hh
  injection h with h0 h
  cases h0
  injection h with h1 h
  cases map_inj (fun _ _ h => IE.PrivateExtension.inj h) h1
  rfl

theorem mand : schema.filter (·.card.mandatory) = [(⟨.ActionIndication, .is 0, .oneLast⟩ : Slot)] := rfl

/-- The flags tell which mandatory IEs are absent. -/
theorem flags (h : Header) (els : List IE) : ∃ x m0, els.foldl step ⟨{ dflt with header := h }, false⟩ = ⟨x, m0⟩ ∧ St.view ⟨x, m0⟩ = schema.map (·.select els) ∧ x.header = h ∧
    (⟨.ActionIndication, .is 0, .oneLast⟩ : Slot).lacks els = (!m0) := by
  obtain ⟨hv, hi⟩ := loop h els
  generalize els.foldl step ⟨{ dflt with header := h }, false⟩ = s at hv hi ⊢
  obtain ⟨x, m0⟩ := s
  simp only [St.Inv] at hi
  have l0 : (⟨.ActionIndication, .is 0, .oneLast⟩ : Slot).lacks els = (!m0) := by
    rw [Slot.lacks_eq els rfl]
    have e := congrArg (fun l => l.getD 0 []) hv
    rw [show (⟨.ActionIndication, .is 0, .oneLast⟩ : Slot).select els = if m0 then [.ActionIndication x.action_ind] else [] from e.symm]
    cases m0 <;> rfl
  exact ⟨x, m0, rfl, hv, hi, l0⟩

theorem complete (h : Header) (els : List IE) (hm : schema.missing els = []) : ∃ y, fromvec { dflt with header := h } els = .ok y ∧ y.header = h ∧ fields y = schema.map (·.select els) := by
  obtain ⟨x, m0, hs, hv, hh, l0⟩ := flags h els
  unfold fromvec
  rw [hs]
  dsimp only [finish]
  have f0 := l0.symm.trans (Schema.of_missing_nil mand (by simp) hm)
  cases m0 <;> first | exact ⟨x, rfl, hh, hv⟩ | contradiction

theorem describes : Describes codec schema fields where
  header_set _ _ := rfl
  fields_set _ _ := rfl
  ext _ _ hh h := ext hh h
  shape x := Aligned.one (fun _ => rfl) <| Aligned.many (fun _ => rfl) <| trivial
  tovec x := by simp [codec, tovec, fields]
  complete h els _ hm := complete h els hm

theorem reports (h : Header) (els : List IE) (hm : schema.missing els ≠ []) :
    ∃ s ∈ schema.missing els, ∃ t, fromvec { dflt with header := h } els = .err (.messageMandatoryIEMissing t) ∧ kindOf t = s.kind := by
  obtain ⟨x, m0, hs, hv, hh, l0⟩ := flags h els
  unfold fromvec
  rw [hs]
  dsimp only [finish]
  cases m0 <;>
    first | exact ⟨_, Schema.mem_missing mand (by simp) l0, _, rfl, rfl⟩ | exact absurd (Schema.missing_nil mand (by simp [l0])) hm

theorem settled (h : Header) (els els' : List IE) (he : ∀ s ∈ schema, s.card.mandatory = true → s.lacks els = s.lacks els')
    (hm : schema.missing els ≠ []) : fromvec { dflt with header := h } els = fromvec { dflt with header := h } els' := by
  obtain ⟨x, m0, hs, hv, hh, l0⟩ := flags h els
  obtain ⟨x', m0', hs', hv', hh', l0'⟩ := flags h els'
  unfold fromvec
  rw [hs, hs']
  obtain rfl := Bool.not_inj (l0.symm.trans ((he _ (by decide) rfl).trans l0'))
  dsimp only [finish]
  cases m0 <;>
    first | rfl | exact absurd (Schema.missing_nil mand (by simp [l0])) hm

end IsrStatusIndication

/-- `MbmsSessionStartRequest` (mbmssessionstartreq.rs:15-32). -/
structure MbmsSessionStartRequest where
  header : Header
  fteid_control : V2.Fteid
  tmgi : V2.Tmgi
  mbms_sess_dur : V2.MbmsSessionDuration
  mbms_svc_area : V2.MbmsServiceArea
  mbms_sess_id : Option V2.MbmsSessionId
  mbms_flow_id : Option V2.MbmsFlowId
  qos_profile : V2.BearerQos
  mbms_ip_multicast_dist : V2.MbmsIpMulticastDistribution
  recovery : Option V2.Recovery
  mbms_time_to_data_transfer : Option V2.MbmsTimeToDataTransfer
  mbms_data_transfer_start : Option V2.AbsoluteTimeMbmsDataTransfer
  mbms_flags : Option V2.MbmsFlags
  mbms_alt_ip_multicast_dist : Option V2.MbmsIpMulticastDistribution
  mbms_cell_list : Option V2.EcgiList
  private_ext : List V2.PrivateExtension
deriving DecidableEq

namespace MbmsSessionStartRequest

/-- `default` (mbmssessionstartreq.rs:35-59). -/
def dflt : MbmsSessionStartRequest :=
  { header := { Header.default with msgtype := 231, teid := some 0 }, fteid_control := V2.Fteid.dflt, tmgi := V2.Tmgi.dflt, mbms_sess_dur := V2.MbmsSessionDuration.dflt, mbms_svc_area := V2.MbmsServiceArea.dflt, mbms_sess_id := none, mbms_flow_id := none, qos_profile := V2.BearerQos.dflt, mbms_ip_multicast_dist := V2.MbmsIpMulticastDistribution.dflt, recovery := none, mbms_time_to_data_transfer := none, mbms_data_transfer_start := none, mbms_flags := none, mbms_alt_ip_multicast_dist := none, mbms_cell_list := none, private_ext := [] }

/-- `tovec` (mbmssessionstartreq.rs:96-144). -/
def tovec (x : MbmsSessionStartRequest) : List IE :=
  [.Fteid x.fteid_control] ++ (
  [.Tmgi x.tmgi] ++ (
  [.MbmsSd x.mbms_sess_dur] ++ (
  [.MbmsSa x.mbms_svc_area] ++ (
  optV .MbmsSessionId x.mbms_sess_id ++ (
  optV .MbmsFlowId x.mbms_flow_id ++ (
  [.BearerQos x.qos_profile] ++ (
  [.MbmsIpMulticastDistribution x.mbms_ip_multicast_dist] ++ (
  optV .Recovery x.recovery ++ (
  optV .MbmsTimeToDataTransfer x.mbms_time_to_data_transfer ++ (
  optV .AbsoluteTimeMbmsDataTransfer x.mbms_data_transfer_start ++ (
  optV .MbmsFlags x.mbms_flags ++ (
  optV .MbmsIpMulticastDistribution x.mbms_alt_ip_multicast_dist ++ (
  optV .EcgiList x.mbms_cell_list ++ (
  x.private_ext.map .PrivateExtension))))))))))))))

/-- The variables of `fromvec`: the message and the array `mandatory` (mbmssessionstartreq.rs:146-246). -/
structure St where
  x : MbmsSessionStartRequest
  m0 : Bool
  m1 : Bool
  m2 : Bool
  m3 : Bool
  m4 : Bool
  m5 : Bool

/-- One turn of the loop of `fromvec` (mbmssessionstartreq.rs:146-246). -/
def step (s : St) : IE → St
  | .Fteid j => if j.ins = 0 ∧ s.m0 = false then { s with x := { s.x with fteid_control := j }, m0 := true } else s
  | .Tmgi j => if j.ins = 0 ∧ s.m1 = false then { s with x := { s.x with tmgi := j }, m1 := true } else s
  | .MbmsSd j => if j.ins = 0 ∧ s.m2 = false then { s with x := { s.x with mbms_sess_dur := j }, m2 := true } else s
  | .MbmsSa j => if j.ins = 0 ∧ s.m3 = false then { s with x := { s.x with mbms_svc_area := j }, m3 := true } else s
  | .MbmsSessionId j => if j.ins = 0 ∧ s.x.mbms_sess_id.isNone = true then { s with x := { s.x with mbms_sess_id := some j } } else s
  | .MbmsFlowId j => if j.ins = 0 ∧ s.x.mbms_flow_id.isNone = true then { s with x := { s.x with mbms_flow_id := some j } } else s
  | .BearerQos j => if j.ins = 0 ∧ s.m4 = false then { s with x := { s.x with qos_profile := j }, m4 := true } else s
  | .MbmsIpMulticastDistribution j => if j.ins = 0 ∧ s.m5 = false then { s with x := { s.x with mbms_ip_multicast_dist := j }, m5 := true } else if j.ins = 1 ∧ s.x.mbms_alt_ip_multicast_dist.isNone = true then { s with x := { s.x with mbms_alt_ip_multicast_dist := some j } } else s
  | .Recovery j => if j.ins = 0 ∧ s.x.recovery.isNone = true then { s with x := { s.x with recovery := some j } } else s
  | .MbmsTimeToDataTransfer j => if j.ins = 0 ∧ s.x.mbms_time_to_data_transfer.isNone = true then { s with x := { s.x with mbms_time_to_data_transfer := some j } } else s
  | .AbsoluteTimeMbmsDataTransfer j => if j.ins = 0 ∧ s.x.mbms_data_transfer_start.isNone = true then { s with x := { s.x with mbms_data_transfer_start := some j } } else s
  | .MbmsFlags j => if j.ins = 0 ∧ s.x.mbms_flags.isNone = true then { s with x := { s.x with mbms_flags := some j } } else s
  | .EcgiList j => if j.ins = 0 ∧ s.x.mbms_cell_list.isNone = true then { s with x := { s.x with mbms_cell_list := some j } } else s
  | .PrivateExtension j => { s with x := { s.x with private_ext := s.x.private_ext ++ [j] } }
  | _ => s

/-- The end of `fromvec` (mbmssessionstartreq.rs:146-246). -/
def finish (s : St) : R Err MbmsSessionStartRequest :=
  if s.m0 = false then .err (.messageMandatoryIEMissing 87) else if s.m1 = false then .err (.messageMandatoryIEMissing 158) else if s.m2 = false then .err (.messageMandatoryIEMissing 138) else if s.m3 = false then .err (.messageMandatoryIEMissing 139) else if s.m4 = false then .err (.messageMandatoryIEMissing 80) else if s.m5 = false then .err (.messageMandatoryIEMissing 139) else .ok s.x

/-- `fromvec` (mbmssessionstartreq.rs:146-246). -/
def fromvec (x : MbmsSessionStartRequest) (els : List IE) : R Err MbmsSessionStartRequest := finish (els.foldl step ⟨x, false, false, false, false, false, false⟩)

/-- The message type (mbmssessionstartreq.rs:63-94). -/
def codec : Codec MbmsSessionStartRequest :=
  { msgtype := 231, start := some 12, dflt, header := header, setHeader := fun x h => { x with header := h }, tovec, fromvec }

/-- One slot per field. -/
def schema : Schema :=
  [⟨.Fteid, .is 0, .one⟩,
   ⟨.Tmgi, .is 0, .one⟩,
   ⟨.MbmsSd, .is 0, .one⟩,
   ⟨.MbmsSa, .is 0, .one⟩,
   ⟨.MbmsSessionId, .is 0, .opt⟩,
   ⟨.MbmsFlowId, .is 0, .opt⟩,
   ⟨.BearerQos, .is 0, .one⟩,
   ⟨.MbmsIpMulticastDistribution, .is 0, .one⟩,
   ⟨.Recovery, .is 0, .opt⟩,
   ⟨.MbmsTimeToDataTransfer, .is 0, .opt⟩,
   ⟨.AbsoluteTimeMbmsDataTransfer, .is 0, .opt⟩,
   ⟨.MbmsFlags, .is 0, .opt⟩,
   ⟨.MbmsIpMulticastDistribution, .is 1, .opt⟩,
   ⟨.EcgiList, .is 0, .opt⟩,
   ⟨.PrivateExtension, .any, .many⟩]

/-- The fields as lists of IEs. -/
def fields (x : MbmsSessionStartRequest) : List (List IE) :=
  [[.Fteid x.fteid_control],
   [.Tmgi x.tmgi],
   [.MbmsSd x.mbms_sess_dur],
   [.MbmsSa x.mbms_svc_area],
   optV .MbmsSessionId x.mbms_sess_id,
   optV .MbmsFlowId x.mbms_flow_id,
   [.BearerQos x.qos_profile],
   [.MbmsIpMulticastDistribution x.mbms_ip_multicast_dist],
   optV .Recovery x.recovery,
   optV .MbmsTimeToDataTransfer x.mbms_time_to_data_transfer,
   optV .AbsoluteTimeMbmsDataTransfer x.mbms_data_transfer_start,
   optV .MbmsFlags x.mbms_flags,
   optV .MbmsIpMulticastDistribution x.mbms_alt_ip_multicast_dist,
   optV .EcgiList x.mbms_cell_list,
   x.private_ext.map .PrivateExtension]

/-- What the state has collected so far. -/
def St.view (s : St) : List (List IE) :=
  [if s.m0 then [.Fteid s.x.fteid_control] else [],
   if s.m1 then [.Tmgi s.x.tmgi] else [],
   if s.m2 then [.MbmsSd s.x.mbms_sess_dur] else [],
   if s.m3 then [.MbmsSa s.x.mbms_svc_area] else [],
   optV .MbmsSessionId s.x.mbms_sess_id,
   optV .MbmsFlowId s.x.mbms_flow_id,
   if s.m4 then [.BearerQos s.x.qos_profile] else [],
   if s.m5 then [.MbmsIpMulticastDistribution s.x.mbms_ip_multicast_dist] else [],
   optV .Recovery s.x.recovery,
   optV .MbmsTimeToDataTransfer s.x.mbms_time_to_data_transfer,
   optV .AbsoluteTimeMbmsDataTransfer s.x.mbms_data_transfer_start,
   optV .MbmsFlags s.x.mbms_flags,
   optV .MbmsIpMulticastDistribution s.x.mbms_alt_ip_multicast_dist,
   optV .EcgiList s.x.mbms_cell_list,
   s.x.private_ext.map .PrivateExtension]

/-- The header is left alone; flags of mandatory lists tell whether the list is empty. -/
def St.Inv (h : Header) (s : St) : Prop :=
  s.x.header = h

theorem step_view (h : Header) (s : St) (e : IE) (hi : s.Inv h) : (step s e).view = Schema.step schema s.view e ∧ (step s e).Inv h := by
  cases e
  case Fteid j =>
    simp only [step]
    repeat' split
    all_goals refine ⟨cons_congr ?_ ((Schema.step_other rfl rfl).symm), ?_⟩
    all_goals first | exact hi | msg_field | (simp_all [St.Inv]; done)
  case Tmgi j =>
    simp only [step]
    repeat' split
    all_goals refine ⟨cons_congr (Slot.step_ne rfl).symm (cons_congr ?_ ((Schema.step_other rfl rfl).symm)), ?_⟩
    all_goals first | exact hi | msg_field | (simp_all [St.Inv]; done)
  case MbmsSd j =>
    simp only [step]
    repeat' split
    all_goals refine ⟨cons_congr (Slot.step_ne rfl).symm (cons_congr (Slot.step_ne rfl).symm (cons_congr ?_ ((Schema.step_other rfl rfl).symm))), ?_⟩
    all_goals first | exact hi | msg_field | (simp_all [St.Inv]; done)
  case MbmsSa j =>
    simp only [step]
    repeat' split
    all_goals refine ⟨cons_congr (Slot.step_ne rfl).symm (cons_congr (Slot.step_ne rfl).symm (cons_congr (Slot.step_ne rfl).symm (cons_congr ?_ ((Schema.step_other rfl rfl).symm)))), ?_⟩
    all_goals first | exact hi | msg_field | (simp_all [St.Inv]; done)
  case MbmsSessionId j =>
    simp only [step]
    repeat' split
    all_goals refine ⟨cons_congr (Slot.step_ne rfl).symm (cons_congr (Slot.step_ne rfl).symm (cons_congr (Slot.step_ne rfl).symm (cons_congr (Slot.step_ne rfl).symm (cons_congr ?_ ((Schema.step_other rfl rfl).symm))))), ?_⟩
    all_goals first | exact hi | msg_field | (simp_all [St.Inv]; done)
  case MbmsFlowId j =>
    simp only [step]
    repeat' split
    all_goals refine ⟨cons_congr (Slot.step_ne rfl).symm (cons_congr (Slot.step_ne rfl).symm (cons_congr (Slot.step_ne rfl).symm (cons_congr (Slot.step_ne rfl).symm (cons_congr (Slot.step_ne rfl).symm (cons_congr ?_ ((Schema.step_other rfl rfl).symm)))))), ?_⟩
    all_goals first | exact hi | msg_field | (simp_all [St.Inv]; done)
  case BearerQos j =>
    simp only [step]
    repeat' split
    all_goals refine ⟨cons_congr (Slot.step_ne rfl).symm (cons_congr (Slot.step_ne rfl).symm (cons_congr (Slot.step_ne rfl).symm (cons_congr (Slot.step_ne rfl).symm (cons_congr (Slot.step_ne rfl).symm (cons_congr (Slot.step_ne rfl).symm (cons_congr ?_ ((Schema.step_other rfl rfl).symm))))))), ?_⟩
    all_goals first | exact hi | msg_field | (simp_all [St.Inv]; done)
  case MbmsIpMulticastDistribution j =>
    simp only [step]
    repeat' split
    all_goals refine ⟨cons_congr (Slot.step_ne rfl).symm (cons_congr (Slot.step_ne rfl).symm (cons_congr (Slot.step_ne rfl).symm (cons_congr (Slot.step_ne rfl).symm (cons_congr (Slot.step_ne rfl).symm (cons_congr (Slot.step_ne rfl).symm (cons_congr (Slot.step_ne rfl).symm (cons_congr ?_ (cons_congr (Slot.step_ne rfl).symm (cons_congr (Slot.step_ne rfl).symm (cons_congr (Slot.step_ne rfl).symm (cons_congr (Slot.step_ne rfl).symm (cons_congr ?_ ((Schema.step_other rfl rfl).symm))))))))))))), ?_⟩
    all_goals first | exact hi | msg_field | (simp_all [St.Inv]; done)
  case Recovery j =>
    simp only [step]
    repeat' split
    all_goals refine ⟨cons_congr (Slot.step_ne rfl).symm (cons_congr (Slot.step_ne rfl).symm (cons_congr (Slot.step_ne rfl).symm (cons_congr (Slot.step_ne rfl).symm (cons_congr (Slot.step_ne rfl).symm (cons_congr (Slot.step_ne rfl).symm (cons_congr (Slot.step_ne rfl).symm (cons_congr (Slot.step_ne rfl).symm (cons_congr ?_ ((Schema.step_other rfl rfl).symm))))))))), ?_⟩
    all_goals first | exact hi | msg_field | (simp_all [St.Inv]; done)
  case MbmsTimeToDataTransfer j =>
    simp only [step]
    repeat' split
    all_goals refine ⟨cons_congr (Slot.step_ne rfl).symm (cons_congr (Slot.step_ne rfl).symm (cons_congr (Slot.step_ne rfl).symm (cons_congr (Slot.step_ne rfl).symm (cons_congr (Slot.step_ne rfl).symm (cons_congr (Slot.step_ne rfl).symm (cons_congr (Slot.step_ne rfl).symm (cons_congr (Slot.step_ne rfl).symm (cons_congr (Slot.step_ne rfl).symm (cons_congr ?_ ((Schema.step_other rfl rfl).symm)))))))))), ?_⟩
    all_goals first | exact hi | msg_field | (simp_all [St.Inv]; done)
  case AbsoluteTimeMbmsDataTransfer j =>
    simp only [step]
    repeat' split
    all_goals refine ⟨cons_congr (Slot.step_ne rfl).symm (cons_congr (Slot.step_ne rfl).symm (cons_congr (Slot.step_ne rfl).symm (cons_congr (Slot.step_ne rfl).symm (cons_congr (Slot.step_ne rfl).symm (cons_congr (Slot.step_ne rfl).symm (cons_congr (Slot.step_ne rfl).symm (cons_congr (Slot.step_ne rfl).symm (cons_congr (Slot.step_ne rfl).symm (cons_congr (Slot.step_ne rfl).symm (cons_congr ?_ ((Schema.step_other rfl rfl).symm))))))))))), ?_⟩
    all_goals first | exact hi | msg_field | (simp_all [St.Inv]; done)
  case MbmsFlags j =>
    simp only [step]
    repeat' split
    all_goals refine ⟨cons_congr (Slot.step_ne rfl).symm (cons_congr (Slot.step_ne rfl).symm (cons_congr (Slot.step_ne rfl).symm (cons_congr (Slot.step_ne rfl).symm (cons_congr (Slot.step_ne rfl).symm (cons_congr (Slot.step_ne rfl).symm (cons_congr (Slot.step_ne rfl).symm (cons_congr (Slot.step_ne rfl).symm (cons_congr (Slot.step_ne rfl).symm (cons_congr (Slot.step_ne rfl).symm (cons_congr (Slot.step_ne rfl).symm (cons_congr ?_ ((Schema.step_other rfl rfl).symm)))))))))))), ?_⟩
    all_goals first | exact hi | msg_field | (simp_all [St.Inv]; done)
  case EcgiList j =>
    simp only [step]
    repeat' split
    all_goals refine ⟨cons_congr (Slot.step_ne rfl).symm (cons_congr (Slot.step_ne rfl).symm (cons_congr (Slot.step_ne rfl).symm (cons_congr (Slot.step_ne rfl).symm (cons_congr (Slot.step_ne rfl).symm (cons_congr (Slot.step_ne rfl).symm (cons_congr (Slot.step_ne rfl).symm (cons_congr (Slot.step_ne rfl).symm (cons_congr (Slot.step_ne rfl).symm (cons_congr (Slot.step_ne rfl).symm (cons_congr (Slot.step_ne rfl).symm (cons_congr (Slot.step_ne rfl).symm (cons_congr (Slot.step_ne rfl).symm (cons_congr ?_ ((Schema.step_other rfl rfl).symm)))))))))))))), ?_⟩
    all_goals first | exact hi | msg_field | (simp_all [St.Inv]; done)
  case PrivateExtension j =>
    simp only [step]
    all_goals refine ⟨cons_congr (Slot.step_ne rfl).symm (cons_congr (Slot.step_ne rfl).symm (cons_congr (Slot.step_ne rfl).symm (cons_congr (Slot.step_ne rfl).symm (cons_congr (Slot.step_ne rfl).symm (cons_congr (Slot.step_ne rfl).symm (cons_congr (Slot.step_ne rfl).symm (cons_congr (Slot.step_ne rfl).symm (cons_congr (Slot.step_ne rfl).symm (cons_congr (Slot.step_ne rfl).symm (cons_congr (Slot.step_ne rfl).symm (cons_congr (Slot.step_ne rfl).symm (cons_congr (Slot.step_ne rfl).symm (cons_congr (Slot.step_ne rfl).symm (cons_congr ?_ (rfl))))))))))))))), ?_⟩
    all_goals first | exact hi | msg_field | (simp_all [St.Inv]; done)
  all_goals exact ⟨(Schema.step_other rfl rfl).symm, hi⟩

theorem loop (h : Header) (els : List IE) :
    (els.foldl step ⟨{ dflt with header := h }, false, false, false, false, false, false⟩).view = schema.map (·.select els) ∧ (els.foldl step ⟨{ dflt with header := h }, false, false, false, false, false, false⟩).Inv h := by
  have := foldl_view (Q := fun _ => True) (fun s e hp _ => step_view h s e hp) els ⟨{ dflt with header := h }, false, false, false, false, false, false⟩ (fun _ _ => trivial) (by simp [St.Inv])
  rw [show St.view ⟨{ dflt with header := h }, false, false, false, false, false, false⟩ = schema.map (fun _ => []) from rfl, Schema.foldl_nil] at this
  exact this

theorem ext {x y : MbmsSessionStartRequest} (hh : x.header = y.header) (h : fields x = fields y) : x = y := by
  cases x; cases y
  simp only at hh
  subst hh
  injection h with h0 h
  cases h0
  injection h with h1 h
  cases h1
  injection h with h2 h
  cases h2
  injection h with h3 h
  cases h3
  injection h with h4 h
  cases optV_inj (fun _ _ h => IE.MbmsSessionId.inj h) h4
  injection h with h5 h
  cases optV_inj (fun _ _ h => IE.MbmsFlowId.inj h) h5
  injection h with h6 h
  cases h6
  injection h with h7 h
  cases h7
  injection h with h8 h
  cases optV_inj (fun _ _ h => IE.Recovery.inj h) h8
  injection h with h9 h
  cases optV_inj (fun _ _ h => IE.MbmsTimeToDataTransfer.inj h) h9
  injection h with h10 h
  cases optV_inj (fun _ _ h => IE.AbsoluteTimeMbmsDataTransfer.inj h) h10
  injection h with h11 h
  cases optV_inj (fun _ _ h => IE.MbmsFlags.inj h) h11
  injection h with h12 h
  cases optV_inj (fun _ _ h => IE.MbmsIpMulticastDistribution.inj h) h12
  injection h with h13 h
  cases optV_inj (fun _ _ h => IE.EcgiList.inj h) h13
  injection h with h14 h
  cases map_inj (fun _ _ h => IE.PrivateExtension.inj h) h14
  rfl

theorem mand : schema.filter (·.card.mandatory) = [(⟨.Fteid, .is 0, .one⟩ : Slot), (⟨.Tmgi, .is 0, .one⟩ : Slot), (⟨.MbmsSd, .is 0, .one⟩ : Slot), (⟨.MbmsSa, .is 0, .one⟩ : Slot), (⟨.BearerQos, .is 0, .one⟩ : Slot), (⟨.MbmsIpMulticastDistribution, .is 0, .one⟩ : Slot)] := rfl

/-- The flags tell which mandatory IEs are absent. -/
theorem flags (h : Header) (els : List IE) : ∃ x m0 m1 m2 m3 m4 m5, els.foldl step ⟨{ dflt with header := h }, false, false, false, false, false, false⟩ = ⟨x, m0, m1, m2, m3, m4, m5⟩ ∧ St.view ⟨x, m0, m1, m2, m3, m4, m5⟩ = schema.map (·.select els) ∧ x.header = h ∧
    (⟨.Fteid, .is 0, .one⟩ : Slot).lacks els = (!m0) ∧
    (⟨.Tmgi, .is 0, .one⟩ : Slot).lacks els = (!m1) ∧
    (⟨.MbmsSd, .is 0, .one⟩ : Slot).lacks els = (!m2) ∧
    (⟨.MbmsSa, .is 0, .one⟩ : Slot).lacks els = (!m3) ∧
    (⟨.BearerQos, .is 0, .one⟩ : Slot).lacks els = (!m4) ∧
    (⟨.MbmsIpMulticastDistribution, .is 0, .one⟩ : Slot).lacks els = (!m5) := by
  obtain ⟨hv, hi⟩ := loop h els
  generalize els.foldl step ⟨{ dflt with header := h }, false, false, false, false, false, false⟩ = s at hv hi ⊢
  obtain ⟨x, m0, m1, m2, m3, m4, m5⟩ := s
  simp only [St.Inv] at hi
  have l0 : (⟨.Fteid, .is 0, .one⟩ : Slot).lacks els = (!m0) := by
    rw [Slot.lacks_eq els rfl]
    have e := congrArg (fun l => l.getD 0 []) hv
    rw [show (⟨.Fteid, .is 0, .one⟩ : Slot).select els = if m0 then [.Fteid x.fteid_control] else [] from e.symm]
    cases m0 <;> rfl
  have l1 : (⟨.Tmgi, .is 0, .one⟩ : Slot).lacks els = (!m1) := by
    rw [Slot.lacks_eq els rfl]
    have e := congrArg (fun l => l.getD 1 []) hv
    rw [show (⟨.Tmgi, .is 0, .one⟩ : Slot).select els = if m1 then [.Tmgi x.tmgi] else [] from e.symm]
    cases m1 <;> rfl
  have l2 : (⟨.MbmsSd, .is 0, .one⟩ : Slot).lacks els = (!m2) := by
    rw [Slot.lacks_eq els rfl]
    have e := congrArg (fun l => l.getD 2 []) hv
    rw [show (⟨.MbmsSd, .is 0, .one⟩ : Slot).select els = if m2 then [.MbmsSd x.mbms_sess_dur] else [] from e.symm]
    cases m2 <;> rfl
  have l3 : (⟨.MbmsSa, .is 0, .one⟩ : Slot).lacks els = (!m3) := by
    rw [Slot.lacks_eq els rfl]
    have e := congrArg (fun l => l.getD 3 []) hv
    rw [show (⟨.MbmsSa, .is 0, .one⟩ : Slot).select els = if m3 then [.MbmsSa x.mbms_svc_area] else [] from e.symm]
    cases m3 <;> rfl
  have l4 : (⟨.BearerQos, .is 0, .one⟩ : Slot).lacks els = (!m4) := by
    rw [Slot.lacks_eq els rfl]
    have e := congrArg (fun l => l.getD 6 []) hv
    rw [show (⟨.BearerQos, .is 0, .one⟩ : Slot).select els = if m4 then [.BearerQos x.qos_profile] else [] from e.symm]
    cases m4 <;> rfl
  have l5 : (⟨.MbmsIpMulticastDistribution, .is 0, .one⟩ : Slot).lacks els = (!m5) := by
    rw [Slot.lacks_eq els rfl]
    have e := congrArg (fun l => l.getD 7 []) hv
    rw [show (⟨.MbmsIpMulticastDistribution, .is 0, .one⟩ : Slot).select els = if m5 then [.MbmsIpMulticastDistribution x.mbms_ip_multicast_dist] else [] from e.symm]
    cases m5 <;> rfl
  exact ⟨x, m0, m1, m2, m3, m4, m5, rfl, hv, hi, l0, l1, l2, l3, l4, l5⟩

theorem complete (h : Header) (els : List IE) (hm : schema.missing els = []) : ∃ y, fromvec { dflt with header := h } els = .ok y ∧ y.header = h ∧ fields y = schema.map (·.select els) := by
  obtain ⟨x, m0, m1, m2, m3, m4, m5, hs, hv, hh, l0, l1, l2, l3, l4, l5⟩ := flags h els
  unfold fromvec
  rw [hs]
  dsimp only [finish]
  have f0 := l0.symm.trans (Schema.of_missing_nil mand (by simp) hm)
  have f1 := l1.symm.trans (Schema.of_missing_nil mand (by simp) hm)
  have f2 := l2.symm.trans (Schema.of_missing_nil mand (by simp) hm)
  have f3 := l3.symm.trans (Schema.of_missing_nil mand (by simp) hm)
  have f4 := l4.symm.trans (Schema.of_missing_nil mand (by simp) hm)
  have f5 := l5.symm.trans (Schema.of_missing_nil mand (by simp) hm)
  cases m0 <;> cases m1 <;> cases m2 <;> cases m3 <;> cases m4 <;> cases m5 <;> first | exact ⟨x, rfl, hh, hv⟩ | contradiction

theorem describes : Describes codec schema fields where
  header_set _ _ := rfl
  fields_set _ _ := rfl
  ext _ _ hh h := ext hh h
  shape x := Aligned.one (fun _ => rfl) <| Aligned.one (fun _ => rfl) <| Aligned.one (fun _ => rfl) <| Aligned.one (fun _ => rfl) <| Aligned.opt (fun _ => rfl) <| Aligned.opt (fun _ => rfl) <| Aligned.one (fun _ => rfl) <| Aligned.one (fun _ => rfl) <| Aligned.opt (fun _ => rfl) <| Aligned.opt (fun _ => rfl) <| Aligned.opt (fun _ => rfl) <| Aligned.opt (fun _ => rfl) <| Aligned.opt (fun _ => rfl) <| Aligned.opt (fun _ => rfl) <| Aligned.many (fun _ => rfl) <| trivial
  tovec x := by simp [codec, tovec, fields]
  complete h els _ hm := complete h els hm

theorem reports (h : Header) (els : List IE) (hm : schema.missing els ≠ []) :
    ∃ t, fromvec { dflt with header := h } els = .err (.messageMandatoryIEMissing t) := by
  obtain ⟨x, m0, m1, m2, m3, m4, m5, hs, hv, hh, l0, l1, l2, l3, l4, l5⟩ := flags h els
  unfold fromvec
  rw [hs]
  dsimp only [finish]
  cases m0 <;> cases m1 <;> cases m2 <;> cases m3 <;> cases m4 <;> cases m5 <;>
    first | exact ⟨_, rfl⟩ | exact absurd (Schema.missing_nil mand (by simp [l0, l1, l2, l3, l4, l5])) hm

theorem settled (h : Header) (els els' : List IE) (he : ∀ s ∈ schema, s.card.mandatory = true → s.lacks els = s.lacks els')
    (hm : schema.missing els ≠ []) : fromvec { dflt with header := h } els = fromvec { dflt with header := h } els' := by
  obtain ⟨x, m0, m1, m2, m3, m4, m5, hs, hv, hh, l0, l1, l2, l3, l4, l5⟩ := flags h els
  obtain ⟨x', m0', m1', m2', m3', m4', m5', hs', hv', hh', l0', l1', l2', l3', l4', l5'⟩ := flags h els'
  unfold fromvec
  rw [hs, hs']
  obtain rfl := Bool.not_inj (l0.symm.trans ((he _ (by decide) rfl).trans l0'))
  obtain rfl := Bool.not_inj (l1.symm.trans ((he _ (by decide) rfl).trans l1'))
  obtain rfl := Bool.not_inj (l2.symm.trans ((he _ (by decide) rfl).trans l2'))
  obtain rfl := Bool.not_inj (l3.symm.trans ((he _ (by decide) rfl).trans l3'))
  obtain rfl := Bool.not_inj (l4.symm.trans ((he _ (by decide) rfl).trans l4'))
  obtain rfl := Bool.not_inj (l5.symm.trans ((he _ (by decide) rfl).trans l5'))
  dsimp only [finish]
  cases m0 <;> cases m1 <;> cases m2 <;> cases m3 <;> cases m4 <;> cases m5 <;>
    first | rfl | exact absurd (Schema.missing_nil mand (by simp [l0, l1, l2, l3, l4, l5])) hm

end MbmsSessionStartRequest

/-- `MbmsSessionStartResponse` (mbmssessionstartresp.rs:15-23). -/
structure MbmsSessionStartResponse where
  header : Header
  cause : V2.Cause
  fteid_control : V2.Fteid
  mbms_distr_ack : Option V2.MbmsDistributionAck
  sgsn_fteid : Option V2.Fteid
  recovery : Option V2.Recovery
  private_ext : List V2.PrivateExtension
deriving DecidableEq

namespace MbmsSessionStartResponse

/-- `default` (mbmssessionstartresp.rs:26-41). -/
def dflt : MbmsSessionStartResponse :=
  { header := { Header.default with msgtype := 232, teid := some 0 }, cause := V2.Cause.dflt, fteid_control := V2.Fteid.dflt, mbms_distr_ack := none, sgsn_fteid := none, recovery := none, private_ext := [] }

/-- `tovec` (mbmssessionstartresp.rs:78-99). -/
def tovec (x : MbmsSessionStartResponse) : List IE :=
  [.Cause x.cause] ++ (
  [.Fteid x.fteid_control] ++ (
  optV .MbmsDistributionAck x.mbms_distr_ack ++ (
  optV .Fteid x.sgsn_fteid ++ (
  optV .Recovery x.recovery ++ (
  x.private_ext.map .PrivateExtension)))))

/-- The variables of `fromvec`: the message and the array `mandatory` (mbmssessionstartresp.rs:101-149). -/
structure St where
  x : MbmsSessionStartResponse
  m0 : Bool
  m1 : Bool

/-- One turn of the loop of `fromvec` (mbmssessionstartresp.rs:101-149). -/
def step (s : St) : IE → St
  | .Cause j => if j.ins = 0 ∧ s.m0 = false then { s with x := { s.x with cause := j }, m0 := true } else s
  | .Fteid j => if j.ins = 0 ∧ s.m1 = false then { s with x := { s.x with fteid_control := j }, m1 := true } else if j.ins = 1 ∧ s.x.sgsn_fteid.isNone = true then { s with x := { s.x with sgsn_fteid := some j } } else s
  | .MbmsDistributionAck j => if j.ins = 0 ∧ s.x.mbms_distr_ack.isNone = true then { s with x := { s.x with mbms_distr_ack := some j } } else s
  | .Recovery j => if j.ins = 0 ∧ s.x.recovery.isNone = true then { s with x := { s.x with recovery := some j } } else s
  | .PrivateExtension j => { s with x := { s.x with private_ext := s.x.private_ext ++ [j] } }
  | _ => s

/-- The end of `fromvec` (mbmssessionstartresp.rs:101-149). -/
def finish (s : St) : R Err MbmsSessionStartResponse :=
  if s.m0 = false then .err (.messageMandatoryIEMissing 2) else if s.m1 = false then .err (.messageMandatoryIEMissing 87) else .ok s.x

/-- `fromvec` (mbmssessionstartresp.rs:101-149). -/
def fromvec (x : MbmsSessionStartResponse) (els : List IE) : R Err MbmsSessionStartResponse := finish (els.foldl step ⟨x, false, false⟩)

/-- The message type (mbmssessionstartresp.rs:45-76). -/
def codec : Codec MbmsSessionStartResponse :=
  { msgtype := 232, start := some 12, dflt, header := header, setHeader := fun x h => { x with header := h }, tovec, fromvec }

/-- One slot per field. -/
def schema : Schema :=
  [⟨.Cause, .is 0, .one⟩,
   ⟨.Fteid, .is 0, .one⟩,
   ⟨.MbmsDistributionAck, .is 0, .opt⟩,
   ⟨.Fteid, .is 1, .opt⟩,
   ⟨.Recovery, .is 0, .opt⟩,
   ⟨.PrivateExtension, .any, .many⟩]

/-- The fields as lists of IEs. -/
def fields (x : MbmsSessionStartResponse) : List (List IE) :=
  [[.Cause x.cause],
   [.Fteid x.fteid_control],
   optV .MbmsDistributionAck x.mbms_distr_ack,
   optV .Fteid x.sgsn_fteid,
   optV .Recovery x.recovery,
   x.private_ext.map .PrivateExtension]

/-- What the state has collected so far. -/
def St.view (s : St) : List (List IE) :=
  [if s.m0 then [.Cause s.x.cause] else [],
   if s.m1 then [.Fteid s.x.fteid_control] else [],
   optV .MbmsDistributionAck s.x.mbms_distr_ack,
   optV .Fteid s.x.sgsn_fteid,
   optV .Recovery s.x.recovery,
   s.x.private_ext.map .PrivateExtension]

/-- The header is left alone; flags of mandatory lists tell whether the list is empty. -/
def St.Inv (h : Header) (s : St) : Prop :=
  s.x.header = h

theorem step_view (h : Header) (s : St) (e : IE) (hi : s.Inv h) : (step s e).view = Schema.step schema s.view e ∧ (step s e).Inv h := by
  cases e
  case Cause j =>
    simp only [step]
    repeat' split
    all_goals refine ⟨cons_congr ?_ ((Schema.step_other rfl rfl).symm), ?_⟩
    all_goals first | exact hi | msg_field | (simp_all [St.Inv]; done)
  case Fteid j =>
    simp only [step]
    repeat' split
    all_goals refine ⟨cons_congr (Slot.step_ne rfl).symm (cons_congr ?_ (cons_congr (Slot.step_ne rfl).symm (cons_congr ?_ ((Schema.step_other rfl rfl).symm)))), ?_⟩
    all_goals first | exact hi | msg_field | (simp_all [St.Inv]; done)
  case MbmsDistributionAck j =>
    simp only [step]
    repeat' split
    all_goals refine ⟨cons_congr (Slot.step_ne rfl).symm (cons_congr (Slot.step_ne rfl).symm (cons_congr ?_ ((Schema.step_other rfl rfl).symm))), ?_⟩
    all_goals first | exact hi | msg_field | (simp_all [St.Inv]; done)
  case Recovery j =>
    simp only [step]
    repeat' split
    all_goals refine ⟨cons_congr (Slot.step_ne rfl).symm (cons_congr (Slot.step_ne rfl).symm (cons_congr (Slot.step_ne rfl).symm (cons_congr (Slot.step_ne rfl).symm (cons_congr ?_ ((Schema.step_other rfl rfl).symm))))), ?_⟩
    all_goals first | exact hi | msg_field | (simp_all [St.Inv]; done)
  case PrivateExtension j =>
    simp only [step]
    all_goals refine ⟨cons_congr (Slot.step_ne rfl).symm (cons_congr (Slot.step_ne rfl).symm (cons_congr (Slot.step_ne rfl).symm (cons_congr (Slot.step_ne rfl).symm (cons_congr (Slot.step_ne rfl).symm (cons_congr ?_ (rfl)))))), ?_⟩
    all_goals first | exact hi | msg_field | (simp_all [St.Inv]; done)
  all_goals exact ⟨(Schema.step_other rfl rfl).symm, hi⟩

theorem loop (h : Header) (els : List IE) :
    (els.foldl step ⟨{ dflt with header := h }, false, false⟩).view = schema.map (·.select els) ∧ (els.foldl step ⟨{ dflt with header := h }, false, false⟩).Inv h := by
  have := foldl_view (Q := fun _ => True) (fun s e hp _ => step_view h s e hp) els ⟨{ dflt with header := h }, false, false⟩ (fun _ _ => trivial) (by simp [St.Inv])
  rw [show St.view ⟨{ dflt with header := h }, false, false⟩ = schema.map (fun _ => []) from rfl, Schema.foldl_nil] at this
  exact this

theorem ext {x y : MbmsSessionStartResponse} (hh : x.header = y.header) (h : fields x = fields y) : x = y := by
  cases x; cases y
  simp only at hh
  subst hh
  injection h with h0 h
  cases h0
  injection h with h1 h
  cases h1
  injection h with h2 h
  cases optV_inj (fun _ _ h => IE.MbmsDistributionAck.inj h) h2
  injection h with h3 h
  cases optV_inj (fun _ _ h => IE.Fteid.inj h) h3
  injection h with h4 h
  cases optV_inj (fun _ _ h => IE.Recovery.inj h) h4
  injection h with h5 h
  cases map_inj (fun _ _ h => IE.PrivateExtension.inj h) h5
  rfl

theorem mand : schema.filter (·.card.mandatory) = [(⟨.Cause, .is 0, .one⟩ : Slot), (⟨.Fteid, .is 0, .one⟩ : Slot)] := rfl

/-- The flags tell which mandatory IEs are absent. -/
theorem flags (h : Header) (els : List IE) : ∃ x m0 m1, els.foldl step ⟨{ dflt with header := h }, false, false⟩ = ⟨x, m0, m1⟩ ∧ St.view ⟨x, m0, m1⟩ = schema.map (·.select els) ∧ x.header = h ∧
    (⟨.Cause, .is 0, .one⟩ : Slot).lacks els = (!m0) ∧
    (⟨.Fteid, .is 0, .one⟩ : Slot).lacks els = (!m1) := by
  obtain ⟨hv, hi⟩ := loop h els
  generalize els.foldl step ⟨{ dflt with header := h }, false, false⟩ = s at hv hi ⊢
  obtain ⟨x, m0, m1⟩ := s
  simp only [St.Inv] at hi
  have l0 : (⟨.Cause, .is 0, .one⟩ : Slot).lacks els = (!m0) := by
    rw [Slot.lacks_eq els rfl]
    have e := congrArg (fun l => l.getD 0 []) hv
    rw [show (⟨.Cause, .is 0, .one⟩ : Slot).select els = if m0 then [.Cause x.cause] else [] from e.symm]
    cases m0 <;> rfl
  have l1 : (⟨.Fteid, .is 0, .one⟩ : Slot).lacks els = (!m1) := by
    rw [Slot.lacks_eq els rfl]
    have e := congrArg (fun l => l.getD 1 []) hv
    rw [show (⟨.Fteid, .is 0, .one⟩ : Slot).select els = if m1 then [.Fteid x.fteid_control] else [] from e.symm]
    cases m1 <;> rfl
  exact ⟨x, m0, m1, rfl, hv, hi, l0, l1⟩

theorem complete (h : Header) (els : List IE) (hm : schema.missing els = []) : ∃ y, fromvec { dflt with header := h } els = .ok y ∧ y.header = h ∧ fields y = schema.map (·.select els) := by
  obtain ⟨x, m0, m1, hs, hv, hh, l0, l1⟩ := flags h els
  unfold fromvec
  rw [hs]
  dsimp only [finish]
  have f0 := l0.symm.trans (Schema.of_missing_nil mand (by simp) hm)
  have f1 := l1.symm.trans (Schema.of_missing_nil mand (by simp) hm)
  cases m0 <;> cases m1 <;> first | exact ⟨x, rfl, hh, hv⟩ | contradiction

theorem describes : Describes codec schema fields where
  header_set _ _ := rfl
  fields_set _ _ := rfl
  ext _ _ hh h := ext hh h
  shape x := Aligned.one (fun _ => rfl) <| Aligned.one (fun _ => rfl) <| Aligned.opt (fun _ => rfl) <| Aligned.opt (fun _ => rfl) <| Aligned.opt (fun _ => rfl) <| Aligned.many (fun _ => rfl) <| trivial
  tovec x := by simp [codec, tovec, fields]
  complete h els _ hm := complete h els hm

theorem reports (h : Header) (els : List IE) (hm : schema.missing els ≠ []) :
    ∃ s ∈ schema.missing els, ∃ t, fromvec { dflt with header := h } els = .err (.messageMandatoryIEMissing t) ∧ kindOf t = s.kind := by
  obtain ⟨x, m0, m1, hs, hv, hh, l0, l1⟩ := flags h els
  unfold fromvec
  rw [hs]
  dsimp only [finish]
  cases m0 <;> cases m1 <;>
    first | exact ⟨_, Schema.mem_missing mand (by simp) l0, _, rfl, rfl⟩ | exact ⟨_, Schema.mem_missing mand (by simp) l1, _, rfl, rfl⟩ | exact absurd (Schema.missing_nil mand (by simp [l0, l1])) hm

theorem settled (h : Header) (els els' : List IE) (he : ∀ s ∈ schema, s.card.mandatory = true → s.lacks els = s.lacks els')
    (hm : schema.missing els ≠ []) : fromvec { dflt with header := h } els = fromvec { dflt with header := h } els' := by
  obtain ⟨x, m0, m1, hs, hv, hh, l0, l1⟩ := flags h els
  obtain ⟨x', m0', m1', hs', hv', hh', l0', l1'⟩ := flags h els'
  unfold fromvec
  rw [hs, hs']
  obtain rfl := Bool.not_inj (l0.symm.trans ((he _ (by decide) rfl).trans l0'))
  obtain rfl := Bool.not_inj (l1.symm.trans ((he _ (by decide) rfl).trans l1'))
  dsimp only [finish]
  cases m0 <;> cases m1 <;>
    first | rfl | exact absurd (Schema.missing_nil mand (by simp [l0, l1])) hm

end MbmsSessionStartResponse

/-- `MbmsSessionStopRequest` (mbmssessionstopreq.rs:15-21). -/
structure MbmsSessionStopRequest where
  header : Header
  mbms_flow_id : Option V2.MbmsFlowId
  mbms_data_transfer_stop : Option V2.AbsoluteTimeMbmsDataTransfer
  mbms_flags : Option V2.MbmsFlags
  private_ext : List V2.PrivateExtension
deriving DecidableEq

namespace MbmsSessionStopRequest

/-- `default` (mbmssessionstopreq.rs:24-37). -/
def dflt : MbmsSessionStopRequest :=
  { header := { Header.default with msgtype := 235, teid := some 0 }, mbms_flow_id := none, mbms_data_transfer_stop := none, mbms_flags := none, private_ext := [] }

/-- `tovec` (mbmssessionstopreq.rs:74-94). -/
def tovec (x : MbmsSessionStopRequest) : List IE :=
  optV .MbmsFlowId x.mbms_flow_id ++ (
  optV .AbsoluteTimeMbmsDataTransfer x.mbms_data_transfer_stop ++ (
  optV .MbmsFlags x.mbms_flags ++ (
  x.private_ext.map .PrivateExtension)))

/-- The variables of `fromvec`: the message and the array `mandatory` (mbmssessionstopreq.rs:96-119). -/
structure St where
  x : MbmsSessionStopRequest

/-- One turn of the loop of `fromvec` (mbmssessionstopreq.rs:96-119). -/
def step (s : St) : IE → St
  | .MbmsFlowId j => if j.ins = 0 ∧ s.x.mbms_flow_id.isNone = true then { s with x := { s.x with mbms_flow_id := some j } } else s
  | .AbsoluteTimeMbmsDataTransfer j => if j.ins = 0 ∧ s.x.mbms_data_transfer_stop.isNone = true then { s with x := { s.x with mbms_data_transfer_stop := some j } } else s
  | .MbmsFlags j => if j.ins = 0 ∧ s.x.mbms_flags.isNone = true then { s with x := { s.x with mbms_flags := some j } } else s
  | .PrivateExtension j => { s with x := { s.x with private_ext := s.x.private_ext ++ [j] } }
  | _ => s

/-- The end of `fromvec` (mbmssessionstopreq.rs:96-119). -/
def finish (s : St) : R Err MbmsSessionStopRequest :=
  .ok s.x

/-- `fromvec` (mbmssessionstopreq.rs:96-119). -/
def fromvec (x : MbmsSessionStopRequest) (els : List IE) : R Err MbmsSessionStopRequest := finish (els.foldl step ⟨x⟩)

/-- The message type (mbmssessionstopreq.rs:41-72). -/
def codec : Codec MbmsSessionStopRequest :=
  { msgtype := 235, start := some 12, dflt, header := header, setHeader := fun x h => { x with header := h }, tovec, fromvec }

/-- One slot per field. -/
def schema : Schema :=
  [⟨.MbmsFlowId, .is 0, .opt⟩,
   ⟨.AbsoluteTimeMbmsDataTransfer, .is 0, .opt⟩,
   ⟨.MbmsFlags, .is 0, .opt⟩,
   ⟨.PrivateExtension, .any, .many⟩]

/-- The fields as lists of IEs. -/
def fields (x : MbmsSessionStopRequest) : List (List IE) :=
  [optV .MbmsFlowId x.mbms_flow_id,
   optV .AbsoluteTimeMbmsDataTransfer x.mbms_data_transfer_stop,
   optV .MbmsFlags x.mbms_flags,
   x.private_ext.map .PrivateExtension]

/-- What the state has collected so far. -/
def St.view (s : St) : List (List IE) :=
  [optV .MbmsFlowId s.x.mbms_flow_id,
   optV .AbsoluteTimeMbmsDataTransfer s.x.mbms_data_transfer_stop,
   optV .MbmsFlags s.x.mbms_flags,
   s.x.private_ext.map .PrivateExtension]

/-- The header is left alone; flags of mandatory lists tell whether the list is empty. -/
def St.Inv (h : Header) (s : St) : Prop :=
  s.x.header = h

theorem step_view (h : Header) (s : St) (e : IE) (hi : s.Inv h) : (step s e).view = Schema.step schema s.view e ∧ (step s e).Inv h := by
  cases e
  case MbmsFlowId j =>
    simp only [step]
    repeat' split
    all_goals refine ⟨cons_congr ?_ ((Schema.step_other rfl rfl).symm), ?_⟩
    all_goals first | exact hi | msg_field | (simp_all [St.Inv]; done)
  case AbsoluteTimeMbmsDataTransfer j =>
    simp only [step]
    repeat' split
    all_goals refine ⟨cons_congr (Slot.step_ne rfl).symm (cons_congr ?_ ((Schema.step_other rfl rfl).symm)), ?_⟩
    all_goals first | exact hi | msg_field | (simp_all [St.Inv]; done)
  case MbmsFlags j =>
    simp only [step]
    repeat' split
    all_goals refine ⟨cons_congr (Slot.step_ne rfl).symm (cons_congr (Slot.step_ne rfl).symm (cons_congr ?_ ((Schema.step_other rfl rfl).symm))), ?_⟩
    all_goals first | exact hi | msg_field | (simp_all [St.Inv]; done)
  case PrivateExtension j =>
    simp only [step]
    all_goals refine ⟨cons_congr (Slot.step_ne rfl).symm (cons_congr (Slot.step_ne rfl).symm (cons_congr (Slot.step_ne rfl).symm (cons_congr ?_ (rfl)))), ?_⟩
    all_goals first | exact hi | msg_field | (simp_all [St.Inv]; done)
  all_goals exact ⟨(Schema.step_other rfl rfl).symm, hi⟩

theorem loop (h : Header) (els : List IE) :
    (els.foldl step ⟨{ dflt with header := h }⟩).view = schema.map (·.select els) ∧ (els.foldl step ⟨{ dflt with header := h }⟩).Inv h := by
  have := foldl_view (Q := fun _ => True) (fun s e hp _ => step_view h s e hp) els ⟨{ dflt with header := h }⟩ (fun _ _ => trivial) (by simp [St.Inv])
  rw [show St.view ⟨{ dflt with header := h }⟩ = schema.map (fun _ => []) from rfl, Schema.foldl_nil] at this
  exact this

theorem ext {x y : MbmsSessionStopRequest} (hh : x.header = y.header) (h : fields x = fields y) : x = y := by
  cases x; cases y
  simp only at hh
  subst hh
  injection h with h0 h
  cases optV_inj (fun _ _ h => IE.MbmsFlowId.inj h) h0
  injection h with h1 h
  cases optV_inj (fun _ _ h => IE.AbsoluteTimeMbmsDataTransfer.inj h) h1
  injection h with h2 h
  cases optV_inj (fun _ _ h => IE.MbmsFlags.inj h) h2
  injection h with h3 h
  cases map_inj (fun _ _ h => IE.PrivateExtension.inj h) h3
  rfl

theorem mand : schema.filter (·.card.mandatory) = [] := rfl

/-- The flags tell which mandatory IEs are absent. -/
theorem flags (h : Header) (els : List IE) : ∃ x , els.foldl step ⟨{ dflt with header := h }⟩ = ⟨x⟩ ∧ St.view ⟨x⟩ = schema.map (·.select els) ∧ x.header = h := by
  obtain ⟨hv, hi⟩ := loop h els
  generalize els.foldl step ⟨{ dflt with header := h }⟩ = s at hv hi ⊢
  obtain ⟨x⟩ := s
  simp only [St.Inv] at hi
  exact ⟨x, rfl, hv, hi⟩

theorem complete (h : Header) (els : List IE) (_hm : schema.missing els = []) : ∃ y, fromvec { dflt with header := h } els = .ok y ∧ y.header = h ∧ fields y = schema.map (·.select els) := by
  obtain ⟨x, hs, hv, hh⟩ := flags h els
  unfold fromvec
  rw [hs]
  exact ⟨x, rfl, hh, hv⟩

theorem describes : Describes codec schema fields where
  header_set _ _ := rfl
  fields_set _ _ := rfl
  ext _ _ hh h := ext hh h
  shape x := Aligned.opt (fun _ => rfl) <| Aligned.opt (fun _ => rfl) <| Aligned.opt (fun _ => rfl) <| Aligned.many (fun _ => rfl) <| trivial
  tovec x := by simp [codec, tovec, fields]
  complete h els _ hm := complete h els hm

end MbmsSessionStopRequest

/-- `MbmsSessionStopResponse` (mbmssessionstopresp.rs:15-20). -/
structure MbmsSessionStopResponse where
  header : Header
  cause : V2.Cause
  recovery : Option V2.Recovery
  private_ext : List V2.PrivateExtension
deriving DecidableEq

namespace MbmsSessionStopResponse

/-- `default` (mbmssessionstopresp.rs:23-35). -/
def dflt : MbmsSessionStopResponse :=
  { header := { Header.default with msgtype := 236, teid := some 0 }, cause := V2.Cause.dflt, recovery := none, private_ext := [] }

/-- `tovec` (mbmssessionstopresp.rs:72-84). -/
def tovec (x : MbmsSessionStopResponse) : List IE :=
  [.Cause x.cause] ++ (
  optV .Recovery x.recovery ++ (
  x.private_ext.map .PrivateExtension))

/-- The variables of `fromvec`: the message and the array `mandatory` (mbmssessionstopresp.rs:86-110). -/
structure St where
  x : MbmsSessionStopResponse
  m0 : Bool

/-- One turn of the loop of `fromvec` (mbmssessionstopresp.rs:86-110). -/
def step (s : St) : IE → St
  | .Cause j => if j.ins = 0 ∧ s.m0 = false then { s with x := { s.x with cause := j }, m0 := true } else s
  | .Recovery j => if j.ins = 0 ∧ s.x.recovery.isNone = true then { s with x := { s.x with recovery := some j } } else s
  | .PrivateExtension j => { s with x := { s.x with private_ext := s.x.private_ext ++ [j] } }
  | _ => s

/-- The end of `fromvec` (mbmssessionstopresp.rs:86-110). -/
def finish (s : St) : R Err MbmsSessionStopResponse :=
  if s.m0 then .ok s.x else .err (.messageMandatoryIEMissing 2)

/-- `fromvec` (mbmssessionstopresp.rs:86-110). -/
def fromvec (x : MbmsSessionStopResponse) (els : List IE) : R Err MbmsSessionStopResponse := finish (els.foldl step ⟨x, false⟩)

/-- The message type (mbmssessionstopresp.rs:39-70). -/
def codec : Codec MbmsSessionStopResponse :=
  { msgtype := 236, start := some 12, dflt, header := header, setHeader := fun x h => { x with header := h }, tovec, fromvec }

/-- One slot per field. -/
def schema : Schema :=
  [⟨.Cause, .is 0, .one⟩,
   ⟨.Recovery, .is 0, .opt⟩,
   ⟨.PrivateExtension, .any, .many⟩]

/-- The fields as lists of IEs. -/
def fields (x : MbmsSessionStopResponse) : List (List IE) :=
  [[.Cause x.cause],
   optV .Recovery x.recovery,
   x.private_ext.map .PrivateExtension]

/-- What the state has collected so far. -/
def St.view (s : St) : List (List IE) :=
  [if s.m0 then [.Cause s.x.cause] else [],
   optV .Recovery s.x.recovery,
   s.x.private_ext.map .PrivateExtension]

/-- The header is left alone; flags of mandatory lists tell whether the list is empty. -/
def St.Inv (h : Header) (s : St) : Prop :=
  s.x.header = h

theorem step_view (h : Header) (s : St) (e : IE) (hi : s.Inv h) : (step s e).view = Schema.step schema s.view e ∧ (step s e).Inv h := by
  cases e
  case Cause j =>
    simp only [step]
    repeat' split
    all_goals refine ⟨cons_congr ?_ ((Schema.step_other rfl rfl).symm), ?_⟩
    all_goals first | exact hi | msg_field | (simp_all [St.Inv]; done)
  case Recovery j =>
    simp only [step]
    repeat' split
    all_goals refine ⟨cons_congr (Slot.step_ne rfl).symm (cons_congr ?_ ((Schema.step_other rfl rfl).symm)), ?_⟩
    all_goals first | exact hi | msg_field | (simp_all [St.Inv]; done)
  case PrivateExtension j =>
    simp only [step]
    all_goals refine ⟨cons_congr (Slot.step_ne rfl).symm (cons_congr (Slot.step_ne rfl).symm (cons_congr ?_ (rfl))), ?_⟩
    all_goals first | exact hi | msg_field | (simp_all [St.Inv]; done)
  all_goals exact ⟨(Schema.step_other rfl rfl).symm, hi⟩

theorem loop (h : Header) (els : List IE) :
    (els.foldl step ⟨{ dflt with header := h }, false⟩).view = schema.map (·.select els) ∧ (els.foldl step ⟨{ dflt with header := h }, false⟩).Inv h := by
  have := foldl_view (Q := fun _ => True) (fun s e hp _ => step_view h s e hp) els ⟨{ dflt with header := h }, false⟩ (fun _ _ => trivial) (by simp [St.Inv])
  rw [show St.view ⟨{ dflt with header := h }, false⟩ = schema.map (fun _ => []) from rfl, Schema.foldl_nil] at this
  exact this

theorem ext {x y : MbmsSessionStopResponse} (hh : x.header = y.header) (h : fields x = fields y) : x = y := by
  cases x; cases y
  simp only at hh
  subst hh
  injection h with h0 h
  cases h0
  injection h with h1 h
  cases optV_inj (fun _ _ h => IE.Recovery.inj h) h1
  injection h with h2 h
  cases map_inj (fun _ _ h => IE.PrivateExtension.inj h) h2
  rfl

theorem mand : schema.filter (·.card.mandatory) = [(⟨.Cause, .is 0, .one⟩ : Slot)] := rfl

/-- The flags tell which mandatory IEs are absent. -/
theorem flags (h : Header) (els : List IE) : ∃ x m0, els.foldl step ⟨{ dflt with header := h }, false⟩ = ⟨x, m0⟩ ∧ St.view ⟨x, m0⟩ = schema.map (·.select els) ∧ x.header = h ∧
    (⟨.Cause, .is 0, .one⟩ : Slot).lacks els = (!m0) := by
  obtain ⟨hv, hi⟩ := loop h els
  generalize els.foldl step ⟨{ dflt with header := h }, false⟩ = s at hv hi ⊢
  obtain ⟨x, m0⟩ := s
  simp only [St.Inv] at hi
  have l0 : (⟨.Cause, .is 0, .one⟩ : Slot).lacks els = (!m0) := by
    rw [Slot.lacks_eq els rfl]
    have e := congrArg (fun l => l.getD 0 []) hv
    rw [show (⟨.Cause, .is 0, .one⟩ : Slot).select els = if m0 then [.Cause x.cause] else [] from e.symm]
    cases m0 <;> rfl
  exact ⟨x, m0, rfl, hv, hi, l0⟩

theorem complete (h : Header) (els : List IE) (hm : schema.missing els = []) : ∃ y, fromvec { dflt with header := h } els = .ok y ∧ y.header = h ∧ fields y = schema.map (·.select els) := by
  obtain ⟨x, m0, hs, hv, hh, l0⟩ := flags h els
  unfold fromvec
  rw [hs]
  dsimp only [finish]
  have f0 := l0.symm.trans (Schema.of_missing_nil mand (by simp) hm)
  cases m0 <;> first | exact ⟨x, rfl, hh, hv⟩ | contradiction

theorem describes : Describes codec schema fields where
  header_set _ _ := rfl
  fields_set _ _ := rfl
  ext _ _ hh h := ext hh h
  shape x := Aligned.one (fun _ => rfl) <| Aligned.opt (fun _ => rfl) <| Aligned.many (fun _ => rfl) <| trivial
  tovec x := by simp [codec, tovec, fields]
  complete h els _ hm := complete h els hm

theorem reports (h : Header) (els : List IE) (hm : schema.missing els ≠ []) :
    ∃ s ∈ schema.missing els, ∃ t, fromvec { dflt with header := h } els = .err (.messageMandatoryIEMissing t) ∧ kindOf t = s.kind := by
  obtain ⟨x, m0, hs, hv, hh, l0⟩ := flags h els
  unfold fromvec
  rw [hs]
  dsimp only [finish]
  cases m0 <;>
    first | exact ⟨_, Schema.mem_missing mand (by simp) l0, _, rfl, rfl⟩ | exact absurd (Schema.missing_nil mand (by simp [l0])) hm

theorem settled (h : Header) (els els' : List IE) (he : ∀ s ∈ schema, s.card.mandatory = true → s.lacks els = s.lacks els')
    (hm : schema.missing els ≠ []) : fromvec { dflt with header := h } els = fromvec { dflt with header := h } els' := by
  obtain ⟨x, m0, hs, hv, hh, l0⟩ := flags h els
  obtain ⟨x', m0', hs', hv', hh', l0'⟩ := flags h els'
  unfold fromvec
  rw [hs, hs']
  obtain rfl := Bool.not_inj (l0.symm.trans ((he _ (by decide) rfl).trans l0'))
  dsimp only [finish]
  cases m0 <;>
    first | rfl | exact absurd (Schema.missing_nil mand (by simp [l0])) hm

end MbmsSessionStopResponse

/-- `MbmsSessionUpdateRequest` (mbmssessionupdatereq.rs:15-28). -/
structure MbmsSessionUpdateRequest where
  header : Header
  mbms_svc_area : Option V2.MbmsServiceArea
  tmgi : V2.Tmgi
  fteid_control : Option V2.Fteid
  mbms_sess_dur : V2.MbmsSessionDuration
  qos_profile : V2.BearerQos
  mbms_sess_id : Option V2.MbmsSessionId
  mbms_flow_id : Option V2.MbmsFlowId
  mbms_time_to_data_transfer : Option V2.MbmsTimeToDataTransfer
  mbms_data_transfer_sus : Option V2.AbsoluteTimeMbmsDataTransfer
  mbms_cell_list : Option V2.EcgiList
  private_ext : List V2.PrivateExtension
deriving DecidableEq

namespace MbmsSessionUpdateRequest

/-- `default` (mbmssessionupdatereq.rs:31-51). -/
def dflt : MbmsSessionUpdateRequest :=
  { header := { Header.default with msgtype := 233, teid := some 0 }, mbms_svc_area := none, tmgi := V2.Tmgi.dflt, fteid_control := none, mbms_sess_dur := V2.MbmsSessionDuration.dflt, qos_profile := V2.BearerQos.dflt, mbms_sess_id := none, mbms_flow_id := none, mbms_time_to_data_transfer := none, mbms_data_transfer_sus := none, mbms_cell_list := none, private_ext := [] }

/-- `tovec` (mbmssessionupdatereq.rs:88-130). -/
def tovec (x : MbmsSessionUpdateRequest) : List IE :=
  optV .MbmsSa x.mbms_svc_area ++ (
  [.Tmgi x.tmgi] ++ (
  optV .Fteid x.fteid_control ++ (
  [.MbmsSd x.mbms_sess_dur] ++ (
  [.BearerQos x.qos_profile] ++ (
  optV .MbmsSessionId x.mbms_sess_id ++ (
  optV .MbmsFlowId x.mbms_flow_id ++ (
  optV .MbmsTimeToDataTransfer x.mbms_time_to_data_transfer ++ (
  optV .AbsoluteTimeMbmsDataTransfer x.mbms_data_transfer_sus ++ (
  optV .EcgiList x.mbms_cell_list ++ (
  x.private_ext.map .PrivateExtension))))))))))

/-- The variables of `fromvec`: the message and the array `mandatory` (mbmssessionupdatereq.rs:132-203). -/
structure St where
  x : MbmsSessionUpdateRequest
  m0 : Bool
  m1 : Bool
  m2 : Bool

/-- One turn of the loop of `fromvec` (mbmssessionupdatereq.rs:132-203). -/
def step (s : St) : IE → St
  | .MbmsSa j => if j.ins = 0 ∧ s.x.mbms_svc_area.isNone = true then { s with x := { s.x with mbms_svc_area := some j } } else s
  | .Tmgi j => if j.ins = 0 ∧ s.m0 = false then { s with x := { s.x with tmgi := j }, m0 := true } else s
  | .Fteid j => if j.ins = 0 ∧ s.x.fteid_control.isNone = true then { s with x := { s.x with fteid_control := some j } } else s
  | .MbmsSd j => if j.ins = 0 ∧ s.m1 = false then { s with x := { s.x with mbms_sess_dur := j }, m1 := true } else s
  | .BearerQos j => if j.ins = 0 ∧ s.m2 = false then { s with x := { s.x with qos_profile := j }, m2 := true } else s
  | .MbmsSessionId j => if j.ins = 0 ∧ s.x.mbms_sess_id.isNone = true then { s with x := { s.x with mbms_sess_id := some j } } else s
  | .MbmsFlowId j => if j.ins = 0 ∧ s.x.mbms_flow_id.isNone = true then { s with x := { s.x with mbms_flow_id := some j } } else s
  | .MbmsTimeToDataTransfer j => if j.ins = 0 ∧ s.x.mbms_time_to_data_transfer.isNone = true then { s with x := { s.x with mbms_time_to_data_transfer := some j } } else s
  | .AbsoluteTimeMbmsDataTransfer j => if j.ins = 0 ∧ s.x.mbms_data_transfer_sus.isNone = true then { s with x := { s.x with mbms_data_transfer_sus := some j } } else s
  | .EcgiList j => if j.ins = 0 ∧ s.x.mbms_cell_list.isNone = true then { s with x := { s.x with mbms_cell_list := some j } } else s
  | .PrivateExtension j => { s with x := { s.x with private_ext := s.x.private_ext ++ [j] } }
  | _ => s

/-- The end of `fromvec` (mbmssessionupdatereq.rs:132-203). -/
def finish (s : St) : R Err MbmsSessionUpdateRequest :=
  if s.m0 = false then .err (.messageMandatoryIEMissing 158) else if s.m1 = false then .err (.messageMandatoryIEMissing 138) else if s.m2 = false then .err (.messageMandatoryIEMissing 80) else .ok s.x

/-- `fromvec` (mbmssessionupdatereq.rs:132-203). -/
def fromvec (x : MbmsSessionUpdateRequest) (els : List IE) : R Err MbmsSessionUpdateRequest := finish (els.foldl step ⟨x, false, false, false⟩)

/-- The message type (mbmssessionupdatereq.rs:55-86). -/
def codec : Codec MbmsSessionUpdateRequest :=
  { msgtype := 233, start := some 12, dflt, header := header, setHeader := fun x h => { x with header := h }, tovec, fromvec }

/-- One slot per field. -/
def schema : Schema :=
  [⟨.MbmsSa, .is 0, .opt⟩,
   ⟨.Tmgi, .is 0, .one⟩,
   ⟨.Fteid, .is 0, .opt⟩,
   ⟨.MbmsSd, .is 0, .one⟩,
   ⟨.BearerQos, .is 0, .one⟩,
   ⟨.MbmsSessionId, .is 0, .opt⟩,
   ⟨.MbmsFlowId, .is 0, .opt⟩,
   ⟨.MbmsTimeToDataTransfer, .is 0, .opt⟩,
   ⟨.AbsoluteTimeMbmsDataTransfer, .is 0, .opt⟩,
   ⟨.EcgiList, .is 0, .opt⟩,
   ⟨.PrivateExtension, .any, .many⟩]

/-- The fields as lists of IEs. -/
def fields (x : MbmsSessionUpdateRequest) : List (List IE) :=
  [optV .MbmsSa x.mbms_svc_area,
   [.Tmgi x.tmgi],
   optV .Fteid x.fteid_control,
   [.MbmsSd x.mbms_sess_dur],
   [.BearerQos x.qos_profile],
   optV .MbmsSessionId x.mbms_sess_id,
   optV .MbmsFlowId x.mbms_flow_id,
   optV .MbmsTimeToDataTransfer x.mbms_time_to_data_transfer,
   optV .AbsoluteTimeMbmsDataTransfer x.mbms_data_transfer_sus,
   optV .EcgiList x.mbms_cell_list,
   x.private_ext.map .PrivateExtension]

/-- What the state has collected so far. -/
def St.view (s : St) : List (List IE) :=
  [optV .MbmsSa s.x.mbms_svc_area,
   if s.m0 then [.Tmgi s.x.tmgi] else [],
   optV .Fteid s.x.fteid_control,
   if s.m1 then [.MbmsSd s.x.mbms_sess_dur] else [],
   if s.m2 then [.BearerQos s.x.qos_profile] else [],
   optV .MbmsSessionId s.x.mbms_sess_id,
   optV .MbmsFlowId s.x.mbms_flow_id,
   optV .MbmsTimeToDataTransfer s.x.mbms_time_to_data_transfer,
   optV .AbsoluteTimeMbmsDataTransfer s.x.mbms_data_transfer_sus,
   optV .EcgiList s.x.mbms_cell_list,
   s.x.private_ext.map .PrivateExtension]

/-- The header is left alone; flags of mandatory lists tell whether the list is empty. -/
def St.Inv (h : Header) (s : St) : Prop :=
  s.x.header = h

theorem step_view (h : Header) (s : St) (e : IE) (hi : s.Inv h) : (step s e).view = Schema.step schema s.view e ∧ (step s e).Inv h := by
  cases e
  case MbmsSa j =>
    simp only [step]
    repeat' split
    all_goals refine ⟨cons_congr ?_ ((Schema.step_other rfl rfl).symm), ?_⟩
    all_goals first | exact hi | msg_field | (simp_all [St.Inv]; done)
  case Tmgi j =>
    simp only [step]
    repeat' split
    all_goals refine ⟨cons_congr (Slot.step_ne rfl).symm (cons_congr ?_ ((Schema.step_other rfl rfl).symm)), ?_⟩
    all_goals first | exact hi | msg_field | (simp_all [St.Inv]; done)
  case Fteid j =>
    simp only [step]
    repeat' split
    all_goals refine ⟨cons_congr (Slot.step_ne rfl).symm (cons_congr (Slot.step_ne rfl).symm (cons_congr ?_ ((Schema.step_other rfl rfl).symm))), ?_⟩
    all_goals first | exact hi | msg_field | (simp_all [St.Inv]; done)
  case MbmsSd j =>
    simp only [step]
    repeat' split
    all_goals refine ⟨cons_congr (Slot.step_ne rfl).symm (cons_congr (Slot.step_ne rfl).symm (cons_congr (Slot.step_ne rfl).symm (cons_congr ?_ ((Schema.step_other rfl rfl).symm)))), ?_⟩
    all_goals first | exact hi | msg_field | (simp_all [St.Inv]; done)
  case BearerQos j =>
    simp only [step]
    repeat' split
    all_goals refine ⟨cons_congr (Slot.step_ne rfl).symm (cons_congr (Slot.step_ne rfl).symm (cons_congr (Slot.step_ne rfl).symm (cons_congr (Slot.step_ne rfl).symm (cons_congr ?_ ((Schema.step_other rfl rfl).symm))))), ?_⟩
    all_goals first | exact hi | msg_field | (simp_all [St.Inv]; done)
  case MbmsSessionId j =>
    simp only [step]
    repeat' split
    all_goals refine ⟨cons_congr (Slot.step_ne rfl).symm (cons_congr (Slot.step_ne rfl).symm (cons_congr (Slot.step_ne rfl).symm (cons_congr (Slot.step_ne rfl).symm (cons_congr (Slot.step_ne rfl).symm (cons_congr ?_ ((Schema.step_other rfl rfl).symm)))))), ?_⟩
    all_goals first | exact hi | msg_field | (simp_all [St.Inv]; done)
  case MbmsFlowId j =>
    simp only [step]
    repeat' split
    all_goals refine ⟨cons_congr (Slot.step_ne rfl).symm (cons_congr (Slot.step_ne rfl).symm (cons_congr (Slot.step_ne rfl).symm (cons_congr (Slot.step_ne rfl).symm (cons_congr (Slot.step_ne rfl).symm (cons_congr (Slot.step_ne rfl).symm (cons_congr ?_ ((Schema.step_other rfl rfl).symm))))))), ?_⟩
    all_goals first | exact hi | msg_field | (simp_all [St.Inv]; done)
  case MbmsTimeToDataTransfer j =>
    simp only [step]
    repeat' split
    all_goals refine ⟨cons_congr (Slot.step_ne rfl).symm (cons_congr (Slot.step_ne rfl).symm (cons_congr (Slot.step_ne rfl).symm (cons_congr (Slot.step_ne rfl).symm (cons_congr (Slot.step_ne rfl).symm (cons_congr (Slot.step_ne rfl).symm (cons_congr (Slot.step_ne rfl).symm (cons_congr ?_ ((Schema.step_other rfl rfl).symm)))))))), ?_⟩
    all_goals first | exact hi | msg_field | (simp_all [St.Inv]; done)
  case AbsoluteTimeMbmsDataTransfer j =>
    simp only [step]
    repeat' split
    all_goals refine ⟨cons_congr (Slot.step_ne rfl).symm (cons_congr (Slot.step_ne rfl).symm (cons_congr (Slot.step_ne rfl).symm (cons_congr (Slot.step_ne rfl).symm (cons_congr (Slot.step_ne rfl).symm (cons_congr (Slot.step_ne rfl).symm (cons_congr (Slot.step_ne rfl).symm (cons_congr (Slot.step_ne rfl).symm (cons_congr ?_ ((Schema.step_other rfl rfl).symm))))))))), ?_⟩
    all_goals first | exact hi | msg_field | (simp_all [St.Inv]; done)
  case EcgiList j =>
    simp only [step]
    repeat' split
    all_goals refine ⟨cons_congr (Slot.step_ne rfl).symm (cons_congr (Slot.step_ne rfl).symm (cons_congr (Slot.step_ne rfl).symm (cons_congr (Slot.step_ne rfl).symm (cons_congr (Slot.step_ne rfl).symm (cons_congr (Slot.step_ne rfl).symm (cons_congr (Slot.step_ne rfl).symm (cons_congr (Slot.step_ne rfl).symm (cons_congr (Slot.step_ne rfl).symm (cons_congr ?_ ((Schema.step_other rfl rfl).symm)))))))))), ?_⟩
    all_goals first | exact hi | msg_field | (simp_all [St.Inv]; done)
  case PrivateExtension j =>
    simp only [step]
    all_goals refine ⟨cons_congr (Slot.step_ne rfl).symm (cons_congr (Slot.step_ne rfl).symm (cons_congr (Slot.step_ne rfl).symm (cons_congr (Slot.step_ne rfl).symm (cons_congr (Slot.step_ne rfl).symm (cons_congr (Slot.step_ne rfl).symm (cons_congr (Slot.step_ne rfl).symm (cons_congr (Slot.step_ne rfl).symm (cons_congr (Slot.step_ne rfl).symm (cons_congr (Slot.step_ne rfl).symm (cons_congr ?_ (rfl))))))))))), ?_⟩
    all_goals first | exact hi | msg_field | (simp_all [St.Inv]; done)
  all_goals exact ⟨(Schema.step_other rfl rfl).symm, hi⟩

theorem loop (h : Header) (els : List IE) :
    (els.foldl step ⟨{ dflt with header := h }, false, false, false⟩).view = schema.map (·.select els) ∧ (els.foldl step ⟨{ dflt with header := h }, false, false, false⟩).Inv h := by
  have := foldl_view (Q := fun _ => True) (fun s e hp _ => step_view h s e hp) els ⟨{ dflt with header := h }, false, false, false⟩ (fun _ _ => trivial) (by simp [St.Inv])
  rw [show St.view ⟨{ dflt with header := h }, false, false, false⟩ = schema.map (fun _ => []) from rfl, Schema.foldl_nil] at this
  exact this

theorem ext {x y : MbmsSessionUpdateRequest} (hh : x.header = y.header) (h : fields x = fields y) : x = y := by
  cases x; cases y
  simp only at hh
  subst hh
  injection h with h0 h
  cases optV_inj (fun _ _ h => IE.MbmsSa.inj h) h0
  injection h with h1 h
  cases h1
  injection h with h2 h
  cases optV_inj (fun _ _ h => IE.Fteid.inj h) h2
  injection h with h3 h
  cases h3
  injection h with h4 h
  cases h4
  injection h with h5 h
  cases optV_inj (fun _ _ h => IE.MbmsSessionId.inj h) h5
  injection h with h6 h
  cases optV_inj (fun _ _ h => IE.MbmsFlowId.inj h) h6
  injection h with h7 h
  cases optV_inj (fun _ _ h => IE.MbmsTimeToDataTransfer.inj h) h7
  injection h with h8 h
  cases optV_inj (fun _ _ h => IE.AbsoluteTimeMbmsDataTransfer.inj h) h8
  injection h with h9 h
  cases optV_inj (fun _ _ h => IE.EcgiList.inj h) h9
  injection h with h10 h
  cases map_inj (fun _ _ h => IE.PrivateExtension.inj h) h10
  rfl

theorem mand : schema.filter (·.card.mandatory) = [(⟨.Tmgi, .is 0, .one⟩ : Slot), (⟨.MbmsSd, .is 0, .one⟩ : Slot), (⟨.BearerQos, .is 0, .one⟩ : Slot)] := rfl

/-- The flags tell which mandatory IEs are absent. -/
theorem flags (h : Header) (els : List IE) : ∃ x m0 m1 m2, els.foldl step ⟨{ dflt with header := h }, false, false, false⟩ = ⟨x, m0, m1, m2⟩ ∧ St.view ⟨x, m0, m1, m2⟩ = schema.map (·.select els) ∧ x.header = h ∧
    (⟨.Tmgi, .is 0, .one⟩ : Slot).lacks els = (!m0) ∧
    (⟨.MbmsSd, .is 0, .one⟩ : Slot).lacks els = (!m1) ∧
    (⟨.BearerQos, .is 0, .one⟩ : Slot).lacks els = (!m2) := by
  obtain ⟨hv, hi⟩ := loop h els
  generalize els.foldl step ⟨{ dflt with header := h }, false, false, false⟩ = s at hv hi ⊢
  obtain ⟨x, m0, m1, m2⟩ := s
  simp only [St.Inv] at hi
  have l0 : (⟨.Tmgi, .is 0, .one⟩ : Slot).lacks els = (!m0) := by
    rw [Slot.lacks_eq els rfl]
    have e := congrArg (fun l => l.getD 1 []) hv
    rw [show (⟨.Tmgi, .is 0, .one⟩ : Slot).select els = if m0 then [.Tmgi x.tmgi] else [] from e.symm]
    cases m0 <;> rfl
  have l1 : (⟨.MbmsSd, .is 0, .one⟩ : Slot).lacks els = (!m1) := by
    rw [Slot.lacks_eq els rfl]
    have e := congrArg (fun l => l.getD 3 []) hv
    rw [show (⟨.MbmsSd, .is 0, .one⟩ : Slot).select els = if m1 then [.MbmsSd x.mbms_sess_dur] else [] from e.symm]
    cases m1 <;> rfl
  have l2 : (⟨.BearerQos, .is 0, .one⟩ : Slot).lacks els = (!m2) := by
    rw [Slot.lacks_eq els rfl]
    have e := congrArg (fun l => l.getD 4 []) hv
    rw [show (⟨.BearerQos, .is 0, .one⟩ : Slot).select els = if m2 then [.BearerQos x.qos_profile] else [] from e.symm]
    cases m2 <;> rfl
  exact ⟨x, m0, m1, m2, rfl, hv, hi, l0, l1, l2⟩

theorem complete (h : Header) (els : List IE) (hm : schema.missing els = []) : ∃ y, fromvec { dflt with header := h } els = .ok y ∧ y.header = h ∧ fields y = schema.map (·.select els) := by
  obtain ⟨x, m0, m1, m2, hs, hv, hh, l0, l1, l2⟩ := flags h els
  unfold fromvec
  rw [hs]
  dsimp only [finish]
  have f0 := l0.symm.trans (Schema.of_missing_nil mand (by simp) hm)
  have f1 := l1.symm.trans (Schema.of_missing_nil mand (by simp) hm)
  have f2 := l2.symm.trans (Schema.of_missing_nil mand (by simp) hm)
  cases m0 <;> cases m1 <;> cases m2 <;> first | exact ⟨x, rfl, hh, hv⟩ | contradiction

theorem describes : Describes codec schema fields where
  header_set _ _ := rfl
  fields_set _ _ := rfl
  ext _ _ hh h := ext hh h
  shape x := Aligned.opt (fun _ => rfl) <| Aligned.one (fun _ => rfl) <| Aligned.opt (fun _ => rfl) <| Aligned.one (fun _ => rfl) <| Aligned.one (fun _ => rfl) <| Aligned.opt (fun _ => rfl) <| Aligned.opt (fun _ => rfl) <| Aligned.opt (fun _ => rfl) <| Aligned.opt (fun _ => rfl) <| Aligned.opt (fun _ => rfl) <| Aligned.many (fun _ => rfl) <| trivial
  tovec x := by simp [codec, tovec, fields]
  complete h els _ hm := complete h els hm

theorem reports (h : Header) (els : List IE) (hm : schema.missing els ≠ []) :
    ∃ s ∈ schema.missing els, ∃ t, fromvec { dflt with header := h } els = .err (.messageMandatoryIEMissing t) ∧ kindOf t = s.kind := by
  obtain ⟨x, m0, m1, m2, hs, hv, hh, l0, l1, l2⟩ := flags h els
  unfold fromvec
  rw [hs]
  dsimp only [finish]
  cases m0 <;> cases m1 <;> cases m2 <;>
    first | exact ⟨_, Schema.mem_missing mand (by simp) l0, _, rfl, rfl⟩ | exact ⟨_, Schema.mem_missing mand (by simp) l1, _, rfl, rfl⟩ | exact ⟨_, Schema.mem_missing mand (by simp) l2, _, rfl, rfl⟩ | exact absurd (Schema.missing_nil mand (by simp [l0, l1, l2])) hm

theorem settled (h : Header) (els els' : List IE) (he : ∀ s ∈ schema, s.card.mandatory = true → s.lacks els = s.lacks els')
    (hm : schema.missing els ≠ []) : fromvec { dflt with header := h } els = fromvec { dflt with header := h } els' := by
  obtain ⟨x, m0, m1, m2, hs, hv, hh, l0, l1, l2⟩ := flags h els
  obtain ⟨x', m0', m1', m2', hs', hv', hh', l0', l1', l2'⟩ := flags h els'
  unfold fromvec
  rw [hs, hs']
  obtain rfl := Bool.not_inj (l0.symm.trans ((he _ (by decide) rfl).trans l0'))
  obtain rfl := Bool.not_inj (l1.symm.trans ((he _ (by decide) rfl).trans l1'))
  obtain rfl := Bool.not_inj (l2.symm.trans ((he _ (by decide) rfl).trans l2'))
  dsimp only [finish]
  cases m0 <;> cases m1 <;> cases m2 <;>
    first | rfl | exact absurd (Schema.missing_nil mand (by simp [l0, l1, l2])) hm

end MbmsSessionUpdateRequest

/-- `MbmsSessionUpdateResponse` (mbmssessionupdateresp.rs:15-22). -/
structure MbmsSessionUpdateResponse where
  header : Header
  cause : V2.Cause
  mbms_distr_ack : Option V2.MbmsDistributionAck
  sgsn_fteid : Option V2.Fteid
  recovery : Option V2.Recovery
  private_ext : List V2.PrivateExtension
deriving DecidableEq

namespace MbmsSessionUpdateResponse

/-- `default` (mbmssessionupdateresp.rs:25-39). -/
def dflt : MbmsSessionUpdateResponse :=
  { header := { Header.default with msgtype := 234, teid := some 0 }, cause := V2.Cause.dflt, mbms_distr_ack := none, sgsn_fteid := none, recovery := none, private_ext := [] }

/-- `tovec` (mbmssessionupdateresp.rs:76-96). -/
def tovec (x : MbmsSessionUpdateResponse) : List IE :=
  [.Cause x.cause] ++ (
  optV .MbmsDistributionAck x.mbms_distr_ack ++ (
  optV .Fteid x.sgsn_fteid ++ (
  optV .Recovery x.recovery ++ (
  x.private_ext.map .PrivateExtension))))

/-- The variables of `fromvec`: the message and the array `mandatory` (mbmssessionupdateresp.rs:98-132). -/
structure St where
  x : MbmsSessionUpdateResponse
  m0 : Bool

/-- One turn of the loop of `fromvec` (mbmssessionupdateresp.rs:98-132). -/
def step (s : St) : IE → St
  | .Cause j => if j.ins = 0 ∧ s.m0 = false then { s with x := { s.x with cause := j }, m0 := true } else s
  | .MbmsDistributionAck j => if j.ins = 0 ∧ s.x.mbms_distr_ack.isNone = true then { s with x := { s.x with mbms_distr_ack := some j } } else s
  | .Fteid j => if j.ins = 0 ∧ s.x.sgsn_fteid.isNone = true then { s with x := { s.x with sgsn_fteid := some j } } else s
  | .Recovery j => if j.ins = 0 ∧ s.x.recovery.isNone = true then { s with x := { s.x with recovery := some j } } else s
  | .PrivateExtension j => { s with x := { s.x with private_ext := s.x.private_ext ++ [j] } }
  | _ => s

/-- The end of `fromvec` (mbmssessionupdateresp.rs:98-132). -/
def finish (s : St) : R Err MbmsSessionUpdateResponse :=
  if s.m0 then .ok s.x else .err (.messageMandatoryIEMissing 2)

/-- `fromvec` (mbmssessionupdateresp.rs:98-132). -/
def fromvec (x : MbmsSessionUpdateResponse) (els : List IE) : R Err MbmsSessionUpdateResponse := finish (els.foldl step ⟨x, false⟩)

/-- The message type (mbmssessionupdateresp.rs:43-74). -/
def codec : Codec MbmsSessionUpdateResponse :=
  { msgtype := 234, start := some 12, dflt, header := header, setHeader := fun x h => { x with header := h }, tovec, fromvec }

/-- One slot per field. -/
def schema : Schema :=
  [⟨.Cause, .is 0, .one⟩,
   ⟨.MbmsDistributionAck, .is 0, .opt⟩,
   ⟨.Fteid, .is 0, .opt⟩,
   ⟨.Recovery, .is 0, .opt⟩,
   ⟨.PrivateExtension, .any, .many⟩]

/-- The fields as lists of IEs. -/
def fields (x : MbmsSessionUpdateResponse) : List (List IE) :=
  [[.Cause x.cause],
   optV .MbmsDistributionAck x.mbms_distr_ack,
   optV .Fteid x.sgsn_fteid,
   optV .Recovery x.recovery,
   x.private_ext.map .PrivateExtension]

/-- What the state has collected so far. -/
def St.view (s : St) : List (List IE) :=
  [if s.m0 then [.Cause s.x.cause] else [],
   optV .MbmsDistributionAck s.x.mbms_distr_ack,
   optV .Fteid s.x.sgsn_fteid,
   optV .Recovery s.x.recovery,
   s.x.private_ext.map .PrivateExtension]

/-- The header is left alone; flags of mandatory lists tell whether the list is empty. -/
def St.Inv (h : Header) (s : St) : Prop :=
  s.x.header = h

theorem step_view (h : Header) (s : St) (e : IE) (hi : s.Inv h) : (step s e).view = Schema.step schema s.view e ∧ (step s e).Inv h := by
  cases e
  case Cause j =>
    simp only [step]
    repeat' split
    all_goals refine ⟨cons_congr ?_ ((Schema.step_other rfl rfl).symm), ?_⟩
    all_goals first | exact hi | msg_field | (simp_all [St.Inv]; done)
  case MbmsDistributionAck j =>
    simp only [step]
    repeat' split
    all_goals refine ⟨cons_congr (Slot.step_ne rfl).symm (cons_congr ?_ ((Schema.step_other rfl rfl).symm)), ?_⟩
    all_goals first | exact hi | msg_field | (simp_all [St.Inv]; done)
  case Fteid j =>
    simp only [step]
    repeat' split
    all_goals refine ⟨cons_congr (Slot.step_ne rfl).symm (cons_congr (Slot.step_ne rfl).symm (cons_congr ?_ ((Schema.step_other rfl rfl).symm))), ?_⟩
    all_goals first | exact hi | msg_field | (simp_all [St.Inv]; done)
  case Recovery j =>
    simp only [step]
    repeat' split
    all_goals refine ⟨cons_congr (Slot.step_ne rfl).symm (cons_congr (Slot.step_ne rfl).symm (cons_congr (Slot.step_ne rfl).symm (cons_congr ?_ ((Schema.step_other rfl rfl).symm)))), ?_⟩
    all_goals first | exact hi | msg_field | (simp_all [St.Inv]; done)
  case PrivateExtension j =>
    simp only [step]
    all_goals refine ⟨cons_congr (Slot.step_ne rfl).symm (cons_congr (Slot.step_ne rfl).symm (cons_congr (Slot.step_ne rfl).symm (cons_congr (Slot.step_ne rfl).symm (cons_congr ?_ (rfl))))), ?_⟩
    all_goals first | exact hi | msg_field | (simp_all [St.Inv]; done)
  all_goals exact ⟨(Schema.step_other rfl rfl).symm, hi⟩

theorem loop (h : Header) (els : List IE) :
    (els.foldl step ⟨{ dflt with header := h }, false⟩).view = schema.map (·.select els) ∧ (els.foldl step ⟨{ dflt with header := h }, false⟩).Inv h := by
  have := foldl_view (Q := fun _ => True) (fun s e hp _ => step_view h s e hp) els ⟨{ dflt with header := h }, false⟩ (fun _ _ => trivial) (by simp [St.Inv])
  rw [show St.view ⟨{ dflt with header := h }, false⟩ = schema.map (fun _ => []) from rfl, Schema.foldl_nil] at this
  exact this

theorem ext {x y : MbmsSessionUpdateResponse} (hh : x.header = y.header) (h : fields x = fields y) : x = y := by
  cases x; cases y
  simp only at hh
  subst hh
  injection h with h0 h
  cases h0
  injection h with h1 h
  cases optV_inj (fun _ _ h => IE.MbmsDistributionAck.inj h) h1
  injection h with h2 h
  cases optV_inj (fun _ _ h => IE.Fteid.inj h) h2
  injection h with h3 h
  cases optV_inj (fun _ _ h => IE.Recovery.inj h) h3
  injection h with h4 h
  cases map_inj (fun _ _ h => IE.PrivateExtension.inj h) h4
  rfl

theorem mand : schema.filter (·.card.mandatory) = [(⟨.Cause, .is 0, .one⟩ : Slot)] := rfl

/-- The flags tell which mandatory IEs are absent. -/
theorem flags (h : Header) (els : List IE) : ∃ x m0, els.foldl step ⟨{ dflt with header := h }, false⟩ = ⟨x, m0⟩ ∧ St.view ⟨x, m0⟩ = schema.map (·.select els) ∧ x.header = h ∧
    (⟨.Cause, .is 0, .one⟩ : Slot).lacks els = (!m0) := by
  obtain ⟨hv, hi⟩ := loop h els
  generalize els.foldl step ⟨{ dflt with header := h }, false⟩ = s at hv hi ⊢
  obtain ⟨x, m0⟩ := s
  simp only [St.Inv] at hi
  have l0 : (⟨.Cause, .is 0, .one⟩ : Slot).lacks els = (!m0) := by
    rw [Slot.lacks_eq els rfl]
    have e := congrArg (fun l => l.getD 0 []) hv
    rw [show (⟨.Cause, .is 0, .one⟩ : Slot).select els = if m0 then [.Cause x.cause] else [] from e.symm]
    cases m0 <;> rfl
  exact ⟨x, m0, rfl, hv, hi, l0⟩

theorem complete (h : Header) (els : List IE) (hm : schema.missing els = []) : ∃ y, fromvec { dflt with header := h } els = .ok y ∧ y.header = h ∧ fields y = schema.map (·.select els) := by
  obtain ⟨x, m0, hs, hv, hh, l0⟩ := flags h els
  unfold fromvec
  rw [hs]
  dsimp only [finish]
  have f0 := l0.symm.trans (Schema.of_missing_nil mand (by simp) hm)
  cases m0 <;> first | exact ⟨x, rfl, hh, hv⟩ | contradiction

theorem describes : Describes codec schema fields where
  header_set _ _ := rfl
  fields_set _ _ := rfl
  ext _ _ hh h := ext hh h
  shape x := Aligned.one (fun _ => rfl) <| Aligned.opt (fun _ => rfl) <| Aligned.opt (fun _ => rfl) <| Aligned.opt (fun _ => rfl) <| Aligned.many (fun _ => rfl) <| trivial
  tovec x := by simp [codec, tovec, fields]
  complete h els _ hm := complete h els hm

theorem reports (h : Header) (els : List IE) (hm : schema.missing els ≠ []) :
    ∃ s ∈ schema.missing els, ∃ t, fromvec { dflt with header := h } els = .err (.messageMandatoryIEMissing t) ∧ kindOf t = s.kind := by
  obtain ⟨x, m0, hs, hv, hh, l0⟩ := flags h els
  unfold fromvec
  rw [hs]
  dsimp only [finish]
  cases m0 <;>
    first | exact ⟨_, Schema.mem_missing mand (by simp) l0, _, rfl, rfl⟩ | exact absurd (Schema.missing_nil mand (by simp [l0])) hm

theorem settled (h : Header) (els els' : List IE) (he : ∀ s ∈ schema, s.card.mandatory = true → s.lacks els = s.lacks els')
    (hm : schema.missing els ≠ []) : fromvec { dflt with header := h } els = fromvec { dflt with header := h } els' := by
  obtain ⟨x, m0, hs, hv, hh, l0⟩ := flags h els
  obtain ⟨x', m0', hs', hv', hh', l0'⟩ := flags h els'
  unfold fromvec
  rw [hs, hs']
  obtain rfl := Bool.not_inj (l0.symm.trans ((he _ (by decide) rfl).trans l0'))
  dsimp only [finish]
  cases m0 <;>
    first | rfl | exact absurd (Schema.missing_nil mand (by simp [l0])) hm

end MbmsSessionUpdateResponse

/-- `ModifyAccessBearersRequest` (modifyaccessbearersreq.rs:15-25). -/
structure ModifyAccessBearersRequest where
  header : Header
  indication : Option V2.Indication
  fteid_control : Option V2.Fteid
  delay_dl_pckt_notif_req : Option V2.DelayValue
  bearer_ctxs : List V2.BearerContext
  recovery : Option V2.Recovery
  secondary_rat_usage_report : List V2.SecondaryRatUsageDataReport
  pscellid : Option V2.PSCellId
  private_ext : List V2.PrivateExtension
deriving DecidableEq

namespace ModifyAccessBearersRequest

/-- `default` (modifyaccessbearersreq.rs:28-45). -/
def dflt : ModifyAccessBearersRequest :=
  { header := { Header.default with msgtype := 211, teid := some 0 }, indication := none, fteid_control := none, delay_dl_pckt_notif_req := none, bearer_ctxs := [], recovery := none, secondary_rat_usage_report := [], pscellid := none, private_ext := [] }

/-- `tovec` (modifyaccessbearersreq.rs:82-118). -/
def tovec (x : ModifyAccessBearersRequest) : List IE :=
  optV .Indication x.indication ++ (
  optV .Fteid x.fteid_control ++ (
  optV .DelayValue x.delay_dl_pckt_notif_req ++ (
  x.bearer_ctxs.map .BearerContext ++ (
  optV .Recovery x.recovery ++ (
  x.secondary_rat_usage_report.map .SecondaryRatUsageDataReport ++ (
  optV .PSCellId x.pscellid ++ (
  x.private_ext.map .PrivateExtension)))))))

/-- The variables of `fromvec`: the message and the array `mandatory` (modifyaccessbearersreq.rs:120-162). -/
structure St where
  x : ModifyAccessBearersRequest

/-- One turn of the loop of `fromvec` (modifyaccessbearersreq.rs:120-162). -/
def step (s : St) : IE → St
  | .Indication j => if j.ins = 0 ∧ s.x.indication.isNone = true then { s with x := { s.x with indication := some j } } else s
  | .Fteid j => if j.ins = 0 ∧ s.x.fteid_control.isNone = true then { s with x := { s.x with fteid_control := some j } } else s
  | .DelayValue j => if j.ins = 0 ∧ s.x.delay_dl_pckt_notif_req.isNone = true then { s with x := { s.x with delay_dl_pckt_notif_req := some j } } else s
  | .BearerContext j => if j.ins < 2 then { s with x := { s.x with bearer_ctxs := s.x.bearer_ctxs ++ [j] } } else s
  | .Recovery j => if j.ins = 0 ∧ s.x.recovery.isNone = true then { s with x := { s.x with recovery := some j } } else s
  | .SecondaryRatUsageDataReport j => if j.ins = 0 then { s with x := { s.x with secondary_rat_usage_report := s.x.secondary_rat_usage_report ++ [j] } } else s
  | .PSCellId j => if j.ins = 0 ∧ s.x.pscellid.isNone = true then { s with x := { s.x with pscellid := some j } } else s
  | .PrivateExtension j => { s with x := { s.x with private_ext := s.x.private_ext ++ [j] } }
  | _ => s

/-- The end of `fromvec` (modifyaccessbearersreq.rs:120-162). -/
def finish (s : St) : R Err ModifyAccessBearersRequest :=
  .ok s.x

/-- `fromvec` (modifyaccessbearersreq.rs:120-162). -/
def fromvec (x : ModifyAccessBearersRequest) (els : List IE) : R Err ModifyAccessBearersRequest := finish (els.foldl step ⟨x⟩)

/-- The message type (modifyaccessbearersreq.rs:49-80). -/
def codec : Codec ModifyAccessBearersRequest :=
  { msgtype := 211, start := some 12, dflt, header := header, setHeader := fun x h => { x with header := h }, tovec, fromvec }

/-- One slot per field. -/
def schema : Schema :=
  [⟨.Indication, .is 0, .opt⟩,
   ⟨.Fteid, .is 0, .opt⟩,
   ⟨.DelayValue, .is 0, .opt⟩,
   ⟨.BearerContext, .lt 2, .many⟩,
   ⟨.Recovery, .is 0, .opt⟩,
   ⟨.SecondaryRatUsageDataReport, .is 0, .many⟩,
   ⟨.PSCellId, .is 0, .opt⟩,
   ⟨.PrivateExtension, .any, .many⟩]

/-- The fields as lists of IEs. -/
def fields (x : ModifyAccessBearersRequest) : List (List IE) :=
  [optV .Indication x.indication,
   optV .Fteid x.fteid_control,
   optV .DelayValue x.delay_dl_pckt_notif_req,
   x.bearer_ctxs.map .BearerContext,
   optV .Recovery x.recovery,
   x.secondary_rat_usage_report.map .SecondaryRatUsageDataReport,
   optV .PSCellId x.pscellid,
   x.private_ext.map .PrivateExtension]

/-- What the state has collected so far. -/
def St.view (s : St) : List (List IE) :=
  [optV .Indication s.x.indication,
   optV .Fteid s.x.fteid_control,
   optV .DelayValue s.x.delay_dl_pckt_notif_req,
   s.x.bearer_ctxs.map .BearerContext,
   optV .Recovery s.x.recovery,
   s.x.secondary_rat_usage_report.map .SecondaryRatUsageDataReport,
   optV .PSCellId s.x.pscellid,
   s.x.private_ext.map .PrivateExtension]

/-- The header is left alone; flags of mandatory lists tell whether the list is empty. -/
def St.Inv (h : Header) (s : St) : Prop :=
  s.x.header = h

theorem step_view (h : Header) (s : St) (e : IE) (hi : s.Inv h) : (step s e).view = Schema.step schema s.view e ∧ (step s e).Inv h := by
  cases e
  case Indication j =>
    simp only [step]
    repeat' split
    all_goals refine ⟨cons_congr ?_ ((Schema.step_other rfl rfl).symm), ?_⟩
    all_goals first | exact hi | msg_field | (simp_all [St.Inv]; done)
  case Fteid j =>
    simp only [step]
    repeat' split
    all_goals refine ⟨cons_congr (Slot.step_ne rfl).symm (cons_congr ?_ ((Schema.step_other rfl rfl).symm)), ?_⟩
    all_goals first | exact hi | msg_field | (simp_all [St.Inv]; done)
  case DelayValue j =>
    simp only [step]
    repeat' split
    all_goals refine ⟨cons_congr (Slot.step_ne rfl).symm (cons_congr (Slot.step_ne rfl).symm (cons_congr ?_ ((Schema.step_other rfl rfl).symm))), ?_⟩
    all_goals first | exact hi | msg_field | (simp_all [St.Inv]; done)
  case BearerContext j =>
    simp only [step]
    repeat' split
    all_goals refine ⟨cons_congr (Slot.step_ne rfl).symm (cons_congr (Slot.step_ne rfl).symm (cons_congr (Slot.step_ne rfl).symm (cons_congr ?_ ((Schema.step_other rfl rfl).symm)))), ?_⟩
    all_goals first | exact hi | msg_field | (simp_all [St.Inv]; done)
  case Recovery j =>
    simp only [step]
    repeat' split
    all_goals refine ⟨cons_congr (Slot.step_ne rfl).symm (cons_congr (Slot.step_ne rfl).symm (cons_congr (Slot.step_ne rfl).symm (cons_congr (Slot.step_ne rfl).symm (cons_congr ?_ ((Schema.step_other rfl rfl).symm))))), ?_⟩
    all_goals first | exact hi | msg_field | (simp_all [St.Inv]; done)
  case SecondaryRatUsageDataReport j =>
    simp only [step]
    repeat' split
    all_goals refine ⟨cons_congr (Slot.step_ne rfl).symm (cons_congr (Slot.step_ne rfl).symm (cons_congr (Slot.step_ne rfl).symm (cons_congr (Slot.step_ne rfl).symm (cons_congr (Slot.step_ne rfl).symm (cons_congr ?_ ((Schema.step_other rfl rfl).symm)))))), ?_⟩
    all_goals first | exact hi | msg_field | (simp_all [St.Inv]; done)
  case PSCellId j =>
    simp only [step]
    repeat' split
    all_goals refine ⟨cons_congr (Slot.step_ne rfl).symm (cons_congr (Slot.step_ne rfl).symm (cons_congr (Slot.step_ne rfl).symm (cons_congr (Slot.step_ne rfl).symm (cons_congr (Slot.step_ne rfl).symm (cons_congr (Slot.step_ne rfl).symm (cons_congr ?_ ((Schema.step_other rfl rfl).symm))))))), ?_⟩
    all_goals first | exact hi | msg_field | (simp_all [St.Inv]; done)
  case PrivateExtension j =>
    simp only [step]
    all_goals refine ⟨cons_congr (Slot.step_ne rfl).symm (cons_congr (Slot.step_ne rfl).symm (cons_congr (Slot.step_ne rfl).symm (cons_congr (Slot.step_ne rfl).symm (cons_congr (Slot.step_ne rfl).symm (cons_congr (Slot.step_ne rfl).symm (cons_congr (Slot.step_ne rfl).symm (cons_congr ?_ (rfl)))))))), ?_⟩
    all_goals first | exact hi | msg_field | (simp_all [St.Inv]; done)
  all_goals exact ⟨(Schema.step_other rfl rfl).symm, hi⟩

theorem loop (h : Header) (els : List IE) :
    (els.foldl step ⟨{ dflt with header := h }⟩).view = schema.map (·.select els) ∧ (els.foldl step ⟨{ dflt with header := h }⟩).Inv h := by
  have := foldl_view (Q := fun _ => True) (fun s e hp _ => step_view h s e hp) els ⟨{ dflt with header := h }⟩ (fun _ _ => trivial) (by simp [St.Inv])
  rw [show St.view ⟨{ dflt with header := h }⟩ = schema.map (fun _ => []) from rfl, Schema.foldl_nil] at this
  exact this

theorem ext {x y : ModifyAccessBearersRequest} (hh : x.header = y.header) (h : fields x = fields y) : x = y := by
  cases x; cases y
  simp only at hh
  subst hh
  injection h with h0 h
  cases optV_inj (fun _ _ h => IE.Indication.inj h) h0
  injection h with h1 h
  cases optV_inj (fun _ _ h => IE.Fteid.inj h) h1
  injection h with h2 h
  cases optV_inj (fun _ _ h => IE.DelayValue.inj h) h2
  injection h with h3 h
  cases map_inj (fun _ _ h => IE.BearerContext.inj h) h3
  injection h with h4 h
  cases optV_inj (fun _ _ h => IE.Recovery.inj h) h4
  injection h with h5 h
  cases map_inj (fun _ _ h => IE.SecondaryRatUsageDataReport.inj h) h5
  injection h with h6 h
  cases optV_inj (fun _ _ h => IE.PSCellId.inj h) h6
  injection h with h7 h
  cases map_inj (fun _ _ h => IE.PrivateExtension.inj h) h7
  rfl

theorem mand : schema.filter (·.card.mandatory) = [] := rfl

/-- The flags tell which mandatory IEs are absent. -/
theorem flags (h : Header) (els : List IE) : ∃ x , els.foldl step ⟨{ dflt with header := h }⟩ = ⟨x⟩ ∧ St.view ⟨x⟩ = schema.map (·.select els) ∧ x.header = h := by
  obtain ⟨hv, hi⟩ := loop h els
  generalize els.foldl step ⟨{ dflt with header := h }⟩ = s at hv hi ⊢
  obtain ⟨x⟩ := s
  simp only [St.Inv] at hi
  exact ⟨x, rfl, hv, hi⟩

theorem complete (h : Header) (els : List IE) (_hm : schema.missing els = []) : ∃ y, fromvec { dflt with header := h } els = .ok y ∧ y.header = h ∧ fields y = schema.map (·.select els) := by
  obtain ⟨x, hs, hv, hh⟩ := flags h els
  unfold fromvec
  rw [hs]
  exact ⟨x, rfl, hh, hv⟩

theorem describes : Describes codec schema fields where
  header_set _ _ := rfl
  fields_set _ _ := rfl
  ext _ _ hh h := ext hh h
  shape x := Aligned.opt (fun _ => rfl) <| Aligned.opt (fun _ => rfl) <| Aligned.opt (fun _ => rfl) <| Aligned.many (fun _ => rfl) <| Aligned.opt (fun _ => rfl) <| Aligned.many (fun _ => rfl) <| Aligned.opt (fun _ => rfl) <| Aligned.many (fun _ => rfl) <| trivial
  tovec x := by simp [codec, tovec, fields]
  complete h els _ hm := complete h els hm

end ModifyAccessBearersRequest

/-- `ModifyAccessBearersResponse` (modifyaccessbearersresp.rs:15-24). -/
structure ModifyAccessBearersResponse where
  header : Header
  cause : V2.Cause
  bearer_ctxs : List V2.BearerContext
  recovery : Option V2.Recovery
  indication : Option V2.Indication
  load_control_info : Option V2.LoadControl
  overload_control_info : Option V2.OverloadControlInfo
  private_ext : List V2.PrivateExtension
deriving DecidableEq

namespace ModifyAccessBearersResponse

/-- `default` (modifyaccessbearersresp.rs:27-43). -/
def dflt : ModifyAccessBearersResponse :=
  { header := { Header.default with msgtype := 212, teid := some 0 }, cause := V2.Cause.dflt, bearer_ctxs := [], recovery := none, indication := none, load_control_info := none, overload_control_info := none, private_ext := [] }

/-- `tovec` (modifyaccessbearersresp.rs:80-110). -/
def tovec (x : ModifyAccessBearersResponse) : List IE :=
  [.Cause x.cause] ++ (
  x.bearer_ctxs.map .BearerContext ++ (
  optV .Recovery x.recovery ++ (
  optV .Indication x.indication ++ (
  optV .LoadControlInfo x.load_control_info ++ (
  optV .OverloadControlInfo x.overload_control_info ++ (
  x.private_ext.map .PrivateExtension))))))

/-- The variables of `fromvec`: the message and the array `mandatory` (modifyaccessbearersresp.rs:112-155). -/
structure St where
  x : ModifyAccessBearersResponse
  m0 : Bool

/-- One turn of the loop of `fromvec` (modifyaccessbearersresp.rs:112-155). -/
def step (s : St) : IE → St
  | .Cause j => if j.ins = 0 ∧ s.m0 = false then { s with x := { s.x with cause := j }, m0 := true } else s
  | .BearerContext j => if j.ins < 2 then { s with x := { s.x with bearer_ctxs := s.x.bearer_ctxs ++ [j] } } else s
  | .Recovery j => if j.ins = 0 ∧ s.x.recovery.isNone = true then { s with x := { s.x with recovery := some j } } else s
  | .Indication j => if j.ins = 0 ∧ s.x.indication.isNone = true then { s with x := { s.x with indication := some j } } else s
  | .LoadControlInfo j => if j.ins = 0 ∧ s.x.load_control_info.isNone = true then { s with x := { s.x with load_control_info := some j } } else s
  | .OverloadControlInfo j => if j.ins = 0 ∧ s.x.overload_control_info.isNone = true then { s with x := { s.x with overload_control_info := some j } } else s
  | .PrivateExtension j => { s with x := { s.x with private_ext := s.x.private_ext ++ [j] } }
  | _ => s

/-- The end of `fromvec` (modifyaccessbearersresp.rs:112-155). -/
def finish (s : St) : R Err ModifyAccessBearersResponse :=
  if s.m0 then .ok s.x else .err (.messageMandatoryIEMissing 2)

/-- `fromvec` (modifyaccessbearersresp.rs:112-155). -/
def fromvec (x : ModifyAccessBearersResponse) (els : List IE) : R Err ModifyAccessBearersResponse := finish (els.foldl step ⟨x, false⟩)

/-- The message type (modifyaccessbearersresp.rs:47-78). -/
def codec : Codec ModifyAccessBearersResponse :=
  { msgtype := 212, start := some 12, dflt, header := header, setHeader := fun x h => { x with header := h }, tovec, fromvec }

/-- One slot per field. -/
def schema : Schema :=
  [⟨.Cause, .is 0, .one⟩,
   ⟨.BearerContext, .lt 2, .many⟩,
   ⟨.Recovery, .is 0, .opt⟩,
   ⟨.Indication, .is 0, .opt⟩,
   ⟨.LoadControlInfo, .is 0, .opt⟩,
   ⟨.OverloadControlInfo, .is 0, .opt⟩,
   ⟨.PrivateExtension, .any, .many⟩]

/-- The fields as lists of IEs. -/
def fields (x : ModifyAccessBearersResponse) : List (List IE) :=
  [[.Cause x.cause],
   x.bearer_ctxs.map .BearerContext,
   optV .Recovery x.recovery,
   optV .Indication x.indication,
   optV .LoadControlInfo x.load_control_info,
   optV .OverloadControlInfo x.overload_control_info,
   x.private_ext.map .PrivateExtension]

/-- What the state has collected so far. -/
def St.view (s : St) : List (List IE) :=
  [if s.m0 then [.Cause s.x.cause] else [],
   s.x.bearer_ctxs.map .BearerContext,
   optV .Recovery s.x.recovery,
   optV .Indication s.x.indication,
   optV .LoadControlInfo s.x.load_control_info,
   optV .OverloadControlInfo s.x.overload_control_info,
   s.x.private_ext.map .PrivateExtension]

/-- The header is left alone; flags of mandatory lists tell whether the list is empty. -/
def St.Inv (h : Header) (s : St) : Prop :=
  s.x.header = h

theorem step_view (h : Header) (s : St) (e : IE) (hi : s.Inv h) : (step s e).view = Schema.step schema s.view e ∧ (step s e).Inv h := by
  cases e
  case Cause j =>
    simp only [step]
    repeat' split
    all_goals refine ⟨cons_congr ?_ ((Schema.step_other rfl rfl).symm), ?_⟩
    all_goals first | exact hi | msg_field | (simp_all [St.Inv]; done)
  case BearerContext j =>
    simp only [step]
    repeat' split
    all_goals refine ⟨cons_congr (Slot.step_ne rfl).symm (cons_congr ?_ ((Schema.step_other rfl rfl).symm)), ?_⟩
    all_goals first | exact hi | msg_field | (simp_all [St.Inv]; done)
  case Recovery j =>
    simp only [step]
    repeat' split
    all_goals refine ⟨cons_congr (Slot.step_ne rfl).symm (cons_congr (Slot.step_ne rfl).symm (cons_congr ?_ ((Schema.step_other rfl rfl).symm))), ?_⟩
    all_goals first | exact hi | msg_field | (simp_all [St.Inv]; done)
  case Indication j =>
    simp only [step]
    repeat' split
    all_goals refine ⟨cons_congr (Slot.step_ne rfl).symm (cons_congr (Slot.step_ne rfl).symm (cons_congr (Slot.step_ne rfl).symm (cons_congr ?_ ((Schema.step_other rfl rfl).symm)))), ?_⟩
    all_goals first | exact hi | msg_field | (simp_all [St.Inv]; done)
  case LoadControlInfo j =>
    simp only [step]
    repeat' split
    all_goals refine ⟨cons_congr (Slot.step_ne rfl).symm (cons_congr (Slot.step_ne rfl).symm (cons_congr (Slot.step_ne rfl).symm (cons_congr (Slot.step_ne rfl).symm (cons_congr ?_ ((Schema.step_other rfl rfl).symm))))), ?_⟩
    all_goals first | exact hi | msg_field | (simp_all [St.Inv]; done)
  case OverloadControlInfo j =>
    simp only [step]
    repeat' split
    all_goals refine ⟨cons_congr (Slot.step_ne rfl).symm (cons_congr (Slot.step_ne rfl).symm (cons_congr (Slot.step_ne rfl).symm (cons_congr (Slot.step_ne rfl).symm (cons_congr (Slot.step_ne rfl).symm (cons_congr ?_ ((Schema.step_other rfl rfl).symm)))))), ?_⟩
    all_goals first | exact hi | msg_field | (simp_all [St.Inv]; done)
  case PrivateExtension j =>
    simp only [step]
    all_goals refine ⟨cons_congr (Slot.step_ne rfl).symm (cons_congr (Slot.step_ne rfl).symm (cons_congr (Slot.step_ne rfl).symm (cons_congr (Slot.step_ne rfl).symm (cons_congr (Slot.step_ne rfl).symm (cons_congr (Slot.step_ne rfl).symm (cons_congr ?_ (rfl))))))), ?_⟩
    all_goals first | exact hi | msg_field | (simp_all [St.Inv]; done)
  all_goals exact ⟨(Schema.step_other rfl rfl).symm, hi⟩

theorem loop (h : Header) (els : List IE) :
    (els.foldl step ⟨{ dflt with header := h }, false⟩).view = schema.map (·.select els) ∧ (els.foldl step ⟨{ dflt with header := h }, false⟩).Inv h := by
  have := foldl_view (Q := fun _ => True) (fun s e hp _ => step_view h s e hp) els ⟨{ dflt with header := h }, false⟩ (fun _ _ => trivial) (by simp [St.Inv])
  rw [show St.view ⟨{ dflt with header := h }, false⟩ = schema.map (fun _ => []) from rfl, Schema.foldl_nil] at this
  exact this

theorem ext {x y : ModifyAccessBearersResponse} (hh : x.header = y.header) (h : fields x = fields y) : x = y := by
  cases x; cases y
  simp only at hh
  subst hh
  injection h with h0 h
  cases h0
  injection h with h1 h
  cases map_inj (fun _ _ h => IE.BearerContext.inj h) h1
  injection h with h2 h
  cases optV_inj (fun _ _ h => IE.Recovery.inj h) h2
  injection h with h3 h
  cases optV_inj (fun _ _ h => IE.Indication.inj h) h3
  injection h with h4 h
  cases optV_inj (fun _ _ h => IE.LoadControlInfo.inj h) h4
  injection h with h5 h
  cases optV_inj (fun _ _ h => IE.OverloadControlInfo.inj h) h5
  injection h with h6 h
  cases map_inj (fun _ _ h => IE.PrivateExtension.inj h) h6
  rfl

theorem mand : schema.filter (·.card.mandatory) = [(⟨.Cause, .is 0, .one⟩ : Slot)] := rfl

/-- The flags tell which mandatory IEs are absent. -/
theorem flags (h : Header) (els : List IE) : ∃ x m0, els.foldl step ⟨{ dflt with header := h }, false⟩ = ⟨x, m0⟩ ∧ St.view ⟨x, m0⟩ = schema.map (·.select els) ∧ x.header = h ∧
    (⟨.Cause, .is 0, .one⟩ : Slot).lacks els = (!m0) := by
  obtain ⟨hv, hi⟩ := loop h els
  generalize els.foldl step ⟨{ dflt with header := h }, false⟩ = s at hv hi ⊢
  obtain ⟨x, m0⟩ := s
  simp only [St.Inv] at hi
  have l0 : (⟨.Cause, .is 0, .one⟩ : Slot).lacks els = (!m0) := by
    rw [Slot.lacks_eq els rfl]
    have e := congrArg (fun l => l.getD 0 []) hv
    rw [show (⟨.Cause, .is 0, .one⟩ : Slot).select els = if m0 then [.Cause x.cause] else [] from e.symm]
    cases m0 <;> rfl
  exact ⟨x, m0, rfl, hv, hi, l0⟩

theorem complete (h : Header) (els : List IE) (hm : schema.missing els = []) : ∃ y, fromvec { dflt with header := h } els = .ok y ∧ y.header = h ∧ fields y = schema.map (·.select els) := by
  obtain ⟨x, m0, hs, hv, hh, l0⟩ := flags h els
  unfold fromvec
  rw [hs]
  dsimp only [finish]
  have f0 := l0.symm.trans (Schema.of_missing_nil mand (by simp) hm)
  cases m0 <;> first | exact ⟨x, rfl, hh, hv⟩ | contradiction

theorem describes : Describes codec schema fields where
  header_set _ _ := rfl
  fields_set _ _ := rfl
  ext _ _ hh h := ext hh h
  shape x := Aligned.one (fun _ => rfl) <| Aligned.many (fun _ => rfl) <| Aligned.opt (fun _ => rfl) <| Aligned.opt (fun _ => rfl) <| Aligned.opt (fun _ => rfl) <| Aligned.opt (fun _ => rfl) <| Aligned.many (fun _ => rfl) <| trivial
  tovec x := by simp [codec, tovec, fields]
  complete h els _ hm := complete h els hm

theorem reports (h : Header) (els : List IE) (hm : schema.missing els ≠ []) :
    ∃ s ∈ schema.missing els, ∃ t, fromvec { dflt with header := h } els = .err (.messageMandatoryIEMissing t) ∧ kindOf t = s.kind := by
  obtain ⟨x, m0, hs, hv, hh, l0⟩ := flags h els
  unfold fromvec
  rw [hs]
  dsimp only [finish]
  cases m0 <;>
    first | exact ⟨_, Schema.mem_missing mand (by simp) l0, _, rfl, rfl⟩ | exact absurd (Schema.missing_nil mand (by simp [l0])) hm

theorem settled (h : Header) (els els' : List IE) (he : ∀ s ∈ schema, s.card.mandatory = true → s.lacks els = s.lacks els')
    (hm : schema.missing els ≠ []) : fromvec { dflt with header := h } els = fromvec { dflt with header := h } els' := by
  obtain ⟨x, m0, hs, hv, hh, l0⟩ := flags h els
  obtain ⟨x', m0', hs', hv', hh', l0'⟩ := flags h els'
  unfold fromvec
  rw [hs, hs']
  obtain rfl := Bool.not_inj (l0.symm.trans ((he _ (by decide) rfl).trans l0'))
  dsimp only [finish]
  cases m0 <;>
    first | rfl | exact absurd (Schema.missing_nil mand (by simp [l0])) hm

end ModifyAccessBearersResponse

/-- `ModifyBearerCommand` (modifybearercommand.rs:15-22). -/
structure ModifyBearerCommand where
  header : Header
  apnambr : V2.Ambr
  bearer_ctxs : List V2.BearerContext
  overload_info : List V2.OverloadControlInfo
  fteid_control : Option V2.Fteid
  private_ext : List V2.PrivateExtension
deriving DecidableEq

namespace ModifyBearerCommand

/-- `default` (modifybearercommand.rs:25-39). -/
def dflt : ModifyBearerCommand :=
  { header := { Header.default with msgtype := 64, teid := some 0 }, apnambr := V2.Ambr.dflt, bearer_ctxs := [], overload_info := [], fteid_control := none, private_ext := [] }

/-- `tovec` (modifybearercommand.rs:76-98). -/
def tovec (x : ModifyBearerCommand) : List IE :=
  [.ApnAmbr x.apnambr] ++ (
  x.bearer_ctxs.map .BearerContext ++ (
  x.overload_info.map .OverloadControlInfo ++ (
  optV .Fteid x.fteid_control ++ (
  x.private_ext.map .PrivateExtension))))

/-- The variables of `fromvec`: the message and the array `mandatory` (modifybearercommand.rs:100-135). -/
structure St where
  x : ModifyBearerCommand
  m0 : Bool
  m1 : Bool

/-- One turn of the loop of `fromvec` (modifybearercommand.rs:100-135). -/
def step (s : St) : IE → St
  | .ApnAmbr j => if j.ins = 0 ∧ s.m0 = false then { s with x := { s.x with apnambr := j }, m0 := true } else s
  | .BearerContext j => if j.ins = 0 ∧ s.m1 = false then { s with x := { s.x with bearer_ctxs := s.x.bearer_ctxs ++ [j] }, m1 := true } else s
  | .OverloadControlInfo j => if j.ins < 3 then { s with x := { s.x with overload_info := s.x.overload_info ++ [j] } } else s
  | .Fteid j => if j.ins = 0 ∧ s.x.fteid_control.isNone = true then { s with x := { s.x with fteid_control := some j } } else s
  | .PrivateExtension j => { s with x := { s.x with private_ext := s.x.private_ext ++ [j] } }
  | _ => s

/-- The end of `fromvec` (modifybearercommand.rs:100-135). -/
def finish (s : St) : R Err ModifyBearerCommand :=
  match s.m0, s.m1 with
  | false, false => .err (.messageMandatoryIEMissing 72)
  | false, true => .err (.messageMandatoryIEMissing 72)
  | true, false => .err (.messageMandatoryIEMissing 93)
  | true, true => .ok s.x

/-- `fromvec` (modifybearercommand.rs:100-135). -/
def fromvec (x : ModifyBearerCommand) (els : List IE) : R Err ModifyBearerCommand := finish (els.foldl step ⟨x, false, false⟩)

/-- The message type (modifybearercommand.rs:43-74). -/
def codec : Codec ModifyBearerCommand :=
  { msgtype := 64, start := some 12, dflt, header := header, setHeader := fun x h => { x with header := h }, tovec, fromvec }

/-- One slot per field. -/
def schema : Schema :=
  [⟨.ApnAmbr, .is 0, .one⟩,
   ⟨.BearerContext, .is 0, .manyFirst⟩,
   ⟨.OverloadControlInfo, .lt 3, .many⟩,
   ⟨.Fteid, .is 0, .opt⟩,
   ⟨.PrivateExtension, .any, .many⟩]

/-- The fields as lists of IEs. -/
def fields (x : ModifyBearerCommand) : List (List IE) :=
  [[.ApnAmbr x.apnambr],
   x.bearer_ctxs.map .BearerContext,
   x.overload_info.map .OverloadControlInfo,
   optV .Fteid x.fteid_control,
   x.private_ext.map .PrivateExtension]

/-- What the state has collected so far. -/
def St.view (s : St) : List (List IE) :=
  [if s.m0 then [.ApnAmbr s.x.apnambr] else [],
   s.x.bearer_ctxs.map .BearerContext,
   s.x.overload_info.map .OverloadControlInfo,
   optV .Fteid s.x.fteid_control,
   s.x.private_ext.map .PrivateExtension]

/-- The header is left alone; flags of mandatory lists tell whether the list is empty. -/
def St.Inv (h : Header) (s : St) : Prop :=
  s.x.header = h ∧ s.m1 = !s.x.bearer_ctxs.isEmpty

theorem step_view (h : Header) (s : St) (e : IE) (hi : s.Inv h) : (step s e).view = Schema.step schema s.view e ∧ (step s e).Inv h := by
  cases e
  case ApnAmbr j =>
    simp only [step]
    repeat' split
    all_goals refine ⟨cons_congr ?_ ((Schema.step_other rfl rfl).symm), ?_⟩
    all_goals first | exact hi | msg_field | (simp_all [St.Inv]; done)
  case BearerContext j =>
    have hi2 := hi.2
    simp only [step]
    repeat' split
    all_goals refine ⟨cons_congr (Slot.step_ne rfl).symm (cons_congr ?_ ((Schema.step_other rfl rfl).symm)), ?_⟩
    all_goals first | exact hi | msg_field | (simp_all [St.Inv]; done)
  case OverloadControlInfo j =>
    simp only [step]
    repeat' split
    all_goals refine ⟨cons_congr (Slot.step_ne rfl).symm (cons_congr (Slot.step_ne rfl).symm (cons_congr ?_ ((Schema.step_other rfl rfl).symm))), ?_⟩
    all_goals first | exact hi | msg_field | (simp_all [St.Inv]; done)
  case Fteid j =>
    simp only [step]
    repeat' split
    all_goals refine ⟨cons_congr (Slot.step_ne rfl).symm (cons_congr (Slot.step_ne rfl).symm (cons_congr (Slot.step_ne rfl).symm (cons_congr ?_ ((Schema.step_other rfl rfl).symm)))), ?_⟩
    all_goals first | exact hi | msg_field | (simp_all [St.Inv]; done)
  case PrivateExtension j =>
    simp only [step]
    all_goals refine ⟨cons_congr (Slot.step_ne rfl).symm (cons_congr (Slot.step_ne rfl).symm (cons_congr (Slot.step_ne rfl).symm (cons_congr (Slot.step_ne rfl).symm (cons_congr ?_ (rfl))))), ?_⟩
    all_goals first | exact hi | msg_field | (simp_all [St.Inv]; done)
  all_goals exact ⟨(Schema.step_other rfl rfl).symm, hi⟩

theorem loop (h : Header) (els : List IE) :
    (els.foldl step ⟨{ dflt with header := h }, false, false⟩).view = schema.map (·.select els) ∧ (els.foldl step ⟨{ dflt with header := h }, false, false⟩).Inv h := by
  have := foldl_view (Q := fun _ => True) (fun s e hp _ => step_view h s e hp) els ⟨{ dflt with header := h }, false, false⟩ (fun _ _ => trivial) (by simp [St.Inv, dflt])
  rw [show St.view ⟨{ dflt with header := h }, false, false⟩ = schema.map (fun _ => []) from rfl, Schema.foldl_nil] at this
  exact this

theorem ext {x y : ModifyBearerCommand} (hh : x.header = y.header) (h : fields x = fields y) : x = y := by
  cases x; cases y
  simp only at hh
  subst hh
  injection h with h0 h
  cases h0
  injection h with h1 h
  cases map_inj (fun _ _ h => IE.BearerContext.inj h) h1
  injection h with h2 h
  cases map_inj (fun _ _ h => IE.OverloadControlInfo.inj h) h2
  injection h with h3 h
  cases optV_inj (fun _ _ h => IE.Fteid.inj h) h3
  injection h with h4 h
  cases map_inj (fun _ _ h => IE.PrivateExtension.inj h) h4
  rfl

theorem mand : schema.filter (·.card.mandatory) = [(⟨.ApnAmbr, .is 0, .one⟩ : Slot), (⟨.BearerContext, .is 0, .manyFirst⟩ : Slot)] := rfl

/-- The flags tell which mandatory IEs are absent. -/
theorem flags (h : Header) (els : List IE) : ∃ x m0 m1, els.foldl step ⟨{ dflt with header := h }, false, false⟩ = ⟨x, m0, m1⟩ ∧ St.view ⟨x, m0, m1⟩ = schema.map (·.select els) ∧ x.header = h ∧
    (⟨.ApnAmbr, .is 0, .one⟩ : Slot).lacks els = (!m0) ∧
    (⟨.BearerContext, .is 0, .manyFirst⟩ : Slot).lacks els = (!m1) := by
  obtain ⟨hv, hi⟩ := loop h els
  generalize els.foldl step ⟨{ dflt with header := h }, false, false⟩ = s at hv hi ⊢
  obtain ⟨x, m0, m1⟩ := s
  simp only [St.Inv] at hi
  have l0 : (⟨.ApnAmbr, .is 0, .one⟩ : Slot).lacks els = (!m0) := by
    rw [Slot.lacks_eq els rfl]
    have e := congrArg (fun l => l.getD 0 []) hv
    rw [show (⟨.ApnAmbr, .is 0, .one⟩ : Slot).select els = if m0 then [.ApnAmbr x.apnambr] else [] from e.symm]
    cases m0 <;> rfl
  have l1 : (⟨.BearerContext, .is 0, .manyFirst⟩ : Slot).lacks els = (!m1) := by
    rw [Slot.lacks_eq els rfl]
    have e := congrArg (fun l => l.getD 1 []) hv
    rw [show (⟨.BearerContext, .is 0, .manyFirst⟩ : Slot).select els = x.bearer_ctxs.map .BearerContext from e.symm]
    rw [hi.2, Bool.not_not]
    cases x.bearer_ctxs <;> rfl
  exact ⟨x, m0, m1, rfl, hv, hi.1, l0, l1⟩

theorem complete (h : Header) (els : List IE) (hm : schema.missing els = []) : ∃ y, fromvec { dflt with header := h } els = .ok y ∧ y.header = h ∧ fields y = schema.map (·.select els) := by
  obtain ⟨x, m0, m1, hs, hv, hh, l0, l1⟩ := flags h els
  unfold fromvec
  rw [hs]
  dsimp only [finish]
  have f0 := l0.symm.trans (Schema.of_missing_nil mand (by simp) hm)
  have f1 := l1.symm.trans (Schema.of_missing_nil mand (by simp) hm)
  cases m0 <;> cases m1 <;> first | exact ⟨x, rfl, hh, hv⟩ | contradiction

theorem describes : Describes codec schema fields where
  header_set _ _ := rfl
  fields_set _ _ := rfl
  ext _ _ hh h := ext hh h
  shape x := Aligned.one (fun _ => rfl) <| Aligned.many (fun _ => rfl) <| Aligned.many (fun _ => rfl) <| Aligned.opt (fun _ => rfl) <| Aligned.many (fun _ => rfl) <| trivial
  tovec x := by simp [codec, tovec, fields]
  complete h els _ hm := complete h els hm

theorem reports (h : Header) (els : List IE) (hm : schema.missing els ≠ []) :
    ∃ s ∈ schema.missing els, ∃ t, fromvec { dflt with header := h } els = .err (.messageMandatoryIEMissing t) ∧ kindOf t = s.kind := by
  obtain ⟨x, m0, m1, hs, hv, hh, l0, l1⟩ := flags h els
  unfold fromvec
  rw [hs]
  dsimp only [finish]
  cases m0 <;> cases m1 <;>
    first | exact ⟨_, Schema.mem_missing mand (by simp) l0, _, rfl, rfl⟩ | exact ⟨_, Schema.mem_missing mand (by simp) l1, _, rfl, rfl⟩ | exact absurd (Schema.missing_nil mand (by simp [l0, l1])) hm

theorem settled (h : Header) (els els' : List IE) (he : ∀ s ∈ schema, s.card.mandatory = true → s.lacks els = s.lacks els')
    (hm : schema.missing els ≠ []) : fromvec { dflt with header := h } els = fromvec { dflt with header := h } els' := by
  obtain ⟨x, m0, m1, hs, hv, hh, l0, l1⟩ := flags h els
  obtain ⟨x', m0', m1', hs', hv', hh', l0', l1'⟩ := flags h els'
  unfold fromvec
  rw [hs, hs']
  obtain rfl := Bool.not_inj (l0.symm.trans ((he _ (by decide) rfl).trans l0'))
  obtain rfl := Bool.not_inj (l1.symm.trans ((he _ (by decide) rfl).trans l1'))
  dsimp only [finish]
  cases m0 <;> cases m1 <;>
    first | rfl | exact absurd (Schema.missing_nil mand (by simp [l0, l1])) hm

end ModifyBearerCommand

/-- `ModifyBearerFailureInd` (modifybearerfailureind.rs:15-22). -/
structure ModifyBearerFailureInd where
  header : Header
  cause : V2.Cause
  recovery : Option V2.Recovery
  indication : Option V2.Indication
  overload_info : List V2.OverloadControlInfo
  private_ext : List V2.PrivateExtension
deriving DecidableEq

namespace ModifyBearerFailureInd

/-- `default` (modifybearerfailureind.rs:25-39). -/
def dflt : ModifyBearerFailureInd :=
  { header := { Header.default with msgtype := 65, teid := some 0 }, cause := V2.Cause.dflt, recovery := none, indication := none, overload_info := [], private_ext := [] }

/-- `tovec` (modifybearerfailureind.rs:76-97). -/
def tovec (x : ModifyBearerFailureInd) : List IE :=
  [.Cause x.cause] ++ (
  optV .Recovery x.recovery ++ (
  optV .Indication x.indication ++ (
  x.overload_info.map .OverloadControlInfo ++ (
  x.private_ext.map .PrivateExtension))))

/-- The variables of `fromvec`: the message and the array `mandatory` (modifybearerfailureind.rs:99-132). -/
structure St where
  x : ModifyBearerFailureInd
  m0 : Bool

/-- One turn of the loop of `fromvec` (modifybearerfailureind.rs:99-132). -/
def step (s : St) : IE → St
  | .Cause j => if j.ins = 0 ∧ s.m0 = false then { s with x := { s.x with cause := j }, m0 := true } else s
  | .Recovery j => if j.ins = 0 ∧ s.x.recovery.isNone = true then { s with x := { s.x with recovery := some j } } else s
  | .Indication j => if j.ins = 0 ∧ s.x.indication.isNone = true then { s with x := { s.x with indication := some j } } else s
  | .OverloadControlInfo j => if j.ins < 2 then { s with x := { s.x with overload_info := s.x.overload_info ++ [j] } } else s
  | .PrivateExtension j => { s with x := { s.x with private_ext := s.x.private_ext ++ [j] } }
  | _ => s

/-- The end of `fromvec` (modifybearerfailureind.rs:99-132). -/
def finish (s : St) : R Err ModifyBearerFailureInd :=
  if s.m0 then .ok s.x else .err (.messageMandatoryIEMissing 2)

/-- `fromvec` (modifybearerfailureind.rs:99-132). -/
def fromvec (x : ModifyBearerFailureInd) (els : List IE) : R Err ModifyBearerFailureInd := finish (els.foldl step ⟨x, false⟩)

/-- The message type (modifybearerfailureind.rs:43-74). -/
def codec : Codec ModifyBearerFailureInd :=
  { msgtype := 65, start := some 12, dflt, header := header, setHeader := fun x h => { x with header := h }, tovec, fromvec }

/-- One slot per field. -/
def schema : Schema :=
  [⟨.Cause, .is 0, .one⟩,
   ⟨.Recovery, .is 0, .opt⟩,
   ⟨.Indication, .is 0, .opt⟩,
   ⟨.OverloadControlInfo, .lt 2, .many⟩,
   ⟨.PrivateExtension, .any, .many⟩]

/-- The fields as lists of IEs. -/
def fields (x : ModifyBearerFailureInd) : List (List IE) :=
  [[.Cause x.cause],
   optV .Recovery x.recovery,
   optV .Indication x.indication,
   x.overload_info.map .OverloadControlInfo,
   x.private_ext.map .PrivateExtension]

/-- What the state has collected so far. -/
def St.view (s : St) : List (List IE) :=
  [if s.m0 then [.Cause s.x.cause] else [],
   optV .Recovery s.x.recovery,
   optV .Indication s.x.indication,
   s.x.overload_info.map .OverloadControlInfo,
   s.x.private_ext.map .PrivateExtension]

/-- The header is left alone; flags of mandatory lists tell whether the list is empty. -/
def St.Inv (h : Header) (s : St) : Prop :=
  s.x.header = h

theorem step_view (h : Header) (s : St) (e : IE) (hi : s.Inv h) : (step s e).view = Schema.step schema s.view e ∧ (step s e).Inv h := by
  cases e
  case Cause j =>
    simp only [step]
    repeat' split
    all_goals refine ⟨cons_congr ?_ ((Schema.step_other rfl rfl).symm), ?_⟩
    all_goals first | exact hi | msg_field | (simp_all [St.Inv]; done)
  case Recovery j =>
    simp only [step]
    repeat' split
    all_goals refine ⟨cons_congr (Slot.step_ne rfl).symm (cons_congr ?_ ((Schema.step_other rfl rfl).symm)), ?_⟩
    all_goals first | exact hi | msg_field | (simp_all [St.Inv]; done)
  case Indication j =>
    simp only [step]
    repeat' split
    all_goals refine ⟨cons_congr (Slot.step_ne rfl).symm (cons_congr (Slot.step_ne rfl).symm (cons_congr ?_ ((Schema.step_other rfl rfl).symm))), ?_⟩
    all_goals first | exact hi | msg_field | (simp_all [St.Inv]; done)
  case OverloadControlInfo j =>
    simp only [step]
    repeat' split
    all_goals refine ⟨cons_congr (Slot.step_ne rfl).symm (cons_congr (Slot.step_ne rfl).symm (cons_congr (Slot.step_ne rfl).symm (cons_congr ?_ ((Schema.step_other rfl rfl).symm)))), ?_⟩
    all_goals first | exact hi | msg_field | (simp_all [St.Inv]; done)
  case PrivateExtension j =>
    simp only [step]
    all_goals refine ⟨cons_congr (Slot.step_ne rfl).symm (cons_congr (Slot.step_ne rfl).symm (cons_congr (Slot.step_ne rfl).symm (cons_congr (Slot.step_ne rfl).symm (cons_congr ?_ (rfl))))), ?_⟩
    all_goals first | exact hi | msg_field | (simp_all [St.Inv]; done)
  all_goals exact ⟨(Schema.step_other rfl rfl).symm, hi⟩

theorem loop (h : Header) (els : List IE) :
    (els.foldl step ⟨{ dflt with header := h }, false⟩).view = schema.map (·.select els) ∧ (els.foldl step ⟨{ dflt with header := h }, false⟩).Inv h := by
  have := foldl_view (Q := fun _ => True) (fun s e hp _ => step_view h s e hp) els ⟨{ dflt with header := h }, false⟩ (fun _ _ => trivial) (by simp [St.Inv])
  rw [show St.view ⟨{ dflt with header := h }, false⟩ = schema.map (fun _ => []) from rfl, Schema.foldl_nil] at this
  exact this

theorem ext {x y : ModifyBearerFailureInd} (hh : x.header = y.header) (h : fields x = fields y) : x = y := by
  cases x; cases y
  simp only at hh
  subst hh
  injection h with h0 h
  cases h0
  injection h with h1 h
  cases optV_inj (fun _ _ h => IE.Recovery.inj h) h1
  injection h with h2 h
  cases optV_inj (fun _ _ h => IE.Indication.inj h) h2
  injection h with h3 h
  cases map_inj (fun _ _ h => IE.OverloadControlInfo.inj h) h3
  injection h with h4 h
  cases map_inj (fun _ _ h => IE.PrivateExtension.inj h) h4
  rfl

theorem mand : schema.filter (·.card.mandatory) = [(⟨.Cause, .is 0, .one⟩ : Slot)] := rfl

/-- The flags tell which mandatory IEs are absent. -/
theorem flags (h : Header) (els : List IE) : ∃ x m0, els.foldl step ⟨{ dflt with header := h }, false⟩ = ⟨x, m0⟩ ∧ St.view ⟨x, m0⟩ = schema.map (·.select els) ∧ x.header = h ∧
    (⟨.Cause, .is 0, .one⟩ : Slot).lacks els = (!m0) := by
  obtain ⟨hv, hi⟩ := loop h els
  generalize els.foldl step ⟨{ dflt with header := h }, false⟩ = s at hv hi ⊢
  obtain ⟨x, m0⟩ := s
  simp only [St.Inv] at hi
  have l0 : (⟨.Cause, .is 0, .one⟩ : Slot).lacks els = (!m0) := by
    rw [Slot.lacks_eq els rfl]
    have e := congrArg (fun l => l.getD 0 []) hv
    rw [show (⟨.Cause, .is 0, .one⟩ : Slot).select els = if m0 then [.Cause x.cause] else [] from e.symm]
    cases m0 <;> rfl
  exact ⟨x, m0, rfl, hv, hi, l0⟩

theorem complete (h : Header) (els : List IE) (hm : schema.missing els = []) : ∃ y, fromvec { dflt with header := h } els = .ok y ∧ y.header = h ∧ fields y = schema.map (·.select els) := by
  obtain ⟨x, m0, hs, hv, hh, l0⟩ := flags h els
  unfold fromvec
  rw [hs]
  dsimp only [finish]
  have f0 := l0.symm.trans (Schema.of_missing_nil mand (by simp) hm)
  cases m0 <;> first | exact ⟨x, rfl, hh, hv⟩ | contradiction

theorem describes : Describes codec schema fields where
  header_set _ _ := rfl
  fields_set _ _ := rfl
  ext _ _ hh h := ext hh h
  shape x := Aligned.one (fun _ => rfl) <| Aligned.opt (fun _ => rfl) <| Aligned.opt (fun _ => rfl) <| Aligned.many (fun _ => rfl) <| Aligned.many (fun _ => rfl) <| trivial
  tovec x := by simp [codec, tovec, fields]
  complete h els _ hm := complete h els hm

theorem reports (h : Header) (els : List IE) (hm : schema.missing els ≠ []) :
    ∃ s ∈ schema.missing els, ∃ t, fromvec { dflt with header := h } els = .err (.messageMandatoryIEMissing t) ∧ kindOf t = s.kind := by
  obtain ⟨x, m0, hs, hv, hh, l0⟩ := flags h els
  unfold fromvec
  rw [hs]
  dsimp only [finish]
  cases m0 <;>
    first | exact ⟨_, Schema.mem_missing mand (by simp) l0, _, rfl, rfl⟩ | exact absurd (Schema.missing_nil mand (by simp [l0])) hm

theorem settled (h : Header) (els els' : List IE) (he : ∀ s ∈ schema, s.card.mandatory = true → s.lacks els = s.lacks els')
    (hm : schema.missing els ≠ []) : fromvec { dflt with header := h } els = fromvec { dflt with header := h } els' := by
  obtain ⟨x, m0, hs, hv, hh, l0⟩ := flags h els
  obtain ⟨x', m0', hs', hv', hh', l0'⟩ := flags h els'
  unfold fromvec
  rw [hs, hs']
  obtain rfl := Bool.not_inj (l0.symm.trans ((he _ (by decide) rfl).trans l0'))
  dsimp only [finish]
  cases m0 <;>
    first | rfl | exact absurd (Schema.missing_nil mand (by simp [l0])) hm

end ModifyBearerFailureInd

end Gtp.V2.Msg
