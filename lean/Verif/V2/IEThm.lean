import Verif.V2.IE

/-!
# Facts about the encoder and decoder of IE sequences

Generated by `scripts/gen_sum.py`.
-/

namespace Gtp.V2

theorem flatMap_ext {α β : Type} {f g : α → List β} : {l : List α} → (∀ x ∈ l, f x = g x) → l.flatMap f = l.flatMap g
  | [], _ => rfl
  | x :: l, h => by
    rw [List.flatMap_cons, List.flatMap_cons, h x List.mem_cons_self,
      flatMap_ext fun y hy => h y (List.mem_cons_of_mem _ hy)]

theorem mem_optV {α : Type} {f : α → IE} {o : Option α} {e : IE} : e ∈ optV f o ↔ ∃ k, o = some k ∧ e = f k := by
  cases o <;> simp [optV, eq_comm]

theorem foldl_optV {σ α : Type} (step : σ → IE → σ) (f : α → IE) (s : σ) (o : Option α) :
    (optV f o).foldl step s = match o with | none => s | some k => step s (f k) := by
  cases o <;> rfl

namespace BearerContext

/-- The members are of the kinds and instances that the decoder keeps. -/
def Slots (x : BearerContext) : Prop :=
  (x.ebi.ins = 0) ∧
  (∀ k ∈ x.cause, k.ins = 0) ∧
  (∀ k ∈ x.tft, k.ins = 0) ∧
  (∀ k ∈ x.bearer_qos, k.ins = 0) ∧
  (∀ k ∈ x.charging_id, k.ins = 0) ∧
  (∀ k ∈ x.bearer_flags, k.ins = 0) ∧
  (∀ k ∈ x.pco, k.ins = 0) ∧
  (∀ k ∈ x.apco, k.ins = 0) ∧
  (∀ k ∈ x.epco, k.ins = 0) ∧
  (∀ k ∈ x.max_packet_loss, k.ins = 0) ∧
  (∀ k ∈ x.ran_nas_cause, k.ins = 0) ∧
  (x.bss_container = none) ∧
  (x.transaction_id = none)

instance (x : BearerContext) : Decidable x.Slots := by unfold Slots; infer_instance

section
variable (s : BearerContext × Bool)

theorem seg_cause {o : Option Cause} (hs : s.1.cause = none) (h : ∀ k ∈ o, k.ins = 0) :
    (optV .Cause o).foldl step s = ({ s.1 with cause := o }, s.2) := by
  cases o with
  | none => simp only [optV, Option.toList_none, List.map_nil, List.foldl_nil]; rw [← hs]
  | some k => simp [optV, step, hs, h k rfl]

theorem seg_ebi {k : Ebi} (hs : s.2 = false) (h : k.ins = 0) : [IE.Ebi k].foldl step s = ({ s.1 with ebi := k }, true) := by
  simp [step, h, hs]

theorem seg_tft {o : Option BearerTft} (hs : s.1.tft = none) (h : ∀ k ∈ o, k.ins = 0) :
    (optV .BearerTft o).foldl step s = ({ s.1 with tft := o }, s.2) := by
  cases o with
  | none => simp only [optV, Option.toList_none, List.map_nil, List.foldl_nil]; rw [← hs]
  | some k => simp [optV, step, hs, h k rfl]

theorem seg_fteids {l : List Fteid} :
    (l.map .Fteid).foldl step s = ({ s.1 with fteids := s.1.fteids ++ l }, s.2) := by
  induction l generalizing s with
  | nil => simp
  | cons k l ih =>
    simp only [List.map_cons, List.foldl_cons]
    rw [ih _]
    simp [step]

theorem seg_bearer_qos {o : Option BearerQos} (hs : s.1.bearer_qos = none) (h : ∀ k ∈ o, k.ins = 0) :
    (optV .BearerQos o).foldl step s = ({ s.1 with bearer_qos := o }, s.2) := by
  cases o with
  | none => simp only [optV, Option.toList_none, List.map_nil, List.foldl_nil]; rw [← hs]
  | some k => simp [optV, step, hs, h k rfl]

theorem seg_charging_id {o : Option ChargingId} (hs : s.1.charging_id = none) (h : ∀ k ∈ o, k.ins = 0) :
    (optV .ChargingId o).foldl step s = ({ s.1 with charging_id := o }, s.2) := by
  cases o with
  | none => simp only [optV, Option.toList_none, List.map_nil, List.foldl_nil]; rw [← hs]
  | some k => simp [optV, step, hs, h k rfl]

theorem seg_bearer_flags {o : Option BearerFlags} (hs : s.1.bearer_flags = none) (h : ∀ k ∈ o, k.ins = 0) :
    (optV .BearerFlags o).foldl step s = ({ s.1 with bearer_flags := o }, s.2) := by
  cases o with
  | none => simp only [optV, Option.toList_none, List.map_nil, List.foldl_nil]; rw [← hs]
  | some k => simp [optV, step, hs, h k rfl]

theorem seg_pco {o : Option Pco} (hs : s.1.pco = none) (h : ∀ k ∈ o, k.ins = 0) :
    (optV .Pco o).foldl step s = ({ s.1 with pco := o }, s.2) := by
  cases o with
  | none => simp only [optV, Option.toList_none, List.map_nil, List.foldl_nil]; rw [← hs]
  | some k => simp [optV, step, hs, h k rfl]

theorem seg_apco {o : Option Apco} (hs : s.1.apco = none) (h : ∀ k ∈ o, k.ins = 0) :
    (optV .Apco o).foldl step s = ({ s.1 with apco := o }, s.2) := by
  cases o with
  | none => simp only [optV, Option.toList_none, List.map_nil, List.foldl_nil]; rw [← hs]
  | some k => simp [optV, step, hs, h k rfl]

theorem seg_epco {o : Option Epco} (hs : s.1.epco = none) (h : ∀ k ∈ o, k.ins = 0) :
    (optV .Epco o).foldl step s = ({ s.1 with epco := o }, s.2) := by
  cases o with
  | none => simp only [optV, Option.toList_none, List.map_nil, List.foldl_nil]; rw [← hs]
  | some k => simp [optV, step, hs, h k rfl]

theorem seg_max_packet_loss {o : Option MaxPacketLossRate} (hs : s.1.max_packet_loss = none) (h : ∀ k ∈ o, k.ins = 0) :
    (optV .MaxPacketLossRate o).foldl step s = ({ s.1 with max_packet_loss := o }, s.2) := by
  cases o with
  | none => simp only [optV, Option.toList_none, List.map_nil, List.foldl_nil]; rw [← hs]
  | some k => simp [optV, step, hs, h k rfl]

theorem seg_ran_nas_cause {o : Option RanNasCause} (hs : s.1.ran_nas_cause = none) (h : ∀ k ∈ o, k.ins = 0) :
    (optV .RanNasCause o).foldl step s = ({ s.1 with ran_nas_cause := o }, s.2) := by
  cases o with
  | none => simp only [optV, Option.toList_none, List.map_nil, List.foldl_nil]; rw [← hs]
  | some k => simp [optV, step, hs, h k rfl]

end

theorem ofGroup_toVec {x : BearerContext} (h : x.Slots) : ofGroup x.t x.length x.ins x.toVec = x := by
  obtain ⟨t, length, ins, ebi, cause, tft, fteids, bearer_qos, charging_id, bearer_flags, pco, apco, epco, max_packet_loss, ran_nas_cause, bss_container, transaction_id⟩ := x
  obtain ⟨h_ebi, h_cause, h_tft, h_bearer_qos, h_charging_id, h_bearer_flags, h_pco, h_apco, h_epco, h_max_packet_loss, h_ran_nas_cause, h_bss_container, h_transaction_id⟩ := h
  simp only at h_ebi h_cause h_tft h_bearer_qos h_charging_id h_bearer_flags h_pco h_apco h_epco h_max_packet_loss h_ran_nas_cause h_bss_container h_transaction_id
  subst h_bss_container h_transaction_id
  simp only [ofGroup, toVec, List.foldl_append, init]
  rw [seg_cause _ (by rfl) h_cause]
  rw [seg_ebi _ (by rfl) h_ebi]
  rw [seg_tft _ (by rfl) h_tft]
  rw [seg_fteids _]
  rw [seg_bearer_qos _ (by rfl) h_bearer_qos]
  rw [seg_charging_id _ (by rfl) h_charging_id]
  rw [seg_bearer_flags _ (by rfl) h_bearer_flags]
  rw [seg_pco _ (by rfl) h_pco]
  rw [seg_apco _ (by rfl) h_apco]
  rw [seg_epco _ (by rfl) h_epco]
  rw [seg_max_packet_loss _ (by rfl) h_max_packet_loss]
  rw [seg_ran_nas_cause _ (by rfl) h_ran_nas_cause]
  simp

end BearerContext

namespace LoadControl

/-- The members are of the kinds and instances that the decoder keeps. -/
def Slots (x : LoadControl) : Prop :=
  (x.list = none ∨ (x.list.getD []).length = 1)

instance (x : LoadControl) : Decidable x.Slots := by unfold Slots; infer_instance

section
variable (s : LoadControl)

theorem seg_sqn {k : Sqn} : [IE.Sqn k].foldl step s = { s with sqn := k } := by
  simp [step]

theorem seg_load_metric {k : Metric} : [IE.Metric k].foldl step s = { s with load_metric := k } := by
  simp [step]

theorem seg_list {o : Option (List ApnRelativeCapacity)} (hs : s.list = none) (h : o = none ∨ (o.getD []).length = 1) :
    ((o.getD []).map .ApnRelativeCapacity).foldl step s = { s with list := o } := by
  match o, h with
  | none, _ => simp only [Option.getD_none, List.map_nil, List.foldl_nil]; rw [← hs]
  | some [k], _ => rfl
  | some [], h => simp at h
  | some (_ :: _ :: _), h => simp at h

end

theorem ofGroup_toVec {x : LoadControl} (h : x.Slots) : ofGroup x.t x.length x.ins x.toVec = x := by
  obtain ⟨t, length, ins, sqn, load_metric, list⟩ := x
  have h_list := h
  unfold Slots at h_list
  simp only at h_list
  simp only [ofGroup, toVec, List.foldl_append, init]
  rw [seg_sqn _]
  rw [seg_load_metric _]
  rw [seg_list _ (by rfl) h_list]
  

end LoadControl

namespace OverloadControlInfo

/-- The members are of the kinds and instances that the decoder keeps. -/
def Slots (x : OverloadControlInfo) : Prop :=
  (x.list = none ∨ (x.list.getD []).length = 1)

instance (x : OverloadControlInfo) : Decidable x.Slots := by unfold Slots; infer_instance

section
variable (s : OverloadControlInfo)

theorem seg_sqn {k : Sqn} : [IE.Sqn k].foldl step s = { s with sqn := k } := by
  simp [step]

theorem seg_metric {k : Metric} : [IE.Metric k].foldl step s = { s with metric := k } := by
  simp [step]

theorem seg_validity {k : EpcTimer} : [IE.EpcTimer k].foldl step s = { s with validity := k } := by
  simp [step]

theorem seg_list {o : Option (List Apn)} (hs : s.list = none) (h : o = none ∨ (o.getD []).length = 1) :
    ((o.getD []).map .Apn).foldl step s = { s with list := o } := by
  match o, h with
  | none, _ => simp only [Option.getD_none, List.map_nil, List.foldl_nil]; rw [← hs]
  | some [k], _ => rfl
  | some [], h => simp at h
  | some (_ :: _ :: _), h => simp at h

end

theorem ofGroup_toVec {x : OverloadControlInfo} (h : x.Slots) : ofGroup x.t x.length x.ins x.toVec = x := by
  obtain ⟨t, length, ins, sqn, metric, validity, list⟩ := x
  have h_list := h
  unfold Slots at h_list
  simp only at h_list
  simp only [ofGroup, toVec, List.foldl_append, init]
  rw [seg_sqn _]
  rw [seg_metric _]
  rw [seg_validity _]
  rw [seg_list _ (by rfl) h_list]
  

end OverloadControlInfo

namespace RemoteUeContext

/-- The members are of the kinds and instances that the decoder keeps. -/
def Slots (x : RemoteUeContext) : Prop :=
  True

instance (x : RemoteUeContext) : Decidable x.Slots := by unfold Slots; infer_instance

section
variable (s : RemoteUeContext)

theorem seg_user_id {k : RemoteUserId} : [IE.RemoteUserId k].foldl step s = { s with user_id := k } := by
  simp [step]

theorem seg_ue_ip {o : Option RemoteUeIpInformation} (hs : s.ue_ip = none) :
    (optV .RemoteUeIpInformation o).foldl step s = { s with ue_ip := o } := by
  cases o with
  | none => simp only [optV, Option.toList_none, List.map_nil, List.foldl_nil]; rw [← hs]
  | some k => simp [optV, step, hs]

end

theorem ofGroup_toVec {x : RemoteUeContext} (h : x.Slots) : ofGroup x.t x.length x.ins x.toVec = x := by
  obtain ⟨t, length, ins, user_id, ue_ip⟩ := x
  simp only [ofGroup, toVec, List.foldl_append, init]
  rw [seg_user_id _]
  rw [seg_ue_ip _ (by rfl)]
  

end RemoteUeContext

namespace ScefPdnConnections

/-- The members are of the kinds and instances that the decoder keeps. -/
def Slots (x : ScefPdnConnections) : Prop :=
  (x.apn.ins = 0) ∧
  (x.default_ebi.ins = 0) ∧
  (x.scef_id.ins = 0)

instance (x : ScefPdnConnections) : Decidable x.Slots := by unfold Slots; infer_instance

section
variable (s : ScefPdnConnections)

theorem seg_apn {k : Apn} (h : k.ins = 0) : [IE.Apn k].foldl step s = { s with apn := k } := by
  simp [step, h]

theorem seg_default_ebi {k : Ebi} (h : k.ins = 0) : [IE.Ebi k].foldl step s = { s with default_ebi := k } := by
  simp [step, h]

theorem seg_scef_id {k : NodeIdentifier} (h : k.ins = 0) : [IE.NodeIdentifier k].foldl step s = { s with scef_id := k } := by
  simp [step, h]

end

theorem ofGroup_toVec {x : ScefPdnConnections} (h : x.Slots) : ofGroup x.t x.length x.ins x.toVec = x := by
  obtain ⟨t, length, ins, apn, default_ebi, scef_id⟩ := x
  obtain ⟨h_apn, h_default_ebi, h_scef_id⟩ := h
  simp only at h_apn h_default_ebi h_scef_id
  simp only [ofGroup, toVec, List.foldl_append, init]
  rw [seg_apn _ h_apn]
  rw [seg_default_ebi _ h_default_ebi]
  rw [seg_scef_id _ h_scef_id]
  

end ScefPdnConnections

namespace PC5QosParameters

/-- The members are of the kinds and instances that the decoder keeps. -/
def Slots (x : PC5QosParameters) : Prop :=
  (∀ k ∈ x.pc5_qos_flows, k.ins = 0) ∧
  (∀ k ∈ x.pc5_link_abrs, k.ins = 0) ∧
  (x.pc5_qos_flows ≠ [])

instance (x : PC5QosParameters) : Decidable x.Slots := by unfold Slots; infer_instance

section
variable (s : PC5QosParameters)

theorem seg_pc5_qos_flows {l : List PC5QosFlow} (h : ∀ k ∈ l, k.ins = 0) :
    (l.map .PC5QosFlow).foldl step s = { s with pc5_qos_flows := s.pc5_qos_flows ++ l } := by
  induction l generalizing s with
  | nil => simp
  | cons k l ih =>
    simp only [List.map_cons, List.foldl_cons]
    rw [ih _ (fun k hk => h k (List.mem_cons_of_mem _ hk))]
    simp [step, h k List.mem_cons_self]

theorem seg_pc5_link_abrs {o : Option BitRate} (hs : s.pc5_link_abrs = none) (h : ∀ k ∈ o, k.ins = 0) :
    (optV .BitRate o).foldl step s = { s with pc5_link_abrs := o } := by
  cases o with
  | none => simp only [optV, Option.toList_none, List.map_nil, List.foldl_nil]; rw [← hs]
  | some k => simp [optV, step, hs, h k rfl]

end

theorem ofGroup_toVec {x : PC5QosParameters} (h : x.Slots) : ofGroup x.t x.length x.ins x.toVec = x := by
  obtain ⟨t, length, ins, pc5_qos_flows, pc5_link_abrs⟩ := x
  obtain ⟨h_pc5_qos_flows, h_pc5_link_abrs, h_ne⟩ := h
  simp only at h_pc5_qos_flows h_pc5_link_abrs h_ne
  simp only [ofGroup, toVec, List.foldl_append, init]
  rw [seg_pc5_qos_flows _ h_pc5_qos_flows]
  rw [seg_pc5_link_abrs _ (by rfl) h_pc5_link_abrs]
  simp

end PC5QosParameters

namespace PgwChangeInfo

/-- The members are of the kinds and instances that the decoder keeps. -/
def Slots (x : PgwChangeInfo) : Prop :=
  (∀ k ∈ x.pgw_fqdns, k.ins < 2) ∧
  (∀ k ∈ x.sgw_pgw_smf_ips, k.ins < 4) ∧
  (∀ k ∈ x.pgw_smf_fqcsid, k.ins = 0) ∧
  (∀ k ∈ x.groupids, k.ins < 2)

instance (x : PgwChangeInfo) : Decidable x.Slots := by unfold Slots; infer_instance

section
variable (s : PgwChangeInfo)

theorem seg_sgw_pgw_smf_ips {l : List IpAddress} (h : ∀ k ∈ l, k.ins < 4) :
    (l.map .IpAddress).foldl step s = { s with sgw_pgw_smf_ips := s.sgw_pgw_smf_ips ++ l } := by
  induction l generalizing s with
  | nil => simp
  | cons k l ih =>
    simp only [List.map_cons, List.foldl_cons]
    rw [ih _ (fun k hk => h k (List.mem_cons_of_mem _ hk))]
    simp [step, h k List.mem_cons_self]

theorem seg_pgw_fqdns {l : List PgwFqdn} (h : ∀ k ∈ l, k.ins < 2) :
    (l.map .PgwFqdn).foldl step s = { s with pgw_fqdns := s.pgw_fqdns ++ l } := by
  induction l generalizing s with
  | nil => simp
  | cons k l ih =>
    simp only [List.map_cons, List.foldl_cons]
    rw [ih _ (fun k hk => h k (List.mem_cons_of_mem _ hk))]
    simp [step, h k List.mem_cons_self]

theorem seg_pgw_smf_fqcsid {l : List Fqcsid} (h : ∀ k ∈ l, k.ins = 0) :
    (l.map .Fqcsid).foldl step s = { s with pgw_smf_fqcsid := s.pgw_smf_fqcsid ++ l } := by
  induction l generalizing s with
  | nil => simp
  | cons k l ih =>
    simp only [List.map_cons, List.foldl_cons]
    rw [ih _ (fun k hk => h k (List.mem_cons_of_mem _ hk))]
    simp [step, h k List.mem_cons_self]

theorem seg_groupids {l : List GroupId} (h : ∀ k ∈ l, k.ins < 2) :
    (l.map .GroupId).foldl step s = { s with groupids := s.groupids ++ l } := by
  induction l generalizing s with
  | nil => simp
  | cons k l ih =>
    simp only [List.map_cons, List.foldl_cons]
    rw [ih _ (fun k hk => h k (List.mem_cons_of_mem _ hk))]
    simp [step, h k List.mem_cons_self]

end

theorem ofGroup_toVec {x : PgwChangeInfo} (h : x.Slots) : ofGroup x.t x.length x.ins x.toVec = x := by
  obtain ⟨t, length, ins, pgw_fqdns, sgw_pgw_smf_ips, pgw_smf_fqcsid, groupids⟩ := x
  obtain ⟨h_pgw_fqdns, h_sgw_pgw_smf_ips, h_pgw_smf_fqcsid, h_groupids⟩ := h
  simp only at h_pgw_fqdns h_sgw_pgw_smf_ips h_pgw_smf_fqcsid h_groupids
  simp only [ofGroup, toVec, List.foldl_append, init]
  rw [seg_sgw_pgw_smf_ips _ h_sgw_pgw_smf_ips]
  rw [seg_pgw_fqdns _ h_pgw_fqdns]
  rw [seg_pgw_smf_fqcsid _ h_pgw_smf_fqcsid]
  rw [seg_groupids _ h_groupids]
  simp

end PgwChangeInfo

namespace PdnConnections

/-- The members are of the kinds and instances that the decoder keeps. -/
def Slots (x : PdnConnections) : Prop :=
  (x.apn.ins = 0) ∧
  (∀ k ∈ x.apn_restriction, k.ins = 0) ∧
  (∀ k ∈ x.selection_mode, k.ins = 0) ∧
  (∀ k ∈ x.ipv4, k.ins = 0) ∧
  (∀ k ∈ x.ipv6, k.ins = 1) ∧
  (x.linked_ebi.ins = 0) ∧
  (x.pgw_addr_control.ins = 0) ∧
  (∀ k ∈ x.pgw_node_name, k.ins = 0) ∧
  (∀ k ∈ x.bearer_ctxs, k.ins = 0) ∧
  (x.apn_ambr.ins = 0) ∧
  (∀ k ∈ x.charging_char, k.ins = 0) ∧
  (∀ k ∈ x.change_reporting_action, k.ins = 0) ∧
  (∀ k ∈ x.csg_info_reporting_action, k.ins = 0) ∧
  (∀ k ∈ x.henb_info_reporting, k.ins = 0) ∧
  (∀ k ∈ x.indication, k.ins = 0) ∧
  (∀ k ∈ x.signalling_priority_indication, k.ins = 0) ∧
  (∀ k ∈ x.change_to_report_flags, k.ins = 0) ∧
  (∀ k ∈ x.local_home_network_id, k.ins = 1) ∧
  (∀ k ∈ x.praa, k.ins = 0) ∧
  (∀ k ∈ x.wlan_offloadability, k.ins = 0) ∧
  (∀ k ∈ x.remote_ue_ctxs, k.ins = 0) ∧
  (∀ k ∈ x.pdn_type, k.ins = 0) ∧
  (∀ k ∈ x.hdr_compr_config, k.ins = 0) ∧
  (x.pgw_change_info = none) ∧
  (x.up_security_policy = none)

instance (x : PdnConnections) : Decidable x.Slots := by unfold Slots; infer_instance

section
variable (s : PdnConnections)

theorem seg_apn {k : Apn} (h : k.ins = 0) : [IE.Apn k].foldl step s = { s with apn := k } := by
  simp [step, h]

theorem seg_apn_restriction {o : Option ApnRestriction} (hs : s.apn_restriction = none) (h : ∀ k ∈ o, k.ins = 0) :
    (optV .ApnRestriction o).foldl step s = { s with apn_restriction := o } := by
  cases o with
  | none => simp only [optV, Option.toList_none, List.map_nil, List.foldl_nil]; rw [← hs]
  | some k => simp [optV, step, hs, h k rfl]

theorem seg_selection_mode {o : Option SelectionMode} (hs : s.selection_mode = none) (h : ∀ k ∈ o, k.ins = 0) :
    (optV .SelectionMode o).foldl step s = { s with selection_mode := o } := by
  cases o with
  | none => simp only [optV, Option.toList_none, List.map_nil, List.foldl_nil]; rw [← hs]
  | some k => simp [optV, step, hs, h k rfl]

theorem seg_ipv4 {o : Option IpAddress} (hs : s.ipv4 = none) (h : ∀ k ∈ o, k.ins = 0) :
    (optV .IpAddress o).foldl step s = { s with ipv4 := o } := by
  cases o with
  | none => simp only [optV, Option.toList_none, List.map_nil, List.foldl_nil]; rw [← hs]
  | some k => simp [optV, step, hs, h k rfl]

theorem seg_ipv6 {o : Option IpAddress} (hs : s.ipv6 = none) (h : ∀ k ∈ o, k.ins = 1) :
    (optV .IpAddress o).foldl step s = { s with ipv6 := o } := by
  cases o with
  | none => simp only [optV, Option.toList_none, List.map_nil, List.foldl_nil]; rw [← hs]
  | some k => simp [optV, step, hs, h k rfl]

theorem seg_linked_ebi {k : Ebi} (h : k.ins = 0) : [IE.Ebi k].foldl step s = { s with linked_ebi := k } := by
  simp [step, h]

theorem seg_pgw_addr_control {k : Fteid} (h : k.ins = 0) : [IE.Fteid k].foldl step s = { s with pgw_addr_control := k } := by
  simp [step, h]

theorem seg_pgw_node_name {o : Option Fqdn} (hs : s.pgw_node_name = none) (h : ∀ k ∈ o, k.ins = 0) :
    (optV .Fqdn o).foldl step s = { s with pgw_node_name := o } := by
  cases o with
  | none => simp only [optV, Option.toList_none, List.map_nil, List.foldl_nil]; rw [← hs]
  | some k => simp [optV, step, hs, h k rfl]

theorem seg_bearer_ctxs {l : List BearerContext} (h : ∀ k ∈ l, k.ins = 0) :
    (l.map .BearerContext).foldl step s = { s with bearer_ctxs := s.bearer_ctxs ++ l } := by
  induction l generalizing s with
  | nil => simp
  | cons k l ih =>
    simp only [List.map_cons, List.foldl_cons]
    rw [ih _ (fun k hk => h k (List.mem_cons_of_mem _ hk))]
    simp [step, h k List.mem_cons_self]

theorem seg_apn_ambr {k : Ambr} (h : k.ins = 0) : [IE.ApnAmbr k].foldl step s = { s with apn_ambr := k } := by
  simp [step, h]

theorem seg_charging_char {o : Option ChargingCharacteristics} (hs : s.charging_char = none) (h : ∀ k ∈ o, k.ins = 0) :
    (optV .ChargingCharacteristics o).foldl step s = { s with charging_char := o } := by
  cases o with
  | none => simp only [optV, Option.toList_none, List.map_nil, List.foldl_nil]; rw [← hs]
  | some k => simp [optV, step, hs, h k rfl]

theorem seg_change_reporting_action {o : Option ChangeReportingAction} (hs : s.change_reporting_action = none) (h : ∀ k ∈ o, k.ins = 0) :
    (optV .ChangeReportingAction o).foldl step s = { s with change_reporting_action := o } := by
  cases o with
  | none => simp only [optV, Option.toList_none, List.map_nil, List.foldl_nil]; rw [← hs]
  | some k => simp [optV, step, hs, h k rfl]

theorem seg_csg_info_reporting_action {o : Option CSGInformationReportingAction} (hs : s.csg_info_reporting_action = none) (h : ∀ k ∈ o, k.ins = 0) :
    (optV .CSGInformationReportingAction o).foldl step s = { s with csg_info_reporting_action := o } := by
  cases o with
  | none => simp only [optV, Option.toList_none, List.map_nil, List.foldl_nil]; rw [← hs]
  | some k => simp [optV, step, hs, h k rfl]

theorem seg_henb_info_reporting {o : Option HenbInfoReporting} (hs : s.henb_info_reporting = none) (h : ∀ k ∈ o, k.ins = 0) :
    (optV .HenbInfoReporting o).foldl step s = { s with henb_info_reporting := o } := by
  cases o with
  | none => simp only [optV, Option.toList_none, List.map_nil, List.foldl_nil]; rw [← hs]
  | some k => simp [optV, step, hs, h k rfl]

theorem seg_indication {o : Option Indication} (hs : s.indication = none) (h : ∀ k ∈ o, k.ins = 0) :
    (optV .Indication o).foldl step s = { s with indication := o } := by
  cases o with
  | none => simp only [optV, Option.toList_none, List.map_nil, List.foldl_nil]; rw [← hs]
  | some k => simp [optV, step, hs, h k rfl]

theorem seg_signalling_priority_indication {o : Option Spi} (hs : s.signalling_priority_indication = none) (h : ∀ k ∈ o, k.ins = 0) :
    (optV .Spi o).foldl step s = { s with signalling_priority_indication := o } := by
  cases o with
  | none => simp only [optV, Option.toList_none, List.map_nil, List.foldl_nil]; rw [← hs]
  | some k => simp [optV, step, hs, h k rfl]

theorem seg_change_to_report_flags {o : Option ChangeToReportFlags} (hs : s.change_to_report_flags = none) (h : ∀ k ∈ o, k.ins = 0) :
    (optV .ChangeToReportFlags o).foldl step s = { s with change_to_report_flags := o } := by
  cases o with
  | none => simp only [optV, Option.toList_none, List.map_nil, List.foldl_nil]; rw [← hs]
  | some k => simp [optV, step, hs, h k rfl]

theorem seg_local_home_network_id {o : Option Fqdn} (hs : s.local_home_network_id = none) (h : ∀ k ∈ o, k.ins = 1) :
    (optV .Fqdn o).foldl step s = { s with local_home_network_id := o } := by
  cases o with
  | none => simp only [optV, Option.toList_none, List.map_nil, List.foldl_nil]; rw [← hs]
  | some k => simp [optV, step, hs, h k rfl]

theorem seg_praa {o : Option PresenceReportingAreaAction} (hs : s.praa = none) (h : ∀ k ∈ o, k.ins = 0) :
    (optV .PresenceReportingAreaAction o).foldl step s = { s with praa := o } := by
  cases o with
  | none => simp only [optV, Option.toList_none, List.map_nil, List.foldl_nil]; rw [← hs]
  | some k => simp [optV, step, hs, h k rfl]

theorem seg_wlan_offloadability {o : Option WlanOffloadIndication} (hs : s.wlan_offloadability = none) (h : ∀ k ∈ o, k.ins = 0) :
    (optV .WlanOffloadIndication o).foldl step s = { s with wlan_offloadability := o } := by
  cases o with
  | none => simp only [optV, Option.toList_none, List.map_nil, List.foldl_nil]; rw [← hs]
  | some k => simp [optV, step, hs, h k rfl]

theorem seg_remote_ue_ctxs {l : List RemoteUeContext} (h : ∀ k ∈ l, k.ins = 0) :
    (l.map .RemoteUeContext).foldl step s = { s with remote_ue_ctxs := s.remote_ue_ctxs ++ l } := by
  induction l generalizing s with
  | nil => simp
  | cons k l ih =>
    simp only [List.map_cons, List.foldl_cons]
    rw [ih _ (fun k hk => h k (List.mem_cons_of_mem _ hk))]
    simp [step, h k List.mem_cons_self]

theorem seg_pdn_type {o : Option PdnType} (hs : s.pdn_type = none) (h : ∀ k ∈ o, k.ins = 0) :
    (optV .PdnType o).foldl step s = { s with pdn_type := o } := by
  cases o with
  | none => simp only [optV, Option.toList_none, List.map_nil, List.foldl_nil]; rw [← hs]
  | some k => simp [optV, step, hs, h k rfl]

theorem seg_hdr_compr_config {o : Option HeaderCompressionConfiguration} (hs : s.hdr_compr_config = none) (h : ∀ k ∈ o, k.ins = 0) :
    (optV .HeaderCompressionConfiguration o).foldl step s = { s with hdr_compr_config := o } := by
  cases o with
  | none => simp only [optV, Option.toList_none, List.map_nil, List.foldl_nil]; rw [← hs]
  | some k => simp [optV, step, hs, h k rfl]

end

theorem ofGroup_toVec {x : PdnConnections} (h : x.Slots) : ofGroup x.t x.length x.ins x.toVec = x := by
  obtain ⟨t, length, ins, apn, apn_restriction, selection_mode, ipv4, ipv6, linked_ebi, pgw_addr_control, pgw_node_name, bearer_ctxs, apn_ambr, charging_char, change_reporting_action, csg_info_reporting_action, henb_info_reporting, indication, signalling_priority_indication, change_to_report_flags, local_home_network_id, praa, wlan_offloadability, remote_ue_ctxs, pdn_type, hdr_compr_config, pgw_change_info, up_security_policy⟩ := x
  obtain ⟨h_apn, h_apn_restriction, h_selection_mode, h_ipv4, h_ipv6, h_linked_ebi, h_pgw_addr_control, h_pgw_node_name, h_bearer_ctxs, h_apn_ambr, h_charging_char, h_change_reporting_action, h_csg_info_reporting_action, h_henb_info_reporting, h_indication, h_signalling_priority_indication, h_change_to_report_flags, h_local_home_network_id, h_praa, h_wlan_offloadability, h_remote_ue_ctxs, h_pdn_type, h_hdr_compr_config, h_pgw_change_info, h_up_security_policy⟩ := h
  simp only at h_apn h_apn_restriction h_selection_mode h_ipv4 h_ipv6 h_linked_ebi h_pgw_addr_control h_pgw_node_name h_bearer_ctxs h_apn_ambr h_charging_char h_change_reporting_action h_csg_info_reporting_action h_henb_info_reporting h_indication h_signalling_priority_indication h_change_to_report_flags h_local_home_network_id h_praa h_wlan_offloadability h_remote_ue_ctxs h_pdn_type h_hdr_compr_config h_pgw_change_info h_up_security_policy
  subst h_pgw_change_info h_up_security_policy
  simp only [ofGroup, toVec, List.foldl_append, init]
  rw [seg_apn _ h_apn]
  rw [seg_apn_restriction _ (by rfl) h_apn_restriction]
  rw [seg_selection_mode _ (by rfl) h_selection_mode]
  rw [seg_ipv4 _ (by rfl) h_ipv4]
  rw [seg_ipv6 _ (by rfl) h_ipv6]
  rw [seg_linked_ebi _ h_linked_ebi]
  rw [seg_pgw_addr_control _ h_pgw_addr_control]
  rw [seg_pgw_node_name _ (by rfl) h_pgw_node_name]
  rw [seg_bearer_ctxs _ h_bearer_ctxs]
  rw [seg_apn_ambr _ h_apn_ambr]
  rw [seg_charging_char _ (by rfl) h_charging_char]
  rw [seg_change_reporting_action _ (by rfl) h_change_reporting_action]
  rw [seg_csg_info_reporting_action _ (by rfl) h_csg_info_reporting_action]
  rw [seg_henb_info_reporting _ (by rfl) h_henb_info_reporting]
  rw [seg_indication _ (by rfl) h_indication]
  rw [seg_signalling_priority_indication _ (by rfl) h_signalling_priority_indication]
  rw [seg_change_to_report_flags _ (by rfl) h_change_to_report_flags]
  rw [seg_local_home_network_id _ (by rfl) h_local_home_network_id]
  rw [seg_praa _ (by rfl) h_praa]
  rw [seg_wlan_offloadability _ (by rfl) h_wlan_offloadability]
  rw [seg_remote_ue_ctxs _ h_remote_ue_ctxs]
  rw [seg_pdn_type _ (by rfl) h_pdn_type]
  rw [seg_hdr_compr_config _ (by rfl) h_hdr_compr_config]
  simp

end PdnConnections

namespace V2xInformation

/-- The members are of the kinds and instances that the decoder keeps. -/
def Slots (x : V2xInformation) : Prop :=
  (∀ k ∈ x.services_auth, k.ins < 2) ∧
  (∀ k ∈ x.sidelink_max_brs, k.ins < 2) ∧
  (∀ k ∈ x.pc5_qos_params, k.ins = 0)

instance (x : V2xInformation) : Decidable x.Slots := by unfold Slots; infer_instance

section
variable (s : V2xInformation)

theorem seg_services_auth {l : List ServicesAuthorized} (h : ∀ k ∈ l, k.ins < 2) :
    (l.map .ServicesAuthorized).foldl step s = { s with services_auth := s.services_auth ++ l } := by
  induction l generalizing s with
  | nil => simp
  | cons k l ih =>
    simp only [List.map_cons, List.foldl_cons]
    rw [ih _ (fun k hk => h k (List.mem_cons_of_mem _ hk))]
    simp [step, h k List.mem_cons_self]

theorem seg_sidelink_max_brs {l : List BitRate} (h : ∀ k ∈ l, k.ins < 2) :
    (l.map .BitRate).foldl step s = { s with sidelink_max_brs := s.sidelink_max_brs ++ l } := by
  induction l generalizing s with
  | nil => simp
  | cons k l ih =>
    simp only [List.map_cons, List.foldl_cons]
    rw [ih _ (fun k hk => h k (List.mem_cons_of_mem _ hk))]
    simp [step, h k List.mem_cons_self]

theorem seg_pc5_qos_params {o : Option PC5QosParameters} (hs : s.pc5_qos_params = none) (h : ∀ k ∈ o, k.ins = 0) :
    (optV .PC5QosParameters o).foldl step s = { s with pc5_qos_params := o } := by
  cases o with
  | none => simp only [optV, Option.toList_none, List.map_nil, List.foldl_nil]; rw [← hs]
  | some k => simp [optV, step, hs, h k rfl]

end

theorem ofGroup_toVec {x : V2xInformation} (h : x.Slots) : ofGroup x.t x.length x.ins x.toVec = x := by
  obtain ⟨t, length, ins, services_auth, sidelink_max_brs, pc5_qos_params⟩ := x
  obtain ⟨h_services_auth, h_sidelink_max_brs, h_pc5_qos_params⟩ := h
  simp only at h_services_auth h_sidelink_max_brs h_pc5_qos_params
  simp only [ofGroup, toVec, List.foldl_append, init]
  rw [seg_services_auth _ h_services_auth]
  rw [seg_sidelink_max_brs _ h_sidelink_max_brs]
  rw [seg_pc5_qos_params _ (by rfl) h_pc5_qos_params]
  simp

end V2xInformation

namespace IE

/-- The members of a grouped IE. -/
def members : IE → List IE
  | .BearerContext x => x.toVec
  | .PdnConnections x => x.toVec
  | .OverloadControlInfo x => x.toVec
  | .LoadControlInfo x => x.toVec
  | .RemoteUeContext x => x.toVec
  | .ScefPdnConnections x => x.toVec
  | .V2xInformation x => x.toVec
  | .PC5QosParameters x => x.toVec
  | .PgwChangeInfo x => x.toVec
  | _ => []

/-- Nesting depth. -/
def depth : IE → Nat
  | .BearerContext _ => 1
  | .PdnConnections _ => 2
  | .OverloadControlInfo _ => 1
  | .LoadControlInfo _ => 1
  | .RemoteUeContext _ => 1
  | .ScefPdnConnections _ => 1
  | .V2xInformation _ => 2
  | .PC5QosParameters _ => 1
  | .PgwChangeInfo _ => 1
  | _ => 0

theorem depth_members {e y : IE} (h : y ∈ e.members) : y.depth < e.depth := by
  cases e with
  | BearerContext x =>
    simp only [members, BearerContext.toVec, List.mem_append, mem_optV, List.mem_singleton, List.mem_map] at h
    rcases h with ⟨_, _, rfl⟩ | rfl | ⟨_, _, rfl⟩ | ⟨_, _, rfl⟩ | ⟨_, _, rfl⟩ | ⟨_, _, rfl⟩ | ⟨_, _, rfl⟩ | ⟨_, _, rfl⟩ | ⟨_, _, rfl⟩ | ⟨_, _, rfl⟩ | ⟨_, _, rfl⟩ | ⟨_, _, rfl⟩ <;> simp [depth]
  | PdnConnections x =>
    simp only [members, PdnConnections.toVec, List.mem_append, mem_optV, List.mem_singleton, List.mem_map] at h
    rcases h with rfl | ⟨_, _, rfl⟩ | ⟨_, _, rfl⟩ | ⟨_, _, rfl⟩ | ⟨_, _, rfl⟩ | rfl | rfl | ⟨_, _, rfl⟩ | ⟨_, _, rfl⟩ | rfl | ⟨_, _, rfl⟩ | ⟨_, _, rfl⟩ | ⟨_, _, rfl⟩ | ⟨_, _, rfl⟩ | ⟨_, _, rfl⟩ | ⟨_, _, rfl⟩ | ⟨_, _, rfl⟩ | ⟨_, _, rfl⟩ | ⟨_, _, rfl⟩ | ⟨_, _, rfl⟩ | ⟨_, _, rfl⟩ | ⟨_, _, rfl⟩ | ⟨_, _, rfl⟩ <;> simp [depth]
  | OverloadControlInfo x =>
    simp only [members, OverloadControlInfo.toVec, List.mem_append, mem_optV, List.mem_singleton, List.mem_map] at h
    rcases h with rfl | rfl | rfl | ⟨_, _, rfl⟩ <;> simp [depth]
  | LoadControlInfo x =>
    simp only [members, LoadControl.toVec, List.mem_append, mem_optV, List.mem_singleton, List.mem_map] at h
    rcases h with rfl | rfl | ⟨_, _, rfl⟩ <;> simp [depth]
  | RemoteUeContext x =>
    simp only [members, RemoteUeContext.toVec, List.mem_append, mem_optV, List.mem_singleton, List.mem_map] at h
    rcases h with rfl | ⟨_, _, rfl⟩ <;> simp [depth]
  | ScefPdnConnections x =>
    simp only [members, ScefPdnConnections.toVec, List.mem_append, mem_optV, List.mem_singleton, List.mem_map] at h
    rcases h with rfl | rfl | rfl <;> simp [depth]
  | V2xInformation x =>
    simp only [members, V2xInformation.toVec, List.mem_append, mem_optV, List.mem_singleton, List.mem_map] at h
    rcases h with ⟨_, _, rfl⟩ | ⟨_, _, rfl⟩ | ⟨_, _, rfl⟩ <;> simp [depth]
  | PC5QosParameters x =>
    simp only [members, PC5QosParameters.toVec, List.mem_append, mem_optV, List.mem_singleton, List.mem_map] at h
    rcases h with ⟨_, _, rfl⟩ | ⟨_, _, rfl⟩ <;> simp [depth]
  | PgwChangeInfo x =>
    simp only [members, PgwChangeInfo.toVec, List.mem_append, mem_optV, List.mem_singleton, List.mem_map] at h
    rcases h with ⟨_, _, rfl⟩ | ⟨_, _, rfl⟩ | ⟨_, _, rfl⟩ | ⟨_, _, rfl⟩ <;> simp [depth]
  | _ => simp [members] at h

theorem marshalWith_congr {f g : IE → Bytes} {e : IE} (h : ∀ y ∈ e.members, f y = g y) :
    marshalWith f e = marshalWith g e := by
  cases e with
  | BearerContext x => exact congrArg (tliv _ _ _) (flatMap_ext (l := x.toVec) h)
  | PdnConnections x => exact congrArg (tliv _ _ _) (flatMap_ext (l := x.toVec) h)
  | OverloadControlInfo x => exact congrArg (tliv _ _ _) (flatMap_ext (l := x.toVec) h)
  | LoadControlInfo x => exact congrArg (tliv _ _ _) (flatMap_ext (l := x.toVec) h)
  | RemoteUeContext x => exact congrArg (tliv _ _ _) (flatMap_ext (l := x.toVec) h)
  | ScefPdnConnections x => exact congrArg (tliv _ _ _) (flatMap_ext (l := x.toVec) h)
  | V2xInformation x => exact congrArg (tliv _ _ _) (flatMap_ext (l := x.toVec) h)
  | PC5QosParameters x => exact congrArg (tliv _ _ _) (flatMap_ext (l := x.toVec) h)
  | PgwChangeInfo x => exact congrArg (tliv _ _ _) (flatMap_ext (l := x.toVec) h)
  | _ => rfl

/-- The encoder as a fixed point: the equation of the Rust code. -/
theorem marshal_eq (e : IE) : e.marshal = marshalWith marshal e := by
  unfold marshal
  refine marshalWith_congr fun y hy => marshalWith_congr fun z hz => ?_
  have h1 := depth_members hy
  have h2 := depth_members hz
  have h3 : e.depth ≤ 2 := by cases e <;> simp [depth]
  refine marshalWith_congr fun w hw => ?_
  have h4 := depth_members hw
  omega

/-- The type octet written for an IE. -/
def wireType : IE → UInt8
  | .Imsi x => 1
  | .Cause x => 2
  | .Recovery x => 3
  | .StnSr x => 51
  | .SrvccCause x => 56
  | .Apn x => 71
  | .ApnAmbr x => 72
  | .Ebi x => 73
  | .IpAddress x => 74
  | .Mei x => 75
  | .Msisdn x => 76
  | .Indication x => 77
  | .Pco x => 78
  | .PdnAddressAllocation x => 79
  | .BearerQos x => 80
  | .FlowQos x => 81
  | .RatType x => 82
  | .ServingNetwork x => 83
  | .BearerTft x => 84
  | .TrafficAggregateDescription x => 85
  | .Uli x => x.t
  | .Fteid x => 87
  | .Tmsi x => 88
  | .GlobalCnId x => 89
  | .S103pdf x => 90
  | .S1udf x => 91
  | .DelayValue x => 92
  | .BearerContext x => 93
  | .ChargingId x => 94
  | .ChargingCharacteristics x => 95
  | .TraceInformation x => 96
  | .BearerFlags x => 97
  | .PdnType x => 99
  | .Pti x => 100
  | .MmContext x => x.t
  | .PdnConnections x => 109
  | .PduNumbers x => 110
  | .Ptmsi x => 111
  | .PtmsiSignature x => 112
  | .HopCounter x => 113
  | .UeTimeZone x => 114
  | .TraceReference x => 83
  | .CompleteRequestMessage x => 116
  | .Guti x => 117
  | .Fcontainer x => 118
  | .Fcause x => 119
  | .PlmnId x => 120
  | .TargetIdentification x => 121
  | .PacketFlowId x => 123
  | .RabContext x => 124
  | .SrcRncPdcpCtxInfo x => 125
  | .PortNumber x => 126
  | .ApnRestriction x => 127
  | .SelectionMode x => 128
  | .SourceIdentification x => 129
  | .ChangeReportingAction x => 131
  | .Fqcsid x => 132
  | .ChannelNeeded x => 133
  | .EmlppPriority x => 134
  | .NodeType x => 135
  | .Fqdn x => 136
  | .TransactionIdentifier x => 137
  | .MbmsSa x => 139
  | .MbmsSd x => 138
  | .MbmsSessionId x => 140
  | .MbmsFlowId x => 141
  | .MbmsIpMulticastDistribution x => 142
  | .MbmsDistributionAck x => 143
  | .RfspIndex x => 144
  | .Uci x => 145
  | .CSGInformationReportingAction x => 146
  | .CsgId x => 147
  | .CsgMembershipIndication x => 148
  | .ServiceIndicator x => 149
  | .DetachType x => 150
  | .Ldn x => 151
  | .NodeFeatures x => 152
  | .MbmsTimeToDataTransfer x => 153
  | .Throttling x => 154
  | .Arp x => 155
  | .EpcTimer x => 156
  | .Spi x => 157
  | .Tmgi x => 158
  | .AdditionalMmContextForSrvcc x => 159
  | .AdditionalFlagsSrvcc x => 160
  | .MdtConfiguration x => 162
  | .Apco x => 163
  | .AbsoluteTimeMbmsDataTransfer x => 164
  | .HenbInfoReporting x => 165
  | .Ip4Cp x => 166
  | .ChangeToReportFlags x => 167
  | .ActionIndication x => 168
  | .TwanId x => 169
  | .UliTimestamp x => 170
  | .MbmsFlags x => 171
  | .RanNasCause x => 172
  | .CnOperatorSelectionEntity x => 173
  | .Twmi x => 174
  | .NodeNumber x => 175
  | .NodeIdentifier x => 176
  | .PresenceReportingAreaAction x => 177
  | .PresenceReportingAreaInformation x => 178
  | .TwanIdTimeStamp x => 179
  | .OverloadControlInfo x => 180
  | .LoadControlInfo x => 181
  | .Metric x => 182
  | .Sqn x => 183
  | .ApnRelativeCapacity x => 184
  | .WlanOffloadIndication x => 185
  | .PagingServiceInfo x => 186
  | .IntegerNumber x => 187
  | .MilliSecondTimeStamp x => 188
  | .MonitoringEventInformation x => 189
  | .EcgiList x => 190
  | .RemoteUeContext x => 191
  | .RemoteUserId x => 192
  | .RemoteUeIpInformation x => 193
  | .CIoTOptimizationSupportIndication x => 194
  | .ScefPdnConnections x => 195
  | .HeaderCompressionConfiguration x => 196
  | .Epco x => 197
  | .ServingPlmnRateControl x => 198
  | .Counter x => 199
  | .MappedUeUsageType x => 200
  | .SecondaryRatUsageDataReport x => 201
  | .UpFunctionSelectionIndicationFlags x => 202
  | .MaxPacketLossRate x => 203
  | .ApnRateControlStatus x => 204
  | .ExtendedTraceInformation x => 205
  | .MonitoringEventExtensionInfo x => 206
  | .AdditionalRrmPolicyIndex x => 207
  | .V2xInformation x => 208
  | .PC5QosParameters x => 209
  | .ServicesAuthorized x => 210
  | .BitRate x => 211
  | .PC5QosFlow x => 212
  | .SgiPtpTunnelAddress x => 213
  | .PgwChangeInfo x => 214
  | .PgwFqdn x => 215
  | .GroupId x => 216
  | .PSCellId x => 217
  | .UpSecurityPolicy x => 218
  | .AlternativeImsi x => 219
  | .SpecialIEWithTypeExt x => 254
  | .PrivateExtension x => 255
  | .Unknown x => x.t

theorem marshal_tliv (e : IE) : ∃ l i body, e.marshal = tliv e.wireType l i body := by
  rw [marshal_eq]
  cases e with
  | Imsi x => exact ⟨_, _, _, rfl⟩
  | Cause x => exact ⟨_, _, _, rfl⟩
  | Recovery x => exact ⟨_, _, _, rfl⟩
  | StnSr x => exact ⟨_, _, _, rfl⟩
  | SrvccCause x => exact ⟨_, _, _, rfl⟩
  | Apn x => exact ⟨_, _, _, rfl⟩
  | ApnAmbr x => exact ⟨_, _, _, rfl⟩
  | Ebi x => exact ⟨_, _, _, rfl⟩
  | IpAddress x => exact ⟨_, _, _, rfl⟩
  | Mei x => exact ⟨_, _, _, rfl⟩
  | Msisdn x => exact ⟨_, _, _, rfl⟩
  | Indication x => exact ⟨_, _, _, rfl⟩
  | Pco x => exact ⟨_, _, _, rfl⟩
  | PdnAddressAllocation x => exact ⟨_, _, _, rfl⟩
  | BearerQos x => exact ⟨_, _, _, rfl⟩
  | FlowQos x => exact ⟨_, _, _, rfl⟩
  | RatType x => exact ⟨_, _, _, rfl⟩
  | ServingNetwork x => exact ⟨_, _, _, rfl⟩
  | BearerTft x => exact ⟨_, _, _, rfl⟩
  | TrafficAggregateDescription x => exact ⟨_, _, _, rfl⟩
  | Fteid x => exact ⟨_, _, _, rfl⟩
  | Tmsi x => exact ⟨_, _, _, rfl⟩
  | GlobalCnId x => exact ⟨_, _, _, rfl⟩
  | S103pdf x => exact ⟨_, _, _, rfl⟩
  | S1udf x => exact ⟨_, _, _, rfl⟩
  | DelayValue x => exact ⟨_, _, _, rfl⟩
  | BearerContext x => exact ⟨_, _, _, rfl⟩
  | ChargingId x => exact ⟨_, _, _, rfl⟩
  | ChargingCharacteristics x => exact ⟨_, _, _, rfl⟩
  | TraceInformation x => exact ⟨_, _, _, rfl⟩
  | BearerFlags x => exact ⟨_, _, _, rfl⟩
  | PdnType x => exact ⟨_, _, _, rfl⟩
  | Pti x => exact ⟨_, _, _, rfl⟩
  | PdnConnections x => exact ⟨_, _, _, rfl⟩
  | PduNumbers x => exact ⟨_, _, _, rfl⟩
  | Ptmsi x => exact ⟨_, _, _, rfl⟩
  | PtmsiSignature x => exact ⟨_, _, _, rfl⟩
  | HopCounter x => exact ⟨_, _, _, rfl⟩
  | UeTimeZone x => exact ⟨_, _, _, rfl⟩
  | TraceReference x => exact ⟨_, _, _, rfl⟩
  | CompleteRequestMessage x => exact ⟨_, _, _, rfl⟩
  | Guti x => exact ⟨_, _, _, rfl⟩
  | Fcause x => exact ⟨_, _, _, rfl⟩
  | PlmnId x => exact ⟨_, _, _, rfl⟩
  | TargetIdentification x => exact ⟨_, _, _, rfl⟩
  | PacketFlowId x => exact ⟨_, _, _, rfl⟩
  | RabContext x => exact ⟨_, _, _, rfl⟩
  | SrcRncPdcpCtxInfo x => exact ⟨_, _, _, rfl⟩
  | PortNumber x => exact ⟨_, _, _, rfl⟩
  | ApnRestriction x => exact ⟨_, _, _, rfl⟩
  | SelectionMode x => exact ⟨_, _, _, rfl⟩
  | SourceIdentification x => exact ⟨_, _, _, rfl⟩
  | ChangeReportingAction x => exact ⟨_, _, _, rfl⟩
  | Fqcsid x => exact ⟨_, _, _, rfl⟩
  | ChannelNeeded x => exact ⟨_, _, _, rfl⟩
  | EmlppPriority x => exact ⟨_, _, _, rfl⟩
  | NodeType x => exact ⟨_, _, _, rfl⟩
  | Fqdn x => exact ⟨_, _, _, rfl⟩
  | TransactionIdentifier x => exact ⟨_, _, _, rfl⟩
  | MbmsSa x => exact ⟨_, _, _, rfl⟩
  | MbmsSd x => exact ⟨_, _, _, rfl⟩
  | MbmsSessionId x => exact ⟨_, _, _, rfl⟩
  | MbmsFlowId x => exact ⟨_, _, _, rfl⟩
  | MbmsIpMulticastDistribution x => exact ⟨_, _, _, rfl⟩
  | MbmsDistributionAck x => exact ⟨_, _, _, rfl⟩
  | RfspIndex x => exact ⟨_, _, _, rfl⟩
  | Uci x => exact ⟨_, _, _, rfl⟩
  | CSGInformationReportingAction x => exact ⟨_, _, _, rfl⟩
  | CsgId x => exact ⟨_, _, _, rfl⟩
  | CsgMembershipIndication x => exact ⟨_, _, _, rfl⟩
  | ServiceIndicator x => exact ⟨_, _, _, rfl⟩
  | DetachType x => exact ⟨_, _, _, rfl⟩
  | Ldn x => exact ⟨_, _, _, rfl⟩
  | NodeFeatures x => exact ⟨_, _, _, rfl⟩
  | MbmsTimeToDataTransfer x => exact ⟨_, _, _, rfl⟩
  | Throttling x => exact ⟨_, _, _, rfl⟩
  | Arp x => exact ⟨_, _, _, rfl⟩
  | EpcTimer x => exact ⟨_, _, _, rfl⟩
  | Spi x => exact ⟨_, _, _, rfl⟩
  | Tmgi x => exact ⟨_, _, _, rfl⟩
  | AdditionalMmContextForSrvcc x => exact ⟨_, _, _, rfl⟩
  | AdditionalFlagsSrvcc x => exact ⟨_, _, _, rfl⟩
  | MdtConfiguration x => exact ⟨_, _, _, rfl⟩
  | Apco x => exact ⟨_, _, _, rfl⟩
  | AbsoluteTimeMbmsDataTransfer x => exact ⟨_, _, _, rfl⟩
  | HenbInfoReporting x => exact ⟨_, _, _, rfl⟩
  | Ip4Cp x => exact ⟨_, _, _, rfl⟩
  | ChangeToReportFlags x => exact ⟨_, _, _, rfl⟩
  | ActionIndication x => exact ⟨_, _, _, rfl⟩
  | TwanId x => exact ⟨_, _, _, rfl⟩
  | UliTimestamp x => exact ⟨_, _, _, rfl⟩
  | MbmsFlags x => exact ⟨_, _, _, rfl⟩
  | RanNasCause x => exact ⟨_, _, _, rfl⟩
  | CnOperatorSelectionEntity x => exact ⟨_, _, _, rfl⟩
  | Twmi x => exact ⟨_, _, _, rfl⟩
  | NodeNumber x => exact ⟨_, _, _, rfl⟩
  | NodeIdentifier x => exact ⟨_, _, _, rfl⟩
  | PresenceReportingAreaAction x => exact ⟨_, _, _, rfl⟩
  | PresenceReportingAreaInformation x => exact ⟨_, _, _, rfl⟩
  | TwanIdTimeStamp x => exact ⟨_, _, _, rfl⟩
  | OverloadControlInfo x => exact ⟨_, _, _, rfl⟩
  | LoadControlInfo x => exact ⟨_, _, _, rfl⟩
  | Metric x => exact ⟨_, _, _, rfl⟩
  | Sqn x => exact ⟨_, _, _, rfl⟩
  | ApnRelativeCapacity x => exact ⟨_, _, _, rfl⟩
  | WlanOffloadIndication x => exact ⟨_, _, _, rfl⟩
  | PagingServiceInfo x => exact ⟨_, _, _, rfl⟩
  | IntegerNumber x => exact ⟨_, _, _, rfl⟩
  | MilliSecondTimeStamp x => exact ⟨_, _, _, rfl⟩
  | MonitoringEventInformation x => exact ⟨_, _, _, rfl⟩
  | EcgiList x => exact ⟨_, _, _, rfl⟩
  | RemoteUeContext x => exact ⟨_, _, _, rfl⟩
  | RemoteUserId x => exact ⟨_, _, _, rfl⟩
  | RemoteUeIpInformation x => exact ⟨_, _, _, rfl⟩
  | CIoTOptimizationSupportIndication x => exact ⟨_, _, _, rfl⟩
  | ScefPdnConnections x => exact ⟨_, _, _, rfl⟩
  | HeaderCompressionConfiguration x => exact ⟨_, _, _, rfl⟩
  | Epco x => exact ⟨_, _, _, rfl⟩
  | ServingPlmnRateControl x => exact ⟨_, _, _, rfl⟩
  | Counter x => exact ⟨_, _, _, rfl⟩
  | MappedUeUsageType x => exact ⟨_, _, _, rfl⟩
  | SecondaryRatUsageDataReport x => exact ⟨_, _, _, rfl⟩
  | UpFunctionSelectionIndicationFlags x => exact ⟨_, _, _, rfl⟩
  | MaxPacketLossRate x => exact ⟨_, _, _, rfl⟩
  | ApnRateControlStatus x => exact ⟨_, _, _, rfl⟩
  | ExtendedTraceInformation x => exact ⟨_, _, _, rfl⟩
  | MonitoringEventExtensionInfo x => exact ⟨_, _, _, rfl⟩
  | AdditionalRrmPolicyIndex x => exact ⟨_, _, _, rfl⟩
  | V2xInformation x => exact ⟨_, _, _, rfl⟩
  | PC5QosParameters x => exact ⟨_, _, _, rfl⟩
  | ServicesAuthorized x => exact ⟨_, _, _, rfl⟩
  | BitRate x => exact ⟨_, _, _, rfl⟩
  | PC5QosFlow x => exact ⟨_, _, _, rfl⟩
  | SgiPtpTunnelAddress x => exact ⟨_, _, _, rfl⟩
  | PgwChangeInfo x => exact ⟨_, _, _, rfl⟩
  | PgwFqdn x => exact ⟨_, _, _, rfl⟩
  | GroupId x => exact ⟨_, _, _, rfl⟩
  | PSCellId x => exact ⟨_, _, _, rfl⟩
  | UpSecurityPolicy x => exact ⟨_, _, _, rfl⟩
  | AlternativeImsi x => exact ⟨_, _, _, rfl⟩
  | SpecialIEWithTypeExt x => exact ⟨_, _, _, rfl⟩
  | PrivateExtension x => exact ⟨_, _, _, rfl⟩
  | Unknown x => exact ⟨_, _, _, rfl⟩
  | MmContext x => cases x <;> exact ⟨_, _, _, rfl⟩
  | Fcontainer x => exact ⟨_, _, _, rfl⟩
  | Uli x => exact ⟨_, _, _, rfl⟩

/-- A grouped IE with the type, the length and the members `l`. -/
def GroupWF (wf : IE → Prop) (ty t : UInt8) (length : UInt16) (l : List IE) : Prop :=
  t = ty ∧ length.toNat = (encoder l).length ∧ 0 < length.toNat ∧ length.toNat < 65532 ∧ ∀ e ∈ l, wf e

instance (wf : IE → Prop) [DecidablePred wf] (ty t : UInt8) (length : UInt16) (l : List IE) :
    Decidable (GroupWF wf ty t length l) := by unfold GroupWF; infer_instance

/-- Well-formed IEs: the per-kind conditions, and for grouped IEs those on the members. Two kinds are excluded as a whole:
the decoder never produces them from their own encoding (`TraceReference` is written with type 83, `TwanId` with type 169,
which is decoded as `ActionIndication`); an unknown IE loses its type. -/
def WFWith (wf : IE → Prop) : IE → Prop
  | .Imsi x => x.WF
  | .Cause x => x.WF
  | .Recovery x => x.WF
  | .StnSr x => x.WF
  | .SrvccCause x => x.WF
  | .Apn x => x.WF
  | .ApnAmbr x => x.WF
  | .Ebi x => x.WF
  | .IpAddress x => x.WF
  | .Mei x => x.WF
  | .Msisdn x => x.WF
  | .Indication x => x.WF
  | .Pco x => x.WF
  | .PdnAddressAllocation x => x.WF
  | .BearerQos x => x.WF
  | .FlowQos x => x.WF
  | .RatType x => x.WF
  | .ServingNetwork x => x.WF
  | .BearerTft x => x.WF
  | .TrafficAggregateDescription x => x.WF
  | .Uli x => x.WF
  | .Fteid x => x.WF
  | .Tmsi x => x.WF
  | .GlobalCnId x => x.WF
  | .S103pdf x => x.WF
  | .S1udf x => x.WF
  | .DelayValue x => x.WF
  | .BearerContext x => GroupWF wf 93 x.t x.length x.toVec ∧ x.Slots
  | .ChargingId x => x.WF
  | .ChargingCharacteristics x => x.WF
  | .TraceInformation x => x.WF
  | .BearerFlags x => x.WF
  | .PdnType x => x.WF
  | .Pti x => x.WF
  | .MmContext x => x.WF
  | .PdnConnections x => GroupWF wf 109 x.t x.length x.toVec ∧ x.Slots
  | .PduNumbers x => x.WF
  | .Ptmsi x => x.WF
  | .PtmsiSignature x => x.WF
  | .HopCounter x => x.WF
  | .UeTimeZone x => x.WF
  | .TraceReference _ => False
  | .CompleteRequestMessage x => x.WF
  | .Guti x => x.WF
  | .Fcontainer x => x.WF
  | .Fcause x => x.WF
  | .PlmnId x => x.WF
  | .TargetIdentification x => x.WF
  | .PacketFlowId x => x.WF
  | .RabContext x => x.WF
  | .SrcRncPdcpCtxInfo x => x.WF
  | .PortNumber x => x.WF
  | .ApnRestriction x => x.WF
  | .SelectionMode x => x.WF
  | .SourceIdentification x => x.WF
  | .ChangeReportingAction x => x.WF
  | .Fqcsid x => x.WF
  | .ChannelNeeded x => x.WF
  | .EmlppPriority x => x.WF
  | .NodeType x => x.WF
  | .Fqdn x => x.WF
  | .TransactionIdentifier x => x.WF
  | .MbmsSa x => x.WF
  | .MbmsSd x => x.WF
  | .MbmsSessionId x => x.WF
  | .MbmsFlowId x => x.WF
  | .MbmsIpMulticastDistribution x => x.WF
  | .MbmsDistributionAck x => x.WF
  | .RfspIndex x => x.WF
  | .Uci x => x.WF
  | .CSGInformationReportingAction x => x.WF
  | .CsgId x => x.WF
  | .CsgMembershipIndication x => x.WF
  | .ServiceIndicator x => x.WF
  | .DetachType x => x.WF
  | .Ldn x => x.WF
  | .NodeFeatures x => x.WF
  | .MbmsTimeToDataTransfer x => x.WF
  | .Throttling x => x.WF
  | .Arp x => x.WF
  | .EpcTimer x => x.WF
  | .Spi x => x.WF
  | .Tmgi x => x.WF
  | .AdditionalMmContextForSrvcc x => x.WF
  | .AdditionalFlagsSrvcc x => x.WF
  | .MdtConfiguration x => x.WF
  | .Apco x => x.WF
  | .AbsoluteTimeMbmsDataTransfer x => x.WF
  | .HenbInfoReporting x => x.WF
  | .Ip4Cp x => x.WF
  | .ChangeToReportFlags x => x.WF
  | .ActionIndication x => x.WF
  | .TwanId _ => False
  | .UliTimestamp x => x.WF
  | .MbmsFlags x => x.WF
  | .RanNasCause x => x.WF
  | .CnOperatorSelectionEntity x => x.WF
  | .Twmi x => x.WF
  | .NodeNumber x => x.WF
  | .NodeIdentifier x => x.WF
  | .PresenceReportingAreaAction x => x.WF
  | .PresenceReportingAreaInformation x => x.WF
  | .TwanIdTimeStamp x => x.WF
  | .OverloadControlInfo x => GroupWF wf 180 x.t x.length x.toVec ∧ x.Slots
  | .LoadControlInfo x => GroupWF wf 181 x.t x.length x.toVec ∧ x.Slots
  | .Metric x => x.WF
  | .Sqn x => x.WF
  | .ApnRelativeCapacity x => x.WF
  | .WlanOffloadIndication x => x.WF
  | .PagingServiceInfo x => x.WF
  | .IntegerNumber x => x.WF
  | .MilliSecondTimeStamp x => x.WF
  | .MonitoringEventInformation x => x.WF
  | .EcgiList x => x.WF
  | .RemoteUeContext x => GroupWF wf 191 x.t x.length x.toVec ∧ x.Slots
  | .RemoteUserId x => x.WF
  | .RemoteUeIpInformation x => x.WF
  | .CIoTOptimizationSupportIndication x => x.WF
  | .ScefPdnConnections x => GroupWF wf 195 x.t x.length x.toVec ∧ x.Slots
  | .HeaderCompressionConfiguration x => x.WF
  | .Epco x => x.WF
  | .ServingPlmnRateControl x => x.WF
  | .Counter x => x.WF
  | .MappedUeUsageType x => x.WF
  | .SecondaryRatUsageDataReport x => x.WF
  | .UpFunctionSelectionIndicationFlags x => x.WF
  | .MaxPacketLossRate x => x.WF
  | .ApnRateControlStatus x => x.WF
  | .ExtendedTraceInformation x => x.WF
  | .MonitoringEventExtensionInfo x => x.WF
  | .AdditionalRrmPolicyIndex x => x.WF
  | .V2xInformation x => GroupWF wf 208 x.t x.length x.toVec ∧ x.Slots
  | .PC5QosParameters x => GroupWF wf 209 x.t x.length x.toVec ∧ x.Slots
  | .ServicesAuthorized x => x.WF
  | .BitRate x => x.WF
  | .PC5QosFlow x => x.WF
  | .SgiPtpTunnelAddress x => x.WF
  | .PgwChangeInfo x => GroupWF wf 214 x.t x.length x.toVec ∧ x.Slots
  | .PgwFqdn x => x.WF
  | .GroupId x => x.WF
  | .PSCellId x => x.WF
  | .UpSecurityPolicy x => x.WF
  | .AlternativeImsi x => x.WF
  | .SpecialIEWithTypeExt x => x.WF
  | .PrivateExtension x => x.WF
  | .Unknown x => x.t = 0 ∧ x.length.toNat = x.value.length ∧ 0 < x.length.toNat ∧ x.length.toNat < 65532

instance (wf : IE → Prop) [DecidablePred wf] : DecidablePred (WFWith wf) := fun e => by
  cases e <;> unfold WFWith <;> infer_instance

/-- Well-formed IEs. -/
def WF : IE → Prop := WFWith (WFWith (WFWith fun _ => False))

instance : DecidablePred WF := by unfold WF; infer_instance

theorem WFWith_congr {f g : IE → Prop} {e : IE} (h : ∀ y ∈ e.members, f y → g y) (he : WFWith f e) : WFWith g e := by
  cases e with
  | BearerContext x => exact ⟨⟨he.1.1, he.1.2.1, he.1.2.2.1, he.1.2.2.2.1, fun y hy => h y hy (he.1.2.2.2.2 y hy)⟩, he.2⟩
  | PdnConnections x => exact ⟨⟨he.1.1, he.1.2.1, he.1.2.2.1, he.1.2.2.2.1, fun y hy => h y hy (he.1.2.2.2.2 y hy)⟩, he.2⟩
  | OverloadControlInfo x => exact ⟨⟨he.1.1, he.1.2.1, he.1.2.2.1, he.1.2.2.2.1, fun y hy => h y hy (he.1.2.2.2.2 y hy)⟩, he.2⟩
  | LoadControlInfo x => exact ⟨⟨he.1.1, he.1.2.1, he.1.2.2.1, he.1.2.2.2.1, fun y hy => h y hy (he.1.2.2.2.2 y hy)⟩, he.2⟩
  | RemoteUeContext x => exact ⟨⟨he.1.1, he.1.2.1, he.1.2.2.1, he.1.2.2.2.1, fun y hy => h y hy (he.1.2.2.2.2 y hy)⟩, he.2⟩
  | ScefPdnConnections x => exact ⟨⟨he.1.1, he.1.2.1, he.1.2.2.1, he.1.2.2.2.1, fun y hy => h y hy (he.1.2.2.2.2 y hy)⟩, he.2⟩
  | V2xInformation x => exact ⟨⟨he.1.1, he.1.2.1, he.1.2.2.1, he.1.2.2.2.1, fun y hy => h y hy (he.1.2.2.2.2 y hy)⟩, he.2⟩
  | PC5QosParameters x => exact ⟨⟨he.1.1, he.1.2.1, he.1.2.2.1, he.1.2.2.2.1, fun y hy => h y hy (he.1.2.2.2.2 y hy)⟩, he.2⟩
  | PgwChangeInfo x => exact ⟨⟨he.1.1, he.1.2.1, he.1.2.2.1, he.1.2.2.2.1, fun y hy => h y hy (he.1.2.2.2.2 y hy)⟩, he.2⟩
  | _ => exact he

theorem WF_eq {e : IE} (he : WF e) : WFWith WF e := by
  refine WFWith_congr (fun y hy h => WFWith_congr (fun z hz h => WFWith_congr (fun w hw _ => ?_) h) h) he
  have h1 := depth_members hy
  have h2 := depth_members hz
  have h4 := depth_members hw
  have h3 : e.depth ≤ 2 := by cases e <;> simp [depth]
  omega

theorem WF_members {e y : IE} (he : WF e) (hy : y ∈ e.members) : WF y := by
  have h := WF_eq he
  cases e with
  | BearerContext x => exact h.1.2.2.2.2 y hy
  | PdnConnections x => exact h.1.2.2.2.2 y hy
  | OverloadControlInfo x => exact h.1.2.2.2.2 y hy
  | LoadControlInfo x => exact h.1.2.2.2.2 y hy
  | RemoteUeContext x => exact h.1.2.2.2.2 y hy
  | ScefPdnConnections x => exact h.1.2.2.2.2 y hy
  | V2xInformation x => exact h.1.2.2.2.2 y hy
  | PC5QosParameters x => exact h.1.2.2.2.2 y hy
  | PgwChangeInfo x => exact h.1.2.2.2.2 y hy
  | _ => simp [members] at hy

end IE

theorem groupUnm_rt {α : Type} {dec : Bytes → R Err (List IE)} {mk : UInt8 → UInt16 → UInt8 → List IE → α} {m : Mode}
    {t ty : UInt8} {l : UInt16} {ins : UInt8} {els : List IE} {tail : Bytes} {wf : IE → Prop}
    (h : IE.GroupWF wf ty t l els) (hd : dec (IE.encoder els) = .ok els) :
    groupUnm dec mk m (IE.groupMar IE.marshal ty l ins els ++ tail) = .ok (mk t l ins els) := by
  obtain ⟨rfl, h1, h2, h3, -⟩ := h
  have hs := sl_body t (hi16 l) (lo16 l) ins (IE.encoder els) tail _ h1
  have hc : (checkTliv m l (t :: hi16 l :: lo16 l :: ins :: (IE.encoder els ++ tail)) : R Err Bool) = .ok true := by
    rw [checkTliv_ok h3]
    simp [h2, h1]
    omega
  have e : IE.groupMar IE.marshal t l ins els ++ tail = t :: hi16 l :: lo16 l :: ins :: (IE.encoder els ++ tail) := by
    show tliv t l ins (IE.encoder els) ++ tail = _
    rw [tliv_wf h1]
    rfl
  have hb : slBody16 m (t :: hi16 l :: lo16 l :: ins :: (IE.encoder els ++ tail)) l = .ok (IE.encoder els) := by
    rw [slBody16_ok h3, hs]
  rw [e]
  unfold groupUnm
  rt_simp [hc, hd, hb]

theorem Unknown.unmarshal_rt {m : Mode} {t : UInt8} {l : UInt16} {ins : UInt8} {v tail : Bytes}
    (h1 : l.toNat = v.length) (h2 : 0 < l.toNat) (h3 : l.toNat < 65532) :
    Unknown.unmarshal m (tliv t l ins v ++ tail) = .ok ⟨0, l, ins, v⟩ := by
  have hs := sl_body t (hi16 l) (lo16 l) ins v tail _ h1
  have hc : (checkTliv m l (t :: hi16 l :: lo16 l :: ins :: (v ++ tail)) : R Err Bool) = .ok true := by
    rw [checkTliv_ok h3]
    simp [h2, h1]
    omega
  rw [tliv_wf h1]
  simp only [List.cons_append]
  have hb : slBody16 m (t :: hi16 l :: lo16 l :: ins :: (v ++ tail)) l = .ok v := by
    rw [slBody16_ok h3, hs]
  unfold Unknown.unmarshal
  rt_simp [hc, hb]

/-- Every arm of the decoder reads back the IEs it is for, provided that the members of grouped IEs are read back. -/
theorem unmKind_rt {dec : Bytes → R Err (List IE)} {m : Mode} {e : IE} {tail : Bytes} (h : e.WF)
    (hd : dec (IE.encoder e.members) = .ok e.members) : unmKind dec m (e.marshal ++ tail) e.kind = .ok e := by
  rw [IE.marshal_eq]
  have h := IE.WF_eq h
  cases e with
  | Imsi x => simp only [IE.marshalWith, IE.kind, unmKind]; rw [Imsi.rt m x tail h]; rfl
  | Cause x => simp only [IE.marshalWith, IE.kind, unmKind]; rw [Cause.rt m x tail h]; rfl
  | Recovery x => simp only [IE.marshalWith, IE.kind, unmKind]; rw [Recovery.rt m x tail h]; rfl
  | StnSr x => simp only [IE.marshalWith, IE.kind, unmKind]; rw [StnSr.rt m x tail h]; rfl
  | SrvccCause x => simp only [IE.marshalWith, IE.kind, unmKind]; rw [SrvccCause.rt m x tail h]; rfl
  | Apn x => simp only [IE.marshalWith, IE.kind, unmKind]; rw [Apn.rt m x tail h]; rfl
  | ApnAmbr x => simp only [IE.marshalWith, IE.kind, unmKind]; rw [Ambr.rt m x tail h]; rfl
  | Ebi x => simp only [IE.marshalWith, IE.kind, unmKind]; rw [Ebi.rt m x tail h]; rfl
  | IpAddress x => simp only [IE.marshalWith, IE.kind, unmKind]; rw [IpAddress.rt m x tail h]; rfl
  | Mei x => simp only [IE.marshalWith, IE.kind, unmKind]; rw [Mei.rt m x tail h]; rfl
  | Msisdn x => simp only [IE.marshalWith, IE.kind, unmKind]; rw [Msisdn.rt m x tail h]; rfl
  | Indication x => simp only [IE.marshalWith, IE.kind, unmKind]; rw [Indication.rt m x tail h]; rfl
  | Pco x => simp only [IE.marshalWith, IE.kind, unmKind]; rw [Pco.rt m x tail h]; rfl
  | PdnAddressAllocation x => simp only [IE.marshalWith, IE.kind, unmKind]; rw [PdnAddressAllocation.rt m x tail h]; rfl
  | BearerQos x => simp only [IE.marshalWith, IE.kind, unmKind]; rw [BearerQos.rt m x tail h]; rfl
  | FlowQos x => simp only [IE.marshalWith, IE.kind, unmKind]; rw [FlowQos.rt m x tail h]; rfl
  | RatType x => simp only [IE.marshalWith, IE.kind, unmKind]; rw [RatType.rt m x tail h]; rfl
  | ServingNetwork x => simp only [IE.marshalWith, IE.kind, unmKind]; rw [ServingNetwork.rt m x tail h]; rfl
  | BearerTft x => simp only [IE.marshalWith, IE.kind, unmKind]; rw [BearerTft.rt m x tail h]; rfl
  | TrafficAggregateDescription x => simp only [IE.marshalWith, IE.kind, unmKind]; rw [TrafficAggregateDescription.rt m x tail h]; rfl
  | Uli x => simp only [IE.marshalWith, IE.kind, unmKind]; rw [Uli.rt m x tail h]; rfl
  | Fteid x => simp only [IE.marshalWith, IE.kind, unmKind]; rw [Fteid.rt m x tail h]; rfl
  | Tmsi x => simp only [IE.marshalWith, IE.kind, unmKind]; rw [Tmsi.rt m x tail h]; rfl
  | GlobalCnId x => simp only [IE.marshalWith, IE.kind, unmKind]; rw [GlobalCnId.rt m x tail h]; rfl
  | S103pdf x => simp only [IE.marshalWith, IE.kind, unmKind]; rw [S103pdf.rt m x tail h]; rfl
  | S1udf x => simp only [IE.marshalWith, IE.kind, unmKind]; rw [S1udf.rt m x tail h]; rfl
  | DelayValue x => simp only [IE.marshalWith, IE.kind, unmKind]; rw [DelayValue.rt m x tail h]; rfl
  | BearerContext x =>
    simp only [IE.marshalWith, IE.kind, unmKind]
    rw [groupUnm_rt h.1 hd]
    simp only [R.ok_bind, BearerContext.ofGroup_toVec h.2]
    rfl
  | ChargingId x => simp only [IE.marshalWith, IE.kind, unmKind]; rw [ChargingId.rt m x tail h]; rfl
  | ChargingCharacteristics x => simp only [IE.marshalWith, IE.kind, unmKind]; rw [ChargingCharacteristics.rt m x tail h]; rfl
  | TraceInformation x => simp only [IE.marshalWith, IE.kind, unmKind]; rw [TraceInformation.rt m x tail h]; rfl
  | BearerFlags x => simp only [IE.marshalWith, IE.kind, unmKind]; rw [BearerFlags.rt m x tail h]; rfl
  | PdnType x => simp only [IE.marshalWith, IE.kind, unmKind]; rw [PdnType.rt m x tail h]; rfl
  | Pti x => simp only [IE.marshalWith, IE.kind, unmKind]; rw [Pti.rt m x tail h]; rfl
  | MmContext x => simp only [IE.marshalWith, IE.kind, unmKind]; rw [MmContext.rt m x tail h]; rfl
  | PdnConnections x =>
    simp only [IE.marshalWith, IE.kind, unmKind]
    rw [groupUnm_rt h.1 hd]
    simp only [R.ok_bind, PdnConnections.ofGroup_toVec h.2]
    rfl
  | PduNumbers x => simp only [IE.marshalWith, IE.kind, unmKind]; rw [PduNumbers.rt m x tail h]; rfl
  | Ptmsi x => simp only [IE.marshalWith, IE.kind, unmKind]; rw [Ptmsi.rt m x tail h]; rfl
  | PtmsiSignature x => simp only [IE.marshalWith, IE.kind, unmKind]; rw [PtmsiSignature.rt m x tail h]; rfl
  | HopCounter x => simp only [IE.marshalWith, IE.kind, unmKind]; rw [HopCounter.rt m x tail h]; rfl
  | UeTimeZone x => simp only [IE.marshalWith, IE.kind, unmKind]; rw [UeTimeZone.rt m x tail h]; rfl
  | TraceReference x => exact h.elim
  | CompleteRequestMessage x => simp only [IE.marshalWith, IE.kind, unmKind]; rw [CompleteRequestMessage.rt m x tail h]; rfl
  | Guti x => simp only [IE.marshalWith, IE.kind, unmKind]; rw [Guti.rt m x tail h]; rfl
  | Fcontainer x => simp only [IE.marshalWith, IE.kind, unmKind]; rw [Fcontainer.rt m x tail h]; rfl
  | Fcause x => simp only [IE.marshalWith, IE.kind, unmKind]; rw [Fcause.rt m x tail h]; rfl
  | PlmnId x => simp only [IE.marshalWith, IE.kind, unmKind]; rw [PlmnId.rt m x tail h]; rfl
  | TargetIdentification x => simp only [IE.marshalWith, IE.kind, unmKind]; rw [TargetIdentification.rt m x tail h]; rfl
  | PacketFlowId x => simp only [IE.marshalWith, IE.kind, unmKind]; rw [PacketFlowId.rt m x tail h]; rfl
  | RabContext x => simp only [IE.marshalWith, IE.kind, unmKind]; rw [RabContext.rt m x tail h]; rfl
  | SrcRncPdcpCtxInfo x => simp only [IE.marshalWith, IE.kind, unmKind]; rw [SourceRncPdcpContextInfo.rt m x tail h]; rfl
  | PortNumber x => simp only [IE.marshalWith, IE.kind, unmKind]; rw [PortNumber.rt m x tail h]; rfl
  | ApnRestriction x => simp only [IE.marshalWith, IE.kind, unmKind]; rw [ApnRestriction.rt m x tail h]; rfl
  | SelectionMode x => simp only [IE.marshalWith, IE.kind, unmKind]; rw [SelectionMode.rt m x tail h]; rfl
  | SourceIdentification x => simp only [IE.marshalWith, IE.kind, unmKind]; rw [SourceIdentification.rt m x tail h]; rfl
  | ChangeReportingAction x => simp only [IE.marshalWith, IE.kind, unmKind]; rw [ChangeReportingAction.rt m x tail h]; rfl
  | Fqcsid x => simp only [IE.marshalWith, IE.kind, unmKind]; rw [Fqcsid.rt m x tail h]; rfl
  | ChannelNeeded x => simp only [IE.marshalWith, IE.kind, unmKind]; rw [ChannelNeeded.rt m x tail h]; rfl
  | EmlppPriority x => simp only [IE.marshalWith, IE.kind, unmKind]; rw [EmlppPriority.rt m x tail h]; rfl
  | NodeType x => simp only [IE.marshalWith, IE.kind, unmKind]; rw [NodeType.rt m x tail h]; rfl
  | Fqdn x => simp only [IE.marshalWith, IE.kind, unmKind]; rw [Fqdn.rt m x tail h]; rfl
  | TransactionIdentifier x => simp only [IE.marshalWith, IE.kind, unmKind]; rw [TransactionIdentifier.rt m x tail h]; rfl
  | MbmsSa x => simp only [IE.marshalWith, IE.kind, unmKind]; rw [MbmsServiceArea.rt m x tail h]; rfl
  | MbmsSd x => simp only [IE.marshalWith, IE.kind, unmKind]; rw [MbmsSessionDuration.rt m x tail h]; rfl
  | MbmsSessionId x => simp only [IE.marshalWith, IE.kind, unmKind]; rw [MbmsSessionId.rt m x tail h]; rfl
  | MbmsFlowId x => simp only [IE.marshalWith, IE.kind, unmKind]; rw [MbmsFlowId.rt m x tail h]; rfl
  | MbmsIpMulticastDistribution x => simp only [IE.marshalWith, IE.kind, unmKind]; rw [MbmsIpMulticastDistribution.rt m x tail h]; rfl
  | MbmsDistributionAck x => simp only [IE.marshalWith, IE.kind, unmKind]; rw [MbmsDistributionAck.rt m x tail h]; rfl
  | RfspIndex x => simp only [IE.marshalWith, IE.kind, unmKind]; rw [RfspIndex.rt m x tail h]; rfl
  | Uci x => simp only [IE.marshalWith, IE.kind, unmKind]; rw [Uci.rt m x tail h]; rfl
  | CSGInformationReportingAction x => simp only [IE.marshalWith, IE.kind, unmKind]; rw [CSGInformationReportingAction.rt m x tail h]; rfl
  | CsgId x => simp only [IE.marshalWith, IE.kind, unmKind]; rw [CsgId.rt m x tail h]; rfl
  | CsgMembershipIndication x => simp only [IE.marshalWith, IE.kind, unmKind]; rw [CsgMembershipIndication.rt m x tail h]; rfl
  | ServiceIndicator x => simp only [IE.marshalWith, IE.kind, unmKind]; rw [ServiceIndicator.rt m x tail h]; rfl
  | DetachType x => simp only [IE.marshalWith, IE.kind, unmKind]; rw [DetachType.rt m x tail h]; rfl
  | Ldn x => simp only [IE.marshalWith, IE.kind, unmKind]; rw [Ldn.rt m x tail h]; rfl
  | NodeFeatures x => simp only [IE.marshalWith, IE.kind, unmKind]; rw [NodeFeatures.rt m x tail h]; rfl
  | MbmsTimeToDataTransfer x => simp only [IE.marshalWith, IE.kind, unmKind]; rw [MbmsTimeToDataTransfer.rt m x tail h]; rfl
  | Throttling x => simp only [IE.marshalWith, IE.kind, unmKind]; rw [Throttling.rt m x tail h]; rfl
  | Arp x => simp only [IE.marshalWith, IE.kind, unmKind]; rw [Arp.rt m x tail h]; rfl
  | EpcTimer x => simp only [IE.marshalWith, IE.kind, unmKind]; rw [EpcTimer.rt m x tail h]; rfl
  | Spi x => simp only [IE.marshalWith, IE.kind, unmKind]; rw [Spi.rt m x tail h]; rfl
  | Tmgi x => simp only [IE.marshalWith, IE.kind, unmKind]; rw [Tmgi.rt m x tail h]; rfl
  | AdditionalMmContextForSrvcc x => simp only [IE.marshalWith, IE.kind, unmKind]; rw [AdditionalMmContextForSrvcc.rt m x tail h]; rfl
  | AdditionalFlagsSrvcc x => simp only [IE.marshalWith, IE.kind, unmKind]; rw [AdditionalFlagsSrvcc.rt m x tail h]; rfl
  | MdtConfiguration x => simp only [IE.marshalWith, IE.kind, unmKind]; rw [MdtConfiguration.rt m x tail h]; rfl
  | Apco x => simp only [IE.marshalWith, IE.kind, unmKind]; rw [Apco.rt m x tail h]; rfl
  | AbsoluteTimeMbmsDataTransfer x => simp only [IE.marshalWith, IE.kind, unmKind]; rw [AbsoluteTimeMbmsDataTransfer.rt m x tail h]; rfl
  | HenbInfoReporting x => simp only [IE.marshalWith, IE.kind, unmKind]; rw [HenbInfoReporting.rt m x tail h]; rfl
  | Ip4Cp x => simp only [IE.marshalWith, IE.kind, unmKind]; rw [Ip4Cp.rt m x tail h]; rfl
  | ChangeToReportFlags x => simp only [IE.marshalWith, IE.kind, unmKind]; rw [ChangeToReportFlags.rt m x tail h]; rfl
  | ActionIndication x => simp only [IE.marshalWith, IE.kind, unmKind]; rw [ActionIndication.rt m x tail h]; rfl
  | TwanId x => exact h.elim
  | UliTimestamp x => simp only [IE.marshalWith, IE.kind, unmKind]; rw [UliTimestamp.rt m x tail h]; rfl
  | MbmsFlags x => simp only [IE.marshalWith, IE.kind, unmKind]; rw [MbmsFlags.rt m x tail h]; rfl
  | RanNasCause x => simp only [IE.marshalWith, IE.kind, unmKind]; rw [RanNasCause.rt m x tail h]; rfl
  | CnOperatorSelectionEntity x => simp only [IE.marshalWith, IE.kind, unmKind]; rw [CnOperatorSelectionEntity.rt m x tail h]; rfl
  | Twmi x => simp only [IE.marshalWith, IE.kind, unmKind]; rw [Twmi.rt m x tail h]; rfl
  | NodeNumber x => simp only [IE.marshalWith, IE.kind, unmKind]; rw [NodeNumber.rt m x tail h]; rfl
  | NodeIdentifier x => simp only [IE.marshalWith, IE.kind, unmKind]; rw [NodeIdentifier.rt m x tail h]; rfl
  | PresenceReportingAreaAction x => simp only [IE.marshalWith, IE.kind, unmKind]; rw [PresenceReportingAreaAction.rt m x tail h]; rfl
  | PresenceReportingAreaInformation x => simp only [IE.marshalWith, IE.kind, unmKind]; rw [PresenceReportingAreaInformation.rt m x tail h]; rfl
  | TwanIdTimeStamp x => simp only [IE.marshalWith, IE.kind, unmKind]; rw [TwanIdTimeStamp.rt m x tail h]; rfl
  | OverloadControlInfo x =>
    simp only [IE.marshalWith, IE.kind, unmKind]
    rw [groupUnm_rt h.1 hd]
    simp only [R.ok_bind, OverloadControlInfo.ofGroup_toVec h.2]
    have hc : listCheck 180 OverloadControlInfo.list x = .ok x := by
      obtain ⟨-, h⟩ := h
      unfold OverloadControlInfo.Slots at h
      unfold listCheck
      cases hl : x.list with
      | none => rfl
      | some v => rw [hl] at h; simp at h; simp [h]
    rw [hc]; rfl
  | LoadControlInfo x =>
    simp only [IE.marshalWith, IE.kind, unmKind]
    rw [groupUnm_rt h.1 hd]
    simp only [R.ok_bind, LoadControl.ofGroup_toVec h.2]
    have hc : listCheck 181 LoadControl.list x = .ok x := by
      obtain ⟨-, h⟩ := h
      unfold LoadControl.Slots at h
      unfold listCheck
      cases hl : x.list with
      | none => rfl
      | some v => rw [hl] at h; simp at h; simp [h]
    rw [hc]; rfl
  | Metric x => simp only [IE.marshalWith, IE.kind, unmKind]; rw [Metric.rt m x tail h]; rfl
  | Sqn x => simp only [IE.marshalWith, IE.kind, unmKind]; rw [Sqn.rt m x tail h]; rfl
  | ApnRelativeCapacity x => simp only [IE.marshalWith, IE.kind, unmKind]; rw [ApnRelativeCapacity.rt m x tail h]; rfl
  | WlanOffloadIndication x => simp only [IE.marshalWith, IE.kind, unmKind]; rw [WlanOffloadIndication.rt m x tail h]; rfl
  | PagingServiceInfo x => simp only [IE.marshalWith, IE.kind, unmKind]; rw [PagingServiceInfo.rt m x tail h]; rfl
  | IntegerNumber x => simp only [IE.marshalWith, IE.kind, unmKind]; rw [IntegerNumber.rt m x tail h]; rfl
  | MilliSecondTimeStamp x => simp only [IE.marshalWith, IE.kind, unmKind]; rw [MilliSecondTimeStamp.rt m x tail h]; rfl
  | MonitoringEventInformation x => simp only [IE.marshalWith, IE.kind, unmKind]; rw [MonitoringEventInformation.rt m x tail h]; rfl
  | EcgiList x => simp only [IE.marshalWith, IE.kind, unmKind]; rw [EcgiList.rt m x tail h]; rfl
  | RemoteUeContext x =>
    simp only [IE.marshalWith, IE.kind, unmKind]
    rw [groupUnm_rt h.1 hd]
    simp only [R.ok_bind, RemoteUeContext.ofGroup_toVec h.2]
    rfl
  | RemoteUserId x => simp only [IE.marshalWith, IE.kind, unmKind]; rw [RemoteUserId.rt m x tail h]; rfl
  | RemoteUeIpInformation x => simp only [IE.marshalWith, IE.kind, unmKind]; rw [RemoteUeIpInformation.rt m x tail h]; rfl
  | CIoTOptimizationSupportIndication x => simp only [IE.marshalWith, IE.kind, unmKind]; rw [CIoTOptimizationSupportIndication.rt m x tail h]; rfl
  | ScefPdnConnections x =>
    simp only [IE.marshalWith, IE.kind, unmKind]
    rw [groupUnm_rt h.1 hd]
    simp only [R.ok_bind, ScefPdnConnections.ofGroup_toVec h.2]
    rfl
  | HeaderCompressionConfiguration x => simp only [IE.marshalWith, IE.kind, unmKind]; rw [HeaderCompressionConfiguration.rt m x tail h]; rfl
  | Epco x => simp only [IE.marshalWith, IE.kind, unmKind]; rw [Epco.rt m x tail h]; rfl
  | ServingPlmnRateControl x => simp only [IE.marshalWith, IE.kind, unmKind]; rw [ServingPlmnRateControl.rt m x tail h]; rfl
  | Counter x => simp only [IE.marshalWith, IE.kind, unmKind]; rw [Counter.rt m x tail h]; rfl
  | MappedUeUsageType x => simp only [IE.marshalWith, IE.kind, unmKind]; rw [MappedUeUsageType.rt m x tail h]; rfl
  | SecondaryRatUsageDataReport x => simp only [IE.marshalWith, IE.kind, unmKind]; rw [SecondaryRatUsageDataReport.rt m x tail h]; rfl
  | UpFunctionSelectionIndicationFlags x => simp only [IE.marshalWith, IE.kind, unmKind]; rw [UpFunctionSelectionIndicationFlags.rt m x tail h]; rfl
  | MaxPacketLossRate x => simp only [IE.marshalWith, IE.kind, unmKind]; rw [MaxPacketLossRate.rt m x tail h]; rfl
  | ApnRateControlStatus x => simp only [IE.marshalWith, IE.kind, unmKind]; rw [ApnRateControlStatus.rt m x tail h]; rfl
  | ExtendedTraceInformation x => simp only [IE.marshalWith, IE.kind, unmKind]; rw [ExtendedTraceInformation.rt m x tail h]; rfl
  | MonitoringEventExtensionInfo x => simp only [IE.marshalWith, IE.kind, unmKind]; rw [MonitoringEventExtensionInfo.rt m x tail h]; rfl
  | AdditionalRrmPolicyIndex x => simp only [IE.marshalWith, IE.kind, unmKind]; rw [AdditionalRrmPolicyIndex.rt m x tail h]; rfl
  | V2xInformation x =>
    simp only [IE.marshalWith, IE.kind, unmKind]
    rw [groupUnm_rt h.1 hd]
    simp only [R.ok_bind, V2xInformation.ofGroup_toVec h.2]
    rfl
  | PC5QosParameters x =>
    simp only [IE.marshalWith, IE.kind, unmKind]
    rw [groupUnm_rt h.1 hd]
    simp only [R.ok_bind, PC5QosParameters.ofGroup_toVec h.2]
    rw [if_neg h.2.2.2]; rfl
  | ServicesAuthorized x => simp only [IE.marshalWith, IE.kind, unmKind]; rw [ServicesAuthorized.rt m x tail h]; rfl
  | BitRate x => simp only [IE.marshalWith, IE.kind, unmKind]; rw [BitRate.rt m x tail h]; rfl
  | PC5QosFlow x => simp only [IE.marshalWith, IE.kind, unmKind]; rw [PC5QosFlow.rt m x tail h]; rfl
  | SgiPtpTunnelAddress x => simp only [IE.marshalWith, IE.kind, unmKind]; rw [SgiPtpTunnelAddress.rt m x tail h]; rfl
  | PgwChangeInfo x =>
    simp only [IE.marshalWith, IE.kind, unmKind]
    rw [groupUnm_rt h.1 hd]
    simp only [R.ok_bind, PgwChangeInfo.ofGroup_toVec h.2]
    rfl
  | PgwFqdn x => simp only [IE.marshalWith, IE.kind, unmKind]; rw [PgwFqdn.rt m x tail h]; rfl
  | GroupId x => simp only [IE.marshalWith, IE.kind, unmKind]; rw [GroupId.rt m x tail h]; rfl
  | PSCellId x => simp only [IE.marshalWith, IE.kind, unmKind]; rw [PSCellId.rt m x tail h]; rfl
  | UpSecurityPolicy x => simp only [IE.marshalWith, IE.kind, unmKind]; rw [UpSecurityPolicy.rt m x tail h]; rfl
  | AlternativeImsi x => simp only [IE.marshalWith, IE.kind, unmKind]; rw [AlternativeImsi.rt m x tail h]; rfl
  | SpecialIEWithTypeExt x => simp only [IE.marshalWith, IE.kind, unmKind]; rw [SpecialIEWithTypeExt.rt m x tail h]; rfl
  | PrivateExtension x => simp only [IE.marshalWith, IE.kind, unmKind]; rw [PrivateExtension.rt m x tail h]; rfl
  | Unknown x =>
    obtain ⟨t, l, ins, v⟩ := x
    obtain ⟨rfl, h1, h2, h3⟩ := h
    simp only [IE.marshalWith, IE.kind, unmKind]
    rw [Unknown.unmarshal_rt h1 h2 h3]; rfl

theorem kindOf_wireType {e : IE} (h : e.WF) : kindOf e.wireType = e.kind := by
  have h := IE.WF_eq h
  cases e with
  | MmContext x => cases x <;> rfl
  | TraceReference x => exact h.elim
  | TwanId x => exact h.elim
  | Unknown x => simp only [IE.wireType]; rw [h.1]; rfl
  | Uli x => simp only [IE.wireType]; rw [h.1]; rfl
  | _ => rfl

theorem IE.len_ok {m : Mode} {e : IE} (h : e.WF) : e.len m = .ok e.marshal.length := by
  rw [IE.marshal_eq]
  have h := IE.WF_eq h
  cases e with
  | Imsi x => exact Imsi.len_ok m x h
  | Cause x => exact Cause.len_ok m x h
  | Recovery x => exact Recovery.len_ok m x h
  | StnSr x => exact StnSr.len_ok m x h
  | SrvccCause x => exact SrvccCause.len_ok m x h
  | Apn x => exact Apn.len_ok m x h
  | ApnAmbr x => exact Ambr.len_ok m x h
  | Ebi x => exact Ebi.len_ok m x h
  | IpAddress x => exact IpAddress.len_ok m x h
  | Mei x => exact Mei.len_ok m x h
  | Msisdn x => exact Msisdn.len_ok m x h
  | Indication x => exact Indication.len_ok m x h
  | Pco x => exact Pco.len_ok m x h
  | PdnAddressAllocation x => exact PdnAddressAllocation.len_ok m x h
  | BearerQos x => exact BearerQos.len_ok m x h
  | FlowQos x => exact FlowQos.len_ok m x h
  | RatType x => exact RatType.len_ok m x h
  | ServingNetwork x => exact ServingNetwork.len_ok m x h
  | BearerTft x => exact BearerTft.len_ok m x h
  | TrafficAggregateDescription x => exact TrafficAggregateDescription.len_ok m x h
  | Uli x => exact Uli.len_ok m x h
  | Fteid x => exact Fteid.len_ok m x h
  | Tmsi x => exact Tmsi.len_ok m x h
  | GlobalCnId x => exact GlobalCnId.len_ok m x h
  | S103pdf x => exact S103pdf.len_ok m x h
  | S1udf x => exact S1udf.len_ok m x h
  | DelayValue x => exact DelayValue.len_ok m x h
  | BearerContext x =>
    simp only [IE.len, ieLenU, IE.marshalWith, IE.groupMar, tliv_eq, List.length_cons]
    rw [h.1.2.1]; rfl
  | ChargingId x => exact ChargingId.len_ok m x h
  | ChargingCharacteristics x => exact ChargingCharacteristics.len_ok m x h
  | TraceInformation x => exact TraceInformation.len_ok m x h
  | BearerFlags x => exact BearerFlags.len_ok m x h
  | PdnType x => exact PdnType.len_ok m x h
  | Pti x => exact Pti.len_ok m x h
  | MmContext x => exact MmContext.len_ok m x h
  | PdnConnections x =>
    simp only [IE.len, ieLenU, IE.marshalWith, IE.groupMar, tliv_eq, List.length_cons]
    rw [h.1.2.1]; rfl
  | PduNumbers x => exact PduNumbers.len_ok m x h
  | Ptmsi x => exact Ptmsi.len_ok m x h
  | PtmsiSignature x => exact PtmsiSignature.len_ok m x h
  | HopCounter x => exact HopCounter.len_ok m x h
  | UeTimeZone x => exact UeTimeZone.len_ok m x h
  | TraceReference x => exact h.elim
  | CompleteRequestMessage x => exact CompleteRequestMessage.len_ok m x h
  | Guti x => exact Guti.len_ok m x h
  | Fcontainer x => exact Fcontainer.len_ok m x h
  | Fcause x => exact Fcause.len_ok m x h
  | PlmnId x => exact PlmnId.len_ok m x h
  | TargetIdentification x => exact TargetIdentification.len_ok m x h
  | PacketFlowId x => exact PacketFlowId.len_ok m x h
  | RabContext x => exact RabContext.len_ok m x h
  | SrcRncPdcpCtxInfo x => exact SourceRncPdcpContextInfo.len_ok m x h
  | PortNumber x => exact PortNumber.len_ok m x h
  | ApnRestriction x => exact ApnRestriction.len_ok m x h
  | SelectionMode x => exact SelectionMode.len_ok m x h
  | SourceIdentification x => exact SourceIdentification.len_ok m x h
  | ChangeReportingAction x => exact ChangeReportingAction.len_ok m x h
  | Fqcsid x => exact Fqcsid.len_ok m x h
  | ChannelNeeded x => exact ChannelNeeded.len_ok m x h
  | EmlppPriority x => exact EmlppPriority.len_ok m x h
  | NodeType x => exact NodeType.len_ok m x h
  | Fqdn x => exact Fqdn.len_ok m x h
  | TransactionIdentifier x => exact TransactionIdentifier.len_ok m x h
  | MbmsSa x => exact MbmsServiceArea.len_ok m x h
  | MbmsSd x => exact MbmsSessionDuration.len_ok m x h
  | MbmsSessionId x => exact MbmsSessionId.len_ok m x h
  | MbmsFlowId x => exact MbmsFlowId.len_ok m x h
  | MbmsIpMulticastDistribution x => exact MbmsIpMulticastDistribution.len_ok m x h
  | MbmsDistributionAck x => exact MbmsDistributionAck.len_ok m x h
  | RfspIndex x => exact RfspIndex.len_ok m x h
  | Uci x => exact Uci.len_ok m x h
  | CSGInformationReportingAction x => exact CSGInformationReportingAction.len_ok m x h
  | CsgId x => exact CsgId.len_ok m x h
  | CsgMembershipIndication x => exact CsgMembershipIndication.len_ok m x h
  | ServiceIndicator x => exact ServiceIndicator.len_ok m x h
  | DetachType x => exact DetachType.len_ok m x h
  | Ldn x => exact Ldn.len_ok m x h
  | NodeFeatures x => exact NodeFeatures.len_ok m x h
  | MbmsTimeToDataTransfer x => exact MbmsTimeToDataTransfer.len_ok m x h
  | Throttling x => exact Throttling.len_ok m x h
  | Arp x => exact Arp.len_ok m x h
  | EpcTimer x => exact EpcTimer.len_ok m x h
  | Spi x => exact Spi.len_ok m x h
  | Tmgi x => exact Tmgi.len_ok m x h
  | AdditionalMmContextForSrvcc x => exact AdditionalMmContextForSrvcc.len_ok m x h
  | AdditionalFlagsSrvcc x => exact AdditionalFlagsSrvcc.len_ok m x h
  | MdtConfiguration x => exact MdtConfiguration.len_ok m x h
  | Apco x => exact Apco.len_ok m x h
  | AbsoluteTimeMbmsDataTransfer x => exact AbsoluteTimeMbmsDataTransfer.len_ok m x h
  | HenbInfoReporting x => exact HenbInfoReporting.len_ok m x h
  | Ip4Cp x => exact Ip4Cp.len_ok m x h
  | ChangeToReportFlags x => exact ChangeToReportFlags.len_ok m x h
  | ActionIndication x => exact ActionIndication.len_ok m x h
  | TwanId x => exact h.elim
  | UliTimestamp x => exact UliTimestamp.len_ok m x h
  | MbmsFlags x => exact MbmsFlags.len_ok m x h
  | RanNasCause x => exact RanNasCause.len_ok m x h
  | CnOperatorSelectionEntity x => exact CnOperatorSelectionEntity.len_ok m x h
  | Twmi x => exact Twmi.len_ok m x h
  | NodeNumber x => exact NodeNumber.len_ok m x h
  | NodeIdentifier x => exact NodeIdentifier.len_ok m x h
  | PresenceReportingAreaAction x => exact PresenceReportingAreaAction.len_ok m x h
  | PresenceReportingAreaInformation x => exact PresenceReportingAreaInformation.len_ok m x h
  | TwanIdTimeStamp x => exact TwanIdTimeStamp.len_ok m x h
  | OverloadControlInfo x =>
    simp only [IE.len, ieLenU, IE.marshalWith, IE.groupMar, tliv_eq, List.length_cons]
    rw [h.1.2.1]; rfl
  | LoadControlInfo x =>
    simp only [IE.len, ieLenU, IE.marshalWith, IE.groupMar, tliv_eq, List.length_cons]
    rw [h.1.2.1]; rfl
  | Metric x => exact Metric.len_ok m x h
  | Sqn x => exact Sqn.len_ok m x h
  | ApnRelativeCapacity x => exact ApnRelativeCapacity.len_ok m x h
  | WlanOffloadIndication x => exact WlanOffloadIndication.len_ok m x h
  | PagingServiceInfo x => exact PagingServiceInfo.len_ok m x h
  | IntegerNumber x => exact IntegerNumber.len_ok m x h
  | MilliSecondTimeStamp x => exact MilliSecondTimeStamp.len_ok m x h
  | MonitoringEventInformation x => exact MonitoringEventInformation.len_ok m x h
  | EcgiList x => exact EcgiList.len_ok m x h
  | RemoteUeContext x =>
    simp only [IE.len, ieLenU, IE.marshalWith, IE.groupMar, tliv_eq, List.length_cons]
    rw [h.1.2.1]; rfl
  | RemoteUserId x => exact RemoteUserId.len_ok m x h
  | RemoteUeIpInformation x => exact RemoteUeIpInformation.len_ok m x h
  | CIoTOptimizationSupportIndication x => exact CIoTOptimizationSupportIndication.len_ok m x h
  | ScefPdnConnections x =>
    simp only [IE.len, ieLenU, IE.marshalWith, IE.groupMar, tliv_eq, List.length_cons]
    rw [h.1.2.1]; rfl
  | HeaderCompressionConfiguration x => exact HeaderCompressionConfiguration.len_ok m x h
  | Epco x => exact Epco.len_ok m x h
  | ServingPlmnRateControl x => exact ServingPlmnRateControl.len_ok m x h
  | Counter x => exact Counter.len_ok m x h
  | MappedUeUsageType x => exact MappedUeUsageType.len_ok m x h
  | SecondaryRatUsageDataReport x => exact SecondaryRatUsageDataReport.len_ok m x h
  | UpFunctionSelectionIndicationFlags x => exact UpFunctionSelectionIndicationFlags.len_ok m x h
  | MaxPacketLossRate x => exact MaxPacketLossRate.len_ok m x h
  | ApnRateControlStatus x => exact ApnRateControlStatus.len_ok m x h
  | ExtendedTraceInformation x => exact ExtendedTraceInformation.len_ok m x h
  | MonitoringEventExtensionInfo x => exact MonitoringEventExtensionInfo.len_ok m x h
  | AdditionalRrmPolicyIndex x => exact AdditionalRrmPolicyIndex.len_ok m x h
  | V2xInformation x =>
    simp only [IE.len, ieLenU, IE.marshalWith, IE.groupMar, tliv_eq, List.length_cons]
    rw [h.1.2.1]; rfl
  | PC5QosParameters x =>
    simp only [IE.len, ieLenU, IE.marshalWith, IE.groupMar, tliv_eq, List.length_cons]
    rw [h.1.2.1]; rfl
  | ServicesAuthorized x => exact ServicesAuthorized.len_ok m x h
  | BitRate x => exact BitRate.len_ok m x h
  | PC5QosFlow x => exact PC5QosFlow.len_ok m x h
  | SgiPtpTunnelAddress x => exact SgiPtpTunnelAddress.len_ok m x h
  | PgwChangeInfo x =>
    simp only [IE.len, ieLenU, IE.marshalWith, IE.groupMar, tliv_eq, List.length_cons]
    rw [h.1.2.1]; rfl
  | PgwFqdn x => exact PgwFqdn.len_ok m x h
  | GroupId x => exact GroupId.len_ok m x h
  | PSCellId x => exact PSCellId.len_ok m x h
  | UpSecurityPolicy x => exact UpSecurityPolicy.len_ok m x h
  | AlternativeImsi x => exact AlternativeImsi.len_ok m x h
  | SpecialIEWithTypeExt x => exact SpecialIEWithTypeExt.len_ok m x h
  | PrivateExtension x => exact PrivateExtension.len_ok m x h
  | Unknown x => simp only [IE.len, ieLenU, IE.marshalWith, tliv_eq, List.length_cons]; rw [h.2.1]

end Gtp.V2
