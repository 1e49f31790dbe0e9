import Verif.V2.Stable

/-!
# The lengths in a grouped IE

Expanded by `scripts/gen_deep.py`. `IE.norm` sets the length field of one IE; `IE.deep` sets that of a grouped IE and those of its
members, at any depth. Encoding does not look at any of them. A grouped IE that was decoded is, with these lengths, a value which the
encoding represents (`deep_WF`).
-/

namespace Gtp.V2
set_option linter.unusedSimpArgs false

theorem optV_map {α : Type} {F : α → IE} {f : α → α} {g : IE → IE} (h : ∀ k, F (f k) = g (F k)) (o : Option α) :
    optV F (o.map f) = (optV F o).map g := by
  cases o <;> simp [optV, h]

theorem list_map {α : Type} {F : α → IE} {f : α → α} {g : IE → IE} (h : ∀ k, F (f k) = g (F k)) (l : List α) :
    (l.map f).map F = (l.map F).map g := by
  simp [h]

theorem app_congr {a b c d : List IE} (h : a = c) (h' : b = d) : a ++ b = c ++ d := by rw [h, h']

theorem getD_map {α : Type} {F : α → IE} {f : α → α} {g : IE → IE} (h : ∀ k, F (f k) = g (F k)) (o : Option (List α)) :
    ((o.map (List.map f)).getD []).map F = ((o.getD []).map F).map g := by
  cases o <;> simp [h]

/-- The length of the IE and those of its members are the ones they are encoded with. -/
def BearerContext.deep (x : BearerContext) : BearerContext :=
  { x with
    length := (IE.BearerContext x).bodyLen
    cause := x.cause.map fun k => { k with length := (IE.Cause k).bodyLen }
    ebi := { x.ebi with length := (IE.Ebi x.ebi).bodyLen }
    tft := x.tft.map fun k => { k with length := (IE.BearerTft k).bodyLen }
    fteids := x.fteids.map fun k => { k with length := (IE.Fteid k).bodyLen }
    bearer_qos := x.bearer_qos.map fun k => { k with length := (IE.BearerQos k).bodyLen }
    charging_id := x.charging_id.map fun k => { k with length := (IE.ChargingId k).bodyLen }
    bearer_flags := x.bearer_flags.map fun k => { k with length := (IE.BearerFlags k).bodyLen }
    pco := x.pco.map fun k => { k with length := (IE.Pco k).bodyLen }
    apco := x.apco.map fun k => { k with length := (IE.Apco k).bodyLen }
    epco := x.epco.map fun k => { k with length := (IE.Epco k).bodyLen }
    max_packet_loss := x.max_packet_loss.map fun k => { k with length := (IE.MaxPacketLossRate k).bodyLen }
    ran_nas_cause := x.ran_nas_cause.map fun k => { k with length := (IE.RanNasCause k).bodyLen } }

/-- The length of the IE and those of its members are the ones they are encoded with. -/
def LoadControl.deep (x : LoadControl) : LoadControl :=
  { x with
    length := (IE.LoadControlInfo x).bodyLen
    sqn := { x.sqn with length := (IE.Sqn x.sqn).bodyLen }
    load_metric := { x.load_metric with length := (IE.Metric x.load_metric).bodyLen }
    list := x.list.map (List.map fun k => { k with length := (IE.ApnRelativeCapacity k).bodyLen }) }

/-- The length of the IE and those of its members are the ones they are encoded with. -/
def OverloadControlInfo.deep (x : OverloadControlInfo) : OverloadControlInfo :=
  { x with
    length := (IE.OverloadControlInfo x).bodyLen
    sqn := { x.sqn with length := (IE.Sqn x.sqn).bodyLen }
    metric := { x.metric with length := (IE.Metric x.metric).bodyLen }
    validity := { x.validity with length := (IE.EpcTimer x.validity).bodyLen }
    list := x.list.map (List.map fun k => { k with length := (IE.Apn k).bodyLen }) }

/-- The length of the IE and those of its members are the ones they are encoded with. -/
def RemoteUeContext.deep (x : RemoteUeContext) : RemoteUeContext :=
  { x with
    length := (IE.RemoteUeContext x).bodyLen
    user_id := { x.user_id with length := (IE.RemoteUserId x.user_id).bodyLen }
    ue_ip := x.ue_ip.map fun k => { k with length := (IE.RemoteUeIpInformation k).bodyLen } }

/-- The length of the IE and those of its members are the ones they are encoded with. -/
def ScefPdnConnections.deep (x : ScefPdnConnections) : ScefPdnConnections :=
  { x with
    length := (IE.ScefPdnConnections x).bodyLen
    apn := { x.apn with length := (IE.Apn x.apn).bodyLen }
    default_ebi := { x.default_ebi with length := (IE.Ebi x.default_ebi).bodyLen }
    scef_id := { x.scef_id with length := (IE.NodeIdentifier x.scef_id).bodyLen } }

/-- The length of the IE and those of its members are the ones they are encoded with. -/
def PC5QosParameters.deep (x : PC5QosParameters) : PC5QosParameters :=
  { x with
    length := (IE.PC5QosParameters x).bodyLen
    pc5_qos_flows := x.pc5_qos_flows.map fun k => { k with length := (IE.PC5QosFlow k).bodyLen }
    pc5_link_abrs := x.pc5_link_abrs.map fun k => { k with length := (IE.BitRate k).bodyLen } }

/-- The length of the IE and those of its members are the ones they are encoded with. -/
def PgwChangeInfo.deep (x : PgwChangeInfo) : PgwChangeInfo :=
  { x with
    length := (IE.PgwChangeInfo x).bodyLen
    sgw_pgw_smf_ips := x.sgw_pgw_smf_ips.map fun k => { k with length := (IE.IpAddress k).bodyLen }
    pgw_fqdns := x.pgw_fqdns.map fun k => { k with length := (IE.PgwFqdn k).bodyLen }
    pgw_smf_fqcsid := x.pgw_smf_fqcsid.map fun k => { k with length := (IE.Fqcsid k).bodyLen }
    groupids := x.groupids.map fun k => { k with length := (IE.GroupId k).bodyLen } }

/-- The length of the IE and those of its members are the ones they are encoded with. -/
def PdnConnections.deep (x : PdnConnections) : PdnConnections :=
  { x with
    length := (IE.PdnConnections x).bodyLen
    apn := { x.apn with length := (IE.Apn x.apn).bodyLen }
    apn_restriction := x.apn_restriction.map fun k => { k with length := (IE.ApnRestriction k).bodyLen }
    selection_mode := x.selection_mode.map fun k => { k with length := (IE.SelectionMode k).bodyLen }
    ipv4 := x.ipv4.map fun k => { k with length := (IE.IpAddress k).bodyLen }
    ipv6 := x.ipv6.map fun k => { k with length := (IE.IpAddress k).bodyLen }
    linked_ebi := { x.linked_ebi with length := (IE.Ebi x.linked_ebi).bodyLen }
    pgw_addr_control := { x.pgw_addr_control with length := (IE.Fteid x.pgw_addr_control).bodyLen }
    pgw_node_name := x.pgw_node_name.map fun k => { k with length := (IE.Fqdn k).bodyLen }
    bearer_ctxs := x.bearer_ctxs.map fun k => k.deep
    apn_ambr := { x.apn_ambr with length := (IE.ApnAmbr x.apn_ambr).bodyLen }
    charging_char := x.charging_char.map fun k => { k with length := (IE.ChargingCharacteristics k).bodyLen }
    change_reporting_action := x.change_reporting_action.map fun k => { k with length := (IE.ChangeReportingAction k).bodyLen }
    csg_info_reporting_action := x.csg_info_reporting_action.map fun k => { k with length := (IE.CSGInformationReportingAction k).bodyLen }
    henb_info_reporting := x.henb_info_reporting.map fun k => { k with length := (IE.HenbInfoReporting k).bodyLen }
    indication := x.indication.map fun k => { k with length := (IE.Indication k).bodyLen }
    signalling_priority_indication := x.signalling_priority_indication.map fun k => { k with length := (IE.Spi k).bodyLen }
    change_to_report_flags := x.change_to_report_flags.map fun k => { k with length := (IE.ChangeToReportFlags k).bodyLen }
    local_home_network_id := x.local_home_network_id.map fun k => { k with length := (IE.Fqdn k).bodyLen }
    praa := x.praa.map fun k => { k with length := (IE.PresenceReportingAreaAction k).bodyLen }
    wlan_offloadability := x.wlan_offloadability.map fun k => { k with length := (IE.WlanOffloadIndication k).bodyLen }
    remote_ue_ctxs := x.remote_ue_ctxs.map fun k => k.deep
    pdn_type := x.pdn_type.map fun k => { k with length := (IE.PdnType k).bodyLen }
    hdr_compr_config := x.hdr_compr_config.map fun k => { k with length := (IE.HeaderCompressionConfiguration k).bodyLen } }

/-- The length of the IE and those of its members are the ones they are encoded with. -/
def V2xInformation.deep (x : V2xInformation) : V2xInformation :=
  { x with
    length := (IE.V2xInformation x).bodyLen
    services_auth := x.services_auth.map fun k => { k with length := (IE.ServicesAuthorized k).bodyLen }
    sidelink_max_brs := x.sidelink_max_brs.map fun k => { k with length := (IE.BitRate k).bodyLen }
    pc5_qos_params := x.pc5_qos_params.map fun k => k.deep }

/-- The length fields of an IE and of its members are set. -/
def IE.deep : IE → IE
  | .BearerContext x => .BearerContext x.deep
  | .LoadControlInfo x => .LoadControlInfo x.deep
  | .OverloadControlInfo x => .OverloadControlInfo x.deep
  | .RemoteUeContext x => .RemoteUeContext x.deep
  | .ScefPdnConnections x => .ScefPdnConnections x.deep
  | .PC5QosParameters x => .PC5QosParameters x.deep
  | .PgwChangeInfo x => .PgwChangeInfo x.deep
  | .PdnConnections x => .PdnConnections x.deep
  | .V2xInformation x => .V2xInformation x.deep
  | e => e.norm

theorem BearerContext.toVec_deep (x : BearerContext) : x.deep.toVec = x.toVec.map IE.deep := by
  simp only [toVec, List.map_append, deep]
  refine app_congr ?_ ?_
  · apply optV_map; intro _; rfl
  refine app_congr ?_ ?_
  · rfl
  refine app_congr ?_ ?_
  · apply optV_map; intro _; rfl
  refine app_congr ?_ ?_
  · apply list_map; intro _; rfl
  refine app_congr ?_ ?_
  · apply optV_map; intro _; rfl
  refine app_congr ?_ ?_
  · apply optV_map; intro _; rfl
  refine app_congr ?_ ?_
  · apply optV_map; intro _; rfl
  refine app_congr ?_ ?_
  · apply optV_map; intro _; rfl
  refine app_congr ?_ ?_
  · apply optV_map; intro _; rfl
  refine app_congr ?_ ?_
  · apply optV_map; intro _; rfl
  refine app_congr ?_ ?_
  · apply optV_map; intro _; rfl
  apply optV_map; intro _; rfl

theorem LoadControl.toVec_deep (x : LoadControl) : x.deep.toVec = x.toVec.map IE.deep := by
  simp only [toVec, List.map_append, deep]
  refine app_congr ?_ ?_
  · rfl
  refine app_congr ?_ ?_
  · rfl
  apply getD_map; intro _; rfl

theorem OverloadControlInfo.toVec_deep (x : OverloadControlInfo) : x.deep.toVec = x.toVec.map IE.deep := by
  simp only [toVec, List.map_append, deep]
  refine app_congr ?_ ?_
  · rfl
  refine app_congr ?_ ?_
  · rfl
  refine app_congr ?_ ?_
  · rfl
  apply getD_map; intro _; rfl

theorem RemoteUeContext.toVec_deep (x : RemoteUeContext) : x.deep.toVec = x.toVec.map IE.deep := by
  simp only [toVec, List.map_append, deep]
  refine app_congr ?_ ?_
  · rfl
  apply optV_map; intro _; rfl

theorem ScefPdnConnections.toVec_deep (x : ScefPdnConnections) : x.deep.toVec = x.toVec.map IE.deep := by
  simp only [toVec, List.map_append, deep]
  refine app_congr ?_ ?_
  · rfl
  refine app_congr ?_ ?_
  · rfl
  rfl

theorem PC5QosParameters.toVec_deep (x : PC5QosParameters) : x.deep.toVec = x.toVec.map IE.deep := by
  simp only [toVec, List.map_append, deep]
  refine app_congr ?_ ?_
  · apply list_map; intro _; rfl
  apply optV_map; intro _; rfl

theorem PgwChangeInfo.toVec_deep (x : PgwChangeInfo) : x.deep.toVec = x.toVec.map IE.deep := by
  simp only [toVec, List.map_append, deep]
  refine app_congr ?_ ?_
  · apply list_map; intro _; rfl
  refine app_congr ?_ ?_
  · apply list_map; intro _; rfl
  refine app_congr ?_ ?_
  · apply list_map; intro _; rfl
  apply list_map; intro _; rfl

theorem PdnConnections.toVec_deep (x : PdnConnections) : x.deep.toVec = x.toVec.map IE.deep := by
  simp only [toVec, List.map_append, deep]
  refine app_congr ?_ ?_
  · rfl
  refine app_congr ?_ ?_
  · apply optV_map; intro _; rfl
  refine app_congr ?_ ?_
  · apply optV_map; intro _; rfl
  refine app_congr ?_ ?_
  · apply optV_map; intro _; rfl
  refine app_congr ?_ ?_
  · apply optV_map; intro _; rfl
  refine app_congr ?_ ?_
  · rfl
  refine app_congr ?_ ?_
  · rfl
  refine app_congr ?_ ?_
  · apply optV_map; intro _; rfl
  refine app_congr ?_ ?_
  · apply list_map; intro _; rfl
  refine app_congr ?_ ?_
  · rfl
  refine app_congr ?_ ?_
  · apply optV_map; intro _; rfl
  refine app_congr ?_ ?_
  · apply optV_map; intro _; rfl
  refine app_congr ?_ ?_
  · apply optV_map; intro _; rfl
  refine app_congr ?_ ?_
  · apply optV_map; intro _; rfl
  refine app_congr ?_ ?_
  · apply optV_map; intro _; rfl
  refine app_congr ?_ ?_
  · apply optV_map; intro _; rfl
  refine app_congr ?_ ?_
  · apply optV_map; intro _; rfl
  refine app_congr ?_ ?_
  · apply optV_map; intro _; rfl
  refine app_congr ?_ ?_
  · apply optV_map; intro _; rfl
  refine app_congr ?_ ?_
  · apply optV_map; intro _; rfl
  refine app_congr ?_ ?_
  · apply list_map; intro _; rfl
  refine app_congr ?_ ?_
  · apply optV_map; intro _; rfl
  apply optV_map; intro _; rfl

theorem V2xInformation.toVec_deep (x : V2xInformation) : x.deep.toVec = x.toVec.map IE.deep := by
  simp only [toVec, List.map_append, deep]
  refine app_congr ?_ ?_
  · apply list_map; intro _; rfl
  refine app_congr ?_ ?_
  · apply list_map; intro _; rfl
  apply optV_map; intro _; rfl

theorem BearerContext.slots_deep {x : BearerContext} (h : x.Slots) : x.deep.Slots := by
  unfold Slots at *
  obtain ⟨h0, h1, h2, h3, h4, h5, h6, h7, h8, h9, h10, h11, h12⟩ := h
  refine ⟨?_, ?_, ?_, ?_, ?_, ?_, ?_, ?_, ?_, ?_, ?_, ?_, ?_⟩
  · exact h0
  · intro k hk; obtain ⟨a, ha, rfl⟩ := Option.map_eq_some_iff.mp hk; exact h1 a ha
  · intro k hk; obtain ⟨a, ha, rfl⟩ := Option.map_eq_some_iff.mp hk; exact h2 a ha
  · intro k hk; obtain ⟨a, ha, rfl⟩ := Option.map_eq_some_iff.mp hk; exact h3 a ha
  · intro k hk; obtain ⟨a, ha, rfl⟩ := Option.map_eq_some_iff.mp hk; exact h4 a ha
  · intro k hk; obtain ⟨a, ha, rfl⟩ := Option.map_eq_some_iff.mp hk; exact h5 a ha
  · intro k hk; obtain ⟨a, ha, rfl⟩ := Option.map_eq_some_iff.mp hk; exact h6 a ha
  · intro k hk; obtain ⟨a, ha, rfl⟩ := Option.map_eq_some_iff.mp hk; exact h7 a ha
  · intro k hk; obtain ⟨a, ha, rfl⟩ := Option.map_eq_some_iff.mp hk; exact h8 a ha
  · intro k hk; obtain ⟨a, ha, rfl⟩ := Option.map_eq_some_iff.mp hk; exact h9 a ha
  · intro k hk; obtain ⟨a, ha, rfl⟩ := Option.map_eq_some_iff.mp hk; exact h10 a ha
  · exact h11
  · exact h12

theorem LoadControl.slots_deep {x : LoadControl} (h : x.Slots) : x.deep.Slots := by
  unfold Slots at *
  cases hq : x.list <;> simp_all [deep]

theorem OverloadControlInfo.slots_deep {x : OverloadControlInfo} (h : x.Slots) : x.deep.Slots := by
  unfold Slots at *
  cases hq : x.list <;> simp_all [deep]

theorem RemoteUeContext.slots_deep {x : RemoteUeContext} (_ : x.Slots) : x.deep.Slots := by
  unfold Slots at *
  trivial

theorem ScefPdnConnections.slots_deep {x : ScefPdnConnections} (h : x.Slots) : x.deep.Slots := by
  unfold Slots at *
  obtain ⟨h0, h1, h2⟩ := h
  refine ⟨?_, ?_, ?_⟩
  · exact h0
  · exact h1
  · exact h2

theorem PC5QosParameters.slots_deep {x : PC5QosParameters} (h : x.Slots) : x.deep.Slots := by
  unfold Slots at *
  obtain ⟨h0, h1, h2⟩ := h
  refine ⟨?_, ?_, ?_⟩
  · intro k hk; obtain ⟨a, ha, rfl⟩ := List.mem_map.mp hk; exact h0 a ha
  · intro k hk; obtain ⟨a, ha, rfl⟩ := Option.map_eq_some_iff.mp hk; exact h1 a ha
  · simpa [deep] using h2

theorem PgwChangeInfo.slots_deep {x : PgwChangeInfo} (h : x.Slots) : x.deep.Slots := by
  unfold Slots at *
  obtain ⟨h0, h1, h2, h3⟩ := h
  refine ⟨?_, ?_, ?_, ?_⟩
  · intro k hk; obtain ⟨a, ha, rfl⟩ := List.mem_map.mp hk; exact h0 a ha
  · intro k hk; obtain ⟨a, ha, rfl⟩ := List.mem_map.mp hk; exact h1 a ha
  · intro k hk; obtain ⟨a, ha, rfl⟩ := List.mem_map.mp hk; exact h2 a ha
  · intro k hk; obtain ⟨a, ha, rfl⟩ := List.mem_map.mp hk; exact h3 a ha

theorem PdnConnections.slots_deep {x : PdnConnections} (h : x.Slots) : x.deep.Slots := by
  unfold Slots at *
  obtain ⟨h0, h1, h2, h3, h4, h5, h6, h7, h8, h9, h10, h11, h12, h13, h14, h15, h16, h17, h18, h19, h20, h21, h22, h23, h24⟩ := h
  refine ⟨?_, ?_, ?_, ?_, ?_, ?_, ?_, ?_, ?_, ?_, ?_, ?_, ?_, ?_, ?_, ?_, ?_, ?_, ?_, ?_, ?_, ?_, ?_, ?_, ?_⟩
  · exact h0
  · intro k hk; obtain ⟨a, ha, rfl⟩ := Option.map_eq_some_iff.mp hk; exact h1 a ha
  · intro k hk; obtain ⟨a, ha, rfl⟩ := Option.map_eq_some_iff.mp hk; exact h2 a ha
  · intro k hk; obtain ⟨a, ha, rfl⟩ := Option.map_eq_some_iff.mp hk; exact h3 a ha
  · intro k hk; obtain ⟨a, ha, rfl⟩ := Option.map_eq_some_iff.mp hk; exact h4 a ha
  · exact h5
  · exact h6
  · intro k hk; obtain ⟨a, ha, rfl⟩ := Option.map_eq_some_iff.mp hk; exact h7 a ha
  · intro k hk; obtain ⟨a, ha, rfl⟩ := List.mem_map.mp hk; exact h8 a ha
  · exact h9
  · intro k hk; obtain ⟨a, ha, rfl⟩ := Option.map_eq_some_iff.mp hk; exact h10 a ha
  · intro k hk; obtain ⟨a, ha, rfl⟩ := Option.map_eq_some_iff.mp hk; exact h11 a ha
  · intro k hk; obtain ⟨a, ha, rfl⟩ := Option.map_eq_some_iff.mp hk; exact h12 a ha
  · intro k hk; obtain ⟨a, ha, rfl⟩ := Option.map_eq_some_iff.mp hk; exact h13 a ha
  · intro k hk; obtain ⟨a, ha, rfl⟩ := Option.map_eq_some_iff.mp hk; exact h14 a ha
  · intro k hk; obtain ⟨a, ha, rfl⟩ := Option.map_eq_some_iff.mp hk; exact h15 a ha
  · intro k hk; obtain ⟨a, ha, rfl⟩ := Option.map_eq_some_iff.mp hk; exact h16 a ha
  · intro k hk; obtain ⟨a, ha, rfl⟩ := Option.map_eq_some_iff.mp hk; exact h17 a ha
  · intro k hk; obtain ⟨a, ha, rfl⟩ := Option.map_eq_some_iff.mp hk; exact h18 a ha
  · intro k hk; obtain ⟨a, ha, rfl⟩ := Option.map_eq_some_iff.mp hk; exact h19 a ha
  · intro k hk; obtain ⟨a, ha, rfl⟩ := List.mem_map.mp hk; exact h20 a ha
  · intro k hk; obtain ⟨a, ha, rfl⟩ := Option.map_eq_some_iff.mp hk; exact h21 a ha
  · intro k hk; obtain ⟨a, ha, rfl⟩ := Option.map_eq_some_iff.mp hk; exact h22 a ha
  · exact h23
  · exact h24

theorem V2xInformation.slots_deep {x : V2xInformation} (h : x.Slots) : x.deep.Slots := by
  unfold Slots at *
  obtain ⟨h0, h1, h2⟩ := h
  refine ⟨?_, ?_, ?_⟩
  · intro k hk; obtain ⟨a, ha, rfl⟩ := List.mem_map.mp hk; exact h0 a ha
  · intro k hk; obtain ⟨a, ha, rfl⟩ := List.mem_map.mp hk; exact h1 a ha
  · intro k hk; obtain ⟨a, ha, rfl⟩ := Option.map_eq_some_iff.mp hk; exact h2 a ha

theorem BearerContext.step_t (s : BearerContext × Bool) (e : IE) : (step s e).1.t = s.1.t := by
  unfold step
  split <;> (repeat' split) <;> rfl

theorem BearerContext.ofGroup_t (t : UInt8) (n : UInt16) (i : UInt8) (l : List IE) : (ofGroup t n i l).t = t := by
  suffices h : ∀ (l : List IE) (s : BearerContext × Bool), (l.foldl step s).1.t = s.1.t by exact (h l _).trans rfl
  intro l
  induction l with
  | nil => intro s; rfl
  | cons e l ih => intro s; rw [List.foldl_cons, ih, step_t]

/-- A turn of the loop keeps members or takes the one it looks at. -/
theorem BearerContext.mem_step (s : BearerContext × Bool) (e y : IE) (h : y ∈ (step s e).1.toVec) : y ∈ s.1.toVec ∨ y = e := by
  unfold step at h
  split at h <;> (repeat' split at h)
  all_goals first
    | exact .inl h
    | (simp only [toVec, List.mem_append] at h ⊢
       rcases h with h | h | h | h | h | h | h | h | h | h | h | h
       · first | exact .inl (.inl h) | exact .inr (by simpa [optV] using h) | (rw [List.map_append, List.mem_append] at h; exact h.imp (fun h => (.inl h)) fun h => by simpa using h)
       · first | exact .inl (.inr (.inl h)) | exact .inr (by simpa [optV] using h) | (rw [List.map_append, List.mem_append] at h; exact h.imp (fun h => (.inr (.inl h))) fun h => by simpa using h)
       · first | exact .inl (.inr (.inr (.inl h))) | exact .inr (by simpa [optV] using h) | (rw [List.map_append, List.mem_append] at h; exact h.imp (fun h => (.inr (.inr (.inl h)))) fun h => by simpa using h)
       · first | exact .inl (.inr (.inr (.inr (.inl h)))) | exact .inr (by simpa [optV] using h) | (rw [List.map_append, List.mem_append] at h; exact h.imp (fun h => (.inr (.inr (.inr (.inl h))))) fun h => by simpa using h)
       · first | exact .inl (.inr (.inr (.inr (.inr (.inl h))))) | exact .inr (by simpa [optV] using h) | (rw [List.map_append, List.mem_append] at h; exact h.imp (fun h => (.inr (.inr (.inr (.inr (.inl h)))))) fun h => by simpa using h)
       · first | exact .inl (.inr (.inr (.inr (.inr (.inr (.inl h)))))) | exact .inr (by simpa [optV] using h) | (rw [List.map_append, List.mem_append] at h; exact h.imp (fun h => (.inr (.inr (.inr (.inr (.inr (.inl h))))))) fun h => by simpa using h)
       · first | exact .inl (.inr (.inr (.inr (.inr (.inr (.inr (.inl h))))))) | exact .inr (by simpa [optV] using h) | (rw [List.map_append, List.mem_append] at h; exact h.imp (fun h => (.inr (.inr (.inr (.inr (.inr (.inr (.inl h)))))))) fun h => by simpa using h)
       · first | exact .inl (.inr (.inr (.inr (.inr (.inr (.inr (.inr (.inl h)))))))) | exact .inr (by simpa [optV] using h) | (rw [List.map_append, List.mem_append] at h; exact h.imp (fun h => (.inr (.inr (.inr (.inr (.inr (.inr (.inr (.inl h))))))))) fun h => by simpa using h)
       · first | exact .inl (.inr (.inr (.inr (.inr (.inr (.inr (.inr (.inr (.inl h))))))))) | exact .inr (by simpa [optV] using h) | (rw [List.map_append, List.mem_append] at h; exact h.imp (fun h => (.inr (.inr (.inr (.inr (.inr (.inr (.inr (.inr (.inl h)))))))))) fun h => by simpa using h)
       · first | exact .inl (.inr (.inr (.inr (.inr (.inr (.inr (.inr (.inr (.inr (.inl h)))))))))) | exact .inr (by simpa [optV] using h) | (rw [List.map_append, List.mem_append] at h; exact h.imp (fun h => (.inr (.inr (.inr (.inr (.inr (.inr (.inr (.inr (.inr (.inl h))))))))))) fun h => by simpa using h)
       · first | exact .inl (.inr (.inr (.inr (.inr (.inr (.inr (.inr (.inr (.inr (.inr (.inl h))))))))))) | exact .inr (by simpa [optV] using h) | (rw [List.map_append, List.mem_append] at h; exact h.imp (fun h => (.inr (.inr (.inr (.inr (.inr (.inr (.inr (.inr (.inr (.inr (.inl h)))))))))))) fun h => by simpa using h)
       · first | exact .inl (.inr (.inr (.inr (.inr (.inr (.inr (.inr (.inr (.inr (.inr (.inr h))))))))))) | exact .inr (by simpa [optV] using h) | (rw [List.map_append, List.mem_append] at h; exact h.imp (fun h => (.inr (.inr (.inr (.inr (.inr (.inr (.inr (.inr (.inr (.inr (.inr h)))))))))))) fun h => by simpa using h))

theorem BearerContext.mem_ofGroup (t : UInt8) (n : UInt16) (i : UInt8) (l : List IE) (y : IE) (h : y ∈ (ofGroup t n i l).toVec) :
    y ∈ (init t n i).toVec ∨ y ∈ l := by
  suffices hq : ∀ (l : List IE) (s : BearerContext × Bool), y ∈ (l.foldl step s).1.toVec → y ∈ s.1.toVec ∨ y ∈ l from hq l _ h
  clear h l
  intro l
  induction l with
  | nil => intro s h; exact .inl h
  | cons e l ih =>
    intro s h
    rcases ih _ h with h | h
    · exact (mem_step s e y h).imp id fun h => by simp [h]
    · exact .inr (by simp [h])

/-- The instances of the members. -/
def BearerContext.Kept (x : BearerContext) : Prop :=
  (x.ebi.ins = 0) ∧
  (∀ k ∈ x.cause, k.ins = 0) ∧
  (∀ k ∈ x.tft, k.ins = 0) ∧
  (∀ k ∈ x.bearer_qos, k.ins = 0) ∧
  (∀ k ∈ x.charging_id, k.ins = 0) ∧
  (∀ k ∈ x.bearer_flags, k.ins = 0) ∧
  (∀ k ∈ x.pco, k.ins = 0) ∧
  (∀ k ∈ x.apco, k.ins = 0) ∧
  (∀ k ∈ x.epco, k.ins = 0) ∧
  (∀ k ∈ x.max_packet_loss, k.ins = 0) ∧
  (∀ k ∈ x.ran_nas_cause, k.ins = 0)

theorem BearerContext.kept_step (s : BearerContext × Bool) (e : IE) (h : s.1.Kept) : (step s e).1.Kept := by
  unfold step
  split <;> (repeat' split)
  all_goals first
    | exact h
    | (unfold Kept at *; simp only [Option.mem_def, Option.some.injEq, List.mem_append, List.mem_cons, List.not_mem_nil, or_false, Option.getD_some] at h ⊢; grind)

theorem BearerContext.kept_ofGroup (t : UInt8) (n : UInt16) (i : UInt8) (l : List IE) : (ofGroup t n i l).Kept := by
  suffices hq : ∀ (l : List IE) (s : BearerContext × Bool), s.1.Kept → (l.foldl step s).1.Kept from hq l _ (by simp [Kept, init, Ebi.dflt, Apn.dflt, Fteid.dflt, Ambr.dflt, NodeIdentifier.dflt])
  intro l
  induction l with
  | nil => intro s h; exact h
  | cons e l ih => intro s h; exact ih _ (kept_step s e h)

theorem LoadControl.step_t (s : LoadControl) (e : IE) : (step s e).t = s.t := by
  unfold step
  split <;> (repeat' split) <;> rfl

theorem LoadControl.ofGroup_t (t : UInt8) (n : UInt16) (i : UInt8) (l : List IE) : (ofGroup t n i l).t = t := by
  suffices h : ∀ (l : List IE) (s : LoadControl), (l.foldl step s).t = s.t by exact (h l _).trans rfl
  intro l
  induction l with
  | nil => intro s; rfl
  | cons e l ih => intro s; rw [List.foldl_cons, ih, step_t]

/-- A turn of the loop keeps members or takes the one it looks at. -/
theorem LoadControl.mem_step (s : LoadControl) (e y : IE) (h : y ∈ (step s e).toVec) : y ∈ s.toVec ∨ y = e := by
  unfold step at h
  split at h <;> (repeat' split at h)
  all_goals first
    | exact .inl h
    | (simp only [toVec, List.mem_append] at h ⊢
       rcases h with h | h | h
       · first | exact .inl (.inl h) | exact .inr (by simpa [optV] using h) | (rw [List.map_append, List.mem_append] at h; exact h.imp (fun h => (.inl h)) fun h => by simpa using h)
       · first | exact .inl (.inr (.inl h)) | exact .inr (by simpa [optV] using h) | (rw [List.map_append, List.mem_append] at h; exact h.imp (fun h => (.inr (.inl h))) fun h => by simpa using h)
       · first | exact .inl (.inr (.inr h)) | exact .inr (by simpa [optV] using h) | (rw [List.map_append, List.mem_append] at h; exact h.imp (fun h => (.inr (.inr h))) fun h => by simpa using h))

theorem LoadControl.mem_ofGroup (t : UInt8) (n : UInt16) (i : UInt8) (l : List IE) (y : IE) (h : y ∈ (ofGroup t n i l).toVec) :
    y ∈ (init t n i).toVec ∨ y ∈ l := by
  suffices hq : ∀ (l : List IE) (s : LoadControl), y ∈ (l.foldl step s).toVec → y ∈ s.toVec ∨ y ∈ l from hq l _ h
  clear h l
  intro l
  induction l with
  | nil => intro s h; exact .inl h
  | cons e l ih =>
    intro s h
    rcases ih _ h with h | h
    · exact (mem_step s e y h).imp id fun h => by simp [h]
    · exact .inr (by simp [h])

/-- The instances of the members. -/
def LoadControl.Kept (x : LoadControl) : Prop :=
  (x.list = none ∨ (x.list.getD []).length = 1)

theorem LoadControl.kept_step (s : LoadControl) (e : IE) (h : s.Kept) : (step s e).Kept := by
  unfold step
  split <;> (repeat' split)
  all_goals first
    | exact h
    | (unfold Kept at *; simp only [Option.mem_def, Option.some.injEq, List.mem_append, List.mem_cons, List.not_mem_nil, or_false, Option.getD_some] at h ⊢; grind)

theorem LoadControl.kept_ofGroup (t : UInt8) (n : UInt16) (i : UInt8) (l : List IE) : (ofGroup t n i l).Kept := by
  suffices hq : ∀ (l : List IE) (s : LoadControl), s.Kept → (l.foldl step s).Kept from hq l _ (by simp [Kept, init, Ebi.dflt, Apn.dflt, Fteid.dflt, Ambr.dflt, NodeIdentifier.dflt])
  intro l
  induction l with
  | nil => intro s h; exact h
  | cons e l ih => intro s h; exact ih _ (kept_step s e h)

theorem OverloadControlInfo.step_t (s : OverloadControlInfo) (e : IE) : (step s e).t = s.t := by
  unfold step
  split <;> (repeat' split) <;> rfl

theorem OverloadControlInfo.ofGroup_t (t : UInt8) (n : UInt16) (i : UInt8) (l : List IE) : (ofGroup t n i l).t = t := by
  suffices h : ∀ (l : List IE) (s : OverloadControlInfo), (l.foldl step s).t = s.t by exact (h l _).trans rfl
  intro l
  induction l with
  | nil => intro s; rfl
  | cons e l ih => intro s; rw [List.foldl_cons, ih, step_t]

/-- A turn of the loop keeps members or takes the one it looks at. -/
theorem OverloadControlInfo.mem_step (s : OverloadControlInfo) (e y : IE) (h : y ∈ (step s e).toVec) : y ∈ s.toVec ∨ y = e := by
  unfold step at h
  split at h <;> (repeat' split at h)
  all_goals first
    | exact .inl h
    | (simp only [toVec, List.mem_append] at h ⊢
       rcases h with h | h | h | h
       · first | exact .inl (.inl h) | exact .inr (by simpa [optV] using h) | (rw [List.map_append, List.mem_append] at h; exact h.imp (fun h => (.inl h)) fun h => by simpa using h)
       · first | exact .inl (.inr (.inl h)) | exact .inr (by simpa [optV] using h) | (rw [List.map_append, List.mem_append] at h; exact h.imp (fun h => (.inr (.inl h))) fun h => by simpa using h)
       · first | exact .inl (.inr (.inr (.inl h))) | exact .inr (by simpa [optV] using h) | (rw [List.map_append, List.mem_append] at h; exact h.imp (fun h => (.inr (.inr (.inl h)))) fun h => by simpa using h)
       · first | exact .inl (.inr (.inr (.inr h))) | exact .inr (by simpa [optV] using h) | (rw [List.map_append, List.mem_append] at h; exact h.imp (fun h => (.inr (.inr (.inr h)))) fun h => by simpa using h))

theorem OverloadControlInfo.mem_ofGroup (t : UInt8) (n : UInt16) (i : UInt8) (l : List IE) (y : IE) (h : y ∈ (ofGroup t n i l).toVec) :
    y ∈ (init t n i).toVec ∨ y ∈ l := by
  suffices hq : ∀ (l : List IE) (s : OverloadControlInfo), y ∈ (l.foldl step s).toVec → y ∈ s.toVec ∨ y ∈ l from hq l _ h
  clear h l
  intro l
  induction l with
  | nil => intro s h; exact .inl h
  | cons e l ih =>
    intro s h
    rcases ih _ h with h | h
    · exact (mem_step s e y h).imp id fun h => by simp [h]
    · exact .inr (by simp [h])

/-- The instances of the members. -/
def OverloadControlInfo.Kept (x : OverloadControlInfo) : Prop :=
  (x.list = none ∨ (x.list.getD []).length = 1)

theorem OverloadControlInfo.kept_step (s : OverloadControlInfo) (e : IE) (h : s.Kept) : (step s e).Kept := by
  unfold step
  split <;> (repeat' split)
  all_goals first
    | exact h
    | (unfold Kept at *; simp only [Option.mem_def, Option.some.injEq, List.mem_append, List.mem_cons, List.not_mem_nil, or_false, Option.getD_some] at h ⊢; grind)

theorem OverloadControlInfo.kept_ofGroup (t : UInt8) (n : UInt16) (i : UInt8) (l : List IE) : (ofGroup t n i l).Kept := by
  suffices hq : ∀ (l : List IE) (s : OverloadControlInfo), s.Kept → (l.foldl step s).Kept from hq l _ (by simp [Kept, init, Ebi.dflt, Apn.dflt, Fteid.dflt, Ambr.dflt, NodeIdentifier.dflt])
  intro l
  induction l with
  | nil => intro s h; exact h
  | cons e l ih => intro s h; exact ih _ (kept_step s e h)

theorem RemoteUeContext.step_t (s : RemoteUeContext) (e : IE) : (step s e).t = s.t := by
  unfold step
  split <;> (repeat' split) <;> rfl

theorem RemoteUeContext.ofGroup_t (t : UInt8) (n : UInt16) (i : UInt8) (l : List IE) : (ofGroup t n i l).t = t := by
  suffices h : ∀ (l : List IE) (s : RemoteUeContext), (l.foldl step s).t = s.t by exact (h l _).trans rfl
  intro l
  induction l with
  | nil => intro s; rfl
  | cons e l ih => intro s; rw [List.foldl_cons, ih, step_t]

/-- A turn of the loop keeps members or takes the one it looks at. -/
theorem RemoteUeContext.mem_step (s : RemoteUeContext) (e y : IE) (h : y ∈ (step s e).toVec) : y ∈ s.toVec ∨ y = e := by
  unfold step at h
  split at h <;> (repeat' split at h)
  all_goals first
    | exact .inl h
    | (simp only [toVec, List.mem_append] at h ⊢
       rcases h with h | h
       · first | exact .inl (.inl h) | exact .inr (by simpa [optV] using h) | (rw [List.map_append, List.mem_append] at h; exact h.imp (fun h => (.inl h)) fun h => by simpa using h)
       · first | exact .inl (.inr h) | exact .inr (by simpa [optV] using h) | (rw [List.map_append, List.mem_append] at h; exact h.imp (fun h => (.inr h)) fun h => by simpa using h))

theorem RemoteUeContext.mem_ofGroup (t : UInt8) (n : UInt16) (i : UInt8) (l : List IE) (y : IE) (h : y ∈ (ofGroup t n i l).toVec) :
    y ∈ (init t n i).toVec ∨ y ∈ l := by
  suffices hq : ∀ (l : List IE) (s : RemoteUeContext), y ∈ (l.foldl step s).toVec → y ∈ s.toVec ∨ y ∈ l from hq l _ h
  clear h l
  intro l
  induction l with
  | nil => intro s h; exact .inl h
  | cons e l ih =>
    intro s h
    rcases ih _ h with h | h
    · exact (mem_step s e y h).imp id fun h => by simp [h]
    · exact .inr (by simp [h])

theorem ScefPdnConnections.step_t (s : ScefPdnConnections) (e : IE) : (step s e).t = s.t := by
  unfold step
  split <;> (repeat' split) <;> rfl

theorem ScefPdnConnections.ofGroup_t (t : UInt8) (n : UInt16) (i : UInt8) (l : List IE) : (ofGroup t n i l).t = t := by
  suffices h : ∀ (l : List IE) (s : ScefPdnConnections), (l.foldl step s).t = s.t by exact (h l _).trans rfl
  intro l
  induction l with
  | nil => intro s; rfl
  | cons e l ih => intro s; rw [List.foldl_cons, ih, step_t]

/-- A turn of the loop keeps members or takes the one it looks at. -/
theorem ScefPdnConnections.mem_step (s : ScefPdnConnections) (e y : IE) (h : y ∈ (step s e).toVec) : y ∈ s.toVec ∨ y = e := by
  unfold step at h
  split at h <;> (repeat' split at h)
  all_goals first
    | exact .inl h
    | (simp only [toVec, List.mem_append] at h ⊢
       rcases h with h | h | h
       · first | exact .inl (.inl h) | exact .inr (by simpa [optV] using h) | (rw [List.map_append, List.mem_append] at h; exact h.imp (fun h => (.inl h)) fun h => by simpa using h)
       · first | exact .inl (.inr (.inl h)) | exact .inr (by simpa [optV] using h) | (rw [List.map_append, List.mem_append] at h; exact h.imp (fun h => (.inr (.inl h))) fun h => by simpa using h)
       · first | exact .inl (.inr (.inr h)) | exact .inr (by simpa [optV] using h) | (rw [List.map_append, List.mem_append] at h; exact h.imp (fun h => (.inr (.inr h))) fun h => by simpa using h))

theorem ScefPdnConnections.mem_ofGroup (t : UInt8) (n : UInt16) (i : UInt8) (l : List IE) (y : IE) (h : y ∈ (ofGroup t n i l).toVec) :
    y ∈ (init t n i).toVec ∨ y ∈ l := by
  suffices hq : ∀ (l : List IE) (s : ScefPdnConnections), y ∈ (l.foldl step s).toVec → y ∈ s.toVec ∨ y ∈ l from hq l _ h
  clear h l
  intro l
  induction l with
  | nil => intro s h; exact .inl h
  | cons e l ih =>
    intro s h
    rcases ih _ h with h | h
    · exact (mem_step s e y h).imp id fun h => by simp [h]
    · exact .inr (by simp [h])

/-- The instances of the members. -/
def ScefPdnConnections.Kept (x : ScefPdnConnections) : Prop :=
  (x.apn.ins = 0) ∧
  (x.default_ebi.ins = 0) ∧
  (x.scef_id.ins = 0)

theorem ScefPdnConnections.kept_step (s : ScefPdnConnections) (e : IE) (h : s.Kept) : (step s e).Kept := by
  unfold step
  split <;> (repeat' split)
  all_goals first
    | exact h
    | (unfold Kept at *; simp only [Option.mem_def, Option.some.injEq, List.mem_append, List.mem_cons, List.not_mem_nil, or_false, Option.getD_some] at h ⊢; grind)

theorem ScefPdnConnections.kept_ofGroup (t : UInt8) (n : UInt16) (i : UInt8) (l : List IE) : (ofGroup t n i l).Kept := by
  suffices hq : ∀ (l : List IE) (s : ScefPdnConnections), s.Kept → (l.foldl step s).Kept from hq l _ (by simp [Kept, init, Ebi.dflt, Apn.dflt, Fteid.dflt, Ambr.dflt, NodeIdentifier.dflt])
  intro l
  induction l with
  | nil => intro s h; exact h
  | cons e l ih => intro s h; exact ih _ (kept_step s e h)

theorem PC5QosParameters.step_t (s : PC5QosParameters) (e : IE) : (step s e).t = s.t := by
  unfold step
  split <;> (repeat' split) <;> rfl

theorem PC5QosParameters.ofGroup_t (t : UInt8) (n : UInt16) (i : UInt8) (l : List IE) : (ofGroup t n i l).t = t := by
  suffices h : ∀ (l : List IE) (s : PC5QosParameters), (l.foldl step s).t = s.t by exact (h l _).trans rfl
  intro l
  induction l with
  | nil => intro s; rfl
  | cons e l ih => intro s; rw [List.foldl_cons, ih, step_t]

/-- A turn of the loop keeps members or takes the one it looks at. -/
theorem PC5QosParameters.mem_step (s : PC5QosParameters) (e y : IE) (h : y ∈ (step s e).toVec) : y ∈ s.toVec ∨ y = e := by
  unfold step at h
  split at h <;> (repeat' split at h)
  all_goals first
    | exact .inl h
    | (simp only [toVec, List.mem_append] at h ⊢
       rcases h with h | h
       · first | exact .inl (.inl h) | exact .inr (by simpa [optV] using h) | (rw [List.map_append, List.mem_append] at h; exact h.imp (fun h => (.inl h)) fun h => by simpa using h)
       · first | exact .inl (.inr h) | exact .inr (by simpa [optV] using h) | (rw [List.map_append, List.mem_append] at h; exact h.imp (fun h => (.inr h)) fun h => by simpa using h))

theorem PC5QosParameters.mem_ofGroup (t : UInt8) (n : UInt16) (i : UInt8) (l : List IE) (y : IE) (h : y ∈ (ofGroup t n i l).toVec) :
    y ∈ (init t n i).toVec ∨ y ∈ l := by
  suffices hq : ∀ (l : List IE) (s : PC5QosParameters), y ∈ (l.foldl step s).toVec → y ∈ s.toVec ∨ y ∈ l from hq l _ h
  clear h l
  intro l
  induction l with
  | nil => intro s h; exact .inl h
  | cons e l ih =>
    intro s h
    rcases ih _ h with h | h
    · exact (mem_step s e y h).imp id fun h => by simp [h]
    · exact .inr (by simp [h])

/-- The instances of the members. -/
def PC5QosParameters.Kept (x : PC5QosParameters) : Prop :=
  (∀ k ∈ x.pc5_qos_flows, k.ins = 0) ∧
  (∀ k ∈ x.pc5_link_abrs, k.ins = 0)

theorem PC5QosParameters.kept_step (s : PC5QosParameters) (e : IE) (h : s.Kept) : (step s e).Kept := by
  unfold step
  split <;> (repeat' split)
  all_goals first
    | exact h
    | (unfold Kept at *; simp only [Option.mem_def, Option.some.injEq, List.mem_append, List.mem_cons, List.not_mem_nil, or_false, Option.getD_some] at h ⊢; grind)

theorem PC5QosParameters.kept_ofGroup (t : UInt8) (n : UInt16) (i : UInt8) (l : List IE) : (ofGroup t n i l).Kept := by
  suffices hq : ∀ (l : List IE) (s : PC5QosParameters), s.Kept → (l.foldl step s).Kept from hq l _ (by simp [Kept, init, Ebi.dflt, Apn.dflt, Fteid.dflt, Ambr.dflt, NodeIdentifier.dflt])
  intro l
  induction l with
  | nil => intro s h; exact h
  | cons e l ih => intro s h; exact ih _ (kept_step s e h)

theorem PgwChangeInfo.step_t (s : PgwChangeInfo) (e : IE) : (step s e).t = s.t := by
  unfold step
  split <;> (repeat' split) <;> rfl

theorem PgwChangeInfo.ofGroup_t (t : UInt8) (n : UInt16) (i : UInt8) (l : List IE) : (ofGroup t n i l).t = t := by
  suffices h : ∀ (l : List IE) (s : PgwChangeInfo), (l.foldl step s).t = s.t by exact (h l _).trans rfl
  intro l
  induction l with
  | nil => intro s; rfl
  | cons e l ih => intro s; rw [List.foldl_cons, ih, step_t]

/-- A turn of the loop keeps members or takes the one it looks at. -/
theorem PgwChangeInfo.mem_step (s : PgwChangeInfo) (e y : IE) (h : y ∈ (step s e).toVec) : y ∈ s.toVec ∨ y = e := by
  unfold step at h
  split at h <;> (repeat' split at h)
  all_goals first
    | exact .inl h
    | (simp only [toVec, List.mem_append] at h ⊢
       rcases h with h | h | h | h
       · first | exact .inl (.inl h) | exact .inr (by simpa [optV] using h) | (rw [List.map_append, List.mem_append] at h; exact h.imp (fun h => (.inl h)) fun h => by simpa using h)
       · first | exact .inl (.inr (.inl h)) | exact .inr (by simpa [optV] using h) | (rw [List.map_append, List.mem_append] at h; exact h.imp (fun h => (.inr (.inl h))) fun h => by simpa using h)
       · first | exact .inl (.inr (.inr (.inl h))) | exact .inr (by simpa [optV] using h) | (rw [List.map_append, List.mem_append] at h; exact h.imp (fun h => (.inr (.inr (.inl h)))) fun h => by simpa using h)
       · first | exact .inl (.inr (.inr (.inr h))) | exact .inr (by simpa [optV] using h) | (rw [List.map_append, List.mem_append] at h; exact h.imp (fun h => (.inr (.inr (.inr h)))) fun h => by simpa using h))

theorem PgwChangeInfo.mem_ofGroup (t : UInt8) (n : UInt16) (i : UInt8) (l : List IE) (y : IE) (h : y ∈ (ofGroup t n i l).toVec) :
    y ∈ (init t n i).toVec ∨ y ∈ l := by
  suffices hq : ∀ (l : List IE) (s : PgwChangeInfo), y ∈ (l.foldl step s).toVec → y ∈ s.toVec ∨ y ∈ l from hq l _ h
  clear h l
  intro l
  induction l with
  | nil => intro s h; exact .inl h
  | cons e l ih =>
    intro s h
    rcases ih _ h with h | h
    · exact (mem_step s e y h).imp id fun h => by simp [h]
    · exact .inr (by simp [h])

/-- The instances of the members. -/
def PgwChangeInfo.Kept (x : PgwChangeInfo) : Prop :=
  (∀ k ∈ x.pgw_fqdns, k.ins < 2) ∧
  (∀ k ∈ x.sgw_pgw_smf_ips, k.ins < 4) ∧
  (∀ k ∈ x.pgw_smf_fqcsid, k.ins = 0) ∧
  (∀ k ∈ x.groupids, k.ins < 2)

theorem PgwChangeInfo.kept_step (s : PgwChangeInfo) (e : IE) (h : s.Kept) : (step s e).Kept := by
  unfold step
  split <;> (repeat' split)
  all_goals first
    | exact h
    | (unfold Kept at *; simp only [Option.mem_def, Option.some.injEq, List.mem_append, List.mem_cons, List.not_mem_nil, or_false, Option.getD_some] at h ⊢; grind)

theorem PgwChangeInfo.kept_ofGroup (t : UInt8) (n : UInt16) (i : UInt8) (l : List IE) : (ofGroup t n i l).Kept := by
  suffices hq : ∀ (l : List IE) (s : PgwChangeInfo), s.Kept → (l.foldl step s).Kept from hq l _ (by simp [Kept, init, Ebi.dflt, Apn.dflt, Fteid.dflt, Ambr.dflt, NodeIdentifier.dflt])
  intro l
  induction l with
  | nil => intro s h; exact h
  | cons e l ih => intro s h; exact ih _ (kept_step s e h)

theorem PdnConnections.step_t (s : PdnConnections) (e : IE) : (step s e).t = s.t := by
  unfold step
  split <;> (repeat' split) <;> rfl

theorem PdnConnections.ofGroup_t (t : UInt8) (n : UInt16) (i : UInt8) (l : List IE) : (ofGroup t n i l).t = t := by
  suffices h : ∀ (l : List IE) (s : PdnConnections), (l.foldl step s).t = s.t by exact (h l _).trans rfl
  intro l
  induction l with
  | nil => intro s; rfl
  | cons e l ih => intro s; rw [List.foldl_cons, ih, step_t]

/-- A turn of the loop keeps members or takes the one it looks at. -/
theorem PdnConnections.mem_step (s : PdnConnections) (e y : IE) (h : y ∈ (step s e).toVec) : y ∈ s.toVec ∨ y = e := by
  unfold step at h
  split at h <;> (repeat' split at h)
  all_goals first
    | exact .inl h
    | (simp only [toVec, List.mem_append] at h ⊢
       rcases h with h | h | h | h | h | h | h | h | h | h | h | h | h | h | h | h | h | h | h | h | h | h | h
       · first | exact .inl (.inl h) | exact .inr (by simpa [optV] using h) | (rw [List.map_append, List.mem_append] at h; exact h.imp (fun h => (.inl h)) fun h => by simpa using h)
       · first | exact .inl (.inr (.inl h)) | exact .inr (by simpa [optV] using h) | (rw [List.map_append, List.mem_append] at h; exact h.imp (fun h => (.inr (.inl h))) fun h => by simpa using h)
       · first | exact .inl (.inr (.inr (.inl h))) | exact .inr (by simpa [optV] using h) | (rw [List.map_append, List.mem_append] at h; exact h.imp (fun h => (.inr (.inr (.inl h)))) fun h => by simpa using h)
       · first | exact .inl (.inr (.inr (.inr (.inl h)))) | exact .inr (by simpa [optV] using h) | (rw [List.map_append, List.mem_append] at h; exact h.imp (fun h => (.inr (.inr (.inr (.inl h))))) fun h => by simpa using h)
       · first | exact .inl (.inr (.inr (.inr (.inr (.inl h))))) | exact .inr (by simpa [optV] using h) | (rw [List.map_append, List.mem_append] at h; exact h.imp (fun h => (.inr (.inr (.inr (.inr (.inl h)))))) fun h => by simpa using h)
       · first | exact .inl (.inr (.inr (.inr (.inr (.inr (.inl h)))))) | exact .inr (by simpa [optV] using h) | (rw [List.map_append, List.mem_append] at h; exact h.imp (fun h => (.inr (.inr (.inr (.inr (.inr (.inl h))))))) fun h => by simpa using h)
       · first | exact .inl (.inr (.inr (.inr (.inr (.inr (.inr (.inl h))))))) | exact .inr (by simpa [optV] using h) | (rw [List.map_append, List.mem_append] at h; exact h.imp (fun h => (.inr (.inr (.inr (.inr (.inr (.inr (.inl h)))))))) fun h => by simpa using h)
       · first | exact .inl (.inr (.inr (.inr (.inr (.inr (.inr (.inr (.inl h)))))))) | exact .inr (by simpa [optV] using h) | (rw [List.map_append, List.mem_append] at h; exact h.imp (fun h => (.inr (.inr (.inr (.inr (.inr (.inr (.inr (.inl h))))))))) fun h => by simpa using h)
       · first | exact .inl (.inr (.inr (.inr (.inr (.inr (.inr (.inr (.inr (.inl h))))))))) | exact .inr (by simpa [optV] using h) | (rw [List.map_append, List.mem_append] at h; exact h.imp (fun h => (.inr (.inr (.inr (.inr (.inr (.inr (.inr (.inr (.inl h)))))))))) fun h => by simpa using h)
       · first | exact .inl (.inr (.inr (.inr (.inr (.inr (.inr (.inr (.inr (.inr (.inl h)))))))))) | exact .inr (by simpa [optV] using h) | (rw [List.map_append, List.mem_append] at h; exact h.imp (fun h => (.inr (.inr (.inr (.inr (.inr (.inr (.inr (.inr (.inr (.inl h))))))))))) fun h => by simpa using h)
       · first | exact .inl (.inr (.inr (.inr (.inr (.inr (.inr (.inr (.inr (.inr (.inr (.inl h))))))))))) | exact .inr (by simpa [optV] using h) | (rw [List.map_append, List.mem_append] at h; exact h.imp (fun h => (.inr (.inr (.inr (.inr (.inr (.inr (.inr (.inr (.inr (.inr (.inl h)))))))))))) fun h => by simpa using h)
       · first | exact .inl (.inr (.inr (.inr (.inr (.inr (.inr (.inr (.inr (.inr (.inr (.inr (.inl h)))))))))))) | exact .inr (by simpa [optV] using h) | (rw [List.map_append, List.mem_append] at h; exact h.imp (fun h => (.inr (.inr (.inr (.inr (.inr (.inr (.inr (.inr (.inr (.inr (.inr (.inl h))))))))))))) fun h => by simpa using h)
       · first | exact .inl (.inr (.inr (.inr (.inr (.inr (.inr (.inr (.inr (.inr (.inr (.inr (.inr (.inl h))))))))))))) | exact .inr (by simpa [optV] using h) | (rw [List.map_append, List.mem_append] at h; exact h.imp (fun h => (.inr (.inr (.inr (.inr (.inr (.inr (.inr (.inr (.inr (.inr (.inr (.inr (.inl h)))))))))))))) fun h => by simpa using h)
       · first | exact .inl (.inr (.inr (.inr (.inr (.inr (.inr (.inr (.inr (.inr (.inr (.inr (.inr (.inr (.inl h)))))))))))))) | exact .inr (by simpa [optV] using h) | (rw [List.map_append, List.mem_append] at h; exact h.imp (fun h => (.inr (.inr (.inr (.inr (.inr (.inr (.inr (.inr (.inr (.inr (.inr (.inr (.inr (.inl h))))))))))))))) fun h => by simpa using h)
       · first | exact .inl (.inr (.inr (.inr (.inr (.inr (.inr (.inr (.inr (.inr (.inr (.inr (.inr (.inr (.inr (.inl h))))))))))))))) | exact .inr (by simpa [optV] using h) | (rw [List.map_append, List.mem_append] at h; exact h.imp (fun h => (.inr (.inr (.inr (.inr (.inr (.inr (.inr (.inr (.inr (.inr (.inr (.inr (.inr (.inr (.inl h)))))))))))))))) fun h => by simpa using h)
       · first | exact .inl (.inr (.inr (.inr (.inr (.inr (.inr (.inr (.inr (.inr (.inr (.inr (.inr (.inr (.inr (.inr (.inl h)))))))))))))))) | exact .inr (by simpa [optV] using h) | (rw [List.map_append, List.mem_append] at h; exact h.imp (fun h => (.inr (.inr (.inr (.inr (.inr (.inr (.inr (.inr (.inr (.inr (.inr (.inr (.inr (.inr (.inr (.inl h))))))))))))))))) fun h => by simpa using h)
       · first | exact .inl (.inr (.inr (.inr (.inr (.inr (.inr (.inr (.inr (.inr (.inr (.inr (.inr (.inr (.inr (.inr (.inr (.inl h))))))))))))))))) | exact .inr (by simpa [optV] using h) | (rw [List.map_append, List.mem_append] at h; exact h.imp (fun h => (.inr (.inr (.inr (.inr (.inr (.inr (.inr (.inr (.inr (.inr (.inr (.inr (.inr (.inr (.inr (.inr (.inl h)))))))))))))))))) fun h => by simpa using h)
       · first | exact .inl (.inr (.inr (.inr (.inr (.inr (.inr (.inr (.inr (.inr (.inr (.inr (.inr (.inr (.inr (.inr (.inr (.inr (.inl h)))))))))))))))))) | exact .inr (by simpa [optV] using h) | (rw [List.map_append, List.mem_append] at h; exact h.imp (fun h => (.inr (.inr (.inr (.inr (.inr (.inr (.inr (.inr (.inr (.inr (.inr (.inr (.inr (.inr (.inr (.inr (.inr (.inl h))))))))))))))))))) fun h => by simpa using h)
       · first | exact .inl (.inr (.inr (.inr (.inr (.inr (.inr (.inr (.inr (.inr (.inr (.inr (.inr (.inr (.inr (.inr (.inr (.inr (.inr (.inl h))))))))))))))))))) | exact .inr (by simpa [optV] using h) | (rw [List.map_append, List.mem_append] at h; exact h.imp (fun h => (.inr (.inr (.inr (.inr (.inr (.inr (.inr (.inr (.inr (.inr (.inr (.inr (.inr (.inr (.inr (.inr (.inr (.inr (.inl h)))))))))))))))))))) fun h => by simpa using h)
       · first | exact .inl (.inr (.inr (.inr (.inr (.inr (.inr (.inr (.inr (.inr (.inr (.inr (.inr (.inr (.inr (.inr (.inr (.inr (.inr (.inr (.inl h)))))))))))))))))))) | exact .inr (by simpa [optV] using h) | (rw [List.map_append, List.mem_append] at h; exact h.imp (fun h => (.inr (.inr (.inr (.inr (.inr (.inr (.inr (.inr (.inr (.inr (.inr (.inr (.inr (.inr (.inr (.inr (.inr (.inr (.inr (.inl h))))))))))))))))))))) fun h => by simpa using h)
       · first | exact .inl (.inr (.inr (.inr (.inr (.inr (.inr (.inr (.inr (.inr (.inr (.inr (.inr (.inr (.inr (.inr (.inr (.inr (.inr (.inr (.inr (.inl h))))))))))))))))))))) | exact .inr (by simpa [optV] using h) | (rw [List.map_append, List.mem_append] at h; exact h.imp (fun h => (.inr (.inr (.inr (.inr (.inr (.inr (.inr (.inr (.inr (.inr (.inr (.inr (.inr (.inr (.inr (.inr (.inr (.inr (.inr (.inr (.inl h)))))))))))))))))))))) fun h => by simpa using h)
       · first | exact .inl (.inr (.inr (.inr (.inr (.inr (.inr (.inr (.inr (.inr (.inr (.inr (.inr (.inr (.inr (.inr (.inr (.inr (.inr (.inr (.inr (.inr (.inl h)))))))))))))))))))))) | exact .inr (by simpa [optV] using h) | (rw [List.map_append, List.mem_append] at h; exact h.imp (fun h => (.inr (.inr (.inr (.inr (.inr (.inr (.inr (.inr (.inr (.inr (.inr (.inr (.inr (.inr (.inr (.inr (.inr (.inr (.inr (.inr (.inr (.inl h))))))))))))))))))))))) fun h => by simpa using h)
       · first | exact .inl (.inr (.inr (.inr (.inr (.inr (.inr (.inr (.inr (.inr (.inr (.inr (.inr (.inr (.inr (.inr (.inr (.inr (.inr (.inr (.inr (.inr (.inr h)))))))))))))))))))))) | exact .inr (by simpa [optV] using h) | (rw [List.map_append, List.mem_append] at h; exact h.imp (fun h => (.inr (.inr (.inr (.inr (.inr (.inr (.inr (.inr (.inr (.inr (.inr (.inr (.inr (.inr (.inr (.inr (.inr (.inr (.inr (.inr (.inr (.inr h))))))))))))))))))))))) fun h => by simpa using h))

theorem PdnConnections.mem_ofGroup (t : UInt8) (n : UInt16) (i : UInt8) (l : List IE) (y : IE) (h : y ∈ (ofGroup t n i l).toVec) :
    y ∈ (init t n i).toVec ∨ y ∈ l := by
  suffices hq : ∀ (l : List IE) (s : PdnConnections), y ∈ (l.foldl step s).toVec → y ∈ s.toVec ∨ y ∈ l from hq l _ h
  clear h l
  intro l
  induction l with
  | nil => intro s h; exact .inl h
  | cons e l ih =>
    intro s h
    rcases ih _ h with h | h
    · exact (mem_step s e y h).imp id fun h => by simp [h]
    · exact .inr (by simp [h])

/-- The instances of the members. -/
def PdnConnections.Kept (x : PdnConnections) : Prop :=
  (x.apn.ins = 0) ∧
  (∀ k ∈ x.apn_restriction, k.ins = 0) ∧
  (∀ k ∈ x.selection_mode, k.ins = 0) ∧
  (∀ k ∈ x.ipv4, k.ins = 0) ∧
  (∀ k ∈ x.ipv6, k.ins = 1) ∧
  (x.linked_ebi.ins = 0) ∧
  (x.pgw_addr_control.ins = 0) ∧
  (∀ k ∈ x.pgw_node_name, k.ins = 0) ∧
  (∀ k ∈ x.bearer_ctxs, k.ins = 0) ∧
  (x.apn_ambr.ins = 0) ∧
  (∀ k ∈ x.charging_char, k.ins = 0) ∧
  (∀ k ∈ x.change_reporting_action, k.ins = 0) ∧
  (∀ k ∈ x.csg_info_reporting_action, k.ins = 0) ∧
  (∀ k ∈ x.henb_info_reporting, k.ins = 0) ∧
  (∀ k ∈ x.indication, k.ins = 0) ∧
  (∀ k ∈ x.signalling_priority_indication, k.ins = 0) ∧
  (∀ k ∈ x.change_to_report_flags, k.ins = 0) ∧
  (∀ k ∈ x.local_home_network_id, k.ins = 1) ∧
  (∀ k ∈ x.praa, k.ins = 0) ∧
  (∀ k ∈ x.wlan_offloadability, k.ins = 0) ∧
  (∀ k ∈ x.remote_ue_ctxs, k.ins = 0) ∧
  (∀ k ∈ x.pdn_type, k.ins = 0) ∧
  (∀ k ∈ x.hdr_compr_config, k.ins = 0) ∧
  (x.pgw_change_info = none) ∧
  (x.up_security_policy = none)

theorem PdnConnections.kept_step (s : PdnConnections) (e : IE) (h : s.Kept) : (step s e).Kept := by
  unfold step
  split <;> (repeat' split)
  all_goals first
    | exact h
    | (unfold Kept at *; simp only [Option.mem_def, Option.some.injEq, List.mem_append, List.mem_cons, List.not_mem_nil, or_false, Option.getD_some] at h ⊢; grind)

theorem PdnConnections.kept_ofGroup (t : UInt8) (n : UInt16) (i : UInt8) (l : List IE) : (ofGroup t n i l).Kept := by
  suffices hq : ∀ (l : List IE) (s : PdnConnections), s.Kept → (l.foldl step s).Kept from hq l _ (by simp [Kept, init, Ebi.dflt, Apn.dflt, Fteid.dflt, Ambr.dflt, NodeIdentifier.dflt])
  intro l
  induction l with
  | nil => intro s h; exact h
  | cons e l ih => intro s h; exact ih _ (kept_step s e h)

theorem V2xInformation.step_t (s : V2xInformation) (e : IE) : (step s e).t = s.t := by
  unfold step
  split <;> (repeat' split) <;> rfl

theorem V2xInformation.ofGroup_t (t : UInt8) (n : UInt16) (i : UInt8) (l : List IE) : (ofGroup t n i l).t = t := by
  suffices h : ∀ (l : List IE) (s : V2xInformation), (l.foldl step s).t = s.t by exact (h l _).trans rfl
  intro l
  induction l with
  | nil => intro s; rfl
  | cons e l ih => intro s; rw [List.foldl_cons, ih, step_t]

/-- A turn of the loop keeps members or takes the one it looks at. -/
theorem V2xInformation.mem_step (s : V2xInformation) (e y : IE) (h : y ∈ (step s e).toVec) : y ∈ s.toVec ∨ y = e := by
  unfold step at h
  split at h <;> (repeat' split at h)
  all_goals first
    | exact .inl h
    | (simp only [toVec, List.mem_append] at h ⊢
       rcases h with h | h | h
       · first | exact .inl (.inl h) | exact .inr (by simpa [optV] using h) | (rw [List.map_append, List.mem_append] at h; exact h.imp (fun h => (.inl h)) fun h => by simpa using h)
       · first | exact .inl (.inr (.inl h)) | exact .inr (by simpa [optV] using h) | (rw [List.map_append, List.mem_append] at h; exact h.imp (fun h => (.inr (.inl h))) fun h => by simpa using h)
       · first | exact .inl (.inr (.inr h)) | exact .inr (by simpa [optV] using h) | (rw [List.map_append, List.mem_append] at h; exact h.imp (fun h => (.inr (.inr h))) fun h => by simpa using h))

theorem V2xInformation.mem_ofGroup (t : UInt8) (n : UInt16) (i : UInt8) (l : List IE) (y : IE) (h : y ∈ (ofGroup t n i l).toVec) :
    y ∈ (init t n i).toVec ∨ y ∈ l := by
  suffices hq : ∀ (l : List IE) (s : V2xInformation), y ∈ (l.foldl step s).toVec → y ∈ s.toVec ∨ y ∈ l from hq l _ h
  clear h l
  intro l
  induction l with
  | nil => intro s h; exact .inl h
  | cons e l ih =>
    intro s h
    rcases ih _ h with h | h
    · exact (mem_step s e y h).imp id fun h => by simp [h]
    · exact .inr (by simp [h])

/-- The instances of the members. -/
def V2xInformation.Kept (x : V2xInformation) : Prop :=
  (∀ k ∈ x.services_auth, k.ins < 2) ∧
  (∀ k ∈ x.sidelink_max_brs, k.ins < 2) ∧
  (∀ k ∈ x.pc5_qos_params, k.ins = 0)

theorem V2xInformation.kept_step (s : V2xInformation) (e : IE) (h : s.Kept) : (step s e).Kept := by
  unfold step
  split <;> (repeat' split)
  all_goals first
    | exact h
    | (unfold Kept at *; simp only [Option.mem_def, Option.some.injEq, List.mem_append, List.mem_cons, List.not_mem_nil, or_false, Option.getD_some] at h ⊢; grind)

theorem V2xInformation.kept_ofGroup (t : UInt8) (n : UInt16) (i : UInt8) (l : List IE) : (ofGroup t n i l).Kept := by
  suffices hq : ∀ (l : List IE) (s : V2xInformation), s.Kept → (l.foldl step s).Kept from hq l _ (by simp [Kept, init, Ebi.dflt, Apn.dflt, Fteid.dflt, Ambr.dflt, NodeIdentifier.dflt])
  intro l
  induction l with
  | nil => intro s h; exact h
  | cons e l ih => intro s h; exact ih _ (kept_step s e h)

/-- The grouped IEs. -/
def IE.grouped : IE → Bool
  | .BearerContext _ => true
  | .LoadControlInfo _ => true
  | .OverloadControlInfo _ => true
  | .RemoteUeContext _ => true
  | .ScefPdnConnections _ => true
  | .PC5QosParameters _ => true
  | .PgwChangeInfo _ => true
  | .PdnConnections _ => true
  | .V2xInformation _ => true
  | _ => false

theorem IE.members_deep (e : IE) : e.deep.members = e.members.map IE.deep := by
  cases e with
  | BearerContext x => exact BearerContext.toVec_deep x
  | LoadControlInfo x => exact LoadControl.toVec_deep x
  | OverloadControlInfo x => exact OverloadControlInfo.toVec_deep x
  | RemoteUeContext x => exact RemoteUeContext.toVec_deep x
  | ScefPdnConnections x => exact ScefPdnConnections.toVec_deep x
  | PC5QosParameters x => exact PC5QosParameters.toVec_deep x
  | PgwChangeInfo x => exact PgwChangeInfo.toVec_deep x
  | PdnConnections x => exact PdnConnections.toVec_deep x
  | V2xInformation x => exact V2xInformation.toVec_deep x
  | MmContext x => cases x <;> rfl
  | _ => rfl

theorem IE.deep_plain {e : IE} (h : e.grouped = false) : e.deep = e.norm := by
  cases e with
  | BearerContext x => cases h
  | LoadControlInfo x => cases h
  | OverloadControlInfo x => cases h
  | RemoteUeContext x => cases h
  | ScefPdnConnections x => cases h
  | PC5QosParameters x => cases h
  | PgwChangeInfo x => cases h
  | PdnConnections x => cases h
  | V2xInformation x => cases h
  | _ => rfl

theorem IE.members_plain {e : IE} (h : e.grouped = false) : e.members = [] := by
  cases e with
  | BearerContext x => cases h
  | LoadControlInfo x => cases h
  | OverloadControlInfo x => cases h
  | RemoteUeContext x => cases h
  | ScefPdnConnections x => cases h
  | PC5QosParameters x => cases h
  | PgwChangeInfo x => cases h
  | PdnConnections x => cases h
  | V2xInformation x => cases h
  | _ => rfl

/-- A grouped IE is encoded as its members behind the header. -/
theorem IE.marshal_grouped {e : IE} (h : e.grouped = true) : e.marshal = tliv e.wireType e.length e.ins (IE.encoder e.members) := by
  rw [IE.marshal_eq]
  cases e with
  | BearerContext x => rfl
  | LoadControlInfo x => rfl
  | OverloadControlInfo x => rfl
  | RemoteUeContext x => rfl
  | ScefPdnConnections x => rfl
  | PC5QosParameters x => rfl
  | PgwChangeInfo x => rfl
  | PdnConnections x => rfl
  | V2xInformation x => rfl
  | _ => cases h

theorem IE.setLength_kind (n : UInt16) (e : IE) : (e.setLength n).kind = e.kind := by
  cases e with
  | MmContext x => cases x <;> rfl
  | _ => rfl

theorem IE.deep_kind (e : IE) : e.deep.kind = e.kind := by
  cases hg : e.grouped with
  | false => rw [IE.deep_plain hg]; exact (IE.setLength_kind _ e)
  | true =>
    cases e with
    | BearerContext x => rfl
    | LoadControlInfo x => rfl
    | OverloadControlInfo x => rfl
    | RemoteUeContext x => rfl
    | ScefPdnConnections x => rfl
    | PC5QosParameters x => rfl
    | PgwChangeInfo x => rfl
    | PdnConnections x => rfl
    | V2xInformation x => rfl
    | _ => cases hg

theorem IE.setLength_ins (n : UInt16) (e : IE) : (e.setLength n).ins = e.ins := by
  cases e with
  | MmContext x => cases x <;> rfl
  | _ => rfl

theorem IE.deep_ins (e : IE) : e.deep.ins = e.ins := by
  cases hg : e.grouped with
  | false => rw [IE.deep_plain hg]; exact (IE.setLength_ins _ e)
  | true =>
    cases e with
    | BearerContext x => rfl
    | LoadControlInfo x => rfl
    | OverloadControlInfo x => rfl
    | RemoteUeContext x => rfl
    | ScefPdnConnections x => rfl
    | PC5QosParameters x => rfl
    | PgwChangeInfo x => rfl
    | PdnConnections x => rfl
    | V2xInformation x => rfl
    | _ => cases hg

theorem IE.setLength_t (n : UInt16) (e : IE) : (e.setLength n).t = e.t := by
  cases e with
  | MmContext x => cases x <;> rfl
  | _ => rfl

theorem IE.deep_t (e : IE) : e.deep.t = e.t := by
  cases hg : e.grouped with
  | false => rw [IE.deep_plain hg]; exact (IE.setLength_t _ e)
  | true =>
    cases e with
    | BearerContext x => rfl
    | LoadControlInfo x => rfl
    | OverloadControlInfo x => rfl
    | RemoteUeContext x => rfl
    | ScefPdnConnections x => rfl
    | PC5QosParameters x => rfl
    | PgwChangeInfo x => rfl
    | PdnConnections x => rfl
    | V2xInformation x => rfl
    | _ => cases hg

theorem IE.setLength_wireType (n : UInt16) (e : IE) : (e.setLength n).wireType = e.wireType := by
  cases e with
  | MmContext x => cases x <;> rfl
  | _ => rfl

theorem IE.deep_wireType (e : IE) : e.deep.wireType = e.wireType := by
  cases hg : e.grouped with
  | false => rw [IE.deep_plain hg]; exact (IE.setLength_wireType _ e)
  | true =>
    cases e with
    | BearerContext x => rfl
    | LoadControlInfo x => rfl
    | OverloadControlInfo x => rfl
    | RemoteUeContext x => rfl
    | ScefPdnConnections x => rfl
    | PC5QosParameters x => rfl
    | PgwChangeInfo x => rfl
    | PdnConnections x => rfl
    | V2xInformation x => rfl
    | _ => cases hg

theorem IE.setLength_grouped (n : UInt16) (e : IE) : (e.setLength n).grouped = e.grouped := by
  cases e with
  | MmContext x => cases x <;> rfl
  | _ => rfl

theorem IE.deep_grouped (e : IE) : e.deep.grouped = e.grouped := by
  cases hg : e.grouped with
  | false => rw [IE.deep_plain hg]; exact (IE.setLength_grouped _ e).trans hg
  | true =>
    cases e with
    | BearerContext x => rfl
    | LoadControlInfo x => rfl
    | OverloadControlInfo x => rfl
    | RemoteUeContext x => rfl
    | ScefPdnConnections x => rfl
    | PC5QosParameters x => rfl
    | PgwChangeInfo x => rfl
    | PdnConnections x => rfl
    | V2xInformation x => rfl
    | _ => cases hg

theorem IE.deep_length (e : IE) : e.deep.length = e.bodyLen := by
  cases hg : e.grouped with
  | false => rw [IE.deep_plain hg]; exact IE.length_setLength _ e
  | true =>
    cases e with
    | BearerContext x => rfl
    | LoadControlInfo x => rfl
    | OverloadControlInfo x => rfl
    | RemoteUeContext x => rfl
    | ScefPdnConnections x => rfl
    | PC5QosParameters x => rfl
    | PgwChangeInfo x => rfl
    | PdnConnections x => rfl
    | V2xInformation x => rfl
    | _ => cases hg

/-- The length fields have no influence on the encoding. -/
theorem IE.marshal_deep : ∀ (d : Nat) (e : IE), e.depth < d → e.deep.marshal = e.marshal
  | 0, _, h => absurd h (Nat.not_lt_zero _)
  | d + 1, e, h => by
    cases hg : e.grouped with
    | false => rw [IE.deep_plain hg]; exact IE.marshal_setLength _ e
    | true =>
      rw [IE.marshal_grouped hg, IE.marshal_grouped (by rw [IE.deep_grouped]; exact hg), IE.deep_wireType, IE.deep_ins, IE.members_deep,
        tliv_length_field _ e.deep.length e.length]
      congr 1
      unfold IE.encoder
      rw [List.flatMap_map]
      exact flatMap_ext fun y hy => IE.marshal_deep d y (by have := IE.depth_members hy; omega)

theorem IE.deep_marshal (e : IE) : e.deep.marshal = e.marshal := IE.marshal_deep (e.depth + 1) e (Nat.lt_succ_self _)

theorem encoder_deep (es : List IE) : IE.encoder (es.map IE.deep) = IE.encoder es := by
  unfold IE.encoder
  rw [List.flatMap_map]
  congr 1
  funext e
  exact e.deep_marshal

/-- What stands in for missing members. -/
def defaultMembers : List IE :=
  [.Ebi Ebi.dflt, .Sqn Sqn.dflt, .Metric Metric.dflt, .EpcTimer EpcTimer.dflt, .RemoteUserId RemoteUserId.dflt,
    .Apn Apn.dflt, .NodeIdentifier NodeIdentifier.dflt, .Fteid Fteid.dflt, .ApnAmbr Ambr.dflt]

theorem groupUnm_inv {α : Type} {dec : Bytes → R Err (List IE)} {mk : UInt8 → UInt16 → UInt8 → List IE → α} {m : Mode} {b : Bytes} {x : α}
    (h : groupUnm dec mk m b = .ok x) : ∃ n i l s, x = mk (b.getD 0 0) n i l ∧ dec s = .ok l := by
  unfold groupUnm at h
  split at h
  · rename_i h4
    rw [rd_getD (by omega), R.ok_bind] at h
    cases h1 : (rd16 b 1 : R Err UInt16) with
    | ok n =>
      rw [h1, R.ok_bind] at h
      cases h2 : (rd b 3 : R Err UInt8) with
      | ok i =>
        rw [h2, R.ok_bind] at h
        cases h3 : (checkTliv m n b : R Err Bool) with
        | ok c =>
          rw [h3, R.ok_bind] at h
          split at h
          · cases h5 : slBody16 m b n with
            | ok s =>
              rw [h5, R.ok_bind] at h
              cases h6 : dec s with
              | ok l =>
                rw [h6, R.ok_bind] at h
                exact ⟨n, i, l, s, (R.ok.inj h).symm, h6⟩
              | _ => rw [h6] at h; cases h
            | _ => rw [h5] at h; cases h
          · cases h
        | _ => rw [h3] at h; cases h
      | _ => rw [h2] at h; cases h
    | _ => rw [h1] at h; cases h
  · cases h1 : (rd b 0 : R Err UInt8) with
    | ok t => rw [h1] at h; cases h
    | _ => rw [h1] at h; cases h

/-- Conditions under which what was decoded is encoded so that it can be decoded again: those of `IE.Faithful` for the IE and for the
members of a grouped IE. A BSS container and a transaction identifier in a bearer context are decoded but not encoded, and an IE
without any member is written with length 0, which is not accepted. -/
def IE.GoodWith (g : IE → Prop) : IE → Prop
  | .BearerContext x => x.bss_container = none ∧ x.transaction_id = none ∧ ∀ y ∈ x.toVec, g y
  | .LoadControlInfo x => ∀ y ∈ x.toVec, g y
  | .OverloadControlInfo x => ∀ y ∈ x.toVec, g y
  | .RemoteUeContext x => ∀ y ∈ x.toVec, g y
  | .ScefPdnConnections x => ∀ y ∈ x.toVec, g y
  | .PC5QosParameters x => ∀ y ∈ x.toVec, g y
  | .PgwChangeInfo x => x.toVec ≠ [] ∧ ∀ y ∈ x.toVec, g y
  | .PdnConnections x => ∀ y ∈ x.toVec, g y
  | .V2xInformation x => x.toVec ≠ [] ∧ ∀ y ∈ x.toVec, g y
  | e => e.Faithful

def IE.Good : IE → Prop := IE.GoodWith (IE.GoodWith (IE.GoodWith fun _ => False))

theorem IE.good_members {g : IE → Prop} {e y : IE} (h : IE.GoodWith g e) (hy : y ∈ e.members) : g y := by
  cases e with
  | BearerContext x => exact h.2.2 y hy
  | LoadControlInfo x => exact h y hy
  | OverloadControlInfo x => exact h y hy
  | RemoteUeContext x => exact h y hy
  | ScefPdnConnections x => exact h y hy
  | PC5QosParameters x => exact h y hy
  | PgwChangeInfo x => exact h.2 y hy
  | PdnConnections x => exact h y hy
  | V2xInformation x => exact h.2 y hy
  | _ => simp [IE.members] at hy

theorem IE.good_congr {f g : IE → Prop} {e : IE} (h : ∀ y ∈ e.members, f y → g y) (he : IE.GoodWith f e) : IE.GoodWith g e := by
  cases e with
  | BearerContext x => exact ⟨he.1, he.2.1, fun y hy => h y hy (he.2.2 y hy)⟩
  | LoadControlInfo x => exact fun y hy => h y hy (he y hy)
  | OverloadControlInfo x => exact fun y hy => h y hy (he y hy)
  | RemoteUeContext x => exact fun y hy => h y hy (he y hy)
  | ScefPdnConnections x => exact fun y hy => h y hy (he y hy)
  | PC5QosParameters x => exact fun y hy => h y hy (he y hy)
  | PgwChangeInfo x => exact ⟨he.1, fun y hy => h y hy (he.2 y hy)⟩
  | PdnConnections x => exact fun y hy => h y hy (he y hy)
  | V2xInformation x => exact ⟨he.1, fun y hy => h y hy (he.2 y hy)⟩
  | _ => exact he

theorem IE.good_eq {e : IE} (he : e.Good) : IE.GoodWith IE.Good e := by
  refine IE.good_congr (fun y hy h => IE.good_congr (fun z hz h => IE.good_congr (fun w hw _ => ?_) h) h) he
  have h1 := IE.depth_members hy
  have h2 := IE.depth_members hz
  have h4 := IE.depth_members hw
  have h3 : e.depth ≤ 2 := by cases e <;> simp [IE.depth]
  omega

theorem IE.WF_intro {e : IE} (he : IE.WFWith IE.WF e) : e.WF := by
  refine IE.WFWith_congr (fun y hy h => IE.WFWith_congr (fun z hz h => IE.WFWith_congr (fun w hw _ => ?_) h) h) he
  have h1 := IE.depth_members hy
  have h2 := IE.depth_members hz
  have h4 := IE.depth_members hw
  have h3 : e.depth ≤ 2 := by cases e <;> simp [IE.depth]
  omega

/-- What a decoded grouped IE consists of. -/
theorem grouped_inv {dec : Bytes → R Err (List IE)} {m : Mode} {b : Bytes} {e : IE} (h : unmKind dec m b (kindOf (b.getD 0 0)) = .ok e)
    (hg : e.grouped = true) : kindOf e.t = e.kind ∧ ∃ s l, dec s = .ok l ∧ ∀ y ∈ e.members, y ∈ l ∨ y ∈ defaultMembers := by
  have hk := Post.elim (unmKind_kind dec m b _) h
  rw [← hk] at h
  cases e with
  | BearerContext x =>
    simp only [IE.kind, unmKind] at h hk
    cases hu : groupUnm dec BearerContext.ofGroup m b with
    | ok z =>
      rw [hu, R.ok_bind] at h
      have hz : z = x := by
        first
          | (injection h with h; injection h with h)
          | (unfold listCheck at h; repeat' split at h
             all_goals first | (cases h; done) | (injection h with h; injection h with h))
          | (split at h
             · cases h
             · injection h with h; injection h with h)
      subst hz
      obtain ⟨n, i, l, s, rfl, hd⟩ := groupUnm_inv hu
      refine ⟨by simp only [IE.t, IE.kind, BearerContext.ofGroup_t]; exact hk.symm, s, l, hd, fun y hy => ?_⟩
      rcases BearerContext.mem_ofGroup _ n i l y hy with h | h
      · refine .inr ?_
        simp only [BearerContext.init, BearerContext.toVec, optV, Option.toList_none, List.map_nil, List.nil_append, List.append_nil, Option.getD_none, List.mem_append, List.mem_cons,
          List.not_mem_nil, or_false] at h
        all_goals (simp only [defaultMembers, List.mem_cons, List.not_mem_nil, or_false]; grind)
      · exact .inl h
    | _ => rw [hu] at h; cases h
  | LoadControlInfo x =>
    simp only [IE.kind, unmKind] at h hk
    cases hu : groupUnm dec LoadControl.ofGroup m b with
    | ok z =>
      rw [hu, R.ok_bind] at h
      have hz : z = x := by
        first
          | (injection h with h; injection h with h)
          | (unfold listCheck at h; repeat' split at h
             all_goals first | (cases h; done) | (injection h with h; injection h with h))
          | (split at h
             · cases h
             · injection h with h; injection h with h)
      subst hz
      obtain ⟨n, i, l, s, rfl, hd⟩ := groupUnm_inv hu
      refine ⟨by simp only [IE.t, IE.kind, LoadControl.ofGroup_t]; exact hk.symm, s, l, hd, fun y hy => ?_⟩
      rcases LoadControl.mem_ofGroup _ n i l y hy with h | h
      · refine .inr ?_
        simp only [LoadControl.init, LoadControl.toVec, optV, Option.toList_none, List.map_nil, List.nil_append, List.append_nil, Option.getD_none, List.mem_append, List.mem_cons,
          List.not_mem_nil, or_false] at h
        all_goals (simp only [defaultMembers, List.mem_cons, List.not_mem_nil, or_false]; grind)
      · exact .inl h
    | _ => rw [hu] at h; cases h
  | OverloadControlInfo x =>
    simp only [IE.kind, unmKind] at h hk
    cases hu : groupUnm dec OverloadControlInfo.ofGroup m b with
    | ok z =>
      rw [hu, R.ok_bind] at h
      have hz : z = x := by
        first
          | (injection h with h; injection h with h)
          | (unfold listCheck at h; repeat' split at h
             all_goals first | (cases h; done) | (injection h with h; injection h with h))
          | (split at h
             · cases h
             · injection h with h; injection h with h)
      subst hz
      obtain ⟨n, i, l, s, rfl, hd⟩ := groupUnm_inv hu
      refine ⟨by simp only [IE.t, IE.kind, OverloadControlInfo.ofGroup_t]; exact hk.symm, s, l, hd, fun y hy => ?_⟩
      rcases OverloadControlInfo.mem_ofGroup _ n i l y hy with h | h
      · refine .inr ?_
        simp only [OverloadControlInfo.init, OverloadControlInfo.toVec, optV, Option.toList_none, List.map_nil, List.nil_append, List.append_nil, Option.getD_none, List.mem_append, List.mem_cons,
          List.not_mem_nil, or_false] at h
        all_goals (simp only [defaultMembers, List.mem_cons, List.not_mem_nil, or_false]; grind)
      · exact .inl h
    | _ => rw [hu] at h; cases h
  | RemoteUeContext x =>
    simp only [IE.kind, unmKind] at h hk
    cases hu : groupUnm dec RemoteUeContext.ofGroup m b with
    | ok z =>
      rw [hu, R.ok_bind] at h
      have hz : z = x := by
        first
          | (injection h with h; injection h with h)
          | (unfold listCheck at h; repeat' split at h
             all_goals first | (cases h; done) | (injection h with h; injection h with h))
          | (split at h
             · cases h
             · injection h with h; injection h with h)
      subst hz
      obtain ⟨n, i, l, s, rfl, hd⟩ := groupUnm_inv hu
      refine ⟨by simp only [IE.t, IE.kind, RemoteUeContext.ofGroup_t]; exact hk.symm, s, l, hd, fun y hy => ?_⟩
      rcases RemoteUeContext.mem_ofGroup _ n i l y hy with h | h
      · refine .inr ?_
        simp only [RemoteUeContext.init, RemoteUeContext.toVec, optV, Option.toList_none, List.map_nil, List.nil_append, List.append_nil, Option.getD_none, List.mem_append, List.mem_cons,
          List.not_mem_nil, or_false] at h
        all_goals (simp only [defaultMembers, List.mem_cons, List.not_mem_nil, or_false]; grind)
      · exact .inl h
    | _ => rw [hu] at h; cases h
  | ScefPdnConnections x =>
    simp only [IE.kind, unmKind] at h hk
    cases hu : groupUnm dec ScefPdnConnections.ofGroup m b with
    | ok z =>
      rw [hu, R.ok_bind] at h
      have hz : z = x := by
        first
          | (injection h with h; injection h with h)
          | (unfold listCheck at h; repeat' split at h
             all_goals first | (cases h; done) | (injection h with h; injection h with h))
          | (split at h
             · cases h
             · injection h with h; injection h with h)
      subst hz
      obtain ⟨n, i, l, s, rfl, hd⟩ := groupUnm_inv hu
      refine ⟨by simp only [IE.t, IE.kind, ScefPdnConnections.ofGroup_t]; exact hk.symm, s, l, hd, fun y hy => ?_⟩
      rcases ScefPdnConnections.mem_ofGroup _ n i l y hy with h | h
      · refine .inr ?_
        simp only [ScefPdnConnections.init, ScefPdnConnections.toVec, optV, Option.toList_none, List.map_nil, List.nil_append, List.append_nil, Option.getD_none, List.mem_append, List.mem_cons,
          List.not_mem_nil, or_false] at h
        all_goals (simp only [defaultMembers, List.mem_cons, List.not_mem_nil, or_false]; grind)
      · exact .inl h
    | _ => rw [hu] at h; cases h
  | PC5QosParameters x =>
    simp only [IE.kind, unmKind] at h hk
    cases hu : groupUnm dec PC5QosParameters.ofGroup m b with
    | ok z =>
      rw [hu, R.ok_bind] at h
      have hz : z = x := by
        first
          | (injection h with h; injection h with h)
          | (unfold listCheck at h; repeat' split at h
             all_goals first | (cases h; done) | (injection h with h; injection h with h))
          | (split at h
             · cases h
             · injection h with h; injection h with h)
      subst hz
      obtain ⟨n, i, l, s, rfl, hd⟩ := groupUnm_inv hu
      refine ⟨by simp only [IE.t, IE.kind, PC5QosParameters.ofGroup_t]; exact hk.symm, s, l, hd, fun y hy => ?_⟩
      rcases PC5QosParameters.mem_ofGroup _ n i l y hy with h | h
      · refine .inr ?_
        simp only [PC5QosParameters.init, PC5QosParameters.toVec, optV, Option.toList_none, List.map_nil, List.nil_append, List.append_nil, Option.getD_none, List.mem_append, List.mem_cons,
          List.not_mem_nil, or_false] at h
        all_goals (simp only [defaultMembers, List.mem_cons, List.not_mem_nil, or_false]; grind)
      · exact .inl h
    | _ => rw [hu] at h; cases h
  | PgwChangeInfo x =>
    simp only [IE.kind, unmKind] at h hk
    cases hu : groupUnm dec PgwChangeInfo.ofGroup m b with
    | ok z =>
      rw [hu, R.ok_bind] at h
      have hz : z = x := by
        first
          | (injection h with h; injection h with h)
          | (unfold listCheck at h; repeat' split at h
             all_goals first | (cases h; done) | (injection h with h; injection h with h))
          | (split at h
             · cases h
             · injection h with h; injection h with h)
      subst hz
      obtain ⟨n, i, l, s, rfl, hd⟩ := groupUnm_inv hu
      refine ⟨by simp only [IE.t, IE.kind, PgwChangeInfo.ofGroup_t]; exact hk.symm, s, l, hd, fun y hy => ?_⟩
      rcases PgwChangeInfo.mem_ofGroup _ n i l y hy with h | h
      · refine .inr ?_
        simp only [PgwChangeInfo.init, PgwChangeInfo.toVec, optV, Option.toList_none, List.map_nil, List.nil_append, List.append_nil, Option.getD_none, List.mem_append, List.mem_cons,
          List.not_mem_nil, or_false] at h
        all_goals (simp only [defaultMembers, List.mem_cons, List.not_mem_nil, or_false]; grind)
      · exact .inl h
    | _ => rw [hu] at h; cases h
  | PdnConnections x =>
    simp only [IE.kind, unmKind] at h hk
    cases hu : groupUnm dec PdnConnections.ofGroup m b with
    | ok z =>
      rw [hu, R.ok_bind] at h
      have hz : z = x := by
        first
          | (injection h with h; injection h with h)
          | (unfold listCheck at h; repeat' split at h
             all_goals first | (cases h; done) | (injection h with h; injection h with h))
          | (split at h
             · cases h
             · injection h with h; injection h with h)
      subst hz
      obtain ⟨n, i, l, s, rfl, hd⟩ := groupUnm_inv hu
      refine ⟨by simp only [IE.t, IE.kind, PdnConnections.ofGroup_t]; exact hk.symm, s, l, hd, fun y hy => ?_⟩
      rcases PdnConnections.mem_ofGroup _ n i l y hy with h | h
      · refine .inr ?_
        simp only [PdnConnections.init, PdnConnections.toVec, optV, Option.toList_none, List.map_nil, List.nil_append, List.append_nil, Option.getD_none, List.mem_append, List.mem_cons,
          List.not_mem_nil, or_false] at h
        all_goals (simp only [defaultMembers, List.mem_cons, List.not_mem_nil, or_false]; grind)
      · exact .inl h
    | _ => rw [hu] at h; cases h
  | V2xInformation x =>
    simp only [IE.kind, unmKind] at h hk
    cases hu : groupUnm dec V2xInformation.ofGroup m b with
    | ok z =>
      rw [hu, R.ok_bind] at h
      have hz : z = x := by
        first
          | (injection h with h; injection h with h)
          | (unfold listCheck at h; repeat' split at h
             all_goals first | (cases h; done) | (injection h with h; injection h with h))
          | (split at h
             · cases h
             · injection h with h; injection h with h)
      subst hz
      obtain ⟨n, i, l, s, rfl, hd⟩ := groupUnm_inv hu
      refine ⟨by simp only [IE.t, IE.kind, V2xInformation.ofGroup_t]; exact hk.symm, s, l, hd, fun y hy => ?_⟩
      rcases V2xInformation.mem_ofGroup _ n i l y hy with h | h
      · refine .inr ?_
        simp only [V2xInformation.init, V2xInformation.toVec, optV, Option.toList_none, List.map_nil, List.nil_append, List.append_nil, Option.getD_none, List.mem_append, List.mem_cons,
          List.not_mem_nil, or_false] at h
        all_goals (simp only [defaultMembers, List.mem_cons, List.not_mem_nil, or_false]; grind)
      · exact .inl h
    | _ => rw [hu] at h; cases h
  | _ => cases hg

/-- The members of a grouped IE are of the kinds and instances that the decoder keeps. -/
def IE.slots : IE → Prop
  | .BearerContext x => x.Slots
  | .LoadControlInfo x => x.Slots
  | .OverloadControlInfo x => x.Slots
  | .RemoteUeContext x => x.Slots
  | .ScefPdnConnections x => x.Slots
  | .PC5QosParameters x => x.Slots
  | .PgwChangeInfo x => x.Slots
  | .PdnConnections x => x.Slots
  | .V2xInformation x => x.Slots
  | _ => True

/-- The members of a decoded grouped IE are where they belong. -/
theorem grouped_slots {dec : Bytes → R Err (List IE)} {m : Mode} {b : Bytes} {e : IE} (h : unmKind dec m b (kindOf (b.getD 0 0)) = .ok e)
    {g : IE → Prop} (hq : IE.GoodWith g e) (hg : e.grouped = true) :
    e.slots := by
  have hk := Post.elim (unmKind_kind dec m b _) h
  rw [← hk] at h
  cases e with
  | BearerContext x =>
    simp only [IE.kind, unmKind] at h hk
    cases hu : groupUnm dec BearerContext.ofGroup m b with
    | ok z =>
      rw [hu, R.ok_bind] at h
      have hz : z = x := by
        first
          | (injection h with h; injection h with h)
          | (unfold listCheck at h; repeat' split at h
             all_goals first | (cases h; done) | (injection h with h; injection h with h))
      subst hz
      obtain ⟨n, i, l, s, rfl, hd⟩ := groupUnm_inv hu
      obtain ⟨h0, h1, h2, h3, h4, h5, h6, h7, h8, h9, h10⟩ := BearerContext.kept_ofGroup (b.getD 0 0) n i l
      exact ⟨h0, h1, h2, h3, h4, h5, h6, h7, h8, h9, h10, hq.1, hq.2.1⟩
    | _ => rw [hu] at h; cases h
  | LoadControlInfo x =>
    simp only [IE.kind, unmKind] at h hk
    cases hu : groupUnm dec LoadControl.ofGroup m b with
    | ok z =>
      rw [hu, R.ok_bind] at h
      have hz : z = x := by
        first
          | (injection h with h; injection h with h)
          | (unfold listCheck at h; repeat' split at h
             all_goals first | (cases h; done) | (injection h with h; injection h with h))
      subst hz
      obtain ⟨n, i, l, s, rfl, hd⟩ := groupUnm_inv hu
      exact LoadControl.kept_ofGroup (b.getD 0 0) n i l
    | _ => rw [hu] at h; cases h
  | OverloadControlInfo x =>
    simp only [IE.kind, unmKind] at h hk
    cases hu : groupUnm dec OverloadControlInfo.ofGroup m b with
    | ok z =>
      rw [hu, R.ok_bind] at h
      have hz : z = x := by
        first
          | (injection h with h; injection h with h)
          | (unfold listCheck at h; repeat' split at h
             all_goals first | (cases h; done) | (injection h with h; injection h with h))
      subst hz
      obtain ⟨n, i, l, s, rfl, hd⟩ := groupUnm_inv hu
      exact OverloadControlInfo.kept_ofGroup (b.getD 0 0) n i l
    | _ => rw [hu] at h; cases h
  | RemoteUeContext x => trivial
  | ScefPdnConnections x =>
    simp only [IE.kind, unmKind] at h hk
    cases hu : groupUnm dec ScefPdnConnections.ofGroup m b with
    | ok z =>
      rw [hu, R.ok_bind] at h
      have hz : z = x := by
        first
          | (injection h with h; injection h with h)
          | (unfold listCheck at h; repeat' split at h
             all_goals first | (cases h; done) | (injection h with h; injection h with h))
      subst hz
      obtain ⟨n, i, l, s, rfl, hd⟩ := groupUnm_inv hu
      exact ScefPdnConnections.kept_ofGroup (b.getD 0 0) n i l
    | _ => rw [hu] at h; cases h
  | PC5QosParameters x =>
    simp only [IE.kind, unmKind] at h hk
    cases hu : groupUnm dec PC5QosParameters.ofGroup m b with
    | ok z =>
      rw [hu, R.ok_bind] at h
      split at h
      · cases h
      rename_i hne
      have hz : z = x := by injection h with h; injection h with h
      subst hz
      obtain ⟨n, i, l, s, rfl, hd⟩ := groupUnm_inv hu
      exact ⟨(PC5QosParameters.kept_ofGroup (b.getD 0 0) n i l).1, (PC5QosParameters.kept_ofGroup (b.getD 0 0) n i l).2, hne⟩
    | _ => rw [hu] at h; cases h
  | PgwChangeInfo x =>
    simp only [IE.kind, unmKind] at h hk
    cases hu : groupUnm dec PgwChangeInfo.ofGroup m b with
    | ok z =>
      rw [hu, R.ok_bind] at h
      have hz : z = x := by
        first
          | (injection h with h; injection h with h)
          | (unfold listCheck at h; repeat' split at h
             all_goals first | (cases h; done) | (injection h with h; injection h with h))
      subst hz
      obtain ⟨n, i, l, s, rfl, hd⟩ := groupUnm_inv hu
      exact PgwChangeInfo.kept_ofGroup (b.getD 0 0) n i l
    | _ => rw [hu] at h; cases h
  | PdnConnections x =>
    simp only [IE.kind, unmKind] at h hk
    cases hu : groupUnm dec PdnConnections.ofGroup m b with
    | ok z =>
      rw [hu, R.ok_bind] at h
      have hz : z = x := by
        first
          | (injection h with h; injection h with h)
          | (unfold listCheck at h; repeat' split at h
             all_goals first | (cases h; done) | (injection h with h; injection h with h))
      subst hz
      obtain ⟨n, i, l, s, rfl, hd⟩ := groupUnm_inv hu
      exact PdnConnections.kept_ofGroup (b.getD 0 0) n i l
    | _ => rw [hu] at h; cases h
  | V2xInformation x =>
    simp only [IE.kind, unmKind] at h hk
    cases hu : groupUnm dec V2xInformation.ofGroup m b with
    | ok z =>
      rw [hu, R.ok_bind] at h
      have hz : z = x := by
        first
          | (injection h with h; injection h with h)
          | (unfold listCheck at h; repeat' split at h
             all_goals first | (cases h; done) | (injection h with h; injection h with h))
      subst hz
      obtain ⟨n, i, l, s, rfl, hd⟩ := groupUnm_inv hu
      exact V2xInformation.kept_ofGroup (b.getD 0 0) n i l
    | _ => rw [hu] at h; cases h
  | _ => cases hg

private theorem kindOf_BearerContext (x : BearerContext) : ∀ t : UInt8, kindOf t = .BearerContext → t = IE.wireType (.BearerContext x) := by
  show ∀ t : UInt8, kindOf t = .BearerContext → t = 93
  decide +kernel

private theorem kindOf_LoadControlInfo (x : LoadControl) : ∀ t : UInt8, kindOf t = .LoadControlInfo → t = IE.wireType (.LoadControlInfo x) := by
  show ∀ t : UInt8, kindOf t = .LoadControlInfo → t = 181
  decide +kernel

private theorem kindOf_OverloadControlInfo (x : OverloadControlInfo) : ∀ t : UInt8, kindOf t = .OverloadControlInfo → t = IE.wireType (.OverloadControlInfo x) := by
  show ∀ t : UInt8, kindOf t = .OverloadControlInfo → t = 180
  decide +kernel

private theorem kindOf_RemoteUeContext (x : RemoteUeContext) : ∀ t : UInt8, kindOf t = .RemoteUeContext → t = IE.wireType (.RemoteUeContext x) := by
  show ∀ t : UInt8, kindOf t = .RemoteUeContext → t = 191
  decide +kernel

private theorem kindOf_ScefPdnConnections (x : ScefPdnConnections) : ∀ t : UInt8, kindOf t = .ScefPdnConnections → t = IE.wireType (.ScefPdnConnections x) := by
  show ∀ t : UInt8, kindOf t = .ScefPdnConnections → t = 195
  decide +kernel

private theorem kindOf_PC5QosParameters (x : PC5QosParameters) : ∀ t : UInt8, kindOf t = .PC5QosParameters → t = IE.wireType (.PC5QosParameters x) := by
  show ∀ t : UInt8, kindOf t = .PC5QosParameters → t = 209
  decide +kernel

private theorem kindOf_PgwChangeInfo (x : PgwChangeInfo) : ∀ t : UInt8, kindOf t = .PgwChangeInfo → t = IE.wireType (.PgwChangeInfo x) := by
  show ∀ t : UInt8, kindOf t = .PgwChangeInfo → t = 214
  decide +kernel

private theorem kindOf_PdnConnections (x : PdnConnections) : ∀ t : UInt8, kindOf t = .PdnConnections → t = IE.wireType (.PdnConnections x) := by
  show ∀ t : UInt8, kindOf t = .PdnConnections → t = 109
  decide +kernel

private theorem kindOf_V2xInformation (x : V2xInformation) : ∀ t : UInt8, kindOf t = .V2xInformation → t = IE.wireType (.V2xInformation x) := by
  show ∀ t : UInt8, kindOf t = .V2xInformation → t = 208
  decide +kernel

theorem kindOf_grouped {e : IE} (hg : e.grouped = true) : ∀ t : UInt8, kindOf t = e.kind → t = e.wireType := by
  cases e with
  | BearerContext x => exact kindOf_BearerContext x
  | LoadControlInfo x => exact kindOf_LoadControlInfo x
  | OverloadControlInfo x => exact kindOf_OverloadControlInfo x
  | RemoteUeContext x => exact kindOf_RemoteUeContext x
  | ScefPdnConnections x => exact kindOf_ScefPdnConnections x
  | PC5QosParameters x => exact kindOf_PC5QosParameters x
  | PgwChangeInfo x => exact kindOf_PgwChangeInfo x
  | PdnConnections x => exact kindOf_PdnConnections x
  | V2xInformation x => exact kindOf_V2xInformation x
  | _ => cases hg

theorem IE.WF_grouped {e : IE} (hg : e.grouped = true) (ht : e.t = e.wireType) (hl : e.length.toNat = (IE.encoder e.members).length)
    (h0 : 0 < e.length.toNat) (h1 : e.length.toNat < 65532) (hm : ∀ y ∈ e.members, y.WF)
    (hs : e.slots) : e.WF := by
  refine IE.WF_intro ?_
  cases e with
  | BearerContext x => exact ⟨⟨ht, hl, h0, h1, hm⟩, hs⟩
  | LoadControlInfo x => exact ⟨⟨ht, hl, h0, h1, hm⟩, hs⟩
  | OverloadControlInfo x => exact ⟨⟨ht, hl, h0, h1, hm⟩, hs⟩
  | RemoteUeContext x => exact ⟨⟨ht, hl, h0, h1, hm⟩, hs⟩
  | ScefPdnConnections x => exact ⟨⟨ht, hl, h0, h1, hm⟩, hs⟩
  | PC5QosParameters x => exact ⟨⟨ht, hl, h0, h1, hm⟩, hs⟩
  | PgwChangeInfo x => exact ⟨⟨ht, hl, h0, h1, hm⟩, hs⟩
  | PdnConnections x => exact ⟨⟨ht, hl, h0, h1, hm⟩, hs⟩
  | V2xInformation x => exact ⟨⟨ht, hl, h0, h1, hm⟩, hs⟩
  | _ => cases hg

theorem defaultMembers_WF : ∀ y ∈ defaultMembers, y.norm.WF ∧ y.grouped = false := by decide +kernel

/-- The IEs in the result of the decoder come from its arms. -/
theorem decoder_arms {m : Mode} : ∀ (k : Nat) {b : Bytes} {es : List IE}, b.length < k → decoder m b = .ok es → ∀ e ∈ es,
    ∃ s, unmKind (decoder m) m s (kindOf (s.getD 0 0)) = .ok e
  | 0, _, _, hk, _, _, _ => absurd hk (by omega)
  | k + 1, b, es, hk, h, e, he => by
    rw [decoder_eq] at h
    split at h
    · cases h; cases he
    · rename_i hb
      have h0 : 0 < b.length := List.length_pos_iff.mpr hb
      cases hp : decodeOne (decoder m) m b with
      | ok p =>
        obtain ⟨x, n⟩ := p
        rw [hp, R.ok_bind] at h
        simp only at h
        split at h
        · cases h
        · cases hd : decoder m (b.drop n) with
          | ok l =>
            rw [hd, R.ok_bind] at h
            cases h
            rcases List.mem_cons.mp he with rfl | he
            · exact ⟨_, (decodeOne_inv hp).2.1⟩
            · exact decoder_arms k (by simp; omega) hd e he
          | _ => rw [hd] at h; cases h
      | _ => rw [hp] at h; cases h

theorem bodyLen_toNat {e : IE} (h : e.marshal.length < 65540) : e.bodyLen.toNat + 4 = e.marshal.length := by
  have h4 : 4 ≤ e.marshal.length := by
    obtain ⟨l, i, body, h⟩ := IE.marshal_tliv e
    rw [h, tliv_eq]
    simp
  rw [IE.bodyLen, UInt16.toNat_ofNat']
  omega

theorem mem_encoder_length {l : List IE} {y : IE} (h : y ∈ l) : y.marshal.length ≤ (IE.encoder l).length := by
  unfold IE.encoder
  rw [List.length_flatMap]
  induction l with
  | nil => cases h
  | cons z l ih =>
    rw [List.map_cons, List.sum_cons]
    rcases List.mem_cons.mp h with rfl | h
    · omega
    · have := ih h
      omega

/-- A decoded IE, with the lengths it is encoded with, is a value which the encoding represents. -/
theorem deep_WF {m : Mode} : ∀ (d : Nat) (e : IE), e.depth < d →
    ((∃ b, unmKind (decoder m) m b (kindOf (b.getD 0 0)) = .ok e) ∨ e ∈ defaultMembers) → e.Good → e.marshal.length < 65536 → e.deep.WF
  | 0, _, h, _, _, _ => absurd h (Nat.not_lt_zero _)
  | d + 1, e, h, hb, hq, hl => by
    rcases hb with ⟨b, hb⟩ | hb
    · have hbl := bodyLen_toNat (e := e) (by omega)
      cases hg : e.grouped with
      | false =>
        rw [IE.deep_plain hg]
        have hf : e.Faithful := by
          have := IE.good_eq hq
          revert this hg
          clear hb hbl hl h hq
          cases e with
          | BearerContext x => intro hg; cases hg
          | LoadControlInfo x => intro hg; cases hg
          | OverloadControlInfo x => intro hg; cases hg
          | RemoteUeContext x => intro hg; cases hg
          | ScefPdnConnections x => intro hg; cases hg
          | PC5QosParameters x => intro hg; cases hg
          | PgwChangeInfo x => intro hg; cases hg
          | PdnConnections x => intro hg; cases hg
          | V2xInformation x => intro hg; cases hg
          | _ => exact fun _ h => h
        exact Post.elim (unmKind_stable (decoder m) m b _) hb hf _ hbl (by omega)
      | true =>
        obtain ⟨ht, s, l, hd, hm⟩ := grouped_inv hb hg
        have hsl := grouped_slots hb (IE.good_eq hq) hg
        have hmar : e.marshal.length = (IE.encoder e.members).length + 4 := by
          rw [IE.marshal_grouped hg, tliv_eq]
          simp [be16]
        have hne : e.members ≠ [] := by
          have hw := IE.good_eq hq
          cases e with
          | BearerContext x => simp [IE.members, BearerContext.toVec]
          | LoadControlInfo x => simp [IE.members, LoadControl.toVec]
          | OverloadControlInfo x => simp [IE.members, OverloadControlInfo.toVec]
          | RemoteUeContext x => simp [IE.members, RemoteUeContext.toVec]
          | ScefPdnConnections x => simp [IE.members, ScefPdnConnections.toVec]
          | PC5QosParameters x => simp only [IE.members, PC5QosParameters.toVec]; have := hsl.2.2; simp [this]
          | PgwChangeInfo x => exact hw.1
          | PdnConnections x => simp [IE.members, PdnConnections.toVec]
          | V2xInformation x => exact hw.1
          | _ => cases hg
        have hpos : 0 < (IE.encoder e.members).length := by
          obtain ⟨y, r, hy⟩ := List.exists_cons_of_ne_nil hne
          have h1 := mem_encoder_length (l := e.members) (y := y) (by rw [hy]; simp)
          obtain ⟨n, i, body, h2⟩ := IE.marshal_tliv y
          rw [h2, tliv_eq] at h1
          simp at h1
          omega
        refine IE.WF_grouped (by rw [IE.deep_grouped]; exact hg) ?_ ?_ ?_ ?_ ?_ ?_
        · rw [IE.deep_t, IE.deep_wireType]
          exact kindOf_grouped hg _ ht
        · rw [IE.deep_length, IE.members_deep, encoder_deep]
          omega
        · rw [IE.deep_length]; omega
        · rw [IE.deep_length]; omega
        · intro y hy
          rw [IE.members_deep] at hy
          obtain ⟨z, hz, rfl⟩ := List.mem_map.mp hy
          refine deep_WF (m := m) d z (by have := IE.depth_members hz; omega) ?_ (IE.good_members (IE.good_eq hq) hz) ?_
          · exact (hm z hz).imp (fun h => decoder_arms _ (Nat.lt_succ_self _) hd z h) id
          · have := mem_encoder_length hz
            omega
        · revert hsl
          clear hpos hne hmar hm hd ht hb hq hl hbl h
          cases e with
          | BearerContext x => exact fun h => BearerContext.slots_deep (x := x) h
          | LoadControlInfo x => exact fun h => LoadControl.slots_deep (x := x) h
          | OverloadControlInfo x => exact fun h => OverloadControlInfo.slots_deep (x := x) h
          | RemoteUeContext x => exact fun h => RemoteUeContext.slots_deep (x := x) h
          | ScefPdnConnections x => exact fun h => ScefPdnConnections.slots_deep (x := x) h
          | PC5QosParameters x => exact fun h => PC5QosParameters.slots_deep (x := x) h
          | PgwChangeInfo x => exact fun h => PgwChangeInfo.slots_deep (x := x) h
          | PdnConnections x => exact fun h => PdnConnections.slots_deep (x := x) h
          | V2xInformation x => exact fun h => V2xInformation.slots_deep (x := x) h
          | _ => cases hg
    · obtain ⟨h1, h2⟩ := defaultMembers_WF e hb
      rw [IE.deep_plain h2]
      exact h1

end Gtp.V2
