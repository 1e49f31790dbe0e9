import Verif.Props.CMsgAll

/-!
# The GTPv1-C messages and the tables of TS 29.060 (C87)
-/

namespace Gtp.Props.C1
open Gtp.C1 Gtp.V1 Gtp.C1.Desc

/-! ## Specification -/

namespace Ts060

/-- TS 29.060, table 1: message types. -/
def code : Msg → UInt8
  | .CreatePDPContextRequest => 16
  | .CreatePDPContextResponse => 17
  | .UpdatePDPContextRequest => 18
  | .UpdatePDPContextResponse => 19
  | .UpdatePDPContextRequestGGSN => 18
  | .UpdatePDPContextResponseGGSN => 19
  | .DeletePDPContextRequest => 20
  | .DeletePDPContextResponse => 21
  | .InitiatePDPContextActivationRequest => 22
  | .InitiatePDPContextActivationResponse => 23
  | .PDUNotificationRequest => 27
  | .PDUNotificationResponse => 28
  | .PDUNotificationRejectRequest => 29
  | .PDUNotificationRejectResponse => 30
  | .MSInfoChangeNotificationRequest => 128
  | .MSInfoChangeNotificationResponse => 129

/-- TS 29.060, tables 5 to 14 and 43: the types of the information elements of a message, in the order of the table. -/
def ies : Msg → List UInt8
  | .CreatePDPContextRequest => [2, 3, 14, 15, 16, 17, 20, 20, 26, 27, 28, 128, 131, 132, 133, 133, 134, 135, 137, 142, 143, 148, 149, 151, 152,
      153, 154, 155, 162, 183, 191, 193, 194, 198, 203, 216, 223, 224, 255]
  | .CreatePDPContextResponse => [1, 8, 14, 16, 17, 20, 127, 128, 132, 133, 133, 133, 133, 135, 251, 251, 148, 149, 181, 184, 191, 193, 195, 198,
      202, 218, 255]
  | .UpdatePDPContextRequest => [2, 3, 14, 16, 17, 20, 27, 28, 132, 133, 133, 133, 133, 135, 137, 142, 143, 148, 151, 152, 153, 154, 162, 182,
      191, 193, 194, 198, 203, 216, 255]
  | .UpdatePDPContextResponse => [1, 14, 16, 17, 127, 132, 133, 133, 133, 133, 135, 251, 251, 148, 149, 181, 184, 191, 195, 198, 255]
  | .UpdatePDPContextRequestGGSN => [2, 14, 20, 128, 132, 135, 137, 148, 149, 181, 182, 184, 191, 193, 195, 198, 255]
  | .UpdatePDPContextResponseGGSN => [1, 14, 16, 132, 133, 135, 152, 153, 182, 191, 198, 255]
  | .DeletePDPContextRequest => [1, 19, 20, 132, 152, 153, 193, 214, 255]
  | .DeletePDPContextResponse => [1, 132, 152, 153, 214, 255]
  | .InitiatePDPContextActivationRequest => [20, 132, 135, 137, 183, 191, 255]
  | .InitiatePDPContextActivationResponse => [1, 132, 255]
  | .PDUNotificationRequest => [2, 17, 128, 131, 132, 133, 255]
  | .PDUNotificationResponse => [1, 255]
  | .PDUNotificationRejectRequest => [1, 17, 128, 131, 132, 255]
  | .PDUNotificationRejectResponse => [1, 255]
  | .MSInfoChangeNotificationRequest => [2, 20, 151, 152, 154, 193, 194, 255]
  | .MSInfoChangeNotificationResponse => [1, 2, 20, 154, 181, 195, 255]

/-- TS 29.060, table 37: the information element of a type octet (those that occur in `ies`). -/
def kind (c : UInt8) : Option Kind :=
  [((1 : UInt8), Kind.Cause), (2, .Imsi), (3, .Rai), (8, .ReorderingRequired), (14, .Recovery), (15, .SelectionMode), (16, .Teid), (17, .Teid),
   (19, .TeardownInd), (20, .Nsapi), (26, .ChargingCharacteristics), (27, .TraceReference), (28, .TraceType), (127, .ChargingID),
   (128, .EndUserAddress), (131, .Apn), (132, .Pco), (133, .GsnAddress), (134, .Msisdn), (135, .Qos), (137, .Tft), (142, .TriggerId),
   (143, .OmcId), (148, .CommonFlags), (149, .ApnRestriction), (151, .RatType), (152, .Uli), (153, .MsTimeZone), (154, .Imei),
   (155, .CamelChargingInfoContainer), (162, .AdditionalTraceInfo), (181, .MSInfoChangeReportingAction), (182, .DirectTunnelFlags),
   (183, .CorrelationId), (184, .BearerControlMode), (191, .EvolvedAllocationRetentionI), (193, .ExtendedCommonFlags), (194, .Uci),
   (195, .CSGInformationReportingAction), (198, .ApnAmbr), (202, .GGSNBackOffTime), (203, .Spi), (214, .UliTimestamp),
   (216, .CnOperatorSelectionEntity), (218, .ExtendedCommonFlagsII), (223, .MappedUeUsageType), (224, .UpFunctionSelectionIndicationFlags),
   (251, .ChargingGWAddress), (255, .PrivateExtension)].lookup c

end Ts060

/-! ## The tables of the crate -/

/-- C87: the type codes of the messages are those of the standard. -/
theorem C87_code (t : Msg) : t.desc.code = Ts060.code t := by cases t <;> decide +kernel

theorem ies_table (t : Msg) : t.desc.order.map (fun s => (t.desc.place s).1) = Ts060.ies t := by cases t <;> decide +kernel

theorem arms_table (t : Msg) : (t.desc.arms.all fun p => decide (p.1 ∈ Ts060.ies t ∧ Ts060.kind p.1 = some p.2.kind)) = true := by
  cases t <;> decide +kernel

theorem known_table (t : Msg) : ((Ts060.ies t).all fun c => decide ((t.desc.arm c).map (·.kind) = Ts060.kind c ∧ (t.desc.arm c).isSome)) = true := by
  cases t <;> decide +kernel

/-- The fields for a type are as many as the rows for it. -/
theorem count_table (t : Msg) : (t.desc.arms.all fun p => decide (p.2.slots.length = (Ts060.ies t).count p.1)) = true := by
  cases t <;> decide +kernel

theorem arm_mem {t : Msg} {c : UInt8} {a : Arm t.desc.S} (h : t.desc.arm c = some a) :
    c ∈ Ts060.ies t ∧ Ts060.kind c = some a.kind ∧ a.slots.length = (Ts060.ies t).count c :=
  have h1 := of_decide_eq_true (List.all_eq_true.mp (arms_table t) _ (mem_of_lookup h))
  ⟨h1.1, h1.2, of_decide_eq_true (List.all_eq_true.mp (count_table t) _ (mem_of_lookup h))⟩

theorem parsed_known {t : Msg} {m : Mode} {b : Bytes} {es : List Item} (h : Parsed t m b es) :
    ∀ e ∈ es, (∃ a, t.desc.arm e.1 = some a) ∧ e.1 ∈ Ts060.ies t ∧ Ts060.kind e.1 = some e.2.1 := by
  induction h with
  | nil => intro e he; cases he
  | cons h1 _ _ _ ih =>
    intro e he
    rcases List.mem_cons.mp he with rfl | he
    · exact ⟨⟨_, h1⟩, (arm_mem h1).1, (arm_mem h1).2.1⟩
    · exact ih e he

/-- C87: what is accepted consists of elements that the table of the message lists, each read as the element of its type. -/
theorem C87_elements (t : Msg) (m : Mode) (b : Bytes) (x : t.desc.X) (e : t.desc.unmarshal m b = .ok x) :
    ∃ h l es, Header.unmarshal m b = .ok h ∧ h.msgtype = Ts060.code t ∧ h.len m = .ok l ∧ Parsed t m (b.drop l) es ∧
      ∀ i ∈ es, i.1 ∈ Ts060.ies t ∧ Ts060.kind i.1 = some i.2.1 := by
  obtain ⟨h, n, l, st, h1, h2, h3, h4, h5, h6, h7⟩ := accepted e
  obtain ⟨es, p1, -⟩ := scan_parsed t m _ _ _ _ h6
  exact ⟨h, l, es, h1, h2.trans (C87_code t), h5, p1, fun i hi => (parsed_known p1 i hi).2⟩

theorem mem_ies {d : Desc} {x : d.X} {s : d.S} (hs : s ∈ d.order) {i : (d.kind s).Ty} (h : d.view x s = some i) : (⟨d.kind s, i⟩ : IE) ∈ d.ies x := by
  rw [ies]
  exact List.mem_filterMap.mpr ⟨s, hs, by rw [ie, h]; rfl⟩

/-- C87: of each type the result has as many elements as the table has rows for it, the first ones that were received. -/
theorem C87_kept (t : Msg) (m : Mode) (b : Bytes) (x : t.desc.X) (hm : m = .debug ∨ b.length ≤ 263) (e : t.desc.unmarshal m b = .ok x)
    (h : Header) (l : Nat) (es : List Item) (hh : Header.unmarshal m b = .ok h) (hl : h.len m = .ok l) (hp : Parsed t m (b.drop l) es)
    (c : UInt8) (i : Item) (hi : i ∈ (ofType c es).take ((Ts060.ies t).count c)) : i.2 ∈ elements t x := by
  obtain ⟨h', n, l', es', h1, -, -, -, h5, h6, -, h8⟩ := (C47_accepted_iff t m b x hm).mp e
  obtain rfl : h' = h := R.ok.inj (h1.symm.trans hh)
  obtain rfl : l' = l := R.ok.inj (h5.symm.trans hl)
  obtain rfl : es' = es := C47_elements_unique t m _ _ _ h6 hp
  obtain ⟨j, hj, rfl⟩ := List.mem_iff_getElem.mp hi
  rw [List.length_take] at hj
  rw [List.getElem_take]
  have hmem : (ofType c es')[j] ∈ ofType c es' := List.getElem_mem _
  generalize hy : (ofType c es')[j] = y at hmem
  obtain ⟨hy1, hy2⟩ := List.mem_filter.mp hmem
  rw [beq_iff_eq] at hy2
  obtain ⟨⟨a, ha⟩, -, hk⟩ := parsed_known hp y hy1
  rw [hy2] at ha hk
  obtain ⟨-, hka, hslots⟩ := arm_mem ha
  obtain ⟨q1, -, -, -, -, q6⟩ := t.lawful.arm_kind _ (mem_of_lookup ha)
  have hjs : j < a.slots.length := by omega
  have hpl := q6 j hjs
  dsimp only at hpl
  rw [List.getElem?_eq_getElem hjs, Option.map_some, Option.some.injEq] at hpl
  have hf := h8.field a.slots[j]
  rw [hpl] at hf
  dsimp only at hf
  rw [List.getElem?_eq_getElem (by omega), hy] at hf
  have hks : t.desc.kind a.slots[j] = y.2.1 := (q1 _ (List.getElem_mem _)).trans (Option.some.inj (hka.symm.trans hk))
  obtain ⟨c', k', y'⟩ := y
  dsimp only at hks hf
  subst hks
  rw [IE.as_mk] at hf
  exact mem_ies (t.lawful.order_all _) hf

/-- C87: the elements of a message are sent in the order of the table. -/
theorem C87_order (t : Msg) (x : t.desc.X) (hx : Regular t x) : ((elements t x).map IE.code).Sublist (Ts060.ies t) := by
  rw [← ies_table t, elements, ies]
  induction t.desc.order with
  | nil => exact List.Sublist.slnil
  | cons s o ih =>
    rw [List.map_cons]
    cases h : t.desc.view x s with
    | none =>
      rw [List.filterMap_cons_none (by rw [ie, h]; rfl)]
      exact ih.cons _
    | some i =>
      rw [List.filterMap_cons_some (b := ⟨t.desc.kind s, i⟩) (by rw [ie, h]; rfl), List.map_cons]
      have : IE.code ⟨t.desc.kind s, i⟩ = (t.desc.place s).1 := by
        have := (hx.fields s i h).2
        rw [IE.code, IE.mar, List.headD_eq_head?_getD, this]
        rfl
      rw [this]
      exact ih.cons_cons _

/-- C87 (what holds): elements that the table of the message lists, in ascending order and with the mandatory ones, are accepted, and in the
result as C87_kept says. Missing: APN Restriction (C36), and a private extension in front of something else. -/
theorem C87_accepted_partial (t : Msg) (m : Mode) (h : Header) (wf : HeaderWF h) (hc : h.msgtype = Ts060.code t) (es : List IE)
    (hw : ∀ e ∈ es, e.WF) (hk : ∀ e ∈ es, e.code ∈ Ts060.ies t ∧ Ts060.kind e.code = some e.1) (ha : Ascending es)
    (hfew : ∀ c, (es.filter fun e => e.code == c).length ≤ 255) (hr : ∀ r ∈ required t, ∃ e ∈ es, e.code = r.1)
    (hx1 : ∀ e ∈ es, e.1 ≠ .ApnRestriction) (hx2 : es.Pairwise fun e _ => e.1 ≠ .PrivateExtension)
    (h1 : h.length.toNat < 65528) (h2 : h.length.toNat + 8 ≤ h.marshal.length + (octets es).length) :
    ∃ x, t.desc.unmarshal m (h.marshal ++ octets es) = .ok x := by
  have hca : Carried t es := ⟨hw, fun e he => by
    have := of_decide_eq_true (List.all_eq_true.mp (known_table t) _ (hk e he).1)
    obtain ⟨a, ha⟩ := Option.isSome_iff_exists.mp this.2
    refine ⟨a, ha, ?_⟩
    have h' := this.1
    rw [ha, (hk e he).2] at h'
    exact Option.some.inj h', hx2, fun c => Nat.lt_succ_of_le (hfew c)⟩
  obtain ⟨x, -, hu⟩ := (decode_elements t m h wf (hc.trans (C87_code t).symm) es hca ha hx1 h.length h1 h2).1 fun c hcm => by
    rw [required_eq] at hcm
    obtain ⟨r, hr', rfl⟩ := List.mem_map.mp hcm
    exact hr r hr'
  exact ⟨x, hu⟩

/-! ## Examples -/

example (m : Mode) : ∃ x, DeletePDPContextRequest.desc.unmarshal m ((Header.mk 20 8 9 none none none).marshal ++
    octets [⟨.TeardownInd, ⟨19, true⟩⟩, ⟨.Nsapi, ⟨20, 5⟩⟩, ⟨.MsTimeZone, ⟨153, 2, 1, 0⟩⟩]) = .ok x :=
  C87_accepted_partial .DeletePDPContextRequest m _ (by intro l hl; cases hl) rfl _ (by decide +kernel) (by decide +kernel) (by unfold Ascending; decide +kernel)
    (by
      intro c
      exact Nat.le_trans (List.length_filter_le _ _) (by decide)) (by decide +kernel) (by decide +kernel) (by decide +kernel) (by decide +kernel)
      (by decide +kernel)

/-- A Delete PDP Context Response with two causes: the first one is in the result. -/
example (x : DeletePDPContextResponse) (e : DeletePDPContextResponse.desc.unmarshal .debug exDelete = .ok x) :
    (⟨.Cause, ⟨1, 128⟩⟩ : IE) ∈ elements .DeletePDPContextResponse x :=
  C87_kept .DeletePDPContextResponse .debug exDelete x (.inl rfl) e ⟨21, 4, 9, none, none, none⟩ 8
    [(1, ⟨.Cause, ⟨1, 128⟩⟩), (1, ⟨.Cause, ⟨1, 129⟩⟩), (132, ⟨.Pco, ⟨132, 2, [7, 8]⟩⟩)] (by decide +kernel) (by decide +kernel)
    (.cons (t := .DeletePDPContextResponse) (a := ⟨.Cause, [DeletePDPContextResponse.S.cause], false, badOptional⟩) (l := 2) rfl rfl rfl
      (.cons (t := .DeletePDPContextResponse) (a := ⟨.Cause, [DeletePDPContextResponse.S.cause], false, badOptional⟩) (l := 2) rfl rfl rfl
        (.cons (t := .DeletePDPContextResponse) (a := ⟨.Pco, [DeletePDPContextResponse.S.pco], false, badOptional⟩) (l := 5) rfl rfl rfl .nil))) 1 _ (List.mem_cons_self ..)

end Gtp.Props.C1
