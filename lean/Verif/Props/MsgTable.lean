import Verif.Props.MsgSpec
import Verif.Props.MsgExact

/-!
# The messages of the crate and those of TS 29.274 (C84, C85, C86)

Type codes, which IEs a decoder insists on, and which IEs of a received message are in the result.
-/

namespace Gtp.Props
open Gtp.V2 Ts274

/-! ## Specification -/

/-- The IEs that stand in `b` one behind the other, each with the octet that tells its type. -/
inductive Reads (m : Mode) : Bytes → List (UInt8 × IE) → Prop where
  | nil : Reads m [] []
  | cons {t : UInt8} {b : Bytes} {x : IE} {xs : List (UInt8 × IE)} {n : Nat} : unmKind (decoder m) m (t :: b) (kindOf t) = .ok x →
      x.len m = .ok n → 0 < n → Reads m ((t :: b).drop n) xs → Reads m (t :: b) ((t, x) :: xs)

/-- The buffer begins with a complete message of the type that the crate gives to `k`, with the IEs `l`. -/
def Frames (m : Mode) (k : MsgKind) (b : Bytes) (l : List (UInt8 × IE)) : Prop :=
  ∃ h start, headerSpec b = .ok h ∧ oct b 1 = k.codec.msgtype.toNat ∧ announced b ≤ b.length ∧ k.codec.start = some start ∧
    start ≤ announced b ∧ Reads m ((b.take (announced b)).drop start) l

/-- The type octets of the IE of a row: MM contexts have six types. -/
def Ts274.Row.Type (r : Row) (t : UInt8) : Prop := t = r.type ∨ r.type = 103 ∧ t ∈ [104, 105, 106, 107, 108]

instance (r : Row) (t : UInt8) : Decidable (r.Type t) := by unfold Row.Type; infer_instance

/-- The IE is one of the row. -/
def Ts274.Row.At (r : Row) (p : UInt8 × IE) : Prop := r.Type p.1 ∧ p.2.ins = r.ins

instance (r : Row) (p : UInt8 × IE) : Decidable (r.At p) := by unfold Row.At; infer_instance

/-! ## C84: type codes -/

/-- The message types with a wrong code. -/
def miscoded : List MsgKind := [.DownlinkDataNotification, .PgwRestartNotification, .StopPagingIndication]

/-- C84 (what holds): 80 of the 83 message types have the code of the standard; the other three do not. -/
theorem C84_code_partial (k : MsgKind) : k.codec.msgtype = code k ↔ k ∉ miscoded := by
  have : MsgKind.all.all (fun k => decide (k.codec.msgtype = code k ↔ k ∉ miscoded)) = true := by decide +kernel
  exact of_decide_eq_true (List.all_eq_true.mp this k (MsgKind.mem_all k))

/-- C84 violated: a downlink data notification is sent as a PGW restart notification (179), a PGW restart notification as its own
acknowledgement (180), and a stop paging indication as a resume notification (164). -/
theorem C84_violation : MsgKind.DownlinkDataNotification.codec.msgtype = code .PgwRestartNotification ∧
    MsgKind.PgwRestartNotification.codec.msgtype = code .PgwRestartNotificationAcknowledge ∧
    MsgKind.StopPagingIndication.codec.msgtype = code .ResumeNotification := by decide +kernel

/-- On receipt: a message with the code of the standard is refused. -/
theorem C84_violation_receipt (m : Mode) (k : MsgKind) (hk : k ∈ miscoded) (b : Bytes) (h : Header) (hh : headerSpec b = .ok h)
    (ht : oct b 1 = (code k).toNat) : k.codec.unmarshal m b = .err .messageIncorrectMessageType := by
  refine C17_wrong_type m k b h hh fun he => ?_
  have : k.codec.msgtype = code k := UInt8.toNat_inj.mp (he.symm.trans ht)
  exact (C84_code_partial k).mp this hk

/-- No two message types of the standard have the same code (so that a wrong code is one of a different message, or of none). -/
theorem C84_distinct (k k' : MsgKind) (h : code k = code k') : k = k' := by
  have : MsgKind.all.all (fun k => MsgKind.all.all fun k' => code k != code k' || k == k') = true := by decide +kernel
  have := List.all_eq_true.mp (List.all_eq_true.mp this k (MsgKind.mem_all k)) k' (MsgKind.mem_all k')
  simp only [Bool.or_eq_true, bne_iff_ne, beq_iff_eq] at this
  rcases this with h' | h'
  · exact absurd h h'
  · exact h'

/-! ## IEs with their types -/

theorem Reads.spells {m : Mode} {b : Bytes} {l : List (UInt8 × IE)} (h : Reads m b l) : Spells m b (l.map (·.2)) := by
  induction h with
  | nil => exact .nil
  | cons h1 h2 h3 _ ih => exact .cons h1 h2 h3 ih

theorem Reads.of_spells {m : Mode} {b : Bytes} {els : List IE} (h : Spells m b els) : ∃ l, Reads m b l ∧ l.map (·.2) = els := by
  induction h with
  | nil => exact ⟨_, .nil, rfl⟩
  | @cons t _ x _ _ h1 h2 h3 _ ih =>
    obtain ⟨l, hl, rfl⟩ := ih
    exact ⟨(t, x) :: l, .cons h1 h2 h3 hl, rfl⟩

theorem Reads.kind {m : Mode} {b : Bytes} {l : List (UInt8 × IE)} (h : Reads m b l) : ∀ p ∈ l, p.2.kind = kindOf p.1 := by
  induction h with
  | nil => intro p hp; cases hp
  | @cons t b x _ _ h1 _ _ _ ih =>
    intro p hp
    rcases List.mem_cons.mp hp with rfl | hp
    · have := unmKind_kind (decoder m) m (t :: b) (kindOf t)
      rw [h1] at this
      exact this
    · exact ih p hp

theorem Frames.carries {m : Mode} {k : MsgKind} {b : Bytes} {l : List (UInt8 × IE)} (h : Frames m k b l) :
    (∃ h, Carries m k b h (l.map (·.2))) ∧ ∀ p ∈ l, p.2.kind = kindOf p.1 := by
  obtain ⟨h, start, h1, h2, h3, h4, h5, h6⟩ := h
  exact ⟨⟨h, h1, h2, h3, start, h4, h5, (C79_sequence _ _ _).mpr h6.spells⟩, h6.kind⟩

/-- Whatever is accepted frames some IEs. -/
theorem Frames.of_unmarshal {m : Mode} {k : MsgKind} {b : Bytes} {y : k.T} (hk : k ≠ .VersionNotSupported) (hy : k.codec.unmarshal m b = .ok y) :
    ∃ l, Frames m k b l := by
  obtain ⟨h, els, h1, h2, h3, start, h4, h5, h6⟩ := carries_of_unmarshal hk hy
  obtain ⟨l, hl, -⟩ := Reads.of_spells ((C79_sequence _ _ _).mp h6)
  exact ⟨l, h, start, h1, h2, h3, h4, h5, hl⟩

/-- The types that are decoded as the type of the row are those of the row. -/
def exactType (r : Row) : Bool := (List.range 256).all fun t => (kindOf (UInt8.ofNat t) == kindOf r.type) == decide (r.Type (UInt8.ofNat t))

theorem exactType_iff {r : Row} (h : exactType r = true) (t : UInt8) : kindOf t = kindOf r.type ↔ r.Type t := by
  have := List.all_eq_true.mp h t.toNat (List.mem_range.mpr t.toNat_lt)
  rw [UInt8.ofNat_toNat] at this
  by_cases h1 : kindOf t = kindOf r.type <;> by_cases h2 : r.Type t <;> simp_all

/-! ## C85: mandatory IEs -/

/-- The message types that insist on other IEs. -/
def misjudged : List MsgKind := [.RanInformationRelay, .TraceSessionDeactivation, .IsrStatusIndication, .IdentificationResponse]

/-- The mandatory field is that of the row. -/
def demands (s : Slot) (r : Row) : Bool := s.card.mandatory && r.must && s.kind == kindOf r.type && s.needed == .is r.ins

theorem demands_table : MsgKind.all.all (fun k => decide (k ∈ misjudged) ||
    (k.schema.all fun s => !s.card.mandatory || (rows k).any fun r => demands s r && exactType r) &&
    ((rows k).all fun r => !r.must || k.schema.any fun s => demands s r && exactType r)) = true := by decide +kernel

theorem demands_iff {s : Slot} {r : Row} (h : (demands s r && exactType r) = true) {l : List (UInt8 × IE)} (hk : ∀ p ∈ l, p.2.kind = kindOf p.1) :
    s.card.mandatory = true ∧ r.must = true ∧ (Present s (l.map (·.2)) ↔ ∃ p ∈ l, r.At p) := by
  simp only [demands, Bool.and_eq_true, beq_iff_eq] at h
  obtain ⟨⟨⟨⟨h1, h2⟩, h3⟩, h4⟩, h5⟩ := h
  refine ⟨h1, h2, ?_⟩
  unfold Present Row.At
  rw [h3, h4]
  constructor
  · rintro ⟨e, he, e1, e2⟩
    obtain ⟨p, hp, rfl⟩ := List.mem_map.mp he
    exact ⟨p, hp, (exactType_iff h5 _).mp ((hk p hp).symm.trans e1), by simpa [Ins.mem] using e2⟩
  · rintro ⟨p, hp, e1, e2⟩
    exact ⟨p.2, List.mem_map_of_mem hp, (hk p hp).trans ((exactType_iff h5 _).mpr e1), by simpa [Ins.mem] using e2⟩

/-- C85 (what holds): a message that is complete and can be read is accepted exactly if it has the IEs that the standard calls mandatory. Missing:
the four message types of `misjudged`. -/
theorem C85_mandatory_partial (m : Mode) (k : MsgKind) (hk : k ∉ misjudged) (b : Bytes) (l : List (UInt8 × IE)) (hf : Frames m k b l) :
    (∃ y, k.codec.unmarshal m b = .ok y) ↔ ∀ r ∈ rows k, r.must = true → ∃ p ∈ l, r.At p := by
  obtain ⟨⟨h, hc⟩, hkind⟩ := hf.carries
  have ht := List.all_eq_true.mp demands_table k (MsgKind.mem_all k)
  rw [decide_eq_false hk, Bool.false_or, Bool.and_eq_true] at ht
  have hu : k ∉ MsgKind.unchecked := fun h => hk (by simp only [MsgKind.unchecked, List.mem_singleton] at h; subst h; decide)
  constructor
  · rintro ⟨y, hy⟩ r hr hm
    have := List.all_eq_true.mp ht.2 r hr
    rw [hm, Bool.not_true, Bool.false_or] at this
    obtain ⟨s, hs, hd⟩ := List.any_eq_true.mp this
    obtain ⟨h1, -, h3⟩ := demands_iff hd hkind
    rw [← h3]
    apply Classical.byContradiction
    intro hp
    obtain ⟨t, he⟩ := C16_missing_rejected_partial m k hu b h _ hc s hs h1 hp
    rw [he] at hy
    cases hy
  · intro hr
    obtain ⟨y, hy, -⟩ := C16_present_accepted m k b h _ hc fun s hs hm => by
      have := List.all_eq_true.mp ht.1 s hs
      rw [hm, Bool.not_true, Bool.false_or] at this
      obtain ⟨r, hr', hd⟩ := List.any_eq_true.mp this
      obtain ⟨-, h2, h3⟩ := demands_iff hd hkind
      exact h3.mpr (hr r hr' h2)
    exact ⟨y, hy⟩

theorem accepts_iff {m : Mode} {k : MsgKind} (hu : k ∉ MsgKind.unchecked) {b : Bytes} {l : List (UInt8 × IE)} (hf : Frames m k b l) :
    (∃ y, k.codec.unmarshal m b = .ok y) ↔ ∀ s ∈ k.schema, s.card.mandatory = true → Present s (l.map (·.2)) := by
  obtain ⟨⟨h, hc⟩, -⟩ := hf.carries
  constructor
  · rintro ⟨y, hy⟩ s hs hm
    apply Classical.byContradiction
    intro hp
    obtain ⟨t, he⟩ := C16_missing_rejected_partial m k hu b h _ hc s hs hm hp
    rw [he] at hy
    cases hy
  · intro hp
    obtain ⟨y, hy, -⟩ := C16_present_accepted m k b h _ hc hp
    exact ⟨y, hy⟩

/-- The message types of which the one mandatory field is `s`. -/
theorem accepts_single {m : Mode} {k : MsgKind} (hu : k ∉ MsgKind.unchecked) {b : Bytes} {l : List (UInt8 × IE)} (hf : Frames m k b l)
    (s : Slot) (h1 : (k.schema.filter fun s => s.card.mandatory) = [s]) (h2 : s.needed = .is 0) (ts : List UInt8)
    (ht : ∀ t : UInt8, kindOf t = s.kind ↔ t ∈ ts) :
    (∃ y, k.codec.unmarshal m b = .ok y) ↔ ∃ p ∈ l, p.1 ∈ ts ∧ p.2.ins = 0 := by
  rw [accepts_iff hu hf]
  obtain ⟨-, hkind⟩ := hf.carries
  have h3 : (∀ s ∈ k.schema, s.card.mandatory = true → Present s (l.map (·.2))) ↔ Present s (l.map (·.2)) := by
    constructor
    · intro h
      have : s ∈ k.schema.filter fun s => s.card.mandatory := by rw [h1]; exact List.mem_singleton_self s
      exact h s (List.mem_filter.mp this).1 (List.mem_filter.mp this).2
    · intro h s' hs' hm
      have : s' ∈ k.schema.filter fun s => s.card.mandatory := List.mem_filter.mpr ⟨hs', hm⟩
      rw [h1, List.mem_singleton] at this
      exact this ▸ h
  rw [h3]
  unfold Present
  rw [h2]
  constructor
  · rintro ⟨e, he, e1, e2⟩
    obtain ⟨p, hp, rfl⟩ := List.mem_map.mp he
    exact ⟨p, hp, (ht _).mp ((hkind p hp).symm.trans e1), by simpa [Ins.mem] using e2⟩
  · rintro ⟨p, hp, e1, e2⟩
    exact ⟨p.2, List.mem_map_of_mem hp, (hkind p hp).trans ((ht _).mpr e1), by simpa [Ins.mem] using e2⟩

theorem kindOf_iff {k : Kind} {ts : List UInt8}
    (h : ((List.range 256).all fun t => decide (kindOf (UInt8.ofNat t) = k ↔ UInt8.ofNat t ∈ ts)) = true) (t : UInt8) : kindOf t = k ↔ t ∈ ts := by
  have := List.all_eq_true.mp h t.toNat (List.mem_range.mpr t.toNat_lt)
  rw [UInt8.ofNat_toNat] at this
  exact of_decide_eq_true this

/-- C85 violated: a RAN Information Relay needs an F-Cause (119), which is no IE of it, and not the BSS Container (F-Container, 118). -/
theorem C85_violation_relay (m : Mode) (b : Bytes) (l : List (UInt8 × IE)) (hf : Frames m .RanInformationRelay b l) :
    rows .RanInformationRelay = [M 118 0, C 121 0, Cs 255 0] ∧
    ((∃ y, MsgKind.RanInformationRelay.codec.unmarshal m b = .ok y) ↔ ∃ p ∈ l, p.1 ∈ [119] ∧ p.2.ins = 0) :=
  ⟨rfl, accepts_single (by decide +kernel) hf ⟨.Fcause, .is 0, .one⟩ (by decide +kernel) rfl [119] (kindOf_iff (by decide +kernel))⟩

/-- C85 violated: a Trace Session Deactivation needs a Trace Information (96) and not the Trace Reference (115). -/
theorem C85_violation_trace (m : Mode) (b : Bytes) (l : List (UInt8 × IE)) (hf : Frames m .TraceSessionDeactivation b l) :
    rows .TraceSessionDeactivation = [M 115 0] ∧
    ((∃ y, MsgKind.TraceSessionDeactivation.codec.unmarshal m b = .ok y) ↔ ∃ p ∈ l, p.1 ∈ [96] ∧ p.2.ins = 0) :=
  ⟨rfl, accepts_single (by decide +kernel) hf ⟨.TraceInformation, .is 0, .one⟩ (by decide +kernel) rfl [96] (kindOf_iff (by decide +kernel))⟩

/-- C85 violated: an ISR Status Indication is content with a TWAN Identifier (169) in place of the Action Indication (168). -/
theorem C85_violation_isr (m : Mode) (b : Bytes) (l : List (UInt8 × IE)) (hf : Frames m .IsrStatusIndication b l) :
    rows .IsrStatusIndication = [M 168 0, Cs 255 0] ∧
    ((∃ y, MsgKind.IsrStatusIndication.codec.unmarshal m b = .ok y) ↔ ∃ p ∈ l, p.1 ∈ [168, 169] ∧ p.2.ins = 0) :=
  ⟨rfl, accepts_single (by decide +kernel) hf ⟨.ActionIndication, .is 0, .oneLast⟩ (by decide +kernel) rfl [168, 169] (kindOf_iff (by decide +kernel))⟩

/-- C85 violated: an Identification Response needs no Cause. -/
theorem C85_violation_identification (m : Mode) (b : Bytes) (l : List (UInt8 × IE)) (hf : Frames m .IdentificationResponse b l) :
    M 2 0 ∈ rows .IdentificationResponse ∧ ∃ y, MsgKind.IdentificationResponse.codec.unmarshal m b = .ok y := by
  refine ⟨by decide +kernel, ?_⟩
  obtain ⟨⟨h, hc⟩, -⟩ := hf.carries
  obtain ⟨x, m0, hs, -⟩ := Msg.IdentificationResponse.flags h (l.map (·.2))
  refine ⟨x, hc.unmarshal.trans ?_⟩
  show Msg.IdentificationResponse.fromvec { Msg.IdentificationResponse.dflt with header := h } _ = .ok x
  rw [Msg.IdentificationResponse.fromvec, hs]
  rfl

/-! ## C86: which IEs are kept -/

/-- The rows of the standard for which a message has no field. -/
def nowhere : List (MsgKind × Row) :=
  [(.CreateSessionResponse, Cs 93 1), (.RanInformationRelay, M 118 0), (.TraceSessionDeactivation, M 115 0),
   (.CreateSessionRequest, C 169 0), (.CreateSessionRequest, C 169 1), (.CreateBearerResponse, C 169 0), (.CreateBearerResponse, C 169 1),
   (.UpdateBearerResponse, C 169 0), (.UpdateBearerResponse, C 169 1), (.DeleteBearerResponse, C 169 0), (.DeleteBearerResponse, C 169 1),
   (.DeleteSessionRequest, C 169 0), (.DeleteSessionRequest, C 169 1), (.ModifyBearerRequest, C 169 0)]

/-- The rows of the standard with several IEs for which a message has room for one. -/
def onlyOne : List (MsgKind × Row) :=
  [(.DeleteBearerRequest, Cs 73 1), (.DownlinkDataNotification, Cs 73 0),
   (.CreateSessionRequest, Cs 178 0), (.ModifyBearerRequest, Cs 178 0), (.CreateBearerResponse, Cs 178 0), (.UpdateBearerResponse, Cs 178 0),
   (.ChangeNotificationRequest, Cs 178 0), (.CreateSessionResponse, Cs 177 0), (.ModifyBearerResponse, Cs 177 0),
   (.CreateBearerRequest, Cs 177 0), (.UpdateBearerRequest, Cs 177 0), (.ChangeNotificationResponse, Cs 177 0)]

/-- An action indication and a TWAN identifier are the same to the decoder. -/
def confused : List (MsgKind × Row) := [(.IsrStatusIndication, M 168 0)]

/-- A field that keeps all IEs that arrive for it. -/
def keepsAll (s : Slot) : Bool :=
  match s.card with
  | .many | .many1 _ => true
  | _ => false

/-- The IEs of the row have their place in the field. -/
def houses (s : Slot) (r : Row) : Bool :=
  s.kind == kindOf r.type && s.ins.mem r.ins && (keepsAll s || !r.several && s.ins == .is r.ins)

theorem houses_table : MsgKind.all.all (fun k => (rows k).all fun r =>
    decide ((k, r) ∈ nowhere ++ onlyOne ++ confused) || exactType r && k.schema.any fun s => houses s r) = true := by decide +kernel

/-- An IE that arrives for a field brings the field its value. -/
theorem field_of_arriving {m : Mode} {k : MsgKind} {b : Bytes} {h : Header} {els : List IE} {y : k.T} (hc : Carries m k b h els)
    (hy : k.codec.unmarshal m b = .ok y) {s : Slot} (hs : s ∈ k.schema) {e : IE} (he : e ∈ arriving s els) : holding els s ∈ k.fields y := by
  by_cases hu : k ∈ MsgKind.unchecked
  · simp only [MsgKind.unchecked, List.mem_singleton] at hu
    subst hu
    obtain ⟨h', els', -, -, -, -, h6, -, h8⟩ := (C79_identification m b y).mp hy
    have : els' = els := by
      obtain ⟨-, -, -, start, hst, -, hd⟩ := hc
      cases hst
      exact h6.unique ((C79_sequence _ _ _).mp hd)
    subst this
    show holding els' s ∈ y.fields
    rw [h8]
    have hs' : s ∈ Msg.IdentificationResponse.schema := hs
    rw [show Msg.IdentificationResponse.schema = ⟨.Cause, .is 0, .one⟩ :: Msg.IdentificationResponse.schema.tail from rfl] at hs'
    rcases List.mem_cons.mp hs' with rfl | hs'
    · rw [if_neg]
      · exact List.mem_cons_self
      · intro hn
        rw [List.isEmpty_iff] at hn
        rw [hn] at he
        cases he
    · exact List.mem_cons_of_mem _ (List.mem_map_of_mem hs')
  · rw [(hc.fields (.inl hu) hy).1]
    exact List.mem_map_of_mem hs

/-- C86 (what holds): an IE of a row is in the result, all of them if the standard allows several, and otherwise the one if there is only one.
Missing: the rows of `nowhere`, `onlyOne` and `confused`. -/
theorem C86_kept_partial (m : Mode) (k : MsgKind) (b : Bytes) (l : List (UInt8 × IE)) (hf : Frames m k b l) (y : k.T)
    (hy : k.codec.unmarshal m b = .ok y) (r : Row) (hr : r ∈ rows k) (hx : (k, r) ∉ nowhere ++ onlyOne ++ confused)
    (p : UInt8 × IE) (hp : p ∈ l) (ha : r.At p) (h1 : r.several = true ∨ ∀ q ∈ l, r.At q → q = p) : p.2 ∈ k.codec.tovec y := by
  obtain ⟨⟨h, hc⟩, hkind⟩ := hf.carries
  have ht := List.all_eq_true.mp (List.all_eq_true.mp houses_table k (MsgKind.mem_all k)) r hr
  rw [decide_eq_false hx, Bool.false_or, Bool.and_eq_true] at ht
  obtain ⟨s, hs, hh⟩ := List.any_eq_true.mp ht.2
  simp only [houses, Bool.and_eq_true, beq_iff_eq, Bool.or_eq_true, Bool.not_eq_true'] at hh
  obtain ⟨⟨hsk, hsi⟩, hsc⟩ := hh
  have harr : p.2 ∈ arriving s (l.map (·.2)) := by
    refine List.mem_filter.mpr ⟨List.mem_map_of_mem hp, ?_⟩
    rw [Bool.and_eq_true, beq_iff_eq, hsk, hkind p hp, ha.2]
    exact ⟨((exactType_iff ht.1 _).mpr ha.1).symm, hsi⟩
  rw [k.describes.tovec]
  refine List.mem_flatten.mpr ⟨_, field_of_arriving hc hy hs harr, ?_⟩
  by_cases hka : keepsAll s = true
  · unfold keepsAll at hka
    unfold holding
    split at hka
    · next e => rw [e]; exact harr
    · next e => rw [e]; exact harr
    · cases hka
  · obtain ⟨h2, h3⟩ := hsc.resolve_left hka
    have hall : ∀ e ∈ arriving s (l.map (·.2)), e = p.2 := by
      intro e he
      obtain ⟨he, hc⟩ := List.mem_filter.mp he
      obtain ⟨q, hq, rfl⟩ := List.mem_map.mp he
      rw [Bool.and_eq_true, beq_iff_eq, hsk, h3, hkind q hq] at hc
      rw [h1.resolve_left (by simp [h2]) q hq ⟨(exactType_iff ht.1 _).mp hc.1.symm, by simpa [Ins.mem] using hc.2⟩]
    generalize harr' : arriving s (l.map (·.2)) = w at harr hall
    have htake : p.2 ∈ w.take 1 := by
      cases w with
      | nil => cases harr
      | cons a w => rw [← hall a List.mem_cons_self]; simp
    have hlast : p.2 ∈ w.getLast?.toList := by
      cases hl : w.getLast? with
      | none => rw [List.getLast?_eq_none_iff.mp hl] at harr; cases harr
      | some a => rw [← hall a (List.mem_of_getLast? hl)]; simp
    unfold holding
    rw [harr']
    cases s.card <;> first | exact htake | exact hlast | exact harr

/-- What is in the result has arrived for one of its fields. -/
theorem tovec_slot {m : Mode} {k : MsgKind} {b : Bytes} {h : Header} {els : List IE} {y : k.T} (hu : k ∉ MsgKind.unchecked) (hc : Carries m k b h els)
    (hy : k.codec.unmarshal m b = .ok y) {e : IE} (he : e ∈ k.codec.tovec y) :
    ∃ s ∈ k.schema, e ∈ holding els s ∧ s.kind = e.kind ∧ s.ins.mem e.ins = true := by
  rw [k.describes.tovec, (hc.fields (.inl hu) hy).1] at he
  obtain ⟨w, hw, he⟩ := List.mem_flatten.mp he
  obtain ⟨s, hs, rfl⟩ := List.mem_map.mp hw
  rw [select_eq_holding] at he
  have : e ∈ arriving s els := by
    unfold holding at he
    split at he
    · exact List.mem_of_mem_take he
    · exact List.mem_of_mem_take he
    · exact List.mem_of_mem_take he
    · exact List.mem_of_getLast? (Option.mem_toList.mp he)
    · exact List.mem_of_getLast? (Option.mem_toList.mp he)
    · exact he
    · exact he
  have := (List.mem_filter.mp this).2
  rw [Bool.and_eq_true, beq_iff_eq] at this
  exact ⟨s, hs, he, this⟩

theorem nowhere_table : nowhere.all (fun (k, r) => decide (k ∉ MsgKind.unchecked) && decide (r ∈ rows k) &&
    k.schema.all fun s => !(s.kind == kindOf r.type && s.ins.mem r.ins)) = true := by decide +kernel

theorem mem_unique_type {r : Row} (h : r.type ≠ 103) {t : UInt8} (ht : r.Type t) : t = r.type :=
  ht.elim id fun h' => absurd h'.1 h

/-- C86 violated: IEs of the rows in `nowhere` are in no result, whatever message they arrive in. -/
theorem C86_violation_nowhere (m : Mode) (k : MsgKind) (r : Row) (hx : (k, r) ∈ nowhere) (b : Bytes) (l : List (UInt8 × IE)) (hf : Frames m k b l)
    (y : k.T) (hy : k.codec.unmarshal m b = .ok y) (p : UInt8 × IE) (hp : p ∈ l) (ha : r.At p) : p.2 ∉ k.codec.tovec y := by
  intro he
  obtain ⟨⟨h, hc⟩, hkind⟩ := hf.carries
  have ht := List.all_eq_true.mp nowhere_table _ hx
  simp only [Bool.and_eq_true, decide_eq_true_eq] at ht
  obtain ⟨⟨hu, -⟩, ht⟩ := ht
  have h103 : r.type ≠ 103 := by
    have : nowhere.all (fun x => x.2.type != 103) = true := by decide +kernel
    simpa using List.all_eq_true.mp this _ hx
  obtain ⟨s, hs, -, h1, h2⟩ := tovec_slot hu hc hy he
  have := List.all_eq_true.mp ht s hs
  rw [h1, hkind p hp, mem_unique_type h103 ha.1, ← ha.2, h2] at this
  simp at this

theorem onlyOne_table : onlyOne.all (fun (k, r) => decide (k ∉ MsgKind.unchecked) && decide (r ∈ rows k) && r.several &&
    k.schema.all fun s => !(s.kind == kindOf r.type && s.ins.mem r.ins) || s == ⟨kindOf r.type, .is r.ins, .opt⟩) = true := by decide +kernel

/-- C86 violated: of two different IEs of a row in `onlyOne` the result does not have both, although the standard allows several. -/
theorem C86_violation_one (m : Mode) (k : MsgKind) (r : Row) (hx : (k, r) ∈ onlyOne) (b : Bytes) (l : List (UInt8 × IE)) (hf : Frames m k b l)
    (y : k.T) (hy : k.codec.unmarshal m b = .ok y) (p q : UInt8 × IE) (hp : p ∈ l) (hq : q ∈ l) (hpa : r.At p) (hqa : r.At q) (hne : p.2 ≠ q.2) :
    r.several = true ∧ ¬ (p.2 ∈ k.codec.tovec y ∧ q.2 ∈ k.codec.tovec y) := by
  obtain ⟨⟨h, hc⟩, hkind⟩ := hf.carries
  have ht := List.all_eq_true.mp onlyOne_table _ hx
  simp only [Bool.and_eq_true, decide_eq_true_eq] at ht
  obtain ⟨⟨⟨hu, -⟩, hsev⟩, ht⟩ := ht
  have h103 : r.type ≠ 103 := by
    have : onlyOne.all (fun x => x.2.type != 103) = true := by decide +kernel
    simpa using List.all_eq_true.mp this _ hx
  have key : ∀ p ∈ l, r.At p → p.2 ∈ k.codec.tovec y → p.2 ∈ (arriving ⟨kindOf r.type, .is r.ins, .opt⟩ (l.map (·.2))).take 1 := by
    intro p hp hpa he
    obtain ⟨s, hs, h0, h1, h2⟩ := tovec_slot hu hc hy he
    have := List.all_eq_true.mp ht s hs
    rw [h1, hkind p hp, mem_unique_type h103 hpa.1, ← hpa.2, h2] at this
    simp only [beq_self_eq_true, Bool.and_self, Bool.not_true, Bool.false_or, beq_iff_eq] at this
    rw [this] at h0
    rw [← hpa.2]
    exact h0
  refine ⟨hsev, fun ⟨e1, e2⟩ => hne ?_⟩
  have h1 := key p hp hpa e1
  have h2 := key q hq hqa e2
  generalize arriving _ _ = w at h1 h2
  cases w with
  | nil => cases h1
  | cons a w =>
    simp only [List.take_succ_cons, List.take_zero, List.mem_singleton] at h1 h2
    rw [h1, h2]

/-! ## Concrete messages -/

/-- A Create Session Response with a bearer context created and one marked for removal. -/
def exResponse : Bytes := wire 33 [2, 0, 2, 0, 16, 0, 93, 0, 5, 0, 73, 0, 1, 0, 5, 93, 0, 5, 1, 73, 0, 1, 0, 6]

/-- A Delete Bearer Request for two bearers. -/
def exDelete : Bytes := wire 99 [73, 0, 1, 1, 5, 73, 0, 1, 1, 6]

def exBearerCtx (ins ebi : UInt8) : IE :=
  .BearerContext ⟨93, 5, ins, ⟨73, 1, 0, ebi⟩, none, none, [], none, none, none, none, none, none, none, none, none, none⟩

theorem exDelete_frames : Frames .debug .DeleteBearerRequest exDelete [(73, .Ebi ⟨73, 1, 1, 5⟩), (73, .Ebi ⟨73, 1, 1, 6⟩)] :=
  ⟨⟨99, false, none, 18, some 0, 1⟩, 12, by decide +kernel, by decide +kernel, by decide +kernel, by decide +kernel, by decide +kernel,
    .cons (n := 5) (by decide +kernel) (by decide +kernel) (by decide +kernel)
      (.cons (n := 5) (by decide +kernel) (by decide +kernel) (by decide +kernel) .nil)⟩

/-- C86 violated, an example: the second bearer of a Delete Bearer Request is lost. -/
theorem C86_violation_delete : ∃ y, MsgKind.DeleteBearerRequest.codec.unmarshal .debug exDelete = .ok y ∧
    MsgKind.DeleteBearerRequest.codec.tovec y = [.Ebi ⟨73, 1, 1, 5⟩] := by
  have h : Msg.DeleteBearerRequest.codec.unmarshal .debug exDelete =
    .ok ⟨⟨99, false, none, 18, some 0, 1⟩, none, some ⟨73, 1, 1, 5⟩, [], none, none, none, none, none, none, [], [], none, none, none, [], none, []⟩ := by
    decide +kernel
  exact ⟨_, h, rfl⟩

example (y : Msg.DeleteBearerRequest) (hy : MsgKind.DeleteBearerRequest.codec.unmarshal .debug exDelete = .ok y) :
    ¬ (IE.Ebi ⟨73, 1, 1, 5⟩ ∈ MsgKind.DeleteBearerRequest.codec.tovec y ∧ IE.Ebi ⟨73, 1, 1, 6⟩ ∈ MsgKind.DeleteBearerRequest.codec.tovec y) :=
  (C86_violation_one _ _ _ (by decide +kernel : (MsgKind.DeleteBearerRequest, Cs 73 1) ∈ onlyOne) _ _ exDelete_frames y hy (73, .Ebi ⟨73, 1, 1, 5⟩)
    (73, .Ebi ⟨73, 1, 1, 6⟩) (by simp) (by simp) (by decide +kernel) (by decide +kernel) (by decide +kernel)).2

theorem exResponse_frames : Frames .debug .CreateSessionResponse exResponse
    [(2, .Cause ⟨2, 2, 0, 16, false, false, false, none⟩), (93, exBearerCtx 0 5), (93, exBearerCtx 1 6)] :=
  ⟨⟨33, false, none, 32, some 0, 1⟩, 12, by decide +kernel, by decide +kernel, by decide +kernel, by decide +kernel, by decide +kernel,
    .cons (n := 6) (by decide +kernel) (by decide +kernel) (by decide +kernel)
      (.cons (n := 9) (by decide +kernel) (by decide +kernel) (by decide +kernel)
        (.cons (n := 9) (by decide +kernel) (by decide +kernel) (by decide +kernel) .nil))⟩

/-- The bearer context to be created is kept, the one to be removed is not; and the response is accepted because it has its mandatory IEs. -/
example : ∃ y, MsgKind.CreateSessionResponse.codec.unmarshal .debug exResponse = .ok y ∧
    exBearerCtx 0 5 ∈ MsgKind.CreateSessionResponse.codec.tovec y ∧ exBearerCtx 1 6 ∉ MsgKind.CreateSessionResponse.codec.tovec y := by
  obtain ⟨y, hy⟩ := (C85_mandatory_partial .debug .CreateSessionResponse (by decide +kernel) exResponse _ exResponse_frames).mpr (by decide +kernel)
  exact ⟨y, hy,
    C86_kept_partial _ _ _ _ exResponse_frames y hy (Ms 93 0) (by decide +kernel) (by decide +kernel) (93, exBearerCtx 0 5) (by simp) (by decide +kernel)
      (.inl rfl),
    C86_violation_nowhere _ _ (Cs 93 1) (by decide +kernel) _ _ exResponse_frames y hy (93, exBearerCtx 1 6) (by simp) (by decide +kernel)⟩

/-- A RAN Information Relay with a BSS container, refused. -/
example : Frames .debug .RanInformationRelay (wire 152 [118, 0, 3, 0, 2, 1, 2]) [(118, .Fcontainer ⟨118, 3, 0, .Bss [1, 2]⟩)] ∧
    ¬ ∃ y, MsgKind.RanInformationRelay.codec.unmarshal .debug (wire 152 [118, 0, 3, 0, 2, 1, 2]) = .ok y := by
  have h : Frames .debug .RanInformationRelay (wire 152 [118, 0, 3, 0, 2, 1, 2]) [(118, .Fcontainer ⟨118, 3, 0, .Bss [1, 2]⟩)] :=
    ⟨⟨152, false, none, 15, some 0, 1⟩, 12, by decide +kernel, by decide +kernel, by decide +kernel, by decide +kernel, by decide +kernel,
      .cons (n := 7) (by decide +kernel) (by decide +kernel) (by decide +kernel) .nil⟩
  refine ⟨h, fun he => ?_⟩
  obtain ⟨p, hp, h1, -⟩ := (C85_violation_relay _ _ _ h).2.mp he
  rw [List.mem_singleton] at hp
  subst hp
  revert h1
  decide

/-- A Trace Session Deactivation with its trace reference, refused. -/
example : ¬ ∃ y, MsgKind.TraceSessionDeactivation.codec.unmarshal .debug (wire 72 [115, 0, 6, 0, 0x62, 0xf1, 0x10, 0, 0, 1]) = .ok y := by
  have h : Msg.TraceSessionDeactivation.codec.unmarshal .debug (wire 72 [115, 0, 6, 0, 0x62, 0xf1, 0x10, 0, 0, 1]) =
    .err (.messageMandatoryIEMissing 96) := by decide +kernel
  rintro ⟨y, hy⟩
  cases h.symm.trans hy

/-- An ISR Status Indication with a TWAN identifier, accepted. -/
example : Frames .debug .IsrStatusIndication (wire 157 [169, 0, 1, 0, 1]) [(169, .ActionIndication ⟨168, 1, 0, .DeactivationIndication⟩)] ∧
    ∃ y, MsgKind.IsrStatusIndication.codec.unmarshal .debug (wire 157 [169, 0, 1, 0, 1]) = .ok y := by
  have h : Frames .debug .IsrStatusIndication (wire 157 [169, 0, 1, 0, 1]) [(169, .ActionIndication ⟨168, 1, 0, .DeactivationIndication⟩)] :=
    ⟨⟨157, false, none, 13, some 0, 1⟩, 12, by decide +kernel, by decide +kernel, by decide +kernel, by decide +kernel, by decide +kernel,
      .cons (n := 5) (by decide +kernel) (by decide +kernel) (by decide +kernel) .nil⟩
  exact ⟨h, (C85_violation_isr _ _ _ h).2.mpr ⟨_, List.mem_singleton_self _, by decide +kernel, by decide +kernel⟩⟩

/-- A Stop Paging Indication with the code of the standard, refused. -/
example (m : Mode) : MsgKind.StopPagingIndication.codec.unmarshal m (wire 73 []) = .err .messageIncorrectMessageType :=
  C84_violation_receipt m .StopPagingIndication (by decide) _ ⟨73, false, none, 8, some 0, 1⟩ (by decide +kernel) (by decide +kernel)

end Gtp.Props
