import Verif.V2.Msg.Lemmas
import Verif.Props.Header
import Verif.Props.Ie

/-!
# Properties C14 to C23, C38 (GTPv2-C messages)

`k : MsgKind` ranges over the 83 message types, `k.T` is the Rust struct, `k.codec.marshal x` are the octets that
`x.marshal(&mut buffer)` leaves in an empty buffer, `k.codec.unmarshal m b` is `X::unmarshal(b)`. `k.schema` lists for every field
the kind and the instances of the IEs it takes and how many of them it holds; `k.fields x` are the contents of the fields.
-/

namespace Gtp.Props
open Gtp.V2

/-- The number of octets a message has according to its header. -/
def announced (b : Bytes) : Nat := oct b 2 * 256 + oct b 3 + 4

theorem header_length {b : Bytes} {h : Header} (hh : Header.unmarshal b = .ok h) : h.length.toNat + 4 = announced b := by
  rw [C02_header_total_precise] at hh
  have e : (UInt16.ofNat (oct b 2 * 256 + oct b 3)).toNat = oct b 2 * 256 + oct b 3 := by
    have h2 : oct b 2 < 256 := UInt8.toNat_lt _
    have h3 : oct b 3 < 256 := UInt8.toNat_lt _
    rw [UInt16.toNat_ofNat']
    omega
  unfold headerSpec at hh
  simp only at hh
  repeat' split at hh
  all_goals first | (cases hh; done) | skip
  all_goals
    have := (R.ok.inj hh).symm
    subst this
    simp only [e, announced]

theorem header_type {b : Bytes} {h : Header} (hh : Header.unmarshal b = .ok h) : h.msgtype.toNat = oct b 1 ∧ 8 ≤ b.length ∧
    (h.teid.isSome = true ↔ oct b 0 / 8 % 2 = 1) ∧ (h.teid.isSome = true → 12 ≤ b.length ∧ 12 ≤ announced b) ∧ 8 ≤ announced b := by
  rw [C02_header_total_precise] at hh
  have e : (UInt8.ofNat (oct b 1)).toNat = oct b 1 := by
    have h2 : oct b 1 < 256 := UInt8.toNat_lt _
    rw [UInt8.toNat_ofNat']
    omega
  unfold headerSpec at hh
  simp only at hh
  repeat' split at hh
  all_goals first | (cases hh; done) | skip
  all_goals
    have := (R.ok.inj hh).symm
    subst this
    simp only [e, announced, Option.isSome_none, Option.isSome_some, Bool.false_eq_true, false_implies, true_implies, true_iff, false_iff,
      true_and]
    omega

/-! ## C14: round trip -/

/-- A message that fits the wire format: the type code of the message, a TEID iff the message type has one, every field holds IEs with
an instance of the field, mandatory lists are not empty, every IE is well-formed, and the whole fits the 16-bit length. -/
structure MessageWF (k : MsgKind) (x : k.T) : Prop where
  msgtype : (k.codec.header x).msgtype = k.codec.msgtype
  sqn : (k.codec.header x).sqn.toNat < 2 ^ 24
  prio : ∀ p, (k.codec.header x).prio = some p → p.toNat < 16 ∧ (k.codec.header x).teid ≠ none
  teid : ∀ s, k.codec.start = some s → s = if (k.codec.header x).teid.isSome then 12 else 8
  fits : Fits k.schema (k.fields x)
  ies : ∀ c ∈ k.fields x, ∀ e ∈ c, e.WF
  size : (k.codec.marshal x).length ≤ 65539

/-- One message type has no body. -/
theorem start_none : ∀ k : MsgKind, k.codec.start = none → k = .VersionNotSupported := by
  have : MsgKind.all.all (fun k => k.codec.start != none || k == .VersionNotSupported) = true := by decide +kernel
  intro k h
  have := List.all_eq_true.mp this k (MsgKind.mem_all k)
  rw [h] at this
  simpa using this

theorem ofNat16_toNat {n : Nat} (h : n < 65536) : (UInt16.ofNat n).toNat = n := by rw [UInt16.toNat_ofNat']; omega

/-- C14 (partial): decoding an encoded message gives it back; only the length field of the header is set to the actual length. Missing:
the values excluded by the well-formedness conditions of single IEs (see C06), and lists of bearer contexts in a Modify Bearer Command
(see `C14_violation`). -/
theorem C14_message_roundtrip_partial (m : Mode) (k : MsgKind) (x : k.T) (wf : MessageWF k x) :
    k.codec.unmarshal m (k.codec.marshal x) = .ok (k.codec.setHeader x
      { k.codec.header x with length := UInt16.ofNat ((k.codec.marshal x).length - 4) }) := by
  have hd := k.describes
  have hraw : (k.codec.raw x).length = (k.codec.header x).marshal.length + (IE.encoder (k.codec.tovec x)).length := by simp [Codec.raw]
  have hsz := wf.size
  rw [Codec.marshal_length] at hsz ⊢
  have hml := Header.marshal_length (k.codec.header x)
  have he := k.codec.marshal_eq x
  generalize hh' : ({ k.codec.header x with length := UInt16.ofNat ((k.codec.raw x).length - 4) } : Header) = h' at he ⊢
  have hlen : h'.length.toNat = (k.codec.raw x).length - 4 := by
    rw [← hh']
    exact ofNat16_toNat (by omega)
  have h8 : 8 ≤ (k.codec.header x).marshal.length := by rw [hml]; split <;> omega
  have hteid : h'.teid = (k.codec.header x).teid := by rw [← hh']
  have hwf : HeaderWF h' := by
    refine ⟨?_, ?_, ?_, ?_⟩
    · rw [← hh']; exact wf.sqn
    · rw [← hh']; exact wf.prio
    · intro _; omega
    · intro ht
      rw [hteid] at ht
      have : (k.codec.header x).teid.isSome = true := by
        cases hq : (k.codec.header x).teid with
        | none => exact absurd hq ht
        | some _ => rfl
      rw [this] at hml
      simp only [if_true] at hml
      omega
  have hu := C01_header_roundtrip h' hwf (IE.encoder (k.codec.tovec x))
  have hml' : h'.marshal.length = (k.codec.header x).marshal.length := by
    rw [Header.marshal_length, Header.marshal_length, hteid]
  rw [he, Codec.unmarshal_eq _ _ _ hu]
  have ht : h'.msgtype = k.codec.msgtype := by rw [← hh']; exact wf.msgtype
  rw [if_neg (by simp [ht])]
  have hwfs : ∀ e ∈ k.codec.tovec x, e.WF := by
    intro e hq
    rw [hd.tovec, List.mem_flatten] at hq
    obtain ⟨c, hc, hq⟩ := hq
    exact wf.ies c hc e hq
  cases hs : k.codec.start with
  | none =>
    simp only
    congr 1
    have hk := start_none k hs
    subst hk
    rfl
  | some start =>
    simp only
    have hst := wf.teid start hs
    have hst' : h'.marshal.length = start := by rw [hml', hml, ← hst]
    have htot : (h'.marshal ++ IE.encoder (k.codec.tovec x)).length = h'.length.toNat + 4 := by
      rw [List.length_append, hml', hlen, hraw]
      omega
    rw [if_neg (by omega), if_neg (by rw [← htot, List.length_append]; omega), ← htot, List.take_of_length_le (Nat.le_refl _), ← hst',
      List.drop_left, decoder_encoder hwfs]
    show k.codec.fromvec _ _ = _
    have htv := hd.tovec x
    obtain ⟨y, hy, hyh, hyf⟩ := hd.complete h' (k.codec.tovec x) (fun e hq => (hwfs e hq).typeOk)
      (Fits.missing wf.fits (by intro e hq; rw [htv]; exact hq))
    rw [hy]
    congr 1
    refine hd.ext _ _ (by rw [hyh, hd.header_set]) ?_
    rw [hyf, hd.fields_set, htv, Fits.select wf.fits k.schema_disjoint]

/-- C14 (partial): if the length field is right to begin with, nothing changes. -/
theorem C14_message_roundtrip_exact_partial (m : Mode) (k : MsgKind) (x : k.T) (wf : MessageWF k x)
    (hl : (k.codec.header x).length.toNat = (k.codec.marshal x).length - 4) : k.codec.unmarshal m (k.codec.marshal x) = .ok x := by
  rw [C14_message_roundtrip_partial m k x wf]
  congr 1
  have hd := k.describes
  refine hd.ext _ _ ?_ (hd.fields_set _ _)
  rw [hd.header_set]
  rw [← hl, UInt16.ofNat_toNat]

/-- An echo request with recovery counter, node features and a private extension. -/
def exEcho : Msg.EchoRequest :=
  { header := ⟨1, false, none, 9, none, 0x123456⟩, recovery := ⟨3, 1, 0, 42⟩, sending_node_features := some ⟨152, 1, 0, true, false, true, false, false, true, false, false⟩,
    private_ext := [⟨255, 5, 0, 10, [1, 2, 3]⟩] }

/-- A create session request with the mandatory IEs, IMSI and three bearer contexts. -/
def exCreateSession : Msg.CreateSessionRequest :=
  { Msg.CreateSessionRequest.dflt with
    header := ⟨32, false, some 3, 0, some 0, 0xabcdef⟩, imsi := some ⟨1, 8, 0, "310260123456789".toList⟩, rattype := ⟨82, 1, 0, .Eutran⟩,
    fteid_control := ⟨87, 9, 0, 10, 0x01020304, some 0x0a000001, none⟩, pgw_addr_control := some ⟨87, 9, 1, 7, 0, some 0x0a000003, none⟩,
    apn := ⟨71, 9, 0, "internet".toList⟩, bearer_ctxs := [exB 0 5, exB 0 6, exB 1 7] }
where
  exB (ins ebi : UInt8) : BearerContext :=
    { t := 93, length := 18, ins := ins, ebi := ⟨73, 1, 0, ebi⟩, cause := none, tft := none,
      fteids := [⟨87, 9, 0, 1, 0x01020304, some 0x0a000001, none⟩],
      bearer_qos := none, charging_id := none, bearer_flags := none, pco := none, apco := none, epco := none,
      max_packet_loss := none, ran_nas_cause := none, bss_container := none, transaction_id := none }

def decFits : (sch : Schema) → (cs : List (List IE)) → Decidable (Fits sch cs)
  | [], [] => .isTrue trivial
  | s :: sch, c :: cs => by
    unfold Fits
    have := decFits sch cs
    cases s.card
    · exact decidable_of_iff (((∀ e ∈ c, s.accepts e = true) ∧ c.length = 1) ∧ Fits sch cs) (by simp [List.length_eq_one_iff])
    · exact decidable_of_iff (((∀ e ∈ c, s.accepts e = true) ∧ c.length = 1) ∧ Fits sch cs) (by simp [List.length_eq_one_iff])
    all_goals simp only; infer_instance
  | [], _ :: _ => .isFalse id
  | _ :: _, [] => .isFalse id

instance (sch : Schema) (cs : List (List IE)) : Decidable (Fits sch cs) := decFits sch cs

set_option maxRecDepth 20000 in
example : MessageWF .EchoRequest exEcho where
  msgtype := rfl
  sqn := by decide
  prio := by intro p h; cases h
  teid := by intro s h; cases h; rfl
  fits := by decide +kernel
  ies := by decide +kernel
  size := by decide +kernel

set_option maxRecDepth 20000 in
example : MessageWF .CreateSessionRequest exCreateSession where
  msgtype := rfl
  sqn := by decide
  prio := by intro p h; cases h; exact ⟨by decide, by intro h; cases h⟩
  teid := by intro s h; cases h; rfl
  fits := by decide +kernel
  ies := by decide +kernel
  size := by decide +kernel

/-- A modify bearer command with two bearer contexts. -/
def exModifyBearer : Msg.ModifyBearerCommand :=
  { header := ⟨64, false, none, 76, some 1, 7⟩, apnambr := ⟨72, 8, 0, 1000, 2000⟩,
    bearer_ctxs := [exCreateSession.exB 0 5, exCreateSession.exB 0 6], overload_info := [], fteid_control := none, private_ext := [] }

set_option maxRecDepth 20000 in
/-- The second bearer context of a modify bearer command is written but not read (modifybearercommand.rs:109-113). -/
theorem C14_violation (m : Mode) : (∀ e ∈ Msg.ModifyBearerCommand.tovec exModifyBearer, e.WF) ∧
    ∃ y, Msg.ModifyBearerCommand.codec.unmarshal m (Msg.ModifyBearerCommand.codec.marshal exModifyBearer) = .ok y ∧
      y.bearer_ctxs = [exCreateSession.exB 0 5] := by
  refine ⟨by decide +kernel, { exModifyBearer with header := ⟨64, false, none, 64, some 1, 7⟩, bearer_ctxs := [exCreateSession.exB 0 5] }, ?_, rfl⟩
  cases m <;> decide +kernel

/-! ## C15: the length field -/

/-- C15: the length field of every encoded message is the number of octets minus four. -/
theorem C15_message_length (k : MsgKind) (x : k.T) (h : (k.codec.marshal x).length ≤ 65539) :
    announced (k.codec.marshal x) = (k.codec.marshal x).length := by
  have h1 := k.codec.marshal_length x
  have h2 := k.codec.marshal_eq x
  have h8 : 8 ≤ (k.codec.raw x).length := by
    have := Header.marshal_length (k.codec.header x)
    simp only [Codec.raw, List.length_append]
    split at this <;> omega
  rw [h1] at h ⊢
  rw [h2, announced, Header.marshal_cons]
  simp only [oct, List.cons_append, List.getD_cons_succ, List.getD_cons_zero]
  have := of16_toNat (hi16 (UInt16.ofNat ((k.codec.raw x).length - 4))) (lo16 (UInt16.ofNat ((k.codec.raw x).length - 4)))
  rw [of16_be, ofNat16_toNat (by omega)] at this
  omega

example : (Msg.CreateSessionRequest.codec.marshal exCreateSession).length = 134 ∧
    announced (Msg.CreateSessionRequest.codec.marshal exCreateSession) = 134 := by decide +kernel

/-! ## What a buffer carries -/

/-- `b` starts with a complete message of type `k` with header `h` whose body decodes to `els`. -/
def Carries (m : Mode) (k : MsgKind) (b : Bytes) (h : Header) (els : List IE) : Prop :=
  headerSpec b = .ok h ∧ oct b 1 = k.codec.msgtype.toNat ∧ announced b ≤ b.length ∧
  ∃ start, k.codec.start = some start ∧ start ≤ announced b ∧ decoder m ((b.take (announced b)).drop start) = .ok els

theorem Carries.typeOk {m : Mode} {k : MsgKind} {b : Bytes} {h : Header} {els : List IE} (hc : Carries m k b h els) :
    ∀ e ∈ els, TypeOk e := by
  obtain ⟨_, _, _, _, _, _, hd⟩ := hc
  exact decoder_typeOk hd

theorem Carries.unmarshal {m : Mode} {k : MsgKind} {b : Bytes} {h : Header} {els : List IE} (hc : Carries m k b h els) :
    k.codec.unmarshal m b = k.codec.fromvec (k.codec.setHeader k.codec.dflt h) els := by
  obtain ⟨hh, ht, hl, start, hs, h2, hd⟩ := hc
  rw [← C02_header_total_precise] at hh
  have hlen := header_length hh
  have hty := (header_type hh).1
  rw [Codec.unmarshal_eq _ _ _ hh, if_neg, hs]
  · simp only
    rw [hlen, if_neg (by omega), if_neg (by omega), hd]
    rfl
  · intro hne
    exact hne (UInt8.toNat_inj.mp (hty.trans ht))

/-- A message with TEID 0 and sequence number 1. -/
def wire (t : UInt8) (body : Bytes) : Bytes := [0x48, t] ++ be16 (UInt16.ofNat (body.length + 8)) ++ [0, 0, 0, 0, 0, 0, 1, 0] ++ body

/-! ## C16: mandatory IEs -/

/-- An IE of the list belongs to the slot. -/
def Present (s : Slot) (els : List IE) : Prop := ∃ e ∈ els, e.kind = s.kind ∧ s.needed.mem e.ins = true

theorem lacks_iff (s : Slot) (els : List IE) : s.lacks els = true ↔ ¬ Present s els := by
  simp only [Slot.lacks, Present, Bool.not_eq_true', List.any_eq_false, Bool.and_eq_true, beq_iff_eq]
  constructor
  · rintro h ⟨e, he, hk, hi⟩
    exact h e he ⟨hk.symm, hi⟩
  · intro h e he hq
    exact h ⟨e, he, hq.1.symm, hq.2⟩

theorem mem_missing_iff (sch : Schema) (els : List IE) (s : Slot) :
    s ∈ sch.missing els ↔ s ∈ sch ∧ s.card.mandatory = true ∧ ¬ Present s els := by
  simp only [Schema.missing, List.mem_filter, lacks_iff]
  exact and_assoc

/-- C16 (partial): if the IEs of a mandatory field are absent, decoding fails and names the type of a mandatory IE that is absent. Missing:
one message type that does not look, and four that may name another type, see `C16_violation`. -/
theorem C16_missing_reported_partial (m : Mode) (k : MsgKind) (hk : k ∉ MsgKind.unchecked) (hr : k ∉ MsgKind.misreporting) (b : Bytes)
    (h : Header) (els : List IE) (hc : Carries m k b h els) (s : Slot) (hs : s ∈ k.schema) (hm : s.card.mandatory = true)
    (ha : ¬ Present s els) : ∃ s' ∈ k.schema, s'.card.mandatory = true ∧ ¬ Present s' els ∧
      ∃ t, kindOf t = s'.kind ∧ k.codec.unmarshal m b = .err (.messageMandatoryIEMissing t) := by
  have hne : k.schema.missing els ≠ [] := by
    intro hn
    have := (mem_missing_iff k.schema els s).mpr ⟨hs, hm, ha⟩
    rw [hn] at this
    cases this
  obtain ⟨s', hs', t, ht, hkt⟩ := k.reportsType hk hr h els hc.typeOk hne
  obtain ⟨h1, h2, h3⟩ := (mem_missing_iff _ _ _).mp hs'
  exact ⟨s', h1, h2, h3, t, hkt, hc.unmarshal.trans ht⟩

/-- C16 (partial): in any case decoding fails with that error. -/
theorem C16_missing_rejected_partial (m : Mode) (k : MsgKind) (hk : k ∉ MsgKind.unchecked) (b : Bytes) (h : Header) (els : List IE)
    (hc : Carries m k b h els) (s : Slot) (hs : s ∈ k.schema) (hm : s.card.mandatory = true) (ha : ¬ Present s els) :
    ∃ t, k.codec.unmarshal m b = .err (.messageMandatoryIEMissing t) := by
  have hne : k.schema.missing els ≠ [] := by
    intro hn
    have := (mem_missing_iff k.schema els s).mpr ⟨hs, hm, ha⟩
    rw [hn] at this
    cases this
  obtain ⟨t, ht⟩ := k.reports hk h els hc.typeOk hne
  exact ⟨t, hc.unmarshal.trans ht⟩

/-- C16: if all mandatory IEs are present, decoding succeeds. -/
theorem C16_present_accepted (m : Mode) (k : MsgKind) (b : Bytes) (h : Header) (els : List IE) (hc : Carries m k b h els)
    (hp : ∀ s ∈ k.schema, s.card.mandatory = true → Present s els) : ∃ y, k.codec.unmarshal m b = .ok y ∧ k.codec.header y = h := by
  have hn : k.schema.missing els = [] := List.eq_nil_iff_forall_not_mem.mpr fun s hs => by
    obtain ⟨h1, h2, h3⟩ := (mem_missing_iff _ _ _).mp hs
    exact h3 (hp s h1 h2)
  obtain ⟨y, hy, hh, _⟩ := k.describes.complete h els hc.typeOk hn
  exact ⟨y, hc.unmarshal.trans hy, hh⟩

/-- C16: how many mandatory fields there are: the table is not empty for 62 of the 83 message types. -/
theorem C16_table : (MsgKind.all.filter fun k => k.schema.any (·.card.mandatory)).length = 62 := by decide +kernel

/-- The IEs of an MBMS session start request without the IP multicast distribution. -/
def exMbmsBody : List IE :=
  [.Fteid ⟨87, 9, 0, 10, 0x01020304, some 0x0a000001, none⟩, .Tmgi ⟨158, 6, 0, [0, 0, 0, 0, 0, 0]⟩, .MbmsSd ⟨138, 3, 0, 0, 0⟩,
    .MbmsSa ⟨139, 3, 0, [1]⟩, .BearerQos ⟨80, 22, 0, 0, 1, 0, 9, 0, 0, 0, 0⟩]

set_option maxRecDepth 20000 in
/-- C16 does not hold for five message types: an identification response without cause is accepted and gets the default cause; a create
indirect data forwarding tunnel response without cause and bearer contexts reports type 0, a create forwarding tunnel response without
cause reports S103 PDN data forwarding info (90), a forward relocation request without F-TEID reports IMSI (1), an MBMS session start
request without IP multicast distribution reports the service area (139) that is there. -/
theorem C16_violation (m : Mode) :
    (Msg.IdentificationResponse.codec.unmarshal m (wire 129 []) =
      .ok { Msg.IdentificationResponse.dflt with header := ⟨129, false, none, 8, some 0, 1⟩ }) ∧
    (Msg.CreateIndirectDataForwardingTunnelResponse.codec.unmarshal m (wire 167 []) = .err (.messageMandatoryIEMissing 0) ∧
      ∀ s ∈ Msg.CreateIndirectDataForwardingTunnelResponse.schema, s.card.mandatory = true → kindOf 0 ≠ s.kind) ∧
    (Msg.CreateForwardingTunnelResponse.codec.unmarshal m (wire 161 []) = .err (.messageMandatoryIEMissing 90) ∧
      ∀ s ∈ Msg.CreateForwardingTunnelResponse.schema, s.card.mandatory = true → kindOf 90 ≠ s.kind) ∧
    (Msg.ForwardRelocationRequest.codec.unmarshal m (wire 133 []) = .err (.messageMandatoryIEMissing 1) ∧
      ∀ s ∈ Msg.ForwardRelocationRequest.schema, s.card.mandatory = true → kindOf 1 ≠ s.kind) ∧
    (Msg.MbmsSessionStartRequest.codec.unmarshal m (wire 231 (IE.encoder exMbmsBody)) = .err (.messageMandatoryIEMissing 139) ∧
      ∀ s ∈ Msg.MbmsSessionStartRequest.schema, s.card.mandatory = true → s.lacks exMbmsBody = true → kindOf 139 ≠ s.kind) := by
  refine ⟨?_, ⟨?_, by decide +kernel⟩, ⟨?_, by decide +kernel⟩, ⟨?_, by decide +kernel⟩, ⟨?_, by decide +kernel⟩⟩ <;>
    cases m <;> decide +kernel

/-- The bearer contexts of a create session request. -/
def k32 : Slot := ⟨.BearerContext, .lt 2, .many1 (.is 0)⟩

/-- A create session request with its IEs but without bearer context. -/
def exNoBearer : Bytes := wire 32 (IE.encoder [.RatType ⟨82, 1, 0, .Eutran⟩, .Apn ⟨71, 9, 0, "internet".toList⟩,
  .Fteid ⟨87, 9, 0, 10, 0x01020304, some 0x0a000001, none⟩])

set_option maxRecDepth 20000 in
example : Carries .debug .CreateSessionRequest exNoBearer ⟨32, false, none, 39, some 0, 1⟩
      [.RatType ⟨82, 1, 0, .Eutran⟩, .Apn ⟨71, 9, 0, "internet".toList⟩, .Fteid ⟨87, 9, 0, 10, 0x01020304, some 0x0a000001, none⟩] ∧
    k32 ∈ MsgKind.CreateSessionRequest.schema ∧ k32.card.mandatory = true ∧
    k32.lacks [.RatType ⟨82, 1, 0, .Eutran⟩, .Apn ⟨71, 9, 0, "internet".toList⟩] = true := by
  refine ⟨⟨by decide +kernel, by decide +kernel, by decide +kernel, 12, rfl, by decide +kernel, by decide +kernel⟩, by decide +kernel, rfl,
    by decide +kernel⟩

/-! ## C17: message type -/

/-- C17: a valid header of another message type is rejected with the error for it. -/
theorem C17_wrong_type (m : Mode) (k : MsgKind) (b : Bytes) (h : Header) (hh : headerSpec b = .ok h)
    (ht : oct b 1 ≠ k.codec.msgtype.toNat) : k.codec.unmarshal m b = .err .messageIncorrectMessageType := by
  rw [← C02_header_total_precise] at hh
  rw [Codec.unmarshal_eq _ _ _ hh, if_pos]
  intro he
  exact ht (by rw [← (header_type hh).1, he])

theorem unmarshal_inv {m : Mode} {k : MsgKind} {b : Bytes} {y : k.T} (hy : k.codec.unmarshal m b = .ok y) :
    ∃ h, Header.unmarshal b = .ok h := by
  cases hu : Header.unmarshal b with
  | ok h => exact ⟨h, rfl⟩
  | _ => unfold Codec.unmarshal at hy; rw [hu] at hy; cases hy

/-- C17: whatever is decoded as a message of type `k` carries the type code of `k`. -/
theorem C17_accepts_own_type (m : Mode) (k : MsgKind) (b : Bytes) (y : k.T) (hy : k.codec.unmarshal m b = .ok y) :
    oct b 1 = k.codec.msgtype.toNat := by
  apply Classical.byContradiction
  intro hne
  obtain ⟨h, hh⟩ := unmarshal_inv hy
  rw [C02_header_total_precise] at hh
  rw [C17_wrong_type m k b h hh hne] at hy
  cases hy

example : headerSpec (wire 133 []) = .ok ⟨133, false, none, 8, some 0, 1⟩ ∧
    oct (wire 133 []) 1 ≠ MsgKind.CreateSessionRequest.codec.msgtype.toNat := by decide +kernel

/-! ## C18: truncated messages -/

/-- C18 (partial): a buffer shorter than announced is rejected. Missing: Version Not Supported Indication, see `C18_violation`. -/
theorem C18_truncated_partial (m : Mode) (k : MsgKind) (hk : k ≠ .VersionNotSupported) (b : Bytes) (h : Header) (hh : headerSpec b = .ok h)
    (ht : oct b 1 = k.codec.msgtype.toNat) (hl : b.length < announced b) :
    k.codec.unmarshal m b = .err .messageInvalidMessageFormat := by
  rw [← C02_header_total_precise] at hh
  have hlen := header_length hh
  rw [Codec.unmarshal_eq _ _ _ hh, if_neg]
  · cases hs : k.codec.start with
    | none => exact absurd (start_none k hs) hk
    | some start => simp only; rw [hlen, if_pos hl]
  · intro hne
    exact hne (UInt8.toNat_inj.mp ((header_type hh).1.trans ht))

/-- C18 (partial): only complete messages are accepted. -/
theorem C18_complete_partial (m : Mode) (k : MsgKind) (hk : k ≠ .VersionNotSupported) (b : Bytes) (y : k.T)
    (hy : k.codec.unmarshal m b = .ok y) : announced b ≤ b.length := by
  apply Classical.byContradiction
  intro hne
  obtain ⟨h, hh⟩ := unmarshal_inv hy
  rw [C02_header_total_precise] at hh
  rw [C18_truncated_partial m k hk b h hh (C17_accepts_own_type m k b y hy) (by omega)] at hy
  cases hy

/-- A version not supported indication that announces 104 octets is accepted with 8 (versionnotsupported.rs:37-47). -/
theorem C18_violation (m : Mode) : announced [0x40, 3, 0, 100, 0, 0, 1, 0] = 104 ∧
    Msg.VersionNotSupported.codec.unmarshal m [0x40, 3, 0, 100, 0, 0, 1, 0] = .ok ⟨⟨3, false, none, 100, none, 1⟩⟩ := by
  cases m <;> decide +kernel

example : headerSpec ((wire 32 [82, 0, 1, 0, 6]).take 16) = .ok ⟨32, false, none, 13, some 0, 1⟩ ∧
    ((wire 32 [82, 0, 1, 0, 6]).take 16).length < announced ((wire 32 [82, 0, 1, 0, 6]).take 16) := by decide +kernel

/-! ## C19: octets after the message -/

theorem oct_append {b : Bytes} (t : Bytes) {i : Nat} (h : i < b.length) : oct (b ++ t) i = oct b i := by
  simp only [oct, List.getD_eq_getElem?_getD, List.getElem?_append_left h]

theorem header_append {b : Bytes} {h : Header} (t : Bytes) (hh : Header.unmarshal b = .ok h) : Header.unmarshal (b ++ t) = .ok h := by
  obtain ⟨_, h8, hs, h12, _⟩ := header_type hh
  rw [C02_header_total_precise] at hh ⊢
  rw [← hh]
  unfold headerSpec
  have o := fun i (hi : i < 8) => oct_append (b := b) t (show i < b.length by omega)
  simp only [o 0 (by omega), o 1 (by omega), o 2 (by omega), o 3 (by omega), o 4 (by omega), o 5 (by omega), o 6 (by omega), o 7 (by omega)]
  have n1 : ¬ (b ++ t).length < 8 := by simp only [List.length_append]; omega
  have n2 : ¬ b.length < 8 := by omega
  simp only [n1, n2, if_false]
  by_cases ht : oct b 0 / 8 % 2 = 0
  · simp only [ht, if_true]
  · have h12' := (h12 (hs.mpr (by omega))).1
    have o := fun i (hi : i < 12) => oct_append (b := b) t (show i < b.length by omega)
    simp only [ht, if_false, o 8 (by omega), o 9 (by omega), o 10 (by omega), o 11 (by omega)]
    have e1 : ¬ (b ++ t).length < 12 := by simp only [List.length_append]; omega
    have e2 : ¬ b.length < 12 := by omega
    simp only [e1, e2, false_or]

/-- C19: what follows a complete message does not matter. -/
theorem C19_trailing_octets (m : Mode) (k : MsgKind) (b : Bytes) (h : Header) (hh : headerSpec b = .ok h) (hl : announced b ≤ b.length)
    (tail : Bytes) : k.codec.unmarshal m (b ++ tail) = k.codec.unmarshal m b := by
  rw [← C02_header_total_precise] at hh
  have hlen := header_length hh
  rw [Codec.unmarshal_eq _ _ _ hh, Codec.unmarshal_eq _ _ _ (header_append tail hh)]
  cases k.codec.start with
  | none => rfl
  | some start =>
    simp only
    rw [hlen, if_neg (show ¬ (b ++ tail).length < announced b by simp only [List.length_append]; omega), if_neg (show ¬ b.length < announced b by omega),
      List.take_append_of_le_length hl]

/-- C19: a message is found at the front of a buffer, e.g. before a piggybacked one. -/
theorem C19_piggyback_partial (m : Mode) (k : MsgKind) (x : k.T) (wf : MessageWF k x) (tail : Bytes) :
    k.codec.unmarshal m (k.codec.marshal x ++ tail) = k.codec.unmarshal m (k.codec.marshal x) := by
  obtain ⟨h, hh⟩ := unmarshal_inv (C14_message_roundtrip_partial m k x wf)
  rw [C02_header_total_precise] at hh
  exact C19_trailing_octets m k _ h hh (Nat.le_of_eq (C15_message_length k x wf.size)) tail

example : headerSpec (wire 32 []) = .ok ⟨32, false, none, 8, some 0, 1⟩ ∧ announced (wire 32 []) ≤ (wire 32 []).length := by decide +kernel

/-! ## C20: duplicate IEs -/

/-- The IEs meant for a slot, in the order in which they arrive. -/
def arriving (s : Slot) (els : List IE) : List IE := els.filter fun e => s.kind == e.kind && s.ins.mem e.ins

/-- What the fields of a decoded message hold. -/
theorem Carries.fields {m : Mode} {k : MsgKind} {b : Bytes} {h : Header} {els : List IE} {y : k.T} (hc : Carries m k b h els)
    (hk : k ∉ MsgKind.unchecked ∨ k.schema.missing els = []) (hy : k.codec.unmarshal m b = .ok y) :
    k.fields y = k.schema.map (·.select els) ∧ k.codec.header y = h := by
  rw [hc.unmarshal] at hy
  have hm : k.schema.missing els = [] := hk.elim (fun hk => MsgKind.fromvec_ok hk hc.typeOk hy) id
  obtain ⟨z, hz, hh, hf⟩ := k.describes.complete h els hc.typeOk hm
  rw [hz] at hy
  obtain rfl := R.ok.inj hy
  exact ⟨hf, hh⟩

/-- C20 (partial): a field with room for one IE gets the first that arrives; a list field gets all in order. Missing: the 13 message types
of `C20_violation_types`, which keep the last IE for one of their fields, and the identification response when it lacks its cause. -/
theorem C20_first_wins_partial (m : Mode) (k : MsgKind) (b : Bytes) (h : Header) (els : List IE) (y : k.T) (hc : Carries m k b h els)
    (hk : k ∉ MsgKind.unchecked ∨ k.schema.missing els = []) (hy : k.codec.unmarshal m b = .ok y) (i : Nat) (s : Slot)
    (hs : k.schema[i]? = some s) :
    (s.card = .one ∨ s.card = .opt → (k.fields y)[i]? = some ((arriving s els).take 1)) ∧
    (s.card = .many ∨ (∃ n, s.card = .many1 n) → (k.fields y)[i]? = some (arriving s els)) := by
  rw [(hc.fields hk hy).1, List.getElem?_map, hs, Option.map_some]
  constructor
  · rintro (h | h) <;> simp only [Slot.select, h] <;> rfl
  · rintro (h | ⟨n, h⟩) <;> simp only [Slot.select, h] <;> rfl

/-- A slot that keeps the last IE. -/
def keepsLast (s : Slot) : Bool := s.card == .oneLast || s.card == .optLast

/-- The message types for which C20 does not hold. -/
theorem C20_violation_types : MsgKind.all.filter (fun k => k.schema.any keepsLast) =
    [.CreateForwardingTunnelResponse, .CreateIndirectDataForwardingTunnelResponse, .DeleteIndirectDataForwardingTunnelResponse,
      .DeletePndConnectionSetResponse, .DetachAcknowledge, .DownlinkDataNotificationAcknowledge, .IsrStatusIndication,
      .PgwRestartNotification, .PgwRestartNotificationAcknowledge, .RemoteUeReportAcknowledge, .StopPagingIndication,
      .UeRegistrationQueryRequest, .UpdatePndConnectionSetResponse] := by decide +kernel

/-- In these the last IE is kept. -/
theorem C20_violation_last (m : Mode) (k : MsgKind) (b : Bytes) (h : Header) (els : List IE) (y : k.T) (hc : Carries m k b h els)
    (hk : k ∉ MsgKind.unchecked) (hy : k.codec.unmarshal m b = .ok y) (i : Nat) (s : Slot) (hs : k.schema[i]? = some s)
    (hl : keepsLast s = true) : (k.fields y)[i]? = some (arriving s els).getLast?.toList := by
  rw [(hc.fields (.inl hk) hy).1, List.getElem?_map, hs, Option.map_some]
  simp only [keepsLast, Bool.or_eq_true, beq_iff_eq] at hl
  rcases hl with h | h <;> simp only [Slot.select, h] <;> rfl

set_option maxRecDepth 20000 in
/-- A concrete one: of two causes in a detach acknowledge the second is returned. -/
theorem C20_violation (m : Mode) : ∃ y, Msg.DetachAcknowledge.codec.unmarshal m
    (wire 150 ((IE.Cause ⟨2, 2, 0, 16, false, false, false, none⟩).marshal ++ (IE.Cause ⟨2, 2, 0, 64, false, false, false, none⟩).marshal)) =
      .ok y ∧ y.cause.value = 64 := by
  refine ⟨{ Msg.DetachAcknowledge.dflt with
    header := ⟨150, false, none, 20, some 0, 1⟩, cause := ⟨2, 2, 0, 64, false, false, false, none⟩ }, ?_, rfl⟩
  cases m <;> decide +kernel

/-- Two echo requests' worth of recovery counters. -/
def exTwice : Bytes := [0x40, 1, 0, 14, 0, 0, 1, 0, 3, 0, 1, 0, 7, 3, 0, 1, 0, 9]

set_option maxRecDepth 20000 in
example : Carries .debug .EchoRequest exTwice ⟨1, false, none, 14, none, 1⟩ [.Recovery ⟨3, 1, 0, 7⟩, .Recovery ⟨3, 1, 0, 9⟩] ∧
    MsgKind.EchoRequest ∉ MsgKind.unchecked ∧ Msg.EchoRequest.codec.unmarshal .debug exTwice =
      .ok ⟨⟨1, false, none, 14, none, 1⟩, ⟨3, 1, 0, 7⟩, none, []⟩ ∧
    arriving ⟨.Recovery, .is 0, .one⟩ [.Recovery ⟨3, 1, 0, 7⟩, .Recovery ⟨3, 1, 0, 9⟩] = [.Recovery ⟨3, 1, 0, 7⟩, .Recovery ⟨3, 1, 0, 9⟩] := by
  refine ⟨⟨by decide +kernel, by decide +kernel, by decide +kernel, 8, rfl, by decide +kernel, by decide +kernel⟩, by decide +kernel,
    by decide +kernel, by decide +kernel⟩

/-! ## C21: order of IEs -/

theorem select_congr {s : Slot} {els els' : List IE} (h : arriving s els = arriving s els') : s.select els = s.select els' := by
  have h' : els.filter s.accepts = els'.filter s.accepts := h
  simp only [Slot.select, h']

theorem lacks_congr {s : Slot} (hn : s.needed.sub s.ins = true) {els els' : List IE} (h : arriving s els = arriving s els') :
    s.lacks els = s.lacks els' := by
  have key : ∀ l : List IE, s.lacks l = !(arriving s l).any fun e => s.needed.mem e.ins := by
    intro l
    simp only [Slot.lacks, arriving, List.any_filter]
    congr 2
    funext e
    cases hq : s.needed.mem e.ins
    · simp
    · simp [Ins.sub_mem hn hq]
  rw [key, key, h]

/-- An identification response without cause keeps the default cause. -/
theorem identification_cause (els : List IE) (s : Msg.IdentificationResponse.St) :
    (s.m0 = true → (els.foldl Msg.IdentificationResponse.step s).m0 = true) ∧
    ((els.foldl Msg.IdentificationResponse.step s).m0 = false → (els.foldl Msg.IdentificationResponse.step s).x.cause = s.x.cause) := by
  induction els generalizing s with
  | nil => exact ⟨id, fun _ => rfl⟩
  | cons e els ih =>
    rw [List.foldl_cons]
    obtain ⟨ih1, ih2⟩ := ih (Msg.IdentificationResponse.step s e)
    have key : (s.m0 = true → (Msg.IdentificationResponse.step s e).m0 = true) ∧
        ((Msg.IdentificationResponse.step s e).m0 = false → (Msg.IdentificationResponse.step s e).x.cause = s.x.cause) := by
      cases e <;> simp only [Msg.IdentificationResponse.step] <;> repeat' split
      all_goals simp_all
    refine ⟨fun h => ih1 (key.1 h), fun h => ?_⟩
    rw [ih2 h]
    refine key.2 ?_
    cases hm : (Msg.IdentificationResponse.step s e).m0
    · rfl
    · rw [ih1 hm] at h; cases h

theorem identification_congr (h : Header) {els els' : List IE}
    (hp : ∀ s ∈ Msg.IdentificationResponse.schema, arriving s els = arriving s els') :
    Msg.IdentificationResponse.fromvec { Msg.IdentificationResponse.dflt with header := h } els =
    Msg.IdentificationResponse.fromvec { Msg.IdentificationResponse.dflt with header := h } els' := by
  obtain ⟨x, m0, hs, hv, hh, l0⟩ := Msg.IdentificationResponse.flags h els
  obtain ⟨x', m0', hs', hv', hh', l0'⟩ := Msg.IdentificationResponse.flags h els'
  have e0 := l0.symm.trans ((lacks_congr (by decide) (hp _ (by decide))).trans l0')
  obtain rfl := Bool.not_inj e0
  have hvv : Msg.IdentificationResponse.St.view ⟨x, m0⟩ = Msg.IdentificationResponse.St.view ⟨x', m0⟩ := by
    rw [hv, hv']
    exact List.map_congr_left fun s hs => select_congr (hp s hs)
  have hx : x = x' := by
    refine Msg.IdentificationResponse.ext (hh.trans hh'.symm) ?_
    cases m0 with
    | true => exact hvv
    | false =>
      have c1 := (identification_cause els ⟨{ Msg.IdentificationResponse.dflt with header := h }, false⟩).2 (by rw [hs])
      have c2 := (identification_cause els' ⟨{ Msg.IdentificationResponse.dflt with header := h }, false⟩).2 (by rw [hs'])
      rw [hs] at c1
      rw [hs'] at c2
      have hc : x.cause = x'.cause := c1.trans c2.symm
      have := congrArg List.tail hvv
      show [IE.Cause x.cause] :: (Msg.IdentificationResponse.St.view ⟨x, false⟩).tail =
        [IE.Cause x'.cause] :: (Msg.IdentificationResponse.St.view ⟨x', false⟩).tail
      rw [this, hc]
  rw [Msg.IdentificationResponse.fromvec, Msg.IdentificationResponse.fromvec, hs, hs', hx]

/-- C21: two messages with the same header whose IEs are the same up to the order between different slots have the same result: the same
message, or the same error. -/
theorem C21_order (m : Mode) (k : MsgKind) (b b' : Bytes) (h : Header) (els els' : List IE)
    (hc : Carries m k b h els) (hc' : Carries m k b' h els') (hp : ∀ s ∈ k.schema, arriving s els = arriving s els') :
    k.codec.unmarshal m b = k.codec.unmarshal m b' := by
  rw [hc.unmarshal, hc'.unmarshal]
  by_cases hk : k ∈ MsgKind.unchecked
  · simp only [MsgKind.unchecked, List.mem_cons, List.not_mem_nil, or_false] at hk
    subst hk
    exact identification_congr h hp
  have hl : ∀ s ∈ k.schema, s.lacks els = s.lacks els' := fun s hs => lacks_congr (k.schema_needed s hs) (hp s hs)
  have hmiss : k.schema.missing els = k.schema.missing els' := by
    unfold Schema.missing
    exact List.filter_congr fun s hs => hl s (List.mem_filter.mp hs).1
  by_cases hm : k.schema.missing els = []
  · obtain ⟨y, hy, hh, hf⟩ := k.describes.complete h els hc.typeOk hm
    obtain ⟨y', hy', hh', hf'⟩ := k.describes.complete h els' hc'.typeOk (hmiss ▸ hm)
    have : y = y' := by
      refine k.describes.ext _ _ (hh.trans hh'.symm) ?_
      rw [hf, hf']
      exact List.map_congr_left fun s hs => select_congr (hp s hs)
    rw [hy, hy', this]
  · exact k.settled hk h els els' hc.typeOk hc'.typeOk (fun s hs _ => hl s hs) hm

/-- C21 on octets: behind the same header, the encodings of the same IEs in another order. -/
theorem C21_octets (m : Mode) (k : MsgKind) (hd : Bytes) (h : Header) (hh : headerSpec hd = .ok h) (ht : oct hd 1 = k.codec.msgtype.toNat)
    (hs : k.codec.start = some hd.length) (els els' : List IE) (hw : ∀ e ∈ els, e.WF) (hperm : els.Perm els')
    (ha : announced hd = (hd ++ IE.encoder els).length) (hp : ∀ s ∈ k.schema, arriving s els = arriving s els') :
    k.codec.unmarshal m (hd ++ IE.encoder els) = k.codec.unmarshal m (hd ++ IE.encoder els') := by
  have hu := hh
  rw [← C02_header_total_precise] at hu
  have h8 : 4 ≤ hd.length := by
    rcases Nat.lt_or_ge hd.length 4 with hlt | hge
    · rw [headerSpec, if_pos (by omega)] at hh; cases hh
    · exact hge
  have hlen : (IE.encoder els).length = (IE.encoder els').length := by
    exact (hperm.flatMap_right _).length_eq
  have key : ∀ l : List IE, (∀ e ∈ l, e.WF) → announced hd = (hd ++ IE.encoder l).length → Carries m k (hd ++ IE.encoder l) h l := by
    intro l hl hal
    have hann : announced (hd ++ IE.encoder l) = announced hd := by
      simp only [announced, oct_append (b := hd) _ (show 2 < hd.length by omega), oct_append (b := hd) _ (show 3 < hd.length by omega)]
    refine ⟨?_, ?_, ?_, hd.length, hs, ?_, ?_⟩
    · rw [← C02_header_total_precise]; exact header_append _ hu
    · rw [oct_append (b := hd) _ (by omega)]; exact ht
    · omega
    · rw [hann, hal, List.length_append]; omega
    · rw [hann, hal, List.take_of_length_le (Nat.le_refl _), List.drop_left]
      exact decoder_encoder hl
  refine C21_order m k _ _ h els els' (key els hw ha) (key els' (fun e he => hw e (hperm.mem_iff.mpr he)) ?_) hp
  rw [ha, List.length_append, List.length_append, hlen]

set_option maxRecDepth 20000 in
example : ∀ s ∈ MsgKind.CreateSessionRequest.schema,
    arriving s [.RatType ⟨82, 1, 0, .Eutran⟩, exRecovery, .RatType ⟨82, 1, 0, .Wlan⟩] =
    arriving s [exRecovery, .RatType ⟨82, 1, 0, .Eutran⟩, .RatType ⟨82, 1, 0, .Wlan⟩] := by decide +kernel

set_option maxRecDepth 20000 in
example : headerSpec [0x48, 32, 0, 23, 0, 0, 0, 0, 0, 0, 1, 0] = .ok ⟨32, false, none, 23, some 0, 1⟩ ∧
    announced [0x48, 32, 0, 23, 0, 0, 0, 0, 0, 0, 1, 0] =
      ([0x48, 32, 0, 23, 0, 0, 0, 0, 0, 0, 1, 0] ++ IE.encoder [.RatType ⟨82, 1, 0, .Eutran⟩, exRecovery, .RatType ⟨82, 1, 0, .Wlan⟩]).length ∧
    (∀ e ∈ [IE.RatType ⟨82, 1, 0, .Eutran⟩, exRecovery, .RatType ⟨82, 1, 0, .Wlan⟩], e.WF) ∧
    [IE.RatType ⟨82, 1, 0, .Eutran⟩, exRecovery, .RatType ⟨82, 1, 0, .Wlan⟩].Perm
      [exRecovery, .RatType ⟨82, 1, 0, .Eutran⟩, .RatType ⟨82, 1, 0, .Wlan⟩] :=
  ⟨by decide +kernel, by decide +kernel, by decide +kernel, List.Perm.swap _ _ _⟩

/-! ## C22: no panic -/

/-- C22 (partial): exactly when decoding a message panics. Missing: the claim itself, see `C22_violation`. -/
theorem C22_panic_iff_partial (m : Mode) (k : MsgKind) (b : Bytes) : k.codec.unmarshal m b = .panic ↔
    ∃ h start, headerSpec b = .ok h ∧ oct b 1 = k.codec.msgtype.toNat ∧ announced b ≤ b.length ∧ k.codec.start = some start ∧
      (announced b < start ∨ decoder m ((b.take (announced b)).drop start) = .panic) := by
  cases hu : Header.unmarshal b with
  | ok h =>
    have hlen := header_length hu
    have hty := (header_type hu).1
    rw [Codec.unmarshal_eq _ _ _ hu]
    rw [C02_header_total_precise] at hu
    by_cases ht : h.msgtype = k.codec.msgtype
    · rw [if_neg (by simp [ht])]
      have hty' : oct b 1 = k.codec.msgtype.toNat := by rw [← hty, ht]
      cases hs : k.codec.start with
      | none => simp
      | some start =>
        simp only [hlen]
        by_cases hl : b.length < announced b
        · rw [if_pos hl]
          constructor
          · intro h; cases h
          · rintro ⟨_, _, _, _, h, _⟩; omega
        · rw [if_neg hl]
          by_cases ha : announced b < start
          · rw [if_pos ha]
            exact ⟨fun _ => ⟨h, start, hu, hty', by omega, rfl, .inl ha⟩, fun _ => rfl⟩
          · rw [if_neg ha]
            cases hd : decoder m ((b.take (announced b)).drop start) with
            | ok els =>
              constructor
              · intro hp
                rcases k.fromvec_total h els (decoder_typeOk hd) with ⟨y, hy⟩ | ⟨t, hy⟩
                · exact absurd (hp.symm.trans hy) (by intro h; cases h)
                · exact absurd (hp.symm.trans hy) (by intro h; cases h)
              · rintro ⟨_, s', _, _, _, hs', hq⟩
                obtain rfl := Option.some.inj hs'
                rcases hq with hq | hq
                · exact absurd hq ha
                · rw [hd] at hq; cases hq
            | panic => exact ⟨fun _ => ⟨h, start, hu, hty', by omega, rfl, .inr hd⟩, fun _ => rfl⟩
            | err e =>
              constructor
              · intro h; cases h
              · rintro ⟨_, s', _, _, _, hs', hq⟩
                obtain rfl := Option.some.inj hs'
                rcases hq with hq | hq
                · exact absurd hq ha
                · rw [hd] at hq; cases hq
            | diverge =>
              constructor
              · intro h; cases h
              · rintro ⟨_, s', _, _, _, hs', hq⟩
                obtain rfl := Option.some.inj hs'
                rcases hq with hq | hq
                · exact absurd hq ha
                · rw [hd] at hq; cases hq
    · rw [if_pos ht]
      constructor
      · intro h; cases h
      · rintro ⟨_, _, _, h1, _⟩
        exact absurd (UInt8.toNat_inj.mp (hty.trans h1)) ht
  | err e =>
    unfold Codec.unmarshal
    rw [hu]
    rw [C02_header_total_precise] at hu
    constructor
    · intro h; cases h
    · rintro ⟨h, _, h1, _⟩; rw [hu] at h1; cases h1
  | panic => exact absurd hu (C02_header_no_panic b).1
  | diverge => exact absurd hu (C02_header_no_panic b).2

/-- C22 (partial): no panic if the header has a TEID whenever the message type has one and every IE the decoder comes across is of a robust
kind (see C08) with a declared length below 65532. -/
theorem C22_no_panic_partial (m : Mode) (k : MsgKind) (b : Bytes) (ht : k.codec.start = some 12 → oct b 0 / 8 % 2 = 1)
    (hv : ∀ start, k.codec.start = some start → ∀ s, Visits m ((b.take (announced b)).drop start) s →
      (kindOf (s.getD 0 0)).robust = true ∧ declared s < 65532) : k.codec.unmarshal m b ≠ .panic := by
  intro hp
  obtain ⟨h, start, hh, _, _, hs, hq⟩ := (C22_panic_iff_partial m k b).mp hp
  rw [← C02_header_total_precise] at hh
  obtain ⟨_, _, h1, h2, h3⟩ := header_type hh
  rcases hq with hq | hq
  · have : start = 12 ∨ start = 8 := by
      have : MsgKind.all.all (fun k => k.codec.start == none || k.codec.start == some 12 || k.codec.start == some 8) = true := by
        decide +kernel
      have := List.all_eq_true.mp this k (MsgKind.mem_all k)
      rw [hs] at this
      simpa using this
    rcases this with rfl | rfl
    · have := (h2 (h1.mpr (ht hs))).2
      omega
    · omega
  · exact (C08_decoder_no_panic_partial m _ (hv start hs)).1 hq

/-- C22 does not hold: every message type with a TEID panics on eight octets without one (slice 12..8). -/
theorem C22_violation (m : Mode) (k : MsgKind) (hs : k.codec.start = some 12) :
    k.codec.unmarshal m [0x40, k.codec.msgtype, 0, 4, 0, 0, 1, 0] = .panic := by
  rw [C22_panic_iff_partial]
  generalize k.codec.msgtype = t at *
  refine ⟨⟨t, false, none, 4, none, 1⟩, 12, ?_, rfl, by simp [announced, oct], hs, .inl (by simp [announced, oct])⟩
  simp [headerSpec, oct]

theorem C22_violation_count : (MsgKind.all.filter fun k => k.codec.start = some 12).length = 80 := by decide +kernel

/-- C22: in a debug build decoding a message terminates. -/
theorem C22_terminates_debug (k : MsgKind) (b : Bytes) : k.codec.unmarshal .debug b ≠ .diverge := by
  cases hu : Header.unmarshal b with
  | ok h =>
    rw [Codec.unmarshal_eq _ _ _ hu]
    split
    · intro h; cases h
    · split
      · intro h; cases h
      · split
        · intro h; cases h
        · split
          · intro h; cases h
          · rename_i start _ _ _
            cases hd : decoder .debug ((b.take (h.length.toNat + 4)).drop start) with
            | ok els =>
              intro hp
              rcases k.fromvec_total h els (decoder_typeOk hd) with ⟨y, hy⟩ | ⟨t, hy⟩
              · exact absurd (hp.symm.trans hy) (by intro h; cases h)
              · exact absurd (hp.symm.trans hy) (by intro h; cases h)
            | diverge => exact absurd hd (C10_terminates_debug _)
            | _ => intro h; cases h
  | diverge => exact absurd hu (C02_header_no_panic b).2
  | _ => unfold Codec.unmarshal; rw [hu]; intro h; cases h

example : ∀ s, Visits .debug (((wire 32 []).take (announced (wire 32 []))).drop 12) s →
    (kindOf (s.getD 0 0)).robust = true ∧ declared s < 65532 := by
  intro s hs
  exact absurd hs (by rw [show ((wire 32 []).take (announced (wire 32 []))).drop 12 = [] by decide +kernel]; exact Visits.nil)

/-! ## C23: encoding appends -/

/-- C23 (partial): encoding into a buffer that is not empty keeps its octets except the third and fourth, and appends. Missing: these two
octets, which get the length of everything in the buffer minus four, while the length field of the appended message stays as it is in the
header (see `C23_violation`). -/
theorem C23_message_append_partial (k : MsgKind) (x : k.T) (a b c d : UInt8) (r : Bytes) : ∃ p q : UInt8,
    k.codec.marshalInto x (a :: b :: c :: d :: r) = a :: b :: p :: q :: r ++ (k.codec.header x).marshal ++ IE.encoder (k.codec.tovec x) ∧
    of16 p q = UInt16.ofNat (r.length + ((k.codec.header x).marshal ++ IE.encoder (k.codec.tovec x)).length) := by
  refine ⟨hi16 (UInt16.ofNat (r.length + ((k.codec.header x).marshal ++ IE.encoder (k.codec.tovec x)).length)),
    lo16 (UInt16.ofNat (r.length + ((k.codec.header x).marshal ++ IE.encoder (k.codec.tovec x)).length)), ?_, of16_be _⟩
  rw [Codec.marshalInto_eq]
  simp [Codec.raw, setMsgLength_cons, lenU16]

/-- Encoding twice into the same buffer: the first message gets the length of both, the second keeps the length of its header. -/
theorem C23_violation :
    Msg.EchoRequest.codec.marshalInto { exEcho with header := ⟨1, false, none, 8, none, 1⟩, sending_node_features := none, private_ext := [] }
      [0x40, 1, 0, 9, 0, 0, 0, 0, 3, 0, 1, 0, 42] =
    [0x40, 1, 0, 22, 0, 0, 0, 0, 3, 0, 1, 0, 42, 0x40, 1, 0, 8, 0, 0, 1, 0, 3, 0, 1, 0, 42] := by decide +kernel

/-! ## C38: type codes -/

/-- C38 (partial): message types have different type codes. Missing: two pairs that share one, see `C38_violation`. -/
theorem C38_type_codes_partial (k k' : MsgKind) (h : k.codec.msgtype = k'.codec.msgtype) :
    k = k' ∨ k.codec.msgtype = 180 ∨ k.codec.msgtype = 164 := by
  have : MsgKind.all.all (fun k => MsgKind.all.all fun k' => k.codec.msgtype != k'.codec.msgtype || k == k' || k.codec.msgtype == 180 ||
      k.codec.msgtype == 164) = true := by decide +kernel
  have := List.all_eq_true.mp (List.all_eq_true.mp this k (MsgKind.mem_all k)) k' (MsgKind.mem_all k')
  simp only [Bool.or_eq_true, bne_iff_ne, beq_iff_eq] at this
  rcases this with ((h1 | h1) | h1) | h1
  · exact absurd h h1
  · exact .inl h1
  · exact .inr (.inl h1)
  · exact .inr (.inr h1)

/-- Notification and acknowledgement of a PGW restart share a code, and so do resume notification and stop paging indication. -/
theorem C38_violation : MsgKind.PgwRestartNotification.codec.msgtype = MsgKind.PgwRestartNotificationAcknowledge.codec.msgtype ∧
    MsgKind.ResumeNotification.codec.msgtype = MsgKind.StopPagingIndication.codec.msgtype := by decide +kernel

set_option maxRecDepth 20000 in
/-- So there are octets that are accepted both as a stop paging indication and as a resume notification. -/
theorem C38_violation_decode (m : Mode) : ∃ b y z, Msg.StopPagingIndication.codec.unmarshal m b = .ok y ∧
    Msg.ResumeNotification.codec.unmarshal m b = .ok z := by
  refine ⟨wire 164 (exImsi.marshal ++ (IE.Ebi ⟨73, 1, 0, 5⟩).marshal), { Msg.StopPagingIndication.dflt with
    header := ⟨164, false, none, 25, some 0, 1⟩, imsi := some ⟨1, 8, 0, "310260123456789".toList⟩ }, { Msg.ResumeNotification.dflt with
    header := ⟨164, false, none, 25, some 0, 1⟩, imsi := ⟨1, 8, 0, "310260123456789".toList⟩, linked_ebi := some ⟨73, 1, 0, 5⟩ }, ?_, ?_⟩ <;>
    cases m <;> decide +kernel

/-! ## C39: encodings identify messages -/

/-- C39: messages with the same octets are of the same type (except for the shared codes) and equal up to the length field of the header. -/
theorem C39_message_injective (k : MsgKind) (x y : k.T) (hx : MessageWF k x) (hy : MessageWF k y)
    (h : k.codec.marshal x = k.codec.marshal y) : k.fields x = k.fields y ∧
      ({ k.codec.header x with length := 0 } : Header) = { k.codec.header y with length := 0 } := by
  have e := C14_message_roundtrip_partial .debug k x hx
  rw [h, C14_message_roundtrip_partial .debug k y hy] at e
  have e := R.ok.inj e
  have hd := k.describes
  constructor
  · have := congrArg k.fields e
    rw [hd.fields_set, hd.fields_set] at this
    exact this.symm
  · have := congrArg k.codec.header e
    rw [hd.header_set, hd.header_set] at this
    have := congrArg (fun h : Header => { h with length := 0 }) this
    exact this.symm

/-- C39: no octets are the encoding of two messages of types with different codes. -/
theorem C39_types_separate (m : Mode) (k k' : MsgKind) (x : k.T) (y : k'.T) (hx : MessageWF k x)
    (hy : (k'.codec.header y).msgtype = k'.codec.msgtype) (hc : k.codec.msgtype ≠ k'.codec.msgtype) :
    k.codec.marshal x ≠ k'.codec.marshal y ∧ k'.codec.unmarshal m (k.codec.marshal x) = .err .messageIncorrectMessageType := by
  have o : ∀ (j : MsgKind) (z : j.T), oct (j.codec.marshal z) 1 = (j.codec.header z).msgtype.toNat := by
    intro j z
    rw [j.codec.marshal_eq z, Header.marshal_cons]
    rfl
  constructor
  · intro he
    have h1 := o k x
    rw [he, o k' y, hx.msgtype, hy] at h1
    exact hc (UInt8.toNat_inj.mp h1.symm)
  · obtain ⟨h, hh⟩ := unmarshal_inv (C14_message_roundtrip_partial m k x hx)
    rw [C02_header_total_precise] at hh
    refine C17_wrong_type m k' _ h hh ?_
    rw [o k x, hx.msgtype]
    intro he
    exact hc (UInt8.toNat_inj.mp he)

end Gtp.Props
