import Verif.Props.UAccept
import Verif.Props.HeaderExact

/-!
# C30: which GTPv1-U messages survive

The conditions of the round trips of `UMsg.lean` are sufficient; here are the necessary and sufficient ones, in debug builds, for messages
whose extension headers are accounted with the octets they take. Lengths above the length fields wrap, and some such messages survive.
-/

namespace Gtp.Props
open Gtp.V1 Gtp.U

/-- The extension headers of a header are accounted with the octets they take. -/
def Accounted (h : U.Header) : Prop := ∀ l, h.exts = some l → ∀ x ∈ l, x.len .debug = .ok x.marshal.length

/-- Headers that come back from in front of `body`: the length field is the number of octets after the first eight, modulo 65536, and not zero. -/
def Returns (h : U.Header) (ty : UInt8) (body : Bytes) : Prop :=
  h.msgtype = ty ∧ HasSqn h ∧ (∀ l, h.exts = some l → ∀ x ∈ l, ExtWF x) ∧ h.length.toNat = afterFixed h body % 65536 ∧ h.length ≠ 0

theorem wire_eq (h : U.Header) (body : Bytes) : setMsgLength1 (h.marshal ++ body) = (wireHdr h body).marshal ++ body := setLen_eq h body

theorem wire_announced (h : U.Header) (body : Bytes) : uAnnounced ((wireHdr h body).marshal ++ body) = afterFixed h body % 65536 := by
  obtain ⟨r, -, hr⟩ := header_cons h
  rw [wireHdr, hr]
  simp [uAnnounced, hi16, lo16]
  omega

theorem wire_length (h : U.Header) (body : Bytes) : ((wireHdr h body).marshal ++ body).length = afterFixed h body + 8 := by
  have := header_ge8 h
  rw [List.length_append, wireHdr, marshal_withLen_length, afterFixed]
  omega

theorem at_wire (h : U.Header) (ty : UInt8) (body : Bytes) (s : Nat) (ha : Accounted h) :
    AtHeader .debug ((wireHdr h body).marshal ++ body) ty h s ↔ Returns h ty body ∧ s = (wireHdr h body).marshal.length := by
  have key : h.length.toNat = afterFixed h body % 65536 → wireHdr h body = h := by
    intro e
    rw [wireHdr, show UInt16.ofNat (afterFixed h body) = h.length from UInt16.toNat_inj.mp (by rw [e]; simp), withLen_self]
  constructor
  · intro H
    obtain ⟨-, -, -, hl⟩ := at_read H
    rw [wire_announced] at hl
    have hw := key hl
    have h1 := H.1
    rw [hw] at h1
    obtain ⟨wf, hs⟩ := (C25_exact h body ha).mp h1
    refine ⟨⟨H.2.1, hs, wf.2, hl, wf.1⟩, ?_⟩
    rw [hw]
    have h3 := H.2.2
    rw [C27_header_size_partial .debug h wf.2] at h3
    exact (R.ok.inj h3).symm
  · rintro ⟨⟨h1, h2, h3, h4, h5⟩, rfl⟩
    have hw := key h4
    rw [hw]
    exact ⟨(C25_exact h body ha).mpr ⟨⟨h5, h3⟩, h2⟩, h1, C27_header_size_partial .debug h h3⟩

theorem wire_drop (h : U.Header) (body : Bytes) : ((wireHdr h body).marshal ++ body).drop (wireHdr h body).marshal.length = body :=
  List.drop_left

/-- C30 exactly, for G-PDU. -/
theorem C30_exact_gpdu (x : Gpdu) (ha : Accounted x.header) : Gpdu.unmarshal .debug (x.marshalInto []) = .ok x ↔
    Returns x.header 255 x.tpdu ∧ afterFixed x.header x.tpdu < 65528 := by
  have e : x.marshalInto [] = (wireHdr x.header x.tpdu).marshal ++ x.tpdu := by
    rw [← wire_eq]; simp [Gpdu.marshalInto]
  rw [e, C80_gpdu]
  constructor
  · rintro ⟨s, hs, h1, -, h3, h4⟩
    obtain ⟨hr, rfl⟩ := (at_wire _ _ _ _ ha).mp hs
    rw [wire_announced] at h1 h3 h4
    refine ⟨hr, ?_⟩
    have hl := congrArg List.length h4
    have hw := wire_length x.header x.tpdu
    simp only [List.length_drop, List.length_take, List.length_append] at hl hw
    omega
  · rintro ⟨hr, h⟩
    refine ⟨_, (at_wire _ _ _ _ ha).mpr ⟨hr, rfl⟩, ?_⟩
    have hw := wire_length x.header x.tpdu
    have hw' := hw
    rw [List.length_append] at hw'
    rw [wire_announced, Nat.mod_eq_of_lt (by omega)]
    refine ⟨h, by omega, by omega, ?_⟩
    rw [← hw, List.take_length, wire_drop]

/-- Private extensions that come back: the length octets may have wrapped. -/
def PrivReturns (i : PrivateExtension) : Prop :=
  i.t = 255 ∧ i.length.toNat = (i.value.length + 2) % 65536 ∧ 1 ≤ i.length.toNat ∧ i.length.toNat < 65533

theorem priv_returns (p : Option PrivateExtension) : (¬ PrivBad (privOctets p) ∧ p = privSpec (privOctets p)) ↔
    ∀ i, p = some i → PrivReturns i := by
  cases p with
  | none =>
    refine iff_of_true ⟨?_, rfl⟩ (fun i h => by cases h)
    rintro ⟨h, -⟩
    exact absurd h (by decide)
  | some i =>
    obtain ⟨t, l, d, v⟩ := i
    simp only [privOctets, PrivateExtension.marshal, be16, List.cons_append, List.nil_append, setTlv_cons, privSpec, of16_be, PrivBad,
      List.getD_cons_succ, List.getD_cons_zero, List.length_cons]
    have e : (lenU16 (hi16 d :: lo16 d :: v)).toNat = (v.length + 2) % 65536 := by simp [lenU16]
    have e2 : (hi16 (lenU16 (hi16 d :: lo16 d :: v))).toNat * 256 + (lo16 (lenU16 (hi16 d :: lo16 d :: v))).toNat = (v.length + 2) % 65536 := by
      rw [← of16_toNat, of16_be, e]
    rw [e, e2]
    constructor
    · rintro ⟨h1, h2⟩ i hi
      cases hi
      split at h2
      · next hc =>
        simp only [Option.some.injEq, PrivateExtension.mk.injEq, and_true] at h2
        obtain ⟨h3, h4⟩ := h2
        refine ⟨h3, ?_, ?_, ?_⟩
        · rw [h4]; exact e
        · rw [h4, e]; omega
        · rw [h4, e]; omega
      · cases h2
    · intro h
      obtain ⟨h1, h2, h3, h4⟩ := h _ rfl
      simp only at h1 h2 h3 h4
      refine ⟨by omega, ?_⟩
      rw [if_pos (by omega), h1, UInt16.toNat_inj.mp (h2.trans e.symm)]

/-- C30 exactly, for Echo Request. -/
theorem C30_exact_echo_request (x : EchoRequest) (ha : Accounted x.header) : EchoRequest.unmarshal .debug (x.marshalInto []) = .ok x ↔
    Returns x.header 1 (privOctets x.priv) ∧ ∀ i, x.priv = some i → PrivReturns i := by
  have e : x.marshalInto [] = (wireHdr x.header (privOctets x.priv)).marshal ++ privOctets x.priv := by
    rw [← wire_eq]; simp [EchoRequest.marshalInto]
  rw [e, C80_echo_request]
  constructor
  · rintro ⟨s, hs, ht⟩
    obtain ⟨hr, rfl⟩ := (at_wire _ _ _ _ ha).mp hs
    refine ⟨hr, (priv_returns _).mp ?_⟩
    rcases ht with ⟨-, h1, h2⟩ | ⟨h1, -⟩
    · rw [wire_drop] at h1 h2
      exact ⟨h1, h2⟩
    · rw [wire_announced, wire_length] at h1
      omega
  · rintro ⟨hr, hp⟩
    refine ⟨_, (at_wire _ _ _ _ ha).mpr ⟨hr, rfl⟩, .inl ⟨?_, ?_⟩⟩
    · rw [wire_announced, wire_length]
      omega
    · rw [wire_drop]
      exact (priv_returns _).mpr hp

/-- C30 exactly, for End Marker. -/
theorem C30_exact_end_marker (x : EndMarker) (ha : Accounted x.header) : EndMarker.unmarshal .debug (x.marshalInto []) = .ok x ↔
    Returns x.header 254 (privOctets x.priv) ∧ ∀ i, x.priv = some i → PrivReturns i := by
  have e : x.marshalInto [] = (wireHdr x.header (privOctets x.priv)).marshal ++ privOctets x.priv := by
    rw [← wire_eq]; simp [EndMarker.marshalInto]
  rw [e, C80_end_marker]
  constructor
  · rintro ⟨s, hs, ht⟩
    obtain ⟨hr, rfl⟩ := (at_wire _ _ _ _ ha).mp hs
    refine ⟨hr, (priv_returns _).mp ?_⟩
    rcases ht with ⟨-, h1, h2⟩ | ⟨h1, -⟩
    · rw [wire_drop] at h1 h2
      exact ⟨h1, h2⟩
    · rw [wire_announced, wire_length] at h1
      omega
  · rintro ⟨hr, hp⟩
    refine ⟨_, (at_wire _ _ _ _ ha).mpr ⟨hr, rfl⟩, .inl ⟨?_, ?_⟩⟩
    · rw [wire_announced, wire_length]
      omega
    · rw [wire_drop]
      exact (priv_returns _).mpr hp

/-- C30 exactly, for Echo Response. -/
theorem C30_exact_echo_response (x : EchoResponse) (ha : Accounted x.header) : EchoResponse.unmarshal .debug (x.marshalInto []) = .ok x ↔
    Returns x.header 2 (x.recovery.marshal ++ privOctets x.priv) ∧ x.recovery.t = 14 ∧ ∀ i, x.priv = some i → PrivReturns i := by
  have e : x.marshalInto [] = (wireHdr x.header (x.recovery.marshal ++ privOctets x.priv)).marshal ++ (x.recovery.marshal ++ privOctets x.priv) := by
    rw [← wire_eq]; simp [EchoResponse.marshalInto]
  rw [e, C80_echo_response]
  constructor
  · rintro ⟨s, r, hs, h1, h2, h3, h4⟩
    obtain ⟨hr, rfl⟩ := (at_wire _ _ _ _ ha).mp hs
    rw [wire_drop] at h2
    have h2 : _ = r := (List.cons.inj (List.cons.inj h2).2).2
    subst h2
    exact ⟨hr, h3, (priv_returns _).mp h4⟩
  · rintro ⟨hr, ht, hp⟩
    refine ⟨_, privOctets x.priv, (at_wire _ _ _ _ ha).mpr ⟨hr, rfl⟩, ?_, ?_, ht, (priv_returns _).mpr hp⟩
    · rw [wire_announced, wire_length]
      omega
    · rw [wire_drop]
      rfl

/-- C30 exactly, for Supported Extension Headers Notification. -/
theorem C30_exact_supported_ext (x : SupportedExt) (ha : Accounted x.header) : SupportedExt.unmarshal .debug (x.marshalInto []) = .ok x ↔
    Returns x.header 31 x.list.marshal ∧ afterFixed x.header x.list.marshal % 65536 < 65528 ∧ x.list.t = 141 ∧
      x.list.length.toNat = x.list.list.length % 256 ∧ 1 ≤ x.list.length.toNat ∧ x.list.length.toNat < 254 := by
  have e : x.marshalInto [] = (wireHdr x.header x.list.marshal).marshal ++ x.list.marshal := by
    rw [← wire_eq]; simp [SupportedExt.marshalInto]
  have em : x.list.marshal = x.list.t :: UInt8.ofNat x.list.list.length :: x.list.list := by
    simp [ExtTypeList.marshal]
  rw [e, C80_supported_ext]
  constructor
  · rintro ⟨s, hs, h1, h2, h3, h4, h5, h6, h7⟩
    obtain ⟨hr, rfl⟩ := (at_wire _ _ _ _ ha).mp hs
    rw [wire_announced] at h1
    rw [wire_drop, em] at h3
    have h8 := (List.cons.inj (List.cons.inj h3).2).1
    refine ⟨hr, h1, h4, ?_, h5, h6⟩
    rw [← h8]
    simp
  · rintro ⟨hr, h1, h2, h3, h4, h5⟩
    refine ⟨_, (at_wire _ _ _ _ ha).mpr ⟨hr, rfl⟩, ?_, ?_, ?_, h2, h4, h5, ?_⟩
    · rwa [wire_announced]
    · rw [wire_announced, wire_length]
      omega
    · rw [wire_drop, em, h2, show UInt8.ofNat x.list.list.length = x.list.length from UInt8.toNat_inj.mp (by rw [h3]; simp)]
    · omega

theorem item_unique {b : Bytes} {e e' : IndItem} {n n' : Nat} (h : ItemAt b e n) (h' : ItemAt b e' n') : e = e' ∧ n = n' := by
  obtain ⟨h1, h2⟩ := (C80_item b e n).mpr h
  obtain ⟨h3, h4⟩ := (C80_item b e' n').mpr h'
  have ht := Option.some.inj (h1.symm.trans h3)
  cases e <;> cases e' <;> first | (simp only [IndItem.type] at ht; exact absurd ht (by decide)) | skip
  · cases R.ok.inj (h2.1.symm.trans h4.1)
    exact ⟨rfl, h2.2.trans h4.2.symm⟩
  · cases R.ok.inj (h2.1.symm.trans h4.1)
    exact ⟨rfl, R.ok.inj (h2.2.symm.trans h4.2)⟩
  · cases R.ok.inj (h2.1.symm.trans h4.1)
    exact ⟨rfl, R.ok.inj (h2.2.symm.trans h4.2)⟩

/-- The type that is stored in an element. -/
def IndItem.stored : IndItem → UInt8
  | .teid i => i.t
  | .peer i => i.t
  | .priv i => i.t

theorem item_stored {b : Bytes} {e : IndItem} {n : Nat} (h : ItemAt b e n) : e.stored = e.type := by
  cases h with
  | priv r i hp hl =>
    match r, hp with
    | a :: b :: c :: d :: v, hp =>
      simp only [privSpec] at hp
      split at hp
      · cases hp; rfl
      · cases hp
  | _ => rfl

theorem items_stored {last : UInt8} {b : Bytes} {es : List IndItem} (h : IndItems last b es) : ∀ e ∈ es, e.stored = e.type := by
  induction h with
  | nil => intro e he; cases he
  | cons hi _ _ ih =>
    intro e he
    rcases List.mem_cons.mp he with rfl | he
    · exact item_stored hi
    · exact ih e he

/-- The element in front is the only one that there can be. -/
theorem items_front {last : UInt8} {b : Bytes} {es : List IndItem} {e : IndItem} {n : Nat} (h : IndItems last b es) (hi : ItemAt b e n) :
    ∃ es', es = e :: es' ∧ IndItems e.type (b.drop n) es' := by
  cases h with
  | nil => cases hi
  | cons hi' _ hr =>
    obtain ⟨rfl, rfl⟩ := item_unique hi hi'
    exact ⟨_, rfl, hr⟩

theorem gsn_marshal (x : GsnAddress) : x.marshal = x.t :: 0 :: (match x.ip with | .v4 _ => 4 | .v6 _ => 16) :: x.ip.octets := by
  obtain ⟨t, l, ip⟩ := x
  cases ip with
  | v4 a =>
    have h : lenU16 (IpAddr.v4 a).octets = 4 := rfl
    simp only [GsnAddress.marshal, be16, List.cons_append, List.nil_append, setTlv_cons, h]
    rfl
  | v6 a =>
    have h : lenU16 (IpAddr.v6 a).octets = 16 := rfl
    simp only [GsnAddress.marshal, be16, List.cons_append, List.nil_append, setTlv_cons, h]
    rfl

/-- C30 exactly, for Error Indications of less than 65536 octets after the first eight. -/
theorem C30_exact_error_indication_partial (x : ErrorIndication) (ha : Accounted x.header) (hb : afterFixed x.header (indBody x) < 65536) :
    ErrorIndication.unmarshal .debug (x.marshalInto []) = .ok x ↔
      Returns x.header 26 (indBody x) ∧ afterFixed x.header (indBody x) < 65528 ∧ x.teid.t = 16 ∧ GsnWF x.peer ∧
      ∀ i, x.priv = some i → PrivReturns i := by
  have hlen : (privOctets x.priv).length ≤ afterFixed x.header (indBody x) := by
    have := header_ge8 x.header
    simp only [afterFixed, indBody, List.length_append]
    omega
  constructor
  · intro H
    have e : x.marshalInto [] = (wireHdr x.header (indBody x)).marshal ++ indBody x := by
      rw [← wire_eq]; simp [ErrorIndication.marshalInto, indBody]
    rw [e, C80_error_indication] at H
    obtain ⟨s, es, hs, h1, -, h3, -, h5, h6, h7⟩ := H
    obtain ⟨hr, rfl⟩ := (at_wire _ _ _ _ ha).mp hs
    rw [wire_announced, Nat.mod_eq_of_lt hb] at h1
    rw [wire_drop] at h3
    have hst := items_stored h3
    have h133 : x.peer.t = 133 := by
      obtain ⟨a, ha, hp⟩ := List.mem_filterMap.mp (List.mem_of_mem_head? (Option.mem_def.mpr h6))
      cases a <;> cases hp
      exact hst _ ha
    have h255 : ∀ i, x.priv = some i → i.t = 255 := by
      intro i hi
      obtain ⟨a, ha, hp⟩ := List.mem_filterMap.mp (List.mem_of_mem_head? (Option.mem_def.mpr (h7.trans hi)))
      cases a <;> cases hp
      exact hst _ ha
    obtain ⟨es1, rfl, h3'⟩ := items_front h3 (.teid x.teid.teid (x.peer.marshal ++ privOctets x.priv))
    have h5 : (⟨16, x.teid.teid⟩ : Teid) = x.teid := by simpa [IndItem.teid?] using h5
    have h6 : (es1.filterMap IndItem.peer?).head? = some x.peer := by simpa [IndItem.peer?, List.filterMap_cons] using h6
    have h7 : (es1.filterMap IndItem.priv?).head? = x.priv := by simpa [IndItem.priv?, List.filterMap_cons] using h7
    have h3 : IndItems 16 (x.peer.marshal ++ privOctets x.priv) es1 := h3'
    have hp : GsnWF x.peer ∧ ∃ es2, IndItems 133 (privOctets x.priv) es2 ∧ (es2.filterMap IndItem.priv?).head? = x.priv := by
      rw [gsn_marshal, h133] at h3
      generalize x.peer = q at h3 h6 h133
      obtain ⟨t, l, ip⟩ := q
      have h133 : t = 133 := h133
      subst h133
      cases ip with
      | v4 a =>
        obtain ⟨es2, rfl, h8⟩ := items_front h3 (.v4 a (privOctets x.priv))
        have h6 : (⟨133, 4, .v4 a⟩ : GsnAddress) = ⟨133, l, .v4 a⟩ := by simpa [IndItem.peer?] using h6
        injection h6 with _ h6
        exact ⟨⟨rfl, h6.symm⟩, es2, h8, by simpa [IndItem.priv?, List.filterMap_cons] using h7⟩
      | v6 a =>
        obtain ⟨es2, rfl, h8⟩ := items_front h3 (.v6 a.hi a.lo (privOctets x.priv))
        have h6 : (⟨133, 16, .v6 a⟩ : GsnAddress) = ⟨133, l, .v6 a⟩ := by simpa [IndItem.peer?] using h6
        injection h6 with _ h6
        exact ⟨⟨rfl, h6.symm⟩, es2, h8, by simpa [IndItem.priv?, List.filterMap_cons] using h7⟩
    obtain ⟨hg, es2, h8, h9⟩ := hp
    refine ⟨hr, h1, by rw [← h5], hg, ?_⟩
    rw [← priv_returns]
    cases hq : x.priv with
    | none => exact ⟨fun hb => absurd hb.1 (by decide), rfl⟩
    | some i =>
      rw [hq] at h8 h9
      have h255 := h255 i hq
      obtain ⟨r, hr⟩ : ∃ r, privOctets (some i) = 255 :: r := by
        refine ⟨(privOctets (some i)).tail, ?_⟩
        simp only [privOctets, PrivateExtension.marshal, be16, List.cons_append, List.nil_append, setTlv_cons, List.tail_cons, h255]
      rw [hr] at h8 ⊢
      cases h8 with
      | cons hi _ _ =>
        cases hi with
        | priv r j hp hj =>
          have : j = i := by simpa [IndItem.priv?, List.filterMap_cons] using h9
          subst this
          refine ⟨fun hb => ?_, hp.symm⟩
          have hu := C80_item (255 :: r) (.priv j) _ |>.mpr (.priv r j hp hj)
          have := hu.2.1
          rw [priv_panic _ hb] at this
          cases this
  · rintro ⟨hr, h1, h2, h3, h4⟩
    have hl := hr.2.2.2.1
    rw [Nat.mod_eq_of_lt hb] at hl
    have hz : x.header.length.toNat ≠ 0 := fun h => hr.2.2.2.2 (UInt16.toNat_inj.mp h)
    refine (C30_error_indication_partial .debug x hr.1 h2 h3 ?_ ⟨hr.2.2.1, by omega, h1⟩).2 ⟨hr.2.1, hl⟩
    intro i hi
    obtain ⟨p1, p2, p3, p4⟩ := h4 i hi
    refine ⟨p1, ?_, p4⟩
    rw [hi] at hlen
    have : (privOctets (some i)).length = i.value.length + 5 := by
      simp only [privOctets, PrivateExtension.marshal, be16, List.cons_append, List.nil_append, setTlv_cons, List.length_cons]
    rw [p2, Nat.mod_eq_of_lt (by omega)]

/-- An Echo Request whose private extension has 65541 octets comes back: its length octets say 7, those of the message 14. An Error
Indication comes back; with the recovery type in the place of its endpoint identifier it does not. -/
example :
    let x : EchoRequest := ⟨⟨1, 14, 0, some 7, none, none⟩, some ⟨255, 7, 10415, List.replicate 65541 1⟩⟩
    EchoRequest.unmarshal .debug (x.marshalInto []) = .ok x := by
  refine (C30_exact_echo_request _ (by intro l hl; cases hl)).mpr ⟨⟨rfl, .inl (by simp), (by intro l hl; cases hl), ?_, by decide⟩, ?_⟩
  · simp only [afterFixed, privOctets, PrivateExtension.marshal, be16, List.cons_append, List.nil_append, setTlv_cons, List.length_cons,
      List.length_replicate]
    rfl
  · intro i hi
    cases hi
    exact ⟨rfl, by simp only [List.length_replicate]; rfl, by decide, by decide⟩

def exInd (t : UInt8) : ErrorIndication := ⟨⟨26, 16, 0, some 7, none, none⟩, ⟨t, 5⟩, ⟨133, 4, .v4 0x0a000001⟩, none⟩

example : ErrorIndication.unmarshal .debug ((exInd 16).marshalInto []) = .ok (exInd 16) ∧
    ErrorIndication.unmarshal .debug ((exInd 14).marshalInto []) ≠ .ok (exInd 14) := by
  have e : ∀ t, afterFixed (exInd t).header (indBody (exInd t)) = 16 := fun t => rfl
  constructor
  · refine (C30_exact_error_indication_partial _ (by intro l hl; cases hl) (by rw [e]; decide)).mpr ⟨⟨rfl, .inl (by simp [exInd]),
      (by intro l hl; cases hl), by rw [e]; rfl, by decide⟩, by rw [e]; decide, rfl, ⟨rfl, rfl⟩, (by intro i hi; cases hi)⟩
  · intro h
    have := ((C30_exact_error_indication_partial _ (by intro l hl; cases hl) (by rw [e]; decide)).mp h).2.2.1
    exact absurd this (by decide)

end Gtp.Props
