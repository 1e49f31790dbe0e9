import Verif.V2.Decoder

/-!
# Properties C06 to C13, C24, C37 (GTPv2-C information elements)

`IE.marshal e` are the octets that `e.marshal(&mut buffer)` appends, `unmKind (decoder m) m b k` is `X::unmarshal(b)` for the
type `X` of the kind `k`, `decodeOne` is one turn of the loop of `InformationElement::decoder`, `decoder` the whole of it.
-/

namespace Gtp.Props
open Gtp.V2

/-! ## C06: round trip of one IE -/

/-- The field values for which the round trip is claimed: those of the IE type. The types TraceReference and TwanId are
included here although the sequence decoder cannot find them (see `C12_violation`). -/
def WellFormed : IE → Prop
  | .TraceReference x => x.WF
  | .TwanId x => x.WF
  | e => e.WF

/-- C06 (partial): decoding the encoding of an IE as its own type gives it back, whatever follows. Missing: the values
excluded by the well-formedness conditions although the fields could carry them, see the `C06_violation` theorems. -/
theorem C06_ie_roundtrip_partial (m : Mode) (e : IE) (h : WellFormed e) (tail : Bytes) :
    unmKind (decoder m) m (e.marshal ++ tail) e.kind = .ok e := by
  have hg : ∀ e : IE, e.WF → unmKind (decoder m) m (e.marshal ++ tail) e.kind = .ok e :=
    fun e h => unmKind_rt h (decoder_encoder fun _ hy => IE.WF_members h hy)
  cases e with
  | TraceReference x =>
    rw [IE.marshal_eq]
    simp only [IE.marshalWith, IE.kind, unmKind]
    rw [TraceReference.rt m x tail h]
    rfl
  | TwanId x =>
    rw [IE.marshal_eq]
    simp only [IE.marshalWith, IE.kind, unmKind]
    rw [TwanId.rt m x tail h]
    rfl
  | _ => exact hg _ h

/-- A bearer context with bearer identity, cause and two tunnel endpoints. -/
def exBearer : IE :=
  .BearerContext
    { t := 93, length := 45, ins := 1, ebi := ⟨73, 1, 0, 5⟩, cause := some ⟨2, 2, 0, 16, false, true, false, none⟩, tft := none,
      fteids := [⟨87, 9, 0, 1, 0x01020304, some 0x0a000001, none⟩, ⟨87, 9, 1, 5, 0xcafe, some 0x0a000002, none⟩],
      bearer_qos := none, charging_id := some ⟨94, 4, 0, 77⟩, bearer_flags := none, pco := none, apco := none, epco := none,
      max_packet_loss := none, ran_nas_cause := none, bss_container := none, transaction_id := none }

/-- Recovery, trace reference and IMSI. -/
def exRecovery : IE := .Recovery ⟨3, 1, 0, 42⟩
def exTrace : IE := .TraceReference ⟨83, 6, 0, 310, 12, true, 0x010203⟩
def exImsi : IE := .Imsi ⟨1, 8, 0, "310260123456789".toList⟩

set_option maxRecDepth 20000 in
example : WellFormed exBearer ∧ WellFormed exRecovery ∧ WellFormed exTrace ∧ WellFormed exImsi := by
  refine ⟨(by decide +kernel : IE.WF exBearer), (by decide +kernel : IE.WF exRecovery), ?_, (by decide +kernel : IE.WF exImsi)⟩
  exact (by decide +kernel : TraceReference.WF ⟨83, 6, 0, 310, 12, true, 0x010203⟩)

/-- Legal values of the fields with a correct length that are not decoded back. -/
def exEnGNb : IE := .TargetIdentification ⟨121, 14, 0, .EngNbId ⟨310, 26, false, 24, 0x010203, some 7, none⟩⟩
def exNoAddr : IE := .Fteid ⟨87, 5, 0, 10, 0x01020304, none, none⟩
def exHdrCompr : IE := .HeaderCompressionConfiguration ⟨196, 4, 0, [], 3⟩
def exPrai : IE := .PresenceReportingAreaInformation ⟨178, 4, 0, .Ipra 7, none⟩
def exRemoteUe : IE := .RemoteUeIpInformation ⟨193, 17, 0, .V6 ⟨1, 2⟩⟩
def exMmGsm : IE := .MmContext (.MmContextGsmKeyTriplets
  { t := 103, length := 16, ins := 0, sec_mode := .GsmKeyAndTriplets, cksn := 1, used_cipher := .Gea3, kc := 5, auth_triplets := none,
    drx_params := none, subscr_ue_ambr := none, used_ue_ambr := none, ue_ntwk_cap := none, ms_ntwk_cap := none, mei := none,
    access_res := ⟨false, false, false, false, false, false, false, false⟩, vdn_pref_ue_usage := none })
def exTwan : IE := .TwanId ⟨169, 5, 0, [1, 2, 3], none, none, none, none, none, none⟩

/-- The code does not round trip these: an EN-DC gNB identity (flag bits swapped), an F-TEID without address, a header
compression configuration without profiles, a presence reporting area without additional areas, a remote UE with a full IPv6
address, an MM context without optional fields. -/
theorem C06_violation (m : Mode) : ∀ e ∈ [exEnGNb, exNoAddr, exHdrCompr, exPrai, exRemoteUe, exMmGsm],
    unmKind (decoder m) m e.marshal e.kind ≠ .ok e := by
  cases m <;> decide +kernel

/-! ## C07: the length field -/

/-- C07: the length octets hold the number of octets behind the 4-octet header. -/
theorem C07_ie_length_field (e : IE) (h : e.marshal.length < 65540) :
    4 ≤ e.marshal.length ∧ (e.marshal.getD 1 0).toNat * 256 + (e.marshal.getD 2 0).toNat + 4 = e.marshal.length := by
  obtain ⟨l, i, body, hm⟩ := IE.marshal_tliv e
  rw [hm, tliv_eq] at h ⊢
  simp only [List.length_cons, List.getD_cons_succ, List.getD_cons_zero] at h ⊢
  have e1 : (lenU16 body).toNat = body.length := by simp [lenU16]; omega
  have e2 := of16_toNat (hi16 (lenU16 body)) (lo16 (lenU16 body))
  rw [of16_be] at e2
  omega

example : exBearer.marshal.length < 65540 := by decide +kernel

/-! ## C08: no panic -/

/-- The declared length, read off the octets. -/
def declared (b : Bytes) : Nat := (b.getD 1 0).toNat * 256 + (b.getD 2 0).toNat

theorem declared_eq (b : Bytes) : (declLen b).toNat = declared b := by
  rw [declLen, of16_toNat]
  rfl

/-- C08 (partial), one IE: decoding a buffer as an IE of a robust kind with a declared length below 65532 does not panic, in
either build mode, whatever the octets; for a grouped kind the decoding of the members must not panic either. Missing: the
other kinds (see `C08_violation_kinds`) and declared lengths of 65532 and more (see `C08_violation_length`). -/
theorem C08_ie_no_panic_partial (m : Mode) (k : Kind) (hk : k.robust = true) (b : Bytes) (hb : b ≠ []) (hl : declared b < 65532)
    (hg : declared b + 4 ≤ b.length → ((decoder m ((b.take (declared b + 4)).drop 4)).Safe fun _ => True)) :
    (unmKind (decoder m) m b k).Safe fun _ => True := by
  rw [← declared_eq] at hl hg
  exact Safe.mono (unmKind_safe (Kind.cond_robust hk hb hl) hg) fun _ _ => trivial

example : Kind.robust .Imsi = true ∧ Kind.robust .Cause = true ∧ Kind.robust .BearerContext = true ∧
    declared [1, 0, 200, 0, 0xff, 0xff] < 65532 := by decide

/-- C08 (partial), a sequence: if every IE the decoder comes across (at top level and inside grouped IEs) is of a robust kind
and declares less than 65532 octets, then the decoder returns a list or an error. -/
theorem C08_decoder_no_panic_partial (m : Mode) (b : Bytes)
    (h : ∀ s, Visits m b s → (kindOf (s.getD 0 0)).robust = true ∧ declared s < 65532) :
    decoder m b ≠ .panic ∧ decoder m b ≠ .diverge := by
  refine Safe.noPanic (decoder_safe fun s hs => ?_)
  have hne : s ≠ [] := by
    clear h
    induction hs with
    | here b hb => exact hb
    | inside _ _ _ _ ih => exact ih
    | next _ _ _ _ _ _ ih => exact ih
  obtain ⟨h1, h2⟩ := h s hs
  exact Kind.cond_robust h1 hne (by rw [declared_eq]; exact h2)

theorem Visits.nil {m : Mode} {s : Bytes} : ¬ Visits m [] s := by
  intro h
  generalize hb : ([] : Bytes) = b at h
  induction h with
  | here b h => exact h hb.symm
  | inside b s hl h ih => subst hb; exact ih rfl
  | next b s x n h1 h ih => subst hb; exact ih (by simp)

/-- A truncated IMSI: its buffer is the only one visited. -/
example : ∀ s, Visits .debug [1, 0, 8, 0, 0xff] s → (kindOf (s.getD 0 0)).robust = true ∧ declared s < 65532 := by
  intro s hs
  cases hs with
  | here _ _ => decide
  | inside _ _ h _ => exact absurd h (by decide)
  | next _ _ x n h _ =>
    have : decodeOne (decoder .debug) .debug [1, 0, 8, 0, 0xff] = .err (.ieInvalidLength 1) := by decide +kernel
    rw [this] at h
    cases h

/-- For every kind that is not robust, octets of one complete IE on which the decoder panics in both build modes. -/
def panicOctets : List Bytes := [
  [71, 0, 1, 0, 255],
  [77, 0, 9, 0, 0, 0, 0, 0],
  [86, 0, 21, 0, 255, 255, 255, 255, 255, 255, 255, 255, 255, 255, 255, 255, 255, 255, 255, 255, 255, 255, 255, 255, 255],
  [87, 0, 1, 0, 0],
  [90, 0, 1, 0, 4],
  [91, 0, 1, 0, 0],
  [103, 0, 16, 0, 0, 0, 0, 0, 0, 0, 0, 0, 0, 0, 0, 0, 0, 0, 0, 0],
  [104, 0, 36, 0, 1, 0, 0, 0, 0, 0, 0, 0, 0, 0, 0, 0, 0, 0, 0, 0, 0, 0, 0, 0, 0, 0, 0, 0, 0, 0, 0, 0, 0, 0, 0, 0, 0, 0, 0, 0],
  [105, 0, 16, 0, 0, 0, 0, 0, 0, 0, 0, 0, 0, 0, 0, 0, 0, 0, 0, 0],
  [106, 0, 37, 0, 1, 0, 0, 0, 0, 0, 0, 0, 0, 0, 0, 0, 0, 0, 0, 0, 0, 0, 0, 0, 0, 0, 0, 0, 0, 0, 0, 0, 0, 0, 0, 0, 0, 0, 0, 0, 0],
  [107, 0, 42, 0, 1, 0, 0, 0, 0, 0, 0, 0, 0, 0, 0, 0, 0, 0, 0, 0, 0, 0, 0, 0, 0, 0, 0, 0, 0, 0, 0, 0, 0, 0, 0, 0, 0, 0, 0, 0, 0, 0, 0, 0, 0, 0],
  [108, 0, 39, 0, 1, 0, 0, 0, 0, 0, 0, 0, 0, 0, 0, 0, 0, 0, 0, 0, 0, 0, 0, 0, 0, 0, 0, 0, 0, 0, 0, 0, 0, 0, 0, 0, 0, 0, 0, 0, 0, 0, 0],
  [129, 0, 9, 0, 1, 1, 1, 1, 1, 1, 1, 1, 1],
  [136, 0, 1, 0, 255],
  [142, 0, 4, 0, 0, 0, 0, 0],
  [159, 0, 1, 0, 0],
  [162, 0, 11, 0, 0, 0, 0, 0, 0, 0, 0, 0, 0, 0, 0],
  [175, 0, 1, 0, 0],
  [177, 0, 1, 0, 0],
  [184, 0, 2, 0, 255, 255],
  [186, 0, 2, 0, 1, 1],
  [192, 0, 2, 0, 255, 255],
  [205, 0, 7, 0, 0, 0, 0, 0, 0, 0, 0],
  [206, 0, 1, 0, 0],
  [212, 0, 1, 0, 0],
  [215, 0, 1, 0, 255],
  [254, 0, 1, 0, 0],
  [255, 0, 1, 0, 0, 0, 0]]

/-- C08 is violated for every kind that is not robust: the list covers every type octet of such a kind. -/
theorem C08_violation_kinds (m : Mode) :
    (∀ b ∈ panicOctets, decoder m b = .panic) ∧
    (∀ t : UInt8, (kindOf t).robust = false → ∃ b ∈ panicOctets, b.getD 0 0 = t) := by
  constructor
  · cases m <;> decide +kernel
  · decide +kernel

/-- C08 is violated by a declared length of 65532 or more, also for the robust kinds: in a debug build by the overflow of
`length + 4`, in a release build (the check having passed after wrapping) by the slice. -/
theorem C08_violation_length (m : Mode) : decoder m [1, 0xff, 0xfc, 0, 0x21, 0x43, 0x65, 0xf7] = .panic := by
  cases m <;> decide +kernel

/-! ## C09: sequences -/

/-- C09: decoding the concatenated encodings of well-formed IEs gives back the list, in order. -/
theorem C09_sequence_roundtrip (m : Mode) (l : List IE) (h : ∀ e ∈ l, e.WF) :
    decoder m (l.flatMap IE.marshal) = .ok l := decoder_encoder h

/-- C09, in front of further octets: what follows is decoded as if it stood alone. -/
theorem C09_sequence_append (m : Mode) (l : List IE) (h : ∀ e ∈ l, e.WF) (tail : Bytes) (r : List IE) :
    decoder m (l.flatMap IE.marshal ++ tail) = .ok (l ++ r) ↔ decoder m tail = .ok r := by
  have e := decoder_encoder_append (m := m) h tail
  unfold IE.encoder at e
  rw [e]
  cases decoder m tail <;> simp

example : ∀ e ∈ [exImsi, exBearer, exRecovery, exBearer], e.WF := by decide +kernel

/-! ## C10: termination -/

/-- C10, debug build: the decoder finishes on every buffer. -/
theorem C10_terminates_debug (b : Bytes) : decoder .debug b ≠ .diverge := decoder_fin (.inl rfl)

/-- C10 (partial), release build: the decoder finishes on every buffer in which no octet 0xff is followed by one of
0xfc..0xff. Missing: buffers with an IE whose declared length overflows when 4 is added, see `C10_violation`. -/
theorem C10_terminates_release_partial (b : Bytes)
    (h : ∀ i, ¬ ((b.getD i 0).toNat = 255 ∧ 252 ≤ (b.getD (i + 1) 0).toNat)) : decoder .release b ≠ .diverge := by
  refine decoder_fin (.inr fun i => ?_)
  have := h i
  have h1 := (b.getD i 0).toNat_lt
  have h2 := (b.getD (i + 1) 0).toNat_lt
  rw [of16_toNat]
  omega

example : ∀ i, ¬ (((exBearer.marshal.getD i 0).toNat = 255) ∧ 252 ≤ (exBearer.marshal.getD (i + 1) 0).toNat) := by
  intro i
  by_cases hi : i < exBearer.marshal.length
  · have : ∀ i < exBearer.marshal.length,
        ¬ (((exBearer.marshal.getD i 0).toNat = 255) ∧ 252 ≤ (exBearer.marshal.getD (i + 1) 0).toNat) := by decide +kernel
    exact this i hi
  · have : exBearer.marshal.getD i 0 = 0 := by simp [List.getD, hi]
    rw [this]
    simp

/-- C10: every turn of the loop consumes at least four octets. -/
theorem C10_progress (m : Mode) (b : Bytes) (x : IE) (n : Nat) (hm : m = .debug ∨ declared b < 65532)
    (h : decodeOne (decoder m) m b = .ok (x, n)) : 4 ≤ n :=
  decodeOne_pos h (by rw [declared_eq]; exact hm)

example : decodeOne (decoder .release) .release [3, 0, 1, 0, 9, 3] = .ok (.Recovery ⟨3, 1, 0, 9⟩, 5) := by decide +kernel

/-- C10 is violated in a release build: this buffer is decoded as an F-Container of length 65532, which counts as 65536 ≡ 0
octets, over and over. -/
theorem C10_violation : decoder .release [118, 0xff, 0xfc, 0, 0] = .diverge := by decide +kernel

/-! ## C11: the declared length decides where the next IE begins -/

/-- C11 (partial): an IE of an exact kind is followed by the octet at declared length + 4. Missing: the kinds that advance by
a number of octets of their own, see `C11_fixed` and `C11_violation`; overflowing lengths in release builds. -/
theorem C11_declared_length_partial (m : Mode) (b : Bytes) (x : IE) (n : Nat)
    (h : decodeOne (decoder m) m b = .ok (x, n)) (hk : (kindOf (b.getD 0 0)).exact = true)
    (hm : m = .debug ∨ declared b < 65532) : n = declared b + 4 := by
  rw [← declared_eq] at hm ⊢
  obtain ⟨_, h1, h2⟩ := decodeOne_inv h
  have h3 := Post.elim (unmKind_length _ m b _) h1
  have h4 := Post.elim (unmKind_kind _ m b _) h1
  rw [← h3]
  exact IE.len_exact (by rw [h4]; exact hk) (by rw [h3]; exact hm) h2

example : (kindOf 1).exact = true ∧ decodeOne (decoder .debug) .debug (exImsi.marshal ++ [7]) = .ok (exImsi, 12) := by
  decide +kernel

/-- C11: the fixed-size kinds advance by their size whatever length is declared, so that C11 holds for them exactly if the
declared length is the size. -/
theorem C11_fixed (m : Mode) (b : Bytes) (x : IE) (n k : Nat)
    (h : decodeOne (decoder m) m b = .ok (x, n)) (hk : (kindOf (b.getD 0 0)).fixed = some k) :
    n = k ∧ (n = declared b + 4 ↔ declared b + 4 = k) := by
  obtain ⟨_, h1, h2⟩ := decodeOne_inv h
  have h4 := Post.elim (unmKind_kind _ m b _) h1
  have h5 := IE.len_fixed (m := m) (e := x) (by rw [h4]; exact hk)
  rw [h5] at h2
  injection h2 with h2
  omega

example : (kindOf 3).fixed = some 5 ∧ (kindOf 73).fixed = some 5 ∧ (kindOf 72).fixed = some 12 := by decide

/-- How many kinds are exact and fixed; four kinds compute their size from the decoded value. -/
theorem C11_kinds : ∀ t : UInt8, (kindOf t).exact = true ∨ (kindOf t).fixed ≠ none ∨
    kindOf t = .EcgiList ∨ kindOf t = .PagingServiceInfo ∨ kindOf t = .TargetIdentification ∨
    kindOf t = .SourceIdentification := by decide +kernel

/-- C11 is violated: a Recovery IE that declares two octets (as a later version of the protocol may extend it) is taken for
one of one octet; its last octet is then taken for the type of the next IE and decoding fails. -/
theorem C11_violation (m : Mode) :
    decodeOne (decoder m) m [3, 0, 2, 0, 9, 9] = .ok (.Recovery ⟨3, 2, 0, 9⟩, 5) ∧
    decoder m [3, 0, 2, 0, 9, 9] = .err (.ieInvalidLength 9) := by
  cases m <;> decide +kernel

/-! ## C12: dispatch -/

/-- C12 (partial): the decoder selects the kind of the encoded IE, whatever the field values. Missing: the two kinds of
`C12_violation`, and the two whose `t` field is written instead of a constant (they need the right value there). -/
theorem C12_dispatch_partial (e : IE) (h1 : e.kind ≠ .TraceReference) (h2 : e.kind ≠ .TwanId)
    (h3 : ∀ x, e = .Uli x → x.t = 86) (h4 : ∀ x, e = .Unknown x → kindOf x.t = .Unknown) :
    kindOf (e.marshal.getD 0 0) = e.kind := by
  have h0 : e.marshal.getD 0 0 = e.wireType := by
    obtain ⟨r, hr, _⟩ := IE.marshal_cons e
    rw [hr]
    rfl
  rw [h0]
  cases e with
  | TraceReference x => exact absurd rfl h1
  | TwanId x => exact absurd rfl h2
  | MmContext x => cases x <;> rfl
  | Uli x => simp only [IE.wireType]; rw [h3 x rfl]; rfl
  | Unknown x => exact h4 x rfl
  | _ => rfl

example : exBearer.kind ≠ .TraceReference ∧ exBearer.kind ≠ .TwanId ∧ exBearer.marshal.getD 0 0 = 93 := by decide +kernel

/-- C12 is violated: a trace reference is written with the type of the serving network, and decoded as one; a TWAN identifier
is decoded as an action indication. -/
theorem C12_violation (m : Mode) :
    decoder m exTrace.marshal ≠ .ok [exTrace] ∧ kindOf (exTrace.marshal.getD 0 0) = .ServingNetwork ∧
    decoder m exTwan.marshal ≠ .ok [exTwan] ∧ kindOf (exTwan.marshal.getD 0 0) = .ActionIndication := by
  cases m <;> decide +kernel

/-! ## C13: unknown IEs -/

/-- C13 (partial): an IE of an unsupported type with a non-empty value is carried with its value and instance, and the IEs
around it are decoded as usual. Missing: its type is not kept, and an empty value is not accepted (see `C13_violation`). -/
theorem C13_unknown_partial (m : Mode) (l r : List IE) (hl : ∀ e ∈ l, e.WF) (hr : ∀ e ∈ r, e.WF)
    (t hi lo ins : UInt8) (v : Bytes) (ht : kindOf t = .Unknown) (hv : hi.toNat * 256 + lo.toNat = v.length)
    (h0 : v ≠ []) (h1 : v.length < 65532) :
    decoder m (l.flatMap IE.marshal ++ (t :: hi :: lo :: ins :: v ++ r.flatMap IE.marshal)) =
      .ok (l ++ .Unknown ⟨0, of16 hi lo, ins, v⟩ :: r) := by
  refine (C09_sequence_append m l hl _ _).mpr ?_
  have hp : 0 < v.length := List.length_pos_iff.mpr h0
  have hn : (of16 hi lo).toNat = v.length := by rw [of16_toNat]; exact hv
  have e1 : lenU16 v = of16 hi lo := by
    apply UInt16.toNat_inj.mp
    rw [hn]
    simp [lenU16]
    omega
  have e2 : t :: hi :: lo :: ins :: v ++ r.flatMap IE.marshal = tliv t (of16 hi lo) ins v ++ r.flatMap IE.marshal := by
    rw [tliv_eq, e1, hi16_of16, lo16_of16]
  have e3 := Unknown.unmarshal_rt (m := m) (t := t) (ins := ins) (tail := r.flatMap IE.marshal) hn (by omega) (by omega)
  have e4 : decodeOne (decoder m) m (t :: hi :: lo :: ins :: v ++ r.flatMap IE.marshal) =
      .ok (.Unknown ⟨0, of16 hi lo, ins, v⟩, v.length + 4) := by
    unfold decodeOne
    rw [List.cons_append, rd_zero, R.ok_bind, ht, ← List.cons_append, e2]
    simp only [unmKind, e3, R.ok_bind, R.pure_eq, IE.len, ieLenU, hn]
  rw [decoder_step (by simp) e4 (by omega)]
  have e5 : (t :: hi :: lo :: ins :: v ++ r.flatMap IE.marshal).drop (v.length + 4) = r.flatMap IE.marshal := by simp
  rw [e5, C09_sequence_roundtrip m r hr, R.ok_bind]

example : kindOf 60 = .Unknown ∧ (0 : UInt8).toNat * 256 + (3 : UInt8).toNat = [7, 8, 9].length := by decide

/-- C13 is violated: an unsupported IE without value makes the decoding of the whole sequence fail, and the type of an
unsupported IE is not kept, so that re-encoding changes it. -/
theorem C13_violation (m : Mode) :
    decoder m ([60, 0, 0, 0] ++ exRecovery.marshal) = .err (.ieInvalidLength 0) ∧
    decoder m [60, 0, 1, 0, 7] = .ok [.Unknown ⟨0, 1, 0, [7]⟩] ∧
    (IE.Unknown ⟨0, 1, 0, [7]⟩).marshal ≠ [60, 0, 1, 0, 7] := by
  cases m <;> decide +kernel

/-! ## C24: grouped IEs -/

/-- C24 (partial): a grouped IE is decoded back with all its members, whatever follows. Missing: members that the encoder
drops, see `C24_violation`. -/
theorem C24_grouped_partial (m : Mode) (e : IE) (h : e.WF) (tail : Bytes)
    (hk : e.kind ∈ [.BearerContext, .PdnConnections, .OverloadControlInfo, .LoadControlInfo, .RemoteUeContext,
      .ScefPdnConnections, .V2xInformation, .PC5QosParameters, .PgwChangeInfo]) :
    unmKind (decoder m) m (e.marshal ++ tail) e.kind = .ok e ∧
    e.marshal.drop 4 = e.members.flatMap IE.marshal ∧ decoder m (e.marshal.drop 4) = .ok e.members := by
  have hm : e.marshal.drop 4 = e.members.flatMap IE.marshal := by
    rw [IE.marshal_eq]
    cases e with
    | BearerContext x => simp only [IE.marshalWith, IE.groupMar, tliv_eq, List.drop_succ_cons, List.drop_zero]; rfl
    | PdnConnections x => simp only [IE.marshalWith, IE.groupMar, tliv_eq, List.drop_succ_cons, List.drop_zero]; rfl
    | OverloadControlInfo x => simp only [IE.marshalWith, IE.groupMar, tliv_eq, List.drop_succ_cons, List.drop_zero]; rfl
    | LoadControlInfo x => simp only [IE.marshalWith, IE.groupMar, tliv_eq, List.drop_succ_cons, List.drop_zero]; rfl
    | RemoteUeContext x => simp only [IE.marshalWith, IE.groupMar, tliv_eq, List.drop_succ_cons, List.drop_zero]; rfl
    | ScefPdnConnections x => simp only [IE.marshalWith, IE.groupMar, tliv_eq, List.drop_succ_cons, List.drop_zero]; rfl
    | V2xInformation x => simp only [IE.marshalWith, IE.groupMar, tliv_eq, List.drop_succ_cons, List.drop_zero]; rfl
    | PC5QosParameters x => simp only [IE.marshalWith, IE.groupMar, tliv_eq, List.drop_succ_cons, List.drop_zero]; rfl
    | PgwChangeInfo x => simp only [IE.marshalWith, IE.groupMar, tliv_eq, List.drop_succ_cons, List.drop_zero]; rfl
    | _ => exact absurd hk (by simp [IE.kind])
  refine ⟨unmKind_rt h (decoder_encoder fun _ hy => IE.WF_members h hy), hm, ?_⟩
  rw [hm]
  exact decoder_encoder fun _ hy => IE.WF_members h hy

example : exBearer.WF ∧ exBearer.kind = .BearerContext := by decide +kernel

/-- C24 is violated: the BSS container and the transaction identifier of a bearer context are not encoded, and of two APN
entries of a load control IE only the last one survives. -/
theorem C24_violation (m : Mode) :
    (let x : BearerContext :=
      { t := 93, length := 17, ins := 0, ebi := ⟨73, 1, 0, 5⟩, cause := none, tft := none, fteids := [], bearer_qos := none,
        charging_id := none, bearer_flags := none, pco := none, apco := none, epco := none, max_packet_loss := none,
        ran_nas_cause := none, bss_container := some ⟨118, 3, 0, .Bss [1, 2]⟩, transaction_id := some ⟨137, 1, 0, ⟨true, 3⟩⟩ }
     (IE.BearerContext x).marshal = [93, 0, 5, 0, 73, 0, 1, 0, 5] ∧
     decoder m (IE.BearerContext x).marshal ≠ .ok [.BearerContext x]) ∧
    (let x : LoadControl :=
      { t := 181, length := 27, ins := 0, sqn := ⟨183, 4, 0, 9⟩, load_metric := ⟨182, 1, 0, 50⟩,
        list := some [⟨184, 3, 0, 10, ['a']⟩, ⟨184, 3, 0, 20, ['b']⟩] }
     decoder m (IE.LoadControlInfo x).marshal =
      .ok [.LoadControlInfo { x with list := some [⟨184, 3, 0, 20, ['b']⟩] }]) := by
  cases m <;> decide +kernel

/-! ## C37: encodings are unambiguous -/

/-- C37: no two different well-formed IEs, of whatever kinds, have encodings of which one is a prefix of the other. -/
theorem C37_prefix_free (e f : IE) (he : e.WF) (hf : f.WF) (s t : Bytes) (h : e.marshal ++ s = f.marshal ++ t) :
    e = f ∧ s = t := by
  have h1 := decodeOne_marshal (dec := decoder .debug) (m := .debug) (tail := s) he (decoder_encoder fun _ hy => IE.WF_members he hy)
  have h2 := decodeOne_marshal (dec := decoder .debug) (m := .debug) (tail := t) hf (decoder_encoder fun _ hy => IE.WF_members hf hy)
  rw [h, h2] at h1
  injection h1 with h1
  injection h1 with h3 h4
  subst h3
  exact ⟨rfl, List.append_cancel_left h⟩

/-- C37, injectivity within a kind, also for the two kinds that the sequence decoder cannot find. -/
theorem C37_injective (e f : IE) (he : WellFormed e) (hf : WellFormed f) (hk : e.kind = f.kind) (h : e.marshal = f.marshal) :
    e = f := by
  have h1 := C06_ie_roundtrip_partial .debug e he []
  have h2 := C06_ie_roundtrip_partial .debug f hf []
  rw [h, hk, h2] at h1
  injection h1 with h1
  exact h1.symm

/-- C37, sequences. -/
theorem C37_sequence_injective (l r : List IE) (hl : ∀ e ∈ l, e.WF) (hr : ∀ e ∈ r, e.WF)
    (h : l.flatMap IE.marshal = r.flatMap IE.marshal) : l = r := by
  have h1 := C09_sequence_roundtrip .debug l hl
  rw [h, C09_sequence_roundtrip .debug r hr] at h1
  injection h1 with h1
  exact h1.symm

example : exImsi.WF ∧ (IE.Imsi ⟨1, 8, 0, "310260123456780".toList⟩).WF ∧
    exImsi.marshal ≠ (IE.Imsi ⟨1, 8, 0, "310260123456780".toList⟩).marshal := by decide +kernel

end Gtp.Props
