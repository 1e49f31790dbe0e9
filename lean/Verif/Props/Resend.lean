import Verif.V2.Deep

/-!
# C60 and C61: lengths are computed when encoding, and what was decoded can be sent on

C60. Every IE has a public `length` field. A caller that changes an IE does not have to keep it up to date: `marshal` computes the
length from the contents and overwrites the two octets (utils.rs:4-8).

C61. A node that relays a message decodes it and encodes it again. The receiver must then decode the values that the relay has
decoded. This does not hold for every IE; `IE.Faithful` (Verif/V2/Stable.lean) lists the conditions for IEs that hold no other IEs,
and `IE.Good` (Verif/V2/Deep.lean) extends them to grouped IEs. `IE.deep` sets the length fields of an IE, and of the IEs in it, to
those of the encoding; `C61_lengths` says that it changes nothing else.
-/

namespace Gtp.Props

open Gtp.V2

/-! ## C60 -/

/-- `setLength` changes the length field to the given value and is undone by setting the old value, so it changes nothing else. -/
theorem C60_setLength (n : UInt16) (e : IE) : (e.setLength n).length = n ∧ (e.setLength n).setLength e.length = e ∧
    (e.setLength n).kind = e.kind :=
  ⟨IE.length_setLength n e, by rw [IE.setLength_setLength, IE.setLength_self], IE.kind_setLength n e⟩

/-- The length field has no influence on the encoding. -/
theorem C60_encoding_ignores_length (n : UInt16) (e : IE) : (e.setLength n).marshal = e.marshal := IE.marshal_setLength n e

/-- The second and third octets are the number of octets behind the fourth, modulo 65536. -/
theorem C60_length_octets (e : IE) : 4 ≤ e.marshal.length ∧
    (rd16 e.marshal 1 : R Err UInt16) = .ok (UInt16.ofNat (e.marshal.length - 4)) := by
  obtain ⟨l, i, body, h⟩ := IE.marshal_tliv e
  rw [h, tliv_eq]
  refine ⟨by simp, ?_⟩
  simp [be16, rd16, rd, lenU16, of16_be]

/-- An IE that is well-formed up to its length field is decoded with the length it was encoded with, and otherwise unchanged. -/
theorem C60_round_trip (m : Mode) (e : IE) (tail : Bytes) (h : e.norm.WF) :
    decoder m (e.marshal ++ tail) = (decoder m tail >>= fun l => .ok (e.norm :: l)) := by
  have := decoder_marshal (m := m) h tail
  rwa [IE.norm, IE.marshal_setLength] at this

/-- An `Apn` whose name has been changed without touching the length, and a recovery counter with a nonsensical length. -/
example : (IE.Apn ⟨71, 3, 0, ['i', 'm', 's', '.', 'n', 'e', 't']⟩).norm.WF ∧ (IE.Recovery ⟨3, 999, 0, 7⟩).norm.WF ∧
    (IE.Apn ⟨71, 3, 0, ['i', 'm', 's', '.', 'n', 'e', 't']⟩).marshal = [71, 0, 8, 0, 3, 105, 109, 115, 3, 110, 101, 116] ∧
    (IE.Recovery ⟨3, 999, 0, 7⟩).marshal = [3, 0, 1, 0, 7] := by decide +kernel

/-! ## C61 -/

/-- `IE.deep` sets the length of an IE to that of the encoding and does so in the IEs it holds. The kind, the type octet and the
instance stay, the encoding stays, and an IE that is not grouped changes in its length field only. -/
theorem C61_lengths (e : IE) : e.deep.length.toNat = (e.marshal.length - 4) % 65536 ∧ e.deep.members = e.members.map IE.deep ∧
    e.deep.kind = e.kind ∧ e.deep.t = e.t ∧ e.deep.ins = e.ins ∧ e.deep.marshal = e.marshal ∧
    (e.grouped = false → e.deep.setLength e.length = e) := by
  refine ⟨?_, IE.members_deep e, IE.deep_kind e, IE.deep_t e, IE.deep_ins e, IE.deep_marshal e, fun h => ?_⟩
  · rw [IE.deep_length, IE.bodyLen, UInt16.toNat_ofNat']
  · rw [IE.deep_plain h, IE.norm, IE.setLength_setLength, IE.setLength_self]

/-- C61 for one IE, in front of anything. What is missing for the full statement are the IEs that are not `Good`. -/
theorem C61_one_partial (m m' : Mode) (b tail : Bytes) (e : IE) (h : unmKind (decoder m) m b (kindOf (b.getD 0 0)) = .ok e)
    (hf : e.Good) (hl : e.marshal.length < 65536) :
    decoder m' (e.marshal ++ tail) = (decoder m' tail >>= fun l => .ok (e.deep :: l)) := by
  have := decoder_marshal (m := m') (deep_WF _ e (Nat.lt_succ_self _) (.inl ⟨b, h⟩) hf hl) tail
  rwa [IE.deep_marshal] at this

/-- C61 for a buffer: the IEs that the decoder reads from a buffer, encoded and decoded again, are the same IEs up to their length
fields, which become those of the encoding. -/
theorem C61_partial (m m' : Mode) (b : Bytes) (es : List IE) (h : decoder m b = .ok es)
    (hf : ∀ e ∈ es, e.Good ∧ e.marshal.length < 65536) : decoder m' (IE.encoder es) = .ok (es.map IE.deep) := by
  rw [← encoder_deep]
  refine decoder_encoder fun x hx => ?_
  obtain ⟨e, he, rfl⟩ := List.mem_map.mp hx
  exact deep_WF _ e (Nat.lt_succ_self _) (.inl (decoder_arms _ (Nat.lt_succ_self _) h e he)) (hf e he).1 (hf e he).2

/-- Nothing changes if the sender has written the right lengths. -/
theorem C61_exact_partial (m m' : Mode) (b : Bytes) (es : List IE) (h : decoder m b = .ok es)
    (hf : ∀ e ∈ es, e.Good ∧ e.marshal.length < 65536 ∧ e.deep = e) : decoder m' (IE.encoder es) = .ok es := by
  rw [C61_partial m m' b es h fun e he => ⟨(hf e he).1, (hf e he).2.1⟩]
  congr 1
  exact (List.map_congr_left fun e he => (hf e he).2.2).trans (List.map_id es)

/-- A further relay changes nothing any more. -/
theorem C61_stable_partial (m m' m'' : Mode) (b : Bytes) (es : List IE) (h : decoder m b = .ok es)
    (hf : ∀ e ∈ es, e.Good ∧ e.marshal.length < 65536) :
    ∃ es', decoder m' (IE.encoder es) = .ok es' ∧ decoder m'' (IE.encoder es') = .ok es' ∧ IE.encoder es' = IE.encoder es :=
  ⟨_, C61_partial m m' b es h hf, by rw [encoder_deep]; exact C61_partial m m'' b es h hf, encoder_deep es⟩

/-- A buffer with an IMSI, an APN, a recovery counter whose length octets are too large by one, which is tolerated, and a bearer
context with an EPS bearer identity whose length is too large by one. -/
def resendBuffer : Bytes :=
  [1, 0, 2, 0, 0x99, 0xf9, 71, 0, 4, 0, 3, 105, 109, 115, 93, 0, 5, 0, 73, 0, 2, 0, 5, 3, 0, 2, 0, 5]

/-- What it is decoded to. -/
def resendExample : List IE :=
  [.Imsi ⟨1, 2, 0, ['9', '9', '9']⟩, .Apn ⟨71, 4, 0, ['i', 'm', 's']⟩,
   .BearerContext { BearerContext.init 93 5 0 with ebi := ⟨73, 2, 0, 5⟩ }, .Recovery ⟨3, 2, 0, 5⟩]

example : decoder .debug resendBuffer = .ok resendExample ∧
    resendExample.map IE.deep = [.Imsi ⟨1, 2, 0, ['9', '9', '9']⟩, .Apn ⟨71, 4, 0, ['i', 'm', 's']⟩,
      .BearerContext { BearerContext.init 93 5 0 with ebi := ⟨73, 1, 0, 5⟩ }, .Recovery ⟨3, 1, 0, 5⟩] := by
  decide +kernel

example : ∀ e ∈ resendExample, e.Good ∧ e.marshal.length < 65536 := by
  intro e he
  simp only [resendExample, List.mem_cons, List.not_mem_nil, or_false] at he
  rcases he with rfl | rfl | rfl | rfl
  · exact ⟨by simp [IE.Good, IE.GoodWith, IE.Faithful], by decide +kernel⟩
  · exact ⟨(by decide : NameOk ['i', 'm', 's']), by decide +kernel⟩
  · refine ⟨⟨rfl, rfl, fun y hy => ?_⟩, by decide +kernel⟩
    have : y = .Ebi ⟨73, 2, 0, 5⟩ := List.mem_singleton.mp hy
    subst this
    exact trivial
  · exact ⟨trivial, by decide +kernel⟩

/-- An MM context with a GSM key and the three capabilities, and one more octet than its fields take. -/
def resendMm : Bytes := [103, 0, 20, 0, 1, 0, 3, 0, 0, 0, 0, 0, 0, 0, 5, 1, 0x11, 1, 0x22, 1, 0x33, 0, 0, 0]

/-- What it is decoded to, with length `n`. -/
def resendMmValue (n : UInt16) : IE := .MmContext (.MmContextGsmKeyTriplets
  { t := 103, length := n, ins := 0, sec_mode := .GsmKeyAndTriplets, cksn := 1, used_cipher := .Gea3, kc := 5, auth_triplets := none,
    drx_params := none, subscr_ue_ambr := none, used_ue_ambr := none, ue_ntwk_cap := some [0x11], ms_ntwk_cap := some [0x22],
    mei := some [0x33], access_res := ⟨false, false, false, false, false, false, false, false⟩, vdn_pref_ue_usage := none })

example : decoder .debug resendMm = .ok [resendMmValue 20] ∧ (resendMmValue 20).marshal.length < 65536 ∧
    (resendMmValue 20).deep = resendMmValue 19 := by decide +kernel

example : (resendMmValue 20).Good := (by decide +kernel : MmContext.Faithful (.MmContextGsmKeyTriplets _))

/-- The buffer holds one IE, which can be decoded, and encoding it and decoding it again gives something else. -/
def resendFails (m : Mode) (b : Bytes) : Bool :=
  match decoder m b with
  | .ok [e] => decide (e.marshal.length < 65536) && decide (decoder m e.marshal ≠ .ok [e.deep])
  | _ => false

/-- Buffers on which C61 fails, with the kind of IE they hold: identities without digits; names that are not ASCII; a CSG identity
of more than 27 bits; an MM context without capabilities; a presence reporting area without a second one; more than 63 extended
macro eNodeBs; a trace reference; a bearer context with a transaction identifier and one with a BSS container, which are decoded
and not encoded; and two grouped IEs without any member that the code knows, which are encoded with length 0. -/
def resendWitnesses : List (Kind × Bytes) :=
  [(.Imsi, [1, 0, 1, 0, 0xff]), (.Mei, [75, 0, 1, 0, 0xff]), (.Msisdn, [76, 0, 1, 0, 0xff]), (.AlternativeImsi, [219, 0, 1, 0, 0xff]),
   (.Apn, [71, 0, 2, 0, 1, 0xe9]), (.Fqdn, [136, 0, 2, 0, 1, 0xe9]), (.PgwFqdn, [215, 0, 2, 0, 1, 0xe9]),
   (.ApnRelativeCapacity, [184, 0, 3, 0, 1, 1, 0xe9]), (.Ldn, [151, 0, 1, 0, 0xe9]), (.NodeIdentifier, [176, 0, 3, 0, 1, 0xe9, 0]),
   (.Uci, [145, 0, 8, 0, 0x99, 0xf9, 0x10, 0xff, 0xff, 0xff, 0xff, 0]),
   (.MmContext, [103, 0, 53, 0] ++ List.replicate 53 0), (.PresenceReportingAreaInformation, [178, 0, 8, 0, 0, 0, 1, 1, 0, 0, 0, 0]),
   (.PresenceReportingAreaAction, [177, 1, 139, 0, 1, 0, 0, 1, 0, 0, 0, 0, 0, 0, 64] ++ List.replicate 384 0),
   (.TraceReference, [115, 0, 6, 0, 0x99, 0xf9, 0x10, 1, 2, 3]),
   (.BearerContext, [93, 0, 10, 0, 73, 0, 1, 0, 5, 137, 0, 1, 0, 0x10]), (.BearerContext, [93, 0, 11, 0, 73, 0, 1, 0, 5, 118, 0, 2, 0, 2, 7]),
   (.PgwChangeInfo, [214, 0, 5, 0, 3, 0, 1, 0, 85]), (.V2xInformation, [208, 0, 5, 0, 3, 0, 1, 0, 85])]

/-- C61 does not hold in general. -/
theorem C61_violation : ∀ w ∈ resendWitnesses, kindOf (w.2.getD 0 0) = w.1 ∧ resendFails .debug w.2 = true := by
  have h : (resendWitnesses.all fun w => decide (kindOf (w.2.getD 0 0) = w.1) && resendFails .debug w.2) = true := by decide +kernel
  intro w hw
  have := List.all_eq_true.mp h w hw
  simp only [Bool.and_eq_true, decide_eq_true_eq] at this
  exact this

/-- What happens to a Local Distinguished Name with an octet above 127: it is read as Latin-1 and written as UTF-8, so each relay
adds an octet. -/
theorem C61_violation_ldn (m : Mode) : decoder m [151, 0, 1, 0, 0xe9] = .ok [.Ldn ⟨151, 1, 0, ['é']⟩] ∧
    (IE.Ldn ⟨151, 1, 0, ['é']⟩).marshal = [151, 0, 2, 0, 0xc3, 0xa9] ∧
    decoder m [151, 0, 2, 0, 0xc3, 0xa9] = .ok [.Ldn ⟨151, 2, 0, ['Ã', '©']⟩] := by
  cases m <;> decide +kernel

end Gtp.Props
