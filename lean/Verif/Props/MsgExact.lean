import Verif.Props.Append
import Verif.Props.Msg
/-!
# Which buffers are accepted as a GTPv2-C message (C79)

The theorems of `Props/Msg.lean` say what happens to a buffer that carries a message. Here: the buffers that are accepted as a message
`y` are exactly those that carry it, for all byte strings.
-/

namespace Gtp.Props
open Gtp.V2

/-- `els` are the IEs that stand in `b` one behind the other: the first octet tells the type of the IE, the decoder of the type reads the IE, the
next IE begins as many octets later as the IE says, and the last reaches the end of `b`. -/
inductive Spells (m : Mode) : Bytes → List IE → Prop where
  | nil : Spells m [] []
  | cons {t : UInt8} {b : Bytes} {x : IE} {xs : List IE} {n : Nat} : unmKind (decoder m) m (t :: b) (kindOf t) = .ok x → x.len m = .ok n →
      0 < n → Spells m ((t :: b).drop n) xs → Spells m (t :: b) (x :: xs)

/-- The IEs in a buffer are determined by it. -/
theorem Spells.unique {m : Mode} {b : Bytes} {xs ys : List IE} (h : Spells m b xs) (h' : Spells m b ys) : xs = ys := by
  induction h generalizing ys with
  | nil => cases h'; rfl
  | cons h1 h2 _ _ ih =>
    cases h' with
    | cons g1 g2 _ g4 =>
      rw [h1] at g1
      obtain rfl := R.ok.inj g1
      rw [h2] at g2
      obtain rfl := R.ok.inj g2
      rw [ih g4]

/-- C79: the loop over the IEs finds exactly the IEs that stand in the buffer. -/
theorem C79_sequence (m : Mode) (b : Bytes) (els : List IE) : decoder m b = .ok els ↔ Spells m b els := by
  constructor
  · intro h
    induction els generalizing b with
    | nil => rw [decoder_nil_inv h]; exact .nil
    | cons x xs ih =>
      obtain ⟨hb, n, hn, h1, h2⟩ := decoder_cons_inv h
      cases b with
      | nil => exact absurd rfl hb
      | cons t b =>
        have hl := (decodeOne_inv h1).1
        refine .cons ?_ hl (Nat.pos_of_ne_zero hn) (ih _ h2)
        simp only [decodeOne, rd_zero, R.ok_bind] at h1
        cases hx : unmKind (decoder m) m (t :: b) (kindOf t) with
        | ok y =>
          rw [hx] at h1
          simp only [R.ok_bind] at h1
          cases hk : y.len m with
          | ok k => rw [hk] at h1; injection h1 with h1; injection h1 with h1 _; rw [h1]
          | _ => rw [hk] at h1; cases h1
        | _ => rw [hx] at h1; cases h1
  · intro h
    induction h with
    | nil => rw [decoder_eq, if_pos rfl]
    | cons h1 h2 h3 _ ih =>
      rw [decoder_eq, if_neg (by simp)]
      simp only [decodeOne, rd_zero, R.ok_bind, h1, h2]
      show (if _ then _ else _) = _
      rw [if_neg (by omega), ih]
      rfl

/-- What a field holds when the IEs `els` have arrived. -/
def holding (els : List IE) (s : Slot) : List IE :=
  match s.card with
  | .one | .opt | .manyFirst => (arriving s els).take 1
  | .oneLast | .optLast => (arriving s els).getLast?.toList
  | .many | .many1 _ => arriving s els

theorem select_eq_holding (s : Slot) (els : List IE) : s.select els = holding els s := rfl

/-- The buffer is read as the message `y` of type `k`: a header of the type that announces at most the octets that are there, then up to the announced
end a sequence of IEs, those of all mandatory fields among them, and `y` has the header and in each field the IEs that arrived for it. -/
def ReadAs (m : Mode) (k : MsgKind) (b : Bytes) (y : k.T) : Prop :=
  ∃ h els start, headerSpec b = .ok h ∧ oct b 1 = k.codec.msgtype.toNat ∧ announced b ≤ b.length ∧ k.codec.start = some start ∧
    start ≤ announced b ∧ Spells m ((b.take (announced b)).drop start) els ∧
    (∀ s ∈ k.schema, s.card.mandatory = true → Present s els) ∧ k.codec.header y = h ∧ k.fields y = k.schema.map (holding els)

theorem carries_of_unmarshal {m : Mode} {k : MsgKind} {b : Bytes} {y : k.T} (hk : k ≠ .VersionNotSupported)
    (hy : k.codec.unmarshal m b = .ok y) : ∃ h els, Carries m k b h els := by
  obtain ⟨h, hh⟩ := unmarshal_inv hy
  have ht := C17_accepts_own_type m k b y hy
  have hl := C18_complete_partial m k hk b y hy
  have hlen := header_length hh
  have hne : k.codec.start ≠ none := fun h => hk (start_none k h)
  obtain ⟨start, hs⟩ := Option.ne_none_iff_exists'.mp hne
  have hty : h.msgtype = k.codec.msgtype := UInt8.toNat_inj.mp ((header_type hh).1.trans ht)
  rw [Codec.unmarshal_eq _ _ _ hh, if_neg (by simp [hty]), hs] at hy
  simp only at hy
  rw [hlen, if_neg (by omega)] at hy
  split at hy
  · cases hy
  · next h2 =>
    cases hd : decoder m ((b.take (announced b)).drop start) with
    | ok els =>
      exact ⟨h, els, by rw [← C02_header_total_precise]; exact hh, ht, hl, start, hs, by omega, hd⟩
    | _ => rw [hd] at hy; cases hy

/-- C79: a buffer is accepted as the message `y` of type `k` exactly when it is read as `y`. Missing: the version not supported indication
(`C79_version_not_supported`) and the identification response without cause (`C79_identification`). -/
theorem C79_accepted_iff_partial (m : Mode) (k : MsgKind) (hk : k ≠ .VersionNotSupported) (hu : k ∉ MsgKind.unchecked) (b : Bytes) (y : k.T) :
    k.codec.unmarshal m b = .ok y ↔ ReadAs m k b y := by
  constructor
  · intro hy
    obtain ⟨h, els, hc⟩ := carries_of_unmarshal hk hy
    obtain ⟨hf, hh⟩ := hc.fields (.inl hu) hy
    have hm : k.schema.missing els = [] := by
      rw [hc.unmarshal] at hy
      exact MsgKind.fromvec_ok hu hc.typeOk hy
    obtain ⟨h1, h2, h3, start, h4, h5, h6⟩ := hc
    refine ⟨h, els, start, h1, h2, h3, h4, h5, (C79_sequence _ _ _).mp h6, ?_, hh, hf⟩
    intro s hs hsm
    apply Classical.byContradiction
    intro hp
    have : s ∈ k.schema.missing els := (mem_missing_iff _ _ _).mpr ⟨hs, hsm, hp⟩
    rw [hm] at this
    cases this
  · rintro ⟨h, els, start, h1, h2, h3, h4, h5, h6, h7, h8, h9⟩
    have hc : Carries m k b h els := ⟨h1, h2, h3, start, h4, h5, (C79_sequence _ _ _).mpr h6⟩
    obtain ⟨z, hz, hzh⟩ := C16_present_accepted m k b h els hc h7
    rw [hz]
    refine congrArg R.ok (k.describes.ext z y (hzh.trans h8.symm) ?_)
    rw [(hc.fields (.inl hu) hz).1, h9]
    rfl

/-- C79: a version not supported indication is accepted with nothing but its header. -/
theorem C79_version_not_supported (m : Mode) (b : Bytes) (y : Msg.VersionNotSupported) :
    Msg.VersionNotSupported.codec.unmarshal m b = .ok y ↔ headerSpec b = .ok y.header ∧ oct b 1 = 3 := by
  constructor
  · intro hy
    obtain ⟨h, hh⟩ := unmarshal_inv (k := .VersionNotSupported) hy
    have ht := C17_accepts_own_type m .VersionNotSupported b y hy
    have hty : h.msgtype = Msg.VersionNotSupported.codec.msgtype := UInt8.toNat_inj.mp ((header_type hh).1.trans ht)
    rw [Codec.unmarshal_eq _ _ _ hh, if_neg (by simp [hty])] at hy
    have := R.ok.inj hy
    subst this
    rw [C02_header_total_precise] at hh
    exact ⟨hh, ht⟩
  · rintro ⟨h1, h2⟩
    rw [← C02_header_total_precise] at h1
    have hty : y.header.msgtype = Msg.VersionNotSupported.codec.msgtype := UInt8.toNat_inj.mp ((header_type h1).1.trans h2)
    rw [Codec.unmarshal_eq _ _ _ h1, if_neg (by simp [hty])]
    rfl

/-- The default of the cause that an identification response has when none has arrived (identificationresp.rs:33). -/
def noCause : List IE := [.Cause ⟨2, 2, 0, 0, false, false, false, none⟩]

/-- C79: an identification response is accepted with or without cause; without, it has the default cause. -/
theorem C79_identification (m : Mode) (b : Bytes) (y : Msg.IdentificationResponse) :
    Msg.IdentificationResponse.codec.unmarshal m b = .ok y ↔
      ∃ h els, headerSpec b = .ok h ∧ oct b 1 = 129 ∧ announced b ≤ b.length ∧ 12 ≤ announced b ∧
        Spells m ((b.take (announced b)).drop 12) els ∧ y.header = h ∧
        y.fields = (if (arriving ⟨.Cause, .is 0, .one⟩ els).isEmpty then noCause else (arriving ⟨.Cause, .is 0, .one⟩ els).take 1) ::
          Msg.IdentificationResponse.schema.tail.map (holding els) := by
  have key : ∀ h els, Msg.IdentificationResponse.fromvec { Msg.IdentificationResponse.dflt with header := h } els = .ok y ↔
      y.header = h ∧ y.fields = (if (arriving ⟨.Cause, .is 0, .one⟩ els).isEmpty then noCause else
        (arriving ⟨.Cause, .is 0, .one⟩ els).take 1) :: Msg.IdentificationResponse.schema.tail.map (holding els) := by
    intro h els
    obtain ⟨x, m0, hs, hv, hh, l0⟩ := Msg.IdentificationResponse.flags h els
    have hx : Msg.IdentificationResponse.fromvec { Msg.IdentificationResponse.dflt with header := h } els = .ok x := by
      rw [Msg.IdentificationResponse.fromvec, hs]
      rfl
    have hf : x.fields = (if (arriving ⟨.Cause, .is 0, .one⟩ els).isEmpty then noCause else
        (arriving ⟨.Cause, .is 0, .one⟩ els).take 1) :: Msg.IdentificationResponse.schema.tail.map (holding els) := by
      have ht := congrArg List.tail hv
      have h0 := congrArg List.head? hv
      refine List.cons_eq_cons.mpr ⟨?_, ht⟩
      have h0' : (if m0 then [IE.Cause x.cause] else []) = (arriving ⟨.Cause, .is 0, .one⟩ els).take 1 := Option.some.inj h0
      cases m0 with
      | true =>
        rw [if_pos rfl] at h0'
        rw [if_neg, h0']
        intro he
        rw [List.isEmpty_iff] at he
        rw [he] at h0'
        cases h0'
      | false =>
        have c := (identification_cause els ⟨{ Msg.IdentificationResponse.dflt with header := h }, false⟩).2 (by rw [hs])
        rw [hs] at c
        rw [if_pos]
        · show [IE.Cause x.cause] = noCause
          rw [show x.cause = V2.Cause.dflt from c]
          rfl
        · cases ha : arriving ⟨.Cause, .is 0, .one⟩ els with
          | nil => rfl
          | cons e l => rw [ha] at h0'; cases h0'
    rw [hx]
    constructor
    · intro e
      obtain rfl := R.ok.inj e
      exact ⟨hh, hf⟩
    · rintro ⟨h1, h2⟩
      exact congrArg R.ok (Msg.IdentificationResponse.ext (hh.trans h1.symm) (hf.trans h2.symm))
  constructor
  · intro hy
    obtain ⟨h, els, hc⟩ := carries_of_unmarshal (k := .IdentificationResponse) (fun h => nomatch h) hy
    have hu := hc.unmarshal.symm.trans hy
    obtain ⟨h1, h2, h3, start, h4, h5, h6⟩ := hc
    obtain rfl : 12 = start := Option.some.inj h4
    exact ⟨h, els, h1, h2, h3, h5, (C79_sequence _ _ _).mp h6, (key h els).mp hu⟩
  · rintro ⟨h, els, h1, h2, h3, h5, h6, h7⟩
    have hc : Carries m .IdentificationResponse b h els := ⟨h1, h2, h3, 12, rfl, h5, (C79_sequence _ _ _).mpr h6⟩
    exact hc.unmarshal.trans ((key h els).mpr h7)

/-- An identification response with nothing in it is accepted, and an indication that announces more octets than there are. -/
theorem C79_violation : (∃ y, Msg.IdentificationResponse.codec.unmarshal .debug (wire 129 []) = .ok y ∧
      ¬ ReadAs .debug .IdentificationResponse (wire 129 []) y) ∧
    ∃ y, Msg.VersionNotSupported.codec.unmarshal .debug [0x40, 3, 0, 100, 0, 0, 1, 0] = .ok y ∧
      ¬ ReadAs .debug .VersionNotSupported [0x40, 3, 0, 100, 0, 0, 1, 0] y := by
  refine ⟨⟨{ Msg.IdentificationResponse.dflt with header := ⟨129, false, none, 8, some 0, 1⟩ }, by decide +kernel, ?_⟩,
    ⟨_, C18_violation .debug |>.2, ?_⟩⟩
  · rintro ⟨h, els, start, _, _, _, h4, _, h6, h7, _⟩
    obtain rfl : 12 = start := Option.some.inj h4
    cases h6
    obtain ⟨e, he, _⟩ := h7 ⟨.Cause, .is 0, .one⟩ (by decide) rfl
    cases he
  · rintro ⟨h, els, start, _, _, _, h4, _⟩
    cases h4

set_option maxRecDepth 20000 in
example : ReadAs .debug .EchoRequest exTwice ⟨⟨1, false, none, 14, none, 1⟩, ⟨3, 1, 0, 7⟩, none, []⟩ := by
  have h : Msg.EchoRequest.codec.unmarshal .debug exTwice = .ok ⟨⟨1, false, none, 14, none, 1⟩, ⟨3, 1, 0, 7⟩, none, []⟩ := by decide +kernel
  exact (C79_accepted_iff_partial .debug .EchoRequest (fun h => nomatch h) (by decide +kernel) _ _).mp h

example : Spells .debug [3, 0, 1, 0, 7, 3, 0, 1, 0, 9] [.Recovery ⟨3, 1, 0, 7⟩, .Recovery ⟨3, 1, 0, 9⟩] :=
  (C79_sequence _ _ _).mp (by decide +kernel)

end Gtp.Props
