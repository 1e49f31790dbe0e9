import Verif.V2.PanicRelease
import Verif.Props.Panic

/-!
# Properties C08, C10 and C22: exactly when decoding panics in a release build, and when it never ends

`Kind.CrashR b k` and `Kind.Spin b k` are conditions on the octets `b` alone. In a release build 4 + the declared length is
computed modulo 65536. Where the declared length is below 65532 nothing wraps and the condition for a panic is that of a debug
build, `Kind.Crash`; from 65532 on it is `Kind.WrapCrash`. A declared length of 65532 makes a size of 0, on which the loop of the
decoder stands still: `Kind.Spin` says for which octets it gets so far.
-/

namespace Gtp.Props
open Gtp.V2

theorem decodeAs_safeR {k : Kind} {b : Bytes} {z : Prop} :
    ((decodeAs .release k b).Safe fun n => z → n ≠ 0) ↔ QuietArmR (decoder .release) b k z := by
  rw [decodeAs, Safe_bind]

theorem decodeAs_finR {k : Kind} (hk : k.grouped = false) {b : Bytes} : (decodeAs .release k b).Fin := by
  rw [decodeAs, unmKind_alone hk]
  exact R.Fin.bind (unmKind_fin fun s _ => by intro h; cases h) fun _ => IE.len_fin

/-- C08, one IE, in a release build: decoding a buffer as an IE of a kind without members panics exactly if the octets meet the
condition of the kind. -/
theorem C08_ie_release_panic_iff (k : Kind) (hk : k.grouped = false) (b : Bytes) (hb : b ≠ []) :
    decodeAs .release k b = .panic ↔ k.CrashR b := by
  have h := (decodeAs_safeR (k := k) (b := b) (z := False)).trans (unmKind_release hk hb False)
  simp only [false_implies, and_true] at h
  cases hd : decodeAs .release k b with
  | panic =>
    rw [hd] at h
    exact iff_of_true rfl (Classical.byContradiction fun hn => h.mpr hn)
  | diverge => exact absurd hd (decodeAs_finR hk)
  | ok n =>
    rw [hd] at h
    exact iff_of_false (by intro e; cases e) (h.mp trivial)
  | err e =>
    rw [hd] at h
    exact iff_of_false (by intro e; cases e) (h.mp trivial)

/-- A declared length of 65535 counts as one of 65535 + 4 - 65536 = 3; taking 65535 octets then panics. -/
example : Kind.grouped .Ldn = false ∧ Kind.CrashR [151, 0xff, 0xff, 0, 0x41] .Ldn :=
  ⟨rfl, .inr ⟨by decide, by show 4 ≤ 5 ∧ 5 < declN _ + 4; decide⟩⟩

/-- Where a debug build panics on the overflow, a release build may report an error or even decode. -/
example : Kind.Crash [87, 0xff, 0xff, 0, 0x80, 0, 0, 0, 1, 10, 0, 0, 1] .Fteid ∧
    ¬ Kind.CrashR [87, 0xff, 0xff, 0, 0x80, 0, 0, 0, 1, 10, 0, 0, 1] .Fteid := by
  refine ⟨.inl ⟨by decide, by decide⟩, ?_⟩
  rintro (h | h)
  · exact absurd h.1 (by decide)
  · exact absurd h.2.2 (by decide)

/-- C10, one IE, in a release build: the size of the decoded IE is 0, so that the decoder would not move on, exactly if the
octets meet the second condition of the kind. -/
theorem C10_ie_stands_still_iff (k : Kind) (hk : k.grouped = false) (b : Bytes) (hb : b ≠ []) :
    decodeAs .release k b = .ok 0 ↔ k.Spin b := by
  have h := (decodeAs_safeR (k := k) (b := b) (z := True)).trans (unmKind_release hk hb True)
  have hp := C08_ie_release_panic_iff k hk b hb
  simp only [true_implies] at h
  cases hd : decodeAs .release k b with
  | panic => exact iff_of_false (by intro e; cases e) fun hs => Kind.Spin_quiet hs (hp.mp hd)
  | diverge => exact absurd hd (decodeAs_finR hk)
  | err e =>
    rw [hd] at h
    exact iff_of_false (by intro e; cases e) (h.mp trivial).2
  | ok n =>
    rw [hd] at h hp
    constructor
    · intro e
      have hn := R.ok.inj e
      exact Classical.byContradiction fun hs => h.mpr ⟨fun hc => (nomatch hp.mpr hc), hs⟩ hn
    · intro hs
      have hn : n = 0 := Classical.byContradiction fun hn => (h.mp hn).2 hs
      rw [hn]

example : Kind.grouped .Fteid = false ∧ Kind.Spin [87, 0xff, 0xfc, 0, 0x80, 0, 0, 0, 1, 10, 0, 0, 1] .Fteid :=
  ⟨rfl, by decide, by decide, by decide⟩

/-- C10: in a debug build no IE has size 0. -/
theorem C10_ie_moves_debug (k : Kind) (b : Bytes) : decodeAs .debug k b ≠ .ok 0 := by
  rw [decodeAs]
  cases hu : unmKind (decoder .debug) .debug b k with
  | ok x =>
    rw [R.ok_bind]
    intro h
    exact absurd (IE.len_pos (fun _ => .inl rfl) h) (by decide)
  | _ => intro h; cases h

/-- C08, one IE of a grouped kind, in a release build: a panic comes from the declared length or from decoding the members. -/
theorem C08_group_release_panic_iff (k : Kind) (hk : k.grouped = true) (b : Bytes) (hb : b ≠ []) :
    decodeAs .release k b = .panic ↔
      (4 ≤ b.length ∧ 65532 ≤ declared b) ∨
      (0 < declared b ∧ declared b < 65532 ∧ declared b + 4 ≤ b.length ∧
        decoder .release ((b.take (declared b + 4)).drop 4) = .panic) := by
  have hy : decodeAs .release k b = .panic ↔
      (unmKind (decoder .release) .release b k >>= fun x => x.len .release >>= fun n => .ok (x, n)) = .panic := by
    rw [decodeAs]
    cases unmKind (decoder .release) .release b k with
    | ok x =>
      rw [R.ok_bind, R.ok_bind]
      cases x.len .release <;> simp
    | _ => simp
  simp only [← declared_eq]
  rw [hy]
  by_cases hf : Full b
  · rw [(group_arm hk hb hf).1]
    have h2 := hf.2
    constructor
    · exact fun h => .inr ⟨hf.1, hf.2.1, hf.2.2, h⟩
    · rintro (h | h)
      · exact absurd h2.1 (Nat.not_lt.mpr h.2)
      · exact h.2.2.2
  · rw [group_arm_short hk hb hf]
    constructor
    · intro h
      split at h
      · rename_i hc; exact .inl hc
      · cases h
    · rintro (h | h)
      · rw [if_pos h]; rfl
      · exact absurd ⟨h.1, h.2.1, h.2.2.1⟩ hf

example : Kind.grouped .BearerContext = true ∧ declared [93, 0xff, 0xff, 0, 0] = 65535 := by decide +kernel

/-- C08, a sequence, in a release build: the decoder panics exactly if it comes across an IE whose octets meet the condition of
its kind. -/
theorem C08_release_panic_iff (b : Bytes) : decoder .release b = .panic ↔ ∃ s, ReachesR b s ∧ (kindOf (s.getD 0 0)).CrashR s :=
  decoder_release_panic_iff b

/-- Recovery in front of a Bearer Context of declared length 65535. -/
example : ReachesR [3, 0, 1, 0, 7, 93, 0xff, 0xff, 0] [93, 0xff, 0xff, 0] ∧ Kind.CrashR [93, 0xff, 0xff, 0] (kindOf 93) :=
  ⟨.next _ _ (.Recovery ⟨3, 1, 0, 7⟩) 5 (by decide +kernel) (by decide) (.here _ (by decide)), .inr ⟨by decide, by show 4 ≤ 4; decide⟩⟩

/-- C10, in a release build: the decoder never ends exactly if it comes across an IE whose octets meet the condition for a size
of 0. -/
theorem C10_diverges_iff (b : Bytes) : decoder .release b = .diverge ↔ ∃ s, ReachesR b s ∧ (kindOf (s.getD 0 0)).Spin s :=
  decoder_release_diverge_iff b

/-- An F-Container of declared length 65532 as a member of a Bearer Context behind a Recovery. -/
example : ReachesR [3, 0, 1, 0, 7, 93, 0, 5, 0, 118, 0xff, 0xfc, 0, 0] [118, 0xff, 0xfc, 0, 0] ∧
    Kind.Spin [118, 0xff, 0xfc, 0, 0] (kindOf 118) :=
  ⟨.next _ _ (.Recovery ⟨3, 1, 0, 7⟩) 5 (by decide +kernel) (by decide) (.member _ _ rfl (by decide) (.here _ (by decide))),
    by decide, by decide, .inl (by decide)⟩

/-- C10: only nine kinds of IEs make the decoder stand still, and only with a declared length of 65532. -/
theorem C10_stands_still_kinds (k : Kind) (b : Bytes) (h : k.Spin b) : declared b = 65532 ∧
    k ∈ [Kind.Apn, .Fteid, .CompleteRequestMessage, .Fcontainer, .Fqcsid, .Fqdn, .Ldn, .RemoteUeIpInformation, .ExtendedTraceInformation] := by
  refine ⟨?_, ?_⟩
  · have := Kind.Spin_length h
    simpa only [declN, declared_eq] using this
  · cases k <;> first | exact absurd h id | simp

theorem labels_zero : ∀ n, Labels (List.replicate n 0)
  | 0 => .nil
  | n + 1 => .cons 0 [] _ rfl (labels_zero n)

/-- C10: for each of the nine kinds there are octets on which the decoder stands still. -/
theorem C10_stands_still_kinds_iff (k : Kind) : (∃ b, k.Spin b) ↔
    k ∈ [Kind.Apn, .Fteid, .CompleteRequestMessage, .Fcontainer, .Fqcsid, .Fqdn, .Ldn, .RemoteUeIpInformation, .ExtendedTraceInformation] := by
  refine ⟨fun ⟨b, h⟩ => (C10_stands_still_kinds k b h).2, fun h => ?_⟩
  have hl : ∀ t : UInt8, 65536 ≤ ([t, 0xff, 0xfc, 0] ++ List.replicate 65532 (0 : UInt8)).length := by
    intro t; rw [List.length_append, List.length_replicate]; simp
  have hL : ∀ t : UInt8, Labels ((([t, 0xff, 0xfc, 0] ++ List.replicate 65532 (0 : UInt8)).take 65536).drop 4) := by
    intro t
    rw [List.take_of_length_le (by rw [List.length_append, List.length_replicate]; simp)]
    exact labels_zero _
  simp only [List.mem_cons, List.not_mem_nil, or_false] at h
  rcases h with rfl | rfl | rfl | rfl | rfl | rfl | rfl | rfl | rfl
  · exact ⟨_, rfl, hl 71, hL 71⟩
  · exact ⟨[87, 0xff, 0xfc, 0, 0x80, 0, 0, 0, 1, 10, 0, 0, 1], by decide, by decide, by decide⟩
  · exact ⟨[116, 0xff, 0xfc, 0, 2], by decide, by decide, by decide⟩
  · exact ⟨[118, 0xff, 0xfc, 0, 0], by decide, by decide, by decide⟩
  · exact ⟨[132, 0xff, 0xfc, 0, 0, 0, 0, 0, 0], by decide, by decide, by decide⟩
  · exact ⟨_, rfl, hl 136, hL 136⟩
  · exact ⟨_, rfl, hl 151⟩
  · exact ⟨[193, 0xff, 0xfc, 0, 0], by decide, by decide, by decide⟩
  · exact ⟨[205, 0xff, 0xfc, 0, 0, 0, 0, 0, 0, 0, 0, 0, 0, 0, 4, 10, 0, 0, 1], by decide, by decide, by decide⟩

/-- C22 in a release build: exactly when decoding a message panics. -/
theorem C22_release_panic_iff (k : MsgKind) (b : Bytes) : k.codec.unmarshal .release b = .panic ↔
    ∃ h start, headerSpec b = .ok h ∧ oct b 1 = k.codec.msgtype.toNat ∧ announced b ≤ b.length ∧ k.codec.start = some start ∧
      (announced b < start ∨ ∃ s, ReachesR ((b.take (announced b)).drop start) s ∧ (kindOf (s.getD 0 0)).CrashR s) := by
  rw [C22_panic_iff_partial]
  simp only [decoder_release_panic_iff]

/-- C22: exactly when decoding a message never ends, reduced to the decoder of its IEs. -/
theorem message_diverges_iff (m : Mode) (k : MsgKind) (b : Bytes) : k.codec.unmarshal m b = .diverge ↔
    ∃ h start, headerSpec b = .ok h ∧ oct b 1 = k.codec.msgtype.toNat ∧ announced b ≤ b.length ∧ k.codec.start = some start ∧
      start ≤ announced b ∧ decoder m ((b.take (announced b)).drop start) = .diverge := by
  cases hu : Header.unmarshal b with
  | ok h =>
    have hlen := header_length hu
    have hty := (header_type hu).1
    rw [Codec.unmarshal_eq _ _ _ hu]
    rw [C02_header_total_precise] at hu
    by_cases ht : h.msgtype = k.codec.msgtype
    · rw [if_neg (by simp [ht])]
      have hty' : oct b 1 = k.codec.msgtype.toNat := by rw [← hty, ht]
      cases hs : k.codec.start with
      | none => simp
      | some start =>
        simp only [hlen]
        by_cases hl : b.length < announced b
        · rw [if_pos hl]
          constructor
          · intro h; cases h
          · rintro ⟨_, _, _, _, h, _⟩; omega
        · rw [if_neg hl]
          by_cases ha : announced b < start
          · rw [if_pos ha]
            constructor
            · intro h; cases h
            · rintro ⟨_, s', _, _, _, hs', hq, _⟩
              obtain rfl := Option.some.inj hs'
              omega
          · rw [if_neg ha]
            cases hd : decoder m ((b.take (announced b)).drop start) with
            | diverge => exact ⟨fun _ => ⟨h, start, hu, hty', by omega, rfl, by omega, hd⟩, fun _ => rfl⟩
            | ok els =>
              constructor
              · intro hp
                rcases k.fromvec_total h els (decoder_typeOk hd) with ⟨y, hy⟩ | ⟨t, hy⟩
                · exact absurd (hp.symm.trans hy) (by intro h; cases h)
                · exact absurd (hp.symm.trans hy) (by intro h; cases h)
              · rintro ⟨_, s', _, _, _, hs', _, hq⟩
                obtain rfl := Option.some.inj hs'
                rw [hd] at hq; cases hq
            | err e =>
              constructor
              · intro h; cases h
              · rintro ⟨_, s', _, _, _, hs', _, hq⟩
                obtain rfl := Option.some.inj hs'
                rw [hd] at hq; cases hq
            | panic =>
              constructor
              · intro h; cases h
              · rintro ⟨_, s', _, _, _, hs', _, hq⟩
                obtain rfl := Option.some.inj hs'
                rw [hd] at hq; cases hq
    · rw [if_pos ht]
      constructor
      · intro h; cases h
      · rintro ⟨_, _, _, h1, _⟩
        exact absurd (UInt8.toNat_inj.mp (hty.trans h1)) ht
  | err e =>
    unfold Codec.unmarshal
    rw [hu]
    rw [C02_header_total_precise] at hu
    constructor
    · intro h; cases h
    · rintro ⟨h, _, h1, _⟩; rw [hu] at h1; cases h1
  | panic => exact absurd hu (C02_header_no_panic b).1
  | diverge => exact absurd hu (C02_header_no_panic b).2

/-- C22 in a release build: exactly when decoding a message never ends. The header and the message type are right, the octets
that it announces are there, and among the IEs is one that is decoded with size 0. -/
theorem C22_diverges_iff (k : MsgKind) (b : Bytes) : k.codec.unmarshal .release b = .diverge ↔
    ∃ h start, headerSpec b = .ok h ∧ oct b 1 = k.codec.msgtype.toNat ∧ announced b ≤ b.length ∧ k.codec.start = some start ∧
      start ≤ announced b ∧ ∃ s, ReachesR ((b.take (announced b)).drop start) s ∧ (kindOf (s.getD 0 0)).Spin s := by
  rw [message_diverges_iff]
  simp only [decoder_release_diverge_iff]

/-- A Create Session Request of 25 octets whose only IE is an F-TEID of declared length 65532. -/
example : MsgKind.CreateSessionRequest.codec.unmarshal .release
    [0x48, 32, 0, 21, 0, 0, 0, 0, 0, 0, 1, 0, 87, 0xff, 0xfc, 0, 0x80, 0, 0, 0, 1, 10, 0, 0, 1] = .diverge :=
  (C22_diverges_iff _ _).mpr ⟨⟨32, false, none, 21, some 0, 1⟩, 12, by decide +kernel, by decide +kernel, by decide +kernel, by decide +kernel,
    by decide +kernel, [87, 0xff, 0xfc, 0, 0x80, 0, 0, 0, 1, 10, 0, 0, 1], .here _ (by decide), by decide, by decide, by decide⟩

end Gtp.Props
