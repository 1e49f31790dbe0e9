import Verif.V2.Panic
import Verif.Props.Msg

/-!
# Properties C08 and C22: exactly when decoding panics in a debug build

`Kind.Crash b k` is a condition on the octets `b` alone. `Over n b`: at least `n` octets are there and the declared length is
65532 or more; `Full b`: the declared length is neither 0 nor more than there is. Where the decoder moves a cursor, the
condition is written with the stages of `V2/PanicBase.lean`: `takes b k c rest` is `c + k ≤ b.length ∧ rest (c + k)`, and so on.
-/

namespace Gtp.Props
open Gtp.V2

/-- `X::unmarshal(b)` and then `len()` on the result, for the type `X` of a kind. -/
def decodeAs (m : Mode) (k : Kind) (b : Bytes) : R Err Nat := do
  let x ← unmKind (decoder m) m b k
  x.len m

theorem decodeAs_safe {k : Kind} {b : Bytes} : ((decodeAs .debug k b).Safe fun _ => True) ↔ QuietArm (decoder .debug) b k := by
  rw [decodeAs, Safe_bind]

/-- C08, one IE, in a debug build: decoding a buffer as an IE of a kind without members panics exactly if the octets meet the
condition of the kind. -/
theorem C08_ie_panic_iff (k : Kind) (hk : k.grouped = false) (b : Bytes) (hb : b ≠ []) :
    decodeAs .debug k b = .panic ↔ k.Crash b := by
  have h := (decodeAs_safe (k := k) (b := b)).trans (unmKind_quiet hb)
  have hf : (decodeAs .debug k b).Fin :=
    R.Fin.bind (unmKind_fin fun s _ => decoder_fin (.inl rfl)) fun _ => IE.len_fin
  rw [hk] at h
  simp only [Bool.false_eq_true, false_implies, and_true] at h
  cases hd : decodeAs .debug k b with
  | panic =>
    rw [hd] at h
    exact iff_of_true rfl (Classical.byContradiction fun hn => h.mpr hn)
  | diverge => exact absurd hd hf
  | ok n =>
    rw [hd] at h
    exact iff_of_false (by intro e; cases e) (h.mp trivial)
  | err e =>
    rw [hd] at h
    exact iff_of_false (by intro e; cases e) (h.mp trivial)

/-- An F-TEID with the IPv4 flag needs 13 octets; here one is missing. -/
example : Kind.grouped .Fteid = false ∧ Kind.Crash [87, 0, 8, 0, 0x80, 0, 0, 0, 1, 10, 0, 0] .Fteid :=
  ⟨rfl, .inr ⟨by decide, by decide⟩⟩

/-- With it there is no panic. -/
example : ¬ Kind.Crash [87, 0, 9, 0, 0x80, 0, 0, 0, 1, 10, 0, 0, 1] .Fteid := by
  intro h
  rcases h with h | h
  · exact absurd h.2 (by decide)
  · exact absurd h.2 (by decide)

/-- C08, one IE of a grouped kind, in a debug build: a panic comes from the declared length or from decoding the members. -/
theorem C08_group_panic_iff (k : Kind) (hk : k.grouped = true) (b : Bytes) (hb : b ≠ []) :
    decodeAs .debug k b = .panic ↔
      (4 ≤ b.length ∧ 65532 ≤ declared b) ∨
      (0 < declared b ∧ declared b < 65532 ∧ declared b + 4 ≤ b.length ∧
        decoder .debug ((b.take (declared b + 4)).drop 4) = .panic) := by
  have h := (decodeAs_safe (k := k) (b := b)).trans (unmKind_quiet hb)
  have hf : (decodeAs .debug k b).Fin :=
    R.Fin.bind (unmKind_fin fun s _ => decoder_fin (.inl rfl)) fun _ => IE.len_fin
  have hc : k.Crash b = Over 4 b := by cases k <;> first | rfl | cases hk
  have hm : ∀ s, ((decoder .debug s).Safe fun _ => True) ↔ ¬ decoder .debug s = .panic := by
    intro s
    have hs : (decoder .debug s).Fin := decoder_fin (.inl rfl)
    cases hd : decoder .debug s with
    | diverge => exact absurd hd hs
    | ok l => exact iff_of_true trivial (by intro e; cases e)
    | err e => exact iff_of_true trivial (by intro e; cases e)
    | panic => exact iff_of_false id (by simp)
  rw [hk, hc, hm] at h
  simp only [true_implies, memberOctets, declN, declared_eq, Over, Full] at h
  have hp : decodeAs .debug k b = .panic ↔ ¬ (decodeAs .debug k b).Safe fun _ => True := by
    cases hd : decodeAs .debug k b with
    | diverge => exact absurd hd hf
    | ok l => exact iff_of_false (by intro e; cases e) (fun h => h trivial)
    | err e => exact iff_of_false (by intro e; cases e) (fun h => h trivial)
    | panic => exact iff_of_true rfl id
  rw [hp, h]
  constructor
  · intro hn
    refine Classical.byContradiction fun h1 => hn ⟨fun h2 => h1 (.inl h2), fun h2 h3 => h1 (.inr ⟨h2.1, h2.2.1, h2.2.2, h3⟩)⟩
  · rintro (h1 | h1) ⟨h2, h3⟩
    · exact h2 h1
    · exact h3 ⟨h1.1, h1.2.1, h1.2.2.1⟩ h1.2.2.2

/-- A Bearer Context with an F-TEID that is too short. -/
example : Kind.grouped .BearerContext = true ∧ declared [93, 0, 5, 0, 87, 0, 1, 0, 0] = 5 ∧
    decoder .debug (([93, 0, 5, 0, 87, 0, 1, 0, 0].take (5 + 4)).drop 4) = .panic := by decide +kernel

/-- For every kind without members that can panic, octets on which it does. -/
def crashOctets : Kind → Bytes
  | .SourceIdentification => [129, 0, 9, 0, 1, 1, 1, 1, 1, 1, 1, 1, 1]
  | .MmContext => [103, 0, 16, 0, 0, 0, 0, 0, 0, 0, 0, 0, 0, 0, 0, 0, 0, 0, 0, 0]
  | .AdditionalMmContextForSrvcc => [159, 0, 1, 0, 0]
  | .MdtConfiguration => [162, 0, 11, 0, 0, 0, 0, 0, 0, 0, 0, 0, 0, 0, 0]
  | .TwanId => [169, 0, 2, 0, 0xff, 0xff]
  | .PagingServiceInfo => [186, 0, 2, 0, 1, 1]
  | .RemoteUserId => [192, 0, 2, 0, 255, 255]
  | .ExtendedTraceInformation => [205, 0, 7, 0, 0, 0, 0, 0, 0, 0, 0]
  | _ => [0, 0xff, 0xff, 0, 0, 0, 0, 0, 0, 0]

/-- C08: the kinds without members which in a debug build panic on no octets at all are the 87 of `Kind.calm`. -/
theorem C08_never_iff (k : Kind) (hk : k.grouped = false) : (∀ b, b ≠ [] → decodeAs .debug k b ≠ .panic) ↔ k.calm = true := by
  constructor
  · intro h
    by_cases hc : k.calm = true
    · exact hc
    · refine absurd ?_ (h (crashOctets k) (by cases k <;> simp [crashOctets]))
      clear h
      cases k <;> first | exact absurd rfl hc | exact absurd hk (by decide) | decide +kernel
  · intro hc b hb hp
    rw [C08_ie_panic_iff k hk b hb] at hp
    cases k <;> first | exact hp | cases hc

example : Kind.calm .Cause = true ∧ Kind.calm .PresenceReportingAreaInformation = true ∧ Kind.calm .Imsi = false := by decide

/-- C08, a sequence, in a debug build: the decoder panics exactly if it comes across an IE whose octets meet the condition of
its kind. -/
theorem C08_panic_iff (b : Bytes) : decoder .debug b = .panic ↔ ∃ s, Reaches b s ∧ (kindOf (s.getD 0 0)).Crash s :=
  decoder_panic_iff b

/-- Recovery in front of a Bearer Context with a truncated F-TEID: past the Recovery, into the group. -/
example : Reaches [3, 0, 1, 0, 7, 93, 0, 5, 0, 87, 0, 1, 0, 0] [87, 0, 1, 0, 0] ∧ Kind.Crash [87, 0, 1, 0, 0] (kindOf 87) := by
  refine ⟨.next _ _ (.Recovery ⟨3, 1, 0, 7⟩) 5 (by decide +kernel) (.member _ _ rfl (by decide) (.here _ (by decide))), ?_⟩
  exact .inr ⟨by decide, by decide⟩

/-- C22 in a debug build: exactly when decoding a message panics. The header and the message type are right, the octets that it
announces are there, and either they end before the IEs begin, or among the IEs is one whose octets meet the condition of its
kind. -/
theorem C22_panic_iff (k : MsgKind) (b : Bytes) : k.codec.unmarshal .debug b = .panic ↔
    ∃ h start, headerSpec b = .ok h ∧ oct b 1 = k.codec.msgtype.toNat ∧ announced b ≤ b.length ∧ k.codec.start = some start ∧
      (announced b < start ∨ ∃ s, Reaches ((b.take (announced b)).drop start) s ∧ (kindOf (s.getD 0 0)).Crash s) := by
  rw [C22_panic_iff_partial]
  simp only [decoder_panic_iff]

/-- A Create Session Request whose only IE is a truncated F-TEID. -/
example : headerSpec [0x48, 32, 0, 13, 0, 0, 0, 0, 0, 0, 1, 0, 87, 0, 1, 0, 0] = .ok ⟨32, false, none, 13, some 0, 1⟩ ∧
    announced [0x48, 32, 0, 13, 0, 0, 0, 0, 0, 0, 1, 0, 87, 0, 1, 0, 0] = 17 ∧
    MsgKind.CreateSessionRequest.codec.unmarshal .debug [0x48, 32, 0, 13, 0, 0, 0, 0, 0, 0, 1, 0, 87, 0, 1, 0, 0] = .panic :=
  ⟨by decide +kernel, by decide +kernel, (C22_panic_iff _ _).mpr ⟨⟨32, false, none, 13, some 0, 1⟩, 12, by decide +kernel, by decide +kernel, by decide +kernel, by decide +kernel,
    .inr ⟨[87, 0, 1, 0, 0], .here _ (by decide), .inr ⟨by decide, by decide⟩⟩⟩⟩

end Gtp.Props
