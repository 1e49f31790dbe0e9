import Verif.V2.Panic
import Verif.V2.PanicRelease
import Verif.V2.Short
import Verif.Props.MsgExact

/-!
# C81, C82: the stack and the work that decoding takes

`InformationElement::decoder` (ie.rs:481-1525) calls the `unmarshal` of a grouped IE, which calls `GroupedIe::unmarshal`
(groupedie.rs:37-58), which calls `InformationElement::decoder` for the members. A grouped IE may stand in a grouped IE of any type: the
members of the wrong type are thrown away after they have been decoded. How often these calls nest is decided by the sender.
-/

namespace Gtp.Props
open Gtp.V2

/-! ## Specification -/

/-- The types of grouped IEs. -/
def groupTypes : List UInt8 := [93, 109, 180, 181, 191, 195, 208, 209, 214]

/-- The loop of `InformationElement::decoder` (ie.rs:481-1525), with a given function for the members of grouped IEs. -/
def loopWith (dec : Bytes → R Err (List IE)) (m : Mode) : Nat → Bytes → R Err (List IE)
  | 0, _ => .diverge
  | f + 1, b =>
    if b = [] then .ok []
    else do
      let (x, n) ← decodeOne dec m b
      if n = 0 then .diverge
      else
        let l ← loopWith dec m f (b.drop n)
        return x :: l

/-- `InformationElement::decoder` on a stack that has room for `d` nested calls of it. One more ends the program. -/
def onStack : Nat → Mode → Bytes → R Err (List IE)
  | 0, _, _ => .panic
  | d + 1, m, b => loopWith (onStack d m) m (b.length + 1) b

/-- In front of the buffer there is a grouped IE with members that is complete. -/
structure Opens (b : Bytes) : Prop where
  type : ∃ t ∈ groupTypes, b.head? = some t
  some : 0 < declared b
  small : declared b < 65532
  whole : declared b + 4 ≤ b.length

/-- The octets of the members of the IE in front. -/
def members (b : Bytes) : Bytes := (b.take (declared b + 4)).drop 4

/-- Decoding `b` takes `n` nested calls: the call for `b` itself; if a grouped IE is in front, one more than its members take; and behind
an IE that can be decoded, as many as the rest takes. -/
inductive Nests (m : Mode) : Nat → Bytes → Prop
  | call (b : Bytes) : Nests m 1 b
  | into {n : Nat} {b : Bytes} : Opens b → Nests m n (members b) → Nests m (n + 1) b
  | past {k n : Nat} {b : Bytes} {x : IE} : b ≠ [] → decodeOne (decoder m) m b = .ok (x, n) → 0 < n → Nests m k (b.drop n) → Nests m k b

/-! ## The loop -/

theorem front_groupTypes : ∀ t : UInt8, (kindOf t).grouped = true ↔ t ∈ groupTypes := by decide +kernel

theorem opens_iff (b : Bytes) : Opens b ↔ (frontKind b).grouped = true ∧ Full b := by
  cases b with
  | nil => exact ⟨fun h => absurd h.whole (by simp), fun h => absurd h.2.2.2 (by simp)⟩
  | cons t b =>
    have e : declN (t :: b) = declared (t :: b) := declared_eq _
    constructor
    · rintro ⟨⟨s, hs, h0⟩, h1, h2, h3⟩
      cases h0
      exact ⟨(front_groupTypes _).mpr hs, by omega, by omega, by omega⟩
    · rintro ⟨h0, h1, h2, h3⟩
      exact ⟨⟨t, (front_groupTypes _).mp h0, rfl⟩, by omega, by omega, by omega⟩

theorem members_eq (b : Bytes) : members b = memberOctets b := by
  unfold members memberOctets
  rw [← declared_eq]

theorem members_length {b : Bytes} (h : Opens b) : (members b).length = declared b := by
  have := h.whole
  simp [members]
  omega

/-- A complete grouped IE: the members are decoded first. -/
theorem groupUnm_open {α : Type} {dec : Bytes → R Err (List IE)} {mk : UInt8 → UInt16 → UInt8 → List IE → α} {m : Mode} {b : Bytes}
    (h : Full b) : groupUnm dec mk m b = dec (memberOctets b) >>= fun l => .ok (mk (b.getD 0 0) (declLen b) (b.getD 3 0) l) := by
  obtain ⟨h1, h2, h3⟩ := h
  have hN : declN b = (declLen b).toNat := rfl
  have e16 : (rd16 b 1 : R Err UInt16) = .ok (declLen b) := by
    simp only [rd16]
    simp (disch := omega) only [rd_getD, R.ok_bind, R.pure_eq]
    rfl
  have hs : (slBody16 m b (declLen b) : R Err Bytes) = .ok (memberOctets b) := by
    rw [slBody16_ok (by omega), sl, if_pos (by omega)]
  unfold groupUnm
  rw [if_pos (by omega), rd_getD (by omega), R.ok_bind, e16, R.ok_bind, rd_getD (by omega), R.ok_bind, checkTliv_ok (by omega), R.ok_bind]
  simp only [decide_eq_true (show 0 < (declLen b).toNat ∧ (declLen b).toNat + 4 ≤ b.length from ⟨h1, h3⟩), if_true]
  rw [hs, R.ok_bind]
  rfl

/-- Otherwise no members are decoded. -/
theorem groupUnm_shut {α : Type} {dec dec' : Bytes → R Err (List IE)} {mk : UInt8 → UInt16 → UInt8 → List IE → α} {m : Mode} {b : Bytes}
    (h : ¬ Full b) : groupUnm dec mk m b = groupUnm dec' mk m b := by
  have hN : declN b = (declLen b).toNat := rfl
  unfold groupUnm
  by_cases h4 : 4 ≤ b.length
  · have e16 : (rd16 b 1 : R Err UInt16) = .ok (declLen b) := by
      simp only [rd16]
      simp (disch := omega) only [rd_getD, R.ok_bind, R.pure_eq]
      rfl
    rw [if_pos h4, if_pos h4, e16]
    congr 1; funext t
    rw [R.ok_bind, R.ok_bind]
    congr 1; funext i
    cases hc : (checkTliv m (declLen b) b : R Err Bool) with
    | ok ok =>
      rw [R.ok_bind, R.ok_bind]
      cases ok with
      | false => rfl
      | true =>
        simp only [if_true]
        cases hs : (slBody16 m b (declLen b) : R Err Bytes) with
        | ok s =>
          exfalso
          obtain ⟨_, hl⟩ := slBody16_body hs
          refine h ⟨?_, ?_, hl⟩
          · apply Nat.pos_of_ne_zero
            intro e
            rw [checkTliv, if_pos (UInt16.toNat_inj.mp e)] at hc
            cases hc
          · apply Classical.byContradiction
            intro hn
            cases m with
            | debug =>
              unfold slBody16 add16 at hs
              rw [if_neg (by rw [show (4 : UInt16).toNat = 4 from rfl]; omega)] at hs
              cases hs
            | release =>
              have := slBody16_length hs
              have hs' : (sl b 4 (declLen b + 4).toNat : R Err Bytes) = .ok s := hs
              rw [wrap4 (by omega), sl, if_neg (by have := (declLen b).toNat_lt; omega)] at hs'
              cases hs'
        | _ => rfl
    | _ => rfl
  · rw [if_neg h4, if_neg h4]

theorem unmKind_open {dec : Bytes → R Err (List IE)} {m : Mode} {b : Bytes} {k : Kind} (hk : k.grouped = true) (h : Full b) :
    unmKind dec m b k = dec (memberOctets b) >>= fun l => unmKind (fun _ => .ok l) m b k := by
  have hd := fun (dec : Bytes → R Err (List IE)) (α : Type) (mk : UInt8 → UInt16 → UInt8 → List IE → α) =>
    groupUnm_open (dec := dec) (mk := mk) (m := m) h
  cases k <;> (try cases hk) <;> simp only [unmKind, hd] <;> cases dec (memberOctets b) <;> rfl

theorem unmKind_shut {dec dec' : Bytes → R Err (List IE)} {m : Mode} {b : Bytes} {k : Kind} (h : ¬ (k.grouped = true ∧ Full b)) :
    unmKind dec m b k = unmKind dec' m b k := by
  by_cases hk : k.grouped = true
  · have hf : ¬ Full b := fun hf => h ⟨hk, hf⟩
    cases k <;> (try cases hk) <;> simp only [unmKind, groupUnm_shut (dec := dec) (dec' := dec') hf]
  · have hk : k.grouped = false := by simpa using hk
    rw [unmKind_alone hk, unmKind_alone (dec := dec') hk]

theorem decodeOne_open {dec : Bytes → R Err (List IE)} {m : Mode} {b : Bytes} (h : Opens b) :
    decodeOne dec m b = dec (members b) >>= fun l => decodeOne (fun _ => .ok l) m b := by
  have hb : b ≠ [] := fun e => by have := h.whole; rw [e] at this; simp at this
  obtain ⟨h1, h2⟩ := (opens_iff b).mp h
  rw [decodeOne_front m hb, unmKind_open h1 h2, members_eq]
  cases dec (memberOctets b) with
  | ok l => rw [R.ok_bind, R.ok_bind, decodeOne_front m hb]
  | _ => rfl

theorem decodeOne_shut {dec dec' : Bytes → R Err (List IE)} {m : Mode} {b : Bytes} (h : ¬ Opens b) :
    decodeOne dec m b = decodeOne dec' m b := by
  by_cases hb : b = []
  · subst hb; rfl
  · rw [decodeOne_front m hb, decodeOne_front m hb, unmKind_shut fun h' => h ((opens_iff b).mpr h')]

theorem loopWith_fuel {dec : Bytes → R Err (List IE)} {m : Mode} : ∀ {f g : Nat} {b : Bytes}, b.length < f → b.length < g →
    loopWith dec m f b = loopWith dec m g b
  | f + 1, g + 1, b, hf, hg => by
    unfold loopWith
    split
    · rfl
    · rename_i hb
      have h0 : 0 < b.length := List.length_pos_iff.mpr hb
      congr 1
      funext p
      obtain ⟨x, n⟩ := p
      simp only
      split
      · rfl
      · rw [loopWith_fuel (f := f) (g := g) (by simp; omega) (by simp; omega)]

theorem onStack_eq (d : Nat) (m : Mode) (b : Bytes) : onStack (d + 1) m b =
    if b = [] then .ok [] else do
      let (x, n) ← decodeOne (onStack d m) m b
      if n = 0 then .diverge
      else
        let l ← onStack (d + 1) m (b.drop n)
        return x :: l := by
  show loopWith (onStack d m) m (b.length + 1) b = _
  unfold loopWith
  split
  · rfl
  · rename_i hb
    have h0 : 0 < b.length := List.length_pos_iff.mpr hb
    congr 1
    funext p
    obtain ⟨x, n⟩ := p
    simp only
    split
    · rfl
    · rw [loopWith_fuel (g := (b.drop n).length + 1) (by simp; omega) (by omega)]
      rfl

theorem Nests.nil {m : Mode} {n : Nat} : ¬ Nests m (n + 2) [] := by
  intro h
  cases h with
  | into ho _ => exact absurd ho.whole (by simp)
  | past hb _ _ _ => exact hb rfl

theorem Nests.pos {m : Mode} {n : Nat} {b : Bytes} (h : Nests m n b) : 0 < n := by
  induction h with
  | call => omega
  | into => omega
  | past _ _ _ _ ih => exact ih

/-- C81: the exact condition under which a stack with room for `d` calls is not enough. -/
theorem C81_exact (d : Nat) (m : Mode) (b : Bytes) :
    (Nests m (d + 1) b → onStack d m b = .panic) ∧ (¬ Nests m (d + 1) b → onStack d m b = decoder m b) := by
  induction d generalizing b with
  | zero => exact ⟨fun _ => rfl, fun h => absurd (.call b) h⟩
  | succ d ih =>
    obtain ⟨k, hk⟩ : ∃ k, b.length < k := ⟨_, Nat.lt_succ_self _⟩
    induction k generalizing b with
    | zero => omega
    | succ k ihb =>
      by_cases hb : b = []
      · subst hb
        exact ⟨fun h => absurd h Nests.nil, fun _ => by rw [onStack_eq, decoder_nil]; rfl⟩
      have h0 : 0 < b.length := List.length_pos_iff.mpr hb
      rw [onStack_eq, if_neg hb]
      by_cases hD : Opens b ∧ Nests m (d + 1) (members b)
      · have : decodeOne (onStack d m) m b = .panic := by
          rw [decodeOne_open hD.1, (ih _).1 hD.2]
          rfl
        rw [this]
        exact ⟨fun _ => rfl, fun h => absurd (.into hD.1 hD.2) h⟩
      · have hd : decodeOne (onStack d m) m b = decodeOne (decoder m) m b := by
          by_cases ho : Opens b
          · rw [decodeOne_open ho, (ih _).2 fun hn => hD ⟨ho, hn⟩, ← decodeOne_open ho]
          · exact decodeOne_shut ho
        have inv : Nests m (d + 2) b → ∃ x n, decodeOne (decoder m) m b = .ok (x, n) ∧ 0 < n ∧ Nests m (d + 2) (b.drop n) := by
          intro h
          cases h with
          | into ho hn => exact absurd ⟨ho, hn⟩ hD
          | past _ h1 h2 h3 => exact ⟨_, _, h1, h2, h3⟩
        rw [hd, decoder_eq, if_neg hb]
        cases h1 : decodeOne (decoder m) m b with
        | ok p =>
          obtain ⟨x, n⟩ := p
          rw [R.ok_bind]
          simp only [R.ok_bind]
          by_cases hn : n = 0
          · rw [if_pos hn, if_pos hn]
            refine ⟨fun h => ?_, fun _ => rfl⟩
            obtain ⟨x', n', h1', h2, _⟩ := inv h
            rw [h1] at h1'
            cases h1'
            omega
          · rw [if_neg hn, if_neg hn]
            obtain ⟨i1, i2⟩ := ihb (b.drop n) (by simp; omega)
            constructor
            · intro h
              obtain ⟨x', n', h1', _, h3⟩ := inv h
              rw [h1] at h1'
              cases h1'
              rw [i1 h3]
              rfl
            · intro h
              rw [i2 fun h3 => h (.past hb h1 (Nat.pos_of_ne_zero hn) h3)]
        | _ =>
          refine ⟨fun h => ?_, fun _ => rfl⟩
          obtain ⟨x', n', h1', _⟩ := inv h
          rw [h1] at h1'
          cases h1'

theorem Nests.length {m : Mode} {n : Nat} {b : Bytes} (h : Nests m n b) : 4 * (n - 1) ≤ b.length := by
  induction h with
  | call => omega
  | into ho hn ih =>
    have h1 := members_length ho
    have h2 := ho.whole
    have h3 := hn.pos
    omega
  | past _ _ _ _ ih =>
    simp at ih
    omega

/-- C81 (what holds): a quarter of the length of the buffer is enough. -/
theorem C81_bound_partial (d : Nat) (m : Mode) (b : Bytes) (h : b.length < 4 * d) : onStack d m b = decoder m b :=
  (C81_exact d m b).2 fun hn => by have := hn.length; omega

/-! ## Bearer contexts in bearer contexts -/

/-- `d` bearer contexts, each the only member of the one before, around an EBI. -/
def russianDoll : Nat → Bytes
  | 0 => [73, 0, 1, 0, 5]
  | d + 1 => 93 :: be16 (UInt16.ofNat (4 * d + 5)) ++ 0 :: russianDoll d

theorem russianDoll_length (d : Nat) : (russianDoll d).length = 4 * d + 5 := by
  induction d with
  | zero => rfl
  | succ d ih => simp [russianDoll, be16, ih]; omega

theorem russianDoll_declLen (d : Nat) : declLen (russianDoll (d + 1)) = UInt16.ofNat (4 * d + 5) := by
  show of16 (hi16 _) (lo16 _) = _
  simp

theorem russianDoll_declared {d : Nat} (h : d ≤ 16381) : declared (russianDoll (d + 1)) = 4 * d + 5 := by
  rw [← declared_eq, russianDoll_declLen]
  simp
  omega

theorem russianDoll_members {d : Nat} (h : d ≤ 16381) : members (russianDoll (d + 1)) = russianDoll d := by
  have hl := russianDoll_length d
  rw [members, russianDoll_declared h]
  show ((93 :: hi16 _ :: lo16 _ :: 0 :: russianDoll d).take (4 * d + 5 + 4)).drop 4 = _
  rw [List.take_of_length_le (by simp; omega)]
  rfl

theorem russianDoll_opens {d : Nat} (h : d ≤ 16381) : Opens (russianDoll (d + 1)) := by
  have := russianDoll_declared h
  refine ⟨⟨93, by decide, rfl⟩, by omega, by omega, ?_⟩
  rw [this, russianDoll_length]
  omega

theorem russianDoll_one {m : Mode} {d : Nat} (h : d ≤ 16381) {l : List IE} : ∃ x,
    decodeOne (fun _ => .ok l) m (russianDoll (d + 1)) = .ok (x, (russianDoll (d + 1)).length) ∧ x.kind = .BearerContext := by
  have hf := ((opens_iff _).mp (russianDoll_opens h)).2
  have hl : ((russianDoll (d + 1)).length) = (declLen (russianDoll (d + 1))).toNat + 4 := by
    have := russianDoll_declared h
    rw [← declared_eq] at this
    rw [this, russianDoll_length]
    omega
  refine ⟨.BearerContext (BearerContext.ofGroup 93 (declLen (russianDoll (d + 1))) 0 l), ?_, rfl⟩
  rw [decodeOne_front m (by simp [russianDoll]), show frontKind (russianDoll (d + 1)) = .BearerContext from rfl, unmKind, groupUnm_open hf,
    R.ok_bind, R.ok_bind, R.pure_eq, R.ok_bind, IE.len, BearerContext.ofGroup_length, ieLenU, R.ok_bind, hl]
  rfl

theorem russianDoll_front {m : Mode} {d : Nat} {P : IE → Prop} (hy : ∃ y, decoder m (russianDoll d) = .ok [y] ∧ P y) (h : d ≤ 16381) : ∃ x,
    decodeOne (decoder m) m (russianDoll (d + 1)) = .ok (x, (russianDoll (d + 1)).length) ∧ x.kind = .BearerContext := by
  obtain ⟨y, hy, _⟩ := hy
  obtain ⟨x, hx, hk⟩ := russianDoll_one (m := m) (d := d) (by omega) (l := [y])
  exact ⟨x, by rw [decodeOne_open (russianDoll_opens (by omega)), russianDoll_members (by omega), hy, R.ok_bind, hx], hk⟩

theorem russianDoll_zero (m : Mode) : decodeOne (decoder m) m (russianDoll 0) = .ok (.Ebi ⟨73, 1, 0, 5⟩, 5) := by cases m <;> rfl

/-- The decoder accepts it, as one bearer context; the default EBI takes the place of the bearer contexts inside. -/
theorem russianDoll_decoded (m : Mode) : ∀ {d : Nat}, d ≤ 16382 → ∃ x, decoder m (russianDoll d) = .ok [x] ∧
    (x.kind = .BearerContext ∨ x.kind = .Ebi)
  | 0, _ => by
    have h := russianDoll_zero m
    refine ⟨.Ebi ⟨73, 1, 0, 5⟩, ?_, .inr rfl⟩
    rw [decoder_step (by simp [russianDoll]) h (by decide)]
    show (decoder m [] >>= _) = _
    rw [decoder_nil]
    rfl
  | d + 1, hd => by
    obtain ⟨x, h1, hk⟩ := russianDoll_front (russianDoll_decoded m (d := d) (by omega)) (by omega)
    refine ⟨x, ?_, .inl hk⟩
    rw [decoder_step (by simp [russianDoll]) h1 (by rw [russianDoll_length]; omega), List.drop_length, decoder_nil]
    rfl

theorem russianDoll_nests (m : Mode) : ∀ {d : Nat}, d ≤ 16382 → Nests m (d + 1) (russianDoll d)
  | 0, _ => .call _
  | d + 1, h => .into (russianDoll_opens (by omega)) (by rw [russianDoll_members (by omega)]; exact russianDoll_nests m (by omega))

theorem russianDoll_no_deeper (m : Mode) : ∀ {d : Nat}, d ≤ 16382 → ¬ Nests m (d + 2) (russianDoll d)
  | 0, _, h => by
    cases h with
    | into ho _ =>
      obtain ⟨t, ht, h0⟩ := ho.type
      cases h0
      exact absurd ht (by decide)
    | past _ h1 _ h3 =>
      rw [russianDoll_zero m] at h1
      cases h1
      exact Nests.nil h3
  | d + 1, hd, h => by
    cases h with
    | into _ hn =>
      rw [russianDoll_members (by omega)] at hn
      exact russianDoll_no_deeper m (by omega) hn
    | past _ h1 _ h3 =>
      obtain ⟨x, hx, _⟩ := russianDoll_front (russianDoll_decoded m (d := d) (by omega)) (by omega)
      rw [hx] at h1
      cases h1
      rw [List.drop_length] at h3
      exact Nests.nil h3

/-- C81 violated: whatever room there is on the stack, up to 16382 calls, four octets for each of them and five more are a sequence of IEs
that is accepted when there is more room, and that ends the program when there is not. -/
theorem C81_violation (m : Mode) {d : Nat} (h : d ≤ 16382) : ∃ b : Bytes, b.length = 4 * d + 5 ∧ (∃ x, decoder m b = .ok [x]) ∧
    onStack d m b = .panic ∧ onStack (d + 1) m b = decoder m b := by
  refine ⟨russianDoll d, russianDoll_length d, (russianDoll_decoded m h).imp fun _ h => h.1, (C81_exact d m _).1 (russianDoll_nests m h), (C81_exact _ m _).2 ?_⟩
  exact russianDoll_no_deeper m h

/-- An Echo Request with a Recovery, behind which there are `d` bearer contexts in each other. -/
def echoDoll (d : Nat) : Bytes := 64 :: 1 :: be16 (UInt16.ofNat (4 * d + 14)) ++ [0, 0, 0, 0, 3, 0, 1, 0, 0] ++ russianDoll d

theorem echoDoll_length (d : Nat) : (echoDoll d).length = 4 * d + 18 := by
  simp [echoDoll, be16, russianDoll_length]

theorem echoDoll_announced {d : Nat} (h : d ≤ 16380) : oct (echoDoll d) 2 * 256 + oct (echoDoll d) 3 = 4 * d + 14 := by
  show (hi16 (UInt16.ofNat (4 * d + 14))).toNat * 256 + (lo16 (UInt16.ofNat (4 * d + 14))).toNat = _
  simp [hi16, lo16]
  omega

/-- The stack of a receiver of messages, too, is at the disposal of the sender: a bearer context has no place in an Echo Request at all, and
yet the request is accepted, after as many nested calls as its sender has chosen. -/
theorem C81_violation_message (m : Mode) {d : Nat} (h : d ≤ 16380) :
    (∃ y, Msg.EchoRequest.codec.unmarshal m (echoDoll d) = .ok y) ∧ (echoDoll d).length = 4 * d + 18 ∧
      Nests m (d + 1) ((echoDoll d).drop 8) ∧ onStack d m ((echoDoll d).drop 8) = .panic := by
  have e8 : (echoDoll d).drop 8 = [3, 0, 1, 0, 0] ++ russianDoll d := rfl
  have h1 : decodeOne (decoder m) m ([3, 0, 1, 0, 0] ++ russianDoll d) = .ok (.Recovery ⟨3, 1, 0, 0⟩, 5) := by
    have hd : ∀ dec : Bytes → R Err (List IE), ∀ l : Bytes, decodeOne dec m (3 :: 0 :: 1 :: 0 :: 0 :: l) = .ok (.Recovery ⟨3, 1, 0, 0⟩, 5) := by
      intro dec l
      cases m <;> rfl
    exact hd _ _
  have hn : Nests m (d + 1) ((echoDoll d).drop 8) := by
    rw [e8]
    exact .past (by simp) h1 (by decide) (russianDoll_nests m (by omega))
  refine ⟨?_, echoDoll_length d, hn, (C81_exact d m _).1 hn⟩
  obtain ⟨x, hx, hk⟩ := russianDoll_decoded m (d := d) (by omega)
  have hdec : decoder m ((echoDoll d).drop 8) = .ok [.Recovery ⟨3, 1, 0, 0⟩, x] := by
    rw [e8, decoder_step (by simp) h1 (by decide)]
    show (decoder m (russianDoll d) >>= _) = _
    rw [hx]
    rfl
  have ha := echoDoll_announced h
  refine ⟨⟨⟨1, false, none, UInt16.ofNat (4 * d + 14), none, 0⟩, ⟨3, 1, 0, 0⟩, none, []⟩, ?_⟩
  refine (C79_accepted_iff_partial m .EchoRequest (fun h => nomatch h) (by decide +kernel) _ _).mpr ?_
  refine ⟨⟨1, false, none, UInt16.ofNat (4 * d + 14), none, 0⟩, [.Recovery ⟨3, 1, 0, 0⟩, x], 8, ?_, rfl, ?_, rfl, ?_, ?_, ?_, rfl, ?_⟩
  · unfold headerSpec
    simp only [ha, echoDoll_length]
    rw [if_neg (by omega), show oct (echoDoll d) 0 = 64 from rfl, if_neg (by decide), if_pos (by decide), if_neg (by omega), if_neg (by omega),
      show oct (echoDoll d) 1 = 1 from rfl, show oct (echoDoll d) 4 = 0 from rfl, show oct (echoDoll d) 5 = 0 from rfl,
      show oct (echoDoll d) 6 = 0 from rfl]
    rfl
  · rw [announced, ha, echoDoll_length]; omega
  · rw [announced, ha]; omega
  · rw [announced, ha, List.take_of_length_le (by rw [echoDoll_length]; omega)]
    exact (C79_sequence _ _ _).mp hdec
  · intro s hs hm
    have hs : s ∈ Msg.EchoRequest.schema := hs
    simp only [Msg.EchoRequest.schema, List.mem_cons, List.not_mem_nil, or_false] at hs
    obtain rfl | rfl | rfl := hs
    · exact ⟨.Recovery ⟨3, 1, 0, 0⟩, by simp, rfl, rfl⟩
    · cases hm
    · cases hm
  · have h1 : ∀ s ∈ Msg.EchoRequest.schema, arriving s [.Recovery ⟨3, 1, 0, 0⟩, x] = arriving s [.Recovery ⟨3, 1, 0, 0⟩] := by
      intro s hs
      have : (s.kind == x.kind) = false := by
        simp only [Msg.EchoRequest.schema, List.mem_cons, List.not_mem_nil, or_false] at hs
        obtain rfl | rfl | rfl := hs <;> rcases hk with hk | hk <;> rw [hk] <;> rfl
      simp [arriving, List.filter, this]
    have h2 : Msg.EchoRequest.schema.map (holding [.Recovery ⟨3, 1, 0, 0⟩, x]) = Msg.EchoRequest.schema.map (holding [.Recovery ⟨3, 1, 0, 0⟩]) :=
      List.map_congr_left fun s hs => by unfold holding; rw [h1 s hs]
    exact Eq.trans rfl h2.symm

/-! ## C82: the work -/

/-- Decoding `b` takes `w` calls of the `unmarshal` of an IE: one for every IE that the loop comes to, and those for the members, if it is a
grouped IE that is complete. The loop ends at the end of the buffer or with an IE that cannot be decoded. -/
inductive Calls (m : Mode) : Bytes → Nat → Prop
  | nil : Calls m [] 0
  | last {b : Bytes} {w : Nat} : b ≠ [] → (∀ p, decodeOne (decoder m) m b ≠ .ok p) → (Opens b → Calls m (members b) w) →
      (¬ Opens b → w = 0) → Calls m b (w + 1)
  | next {b : Bytes} {w v n : Nat} {x : IE} : decodeOne (decoder m) m b = .ok (x, n) → 0 < n → (Opens b → Calls m (members b) w) →
      (¬ Opens b → w = 0) → Calls m (b.drop n) v → Calls m b (w + 1 + v)

/-- The number of calls is determined by the octets. -/
theorem C82_unique {m : Mode} {b : Bytes} {w w' : Nat} (h : Calls m b w) (h' : Calls m b w') : w = w' := by
  induction h generalizing w' with
  | nil =>
    cases h' with
    | nil => rfl
    | last hb _ _ _ => exact absurd rfl hb
    | next h1 _ _ _ _ => exact absurd (decodeOne_four h1) (by decide)
  | @last b w hb h1 h2 h3 ih =>
    cases h' with
    | nil => exact absurd rfl hb
    | last _ _ h2' h3' =>
      by_cases ho : Opens b
      · rw [ih ho (h2' ho)]
      · rw [h3 ho, h3' ho]
    | next h1' _ _ _ _ => exact absurd h1' (h1 _)
  | @next b w v n x h1 h0 h2 h3 h4 ih ihv =>
    cases h' with
    | nil => exact absurd (decodeOne_four h1) (by decide)
    | last _ h1' _ _ => exact absurd h1 (h1' _)
    | next h1' _ h2' h3' h4' =>
      rw [h1] at h1'
      cases h1'
      rw [ihv h4']
      by_cases ho : Opens b
      · rw [ih ho (h2' ho)]
      · rw [h3 ho, h3' ho]

/-- The number of calls is finite unless the loop never ends, which happens in release builds only (C10). -/
theorem C82_finite (m : Mode) (b : Bytes) (h : decoder m b ≠ .diverge) : ∃ w, Calls m b w := by
  obtain ⟨k, hk⟩ : ∃ k, b.length < k := ⟨_, Nat.lt_succ_self _⟩
  induction k generalizing b with
  | zero => omega
  | succ k ih =>
    by_cases hb : b = []
    · subst hb; exact ⟨0, .nil⟩
    have h0 : 0 < b.length := List.length_pos_iff.mpr hb
    rw [decoder_eq, if_neg hb] at h
    obtain ⟨w, h2, h3⟩ : ∃ w, (Opens b → Calls m (members b) w) ∧ (¬ Opens b → w = 0) := by
      by_cases ho : Opens b
      · have hl := members_length ho
        have := ho.whole
        obtain ⟨w, hw⟩ := ih (members b) (fun hd => h (by rw [decodeOne_open ho, hd]; rfl)) (by omega)
        exact ⟨w, fun _ => hw, fun hn => absurd ho hn⟩
      · exact ⟨0, fun h => absurd h ho, fun _ => rfl⟩
    cases h1 : decodeOne (decoder m) m b with
    | ok p =>
      obtain ⟨x, n⟩ := p
      rw [h1, R.ok_bind] at h
      simp only at h
      by_cases hn : n = 0
      · rw [if_pos hn] at h
        exact absurd rfl h
      · rw [if_neg hn] at h
        obtain ⟨v, hv⟩ := ih (b.drop n) (fun hd => h (by rw [hd]; rfl)) (by simp; omega)
        exact ⟨_, .next h1 (Nat.pos_of_ne_zero hn) h2 h3 hv⟩
    | _ => exact ⟨_, .last hb (fun p => by rw [h1]; exact fun h => nomatch h) h2 h3⟩

theorem grouped_exact : ∀ t ∈ groupTypes, (kindOf t).exact = true := by decide +kernel

theorem opens_len {m : Mode} {b : Bytes} {x : IE} {n : Nat} (ho : Opens b) (h : decodeOne (decoder m) m b = .ok (x, n)) :
    n = declared b + 4 ∧ ∃ l, decoder m (members b) = .ok l := by
  obtain ⟨t, ht, h0⟩ := ho.type
  refine ⟨C11_declared_length_partial m b x n h ?_ (.inr ho.small), ?_⟩
  · cases b with
    | nil => cases h0
    | cons a r => cases h0; exact grouped_exact _ ht
  · rw [decodeOne_open ho] at h
    cases hd : decoder m (members b) with
    | ok l => exact ⟨l, rfl⟩
    | _ => rw [hd] at h; cases h

/-- C82 in debug builds: at most one call for every four octets, where a rest counts as four. If all of the buffer is decoded, there is no rest. -/
theorem C82_debug {b : Bytes} {w : Nat} (h : Calls .debug b w) :
    4 * w ≤ b.length + 3 ∧ ∀ l, decoder .debug b = .ok l → 4 * w ≤ b.length := by
  generalize hm : Mode.debug = m at h ⊢
  induction h with
  | nil => exact ⟨by simp, fun _ _ => by simp⟩
  | @last b w hb h1 h2 h3 ih =>
    have h0 : 0 < b.length := List.length_pos_iff.mpr hb
    refine ⟨?_, ?_⟩
    · by_cases ho : Opens b
      · have hl := members_length ho
        have := ho.whole
        have := (ih ho).1
        omega
      · have := h3 ho
        omega
    · intro l hl
      rw [decoder_eq, if_neg hb] at hl
      cases hd : decodeOne (decoder m) m b with
      | ok p => exact absurd hd (h1 p)
      | _ => rw [hd] at hl; cases hl
  | @next b w v n x h1 hn h2 h3 h4 ih ihv =>
    have hf := decodeOne_four h1
    have hp := decodeOne_pos h1 (.inl hm.symm)
    have hw : 4 * (w + 1) ≤ n ∧ (Opens b → n ≤ b.length) ∧ 4 * (w + 1) ≤ b.length := by
      by_cases ho : Opens b
      · obtain ⟨e, l, hl⟩ := opens_len ho h1
        have h5 := (ih ho).2 l hl
        have h6 := members_length ho
        have := ho.whole
        omega
      · have := h3 ho
        exact ⟨by omega, fun h => absurd h ho, by omega⟩
    rw [List.length_drop] at ihv
    refine ⟨?_, ?_⟩
    · have := ihv.1
      omega
    · intro l hl
      obtain ⟨l', hl'⟩ : ∃ l', decoder m (b.drop n) = .ok l' := by
        rw [decoder_eq, if_neg (fun e => by rw [e] at hf; simp at hf), h1, R.ok_bind] at hl
        simp only [if_neg (Nat.pos_iff_ne_zero.mp hn)] at hl
        cases hd : decoder m (b.drop n) with
        | ok l' => exact ⟨l', rfl⟩
        | _ => rw [hd] at hl; cases hl
      have := ihv.2 l' hl'
      omega

/-- C82 in both builds: at most one call for every octet. -/
theorem C82_linear {m : Mode} {b : Bytes} {w : Nat} (h : Calls m b w) : w ≤ b.length := by
  induction h with
  | nil => simp
  | @last b w hb h1 h2 h3 ih =>
    have h0 : 0 < b.length := List.length_pos_iff.mpr hb
    by_cases ho : Opens b
    · have hl := members_length ho
      have := ho.whole
      have := ih ho
      omega
    · have := h3 ho
      omega
  | @next b w v n x h1 hn h2 h3 h4 ih ihv =>
    have hf := decodeOne_four h1
    rw [List.length_drop] at ihv
    by_cases ho : Opens b
    · obtain ⟨e, l, hl⟩ := opens_len ho h1
      have h6 := members_length ho
      have := ho.whole
      have := ih ho
      omega
    · have := h3 ho
      omega

/-- Three nested calls for 13 octets; two are not enough. -/
example : Nests .debug 3 (russianDoll 2) ∧ russianDoll 2 = [93, 0, 9, 0, 93, 0, 5, 0, 73, 0, 1, 0, 5] ∧ onStack 2 .debug (russianDoll 2) = .panic :=
  ⟨russianDoll_nests _ (by decide), rfl, (C81_exact _ _ _).1 (russianDoll_nests _ (by decide))⟩

/-- The hypothesis of `C81_bound_partial`. -/
example : (russianDoll 2).length < 4 * 4 ∧ ∃ x, decoder .debug (russianDoll 2) = .ok [x] :=
  ⟨by decide, (russianDoll_decoded .debug (by decide)).imp fun _ h => h.1⟩

/-- Two calls for the nine octets of a bearer context with an EBI; the bound is reached. -/
example : Calls .debug (russianDoll 1) 2 ∧ (russianDoll 1).length / 4 = 2 := by
  obtain ⟨x, hx, _⟩ := russianDoll_front (m := .debug) (d := 0) (russianDoll_decoded .debug (by decide)) (by decide)
  have h1 : Calls .debug (russianDoll 0) 1 := by
    refine .next (w := 0) (v := 0) (russianDoll_zero .debug) (by decide) (fun ho => ?_) (fun _ => rfl) .nil
    obtain ⟨t, ht, h0⟩ := ho.type
    cases h0
    exact absurd ht (by decide)
  refine ⟨.next (w := 1) (v := 0) hx (by decide) (fun _ => ?_) (fun h => absurd (russianDoll_opens (by decide)) h) ?_, by decide⟩
  · rw [russianDoll_members (by decide)]
    exact h1
  · rw [List.drop_length]
    exact .nil

end Gtp.Props
