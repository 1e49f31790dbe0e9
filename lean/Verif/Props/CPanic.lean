import Verif.Props.CMsgRecv

/-!
# Properties C52 and C53: exactly when the decoder of a GTPv1-C message panics, and when it never ends

`Fails t m last seen s` describes, without the loop of the decoder, that decoding the octets `s` behind the header ends
in a panic; `last` is the type of the last element in front of them and `seen` the types of all of them. `Spins` describes
that it never ends.
-/

namespace Gtp.Props.C1
open Gtp.C1 Gtp.V1 Gtp.C1.Desc
open Gtp.V2 (declLen)

/-- The number of octets of the element of kind `k` at the start of `s`: fixed, or three more than its length field
says, in 16 bits. -/
def occupied (k : Kind) (s : Bytes) : Nat := match k.fixedLen with
  | some n => n
  | none => (declared s + 3) % 65536

inductive Fails (t : Msg) (m : Mode) : UInt8 → List UInt8 → Bytes → Prop
  /-- The decoder of the first element panics. -/
  | element {last c : UInt8} {seen : List UInt8} {r : Bytes} {a : Arm t.desc.S} (asc : last ≤ c)
      (arm : t.desc.arm c = some a) (h : a.kind.Panics m (c :: r)) : Fails t m last seen (c :: r)
  /-- The first GSN address of an Update PDP Context Request is malformed. -/
  | unwrap {last : UInt8} {seen : List UInt8} {r : Bytes} {e : Err} (msg : t = .UpdatePDPContextRequest) (asc : last ≤ 133)
      (first : 133 ∉ seen) (h : (Kind.codec .GsnAddress).unm m (133 :: r) = .err e) : Fails t m last seen (133 :: r)
  /-- The element is the 256th of its type: the counter overflows. -/
  | count {last c : UInt8} {seen : List UInt8} {r : Bytes} {a : Arm t.desc.S} {i : a.kind.Ty} (mode : m = .debug) (asc : last ≤ c)
      (arm : t.desc.arm c = some a) (h : a.kind.codec.unm m (c :: r) = .ok i) (n : 255 ≤ seen.count c) : Fails t m last seen (c :: r)
  /-- The size of the element overflows. -/
  | size {last c : UInt8} {seen : List UInt8} {r : Bytes} {a : Arm t.desc.S} {i : a.kind.Ty} (mode : m = .debug) (asc : last ≤ c)
      (arm : t.desc.arm c = some a) (h : a.kind.codec.unm m (c :: r) = .ok i) (var : a.kind.fixedLen = none)
      (n : 65533 ≤ declared (c :: r)) : Fails t m last seen (c :: r)
  /-- The first element is decoded, and what follows it fails. -/
  | next {last c : UInt8} {seen : List UInt8} {r : Bytes} {a : Arm t.desc.S} {i : a.kind.Ty} (asc : last ≤ c)
      (arm : t.desc.arm c = some a) (h : a.kind.codec.unm m (c :: r) = .ok i)
      (rest : Fails t m c (c :: seen) ((c :: r).drop (occupied a.kind (c :: r)))) : Fails t m last seen (c :: r)

/-- The size of a decoded element. -/
theorem len_cases {k : Kind} (hk : k ≠ .ExtensionHeaderTypeList) {m : Mode} {b : Bytes} {i : k.Ty} (h : k.codec.unm m b = .ok i) :
    (k.codec.len m i = .panic ∧ m = .debug ∧ k.fixedLen = none ∧ 65533 ≤ declared b) ∨
    (k.codec.len m i = .ok (occupied k b) ∧ ¬ (m = .debug ∧ k.fixedLen = none ∧ 65533 ≤ declared b)) := by
  rcases k.account m b i h with ⟨n, h1, h2, _⟩ | ⟨h1, _, h3⟩ | h3
  · exact .inr ⟨by rw [h2, occupied, h1], by simp [h1]⟩
  · have hd := declared_eq b
    have h3' : (3 : UInt16).toNat = 3 := rfl
    rcases Nat.lt_or_ge (declLen b).toNat 65533 with hl | hl
    · refine .inr ⟨?_, by omega⟩
      rw [h3, len3_ok hl, occupied, h1]
      simp only
      rw [Nat.mod_eq_of_lt (by omega), hd]
    · cases m with
      | debug =>
        refine .inl ⟨?_, rfl, h1, by omega⟩
        rw [h3, Gtp.U.len3, add16, if_neg (by omega)]
        rfl
      | release =>
        refine .inr ⟨?_, by simp⟩
        rw [h3, Gtp.U.len3, add16, occupied, h1]
        simp [UInt16.toNat_add, hd]
  · exact absurd h3 hk

/-- What the loop knows about the elements in front of the cursor. -/
structure Tracks {t : Msg} (m : Mode) (st : St t.desc) (seen : List UInt8) : Prop where
  hash : ∀ c, st.hash c = if seen.count c = 0 then none else some (UInt8.ofNat (seen.count c))
  few : m = .debug → ∀ c, seen.count c ≤ 255

theorem bump_panic {t : Msg} {m : Mode} {st : St t.desc} {seen : List UInt8} (h : Tracks m st seen) (c : UInt8) :
    (bump m (st.hash c) = .panic ∧ m = .debug ∧ 255 ≤ seen.count c) ∨
    (bump m (st.hash c) = .ok (UInt8.ofNat (seen.count c + 1)) ∧ ¬ (m = .debug ∧ 255 ≤ seen.count c)) := by
  rw [h.hash c]
  have h1 : (1 : UInt8).toNat = 1 := rfl
  split
  · rename_i h0
    refine .inr ⟨by simp [bump, h0], by omega⟩
  · rename_i h0
    rw [bump]
    have hn : (UInt8.ofNat (seen.count c)).toNat = seen.count c % 256 := by simp
    cases m with
    | debug =>
      have := h.few rfl c
      rcases Nat.lt_or_ge (seen.count c) 255 with hl | hl
      · refine .inr ⟨?_, by omega⟩
        rw [add8_ok (by omega)]
        congr 1
        apply UInt8.toNat_inj.mp
        simp [UInt8.toNat_add]
      · refine .inl ⟨?_, rfl, hl⟩
        rw [add8, if_neg (by omega)]
    | release =>
      refine .inr ⟨?_, by simp⟩
      have : ∀ x : UInt8, (add8 .release x 1 : R Err UInt8) = .ok (x + 1) := by
        intro x
        rw [add8]
      rw [this]
      congr 1
      apply UInt8.toNat_inj.mp
      simp [UInt8.toNat_add]

theorem Tracks.next {t : Msg} {m : Mode} {st : St t.desc} {seen : List UInt8} (h : Tracks m st seen) {c : UInt8} (a : Arm t.desc.S)
    (e : IE) (hc : ¬ (m = .debug ∧ 255 ≤ seen.count c)) : Tracks m (st.next c a (UInt8.ofNat (seen.count c + 1)) e) (c :: seen) := by
  constructor
  · intro c'
    simp only [St.next]
    by_cases hx : c' = c
    · subst hx
      simp
    · rw [if_neg hx, List.count_cons_of_ne (fun h => hx h.symm), h.hash c']
  · intro hm c'
    have := h.few hm c'
    by_cases hx : c' = c
    · subst hx
      rw [List.count_cons_self]
      have : ¬ 255 ≤ seen.count c' := fun h => hc ⟨hm, h⟩
      omega
    · rw [List.count_cons_of_ne (fun h => hx h.symm)]
      exact this

/-- An element that occupies no octets is decoded again and again. -/
theorem spins {t : Msg} {c : UInt8} {r : Bytes} {a : Arm t.desc.S} {i : a.kind.Ty} (ha : t.desc.arm c = some a)
    (hu : a.kind.codec.unm .release (c :: r) = .ok i) (hl : a.kind.codec.len .release i = .ok 0) :
    ∀ (fuel : Nat) (st : St t.desc), st.inc ≤ c → t.desc.scan .release fuel (c :: r) st = .diverge
  | 0, _, _ => rfl
  | fuel + 1, st, h => by
    rw [scan, if_neg (by simpa using h), ha]
    simp only
    rw [hu]
    simp only
    have hb : ∃ k, bump .release (st.hash c) = .ok k := by
      cases st.hash c with
      | none => exact ⟨_, rfl⟩
      | some v =>
        rw [bump, add8]
        exact ⟨_, rfl⟩
    obtain ⟨k, hk⟩ := hb
    rw [hk, R.ok_bind, hl, R.ok_bind, List.drop_zero]
    exact spins ha hu hl fuel _ (by simp [St.next])

theorem size_pos {k : Kind} {b : Bytes} (h : ¬ (k.fixedLen = none ∧ 65533 ≤ declared b)) : 0 < occupied k b := by
  have hd := declared_eq b
  have := (declLen b).toNat_lt
  unfold occupied
  split
  · rename_i n hn
    cases k <;> simp [Kind.fixedLen] at hn <;> omega
  · rename_i hn
    have : ¬ 65533 ≤ declared b := fun hx => h ⟨hn, hx⟩
    rw [Nat.mod_eq_of_lt (by omega)]
    omega

/-- The arm for the GSN addresses of an Update PDP Context Request. -/
theorem arm_133 {a : Arm (Msg.desc .UpdatePDPContextRequest).S} (h : (Msg.desc .UpdatePDPContextRequest).arm 133 = some a) :
    a.kind = .GsnAddress ∧ a.bad = badUnwrap := by
  cases h
  exact ⟨rfl, rfl⟩

theorem scan_panics (t : Msg) (m : Mode) : ∀ (fuel : Nat) (b : Bytes) (st : St t.desc) (seen : List UInt8), b.length < fuel →
    Tracks m st seen → t.desc.scan m fuel b st = .panic → Fails t m st.inc seen b
  | fuel, [], st, seen, _, _, hp => by rw [scan_nil] at hp; cases hp
  | 0, c :: r, _, _, h, _, _ => by simp at h
  | fuel + 1, c :: r, st, seen, hf, ht, hp => by
    rw [scan] at hp
    split at hp
    · cases hp
    rename_i hasc
    have hasc : st.inc ≤ c := by simpa using hasc
    split at hp
    · cases hp
    rename_i a ha
    have hnl := arm_not_list ha
    cases hu : a.kind.codec.unm m (c :: r) with
    | panic => exact .element hasc ha ((a.kind.panics m (c :: r)).1.mp hu)
    | diverge => exact absurd hu (a.kind.panics m (c :: r)).2
    | err e =>
      rw [hu] at hp
      simp only at hp
      cases hb : a.bad (st.hash c) st.inc with
      | some e' => rw [hb] at hp; cases hp
      | none =>
        obtain ⟨h1, h2, h3⟩ := bad_table t _ (mem_of_lookup ha) _ _ hb
        simp only at h2
        subst h1
        subst h2
        rw [(arm_133 ha).1] at hu
        refine .unwrap rfl hasc ?_ hu
        intro hm
        rw [ht.hash 133, if_neg (by have := List.count_pos_iff.mpr hm; omega)] at h3
        cases h3
    | ok i =>
      rw [hu] at hp
      simp only at hp
      rcases bump_panic ht c with ⟨_, h1, h2⟩ | ⟨h1, h2⟩
      · exact .count h1 hasc ha hu h2
      rcases len_cases hnl hu with ⟨_, h3, h4, h5⟩ | ⟨h3, h4⟩
      · exact .size h3 hasc ha hu h4 h5
      rw [h1, R.ok_bind, h3, R.ok_bind] at hp
      refine .next hasc ha hu ?_
      by_cases hz : 0 < occupied a.kind (c :: r)
      · exact scan_panics t m fuel _ _ (c :: seen) (by rw [List.length_drop]; simp only [List.length_cons] at hf ⊢; omega) (ht.next a _ h2) hp
      · exfalso
        have hz : occupied a.kind (c :: r) = 0 := by omega
        have hm : m = .release := by
          cases m with
          | release => rfl
          | debug => exact absurd (size_pos fun h => h4 ⟨rfl, h⟩) (by omega)
        subst hm
        rw [hz] at h3 hp
        rw [List.drop_zero, spins ha hu h3 fuel _ (by simp [St.next])] at hp
        cases hp

theorem fails_scan {t : Msg} {m : Mode} {last : UInt8} {seen : List UInt8} {b : Bytes} (h : Fails t m last seen b) :
    ∀ (fuel : Nat) (st : St t.desc), b.length < fuel → st.inc = last → Tracks m st seen → t.desc.scan m fuel b st = .panic := by
  induction h with
  | element asc arm h =>
    intro fuel st hf hi ht
    obtain ⟨f, rfl⟩ : ∃ f, fuel = f + 1 := ⟨fuel - 1, by omega⟩
    rw [scan, if_neg (by rw [hi]; simpa using asc), arm]
    simp only
    rw [(Kind.panics _ m _).1.mpr h]
  | unwrap msg asc first h =>
    subst msg
    intro fuel st hf hi ht
    obtain ⟨f, rfl⟩ : ∃ f, fuel = f + 1 := ⟨fuel - 1, by omega⟩
    have ha : ∃ a, (Msg.desc .UpdatePDPContextRequest).arm 133 = some a := ⟨_, rfl⟩
    obtain ⟨a, ha⟩ := ha
    obtain ⟨hk, hb⟩ := arm_133 ha
    rw [scan, if_neg (by rw [hi]; simpa using asc), ha]
    simp only
    rw [← hk] at h
    rw [h]
    simp only
    rw [hb, ht.hash 133, if_pos (List.count_eq_zero.mpr first)]
    rfl
  | count mode asc arm h n =>
    intro fuel st hf hi ht
    obtain ⟨f, rfl⟩ : ∃ f, fuel = f + 1 := ⟨fuel - 1, by omega⟩
    rw [scan, if_neg (by rw [hi]; simpa using asc), arm]
    simp only
    rw [h]
    simp only
    rcases bump_panic ht _ with ⟨h1, _⟩ | ⟨_, h1⟩
    · rw [h1]; rfl
    · exact absurd ⟨mode, n⟩ h1
  | size mode asc arm h var n =>
    intro fuel st hf hi ht
    obtain ⟨f, rfl⟩ : ∃ f, fuel = f + 1 := ⟨fuel - 1, by omega⟩
    rw [scan, if_neg (by rw [hi]; simpa using asc), arm]
    simp only
    rw [h]
    simp only
    rcases bump_panic ht _ with ⟨h1, _⟩ | ⟨h1, _⟩
    · rw [h1]; rfl
    rcases len_cases (arm_not_list arm) h with ⟨h2, _⟩ | ⟨_, h2⟩
    · rw [h1, R.ok_bind, h2]; rfl
    · exact absurd ⟨mode, var, n⟩ h2
  | @next last c seen r a i asc arm h rest ih =>
    intro fuel st hf hi ht
    obtain ⟨f, rfl⟩ : ∃ f, fuel = f + 1 := ⟨fuel - 1, by omega⟩
    rw [scan, if_neg (by rw [hi]; simpa using asc), arm]
    simp only
    rw [h]
    simp only
    rcases bump_panic ht c with ⟨h1, _⟩ | ⟨h1, h1'⟩
    · rw [h1]; rfl
    rcases len_cases (arm_not_list arm) h with ⟨h2, _⟩ | ⟨h2, h2'⟩
    · rw [h1, R.ok_bind, h2]; rfl
    rw [h1, R.ok_bind, h2, R.ok_bind]
    have ht' := ht.next a ⟨a.kind, i⟩ h1'
    by_cases hz : 0 < occupied a.kind (c :: r)
    · exact ih f _ (by rw [List.length_drop]; simp only [List.length_cons] at hf ⊢; omega) rfl ht'
    · exfalso
      have hz : occupied a.kind (c :: r) = 0 := by omega
      have hm : m = .release := by
        cases m with
        | release => rfl
        | debug => exact absurd (size_pos fun h => h2' ⟨rfl, h⟩) (by omega)
      subst hm
      rw [hz] at h2
      have := ih ((c :: r).length + 1) _ (by rw [List.length_drop]; omega) rfl ht'
      rw [hz, List.drop_zero, spins arm h h2 _ _ (by simp [St.next])] at this
      cases this

/-- The octets that the length check asks for. -/
theorem len8_cases (m : Mode) (l : UInt16) :
    (Gtp.U.len8 m l = (.panic : R Err Nat) ∧ m = .debug ∧ 65528 ≤ l.toNat) ∨
    (Gtp.U.len8 m l = (.ok ((l.toNat + 8) % 65536) : R Err Nat) ∧ ¬ (m = .debug ∧ 65528 ≤ l.toNat)) := by
  rcases Nat.lt_or_ge l.toNat 65528 with hl | hl
  · exact .inr ⟨by rw [len8_small m hl, Nat.mod_eq_of_lt (by omega)], by omega⟩
  · have h8 : (8 : UInt16).toNat = 8 := rfl
    cases m with
    | debug => exact .inl ⟨by rw [Gtp.U.len8, add16, if_neg (by omega)]; rfl, rfl, hl⟩
    | release => exact .inr ⟨by rw [Gtp.U.len8, add16]; simp [UInt16.toNat_add], by simp⟩

/-- C52: exactly when the decoder of a message panics, in both builds: when the decoder of the header does; or when, for a header
with the type of the message, 8 octets more than the length field says do not fit in 16 bits (debug builds); or when the
octets asked for are there and those behind the header fail. -/
theorem C52_panics_iff (t : Msg) (m : Mode) (b : Bytes) : t.desc.unmarshal m b = .panic ↔
    Header.unmarshal m b = .panic ∨ ∃ h n, Header.unmarshal m b = .ok h ∧ h.len m = .ok n ∧ b.getD 1 0 = t.desc.code ∧
      (m = .debug ∧ 65528 ≤ lengthField b ∨ (lengthField b + 8) % 65536 ≤ b.length ∧ Fails t m 0 [] (b.drop n)) := by
  unfold Desc.unmarshal
  cases hh : Header.unmarshal m b with
  | err e => simp
  | panic => simp
  | diverge => simp
  | ok h =>
    obtain ⟨-, hty, hf⟩ := header_fields hh
    obtain ⟨n, hn⟩ := header_len_ok hh
    rw [R.ok_bind]
    by_cases hc : h.msgtype = t.desc.code
    rotate_left
    · rw [if_pos hc]
      constructor
      · intro h'; cases h'
      · rintro (h' | ⟨h', n', h1, -, h2, -⟩)
        · cases h'
        · exact absurd (hty.trans h2) hc
    rw [if_neg (by simp [hc])]
    have hst : Tracks m (t.desc.start h) [] := ⟨fun c => by simp [start], fun _ c => by simp⟩
    have hlen : (b.drop n).length < b.length + 1 := by rw [List.length_drop]; omega
    rcases len8_cases m h.length with ⟨h1, h2, h3⟩ | ⟨h1, h2⟩
    · rw [h1]
      exact ⟨fun _ => .inr ⟨h, n, rfl, hn, hty ▸ hc, .inl ⟨h2, by omega⟩⟩, fun _ => rfl⟩
    rw [h1, R.ok_bind, hf]
    rw [hf] at h2
    by_cases hb : (lengthField b + 8) % 65536 ≤ b.length
    · rw [if_pos hb, hn, R.ok_bind]
      constructor
      · intro hp
        refine .inr ⟨h, n, rfl, hn, hty ▸ hc, .inr ⟨hb, ?_⟩⟩
        cases hs : t.desc.scan m (b.length + 1) (b.drop n) (t.desc.start h) with
        | ok st =>
          rw [hs, R.ok_bind, finish] at hp
          split at hp <;> cases hp
        | err e => rw [hs] at hp; cases hp
        | diverge => rw [hs] at hp; cases hp
        | panic => exact scan_panics t m _ _ _ [] hlen hst hs
      · rintro (h' | ⟨h', n', h3, h4, -, h5⟩)
        · cases h'
        cases h3
        rw [hn] at h4
        cases h4
        rcases h5 with h5 | h5
        · exact absurd h5 h2
        · rw [fails_scan h5.2 _ _ hlen rfl hst]
          rfl
    · rw [if_neg hb]
      constructor
      · intro h'; cases h'
      · rintro (h' | ⟨h', n', h3, h4, -, h5⟩)
        · cases h'
        · rcases h5 with h5 | h5
          · exact absurd h5 h2
          · exact absurd h5.1 hb

/-- A cause is decoded before the element that fails, a private extension of length 1. -/
example : Fails .DeletePDPContextResponse .release 0 [] [1, 128, 255, 0, 1, 7] :=
  .next (a := ⟨.Cause, _, _, _⟩) (by decide) rfl rfl
    (.element (a := ⟨.PrivateExtension, _, _, _⟩) (by decide) rfl ((Kind.panics .PrivateExtension .release _).1.mp rfl))

example : Fails .UpdatePDPContextRequest .debug 0 [] [133, 0, 2, 7, 7] :=
  .unwrap rfl (by decide) (by decide) rfl

/-! ## C53 -/

/-- In a release build, the octets `s` contain an element that occupies 65533 + 3 = 0 octets (in 16 bits), and the elements in front of it
are decoded. -/
inductive Spins (t : Msg) : UInt8 → Bytes → Prop
  | here {last c : UInt8} {r : Bytes} {a : Arm t.desc.S} {i : a.kind.Ty} (asc : last ≤ c) (arm : t.desc.arm c = some a)
      (h : a.kind.codec.unm .release (c :: r) = .ok i) (var : a.kind.fixedLen = none) (n : declared (c :: r) = 65533) : Spins t last (c :: r)
  | next {last c : UInt8} {r : Bytes} {a : Arm t.desc.S} {i : a.kind.Ty} (asc : last ≤ c) (arm : t.desc.arm c = some a)
      (h : a.kind.codec.unm .release (c :: r) = .ok i) (rest : Spins t c ((c :: r).drop (occupied a.kind (c :: r)))) : Spins t last (c :: r)

theorem bump_release (v : Option UInt8) : ∃ k, bump .release v = .ok k := by
  cases v with
  | none => exact ⟨_, rfl⟩
  | some v =>
    rw [bump, add8]
    exact ⟨_, rfl⟩

theorem len_release {k : Kind} (hk : k ≠ .ExtensionHeaderTypeList) {b : Bytes} {i : k.Ty} (h : k.codec.unm .release b = .ok i) :
    k.codec.len .release i = .ok (occupied k b) := by
  rcases len_cases hk h with ⟨_, h', _⟩ | ⟨h', _⟩
  · cases h'
  · exact h'

theorem occupied_zero {k : Kind} {b : Bytes} (h : occupied k b = 0) : k.fixedLen = none ∧ declared b = 65533 := by
  have hd := declared_eq b
  have hlt := (declLen b).toNat_lt
  have : k.fixedLen = none := by
    cases hk : k.fixedLen with
    | none => rfl
    | some n => exact absurd (size_pos (k := k) (b := b) (by simp [hk])) (by omega)
  refine ⟨this, ?_⟩
  rw [occupied, this] at h
  simp only at h
  omega

theorem scan_spins (t : Msg) : ∀ (fuel : Nat) (b : Bytes) (st : St t.desc), b.length < fuel →
    t.desc.scan .release fuel b st = .diverge → Spins t st.inc b
  | fuel, [], st, _, hp => by rw [scan_nil] at hp; cases hp
  | 0, c :: r, _, h, _ => by simp at h
  | fuel + 1, c :: r, st, hf, hp => by
    rw [scan] at hp
    split at hp
    · cases hp
    rename_i hasc
    have hasc : st.inc ≤ c := by simpa using hasc
    split at hp
    · cases hp
    rename_i a ha
    cases hu : a.kind.codec.unm .release (c :: r) with
    | panic => rw [hu] at hp; cases hp
    | diverge => exact absurd hu (a.kind.panics .release (c :: r)).2
    | err e =>
      rw [hu] at hp
      simp only at hp
      split at hp <;> cases hp
    | ok i =>
      rw [hu] at hp
      simp only at hp
      obtain ⟨k, hk⟩ := bump_release (st.hash c)
      rw [hk, R.ok_bind, len_release (arm_not_list ha) hu, R.ok_bind] at hp
      by_cases hz : 0 < occupied a.kind (c :: r)
      · exact .next hasc ha hu (scan_spins t fuel _ _ (by rw [List.length_drop]; simp only [List.length_cons] at hf ⊢; omega) hp)
      · obtain ⟨h1, h2⟩ := occupied_zero (k := a.kind) (b := c :: r) (by omega)
        exact .here hasc ha hu h1 h2

theorem spins_scan {t : Msg} {last : UInt8} {b : Bytes} (h : Spins t last b) : ∀ (fuel : Nat) (st : St t.desc), b.length < fuel →
    st.inc = last → t.desc.scan .release fuel b st = .diverge := by
  induction h with
  | @here last c r a i asc arm h var n =>
    intro fuel st hf hi
    refine spins arm h ?_ fuel st (hi ▸ asc)
    rw [len_release (arm_not_list arm) h, occupied, var]
    simp [n]
  | @next last c r a i asc arm h rest ih =>
    intro fuel st hf hi
    obtain ⟨f, rfl⟩ : ∃ f, fuel = f + 1 := ⟨fuel - 1, by omega⟩
    have hl := len_release (arm_not_list arm) h
    by_cases hz : 0 < occupied a.kind (c :: r)
    · rw [scan, if_neg (by rw [hi]; simpa using asc), arm]
      simp only
      rw [h]
      simp only
      obtain ⟨k, hk⟩ := bump_release (st.hash c)
      rw [hk, R.ok_bind, hl, R.ok_bind]
      exact ih f _ (by rw [List.length_drop]; simp only [List.length_cons] at hf ⊢; omega) rfl
    · have hz : occupied a.kind (c :: r) = 0 := by omega
      rw [hz] at hl
      exact spins arm h hl _ st (hi ▸ asc)

/-- C53: exactly when the decoder of a message never ends: when the decoder of the header does not, or in a release build when the octets
asked for are there and an element behind the header announces 65533 octets. -/
theorem C53_diverges_iff (t : Msg) (m : Mode) (b : Bytes) : t.desc.unmarshal m b = .diverge ↔
    m = .release ∧ (Header.unmarshal m b = .diverge ∨ ∃ h n, Header.unmarshal m b = .ok h ∧ h.len m = .ok n ∧
      b.getD 1 0 = t.desc.code ∧ (lengthField b + 8) % 65536 ≤ b.length ∧ Spins t 0 (b.drop n)) := by
  cases m with
  | debug => exact ⟨fun h => absurd h (C53_terminates_partial t b), fun h => by cases h.1⟩
  | release =>
    unfold Desc.unmarshal
    cases hh : Header.unmarshal .release b with
    | err e => simp
    | panic => simp
    | diverge => simp
    | ok h =>
      obtain ⟨-, hty, hf⟩ := header_fields hh
      obtain ⟨n, hn⟩ := header_len_ok hh
      rw [R.ok_bind]
      by_cases hc : h.msgtype = t.desc.code
      rotate_left
      · rw [if_pos hc]
        constructor
        · intro h'; cases h'
        · rintro ⟨-, h' | ⟨h', n', h1, -, h2, -⟩⟩
          · cases h'
          · exact absurd (hty.trans h2) hc
      rw [if_neg (by simp [hc])]
      have hlen : (b.drop n).length < b.length + 1 := by rw [List.length_drop]; omega
      rcases len8_cases .release h.length with ⟨_, h2, _⟩ | ⟨h1, _⟩
      · cases h2
      rw [h1, R.ok_bind, hf]
      by_cases hb : (lengthField b + 8) % 65536 ≤ b.length
      · rw [if_pos hb, hn, R.ok_bind]
        constructor
        · intro hp
          refine ⟨rfl, .inr ⟨h, n, rfl, hn, hty ▸ hc, hb, ?_⟩⟩
          cases hs : t.desc.scan .release (b.length + 1) (b.drop n) (t.desc.start h) with
          | ok st =>
            rw [hs, R.ok_bind, finish] at hp
            split at hp <;> cases hp
          | err e => rw [hs] at hp; cases hp
          | panic => rw [hs] at hp; cases hp
          | diverge => exact scan_spins t _ _ _ hlen hs
        · rintro ⟨-, h' | ⟨h', n', h3, h4, -, -, h5⟩⟩
          · cases h'
          cases h3
          rw [hn] at h4
          cases h4
          rw [spins_scan h5 _ _ hlen rfl]
          rfl
      · rw [if_neg hb]
        constructor
        · intro h'; cases h'
        · rintro ⟨-, h' | ⟨h', n', h3, h4, -, h5, -⟩⟩
          · cases h'
          · exact absurd h5 hb

example : Spins .DeletePDPContextResponse 0 [1, 128, 255, 255, 253, 0, 0] :=
  .next (a := ⟨.Cause, _, _, _⟩) (by decide) rfl rfl (.here (a := ⟨.PrivateExtension, _, _, _⟩) (by decide) rfl rfl rfl (by decide))

end Gtp.Props.C1
