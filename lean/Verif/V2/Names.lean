import Verif.V2.VarBase

/-!
# Dotted names as length-prefixed labels

The code shared (by copying) by `Apn`, `Fqdn`, `PgwFqdn` and `ApnRelativeCapacity`:
apn.rs:46-52 and 65-83, fqdn.rs:46-52 and 65-82, pgwfqdn.rs:46-52 and 65-83,
apnrelativecapacity.rs:49-55 and 72-89.
-/

namespace Gtp.V2

/-- `name.split('.')`. -/
def splitDots : Str → List Str
  | [] => [[]]
  | c :: r =>
    if c = '.' then [] :: splitDots r
    else match splitDots r with
      | [] => [[c]]
      | h :: t => (c :: h) :: t

/-- `z.push(i.len() as u8); z.extend_from_slice(i.as_bytes())`. -/
def encLabel (l : Str) : Bytes := lenU8 (utf8 l) :: utf8 l

/-- The octets of a dotted name. -/
def encName (s : Str) : Bytes := (splitDots s).flatMap encLabel

/-- The loop over `donor`: one length octet is drained, then that many octets (`drain` panics when
there are fewer); every label is followed by a dot. The fuel bounds the number of rounds. -/
def decLabels {ε : Type} : Nat → Bytes → R ε Str
  | _, [] => .ok []
  | 0, _ :: _ => .diverge
  | f + 1, n :: r =>
    if n.toNat ≤ r.length then do
      let t ← decLabels f (r.drop n.toNat)
      return latin1 (r.take n.toNat) ++ ['.'] ++ t
    else .panic

/-- The name read from `donor`; the last dot is popped. -/
def decName {ε : Type} (donor : Bytes) : R ε Str := do
  let p ← decLabels donor.length donor
  return p.dropLast

/-- A sequence of length-prefixed labels. -/
inductive Labels : Bytes → Prop
  | nil : Labels []
  | cons (n : UInt8) (l r : Bytes) : l.length = n.toNat → Labels r → Labels (n :: (l ++ r))

theorem splitDots_ne : ∀ s, splitDots s ≠ []
  | [] => by simp [splitDots]
  | c :: r => by
    simp only [splitDots]
    split
    · simp
    · split <;> simp

theorem splitDots_join : ∀ s : Str, (splitDots s).flatMap (fun l => l ++ ['.']) = s ++ ['.']
  | [] => rfl
  | c :: r => by
    have ih := splitDots_join r
    have hne := splitDots_ne r
    simp only [splitDots]
    split
    · rename_i h
      subst h
      simp only [List.flatMap_cons, List.nil_append, ih, List.cons_append]
    · split
      · rename_i h; exact absurd h hne
      · rename_i h t e
        rw [e] at ih
        simp only [List.flatMap_cons, List.cons_append, List.append_assoc] at ih ⊢
        rw [ih]

theorem splitDots_mem : ∀ {s l : Str}, l ∈ splitDots s → ∀ c ∈ l, c ∈ s
  | [], l, h, c, hc => by
    simp only [splitDots, List.mem_singleton] at h
    subst h
    exact hc
  | d :: r, l, h, c, hc => by
    simp only [splitDots] at h
    split at h
    · rcases List.mem_cons.mp h with h | h
      · subst h; simp at hc
      · exact List.mem_cons_of_mem _ (splitDots_mem h c hc)
    · split at h
      · rename_i e; exact absurd e (splitDots_ne r)
      · rename_i a t e
        rcases List.mem_cons.mp h with h | h
        · subst h
          rcases List.mem_cons.mp hc with hc | hc
          · simp [hc]
          · exact List.mem_cons_of_mem _ (splitDots_mem (l := a) (by rw [e]; simp) c hc)
        · exact List.mem_cons_of_mem _ (splitDots_mem (l := l) (by rw [e]; simp [h]) c hc)

/-- What a name must satisfy to be represented: ASCII, labels shorter than 256 characters. -/
def NameOk (s : Str) : Prop := (∀ c ∈ s, IsAscii c) ∧ ∀ l ∈ splitDots s, l.length < 256

instance (s : Str) : Decidable (NameOk s) := by unfold NameOk; infer_instance

theorem encLabels_length : ∀ ls : List Str, (∀ l ∈ ls, ∀ c ∈ l, IsAscii c) →
    (ls.flatMap encLabel).length = (ls.flatMap (fun l => l ++ ['.'])).length
  | [], _ => rfl
  | l :: ls, h => by
    have ih := encLabels_length ls (fun x hx => h x (by simp [hx]))
    have e := utf8_length (h l (by simp))
    simp only [List.flatMap_cons, List.length_append, encLabel, List.length_cons, e, List.length_nil] at ih ⊢
    omega

theorem encName_length {s : Str} (h : NameOk s) : (encName s).length = s.length + 1 := by
  have := encLabels_length (splitDots s) (fun l hl c hc => h.1 c (splitDots_mem hl c hc))
  rw [splitDots_join] at this
  simpa [encName] using this

theorem decLabels_enc {ε : Type} : ∀ (ls : List Str) (f : Nat), (∀ l ∈ ls, (∀ c ∈ l, IsAscii c) ∧ l.length < 256) →
    (ls.flatMap encLabel).length ≤ f →
    (decLabels f (ls.flatMap encLabel) : R ε Str) = .ok (ls.flatMap (fun l => l ++ ['.']))
  | [], f, _, _ => by cases f <;> rfl
  | l :: ls, 0, h, hf => by simp [encLabel] at hf
  | l :: ls, f + 1, h, hf => by
    obtain ⟨ha, hl⟩ := h l (by simp)
    have e := utf8_length ha
    have hk : (lenU8 (utf8 l)).toNat = (utf8 l).length := lenU8_toNat (by omega)
    have ih := decLabels_enc (ε := ε) ls f (fun x hx => h x (by simp [hx])) (by
      simp only [List.flatMap_cons, List.length_append, encLabel, List.length_cons] at hf; omega)
    simp only [List.flatMap_cons, encLabel, List.cons_append, decLabels, hk]
    rw [if_pos (by simp), List.drop_left, List.take_left, ih, latin1_utf8 ha]
    simp

theorem decName_encName {ε : Type} {s : Str} (h : NameOk s) :
    (decName (encName s) : R ε Str) = .ok s := by
  have e := decLabels_enc (ε := ε) (splitDots s) (encName s).length
    (fun l hl => ⟨fun c hc => h.1 c (splitDots_mem hl c hc), h.2 l hl⟩) (Nat.le_refl _)
  simp only [decName]
  rw [show (decLabels (encName s).length (encName s) : R ε Str) = .ok ((splitDots s).flatMap (fun l => l ++ ['.'])) from e]
  simp [splitDots_join]

theorem decLabels_safe {ε : Type} : ∀ (f : Nat) (d : Bytes), d.length ≤ f → Labels d →
    (decLabels f d : R ε Str).Safe (fun _ => True) := by
  intro f d hf hd
  induction hd generalizing f with
  | nil => cases f <;> trivial
  | cons n l r hl _ ih =>
    cases f with
    | zero => simp at hf
    | succ f =>
      simp only [decLabels]
      rw [if_pos (by simp; omega), ← hl, List.drop_left, Safe_bind]
      have := ih f (by simp at hf; omega)
      cases h : (decLabels f r : R ε Str) <;> rw [h] at this <;> simp_all [R.Safe]

/-- The decoder accepts exactly the sequences of complete labels; it panics on anything else. -/
theorem decLabels_panic {ε : Type} : ∀ (f : Nat) (d : Bytes), d.length ≤ f → ¬ Labels d →
    (decLabels f d : R ε Str) = .panic
  | _, [], _, h => absurd .nil h
  | 0, _ :: _, hf, _ => by simp at hf
  | f + 1, n :: r, hf, h => by
    simp only [decLabels]
    by_cases hn : n.toNat ≤ r.length
    · rw [if_pos hn]
      have := decLabels_panic (ε := ε) f (r.drop n.toNat) (by simp at hf ⊢; omega) (fun hl => h (by
        have := Labels.cons n (r.take n.toNat) (r.drop n.toNat) (by simp; omega) hl
        rwa [List.take_append_drop] at this))
      rw [this]; rfl
    · rw [if_neg hn]

theorem decName_safe {ε : Type} {d : Bytes} (h : Labels d) {P : Str → Prop} (hP : ∀ s, P s) :
    (decName d : R ε Str).Safe P := by
  have := decLabels_safe (ε := ε) d.length d (Nat.le_refl _) h
  unfold decName
  rw [Safe_bind]
  cases e : (decLabels d.length d : R ε Str) <;> rw [e] at this <;> simp_all [R.Safe]

theorem decName_panic {ε : Type} {d : Bytes} (h : ¬ Labels d) : (decName d : R ε Str) = .panic := by
  unfold decName
  rw [decLabels_panic _ _ (Nat.le_refl _) h]; rfl

end Gtp.V2
