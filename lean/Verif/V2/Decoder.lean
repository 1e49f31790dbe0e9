import Verif.V2.IEFin

/-!
# The IE decoder: fuel, termination, round trip, panics

Lemmas about `decoder` (`InformationElement::decoder`, ie.rs:481-1525).
-/

namespace Gtp.V2

theorem slBody16_length {m : Mode} {b s : Bytes} {l : UInt16} (h : slBody16 m b l = .ok s) : s.length + 4 ≤ b.length := by
  unfold slBody16 at h
  cases ha : (add16 m l 4 : R Err UInt16) with
  | ok x =>
    rw [ha, R.ok_bind] at h
    unfold sl at h
    split at h
    · injection h with h
      subst h
      simp
      omega
    · cases h
  | _ => rw [ha] at h; cases h

/-! ## The members of grouped IEs are decoded from a shorter buffer -/

theorem groupUnm_congr {α : Type} {dec dec' : Bytes → R Err (List IE)} {mk : UInt8 → UInt16 → UInt8 → List IE → α} {m : Mode}
    {b : Bytes} (h : ∀ s : Bytes, s.length < b.length → dec s = dec' s) : groupUnm dec mk m b = groupUnm dec' mk m b := by
  unfold groupUnm
  split
  · congr 1; funext t; congr 1; funext l; congr 1; funext i; congr 1; funext ok
    split
    · cases hs : slBody16 m b l with
      | ok s =>
        have := slBody16_length hs
        simp only [R.ok_bind]
        rw [h s (by omega)]
      | _ => rfl
    · rfl
  · rfl

theorem unmKind_congr {dec dec' : Bytes → R Err (List IE)} {m : Mode} {b : Bytes}
    (h : ∀ s : Bytes, s.length < b.length → dec s = dec' s) (k : Kind) : unmKind dec m b k = unmKind dec' m b k := by
  cases k <;> first
    | rfl
    | (simp only [unmKind]; rw [groupUnm_congr h])

theorem decodeOne_congr {dec dec' : Bytes → R Err (List IE)} {m : Mode} {b : Bytes}
    (h : ∀ s : Bytes, s.length < b.length → dec s = dec' s) : decodeOne dec m b = decodeOne dec' m b := by
  simp only [decodeOne, unmKind_congr h]

/-- Enough fuel is enough. -/
theorem decodeF_fuel {m : Mode} : ∀ {f g : Nat} {b : Bytes}, b.length < f → b.length < g → decodeF f m b = decodeF g m b
  | f + 1, g + 1, b, hf, hg => by
    unfold decodeF
    split
    · rfl
    · rename_i hb
      have h0 : 0 < b.length := List.length_pos_iff.mpr hb
      rw [decodeOne_congr (dec' := decodeF g m) fun s hs => decodeF_fuel (by omega) (by omega)]
      congr 1
      funext p
      obtain ⟨x, n⟩ := p
      simp only
      split
      · rfl
      · rw [decodeF_fuel (f := f) (g := g) (by simp; omega) (by simp; omega)]

/-- The decoder as a loop: one IE, then the rest of the buffer. -/
theorem decoder_eq (m : Mode) (b : Bytes) : decoder m b =
    if b = [] then .ok [] else do
      let (x, n) ← decodeOne (decoder m) m b
      if n = 0 then .diverge
      else
        let l ← decoder m (b.drop n)
        return x :: l := by
  rw [decoder]
  unfold decodeF
  split
  · rfl
  · rename_i hb
    have h0 : 0 < b.length := List.length_pos_iff.mpr hb
    rw [decodeOne_congr (dec' := decoder m) fun s hs => decodeF_fuel (by omega) (by omega)]
    congr 1
    funext p
    obtain ⟨x, n⟩ := p
    simp only
    split
    · rfl
    · rw [decodeF_fuel (g := (b.drop n).length + 1) (by simp; omega) (by omega)]
      rfl

theorem decoder_nil (m : Mode) : decoder m [] = .ok [] := by rw [decoder_eq]; rfl

theorem decoder_step {m : Mode} {b : Bytes} {x : IE} {n : Nat} (hb : b ≠ []) (h : decodeOne (decoder m) m b = .ok (x, n))
    (hn : n ≠ 0) : decoder m b = (decoder m (b.drop n) >>= fun l => .ok (x :: l)) := by
  rw [decoder_eq, if_neg hb, h, R.ok_bind]
  simp only
  rw [if_neg hn]
  rfl

/-! ## Round trip -/

theorem IE.marshal_cons (e : IE) : ∃ r, e.marshal = e.wireType :: r ∧ 3 ≤ r.length := by
  obtain ⟨l, i, body, h⟩ := IE.marshal_tliv e
  exact ⟨be16 (lenU16 body) ++ i :: body, by rw [h, tliv_eq]; rfl, by simp [be16]⟩

/-- One well-formed IE in front of a buffer is decoded back. -/
theorem decodeOne_marshal {dec : Bytes → R Err (List IE)} {m : Mode} {e : IE} {tail : Bytes} (h : e.WF)
    (hd : dec (IE.encoder e.members) = .ok e.members) : decodeOne dec m (e.marshal ++ tail) = .ok (e, e.marshal.length) := by
  have h1 := unmKind_rt (m := m) (tail := tail) h hd
  obtain ⟨r, hr, _⟩ := IE.marshal_cons e
  have h0 : (rd (e.marshal ++ tail) 0 : R Err UInt8) = .ok e.wireType := by rw [hr]; rfl
  rw [decodeOne, h0, R.ok_bind, kindOf_wireType h, h1, R.ok_bind, IE.len_ok h]
  rfl

theorem decoder_marshal_of {m : Mode} {e : IE} {tail : Bytes} (h : e.WF)
    (hd : decoder m (IE.encoder e.members) = .ok e.members) :
    decoder m (e.marshal ++ tail) = (decoder m tail >>= fun l => .ok (e :: l)) := by
  obtain ⟨r, hr, hl⟩ := IE.marshal_cons e
  rw [decoder_step (by rw [hr]; simp) (decodeOne_marshal h hd) (by rw [hr]; simp), List.drop_left]

theorem decoder_encoder_aux {m : Mode} : ∀ (d : Nat) (l : List IE), (∀ e ∈ l, e.WF ∧ e.depth < d) → ∀ tail,
    decoder m (IE.encoder l ++ tail) = (decoder m tail >>= fun r => .ok (l ++ r))
  | d, [], _, tail => by
    simp only [IE.encoder, List.flatMap_nil, List.nil_append]
    cases decoder m tail <;> rfl
  | 0, e :: l, h, tail => by have := (h e (by simp)).2; omega
  | d + 1, e :: l, h, tail => by
    obtain ⟨h1, h2⟩ := h e (by simp)
    have hm : decoder m (IE.encoder e.members) = .ok e.members := by
      have := decoder_encoder_aux (m := m) d e.members (fun y hy => ⟨IE.WF_members h1 hy, by have := IE.depth_members hy; omega⟩) []
      rw [List.append_nil, decoder_nil] at this
      rw [this]
      simp
    have e1 : IE.encoder (e :: l) ++ tail = e.marshal ++ (IE.encoder l ++ tail) := by simp [IE.encoder]
    rw [e1, decoder_marshal_of h1 hm, decoder_encoder_aux (d + 1) l (fun y hy => h y (by simp [hy])) tail]
    cases decoder m tail <;> rfl

/-- A sequence of well-formed IEs in front of anything is decoded back. -/
theorem decoder_encoder_append {m : Mode} {l : List IE} (h : ∀ e ∈ l, e.WF) (tail : Bytes) :
    decoder m (IE.encoder l ++ tail) = (decoder m tail >>= fun r => .ok (l ++ r)) :=
  decoder_encoder_aux 3 l (fun e he => ⟨h e he, by cases e <;> simp [IE.depth]⟩) tail

theorem decoder_encoder {m : Mode} {l : List IE} (h : ∀ e ∈ l, e.WF) : decoder m (IE.encoder l) = .ok l := by
  have := decoder_encoder_append (m := m) h []
  rw [List.append_nil, decoder_nil] at this
  rw [this]
  simp

theorem decoder_marshal {m : Mode} {e : IE} (h : e.WF) (tail : Bytes) :
    decoder m (e.marshal ++ tail) = (decoder m tail >>= fun l => .ok (e :: l)) :=
  decoder_marshal_of h (decoder_encoder fun _ hy => IE.WF_members h hy)

/-! ## Termination -/

/-- The result of one turn of the loop. -/
theorem decodeOne_inv {dec : Bytes → R Err (List IE)} {m : Mode} {b : Bytes} {x : IE} {n : Nat}
    (h : decodeOne dec m b = .ok (x, n)) :
    0 < b.length ∧ unmKind dec m b (kindOf (b.getD 0 0)) = .ok x ∧ x.len m = .ok n := by
  unfold decodeOne at h
  cases b with
  | nil => rw [rd_nil] at h; cases h
  | cons a r =>
    rw [rd_zero, R.ok_bind] at h
    refine ⟨by simp, ?_⟩
    simp only [List.getD_cons_zero]
    cases hu : unmKind dec m (a :: r) (kindOf a) with
    | ok y =>
      rw [hu, R.ok_bind] at h
      cases hl : y.len m with
      | ok k =>
        rw [hl, R.ok_bind] at h
        injection h with h
        injection h with h1 h2
        subst h1 h2
        exact ⟨rfl, hl⟩
      | _ => rw [hl] at h; cases h
    | _ => rw [hu] at h; cases h

theorem decodeOne_pos {dec : Bytes → R Err (List IE)} {m : Mode} {b : Bytes} {x : IE} {n : Nat}
    (h : decodeOne dec m b = .ok (x, n)) (hm : m = .debug ∨ (declLen b).toNat < 65532) : 4 ≤ n := by
  obtain ⟨_, h1, h2⟩ := decodeOne_inv h
  have h3 := Post.elim (unmKind_length dec m b _) h1
  exact IE.len_pos (fun _ => by rw [h3]; exact hm) h2

/-- No two adjacent octets form a number of at least 65532, the length that overflows when 4 is added. -/
def NoHuge (b : Bytes) : Prop := ∀ i, (of16 (b.getD i 0) (b.getD (i + 1) 0)).toNat < 65532

theorem NoHuge.drop {b : Bytes} (h : NoHuge b) (n : Nat) : NoHuge (b.drop n) := by
  intro i
  have := h (n + i)
  simpa [List.getD, List.getElem?_drop, Nat.add_assoc] using this

theorem of16_left_zero (b : UInt8) : (of16 0 b).toNat < 65532 := by
  revert b; decide +kernel

theorem of16_right_zero (a : UInt8) : (of16 a 0).toNat < 65532 := by
  revert a; decide +kernel

theorem NoHuge.take {b : Bytes} (h : NoHuge b) (n : Nat) : NoHuge (b.take n) := by
  intro i
  have := h i
  by_cases h1 : i + 1 < n
  · simpa [List.getD, List.getElem?_take, h1, show i < n by omega] using this
  · have e : (b.take n).getD (i + 1) 0 = 0 := by simp [List.getD, List.getElem?_take, h1]
    rw [e]
    exact of16_right_zero _

theorem NoHuge.declLen {b : Bytes} (h : NoHuge b) : (declLen b).toNat < 65532 := h 1

theorem NoHuge.slBody16 {m : Mode} {b s : Bytes} {l : UInt16} (h : NoHuge b) (hs : slBody16 m b l = .ok s) : NoHuge s := by
  unfold V2.slBody16 at hs
  cases ha : (add16 m l 4 : R Err UInt16) with
  | ok x =>
    rw [ha, R.ok_bind] at hs
    unfold sl at hs
    split at hs
    · have e := R.ok.inj hs
      rw [← e]
      exact (h.take x.toNat).drop 4
    · cases hs
  | _ => rw [ha] at hs; cases hs

theorem decoder_fin_aux {m : Mode} : ∀ (k : Nat) (b : Bytes), b.length < k → (m = .debug ∨ NoHuge b) → (decoder m b).Fin := by
  intro k
  induction k with
  | zero => intro b hk; omega
  | succ k ih =>
    intro b hk hm
    rw [decoder_eq]
    refine R.Fin.ite (fun _ => R.Fin.ok) fun hb => ?_
    have h1 : (decodeOne (decoder m) m b).Fin := by
      unfold decodeOne
      refine R.Fin.bind Fin_rd fun t => R.Fin.bind (unmKind_fin fun s hs => ?_) fun _ => R.Fin.bind IE.len_fin fun _ => R.Fin.pure
      have hl := slBody16_length hs
      exact ih s (by omega) (hm.imp id fun h => h.slBody16 hs)
    refine R.Fin.bind' h1 fun p hp => ?_
    obtain ⟨x, n⟩ := p
    have hn := decodeOne_pos hp (hm.imp id fun h => h.declLen)
    have h0 : 0 < b.length := List.length_pos_iff.mpr hb
    simp only
    rw [if_neg (by omega)]
    exact R.Fin.bind (ih _ (by simp; omega) (hm.imp id fun h => h.drop n)) fun _ => R.Fin.pure

/-- The decoder finishes in a debug build, and in a release build unless an overflowing length occurs. -/
theorem decoder_fin {m : Mode} {b : Bytes} (hm : m = .debug ∨ NoHuge b) : (decoder m b).Fin :=
  decoder_fin_aux (b.length + 1) b (by omega) hm

/-! ## Panics -/

/-- The buffers at whose front the decoder looks for an IE while decoding `b`. -/
inductive Visits (m : Mode) : Bytes → Bytes → Prop
  | here (b : Bytes) : b ≠ [] → Visits m b b
  | inside (b s : Bytes) : (declLen b).toNat + 4 ≤ b.length → Visits m ((b.take ((declLen b).toNat + 4)).drop 4) s → Visits m b s
  | next (b s : Bytes) (x : IE) (n : Nat) : decodeOne (decoder m) m b = .ok (x, n) → Visits m (b.drop n) s → Visits m b s

theorem decoder_safe_aux {m : Mode} : ∀ (k : Nat) (b : Bytes), b.length < k →
    (∀ s, Visits m b s → (kindOf (s.getD 0 0)).Cond s) → (decoder m b).Safe fun _ => True
  | k + 1, b, hk, hc => by
    rw [decoder_eq]
    split
    · trivial
    · rename_i hb
      have h0 : 0 < b.length := List.length_pos_iff.mpr hb
      have hcb := hc b (.here b hb)
      have h1 : (decodeOne (decoder m) m b).Safe fun _ => True := by
        unfold decodeOne
        rw [rd_getD h0, R.ok_bind, Safe_bind]
        refine Safe.mono (unmKind_safe hcb fun hl => ?_) fun x hx => ?_
        · exact decoder_safe_aux k _ (by simp; omega) fun s hs => hc s (.inside b s hl hs)
        · rw [Safe_bind]
          exact Safe.mono hx fun _ _ => trivial
      cases hp : decodeOne (decoder m) m b with
      | ok p =>
        obtain ⟨x, n⟩ := p
        rw [R.ok_bind]
        have hn : 4 ≤ n := by
          obtain ⟨_, h2, h3⟩ := decodeOne_inv hp
          have h4 := Post.elim (unmKind_length _ m b _) h2
          have h5 := Post.elim (unmKind_kind _ m b _) h2
          exact IE.len_pos (fun he => .inr (by rw [h4]; exact Kind.cond_exact (by rw [← h5]; exact he) hcb)) h3
        simp only
        rw [if_neg (by omega), Safe_bind]
        exact Safe.mono (decoder_safe_aux k _ (by simp; omega) fun s hs => hc s (.next b s x n hp hs)) fun _ _ => trivial
      | err e => trivial
      | panic => rw [hp] at h1; exact h1.elim
      | diverge => rw [hp] at h1; exact h1.elim

/-- The decoder does not panic if the condition of the arm holds wherever it looks for an IE. -/
theorem decoder_safe {m : Mode} {b : Bytes} (h : ∀ s, Visits m b s → (kindOf (s.getD 0 0)).Cond s) :
    (decoder m b).Safe fun _ => True := decoder_safe_aux (b.length + 1) b (by omega) h

end Gtp.V2
