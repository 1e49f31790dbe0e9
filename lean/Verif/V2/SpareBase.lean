import Verif.V2.IE

/-!
# Decoders that ignore bits

`cut u b` keeps of the octet at `i` the bits of `u i`. A decoder ignores the other bits when it has the same outcome for `cut u b` as for `b`.
-/

namespace Gtp.V2
set_option linter.unusedSimpArgs false
set_option linter.unusedVariables false

/-- Of the octet at `i` the bits `u i`. -/
def cut (u : Nat → UInt8) (b : Bytes) : Bytes := b.mapIdx fun i v => v &&& u i

theorem bind_def {ε α β : Type} (x : R ε α) (f : α → R ε β) : (x >>= f) = R.bind x f := rfl
theorem rbind_assoc {ε α β γ : Type} (x : R ε α) (f : α → R ε β) (g : β → R ε γ) : R.bind (R.bind x f) g = R.bind x fun a => R.bind (f a) g := by
  cases x <;> rfl
theorem rbind_ok {ε α β : Type} (a : α) (f : α → R ε β) : R.bind (.ok a) f = f a := rfl
theorem rbind_pure {ε α : Type} (x : R ε α) : R.bind x .ok = x := by cases x <;> rfl
theorem and_ff (v : UInt8) : v &&& 255 = v := by
  have key : ∀ v : UInt8, v &&& 255 = v := by decide +kernel
  exact key v
theorem rbind_ext {ε α β : Type} {x y : R ε α} {f g : α → R ε β} (h : x = y) (hf : ∀ a, y = .ok a → f a = g a) : (x >>= f) = (y >>= g) := by
  subst h
  cases x with
  | ok a => exact hf a rfl
  | _ => rfl

section
variable {ε : Type} {u : Nat → UInt8} {b : Bytes}

theorem cut_length : (cut u b).length = b.length := by simp [cut]
theorem cut_get (j : Nat) : (cut u b)[j]? = b[j]?.map (· &&& u j) := by simp [cut]

theorem rd_cut {j : Nat} : (rd (cut u b) j : R ε UInt8) = R.bind (rd b j) fun v => .ok (v &&& u j) := by
  unfold rd
  rw [cut_get]
  cases b[j]? <;> rfl

theorem rd_keep {j : Nat} (h : u j = 255) : (rd (cut u b) j : R ε UInt8) = rd b j := by
  rw [rd_cut, h]
  simp only [and_ff]
  exact rbind_pure _

theorem rd16_keep {j : Nat} (h0 : u j = 255) (h1 : u (j + 1) = 255) : (rd16 (cut u b) j : R ε UInt16) = rd16 b j := by
  simp only [rd16, rd_keep h0, rd_keep h1]
theorem rd24_keep {j : Nat} (h : ∀ k, j ≤ k → u k = 255) : (rd24 (cut u b) j : R ε UInt32) = rd24 b j := by
  simp only [rd24, rd_keep (h j (by omega)), rd_keep (h (j + 1) (by omega)), rd_keep (h (j + 2) (by omega))]
theorem rd24_keep' {j : Nat} (h0 : u j = 255) (h1 : u (j + 1) = 255) (h2 : u (j + 2) = 255) : (rd24 (cut u b) j : R ε UInt32) = rd24 b j := by
  simp only [rd24, rd_keep h0, rd_keep h1, rd_keep h2]
theorem rd32_keep {j : Nat} (h : ∀ k, j ≤ k → u k = 255) : (rd32 (cut u b) j : R ε UInt32) = rd32 b j := by
  simp only [rd32, rd_keep (h j (by omega)), rd_keep (h (j + 1) (by omega)), rd_keep (h (j + 2) (by omega)), rd_keep (h (j + 3) (by omega))]
theorem rd40_keep {j : Nat} (h : ∀ k, j ≤ k → u k = 255) : (rd40 (cut u b) j : R ε UInt64) = rd40 b j := by
  simp only [rd40, rd_keep (h j (by omega)), rd_keep (h (j + 1) (by omega)), rd_keep (h (j + 2) (by omega)), rd_keep (h (j + 3) (by omega)),
    rd_keep (h (j + 4) (by omega))]
theorem rd64_keep {j : Nat} (h : ∀ k, j ≤ k → u k = 255) : (rd64 (cut u b) j : R ε UInt64) = rd64 b j := by
  simp only [rd64, rd_keep (h j (by omega)), rd_keep (h (j + 1) (by omega)), rd_keep (h (j + 2) (by omega)), rd_keep (h (j + 3) (by omega)),
    rd_keep (h (j + 4) (by omega)), rd_keep (h (j + 5) (by omega)), rd_keep (h (j + 6) (by omega)), rd_keep (h (j + 7) (by omega))]
theorem rdIp6_keep {j : Nat} (h : ∀ k, j ≤ k → u k = 255) : (rdIp6 (cut u b) j : R ε Ip6) = rdIp6 b j := by
  simp only [rdIp6, rd64_keep h, rd64_keep fun k hk => h k (Nat.le_trans (Nat.le_add_right _ 8) hk)]

theorem cut_drop {i : Nat} (h : ∀ k, i ≤ k → u k = 255) : (cut u b).drop i = b.drop i := by
  apply List.ext_getElem?
  intro k
  rw [List.getElem?_drop, List.getElem?_drop, cut_get, h _ (Nat.le_add_right _ _)]
  cases b[i + k]? <;> simp [and_ff]

theorem sl_keep {i j : Nat} (h : ∀ k, i ≤ k → u k = 255) : (sl (cut u b) i j : R ε Bytes) = sl b i j := by
  simp only [sl, cut_length, List.drop_take, cut_drop h]
theorem slFrom_keep {i : Nat} (h : ∀ k, i ≤ k → u k = 255) : (slFrom (cut u b) i : R ε Bytes) = slFrom b i := by
  simp only [slFrom, cut_length, cut_drop h]
theorem sl_cut {i j : Nat} : (sl (cut u b) i j : R ε Bytes) = R.bind (sl b i j) fun s => .ok (cut (fun k => u (i + k)) s) := by
  unfold sl
  rw [cut_length]
  split
  · simp only [rbind_ok]
    congr 1
    apply List.ext_getElem?
    intro k
    rw [cut_get, List.getElem?_drop, List.getElem?_drop, List.getElem?_take, List.getElem?_take, cut_get]
    split <;> rfl
  · rfl
theorem checkTliv_cut {m : Mode} {l : UInt16} : (checkTliv m l (cut u b) : R ε Bool) = checkTliv m l b := by
  simp only [checkTliv, cut_length]

theorem rdStr_keep {c : Nat} {e : Err} (h : ∀ k, c - 1 ≤ k → u k = 255) : rdStr (cut u b) c e = rdStr b c e := by
  simp only [bind_def, rdStr, cut_length, rd_keep (h (c - 1) (Nat.le_refl _)), sl_keep (i := c) fun k hk => h k (by omega)]
theorem rdLvU_keep {c : Nat} (h : ∀ k, c ≤ k → u k = 255) : rdLvU (cut u b) c = rdLvU b c := by
  simp only [bind_def, rdLvU, rd_keep (h c (Nat.le_refl _)), sl_keep (i := c + 1) fun k hk => h k (by omega)]
theorem rdN_keep {n c : Nat} (h : ∀ k, c ≤ k → u k = 255) : rdN n (cut u b) c = rdN n b c := by
  simp only [rdN, sl_keep h]
theorem rdElems_keep {α : Type} {chk : Bool} {unm : Bytes → R Err α} {k : Nat} {e : Err} : ∀ {n c : Nat}, (∀ k, c ≤ k → u k = 255) →
    rdElems chk unm k e (cut u b) n c = rdElems chk unm k e b n c
  | 0, c, h => rfl
  | n + 1, c, h => by
    unfold rdElems
    simp only [bind_def, cut_length, slFrom_keep h, rdElems_keep (n := n) (c := c + k) fun k hk => h k (by omega)]
theorem rdElems_le {α : Type} {chk : Bool} {unm : Bytes → R Err α} {k : Nat} {e : Err} : ∀ {n c : Nat} {l : List α} {c' : Nat},
    rdElems chk unm k e b n c = .ok (l, c') → c ≤ c'
  | 0, c, l, c', h => by cases h; exact Nat.le_refl _
  | n + 1, c, l, c', h => by
    unfold rdElems at h
    split at h
    · cases h
    · cases h1 : (slFrom b c : R Err Bytes) <;> simp only [h1, R.ok_bind, R.err_bind, R.panic_bind, R.diverge_bind] at h <;> try cases h
      rename_i s
      cases h2 : (unm s).mapErr e <;> simp only [h2, R.ok_bind, R.err_bind, R.panic_bind, R.diverge_bind] at h <;> try cases h
      cases h3 : rdElems chk unm k e b n (c + k) <;> simp only [h3, R.ok_bind, R.err_bind, R.panic_bind, R.diverge_bind] at h <;> try cases h
      rename_i p
      have := rdElems_le (c' := p.2) (l := p.1) h3
      omega

end

/-- Two readers agree from `lo` on and do not move back. -/
def Steps {α : Type} (lo : Nat) (st' st : Nat → R Err (α × Nat)) : Prop := ∀ c, lo ≤ c → st' c = st c ∧ ∀ p, st c = .ok p → lo ≤ p.2

namespace Steps
variable {α β : Type} {u : Nat → UInt8} {b : Bytes} {lo : Nat}

theorem bind {st' st : Nat → R Err (α × Nat)} (h : Steps lo st' st) {c : Nat} (hc : lo ≤ c) {f' f : α × Nat → R Err β}
    (hf : ∀ p, lo ≤ p.2 → f' p = f p) : (st' c >>= f') = (st c >>= f) :=
  rbind_ext (h c hc).1 fun p hp => hf p ((h c hc).2 p hp)

theorem rdLvU (h : ∀ k, lo ≤ k → u k = 255) : Steps lo (rdLvU (cut u b)) (rdLvU b) := fun c hc =>
  ⟨rdLvU_keep fun k hk => h k (by omega), fun p hp => by
    unfold V2.rdLvU at hp
    cases h1 : (rd b c : R Err UInt8) with
    | ok l =>
      rw [h1, R.ok_bind] at hp
      cases h2 : (sl b (c + 1) (c + 1 + l.toNat) : R Err Bytes) with
      | ok s => rw [h2, R.ok_bind] at hp; cases hp; exact Nat.le_trans hc (by omega)
      | _ => rw [h2] at hp; cases hp
    | _ => rw [h1] at hp; cases hp⟩

theorem rdN {n : Nat} (h : ∀ k, lo ≤ k → u k = 255) : Steps lo (rdN n (cut u b)) (rdN n b) := fun c hc =>
  ⟨rdN_keep fun k hk => h k (by omega), fun p hp => by
    unfold V2.rdN at hp
    cases h2 : (sl b c (c + n) : R Err Bytes) with
    | ok s => rw [h2, R.ok_bind] at hp; cases hp; exact Nat.le_trans hc (by omega)
    | _ => rw [h2] at hp; cases hp⟩

theorem rdPlmnS (h : ∀ k, lo ≤ k → u k = 255) : Steps lo (rdPlmnS (cut u b)) (rdPlmnS b) := fun c hc =>
  ⟨by unfold V2.rdPlmnS; rw [sl_keep fun k hk => h k (by omega)], fun p hp => by
    unfold V2.rdPlmnS at hp
    cases h1 : (sl b c (c + 3) : R Err Bytes) with
    | ok s =>
      rw [h1, R.ok_bind] at hp
      cases h2 : (mccMncDecode s : R Err _) with
      | ok s => rw [h2, R.ok_bind] at hp; cases hp; exact Nat.le_trans hc (by omega)
      | _ => rw [h2] at hp; cases hp
    | _ => rw [h1] at hp; cases hp⟩

theorem rdName (h : ∀ k, lo ≤ k → u k = 255) : Steps lo (TwanId.rdName (cut u b)) (TwanId.rdName b) := fun c hc =>
  ⟨by unfold TwanId.rdName; rw [(rdLvU h c hc).1], fun p hp => by
    unfold TwanId.rdName at hp
    cases h1 : V2.rdLvU b c with
    | ok s =>
      rw [h1, R.ok_bind] at hp
      have := (rdLvU h c hc).2 s h1
      simp only at hp
      cases h2 : (R.ofOption (fromUtf8 s.1) (Err.ieIncorrect 169)) with
      | ok v => rw [h2, R.ok_bind] at hp; cases hp; exact this
      | _ => rw [h2] at hp; cases hp
    | _ => rw [h1] at hp; cases hp⟩

theorem rdLe {st' st : Nat → R Err (α × Nat)} (h : Steps lo st' st) {e : Err} : Steps lo (rdLe e (cut u b) st') (rdLe e b st) := fun c hc =>
  ⟨by unfold V2.rdLe; rw [cut_length, (h c hc).1], fun p hp => by
    unfold V2.rdLe at hp
    split at hp
    · exact (h c hc).2 p hp
    · cases hp⟩

theorem rdIf {st' st : Nat → R Err (α × Nat)} (h : Steps lo st' st) {f : Bool} : Steps lo (rdIf f st') (rdIf f st) := fun c hc =>
  ⟨by unfold V2.rdIf; rw [(h c hc).1], fun p hp => by
    unfold V2.rdIf at hp
    split at hp
    · cases h1 : st c with
      | ok s => rw [h1, R.ok_bind] at hp; cases hp; exact (h c hc).2 s h1
      | _ => rw [h1] at hp; cases hp
    · cases hp; exact hc⟩

theorem rdLvC {e : Err} (h : ∀ k, lo ≤ k → u k = 255) : Steps lo (rdLvC e (cut u b)) (rdLvC e b) := fun c hc =>
  ⟨by
    unfold V2.rdLvC
    simp only [bind_def, cut_length, rd_keep (h c hc), sl_keep (i := c + 1) fun k hk => h k (by omega)], fun p hp => by
    unfold V2.rdLvC at hp
    cases h1 : (rd b c : R Err UInt8) with
    | ok l =>
      rw [h1, R.ok_bind] at hp
      split at hp
      · cases h2 : (sl b (c + 1) (c + 1 + l.toNat) : R Err Bytes) with
        | ok s => rw [h2, R.ok_bind] at hp; cases hp; exact Nat.le_trans hc (by omega)
        | _ => rw [h2] at hp; cases hp
      · cases hp
    | _ => rw [h1] at hp; cases hp⟩

theorem rdElems {chk : Bool} {unm : Bytes → R Err α} {k n : Nat} {e : Err} (h : ∀ k, lo ≤ k → u k = 255) :
    Steps lo (rdElems chk unm k e (cut u b) n) (rdElems chk unm k e b n) := fun c hc =>
  ⟨rdElems_keep fun k hk => h k (by omega), fun p hp => Nat.le_trans hc (rdElems_le (c' := p.2) (l := p.1) hp)⟩

end Steps

theorem rdRelay_keep {u : Nat → UInt8} {b : Bytes} {f : Bool} {c : Nat} (h : ∀ k, c ≤ k → u k = 255) : TwanId.rdRelay f (cut u b) c = TwanId.rdRelay f b c := by
  unfold TwanId.rdRelay
  rw [cut_length, rd_keep (h c (Nat.le_refl _))]
  split
  · split
    · refine rbind_ext rfl fun r _ => ?_
      refine (Steps.rdLvC h).bind (by omega) fun p hp => ?_
      exact (Steps.rdLe (Steps.rdLvC h)).bind hp fun q _ => rfl
    · rfl
  · rfl

end Gtp.V2
