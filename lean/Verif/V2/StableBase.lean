import Verif.V2.IEErr
import Verif.V2.SetLen
import Verif.V2.PostLen

/-!
# Tools for `Verif/V2/Stable.lean`

What the reading functions guarantee about the values they produce.
-/

namespace Gtp.V2
set_option linter.unusedSimpArgs false
section
variable {α β : Type} {P : α → Prop}

theorem Post_ite' {c : Prop} [Decidable c] {x y : R Err α} (hx : c → x.Post P) (hy : ¬ c → y.Post P) :
    (if c then x else y).Post P := by
  split
  · exact hx ‹_›
  · exact hy ‹_›

theorem Post_bind_sl {b : Bytes} {i j : Nat} {f : Bytes → R Err α}
    (h : ∀ s : Bytes, s.length = j - i → (f s).Post P) : (sl b i j >>= f).Post P := by
  rw [Post_bind, Post_sl]
  intro h1 h2
  exact h _ (by simp; omega)

theorem Post_bind_slFrom {b : Bytes} {i : Nat} {f : Bytes → R Err α}
    (h : ∀ s : Bytes, s.length = b.length - i → (f s).Post P) : (slFrom b i >>= f).Post P := by
  rw [Post_bind, Post_slFrom]
  intro h1
  exact h _ (by simp)

theorem Post_bind_body {m : Mode} {b : Bytes} {l : UInt16} {f : Bytes → R Err α}
    (h : ∀ s : Bytes, s.length = l.toNat → (f s).Post P) : (slBody16 m b l >>= f).Post P := by
  cases hs : slBody16 m b l with
  | ok s =>
    obtain ⟨h1, h2⟩ := slBody16_body hs
    rw [R.ok_bind]
    exact h s (by rw [h1]; simp; omega)
  | _ => trivial

theorem digitsVal_lt : ∀ (ds : List UInt8) (a : Nat), (ds.filter (· < 10)).foldl (fun acc d => acc * 10 + d.toNat) a < (a + 1) * 10 ^ ds.length
  | [], a => by simp
  | d :: ds, a => by
    by_cases h : d < 10
    · simp only [List.filter_cons, h, decide_true, if_true, List.foldl_cons, List.length_cons, Nat.pow_succ]
      refine Nat.lt_of_lt_of_le (digitsVal_lt ds _) ?_
      have : d.toNat < 10 := h
      calc (a * 10 + d.toNat + 1) * 10 ^ ds.length ≤ (a * 10 + 10) * 10 ^ ds.length := Nat.mul_le_mul_right _ (by omega)
        _ = (a + 1) * (10 ^ ds.length * 10) := by rw [show a * 10 + 10 = (a + 1) * 10 by omega, Nat.mul_assoc, Nat.mul_comm 10]
    · simp only [List.filter_cons, h, decide_false, List.length_cons, Nat.pow_succ]
      refine Nat.lt_of_lt_of_le (digitsVal_lt ds a) ?_
      exact Nat.mul_le_mul_left _ (by omega)

theorem digitsVal_bound {ds : List UInt8} {k : Nat} (hk : 10 ^ ds.length ≤ k) (h : k ≤ 65536) : (digitsVal ds).toNat < k := by
  have := digitsVal_lt ds 0
  unfold digitsVal
  rw [UInt16.toNat_ofNat']
  omega

theorem decode3_ok (b0 b1 b2 : UInt8) : PlmnOk (mccMncDecode3 b0 b1 b2).1 (mccMncDecode3 b0 b1 b2).2.1 (mccMncDecode3 b0 b1 b2).2.2 := by
  unfold mccMncDecode3
  refine ⟨digitsVal_bound (by simp) (by omega), ?_, ?_⟩
  · simp only
    split <;> exact digitsVal_bound (by simp) (by omega)
  · simp only
    intro h
    simp only [h]
    exact digitsVal_bound (by simp) (by omega)

theorem Post_bind_mcc {s : Bytes} {f : UInt16 × UInt16 × Bool → R Err α}
    (h : ∀ (a b : UInt16) (c : Bool), a.toNat < 1000 → b.toNat < 1000 → (c = false → b.toNat < 100) → (f (a, b, c)).Post P) :
    (mccMncDecode s >>= f).Post P := by
  unfold mccMncDecode
  simp only [Post_bind, Post_rd, Post_pure]
  intro _ _ _
  obtain ⟨h1, h2, h3⟩ := decode3_ok (s.getD 0 0) (s.getD 1 0) (s.getD 2 0)
  exact h _ _ _ h1 h2 h3

theorem Post_bind_rd {b : Bytes} {i : Nat} {f : UInt8 → R Err α}
    (h : ∀ v : UInt8, v.toNat < 256 → (f v).Post P) : (rd b i >>= f).Post P := by
  rw [Post_bind, Post_rd]
  exact fun _ => h _ (UInt8.toNat_lt _)

theorem Post_bind_ite {β : Type} {c : Prop} [Decidable c] {x y : R Err β} {f : β → R Err α}
    (h1 : c → (x >>= f).Post P) (h2 : ¬ c → (y >>= f).Post P) : ((if c then x else y) >>= f).Post P := by
  split
  · exact h1 ‹_›
  · exact h2 ‹_›

theorem Post_bind_bind {β γ : Type} {x : R Err β} {g : β → R Err γ} {f : γ → R Err α}
    (h : (x >>= fun a => g a >>= f).Post P) : ((x >>= g) >>= f).Post P := by
  cases x <;> exact h

theorem Post_bind_pure {β : Type} {a : β} {f : β → R Err α} (h : (f a).Post P) : ((pure a : R Err β) >>= f).Post P := h
theorem Post_bind_ok {β : Type} {a : β} {f : β → R Err α} (h : (f a).Post P) : ((R.ok a : R Err β) >>= f).Post P := h
theorem Post_bind_err {β : Type} {e : Err} {f : β → R Err α} : ((R.err e : R Err β) >>= f).Post P := trivial
theorem Post_bind_panic {β : Type} {f : β → R Err α} : ((R.panic : R Err β) >>= f).Post P := trivial

theorem utf8_fromUtf8 {b : Bytes} {s : Str} (h : fromUtf8 b = some s) : utf8 s = b := by
  unfold fromUtf8 at h
  obtain ⟨a, h1, rfl⟩ := Option.map_eq_some_iff.mp h
  have h2 := ByteArray.utf8Encode_get_utf8Decode? (b := b.toByteArray) (h := by simp [h1])
  simp only [h1, Option.get_some] at h2
  have h3 : (utf8 a.toList).toByteArray = b.toByteArray := h2
  have := congrArg (fun x => x.data.toList) h3
  simpa using this

theorem Post_bind_utf8 {s : Bytes} {e : Err} {f : Str → R Err α}
    (h : ∀ t : Str, (utf8 t).length = s.length → (f t).Post P) : (R.ofOption (fromUtf8 s) e >>= f).Post P := by
  cases hs : fromUtf8 s with
  | none => trivial
  | some t => exact h t (by rw [utf8_fromUtf8 hs])

theorem Post_bind_rdElems {β : Type} {chk : Bool} {unm : Bytes → R Err β} {k : Nat} {e : Err} {b : Bytes} {n c : Nat}
    {f : List β × Nat → R Err α} (W : β → Prop) (hu : ∀ s, (unm s).Post W)
    (h : ∀ (l : List β) (c : Nat), l.length = n → (∀ y ∈ l, W y) → (f (l, c)).Post P) :
    (rdElems chk unm k e b n c >>= f).Post P := by
  have H : ∀ n c, (rdElems chk unm k e b n c).Post fun p => p.1.length = n ∧ ∀ y ∈ p.1, W y := by
    intro n
    induction n with
    | zero => intro c; exact ⟨rfl, by simp⟩
    | succ n ih =>
      intro c
      rw [rdElems]
      refine Post_ite' (fun _ => trivial) fun _ => ?_
      refine Post_bind_any fun s => ?_
      rw [Post_bind]
      have := hu s
      cases hx : unm s with
      | ok x =>
        rw [hx] at this
        rw [R.mapErr_ok]
        refine (Post_bind ..).mpr ?_
        refine Post.mono (ih (c + k)) fun p hp => ?_
        obtain ⟨l, c'⟩ := p
        exact ⟨by simp [hp.1], by
          intro y hy
          rcases List.mem_cons.mp hy with rfl | hy
          · exact this
          · exact hp.2 y hy⟩
      | _ => trivial
  rw [Post_bind]
  exact Post.mono (H n c) fun p hp => h _ _ hp.1 hp.2

theorem of32_lt (x y z : UInt8) : (of32 0 x y z).toNat < 16777216 := by
  have := UInt8.toNat_lt x; have := UInt8.toNat_lt y; have := UInt8.toNat_lt z
  have : (0 : UInt8).toNat = 0 := rfl
  simp only [of32, UInt32.toNat_ofNat', this]
  omega

theorem of64_lt (x y z u v : UInt8) : (of64 0 0 0 x y z u v).toNat < 1099511627776 := by
  have := UInt8.toNat_lt x; have := UInt8.toNat_lt y; have := UInt8.toNat_lt z
  have := UInt8.toNat_lt u; have := UInt8.toNat_lt v
  have : (0 : UInt8).toNat = 0 := rfl
  simp only [of64, UInt64.toNat_ofNat', this]
  omega

theorem of64_lt48 (w x y z u v : UInt8) : (of64 0 0 w x y z u v).toNat < 2 ^ 48 := by
  have := UInt8.toNat_lt x; have := UInt8.toNat_lt y; have := UInt8.toNat_lt z
  have := UInt8.toNat_lt u; have := UInt8.toNat_lt v; have := UInt8.toNat_lt w
  have : (0 : UInt8).toNat = 0 := rfl
  simp only [of64, UInt64.toNat_ofNat', this]
  omega

theorem Post_bind_rd24 {b : Bytes} {i : Nat} {f : UInt32 → R Err α}
    (h : ∀ v : UInt32, v.toNat < 16777216 → (f v).Post P) : (rd24 b i >>= f).Post P := by
  unfold rd24
  simp only [Post_bind, Post_rd, Post_pure]
  intro _ _ _
  exact h _ (of32_lt _ _ _)

theorem Post_bind_rd40 {b : Bytes} {i : Nat} {f : UInt64 → R Err α}
    (h : ∀ v : UInt64, v.toNat < 1099511627776 → (f v).Post P) : (rd40 b i >>= f).Post P := by
  unfold rd40
  simp only [Post_bind, Post_rd, Post_pure]
  intro _ _ _ _ _
  exact h _ (of64_lt _ _ _ _ _)

theorem Post_bind_rd48 {b : Bytes} {i : Nat} {f : UInt64 → R Err α}
    (h : ∀ v : UInt64, v.toNat < 2 ^ 48 → (f v).Post P) : (rd48 b i >>= f).Post P := by
  unfold rd48
  simp only [Post_bind, Post_rd, Post_pure]
  intro _ _ _ _ _ _
  exact h _ (of64_lt48 _ _ _ _ _ _)

theorem Post_bind_chk {m : Mode} {l : UInt16} {b : Bytes} {f : Bool → R Err α} (h1 : l.toNat ≠ 0 → (f true).Post P) (h2 : (f false).Post P) :
    (checkTliv m l b >>= f).Post P := by
  unfold checkTliv
  split
  · exact h2
  · rename_i hl
    rw [Post_bind, Post_bind]
    refine Post.trivial _ fun a => ?_
    show (f (decide _)).Post P
    cases decide (a.toNat ≤ b.length)
    · exact h2
    · exact h1 fun h => hl (UInt16.toNat_inj.mp h)

theorem Post_mapErr {x : R Err α} {e : Err} (h : x.Post P) : (x.mapErr e).Post P := by
  cases x <;> exact h

theorem Post_pure' {a : α} (h : P a) : (pure a : R Err α).Post P := h
theorem Post_ok' {a : α} (h : P a) : (R.ok a : R Err α).Post P := h
end

theorem tbcd_dec_length (b : Bytes) : (tbcdEncode (tbcdDecode b)).length = ((tbcdDecode b).length + 1) / 2 :=
  tbcd_length _ (tbcdDecode_digits b)
theorem and15' : ∀ x : UInt8, x &&& 15 < 16 := by decide +kernel
theorem and1 : ∀ x : UInt8, x &&& 1 < 2 := by decide +kernel
theorem and3 : ∀ x : UInt8, x &&& 3 < 4 := by decide +kernel
theorem and7 : ∀ x : UInt8, x &&& 7 < 8 := by decide +kernel
theorem and31 : ∀ x : UInt8, x &&& 31 < 32 := by decide +kernel
theorem and63 : ∀ x : UInt8, x &&& 63 < 64 := by decide +kernel
theorem and127 : ∀ x : UInt8, x &&& 127 < 128 := by decide +kernel
theorem and15n (x : UInt8) : (x &&& 15).toNat < 16 := UInt8.lt_iff_toNat_lt.mp (and15' x)
theorem and63n (x : UInt8) : (x &&& 63).toNat < 64 := UInt8.lt_iff_toNat_lt.mp (and63 x)
theorem shr4 (x : UInt8) : (x >>> 4).toNat < 16 := by revert x; decide +kernel
theorem rd16s_length : ∀ b : Bytes, (rd16s b).length = b.length / 2
  | [] => rfl
  | [_] => by simp [rd16s]
  | _ :: _ :: r => by simp [rd16s, rd16s_length r]; omega
theorem tbcdDecode_length (b : Bytes) : (tbcdDecode b).length ≤ 2 * b.length := by
  unfold tbcdDecode
  refine Nat.le_trans (List.length_filterMap_le ..) ?_
  induction b with
  | nil => simp
  | cons a b ih => simp only [List.flatMap_cons, List.length_append, List.length_cons, List.length_nil] at ih ⊢; omega
theorem ne_nil {l : Bytes} (h : l.length ≠ 0) : l ≠ [] := by
  rintro rfl
  exact h rfl
theorem and15 : ∀ x : UInt8, x &&& 15 < 16 := and15'
theorem tliv_length (t : UInt8) (l : UInt16) (i : UInt8) (body : Bytes) : (tliv t l i body).length = body.length + 4 := by
  simp [tliv_eq]

macro "stable_steps" : tactic => `(tactic| repeat' first
  | exact Post_err'
  | exact Post_panic'
  | (with_reducible refine Post_bind_sl fun _ _ => ?_)
  | (with_reducible refine Post_bind_slFrom fun _ _ => ?_)
  | (with_reducible refine Post_bind_body fun _ _ => ?_)
  | (with_reducible refine Post_bind_rd24 fun _ _ => ?_)
  | (with_reducible refine Post_bind_rd40 fun _ _ => ?_)
  | (with_reducible refine Post_bind_rd48 fun _ _ => ?_)
  | (with_reducible refine Post_bind_mcc fun _ _ _ _ _ _ => ?_; try dsimp only)
  | (with_reducible refine Post_bind_chk (fun _ => ?_) ?_; (try simp only [if_true, Bool.false_eq_true, if_false]))
  | (with_reducible refine Post_bind_rd fun _ _ => ?_)
  | (with_reducible refine Post_bind_utf8 fun _ _ => ?_)
  | (with_reducible refine Post_bind_ite (fun _ => ?_) (fun _ => ?_))
  | (with_reducible refine Post_bind_bind ?_)
  | (with_reducible refine Post_bind_pure ?_; try dsimp only)
  | (with_reducible exact Post_bind_err)
  | (with_reducible refine Post_bind_any fun _ => ?_)
  | (with_reducible refine Post_ite' (fun _ => ?_) (fun _ => ?_))
  | (with_reducible refine Post_pure' ?_)
  | (with_reducible refine Post_ok' ?_)
  | (split))

macro "stable_fin" "[" ls:Lean.Parser.Tactic.simpLemma,* "]" : tactic => `(tactic| (
  intro n hn hN
  (try simp only [tliv_length, be16, be32, be24, be64, be40, be48, gtplen, mccMncEncode_length, tbcd_dec_length,
    Option.isSome_some, Option.isSome_none, IpAddr.size, IpAddr.octets, Ip6.octets, Option.toList, List.length_drop, if_true, if_false, Bool.false_eq_true,
    List.length_cons, List.length_append, List.length_nil, $ls,*] at hn ⊢)
  (repeat' apply And.intro)
  all_goals first
    | rfl
    | trivial
    | exact and15 _
    | exact and1 _
    | exact and3 _
    | exact and7 _
    | exact and31 _
    | exact and63 _
    | exact and127 _
    | exact tbcdDecode_digits _
    | (refine Nat.le_trans (tbcdDecode_length _) ?_; omega)
    | (apply ne_nil; omega)
    | assumption
    | omega
    | (simp; done)
    | (simp; omega)
    | skip))

theorem zoneOf_ne : ∀ v, UeTimeZone.zoneOf v ≠ -128 := by decide +kernel
theorem throttling_unit : ∀ v, Throttling.unitOf v < 5 := by decide +kernel
theorem throttling_factor : ∀ v, Throttling.factorOf v ≤ 100 := by decide +kernel
theorem epc_unit : ∀ v, EpcTimer.unitOf v < 5 ∨ EpcTimer.unitOf v = 7 := by decide +kernel
theorem metric_le : ∀ v : UInt8, (if v > 100 then 0 else v) ≤ 100 := by decide +kernel
theorem profiles_sub : ∀ v, (HeaderCompressionConfiguration.profilesOf v).tail.Sublist HeaderCompressionConfiguration.rohcTable := by decide +kernel
theorem rdElems_flat {α : Type} {oct : α → Bytes} {k : Nat} {l : List α} (h : ∀ x ∈ l, (oct x).length = k) : (l.flatMap oct).length = k * l.length := by
  induction l with
  | nil => rfl
  | cons a l ih =>
    simp only [List.flatMap_cons, List.length_append, h a (by simp), ih (fun x hx => h x (by simp [hx])), List.length_cons, Nat.mul_add, Nat.mul_one]
    omega

theorem Cgi.stable (b : Bytes) : (Cgi.unmarshal b).Post Cgi.WF := by
  unfold Cgi.unmarshal
  stable_steps
  all_goals (simp only [Cgi.WF]; refine ?_)
  all_goals (repeat' apply And.intro)
  all_goals first | assumption | omega | trivial | skip

theorem Sai.stable (b : Bytes) : (Sai.unmarshal b).Post Sai.WF := by
  unfold Sai.unmarshal
  stable_steps
  all_goals (simp only [Sai.WF]; refine ?_)
  all_goals (repeat' apply And.intro)
  all_goals first | assumption | omega | trivial | skip

theorem Rai.stable (b : Bytes) : (Rai.unmarshal b).Post Rai.WF := by
  unfold Rai.unmarshal
  stable_steps
  all_goals (simp only [Rai.WF]; refine ?_)
  all_goals (repeat' apply And.intro)
  all_goals first | assumption | omega | trivial | skip

theorem Tai.stable (b : Bytes) : (Tai.unmarshal b).Post Tai.WF := by
  unfold Tai.unmarshal
  stable_steps
  all_goals (simp only [Tai.WF]; refine ?_)
  all_goals (repeat' apply And.intro)
  all_goals first | assumption | omega | trivial | skip

theorem Ecgi.stable (b : Bytes) : (Ecgi.unmarshal b).Post Ecgi.WF := by
  unfold Ecgi.unmarshal
  stable_steps
  all_goals (simp only [Ecgi.WF]; refine ?_)
  all_goals (repeat' apply And.intro)
  all_goals first | assumption | omega | trivial | skip

theorem Lai.stable (b : Bytes) : (Lai.unmarshal b).Post Lai.WF := by
  unfold Lai.unmarshal
  stable_steps
  all_goals (simp only [Lai.WF]; refine ?_)
  all_goals (repeat' apply And.intro)
  all_goals first | assumption | omega | trivial | skip

theorem MacroEnbId.stable (b : Bytes) : (MacroEnbId.unmarshal b).Post MacroEnbId.WF := by
  unfold MacroEnbId.unmarshal
  stable_steps
  all_goals (simp only [MacroEnbId.WF]; refine ?_)
  all_goals (repeat' apply And.intro)
  all_goals first | assumption | omega | trivial | skip

theorem extMacro_lt (x y z : UInt8) : (of32 0 (x &&& 3) y z).toNat < 262144 := by
  have := UInt8.lt_iff_toNat_lt.mp (and3 x); have := UInt8.toNat_lt y; have := UInt8.toNat_lt z
  have h0 : (0 : UInt8).toNat = 0 := rfl
  have h4 : (4 : UInt8).toNat = 4 := rfl
  simp only [of32, UInt32.toNat_ofNat', h0]
  omega

theorem extMacro_lt' (x y z : UInt8) (h : x >>> 7 = 0) : (of32 0 x y z).toNat < 8388608 := by
  have hx : ∀ x : UInt8, x >>> 7 = 0 → x.toNat < 128 := by decide +kernel
  have := hx x h; have := UInt8.toNat_lt y; have := UInt8.toNat_lt z
  have h0 : (0 : UInt8).toNat = 0 := rfl
  simp only [of32, UInt32.toNat_ofNat', h0]
  omega

theorem ExtMacroEnbId.stable (b : Bytes) : (ExtMacroEnbId.unmarshal b).Post ExtMacroEnbId.WF := by
  unfold ExtMacroEnbId.unmarshal
  stable_steps
  all_goals (simp only [ExtMacroEnbId.WF]; refine ?_)
  all_goals (repeat' apply And.intro)
  all_goals first | assumption | omega | trivial | skip
  · rw [if_neg (by decide)]
    exact extMacro_lt' _ _ _ ‹_›
  · rw [if_pos trivial]
    exact extMacro_lt _ _ _

theorem read_stable {k : Nat} (hk : k ∈ [1, 2, 3, 4, 5, 6, 7, 8]) (s : Bytes) : (Location.read k s).Post fun p => p.1.WF ∧ p.1.kind = k := by
  unfold Location.read
  repeat' refine Post_ite' (fun h => ?_) fun _ => ?_
  all_goals refine (Post_bind ..).mpr ?_
  · exact Post.mono (Cgi.stable s) fun _ hx => ⟨hx, h.symm⟩
  · exact Post.mono (Sai.stable s) fun _ hx => ⟨hx, h.symm⟩
  · exact Post.mono (Rai.stable s) fun _ hx => ⟨hx, h.symm⟩
  · exact Post.mono (Tai.stable s) fun _ hx => ⟨hx, h.symm⟩
  · exact Post.mono (Ecgi.stable s) fun _ hx => ⟨hx, h.symm⟩
  · exact Post.mono (Lai.stable s) fun _ hx => ⟨hx, h.symm⟩
  · exact Post.mono (MacroEnbId.stable s) fun _ hx => ⟨hx, h.symm⟩
  · refine Post.mono (ExtMacroEnbId.stable s) fun _ hx => ⟨hx, ?_⟩
    simp at hk
    show 8 = k
    omega

theorem readAll_stable (b : Bytes) : ∀ (ks : List Nat) (c : Nat), (∀ k ∈ ks, k ∈ [1, 2, 3, 4, 5, 6, 7, 8]) →
    (Location.readAll b ks c).Post fun ls => ls.map Location.kind = ks ∧ ∀ l ∈ ls, l.WF
  | [], _, _ => ⟨rfl, by simp⟩
  | k :: ks, c, h => by
    rw [Location.readAll]
    refine Post_bind_any fun s => ?_
    refine (Post_bind ..).mpr (Post.mono (read_stable (h k (by simp)) s) fun p hp => ?_)
    obtain ⟨l, n⟩ := p
    refine (Post_bind ..).mpr (Post.mono (readAll_stable b ks (c + n) fun j hj => h j (by simp [hj])) fun ls hls => ?_)
    refine ⟨by simp [hp.2, hls.1], ?_⟩
    intro x hx
    rcases List.mem_cons.mp hx with rfl | hx
    · exact hp.1
    · exact hls.2 x hx

theorem Post_bind_readAll {α : Type} {P : α → Prop} {b : Bytes} {fl : UInt8} {c : Nat} {f : List Location → R Err α}
    (h : ∀ ls : List Location, (ls.map Location.kind).Sublist [1, 2, 3, 4, 5, 6, 7, 8] → (∀ l ∈ ls, l.WF) → (f ls).Post P) :
    (Location.readAll b (Location.order fl) c >>= f).Post P := by
  have hs : (Location.order fl).Sublist [1, 2, 3, 4, 5, 6, 7, 8] := List.filter_sublist
  exact (Post_bind ..).mpr (Post.mono (readAll_stable b _ c fun k hk => hs.subset hk) fun ls hls => h ls (hls.1 ▸ hs) hls.2)

theorem Container.read_stable {b : Bytes} {n : Nat} (hn : 5 ≤ n) : (Container.read b (b.getD 4 0) n).Post Container.Ok := by
  unfold Container.read
  refine Post_ite' (fun _ => trivial) fun h0 => Post_ite' (fun _ => ?_) fun h1 => Post_ite' (fun _ => ?_) fun h2 =>
    Post_ite' (fun _ => ?_) fun h3 => Post_ite' (fun _ => ?_) fun h4 => Post_ite' (fun _ => ?_) fun h5 =>
    Post_ite' (fun _ => ?_) fun h6 => ?_
  iterate 6 exact Post_bind_any fun _ => trivial
  rw [Post_bind, Post_sl]
  intro _ hb
  have key : ∀ v : UInt8, v ≠ 0 → v ≠ 1 → v ≠ 2 → v ≠ 3 → v ≠ 4 → v ≠ 5 → v ≠ 6 → 6 < v.toNat := by
    have k : ∀ v : UInt8, 6 < v.toNat ∨ v = 0 ∨ v = 1 ∨ v = 2 ∨ v = 3 ∨ v = 4 ∨ v = 5 ∨ v = 6 := by decide +kernel
    intro v a0 a1 a2 a3 a4 a5 a6
    exact (k v).resolve_right fun h => h.elim a0 (·.elim a1 (·.elim a2 (·.elim a3 (·.elim a4 (·.elim a5 a6)))))
  have := key _ h0 h1 h2 h3 h4 h5 h6
  show 6 < (List.headD _ (0 : UInt8)).toNat
  match b, hb with
  | a0 :: a1 :: a2 :: a3 :: a4 :: r, _ =>
    match n, hn with
    | n + 5, _ => simpa using this

theorem s1ap_len : ∀ x y : UInt8, (S1APCause.from_u8 x y).to_u8.length = 2 := by
  intro x y
  unfold S1APCause.from_u8
  repeat' split
  all_goals rfl

end Gtp.V2
