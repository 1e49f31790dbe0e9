import Verif.V2.Deep

/-!
# Values that survive the round trip

The conditions collected in `IE.Faithful` are necessary: an IE that is decoded back from its encoding, whatever follows it, and whose
`len` is the number of octets of the encoding satisfies them. Together with `Verif/V2/Stable.lean` this makes `IE.WF` exactly the set of
values that the encoding represents, for the kinds of IE that are not grouped and are not MM contexts.
-/

namespace Gtp.V2
set_option linter.unusedSimpArgs false

theorem At_tliv {ty : UInt8} {l : UInt16} {ins : UInt8} {body : Bytes} (tail : Bytes) (hl : l.toNat + 4 = (tliv ty l ins body).length) :
    (rd16 (tliv ty l ins body ++ tail) 1 : R Err UInt16) = .ok l ∧ (rd (tliv ty l ins body ++ tail) 3 : R Err UInt8) = .ok ins ∧
      At (tliv ty l ins body ++ tail) 4 (body ++ tail) ∧ l.toNat = body.length ∧
      (tliv ty l ins body ++ tail).length = 4 + body.length + tail.length := by
  have h : l.toNat = body.length := by
    rw [tliv_length] at hl
    omega
  obtain ⟨b, e, h1, h2, h3, h4⟩ := tliv_at (ty := ty) (ins := ins) tail h
  rw [e]
  exact ⟨h1, h2, h3, h, by omega⟩

/-! ## Strings -/

theorem utf8Char_length (c : Char) : 1 ≤ (String.utf8EncodeChar c).length ∧ ((String.utf8EncodeChar c).length = 1 → IsAscii c) := by
  unfold String.utf8EncodeChar IsAscii
  simp only
  have : c.val.toNat = c.toNat := rfl
  split
  · exact ⟨by simp, fun _ => by omega⟩
  · split
    · exact ⟨by simp, fun h => by simp at h⟩
    · split
      · exact ⟨by simp, fun h => by simp at h⟩
      · exact ⟨by simp, fun h => by simp at h⟩

theorem utf8_length_ge (s : Str) : s.length ≤ (utf8 s).length ∧ ((utf8 s).length = s.length → ∀ c ∈ s, IsAscii c) := by
  induction s with
  | nil => exact ⟨Nat.le_refl _, fun _ c hc => by cases hc⟩
  | cons c s ih =>
    have h1 := utf8Char_length c
    simp only [utf8, List.flatMap_cons, List.length_append, List.length_cons] at ih ⊢
    refine ⟨by omega, fun h d hd => ?_⟩
    rcases List.mem_cons.mp hd with rfl | hd
    · exact h1.2 (by omega)
    · exact ih.2 (by omega) d hd

theorem utf8Char_le2 {c : Char} (h : c.toNat < 256) : (String.utf8EncodeChar c).length ≤ 2 := by
  unfold String.utf8EncodeChar
  simp only
  have : c.val.toNat = c.toNat := rfl
  split
  · simp
  · split
    · simp
    · omega

theorem utf8_length_le (s : Str) (h : ∀ c ∈ s, c.toNat < 256) : (utf8 s).length ≤ 2 * s.length := by
  induction s with
  | nil => exact Nat.le_refl _
  | cons c s ih =>
    have h1 := utf8Char_le2 (h c (by simp))
    have := ih fun d hd => h d (by simp [hd])
    simp only [utf8, List.flatMap_cons, List.length_append, List.length_cons] at this ⊢
    omega

theorem latin1_small {b : Bytes} : ∀ c ∈ latin1 b, c.toNat < 256 := by
  intro c hc
  obtain ⟨v, _, rfl⟩ := List.mem_map.mp hc
  have h := v.toNat_lt
  have hv : Nat.isValidChar v.toNat := .inl (by omega)
  show (Char.ofNat v.toNat).val.toNat < 256
  rw [Char.ofNat, dif_pos hv]
  show (UInt32.ofNatLT _ _).toNat < 256
  simpa using h

/-- A string that is as long as the length octet written for it says is an ASCII string. -/
theorem ascii_of_lenU8 {s : Str} {b : Bytes} (h : s = latin1 b) (hb : b.length = (lenU8 (utf8 s)).toNat) : (∀ c ∈ s, IsAscii c) ∧ s.length < 256 := by
  have h1 := utf8_length_ge s
  have h2 := utf8_length_le s (by rw [h]; exact latin1_small)
  have h3 : s.length = b.length := by rw [h]; exact latin1_length b
  have h4 : (lenU8 (utf8 s)).toNat = (utf8 s).length % 256 := by simp [lenU8]
  refine ⟨h1.2 ?_, ?_⟩
  · omega
  · omega

/-! ## Names -/

theorem decLabels_post {ε : Type} : ∀ (f : Nat) (d : Bytes), (decLabels f d : R ε Str).Post fun p => p.length = d.length ∧ (p = [] ∨ ∃ q, p = q ++ ['.'])
  | _, [] => by simp [decLabels, R.Post]
  | 0, _ :: _ => trivial
  | f + 1, n :: r => by
    unfold decLabels
    by_cases h : n.toNat ≤ r.length
    case neg => rw [if_neg h]; trivial
    rw [if_pos h]
    refine (Post_bind ..).mpr (Post.mono (decLabels_post f _) fun t ht => ?_)
    refine ⟨?_, .inr ?_⟩
    · have := ht.1
      simp only [List.length_append, latin1_length, List.length_take, List.length_cons, List.length_nil, List.length_drop] at this ⊢
      omega
    · rcases ht.2 with e | ⟨q, e⟩
      · exact ⟨latin1 (r.take n.toNat), by simp [e]⟩
      · exact ⟨latin1 (r.take n.toNat) ++ ['.'] ++ q, by simp [e]⟩

theorem splitDots_nodot : ∀ {s l : Str}, l ∈ splitDots s → '.' ∉ l
  | [], l, h => by simp [splitDots] at h; simp [h]
  | c :: r, l, h => by
    simp only [splitDots] at h
    split at h
    · rcases List.mem_cons.mp h with rfl | h
      · simp
      · exact splitDots_nodot h
    · rename_i hc
      cases hs : splitDots r with
      | nil => exact absurd hs (splitDots_ne r)
      | cons a t =>
        rw [hs] at h
        rcases List.mem_cons.mp h with rfl | h
        · have := splitDots_nodot (s := r) (l := a) (by rw [hs]; simp)
          simp only [List.mem_cons, not_or]
          exact ⟨fun e => hc e.symm, this⟩
        · exact splitDots_nodot (s := r) (by rw [hs]; simp [h])

theorem labels_lt {ε : Type} : ∀ (ls : List Str) (f : Nat), (∀ l ∈ ls, (∀ c ∈ l, IsAscii c) ∧ '.' ∉ l) →
    (decLabels f (ls.flatMap encLabel) : R ε Str) = .ok (ls.flatMap fun l => l ++ ['.']) → ∀ l ∈ ls, l.length < 256
  | [], _, _, _ => by simp
  | l :: ls, 0, _, h => by simp [encLabel, decLabels] at h
  | l :: ls, f + 1, hl, h => by
    have h0 := hl l (by simp)
    have hu := utf8_length h0.1
    simp only [List.flatMap_cons, encLabel, List.cons_append] at h
    rw [decLabels] at h
    have hn : (lenU8 (utf8 l)).toNat = l.length % 256 := by simp [lenU8, hu]
    have hle : l.length % 256 ≤ l.length := Nat.mod_le ..
    rw [if_pos (by rw [hn, List.length_append, hu]; omega), hn] at h
    cases ht : (decLabels f ((utf8 l ++ ls.flatMap encLabel).drop (l.length % 256)) : R ε Str) with
    | ok t =>
      rw [ht, R.ok_bind] at h
      have h := R.ok.inj h
      rw [List.take_append_of_le_length (by omega)] at h
      have hll : l.length < 256 := by
        refine Nat.lt_of_not_le fun hge => ?_
        have hlt : l.length % 256 < l.length := by omega
        have h1 := congrArg (fun s => s[l.length % 256]?) h
        simp only [List.append_assoc] at h1
        rw [List.getElem?_append_right (by rw [latin1_length, List.length_take]; omega)] at h1
        simp only [latin1_length, List.length_take, hu, Nat.min_eq_left hle, Nat.sub_self] at h1
        rw [List.getElem?_append_left hlt, List.getElem?_eq_getElem hlt] at h1
        simp only [List.cons_append, List.getElem?_cons_zero, Option.some.injEq] at h1
        exact h0.2 (h1 ▸ List.getElem_mem _)
      have hm : l.length % 256 = l.length := Nat.mod_eq_of_lt hll
      rw [hm, List.drop_append_of_le_length (by omega), List.drop_of_length_le (by omega), List.nil_append] at ht
      rw [hm, List.take_of_length_le (by omega), latin1_utf8 h0.1] at h
      have ht2 := List.append_cancel_left h
      intro y hy
      rcases List.mem_cons.mp hy with rfl | hy
      · exact hll
      · exact labels_lt ls f (fun z hz => hl z (by simp [hz])) (by rw [ht, ht2]) y hy
    | _ => rw [ht] at h; cases h

theorem encName_length_utf8 (s : Str) : (encName s).length = (utf8 s).length + 1 := by
  have h : ∀ ls : List Str, (ls.flatMap encLabel).length = (utf8 (ls.flatMap fun l => l ++ ['.'])).length := by
    intro ls
    induction ls with
    | nil => rfl
    | cons l ls ih =>
      have : (String.utf8EncodeChar '.').length = 1 := by decide
      simp only [utf8] at ih
      simp only [List.flatMap_cons, List.length_append, ih, encLabel, List.length_cons, utf8, List.flatMap_append, List.flatMap_nil, this, List.append_nil]
  rw [encName, h, splitDots_join, utf8, List.flatMap_append, List.length_append]
  simp only [List.flatMap_cons, List.flatMap_nil, List.append_nil]
  have : (String.utf8EncodeChar '.').length = 1 := by decide
  rw [this]
  rfl

/-- A name that is decoded back is an ASCII name with labels of less than 256 characters. -/
theorem NameOk_of_rt {ε : Type} {s : Str} (h : (decName (encName s) : R ε Str) = .ok s) : NameOk s := by
  unfold decName at h
  cases hp : (decLabels (encName s).length (encName s) : R ε Str) with
  | ok p =>
    rw [hp, R.ok_bind] at h
    have h := R.ok.inj h
    obtain ⟨h1, h2⟩ := Post.elim (decLabels_post _ _) hp
    have hl := encName_length_utf8 s
    rcases h2 with rfl | ⟨q, rfl⟩
    · simp at h1; omega
    · rw [List.dropLast_concat] at h
      subst h
      simp only [List.length_append, List.length_cons, List.length_nil] at h1
      have ha := (utf8_length_ge q).2 (by omega)
      refine ⟨ha, labels_lt (ε := ε) (splitDots q) (encName q).length (fun l hl => ⟨fun c hc => ha c (splitDots_mem hl c hc), splitDots_nodot hl⟩) ?_⟩
      rw [splitDots_join]
      exact hp
  | _ => rw [hp] at h; cases h

/-! ## The kinds of IE -/

theorem checkTliv_true {m : Mode} {l : UInt16} {b : Bytes} (h0 : 0 < l.toNat) (h1 : l.toNat < 65532) (h2 : l.toNat + 4 ≤ b.length) :
    (checkTliv m l b : R Err Bool) = .ok true := by
  have : l ≠ 0 := fun e => by rw [e] at h0; exact absurd h0 (by decide)
  unfold checkTliv
  rw [if_neg this, add16_four h1, R.ok_bind]
  simp [R.pure_eq, toNat_add4 h1, h2]

theorem checkTliv_zero {m : Mode} {l : UInt16} {b : Bytes} (h0 : l.toNat = 0) : (checkTliv m l b : R Err Bool) = .ok false := by
  have : l = 0 := UInt16.toNat_inj.mp h0
  unfold checkTliv
  rw [if_pos this]

theorem Imsi.exact {m : Mode} {x : Imsi} (hl : x.length.toNat + 4 = x.marshal.length)
    (hU : ∀ tail, Imsi.unmarshal m (x.marshal ++ tail) = .ok x) : x.imsi ≠ [] := by
  intro e
  have h := hU []
  obtain ⟨h1, h2, h3, h4, h5⟩ := At_tliv (ty := 1) [] hl
  rw [e] at h5
  unfold Imsi.unmarshal Imsi.marshal at h
  rw [e, h5] at h
  cases h

theorem AlternativeImsi.exact {m : Mode} {x : AlternativeImsi} (hl : x.length.toNat + 4 = x.marshal.length)
    (hU : ∀ tail, AlternativeImsi.unmarshal m (x.marshal ++ tail) = .ok x) : x.imsi ≠ [] := by
  intro e
  have h := hU []
  obtain ⟨h1, h2, h3, h4, h5⟩ := At_tliv (ty := 219) [] hl
  rw [e] at h5
  unfold AlternativeImsi.unmarshal AlternativeImsi.marshal at h
  rw [e, h5] at h
  cases h

theorem PrivateExtension.exact {m : Mode} {x : PrivateExtension} (hl : x.length.toNat + 4 = x.marshal.length)
    (hU : ∀ tail, PrivateExtension.unmarshal m (x.marshal ++ tail) = .ok x) : x.value ≠ [] := by
  intro e
  have h := hU []
  obtain ⟨h1, h2, h3, h4, h5⟩ := At_tliv (ty := 255) [] hl
  rw [e] at h5
  unfold PrivateExtension.unmarshal PrivateExtension.marshal at h
  rw [e, h5] at h
  cases h

theorem Msisdn.exact {m : Mode} {x : Msisdn} (hl : x.length.toNat + 4 = x.marshal.length)
    (hU : ∀ tail, Msisdn.unmarshal m (x.marshal ++ tail) = .ok x) : x.msisdn ≠ [] := by
  intro e
  have h := hU []
  obtain ⟨h1, h2, h3, h4, h5⟩ := At_tliv (ty := 76) [] hl
  have h0 : x.length.toNat = 0 := by rw [h4, e]; rfl
  unfold Msisdn.unmarshal Msisdn.marshal at h
  rw [h5, if_pos (by omega), h1, R.ok_bind, h2, R.ok_bind, checkTliv_zero h0, R.ok_bind] at h
  cases h

theorem Mei.exact {m : Mode} {x : Mei} (hl : x.length.toNat + 4 = x.marshal.length) (hn : x.length.toNat < 65532)
    (hU : ∀ tail, Mei.unmarshal m (x.marshal ++ tail) = .ok x) (hL : Mei.len m x = .ok x.marshal.length) : (x.mei.length + 1) / 2 = 8 := by
  have h := hU []
  obtain ⟨h1, h2, h3, h4, h5⟩ := At_tliv (ty := 75) [] hl
  have h6 : x.marshal.length = 12 := (R.ok.inj hL).symm
  unfold Mei.unmarshal at h
  have hb : (slBody16 m (x.marshal ++ []) x.length : R Err Bytes) = .ok (tbcdEncode x.mei) := by
    rw [slBody16_ok hn]
    exact h3.sl (by omega)
  unfold Mei.marshal at h hb
  rw [h5, if_pos (by omega), h1, R.ok_bind, h2, R.ok_bind, checkTliv_true (by omega) hn (by omega), R.ok_bind, if_pos rfl, hb, R.ok_bind] at h
  have h := congrArg Mei.mei (R.ok.inj h)
  have hd : ∀ c ∈ x.mei, IsDigit c := by rw [← h]; exact tbcdDecode_digits _
  have := tbcd_length _ hd
  omega

theorem name_exact {m : Mode} {ty : UInt8} {l : UInt16} {ins : UInt8} {name : Str} (hl : l.toNat + 4 = (tliv ty l ins (encName name)).length)
    (hn : l.toNat < 65532) : (checkTliv m l (tliv ty l ins (encName name) ++ []) : R Err Bool) = .ok true ∧
      (sl (tliv ty l ins (encName name) ++ []) 4 (4 + l.toNat) : R Err Bytes) = .ok (encName name) ∧ 4 ≤ (tliv ty l ins (encName name) ++ []).length := by
  obtain ⟨h1, h2, h3, h4, h5⟩ := At_tliv (ty := ty) [] hl
  have := encName_length_utf8 name
  exact ⟨checkTliv_true (by omega) hn (by omega), h3.sl (by omega), by omega⟩

theorem Apn.exact {m : Mode} {x : Apn} (hl : x.length.toNat + 4 = x.marshal.length) (hn : x.length.toNat < 65532)
    (hU : ∀ tail, Apn.unmarshal m (x.marshal ++ tail) = .ok x) : NameOk x.name := by
  have h := hU []
  obtain ⟨h1, h2, -, -, -⟩ := At_tliv (ty := 71) [] hl
  obtain ⟨h3, h4, h5⟩ := name_exact (m := m) (ty := 71) hl hn
  unfold Apn.unmarshal Apn.marshal at h
  rw [if_pos h5, h1, R.ok_bind, h2, R.ok_bind, h3, R.ok_bind, if_pos rfl, h4, R.ok_bind] at h
  cases hd : (decName (encName x.name) : R Err Str) with
  | ok s =>
    rw [hd, R.ok_bind] at h
    have h := congrArg Apn.name (R.ok.inj h)
    exact NameOk_of_rt (hd.trans (congrArg _ h))
  | _ => rw [hd] at h; cases h

theorem Fqdn.exact {m : Mode} {x : Fqdn} (hl : x.length.toNat + 4 = x.marshal.length) (hn : x.length.toNat < 65532)
    (hU : ∀ tail, Fqdn.unmarshal m (x.marshal ++ tail) = .ok x) : NameOk x.name := by
  have h := hU []
  obtain ⟨h1, h2, -, -, -⟩ := At_tliv (ty := 136) [] hl
  obtain ⟨h3, h4, h5⟩ := name_exact (m := m) (ty := 136) hl hn
  unfold Fqdn.unmarshal Fqdn.marshal at h
  rw [if_pos h5, h1, R.ok_bind, h2, R.ok_bind, h3, R.ok_bind, if_pos rfl, h4, R.ok_bind] at h
  cases hd : (decName (encName x.name) : R Err Str) with
  | ok s =>
    rw [hd, R.ok_bind] at h
    have h := congrArg Fqdn.name (R.ok.inj h)
    exact NameOk_of_rt (hd.trans (congrArg _ h))
  | _ => rw [hd] at h; cases h

theorem PgwFqdn.exact {m : Mode} {x : PgwFqdn} (hl : x.length.toNat + 4 = x.marshal.length) (hn : x.length.toNat < 65532)
    (hU : ∀ tail, PgwFqdn.unmarshal m (x.marshal ++ tail) = .ok x) : NameOk x.name := by
  have h := hU []
  obtain ⟨h1, h2, -, -, -⟩ := At_tliv (ty := 215) [] hl
  obtain ⟨h3, h4, h5⟩ := name_exact (m := m) (ty := 215) hl hn
  unfold PgwFqdn.unmarshal PgwFqdn.marshal at h
  rw [if_pos h5, h1, R.ok_bind, h2, R.ok_bind, h3, R.ok_bind, if_pos rfl, h4, R.ok_bind] at h
  cases hd : (decName (encName x.name) : R Err Str) with
  | ok s =>
    rw [hd, R.ok_bind] at h
    have h := congrArg PgwFqdn.name (R.ok.inj h)
    exact NameOk_of_rt (hd.trans (congrArg _ h))
  | _ => rw [hd] at h; cases h

theorem ApnRelativeCapacity.exact {m : Mode} {x : ApnRelativeCapacity} (hl : x.length.toNat + 4 = x.marshal.length) (hn : x.length.toNat < 65532)
    (hU : ∀ tail, ApnRelativeCapacity.unmarshal m (x.marshal ++ tail) = .ok x) : NameOk x.name := by
  have h := hU []
  obtain ⟨h1, h2, h3, h4, h5⟩ := At_tliv (ty := 184) [] hl
  simp only [List.cons_append, List.nil_append] at h1 h2 h3 h4 h5
  simp only [List.length_cons] at h4 h5
  unfold ApnRelativeCapacity.unmarshal ApnRelativeCapacity.marshal at h
  simp only [List.cons_append, List.nil_append] at h
  rw [h5, if_pos (by omega), h1, R.ok_bind, h2, R.ok_bind, checkTliv_true (by omega) hn (by rw [h5]; omega), R.ok_bind, if_pos rfl, h3.rd, R.ok_bind,
    h3.next.sl (by omega), R.ok_bind] at h
  cases hd : (decName (encName x.name) : R Err Str) with
  | ok s =>
    rw [hd, R.ok_bind] at h
    have h := congrArg ApnRelativeCapacity.name (R.ok.inj h)
    exact NameOk_of_rt (hd.trans (congrArg _ h))
  | _ => rw [hd] at h; cases h

theorem Ldn.exact {m : Mode} {x : Ldn} (hl : x.length.toNat + 4 = x.marshal.length) (hn : x.length.toNat < 65532)
    (hU : ∀ tail, Ldn.unmarshal m (x.marshal ++ tail) = .ok x) : ∀ c ∈ x.name, IsAscii c := by
  have h := hU []
  obtain ⟨h1, h2, h3, h4, h5⟩ := At_tliv (ty := 151) [] hl
  unfold Ldn.unmarshal Ldn.marshal at h
  rw [h5, if_pos (by omega), h1, R.ok_bind, h2, R.ok_bind] at h
  by_cases h0 : x.length.toNat = 0
  · rw [checkTliv_zero h0] at h
    cases h
  rw [checkTliv_true (by omega) hn (by rw [h5]; omega), R.ok_bind, if_pos rfl, h3.sl (by omega), R.ok_bind] at h
  have h := congrArg Ldn.name (R.ok.inj h)
  refine (utf8_length_ge x.name).2 ?_
  rw [← latin1_length]
  exact congrArg List.length h

theorem Post_bind_eq {α β : Type} {x : R Err α} {f : α → R Err β} {P : β → Prop} (h : ∀ a, x = .ok a → (f a).Post P) : (x >>= f).Post P :=
  (Post_bind ..).mpr (Post.intro h)

theorem Uci.exact {m : Mode} {x : Uci} (hl : x.length.toNat + 4 = x.marshal.length)
    (hU : ∀ tail, Uci.unmarshal m (x.marshal ++ tail) = .ok x) : x.csgid.toNat < 2 ^ 27 := by
  have h : ∀ b, (Uci.unmarshal m b).Post fun x => (rd32 b 7 : R Err UInt32) = .ok x.csgid := by
    intro b
    unfold Uci.unmarshal
    refine Post_ite_any ?_ trivial
    exact Post_bind_any fun _ => Post_bind_any fun _ => Post_bind_any fun _ => Post_bind_any fun _ => Post_bind_eq fun _ h => Post_bind_any fun _ => h
  have h := Post.elim (h _) (hU [])
  obtain ⟨h1, h2, h3, h4, h5⟩ := At_tliv (ty := 145) [] hl
  simp only [List.append_assoc] at h3
  have h6 := h3.skip (n := 7) (by rw [mccMncEncode_length])
  have h7 := h6.rd32 (ε := Err)
  simp only [← List.append_assoc] at h7
  have h := R.ok.inj (h7.symm.trans h)
  rw [← h, UInt32.toNat_and]
  exact Nat.lt_of_le_of_lt Nat.and_le_right (by decide)

theorem NodeIdentifier.exact {m : Mode} {x : NodeIdentifier} (hl : x.length.toNat + 4 = x.marshal.length)
    (hU : ∀ tail, NodeIdentifier.unmarshal m (x.marshal ++ tail) = .ok x) :
    (∀ c ∈ x.node_name, IsAscii c) ∧ ∀ c ∈ x.node_realm, IsAscii c := by
  have h : ∀ b, (NodeIdentifier.unmarshal m b).Post fun x => ∃ n k s t, (rd b 4 : R Err UInt8) = .ok n ∧ s.length = n.toNat ∧ x.node_name = latin1 s ∧
      (rd b (5 + n.toNat) : R Err UInt8) = .ok k ∧ t.length = k.toNat ∧ x.node_realm = latin1 t := by
    intro b
    unfold NodeIdentifier.unmarshal
    refine Post_ite_any ?_ trivial
    refine Post_bind_any fun _ => Post_bind_any fun _ => Post_bind_any fun _ => Post_ite_any ?_ trivial
    refine Post_bind_eq fun n hn => Post_ite_any ?_ trivial
    refine Post_bind_sl fun s hs => Post_bind_eq fun k hk => Post_ite_any ?_ trivial
    exact Post_bind_sl fun t ht => ⟨n, k, s, t, hn, by omega, rfl, hk, by omega, rfl⟩
  obtain ⟨n, k, s, t, h1, h2, h3, h4, h5, h6⟩ := Post.elim (h _) (hU [])
  obtain ⟨-, -, g3, -, -⟩ := At_tliv (ty := 176) [] hl
  simp only [List.append_assoc, List.cons_append, List.nil_append] at g3
  have e1 : (rd (x.marshal ++ []) 4 : R Err UInt8) = .ok (lenU8 (utf8 x.node_name)) := by
    simpa [NodeIdentifier.marshal] using g3.rd
  have e1 := R.ok.inj (h1.symm.trans e1)
  have a1 := ascii_of_lenU8 h3 (by rw [h2, e1])
  have hu := utf8_length a1.1
  have hn : n.toNat = x.node_name.length := by rw [h3, latin1_length, h2]
  have g4 := g3.next.skip (n := 5 + n.toNat) (by omega)
  have e2 : (rd (x.marshal ++ []) (5 + n.toNat) : R Err UInt8) = .ok (lenU8 (utf8 x.node_realm)) := by
    simpa [NodeIdentifier.marshal] using g4.rd
  have e2 := R.ok.inj (h4.symm.trans e2)
  exact ⟨a1.1, (ascii_of_lenU8 h6 (by rw [h5, e2])).1⟩

/-- Where the cursor stands after a length-prefixed field. -/
def lvEnd (skip : Nat) (v : Option Bytes) : Nat := (lvOpt v).length + if v = none then skip else 0

theorem rd_bound {b : Bytes} {i : Nat} {v : UInt8} (h : (rd b i : R Err UInt8) = .ok v) : i < b.length := by
  refine Nat.lt_of_not_le fun hge => ?_
  rw [rd, List.getElem?_eq_none hge] at h
  cases h

theorem sl_bound {b : Bytes} {i j : Nat} {s : Bytes} (h : (sl b i j : R Err Bytes) = .ok s) : s.length = j - i ∧ i ≤ j ∧ j ≤ b.length := by
  unfold sl at h
  split at h
  · rename_i hc
    cases h
    simp
    omega
  · cases h

theorem rdLv_end (skip : Nat) (e : Err) (b : Bytes) (c : Nat) : (rdLv skip e b c).Post fun p => p.2 = c + lvEnd skip p.1 ∧ p.2 ≤ b.length + skip := by
  unfold rdLv
  refine Post_bind_eq fun v hv => Post_ite' (fun h => ?_) fun _ => ⟨by simp [lvEnd, lvOpt]; omega, by have := rd_bound hv; simp only; omega⟩
  refine Post_ite' (fun hb => ?_) fun _ => trivial
  refine Post_bind_eq fun s hs => ?_
  have := sl_bound hs
  exact ⟨by simp [lvEnd, lvOpt]; omega, by simp only; omega⟩

theorem AdditionalMmContextForSrvcc.exact {m : Mode} {x : AdditionalMmContextForSrvcc}
    (hU : ∀ tail, AdditionalMmContextForSrvcc.unmarshal m (x.marshal ++ tail) = .ok x) :
    x.mobile_station_classmark2 ≠ none ∧ x.mobile_station_classmark3 ≠ none := by
  have h : ∀ b, (AdditionalMmContextForSrvcc.unmarshal m b).Post fun x =>
      4 + lvEnd 1 x.mobile_station_classmark2 + lvEnd 1 x.mobile_station_classmark3 + lvEnd 0 x.supported_codec_list ≤ b.length := by
    intro b
    unfold AdditionalMmContextForSrvcc.unmarshal
    refine Post_ite_any ?_ trivial
    refine Post_bind_any fun _ => Post_bind_any fun _ => ?_
    refine (Post_bind ..).mpr (Post.mono (rdLv_end ..) fun p hp => ?_)
    refine (Post_bind ..).mpr (Post.mono (rdLv_end ..) fun q hq => ?_)
    refine (Post_bind ..).mpr (Post.mono (rdLv_end ..) fun r hr => ?_)
    show 4 + lvEnd 1 p.1 + lvEnd 1 q.1 + lvEnd 0 r.1 ≤ b.length
    omega
  have h := Post.elim (h _) (hU [])
  simp only [AdditionalMmContextForSrvcc.marshal, List.append_nil, tliv_length, AdditionalMmContextForSrvcc.body, List.length_append, lvEnd] at h
  refine ⟨fun e => ?_, fun e => ?_⟩
  · simp only [e, if_true] at h
    omega
  · simp only [e, if_true] at h
    omega

theorem rdMdtPlmns_length : ∀ b : Bytes, (rdMdtPlmns b).Post fun ps => b.length = 3 * ps.length
  | [] => rfl
  | p0 :: p1 :: p2 :: r => by
    unfold rdMdtPlmns
    refine Post_bind_any fun _ => (Post_bind ..).mpr (Post.mono (rdMdtPlmns_length r) fun ps h => ?_)
    simp only [R.Post, R.pure_eq, List.length_cons]
    omega
  | [_] => trivial
  | [_, _] => trivial

theorem rdOpt8_end (flag : Bool) (b : Bytes) (c : Nat) : (rdOpt8 flag b c).Post fun p => p.2 = c + p.1.toList.length := by
  unfold rdOpt8
  exact Post_ite' (fun _ => Post_bind_any fun _ => rfl) fun _ => rfl

theorem rdScope_end (b : Bytes) (c : Nat) : (MdtConfiguration.rdScope b c).Post fun p => p.2 = c + (lvOpt p.1).length := by
  unfold MdtConfiguration.rdScope
  refine Post_bind_any fun v => Post_ite' (fun h => rfl) fun _ => ?_
  refine Post_bind_eq fun s hs => ?_
  have := sl_bound hs
  simp only [R.Post, R.pure_eq, lvOpt, List.length_cons]
  omega

theorem MdtConfiguration.exact {m : Mode} {x : MdtConfiguration}
    (hU : ∀ tail, MdtConfiguration.unmarshal m (x.marshal ++ tail) = .ok x) : x.mdt_plmns_list = none := by
  have h : ∀ b, (MdtConfiguration.unmarshal m b).Post fun x => ∀ ps, x.mdt_plmns_list = some ps →
      b.length = 16 + (lvOpt x.area_scope).length + x.collection_period_rrm.toList.length + x.measurement_period_lte.toList.length +
        x.positioning_method.toList.length + 3 * ps.length := by
    intro b
    unfold MdtConfiguration.unmarshal
    refine Post_ite_any ?_ trivial
    refine Post_bind_any fun _ => Post_bind_any fun _ => Post_bind_any fun _ => Post_bind_any fun _ => Post_bind_any fun _ => Post_bind_any fun _ =>
      Post_bind_any fun _ => Post_bind_any fun _ => Post_bind_any fun _ => ?_
    refine (Post_bind ..).mpr (Post.mono (rdScope_end ..) fun p hp => Post_bind_any fun _ => ?_)
    refine (Post_bind ..).mpr (Post.mono (rdOpt8_end ..) fun q hq => ?_)
    refine (Post_bind ..).mpr (Post.mono (rdOpt8_end ..) fun r hr => ?_)
    refine (Post_bind ..).mpr (Post.mono (rdOpt8_end ..) fun s hs => ?_)
    have hl : ∀ f, (MdtConfiguration.rdPlmnList f b s.2).Post fun o => ∀ ps, o = some ps → b.length = s.2 + 1 + 3 * ps.length := by
      intro f
      unfold MdtConfiguration.rdPlmnList
      refine Post_ite' (fun _ => Post_bind_any fun _ => Post_ite_any (Post_ite' (fun hb => ?_) fun _ => trivial) trivial) fun _ => fun _ e => by cases e
      refine Post_bind_slFrom fun t ht => (Post_bind ..).mpr (Post.mono (rdMdtPlmns_length t) fun ps h => ?_)
      intro _ e
      cases e
      omega
    refine (Post_bind ..).mpr (Post.mono (hl _) fun o ho => ?_)
    intro ps e
    have := ho ps e
    simp only
    omega
  cases hm : x.mdt_plmns_list with
  | none => rfl
  | some ps =>
    have h1 := Post.elim (h _) (hU []) ps hm
    have h2 := Post.elim (h _) (hU [0]) ps hm
    simp only [List.length_append, List.length_cons, List.length_nil] at h1 h2
    omega

theorem PresenceReportingAreaInformation.exact {m : Mode} {x : PresenceReportingAreaInformation}
    (hL : PresenceReportingAreaInformation.len m x = .ok x.marshal.length) : ∃ q, x.add_prai = some [q] := by
  have h6 : x.marshal.length = 12 := (R.ok.inj hL).symm
  have hc : ∀ l, (PresenceReportingArea.chain l).length = 4 * l.length := by
    intro l
    induction l with
    | nil => rfl
    | cons p l ih =>
      cases l with
      | nil => rfl
      | cons q r =>
        simp only [PresenceReportingArea.chain, be24, List.length_append, List.length_cons, List.length_nil] at ih ⊢
        omega
  rw [PresenceReportingAreaInformation.marshal, tliv_length] at h6
  cases ha : x.add_prai with
  | none =>
    simp [ha, PresenceReportingArea.octets, be24] at h6
  | some l =>
    simp only [ha, hc, List.length_cons] at h6
    match l, h6 with
    | [q], _ => exact ⟨q, rfl⟩

theorem TargetIdentification.inner (m : Mode) {b s : Bytes} (hs : At b 4 s) :
    (TargetIdentification.unmarshal m b).Post fun x => TargetType.unmarshal s = .ok x.target_type := by
  unfold TargetIdentification.unmarshal
  refine Post_ite_any ?_ trivial
  refine Post_bind_any fun _ => Post_bind_any fun _ => ?_
  rw [hs.slFrom, R.ok_bind]
  cases hq : TargetType.unmarshal s <;> first | exact rfl | trivial

theorem TargetIdentification.exact {m : Mode} {x : TargetIdentification} (hl : x.length.toNat + 4 = x.marshal.length)
    (hU : ∀ tail, TargetIdentification.unmarshal m (x.marshal ++ tail) = .ok x)
    (hL : TargetIdentification.len m x = .ok x.marshal.length) : x.target_type.Faithful := by
  have h6 : x.marshal.length = 5 + x.target_type.len := (R.ok.inj hL).symm
  rw [TargetIdentification.marshal, tliv_length, List.length_cons] at h6
  cases ht : x.target_type with
  | RncId i =>
    cases he : i.ext_rnc_id with
    | some v => simp [TargetType.Faithful, he]
    | none =>
      exfalso
      have h := hU [0, 0]
      obtain ⟨-, -, g3, -, -⟩ := At_tliv (ty := 121) [0, 0] hl
      have h := Post.elim (TargetIdentification.inner m g3) h
      rw [ht] at h
      simp only [ht, TargetType.octets, TargetType.len, RncIdentifier.len, he, Option.isSome_none, Bool.false_eq_true, if_false] at h6
      have h7 : ∀ b, 10 ≤ b.length → (RncIdentifier.unmarshal b).Post fun i => i.ext_rnc_id.isSome = true := by
        intro b hb
        unfold RncIdentifier.unmarshal
        rw [if_neg (by omega), if_pos hb]
        exact Post_bind_any fun _ => Post_bind_any fun _ => Post_bind_any fun _ => Post_bind_any fun _ => rfl
      have h8 := h7 (i.octets ++ [0, 0]) (by simp only [List.length_append, List.length_cons, List.length_nil]; omega)
      cases hu : RncIdentifier.unmarshal (i.octets ++ [0, 0]) with
      | ok j =>
        simp only [TargetType.unmarshal, TargetType.code, TargetType.octets, List.cons_append, rd, slFrom, List.length_cons, List.drop_succ_cons,
          List.drop_zero, List.getElem?_cons_zero, R.ok_bind, if_true, R.pure_eq, Nat.le_add_left, hu, R.mapErr] at h
        rw [hu] at h8
        have h := TargetType.RncId.inj (R.ok.inj h)
        rw [h] at h8
        have h8 : i.ext_rnc_id.isSome = true := h8
        rw [he] at h8
        cases h8
      | _ =>
        simp only [TargetType.unmarshal, TargetType.code, TargetType.octets, List.cons_append, rd, slFrom, List.length_cons, List.drop_succ_cons,
          List.drop_zero, List.getElem?_cons_zero, R.ok_bind, if_true, R.pure_eq, Nat.le_add_left, hu, R.mapErr] at h
        cases h
  | EngNbId i =>
    exfalso
    have h := hU []
    obtain ⟨-, -, g3, -, -⟩ := At_tliv (ty := 121) [] hl
    have h := Post.elim (TargetIdentification.inner m g3) h
    rw [ht] at h
    simp only [ht, TargetType.octets, TargetType.len] at h6
    have h7 : ∀ b, (EnGNbIdentifier.unmarshal b).Post fun i => ∃ t e, i.tac = some t ∧ i.etac = some e ∧ e.length = 3 := by
      intro b
      unfold EnGNbIdentifier.unmarshal
      refine Post_ite_any ?_ trivial
      refine Post_bind_any fun _ => Post_bind_any fun _ => Post_bind_any fun _ => Post_bind_any fun _ => Post_ite_any ?_ trivial
      refine Post_bind_any fun t => Post_ite_any ?_ trivial
      refine Post_bind_eq fun e he => ?_
      have := sl_bound he
      exact ⟨t, e, rfl, rfl, by omega⟩
    have h8 := h7 (i.octets ++ [])
    cases hu : EnGNbIdentifier.unmarshal (i.octets ++ []) with
    | ok j =>
      simp only [TargetType.unmarshal, TargetType.code, TargetType.octets, List.cons_append, rd, slFrom, List.length_cons, List.drop_succ_cons,
        List.drop_zero, List.getElem?_cons_zero, R.ok_bind, if_true, R.pure_eq, Nat.le_add_left, hu, R.mapErr] at h
      rw [hu] at h8
      have h : j = i := TargetType.EngNbId.inj (R.ok.inj h)
      rw [h] at h8
      obtain ⟨t, e, h8, h9, h10⟩ := h8
      simp [EnGNbIdentifier.octets, EnGNbIdentifier.len, h8, h9, h10, mccMncEncode_length, be32, be16, optEnc] at h6
    | _ =>
      simp only [TargetType.unmarshal, TargetType.code, TargetType.octets, List.cons_append, rd, slFrom, List.length_cons, List.drop_succ_cons,
        List.drop_zero, List.getElem?_cons_zero, R.ok_bind, if_true, R.pure_eq, Nat.le_add_left, hu, R.mapErr] at h
      cases h
  | Spare => simp [ht, TargetType.octets, TargetType.len] at h6
  | MacroEnbIdentifier i => simp [ht, TargetType.octets, TargetType.len] at h6
  | _ => trivial

theorem SourceIdentification.exact {m : Mode} {x : SourceIdentification} (hl : x.length.toNat + 4 = x.marshal.length)
    (hU : ∀ tail, SourceIdentification.unmarshal m (x.marshal ++ tail) = .ok x)
    (hL : SourceIdentification.len m x = .ok x.marshal.length) : x.source_type.Faithful := by
  have hc : x.target_cell.octets.length = 8 := by
    have key : ∀ b, (SourceIdentification.unmarshal m b).Post fun x => x.target_cell.WF := by
      intro b
      unfold SourceIdentification.unmarshal
      refine Post_ite_any ?_ trivial
      refine Post_bind_any fun _ => Post_bind_any fun _ => Post_bind_any fun s => ?_
      refine (Post_bind ..).mpr (Post_mapErr (Post.mono (CellIdentifier.stable s) fun i hi => ?_))
      exact Post_bind_any fun _ => Post_bind_any fun _ => hi
    exact (CellIdentifier.elem _ (Post.elim (key _) (hU []))).1
  have h6 : x.marshal.length = 13 + x.source_type.len := (R.ok.inj hL).symm
  rw [SourceIdentification.marshal, tliv_length, List.length_append, List.length_cons, hc] at h6
  cases ht : x.source_type with
  | SourceRncId i =>
    cases he : i.ext_rnc_id with
    | some v => simp [SourceType.Faithful, he]
    | none =>
      exfalso
      have h := hU [0, 0]
      obtain ⟨-, -, g3, -, -⟩ := At_tliv (ty := 129) [0, 0] hl
      simp only [List.append_assoc] at g3
      have g4 := g3.skip (n := 12) (by omega)
      have key : ∀ b s, At b 12 s → (SourceIdentification.unmarshal m b).Post fun x => SourceType.unmarshal s = .ok x.source_type := by
        intro b s hs
        unfold SourceIdentification.unmarshal
        refine Post_ite_any ?_ trivial
        refine Post_bind_any fun _ => Post_bind_any fun _ => Post_bind_any fun _ => Post_bind_any fun _ => ?_
        rw [hs.slFrom, R.ok_bind]
        cases hq : SourceType.unmarshal s <;> first | exact rfl | trivial
      have h := Post.elim (key _ _ g4) h
      rw [ht] at h
      simp only [ht, SourceType.octets, SourceType.len, SourceRncIdentifier.len, he, Option.isSome_none, Bool.false_eq_true, if_false] at h6
      have h7 : ∀ b, 7 ≤ b.length → (SourceRncIdentifier.unmarshal b).Post fun i => i.ext_rnc_id.isSome = true := by
        intro b hb
        unfold SourceRncIdentifier.unmarshal
        rw [if_neg (by omega), if_pos hb]
        exact Post_bind_any fun _ => Post_bind_any fun _ => Post_bind_any fun _ => Post_bind_any fun _ => rfl
      have h8 := h7 (i.octets ++ [0, 0]) (by simp only [List.length_append, List.length_cons, List.length_nil]; omega)
      cases hu : SourceRncIdentifier.unmarshal (i.octets ++ [0, 0]) with
      | ok j =>
        simp only [SourceType.unmarshal, SourceType.code, SourceType.octets, List.cons_append, rd, slFrom, List.length_cons, List.drop_succ_cons,
          List.drop_zero, List.getElem?_cons_zero, R.ok_bind, if_true, R.pure_eq, Nat.le_add_left, hu, R.mapErr] at h
        rw [hu] at h8
        have h : j = i := SourceType.SourceRncId.inj (R.ok.inj h)
        rw [h] at h8
        have h8 : i.ext_rnc_id.isSome = true := h8
        rw [he] at h8
        cases h8
      | _ =>
        simp only [SourceType.unmarshal, SourceType.code, SourceType.octets, List.cons_append, rd, slFrom, List.length_cons, List.drop_succ_cons,
          List.drop_zero, List.getElem?_cons_zero, R.ok_bind, if_true, R.pure_eq, Nat.le_add_left, hu, R.mapErr] at h
        cases h
  | SourceCellId i => trivial
  | Spare => simp [ht, SourceType.octets, SourceType.len] at h6

theorem At_mid {b P Q tail : Bytes} {k n : Nat} {c : UInt8} (h : At b k (P ++ [c] ++ Q ++ tail)) (hn : n = k + P.length) :
    (rd b n : R Err UInt8) = .ok c := by
  simp only [List.append_assoc, List.cons_append, List.nil_append] at h
  exact (h.skip hn).rd

theorem rdElems_end {α : Type} {W : α → Prop} {chk : Bool} {unm : Bytes → R Err α} {k : Nat} {e : Err} {b : Bytes} (hu : ∀ s, (unm s).Post W) :
    ∀ n c, (rdElems chk unm k e b n c).Post fun p => p.1.length = n ∧ p.2 = c + k * n ∧ ∀ y ∈ p.1, W y
  | 0, c => ⟨rfl, rfl, by simp⟩
  | n + 1, c => by
    unfold rdElems
    refine Post_ite_any trivial ?_
    refine Post_bind_any fun s => (Post_bind ..).mpr (Post_mapErr (Post.mono (hu s) fun x hx => ?_))
    refine (Post_bind ..).mpr (Post.mono (rdElems_end hu n (c + k)) fun p hp => ?_)
    refine ⟨by simp [hp.1], by show p.2 = _; rw [hp.2.1, Nat.mul_add]; omega, ?_⟩
    intro y hy
    rcases List.mem_cons.mp hy with rfl | hy
    · exact hx
    · exact hp.2.2 y hy

theorem PresenceReportingAreaAction.exact {m : Mode} {x : PresenceReportingAreaAction} (hl : x.length.toNat + 4 = x.marshal.length)
    (hU : ∀ tail, PresenceReportingAreaAction.unmarshal m (x.marshal ++ tail) = .ok x) : x.ext_macro_enb.length ≤ 63 := by
  have key : ∀ b, (PresenceReportingAreaAction.unmarshal m b).Post fun x => (x.tai.length ≤ 15 ∧ x.rai.length ≤ 15 ∧ x.macro_enb.length ≤ 63 ∧
      x.home_enb.length ≤ 63 ∧ x.ecgi.length ≤ 63 ∧ x.sai.length ≤ 63 ∧ x.cgi.length ≤ 63) ∧
      ((∀ y ∈ x.tai, y.WF) ∧ (∀ y ∈ x.rai, y.WF) ∧ (∀ y ∈ x.macro_enb, y.WF) ∧ (∀ y ∈ x.home_enb, y.WF) ∧ (∀ y ∈ x.ecgi, y.WF) ∧
        (∀ y ∈ x.sai, y.WF) ∧ (∀ y ∈ x.cgi, y.WF)) ∧
      (x.ext_macro_enb = [] ∨ ∃ n, (rd b (14 + 5 * x.tai.length + 6 * x.macro_enb.length + 6 * x.home_enb.length + 7 * x.ecgi.length +
        7 * x.rai.length + 7 * x.sai.length + 7 * x.cgi.length) : R Err UInt8) = .ok n ∧ x.ext_macro_enb.length = n.toNat) := by
    intro b
    unfold PresenceReportingAreaAction.unmarshal
    refine Post_ite_any ?_ trivial
    refine Post_bind_any fun _ => Post_bind_any fun _ => Post_bind_chk (fun hl => ?_) trivial
    simp only [if_true]
    refine Post_bind_any fun _ => Post_bind_any fun _ => Post_bind_any fun n0 => Post_bind_any fun n1 => Post_bind_any fun n2 =>
      Post_bind_any fun n3 => Post_bind_any fun n4 => Post_bind_any fun n5 => Post_ite_any trivial ?_
    refine (Post_bind ..).mpr (Post.mono (rdElems_end Tai.stable ..) fun l1 a1 => ?_)
    refine (Post_bind ..).mpr (Post.mono (rdElems_end MacroEnbId.stable ..) fun l2 a2 => ?_)
    refine (Post_bind ..).mpr (Post.mono (rdElems_end MacroEnbId.stable ..) fun l3 a3 => ?_)
    refine (Post_bind ..).mpr (Post.mono (rdElems_end Ecgi.stable ..) fun l4 a4 => ?_)
    refine (Post_bind ..).mpr (Post.mono (rdElems_end Rai.stable ..) fun l5 a5 => ?_)
    refine (Post_bind ..).mpr (Post.mono (rdElems_end Sai.stable ..) fun l6 a6 => ?_)
    refine (Post_bind ..).mpr (Post.mono (rdElems_end Cgi.stable ..) fun l7 a7 => ?_)
    have q0 := and15n n0; have q1 := shr4 n0; have q2 := and63n n1; have q3 := and63n n2; have q4 := and63n n3; have q5 := and63n n4; have q6 := and63n n5
    have hc : l7.2 = 14 + 5 * l1.1.length + 6 * l2.1.length + 6 * l3.1.length + 7 * l4.1.length + 7 * l5.1.length + 7 * l6.1.length + 7 * l7.1.length := by
      rw [a7.2.1, a6.2.1, a5.2.1, a4.2.1, a3.2.1, a2.2.1, a1.2.1, a1.1, a2.1, a3.1, a4.1, a5.1, a6.1, a7.1]
    refine Post_bind_ite (fun _ => ?_) fun _ => ?_
    · refine Post_bind_bind (Post_bind_eq fun n hn => Post_bind_bind ?_)
      refine (Post_bind ..).mpr (Post.mono (rdElems_end ExtMacroEnbId.stable ..) fun l8 a8 => ?_)
      refine ⟨?_, ⟨a1.2.2, a5.2.2, a2.2.2, a3.2.2, a4.2.2, a6.2.2, a7.2.2⟩, .inr ⟨n, ?_, a8.1⟩⟩
      · simp only
        omega
      · rw [← hc]
        exact hn
    · refine ⟨?_, ⟨a1.2.2, a5.2.2, a2.2.2, a3.2.2, a4.2.2, a6.2.2, a7.2.2⟩, .inl rfl⟩
      simp only
      omega
  obtain ⟨⟨h1, h5, h2, h3, h4, h6, h7⟩, ⟨w1, w5, w2, w3, w4, w6, w7⟩, h⟩ := Post.elim (key _) (hU [])
  rcases h with h | ⟨n, hr, hn⟩
  · simp [h]
  obtain ⟨-, -, g, -, -⟩ := At_tliv (ty := 177) [] hl
  have hm := At_mid g (n := 14 + 5 * x.tai.length + 6 * x.macro_enb.length + 6 * x.home_enb.length + 7 * x.ecgi.length +
        7 * x.rai.length + 7 * x.sai.length + 7 * x.cgi.length) (by
    simp only [be24, List.length_append, List.length_cons, List.length_nil,
      List.take_of_length_le h1, List.take_of_length_le h2,
      List.take_of_length_le h3, List.take_of_length_le h4,
      List.take_of_length_le h5, List.take_of_length_le h6, List.take_of_length_le h7,
      rdElems_flat fun y hy => (Tai.elem y (w1 y hy)).1, rdElems_flat fun y hy => (MacroEnbId.elem y (w2 y hy)).1,
      rdElems_flat fun y hy => (MacroEnbId.elem y (w3 y hy)).1, rdElems_flat fun y hy => (Ecgi.elem y (w4 y hy)).1,
      rdElems_flat fun y hy => (Rai.elem y (w5 y hy)).1, rdElems_flat fun y hy => (Sai.elem y (w6 y hy)).1,
      rdElems_flat fun y hy => (Cgi.elem y (w7 y hy)).1]
    omega)
  have e := R.ok.inj (hr.symm.trans hm)
  rw [hn, e, capLen]
  simp
  omega

theorem bind_some {α β : Type} {x : R Err α} {f : α → β} {b : β} (hf : ∀ a a', f a = f a' → a = a') {a : α} (h : (x >>= fun y => (pure (f y) : R Err β)) = .ok b)
    (hb : b = f a) : x = .ok a := by
  cases x with
  | ok y =>
    have h : f y = b := R.ok.inj h
    rw [hf _ _ (h.trans hb)]
  | _ => cases h

/-- An IE that survives the round trip satisfies the conditions collected in `IE.Faithful`. -/
theorem IE.faithful_of_rt {m : Mode} {e : IE} (hg : e.grouped = false) (hm : ∀ x, e ≠ .MmContext x)
    (hl : e.length.toNat + 4 = e.marshal.length) (hn : e.length.toNat < 65532)
    (hk : kindOf e.wireType = e.kind)
    (hU : ∀ tail, unmKind (decoder m) m (e.marshal ++ tail) e.kind = .ok e) (hL : e.len m = .ok e.marshal.length) : e.Faithful := by
  rw [IE.marshal_eq] at hl hL
  cases e with
  | BearerContext x => cases hg
  | LoadControlInfo x => cases hg
  | OverloadControlInfo x => cases hg
  | RemoteUeContext x => cases hg
  | ScefPdnConnections x => cases hg
  | PC5QosParameters x => cases hg
  | PgwChangeInfo x => cases hg
  | PdnConnections x => cases hg
  | V2xInformation x => cases hg
  | MmContext x => exact absurd rfl (hm x)
  | TraceReference x => revert hk; show kindOf 83 = .TraceReference → False; decide
  | TwanId x => revert hk; show kindOf 169 = .TwanId → False; decide
  | Imsi x =>
    have hx : ∀ tail, Imsi.unmarshal m (x.marshal ++ tail) = .ok x := fun tail => bind_some (fun _ _ h => IE.Imsi.inj h) (by
      have := hU tail
      rw [IE.marshal_eq] at this
      exact this) rfl
    exact Imsi.exact hl hx
  | Apn x =>
    have hx : ∀ tail, Apn.unmarshal m (x.marshal ++ tail) = .ok x := fun tail => bind_some (fun _ _ h => IE.Apn.inj h) (by
      have := hU tail
      rw [IE.marshal_eq] at this
      exact this) rfl
    exact Apn.exact hl hn hx
  | Mei x =>
    have hx : ∀ tail, Mei.unmarshal m (x.marshal ++ tail) = .ok x := fun tail => bind_some (fun _ _ h => IE.Mei.inj h) (by
      have := hU tail
      rw [IE.marshal_eq] at this
      exact this) rfl
    exact Mei.exact hl hn hx hL
  | Msisdn x =>
    have hx : ∀ tail, Msisdn.unmarshal m (x.marshal ++ tail) = .ok x := fun tail => bind_some (fun _ _ h => IE.Msisdn.inj h) (by
      have := hU tail
      rw [IE.marshal_eq] at this
      exact this) rfl
    exact Msisdn.exact hl hx
  | TargetIdentification x =>
    have hx : ∀ tail, TargetIdentification.unmarshal m (x.marshal ++ tail) = .ok x := fun tail => bind_some (fun _ _ h => IE.TargetIdentification.inj h) (by
      have := hU tail
      rw [IE.marshal_eq] at this
      exact this) rfl
    exact TargetIdentification.exact hl hx hL
  | SourceIdentification x =>
    have hx : ∀ tail, SourceIdentification.unmarshal m (x.marshal ++ tail) = .ok x := fun tail => bind_some (fun _ _ h => IE.SourceIdentification.inj h) (by
      have := hU tail
      rw [IE.marshal_eq] at this
      exact this) rfl
    exact SourceIdentification.exact hl hx hL
  | Fqdn x =>
    have hx : ∀ tail, Fqdn.unmarshal m (x.marshal ++ tail) = .ok x := fun tail => bind_some (fun _ _ h => IE.Fqdn.inj h) (by
      have := hU tail
      rw [IE.marshal_eq] at this
      exact this) rfl
    exact Fqdn.exact hl hn hx
  | Uci x =>
    have hx : ∀ tail, Uci.unmarshal m (x.marshal ++ tail) = .ok x := fun tail => bind_some (fun _ _ h => IE.Uci.inj h) (by
      have := hU tail
      rw [IE.marshal_eq] at this
      exact this) rfl
    exact Uci.exact hl hx
  | Ldn x =>
    have hx : ∀ tail, Ldn.unmarshal m (x.marshal ++ tail) = .ok x := fun tail => bind_some (fun _ _ h => IE.Ldn.inj h) (by
      have := hU tail
      rw [IE.marshal_eq] at this
      exact this) rfl
    exact Ldn.exact hl hn hx
  | AdditionalMmContextForSrvcc x =>
    have hx : ∀ tail, AdditionalMmContextForSrvcc.unmarshal m (x.marshal ++ tail) = .ok x := fun tail => bind_some (fun _ _ h => IE.AdditionalMmContextForSrvcc.inj h) (by
      have := hU tail
      rw [IE.marshal_eq] at this
      exact this) rfl
    exact AdditionalMmContextForSrvcc.exact hx
  | MdtConfiguration x =>
    have hx : ∀ tail, MdtConfiguration.unmarshal m (x.marshal ++ tail) = .ok x := fun tail => bind_some (fun _ _ h => IE.MdtConfiguration.inj h) (by
      have := hU tail
      rw [IE.marshal_eq] at this
      exact this) rfl
    exact MdtConfiguration.exact hx
  | NodeIdentifier x =>
    have hx : ∀ tail, NodeIdentifier.unmarshal m (x.marshal ++ tail) = .ok x := fun tail => bind_some (fun _ _ h => IE.NodeIdentifier.inj h) (by
      have := hU tail
      rw [IE.marshal_eq] at this
      exact this) rfl
    exact NodeIdentifier.exact hl hx
  | PresenceReportingAreaAction x =>
    have hx : ∀ tail, PresenceReportingAreaAction.unmarshal m (x.marshal ++ tail) = .ok x := fun tail => bind_some (fun _ _ h => IE.PresenceReportingAreaAction.inj h) (by
      have := hU tail
      rw [IE.marshal_eq] at this
      exact this) rfl
    exact PresenceReportingAreaAction.exact hl hx
  | PresenceReportingAreaInformation x =>
    have hx : ∀ tail, PresenceReportingAreaInformation.unmarshal m (x.marshal ++ tail) = .ok x := fun tail => bind_some (fun _ _ h => IE.PresenceReportingAreaInformation.inj h) (by
      have := hU tail
      rw [IE.marshal_eq] at this
      exact this) rfl
    exact PresenceReportingAreaInformation.exact (m := m) hL
  | ApnRelativeCapacity x =>
    have hx : ∀ tail, ApnRelativeCapacity.unmarshal m (x.marshal ++ tail) = .ok x := fun tail => bind_some (fun _ _ h => IE.ApnRelativeCapacity.inj h) (by
      have := hU tail
      rw [IE.marshal_eq] at this
      exact this) rfl
    exact ApnRelativeCapacity.exact hl hn hx
  | PgwFqdn x =>
    have hx : ∀ tail, PgwFqdn.unmarshal m (x.marshal ++ tail) = .ok x := fun tail => bind_some (fun _ _ h => IE.PgwFqdn.inj h) (by
      have := hU tail
      rw [IE.marshal_eq] at this
      exact this) rfl
    exact PgwFqdn.exact hl hn hx
  | AlternativeImsi x =>
    have hx : ∀ tail, AlternativeImsi.unmarshal m (x.marshal ++ tail) = .ok x := fun tail => bind_some (fun _ _ h => IE.AlternativeImsi.inj h) (by
      have := hU tail
      rw [IE.marshal_eq] at this
      exact this) rfl
    exact AlternativeImsi.exact hl hx
  | PrivateExtension x =>
    have hx : ∀ tail, PrivateExtension.unmarshal m (x.marshal ++ tail) = .ok x := fun tail => bind_some (fun _ _ h => IE.PrivateExtension.inj h) (by
      have := hU tail
      rw [IE.marshal_eq] at this
      exact this) rfl
    exact PrivateExtension.exact hl hx
  | _ => trivial

/-- One turn of the decoder's loop reads an IE back from its encoding, whatever follows, only when it satisfies `IE.WF`. -/
theorem IE.WF_of_rt {m : Mode} {e : IE} (hg : e.grouped = false) (hm : ∀ x, e ≠ .MmContext x) (hl : e.marshal.length < 65536)
    (h : ∀ tail, decodeOne (decoder m) m (e.marshal ++ tail) = .ok (e, e.marshal.length)) : e.WF := by
  have hU : ∀ tail, kindOf e.wireType = e.kind ∧ unmKind (decoder m) m (e.marshal ++ tail) e.kind = .ok e := by
    intro tail
    obtain ⟨_, h1, _⟩ := decodeOne_inv (h tail)
    have hk := Post.elim (unmKind_kind (decoder m) m _ _) h1
    obtain ⟨r, hr, _⟩ := IE.marshal_cons e
    have h0 : (e.marshal ++ tail).getD 0 0 = e.wireType := by rw [hr]; rfl
    rw [h0] at hk h1
    exact ⟨hk.symm, by rw [hk]; exact h1⟩
  have hL := (decodeOne_inv (h [])).2.2
  have hlen : e.length.toNat + 4 = e.marshal.length := by
    have h1 := Post.elim (unmKind_length (decoder m) m _ _) (hU []).2
    obtain ⟨l, i, body, hb⟩ := IE.marshal_tliv e
    rw [hb, tliv_length] at hl
    have h2 : declLen (e.marshal ++ []) = lenU16 body := by
      rw [hb, tliv_eq]
      simp only [declLen, be16, List.cons_append, List.append_assoc, List.getD_cons_succ, List.getD_cons_zero]
      exact of16_be _
    rw [h1, h2, hb, tliv_length, lenU16, UInt16.toNat_ofNat']
    omega
  have hf := IE.faithful_of_rt hg hm hlen (by omega) (hU []).1 (fun tail => (hU tail).2) hL
  have := Post.elim (unmKind_stable (decoder m) m _ _) (hU []).2 hf e.length hlen (by omega)
  rwa [IE.setLength_self] at this

end Gtp.V2
