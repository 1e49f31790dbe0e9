import Verif.Props.FigureSpec

/-!
# C74: the octets of the information elements against the figures of TS 29.274

`FigureSpec.lean` transcribes the figures; here the encoders are compared with them, kind by kind.
-/

namespace Gtp.Props

open Gtp.V2
open Row

set_option linter.unusedSimpArgs false

theorem draw_o1 (v : UInt8) : (o1 v).draw = [v.toNat] := by
  have := v.toNat_lt
  simp [o1, draw, List.range_succ]

theorem draw_o2 (v : UInt16) : (o2 v).draw = (be16 v).map UInt8.toNat := by
  simp [o2, draw, List.range_succ, be16, hi16, lo16]

theorem draw_o3 (v : UInt32) : (o3 v).draw = (be24 v).map UInt8.toNat := by
  simp [o3, draw, List.range_succ, be24, oct32]

theorem draw_o4 (v : UInt32) : (o4 v).draw = (be32 v).map UInt8.toNat := by
  simp [o4, draw, List.range_succ, be32, oct32]

theorem draw_o5 (v : UInt64) : (o5 v).draw = (be40 v).map UInt8.toNat := by
  simp [o5, draw, List.range_succ, be40, oct64]

theorem draw_o6 (v : UInt64) : (o6 v).draw = (be48 v).map UInt8.toNat := by
  simp [o6, draw, List.range_succ, be48, oct64]

theorem draw_o8 (v : UInt64) : (o8 v).draw = (be64 v).map UInt8.toNat := by
  simp [o8, draw, List.range_succ, be64, oct64]

theorem draw_n1 (v : Nat) : (num 1 v).draw = [v % 256] := by simp [draw, List.range_succ]

theorem draw_raw (b : Bytes) : (raw b).draw = b.map UInt8.toNat := rfl

theorem draw_digits {s : Str} (h : (digits s).Fits) : (digits s).draw = (tbcdEncode s).map UInt8.toNat := (C04_tbcd_layout s h).symm

theorem draw_pl {mcc mnc : UInt16} {three : Bool} (h : (pl mcc mnc three).Fits) :
    (pl mcc mnc three).draw = (mccMncEncode mcc mnc three).map UInt8.toNat := (C05_plmn_layout mcc mnc three h.1 h.2).symm

theorem draw_ip6 (a : Ip6) : (ip6 a).flatMap draw = a.octets.map UInt8.toNat := by
  simp [ip6, draw_o8, Ip6.octets]

theorem draw_ip (a : IpAddr) : (ip a).flatMap draw = a.octets.map UInt8.toNat := by
  cases a <;> simp [ip, draw_ip6, IpAddr.octets, draw_o4]

theorem draw_lv (b : Bytes) : (lv b).flatMap draw = (lenU8 b :: b).map UInt8.toNat := by
  simp [lv, draw_n1, draw_raw, lenU8]

theorem drawn_iff {t : Nat} {rows : List Row} {ty : UInt8} {l : UInt16} {i : UInt8} {body : Bytes} (h : ty.toNat = t) :
    Drawn (tliv ty l i body) (t, rows) ↔ body.map UInt8.toNat = rows.flatMap draw := by
  rw [tliv_eq]
  constructor
  · exact fun h => h.2
  · intro hb
    refine ⟨?_, hb⟩
    show [_, _, _] = _
    simp only [← hb, h, List.length_map, hi16, lo16, lenU16]
    have e1 : (UInt8.ofNat ((UInt16.ofNat body.length).toNat / 256)).toNat = body.length / 256 % 256 := by simp; omega
    have e2 : (UInt8.ofNat ((UInt16.ofNat body.length).toNat)).toNat = body.length % 256 := by simp
    simp only [e1, e2]

theorem drawn {t : Nat} {rows : List Row} {ty : UInt8} {l : UInt16} {i : UInt8} {body : Bytes} (h : ty.toNat = t)
    (hb : body.map UInt8.toNat = rows.flatMap draw) : Drawn (tliv ty l i body) (t, rows) := (drawn_iff h).mpr hb

theorem draw_bits (l : List (Nat × Nat)) : (bits l).draw = [l.foldl (fun a c => a * 2 ^ c.1 + c.2) 0] := rfl

theorem draw_flags8 (a b c d e f g h : Bool) :
    (bits [flag a, flag b, flag c, flag d, flag e, flag f, flag g, flag h]).draw = [(oct8 a b c d e f g h).toNat] := by
  revert a b c d e f g h; decide +kernel

theorem draw_low (w : Nat) (v : Nat) : (bits [spare w, (8 - w, v)]).draw = [v] := by simp [draw, spare]

/-- Values below a power of two in an octet. -/
theorem pack_qos {c p v : UInt8} (hc : c.toNat < 2 ^ 1) (hp : p.toNat < 2 ^ 4) (hv : v.toNat < 2 ^ 1) :
    ((c <<< 6) ||| (p <<< 2) ||| v).toNat = ((c.toNat * 2 ^ 4 + p.toNat) * 2 ^ 1) * 2 ^ 1 + v.toNat := by
  have key : ∀ c : Fin 2, ∀ p : Fin 16, ∀ v : Fin 2, ((UInt8.ofNat c.val <<< 6) ||| (UInt8.ofNat p.val <<< 2) ||| UInt8.ofNat v.val).toNat =
    ((c.val * 2 ^ 4 + p.val) * 2 ^ 1) * 2 ^ 1 + v.val := by decide +kernel
  simpa using key ⟨c.toNat, hc⟩ ⟨p.toNat, hp⟩ ⟨v.toNat, hv⟩

theorem pack_arp {c v : Bool} {p : UInt8} (hp : p.toNat < 2 ^ 4) :
    (Arp.pack c p v).toNat = ((c.toNat * 2 ^ 4 + p.toNat) * 2 ^ 1) * 2 ^ 1 + v.toNat := by
  have key : ∀ c v : Bool, ∀ p : Fin 16, (Arp.pack c (UInt8.ofNat p.val) v).toNat = ((c.toNat * 2 ^ 4 + p.val) * 2 ^ 1) * 2 ^ 1 + v.toNat := by
    decide +kernel
  simpa using key c v ⟨p.toNat, hp⟩

theorem pack_timer {u v : UInt8} (hu : u.toNat < 2 ^ 3) (hv : v.toNat < 2 ^ 5) : (EpcTimer.pack u v).toNat = u.toNat * 2 ^ 5 + v.toNat := by
  have key : ∀ u : Fin 8, ∀ v : Fin 32, (EpcTimer.pack (UInt8.ofNat u.val) (UInt8.ofNat v.val)).toNat = u.val * 2 ^ 5 + v.val := by decide +kernel
  simpa using key ⟨u.toNat, hu⟩ ⟨v.toNat, hv⟩

theorem pack_throttling {u v : UInt8} (hu : u.toNat < 2 ^ 3) (hv : v.toNat < 2 ^ 5) : ((u <<< 5) ||| v).toNat = u.toNat * 2 ^ 5 + v.toNat := by
  have key : ∀ u : Fin 8, ∀ v : Fin 32, ((UInt8.ofNat u.val <<< 5) ||| UInt8.ofNat v.val).toNat = u.val * 2 ^ 5 + v.val := by decide +kernel
  simpa using key ⟨u.toNat, hu⟩ ⟨v.toNat, hv⟩

theorem or_low {k : Nat} {v : UInt8} (w : UInt8) (hv : v.toNat < 2 ^ k) (hw : w.toNat % 2 ^ k = 0) : (w ||| v).toNat = w.toNat + v.toNat := by
  rw [UInt8.toNat_or]
  have := Nat.two_pow_add_eq_or_of_lt hv (w.toNat / 2 ^ k)
  have h2 : 2 ^ k * (w.toNat / 2 ^ k) = w.toNat := Nat.mul_div_cancel' (Nat.dvd_of_mod_eq_zero hw)
  rw [h2] at this
  exact this.symm

theorem draw_lvo (v : Option Bytes) : (lvo v).flatMap draw = (lvOpt v).map UInt8.toNat := by
  cases v with
  | none => rfl
  | some b => simp [lvo, draw_lv, lvOpt]

theorem draw_o2s (l : List UInt16) : (l.map o2).flatMap draw = (be16s l).map UInt8.toNat := by
  induction l with
  | nil => rfl
  | cons a l ih => simp [draw_o2, ih, be16s, be16]

theorem draw_opt2 (v : Option UInt16) : (opt v fun i => [o2 i]).flatMap draw = (optEnc be16 v).map UInt8.toNat := by
  cases v <;> simp [opt, optEnc, draw_o2]

theorem draw_cell (x : CellIdentifier) (h : ∀ r ∈ cellFig x, r.Fits) : (cellFig x).flatMap draw = x.octets.map UInt8.toNat := by
  simp [cellFig, draw_pl (mcc := x.mcc) (mnc := x.mnc) (three := x.mnc_is_three_digits) (h _ (by simp [cellFig])), draw_o2, draw_o1,
    CellIdentifier.octets]

theorem draw_macro (x : MacroEnbId) (h : ∀ r ∈ macroFig x, r.Fits) : (macroFig x).flatMap draw = x.octets.map UInt8.toNat := by
  simp [macroFig, draw_pl (mcc := x.mcc) (mnc := x.mnc) (three := x.mnc_is_three_digits) (h _ (by simp [macroFig])), draw_o3,
    MacroEnbId.octets]

theorem draw_ext (x : ExtMacroEnbId) (h : ∀ r ∈ extFig x, r.Fits) : (extFig x).flatMap draw = x.octets.map UInt8.toNat := by
  have hp := draw_pl (mcc := x.mcc) (mnc := x.mnc) (three := x.mnc_is_three_digits) (h _ (by simp [extFig]))
  obtain ⟨mcc, mnc, th, sm, v⟩ := x
  cases sm with
  | true =>
    have h2 : (bits [(1, 1), spare 5, (2, v.toNat / 65536)]).Fits := h _ (by simp [extFig])
    have h3 : v.toNat / 65536 < 4 := h2.2 (2, _) (by simp)
    have key : ∀ n : Fin 4, ((UInt8.ofNat n.val ||| 0x80) &&& 0x83).toNat = 128 + n.val := by decide +kernel
    have k := key ⟨_, h3⟩
    simp only [extFig, List.flatMap_cons, hp, ExtMacroEnbId.octets, List.map_append, oct32, if_true, List.flatMap_nil]
    simp [k, - UInt8.toNat_or, - UInt8.toNat_and, draw, List.range_succ, spare]
    omega
  | false =>
    have h2 : (bits [(1, 0), spare 2, (5, v.toNat / 65536)]).Fits := h _ (by simp [extFig])
    have h3 : v.toNat / 65536 < 32 := h2.2 (5, _) (by simp)
    simp only [extFig, List.flatMap_cons, hp, ExtMacroEnbId.octets, List.map_append, be24, oct32, Bool.false_eq_true, if_false, List.flatMap_nil]
    simp [draw, List.range_succ, spare]
    omega

theorem draws {α : Type} (fig : α → List Row) (oct : α → Bytes) (h : ∀ x, (∀ r ∈ fig x, r.Fits) → (fig x).flatMap draw = (oct x).map UInt8.toNat) :
    ∀ l : List α, (∀ r ∈ l.flatMap fig, r.Fits) → (l.flatMap fig).flatMap draw = (l.flatMap oct).map UInt8.toNat
  | [], _ => rfl
  | a :: l, hl => by
    have h1 := h a fun r hr => hl r (by simp only [List.flatMap_cons, List.mem_append]; exact .inl hr)
    have h2 := draws fig oct h l fun r hr => hl r (by simp only [List.flatMap_cons, List.mem_append]; exact .inr hr)
    rw [List.flatMap_cons, List.flatMap_append, h1, h2, List.flatMap_cons, List.map_append]

theorem draws_macro (l : List MacroEnbId) (h : ∀ r ∈ l.flatMap macroFig, r.Fits) : (l.flatMap macroFig).flatMap draw = (l.flatMap MacroEnbId.octets).map UInt8.toNat :=
  draws macroFig MacroEnbId.octets draw_macro l h
theorem draws_ext (l : List ExtMacroEnbId) (h : ∀ r ∈ l.flatMap extFig, r.Fits) : (l.flatMap extFig).flatMap draw = (l.flatMap ExtMacroEnbId.octets).map UInt8.toNat :=
  draws extFig ExtMacroEnbId.octets draw_ext l h
theorem draws_ecgi (l : List Ecgi) (h : ∀ r ∈ l.flatMap ecgiFig, r.Fits) : (l.flatMap ecgiFig).flatMap draw = (l.flatMap Ecgi.octets).map UInt8.toNat := by
  refine draws ecgiFig Ecgi.octets (fun x h => ?_) l h
  simp [ecgiFig, draw_pl (mcc := x.mcc) (mnc := x.mnc) (three := x.mnc_is_three_digits) (h _ (by simp [ecgiFig])), draw_o4, Ecgi.octets]
theorem draws_tai (l : List Tai) (h : ∀ r ∈ l.flatMap taiFig, r.Fits) : (l.flatMap taiFig).flatMap draw = (l.flatMap Tai.octets).map UInt8.toNat := by
  refine draws taiFig Tai.octets (fun x h => ?_) l h
  simp [taiFig, draw_pl (mcc := x.mcc) (mnc := x.mnc) (three := x.mnc_is_three_digits) (h _ (by simp [taiFig])), draw_o2, Tai.octets]
theorem draws_rai (l : List Rai) (h : ∀ r ∈ l.flatMap raiFig, r.Fits) : (l.flatMap raiFig).flatMap draw = (l.flatMap Rai.octets).map UInt8.toNat := by
  refine draws raiFig Rai.octets (fun x h => ?_) l h
  simp [raiFig, draw_pl (mcc := x.mcc) (mnc := x.mnc) (three := x.mnc_is_three_digits) (h _ (by simp [raiFig])), draw_o2, draw_o1, draw_n1, Rai.octets]
theorem draws_sai (l : List Sai) (h : ∀ r ∈ l.flatMap saiFig, r.Fits) : (l.flatMap saiFig).flatMap draw = (l.flatMap Sai.octets).map UInt8.toNat := by
  refine draws saiFig Sai.octets (fun x h => ?_) l h
  simp [saiFig, draw_pl (mcc := x.mcc) (mnc := x.mnc) (three := x.mnc_is_three_digits) (h _ (by simp [saiFig])), draw_o2, Sai.octets]
theorem draws_cgi (l : List Cgi) (h : ∀ r ∈ l.flatMap cgiFig, r.Fits) : (l.flatMap cgiFig).flatMap draw = (l.flatMap Cgi.octets).map UInt8.toNat := by
  refine draws cgiFig Cgi.octets (fun x h => ?_) l h
  simp [cgiFig, draw_pl (mcc := x.mcc) (mnc := x.mnc) (three := x.mnc_is_three_digits) (h _ (by simp [cgiFig])), draw_o2, Cgi.octets]
theorem draws_lai (l : List Lai) (h : ∀ r ∈ l.flatMap laiFig, r.Fits) : (l.flatMap laiFig).flatMap draw = (l.flatMap Lai.octets).map UInt8.toNat := by
  refine draws laiFig Lai.octets (fun x h => ?_) l h
  simp [laiFig, draw_pl (mcc := x.mcc) (mnc := x.mnc) (three := x.mnc_is_three_digits) (h _ (by simp [laiFig])), draw_o2, Lai.octets]

theorem splitDots_eq (s : Str) : splitDots s = s.splitOn '.' := by
  induction s with
  | nil => rfl
  | cons c s ih =>
    rw [splitDots, ih, List.splitOn, List.splitOn, List.splitOnP_cons_eq_if_modifyHead]
    by_cases hc : c = '.'
    · simp [hc]
    · have : (c == '.') = false := by simpa using hc
      rw [if_neg hc, this]
      have hne := List.splitOnP_ne_nil (· == '.') s
      cases hs : s.splitOnP (· == '.') with
      | nil => exact absurd hs hne
      | cons a t => simp [hs]

theorem draw_name (s : Str) : (nameFig s).flatMap draw = (encName s).map UInt8.toNat := by
  rw [encName, splitDots_eq, nameFig]
  induction s.splitOn '.' with
  | nil => rfl
  | cons l ls ih => rw [List.flatMap_cons, List.flatMap_append, ih, draw_lv, List.flatMap_cons, List.map_append]; rfl

theorem profileBit_iff (p : UInt16) : ∀ x ∈ [((0x0104 : UInt16), (64 : UInt8)), (0x0103, 32), (0x0102, 16), (0x0006, 8), (0x0004, 4), (0x0003, 2), (0x0002, 1)],
    (HeaderCompressionConfiguration.profileBit p = x.2 ↔ x.1 = p) := by
  by_cases h1 : p = 0x0104
  · subst h1; decide
  by_cases h2 : p = 0x0103
  · subst h2; decide
  by_cases h3 : p = 0x0102
  · subst h3; decide
  by_cases h4 : p = 0x0006
  · subst h4; decide
  by_cases h5 : p = 0x0004
  · subst h5; decide
  by_cases h6 : p = 0x0003
  · subst h6; decide
  by_cases h7 : p = 0x0002
  · subst h7; decide
  simp [HeaderCompressionConfiguration.profileBit, h1, h2, h3, h4, h5, h6, h7, Ne.symm h1, Ne.symm h2, Ne.symm h3, Ne.symm h4, Ne.symm h5,
    Ne.symm h6, Ne.symm h7]

/-- The bit of every profile, once. -/
theorem profileBits_eq (l : List UInt16) : HeaderCompressionConfiguration.profileBits l = oct8 false (0x0104 ∈ l) (0x0103 ∈ l) (0x0102 ∈ l)
    (0x0006 ∈ l) (0x0004 ∈ l) (0x0003 ∈ l) (0x0002 ∈ l) := by
  have key : ∀ a b c d e f g : Bool, ∀ v ∈ [(1 : UInt8), 2, 4, 8, 16, 32, 64, 0],
      (if oct8 false a b c d e f g &&& v = 0 then oct8 false a b c d e f g + v else oct8 false a b c d e f g) =
      oct8 false (a || v = 64) (b || v = 32) (c || v = 16) (d || v = 8) (e || v = 4) (f || v = 2) (g || v = 1) := by decide +kernel
  have go : ∀ (l : List UInt16) (a b c d e f g : Bool),
      l.foldl (fun i p => if i &&& HeaderCompressionConfiguration.profileBit p = 0 then i + HeaderCompressionConfiguration.profileBit p else i)
        (oct8 false a b c d e f g) =
      oct8 false (a || (0x0104 ∈ l : Bool)) (b || (0x0103 ∈ l : Bool)) (c || (0x0102 ∈ l : Bool)) (d || (0x0006 ∈ l : Bool))
        (e || (0x0004 ∈ l : Bool)) (f || (0x0003 ∈ l : Bool)) (g || (0x0002 ∈ l : Bool)) := by
    intro l
    induction l with
    | nil => intro a b c d e f g; simp
    | cons p l ih =>
      intro a b c d e f g
      have hm : HeaderCompressionConfiguration.profileBit p ∈ [(1 : UInt8), 2, 4, 8, 16, 32, 64, 0] := by
        unfold HeaderCompressionConfiguration.profileBit
        repeat' split
        all_goals decide
      rw [List.foldl_cons, key _ _ _ _ _ _ _ _ hm, ih]
      have hp := profileBit_iff p
      simp only [List.forall_mem_cons] at hp
      obtain ⟨p1, p2, p3, p4, p5, p6, p7, _⟩ := hp
      simp only [p1, p2, p3, p4, p5, p6, p7, List.mem_cons, Bool.decide_or, Bool.or_assoc]
  have := go l false false false false false false false
  rw [show oct8 false false false false false false false false = 0 from rfl] at this
  simpa [HeaderCompressionConfiguration.profileBits] using this

theorem insertLe_perm (a : Location) : ∀ l, (Uli.insertLe a l).Perm (a :: l)
  | [] => .refl _
  | b :: l => by
    rw [Uli.insertLe]
    split
    · exact .refl _
    · exact ((insertLe_perm a l).cons b).trans (.swap a b l)

theorem sort_perm : ∀ l, (Uli.sort l).Perm l
  | [] => .refl _
  | a :: l => (insertLe_perm a _).trans ((sort_perm l).cons a)

theorem kind_le {a b : Location} (h : a.le b = true) : a.kind ≤ b.kind := by
  cases a <;> cases b <;> first
    | exact Nat.le_refl _
    | (simp [Location.kind]; done)
    | (simp [Location.le, Location.key, Location.lexLe] at h)

theorem le_trans_loc {a b c : Location} (h : b.kind ≠ a.kind) (h1 : a.le b = true) (h2 : b.kind ≤ c.kind) : a.le c = true :=
  Location.le_of_kind (by have := kind_le h1; omega)

theorem le_total_loc {a b : Location} (h : b.kind ≠ a.kind) (h1 : ¬ a.le b = true) : b.kind < a.kind := by
  rcases Nat.lt_trichotomy a.kind b.kind with h2 | h2 | h2
  · exact absurd (Location.le_of_kind h2) h1
  · exact absurd h2.symm h
  · exact h2

/-- Inserting a kind that is not there. -/
theorem insertLe_sorted (a : Location) : ∀ l : List Location, (l.map Location.kind).Pairwise (· < ·) → (∀ b ∈ l, b.kind ≠ a.kind) →
    ((Uli.insertLe a l).map Location.kind).Pairwise (· < ·)
  | [], _, _ => by simp [Uli.insertLe]
  | b :: l, hl, ha => by
    have hb := ha b (by simp)
    simp only [List.map_cons, List.pairwise_cons, List.mem_map, forall_exists_index, and_imp, forall_apply_eq_imp_iff₂] at hl
    rw [Uli.insertLe]
    split
    · rename_i h
      have h1 := kind_le h
      simp only [List.map_cons, List.pairwise_cons, List.mem_cons, List.mem_map, forall_eq_or_imp, forall_exists_index, and_imp,
        forall_apply_eq_imp_iff₂]
      exact ⟨⟨by omega, fun c hc => by have := hl.1 c hc; omega⟩, hl⟩
    · rename_i h
      have h1 := le_total_loc hb h
      have ih := insertLe_sorted a l hl.2 fun c hc => ha c (by simp [hc])
      simp only [List.map_cons, List.pairwise_cons, List.mem_map, forall_exists_index, and_imp, forall_apply_eq_imp_iff₂]
      refine ⟨fun c hc => ?_, ih⟩
      rcases List.mem_cons.mp ((insertLe_perm a l).mem_iff.mp hc) with rfl | hc
      · exact h1
      · exact hl.1 c hc

theorem sort_sorted : ∀ l : List Location, (l.map Location.kind).Nodup → ((Uli.sort l).map Location.kind).Pairwise (· < ·)
  | [], _ => .nil
  | a :: l, h => by
    simp only [List.map_cons, List.nodup_cons, List.mem_map, not_exists, not_and] at h
    exact insertLe_sorted a _ (sort_sorted l h.2) fun b hb => h.1 b ((sort_perm l).mem_iff.mp hb)

/-- The locations by kind. -/
def byKind (l : List Location) : List Location := [1, 2, 3, 4, 5, 6, 7, 8].flatMap fun k => l.filter (·.kind = k)

theorem filter_kind (l : List Location) :
    l.filter (·.kind = 1) = (cgis l).map .Cgi ∧ l.filter (·.kind = 2) = (sais l).map .Sai ∧ l.filter (·.kind = 3) = (rais l).map .Rai ∧
    l.filter (·.kind = 4) = (tais l).map .Tai ∧ l.filter (·.kind = 5) = (ecgis l).map .Ecgi ∧ l.filter (·.kind = 6) = (lais l).map .Lai ∧
    l.filter (·.kind = 7) = (macros l).map .MacroEnbId ∧ l.filter (·.kind = 8) = (exts l).map .ExtMacroEnbId := by
  induction l with
  | nil => exact ⟨rfl, rfl, rfl, rfl, rfl, rfl, rfl, rfl⟩
  | cons a l ih =>
    obtain ⟨h1, h2, h3, h4, h5, h6, h7, h8⟩ := ih
    cases a <;> simp [Location.kind, cgis, sais, rais, tais, ecgis, lais, macros, exts] at * <;> simp [*]

theorem map_kind {α : Type} (c : α → Location) (k : Nat) (h : ∀ x, (c x).kind = k) (l : List α) (hl : l.length ≤ 1) :
    (l.map c).map Location.kind = if (l.length = 1 : Bool) then [k] else [] := by
  match l with
  | [] => rfl
  | [x] => simp [h]
  | _ :: _ :: _ => simp at hl

theorem kind_mem (a : Location) : a.kind ∈ [1, 2, 3, 4, 5, 6, 7, 8] := by cases a <;> simp [Location.kind]

theorem nodup_of_map {l : List Location} (h : (l.map Location.kind).Nodup) : l.Nodup :=
  (List.pairwise_map.mp h).imp fun h e => h (congrArg _ e)

theorem count_le_one_of {l : List Location} (h : ∀ k, (l.filter (·.kind = k)).length ≤ 1) : (l.map Location.kind).Nodup := by
  rw [List.nodup_iff_count]
  intro k
  have := h k
  rw [← List.countP_eq_length_filter] at this
  rw [List.count, List.countP_map]
  exact this

theorem uli_body (l : List Location) (h : (kindsIn l).all (· ≤ 1)) {t : UInt8} {n : UInt16} {i : UInt8} :
    Uli.body ⟨t, n, i, l⟩ = oct8 ((exts l).length = 1) ((macros l).length = 1) ((lais l).length = 1) ((ecgis l).length = 1) ((tais l).length = 1)
      ((rais l).length = 1) ((sais l).length = 1) ((cgis l).length = 1) :: ((cgis l).flatMap Cgi.octets ++ (sais l).flatMap Sai.octets ++
      (rais l).flatMap Rai.octets ++ (tais l).flatMap Tai.octets ++ (ecgis l).flatMap Ecgi.octets ++ (lais l).flatMap Lai.octets ++
      (macros l).flatMap MacroEnbId.octets ++ (exts l).flatMap ExtMacroEnbId.octets) := by
  simp only [kindsIn, List.all_cons, List.all_nil, Bool.and_true, Bool.and_eq_true, decide_eq_true_eq] at h
  obtain ⟨n1, n2, n3, n4, n5, n6, n7, n8⟩ := h
  obtain ⟨f1, f2, f3, f4, f5, f6, f7, f8⟩ := filter_kind l
  have hb : byKind l = (cgis l).map .Cgi ++ ((sais l).map .Sai ++ ((rais l).map .Rai ++ ((tais l).map .Tai ++ ((ecgis l).map .Ecgi ++
      ((lais l).map .Lai ++ ((macros l).map .MacroEnbId ++ (exts l).map .ExtMacroEnbId)))))) := by
    simp only [byKind, List.flatMap_cons, List.flatMap_nil, f1, f2, f3, f4, f5, f6, f7, f8, List.append_nil]
  have hk : (byKind l).map Location.kind = (if ((cgis l).length = 1 : Bool) then [1] else []) ++ ((if ((sais l).length = 1 : Bool) then [2] else []) ++
      ((if ((rais l).length = 1 : Bool) then [3] else []) ++ ((if ((tais l).length = 1 : Bool) then [4] else []) ++
      ((if ((ecgis l).length = 1 : Bool) then [5] else []) ++ ((if ((lais l).length = 1 : Bool) then [6] else []) ++
      ((if ((macros l).length = 1 : Bool) then [7] else []) ++ (if ((exts l).length = 1 : Bool) then [8] else []))))))) := by
    rw [hb]
    simp only [List.map_append, map_kind Location.Cgi 1 (fun _ => rfl) _ n1, map_kind Location.Sai 2 (fun _ => rfl) _ n2,
      map_kind Location.Rai 3 (fun _ => rfl) _ n3, map_kind Location.Tai 4 (fun _ => rfl) _ n4, map_kind Location.Ecgi 5 (fun _ => rfl) _ n5,
      map_kind Location.Lai 6 (fun _ => rfl) _ n6, map_kind Location.MacroEnbId 7 (fun _ => rfl) _ n7,
      map_kind Location.ExtMacroEnbId 8 (fun _ => rfl) _ n8]
  have key : ∀ a b c d e f g h : Bool, ∀ ks, ks = (if a then [1] else []) ++ ((if b then [2] else []) ++ ((if c then [3] else []) ++
      ((if d then [4] else []) ++ ((if e then [5] else []) ++ ((if f then [6] else []) ++ ((if g then [7] else []) ++ (if h then [8] else []))))))) →
      ks ∈ Location.subs [1, 2, 3, 4, 5, 6, 7, 8] ∧ ks.Pairwise (· < ·) ∧ Location.flagsOf 0 ks = oct8 h g f e d c b a := by
    rintro a b c d e f g h ks rfl
    revert a b c d e f g h
    decide +kernel
  obtain ⟨_, hp, hfl⟩ := key _ _ _ _ _ _ _ _ _ hk
  have hsub : ((byKind l).map Location.kind).Sublist [1, 2, 3, 4, 5, 6, 7, 8] := by
    rw [hk]
    have : [1, 2, 3, 4, 5, 6, 7, 8] = [1] ++ ([2] ++ ([3] ++ ([4] ++ ([5] ++ ([6] ++ ([7] ++ [8])))))) := rfl
    rw [this]
    have one : ∀ (p : Bool) (k : Nat), (if p then [k] else []).Sublist [k] := by intro p k; cases p <;> simp
    exact (one ..).append ((one ..).append ((one ..).append ((one ..).append ((one ..).append ((one ..).append ((one ..).append (one ..)))))))
  have hnd : (l.map Location.kind).Nodup := by
    refine count_le_one_of fun k => ?_
    by_cases h8 : k ∈ [1, 2, 3, 4, 5, 6, 7, 8]
    · simp only [List.mem_cons, List.not_mem_nil, or_false] at h8
      rcases h8 with rfl | rfl | rfl | rfl | rfl | rfl | rfl | rfl
      · rw [f1]; simpa using n1
      · rw [f2]; simpa using n2
      · rw [f3]; simpa using n3
      · rw [f4]; simpa using n4
      · rw [f5]; simpa using n5
      · rw [f6]; simpa using n6
      · rw [f7]; simpa using n7
      · rw [f8]; simpa using n8
    · rw [List.filter_eq_nil_iff.mpr]
      · simp
      · intro a _ ha
        simp only [decide_eq_true_eq] at ha
        subst ha
        exact h8 (kind_mem a)
  have hmem : ∀ a, a ∈ byKind l ↔ a ∈ l := by
    intro a
    simp only [byKind, List.mem_flatMap, List.mem_filter, decide_eq_true_eq]
    constructor
    · rintro ⟨_, _, h, _⟩; exact h
    · intro h; exact ⟨a.kind, kind_mem a, h, rfl⟩
  have hnd' : l.Nodup := nodup_of_map hnd
  have hbn : (byKind l).Nodup := nodup_of_map (hp.imp (fun h => Nat.ne_of_lt h))
  have hperm : (Uli.sort l).Perm (byKind l) :=
    (sort_perm l).trans ((List.perm_ext_iff_of_nodup hnd' hbn).mpr fun a => (hmem a).symm)
  have hs : Uli.sort l = byKind l := by
    refine List.Perm.eq_of_pairwise (le := fun a b => a.kind < b.kind) ?_ (List.pairwise_map.mp (sort_sorted l hnd)) (List.pairwise_map.mp hp) hperm
    intro a b _ _ h1 h2
    exact absurd h1 (by omega)
  have hs2 : Uli.sort (byKind l) = byKind l :=
    Uli.sort_of_pairwise ((List.pairwise_map.mp hp).imp Location.le_of_kind)
  have e : Uli.body ⟨t, n, i, l⟩ = Uli.body ⟨t, n, i, byKind l⟩ := by
    show (let (f, o) := Location.encode 0 (Uli.sort l); f :: o) = (let (f, o) := Location.encode 0 (Uli.sort (byKind l)); f :: o)
    rw [hs, hs2]
  rw [e, Uli.body_eq hsub, hfl, hb]
  simp only [List.flatMap_append, List.flatMap_map, List.append_assoc]
  rfl

theorem draws_mdt (l : List MdtPlmn) (h : ∀ r ∈ l.map fun p => pl p.mcc p.mnc p.mnc_is_three_digits, r.Fits) :
    (l.map fun p => pl p.mcc p.mnc p.mnc_is_three_digits).flatMap draw = (l.flatMap MdtPlmn.octets).map UInt8.toNat := by
  induction l with
  | nil => rfl
  | cons a l ih =>
    rw [List.map_cons, List.flatMap_cons, draw_pl (h _ (by simp)), ih fun r hr => h r (by rw [List.map_cons]; exact List.mem_cons_of_mem _ hr),
      List.flatMap_cons, List.map_append]
    rfl

theorem packSd {s : UInt32} {d : UInt8} (hs : s.toNat < 131072) (hd : d.toNat < 128) :
    (be24 ((s <<< 7) ||| d.toUInt32)) = [UInt8.ofNat (s.toNat / 512), UInt8.ofNat (s.toNat / 2), UInt8.ofNat (s.toNat * 128 + d.toNat)] := by
  have hv := MbmsSessionDuration.pack_nat hs (d := d) hd
  have h0 : (s.toNat * 128 + d.toNat) / 65536 = s.toNat / 512 := by omega
  have h1 : (s.toNat * 128 + d.toNat) / 256 = s.toNat / 2 := by omega
  simp [be24, oct32, hv, h0, h1]

theorem draw_area_last (p : PresenceReportingArea) : (areaFig false p).flatMap draw = p.octets.map UInt8.toNat := by
  cases p <;> simp [areaFig, draw_o3, PresenceReportingArea.octets, PresenceReportingArea.val, PresenceReportingArea.code, draw_bits, spare, flag]

theorem draw_areas : ∀ (l : List PresenceReportingArea), (areasFig l).flatMap draw = (PresenceReportingArea.chain l).map UInt8.toNat
  | [] => rfl
  | [p] => by
    cases p <;> simp [areasFig, areaFig, draw_o3, PresenceReportingArea.chain, PresenceReportingArea.val, PresenceReportingArea.code, draw_bits, spare, flag]
  | p :: q :: r => by
    have ih := draw_areas (q :: r)
    rw [areasFig, List.flatMap_append, ih, PresenceReportingArea.chain]
    cases p <;> simp [areaFig, draw_o3, PresenceReportingArea.val, PresenceReportingArea.code, draw_bits, spare, flag]

theorem fig_Imsi (x : V2.Imsi) (f : Nat × List Row) (h : figure (.Imsi x) = some f) (hf : ∀ r ∈ f.2, r.Fits) :
    Drawn x.marshal f := by
  cases h
  refine drawn rfl ?_
  simp [draw_digits (hf _ (.head _))]

theorem fig_Cause (x : V2.Cause) (f : Nat × List Row) (h : figure (.Cause x) = some f) (_ : ∀ r ∈ f.2, r.Fits) :
    Drawn x.marshal f := by
  cases h
  refine drawn rfl ?_
  have e : ∀ a b c, (bits [spare 5, flag a, flag b, flag c]).draw = [((b2u a <<< 2) ||| (b2u b <<< 1) ||| b2u c).toNat] := by decide +kernel
  have e2 : (num 2 0).draw = [0, 0] := rfl
  have e3 : (bits [spare 4, (4, 0)]).draw = [0] := rfl
  cases x.offend_ie_type <;> simp [draw_o1, draw_o2, draw_o3, draw_o4, draw_o5, draw_o6, draw_o8, draw_n1, draw_raw, draw_ip, draw_ip6, draw_lv, e, opt, e2, e3, - UInt8.toNat_or, - UInt8.toNat_shiftLeft]

theorem fig_Recovery (x : V2.Recovery) (f : Nat × List Row) (h : figure (.Recovery x) = some f) (_ : ∀ r ∈ f.2, r.Fits) :
    Drawn x.marshal f := by
  cases h
  refine drawn rfl ?_
  simp [draw_o1, draw_o2, draw_o3, draw_o4, draw_o5, draw_o6, draw_o8, draw_n1, draw_raw, draw_ip, draw_ip6, draw_lv]

theorem fig_StnSr (x : V2.StnSr) (f : Nat × List Row) (h : figure (.StnSr x) = some f) (hf : ∀ r ∈ f.2, r.Fits) :
    Drawn x.marshal f := by
  cases h
  refine drawn rfl ?_
  simp [draw_digits (s := x.msisdn) (hf _ (by simp)), draw_o1, draw_o2, draw_o3, draw_o4, draw_o5, draw_o6, draw_o8, draw_n1, draw_raw, draw_ip, draw_ip6, draw_lv]

theorem fig_SrvccCause (x : V2.SrvccCause) (f : Nat × List Row) (h : figure (.SrvccCause x) = some f) (_ : ∀ r ∈ f.2, r.Fits) :
    Drawn x.marshal f := by
  cases h
  refine drawn rfl ?_
  cases x.value <;> rfl

theorem fig_ApnAmbr (x : V2.Ambr) (f : Nat × List Row) (h : figure (.ApnAmbr x) = some f) (_ : ∀ r ∈ f.2, r.Fits) :
    Drawn x.marshal f := by
  cases h
  refine drawn rfl ?_
  simp [draw_o1, draw_o2, draw_o3, draw_o4, draw_o5, draw_o6, draw_o8, draw_n1, draw_raw, draw_ip, draw_ip6, draw_lv]

theorem fig_Ebi (x : V2.Ebi) (f : Nat × List Row) (h : figure (.Ebi x) = some f) (_ : ∀ r ∈ f.2, r.Fits) :
    Drawn x.marshal f := by
  cases h
  refine drawn rfl ?_
  simp [draw_o1, draw_o2, draw_o3, draw_o4, draw_o5, draw_o6, draw_o8, draw_n1, draw_raw, draw_ip, draw_ip6, draw_lv, draw_bits, spare]

theorem fig_IpAddress (x : V2.IpAddress) (f : Nat × List Row) (h : figure (.IpAddress x) = some f) (_ : ∀ r ∈ f.2, r.Fits) :
    Drawn x.marshal f := by
  cases h
  refine drawn rfl ?_
  simp [draw_o1, draw_o2, draw_o3, draw_o4, draw_o5, draw_o6, draw_o8, draw_n1, draw_raw, draw_ip, draw_ip6, draw_lv]

theorem fig_Mei (x : V2.Mei) (f : Nat × List Row) (h : figure (.Mei x) = some f) (hf : ∀ r ∈ f.2, r.Fits) :
    Drawn x.marshal f := by
  cases h
  refine drawn rfl ?_
  simp [draw_digits (hf _ (.head _))]

theorem fig_Msisdn (x : V2.Msisdn) (f : Nat × List Row) (h : figure (.Msisdn x) = some f) (hf : ∀ r ∈ f.2, r.Fits) :
    Drawn x.marshal f := by
  cases h
  refine drawn rfl ?_
  simp [draw_digits (hf _ (.head _))]

theorem fig_Indication (x : V2.Indication) (f : Nat × List Row) (h : figure (.Indication x) = some f) (_ : ∀ r ∈ f.2, r.Fits) :
    Drawn x.marshal f := by
  cases h
  refine drawn rfl ?_
  have e : ∀ a b c, (bits [spare 5, flag a, flag b, flag c]).draw = [(oct8 false false false false false a b c).toNat] := by decide +kernel
  simp only [List.flatMap_cons, List.flatMap_nil, draw_flags8, e]
  rfl

theorem fig_Pco (x : V2.Pco) (f : Nat × List Row) (h : figure (.Pco x) = some f) (_ : ∀ r ∈ f.2, r.Fits) :
    Drawn x.marshal f := by
  cases h
  refine drawn rfl ?_
  simp [draw_o1, draw_o2, draw_o3, draw_o4, draw_o5, draw_o6, draw_o8, draw_n1, draw_raw, draw_ip, draw_ip6, draw_lv]

theorem fig_PdnAddressAllocation (x : V2.PdnAddressAllocation) (f : Nat × List Row) (h : figure (.PdnAddressAllocation x) = some f) (_ : ∀ r ∈ f.2, r.Fits) :
    Drawn x.marshal f := by
  cases h
  refine drawn rfl ?_
  cases x.ip <;> simp [draw_o1, draw_o2, draw_o3, draw_o4, draw_o5, draw_o6, draw_o8, draw_n1, draw_raw, draw_ip, draw_ip6, draw_lv, draw_bits, spare, PdnAddress.octets]

theorem fig_BearerQos (x : V2.BearerQos) (f : Nat × List Row) (h : figure (.BearerQos x) = some f) (hf : ∀ r ∈ f.2, r.Fits) :
    Drawn x.marshal f := by
  cases h
  have hb := (hf _ (.head _)).2
  refine drawn rfl ?_
  simp only [List.forall_mem_cons, spare] at hb
  simp [draw_o1, draw_o2, draw_o3, draw_o4, draw_o5, draw_o6, draw_o8, draw_n1, draw_raw, draw_ip, draw_ip6, draw_lv, draw_bits, spare, pack_qos hb.2.1 hb.2.2.1 hb.2.2.2.2.1, - UInt8.toNat_or, - UInt8.toNat_shiftLeft]

theorem fig_FlowQos (x : V2.FlowQos) (f : Nat × List Row) (h : figure (.FlowQos x) = some f) (_ : ∀ r ∈ f.2, r.Fits) :
    Drawn x.marshal f := by
  cases h
  refine drawn rfl ?_
  simp [draw_o1, draw_o2, draw_o3, draw_o4, draw_o5, draw_o6, draw_o8, draw_n1, draw_raw, draw_ip, draw_ip6, draw_lv]

theorem fig_RatType (x : V2.RatType) (f : Nat × List Row) (h : figure (.RatType x) = some f) (_ : ∀ r ∈ f.2, r.Fits) :
    Drawn x.marshal f := by
  cases h
  refine drawn rfl ?_
  cases x.rat_type <;> rfl

theorem fig_ServingNetwork (x : V2.ServingNetwork) (f : Nat × List Row) (h : figure (.ServingNetwork x) = some f) (hf : ∀ r ∈ f.2, r.Fits) :
    Drawn x.marshal f := by
  cases h
  refine drawn rfl ?_
  simp [draw_pl (hf _ (.head _))]

theorem fig_BearerTft (x : V2.BearerTft) (f : Nat × List Row) (h : figure (.BearerTft x) = some f) (_ : ∀ r ∈ f.2, r.Fits) :
    Drawn x.marshal f := by
  cases h
  refine drawn rfl ?_
  simp [draw_o1, draw_o2, draw_o3, draw_o4, draw_o5, draw_o6, draw_o8, draw_n1, draw_raw, draw_ip, draw_ip6, draw_lv]

theorem fig_TrafficAggregateDescription (x : V2.TrafficAggregateDescription) (f : Nat × List Row) (h : figure (.TrafficAggregateDescription x) = some f) (_ : ∀ r ∈ f.2, r.Fits) :
    Drawn x.marshal f := by
  cases h
  refine drawn rfl ?_
  simp [draw_o1, draw_o2, draw_o3, draw_o4, draw_o5, draw_o6, draw_o8, draw_n1, draw_raw, draw_ip, draw_ip6, draw_lv]

theorem fig_Fteid (x : V2.Fteid) (f : Nat × List Row) (h : figure (.Fteid x) = some f) (hf : ∀ r ∈ f.2, r.Fits) (hd : deviates (.Fteid x) = false) :
    Drawn x.marshal f := by
  cases h
  have hb := (hf _ (.head _)).2
  refine drawn rfl ?_
  simp only [List.forall_mem_cons] at hb
  have h6 := hb.2.2.1
  obtain ⟨t, l, i, f, te, a, b⟩ := x
  cases a <;> cases b
  · exact absurd hd (by simp [deviates])
  all_goals simp [draw_o1, draw_o2, draw_o3, draw_o4, draw_o5, draw_o6, draw_o8, draw_n1, draw_raw, draw_ip, draw_ip6, draw_lv, draw_bits, flag, opt, or_low 64 h6 rfl, or_low 128 h6 rfl, or_low 192 h6 rfl, - UInt8.toNat_or]

theorem fig_Tmsi (x : V2.Tmsi) (f : Nat × List Row) (h : figure (.Tmsi x) = some f) (_ : ∀ r ∈ f.2, r.Fits) :
    Drawn x.marshal f := by
  cases h
  refine drawn rfl ?_
  simp [draw_o1, draw_o2, draw_o3, draw_o4, draw_o5, draw_o6, draw_o8, draw_n1, draw_raw, draw_ip, draw_ip6, draw_lv]

theorem fig_GlobalCnId (x : V2.GlobalCnId) (f : Nat × List Row) (h : figure (.GlobalCnId x) = some f) (hf : ∀ r ∈ f.2, r.Fits) :
    Drawn x.marshal f := by
  cases h
  refine drawn rfl ?_
  simp [draw_pl (mcc := x.mcc) (mnc := x.mnc) (three := x.mnc_is_three_digits) (hf _ (by simp)), draw_o1, draw_o2, draw_o3, draw_o4, draw_o5, draw_o6, draw_o8, draw_n1, draw_raw, draw_ip, draw_ip6, draw_lv]

theorem fig_S103pdf (x : V2.S103pdf) (f : Nat × List Row) (h : figure (.S103pdf x) = some f) (hf : ∀ r ∈ f.2, r.Fits) :
    Drawn x.marshal f := by
  cases h
  refine drawn rfl ?_
  have e : ∀ l : Bytes, (l.map fun i => bits [spare 4, (4, i.toNat)]).flatMap draw = l.map UInt8.toNat := by
    intro l; induction l with
    | nil => rfl
    | cons a l ih =>
      rw [List.map_cons, List.flatMap_cons, ih]
      simp [draw_bits, spare]
  have hb : (bits [spare 4, (4, x.eps_bearer_ids.length)]).Fits := hf _ (by simp)
  have h2 : x.eps_bearer_ids.length < 16 := hb.2 (4, _) (by simp)
  have h3 : x.eps_bearer_ids.length % 256 = x.eps_bearer_ids.length := by omega
  simp only [List.flatMap_append, e]
  cases hx : x.hsgw_ip <;> simp [draw_o1, draw_o2, draw_o3, draw_o4, draw_o5, draw_o6, draw_o8, draw_n1, draw_raw, draw_ip, draw_ip6, draw_lv, draw_bits, spare, hx, ip, ipSize, lenU8, h3]

theorem fig_S1udf (x : V2.S1udf) (f : Nat × List Row) (h : figure (.S1udf x) = some f) (hf : ∀ r ∈ f.2, r.Fits) :
    Drawn x.marshal f := by
  cases h
  have hb := (hf _ (.head _)).2
  refine drawn rfl ?_
  simp only [List.forall_mem_cons, spare] at hb
  have h2 := hb.2.1
  have h3 : (x.ebi &&& 15).toNat = x.ebi.toNat := by
    have : (15 : UInt8).toNat = 2 ^ 4 - 1 := rfl
    rw [UInt8.toNat_and, this, Nat.and_two_pow_sub_one_eq_mod]; omega
  cases hx : x.sgw_ip <;> simp [draw_o1, draw_o2, draw_o3, draw_o4, draw_o5, draw_o6, draw_o8, draw_n1, draw_raw, draw_ip, draw_ip6, draw_lv, draw_bits, spare, hx, ip, ipSize, h3, - UInt8.toNat_and]

theorem fig_DelayValue (x : V2.DelayValue) (f : Nat × List Row) (h : figure (.DelayValue x) = some f) (_ : ∀ r ∈ f.2, r.Fits) :
    Drawn x.marshal f := by
  cases h
  refine drawn rfl ?_
  simp [draw_o1, draw_o2, draw_o3, draw_o4, draw_o5, draw_o6, draw_o8, draw_n1, draw_raw, draw_ip, draw_ip6, draw_lv]

theorem fig_ChargingId (x : V2.ChargingId) (f : Nat × List Row) (h : figure (.ChargingId x) = some f) (_ : ∀ r ∈ f.2, r.Fits) :
    Drawn x.marshal f := by
  cases h
  refine drawn rfl ?_
  simp [draw_o1, draw_o2, draw_o3, draw_o4, draw_o5, draw_o6, draw_o8, draw_n1, draw_raw, draw_ip, draw_ip6, draw_lv]

theorem fig_ChargingCharacteristics (x : V2.ChargingCharacteristics) (f : Nat × List Row) (h : figure (.ChargingCharacteristics x) = some f) (_ : ∀ r ∈ f.2, r.Fits) :
    Drawn x.marshal f := by
  cases h
  refine drawn rfl ?_
  simp [draw_o1, draw_o2, draw_o3, draw_o4, draw_o5, draw_o6, draw_o8, draw_n1, draw_raw, draw_ip, draw_ip6, draw_lv]

theorem fig_TraceInformation (x : V2.TraceInformation) (f : Nat × List Row) (h : figure (.TraceInformation x) = some f) (hf : ∀ r ∈ f.2, r.Fits) :
    Drawn x.marshal f := by
  cases h
  refine drawn rfl ?_
  simp [draw_pl (mcc := x.mcc) (mnc := x.mnc) (three := x.mnc_is_three_digits) (hf _ (by simp)), draw_o1, draw_o2, draw_o3, draw_o4, draw_o5, draw_o6, draw_o8, draw_n1, draw_raw, draw_ip, draw_ip6, draw_lv]

theorem fig_BearerFlags (x : V2.BearerFlags) (f : Nat × List Row) (h : figure (.BearerFlags x) = some f) (_ : ∀ r ∈ f.2, r.Fits) :
    Drawn x.marshal f := by
  cases h
  refine drawn rfl ?_
  cases x.asi <;> cases x.vind <;> cases x.vb <;> cases x.ppc <;> rfl

theorem fig_PdnType (x : V2.PdnType) (f : Nat × List Row) (h : figure (.PdnType x) = some f) (_ : ∀ r ∈ f.2, r.Fits) :
    Drawn x.marshal f := by
  cases h
  refine drawn rfl ?_
  cases x.pdn_type <;> rfl

theorem fig_Pti (x : V2.Pti) (f : Nat × List Row) (h : figure (.Pti x) = some f) (_ : ∀ r ∈ f.2, r.Fits) :
    Drawn x.marshal f := by
  cases h
  refine drawn rfl ?_
  simp [draw_o1, draw_o2, draw_o3, draw_o4, draw_o5, draw_o6, draw_o8, draw_n1, draw_raw, draw_ip, draw_ip6, draw_lv]

theorem fig_PduNumbers (x : V2.PduNumbers) (f : Nat × List Row) (h : figure (.PduNumbers x) = some f) (_ : ∀ r ∈ f.2, r.Fits) :
    Drawn x.marshal f := by
  cases h
  refine drawn rfl ?_
  simp [draw_o1, draw_o2, draw_o3, draw_o4, draw_o5, draw_o6, draw_o8, draw_n1, draw_raw, draw_ip, draw_ip6, draw_lv, draw_bits, spare]

theorem fig_Ptmsi (x : V2.Ptmsi) (f : Nat × List Row) (h : figure (.Ptmsi x) = some f) (_ : ∀ r ∈ f.2, r.Fits) :
    Drawn x.marshal f := by
  cases h
  refine drawn rfl ?_
  simp [draw_o1, draw_o2, draw_o3, draw_o4, draw_o5, draw_o6, draw_o8, draw_n1, draw_raw, draw_ip, draw_ip6, draw_lv]

theorem fig_HopCounter (x : V2.HopCounter) (f : Nat × List Row) (h : figure (.HopCounter x) = some f) (_ : ∀ r ∈ f.2, r.Fits) :
    Drawn x.marshal f := by
  cases h
  refine drawn rfl ?_
  simp [draw_o1, draw_o2, draw_o3, draw_o4, draw_o5, draw_o6, draw_o8, draw_n1, draw_raw, draw_ip, draw_ip6, draw_lv]

theorem fig_UeTimeZone (x : V2.UeTimeZone) (f : Nat × List Row) (h : figure (.UeTimeZone x) = some f) (_ : ∀ r ∈ f.2, r.Fits) (hd : deviates (.UeTimeZone x) = false) :
    Drawn x.marshal f := by
  cases h
  refine drawn rfl ?_
  have hz : x.time_zone ∈ [(0 : Int8), 53, -8] := by
    simp only [deviates, decide_eq_false_iff_not] at hd
    exact Classical.byContradiction hd
  have key : ∀ z ∈ [(0 : Int8), 53, -8], (zoneFig z).draw = [(UeTimeZone.zoneOctet z).toNat] := by decide +kernel
  simp [key _ hz, draw_bits, spare]

theorem fig_CompleteRequestMessage (x : V2.CompleteRequestMessage) (f : Nat × List Row) (h : figure (.CompleteRequestMessage x) = some f) (_ : ∀ r ∈ f.2, r.Fits) :
    Drawn x.marshal f := by
  obtain ⟨_, _, _, v⟩ := x
  cases v <;> cases h <;> exact drawn rfl (by simp [draw_o1, draw_o2, draw_o3, draw_o4, draw_o5, draw_o6, draw_o8, draw_n1, draw_raw, draw_ip, draw_ip6, draw_lv, RequestMessage.octets])

theorem fig_Guti (x : V2.Guti) (f : Nat × List Row) (h : figure (.Guti x) = some f) (hf : ∀ r ∈ f.2, r.Fits) :
    Drawn x.marshal f := by
  cases h
  refine drawn rfl ?_
  simp [draw_pl (mcc := x.mcc) (mnc := x.mnc) (three := x.mnc_is_three_digits) (hf _ (by simp)), draw_o1, draw_o2, draw_o3, draw_o4, draw_o5, draw_o6, draw_o8, draw_n1, draw_raw, draw_ip, draw_ip6, draw_lv]

theorem fig_Fcontainer (x : V2.Fcontainer) (f : Nat × List Row) (h : figure (.Fcontainer x) = some f) (_ : ∀ r ∈ f.2, r.Fits) :
    Drawn x.marshal f := by
  obtain ⟨_, _, _, v⟩ := x
  cases v <;> cases h <;> exact drawn rfl (by simp [draw_o1, draw_o2, draw_o3, draw_o4, draw_o5, draw_o6, draw_o8, draw_n1, draw_raw, draw_ip, draw_ip6, draw_lv, draw_bits, spare, Container.octets])

theorem fig_Fcause (x : V2.Fcause) (f : Nat × List Row) (h : figure (.Fcause x) = some f) (_ : ∀ r ∈ f.2, r.Fits) :
    Drawn x.marshal f := by
  cases h
  refine drawn rfl ?_
  cases x.cause_type <;> simp [draw_o1, draw_o2, draw_o3, draw_o4, draw_o5, draw_o6, draw_o8, draw_n1, draw_raw, draw_ip, draw_ip6, draw_lv, draw_bits, spare, causeTypeCode, CauseType.toU8]

theorem fig_PlmnId (x : V2.PlmnId) (f : Nat × List Row) (h : figure (.PlmnId x) = some f) (hf : ∀ r ∈ f.2, r.Fits) :
    Drawn x.marshal f := by
  cases h
  refine drawn rfl ?_
  simp [draw_pl (hf _ (.head _))]

theorem fig_TargetIdentification (x : V2.TargetIdentification) (f : Nat × List Row) (h : figure (.TargetIdentification x) = some f) (hf : ∀ r ∈ f.2, r.Fits) (hd : deviates (.TargetIdentification x) = false) :
    Drawn x.marshal f := by
  obtain ⟨t, l, i, v⟩ := x
  cases v with
  | RncId s =>
    cases h
    refine drawn rfl ?_
    have h2 := draw_pl (mcc := s.rai.mcc) (mnc := s.rai.mnc) (three := s.rai.mnc_is_three_digits) (hf _ (by simp))
    simp [draw_n1, h2, draw_o2, draw_o1, TargetType.octets, TargetType.code, RncIdentifier.octets, Rai.octets, draw_opt2, List.dropLast_append]
  | MacroeNbId s =>
    cases h
    refine drawn rfl ?_
    have h2 := draw_macro s.macro_enb_id fun r hr => hf r (by simp [hr])
    simp [draw_n1, h2, draw_o2, TargetType.octets, TargetType.code, MacroEnbIdentifier.octets]
  | CellId s =>
    cases h
    refine drawn rfl ?_
    have h2 := draw_cell s fun r hr => hf r (by simp [hr])
    simp [draw_n1, h2, TargetType.octets, TargetType.code]
  | HomeeNbId s => exact absurd hd (by simp [deviates])
  | ExtendedMacroeNbId s =>
    cases h
    refine drawn rfl ?_
    have h2 := draw_ext s.ext_macro_enb_id fun r hr => hf r (by simp [hr])
    simp [draw_n1, h2, draw_o2, TargetType.octets, TargetType.code, ExtendedMacroEnbIdentifier.octets]
  | GNbId s =>
    cases h
    refine drawn rfl ?_
    have h2 := draw_pl (mcc := s.mcc) (mnc := s.mnc) (three := s.mnc_is_three_digits) (hf _ (by simp))
    simp [draw_n1, h2, draw_o4, draw_raw, draw_bits, spare, TargetType.octets, TargetType.code, GNbIdentifier.octets]
  | MacrongeNbId s =>
    cases h
    refine drawn rfl ?_
    have h2 := draw_macro s.macro_ng_enb_id fun r hr => hf r (by simp [hr])
    simp [draw_n1, h2, draw_raw, TargetType.octets, TargetType.code, MacronGeNbIdentifier.octets]
  | ExtendedngeNbId s =>
    cases h
    refine drawn rfl ?_
    have h2 := draw_ext s.macro_ng_enb_id fun r hr => hf r (by simp [hr])
    simp [draw_n1, h2, draw_raw, TargetType.octets, TargetType.code, ExtendedGeNbIdentifier.octets]
  | MacroEnbIdentifier s => cases h
  | EngNbId s => cases h
  | Spare => cases h

theorem fig_PacketFlowId (x : V2.PacketFlowId) (f : Nat × List Row) (h : figure (.PacketFlowId x) = some f) (_ : ∀ r ∈ f.2, r.Fits) :
    Drawn x.marshal f := by
  cases h
  refine drawn rfl ?_
  simp [draw_o1, draw_o2, draw_o3, draw_o4, draw_o5, draw_o6, draw_o8, draw_n1, draw_raw, draw_ip, draw_ip6, draw_lv, draw_bits, spare]

theorem fig_SrcRncPdcpCtxInfo (x : V2.SourceRncPdcpContextInfo) (f : Nat × List Row) (h : figure (.SrcRncPdcpCtxInfo x) = some f) (_ : ∀ r ∈ f.2, r.Fits) :
    Drawn x.marshal f := by
  cases h
  refine drawn rfl ?_
  simp [draw_o1, draw_o2, draw_o3, draw_o4, draw_o5, draw_o6, draw_o8, draw_n1, draw_raw, draw_ip, draw_ip6, draw_lv]

theorem fig_PortNumber (x : V2.PortNumber) (f : Nat × List Row) (h : figure (.PortNumber x) = some f) (_ : ∀ r ∈ f.2, r.Fits) :
    Drawn x.marshal f := by
  cases h
  refine drawn rfl ?_
  simp [draw_o1, draw_o2, draw_o3, draw_o4, draw_o5, draw_o6, draw_o8, draw_n1, draw_raw, draw_ip, draw_ip6, draw_lv]

theorem fig_ApnRestriction (x : V2.ApnRestriction) (f : Nat × List Row) (h : figure (.ApnRestriction x) = some f) (_ : ∀ r ∈ f.2, r.Fits) :
    Drawn x.marshal f := by
  cases h
  refine drawn rfl ?_
  cases x.restriction_type <;> rfl

theorem fig_SelectionMode (x : V2.SelectionMode) (f : Nat × List Row) (h : figure (.SelectionMode x) = some f) (_ : ∀ r ∈ f.2, r.Fits) :
    Drawn x.marshal f := by
  cases h
  refine drawn rfl ?_
  simp [draw_o1, draw_o2, draw_o3, draw_o4, draw_o5, draw_o6, draw_o8, draw_n1, draw_raw, draw_ip, draw_ip6, draw_lv, draw_bits, spare]

theorem fig_SourceIdentification (x : V2.SourceIdentification) (f : Nat × List Row) (h : figure (.SourceIdentification x) = some f) (hf : ∀ r ∈ f.2, r.Fits) :
    Drawn x.marshal f := by
  obtain ⟨t, l, i, c, s⟩ := x
  cases s with
  | SourceRncId s =>
    cases h
    refine drawn rfl ?_
    have h1 := draw_cell c fun r hr => hf r (by simp [hr])
    have h2 := draw_pl (mcc := s.mcc) (mnc := s.mnc) (three := s.mnc_is_three_digits) (hf _ (by simp))
    simp [h1, draw_n1, h2, draw_o2, SourceType.octets, SourceType.code, SourceRncIdentifier.octets, draw_opt2]
  | SourceCellId s =>
    cases h
    refine drawn rfl ?_
    have h1 := draw_cell c fun r hr => hf r (by simp [hr])
    have h2 := draw_cell s fun r hr => hf r (by simp [hr])
    simp [h1, h2, draw_n1, SourceType.octets, SourceType.code]
  | Spare => cases h

theorem fig_ChangeReportingAction (x : V2.ChangeReportingAction) (f : Nat × List Row) (h : figure (.ChangeReportingAction x) = some f) (_ : ∀ r ∈ f.2, r.Fits) :
    Drawn x.marshal f := by
  cases h
  refine drawn rfl ?_
  simp [draw_o1, draw_o2, draw_o3, draw_o4, draw_o5, draw_o6, draw_o8, draw_n1, draw_raw, draw_ip, draw_ip6, draw_lv]

theorem fig_Fqcsid (x : V2.Fqcsid) (f : Nat × List Row) (h : figure (.Fqcsid x) = some f) (hf : ∀ r ∈ f.2, r.Fits) :
    Drawn x.marshal f := by
  cases h
  refine drawn rfl ?_
  have hl : x.csid.length < 16 := by
    cases hx : x.nodeid <;> rw [hx] at hf
    all_goals exact (hf _ (.head _)).2 (4, x.csid.length) (.tail _ (.head _))
  have key : ∀ n : Fin 16, (UInt8.ofNat n.val &&& 15).toNat = n.val ∧ ((16 : UInt8) ||| (UInt8.ofNat n.val &&& 15)).toNat = 16 + n.val ∧
      ((32 : UInt8) ||| (UInt8.ofNat n.val &&& 15)).toNat = 32 + n.val := by decide +kernel
  obtain ⟨k1, k2, k3⟩ := key ⟨_, hl⟩
  cases hx : x.nodeid <;>
    simp [draw_o1, draw_o2, draw_o3, draw_o4, draw_o5, draw_o6, draw_o8, draw_n1, draw_raw, draw_ip, draw_ip6, draw_lv, draw_bits, draw_o2s, lenU8, k1, k2, k3, hx, - UInt8.toNat_or, - UInt8.toNat_and]

theorem fig_ChannelNeeded (x : V2.ChannelNeeded) (f : Nat × List Row) (h : figure (.ChannelNeeded x) = some f) (_ : ∀ r ∈ f.2, r.Fits) :
    Drawn x.marshal f := by
  cases h
  refine drawn rfl ?_
  simp [draw_o1, draw_o2, draw_o3, draw_o4, draw_o5, draw_o6, draw_o8, draw_n1, draw_raw, draw_ip, draw_ip6, draw_lv]

theorem fig_EmlppPriority (x : V2.EmlppPriority) (f : Nat × List Row) (h : figure (.EmlppPriority x) = some f) (_ : ∀ r ∈ f.2, r.Fits) :
    Drawn x.marshal f := by
  cases h
  refine drawn rfl ?_
  simp [draw_o1, draw_o2, draw_o3, draw_o4, draw_o5, draw_o6, draw_o8, draw_n1, draw_raw, draw_ip, draw_ip6, draw_lv]

theorem fig_NodeType (x : V2.NodeType) (f : Nat × List Row) (h : figure (.NodeType x) = some f) (_ : ∀ r ∈ f.2, r.Fits) :
    Drawn x.marshal f := by
  cases h
  refine drawn rfl ?_
  cases x.node <;> rfl

theorem fig_TransactionIdentifier (x : V2.TransactionIdentifier) (f : Nat × List Row) (h : figure (.TransactionIdentifier x) = some f) (_ : ∀ r ∈ f.2, r.Fits) (hd : deviates (.TransactionIdentifier x) = false) :
    Drawn x.marshal f := by
  cases h
  refine drawn rfl ?_
  have hlt : x.tid.id < 7 := by simpa [deviates] using hd
  have key : ∀ (f : Bool) (i : Fin 7), [(if f then (0x80 : UInt8) else 0x00) ||| ((UInt8.ofNat i.val <<< 4) &&& 0x70)].map UInt8.toNat =
    [bits [flag f, (3, i.val), spare 4]].flatMap draw := by decide +kernel
  have hn : x.tid.id.toNat < 7 := hlt
  have := key x.tid.flag ⟨x.tid.id.toNat, hn⟩
  simp only [if_pos hlt]
  simpa using this

theorem fig_MbmsSa (x : V2.MbmsServiceArea) (f : Nat × List Row) (h : figure (.MbmsSa x) = some f) (_ : ∀ r ∈ f.2, r.Fits) :
    Drawn x.marshal f := by
  obtain ⟨t, l, i, v⟩ := x
  cases v with
  | nil => cases h
  | cons a v =>
    cases h
    refine drawn rfl ?_
    simp [draw_n1, draw_o2, draw_o2s, be16s, be16]

theorem fig_MbmsSd (x : V2.MbmsSessionDuration) (f : Nat × List Row) (h : figure (.MbmsSd x) = some f) (hf : ∀ r ∈ f.2, r.Fits) :
    Drawn x.marshal f := by
  cases h
  refine drawn rfl ?_
  have h1 : (num 2 (x.seconds.toNat / 2)).Fits := hf _ (by simp)
  have h0 : (bits [(1, x.seconds.toNat % 2), (7, x.days.toNat)]).Fits := hf _ (by simp)
  have h3 : x.days.toNat < 2 ^ 7 := h0.2 (7, _) (by simp)
  simp only [Fits] at h1
  rw [packSd (by omega) (by omega)]
  simp [draw, List.range_succ]
  omega

theorem fig_MbmsSessionId (x : V2.MbmsSessionId) (f : Nat × List Row) (h : figure (.MbmsSessionId x) = some f) (_ : ∀ r ∈ f.2, r.Fits) :
    Drawn x.marshal f := by
  cases h
  refine drawn rfl ?_
  simp [draw_o1, draw_o2, draw_o3, draw_o4, draw_o5, draw_o6, draw_o8, draw_n1, draw_raw, draw_ip, draw_ip6, draw_lv]

theorem fig_MbmsFlowId (x : V2.MbmsFlowId) (f : Nat × List Row) (h : figure (.MbmsFlowId x) = some f) (_ : ∀ r ∈ f.2, r.Fits) :
    Drawn x.marshal f := by
  cases h
  refine drawn rfl ?_
  simp [draw_o1, draw_o2, draw_o3, draw_o4, draw_o5, draw_o6, draw_o8, draw_n1, draw_raw, draw_ip, draw_ip6, draw_lv]

theorem fig_MbmsIpMulticastDistribution (x : V2.MbmsIpMulticastDistribution) (f : Nat × List Row) (h : figure (.MbmsIpMulticastDistribution x) = some f) (_ : ∀ r ∈ f.2, r.Fits) :
    Drawn x.marshal f := by
  cases h
  refine drawn rfl ?_
  cases x.ip_multicast_address_1 <;> cases x.ip_multicast_address_2 <;> cases x.mbms_hc <;>
    simp [draw_o1, draw_o2, draw_o3, draw_o4, draw_o5, draw_o6, draw_o8, draw_n1, draw_raw, draw_ip, draw_ip6, draw_lv, draw_bits, ip50, hcCode, MbmsHc.toU8]

theorem fig_MbmsDistributionAck (x : V2.MbmsDistributionAck) (f : Nat × List Row) (h : figure (.MbmsDistributionAck x) = some f) (hf : ∀ r ∈ f.2, r.Fits) :
    Drawn x.marshal f := by
  cases h
  have hb := (hf _ (.head _)).2
  refine drawn rfl ?_
  simp only [List.forall_mem_cons, spare] at hb
  have h2 := hb.2.1
  have h3 : (x.distr_id &&& 3).toNat = x.distr_id.toNat := by
    have : (3 : UInt8).toNat = 2 ^ 2 - 1 := rfl
    rw [UInt8.toNat_and, this, Nat.and_two_pow_sub_one_eq_mod]; omega
  simp [draw_bits, spare, h3, - UInt8.toNat_and]

theorem fig_RfspIndex (x : V2.RfspIndex) (f : Nat × List Row) (h : figure (.RfspIndex x) = some f) (_ : ∀ r ∈ f.2, r.Fits) :
    Drawn x.marshal f := by
  cases h
  refine drawn rfl ?_
  simp [draw_o1, draw_o2, draw_o3, draw_o4, draw_o5, draw_o6, draw_o8, draw_n1, draw_raw, draw_ip, draw_ip6, draw_lv]

theorem fig_Uci (x : V2.Uci) (f : Nat × List Row) (h : figure (.Uci x) = some f) (hf : ∀ r ∈ f.2, r.Fits) :
    Drawn x.marshal f := by
  cases h
  refine drawn rfl ?_
  have h1 : (bits [spare 5, (3, x.csgid.toNat / 16777216)]).Fits := hf _ (by simp)
  have h2 : x.csgid.toNat / 16777216 < 8 := h1.2 (3, _) (by simp)
  have h3 : (x.csgid &&& 0x07ffffff).toNat = x.csgid.toNat := by
    have : (0x07ffffff : UInt32).toNat = 2 ^ 27 - 1 := rfl
    rw [UInt32.toNat_and, this, Nat.and_two_pow_sub_one_eq_mod]; omega
  have e : (bits [(2, accessCode x.access_mode), spare 4, flag x.lcsg, (1, cmiCode x.cmi)]).draw =
      [(Uci.modes x.access_mode x.lcsg x.cmi).toNat] := by
    cases x.access_mode <;> cases x.lcsg <;> cases x.cmi <;> rfl
  simp [draw_pl (mcc := x.mcc) (mnc := x.mnc) (three := x.mnc_is_three_digits) (hf _ (by simp)), e, be32, oct32, h3, - UInt32.toNat_and]
  simp [draw, List.range_succ, spare]
  omega

theorem fig_CSGInformationReportingAction (x : V2.CSGInformationReportingAction) (f : Nat × List Row) (h : figure (.CSGInformationReportingAction x) = some f) (_ : ∀ r ∈ f.2, r.Fits) :
    Drawn x.marshal f := by
  cases h
  refine drawn rfl ?_
  simp [draw_o1, draw_o2, draw_o3, draw_o4, draw_o5, draw_o6, draw_o8, draw_n1, draw_raw, draw_ip, draw_ip6, draw_lv, draw_bits, spare]

theorem fig_CsgId (x : V2.CsgId) (f : Nat × List Row) (h : figure (.CsgId x) = some f) (_ : ∀ r ∈ f.2, r.Fits) :
    Drawn x.marshal f := by
  cases h
  refine drawn rfl ?_
  have := x.csgid.toNat_lt
  simp [draw, List.range_succ, spare, be32, oct32]
  omega

theorem fig_CsgMembershipIndication (x : V2.CsgMembershipIndication) (f : Nat × List Row) (h : figure (.CsgMembershipIndication x) = some f) (_ : ∀ r ∈ f.2, r.Fits) :
    Drawn x.marshal f := by
  cases h
  refine drawn rfl ?_
  cases x.cmi <;> rfl

theorem fig_ServiceIndicator (x : V2.ServiceIndicator) (f : Nat × List Row) (h : figure (.ServiceIndicator x) = some f) (_ : ∀ r ∈ f.2, r.Fits) :
    Drawn x.marshal f := by
  cases h
  refine drawn rfl ?_
  cases x.indicator <;> rfl

theorem fig_DetachType (x : V2.DetachType) (f : Nat × List Row) (h : figure (.DetachType x) = some f) (_ : ∀ r ∈ f.2, r.Fits) :
    Drawn x.marshal f := by
  cases h
  refine drawn rfl ?_
  cases x.detach_type <;> rfl

theorem fig_Ldn (x : V2.Ldn) (f : Nat × List Row) (h : figure (.Ldn x) = some f) (_ : ∀ r ∈ f.2, r.Fits) :
    Drawn x.marshal f := by
  cases h
  exact drawn rfl (by simp [draw_raw, text, utf8])

theorem fig_NodeFeatures (x : V2.NodeFeatures) (f : Nat × List Row) (h : figure (.NodeFeatures x) = some f) (_ : ∀ r ∈ f.2, r.Fits) :
    Drawn x.marshal f := by
  cases h
  refine drawn rfl ?_
  have key : ∀ a b c d e f g h : Bool, [NodeFeatures.flags h g f e d c b a].map UInt8.toNat =
      [bits [flag a, flag b, flag c, flag d, flag e, flag f, flag g, flag h]].flatMap draw := by decide +kernel
  exact key ..

theorem fig_MbmsTimeToDataTransfer (x : V2.MbmsTimeToDataTransfer) (f : Nat × List Row) (h : figure (.MbmsTimeToDataTransfer x) = some f) (_ : ∀ r ∈ f.2, r.Fits) :
    Drawn x.marshal f := by
  cases h
  refine drawn rfl ?_
  simp [draw_o1, draw_o2, draw_o3, draw_o4, draw_o5, draw_o6, draw_o8, draw_n1, draw_raw, draw_ip, draw_ip6, draw_lv]

theorem fig_Throttling (x : V2.Throttling) (f : Nat × List Row) (h : figure (.Throttling x) = some f) (hf : ∀ r ∈ f.2, r.Fits) :
    Drawn x.marshal f := by
  cases h
  have hb := (hf _ (.head _)).2
  refine drawn rfl ?_
  simp only [List.forall_mem_cons] at hb
  simp [draw_bits, draw_o1, draw_o2, draw_o3, draw_o4, draw_o5, draw_o6, draw_o8, draw_n1, draw_raw, draw_ip, draw_ip6, draw_lv, pack_throttling hb.1 hb.2.1, - UInt8.toNat_or, - UInt8.toNat_shiftLeft]

theorem fig_Arp (x : V2.Arp) (f : Nat × List Row) (h : figure (.Arp x) = some f) (hf : ∀ r ∈ f.2, r.Fits) :
    Drawn x.marshal f := by
  cases h
  have hb := (hf _ (.head _)).2
  refine drawn rfl ?_
  simp only [List.forall_mem_cons, spare] at hb
  simp [draw_bits, spare, flag, pack_arp hb.2.2.1]

theorem fig_EpcTimer (x : V2.EpcTimer) (f : Nat × List Row) (h : figure (.EpcTimer x) = some f) (hf : ∀ r ∈ f.2, r.Fits) :
    Drawn x.marshal f := by
  cases h
  have hb := (hf _ (.head _)).2
  refine drawn rfl ?_
  simp only [List.forall_mem_cons] at hb
  simp [draw_bits, pack_timer hb.1 hb.2.1]

theorem fig_Spi (x : V2.Spi) (f : Nat × List Row) (h : figure (.Spi x) = some f) (_ : ∀ r ∈ f.2, r.Fits) :
    Drawn x.marshal f := by
  cases h
  refine drawn rfl ?_
  cases x.lapi <;> rfl

theorem fig_Tmgi (x : V2.Tmgi) (f : Nat × List Row) (h : figure (.Tmgi x) = some f) (_ : ∀ r ∈ f.2, r.Fits) :
    Drawn x.marshal f := by
  cases h
  refine drawn rfl ?_
  simp [draw_o1, draw_o2, draw_o3, draw_o4, draw_o5, draw_o6, draw_o8, draw_n1, draw_raw, draw_ip, draw_ip6, draw_lv]

theorem fig_AdditionalMmContextForSrvcc (x : V2.AdditionalMmContextForSrvcc) (f : Nat × List Row) (h : figure (.AdditionalMmContextForSrvcc x) = some f) (_ : ∀ r ∈ f.2, r.Fits) :
    Drawn x.marshal f := by
  cases h
  refine drawn rfl ?_
  simp [draw_lvo, AdditionalMmContextForSrvcc.body]

theorem fig_AdditionalFlagsSrvcc (x : V2.AdditionalFlagsSrvcc) (f : Nat × List Row) (h : figure (.AdditionalFlagsSrvcc x) = some f) (_ : ∀ r ∈ f.2, r.Fits) :
    Drawn x.marshal f := by
  cases h
  refine drawn rfl ?_
  cases x.ics <;> cases x.vf <;> rfl

theorem fig_MdtConfiguration (x : V2.MdtConfiguration) (f : Nat × List Row) (h : figure (.MdtConfiguration x) = some f) (hf : ∀ r ∈ f.2, r.Fits) :
    Drawn x.marshal f := by
  cases h
  refine drawn rfl ?_
  obtain ⟨t, l, i, j, lm, rt, ri, ra, rp, rq, sc, c, m, p, ps⟩ := x
  have ej : (num 1 (jobCode j)).draw = [j.toU8.toNat] := by cases j <;> rfl
  cases ps with
  | none => cases c <;> cases m <;> cases p <;> simp [draw_o1, draw_o2, draw_o3, draw_o4, draw_o5, draw_o6, draw_o8, draw_n1, draw_raw, draw_ip, draw_ip6, draw_lv, ej, draw_bits, spare, flag, opt, draw_lvo, MdtConfiguration.body, mdtFlags, optEnc]
  | some ps =>
    have := draws_mdt ps fun r hr => hf r (List.mem_append_right _ (.tail _ hr))
    cases c <;> cases m <;> cases p <;> simp [draw_o1, draw_o2, draw_o3, draw_o4, draw_o5, draw_o6, draw_o8, draw_n1, draw_raw, draw_ip, draw_ip6, draw_lv, ej, draw_bits, spare, flag, opt, draw_lvo, MdtConfiguration.body, mdtFlags, optEnc, this]

theorem fig_Apco (x : V2.Apco) (f : Nat × List Row) (h : figure (.Apco x) = some f) (_ : ∀ r ∈ f.2, r.Fits) :
    Drawn x.marshal f := by
  cases h
  refine drawn rfl ?_
  simp [draw_o1, draw_o2, draw_o3, draw_o4, draw_o5, draw_o6, draw_o8, draw_n1, draw_raw, draw_ip, draw_ip6, draw_lv]

theorem fig_AbsoluteTimeMbmsDataTransfer (x : V2.AbsoluteTimeMbmsDataTransfer) (f : Nat × List Row) (h : figure (.AbsoluteTimeMbmsDataTransfer x) = some f) (_ : ∀ r ∈ f.2, r.Fits) :
    Drawn x.marshal f := by
  cases h
  refine drawn rfl ?_
  simp [draw_o1, draw_o2, draw_o3, draw_o4, draw_o5, draw_o6, draw_o8, draw_n1, draw_raw, draw_ip, draw_ip6, draw_lv]

theorem fig_HenbInfoReporting (x : V2.HenbInfoReporting) (f : Nat × List Row) (h : figure (.HenbInfoReporting x) = some f) (_ : ∀ r ∈ f.2, r.Fits) :
    Drawn x.marshal f := by
  cases h
  refine drawn rfl ?_
  cases x.fti <;> rfl

theorem fig_Ip4Cp (x : V2.Ip4Cp) (f : Nat × List Row) (h : figure (.Ip4Cp x) = some f) (_ : ∀ r ∈ f.2, r.Fits) :
    Drawn x.marshal f := by
  cases h
  refine drawn rfl ?_
  simp [draw_o1, draw_o2, draw_o3, draw_o4, draw_o5, draw_o6, draw_o8, draw_n1, draw_raw, draw_ip, draw_ip6, draw_lv]

theorem fig_ChangeToReportFlags (x : V2.ChangeToReportFlags) (f : Nat × List Row) (h : figure (.ChangeToReportFlags x) = some f) (_ : ∀ r ∈ f.2, r.Fits) :
    Drawn x.marshal f := by
  cases h
  refine drawn rfl ?_
  cases x.tzcr <;> cases x.sncr <;> rfl

theorem fig_ActionIndication (x : V2.ActionIndication) (f : Nat × List Row) (h : figure (.ActionIndication x) = some f) (_ : ∀ r ∈ f.2, r.Fits) :
    Drawn x.marshal f := by
  cases h
  refine drawn rfl ?_
  cases x.indication <;> rfl

theorem fig_TwanId (x : V2.TwanId) (f : Nat × List Row) (h : figure (.TwanId x) = some f) (hf : ∀ r ∈ f.2, r.Fits) :
    Drawn x.marshal f := by
  cases h
  refine drawn rfl ?_
  obtain ⟨t, l, i, ss, b, c, p, o, r, k⟩ := x
  have e : ∀ a b c d e, (bits [spare 3, flag a, flag b, flag c, flag d, flag e]).draw = [(TwanId.flags a b c d e).toNat] := by decide +kernel
  have hp : ∀ q, p = some q → (pl q.1 q.2.1 q.2.2).draw = (mccMncEncode q.1 q.2.1 q.2.2).map UInt8.toNat :=
    fun q hq => draw_pl (hf _ (by simp [opt, hq]))
  simp only [List.flatMap_append, List.flatMap_cons, List.flatMap_nil, e, draw_lv, TwanId.body]
  have e1 : (opt b fun b => [raw b]).flatMap draw = (optEnc id b).map UInt8.toNat := by cases b <;> simp [opt, optEnc, draw_raw]
  have e2 : ∀ v, (opt v lv).flatMap draw = (optEnc (fun i => lenU8 i :: i) v).map UInt8.toNat := by intro v; cases v <;> simp [opt, optEnc, draw_lv]
  have e3 : (opt p fun p => [pl p.1 p.2.1 p.2.2]).flatMap draw = (optEnc (fun p => mccMncEncode p.1 p.2.1 p.2.2) p).map UInt8.toNat := by
    cases p with
    | none => rfl
    | some q => simp [opt, optEnc, hp q rfl]
  have e4 : (opt o fun s => lv (text s)).flatMap draw = (optEnc (fun i => lenU8 (utf8 i) :: utf8 i) o).map UInt8.toNat := by
    cases o <;> simp [opt, optEnc, draw_lv, text, utf8]
  have e5 : (opt r fun r => o1 r.1 :: lv r.2).flatMap draw = (optEnc (fun i => i.1 :: lenU8 i.2 :: i.2) r).map UInt8.toNat := by
    cases r <;> simp [opt, optEnc, draw_lv, draw_o1]
  rw [e1, e2, e3, e4, e5, e2]
  simp

theorem fig_UliTimestamp (x : V2.UliTimestamp) (f : Nat × List Row) (h : figure (.UliTimestamp x) = some f) (_ : ∀ r ∈ f.2, r.Fits) :
    Drawn x.marshal f := by
  cases h
  refine drawn rfl ?_
  simp [draw_o1, draw_o2, draw_o3, draw_o4, draw_o5, draw_o6, draw_o8, draw_n1, draw_raw, draw_ip, draw_ip6, draw_lv]

theorem fig_MbmsFlags (x : V2.MbmsFlags) (f : Nat × List Row) (h : figure (.MbmsFlags x) = some f) (_ : ∀ r ∈ f.2, r.Fits) :
    Drawn x.marshal f := by
  cases h
  refine drawn rfl ?_
  cases x.msri <;> cases x.lmri <;> rfl

theorem fig_RanNasCause (x : V2.RanNasCause) (f : Nat × List Row) (h : figure (.RanNasCause x) = some f) (_ : ∀ r ∈ f.2, r.Fits) :
    Drawn x.marshal f := by
  obtain ⟨_, _, _, v⟩ := x
  rcases v with v | _ | _ | _ | _ | _
  · cases v <;> cases h <;> exact drawn rfl (by simp [draw_o1, draw_o2, draw_o3, draw_o4, draw_o5, draw_o6, draw_o8, draw_n1, draw_raw, draw_ip, draw_ip6, draw_lv, draw_bits, spare, CauseValue.octets, S1APCause.to_u8])
  all_goals cases h <;> exact drawn rfl (by simp [draw_o1, draw_o2, draw_o3, draw_o4, draw_o5, draw_o6, draw_o8, draw_n1, draw_raw, draw_ip, draw_ip6, draw_lv, draw_bits, spare, CauseValue.octets])

theorem fig_CnOperatorSelectionEntity (x : V2.CnOperatorSelectionEntity) (f : Nat × List Row) (h : figure (.CnOperatorSelectionEntity x) = some f) (_ : ∀ r ∈ f.2, r.Fits) :
    Drawn x.marshal f := by
  cases h
  refine drawn rfl ?_
  cases x.selection_entity <;> rfl

theorem fig_Twmi (x : V2.Twmi) (f : Nat × List Row) (h : figure (.Twmi x) = some f) (_ : ∀ r ∈ f.2, r.Fits) :
    Drawn x.marshal f := by
  cases h
  refine drawn rfl ?_
  cases x.mcm <;> cases x.scm <;> rfl

theorem fig_NodeIdentifier (x : V2.NodeIdentifier) (f : Nat × List Row) (h : figure (.NodeIdentifier x) = some f) (_ : ∀ r ∈ f.2, r.Fits) :
    Drawn x.marshal f := by
  cases h
  exact drawn rfl (by simp [draw_lv, text, utf8])

theorem fig_PresenceReportingAreaAction (x : V2.PresenceReportingAreaAction) (f : Nat × List Row) (h : figure (.PresenceReportingAreaAction x) = some f) (hf : ∀ r ∈ f.2, r.Fits) (hd : deviates (.PresenceReportingAreaAction x) = false) :
    Drawn x.marshal f := by
  cases h
  refine drawn rfl ?_
  obtain ⟨t, l, i, ina, act, pr, ta, ra, ma, ho, ec, sa, cg, ex⟩ := x
  have hh : ho = [] := by simpa [deviates] using hd
  subst hh
  have f1 : (bits [spare 4, flag ina, (3, act.toNat)]).Fits := hf _ (by simp)
  have f2 : (bits [(4, ta.length), (4, ra.length)]).Fits := hf _ (by simp)
  have f3 : (bits [spare 2, (6, ma.length)]).Fits := hf _ (by simp)
  have f4 : (bits [spare 2, (6, ec.length)]).Fits := hf _ (by simp)
  have f5 : (bits [spare 2, (6, sa.length)]).Fits := hf _ (by simp)
  have f6 : (bits [spare 2, (6, cg.length)]).Fits := hf _ (by simp)
  have f7 : (bits [spare 2, (6, ex.length)]).Fits := hf _ (by simp)
  have g1 : act.toNat < 8 := f1.2 (3, _) (by simp)
  have g2 : ta.length < 16 := f2.2 (4, ta.length) (by simp)
  have g2' : ra.length < 16 := f2.2 (4, ra.length) (by simp)
  have g3 : ma.length < 64 := f3.2 (6, _) (by simp)
  have g4 : ec.length < 64 := f4.2 (6, _) (by simp)
  have g5 : sa.length < 64 := f5.2 (6, _) (by simp)
  have g6 : cg.length < 64 := f6.2 (6, _) (by simp)
  have g7 : ex.length < 64 := f7.2 (6, _) (by simp)
  have d1 := draws_tai ta fun r hr => hf r (by simp [hr])
  have d2 := draws_macro ma fun r hr => hf r (by simp [hr])
  have d3 := draws_ecgi ec fun r hr => hf r (by simp [hr])
  have d4 := draws_rai ra fun r hr => hf r (by simp [hr])
  have d5 := draws_sai sa fun r hr => hf r (by simp [hr])
  have d6 := draws_cgi cg fun r hr => hf r (by simp [hr])
  have d7 := draws_ext ex fun r hr => hf r (by simp [hr])
  have cap6 : ∀ {α : Type} (l : List α), l.length < 64 → (bits [spare 2, (6, l.length)]).draw = [(PresenceReportingAreaAction.capLen l 63).toNat] := by
    intro α l h
    simp [draw_bits, spare, PresenceReportingAreaAction.capLen]; omega
  have capz : (bits [spare 2, (6, ([] : List MacroEnbId).length)]).draw = [(PresenceReportingAreaAction.capLen ([] : List MacroEnbId) 63).toNat] :=
    cap6 [] (by simp)
  have cap4 : (bits [(4, ta.length), (4, ra.length)]).draw =
      [((PresenceReportingAreaAction.capLen ta 15 <<< 4) ||| PresenceReportingAreaAction.capLen ra 15).toNat] := by
    have key : ∀ a b : Fin 16, a.val * 16 + b.val = ((UInt8.ofNat a.val <<< 4) ||| UInt8.ofNat b.val).toNat := by decide +kernel
    have := key ⟨_, g2⟩ ⟨_, g2'⟩
    have m1 : min ta.length 15 = ta.length := by omega
    have m2 : min ra.length 15 = ra.length := by omega
    simp only [PresenceReportingAreaAction.capLen, m1, m2, ← this]
    simp [draw_bits]
  have act' : (bits [spare 4, flag ina, (3, act.toNat)]).draw = [(if ina then 0x08 ||| act else act).toNat] := by
    cases ina
    · simp [draw_bits, spare, flag]
    · simp [draw_bits, spare, flag, or_low (k := 3) 8 g1 (by decide), - UInt8.toNat_or]
  simp only [List.flatMap_append, List.flatMap_cons, List.flatMap_nil, d1, d2, d3, d4, d5, d6, d7, act', cap4, capz, draw_o3,
    cap6 _ g3, cap6 _ g4, cap6 _ g5, cap6 _ g6, cap6 _ g7]
  simp [List.take_of_length_le (show ta.length ≤ 15 by omega), List.take_of_length_le (show ra.length ≤ 15 by omega),
    List.take_of_length_le (show ma.length ≤ 63 by omega), List.take_of_length_le (show ec.length ≤ 63 by omega),
    List.take_of_length_le (show sa.length ≤ 63 by omega), List.take_of_length_le (show cg.length ≤ 63 by omega),
    List.take_of_length_le (show ex.length ≤ 63 by omega), - UInt8.toNat_or]

theorem fig_PresenceReportingAreaInformation (x : V2.PresenceReportingAreaInformation) (f : Nat × List Row) (h : figure (.PresenceReportingAreaInformation x) = some f) (_ : ∀ r ∈ f.2, r.Fits) :
    Drawn x.marshal f := by
  cases h
  refine drawn rfl ?_
  obtain ⟨t, l, i, p, a⟩ := x
  cases a with
  | none => simp [areasFig, draw_area_last]
  | some l => simp [draw_areas]

theorem fig_TwanIdTimeStamp (x : V2.TwanIdTimeStamp) (f : Nat × List Row) (h : figure (.TwanIdTimeStamp x) = some f) (_ : ∀ r ∈ f.2, r.Fits) :
    Drawn x.marshal f := by
  cases h
  refine drawn rfl ?_
  simp [draw_o1, draw_o2, draw_o3, draw_o4, draw_o5, draw_o6, draw_o8, draw_n1, draw_raw, draw_ip, draw_ip6, draw_lv]

theorem fig_Metric (x : V2.Metric) (f : Nat × List Row) (h : figure (.Metric x) = some f) (_ : ∀ r ∈ f.2, r.Fits) :
    Drawn x.marshal f := by
  cases h
  refine drawn rfl ?_
  simp [draw_o1, draw_o2, draw_o3, draw_o4, draw_o5, draw_o6, draw_o8, draw_n1, draw_raw, draw_ip, draw_ip6, draw_lv]

theorem fig_Sqn (x : V2.Sqn) (f : Nat × List Row) (h : figure (.Sqn x) = some f) (_ : ∀ r ∈ f.2, r.Fits) :
    Drawn x.marshal f := by
  cases h
  refine drawn rfl ?_
  simp [draw_o1, draw_o2, draw_o3, draw_o4, draw_o5, draw_o6, draw_o8, draw_n1, draw_raw, draw_ip, draw_ip6, draw_lv]

theorem fig_WlanOffloadIndication (x : V2.WlanOffloadIndication) (f : Nat × List Row) (h : figure (.WlanOffloadIndication x) = some f) (_ : ∀ r ∈ f.2, r.Fits) :
    Drawn x.marshal f := by
  cases h
  refine drawn rfl ?_
  cases x.eutran_ind <;> cases x.utran_ind <;> rfl

theorem fig_PagingServiceInfo (x : V2.PagingServiceInfo) (f : Nat × List Row) (h : figure (.PagingServiceInfo x) = some f) (_ : ∀ r ∈ f.2, r.Fits) :
    Drawn x.marshal f := by
  cases h
  refine drawn rfl ?_
  cases x.paging_policy <;> simp [draw_o1, draw_o2, draw_o3, draw_o4, draw_o5, draw_o6, draw_o8, draw_n1, draw_raw, draw_ip, draw_ip6, draw_lv, draw_bits, spare, flag, opt]

theorem fig_IntegerNumber (x : V2.IntegerNumber) (f : Nat × List Row) (h : figure (.IntegerNumber x) = some f) (_ : ∀ r ∈ f.2, r.Fits) :
    Drawn x.marshal f := by
  cases h
  refine drawn rfl ?_
  simp [draw_o1, draw_o2, draw_o3, draw_o4, draw_o5, draw_o6, draw_o8, draw_n1, draw_raw, draw_ip, draw_ip6, draw_lv]

theorem fig_MilliSecondTimeStamp (x : V2.MilliSecondTimeStamp) (f : Nat × List Row) (h : figure (.MilliSecondTimeStamp x) = some f) (_ : ∀ r ∈ f.2, r.Fits) :
    Drawn x.marshal f := by
  cases h
  refine drawn rfl ?_
  simp [draw_o1, draw_o2, draw_o3, draw_o4, draw_o5, draw_o6, draw_o8, draw_n1, draw_raw, draw_ip, draw_ip6, draw_lv]

theorem fig_EcgiList (x : V2.EcgiList) (f : Nat × List Row) (h : figure (.EcgiList x) = some f) (hf : ∀ r ∈ f.2, r.Fits) :
    Drawn x.marshal f := by
  cases h
  refine drawn rfl ?_
  obtain ⟨t, l, i, v⟩ := x
  cases v with
  | none => simp [draw, List.range_succ]
  | some v =>
    have := draws_ecgi v fun r hr => hf r (by simp at hr ⊢; exact .inr hr)
    simp [this, draw, List.range_succ, be16, hi16, lo16, lenU16]
    omega

theorem fig_RemoteUserId (x : V2.RemoteUserId) (f : Nat × List Row) (h : figure (.RemoteUserId x) = some f) (hf : ∀ r ∈ f.2, r.Fits) :
    Drawn x.marshal f := by
  cases h
  refine drawn rfl ?_
  obtain ⟨t, l, i, s, m, e⟩ := x
  have h1 : (digits s).Fits := hf _ (by simp)
  have h2 : ∀ s, (digits s).Fits → (num 1 ((s.length + 1) / 2)).draw = [(lenU8 (tbcdEncode s)).toNat] := by
    intro s hs; simp [draw_n1, lenU8, C04_tbcd_length s hs]
  cases m <;> cases e
  · simp [RemoteUserId.lv, draw_bits, spare, flag, opt, h2 s h1, draw_digits h1]
  · rename_i e
    have h3 : (digits e).Fits := hf _ (by simp [opt])
    simp [RemoteUserId.lv, draw_bits, spare, flag, opt, h2 s h1, draw_digits h1, h2 e h3, draw_digits h3]
  · rename_i e
    have h3 : (digits e).Fits := hf _ (by simp [opt])
    simp [RemoteUserId.lv, draw_bits, spare, flag, opt, h2 s h1, draw_digits h1, h2 e h3, draw_digits h3]
  · rename_i e f
    have h3 : (digits e).Fits := hf _ (by simp [opt])
    have h4 : (digits f).Fits := hf _ (by simp [opt])
    simp [RemoteUserId.lv, draw_bits, spare, flag, opt, h2 s h1, draw_digits h1, h2 e h3, draw_digits h3, h2 f h4, draw_digits h4]

theorem fig_CIoTOptimizationSupportIndication (x : V2.CIoTOptimizationSupportIndication) (f : Nat × List Row) (h : figure (.CIoTOptimizationSupportIndication x) = some f) (_ : ∀ r ∈ f.2, r.Fits) :
    Drawn x.marshal f := by
  cases h
  refine drawn rfl ?_
  cases x.sgnipdn <;> cases x.scnipdn <;> cases x.awopdn <;> cases x.ihcsi <;> rfl

theorem fig_Epco (x : V2.Epco) (f : Nat × List Row) (h : figure (.Epco x) = some f) (_ : ∀ r ∈ f.2, r.Fits) :
    Drawn x.marshal f := by
  cases h
  refine drawn rfl ?_
  simp [draw_o1, draw_o2, draw_o3, draw_o4, draw_o5, draw_o6, draw_o8, draw_n1, draw_raw, draw_ip, draw_ip6, draw_lv]

theorem fig_ServingPlmnRateControl (x : V2.ServingPlmnRateControl) (f : Nat × List Row) (h : figure (.ServingPlmnRateControl x) = some f) (_ : ∀ r ∈ f.2, r.Fits) :
    Drawn x.marshal f := by
  cases h
  refine drawn rfl ?_
  simp [draw_o1, draw_o2, draw_o3, draw_o4, draw_o5, draw_o6, draw_o8, draw_n1, draw_raw, draw_ip, draw_ip6, draw_lv]

theorem fig_Counter (x : V2.Counter) (f : Nat × List Row) (h : figure (.Counter x) = some f) (_ : ∀ r ∈ f.2, r.Fits) :
    Drawn x.marshal f := by
  cases h
  refine drawn rfl ?_
  simp [draw_o1, draw_o2, draw_o3, draw_o4, draw_o5, draw_o6, draw_o8, draw_n1, draw_raw, draw_ip, draw_ip6, draw_lv]

theorem fig_MappedUeUsageType (x : V2.MappedUeUsageType) (f : Nat × List Row) (h : figure (.MappedUeUsageType x) = some f) (_ : ∀ r ∈ f.2, r.Fits) :
    Drawn x.marshal f := by
  cases h
  refine drawn rfl ?_
  simp [draw_o1, draw_o2, draw_o3, draw_o4, draw_o5, draw_o6, draw_o8, draw_n1, draw_raw, draw_ip, draw_ip6, draw_lv]

theorem fig_SecondaryRatUsageDataReport (x : V2.SecondaryRatUsageDataReport) (f : Nat × List Row) (h : figure (.SecondaryRatUsageDataReport x) = some f) (_ : ∀ r ∈ f.2, r.Fits) :
    Drawn x.marshal f := by
  cases h
  refine drawn rfl ?_
  have e' : ∀ a b c, ((flag a).2 * 2 ^ (flag b).1 + (flag b).2) * 2 ^ (flag c).1 + (flag c).2 = (SecondaryRatUsageDataReport.flags a b c).toNat := by decide +kernel
  cases x.second_rat_dur_tansfer <;> simp [draw_o1, draw_o2, draw_o3, draw_o4, draw_o5, draw_o6, draw_o8, draw_n1, draw_raw, draw_ip, draw_ip6, draw_lv, opt, spare, draw_bits, ← e']

theorem fig_UpFunctionSelectionIndicationFlags (x : V2.UpFunctionSelectionIndicationFlags) (f : Nat × List Row) (h : figure (.UpFunctionSelectionIndicationFlags x) = some f) (_ : ∀ r ∈ f.2, r.Fits) :
    Drawn x.marshal f := by
  cases h
  refine drawn rfl ?_
  cases x.dcnr <;> rfl

theorem fig_MaxPacketLossRate (x : V2.MaxPacketLossRate) (f : Nat × List Row) (h : figure (.MaxPacketLossRate x) = some f) (_ : ∀ r ∈ f.2, r.Fits) :
    Drawn x.marshal f := by
  cases h
  refine drawn rfl ?_
  cases x.max_packet_loss_dl <;> cases x.max_packet_loss_ul <;> simp [draw_o1, draw_o2, draw_o3, draw_o4, draw_o5, draw_o6, draw_o8, draw_n1, draw_raw, draw_ip, draw_ip6, draw_lv, draw_bits, spare, flag, opt]

theorem fig_ApnRateControlStatus (x : V2.ApnRateControlStatus) (f : Nat × List Row) (h : figure (.ApnRateControlStatus x) = some f) (_ : ∀ r ∈ f.2, r.Fits) :
    Drawn x.marshal f := by
  cases h
  refine drawn rfl ?_
  simp [draw_o1, draw_o2, draw_o3, draw_o4, draw_o5, draw_o6, draw_o8, draw_n1, draw_raw, draw_ip, draw_ip6, draw_lv]

theorem fig_ExtendedTraceInformation (x : V2.ExtendedTraceInformation) (f : Nat × List Row) (h : figure (.ExtendedTraceInformation x) = some f) (hf : ∀ r ∈ f.2, r.Fits) :
    Drawn x.marshal f := by
  cases h
  refine drawn rfl ?_
  have e : [ipSize x.trace_collection_ip % 256] = [UInt8.ofNat x.trace_collection_ip.size].map UInt8.toNat := by
    cases x.trace_collection_ip <;> rfl
  simp only [List.flatMap_append, List.flatMap_cons, List.flatMap_nil, draw_pl (mcc := x.mcc) (mnc := x.mnc) (three := x.mnc_is_three_digits) (hf _ (by simp)), draw_o1, draw_o2, draw_o3, draw_o4, draw_o5, draw_o6, draw_o8, draw_n1, draw_raw, draw_ip, draw_ip6, draw_lv, e]
  simp

theorem fig_MonitoringEventExtensionInfo (x : V2.MonitoringEventExtensionInfo) (f : Nat × List Row) (h : figure (.MonitoringEventExtensionInfo x) = some f) (_ : ∀ r ∈ f.2, r.Fits) :
    Drawn x.marshal f := by
  cases h
  refine drawn rfl ?_
  cases x.rmplrt <;> cases x.ext_scef_ref_id <;> simp [draw_o1, draw_o2, draw_o3, draw_o4, draw_o5, draw_o6, draw_o8, draw_n1, draw_raw, draw_ip, draw_ip6, draw_lv, draw_bits, spare, flag, opt, b2u, text, utf8]

theorem fig_AdditionalRrmPolicyIndex (x : V2.AdditionalRrmPolicyIndex) (f : Nat × List Row) (h : figure (.AdditionalRrmPolicyIndex x) = some f) (_ : ∀ r ∈ f.2, r.Fits) :
    Drawn x.marshal f := by
  cases h
  refine drawn rfl ?_
  simp [draw_o1, draw_o2, draw_o3, draw_o4, draw_o5, draw_o6, draw_o8, draw_n1, draw_raw, draw_ip, draw_ip6, draw_lv]

theorem fig_ServicesAuthorized (x : V2.ServicesAuthorized) (f : Nat × List Row) (h : figure (.ServicesAuthorized x) = some f) (_ : ∀ r ∈ f.2, r.Fits) :
    Drawn x.marshal f := by
  cases h
  refine drawn rfl ?_
  cases x.vehicle_ue_auth <;> cases x.pedestrian_ue_auth <;> rfl

theorem fig_BitRate (x : V2.BitRate) (f : Nat × List Row) (h : figure (.BitRate x) = some f) (_ : ∀ r ∈ f.2, r.Fits) :
    Drawn x.marshal f := by
  cases h
  refine drawn rfl ?_
  simp [draw_o1, draw_o2, draw_o3, draw_o4, draw_o5, draw_o6, draw_o8, draw_n1, draw_raw, draw_ip, draw_ip6, draw_lv]

theorem fig_PC5QosFlow (x : V2.PC5QosFlow) (f : Nat × List Row) (h : figure (.PC5QosFlow x) = some f) (_ : ∀ r ∈ f.2, r.Fits) :
    Drawn x.marshal f := by
  cases h
  refine drawn rfl ?_
  cases x.range <;> simp [draw_o1, draw_o2, draw_o3, draw_o4, draw_o5, draw_o6, draw_o8, draw_n1, draw_raw, draw_ip, draw_ip6, draw_lv, draw_bits, spare, flag, opt, b2u]

theorem fig_SgiPtpTunnelAddress (x : V2.SgiPtpTunnelAddress) (f : Nat × List Row) (h : figure (.SgiPtpTunnelAddress x) = some f) (_ : ∀ r ∈ f.2, r.Fits) :
    Drawn x.marshal f := by
  cases h
  refine drawn rfl ?_
  cases x.ip <;> cases x.port <;> simp [draw_o1, draw_o2, draw_o3, draw_o4, draw_o5, draw_o6, draw_o8, draw_n1, draw_raw, draw_ip, draw_ip6, draw_lv, draw_bits, spare, flag, opt]

theorem fig_GroupId (x : V2.GroupId) (f : Nat × List Row) (h : figure (.GroupId x) = some f) (_ : ∀ r ∈ f.2, r.Fits) :
    Drawn x.marshal f := by
  cases h
  refine drawn rfl ?_
  simp [draw_o1, draw_o2, draw_o3, draw_o4, draw_o5, draw_o6, draw_o8, draw_n1, draw_raw, draw_ip, draw_ip6, draw_lv]

theorem fig_PSCellId (x : V2.PSCellId) (f : Nat × List Row) (h : figure (.PSCellId x) = some f) (hf : ∀ r ∈ f.2, r.Fits) :
    Drawn x.marshal f := by
  cases h
  refine drawn rfl ?_
  simp [draw_pl (mcc := x.mcc) (mnc := x.mnc) (three := x.mnc_is_three_digits) (hf _ (by simp)), draw_o1, draw_o2, draw_o3, draw_o4, draw_o5, draw_o6, draw_o8, draw_n1, draw_raw, draw_ip, draw_ip6, draw_lv]

theorem fig_UpSecurityPolicy (x : V2.UpSecurityPolicy) (f : Nat × List Row) (h : figure (.UpSecurityPolicy x) = some f) (_ : ∀ r ∈ f.2, r.Fits) :
    Drawn x.marshal f := by
  cases h
  refine drawn rfl ?_
  cases x.up_ip_policy <;> rfl

theorem fig_AlternativeImsi (x : V2.AlternativeImsi) (f : Nat × List Row) (h : figure (.AlternativeImsi x) = some f) (hf : ∀ r ∈ f.2, r.Fits) :
    Drawn x.marshal f := by
  cases h
  refine drawn rfl ?_
  simp [draw_digits (hf _ (.head _))]

theorem fig_SpecialIEWithTypeExt (x : V2.SpecialIEWithTypeExt) (f : Nat × List Row) (h : figure (.SpecialIEWithTypeExt x) = some f) (_ : ∀ r ∈ f.2, r.Fits) :
    Drawn x.marshal f := by
  cases h
  refine drawn rfl ?_
  simp [draw_o1, draw_o2, draw_o3, draw_o4, draw_o5, draw_o6, draw_o8, draw_n1, draw_raw, draw_ip, draw_ip6, draw_lv]

theorem fig_PrivateExtension (x : V2.PrivateExtension) (f : Nat × List Row) (h : figure (.PrivateExtension x) = some f) (_ : ∀ r ∈ f.2, r.Fits) :
    Drawn x.marshal f := by
  cases h
  refine drawn rfl ?_
  simp [draw_o1, draw_o2, draw_o3, draw_o4, draw_o5, draw_o6, draw_o8, draw_n1, draw_raw, draw_ip, draw_ip6, draw_lv]

theorem fig_HeaderCompressionConfiguration (x : V2.HeaderCompressionConfiguration) (f : Nat × List Row) (h : figure (.HeaderCompressionConfiguration x) = some f) (_ : ∀ r ∈ f.2, r.Fits) :
    Drawn x.marshal f := by
  cases h
  refine drawn rfl ?_
  have e : (bits [spare 8]).draw = [0] := rfl
  rw [profileBits_eq]
  have e2 : ∀ a b c d e f g, (bits [spare 1, flag a, flag b, flag c, flag d, flag e, flag f, flag g]).draw = [(oct8 false a b c d e f g).toNat] := by
    decide +kernel
  simp only [List.flatMap_cons, List.flatMap_nil, e, e2, draw_o2]
  simp

theorem fig_Apn (x : V2.Apn) (f : Nat × List Row) (h : figure (.Apn x) = some f) (_ : ∀ r ∈ f.2, r.Fits) :
    Drawn x.marshal f := by
  cases h
  exact drawn rfl (draw_name x.name).symm

theorem fig_Fqdn (x : V2.Fqdn) (f : Nat × List Row) (h : figure (.Fqdn x) = some f) (_ : ∀ r ∈ f.2, r.Fits) :
    Drawn x.marshal f := by
  cases h
  exact drawn rfl (draw_name x.name).symm

theorem fig_PgwFqdn (x : V2.PgwFqdn) (f : Nat × List Row) (h : figure (.PgwFqdn x) = some f) (_ : ∀ r ∈ f.2, r.Fits) :
    Drawn x.marshal f := by
  cases h
  exact drawn rfl (draw_name x.name).symm

theorem fig_Uli (x : V2.Uli) (f : Nat × List Row) (h : figure (.Uli x) = some f) (hf : ∀ r ∈ f.2, r.Fits) (hd : deviates (.Uli x) = false) :
    Drawn x.marshal f := by
  simp only [figure] at h
  split at h
  · cases h
    rename_i hk
    have ht : x.t = 86 := by simpa [deviates] using hd
    obtain ⟨t, l, i, v⟩ := x
    subst ht
    refine drawn rfl ?_
    rw [uli_body v hk]
    have d1 := draws_cgi (cgis v) fun r hr => hf r (by simp only [uliFig, List.mem_append]; simp [hr])
    have d2 := draws_sai (sais v) fun r hr => hf r (by simp only [uliFig, List.mem_append]; simp [hr])
    have d3 := draws_rai (rais v) fun r hr => hf r (by simp only [uliFig, List.mem_append]; simp [hr])
    have d4 := draws_tai (tais v) fun r hr => hf r (by simp only [uliFig, List.mem_append]; simp [hr])
    have d5 := draws_ecgi (ecgis v) fun r hr => hf r (by simp only [uliFig, List.mem_append]; simp [hr])
    have d6 := draws_lai (lais v) fun r hr => hf r (by simp only [uliFig, List.mem_append]; simp [hr])
    have d7 := draws_macro (macros v) fun r hr => hf r (by simp only [uliFig, List.mem_append]; simp [hr])
    have d8 := draws_ext (exts v) fun r hr => hf r (by simp only [uliFig, List.mem_append]; simp [hr])
    simp only [uliFig, List.flatMap_append, List.flatMap_cons, List.flatMap_nil, draw_flags8, d1, d2, d3, d4, d5, d6, d7, d8]
    simp
  · cases h

set_option maxRecDepth 2000 in
/-- Type, length and the octets behind the fourth are those of the figure, for every value whose fields have room in it
and that is not one of those that the code writes differently. -/
theorem C74_octets (e : IE) (f : Nat × List Row) (h : figure e = some f) (hf : ∀ r ∈ f.2, r.Fits) (hd : deviates e = false) :
    Drawn e.marshal f := by
  cases e with
  | Imsi x => exact fig_Imsi x f h hf
  | Cause x => exact fig_Cause x f h hf
  | Recovery x => exact fig_Recovery x f h hf
  | StnSr x => exact fig_StnSr x f h hf
  | SrvccCause x => exact fig_SrvccCause x f h hf
  | Apn x => exact fig_Apn x f h hf
  | ApnAmbr x => exact fig_ApnAmbr x f h hf
  | Ebi x => exact fig_Ebi x f h hf
  | IpAddress x => exact fig_IpAddress x f h hf
  | Mei x => exact fig_Mei x f h hf
  | Msisdn x => exact fig_Msisdn x f h hf
  | Indication x => exact fig_Indication x f h hf
  | Pco x => exact fig_Pco x f h hf
  | PdnAddressAllocation x => exact fig_PdnAddressAllocation x f h hf
  | BearerQos x => exact fig_BearerQos x f h hf
  | FlowQos x => exact fig_FlowQos x f h hf
  | RatType x => exact fig_RatType x f h hf
  | ServingNetwork x => exact fig_ServingNetwork x f h hf
  | BearerTft x => exact fig_BearerTft x f h hf
  | TrafficAggregateDescription x => exact fig_TrafficAggregateDescription x f h hf
  | Uli x => exact fig_Uli x f h hf hd
  | Fteid x => exact fig_Fteid x f h hf hd
  | Tmsi x => exact fig_Tmsi x f h hf
  | GlobalCnId x => exact fig_GlobalCnId x f h hf
  | S103pdf x => exact fig_S103pdf x f h hf
  | S1udf x => exact fig_S1udf x f h hf
  | DelayValue x => exact fig_DelayValue x f h hf
  | BearerContext x => cases h
  | ChargingId x => exact fig_ChargingId x f h hf
  | ChargingCharacteristics x => exact fig_ChargingCharacteristics x f h hf
  | TraceInformation x => exact fig_TraceInformation x f h hf
  | BearerFlags x => exact fig_BearerFlags x f h hf
  | PdnType x => exact fig_PdnType x f h hf
  | Pti x => exact fig_Pti x f h hf
  | MmContext x => cases h
  | PdnConnections x => cases h
  | PduNumbers x => exact fig_PduNumbers x f h hf
  | Ptmsi x => exact fig_Ptmsi x f h hf
  | PtmsiSignature x => cases h
  | HopCounter x => exact fig_HopCounter x f h hf
  | UeTimeZone x => exact fig_UeTimeZone x f h hf hd
  | TraceReference x => cases hd
  | CompleteRequestMessage x => exact fig_CompleteRequestMessage x f h hf
  | Guti x => exact fig_Guti x f h hf
  | Fcontainer x => exact fig_Fcontainer x f h hf
  | Fcause x => exact fig_Fcause x f h hf
  | PlmnId x => exact fig_PlmnId x f h hf
  | TargetIdentification x => exact fig_TargetIdentification x f h hf hd
  | PacketFlowId x => exact fig_PacketFlowId x f h hf
  | RabContext x => cases h
  | SrcRncPdcpCtxInfo x => exact fig_SrcRncPdcpCtxInfo x f h hf
  | PortNumber x => exact fig_PortNumber x f h hf
  | ApnRestriction x => exact fig_ApnRestriction x f h hf
  | SelectionMode x => exact fig_SelectionMode x f h hf
  | SourceIdentification x => exact fig_SourceIdentification x f h hf
  | ChangeReportingAction x => exact fig_ChangeReportingAction x f h hf
  | Fqcsid x => exact fig_Fqcsid x f h hf
  | ChannelNeeded x => exact fig_ChannelNeeded x f h hf
  | EmlppPriority x => exact fig_EmlppPriority x f h hf
  | NodeType x => exact fig_NodeType x f h hf
  | Fqdn x => exact fig_Fqdn x f h hf
  | TransactionIdentifier x => exact fig_TransactionIdentifier x f h hf hd
  | MbmsSa x => exact fig_MbmsSa x f h hf
  | MbmsSd x => exact fig_MbmsSd x f h hf
  | MbmsSessionId x => exact fig_MbmsSessionId x f h hf
  | MbmsFlowId x => exact fig_MbmsFlowId x f h hf
  | MbmsIpMulticastDistribution x => exact fig_MbmsIpMulticastDistribution x f h hf
  | MbmsDistributionAck x => exact fig_MbmsDistributionAck x f h hf
  | RfspIndex x => exact fig_RfspIndex x f h hf
  | Uci x => exact fig_Uci x f h hf
  | CSGInformationReportingAction x => exact fig_CSGInformationReportingAction x f h hf
  | CsgId x => exact fig_CsgId x f h hf
  | CsgMembershipIndication x => exact fig_CsgMembershipIndication x f h hf
  | ServiceIndicator x => exact fig_ServiceIndicator x f h hf
  | DetachType x => exact fig_DetachType x f h hf
  | Ldn x => exact fig_Ldn x f h hf
  | NodeFeatures x => exact fig_NodeFeatures x f h hf
  | MbmsTimeToDataTransfer x => exact fig_MbmsTimeToDataTransfer x f h hf
  | Throttling x => exact fig_Throttling x f h hf
  | Arp x => exact fig_Arp x f h hf
  | EpcTimer x => exact fig_EpcTimer x f h hf
  | Spi x => exact fig_Spi x f h hf
  | Tmgi x => exact fig_Tmgi x f h hf
  | AdditionalMmContextForSrvcc x => exact fig_AdditionalMmContextForSrvcc x f h hf
  | AdditionalFlagsSrvcc x => exact fig_AdditionalFlagsSrvcc x f h hf
  | MdtConfiguration x => exact fig_MdtConfiguration x f h hf
  | Apco x => exact fig_Apco x f h hf
  | AbsoluteTimeMbmsDataTransfer x => exact fig_AbsoluteTimeMbmsDataTransfer x f h hf
  | HenbInfoReporting x => exact fig_HenbInfoReporting x f h hf
  | Ip4Cp x => exact fig_Ip4Cp x f h hf
  | ChangeToReportFlags x => exact fig_ChangeToReportFlags x f h hf
  | ActionIndication x => exact fig_ActionIndication x f h hf
  | TwanId x => exact fig_TwanId x f h hf
  | UliTimestamp x => exact fig_UliTimestamp x f h hf
  | MbmsFlags x => exact fig_MbmsFlags x f h hf
  | RanNasCause x => exact fig_RanNasCause x f h hf
  | CnOperatorSelectionEntity x => exact fig_CnOperatorSelectionEntity x f h hf
  | Twmi x => exact fig_Twmi x f h hf
  | NodeNumber x => cases h
  | NodeIdentifier x => exact fig_NodeIdentifier x f h hf
  | PresenceReportingAreaAction x => exact fig_PresenceReportingAreaAction x f h hf hd
  | PresenceReportingAreaInformation x => exact fig_PresenceReportingAreaInformation x f h hf
  | TwanIdTimeStamp x => exact fig_TwanIdTimeStamp x f h hf
  | OverloadControlInfo x => cases h
  | LoadControlInfo x => cases h
  | Metric x => exact fig_Metric x f h hf
  | Sqn x => exact fig_Sqn x f h hf
  | ApnRelativeCapacity x => cases h
  | WlanOffloadIndication x => exact fig_WlanOffloadIndication x f h hf
  | PagingServiceInfo x => exact fig_PagingServiceInfo x f h hf
  | IntegerNumber x => exact fig_IntegerNumber x f h hf
  | MilliSecondTimeStamp x => exact fig_MilliSecondTimeStamp x f h hf
  | MonitoringEventInformation x => cases h
  | EcgiList x => exact fig_EcgiList x f h hf
  | RemoteUeContext x => cases h
  | RemoteUserId x => exact fig_RemoteUserId x f h hf
  | RemoteUeIpInformation x => cases h
  | CIoTOptimizationSupportIndication x => exact fig_CIoTOptimizationSupportIndication x f h hf
  | ScefPdnConnections x => cases h
  | HeaderCompressionConfiguration x => exact fig_HeaderCompressionConfiguration x f h hf
  | Epco x => exact fig_Epco x f h hf
  | ServingPlmnRateControl x => exact fig_ServingPlmnRateControl x f h hf
  | Counter x => exact fig_Counter x f h hf
  | MappedUeUsageType x => exact fig_MappedUeUsageType x f h hf
  | SecondaryRatUsageDataReport x => exact fig_SecondaryRatUsageDataReport x f h hf
  | UpFunctionSelectionIndicationFlags x => exact fig_UpFunctionSelectionIndicationFlags x f h hf
  | MaxPacketLossRate x => exact fig_MaxPacketLossRate x f h hf
  | ApnRateControlStatus x => exact fig_ApnRateControlStatus x f h hf
  | ExtendedTraceInformation x => exact fig_ExtendedTraceInformation x f h hf
  | MonitoringEventExtensionInfo x => exact fig_MonitoringEventExtensionInfo x f h hf
  | AdditionalRrmPolicyIndex x => exact fig_AdditionalRrmPolicyIndex x f h hf
  | V2xInformation x => cases h
  | PC5QosParameters x => cases h
  | ServicesAuthorized x => exact fig_ServicesAuthorized x f h hf
  | BitRate x => exact fig_BitRate x f h hf
  | PC5QosFlow x => exact fig_PC5QosFlow x f h hf
  | SgiPtpTunnelAddress x => exact fig_SgiPtpTunnelAddress x f h hf
  | PgwChangeInfo x => cases h
  | PgwFqdn x => exact fig_PgwFqdn x f h hf
  | GroupId x => exact fig_GroupId x f h hf
  | PSCellId x => exact fig_PSCellId x f h hf
  | UpSecurityPolicy x => exact fig_UpSecurityPolicy x f h hf
  | AlternativeImsi x => exact fig_AlternativeImsi x f h hf
  | SpecialIEWithTypeExt x => exact fig_SpecialIEWithTypeExt x f h hf
  | PrivateExtension x => exact fig_PrivateExtension x f h hf
  | Unknown x => cases h
theorem pl_len (mcc mnc : UInt16) (three : Bool) : (pl mcc mnc three).draw.length = 3 := rfl

theorem fig_len {α : Type} (fig : α → List Row) (c : Nat) (h : ∀ x, ((fig x).flatMap draw).length = c) (l : List α) :
    ((l.flatMap fig).flatMap draw).length = c * l.length := by
  induction l with
  | nil => simp
  | cons a l ih => rw [List.flatMap_cons, List.flatMap_append, List.length_append, h, ih, List.length_cons, Nat.mul_succ]; omega

theorem take_len {α : Type} (oct : α → Bytes) (c : Nat) (h : ∀ x, (oct x).length = c) (l : List α) (n : Nat) :
    ((l.take n).flatMap oct).length ≤ c * l.length := by
  have : ∀ l : List α, (l.flatMap oct).length = c * l.length := by
    intro l
    induction l with
    | nil => simp
    | cons a l ih => rw [List.flatMap_cons, List.length_append, h, ih, List.length_cons, Nat.mul_succ]; omega
  rw [this, List.length_take]
  exact Nat.mul_le_mul_left _ (Nat.min_le_right ..)

/-- And the others it does write differently. -/
theorem C74_deviates (e : IE) (f : Nat × List Row) (h : figure e = some f) (hf : ∀ r ∈ f.2, r.Fits) (hd : deviates e = true) :
    ¬ Drawn e.marshal f := by
  unfold deviates at hd
  split at hd
  · rename_i x
    cases h
    intro hm
    have hm := (drawn_iff rfl).mp hm
    have h1 : (zoneFig x.time_zone).Fits := hf _ (by simp)
    have h2 : x.time_zone.toInt.natAbs / 10 < 2 ^ 3 := h1.2 (3, _) (by simp)
    have key : ∀ n : UInt8, n.toInt8.toInt.natAbs / 10 < 2 ^ 3 → n.toInt8 ∉ [(0 : Int8), 53, -8] →
        (zoneFig n.toInt8).draw ≠ [(UeTimeZone.zoneOctet n.toInt8).toNat] := by decide +kernel
    have k := key x.time_zone.toUInt8
    simp only [Int8.toInt8_toUInt8] at k
    refine k h2 (by simpa using hd) ?_
    rw [zoneFig, draw_bits]
    simp only [List.map_cons, List.flatMap_cons, zoneFig, draw_bits, List.cons_append, List.cons.injEq] at hm
    rw [hm.1]
  · cases h
    intro hm
    have h1 := hm.1
    rename_i x
    rw [show IE.marshal (.TraceReference x) = tliv 83 x.length x.ins _ from rfl, tliv_eq] at h1
    simp only [ List.take_succ_cons, List.map_cons, List.cons.injEq] at h1
    exact absurd h1.1 (by decide)
  · rename_i x
    have ht : x.t ≠ 86 := by simpa using hd
    simp only [figure] at h
    split at h
    · cases h
      intro hm
      have h1 := hm.1
      rw [show IE.marshal (.Uli x) = tliv x.t x.length x.ins x.body from rfl, tliv_eq] at h1
      simp only [List.take_succ_cons, List.map_cons, List.cons.injEq] at h1
      exact ht (UInt8.toNat_inj.mp h1.1)
    · cases h
  · rename_i x
    cases h
    have hb := (hf _ (.head _)).2
    simp only [List.forall_mem_cons] at hb
    have h6 : x.interface.toNat < 2 ^ 6 := hb.2.2.1
    obtain ⟨t, l, i, f, te, a, b⟩ := x
    cases a <;> cases b <;> simp at hd
    intro hm
    have hm := (drawn_iff rfl).mp hm
    have h1 := congrArg List.head? hm
    simp [draw_bits, flag, or_low 192 h6 rfl, - UInt8.toNat_or] at h1
  · rename_i x
    have hn : ¬ x.tid.id < 7 := by simpa using hd
    cases h
    intro hm
    have hm := (drawn_iff rfl).mp hm
    simp only [if_neg hn, draw_bits, List.flatMap_cons, List.map_cons, List.cons_append, List.cons.injEq] at hm
    have := hm.1
    cases hx : x.tid.flag <;> simp [hx, flag, spare] at this
  · rename_i x
    obtain ⟨t, l, i, v⟩ := x
    cases v <;> simp only [Bool.false_eq_true] at hd
    cases h
    intro hm
    have hm := (drawn_iff rfl).mp hm
    have := congrArg List.length hm
    simp [TargetType.octets, draw_n1, homeFig, draw_o2, draw_o4, pl_len, MacroEnbIdentifier.octets, MacroEnbId.octets, mccMncEncode_length, be32, be24,
      be16] at this
  · rename_i x
    obtain ⟨t, l, i, ina, act, pr, ta, ra, ma, ho, ec, sa, cg, ex⟩ := x
    cases h
    intro hm
    have hm := (drawn_iff rfl).mp hm
    have hl := congrArg List.length hm
    simp only [List.flatMap_append, List.length_append, List.length_map, List.flatMap_cons, List.flatMap_nil, List.length_nil, List.length_cons,
      draw_bits, draw_o3, be24] at hl
    rw [fig_len taiFig 5 (by intro x; simp [taiFig, pl_len, draw_o2, be16]), fig_len macroFig 6 (by intro x; simp [macroFig, pl_len, draw_o3, be24]),
      fig_len homeFig 7 (by intro x; simp [homeFig, pl_len, draw_o4, be32]), fig_len ecgiFig 7 (by intro x; simp [ecgiFig, pl_len, draw_o4, be32]),
      fig_len raiFig 7 (by intro x; simp [raiFig, pl_len, draw_o2, draw_o1, draw_n1, be16]),
      fig_len saiFig 7 (by intro x; simp [saiFig, pl_len, draw_o2, be16]), fig_len cgiFig 7 (by intro x; simp [cgiFig, pl_len, draw_o2, be16]),
      fig_len extFig 6 (by rintro ⟨_, _, _, sm, v⟩; cases sm <;> rfl)] at hl
    have t1 := take_len Tai.octets 5 (by intro x; simp [Tai.octets, mccMncEncode_length, be16]) ta 15
    have t2 := take_len MacroEnbId.octets 6 (by intro x; simp [MacroEnbId.octets, mccMncEncode_length, be24]) ma 63
    have t3 := take_len MacroEnbId.octets 6 (by intro x; simp [MacroEnbId.octets, mccMncEncode_length, be24]) ho 63
    have t4 := take_len Ecgi.octets 7 (by intro x; simp [Ecgi.octets, mccMncEncode_length, be32]) ec 63
    have t5 := take_len Rai.octets 7 (by intro x; simp [Rai.octets, mccMncEncode_length, be16]) ra 15
    have t6 := take_len Sai.octets 7 (by intro x; simp [Sai.octets, mccMncEncode_length, be16]) sa 63
    have t7 := take_len Cgi.octets 7 (by intro x; simp [Cgi.octets, mccMncEncode_length, be16]) cg 63
    have t8 := take_len ExtMacroEnbId.octets 6 (by rintro ⟨_, _, _, sm, v⟩; cases sm <;> simp [ExtMacroEnbId.octets, mccMncEncode_length, be24]) ex 63
    have hh : 0 < ho.length := by cases ho <;> simp at hd ⊢
    omega
  · cases hd

/-- C74 (partial: the property has the octets of the figure for every value): type, length and octets behind the fourth are those of the
figure exactly for the values that do not deviate. -/
theorem C74_octets_partial (e : IE) (f : Nat × List Row) (h : figure e = some f) (hf : ∀ r ∈ f.2, r.Fits) :
    Drawn e.marshal f ↔ deviates e = false := by
  constructor
  · intro hm
    cases hd : deviates e with
    | false => rfl
    | true => exact absurd hm (C74_deviates e f h hf hd)
  · exact C74_octets e f h hf


/-! ## What deviates -/

theorem C74_violation :
    (∃ x f, figure (.UeTimeZone x) = some f ∧ (∀ r ∈ f.2, r.Fits) ∧ ¬ Drawn (IE.marshal (.UeTimeZone x)) f) ∧
    (∃ x f, figure (.TraceReference x) = some f ∧ (∀ r ∈ f.2, r.Fits) ∧ ¬ Drawn (IE.marshal (.TraceReference x)) f) ∧
    (∃ x f, figure (.Fteid x) = some f ∧ (∀ r ∈ f.2, r.Fits) ∧ ¬ Drawn (IE.marshal (.Fteid x)) f) ∧
    (∃ x f, figure (.TransactionIdentifier x) = some f ∧ (∀ r ∈ f.2, r.Fits) ∧ ¬ Drawn (IE.marshal (.TransactionIdentifier x)) f) ∧
    (∃ x f, figure (.TargetIdentification x) = some f ∧ (∀ r ∈ f.2, r.Fits) ∧ ¬ Drawn (IE.marshal (.TargetIdentification x)) f) ∧
    (∃ x f, figure (.PresenceReportingAreaAction x) = some f ∧ (∀ r ∈ f.2, r.Fits) ∧ ¬ Drawn (IE.marshal (.PresenceReportingAreaAction x)) f) ∧
    (∃ x f, figure (.Uli x) = some f ∧ (∀ r ∈ f.2, r.Fits) ∧ ¬ Drawn (IE.marshal (.Uli x)) f) :=
  ⟨⟨⟨114, 2, 0, 4, 1⟩, _, rfl, by decide +kernel, by decide +kernel⟩,
   ⟨⟨115, 6, 0, 262, 1, false, 7⟩, _, rfl, by decide +kernel, by decide +kernel⟩,
   ⟨⟨87, 5, 0, 10, 1, none, none⟩, _, rfl, by decide +kernel, by decide +kernel⟩,
   ⟨⟨137, 1, 0, ⟨true, 9⟩⟩, _, rfl, by decide +kernel, by decide +kernel⟩,
   ⟨⟨121, 9, 0, .HomeeNbId ⟨⟨262, 1, false, 7⟩, 9⟩⟩, _, rfl, by decide +kernel, by decide +kernel⟩,
   ⟨⟨177, 16, 0, false, 1, 7, [], [], [], [⟨262, 1, false, 7⟩], [], [], [], []⟩, _, rfl, by decide +kernel, by decide +kernel⟩,
   ⟨⟨0, 6, 0, [.Tai ⟨262, 1, false, 9⟩]⟩, _, rfl, by decide +kernel, by decide +kernel⟩⟩

/-- One hour east of Greenwich: four quarters, the figure has 40 hexadecimal and the code writes 04. -/
example : IE.marshal (.UeTimeZone ⟨114, 2, 0, 4, 1⟩) = [114, 0, 2, 0, 0x04, 0x01] ∧ (zoneFig 4).draw = [0x40] := by decide +kernel

/-- Two locations, given in the opposite order. -/
example : Drawn (IE.marshal (.Uli ⟨86, 13, 0, [.Ecgi ⟨262, 1, false, 0x01020304⟩, .Tai ⟨262, 1, false, 9⟩]⟩))
      (86, uliFig [.Ecgi ⟨262, 1, false, 0x01020304⟩, .Tai ⟨262, 1, false, 9⟩]) ∧
    IE.marshal (.Uli ⟨86, 13, 0, [.Ecgi ⟨262, 1, false, 0x01020304⟩, .Tai ⟨262, 1, false, 9⟩]⟩) =
      [86, 0, 13, 0, 0x18, 0x62, 0xf2, 0x10, 0, 9, 0x62, 0xf2, 0x10, 1, 2, 3, 4] := by decide +kernel

example : Drawn (IE.marshal (.Apn ⟨71, 9, 0, "ims.apn".toList⟩)) (71, nameFig "ims.apn".toList) ∧
    (∀ r ∈ nameFig "ims.apn".toList, r.Fits) := by decide +kernel

end Gtp.Props
