import Verif.Props.CFigure
import Verif.Props.CExact

/-!
# C91: an element that a peer writes as the figure of TS 29.060 has it is understood

As C90, for GTPv1-C. Here a figure fixes all octets.
-/

namespace Gtp.Props.C1
open Gtp.C1
open Gtp.Props.Row

/-- Octets that show the figure are decoded as `x`, whatever follows. -/
def Understood (m : Mode) (k : Kind) (x : k.Ty) (f : Nat × List Row) : Prop :=
  ∀ b tail, Drawn b f → k.codec.unm m (b ++ tail) = .ok x

/-- Octets that show the figure are decoded as `x` if nothing follows. -/
def UnderstoodLast (m : Mode) (k : Kind) (x : k.Ty) (f : Nat × List Row) : Prop :=
  ∀ b, Drawn b f → k.codec.unm m b = .ok x

/-- A figure fixes the octets. -/
theorem drawn_unique {a b : Bytes} {f : Nat × List Row} (ha : Drawn a f) (hb : Drawn b f) : a = b :=
  (List.map_inj_right fun _ _ => UInt8.toNat_inj.mp).mp (ha.trans hb.symm)

theorem teid_type (k : Kind) (x : k.Ty) (f : Nat × List Row) (h : figure k x = some f) : TeidType k x := by
  intro hk
  subst hk
  have h' : (if (x : Gtp.C1.Teid).t = 16 ∨ (x : Gtp.C1.Teid).t = 17 then some ((x : Gtp.C1.Teid).t.toNat, [o4 (x : Gtp.C1.Teid).teid]) else none) =
    some f := h
  split at h'
  · rename_i hc
    rcases hc with hc | hc
    · exact .inl (congrArg some hc)
    · exact .inr (congrArg some hc)
  · cases h'

/-- C91 (partial), exactly: of the values that the encoder writes as the figure has them, those of `WF` are understood from the figure
and no others. Missing: the two kinds that swallow what follows, and the values that are written differently, see below. -/
theorem C91_understood_partial (m : Mode) (k : Kind) (hk : ¬ Swallows k) (x : k.Ty) (f : Nat × List Row) (h : figure k x = some f)
    (hf : ∀ r ∈ f.2, r.Fits) (ht : (k.codec.mar x).head?.map UInt8.toNat = some f.1) (hd : deviates k x = false)
    (hl : (k.codec.mar x).length < 65536) : Understood m k x f ↔ k.codec.WF x := by
  have hm := (C75_octets_partial k x f h hf).mpr ⟨ht, hd⟩
  rw [← C35_exact_partial m k hk x (teid_type k x f h) hl]
  exact ⟨fun hu tail => hu _ tail hm, fun hs b tail hb => drawn_unique hb hm ▸ hs tail⟩

/-- C91, at the end of the buffer: the same with the private extension. -/
theorem C91_last_partial (m : Mode) (k : Kind) (hk : k ≠ .ExtensionHeaderTypeList) (x : k.Ty) (f : Nat × List Row) (h : figure k x = some f)
    (hf : ∀ r ∈ f.2, r.Fits) (ht : (k.codec.mar x).head?.map UInt8.toNat = some f.1) (hd : deviates k x = false)
    (hl : (k.codec.mar x).length < 65536) : UnderstoodLast m k x f ↔ k.codec.WF x := by
  have hm := (C75_octets_partial k x f h hf).mpr ⟨ht, hd⟩
  rw [← C35_exact_last_partial m k hk x (teid_type k x f h) hl]
  exact ⟨fun hu => hu _ hm, fun hs b hb => drawn_unique hb hm ▸ hs⟩

/-- A user location, with what follows. -/
example (m : Mode) : Uli.unmarshal m [152, 0, 8, 2, 0x62, 0xf2, 0x30, 0xbc, 0x3e, 7, 0xff, 1, 2] = .ok ⟨152, 8, 262, 3, false, 48190, .rac 7⟩ :=
  (C91_understood_partial m .Uli (by simp [Swallows]) exUli _ rfl (by decide +kernel) rfl rfl (by decide +kernel)).mpr (by decide +kernel)
    [152, 0, 8, 2, 0x62, 0xf2, 0x30, 0xbc, 0x3e, 7, 0xff] [1, 2] (by decide +kernel)

/-! ## The values that are written differently -/

theorem tbcdDecode_append (a b : Bytes) : tbcdDecode (a ++ b) = tbcdDecode a ++ tbcdDecode b := by
  unfold tbcdDecode; rw [List.flatMap_append, List.filterMap_append]

theorem filler (n : Nat) : tbcdDecode (List.replicate n 0xff) = [] := by
  induction n with
  | zero => rfl
  | succ n ih =>
    rw [List.replicate_succ, show (0xff : UInt8) :: List.replicate n 0xff = [0xff] ++ List.replicate n 0xff from rfl, tbcdDecode_append, ih]
    decide +kernel

/-- C91, IMSIs: all are understood, also those below 15 digits, which the encoder does not fill up. -/
theorem C91_imsi (m : Mode) (x : Gtp.C1.Imsi) (f : Nat × List Row) (h : figure .Imsi x = some f) (hf : ∀ r ∈ f.2, r.Fits)
    (ht : x.t = 2) : Understood m .Imsi x f := by
  obtain ⟨t, s⟩ := x
  have ht : t = 2 := ht
  subst ht
  have e : figure .Imsi (⟨2, s⟩ : Gtp.C1.Imsi) = if s.length ≤ 15 then some (2, digits s :: List.replicate (8 - (s.length + 1) / 2) (num 1 255))
    else none := rfl
  rw [e] at h
  have hl : s.length ≤ 15 := Classical.byContradiction fun hn => by simp [hn] at h
  simp only [hl, if_true, Option.some.injEq] at h
  subst h
  have hg := hf _ (.head _)
  have n := C04_tbcd_length s hg
  intro b tail hb
  have hfill : ∀ n, (List.replicate n (num 1 255)).flatMap draw = (List.replicate n (0xff : UInt8)).map UInt8.toNat := by
    intro n
    induction n with
    | zero => rfl
    | succ n ih => rw [List.replicate_succ, List.replicate_succ, List.flatMap_cons, List.map_cons, ih]; rfl
  have hm : Drawn (2 :: (tbcdEncode s ++ List.replicate (8 - (s.length + 1) / 2) 0xff))
      (2, digits s :: List.replicate (8 - (s.length + 1) / 2) (num 1 255)) := by
    simp only [Drawn, List.flatMap_cons, draw_digits hg, hfill, List.map_cons, List.map_append]
    rfl
  rw [drawn_unique hb hm]
  show Imsi.unmarshal m _ = _
  have h8 : (tbcdEncode s ++ List.replicate (8 - (s.length + 1) / 2) 0xff).length = 8 := by
    rw [List.length_append, List.length_replicate, n]
    omega
  have hr : tbcdDecode (tbcdEncode s ++ List.replicate (8 - (s.length + 1) / 2) 0xff) = s := by
    rw [tbcdDecode_append, filler, List.append_nil]
    exact C04_tbcd_roundtrip s hg
  obtain ⟨s0, s1, s2, s3, s4, s5, s6, s7, he⟩ := exists_list8 h8
  rw [he] at hr ⊢
  simp only [Imsi.unmarshal, List.cons_append, List.nil_append, List.length_cons]
  rw [if_pos (by omega)]
  have hsl : (sl (2 :: s0 :: s1 :: s2 :: s3 :: s4 :: s5 :: s6 :: s7 :: tail) 1 9 : R Gtp.V1.Err Bytes) = .ok [s0, s1, s2, s3, s4, s5, s6, s7] := by
    simp [sl]
  rw [hsl]
  simp only [R.ok_bind, hr]
  rfl

/-- Ten digits. -/
example (m : Mode) : Imsi.unmarshal m [2, 0x62, 0x02, 0x11, 0x32, 0x54, 0xff, 0xff, 0xff, 14] = .ok ⟨2, "2620112345".toList⟩ :=
  C91_imsi m ⟨2, "2620112345".toList⟩ _ rfl (by decide +kernel) rfl [2, 0x62, 0x02, 0x11, 0x32, 0x54, 0xff, 0xff, 0xff] [14] (by decide +kernel)

/-- C91, time zones: understood are three of them, 0, 53 and -8 quarters of an hour; the others come out as something else. -/
theorem C91_zone (m : Mode) (x : Gtp.C1.MsTimeZone) (f : Nat × List Row) (h : figure .MsTimeZone x = some f) (hf : ∀ r ∈ f.2, r.Fits)
    (hw : x.t = 153 ∧ x.length = 2) : Understood m .MsTimeZone x f ↔ x.time_zone ∈ [0, 53, -8] := by
  cases h
  obtain ⟨t, l, z, d⟩ := x
  obtain ⟨rfl, rfl⟩ := hw
  have h1 : (zoneFig z).Fits := hf _ (by simp)
  have h2 : z.toInt.natAbs / 10 < 2 ^ 3 := h1.2 (3, _) (by simp)
  have hd : d.toNat < 2 ^ 2 := (hf _ (.tail _ (.head _))).2 (2, _) (by simp)
  constructor
  · intro hu
    have key : ∀ n : UInt8, n.toInt8.toInt.natAbs / 10 < 2 ^ 3 →
        (zoneFig n.toInt8).draw = [(UInt8.ofNat ((zoneFig n.toInt8).draw.headD 0)).toNat] ∧
        (MsTimeZone.zoneOf (UInt8.ofNat ((zoneFig n.toInt8).draw.headD 0)) = n.toInt8 → n.toInt8 ∈ [(0 : Int8), 53, -8]) := by
      decide +kernel
    have k := key z.toUInt8
    simp only [Int8.toInt8_toUInt8] at k
    obtain ⟨k1, k2⟩ := k h2
    generalize UInt8.ofNat ((zoneFig z).draw.headD 0) = v at k1 k2
    have hm : Drawn [153, 0, 2, v, d] (153, [zoneFig z, bits [spare 6, (2, d.toNat)]]) := by
      simp only [Drawn, List.flatMap_cons, k1, draw_bits, spare]
      simp
    have := hu _ [] hm
    have hz : MsTimeZone.zoneOf v = z := by
      have e : (R.ok ⟨153, 2, MsTimeZone.zoneOf v, d &&& 3⟩ : R Gtp.V1.Err Gtp.C1.MsTimeZone) = .ok ⟨153, 2, z, d⟩ := this
      injection e with e
      injection e
    exact k2 hz
  · intro hz
    refine (C91_understood_partial m .MsTimeZone (by simp [Swallows]) (⟨153, 2, z, d⟩ : Gtp.C1.MsTimeZone) _ rfl hf rfl ?_ ?_).mpr
      ⟨rfl, rfl, ?_, hd⟩
    · show decide (z ∉ [(0 : Int8), 53, -8]) = false
      exact decide_eq_false fun hn => hn hz
    · show (tlv _ _ _).length < 65536
      rw [tlv_eq]
      simp
    · intro h
      have h : z = -128 := h
      exact absurd (h ▸ hz : (-128 : Int8) ∈ [(0 : Int8), 53, -8]) (by decide)

/-- C91, subscriber numbers: one of at most 14 digits, at the end of the buffer, makes the decoder panic. -/
theorem C91_msisdn (m : Mode) (x : Gtp.C1.Msisdn) (f : Nat × List Row) (h : figure .Msisdn x = some f) (hf : ∀ r ∈ f.2, r.Fits)
    (ht : x.t = 134) (hn : x.msisdn.length ≤ 14) (hl : x.length.toNat = 1 + (x.msisdn.length + 1) / 2)
    (hp : x.number_plan = 1 ∨ x.number_plan = 6) (b : Bytes) (hb : Drawn b f) : Msisdn.unmarshal m b = .panic := by
  have hm := (C75_octets_partial .Msisdn x f h hf).mpr ⟨by cases h; exact congrArg (fun t : UInt8 => some t.toNat) ht, rfl⟩
  rw [drawn_unique hb hm]
  cases h
  have h1 := (hf _ (.head _)).2
  exact C35_violation_msisdn m x (hf (digits x.msisdn) (by simp)) hn hl (h1 (1, _) (by simp)) (h1 (3, _) (by simp)) hp

/-- C91 violated: a subscriber number of 12 digits at the end of the buffer makes the decoder panic; with a Recovery behind it, its type
and value become digits. -/
theorem C91_violation (m : Mode) :
    let x : Gtp.C1.Msisdn := ⟨134, 7, 1, 1, 1, "491234567890".toList⟩
    let b : Bytes := [134, 0, 7, 0x91, 0x94, 0x21, 0x43, 0x65, 0x87, 0x09]
    (∃ f, figure .Msisdn x = some f ∧ (∀ r ∈ f.2, r.Fits) ∧ Drawn b f) ∧ Msisdn.unmarshal m b = .panic ∧
    Msisdn.unmarshal m (b ++ [14, 7]) = .ok { x with msisdn := "491234567890070".toList } ∧
    MsTimeZone.unmarshal m [153, 0, 2, 0x40, 1] = .ok ⟨153, 2, 64, 1⟩ ∧
    Drawn [153, 0, 2, 0x40, 1] (153, [zoneFig 4, bits [spare 6, (2, 1)]]) :=
  ⟨⟨_, rfl, by decide +kernel, by decide +kernel⟩,
   C91_msisdn m ⟨134, 7, 1, 1, 1, "491234567890".toList⟩ _ rfl (by decide +kernel) rfl (by decide) rfl (.inl rfl) _ (by decide +kernel),
   by cases m <;> decide +kernel, by cases m <;> decide +kernel, by decide +kernel⟩

end Gtp.Props.C1
