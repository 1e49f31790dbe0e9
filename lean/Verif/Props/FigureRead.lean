import Verif.Props.Figure
import Verif.Props.Exact
import Verif.Props.Instance

/-!
# C90: an IE that a peer writes as the figure of TS 29.274 has it is understood

C74 compares the encoders with the figures; here the decoders are given octets as the figures have them. The fourth octet may have
anything in its spare half.
-/

namespace Gtp.Props
open Gtp.V2

/-- Octets that show the figure and have the instance of `e` are decoded as `e`, whatever follows. -/
def Understood (m : Mode) (e : IE) (f : Nat × List Row) : Prop :=
  ∀ b tail, 4 ≤ b.length → Drawn b f → instanceOf (b.getD 0 0) (b.getD 3 0) = e.ins → decodeOne (decoder m) m (b ++ tail) = .ok (e, b.length)

theorem tliv_ins (t : UInt8) (l : UInt16) (i : UInt8) (b : Bytes) : (tliv t l i b).getD 3 0 = i := by rw [tliv_eq]; rfl

set_option maxRecDepth 4000 in
theorem marshal_ins (e : IE) (f : Nat × List Row) (h : figure e = some f) : e.marshal.getD 3 0 = e.ins := by
  cases e with
  | MonitoringEventInformation x => cases h
  | MmContext x => cases h
  | _ => first | cases h; done | exact tliv_ins _ _ _ _

theorem figure_plain (e : IE) (f : Nat × List Row) (h : figure e = some f) : ¬ Composite e := by
  cases e with
  | _ => first | cases h; done | exact id

theorem figure_189 (e : IE) (f : Nat × List Row) (h : figure e = some f) (hw : e.WF) : e.wireType ≠ 189 := by
  cases e with
  | Uli x => intro h'; exact absurd (hw.1.symm.trans h') (by decide)
  | _ => first | cases h; done | (intro h'; simp [IE.wireType] at h'; done)

theorem setIns_self (e : IE) : e.setIns e.ins = e := by
  cases e with
  | MmContext x => cases x <;> rfl
  | _ => rfl

/-- The fourth octet decides the instance and nothing else. -/
theorem decodeOne_ins {m : Mode} {t h l i j : UInt8} {r : Bytes} (ht : t ≠ 189) {x : IE} {n : Nat}
    (hd : decodeOne (decoder m) m (t :: h :: l :: j :: r) = .ok (x, n)) :
    decodeOne (decoder m) m (t :: h :: l :: i :: r) = .ok (x.setIns (instanceOf t i), n) := by
  have h1 := unmKind.par (decoder m) (off_cons t h l i j r) m (kindOf t) fun hk => absurd (kind189 t hk) ht
  simp only [decodeOne, rd_zero, R.ok_bind] at hd ⊢
  rcases h1.inv with ⟨x', y, e1, e2, h1⟩ | ⟨e, e1, e2⟩ | ⟨e1, e2⟩ | ⟨e1, e2⟩
  · rw [insOf_eq] at h1
    subst h1
    rw [e2] at hd
    rw [e1]
    simp only [R.ok_bind, IE.len_setIns] at hd ⊢
    cases hl : y.len m with
    | ok k =>
      rw [hl] at hd
      injection hd with hd
      injection hd with ha hb
      rw [← ha, ← hb]
      rfl
    | _ => rw [hl] at hd; cases hd
  all_goals rw [e2] at hd; cases hd

/-- Two byte strings that show the same figure differ in the fourth octet at most. -/
theorem drawn_same {a b : Bytes} {f : Nat × List Row} (ha : Drawn a f) (hb : Drawn b f) (h4 : 4 ≤ a.length) (h4' : 4 ≤ b.length) :
    ∃ t h l i j r, a = t :: h :: l :: i :: r ∧ b = t :: h :: l :: j :: r := by
  match a, b, h4, h4' with
  | t :: h :: l :: i :: r, t' :: h' :: l' :: j :: r', _, _ =>
    have inj : ∀ u v : Bytes, u.map UInt8.toNat = v.map UInt8.toNat → u = v :=
      fun u v => (List.map_inj_right fun _ _ => UInt8.toNat_inj.mp).mp
    have h1 := inj _ _ (ha.1.trans hb.1.symm)
    have h2 := inj _ _ (ha.2.trans hb.2.symm)
    simp only [List.take_succ_cons, List.take_zero, List.cons.injEq, and_true] at h1
    obtain ⟨rfl, rfl, rfl⟩ := h1
    have h2 : r = r' := h2
    subst h2
    exact ⟨t, h, l, i, j, r, rfl, rfl⟩

/-- C90 (partial), exactly: of the values that the encoder writes as the figure has them, those of `IE.WF` are understood from the
figure and no others. Missing: the values that are written differently, see below. -/
theorem C90_understood_partial (m : Mode) (e : IE) (f : Nat × List Row) (h : figure e = some f) (hf : ∀ r ∈ f.2, r.Fits)
    (hd : deviates e = false) (hi : e.ins < 16) (hl : e.marshal.length < 65536) : Understood m e f ↔ e.WF := by
  have hm := C74_octets e f h hf hd
  obtain ⟨r, hr, h3⟩ := IE.marshal_cons e
  have h4 : 4 ≤ e.marshal.length := by rw [hr]; exact Nat.succ_le_succ h3
  have key : ∀ t i : UInt8, i < 16 → instanceOf t i = i := by
    intro t i hi
    unfold instanceOf
    split
    · rfl
    · exact UInt8.toNat_inj.mp (by rw [UInt8.toNat_mod]; exact Nat.mod_eq_of_lt hi)
  constructor
  · intro hu
    refine (C06_exact_partial m e (figure_plain e f h) hl).mp fun tail => hu _ tail h4 hm ?_
    rw [marshal_ins e f h]
    exact key _ _ hi
  · intro hw b tail hb hdr hbi
    have hs := (C06_exact_partial m e (figure_plain e f h) hl).mpr hw tail
    have ht := figure_189 e f h hw
    obtain ⟨t, a, l, i, j, s, e1, e2⟩ := drawn_same hm hdr h4 hb
    rw [hr] at e1
    have e3 : e.wireType = t := by injection e1
    rw [hr, e1] at hs
    rw [e2] at hbi ⊢
    have := decodeOne_ins (i := j) (e3 ▸ ht) hs
    rw [show instanceOf t j = e.ins from hbi, setIns_self] at this
    exact this

/-- An EBI with the instance 1 and a set spare half, and an F-TEID. -/
example : decodeOne (decoder .debug) .debug ([73, 0, 1, 0xf1, 5] ++ [1, 2, 3]) = .ok (.Ebi ⟨73, 1, 1, 5⟩, 5) :=
  (C90_understood_partial .debug (.Ebi ⟨73, 1, 1, 5⟩) _ rfl (by decide +kernel) rfl (by decide) (by decide +kernel)).mpr
    (by decide +kernel) [73, 0, 1, 0xf1, 5] [1, 2, 3] (by decide) (by decide +kernel) (by decide +kernel)

/-! ## The values that are written differently -/

theorem ins_small {t i : UInt8} (hi : i < 16) : instanceOf t i = i := by
  unfold instanceOf
  split
  · rfl
  · exact UInt8.toNat_inj.mp (by rw [UInt8.toNat_mod]; exact Nat.mod_eq_of_lt hi)

/-- The octet of a time zone in the figure. -/
def figOctet (z : Int8) : UInt8 := UInt8.ofNat (((zoneFig z).draw).headD 0)

/-- C90, time zones: understood are three of them, 0, 53 and -8 quarters of an hour; the others come out as something else. -/
theorem C90_zone (m : Mode) (x : V2.UeTimeZone) (f : Nat × List Row) (h : figure (.UeTimeZone x) = some f) (hf : ∀ r ∈ f.2, r.Fits)
    (hw : x.t = 114 ∧ x.length = 2 ∧ x.ins < 16) : Understood m (.UeTimeZone x) f ↔ x.time_zone ∈ [0, 53, -8] := by
  cases h
  obtain ⟨t, l, i, z, d⟩ := x
  obtain ⟨rfl, rfl, hi⟩ := hw
  have h1 : (zoneFig z).Fits := hf _ (by simp)
  have h2 : z.toInt.natAbs / 10 < 2 ^ 3 := h1.2 (3, _) (by simp)
  have hd : d.toNat < 2 ^ 2 := (hf _ (.tail _ (.head _))).2 (2, _) (by simp)
  constructor
  · intro hu
    have := hu (tliv 114 2 i [figOctet z, d]) [] (by rw [tliv_eq]; simp) (drawn rfl (by
      have key : ∀ n : UInt8, n.toInt8.toInt.natAbs / 10 < 2 ^ 3 → (zoneFig n.toInt8).draw = [(figOctet n.toInt8).toNat] := by
        decide +kernel
      have k := key z.toUInt8
      simp only [Int8.toInt8_toUInt8] at k
      simp [k h2, draw_bits, spare])) (by rw [tliv_ins]; exact ins_small hi)
    have e : decodeOne (decoder m) m (tliv 114 2 i [figOctet z, d] ++ []) =
        .ok (.UeTimeZone ⟨114, of16 (hi16 (lenU16 [figOctet z, d])) (lo16 (lenU16 [figOctet z, d])), i &&& 0x0f,
          UeTimeZone.zoneOf (figOctet z), d &&& 3⟩, 6) := by
      rw [tliv_eq]
      rfl
    rw [e] at this
    injection this with this
    injection this with this
    injection this with this
    have hz : UeTimeZone.zoneOf (figOctet z) = z := by injection this
    have key : ∀ n : UInt8, n.toInt8.toInt.natAbs / 10 < 2 ^ 3 → UeTimeZone.zoneOf (figOctet n.toInt8) = n.toInt8 →
        n.toInt8 ∈ [(0 : Int8), 53, -8] := by
      decide +kernel
    have k := key z.toUInt8
    simp only [Int8.toInt8_toUInt8] at k
    exact k h2 hz
  · intro hz
    have hdv : deviates (.UeTimeZone ⟨114, 2, i, z, d⟩) = false := by
      show decide (z ∉ [(0 : Int8), 53, -8]) = false
      exact decide_eq_false fun hn => hn hz
    refine (C90_understood_partial m (.UeTimeZone ⟨114, 2, i, z, d⟩) _ rfl hf hdv hi ?_).mpr ⟨rfl, rfl, hi, ?_, ?_⟩
    · show (tliv _ _ _ _).length < 65536
      rw [tliv_eq]
      simp
    · intro h
      exact absurd (h ▸ hz : (-128 : Int8) ∈ [(0 : Int8), 53, -8]) (by decide)
    · exact hd

/-- C90, F-TEIDs: one without an address is rejected. -/
theorem C90_fteid (m : Mode) (x : V2.Fteid) (f : Nat × List Row) (h : figure (.Fteid x) = some f) (hf : ∀ r ∈ f.2, r.Fits)
    (hd : x.ipv4 = none ∧ x.ipv6 = none) (b tail : Bytes) (hb : Drawn b f) (h4 : 4 ≤ b.length) :
    decodeOne (decoder m) m (b ++ tail) = .err (.ieIncorrect 87) := by
  cases h
  obtain ⟨t, l, i, v, te, a, c⟩ := x
  obtain ⟨rfl, rfl⟩ := hd
  have h6 : v.toNat < 2 ^ 6 := (hf _ (.head _)).2 (6, _) (by simp)
  have hm : Drawn (tliv 87 l i (v :: be32 te)) (87, [Row.bits [flag false, flag false, (6, v.toNat)], o4 te]) :=
    drawn rfl (by simp [draw_bits, flag, draw_o4])
  obtain ⟨t, g, k, i, j, s, e1, e2⟩ := drawn_same hm hb (by rw [tliv_eq]; simp) h4
  rw [tliv_eq] at e1
  injection e1 with h1 e1
  injection e1 with h2 e1
  injection e1 with h3 e1
  injection e1 with h5 e1
  subst e2
  rw [← h1, ← h2, ← h3, ← e1]
  obtain ⟨a, b, c, d, he⟩ : ∃ a b c d, be32 te = [a, b, c, d] := ⟨_, _, _, _, rfl⟩
  rw [he]
  rw [show lenU16 [v, a, b, c, d] = 5 from rfl]
  have key : ∀ v : UInt8, v.toNat < 2 ^ 6 → v >>> 7 = 0 ∧ (v >>> 6) &&& 1 = 0 := by decide +kernel
  obtain ⟨k7, k6⟩ := key v h6
  have hlen : decide ((9 : UInt16).toNat ≤ (87 :: 0 :: 5 :: j :: v :: a :: b :: c :: d :: tail).length) = true :=
    decide_eq_true (by simp)
  have hc : (checkTliv m 5 (87 :: 0 :: 5 :: j :: v :: a :: b :: c :: d :: tail) : R Err Bool) = .ok true := by
    rw [← hlen]
    cases m <;> rfl
  have hu : Fteid.unmarshal m (87 :: 0 :: 5 :: j :: v :: a :: b :: c :: d :: tail) = .err (.ieIncorrect 87) := by
    unfold Fteid.unmarshal
    rw [if_pos (by simp)]
    show (checkTliv m 5 _ >>= _) = _
    rw [hc]
    show (if v >>> 7 = 1 ∧ (v >>> 6) &&& 1 = 1 then _ else if v >>> 7 = 1 ∧ (v >>> 6) &&& 1 = 0 then _ else
      if v >>> 7 = 0 ∧ (v >>> 6) &&& 1 = 1 then _ else R.err (Err.ieIncorrect 87)) = _
    rw [if_neg (by simp [k7]), if_neg (by simp [k7]), if_neg (by simp [k6])]
  show (Fteid.unmarshal m (87 :: 0 :: 5 :: j :: v :: a :: b :: c :: d :: tail) >>= _) >>= _ = _
  rw [hu]
  rfl

/-- C90, transaction identifiers: one from 7 on comes out as 128 more. -/
theorem C90_transaction (m : Mode) (x : V2.TransactionIdentifier) (f : Nat × List Row) (h : figure (.TransactionIdentifier x) = some f)
    (hf : ∀ r ∈ f.2, r.Fits) (hd : 7 ≤ x.tid.id) (b tail : Bytes) (hb : Drawn b f) (h4 : 4 ≤ b.length) :
    decodeOne (decoder m) m (b ++ tail) =
      .ok (.TransactionIdentifier ⟨137, 2, b.getD 3 0 &&& 0x0f, ⟨x.tid.flag, x.tid.id + 128⟩⟩, 6) := by
  obtain ⟨t, l, i, fl, id⟩ := x
  have hn : ¬ id < 7 := UInt8.not_lt.mpr hd
  simp only [figure, if_neg hn] at h
  cases h
  have h7 : id.toNat < 2 ^ 7 := (hf _ (.tail _ (.head _))).2 (7, _) (by simp)
  have key : ∀ id : UInt8, id.toNat < 2 ^ 7 → (id + 128).toNat = 128 + id.toNat := by decide +kernel
  have hm : Drawn (tliv 137 l i [if fl then 0xf0 else 0x70, id + 128])
      (137, [Row.bits [flag fl, (3, 7), spare 4], Row.bits [(1, 1), (7, id.toNat)]]) :=
    drawn rfl (by cases fl <;> simp [draw_bits, flag, spare, key id h7, - UInt8.toNat_add])
  obtain ⟨t, g, k, i, j, s, e1, e2⟩ := drawn_same hm hb (by rw [tliv_eq]; simp) h4
  rw [tliv_eq] at e1
  injection e1 with h1 e1
  injection e1 with h2 e1
  injection e1 with h3 e1
  injection e1 with h5 e1
  subst e2
  rw [← h1, ← h2, ← h3, ← e1]
  rw [show lenU16 [if fl then 0xf0 else 0x70, id + 128] = 2 from rfl]
  have hu : TransactionIdentifier.unmarshal m (137 :: 0 :: 2 :: j :: (if fl then 0xf0 else 0x70) :: (id + 128) :: tail) =
      .ok ⟨137, 2, j &&& 0x0f, ⟨fl, id + 128⟩⟩ := by
    cases fl <;> rt_simp [TransactionIdentifier.unmarshal, show of16 0 2 = 2 from rfl]
  have hk : kindOf 137 = .TransactionIdentifier := by decide +kernel
  rw [show hi16 2 = 0 from rfl, show lo16 2 = 2 from rfl]
  simp only [decodeOne, List.cons_append, List.nil_append, rd_zero, R.ok_bind, hk, unmKind]
  rw [hu]
  rfl

/-- C90, trace references: they are understood, although the crate itself writes them with another type. -/
theorem C90_trace (m : Mode) (x : V2.TraceReference) (f : Nat × List Row) (h : figure (.TraceReference x) = some f)
    (hf : ∀ r ∈ f.2, r.Fits) (hw : x.WF) : Understood m (.TraceReference x) f := by
  obtain ⟨t, l, i, mcc, mnc, three, id⟩ := x
  have hw' := hw
  obtain ⟨ht, hl, hi, hp, h24⟩ := hw'
  have ht : t = 83 := ht
  cases h
  intro b tail h4 hb hbi
  have hm : Drawn (tliv 115 l i (mccMncEncode mcc mnc three ++ be24 id)) (115, [pl mcc mnc three, o3 id]) :=
    drawn rfl (by simp [draw_pl (mcc := mcc) (mnc := mnc) (three := three) (hf _ (by simp)), draw_o3])
  obtain ⟨t', g, k, i', j, s, e1, e2⟩ := drawn_same hm hb (by rw [tliv_eq]; simp) h4
  rw [tliv_eq] at e1
  injection e1 with h1 e1
  injection e1 with h2 e1
  injection e1 with h3 e1
  injection e1 with h5 e1
  subst e2
  rw [← h1, ← h2, ← h3, ← e1] at hbi ⊢
  have hij : j &&& 0x0f = i := by
    rw [← mod16]
    exact hbi
  have hl6 : l = 6 := UInt16.toNat_inj.mp hl
  have hp : PlmnOk mcc mnc three := hp
  have h24 : id.toNat < 16777216 := h24
  obtain ⟨p0, p1, p2, q1, q2⟩ := mccMnc_roundtrip3 hp
  have hlen : lenU16 (mccMncEncode mcc mnc three ++ be24 id) = 6 := by rw [q1]; rfl
  rw [hlen]
  have hu : TraceReference.unmarshal m (115 :: 0 :: 6 :: j :: ((mccMncEncode mcc mnc three ++ be24 id) ++ tail)) =
      .ok ⟨83, 6, i, mcc, mnc, three, id⟩ := by
    rw [q1]
    rt_simp [TraceReference.unmarshal, hp, h24, q1, q2, mccMncDecode, of24_be h24, hij, show of16 0 6 = 6 from rfl]
  have hk : kindOf 115 = .TraceReference := by decide +kernel
  rw [show hi16 6 = 0 from rfl, show lo16 6 = 6 from rfl]
  simp only [decodeOne, List.cons_append, rd_zero, R.ok_bind, hk, unmKind]
  rw [hu, ht, hl6]
  rw [q1]
  rfl

/-- One hour east of Greenwich (the figure has 40 hexadecimal), the same in summer time with the Trace Reference behind it. -/
example : decodeOne (decoder .debug) .debug [114, 0, 2, 0, 0x40, 1] = .ok (.UeTimeZone ⟨114, 2, 0, 64, 1⟩, 6) ∧
    figure (.UeTimeZone ⟨114, 2, 0, 4, 1⟩) = some (114, [zoneFig 4, .bits [spare 6, (2, 1)]]) ∧ (zoneFig 4).draw = [0x40] ∧
    decodeOne (decoder .debug) .debug [115, 0, 6, 0, 0x62, 0xf2, 0x10, 0, 0, 7] = .ok (.TraceReference ⟨83, 6, 0, 262, 1, false, 7⟩, 10) :=
  ⟨by decide +kernel, rfl, by decide +kernel, by decide +kernel⟩

/-- C90 violated: octets as the figure has them, and what the decoder makes of them. A home eNodeB identity (7 in the area 9) is read
as 0 in the area 1792, and the next IE is looked for one octet too early; a presence reporting area action with a home eNodeB
identity is rejected; so is a presence reporting area without further areas; a header compression without profiles gets one;
the transaction identifier 9 is read as 137. -/
theorem C90_violation (m : Mode) :
    (∀ e f b, (e, f, b) ∈ [(IE.TargetIdentification ⟨121, 10, 0, .HomeeNbId ⟨⟨262, 1, false, 7⟩, 9⟩⟩,
        IE.TargetIdentification ⟨121, 10, 0, .HomeeNbId ⟨⟨262, 1, false, 0⟩, 1792⟩⟩, [121, 0, 10, 0, 3, 98, 242, 16, 0, 0, 0, 7, 0, 9]),
      (IE.HeaderCompressionConfiguration ⟨196, 4, 0, [], 3⟩, IE.HeaderCompressionConfiguration ⟨196, 4, 0, [0], 3⟩, [196, 0, 4, 0, 0, 0, 0, 3]),
      (IE.TransactionIdentifier ⟨137, 2, 0, ⟨true, 9⟩⟩, IE.TransactionIdentifier ⟨137, 2, 0, ⟨true, 137⟩⟩, [137, 0, 2, 0, 240, 137])] →
      e ≠ f ∧ (∃ g, figure e = some g ∧ (∀ r ∈ g.2, r.Fits) ∧ Drawn b g) ∧ ∃ n, decodeOne (decoder m) m b = .ok (f, n)) ∧
    (∀ e x b, (e, x, b) ∈ [(IE.PresenceReportingAreaAction ⟨177, 18, 0, false, 1, 7, [], [], [], [⟨262, 1, false, 7⟩], [], [], [], []⟩,
        Err.ieInvalidLength 177, [177, 0, 18, 0, 1, 0, 0, 7, 0, 0, 1, 0, 0, 0, 98, 242, 16, 0, 0, 0, 7, 0]),
      (IE.PresenceReportingAreaInformation ⟨178, 4, 0, .Ipra 7, none⟩, Err.ieInvalidLength 178, [178, 0, 4, 0, 0, 0, 7, 1]),
      (IE.Fteid ⟨87, 5, 0, 10, 1, none, none⟩, Err.ieIncorrect 87, [87, 0, 5, 0, 10, 0, 0, 0, 1])] →
      (∃ g, figure e = some g ∧ (∀ r ∈ g.2, r.Fits) ∧ Drawn b g) ∧ decodeOne (decoder m) m b = .err x) := by
  constructor
  · intro e f b hb
    simp only [List.mem_cons, List.not_mem_nil, or_false, Prod.mk.injEq] at hb
    rcases hb with ⟨rfl, rfl, rfl⟩ | ⟨rfl, rfl, rfl⟩ | ⟨rfl, rfl, rfl⟩
    · exact ⟨by decide, ⟨_, rfl, by decide +kernel, by decide +kernel⟩, 13, by cases m <;> decide +kernel⟩
    · exact ⟨by decide, ⟨_, rfl, by decide +kernel, by decide +kernel⟩, 8, by cases m <;> decide +kernel⟩
    · exact ⟨by decide, ⟨_, rfl, by decide +kernel, by decide +kernel⟩, 6, by cases m <;> decide +kernel⟩
  · intro e x b hb
    simp only [List.mem_cons, List.not_mem_nil, or_false, Prod.mk.injEq] at hb
    rcases hb with ⟨rfl, rfl, rfl⟩ | ⟨rfl, rfl, rfl⟩ | ⟨rfl, rfl, rfl⟩
    all_goals exact ⟨⟨_, rfl, by decide +kernel, by decide +kernel⟩, by cases m <;> decide +kernel⟩

end Gtp.Props
