import Verif.V2.IeBase

/-!
# Information elements with packed bit fields

Expanded by `scripts/gen_ies.py`; the citations refer to `/repo/src/gtpv2/messages/ies`.
-/

namespace Gtp.V2

set_option linter.unusedSimpArgs false

/-- `EpcTimer` (epctimer.rs:17-23). -/
structure EpcTimer where
  t : UInt8
  length : UInt16
  ins : UInt8
  timer_unit : UInt8
  timer_value : UInt8
deriving DecidableEq, Repr

namespace EpcTimer

/-- Octet 5 (epctimer.rs:49-52). -/
def pack (unit value : UInt8) : UInt8 :=
  if value < 0x7f then (unit <<< 5) ||| value else (unit <<< 5) ||| 0x7f

/-- Unit read from three bits (epctimer.rs:62-66). -/
def unitOf (i : UInt8) : UInt8 := if i ≤ 4 then i else if i = 7 then 7 else 1

theorem pack_dec {u v : UInt8} (hu : u < 5 ∨ u = 7) (hv : v < 32) :
    unitOf (pack u v >>> 5) = u ∧ pack u v &&& 0x1f = v := by
  have key : ∀ u : UInt8, u < 5 ∨ u = 7 → ∀ v : UInt8, v < 32 →
      unitOf (pack u v >>> 5) = u ∧ pack u v &&& 0x1f = v := by decide +kernel
  exact key u hu v hv

/-- `marshal` (epctimer.rs:44-55). -/
def marshal (x : EpcTimer) : Bytes :=
  tliv 156 x.length x.ins [pack x.timer_unit x.timer_value]

/-- `unmarshal` (epctimer.rs:57-74). -/
def unmarshal (_m : Mode) (b : Bytes) : R Err EpcTimer := do
  if 5 ≤ b.length then
    let length ← rd16 b 1
    let ins ← rd b 3
    let v ← rd b 4
    return { t := 156, length, ins := ins &&& 0x0f, timer_unit := unitOf (v >>> 5),
             timer_value := v &&& 0x1f }
  else .err (.ieInvalidLength 156)

/-- `len` (epctimer.rs:76-78). -/
def len (_m : Mode) (_x : EpcTimer) : R Err Nat := .ok 5

/-- Field values that the encoding of a `EpcTimer` can represent. -/
def WF (x : EpcTimer) : Prop :=
  x.t = 156 ∧
  x.length.toNat = 1 ∧
  x.ins < 16 ∧
  (x.timer_unit < 5 ∨ x.timer_unit = 7) ∧
  x.timer_value < 32

instance (x : EpcTimer) : Decidable x.WF := by unfold WF; infer_instance

theorem rt : RoundTrips WF marshal unmarshal := by
  intro m x tail h
  obtain ⟨t, length, ins, timer_unit, timer_value⟩ := x
  obtain ⟨ht, hl, hi, hu, hv⟩ := h
  simp only at ht hl hi hu hv
  have hp := pack_dec hu hv
  enc_simp [marshal, hp]
  rt_simp [unmarshal, ht, hl, hi, hu, hv, hp]

theorem len_ok : LenOk WF marshal len := by
  intro m x h
  have hm : x.marshal.length = 5 := by
    obtain ⟨t, length, ins, timer_unit, timer_value⟩ := x
    obtain ⟨ht, hl, hi, hu, hv⟩ := h
    simp only at ht hl hi hu hv
    have hp := pack_dec hu hv
    enc_simp [marshal, hp]
    simp [gtp]
  rw [hm]; rfl

theorem safe : FixedSafe 5 unmarshal len := by
  intro m b
  safe_simp [unmarshal, len]
  safe_fin

end EpcTimer

/-- `Throttling` (throttling.rs:30-37). -/
structure Throttling where
  t : UInt8
  length : UInt16
  ins : UInt8
  delay_unit : UInt8
  delay_value : UInt8
  factor : UInt8
deriving DecidableEq, Repr

namespace Throttling

/-- Unit read from three bits (throttling.rs:77-81). -/
def unitOf (i : UInt8) : UInt8 := if i < 5 then i else if i = 7 then 0 else 1

/-- Factor read from an octet (throttling.rs:83-86). -/
def factorOf (i : UInt8) : UInt8 := if i < 101 then i else 0

theorem pack_dec {u v : UInt8} (hu : u < 5) (hv : v < 32) :
    unitOf (((u <<< 5) ||| v) >>> 5) = u ∧ ((u <<< 5) ||| v) &&& 0x1f = v := by
  have key : ∀ u : UInt8, u < 5 → ∀ v : UInt8, v < 32 →
      unitOf (((u <<< 5) ||| v) >>> 5) = u ∧ ((u <<< 5) ||| v) &&& 0x1f = v := by decide +kernel
  exact key u hu v hv

theorem factorOf_id {f : UInt8} (hf : f ≤ 100) : factorOf f = f := by
  revert f
  decide +kernel

/-- `marshal` (throttling.rs:59-68). -/
def marshal (x : Throttling) : Bytes :=
  tliv 154 x.length x.ins [(x.delay_unit <<< 5) ||| x.delay_value, x.factor]

/-- `unmarshal` (throttling.rs:70-91). -/
def unmarshal (_m : Mode) (b : Bytes) : R Err Throttling := do
  if 6 ≤ b.length then
    let length ← rd16 b 1
    let ins ← rd b 3
    let v ← rd b 4
    let f ← rd b 5
    return { t := 154, length, ins := ins &&& 0x0f, delay_unit := unitOf (v >>> 5),
             delay_value := v &&& 0x1f, factor := factorOf f }
  else .err (.ieInvalidLength 154)

/-- `len` (throttling.rs:93-95). -/
def len (_m : Mode) (_x : Throttling) : R Err Nat := .ok 6

/-- Field values that the encoding of a `Throttling` can represent. -/
def WF (x : Throttling) : Prop :=
  x.t = 154 ∧
  x.length.toNat = 2 ∧
  x.ins < 16 ∧
  x.delay_unit < 5 ∧
  x.delay_value < 32 ∧
  x.factor ≤ 100

instance (x : Throttling) : Decidable x.WF := by unfold WF; infer_instance

theorem rt : RoundTrips WF marshal unmarshal := by
  intro m x tail h
  obtain ⟨t, length, ins, delay_unit, delay_value, factor⟩ := x
  obtain ⟨ht, hl, hi, hu, hv, hf⟩ := h
  simp only at ht hl hi hu hv hf
  have hp := pack_dec hu hv
  have hf := factorOf_id hf
  enc_simp [marshal, hp]
  rt_simp [unmarshal, ht, hl, hi, hu, hv, hf, hp]

theorem len_ok : LenOk WF marshal len := by
  intro m x h
  have hm : x.marshal.length = 6 := by
    obtain ⟨t, length, ins, delay_unit, delay_value, factor⟩ := x
    obtain ⟨ht, hl, hi, hu, hv, hf⟩ := h
    simp only at ht hl hi hu hv hf
    have hp := pack_dec hu hv
    have hf := factorOf_id hf
    enc_simp [marshal, hp]
    simp [gtp]
  rw [hm]; rfl

theorem safe : FixedSafe 6 unmarshal len := by
  intro m b
  safe_simp [unmarshal, len]
  safe_fin

end Throttling

/-- `UeTimeZone` (uetimezone.rs:17-23). -/
structure UeTimeZone where
  t : UInt8
  length : UInt16
  ins : UInt8
  time_zone : Int8
  dst : UInt8
deriving DecidableEq, Repr

namespace UeTimeZone

/-- Octet 5 (uetimezone.rs:49-53); `unsigned_abs` of an `i8`. -/
def zoneOctet (z : Int8) : UInt8 :=
  if 0 ≤ z then UInt8.ofNat z.toInt.natAbs else (0x80 : UInt8) ||| UInt8.ofNat z.toInt.natAbs

/-- Time zone read from octet 5 (uetimezone.rs:66-70). -/
def zoneOf (v : UInt8) : Int8 :=
  if v >>> 7 = 0 then (v &&& 0x7f).toInt8 else if v >>> 7 = 1 then -(v &&& 0x7f).toInt8 else 0

theorem zone_dec {z : Int8} (h : z ≠ -128) : zoneOf (zoneOctet z) = z := by
  have key : ∀ n : UInt8, n.toInt8 ≠ -128 → zoneOf (zoneOctet n.toInt8) = n.toInt8 := by
    decide +kernel
  have := key z.toUInt8
  simp only [Int8.toInt8_toUInt8] at this
  exact this h

/-- `marshal` (uetimezone.rs:44-57). -/
def marshal (x : UeTimeZone) : Bytes :=
  tliv 114 x.length x.ins [zoneOctet x.time_zone, x.dst]

/-- `unmarshal` (uetimezone.rs:59-76). -/
def unmarshal (_m : Mode) (b : Bytes) : R Err UeTimeZone := do
  if 6 ≤ b.length then
    let length ← rd16 b 1
    let ins ← rd b 3
    let v ← rd b 4
    let d ← rd b 5
    return { t := 114, length, ins := ins &&& 0x0f, time_zone := zoneOf v, dst := d &&& 0x03 }
  else .err (.ieInvalidLength 114)

/-- `len` (uetimezone.rs:78-80). -/
def len (_m : Mode) (_x : UeTimeZone) : R Err Nat := .ok 6

/-- Field values that the encoding of a `UeTimeZone` can represent. -/
def WF (x : UeTimeZone) : Prop :=
  x.t = 114 ∧
  x.length.toNat = 2 ∧
  x.ins < 16 ∧
  x.time_zone ≠ -128 ∧
  x.dst < 4

instance (x : UeTimeZone) : Decidable x.WF := by unfold WF; infer_instance

theorem rt : RoundTrips WF marshal unmarshal := by
  intro m x tail h
  obtain ⟨t, length, ins, time_zone, dst⟩ := x
  obtain ⟨ht, hl, hi, hz, hd⟩ := h
  simp only at ht hl hi hz hd
  have hp := zone_dec hz
  enc_simp [marshal, hp]
  rt_simp [unmarshal, ht, hl, hi, hz, hd, hp]

theorem len_ok : LenOk WF marshal len := by
  intro m x h
  have hm : x.marshal.length = 6 := by
    obtain ⟨t, length, ins, time_zone, dst⟩ := x
    obtain ⟨ht, hl, hi, hz, hd⟩ := h
    simp only at ht hl hi hz hd
    have hp := zone_dec hz
    enc_simp [marshal, hp]
    simp [gtp]
  rw [hm]; rfl

theorem safe : FixedSafe 6 unmarshal len := by
  intro m b
  safe_simp [unmarshal, len]
  safe_fin

end UeTimeZone

/-- `Arp` (arp.rs:17-24). -/
structure Arp where
  t : UInt8
  length : UInt16
  ins : UInt8
  pci : Bool
  pl : UInt8
  pvi : Bool
deriving DecidableEq, Repr

namespace Arp

/-- Octet 5 (arp.rs:51-56). -/
def pack (pci : Bool) (pl : UInt8) (pvi : Bool) : UInt8 :=
  match pci, pvi with
  | false, false => pl <<< 2
  | false, true => (pl <<< 2) ||| 0x01
  | true, false => (0x40 : UInt8) ||| (pl <<< 2)
  | true, true => (0x40 : UInt8) ||| (pl <<< 2) ||| 0x01

theorem pack_dec {pci pvi : Bool} {pl : UInt8} (h : pl < 16) :
    (pack pci pl pvi >>> 6 = 0 ∨ pack pci pl pvi >>> 6 = 1) ∧
    decide (pack pci pl pvi >>> 6 = 1) = pci ∧ (pack pci pl pvi >>> 2) &&& 0x0f = pl ∧
    decide (pack pci pl pvi &&& 1 = 1) = pvi := by
  revert pl pci pvi
  decide +kernel

/-- `marshal` (arp.rs:46-59). -/
def marshal (x : Arp) : Bytes :=
  tliv 155 x.length x.ins [pack x.pci x.pl x.pvi]

/-- `unmarshal` (arp.rs:61-83): `b[4] & 1` is 0 or 1. -/
def unmarshal (_m : Mode) (b : Bytes) : R Err Arp := do
  if 5 ≤ b.length then
    let length ← rd16 b 1
    let ins ← rd b 3
    let v ← rd b 4
    if v >>> 6 = 0 ∨ v >>> 6 = 1 then
      return { t := 155, length, ins := ins &&& 0x0f, pci := decide (v >>> 6 = 1), pl := (v >>> 2) &&& 0x0f,
               pvi := decide (v &&& 1 = 1) }
    else .err (.ieIncorrect 155)
  else .err (.ieInvalidLength 155)

/-- `len` (arp.rs:85-87). -/
def len (_m : Mode) (x : Arp) : R Err Nat := ieLenU x.length

/-- Field values that the encoding of a `Arp` can represent. -/
def WF (x : Arp) : Prop := x.t = 155 ∧ x.length.toNat = 1 ∧ x.ins < 16 ∧ x.pl < 16

instance (x : Arp) : Decidable x.WF := by unfold WF; infer_instance

theorem rt : RoundTrips WF marshal unmarshal := by
  intro m x tail h
  obtain ⟨t, length, ins, pci, pl, pvi⟩ := x
  obtain ⟨ht, hl, hi, hp⟩ := h
  simp only at ht hl hi hp
  have h := pack_dec (pci := pci) (pvi := pvi) hp
  enc_simp [marshal]
  generalize pack pci pl pvi = v at h ⊢
  obtain ⟨h1, rfl, rfl, rfl⟩ := h
  rt_simp [unmarshal, ht, hl, hi, h1]

theorem len_ok : LenOk WF marshal len := by
  intro m x h
  obtain ⟨t, length, ins, pci, pl, pvi⟩ := x
  obtain ⟨ht, hl, hi, hp⟩ := h
  simp only at ht hl hi hp
  enc_simp [marshal]
  simp only [len, ieLenU]
  congr 1
  simp only [List.length_cons, List.length_append, List.length_nil, gtplen]
  try omega

theorem safe : LooseSafe (fun _ => True) unmarshal len := by
  intro m b hb hc
  unfold declLen at *
  safe_simp [unmarshal, len]
  safe_fin

end Arp

/-- `BearerQos` (bearerqos.rs:17-29). -/
structure BearerQos where
  t : UInt8
  length : UInt16
  ins : UInt8
  pre_emption_vulnerability : UInt8
  priority_level : UInt8
  pre_emption_capability : UInt8
  qci : UInt8
  maxbr_ul : UInt64
  maxbr_dl : UInt64
  gbr_ul : UInt64
  gbr_dl : UInt64
deriving DecidableEq, Repr

namespace BearerQos

theorem pack_dec {c p v : UInt8} (hc : c < 2) (hp : p < 16) (hv : v < 2) :
    (((c <<< 6) ||| (p <<< 2) ||| v) >>> 6) &&& 1 = c ∧ (((c <<< 6) ||| (p <<< 2) ||| v) >>> 2) &&& 15 = p ∧
    ((c <<< 6) ||| (p <<< 2) ||| v) &&& 1 = v := by
  have key : ∀ c : UInt8, c < 2 → ∀ v : UInt8, v < 2 → ∀ p : UInt8, p < 16 → (((c <<< 6) ||| (p <<< 2) ||| v) >>> 6) &&& 1 = c ∧
      (((c <<< 6) ||| (p <<< 2) ||| v) >>> 2) &&& 15 = p ∧
      ((c <<< 6) ||| (p <<< 2) ||| v) &&& 1 = (v : UInt8) := by decide +kernel
  exact key c hc v hv p hp

/-- `marshal` (bearerqos.rs:56-73). -/
def marshal (x : BearerQos) : Bytes :=
  tliv 80 x.length x.ins <|
    [(x.pre_emption_capability <<< 6) ||| (x.priority_level <<< 2) ||| x.pre_emption_vulnerability, x.qci] ++
      be40 x.maxbr_ul ++ be40 x.maxbr_dl ++ be40 x.gbr_ul ++ be40 x.gbr_dl

/-- `unmarshal` (bearerqos.rs:75-102). -/
def unmarshal (_m : Mode) (b : Bytes) : R Err BearerQos := do
  if 26 ≤ b.length then
    let length ← rd16 b 1
    let ins ← rd b 3
    let v ← rd b 4
    let qci ← rd b 5
    let maxbr_ul ← rd40 b 6
    let maxbr_dl ← rd40 b 11
    let gbr_ul ← rd40 b 16
    let gbr_dl ← rd40 b 21
    return { t := 80, length, ins := ins &&& 0x0f,
             pre_emption_capability := (v >>> 6) &&& 0x01,
             priority_level := (v >>> 2) &&& 0x0f, pre_emption_vulnerability := v &&& 0x01,
             qci, maxbr_ul, maxbr_dl, gbr_ul, gbr_dl }
  else .err (.ieInvalidLength 80)

/-- `len` (bearerqos.rs:104-106). -/
def len (_m : Mode) (_x : BearerQos) : R Err Nat := .ok 26

/-- Field values that the encoding of a `BearerQos` can represent. -/
def WF (x : BearerQos) : Prop :=
  x.t = 80 ∧
  x.length.toNat = 22 ∧
  x.ins < 16 ∧
  x.pre_emption_vulnerability < 2 ∧
  x.priority_level < 16 ∧
  x.pre_emption_capability < 2 ∧
  x.maxbr_ul.toNat < 1099511627776 ∧
  x.maxbr_dl.toNat < 1099511627776 ∧
  x.gbr_ul.toNat < 1099511627776 ∧
  x.gbr_dl.toNat < 1099511627776

instance (x : BearerQos) : Decidable x.WF := by unfold WF; infer_instance

theorem rt : RoundTrips WF marshal unmarshal := by
  intro m x tail h
  obtain ⟨t, length, ins, pre_emption_vulnerability, priority_level, pre_emption_capability, qci, maxbr_ul, maxbr_dl, gbr_ul, gbr_dl⟩ := x
  obtain ⟨ht, hl, hi, hv, hp, hc, h0, h1, h2, h3⟩ := h
  simp only at ht hl hi hv hp hc h0 h1 h2 h3
  have hq := pack_dec hc hp hv
  enc_simp [marshal, hq, of40_be h0, of40_be h1, of40_be h2, of40_be h3]
  rt_simp [unmarshal, ht, hl, hi, hv, hp, hc, h0, h1, h2, h3, hq, of40_be h0, of40_be h1, of40_be h2, of40_be h3]

theorem len_ok : LenOk WF marshal len := by
  intro m x h
  have hm : x.marshal.length = 26 := by
    obtain ⟨t, length, ins, pre_emption_vulnerability, priority_level, pre_emption_capability, qci, maxbr_ul, maxbr_dl, gbr_ul, gbr_dl⟩ := x
    obtain ⟨ht, hl, hi, hv, hp, hc, h0, h1, h2, h3⟩ := h
    simp only at ht hl hi hv hp hc h0 h1 h2 h3
    have hq := pack_dec hc hp hv
    enc_simp [marshal, hq, of40_be h0, of40_be h1, of40_be h2, of40_be h3]
    simp [gtp]
  rw [hm]; rfl

theorem safe : FixedSafe 26 unmarshal len := by
  intro m b
  safe_simp [unmarshal, len]
  safe_fin

end BearerQos

/-- `FlowQos` (flowqos.rs:16-25). -/
structure FlowQos where
  t : UInt8
  length : UInt16
  ins : UInt8
  qci : UInt8
  maxbr_ul : UInt64
  maxbr_dl : UInt64
  gbr_ul : UInt64
  gbr_dl : UInt64
deriving DecidableEq, Repr

namespace FlowQos

/-- `marshal` (flowqos.rs:49-61). -/
def marshal (x : FlowQos) : Bytes :=
  tliv 81 x.length x.ins ([x.qci] ++ be40 x.maxbr_ul ++ be40 x.maxbr_dl ++ be40 x.gbr_ul ++ be40 x.gbr_dl)

/-- `unmarshal` (flowqos.rs:63-87). -/
def unmarshal (_m : Mode) (b : Bytes) : R Err FlowQos := do
  if 25 ≤ b.length then
    let length ← rd16 b 1
    let ins ← rd b 3
    let qci ← rd b 4
    let maxbr_ul ← rd40 b 5
    let maxbr_dl ← rd40 b 10
    let gbr_ul ← rd40 b 15
    let gbr_dl ← rd40 b 20
    return { t := 81, length, ins := ins &&& 0x0f, qci, maxbr_ul, maxbr_dl, gbr_ul, gbr_dl }
  else .err (.ieInvalidLength 81)

/-- `len` (flowqos.rs:89-91). -/
def len (_m : Mode) (_x : FlowQos) : R Err Nat := .ok 25

/-- Field values that the encoding of a `FlowQos` can represent. -/
def WF (x : FlowQos) : Prop :=
  x.t = 81 ∧
  x.length.toNat = 21 ∧
  x.ins < 16 ∧
  x.maxbr_ul.toNat < 1099511627776 ∧
  x.maxbr_dl.toNat < 1099511627776 ∧
  x.gbr_ul.toNat < 1099511627776 ∧
  x.gbr_dl.toNat < 1099511627776

instance (x : FlowQos) : Decidable x.WF := by unfold WF; infer_instance

theorem rt : RoundTrips WF marshal unmarshal := by
  intro m x tail h
  obtain ⟨t, length, ins, qci, maxbr_ul, maxbr_dl, gbr_ul, gbr_dl⟩ := x
  obtain ⟨ht, hl, hi, h0, h1, h2, h3⟩ := h
  simp only at ht hl hi h0 h1 h2 h3
  enc_simp [marshal, of40_be h0, of40_be h1, of40_be h2, of40_be h3]
  rt_simp [unmarshal, ht, hl, hi, h0, h1, h2, h3, of40_be h0, of40_be h1, of40_be h2, of40_be h3]

theorem len_ok : LenOk WF marshal len := by
  intro m x h
  have hm : x.marshal.length = 25 := by
    obtain ⟨t, length, ins, qci, maxbr_ul, maxbr_dl, gbr_ul, gbr_dl⟩ := x
    obtain ⟨ht, hl, hi, h0, h1, h2, h3⟩ := h
    simp only at ht hl hi h0 h1 h2 h3
    enc_simp [marshal, of40_be h0, of40_be h1, of40_be h2, of40_be h3]
    simp [gtp]
  rw [hm]; rfl

theorem safe : FixedSafe 25 unmarshal len := by
  intro m b
  safe_simp [unmarshal, len]
  safe_fin

end FlowQos

/-- `MbmsSessionDuration` (mbmssd.rs:17-23). -/
structure MbmsSessionDuration where
  t : UInt8
  length : UInt16
  ins : UInt8
  seconds : UInt32
  days : UInt8
deriving DecidableEq, Repr

namespace MbmsSessionDuration

theorem pack_nat {s : UInt32} {d : UInt8} (hs : s.toNat < 131072) (hd : d < 128) :
    ((s <<< 7) ||| d.toUInt32).toNat = s.toNat * 128 + d.toNat := by
  have hd' : d.toNat < 128 := hd
  have h7 : ((7 : UInt32).toNat % 32) = 7 := rfl
  rw [UInt32.toNat_or, UInt32.toNat_shiftLeft, h7, UInt8.toNat_toUInt32, Nat.shiftLeft_eq]
  have e : s.toNat * 2 ^ 7 % 2 ^ 32 = s.toNat * 2 ^ 7 := Nat.mod_eq_of_lt (by omega)
  rw [e, Nat.mul_comm, ← Nat.two_pow_add_eq_or_of_lt (i := 7) hd', Nat.mul_comm]

theorem pack_dec {s : UInt32} {d : UInt8} (hs : s.toNat < 131072) (hd : d < 128) :
    ((s <<< 7) ||| d.toUInt32) >>> 7 = s ∧ oct32 0 ((s <<< 7) ||| d.toUInt32) &&& 127 = d := by
  have hd' : d.toNat < 128 := hd
  have h := pack_nat hs hd
  constructor
  · apply UInt32.toNat_inj.mp
    have h7 : ((7 : UInt32).toNat % 32) = 7 := rfl
    rw [UInt32.toNat_shiftRight, h, h7, Nat.shiftRight_eq_div_pow]
    omega
  · apply UInt8.toNat_inj.mp
    have h127 : (127 : UInt8).toNat = 2 ^ 7 - 1 := rfl
    rw [UInt8.toNat_and, h127, Nat.and_two_pow_sub_one_eq_mod, oct32, h]
    simp
    omega

/-- `marshal` (mbmssd.rs:44-53). -/
def marshal (x : MbmsSessionDuration) : Bytes :=
  tliv 138 x.length x.ins (be24 ((x.seconds <<< 7) ||| x.days.toUInt32))

/-- `unmarshal` (mbmssd.rs:55-68). -/
def unmarshal (_m : Mode) (b : Bytes) : R Err MbmsSessionDuration := do
  if 7 ≤ b.length then
    let length ← rd16 b 1
    let ins ← rd b 3
    let v ← rd24 b 4
    let d ← rd b 6
    return { t := 138, length, ins := ins &&& 0x0f, seconds := v >>> 7, days := d &&& 0x7f }
  else .err (.ieInvalidLength 138)

/-- `len` (mbmssd.rs:70-72). -/
def len (_m : Mode) (_x : MbmsSessionDuration) : R Err Nat := .ok 7

/-- Field values that the encoding of a `MbmsSessionDuration` can represent. -/
def WF (x : MbmsSessionDuration) : Prop :=
  x.t = 138 ∧
  x.length.toNat = 3 ∧
  x.ins < 16 ∧
  x.seconds.toNat < 131072 ∧
  x.days < 128

instance (x : MbmsSessionDuration) : Decidable x.WF := by unfold WF; infer_instance

theorem rt : RoundTrips WF marshal unmarshal := by
  intro m x tail h
  obtain ⟨t, length, ins, seconds, days⟩ := x
  obtain ⟨ht, hl, hi, hs, hd⟩ := h
  simp only at ht hl hi hs hd
  have hp := pack_dec hs hd
  have h24 : ((seconds <<< 7) ||| days.toUInt32).toNat < 16777216 := by
    have hd' : days.toNat < 128 := hd
    rw [pack_nat hs hd]; omega
  enc_simp [marshal, of24_be h24, hp]
  rt_simp [unmarshal, ht, hl, hi, hs, hd, of24_be h24, hp]

theorem len_ok : LenOk WF marshal len := by
  intro m x h
  have hm : x.marshal.length = 7 := by
    obtain ⟨t, length, ins, seconds, days⟩ := x
    obtain ⟨ht, hl, hi, hs, hd⟩ := h
    simp only at ht hl hi hs hd
    have hp := pack_dec hs hd
    have h24 : ((seconds <<< 7) ||| days.toUInt32).toNat < 16777216 := by
      have hd' : days.toNat < 128 := hd
      rw [pack_nat hs hd]; omega
    enc_simp [marshal, of24_be h24, hp]
    simp [gtp]
  rw [hm]; rfl

theorem safe : FixedSafe 7 unmarshal len := by
  intro m b
  safe_simp [unmarshal, len]
  safe_fin

end MbmsSessionDuration

/-- `Tmgi` (tmgi.rs:17-22); the array `tmgi: [u8; 6]` is a list, of length 6 when well formed. -/
structure Tmgi where
  t : UInt8
  length : UInt16
  ins : UInt8
  tmgi : Bytes
deriving DecidableEq, Repr

namespace Tmgi

/-- `marshal` (tmgi.rs:42-50). -/
def marshal (x : Tmgi) : Bytes :=
  tliv 158 x.length x.ins (x.tmgi)

/-- `unmarshal` (tmgi.rs:52-68). -/
def unmarshal (_m : Mode) (b : Bytes) : R Err Tmgi := do
  if 10 ≤ b.length then
    let length ← rd16 b 1
    let ins ← rd b 3
    let tmgi ← sl b 4 10
    return { t := 158, length, ins, tmgi }
  else .err (.ieInvalidLength 158)

/-- `len` (tmgi.rs:70-72). -/
def len (_m : Mode) (_x : Tmgi) : R Err Nat := .ok 10

/-- Field values that the encoding of a `Tmgi` can represent. -/
def WF (x : Tmgi) : Prop := x.t = 158 ∧ x.length.toNat = 6 ∧ x.tmgi.length = 6

instance (x : Tmgi) : Decidable x.WF := by unfold WF; infer_instance

theorem rt : RoundTrips WF marshal unmarshal := by
  intro m x tail h
  obtain ⟨t, length, ins, tmgi⟩ := x
  obtain ⟨ht, hl, h6⟩ := h
  simp only at ht hl h6
  obtain ⟨n0, n1, n2, n3, n4, n5, rfl⟩ := exists_list6 h6
  enc_simp [marshal]
  rt_simp [unmarshal, ht, hl, h6]

theorem len_ok : LenOk WF marshal len := by
  intro m x h
  have hm : x.marshal.length = 10 := by
    obtain ⟨t, length, ins, tmgi⟩ := x
    obtain ⟨ht, hl, h6⟩ := h
    simp only at ht hl h6
    obtain ⟨n0, n1, n2, n3, n4, n5, rfl⟩ := exists_list6 h6
    enc_simp [marshal]
    simp [gtp]
  rw [hm]; rfl

theorem safe : FixedSafe 10 unmarshal len := by
  intro m b
  safe_simp [unmarshal, len]
  safe_fin

end Tmgi

/-- `PduNumbers` (pdunumbers.rs:17-26). -/
structure PduNumbers where
  t : UInt8
  length : UInt16
  ins : UInt8
  nsapi : UInt8
  dl_gtpu_sqn : UInt16
  ul_gtpu_sqn : UInt16
  send_npdu : UInt16
  receive_npdu : UInt16
deriving DecidableEq, Repr

namespace PduNumbers

/-- `marshal` (pdunumbers.rs:50-62). -/
def marshal (x : PduNumbers) : Bytes :=
  tliv 110 x.length x.ins ([x.nsapi] ++ be16 x.dl_gtpu_sqn ++ be16 x.ul_gtpu_sqn ++ be16 x.send_npdu ++ be16 x.receive_npdu)

/-- `unmarshal` (pdunumbers.rs:64-80). -/
def unmarshal (_m : Mode) (b : Bytes) : R Err PduNumbers := do
  if 13 ≤ b.length then
    let length ← rd16 b 1
    let ins ← rd b 3
    let n ← rd b 4
    let dl_gtpu_sqn ← rd16 b 5
    let ul_gtpu_sqn ← rd16 b 7
    let send_npdu ← rd16 b 9
    let receive_npdu ← rd16 b 11
    return { t := 110, length, ins := ins &&& 0x0f, nsapi := n &&& 0x0f, dl_gtpu_sqn,
             ul_gtpu_sqn, send_npdu, receive_npdu }
  else .err (.ieInvalidLength 110)

/-- `len` (pdunumbers.rs:82-84). -/
def len (_m : Mode) (x : PduNumbers) : R Err Nat := ieLenU x.length

/-- Field values that the encoding of a `PduNumbers` can represent. -/
def WF (x : PduNumbers) : Prop := x.t = 110 ∧ x.length.toNat = 9 ∧ x.ins < 16 ∧ x.nsapi < 16

instance (x : PduNumbers) : Decidable x.WF := by unfold WF; infer_instance

theorem rt : RoundTrips WF marshal unmarshal := by
  intro m x tail h
  obtain ⟨t, length, ins, nsapi, dl_gtpu_sqn, ul_gtpu_sqn, send_npdu, receive_npdu⟩ := x
  obtain ⟨ht, hl, hi, hn⟩ := h
  simp only at ht hl hi hn
  enc_simp [marshal]
  rt_simp [unmarshal, ht, hl, hi, hn]

theorem len_ok : LenOk WF marshal len := by
  intro m x h
  obtain ⟨t, length, ins, nsapi, dl_gtpu_sqn, ul_gtpu_sqn, send_npdu, receive_npdu⟩ := x
  obtain ⟨ht, hl, hi, hn⟩ := h
  simp only at ht hl hi hn
  enc_simp [marshal]
  simp only [len, ieLenU]
  congr 1
  simp only [List.length_cons, List.length_append, List.length_nil, gtplen]
  try omega

theorem safe : LooseSafe (fun _ => True) unmarshal len := by
  intro m b hb hc
  unfold declLen at *
  safe_simp [unmarshal, len]
  safe_fin

end PduNumbers

/-- `RabContext` (rabcontext.rs:17-26). -/
structure RabContext where
  t : UInt8
  length : UInt16
  ins : UInt8
  nsapi : UInt8
  dl_gtpu_sqn : UInt16
  ul_gtpu_sqn : UInt16
  dl_pdcp_sqn : UInt16
  ul_pdcp_sqn : UInt16
deriving DecidableEq, Repr

namespace RabContext

/-- Octet 5 (rabcontext.rs:55-59). -/
def flag (a b c d : Bool) (nsapi : UInt8) : UInt8 :=
  (b2u a <<< 7) ||| (b2u b <<< 6) ||| (b2u c <<< 5) ||| (b2u d <<< 4) ||| nsapi

theorem flag_dec (a b c d : Bool) {n : UInt8} (h : n < 16) : flag a b c d n &&& 15 = n := by
  revert n a b c d
  decide +kernel

/-- `marshal` (rabcontext.rs:50-67). -/
def marshal (x : RabContext) : Bytes :=
  tliv 124 x.length x.ins <|
    [flag (x.ul_pdcp_sqn == 0) (x.dl_pdcp_sqn == 0) (x.ul_gtpu_sqn == 0) (x.dl_gtpu_sqn == 0) x.nsapi] ++
      be16 x.dl_gtpu_sqn ++ be16 x.ul_gtpu_sqn ++ be16 x.dl_pdcp_sqn ++ be16 x.ul_pdcp_sqn

/-- `unmarshal` (rabcontext.rs:69-85). -/
def unmarshal (_m : Mode) (b : Bytes) : R Err RabContext := do
  if 13 ≤ b.length then
    let length ← rd16 b 1
    let ins ← rd b 3
    let n ← rd b 4
    let dl_gtpu_sqn ← rd16 b 5
    let ul_gtpu_sqn ← rd16 b 7
    let dl_pdcp_sqn ← rd16 b 9
    let ul_pdcp_sqn ← rd16 b 11
    return { t := 124, length, ins := ins &&& 0x0f, nsapi := n &&& 0x0f, dl_gtpu_sqn,
             ul_gtpu_sqn, dl_pdcp_sqn, ul_pdcp_sqn }
  else .err (.ieInvalidLength 124)

/-- `len` (rabcontext.rs:87-89). -/
def len (_m : Mode) (_x : RabContext) : R Err Nat := .ok 13

/-- Field values that the encoding of a `RabContext` can represent. -/
def WF (x : RabContext) : Prop := x.t = 124 ∧ x.length.toNat = 9 ∧ x.ins < 16 ∧ x.nsapi < 16

instance (x : RabContext) : Decidable x.WF := by unfold WF; infer_instance

theorem rt : RoundTrips WF marshal unmarshal := by
  intro m x tail h
  obtain ⟨t, length, ins, nsapi, dl_gtpu_sqn, ul_gtpu_sqn, dl_pdcp_sqn, ul_pdcp_sqn⟩ := x
  obtain ⟨ht, hl, hi, hn⟩ := h
  simp only at ht hl hi hn
  enc_simp [marshal, flag_dec _ _ _ _ hn]
  rt_simp [unmarshal, ht, hl, hi, hn, flag_dec _ _ _ _ hn]

theorem len_ok : LenOk WF marshal len := by
  intro m x h
  have hm : x.marshal.length = 13 := by
    obtain ⟨t, length, ins, nsapi, dl_gtpu_sqn, ul_gtpu_sqn, dl_pdcp_sqn, ul_pdcp_sqn⟩ := x
    obtain ⟨ht, hl, hi, hn⟩ := h
    simp only at ht hl hi hn
    enc_simp [marshal, flag_dec _ _ _ _ hn]
    simp [gtp]
  rw [hm]; rfl

theorem safe : FixedSafe 13 unmarshal len := by
  intro m b
  safe_simp [unmarshal, len]
  safe_fin

end RabContext

/-- `ApnRateControlStatus` (apnratecontrolstatus.rs:13-21). -/
structure ApnRateControlStatus where
  t : UInt8
  length : UInt16
  ins : UInt8
  ul_packets_allowed : UInt32
  nmbr_add_exception_reports : UInt32
  dl_packets_allowed : UInt32
  validity_time : UInt64
deriving DecidableEq, Repr

namespace ApnRateControlStatus

/-- `marshal` (apnratecontrolstatus.rs:44-55). -/
def marshal (x : ApnRateControlStatus) : Bytes :=
  tliv 204 x.length x.ins <|
    be32 x.ul_packets_allowed ++ be32 x.nmbr_add_exception_reports ++
      be32 x.dl_packets_allowed ++ be64 x.validity_time

/-- `unmarshal` (apnratecontrolstatus.rs:57-78). -/
def unmarshal (_m : Mode) (b : Bytes) : R Err ApnRateControlStatus := do
  if 24 ≤ b.length then
    let length ← rd16 b 1
    let ins ← rd b 3
    let ul_packets_allowed ← rd32 b 4
    let nmbr_add_exception_reports ← rd32 b 8
    let dl_packets_allowed ← rd32 b 12
    let validity_time ← rd64 b 16
    return { t := 204, length, ins := ins &&& 0x0f, ul_packets_allowed,
             nmbr_add_exception_reports, dl_packets_allowed, validity_time }
  else .err (.ieInvalidLength 204)

/-- `len` (apnratecontrolstatus.rs:80-82). -/
def len (_m : Mode) (x : ApnRateControlStatus) : R Err Nat := ieLenU x.length

/-- Field values that the encoding of a `ApnRateControlStatus` can represent. -/
def WF (x : ApnRateControlStatus) : Prop := x.t = 204 ∧ x.length.toNat = 20 ∧ x.ins < 16

instance (x : ApnRateControlStatus) : Decidable x.WF := by unfold WF; infer_instance

theorem rt : RoundTrips WF marshal unmarshal := by
  intro m x tail h
  obtain ⟨t, length, ins, ul_packets_allowed, nmbr_add_exception_reports, dl_packets_allowed, validity_time⟩ := x
  obtain ⟨ht, hl, hi⟩ := h
  simp only at ht hl hi
  enc_simp [marshal]
  rt_simp [unmarshal, ht, hl, hi]

theorem len_ok : LenOk WF marshal len := by
  intro m x h
  obtain ⟨t, length, ins, ul_packets_allowed, nmbr_add_exception_reports, dl_packets_allowed, validity_time⟩ := x
  obtain ⟨ht, hl, hi⟩ := h
  simp only at ht hl hi
  enc_simp [marshal]
  simp only [len, ieLenU]
  congr 1
  simp only [List.length_cons, List.length_append, List.length_nil, gtplen]
  try omega

theorem safe : LooseSafe (fun _ => True) unmarshal len := by
  intro m b hb hc
  unfold declLen at *
  safe_simp [unmarshal, len]
  safe_fin

end ApnRateControlStatus

/-- `HeaderCompressionConfiguration` (hdrcomprconfig.rs:17-23). -/
structure HeaderCompressionConfiguration where
  t : UInt8
  length : UInt16
  ins : UInt8
  rohc_profiles : List UInt16
  max_cid : UInt16
deriving DecidableEq, Repr

namespace HeaderCompressionConfiguration

/-- Bit of a profile (hdrcomprconfig.rs:51-88). -/
def profileBit (p : UInt16) : UInt8 :=
  if p = 0x0002 then 0x01 else if p = 0x0003 then 0x02 else if p = 0x0004 then 0x04
  else if p = 0x0006 then 0x08 else if p = 0x0102 then 0x10 else if p = 0x0103 then 0x20
  else if p = 0x0104 then 0x40 else 0

/-- Octet 5: every bit is added once (hdrcomprconfig.rs:49-89). -/
def profileBits (l : List UInt16) : UInt8 :=
  l.foldl (fun i p => if i &&& profileBit p = 0 then i + profileBit p else i) 0

/-- Profile pushed for the single bit `1 << i` (hdrcomprconfig.rs:104-115). -/
def profileAt (bit : UInt8) : List UInt16 :=
  if bit = 0x01 then [0x0002] else if bit = 0x02 then [0x0003] else if bit = 0x04 then [0x0004]
  else if bit = 0x08 then [0x0006] else if bit = 0x10 then [0x0102] else if bit = 0x20 then [0x0103]
  else if bit = 0x40 then [0x0104] else []

/-- Profiles read from octet 5, after the default element 0. -/
def profilesOf (v : UInt8) : List UInt16 :=
  0 :: [1, 2, 4, 8, 16, 32, 64, 128].flatMap fun (k : UInt8) => profileAt (v &&& k)

/-- The profiles of TS 36.323 in the order of their bits. -/
def rohcTable : List UInt16 := [0x0002, 0x0003, 0x0004, 0x0006, 0x0102, 0x0103, 0x0104]

theorem profiles_dec {l : List UInt16} (h0 : l.head? = some 0) (hs : l.tail.Sublist rohcTable) :
    profilesOf (profileBits l) = l := by
  obtain ⟨a, l, rfl⟩ : ∃ a t, l = a :: t := by
    cases l with
    | nil => simp at h0
    | cons a t => exact ⟨a, t, rfl⟩
  simp only [List.head?_cons, Option.some.injEq] at h0
  simp only [List.tail_cons, rohcTable, List.sublist_cons_iff, List.sublist_nil] at hs
  subst h0
  rcases hs with hs | ⟨l, rfl, hs⟩ <;> rcases hs with hs | ⟨l, rfl, hs⟩ <;>
    rcases hs with hs | ⟨l, rfl, hs⟩ <;> rcases hs with hs | ⟨l, rfl, hs⟩ <;>
    rcases hs with hs | ⟨l, rfl, hs⟩ <;> rcases hs with hs | ⟨l, rfl, hs⟩ <;>
    rcases hs with hs | ⟨l, rfl, hs⟩ <;> subst hs <;> decide +kernel

/-- `marshal` (hdrcomprconfig.rs:44-95). -/
def marshal (x : HeaderCompressionConfiguration) : Bytes :=
  tliv 196 x.length x.ins ([profileBits x.rohc_profiles, 0] ++ be16 x.max_cid)

/-- `unmarshal` (hdrcomprconfig.rs:97-121): the profiles are pushed to the default `vec![0]`. -/
def unmarshal (_m : Mode) (b : Bytes) : R Err HeaderCompressionConfiguration := do
  if 8 ≤ b.length then
    let length ← rd16 b 1
    let ins ← rd b 3
    let v ← rd b 4
    let max_cid ← rd16 b 6
    return { t := 196, length, ins := ins &&& 0x0f, rohc_profiles := profilesOf v, max_cid }
  else .err (.ieInvalidLength 196)

/-- `len` (hdrcomprconfig.rs:123-125). -/
def len (_m : Mode) (_x : HeaderCompressionConfiguration) : R Err Nat := .ok 8

/-- Field values that the encoding of a `HeaderCompressionConfiguration` can represent. -/
def WF (x : HeaderCompressionConfiguration) : Prop :=
  x.t = 196 ∧
  x.length.toNat = 4 ∧
  x.ins < 16 ∧
  x.rohc_profiles.head? = some 0 ∧
  x.rohc_profiles.tail.Sublist rohcTable

instance (x : HeaderCompressionConfiguration) : Decidable x.WF := by unfold WF; infer_instance

theorem rt : RoundTrips WF marshal unmarshal := by
  intro m x tail h
  obtain ⟨t, length, ins, rohc_profiles, max_cid⟩ := x
  obtain ⟨ht, hl, hi, h0, hs⟩ := h
  simp only at ht hl hi h0 hs
  have hp := profiles_dec h0 hs
  enc_simp [marshal, hp]
  rt_simp [unmarshal, ht, hl, hi, h0, hs, hp]

theorem len_ok : LenOk WF marshal len := by
  intro m x h
  have hm : x.marshal.length = 8 := by
    obtain ⟨t, length, ins, rohc_profiles, max_cid⟩ := x
    obtain ⟨ht, hl, hi, h0, hs⟩ := h
    simp only at ht hl hi h0 hs
    have hp := profiles_dec h0 hs
    enc_simp [marshal, hp]
    simp [gtp]
  rw [hm]; rfl

theorem safe : FixedSafe 8 unmarshal len := by
  intro m b
  safe_simp [unmarshal, len]
  safe_fin

end HeaderCompressionConfiguration

end Gtp.V2
