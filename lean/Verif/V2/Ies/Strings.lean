import Verif.V2.IeBase
import Verif.Str

/-!
# Information elements carrying digit strings or text

Expanded by `scripts/gen_ies.py`; the citations refer to `/repo/src/gtpv2/messages/ies`.
-/

namespace Gtp.V2

set_option linter.unusedSimpArgs false

/-- `Imsi` (imsi.rs:16-21). -/
structure Imsi where
  t : UInt8
  length : UInt16
  ins : UInt8
  imsi : Str
deriving DecidableEq, Repr

namespace Imsi

/-- `marshal` (imsi.rs:41-49). -/
def marshal (x : Imsi) : Bytes :=
  tliv 1 x.length x.ins (tbcdEncode x.imsi)

/-- `unmarshal` (imsi.rs:51-70). -/
def unmarshal (m : Mode) (b : Bytes) : R Err Imsi := do
  if 5 ≤ b.length then
    let length ← rd16 b 1
    let ins ← rd b 3
    if ← checkTliv m length b then
      let s ← sl b 4 (length.toNat + 4)
      return { t := 1, length, ins := ins &&& 0x0f, imsi := tbcdDecode s }
    else .err (.ieInvalidLength 1)
  else .err (.ieIncorrect 1)

/-- `len` (imsi.rs:72-74). -/
def len (_m : Mode) (x : Imsi) : R Err Nat := ieLenU x.length

/-- Field values that the encoding of a `Imsi` can represent. -/
def WF (x : Imsi) : Prop :=
  x.t = 1 ∧
  x.length.toNat = (x.imsi.length + 1) / 2 ∧
  x.ins < 16 ∧
  x.length.toNat < 65532 ∧
  (∀ c ∈ x.imsi, IsDigit c) ∧
  x.imsi ≠ []

instance (x : Imsi) : Decidable x.WF := by unfold WF; infer_instance

theorem rt : RoundTrips WF marshal unmarshal := by
  intro m x tail h
  obtain ⟨t, length, ins, imsi⟩ := x
  obtain ⟨ht, hl, hi, hbd, hd, hne⟩ := h
  simp only at ht hl hi hbd hd hne
  have hpos := List.length_pos_iff.mpr hne
  have hb := tbcd_length _ hd
  enc_simp [marshal, tbcd_roundtrip _ hd, slBody16_ok]
  rtv_simp [unmarshal, ht, hl, hi, hbd, hd, hne, tbcd_roundtrip _ hd, slBody16_ok]

theorem len_ok : LenOk WF marshal len := by
  intro m x h
  obtain ⟨t, length, ins, imsi⟩ := x
  obtain ⟨ht, hl, hi, hbd, hd, hne⟩ := h
  simp only at ht hl hi hbd hd hne
  have hpos := List.length_pos_iff.mpr hne
  have hb := tbcd_length _ hd
  enc_simp [marshal, tbcd_roundtrip _ hd, slBody16_ok]
  simp only [len, ieLenU]
  congr 1
  simp only [List.length_cons, List.length_append, List.length_nil, gtplen]
  try omega

theorem safe : ExactSafe unmarshal len := by
  intro m b hb hc
  unfold declLen at *
  safe_simp [unmarshal, len, Safe_checkTliv hb]
  safe_fin

end Imsi

/-- `AlternativeImsi` (alternativeimsi.rs:16-21). -/
structure AlternativeImsi where
  t : UInt8
  length : UInt16
  ins : UInt8
  imsi : Str
deriving DecidableEq, Repr

namespace AlternativeImsi

/-- `marshal` (alternativeimsi.rs:41-49). -/
def marshal (x : AlternativeImsi) : Bytes :=
  tliv 219 x.length x.ins (tbcdEncode x.imsi)

/-- `unmarshal` (alternativeimsi.rs:51-70). -/
def unmarshal (m : Mode) (b : Bytes) : R Err AlternativeImsi := do
  if 5 ≤ b.length then
    let length ← rd16 b 1
    let ins ← rd b 3
    if ← checkTliv m length b then
      let s ← sl b 4 (length.toNat + 4)
      return { t := 219, length, ins := ins &&& 0x0f, imsi := tbcdDecode s }
    else .err (.ieInvalidLength 219)
  else .err (.ieIncorrect 219)

/-- `len` (alternativeimsi.rs:72-74). -/
def len (_m : Mode) (x : AlternativeImsi) : R Err Nat := ieLenU x.length

/-- Field values that the encoding of a `AlternativeImsi` can represent. -/
def WF (x : AlternativeImsi) : Prop :=
  x.t = 219 ∧
  x.length.toNat = (x.imsi.length + 1) / 2 ∧
  x.ins < 16 ∧
  x.length.toNat < 65532 ∧
  (∀ c ∈ x.imsi, IsDigit c) ∧
  x.imsi ≠ []

instance (x : AlternativeImsi) : Decidable x.WF := by unfold WF; infer_instance

theorem rt : RoundTrips WF marshal unmarshal := by
  intro m x tail h
  obtain ⟨t, length, ins, imsi⟩ := x
  obtain ⟨ht, hl, hi, hbd, hd, hne⟩ := h
  simp only at ht hl hi hbd hd hne
  have hpos := List.length_pos_iff.mpr hne
  have hb := tbcd_length _ hd
  enc_simp [marshal, tbcd_roundtrip _ hd, slBody16_ok]
  rtv_simp [unmarshal, ht, hl, hi, hbd, hd, hne, tbcd_roundtrip _ hd, slBody16_ok]

theorem len_ok : LenOk WF marshal len := by
  intro m x h
  obtain ⟨t, length, ins, imsi⟩ := x
  obtain ⟨ht, hl, hi, hbd, hd, hne⟩ := h
  simp only at ht hl hi hbd hd hne
  have hpos := List.length_pos_iff.mpr hne
  have hb := tbcd_length _ hd
  enc_simp [marshal, tbcd_roundtrip _ hd, slBody16_ok]
  simp only [len, ieLenU]
  congr 1
  simp only [List.length_cons, List.length_append, List.length_nil, gtplen]
  try omega

theorem safe : ExactSafe unmarshal len := by
  intro m b hb hc
  unfold declLen at *
  safe_simp [unmarshal, len, Safe_checkTliv hb]
  safe_fin

end AlternativeImsi

/-- `Msisdn` (msisdn.rs:16-21). -/
structure Msisdn where
  t : UInt8
  length : UInt16
  ins : UInt8
  msisdn : Str
deriving DecidableEq, Repr

namespace Msisdn

/-- `marshal` (msisdn.rs:41-49). -/
def marshal (x : Msisdn) : Bytes :=
  tliv 76 x.length x.ins (tbcdEncode x.msisdn)

/-- `unmarshal` (msisdn.rs:51-70). -/
def unmarshal (m : Mode) (b : Bytes) : R Err Msisdn := do
  if 4 ≤ b.length then
    let length ← rd16 b 1
    let ins ← rd b 3
    if ← checkTliv m length b then
      let s ← slBody16 m b length
      return { t := 76, length, ins := ins &&& 0x0f, msisdn := tbcdDecode s }
    else .err (.ieInvalidLength 76)
  else .err (.ieInvalidLength 76)

/-- `len` (msisdn.rs:72-74). -/
def len (_m : Mode) (x : Msisdn) : R Err Nat := ieLenU x.length

/-- Field values that the encoding of a `Msisdn` can represent. -/
def WF (x : Msisdn) : Prop :=
  x.t = 76 ∧
  x.length.toNat = (x.msisdn.length + 1) / 2 ∧
  x.ins < 16 ∧
  x.length.toNat < 65532 ∧
  (∀ c ∈ x.msisdn, IsDigit c) ∧
  x.msisdn ≠ []

instance (x : Msisdn) : Decidable x.WF := by unfold WF; infer_instance

theorem rt : RoundTrips WF marshal unmarshal := by
  intro m x tail h
  obtain ⟨t, length, ins, msisdn⟩ := x
  obtain ⟨ht, hl, hi, hbd, hd, hne⟩ := h
  simp only at ht hl hi hbd hd hne
  have hpos := List.length_pos_iff.mpr hne
  have hb := tbcd_length _ hd
  enc_simp [marshal, tbcd_roundtrip _ hd, slBody16_ok]
  rtv_simp [unmarshal, ht, hl, hi, hbd, hd, hne, tbcd_roundtrip _ hd, slBody16_ok]

theorem len_ok : LenOk WF marshal len := by
  intro m x h
  obtain ⟨t, length, ins, msisdn⟩ := x
  obtain ⟨ht, hl, hi, hbd, hd, hne⟩ := h
  simp only at ht hl hi hbd hd hne
  have hpos := List.length_pos_iff.mpr hne
  have hb := tbcd_length _ hd
  enc_simp [marshal, tbcd_roundtrip _ hd, slBody16_ok]
  simp only [len, ieLenU]
  congr 1
  simp only [List.length_cons, List.length_append, List.length_nil, gtplen]
  try omega

theorem safe : ExactSafe unmarshal len := by
  intro m b hb hc
  unfold declLen at *
  safe_simp [unmarshal, len, Safe_checkTliv hb, slBody16_ok hb]
  safe_fin

end Msisdn

/-- `Mei` (mei.rs:17-22); `len()` is the constant 12. -/
structure Mei where
  t : UInt8
  length : UInt16
  ins : UInt8
  mei : Str
deriving DecidableEq, Repr

namespace Mei

/-- `marshal` (mei.rs:42-50). -/
def marshal (x : Mei) : Bytes :=
  tliv 75 x.length x.ins (tbcdEncode x.mei)

/-- `unmarshal` (mei.rs:52-71). -/
def unmarshal (m : Mode) (b : Bytes) : R Err Mei := do
  if 4 ≤ b.length then
    let length ← rd16 b 1
    let ins ← rd b 3
    if ← checkTliv m length b then
      let s ← slBody16 m b length
      return { t := 75, length, ins := ins &&& 0x0f, mei := tbcdDecode s }
    else .err (.ieInvalidLength 75)
  else .err (.ieInvalidLength 75)

/-- `len` (mei.rs:73-75). -/
def len (_m : Mode) (_x : Mei) : R Err Nat := .ok 12

/-- Field values that the encoding of a `Mei` can represent. -/
def WF (x : Mei) : Prop :=
  x.t = 75 ∧
  x.length.toNat = 8 ∧
  x.ins < 16 ∧
  x.length.toNat < 65532 ∧
  (∀ c ∈ x.mei, IsDigit c) ∧
  (x.mei.length + 1) / 2 = 8

instance (x : Mei) : Decidable x.WF := by unfold WF; infer_instance

theorem rt : RoundTrips WF marshal unmarshal := by
  intro m x tail h
  obtain ⟨t, length, ins, mei⟩ := x
  obtain ⟨ht, hl, hi, hbd, hd, hne⟩ := h
  simp only at ht hl hi hbd hd hne
  have hb := tbcd_length _ hd
  enc_simp [marshal, tbcd_roundtrip _ hd, slBody16_ok]
  rtv_simp [unmarshal, ht, hl, hi, hbd, hd, hne, tbcd_roundtrip _ hd, slBody16_ok]

theorem len_ok : LenOk WF marshal len := by
  intro m x h
  obtain ⟨t, length, ins, mei⟩ := x
  obtain ⟨ht, hl, hi, hbd, hd, hne⟩ := h
  simp only at ht hl hi hbd hd hne
  have hb := tbcd_length _ hd
  enc_simp [marshal]
  simp only [len]
  congr 1
  simp only [List.length_cons]
  omega

theorem safe : ConstSafe 12 unmarshal len := by
  intro m b hb
  unfold declLen at hb
  safe_simp [unmarshal, len, Safe_checkTliv hb, slBody16_ok hb]
  safe_fin

end Mei

/-- `StnSr` (stnsr.rs:16-22). -/
structure StnSr where
  t : UInt8
  length : UInt16
  ins : UInt8
  nanpi : UInt8
  msisdn : Str
deriving DecidableEq, Repr

namespace StnSr

/-- `marshal` (stnsr.rs:43-52). -/
def marshal (x : StnSr) : Bytes :=
  tliv 51 x.length x.ins ([x.nanpi] ++ tbcdEncode x.msisdn)

/-- `unmarshal` (stnsr.rs:54-74). -/
def unmarshal (m : Mode) (b : Bytes) : R Err StnSr := do
  if 4 ≤ b.length then
    let length ← rd16 b 1
    let ins ← rd b 3
    if ← checkTliv m length b then
      let nanpi ← rd b 4
      let l ← add16 m length 4
      let s ← sl b 5 l.toNat
      return { t := 51, length, ins := ins &&& 0x0f, nanpi, msisdn := tbcdDecode s }
    else .err (.ieInvalidLength 51)
  else .err (.ieInvalidLength 51)

/-- `len` (stnsr.rs:76-78). -/
def len (_m : Mode) (x : StnSr) : R Err Nat := ieLenU x.length

/-- Field values that the encoding of a `StnSr` can represent. -/
def WF (x : StnSr) : Prop :=
  x.t = 51 ∧
  x.length.toNat = (x.msisdn.length + 1) / 2 + 1 ∧
  x.ins < 16 ∧
  x.length.toNat < 65532 ∧
  (∀ c ∈ x.msisdn, IsDigit c)

instance (x : StnSr) : Decidable x.WF := by unfold WF; infer_instance

theorem rt : RoundTrips WF marshal unmarshal := by
  intro m x tail h
  obtain ⟨t, length, ins, nanpi, msisdn⟩ := x
  obtain ⟨ht, hl, hi, hbd, hd⟩ := h
  simp only at ht hl hi hbd hd
  have hb := tbcd_length _ hd
  enc_simp [marshal, tbcd_roundtrip _ hd, add16_four, toNat_add4]
  rtv_simp [unmarshal, ht, hl, hi, hbd, hd, tbcd_roundtrip _ hd, add16_four, toNat_add4]

theorem len_ok : LenOk WF marshal len := by
  intro m x h
  obtain ⟨t, length, ins, nanpi, msisdn⟩ := x
  obtain ⟨ht, hl, hi, hbd, hd⟩ := h
  simp only at ht hl hi hbd hd
  have hb := tbcd_length _ hd
  enc_simp [marshal, tbcd_roundtrip _ hd, add16_four, toNat_add4]
  simp only [len, ieLenU]
  congr 1
  simp only [List.length_cons, List.length_append, List.length_nil, gtplen]
  try omega

theorem safe : ExactSafe unmarshal len := by
  intro m b hb hc
  unfold declLen at *
  safe_simp [unmarshal, len, Safe_checkTliv hb, Safe_add4 hb, toNat_add4 hb]
  safe_fin

end StnSr

/-- `Ldn` (ldn.rs:16-21). -/
structure Ldn where
  t : UInt8
  length : UInt16
  ins : UInt8
  name : Str
deriving DecidableEq, Repr

namespace Ldn

/-- `marshal` (ldn.rs:41-49). -/
def marshal (x : Ldn) : Bytes :=
  tliv 151 x.length x.ins (utf8 x.name)

/-- `unmarshal` (ldn.rs:51-69). -/
def unmarshal (m : Mode) (b : Bytes) : R Err Ldn := do
  if 4 ≤ b.length then
    let length ← rd16 b 1
    let ins ← rd b 3
    if ← checkTliv m length b then
      let s ← sl b 4 (length.toNat + 4)
      return { t := 151, length, ins := ins &&& 0x0f, name := latin1 s }
    else .err (.ieInvalidLength 151)
  else .err (.ieInvalidLength 151)

/-- `len` (ldn.rs:71-73). -/
def len (m : Mode) (x : Ldn) : R Err Nat := ieLen16 m x.length

/-- Field values that the encoding of a `Ldn` can represent. -/
def WF (x : Ldn) : Prop :=
  x.t = 151 ∧
  x.length.toNat = x.name.length ∧
  x.ins < 16 ∧
  x.length.toNat < 65532 ∧
  (∀ c ∈ x.name, IsAscii c) ∧
  x.name ≠ []

instance (x : Ldn) : Decidable x.WF := by unfold WF; infer_instance

theorem rt : RoundTrips WF marshal unmarshal := by
  intro m x tail h
  obtain ⟨t, length, ins, name⟩ := x
  obtain ⟨ht, hl, hi, hbd, ha, hne⟩ := h
  simp only at ht hl hi hbd ha hne
  have hpos := List.length_pos_iff.mpr hne
  have hu := utf8_length ha
  enc_simp [marshal, latin1_utf8 ha]
  rtv_simp [unmarshal, ht, hl, hi, hbd, ha, hne, latin1_utf8 ha]

theorem len_ok : LenOk WF marshal len := by
  intro m x h
  obtain ⟨t, length, ins, name⟩ := x
  obtain ⟨ht, hl, hi, hbd, ha, hne⟩ := h
  simp only at ht hl hi hbd ha hne
  have hpos := List.length_pos_iff.mpr hne
  have hu := utf8_length ha
  simp only [len]
  rw [ieLen16_ok (by omega)]
  enc_simp [marshal, latin1_utf8 ha]
  congr 1
  simp only [List.length_cons, List.length_append, List.length_nil, gtplen]
  try omega

theorem safe : ExactSafe unmarshal len := by
  intro m b hb hc
  unfold declLen at *
  safe_simp [unmarshal, len, Safe_checkTliv hb, ieLen16_ok hb]
  safe_fin

end Ldn

end Gtp.V2
