import Verif.V2.Names

/-!
# Information elements holding a dotted name

Expanded by `scripts/gen_ies.py`; the citations refer to `/repo/src/gtpv2/messages/ies`.
-/

namespace Gtp.V2

set_option linter.unusedSimpArgs false

/-- `Apn` (apn.rs:16-21). -/
structure Apn where
  t : UInt8
  length : UInt16
  ins : UInt8
  name : Str
deriving DecidableEq, Repr

namespace Apn

/-- `marshal` (apn.rs:41-55). -/
def marshal (x : Apn) : Bytes :=
  tliv 71 x.length x.ins (encName x.name)

/-- `unmarshal` (apn.rs:57-91). -/
def unmarshal (m : Mode) (b : Bytes) : R Err Apn := do
  if 4 ≤ b.length then
    let length ← rd16 b 1
    let ins ← rd b 3
    if ← checkTliv m length b then
      let donor ← sl b 4 (4 + length.toNat)
      let name ← decName donor
      return { t := 71, length, ins := ins &&& 0x0f, name }
    else .err (.ieInvalidLength 71)
  else .err (.ieInvalidLength 71)

/-- `len` (apn.rs:93-95). -/
def len (m : Mode) (x : Apn) : R Err Nat := ieLen16 m x.length

/-- Field values that the encoding of a `Apn` can represent. -/
def WF (x : Apn) : Prop :=
  x.t = 71 ∧
  x.length.toNat = x.name.length + 1 ∧
  x.ins < 16 ∧
  x.length.toNat < 65532 ∧
  NameOk x.name

instance (x : Apn) : Decidable x.WF := by unfold WF; infer_instance

theorem rt : RoundTrips WF marshal unmarshal := by
  intro m x tail h
  obtain ⟨t, length, ins, name⟩ := x
  obtain ⟨ht, hl, hi, hbd, hn⟩ := h
  simp only at ht hl hi hbd hn
  have he := encName_length hn
  have hd := decName_encName (ε := Err) hn
  enc_simp [marshal]
  generalize encName name = s at he hd
  var_simp [unmarshal, ht, hi, hd]

theorem len_ok : LenOk WF marshal len := by
  intro m x h
  obtain ⟨t, length, ins, name⟩ := x
  obtain ⟨ht, hl, hi, hbd, hn⟩ := h
  simp only at ht hl hi hbd hn
  have he := encName_length hn
  simp only [marshal, tliv_eq, len, ieLen16_ok hbd, hl, he, List.length_cons]

theorem safe : SafeIf (fun b => Labels ((b.take (4 + (declLen b).toNat)).drop 4)) unmarshal len := by
  intro m b hb hc
  unfold declLen at *
  safe_simp [unmarshal, len, Safe_checkTliv hb, ieLen16_ok hb]
  have key := fun P hP => decName_safe (ε := Err) (P := P) hc hP
  repeat' first | with_reducible apply And.intro | intro _
  all_goals first | omega | (apply key; intro _; omega)

end Apn

/-- `Fqdn` (fqdn.rs:16-21). -/
structure Fqdn where
  t : UInt8
  length : UInt16
  ins : UInt8
  name : Str
deriving DecidableEq, Repr

namespace Fqdn

/-- `marshal` (fqdn.rs:41-55). -/
def marshal (x : Fqdn) : Bytes :=
  tliv 136 x.length x.ins (encName x.name)

/-- `unmarshal` (fqdn.rs:57-90). -/
def unmarshal (m : Mode) (b : Bytes) : R Err Fqdn := do
  if 4 ≤ b.length then
    let length ← rd16 b 1
    let ins ← rd b 3
    if ← checkTliv m length b then
      let donor ← sl b 4 (4 + length.toNat)
      let name ← decName donor
      return { t := 136, length, ins := ins &&& 0x0f, name }
    else .err (.ieInvalidLength 136)
  else .err (.ieInvalidLength 136)

/-- `len` (fqdn.rs:92-94). -/
def len (m : Mode) (x : Fqdn) : R Err Nat := ieLen16 m x.length

/-- Field values that the encoding of a `Fqdn` can represent. -/
def WF (x : Fqdn) : Prop :=
  x.t = 136 ∧
  x.length.toNat = x.name.length + 1 ∧
  x.ins < 16 ∧
  x.length.toNat < 65532 ∧
  NameOk x.name

instance (x : Fqdn) : Decidable x.WF := by unfold WF; infer_instance

theorem rt : RoundTrips WF marshal unmarshal := by
  intro m x tail h
  obtain ⟨t, length, ins, name⟩ := x
  obtain ⟨ht, hl, hi, hbd, hn⟩ := h
  simp only at ht hl hi hbd hn
  have he := encName_length hn
  have hd := decName_encName (ε := Err) hn
  enc_simp [marshal]
  generalize encName name = s at he hd
  var_simp [unmarshal, ht, hi, hd]

theorem len_ok : LenOk WF marshal len := by
  intro m x h
  obtain ⟨t, length, ins, name⟩ := x
  obtain ⟨ht, hl, hi, hbd, hn⟩ := h
  simp only at ht hl hi hbd hn
  have he := encName_length hn
  simp only [marshal, tliv_eq, len, ieLen16_ok hbd, hl, he, List.length_cons]

theorem safe : SafeIf (fun b => Labels ((b.take (4 + (declLen b).toNat)).drop 4)) unmarshal len := by
  intro m b hb hc
  unfold declLen at *
  safe_simp [unmarshal, len, Safe_checkTliv hb, ieLen16_ok hb]
  have key := fun P hP => decName_safe (ε := Err) (P := P) hc hP
  repeat' first | with_reducible apply And.intro | intro _
  all_goals first | omega | (apply key; intro _; omega)

end Fqdn

/-- `PgwFqdn` (pgwfqdn.rs:16-21). -/
structure PgwFqdn where
  t : UInt8
  length : UInt16
  ins : UInt8
  name : Str
deriving DecidableEq, Repr

namespace PgwFqdn

/-- `marshal` (pgwfqdn.rs:41-55). -/
def marshal (x : PgwFqdn) : Bytes :=
  tliv 215 x.length x.ins (encName x.name)

/-- `unmarshal` (pgwfqdn.rs:57-91). -/
def unmarshal (m : Mode) (b : Bytes) : R Err PgwFqdn := do
  if 4 ≤ b.length then
    let length ← rd16 b 1
    let ins ← rd b 3
    if ← checkTliv m length b then
      let donor ← sl b 4 (4 + length.toNat)
      let name ← decName donor
      return { t := 215, length, ins := ins &&& 0x0f, name }
    else .err (.ieInvalidLength 215)
  else .err (.ieInvalidLength 215)

/-- `len` (pgwfqdn.rs:93-95). -/
def len (_m : Mode) (x : PgwFqdn) : R Err Nat := ieLenU x.length

/-- Field values that the encoding of a `PgwFqdn` can represent. -/
def WF (x : PgwFqdn) : Prop :=
  x.t = 215 ∧
  x.length.toNat = x.name.length + 1 ∧
  x.ins < 16 ∧
  x.length.toNat < 65532 ∧
  NameOk x.name

instance (x : PgwFqdn) : Decidable x.WF := by unfold WF; infer_instance

theorem rt : RoundTrips WF marshal unmarshal := by
  intro m x tail h
  obtain ⟨t, length, ins, name⟩ := x
  obtain ⟨ht, hl, hi, hbd, hn⟩ := h
  simp only at ht hl hi hbd hn
  have he := encName_length hn
  have hd := decName_encName (ε := Err) hn
  enc_simp [marshal]
  generalize encName name = s at he hd
  var_simp [unmarshal, ht, hi, hd]

theorem len_ok : LenOk WF marshal len := by
  intro m x h
  obtain ⟨t, length, ins, name⟩ := x
  obtain ⟨ht, hl, hi, hbd, hn⟩ := h
  simp only at ht hl hi hbd hn
  have he := encName_length hn
  simp only [marshal, tliv_eq, len, ieLenU, hl, he, List.length_cons]

theorem safe : SafeIf (fun b => Labels ((b.take (4 + (declLen b).toNat)).drop 4)) unmarshal len := by
  intro m b hb hc
  unfold declLen at *
  safe_simp [unmarshal, len, Safe_checkTliv hb]
  have key := fun P hP => decName_safe (ε := Err) (P := P) hc hP
  repeat' first | with_reducible apply And.intro | intro _
  all_goals first | omega | (apply key; intro _; omega)

end PgwFqdn

/-- `ApnRelativeCapacity` (apnrelativecapacity.rs:16-22). -/
structure ApnRelativeCapacity where
  t : UInt8
  length : UInt16
  ins : UInt8
  relative_cap : UInt8
  name : Str
deriving DecidableEq, Repr

namespace ApnRelativeCapacity

/-- `marshal` (apnrelativecapacity.rs:43-58). -/
def marshal (x : ApnRelativeCapacity) : Bytes :=
  tliv 184 x.length x.ins ([x.relative_cap] ++ encName x.name)

/-- `unmarshal` (apnrelativecapacity.rs:60-97). -/
def unmarshal (m : Mode) (b : Bytes) : R Err ApnRelativeCapacity := do
  if 4 ≤ b.length then
    let length ← rd16 b 1
    let ins ← rd b 3
    if ← checkTliv m length b then
      let c ← rd b 4
      let donor ← sl b 5 (4 + length.toNat)
      let name ← decName donor
      return { t := 184, length, ins := ins &&& 0x0f, relative_cap := if c ≤ 100 then c else 0,
               name }
    else .err (.ieInvalidLength 184)
  else .err (.ieInvalidLength 184)

/-- `len` (apnrelativecapacity.rs:99-101). -/
def len (_m : Mode) (x : ApnRelativeCapacity) : R Err Nat := ieLenU x.length

/-- Field values that the encoding of a `ApnRelativeCapacity` can represent. -/
def WF (x : ApnRelativeCapacity) : Prop :=
  x.t = 184 ∧
  x.length.toNat = x.name.length + 2 ∧
  x.ins < 16 ∧
  x.length.toNat < 65532 ∧
  x.relative_cap ≤ 100 ∧
  NameOk x.name

instance (x : ApnRelativeCapacity) : Decidable x.WF := by unfold WF; infer_instance

theorem rt : RoundTrips WF marshal unmarshal := by
  intro m x tail h
  obtain ⟨t, length, ins, relative_cap, name⟩ := x
  obtain ⟨ht, hl, hi, hbd, hr, hn⟩ := h
  simp only at ht hl hi hbd hr hn
  have he := encName_length hn
  have hd := decName_encName (ε := Err) hn
  enc_simp [marshal]
  generalize encName name = s at he hd
  var_simp [unmarshal, ht, hi, hd, hr]

theorem len_ok : LenOk WF marshal len := by
  intro m x h
  obtain ⟨t, length, ins, relative_cap, name⟩ := x
  obtain ⟨ht, hl, hi, hbd, hr, hn⟩ := h
  simp only at ht hl hi hbd hr hn
  have he := encName_length hn
  simp only [marshal, tliv_eq, len, ieLenU, hl, he, List.length_cons, List.length_append, List.length_nil]
  try (congr 1; omega)

theorem safe : SafeIf (fun b => Labels ((b.take (4 + (declLen b).toNat)).drop 5)) unmarshal len := by
  intro m b hb hc
  unfold declLen at *
  safe_simp [unmarshal, len, Safe_checkTliv hb]
  have key := fun P hP => decName_safe (ε := Err) (P := P) hc hP
  repeat' first | with_reducible apply And.intro | intro _
  all_goals first | omega | (apply key; intro _; omega)

end ApnRelativeCapacity

end Gtp.V2
