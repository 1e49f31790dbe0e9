import Verif.V2.IeBase
import Verif.UtilsLemmas

/-!
# Information elements starting with an MCC/MNC

Expanded by `scripts/gen_ies.py`; the citations refer to `/repo/src/gtpv2/messages/ies`.
-/

namespace Gtp.V2

set_option linter.unusedSimpArgs false

/-- `ServingNetwork` (servingnetwork.rs:17-24). -/
structure ServingNetwork where
  t : UInt8
  length : UInt16
  ins : UInt8
  mcc : UInt16
  mnc : UInt16
  mnc_is_three_digits : Bool
deriving DecidableEq, Repr

namespace ServingNetwork

/-- `marshal` (servingnetwork.rs:46-58). -/
def marshal (x : ServingNetwork) : Bytes :=
  tliv 83 x.length x.ins (mccMncEncode x.mcc x.mnc x.mnc_is_three_digits)

/-- `unmarshal` (servingnetwork.rs:60-75). -/
def unmarshal (_m : Mode) (b : Bytes) : R Err ServingNetwork := do
  if 7 ≤ b.length then
    let length ← rd16 b 1
    let ins ← rd b 3
    let s ← sl b 4 7
    let (mcc, mnc, mnc_is_three_digits) ← mccMncDecode s
    return { t := 83, length, ins := ins &&& 0x0f, mcc, mnc, mnc_is_three_digits }
  else .err (.ieInvalidLength 83)

/-- `len` (servingnetwork.rs:77-79). -/
def len (_m : Mode) (_x : ServingNetwork) : R Err Nat := .ok 7

/-- Field values that the encoding of a `ServingNetwork` can represent. -/
def WF (x : ServingNetwork) : Prop :=
  x.t = 83 ∧
  x.length.toNat = 3 ∧
  x.ins < 16 ∧
  PlmnOk x.mcc x.mnc x.mnc_is_three_digits

instance (x : ServingNetwork) : Decidable x.WF := by unfold WF; infer_instance

theorem rt : RoundTrips WF marshal unmarshal := by
  intro m x tail h
  obtain ⟨t, length, ins, mcc, mnc, mnc_is_three_digits⟩ := x
  obtain ⟨ht, hl, hi, hp⟩ := h
  simp only at ht hl hi hp
  obtain ⟨p0, p1, p2, e1, e2⟩ := mccMnc_roundtrip3 hp
  enc_simp [marshal, e1, e2, mccMncDecode]
  rt_simp [unmarshal, ht, hl, hi, hp, e1, e2, mccMncDecode]

theorem len_ok : LenOk WF marshal len := by
  intro m x h
  have hm : x.marshal.length = 7 := by
    obtain ⟨t, length, ins, mcc, mnc, mnc_is_three_digits⟩ := x
    obtain ⟨ht, hl, hi, hp⟩ := h
    simp only at ht hl hi hp
    obtain ⟨p0, p1, p2, e1, e2⟩ := mccMnc_roundtrip3 hp
    enc_simp [marshal, e1, e2, mccMncDecode]
    simp [gtp]
  rw [hm]; rfl

theorem safe : FixedSafe 7 unmarshal len := by
  intro m b
  safe_simp [unmarshal, len, mccMncDecode, List.length_drop, List.length_take]
  safe_fin

end ServingNetwork

/-- `PlmnId` (plmnid.rs:17-24). -/
structure PlmnId where
  t : UInt8
  length : UInt16
  ins : UInt8
  mcc : UInt16
  mnc : UInt16
  mnc_is_three_digits : Bool
deriving DecidableEq, Repr

namespace PlmnId

/-- `marshal` (plmnid.rs:46-58). -/
def marshal (x : PlmnId) : Bytes :=
  tliv 120 x.length x.ins (mccMncEncode x.mcc x.mnc x.mnc_is_three_digits)

/-- `unmarshal` (plmnid.rs:60-75). -/
def unmarshal (_m : Mode) (b : Bytes) : R Err PlmnId := do
  if 7 ≤ b.length then
    let length ← rd16 b 1
    let ins ← rd b 3
    let s ← sl b 4 7
    let (mcc, mnc, mnc_is_three_digits) ← mccMncDecode s
    return { t := 120, length, ins := ins &&& 0x0f, mcc, mnc, mnc_is_three_digits }
  else .err (.ieInvalidLength 120)

/-- `len` (plmnid.rs:77-79). -/
def len (_m : Mode) (_x : PlmnId) : R Err Nat := .ok 7

/-- Field values that the encoding of a `PlmnId` can represent. -/
def WF (x : PlmnId) : Prop :=
  x.t = 120 ∧
  x.length.toNat = 3 ∧
  x.ins < 16 ∧
  PlmnOk x.mcc x.mnc x.mnc_is_three_digits

instance (x : PlmnId) : Decidable x.WF := by unfold WF; infer_instance

theorem rt : RoundTrips WF marshal unmarshal := by
  intro m x tail h
  obtain ⟨t, length, ins, mcc, mnc, mnc_is_three_digits⟩ := x
  obtain ⟨ht, hl, hi, hp⟩ := h
  simp only at ht hl hi hp
  obtain ⟨p0, p1, p2, e1, e2⟩ := mccMnc_roundtrip3 hp
  enc_simp [marshal, e1, e2, mccMncDecode]
  rt_simp [unmarshal, ht, hl, hi, hp, e1, e2, mccMncDecode]

theorem len_ok : LenOk WF marshal len := by
  intro m x h
  have hm : x.marshal.length = 7 := by
    obtain ⟨t, length, ins, mcc, mnc, mnc_is_three_digits⟩ := x
    obtain ⟨ht, hl, hi, hp⟩ := h
    simp only at ht hl hi hp
    obtain ⟨p0, p1, p2, e1, e2⟩ := mccMnc_roundtrip3 hp
    enc_simp [marshal, e1, e2, mccMncDecode]
    simp [gtp]
  rw [hm]; rfl

theorem safe : FixedSafe 7 unmarshal len := by
  intro m b
  safe_simp [unmarshal, len, mccMncDecode, List.length_drop, List.length_take]
  safe_fin

end PlmnId

/-- `GlobalCnId` (globalcnid.rs:17-25). -/
structure GlobalCnId where
  t : UInt8
  length : UInt16
  ins : UInt8
  mcc : UInt16
  mnc : UInt16
  mnc_is_three_digits : Bool
  cnid : UInt16
deriving DecidableEq, Repr

namespace GlobalCnId

/-- `marshal` (globalcnid.rs:48-61). -/
def marshal (x : GlobalCnId) : Bytes :=
  tliv 89 x.length x.ins (mccMncEncode x.mcc x.mnc x.mnc_is_three_digits ++ be16 x.cnid)

/-- `unmarshal` (globalcnid.rs:63-79). -/
def unmarshal (_m : Mode) (b : Bytes) : R Err GlobalCnId := do
  if 9 ≤ b.length then
    let length ← rd16 b 1
    let ins ← rd b 3
    let s ← sl b 4 7
    let (mcc, mnc, mnc_is_three_digits) ← mccMncDecode s
    let cnid ← rd16 b 7
    return { t := 89, length, ins := ins &&& 0x0f, mcc, mnc, mnc_is_three_digits, cnid }
  else .err (.ieInvalidLength 89)

/-- `len` (globalcnid.rs:81-83). -/
def len (_m : Mode) (_x : GlobalCnId) : R Err Nat := .ok 9

/-- Field values that the encoding of a `GlobalCnId` can represent. -/
def WF (x : GlobalCnId) : Prop :=
  x.t = 89 ∧
  x.length.toNat = 5 ∧
  x.ins < 16 ∧
  PlmnOk x.mcc x.mnc x.mnc_is_three_digits

instance (x : GlobalCnId) : Decidable x.WF := by unfold WF; infer_instance

theorem rt : RoundTrips WF marshal unmarshal := by
  intro m x tail h
  obtain ⟨t, length, ins, mcc, mnc, mnc_is_three_digits, cnid⟩ := x
  obtain ⟨ht, hl, hi, hp⟩ := h
  simp only at ht hl hi hp
  obtain ⟨p0, p1, p2, e1, e2⟩ := mccMnc_roundtrip3 hp
  enc_simp [marshal, e1, e2, mccMncDecode]
  rt_simp [unmarshal, ht, hl, hi, hp, e1, e2, mccMncDecode]

theorem len_ok : LenOk WF marshal len := by
  intro m x h
  have hm : x.marshal.length = 9 := by
    obtain ⟨t, length, ins, mcc, mnc, mnc_is_three_digits, cnid⟩ := x
    obtain ⟨ht, hl, hi, hp⟩ := h
    simp only at ht hl hi hp
    obtain ⟨p0, p1, p2, e1, e2⟩ := mccMnc_roundtrip3 hp
    enc_simp [marshal, e1, e2, mccMncDecode]
    simp [gtp]
  rw [hm]; rfl

theorem safe : FixedSafe 9 unmarshal len := by
  intro m b
  safe_simp [unmarshal, len, mccMncDecode, List.length_drop, List.length_take]
  safe_fin

end GlobalCnId

/-- `TraceReference` (tracereference.rs:17-25). -/
structure TraceReference where
  t : UInt8
  length : UInt16
  ins : UInt8
  mcc : UInt16
  mnc : UInt16
  mnc_is_three_digits : Bool
  trace_id : UInt32
deriving DecidableEq, Repr

namespace TraceReference

/-- `marshal` (tracereference.rs:48-61). -/
def marshal (x : TraceReference) : Bytes :=
  tliv 83 x.length x.ins (mccMncEncode x.mcc x.mnc x.mnc_is_three_digits ++ be24 x.trace_id)

/-- `unmarshal` (tracereference.rs:63-79). -/
def unmarshal (_m : Mode) (b : Bytes) : R Err TraceReference := do
  if 10 ≤ b.length then
    let length ← rd16 b 1
    let ins ← rd b 3
    let s ← sl b 4 7
    let (mcc, mnc, mnc_is_three_digits) ← mccMncDecode s
    let trace_id ← rd24 b 7
    return { t := 83, length, ins := ins &&& 0x0f, mcc, mnc, mnc_is_three_digits, trace_id }
  else .err (.ieInvalidLength 83)

/-- `len` (tracereference.rs:81-83). -/
def len (_m : Mode) (_x : TraceReference) : R Err Nat := .ok 10

/-- Field values that the encoding of a `TraceReference` can represent. -/
def WF (x : TraceReference) : Prop :=
  x.t = 83 ∧
  x.length.toNat = 6 ∧
  x.ins < 16 ∧
  PlmnOk x.mcc x.mnc x.mnc_is_three_digits ∧
  x.trace_id.toNat < 16777216

instance (x : TraceReference) : Decidable x.WF := by unfold WF; infer_instance

theorem rt : RoundTrips WF marshal unmarshal := by
  intro m x tail h
  obtain ⟨t, length, ins, mcc, mnc, mnc_is_three_digits, trace_id⟩ := x
  obtain ⟨ht, hl, hi, hp, h24⟩ := h
  simp only at ht hl hi hp h24
  obtain ⟨p0, p1, p2, e1, e2⟩ := mccMnc_roundtrip3 hp
  enc_simp [marshal, e1, e2, mccMncDecode, of24_be h24]
  rt_simp [unmarshal, ht, hl, hi, hp, h24, e1, e2, mccMncDecode, of24_be h24]

theorem len_ok : LenOk WF marshal len := by
  intro m x h
  have hm : x.marshal.length = 10 := by
    obtain ⟨t, length, ins, mcc, mnc, mnc_is_three_digits, trace_id⟩ := x
    obtain ⟨ht, hl, hi, hp, h24⟩ := h
    simp only at ht hl hi hp h24
    obtain ⟨p0, p1, p2, e1, e2⟩ := mccMnc_roundtrip3 hp
    enc_simp [marshal, e1, e2, mccMncDecode, of24_be h24]
    simp [gtp]
  rw [hm]; rfl

theorem safe : FixedSafe 10 unmarshal len := by
  intro m b
  safe_simp [unmarshal, len, mccMncDecode, List.length_drop, List.length_take]
  safe_fin

end TraceReference

/-- `Guti` (guti.rs:17-27). -/
structure Guti where
  t : UInt8
  length : UInt16
  ins : UInt8
  mcc : UInt16
  mnc : UInt16
  mnc_is_three_digits : Bool
  mmegi : UInt16
  mmec : UInt8
  mtmsi : UInt32
deriving DecidableEq, Repr

namespace Guti

/-- `marshal` (guti.rs:52-67). -/
def marshal (x : Guti) : Bytes :=
  tliv 117 x.length x.ins (mccMncEncode x.mcc x.mnc x.mnc_is_three_digits ++ be16 x.mmegi ++ [x.mmec] ++ be32 x.mtmsi)

/-- `unmarshal` (guti.rs:69-87). -/
def unmarshal (_m : Mode) (b : Bytes) : R Err Guti := do
  if 14 ≤ b.length then
    let length ← rd16 b 1
    let ins ← rd b 3
    let s ← sl b 4 7
    let (mcc, mnc, mnc_is_three_digits) ← mccMncDecode s
    let mmegi ← rd16 b 7
    let mmec ← rd b 9
    let mtmsi ← rd32 b 10
    return { t := 117, length, ins := ins &&& 0x0f, mcc, mnc, mnc_is_three_digits, mmegi, mmec,
             mtmsi }
  else .err (.ieInvalidLength 117)

/-- `len` (guti.rs:89-91). -/
def len (_m : Mode) (_x : Guti) : R Err Nat := .ok 14

/-- Field values that the encoding of a `Guti` can represent. -/
def WF (x : Guti) : Prop :=
  x.t = 117 ∧
  x.length.toNat = 10 ∧
  x.ins < 16 ∧
  PlmnOk x.mcc x.mnc x.mnc_is_three_digits

instance (x : Guti) : Decidable x.WF := by unfold WF; infer_instance

theorem rt : RoundTrips WF marshal unmarshal := by
  intro m x tail h
  obtain ⟨t, length, ins, mcc, mnc, mnc_is_three_digits, mmegi, mmec, mtmsi⟩ := x
  obtain ⟨ht, hl, hi, hp⟩ := h
  simp only at ht hl hi hp
  obtain ⟨p0, p1, p2, e1, e2⟩ := mccMnc_roundtrip3 hp
  enc_simp [marshal, e1, e2, mccMncDecode]
  rt_simp [unmarshal, ht, hl, hi, hp, e1, e2, mccMncDecode]

theorem len_ok : LenOk WF marshal len := by
  intro m x h
  have hm : x.marshal.length = 14 := by
    obtain ⟨t, length, ins, mcc, mnc, mnc_is_three_digits, mmegi, mmec, mtmsi⟩ := x
    obtain ⟨ht, hl, hi, hp⟩ := h
    simp only at ht hl hi hp
    obtain ⟨p0, p1, p2, e1, e2⟩ := mccMnc_roundtrip3 hp
    enc_simp [marshal, e1, e2, mccMncDecode]
    simp [gtp]
  rw [hm]; rfl

theorem safe : FixedSafe 14 unmarshal len := by
  intro m b
  safe_simp [unmarshal, len, mccMncDecode, List.length_drop, List.length_take]
  safe_fin

end Guti

/-- `PSCellId` (pscellid.rs:17-25); the array `nr_cgi: [u8; 5]` is a list, of length 5 when well formed. -/
structure PSCellId where
  t : UInt8
  length : UInt16
  ins : UInt8
  mcc : UInt16
  mnc : UInt16
  mnc_is_three_digits : Bool
  nr_cgi : Bytes
deriving DecidableEq, Repr

namespace PSCellId

/-- `marshal` (pscellid.rs:48-61). -/
def marshal (x : PSCellId) : Bytes :=
  tliv 217 x.length x.ins (mccMncEncode x.mcc x.mnc x.mnc_is_three_digits ++ x.nr_cgi)

/-- `unmarshal` (pscellid.rs:63-79). -/
def unmarshal (_m : Mode) (b : Bytes) : R Err PSCellId := do
  if 12 ≤ b.length then
    let length ← rd16 b 1
    let ins ← rd b 3
    let s ← sl b 4 7
    let (mcc, mnc, mnc_is_three_digits) ← mccMncDecode s
    let nr_cgi ← sl b 7 12
    return { t := 217, length, ins := ins &&& 0x0f, mcc, mnc, mnc_is_three_digits, nr_cgi }
  else .err (.ieInvalidLength 217)

/-- `len` (pscellid.rs:81-83). -/
def len (_m : Mode) (_x : PSCellId) : R Err Nat := .ok 12

/-- Field values that the encoding of a `PSCellId` can represent. -/
def WF (x : PSCellId) : Prop :=
  x.t = 217 ∧
  x.length.toNat = 8 ∧
  x.ins < 16 ∧
  PlmnOk x.mcc x.mnc x.mnc_is_three_digits ∧
  x.nr_cgi.length = 5

instance (x : PSCellId) : Decidable x.WF := by unfold WF; infer_instance

theorem rt : RoundTrips WF marshal unmarshal := by
  intro m x tail h
  obtain ⟨t, length, ins, mcc, mnc, mnc_is_three_digits, nr_cgi⟩ := x
  obtain ⟨ht, hl, hi, hp, hc⟩ := h
  simp only at ht hl hi hp hc
  obtain ⟨p0, p1, p2, e1, e2⟩ := mccMnc_roundtrip3 hp
  obtain ⟨n0, n1, n2, n3, n4, rfl⟩ := exists_list5 hc
  enc_simp [marshal, e1, e2, mccMncDecode]
  rt_simp [unmarshal, ht, hl, hi, hp, hc, e1, e2, mccMncDecode]

theorem len_ok : LenOk WF marshal len := by
  intro m x h
  have hm : x.marshal.length = 12 := by
    obtain ⟨t, length, ins, mcc, mnc, mnc_is_three_digits, nr_cgi⟩ := x
    obtain ⟨ht, hl, hi, hp, hc⟩ := h
    simp only at ht hl hi hp hc
    obtain ⟨p0, p1, p2, e1, e2⟩ := mccMnc_roundtrip3 hp
    obtain ⟨n0, n1, n2, n3, n4, rfl⟩ := exists_list5 hc
    enc_simp [marshal, e1, e2, mccMncDecode]
    simp [gtp]
  rw [hm]; rfl

theorem safe : FixedSafe 12 unmarshal len := by
  intro m b
  safe_simp [unmarshal, len, mccMncDecode, List.length_drop, List.length_take]
  safe_fin

end PSCellId

/-- `enum AccessMode` (uci.rs:17-21). -/
inductive AccessMode where
  | ClosedMode | HybridMode | Reserved
deriving DecidableEq, Repr

namespace AccessMode

/-- The code written for a `AccessMode` (uci.rs). -/
def toU8 : AccessMode → UInt8
  | .ClosedMode => 0
  | .HybridMode => 1
  | .Reserved => 2

/-- The `AccessMode` read from a code (uci.rs). -/
def ofU8 (i : UInt8) : AccessMode :=
  if i = 0 then .ClosedMode
  else if i = 1 then .HybridMode
  else if i = 2 ∨ i = 3 then .Reserved
  else .Reserved

@[gtp] theorem ofU8_toU8 (v : AccessMode) : ofU8 v.toU8 = v := by cases v <;> rfl

end AccessMode

/-- `enum Cmi` (uci.rs:47-50). -/
inductive Cmi where
  | NonCsgMembership | CsgMembership
deriving DecidableEq, Repr

namespace Cmi

/-- The code written for a `Cmi` (uci.rs). -/
def toU8 : Cmi → UInt8
  | .NonCsgMembership => 0
  | .CsgMembership => 1

/-- The `Cmi` read from a code (uci.rs). -/
def ofU8 (i : UInt8) : Cmi :=
  if i = 0 then .NonCsgMembership
  else if i = 1 then .CsgMembership
  else .NonCsgMembership

@[gtp] theorem ofU8_toU8 (v : Cmi) : ofU8 v.toU8 = v := by cases v <;> rfl

end Cmi

/-- `Uci` (uci.rs:74-85). -/
structure Uci where
  t : UInt8
  length : UInt16
  ins : UInt8
  mcc : UInt16
  mnc : UInt16
  mnc_is_three_digits : Bool
  csgid : UInt32
  access_mode : AccessMode
  lcsg : Bool
  cmi : Cmi
deriving DecidableEq, Repr

namespace Uci

/-- Last octet (uci.rs:123-132). -/
def modes (access_mode : AccessMode) (lcsg : Bool) (cmi : Cmi) : UInt8 :=
  if lcsg then (access_mode.toU8 <<< 6) ||| 0x02 ||| cmi.toU8 else (access_mode.toU8 <<< 6) ||| cmi.toU8

theorem modes_dec (a : AccessMode) (l : Bool) (c : Cmi) :
    AccessMode.ofU8 ((modes a l c &&& 0xc0) >>> 6) = a ∧
    ((modes a l c &&& 0x02) >>> 1 != 0) = l ∧ Cmi.ofU8 (modes a l c &&& 0x01) = c := by
  cases a <;> cases l <;> cases c <;> decide

theorem and27 {x : UInt32} (h : x.toNat < 2 ^ 27) : x &&& 0x07ffffff = x := by
  apply UInt32.toNat_inj.mp
  have : (0x07ffffff : UInt32).toNat = 2 ^ 27 - 1 := rfl
  rw [UInt32.toNat_and, this, Nat.and_two_pow_sub_one_eq_mod, Nat.mod_eq_of_lt h]

/-- `marshal` (uci.rs:111-135). -/
def marshal (x : Uci) : Bytes :=
  tliv 145 x.length x.ins (mccMncEncode x.mcc x.mnc x.mnc_is_three_digits ++ be32 (x.csgid &&& 0x07ffffff) ++ [modes x.access_mode x.lcsg x.cmi])

/-- `unmarshal` (uci.rs:137-159). -/
def unmarshal (_m : Mode) (b : Bytes) : R Err Uci := do
  if 12 ≤ b.length then
    let length ← rd16 b 1
    let ins ← rd b 3
    let s ← sl b 4 7
    let (mcc, mnc, mnc_is_three_digits) ← mccMncDecode s
    let csgid ← rd32 b 7
    let v ← rd b 11
    return { t := 145, length, ins := ins &&& 0x0f, mcc, mnc, mnc_is_three_digits, csgid,
             access_mode := .ofU8 ((v &&& 0xc0) >>> 6), lcsg := (v &&& 0x02) >>> 1 != 0,
             cmi := .ofU8 (v &&& 0x01) }
  else .err (.ieInvalidLength 145)

/-- `len` (uci.rs:161-163). -/
def len (_m : Mode) (_x : Uci) : R Err Nat := .ok 12

/-- Field values that the encoding of a `Uci` can represent. -/
def WF (x : Uci) : Prop :=
  x.t = 145 ∧
  x.length.toNat = 8 ∧
  x.ins < 16 ∧
  PlmnOk x.mcc x.mnc x.mnc_is_three_digits ∧
  x.csgid.toNat < 2 ^ 27

instance (x : Uci) : Decidable x.WF := by unfold WF; infer_instance

theorem rt : RoundTrips WF marshal unmarshal := by
  intro m x tail h
  obtain ⟨t, length, ins, mcc, mnc, mnc_is_three_digits, csgid, access_mode, lcsg, cmi⟩ := x
  obtain ⟨ht, hl, hi, hp, hc⟩ := h
  simp only at ht hl hi hp hc
  obtain ⟨p0, p1, p2, e1, e2⟩ := mccMnc_roundtrip3 hp
  have hm := modes_dec access_mode lcsg cmi
  have h27 := and27 hc
  enc_simp [marshal, e1, e2, mccMncDecode, hm, h27]
  rt_simp [unmarshal, ht, hl, hi, hp, hc, e1, e2, mccMncDecode, hm, h27]

theorem len_ok : LenOk WF marshal len := by
  intro m x h
  have hm : x.marshal.length = 12 := by
    obtain ⟨t, length, ins, mcc, mnc, mnc_is_three_digits, csgid, access_mode, lcsg, cmi⟩ := x
    obtain ⟨ht, hl, hi, hp, hc⟩ := h
    simp only at ht hl hi hp hc
    obtain ⟨p0, p1, p2, e1, e2⟩ := mccMnc_roundtrip3 hp
    have hm := modes_dec access_mode lcsg cmi
    have h27 := and27 hc
    enc_simp [marshal, e1, e2, mccMncDecode, hm, h27]
    simp [gtp]
  rw [hm]; rfl

theorem safe : FixedSafe 12 unmarshal len := by
  intro m b
  safe_simp [unmarshal, len, mccMncDecode, List.length_drop, List.length_take]
  safe_fin

end Uci

/-- `TraceInformation` (traceinfo.rs:18-31). -/
structure TraceInformation where
  t : UInt8
  length : UInt16
  ins : UInt8
  mcc : UInt16
  mnc : UInt16
  mnc_is_three_digits : Bool
  trace_id : UInt32
  trigger_events : Bytes
  list_ne_types : UInt16
  trace_depth : UInt8
  list_interfaces : Bytes
  trace_collection_ip : UInt32
deriving DecidableEq, Repr

namespace TraceInformation

/-- `marshal` (traceinfo.rs:59-77). -/
def marshal (x : TraceInformation) : Bytes :=
  tliv 96 x.length x.ins <|
    mccMncEncode x.mcc x.mnc x.mnc_is_three_digits ++ be24 x.trace_id ++ x.trigger_events ++
      be16 x.list_ne_types ++ [x.trace_depth] ++ x.list_interfaces ++ be32 x.trace_collection_ip

/-- `unmarshal` (traceinfo.rs:79-101). -/
def unmarshal (_m : Mode) (b : Bytes) : R Err TraceInformation := do
  if 38 ≤ b.length then
    let length ← rd16 b 1
    let ins ← rd b 3
    let s ← sl b 4 7
    let (mcc, mnc, mnc_is_three_digits) ← mccMncDecode s
    let trace_id ← rd24 b 7
    let trigger_events ← sl b 10 19
    let list_ne_types ← rd16 b 19
    let trace_depth ← rd b 21
    let list_interfaces ← sl b 22 34
    let trace_collection_ip ← rd32 b 34
    return { t := 96, length, ins := ins &&& 0x0f, mcc, mnc, mnc_is_three_digits, trace_id,
             trigger_events, list_ne_types, trace_depth, list_interfaces, trace_collection_ip }
  else .err (.ieInvalidLength 96)

/-- `len` (traceinfo.rs:103-105). -/
def len (_m : Mode) (_x : TraceInformation) : R Err Nat := .ok 38

/-- Field values that the encoding of a `TraceInformation` can represent. -/
def WF (x : TraceInformation) : Prop :=
  x.t = 96 ∧
  x.length.toNat = 34 ∧
  x.ins < 16 ∧
  PlmnOk x.mcc x.mnc x.mnc_is_three_digits ∧
  x.trace_id.toNat < 16777216 ∧
  x.trigger_events.length = 9 ∧
  x.list_interfaces.length = 12

instance (x : TraceInformation) : Decidable x.WF := by unfold WF; infer_instance

theorem rt : RoundTrips WF marshal unmarshal := by
  intro m x tail h
  obtain ⟨t, length, ins, mcc, mnc, mnc_is_three_digits, trace_id, trigger_events, list_ne_types, trace_depth, list_interfaces, trace_collection_ip⟩ := x
  obtain ⟨ht, hl, hi, hp, h24, h9, h12⟩ := h
  simp only at ht hl hi hp h24 h9 h12
  obtain ⟨p0, p1, p2, e1, e2⟩ := mccMnc_roundtrip3 hp
  obtain ⟨t0, t1, t2, t3, t4, t5, t6, t7, t8, rfl⟩ := exists_list9 h9
  obtain ⟨i0, i1, i2, i3, i4, i5, i6, i7, i8, i9, i10, i11, rfl⟩ := exists_list12 h12
  enc_simp [marshal, e1, e2, mccMncDecode, of24_be h24]
  rt_simp [unmarshal, ht, hl, hi, hp, h24, h9, h12, e1, e2, mccMncDecode, of24_be h24]

theorem len_ok : LenOk WF marshal len := by
  intro m x h
  have hm : x.marshal.length = 38 := by
    obtain ⟨t, length, ins, mcc, mnc, mnc_is_three_digits, trace_id, trigger_events, list_ne_types, trace_depth, list_interfaces, trace_collection_ip⟩ := x
    obtain ⟨ht, hl, hi, hp, h24, h9, h12⟩ := h
    simp only at ht hl hi hp h24 h9 h12
    obtain ⟨p0, p1, p2, e1, e2⟩ := mccMnc_roundtrip3 hp
    obtain ⟨t0, t1, t2, t3, t4, t5, t6, t7, t8, rfl⟩ := exists_list9 h9
    obtain ⟨i0, i1, i2, i3, i4, i5, i6, i7, i8, i9, i10, i11, rfl⟩ := exists_list12 h12
    enc_simp [marshal, e1, e2, mccMncDecode, of24_be h24]
    simp [gtp]
  rw [hm]; rfl

theorem safe : FixedSafe 38 unmarshal len := by
  intro m b
  safe_simp [unmarshal, len, mccMncDecode, List.length_drop, List.length_take]
  safe_fin

end TraceInformation

end Gtp.V2
