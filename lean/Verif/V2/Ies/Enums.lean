import Verif.V2.IeBase

/-!
# Information elements with enumerated values

Expanded by `scripts/gen_ies.py`; the citations refer to `/repo/src/gtpv2/messages/ies`.
-/

namespace Gtp.V2

set_option linter.unusedSimpArgs false

/-- `enum Restriction` (apnrestriction.rs:17-24). -/
inductive Restriction where
  | NoApnRestriction | Public1 | Public2 | Private1 | Private2
deriving DecidableEq, Repr

namespace Restriction

/-- The code written for a `Restriction` (apnrestriction.rs). -/
def toU8 : Restriction → UInt8
  | .NoApnRestriction => 0
  | .Public1 => 1
  | .Public2 => 2
  | .Private1 => 3
  | .Private2 => 4

/-- The `Restriction` read from a code (apnrestriction.rs). -/
def ofU8 (i : UInt8) : Restriction :=
  if i = 0 then .NoApnRestriction
  else if i = 1 then .Public1
  else if i = 2 then .Public2
  else if i = 3 then .Private1
  else if i = 4 then .Private2
  else .NoApnRestriction

@[gtp] theorem ofU8_toU8 (v : Restriction) : ofU8 v.toU8 = v := by cases v <;> rfl

end Restriction

/-- `ApnRestriction` (apnrestriction.rs:54-59). -/
structure ApnRestriction where
  t : UInt8
  length : UInt16
  ins : UInt8
  restriction_type : Restriction
deriving DecidableEq, Repr

namespace ApnRestriction

/-- `marshal` (apnrestriction.rs:79-87). -/
def marshal (x : ApnRestriction) : Bytes :=
  tliv 127 x.length x.ins [x.restriction_type.toU8]

/-- `unmarshal` (apnrestriction.rs:89-101). -/
def unmarshal (_m : Mode) (b : Bytes) : R Err ApnRestriction := do
  if 5 ≤ b.length then
    let length ← rd16 b 1
    let ins ← rd b 3
    let v ← rd b 4
    return { t := 127, length, ins := ins &&& 0x0f, restriction_type := .ofU8 v }
  else .err (.ieInvalidLength 127)

/-- `len` (apnrestriction.rs:103-105). -/
def len (_m : Mode) (_x : ApnRestriction) : R Err Nat := .ok 5

/-- Field values that the encoding of a `ApnRestriction` can represent. -/
def WF (x : ApnRestriction) : Prop := x.t = 127 ∧ x.length.toNat = 1 ∧ x.ins < 16

instance (x : ApnRestriction) : Decidable x.WF := by unfold WF; infer_instance

theorem rt : RoundTrips WF marshal unmarshal := by
  intro m x tail h
  obtain ⟨t, length, ins, restriction_type⟩ := x
  obtain ⟨ht, hl, hi⟩ := h
  simp only at ht hl hi
  enc_simp [marshal]
  rt_simp [unmarshal, ht, hl, hi]

theorem len_ok : LenOk WF marshal len := by
  intro m x h
  have hm : x.marshal.length = 5 := by
    obtain ⟨t, length, ins, restriction_type⟩ := x
    obtain ⟨ht, hl, hi⟩ := h
    simp only at ht hl hi
    enc_simp [marshal]
    simp [gtp]
  rw [hm]; rfl

theorem safe : FixedSafe 5 unmarshal len := by
  intro m b
  safe_simp [unmarshal, len]
  safe_fin

end ApnRestriction

/-- `enum DetachTypeValue` (detachtype.rs:23-29). -/
inductive DetachTypeValue where
  | Reserved | PsDetach | CombinedPsCsDetach | Spare
deriving DecidableEq, Repr

namespace DetachTypeValue

/-- The code written for a `DetachTypeValue` (detachtype.rs). -/
def toU8 : DetachTypeValue → UInt8
  | .Reserved => 0
  | .PsDetach => 1
  | .CombinedPsCsDetach => 2
  | .Spare => 3

/-- The `DetachTypeValue` read from a code (detachtype.rs). -/
def ofU8 (i : UInt8) : DetachTypeValue :=
  if i = 0 then .Reserved
  else if i = 1 then .PsDetach
  else if i = 2 then .CombinedPsCsDetach
  else .Spare

@[gtp] theorem ofU8_toU8 (v : DetachTypeValue) : ofU8 v.toU8 = v := by cases v <;> rfl

end DetachTypeValue

/-- `DetachType` (detachtype.rs:54-59). -/
structure DetachType where
  t : UInt8
  length : UInt16
  ins : UInt8
  detach_type : DetachTypeValue
deriving DecidableEq, Repr

namespace DetachType

/-- `marshal` (detachtype.rs:79-87). -/
def marshal (x : DetachType) : Bytes :=
  tliv 150 x.length x.ins [x.detach_type.toU8]

/-- `unmarshal` (detachtype.rs:89-101). -/
def unmarshal (_m : Mode) (b : Bytes) : R Err DetachType := do
  if 5 ≤ b.length then
    let length ← rd16 b 1
    let ins ← rd b 3
    let v ← rd b 4
    return { t := 150, length, ins := ins &&& 0x0f, detach_type := .ofU8 v }
  else .err (.ieInvalidLength 150)

/-- `len` (detachtype.rs:103-105). -/
def len (_m : Mode) (_x : DetachType) : R Err Nat := .ok 5

/-- Field values that the encoding of a `DetachType` can represent. -/
def WF (x : DetachType) : Prop := x.t = 150 ∧ x.length.toNat = 1 ∧ x.ins < 16

instance (x : DetachType) : Decidable x.WF := by unfold WF; infer_instance

theorem rt : RoundTrips WF marshal unmarshal := by
  intro m x tail h
  obtain ⟨t, length, ins, detach_type⟩ := x
  obtain ⟨ht, hl, hi⟩ := h
  simp only at ht hl hi
  enc_simp [marshal]
  rt_simp [unmarshal, ht, hl, hi]

theorem len_ok : LenOk WF marshal len := by
  intro m x h
  have hm : x.marshal.length = 5 := by
    obtain ⟨t, length, ins, detach_type⟩ := x
    obtain ⟨ht, hl, hi⟩ := h
    simp only at ht hl hi
    enc_simp [marshal]
    simp [gtp]
  rw [hm]; rfl

theorem safe : FixedSafe 5 unmarshal len := by
  intro m b
  safe_simp [unmarshal, len]
  safe_fin

end DetachType

/-- `enum Rat` (rattype.rs:44-69). -/
inductive Rat where
  | Reserved | Utran | Geran | Wlan | Gan | HspaEvo | Eutran | Virtual | EutranNbiot | LteM | NR
  | WbEutranLeo | WbEutranMeo | WbEutranGeo | WbEutranOthersat | EutranNbiotLeo | EutranNbiotMeo
  | EutranNbiotGeo | EutranNbiotOthersat | LteMLeo | LteMMeo | LteMGeo | LteMOthersat | Spare
deriving DecidableEq, Repr

namespace Rat

/-- The code written for a `Rat` (rattype.rs). -/
def toU8 : Rat → UInt8
  | .Reserved => 0
  | .Utran => 1
  | .Geran => 2
  | .Wlan => 3
  | .Gan => 4
  | .HspaEvo => 5
  | .Eutran => 6
  | .Virtual => 7
  | .EutranNbiot => 8
  | .LteM => 9
  | .NR => 10
  | .WbEutranLeo => 11
  | .WbEutranMeo => 12
  | .WbEutranGeo => 13
  | .WbEutranOthersat => 14
  | .EutranNbiotLeo => 15
  | .EutranNbiotMeo => 16
  | .EutranNbiotGeo => 17
  | .EutranNbiotOthersat => 18
  | .LteMLeo => 19
  | .LteMMeo => 20
  | .LteMGeo => 21
  | .LteMOthersat => 22
  | .Spare => 23

/-- The `Rat` read from a code (rattype.rs). -/
def ofU8 (i : UInt8) : Rat :=
  if i = 0 then .Reserved
  else if i = 1 then .Utran
  else if i = 2 then .Geran
  else if i = 3 then .Wlan
  else if i = 4 then .Gan
  else if i = 5 then .HspaEvo
  else if i = 6 then .Eutran
  else if i = 7 then .Virtual
  else if i = 8 then .EutranNbiot
  else if i = 9 then .LteM
  else if i = 10 then .NR
  else if i = 11 then .WbEutranLeo
  else if i = 12 then .WbEutranMeo
  else if i = 13 then .WbEutranGeo
  else if i = 14 then .WbEutranOthersat
  else if i = 15 then .EutranNbiotLeo
  else if i = 16 then .EutranNbiotMeo
  else if i = 17 then .EutranNbiotGeo
  else if i = 18 then .EutranNbiotOthersat
  else if i = 19 then .LteMLeo
  else if i = 20 then .LteMMeo
  else if i = 21 then .LteMGeo
  else if i = 22 then .LteMOthersat
  else .Spare

@[gtp] theorem ofU8_toU8 (v : Rat) : ofU8 v.toU8 = v := by cases v <;> rfl

end Rat

/-- `RatType` (rattype.rs:136-141). -/
structure RatType where
  t : UInt8
  length : UInt16
  ins : UInt8
  rat_type : Rat
deriving DecidableEq, Repr

namespace RatType

/-- `marshal` (rattype.rs:161-169). -/
def marshal (x : RatType) : Bytes :=
  tliv 82 x.length x.ins [x.rat_type.toU8]

/-- `unmarshal` (rattype.rs:171-183). -/
def unmarshal (_m : Mode) (b : Bytes) : R Err RatType := do
  if 5 ≤ b.length then
    let length ← rd16 b 1
    let ins ← rd b 3
    let v ← rd b 4
    return { t := 82, length, ins := ins &&& 0x0f, rat_type := .ofU8 v }
  else .err (.ieInvalidLength 82)

/-- `len` (rattype.rs:185-187). -/
def len (_m : Mode) (_x : RatType) : R Err Nat := .ok 5

/-- Field values that the encoding of a `RatType` can represent. -/
def WF (x : RatType) : Prop := x.t = 82 ∧ x.length.toNat = 1 ∧ x.ins < 16

instance (x : RatType) : Decidable x.WF := by unfold WF; infer_instance

theorem rt : RoundTrips WF marshal unmarshal := by
  intro m x tail h
  obtain ⟨t, length, ins, rat_type⟩ := x
  obtain ⟨ht, hl, hi⟩ := h
  simp only at ht hl hi
  enc_simp [marshal]
  rt_simp [unmarshal, ht, hl, hi]

theorem len_ok : LenOk WF marshal len := by
  intro m x h
  have hm : x.marshal.length = 5 := by
    obtain ⟨t, length, ins, rat_type⟩ := x
    obtain ⟨ht, hl, hi⟩ := h
    simp only at ht hl hi
    enc_simp [marshal]
    simp [gtp]
  rw [hm]; rfl

theorem safe : FixedSafe 5 unmarshal len := by
  intro m b
  safe_simp [unmarshal, len]
  safe_fin

end RatType

/-- `enum Pdn` (pdntype.rs:16-23). -/
inductive Pdn where
  | Ipv4 | Ipv6 | Ipv46 | NonIp | Ethernet | Reserved
deriving DecidableEq, Repr

namespace Pdn

/-- The code written for a `Pdn` (pdntype.rs). -/
def toU8 : Pdn → UInt8
  | .Ipv4 => 1
  | .Ipv6 => 2
  | .Ipv46 => 3
  | .NonIp => 4
  | .Ethernet => 5
  | .Reserved => 6

/-- The `Pdn` read from a code (pdntype.rs). -/
def ofU8 (i : UInt8) : Pdn :=
  if i = 1 then .Ipv4
  else if i = 2 then .Ipv6
  else if i = 3 then .Ipv46
  else if i = 4 then .NonIp
  else if i = 5 then .Ethernet
  else if i = 6 then .Reserved
  else .Reserved

@[gtp] theorem ofU8_toU8 (v : Pdn) : ofU8 v.toU8 = v := by cases v <;> rfl

end Pdn

/-- `PdnType` (pdntype.rs:55-60). -/
structure PdnType where
  t : UInt8
  length : UInt16
  ins : UInt8
  pdn_type : Pdn
deriving DecidableEq, Repr

namespace PdnType

/-- `marshal` (pdntype.rs:80-88). -/
def marshal (x : PdnType) : Bytes :=
  tliv 99 x.length x.ins [x.pdn_type.toU8]

/-- `unmarshal` (pdntype.rs:90-102). -/
def unmarshal (_m : Mode) (b : Bytes) : R Err PdnType := do
  if 5 ≤ b.length then
    let length ← rd16 b 1
    let ins ← rd b 3
    let v ← rd b 4
    return { t := 99, length, ins := ins &&& 0x0f, pdn_type := .ofU8 v }
  else .err (.ieInvalidLength 99)

/-- `len` (pdntype.rs:104-106). -/
def len (_m : Mode) (_x : PdnType) : R Err Nat := .ok 5

/-- Field values that the encoding of a `PdnType` can represent. -/
def WF (x : PdnType) : Prop := x.t = 99 ∧ x.length.toNat = 1 ∧ x.ins < 16

instance (x : PdnType) : Decidable x.WF := by unfold WF; infer_instance

theorem rt : RoundTrips WF marshal unmarshal := by
  intro m x tail h
  obtain ⟨t, length, ins, pdn_type⟩ := x
  obtain ⟨ht, hl, hi⟩ := h
  simp only at ht hl hi
  enc_simp [marshal]
  rt_simp [unmarshal, ht, hl, hi]

theorem len_ok : LenOk WF marshal len := by
  intro m x h
  have hm : x.marshal.length = 5 := by
    obtain ⟨t, length, ins, pdn_type⟩ := x
    obtain ⟨ht, hl, hi⟩ := h
    simp only at ht hl hi
    enc_simp [marshal]
    simp [gtp]
  rw [hm]; rfl

theorem safe : FixedSafe 5 unmarshal len := by
  intro m b
  safe_simp [unmarshal, len]
  safe_fin

end PdnType

/-- `enum Node` (nodetype.rs:17-20). -/
inductive Node where
  | Mme | Sgsn
deriving DecidableEq, Repr

namespace Node

/-- The code written for a `Node` (nodetype.rs). -/
def toU8 : Node → UInt8
  | .Mme => 0
  | .Sgsn => 1

/-- The `Node` read from a code (nodetype.rs). -/
def ofU8 (i : UInt8) : Node :=
  if i = 0 then .Mme
  else if i = 1 then .Sgsn
  else .Sgsn

@[gtp] theorem ofU8_toU8 (v : Node) : ofU8 v.toU8 = v := by cases v <;> rfl

end Node

/-- `NodeType` (nodetype.rs:44-49). -/
structure NodeType where
  t : UInt8
  length : UInt16
  ins : UInt8
  node : Node
deriving DecidableEq, Repr

namespace NodeType

/-- `marshal` (nodetype.rs:69-77). -/
def marshal (x : NodeType) : Bytes :=
  tliv 135 x.length x.ins [x.node.toU8]

/-- `unmarshal` (nodetype.rs:79-91). -/
def unmarshal (_m : Mode) (b : Bytes) : R Err NodeType := do
  if 5 ≤ b.length then
    let length ← rd16 b 1
    let ins ← rd b 3
    let v ← rd b 4
    return { t := 135, length, ins, node := .ofU8 v }
  else .err (.ieInvalidLength 135)

/-- `len` (nodetype.rs:93-95). -/
def len (_m : Mode) (_x : NodeType) : R Err Nat := .ok 5

/-- Field values that the encoding of a `NodeType` can represent. -/
def WF (x : NodeType) : Prop := x.t = 135 ∧ x.length.toNat = 1

instance (x : NodeType) : Decidable x.WF := by unfold WF; infer_instance

theorem rt : RoundTrips WF marshal unmarshal := by
  intro m x tail h
  obtain ⟨t, length, ins, node⟩ := x
  obtain ⟨ht, hl⟩ := h
  simp only at ht hl
  enc_simp [marshal]
  rt_simp [unmarshal, ht, hl]

theorem len_ok : LenOk WF marshal len := by
  intro m x h
  have hm : x.marshal.length = 5 := by
    obtain ⟨t, length, ins, node⟩ := x
    obtain ⟨ht, hl⟩ := h
    simp only at ht hl
    enc_simp [marshal]
    simp [gtp]
  rw [hm]; rfl

theorem safe : FixedSafe 5 unmarshal len := by
  intro m b
  safe_simp [unmarshal, len]
  safe_fin

end NodeType

/-- `enum CsgMembership` (cmi.rs:17-20). -/
inductive CsgMembership where
  | CsgMembership | NonCsgMembership
deriving DecidableEq, Repr

namespace CsgMembership

/-- The code written for a `V2.CsgMembership` (cmi.rs). -/
def toU8 : V2.CsgMembership → UInt8
  | .CsgMembership => 0
  | .NonCsgMembership => 1

/-- The `V2.CsgMembership` read from a code (cmi.rs). -/
def ofU8 (i : UInt8) : V2.CsgMembership :=
  if i = 0 then .CsgMembership
  else if i = 1 then .NonCsgMembership
  else .NonCsgMembership

@[gtp] theorem ofU8_toU8 (v : V2.CsgMembership) : ofU8 v.toU8 = v := by cases v <;> rfl

end CsgMembership

/-- `CsgMembershipIndication` (cmi.rs:44-49). -/
structure CsgMembershipIndication where
  t : UInt8
  length : UInt16
  ins : UInt8
  cmi : CsgMembership
deriving DecidableEq, Repr

namespace CsgMembershipIndication

/-- `marshal` (cmi.rs:69-77). -/
def marshal (x : CsgMembershipIndication) : Bytes :=
  tliv 148 x.length x.ins [x.cmi.toU8]

/-- `unmarshal` (cmi.rs:79-91). -/
def unmarshal (_m : Mode) (b : Bytes) : R Err CsgMembershipIndication := do
  if 5 ≤ b.length then
    let length ← rd16 b 1
    let ins ← rd b 3
    let v ← rd b 4
    return { t := 148, length, ins, cmi := .ofU8 v }
  else .err (.ieInvalidLength 148)

/-- `len` (cmi.rs:93-95). -/
def len (_m : Mode) (_x : CsgMembershipIndication) : R Err Nat := .ok 5

/-- Field values that the encoding of a `CsgMembershipIndication` can represent. -/
def WF (x : CsgMembershipIndication) : Prop := x.t = 148 ∧ x.length.toNat = 1

instance (x : CsgMembershipIndication) : Decidable x.WF := by unfold WF; infer_instance

theorem rt : RoundTrips WF marshal unmarshal := by
  intro m x tail h
  obtain ⟨t, length, ins, cmi⟩ := x
  obtain ⟨ht, hl⟩ := h
  simp only at ht hl
  enc_simp [marshal]
  rt_simp [unmarshal, ht, hl]

theorem len_ok : LenOk WF marshal len := by
  intro m x h
  have hm : x.marshal.length = 5 := by
    obtain ⟨t, length, ins, cmi⟩ := x
    obtain ⟨ht, hl⟩ := h
    simp only at ht hl
    enc_simp [marshal]
    simp [gtp]
  rw [hm]; rfl

theorem safe : FixedSafe 5 unmarshal len := by
  intro m b
  safe_simp [unmarshal, len]
  safe_fin

end CsgMembershipIndication

/-- `enum ServiceIndication` (serviceindicator.rs:23-28). -/
inductive ServiceIndication where
  | Spare | CsCallIndicator | SmsIndicator
deriving DecidableEq, Repr

namespace ServiceIndication

/-- The code written for a `ServiceIndication` (serviceindicator.rs). -/
def toU8 : ServiceIndication → UInt8
  | .Spare => 0
  | .CsCallIndicator => 1
  | .SmsIndicator => 2

/-- The `ServiceIndication` read from a code (serviceindicator.rs). -/
def ofU8 (i : UInt8) : ServiceIndication :=
  if i = 1 then .CsCallIndicator
  else if i = 2 then .SmsIndicator
  else .Spare

@[gtp] theorem ofU8_toU8 (v : ServiceIndication) : ofU8 v.toU8 = v := by cases v <;> rfl

end ServiceIndication

/-- `ServiceIndicator` (serviceindicator.rs:51-56). -/
structure ServiceIndicator where
  t : UInt8
  length : UInt16
  ins : UInt8
  indicator : ServiceIndication
deriving DecidableEq, Repr

namespace ServiceIndicator

/-- `marshal` (serviceindicator.rs:76-84). -/
def marshal (x : ServiceIndicator) : Bytes :=
  tliv 149 x.length x.ins [x.indicator.toU8]

/-- `unmarshal` (serviceindicator.rs:86-98). -/
def unmarshal (_m : Mode) (b : Bytes) : R Err ServiceIndicator := do
  if 5 ≤ b.length then
    let length ← rd16 b 1
    let ins ← rd b 3
    let v ← rd b 4
    return { t := 149, length, ins := ins &&& 0x0f, indicator := .ofU8 v }
  else .err (.ieInvalidLength 149)

/-- `len` (serviceindicator.rs:100-102). -/
def len (_m : Mode) (_x : ServiceIndicator) : R Err Nat := .ok 5

/-- Field values that the encoding of a `ServiceIndicator` can represent. -/
def WF (x : ServiceIndicator) : Prop := x.t = 149 ∧ x.length.toNat = 1 ∧ x.ins < 16

instance (x : ServiceIndicator) : Decidable x.WF := by unfold WF; infer_instance

theorem rt : RoundTrips WF marshal unmarshal := by
  intro m x tail h
  obtain ⟨t, length, ins, indicator⟩ := x
  obtain ⟨ht, hl, hi⟩ := h
  simp only at ht hl hi
  enc_simp [marshal]
  rt_simp [unmarshal, ht, hl, hi]

theorem len_ok : LenOk WF marshal len := by
  intro m x h
  have hm : x.marshal.length = 5 := by
    obtain ⟨t, length, ins, indicator⟩ := x
    obtain ⟨ht, hl, hi⟩ := h
    simp only at ht hl hi
    enc_simp [marshal]
    simp [gtp]
  rw [hm]; rfl

theorem safe : FixedSafe 5 unmarshal len := by
  intro m b
  safe_simp [unmarshal, len]
  safe_fin

end ServiceIndicator

/-- `enum IndicationValues` (actionindication.rs:24-31). -/
inductive IndicationValues where
  | NoAction | DeactivationIndication | PagingIndication | PagingStopIndication | Spare
deriving DecidableEq, Repr

namespace IndicationValues

/-- The code written for a `IndicationValues` (actionindication.rs). -/
def toU8 : IndicationValues → UInt8
  | .NoAction => 0
  | .DeactivationIndication => 1
  | .PagingIndication => 2
  | .PagingStopIndication => 3
  | .Spare => 4

/-- The `IndicationValues` read from a code (actionindication.rs). -/
def ofU8 (i : UInt8) : IndicationValues :=
  if i = 0 then .NoAction
  else if i = 1 then .DeactivationIndication
  else if i = 2 then .PagingIndication
  else if i = 3 then .PagingStopIndication
  else if i = 4 ∨ i = 5 ∨ i = 6 ∨ i = 7 then .Spare
  else .NoAction

@[gtp] theorem ofU8_toU8 (v : IndicationValues) : ofU8 v.toU8 = v := by cases v <;> rfl

end IndicationValues

theorem IndicationValues.lt8 (v : IndicationValues) : v.toU8 < 8 := by cases v <;> decide

/-- `ActionIndication` (actionindication.rs:59-64). -/
structure ActionIndication where
  t : UInt8
  length : UInt16
  ins : UInt8
  indication : IndicationValues
deriving DecidableEq, Repr

namespace ActionIndication

/-- `marshal` (actionindication.rs:84-92). -/
def marshal (x : ActionIndication) : Bytes :=
  tliv 168 x.length x.ins [x.indication.toU8]

/-- `unmarshal` (actionindication.rs:94-106). -/
def unmarshal (_m : Mode) (b : Bytes) : R Err ActionIndication := do
  if 5 ≤ b.length then
    let length ← rd16 b 1
    let ins ← rd b 3
    let v ← rd b 4
    return { t := 168, length, ins := ins &&& 0x0f, indication := .ofU8 (v &&& 0x07) }
  else .err (.ieInvalidLength 168)

/-- `len` (actionindication.rs:108-110). -/
def len (_m : Mode) (x : ActionIndication) : R Err Nat := ieLenU x.length

/-- Field values that the encoding of a `ActionIndication` can represent. -/
def WF (x : ActionIndication) : Prop := x.t = 168 ∧ x.length.toNat = 1 ∧ x.ins < 16

instance (x : ActionIndication) : Decidable x.WF := by unfold WF; infer_instance

theorem rt : RoundTrips WF marshal unmarshal := by
  intro m x tail h
  obtain ⟨t, length, ins, indication⟩ := x
  obtain ⟨ht, hl, hi⟩ := h
  simp only at ht hl hi
  enc_simp [marshal, IndicationValues.lt8]
  rt_simp [unmarshal, ht, hl, hi, IndicationValues.lt8]

theorem len_ok : LenOk WF marshal len := by
  intro m x h
  obtain ⟨t, length, ins, indication⟩ := x
  obtain ⟨ht, hl, hi⟩ := h
  simp only at ht hl hi
  enc_simp [marshal, IndicationValues.lt8]
  simp only [len, ieLenU]
  congr 1
  simp only [List.length_cons, List.length_append, List.length_nil, gtplen]
  try omega

theorem safe : LooseSafe (fun _ => True) unmarshal len := by
  intro m b hb hc
  unfold declLen at *
  safe_simp [unmarshal, len]
  safe_fin

end ActionIndication

/-- `enum SrvccCauseValues` (srvcccause.rs:33-47). -/
inductive SrvccCauseValues where
  | Reserved | Unspecified | HandoverRelocationCancelledBySourceSystem
  | HandoverRelocationFailureWithTargetSystem | HandoverRelocationTargetNotAllowed
  | UnknownTargetId | TargetCellNotAvailable | NoRadioResourcesAvailableInTargetCell
  | FailureInRadioInterfaceProcedure | PermanentSessionLegEstablishmentError
  | TemporarySessionLegEstablishmentError | Spare
deriving DecidableEq, Repr

namespace SrvccCauseValues

/-- The code written for a `SrvccCauseValues` (srvcccause.rs). -/
def toU8 : SrvccCauseValues → UInt8
  | .Reserved => 0
  | .Unspecified => 1
  | .HandoverRelocationCancelledBySourceSystem => 2
  | .HandoverRelocationFailureWithTargetSystem => 3
  | .HandoverRelocationTargetNotAllowed => 4
  | .UnknownTargetId => 5
  | .TargetCellNotAvailable => 6
  | .NoRadioResourcesAvailableInTargetCell => 7
  | .FailureInRadioInterfaceProcedure => 8
  | .PermanentSessionLegEstablishmentError => 9
  | .TemporarySessionLegEstablishmentError => 10
  | .Spare => 11

/-- The `SrvccCauseValues` read from a code (srvcccause.rs). -/
def ofU8 (i : UInt8) : SrvccCauseValues :=
  if i = 0 then .Reserved
  else if i = 1 then .Unspecified
  else if i = 2 then .HandoverRelocationCancelledBySourceSystem
  else if i = 3 then .HandoverRelocationFailureWithTargetSystem
  else if i = 4 then .HandoverRelocationTargetNotAllowed
  else if i = 5 then .UnknownTargetId
  else if i = 6 then .TargetCellNotAvailable
  else if i = 7 then .NoRadioResourcesAvailableInTargetCell
  else if i = 8 then .FailureInRadioInterfaceProcedure
  else if i = 9 then .PermanentSessionLegEstablishmentError
  else if i = 10 then .TemporarySessionLegEstablishmentError
  else .Spare

@[gtp] theorem ofU8_toU8 (v : SrvccCauseValues) : ofU8 v.toU8 = v := by cases v <;> rfl

end SrvccCauseValues

/-- `SrvccCause` (srvcccause.rs:88-93). -/
structure SrvccCause where
  t : UInt8
  length : UInt16
  ins : UInt8
  value : SrvccCauseValues
deriving DecidableEq, Repr

namespace SrvccCause

/-- `marshal` (srvcccause.rs:113-121). -/
def marshal (x : SrvccCause) : Bytes :=
  tliv 56 x.length x.ins [x.value.toU8]

/-- `unmarshal` (srvcccause.rs:123-135). -/
def unmarshal (_m : Mode) (b : Bytes) : R Err SrvccCause := do
  if 5 ≤ b.length then
    let length ← rd16 b 1
    let ins ← rd b 3
    let v ← rd b 4
    return { t := 56, length, ins := ins &&& 0x0f, value := .ofU8 v }
  else .err (.ieInvalidLength 56)

/-- `len` (srvcccause.rs:137-139). -/
def len (_m : Mode) (_x : SrvccCause) : R Err Nat := .ok 5

/-- Field values that the encoding of a `SrvccCause` can represent. -/
def WF (x : SrvccCause) : Prop := x.t = 56 ∧ x.length.toNat = 1 ∧ x.ins < 16

instance (x : SrvccCause) : Decidable x.WF := by unfold WF; infer_instance

theorem rt : RoundTrips WF marshal unmarshal := by
  intro m x tail h
  obtain ⟨t, length, ins, value⟩ := x
  obtain ⟨ht, hl, hi⟩ := h
  simp only at ht hl hi
  enc_simp [marshal]
  rt_simp [unmarshal, ht, hl, hi]

theorem len_ok : LenOk WF marshal len := by
  intro m x h
  have hm : x.marshal.length = 5 := by
    obtain ⟨t, length, ins, value⟩ := x
    obtain ⟨ht, hl, hi⟩ := h
    simp only at ht hl hi
    enc_simp [marshal]
    simp [gtp]
  rw [hm]; rfl

theorem safe : FixedSafe 5 unmarshal len := by
  intro m b
  safe_simp [unmarshal, len]
  safe_fin

end SrvccCause

/-- `enum UpIpPolicy` (upsp.rs:16-22). -/
inductive UpIpPolicy where
  | NotNeeded | Preferred | Required | Spare
deriving DecidableEq, Repr

namespace UpIpPolicy

/-- The code written for a `UpIpPolicy` (upsp.rs). -/
def toU8 : UpIpPolicy → UInt8
  | .NotNeeded => 0
  | .Preferred => 1
  | .Required => 2
  | .Spare => 3

/-- The `UpIpPolicy` read from a code (upsp.rs). -/
def ofU8 (i : UInt8) : UpIpPolicy :=
  if i = 0 then .NotNeeded
  else if i = 1 then .Preferred
  else if i = 2 then .Required
  else if i = 3 then .Spare
  else .Spare

@[gtp] theorem ofU8_toU8 (v : UpIpPolicy) : ofU8 v.toU8 = v := by cases v <;> rfl

end UpIpPolicy

theorem UpIpPolicy.lt4 (v : UpIpPolicy) : v.toU8 < 4 := by cases v <;> decide

/-- `UpSecurityPolicy` (upsp.rs:50-55). -/
structure UpSecurityPolicy where
  t : UInt8
  length : UInt16
  ins : UInt8
  up_ip_policy : UpIpPolicy
deriving DecidableEq, Repr

namespace UpSecurityPolicy

/-- `marshal` (upsp.rs:75-83). -/
def marshal (x : UpSecurityPolicy) : Bytes :=
  tliv 218 x.length x.ins [x.up_ip_policy.toU8]

/-- `unmarshal` (upsp.rs:85-97). -/
def unmarshal (_m : Mode) (b : Bytes) : R Err UpSecurityPolicy := do
  if 5 ≤ b.length then
    let length ← rd16 b 1
    let ins ← rd b 3
    let v ← rd b 4
    return { t := 218, length, ins := ins &&& 0x0f, up_ip_policy := .ofU8 (v &&& 0x03) }
  else .err (.ieInvalidLength 218)

/-- `len` (upsp.rs:99-101). -/
def len (_m : Mode) (_x : UpSecurityPolicy) : R Err Nat := .ok 5

/-- Field values that the encoding of a `UpSecurityPolicy` can represent. -/
def WF (x : UpSecurityPolicy) : Prop := x.t = 218 ∧ x.length.toNat = 1 ∧ x.ins < 16

instance (x : UpSecurityPolicy) : Decidable x.WF := by unfold WF; infer_instance

theorem rt : RoundTrips WF marshal unmarshal := by
  intro m x tail h
  obtain ⟨t, length, ins, up_ip_policy⟩ := x
  obtain ⟨ht, hl, hi⟩ := h
  simp only at ht hl hi
  enc_simp [marshal, UpIpPolicy.lt4]
  rt_simp [unmarshal, ht, hl, hi, UpIpPolicy.lt4]

theorem len_ok : LenOk WF marshal len := by
  intro m x h
  have hm : x.marshal.length = 5 := by
    obtain ⟨t, length, ins, up_ip_policy⟩ := x
    obtain ⟨ht, hl, hi⟩ := h
    simp only at ht hl hi
    enc_simp [marshal, UpIpPolicy.lt4]
    simp [gtp]
  rw [hm]; rfl

theorem safe : FixedSafe 5 unmarshal len := by
  intro m b
  safe_simp [unmarshal, len]
  safe_fin

end UpSecurityPolicy

/-- `enum SelectMode` (cnose.rs:26-29). -/
inductive SelectMode where
  | ServingNetworkSelectedbyUE | ServingNetworkSelectedbyNetwork
deriving DecidableEq, Repr

namespace SelectMode

/-- The code written for a `SelectMode` (cnose.rs). -/
def toU8 : SelectMode → UInt8
  | .ServingNetworkSelectedbyUE => 0
  | .ServingNetworkSelectedbyNetwork => 1

/-- The `SelectMode` read from a code (cnose.rs). -/
def ofU8 (i : UInt8) : Option SelectMode :=
  if i = 0 then some .ServingNetworkSelectedbyUE
  else if i = 1 then some .ServingNetworkSelectedbyNetwork
  else if i = 2 ∨ i = 3 then some .ServingNetworkSelectedbyNetwork
  else none

@[gtp] theorem ofU8_toU8 (v : SelectMode) : ofU8 v.toU8 = some v := by cases v <;> rfl

end SelectMode

/-- `CnOperatorSelectionEntity` (cnose.rs:17-22). -/
structure CnOperatorSelectionEntity where
  t : UInt8
  length : UInt16
  ins : UInt8
  selection_entity : SelectMode
deriving DecidableEq, Repr

namespace CnOperatorSelectionEntity

/-- `marshal` (cnose.rs:49-60). -/
def marshal (x : CnOperatorSelectionEntity) : Bytes :=
  tliv 173 x.length x.ins [x.selection_entity.toU8]

/-- `unmarshal` (cnose.rs:62-79). -/
def unmarshal (_m : Mode) (b : Bytes) : R Err CnOperatorSelectionEntity := do
  if 5 ≤ b.length then
    let length ← rd16 b 1
    let ins ← rd b 3
    let v ← rd b 4
    let selection_entity ← .ofOption (SelectMode.ofU8 v) (.ieIncorrect 173)
    return { t := 173, length, ins := ins &&& 0x0f, selection_entity }
  else .err (.ieInvalidLength 173)

/-- `len` (cnose.rs:81-83). -/
def len (_m : Mode) (_x : CnOperatorSelectionEntity) : R Err Nat := .ok 5

/-- Field values that the encoding of a `CnOperatorSelectionEntity` can represent. -/
def WF (x : CnOperatorSelectionEntity) : Prop := x.t = 173 ∧ x.length.toNat = 1 ∧ x.ins < 16

instance (x : CnOperatorSelectionEntity) : Decidable x.WF := by unfold WF; infer_instance

theorem rt : RoundTrips WF marshal unmarshal := by
  intro m x tail h
  obtain ⟨t, length, ins, selection_entity⟩ := x
  obtain ⟨ht, hl, hi⟩ := h
  simp only at ht hl hi
  enc_simp [marshal]
  rt_simp [unmarshal, ht, hl, hi]

theorem len_ok : LenOk WF marshal len := by
  intro m x h
  have hm : x.marshal.length = 5 := by
    obtain ⟨t, length, ins, selection_entity⟩ := x
    obtain ⟨ht, hl, hi⟩ := h
    simp only at ht hl hi
    enc_simp [marshal]
    simp [gtp]
  rw [hm]; rfl

theorem safe : FixedSafe 5 unmarshal len := by
  intro m b
  safe_simp [unmarshal, len]
  safe_fin

end CnOperatorSelectionEntity

end Gtp.V2
