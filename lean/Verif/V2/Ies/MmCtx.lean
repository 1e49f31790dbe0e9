import Verif.V2.Ies.Var4

/-!
# MM contexts

Expanded by `scripts/gen_ies.py`; the citations refer to `/repo/src/gtpv2/messages/ies`.
-/

namespace Gtp.V2

set_option linter.unusedSimpArgs false

/-- `enum SecurityMode` (commons.rs:881-889). -/
inductive SecurityMode where
  | GsmKeyAndTriplets | UmtsKeyUsedCipherAndQuintuplets | GsmKeyUsedCipherAndQuintuplets
  | UmtsKeyAndQuintuplets | EpsSecurityContextAndQuadruplets | UmtsKeyQuadrupletsAndQuintuplets
  | Spare
deriving DecidableEq, Repr

namespace SecurityMode

/-- The code written for a `SecurityMode` (commons.rs). -/
def toU8 : SecurityMode → UInt8
  | .GsmKeyAndTriplets => 0
  | .UmtsKeyUsedCipherAndQuintuplets => 1
  | .GsmKeyUsedCipherAndQuintuplets => 2
  | .UmtsKeyAndQuintuplets => 3
  | .EpsSecurityContextAndQuadruplets => 4
  | .UmtsKeyQuadrupletsAndQuintuplets => 5
  | .Spare => 6

/-- The `SecurityMode` read from a code (commons.rs). -/
def ofU8 (i : UInt8) : SecurityMode :=
  if i = 0 then .GsmKeyAndTriplets
  else if i = 1 then .UmtsKeyUsedCipherAndQuintuplets
  else if i = 2 then .GsmKeyUsedCipherAndQuintuplets
  else if i = 3 then .UmtsKeyAndQuintuplets
  else if i = 4 then .EpsSecurityContextAndQuadruplets
  else if i = 5 then .UmtsKeyQuadrupletsAndQuintuplets
  else .Spare

@[gtp] theorem ofU8_toU8 (v : SecurityMode) : ofU8 v.toU8 = v := by cases v <;> rfl

end SecurityMode

/-- `enum NasCipherValues` (commons.rs:920-931). -/
inductive NasCipherValues where
  | NoChiper | Eea1 | Eea2 | Eea3 | Eea4 | Eea5 | Eea6 | Eea7 | Spare
deriving DecidableEq, Repr

namespace NasCipherValues

/-- The code written for a `NasCipherValues` (commons.rs). -/
def toU8 : NasCipherValues → UInt8
  | .NoChiper => 0
  | .Eea1 => 1
  | .Eea2 => 2
  | .Eea3 => 3
  | .Eea4 => 4
  | .Eea5 => 5
  | .Eea6 => 6
  | .Eea7 => 7
  | .Spare => 8

/-- The `NasCipherValues` read from a code (commons.rs). -/
def ofU8 (i : UInt8) : NasCipherValues :=
  if i = 0 then .NoChiper
  else if i = 1 then .Eea1
  else if i = 2 then .Eea2
  else if i = 3 then .Eea3
  else if i = 4 then .Eea4
  else if i = 5 then .Eea5
  else if i = 6 then .Eea6
  else if i = 7 then .Eea7
  else .Spare

@[gtp] theorem ofU8_toU8 (v : NasCipherValues) : ofU8 v.toU8 = v := by cases v <;> rfl

end NasCipherValues

/-- `enum NasIntegrityProtectionValues` (commons.rs:966-976). -/
inductive NasIntegrityProtectionValues where
  | NoIntegrity | Eia1 | Eia2 | Eia3 | Eia4 | Eia5 | Eia6 | Eia7
deriving DecidableEq, Repr

namespace NasIntegrityProtectionValues

/-- The code written for a `NasIntegrityProtectionValues` (commons.rs). -/
def toU8 : NasIntegrityProtectionValues → UInt8
  | .NoIntegrity => 0
  | .Eia1 => 1
  | .Eia2 => 2
  | .Eia3 => 3
  | .Eia4 => 4
  | .Eia5 => 5
  | .Eia6 => 6
  | .Eia7 => 7

/-- The `NasIntegrityProtectionValues` read from a code (commons.rs). -/
def ofU8 (i : UInt8) : NasIntegrityProtectionValues :=
  if i = 0 then .NoIntegrity
  else if i = 1 then .Eia1
  else if i = 2 then .Eia2
  else if i = 3 then .Eia3
  else if i = 4 then .Eia4
  else if i = 5 then .Eia5
  else if i = 6 then .Eia6
  else if i = 7 then .Eia7
  else .NoIntegrity

@[gtp] theorem ofU8_toU8 (v : NasIntegrityProtectionValues) : ofU8 v.toU8 = v := by cases v <;> rfl

end NasIntegrityProtectionValues

/-- `enum CipherValues` (commons.rs:1010-1020). -/
inductive CipherValues where
  | NoCipher | Gea1 | Gea2 | Gea3 | Gea4 | Gea5 | Gea6 | Gea7
deriving DecidableEq, Repr

namespace CipherValues

/-- The code written for a `CipherValues` (commons.rs). -/
def toU8 : CipherValues → UInt8
  | .NoCipher => 0
  | .Gea1 => 1
  | .Gea2 => 2
  | .Gea3 => 3
  | .Gea4 => 4
  | .Gea5 => 5
  | .Gea6 => 6
  | .Gea7 => 7

/-- The `CipherValues` read from a code (commons.rs). -/
def ofU8 (i : UInt8) : CipherValues :=
  if i = 1 then .Gea1
  else if i = 2 then .Gea2
  else if i = 3 then .Gea3
  else if i = 4 then .Gea4
  else if i = 5 then .Gea5
  else if i = 6 then .Gea6
  else if i = 7 then .Gea7
  else .NoCipher

@[gtp] theorem ofU8_toU8 (v : CipherValues) : ofU8 v.toU8 = v := by cases v <;> rfl

end CipherValues

/-- `enum GprsIntegrityProtectionValues` (commons.rs:1053-1058). -/
inductive GprsIntegrityProtectionValues where
  | NoIntegrity | Gia4 | Gia5
deriving DecidableEq, Repr

namespace GprsIntegrityProtectionValues

/-- The code written for a `GprsIntegrityProtectionValues` (commons.rs). -/
def toU8 : GprsIntegrityProtectionValues → UInt8
  | .NoIntegrity => 0
  | .Gia4 => 4
  | .Gia5 => 5

/-- The `GprsIntegrityProtectionValues` read from a code (commons.rs). -/
def ofU8 (i : UInt8) : GprsIntegrityProtectionValues :=
  if i = 4 then .Gia4
  else if i = 5 then .Gia5
  else .NoIntegrity

@[gtp] theorem ofU8_toU8 (v : GprsIntegrityProtectionValues) : ofU8 v.toU8 = v := by cases v <;> rfl

end GprsIntegrityProtectionValues

/-- `AccessRestrictionMM` (commons.rs:1080-1090). -/
structure AccessRestrictionMM where
  una : Bool
  gena : Bool
  gana : Bool
  ina : Bool
  ena : Bool
  hnna : Bool
  nbna : Bool
  ecna : Bool
deriving DecidableEq, Repr

/-- `From<AccessRestrictionMM> for u8` (commons.rs:1092-1105). -/
def AccessRestrictionMM.toU8 (x : AccessRestrictionMM) : UInt8 :=
  (if x.una then 0x01 else 0) + (if x.gena then 0x02 else 0) + (if x.gana then 0x04 else 0) + (if x.ina then 0x08 else 0) +
  (if x.ena then 0x10 else 0) + (if x.hnna then 0x20 else 0) + (if x.nbna then 0x40 else 0) + (if x.ecna then 0x80 else 0)

/-- `From<u8> for AccessRestrictionMM` (commons.rs:1107-1120). -/
def AccessRestrictionMM.ofU8 (v : UInt8) : AccessRestrictionMM :=
  { una := v &&& 0x01 != 0, gena := v &&& 0x02 != 0, gana := v &&& 0x04 != 0, ina := v &&& 0x08 != 0,
    ena := v &&& 0x10 != 0, hnna := v &&& 0x20 != 0, nbna := v &&& 0x40 != 0, ecna := v &&& 0x80 != 0 }

theorem AccessRestrictionMM.ofU8_toU8 (x : AccessRestrictionMM) : ofU8 x.toU8 = x := by
  obtain ⟨a, b, c, d, e, f, g, h⟩ := x
  revert a b c d e f g h
  decide +kernel

/-- `ExtendedAccessRestrictionMM` (commons.rs:1138-1145). -/
structure ExtendedAccessRestrictionMM where
  nruna : Bool
  nrusrna : Bool
  nrna : Bool
  ussrna : Bool
  nrsrna : Bool
deriving DecidableEq, Repr

/-- `From<ExtendedAccessRestrictionMM> for u8` (commons.rs:1147-1157). -/
def ExtendedAccessRestrictionMM.toU8 (x : ExtendedAccessRestrictionMM) : UInt8 :=
  (if x.nrsrna then 0x01 else 0) + (if x.ussrna then 0x02 else 0) + (if x.nrna then 0x04 else 0) +
  (if x.nrusrna then 0x08 else 0) + (if x.nruna then 0x10 else 0)

/-- `From<u8> for ExtendedAccessRestrictionMM` (commons.rs:1159-1169). -/
def ExtendedAccessRestrictionMM.ofU8 (v : UInt8) : ExtendedAccessRestrictionMM :=
  { nrsrna := v &&& 0x01 != 0, ussrna := v &&& 0x02 != 0, nrna := v &&& 0x04 != 0, nrusrna := v &&& 0x08 != 0,
    nruna := v &&& 0x10 != 0 }

theorem ExtendedAccessRestrictionMM.ofU8_toU8 (x : ExtendedAccessRestrictionMM) : ofU8 x.toU8 = x := by
  obtain ⟨a, b, c, d, e⟩ := x
  revert a b c d e
  decide +kernel

/-! ### Items with their own length -/

/-- Decoding an encoded item, whatever follows, gives it back, and `len` is the size of its encoding. -/
def ItemOk {α : Type} (WF : α → Prop) (enc : α → Bytes) (unm : Bytes → R Err α) (len : α → Nat) : Prop :=
  ∀ x tail, WF x → unm (enc x ++ tail) = .ok x ∧ len x = (enc x).length

/-- No panic on at least `need` octets; a decoded item is accounted with at most `hi` octets. -/
def ItemSafe {α : Type} (need hi : Nat) (unm : Bytes → R Err α) (len : α → Nat) : Prop :=
  ∀ b, need ≤ b.length → (unm b).Safe fun v => len v ≤ hi

/-- `if let Ok(ie) = X::unmarshal(&buffer[cursor..]) { cursor += ie.len() } else { return Err(e) }`. -/
def rdItem {α : Type} (unm : Bytes → R Err α) (len : α → Nat) (e : Err) (b : Bytes) (c : Nat) : R Err (α × Nat) := do
  let s ← slFrom b c
  let v ← (unm s).mapErr e
  return (v, c + len v)

theorem rdItem_at {α : Type} {WF : α → Prop} {enc : α → Bytes} {unm : Bytes → R Err α} {len : α → Nat} {e : Err}
    {b r : Bytes} {c : Nat} {x : α} (hi : ItemOk WF enc unm len) (h : At b c (enc x ++ r)) (hx : WF x) :
    ∃ c', rdItem unm len e b c = .ok (x, c') ∧ At b c' r := by
  obtain ⟨h1, h2⟩ := hi x r hx
  exact ⟨c + len x, by simp [rdItem, h.slFrom, h1], h.skip (by omega)⟩

theorem rdItem_safe {α : Type} {unm : Bytes → R Err α} {len : α → Nat} {e : Err} {b : Bytes} {c need hi : Nat}
    (hs : ItemSafe need hi unm len) (h : c + need ≤ b.length) :
    (rdItem unm len e b c).Safe fun p => p.2 ≤ c + hi := by
  safe_simp [rdItem]
  refine ⟨by omega, Safe.mono (hs _ (by simp; omega)) fun v hv => by omega⟩

/-- The loop `for _ in 0..n { .. push(ie); cursor += ie.len() .. }`. -/
def rdItems {α : Type} (unm : Bytes → R Err α) (len : α → Nat) (e : Err) (b : Bytes) : Nat → Nat → R Err (List α × Nat)
  | 0, c => .ok ([], c)
  | n + 1, c => do
    let (v, c) ← rdItem unm len e b c
    let (vs, c) ← rdItems unm len e b n c
    return (v :: vs, c)

theorem rdItems_at {α : Type} {WF : α → Prop} {enc : α → Bytes} {unm : Bytes → R Err α} {len : α → Nat} {e : Err}
    {b r : Bytes} (hi : ItemOk WF enc unm len) : ∀ {xs : List α} {c : Nat}, At b c (xs.flatMap enc ++ r) → (∀ x ∈ xs, WF x) →
    ∃ c', rdItems unm len e b xs.length c = .ok (xs, c') ∧ At b c' r
  | [], c, h, _ => ⟨c, rfl, by simpa using h⟩
  | x :: xs, c, h, hw => by
    rw [List.flatMap_cons, List.append_assoc] at h
    obtain ⟨c1, a1, h1⟩ := rdItem_at (e := e) hi h (hw x (by simp))
    obtain ⟨c2, a2, h2⟩ := rdItems_at (e := e) hi h1 (fun y hy => hw y (by simp [hy]))
    exact ⟨c2, by simp [rdItems, a1, a2], h2⟩

theorem rdItems_safe' {α : Type} {unm : Bytes → R Err α} {len : α → Nat} {e : Err} {b : Bytes} {need hi : Nat}
    (hs : ItemSafe need hi unm len) : ∀ {n c : Nat}, c + n * hi + need ≤ b.length →
    (rdItems unm len e b n c).Safe fun p => p.2 ≤ c + n * hi
  | 0, c, h => by simp [rdItems, R.Safe]
  | n + 1, c, h => by
    rw [Nat.add_mul, Nat.one_mul] at h ⊢
    simp only [rdItems, Safe_bind]
    refine Safe.mono (rdItem_safe hs (by omega)) fun ⟨v, c1⟩ h1 => ?_
    simp only at h1
    try simp only [Safe_bind]
    refine Safe.mono (rdItems_safe' (n := n) hs (by omega)) fun ⟨vs, c2⟩ h2 => ?_
    simp only at h2
    simp only [Safe_pure]
    omega

/-- `match n { 0 => (), i if i <= 5 => { .. the loop .. v = Some(..) }, _ => return Err(e) }`. -/
def rdAuth {α : Type} (unm : Bytes → R Err α) (len : α → Nat) (e : Err) (b : Bytes) (n : UInt8) (c : Nat) :
    R Err (Option (List α) × Nat) := do
  if n = 0 then return (none, c)
  else if n ≤ 5 then
    let (vs, c) ← rdItems unm len e b n.toNat c
    return (some vs, c)
  else .err e

/-- Absent, or between one and five items, all representable. -/
def AuthOk {α : Type} (WF : α → Prop) (v : Option (List α)) : Prop :=
  ∀ l ∈ v, 0 < l.length ∧ l.length ≤ 5 ∧ ∀ x ∈ l, WF x

instance {α : Type} (WF : α → Prop) [DecidablePred WF] (v : Option (List α)) : Decidable (AuthOk WF v) := by
  unfold AuthOk; infer_instance

/-- The number of items written into the count field. -/
def authN {α : Type} (v : Option (List α)) : Nat :=
  match v with
  | some l => l.length
  | none => 0

theorem authN_le {α : Type} {WF : α → Prop} {v : Option (List α)} (h : AuthOk WF v) : authN v ≤ 5 := by
  cases v with
  | none => simp [authN]
  | some l => exact (h l rfl).2.1

theorem rdAuth_at {α : Type} {WF : α → Prop} {enc : α → Bytes} {unm : Bytes → R Err α} {len : α → Nat} {e : Err}
    {b r : Bytes} {c : Nat} {v : Option (List α)} (hi : ItemOk WF enc unm len)
    (h : At b c (optEnc (fun l => l.flatMap enc) v ++ r)) (hv : AuthOk WF v) :
    ∃ c', rdAuth unm len e b (UInt8.ofNat (authN v)) c = .ok (v, c') ∧ At b c' r := by
  cases v with
  | none => exact ⟨c, by simp [rdAuth, authN], by simpa [optEnc] using h⟩
  | some l =>
    obtain ⟨h1, h2, h3⟩ := hv l rfl
    simp only [optEnc] at h
    obtain ⟨c', a1, h4⟩ := rdItems_at (e := e) hi h h3
    have hn : (UInt8.ofNat l.length).toNat = l.length := by simp; omega
    have h0 : ¬ UInt8.ofNat l.length = 0 := fun h => by rw [h] at hn; simp at hn; omega
    have h5 : UInt8.ofNat l.length ≤ 5 := by rw [UInt8.le_iff_toNat_le, hn]; exact h2
    exact ⟨c', by simp [rdAuth, authN, h0, h5, hn, a1], h4⟩

theorem rdAuth_safe {α : Type} {unm : Bytes → R Err α} {len : α → Nat} {e : Err} {b : Bytes} {c need hi : Nat} {n : UInt8}
    (hs : ItemSafe need hi unm len) (h : c + 5 * hi + need ≤ b.length) :
    (rdAuth unm len e b n c).Safe fun p => p.2 ≤ c + 5 * hi := by
  safe_simp [rdAuth]
  refine ⟨fun _ => by omega, fun _ h5 => ?_⟩
  rw [UInt8.le_iff_toNat_le] at h5
  have h5 : n.toNat ≤ 5 := h5
  have hm : n.toNat * hi ≤ 5 * hi := Nat.mul_le_mul_right _ h5
  refine Safe.mono (rdItems_safe' (n := n.toNat) hs (by omega)) fun ⟨vs, c2⟩ h2 => ?_
  simp only at h2
  safe_simp []
  omega

/-- `AuthTriplet` (commons.rs:417-422). -/
structure AuthTriplet where
  rand : Bytes
  sres : Bytes
  kc : Bytes
deriving DecidableEq, Repr

namespace AuthTriplet

/-- Sizes of the arrays `[u8; 16]`, `[u8; 4]`, `[u8; 8]`. -/
def WF (x : AuthTriplet) : Prop := x.rand.length = 16 ∧ x.sres.length = 4 ∧ x.kc.length = 8

instance (x : AuthTriplet) : Decidable x.WF := by unfold WF; infer_instance

/-- `marshal` (commons.rs:425-429). -/
def octets (x : AuthTriplet) : Bytes := x.rand ++ (x.sres ++ x.kc)

/-- `unmarshal` (commons.rs:431-441). -/
def unm (b : Bytes) : R Err AuthTriplet := do
  if 28 ≤ b.length then
    let rand ← sl b 0 16
    let sres ← sl b 16 20
    let kc ← sl b 20 28
    return { rand, sres, kc }
  else .err (.ieIncorrect 0)

/-- `len` (commons.rs:447-449). -/
def size (_x : AuthTriplet) : Nat := 28

theorem ok : ItemOk WF octets unm size := by
  rintro ⟨rand, sres, kc⟩ tail ⟨h1, h2, h3⟩
  simp only at h1 h2 h3
  refine ⟨?_, by simp [octets, size, h1, h2, h3]⟩
  generalize hb : octets _ ++ tail = b
  have a0 := At.of_eq hb
  simp only [octets, List.append_assoc] at a0
  have a1 : At b 16 _ := a0.skip (by omega)
  have a2 : At b 20 _ := a1.skip (by omega)
  have hl := a2.length
  simp only [List.length_append] at hl
  cur_simp [unm, a0.sl (ε := Err) (n := 16) (by omega), a1.sl (ε := Err) (n := 20) (by omega), a2.sl (ε := Err) (n := 28) (by omega)]

theorem safe : ItemSafe 0 28 unm size := by
  intro b _
  safe_simp [unm, size]
  omega

end AuthTriplet

/-- `AuthQuintuplet` (commons.rs:494-501). -/
structure AuthQuintuplet where
  rand : Bytes
  xres : Bytes
  ck : Bytes
  ik : Bytes
  autn : Bytes
deriving DecidableEq, Repr

namespace AuthQuintuplet

/-- Sizes of the arrays `[u8; 16]`, and lengths that fit the length octets. -/
def WF (x : AuthQuintuplet) : Prop :=
  x.rand.length = 16 ∧ x.xres.length < 256 ∧ x.ck.length = 16 ∧ x.ik.length = 16 ∧ x.autn.length < 256

instance (x : AuthQuintuplet) : Decidable x.WF := by unfold WF; infer_instance

/-- `marshal` (commons.rs:504-512). -/
def octets (x : AuthQuintuplet) : Bytes :=
  x.rand ++ (lenU8 x.xres :: (x.xres ++ (x.ck ++ (x.ik ++ (lenU8 x.autn :: x.autn)))))

/-- `unmarshal` (commons.rs:514-549). -/
def unm (b : Bytes) : R Err AuthQuintuplet := do
  if 16 ≤ b.length then
    let rand ← sl b 0 16
    let (xres, c) ← rdLvC (.ieIncorrect 0) b 16
    if c + 32 ≤ b.length then
      let (ck, c) ← rdN 16 b c
      let (ik, c) ← rdN 16 b c
      let (autn, _) ← rdLvC (.ieIncorrect 0) b c
      return { rand, xres, ck, ik, autn }
    else .err (.ieIncorrect 0)
  else .err (.ieIncorrect 0)

/-- `len` (commons.rs:559-561). -/
def size (x : AuthQuintuplet) : Nat := 50 + x.xres.length + x.autn.length

theorem ok : ItemOk WF octets unm size := by
  rintro ⟨rand, xres, ck, ik, autn⟩ tail ⟨h1, h2, h3, h4, h5⟩
  simp only at h1 h2 h3 h4 h5
  refine ⟨?_, by simp [octets, size, h1, h3, h4]; omega⟩
  generalize hb : octets _ ++ tail = b
  have a0 := At.of_eq hb
  simp only [octets, List.append_assoc, List.cons_append] at a0
  have a1 : At b 16 _ := a0.skip (by omega)
  obtain ⟨c1, e1, a2⟩ := rdLvC_at (e := .ieIncorrect 0) a1 h2
  obtain ⟨c2, e2, a3⟩ := rdN_at a2 h3
  obtain ⟨c3, e3, a4⟩ := rdN_at a3 h4
  obtain ⟨c4, e4, a5⟩ := rdLvC_at (e := .ieIncorrect 0) a4 h5
  have hl := a2.length
  have hl1 := a1.length
  simp only [List.length_append, List.length_cons] at hl hl1
  cur_simp [unm, a0.sl (ε := Err) (n := 16) (by omega), e1, e2, e3, e4]

/-- What `rdLvC` returns has the announced length. -/
theorem _root_.Gtp.V2.rdLvC_safe2 {e : Err} {b : Bytes} {c : Nat} (h : c < b.length) :
    (rdLvC e b c).Safe fun p => p.2 ≤ c + 256 ∧ p.1.length ≤ 255 ∧ p.2 ≤ b.length := by
  have := toNat_lt256 (b.getD c 0)
  safe_simp [rdLvC]
  refine ⟨by omega, fun h2 => ⟨⟨by omega, h2⟩, by omega, by rw [List.length_drop, List.length_take]; omega, by omega⟩⟩

theorem safe : ItemSafe 305 560 unm size := by
  intro b hb
  safe_simp [unm, size]
  refine fun _ => ⟨by omega, ?_⟩
  refine Safe.mono (rdLvC_safe2 (by omega)) fun ⟨v1, c1⟩ h1 => ?_
  try safe_simp [rdN]
  simp only at h1
  refine fun _ => ⟨by omega, by omega, ?_⟩
  refine Safe.mono (rdLvC_safe2 (by omega)) fun ⟨v2, c2⟩ h2 => ?_
  simp only at h2
  safe_simp []
  omega

end AuthQuintuplet

/-- `AuthQuadruplet` (commons.rs:627-633). -/
structure AuthQuadruplet where
  rand : Bytes
  xres : Bytes
  autn : Bytes
  kasme : Bytes
deriving DecidableEq, Repr

namespace AuthQuadruplet

/-- Sizes of the arrays, and lengths that fit the length octets. -/
def WF (x : AuthQuadruplet) : Prop :=
  x.rand.length = 16 ∧ x.xres.length < 256 ∧ x.autn.length < 256 ∧ x.kasme.length = 32

instance (x : AuthQuadruplet) : Decidable x.WF := by unfold WF; infer_instance

/-- `marshal` (commons.rs:636-643). -/
def octets (x : AuthQuadruplet) : Bytes :=
  x.rand ++ (lenU8 x.xres :: (x.xres ++ (lenU8 x.autn :: (x.autn ++ x.kasme))))

/-- `unmarshal` (commons.rs:645-680). -/
def unm (b : Bytes) : R Err AuthQuadruplet := do
  if 17 ≤ b.length then
    let rand ← sl b 0 16
    let (xres, c) ← rdLvC (.ieIncorrect 0) b 16
    let (autn, c) ← rdLvC (.ieIncorrect 0) b c
    if c + 32 ≤ b.length then
      let (kasme, _) ← rdN 32 b c
      return { rand, xres, autn, kasme }
    else .err (.ieIncorrect 0)
  else .err (.ieIncorrect 0)

/-- `len` (commons.rs:689-691). -/
def size (x : AuthQuadruplet) : Nat := 50 + x.xres.length + x.autn.length

theorem ok : ItemOk WF octets unm size := by
  rintro ⟨rand, xres, autn, kasme⟩ tail ⟨h1, h2, h3, h4⟩
  simp only at h1 h2 h3 h4
  refine ⟨?_, by simp [octets, size, h1, h4]; omega⟩
  generalize hb : octets _ ++ tail = b
  have a0 := At.of_eq hb
  simp only [octets, List.append_assoc, List.cons_append] at a0
  have a1 : At b 16 _ := a0.skip (by omega)
  obtain ⟨c1, e1, a2⟩ := rdLvC_at (e := .ieIncorrect 0) a1 h2
  obtain ⟨c2, e2, a3⟩ := rdLvC_at (e := .ieIncorrect 0) a2 h3
  obtain ⟨c3, e3, a4⟩ := rdN_at a3 h4
  have hl := a3.length
  have hl1 := a1.length
  simp only [List.length_append, List.length_cons] at hl hl1
  cur_simp [unm, a0.sl (ε := Err) (n := 16) (by omega), e1, e2, e3]

theorem safe : ItemSafe 273 560 unm size := by
  intro b hb
  safe_simp [unm, size]
  refine fun _ => ⟨by omega, ?_⟩
  refine Safe.mono (rdLvC_safe2 (by omega)) fun ⟨v1, c1⟩ h1 => ?_
  try safe_simp []
  simp only at h1
  refine Safe.mono (rdLvC_safe2 (by omega)) fun ⟨v2, c2⟩ h2 => ?_
  simp only at h2
  safe_simp [rdN]
  omega

end AuthQuadruplet

/-- `AmbrMM` (commons.rs:1171-1175). -/
structure AmbrMM where
  uplink : UInt32
  downlink : UInt32
deriving DecidableEq, Repr

namespace AmbrMM

/-- `marshal` (commons.rs:1178-1181). -/
def octets (x : AmbrMM) : Bytes := be32 x.uplink ++ be32 x.downlink

/-- `unmarshal` (commons.rs:1183-1193). -/
def unm (b : Bytes) : R Err AmbrMM := do
  if 8 ≤ b.length then
    let uplink ← rd32 b 0
    let downlink ← rd32 b 4
    return { uplink, downlink }
  else .err (.ieIncorrect 0)

theorem ok : ItemOk (fun _ => True) octets unm (fun _ => 8) := by
  rintro ⟨u, d⟩ tail -
  refine ⟨?_, rfl⟩
  generalize hb : octets _ ++ tail = b
  have a0 := At.of_eq hb
  simp only [octets, List.append_assoc] at a0
  have a1 : At b 4 _ := a0.skip (by simp [be32])
  have hl := a1.length
  simp only [List.length_append, be32, List.length_cons] at hl
  cur_simp [unm, a0.rd32, a1.rd32]

theorem safe : ItemSafe 0 8 unm (fun _ => 8) := by
  intro b _
  safe_simp [unm]
  omega

end AmbrMM

/-- An AMBR with its length check (e.g. mmctxgsmkeytriplets.rs:176-187). -/
def rdAmbr (ty : UInt8) (b : Bytes) (c : Nat) : R Err (AmbrMM × Nat) :=
  if c + 8 ≤ b.length then rdItem AmbrMM.unm (fun _ => 8) (.ieIncorrect ty) b c else .err (.ieInvalidLength ty)

theorem rdAmbr_at {ty : UInt8} {b r : Bytes} {c : Nat} {x : AmbrMM} (h : At b c (x.octets ++ r)) :
    ∃ c', rdAmbr ty b c = .ok (x, c') ∧ At b c' r := by
  have hl := h.length
  simp only [List.length_append, AmbrMM.octets, be32, List.length_cons, List.length_nil] at hl
  obtain ⟨c', a, h1⟩ := rdItem_at (e := .ieIncorrect ty) AmbrMM.ok h trivial
  exact ⟨c', by rw [rdAmbr, if_pos (by omega), a], h1⟩

theorem rdAmbr_safe {ty : UInt8} {b : Bytes} {c : Nat} : (rdAmbr ty b c).Safe fun p => p.2 ≤ c + 8 := by
  unfold rdAmbr
  split
  · exact rdItem_safe AmbrMM.safe (by omega)
  · trivial

/-- `OldEpsSecurityContext` (commons.rs:1210-1216). -/
structure OldEpsSecurityContext where
  old_ksi : UInt8
  old_ncc : Option UInt8
  old_kasme : Bytes
  old_next_hop : Option Bytes
deriving DecidableEq, Repr

namespace OldEpsSecurityContext

/-- Sizes of the arrays, three-bit fields; the NCC is only read back together with a next hop key. -/
def WF (x : OldEpsSecurityContext) : Prop :=
  x.old_ksi < 8 ∧ (∀ n ∈ x.old_ncc, n < 8) ∧ x.old_kasme.length = 32 ∧ (∀ k ∈ x.old_next_hop, k.length = 32) ∧
  x.old_ncc.isSome = x.old_next_hop.isSome

instance (x : OldEpsSecurityContext) : Decidable x.WF := by unfold WF; infer_instance

/-- The first octet (commons.rs:1220-1231). -/
def oct (nh : Bool) (ksi : UInt8) (ncc : Option UInt8) : UInt8 :=
  (if nh then (0x80 : UInt8) else 0x00) ||| ((ksi &&& 0x07) <<< 3) ||| (match ncc with | some n => n &&& 0x07 | none => 0)

theorem oct_dec {ksi n : UInt8} (h1 : ksi < 8) (h2 : n < 8) :
    oct true ksi (some n) >>> 7 = 1 ∧ (oct true ksi (some n) &&& 0x38) >>> 3 = ksi ∧ oct true ksi (some n) &&& 0x07 = n ∧
    oct false ksi none >>> 7 = 0 ∧ (oct false ksi none &&& 0x38) >>> 3 = ksi := by
  have key : ∀ ksi : UInt8, ksi < 8 → ∀ n : UInt8, n < 8 →
    oct true ksi (some n) >>> 7 = 1 ∧ (oct true ksi (some n) &&& 0x38) >>> 3 = ksi ∧ oct true ksi (some n) &&& 0x07 = n ∧
    oct false ksi none >>> 7 = 0 ∧ (oct false ksi none &&& 0x38) >>> 3 = ksi := by decide +kernel
  exact key ksi h1 n h2

/-- `marshal` (commons.rs:1219-1236). -/
def octets (x : OldEpsSecurityContext) : Bytes :=
  oct x.old_next_hop.isSome x.old_ksi x.old_ncc :: (x.old_kasme ++ optEnc id x.old_next_hop)

/-- `unmarshal` (commons.rs:1238-1268). -/
def unm (b : Bytes) : R Err OldEpsSecurityContext := do
  let f ← rd b 0
  if f >>> 7 = 0 then
    if 33 ≤ b.length then
      let old_kasme ← sl b 1 33
      return { old_ksi := (f &&& 0x38) >>> 3, old_ncc := none, old_kasme, old_next_hop := none }
    else .err (.ieIncorrect 0)
  else if f >>> 7 = 1 then
    if 65 ≤ b.length then
      let old_kasme ← sl b 1 33
      let nh ← sl b 33 65
      return { old_ksi := (f &&& 0x38) >>> 3, old_ncc := some (f &&& 0x07), old_kasme, old_next_hop := some nh }
    else .err (.ieIncorrect 0)
  else .err (.ieIncorrect 0)

/-- `len` (commons.rs:1274-1280). -/
def size (x : OldEpsSecurityContext) : Nat := if x.old_next_hop.isSome then 65 else 33

theorem ok : ItemOk WF octets unm size := by
  rintro ⟨ksi, ncc, kasme, nh⟩ tail ⟨h1, h2, h3, h4, h5⟩
  simp only at h1 h2 h3 h4 h5
  cases nh with
  | none =>
    cases ncc with
    | some n => simp at h5
    | none =>
      refine ⟨?_, by simp [octets, optEnc, size, h3]⟩
      generalize hb : octets _ ++ tail = b
      have a0 := At.of_eq hb
      simp only [octets, optEnc, List.append_assoc, List.cons_append, List.nil_append] at a0
      have a1 : At b 1 _ := a0.next
      have hl := a1.length
      simp only [List.length_append] at hl
      obtain ⟨-, -, -, d1, d2⟩ := oct_dec h1 (show (0 : UInt8) < 8 by decide)
      cur_simp [unm, a0.rd, a1.sl (ε := Err) (n := 33) (by omega), d1, d2, Option.isSome]
  | some k =>
    cases ncc with
    | none => simp at h5
    | some n =>
      have hk := h4 k rfl
      refine ⟨?_, by simp [octets, optEnc, size, h3, hk]⟩
      generalize hb : octets _ ++ tail = b
      have a0 := At.of_eq hb
      simp only [octets, optEnc, List.append_assoc, List.cons_append, List.nil_append, id_eq] at a0
      have a1 : At b 1 _ := a0.next
      have a2 : At b 33 _ := a1.skip (by omega)
      have hl := a2.length
      simp only [List.length_append] at hl
      obtain ⟨d1, d2, d3, -, -⟩ := oct_dec h1 (h2 n rfl)
      cur_simp [unm, a0.rd, a1.sl (ε := Err) (n := 33) (by omega), a2.sl (ε := Err) (n := 65) (by omega), d1, d2, d3, Option.isSome]

theorem safe : ItemSafe 1 65 unm size := by
  intro b hb
  safe_simp [unm, size]
  simp
  omega

end OldEpsSecurityContext

/-! ### Lossy decoding of UTF-8 and the APN rate control status -/

/-- `b & 192 == 128`: a continuation octet. -/
def isCont (x : UInt8) : Bool := x &&& 0xc0 == 0x80

/-- One step of `Utf8Chunks::next` (`core::str::lossy`): the character starting with `b`, or U+FFFD for the longest
prefix of a character, and the number of octets of `r` used. -/
def lossyNext (b : UInt8) (r : Bytes) : Char × Nat :=
  let g := fun i => r.getD i 0
  let v := b.toNat
  if v < 0x80 then (Char.ofNat v, 0)
  else if 0xc2 ≤ v ∧ v ≤ 0xdf then
    if isCont (g 0) then (Char.ofNat ((v % 32) * 64 + (g 0).toNat % 64), 1) else ('\uFFFD', 0)
  else if 0xe0 ≤ v ∧ v ≤ 0xef then
    if isCont (g 0) ∧ (v = 0xe0 → 0xa0 ≤ (g 0).toNat) ∧ (v = 0xed → (g 0).toNat ≤ 0x9f) then
      if isCont (g 1) then (Char.ofNat (((v % 16) * 64 + (g 0).toNat % 64) * 64 + (g 1).toNat % 64), 2) else ('\uFFFD', 1)
    else ('\uFFFD', 0)
  else if 0xf0 ≤ v ∧ v ≤ 0xf4 then
    if isCont (g 0) ∧ (v = 0xf0 → 0x90 ≤ (g 0).toNat) ∧ (v = 0xf4 → (g 0).toNat ≤ 0x8f) then
      if isCont (g 1) then
        if isCont (g 2) then
          (Char.ofNat ((((v % 8) * 64 + (g 0).toNat % 64) * 64 + (g 1).toNat % 64) * 64 + (g 2).toNat % 64), 3)
        else ('\uFFFD', 2)
      else ('\uFFFD', 1)
    else ('\uFFFD', 0)
  else ('\uFFFD', 0)

/-- All characters; the fuel is the number of octets. -/
def lossyChars : Nat → Bytes → Str
  | 0, _ => []
  | _ + 1, [] => []
  | n + 1, b :: r => (lossyNext b r).1 :: lossyChars n (r.drop (lossyNext b r).2)

/-- `String::from_utf8_lossy`: a valid string as it is, otherwise with replacement characters. -/
def fromUtf8Lossy (b : Bytes) : Str :=
  match fromUtf8 b with
  | some s => s
  | none => lossyChars b.length b

theorem fromUtf8Lossy_utf8 (s : Str) : fromUtf8Lossy (utf8 s) = s := by simp [fromUtf8Lossy, fromUtf8_utf8]

/-- `ApnRateControlStatusMM` (commons.rs:749-756). -/
structure ApnRateControlStatusMM where
  apn : Str
  uplink_rate_limit : UInt32
  nbr_of_exception_reports : UInt32
  downlink_rate_limit : UInt32
  apn_rate_control_status_validity : Bytes
deriving DecidableEq, Repr

namespace ApnRateControlStatusMM

/-- The size of the array `[u8; 8]`, and a name whose length fits the length fields. -/
def WF (x : ApnRateControlStatusMM) : Prop :=
  x.apn_rate_control_status_validity.length = 8 ∧ (utf8 x.apn).length + 22 < 65536

instance (x : ApnRateControlStatusMM) : Decidable x.WF := by unfold WF; infer_instance

/-- The part behind the length (commons.rs:760-766). -/
def body (x : ApnRateControlStatusMM) : Bytes :=
  be16 (lenU16 (utf8 x.apn)) ++ (utf8 x.apn ++ (be32 x.uplink_rate_limit ++ (be32 x.nbr_of_exception_reports ++
    (be32 x.downlink_rate_limit ++ x.apn_rate_control_status_validity))))

/-- `marshal` (commons.rs:759-769). -/
def octets (x : ApnRateControlStatusMM) : Bytes := be16 (lenU16 x.body) ++ x.body

/-- `unmarshal` (commons.rs:771-820). -/
def unm (b : Bytes) : R Err ApnRateControlStatusMM := do
  if 2 ≤ b.length then
    let length ← rd16 b 0
    if length.toNat + 2 ≤ b.length then
      let n ← rd16 b 2
      if n.toNat + 4 ≤ b.length then
        let s ← sl b 4 (4 + n.toNat)
        let c := 4 + n.toNat
        if c + 20 ≤ b.length then
          let uplink_rate_limit ← rd32 b c
          let nbr_of_exception_reports ← rd32 b (c + 4)
          let downlink_rate_limit ← rd32 b (c + 4 + 4)
          let v ← sl b (c + 4 + 4 + 4) (c + 4 + 4 + 4 + 8)
          return { apn := fromUtf8Lossy s, uplink_rate_limit, nbr_of_exception_reports, downlink_rate_limit,
                   apn_rate_control_status_validity := v }
        else .err (.ieIncorrect 0)
      else .err (.ieIncorrect 0)
    else .err (.ieIncorrect 0)
  else .err (.ieIncorrect 0)

/-- `len` (commons.rs:830-832). -/
def size (x : ApnRateControlStatusMM) : Nat := 24 + (utf8 x.apn).length

theorem ok : ItemOk WF octets unm size := by
  rintro ⟨apn, u, n, d, v⟩ tail ⟨h1, h2⟩
  simp only at h1 h2
  have hbl : (body ⟨apn, u, n, d, v⟩).length = (utf8 apn).length + 22 := by simp only [body, be16, be32, h1, List.length_append, List.length_cons, List.length_nil]; omega
  refine ⟨?_, by simp only [octets, size, hbl, be16, List.length_append, List.length_cons, List.length_nil]; omega⟩
  have e1 : (lenU16 (body ⟨apn, u, n, d, v⟩)).toNat = (utf8 apn).length + 22 := by
    simp only [lenU16, hbl]; simp; omega
  have e2 : (lenU16 (utf8 apn)).toNat = (utf8 apn).length := by simp [lenU16]; omega
  generalize hb : octets _ ++ tail = b
  have a0 := At.of_eq hb
  simp only [octets, List.append_assoc] at a0
  have a2 : At b 2 _ := a0.skip (by simp [be16])
  have hl := a2.length
  simp only [List.length_append, hbl] at hl
  simp only [body, List.append_assoc] at a2
  have a4 : At b 4 _ := a2.skip (by simp [be16])
  have a5 : At b (4 + (utf8 apn).length) _ := a4.skip (by omega)
  have a6 : At b (4 + (utf8 apn).length + 4) _ := a5.skip (by simp [be32])
  have a7 : At b (4 + (utf8 apn).length + 4 + 4) _ := a6.skip (by simp [be32])
  have a8 : At b (4 + (utf8 apn).length + 4 + 4 + 4) _ := a7.skip (by simp [be32])
  have s8 := a8.sl (ε := Err) (n := 4 + (utf8 apn).length + 4 + 4 + 4 + 8) (by omega)
  have s4 := a4.sl (ε := Err) rfl
  cur_simp [unm, a0.rd16, e1, a2.rd16, e2, s4, a5.rd32, a6.rd32, a7.rd32, s8, fromUtf8Lossy_utf8]

end ApnRateControlStatusMM

/-- `while let Ok(ie) = ApnRateControlStatusMM::unmarshal(&buffer[cursor..]) { push(ie); cursor += len }`
(e.g. mmctxumtskeyquadrupletsquintuplets.rs:298-302); every turn advances the cursor by at least 24 octets, so that
the number of octets is enough fuel. -/
def rdRates (b : Bytes) : Nat → Nat → R Err (List ApnRateControlStatusMM × Nat)
  | 0, _ => .diverge
  | n + 1, c => do
    let s ← slFrom b c
    match ApnRateControlStatusMM.unm s with
    | .ok v => do
      let (vs, c) ← rdRates b n (c + v.size)
      return (v :: vs, c)
    | .err _ => return ([], c)
    | .panic => .panic
    | .diverge => .diverge

/-- The APN rate control statuses: `match buffer[cursor] { 0 => None, len => { cursor += 1; if buffer.len() >= cursor + len
{ .. } else { return Err(..) } } }` (e.g. mmctxumtskeyquadrupletsquintuplets.rs:290-309). -/
def rdApnRates (e : Err) (b : Bytes) (c : Nat) : R Err (Option (List ApnRateControlStatusMM) × Nat) := do
  let l ← rd b c
  if l = 0 then return (none, c)
  else if c + 1 + l.toNat ≤ b.length then
    let (vs, c) ← rdRates b (b.length + 1) (c + 1)
    return (some vs, c)
  else .err e

/-- How the statuses are written: a count and the statuses. -/
def apnRatesEnc (v : Option (List ApnRateControlStatusMM)) : Bytes :=
  match v with
  | some l => UInt8.ofNat l.length :: l.flatMap ApnRateControlStatusMM.octets
  | none => [0]

theorem rdRates_last {b : Bytes} : ∀ {l : List ApnRateControlStatusMM} {n c : Nat},
    At b c (l.flatMap ApnRateControlStatusMM.octets) → (∀ x ∈ l, x.WF) → l.length < n →
    rdRates b n c = .ok (l, b.length)
  | [], n + 1, c, h, _, _ => by
    have hl := h.length
    simp only [List.flatMap_nil, List.length_nil] at hl
    simp [rdRates, h.slFrom, ApnRateControlStatusMM.unm, hl]
  | x :: l, n + 1, c, h, hw, hn => by
    rw [List.flatMap_cons] at h
    obtain ⟨h1, h2⟩ := ApnRateControlStatusMM.ok x (l.flatMap ApnRateControlStatusMM.octets) (hw x (by simp))
    have ih := rdRates_last (n := n) (h.skip (n := c + x.size) (by omega)) (fun y hy => hw y (by simp [hy]))
      (by simp at hn; omega)
    simp [rdRates, h.slFrom, h1, ih]

theorem ApnRateControlStatusMM.octets_pos (x : ApnRateControlStatusMM) : 0 < x.octets.length := by
  simp [ApnRateControlStatusMM.octets, be16]

theorem rates_length (l : List ApnRateControlStatusMM) :
    l.length ≤ (l.flatMap ApnRateControlStatusMM.octets).length := by
  induction l with
  | nil => simp
  | cons x l ih =>
    have := x.octets_pos
    simp only [List.flatMap_cons, List.length_append, List.length_cons]
    omega

theorem rdApnRates_last {e : Err} {b : Bytes} {c : Nat} {l : List ApnRateControlStatusMM}
    (h : At b c (apnRatesEnc (some l))) (h0 : 0 < l.length) (h1 : l.length < 256) (hw : ∀ x ∈ l, x.WF) :
    rdApnRates e b c = .ok (some l, b.length) := by
  simp only [apnRatesEnc] at h
  have hn : (UInt8.ofNat l.length).toNat = l.length := by simp; omega
  have hz : ¬ UInt8.ofNat l.length = 0 := fun h => by rw [h] at hn; simp at hn; omega
  have hl := h.length
  simp only [List.length_cons] at hl
  have := rates_length l
  simp only [rdApnRates, h.rd, R.ok_bind, hz, if_false, hn, rdRates_last h.next hw (show l.length < b.length + 1 by omega), R.pure_eq]
  rw [if_pos (by omega)]

/-! ### Stages of the MM context decoders -/

/-- `if drxi && buffer.len() >= cursor + 2 { drx_params = Some([..]); cursor += 2 }`. -/
def rdDrx (flag : Bool) (b : Bytes) (c : Nat) : R Err (Option Bytes × Nat) := do
  if flag ∧ c + 2 ≤ b.length then
    let s ← sl b c (c + 2)
    return (some s, c + 2)
  else return (none, c)

theorem rdDrx_at {b r : Bytes} {c : Nat} {v : Option Bytes} (h : At b c (optEnc id v ++ r)) (hv : ∀ s ∈ v, s.length = 2) :
    ∃ c', rdDrx v.isSome b c = .ok (v, c') ∧ At b c' r := by
  cases v with
  | none => exact ⟨c, by simp [rdDrx], by simpa [optEnc] using h⟩
  | some s =>
    have hs := hv s rfl
    simp only [optEnc, id_eq] at h
    have hl := h.length
    simp only [List.length_append] at hl
    exact ⟨c + 2, by cur_simp [rdDrx, h.sl (ε := Err) (n := c + 2) (by omega)], h.skip (by omega)⟩

theorem rdDrx_safe {flag : Bool} {b : Bytes} {c : Nat} : (rdDrx flag b c).Safe fun p => p.2 ≤ c + 2 := by
  safe_simp [rdDrx]
  exact ⟨fun h => ⟨⟨by omega, h.2⟩, by omega⟩, fun _ => by omega⟩

/-- `higher_than_16_mbps` (e.g. mmctxumtskeycipherquintuplets.rs:299-306). -/
def rdHigher (b : Bytes) (c : Nat) : R Err (Bool × Nat) := do
  let l ← rd b c
  if c + 1 + l.toNat ≤ b.length then
    let v ← rd b (c + 1)
    return (v == 1, c + 1 + l.toNat)
  else return (false, c + 1)

/-- Its encoding. -/
def higherEnc (v : Bool) : Bytes := if v then [0x01, 0x01] else [0x00]

/-- A false value is only read back when the octet behind it is there and is not 1. -/
theorem rdHigher_at {b r : Bytes} {c : Nat} {v : Bool} {x : UInt8} (h : At b c (higherEnc v ++ (x :: r))) (hx : v = true ∨ x ≠ 1) :
    ∃ c', rdHigher b c = .ok (v, c') ∧ At b c' (x :: r) := by
  cases v with
  | false =>
    simp only [higherEnc, Bool.false_eq_true, if_false, List.cons_append, List.nil_append] at h
    have hl := h.length
    simp only [List.length_cons] at hl
    refine ⟨c + 1, ?_, h.next⟩
    simp only [Bool.false_eq_true, false_or] at hx
    cur_simp [rdHigher, h.rd, h.next.rd, hx]
  | true =>
    simp only [higherEnc, if_true, List.cons_append, List.nil_append] at h
    have hl := h.length
    simp only [List.length_cons] at hl
    refine ⟨c + 1 + 1, ?_, h.next.next⟩
    cur_simp [rdHigher, h.rd, h.next.rd]

theorem rdHigher_true {b r : Bytes} {c : Nat} (h : At b c (higherEnc true ++ r)) :
    ∃ c', rdHigher b c = .ok (true, c') ∧ At b c' r := by
  simp only [higherEnc, if_true, List.cons_append, List.nil_append] at h
  have hl := h.length
  simp only [List.length_cons] at hl
  refine ⟨c + 1 + 1, ?_, h.next.next⟩
  cur_simp [rdHigher, h.rd, h.next.rd]

theorem rdHigher_safe {b : Bytes} {c : Nat} (h : c + 1 < b.length) : (rdHigher b c).Safe fun p => p.2 ≤ c + 256 := by
  have := toNat_lt256 (b.getD c 0)
  safe_simp [rdHigher]
  exact ⟨by omega, fun h => ⟨by omega, by omega⟩, fun _ => by omega⟩

/-- `if iovi && buffer.len() >= cursor { iov = Some(buffer[cursor]); cursor += 1 } else { return Err(..) }`. -/
def rdIov (flag : Bool) (e : Err) (b : Bytes) (c : Nat) : R Err (Option UInt8 × Nat) := do
  if flag ∧ c ≤ b.length then
    let v ← rd b c
    return (some v, c + 1)
  else .err e

theorem rdIov_at {e : Err} {b r : Bytes} {c : Nat} {v : UInt8} (h : At b c (v :: r)) :
    ∃ c', rdIov true e b c = .ok (some v, c') ∧ At b c' r := by
  refine ⟨c + 1, ?_, h.next⟩
  have := h.le
  cur_simp [rdIov, h.rd]

theorem rdIov_safe {flag : Bool} {e : Err} {b : Bytes} {c : Nat} (h : c < b.length) :
    (rdIov flag e b c).Safe fun p => p.2 ≤ c + 1 := by
  safe_simp [rdIov]
  omega

/-- The extended access restriction: `match buffer[cursor] { 1 => { cursor += 1; if buffer.len() >= cursor { Some(..);
cursor += 1 } else { Err } }, 0 => (), _ => Err }`; nothing is skipped when it is absent
(e.g. mmctxepssecurityctxquadruplets.rs:415-431). -/
def rdExtAcc (e : Err) (b : Bytes) (c : Nat) : R Err (Option ExtendedAccessRestrictionMM × Nat) := do
  let l ← rd b c
  if l = 1 then
    if c + 1 ≤ b.length then
      let v ← rd b (c + 1)
      return (some (ExtendedAccessRestrictionMM.ofU8 v), c + 2)
    else .err e
  else if l = 0 then return (none, c)
  else .err e

/-- Its encoding. -/
def extAccEnc (v : Option ExtendedAccessRestrictionMM) : Bytes :=
  match v with
  | some i => [0x01, i.toU8]
  | none => [0x00]

theorem rdExtAcc_some {e : Err} {b r : Bytes} {c : Nat} {v : Option ExtendedAccessRestrictionMM} (h : At b c (extAccEnc v ++ r))
    (hv : v.isSome) : ∃ c', rdExtAcc e b c = .ok (v, c') ∧ At b c' r := by
  cases v with
  | none => simp at hv
  | some i =>
    simp only [extAccEnc, List.cons_append, List.nil_append] at h
    have := h.next.le
    exact ⟨c + 2, by cur_simp [rdExtAcc, h.rd, h.next.rd, ExtendedAccessRestrictionMM.ofU8_toU8], h.next.next⟩

theorem rdExtAcc_val {e : Err} {b r : Bytes} {c : Nat} {v : Option ExtendedAccessRestrictionMM} (h : At b c (extAccEnc v ++ r)) :
    ∃ c', rdExtAcc e b c = .ok (v, c') := by
  cases v with
  | none =>
    simp only [extAccEnc, List.cons_append, List.nil_append] at h
    exact ⟨c, by simp [rdExtAcc, h.rd]⟩
  | some i => obtain ⟨c', h1, -⟩ := rdExtAcc_some (e := e) h rfl; exact ⟨c', h1⟩

theorem rdExtAcc_safe {e : Err} {b : Bytes} {c : Nat} (h : c + 1 < b.length) : (rdExtAcc e b c).Safe fun p => p.2 ≤ c + 2 := by
  safe_simp [rdExtAcc]
  exact ⟨by omega, fun _ _ => ⟨by omega, by omega⟩, fun _ _ => by omega⟩

/-- Octet 5 (e.g. mmctxgsmkeytriplets.rs:72-78). -/
def mmOct4 (s : SecurityMode) (drx : Bool) (k : UInt8) : UInt8 :=
  if drx then s.toU8 <<< 5 ||| 0x08 ||| k &&& 0x07 else s.toU8 <<< 5 ||| k &&& 0x07

theorem mmOct4_dec (s : SecurityMode) (drx : Bool) {k : UInt8} (h : k < 8) :
    SecurityMode.ofU8 (mmOct4 s drx k >>> 5) = s ∧ mmOct4 s drx k &&& 0x07 = k ∧ hasBits (mmOct4 s drx k) 0x08 = drx := by
  revert k drx
  cases s <;> decide +kernel

/-- Octet 6: three bits of count, then five flags (mmctxumtskeyquintuplets.rs:89-111 and the other files). -/
def mmOct5 (n : Nat) (a b c d e : Bool) : UInt8 :=
  UInt8.ofNat n <<< 5 ||| (if a then 0x10 else 0) ||| (if b then 0x08 else 0) ||| (if c then 0x04 else 0) |||
    (if d then 0x02 else 0) ||| (if e then 0x01 else 0)

theorem mmOct5_dec {n : Nat} (h : n ≤ 5) (a b c d e : Bool) :
    mmOct5 n a b c d e >>> 5 = UInt8.ofNat n ∧ hasBits (mmOct5 n a b c d e) 0x10 = a ∧ hasBits (mmOct5 n a b c d e) 0x08 = b ∧
    hasBits (mmOct5 n a b c d e) 0x04 = c ∧ hasBits (mmOct5 n a b c d e) 0x02 = d ∧ hasBits (mmOct5 n a b c d e) 0x01 = e := by
  have key : ∀ n : Fin 6, ∀ a b c d e : Bool,
    mmOct5 n a b c d e >>> 5 = UInt8.ofNat n ∧ hasBits (mmOct5 n a b c d e) 0x10 = a ∧ hasBits (mmOct5 n a b c d e) 0x08 = b ∧
    hasBits (mmOct5 n a b c d e) 0x04 = c ∧ hasBits (mmOct5 n a b c d e) 0x02 = d ∧ hasBits (mmOct5 n a b c d e) 0x01 = e := by
    decide +kernel
  exact key ⟨n, by omega⟩ a b c d e

/-- Octet 6 with two counts of three bits and two flags (mmctxumtskeyquadrupletsquintuplets.rs:81-97). -/
def mmOct5q (n k : Nat) (d e : Bool) : UInt8 :=
  UInt8.ofNat n <<< 5 ||| UInt8.ofNat k <<< 2 ||| (if d then 0x02 else 0) ||| (if e then 0x01 else 0)

theorem mmOct5q_dec {n k : Nat} (h : n ≤ 5) (h2 : k ≤ 5) (d e : Bool) :
    mmOct5q n k d e >>> 5 = UInt8.ofNat n ∧ (mmOct5q n k d e &&& 0x1c) >>> 2 = UInt8.ofNat k ∧
    hasBits (mmOct5q n k d e) 0x02 = d ∧ hasBits (mmOct5q n k d e) 0x01 = e := by
  have key : ∀ n k : Fin 6, ∀ d e : Bool,
    mmOct5q n k d e >>> 5 = UInt8.ofNat n ∧ (mmOct5q n k d e &&& 0x1c) >>> 2 = UInt8.ofNat k ∧
    hasBits (mmOct5q n k d e) 0x02 = d ∧ hasBits (mmOct5q n k d e) 0x01 = e := by
    decide +kernel
  exact key ⟨n, by omega⟩ ⟨k, by omega⟩ d e

/-- Octet 7 of the UMTS contexts (mmctxumtskeyquintuplets.rs:112-120). -/
def mmOct6 (g : Option GprsIntegrityProtectionValues) (u : CipherValues) : UInt8 :=
  (match g with | some i => i.toU8 <<< 3 | none => 0x00) ||| u.toU8

theorem mmOct6_dec (g : Option GprsIntegrityProtectionValues) (u : CipherValues) :
    (if g.isSome then some (GprsIntegrityProtectionValues.ofU8 (mmOct6 g u >>> 3)) else none) = g ∧
    CipherValues.ofU8 (mmOct6 g u &&& 0x07) = u := by
  rcases g with _ | g
  · cases u <;> decide +kernel
  · cases g <;> cases u <;> decide +kernel

theorem rd8s_safe {b : Bytes} {c : Nat} (h : c < b.length) : (rd8s b c).Safe fun p => p.2 = c + 1 := by
  safe_simp [rd8s]
  exact h

/-- The triplets with their own length check (mmctxgsmkeytriplets.rs:152-170). -/
def rdTriplets (b : Bytes) (n : UInt8) (c : Nat) : R Err (Option (List AuthTriplet) × Nat) :=
  if 0 < n ∧ n ≤ 5 ∧ ¬ c + n.toNat * 28 ≤ b.length then .err (.ieInvalidLength 103)
  else rdAuth AuthTriplet.unm AuthTriplet.size (.ieIncorrect 103) b n c

theorem triplets_length {l : List AuthTriplet} (h : ∀ x ∈ l, x.WF) : (l.flatMap AuthTriplet.octets).length = l.length * 28 := by
  induction l with
  | nil => rfl
  | cons x l ih =>
    obtain ⟨h1, h2, h3⟩ := h x (by simp)
    have ih := ih fun y hy => h y (by simp [hy])
    simp only [List.flatMap_cons, List.length_append, AuthTriplet.octets, h1, h2, h3, List.length_cons, ih]
    omega

theorem rdTriplets_at {b r : Bytes} {c : Nat} {v : Option (List AuthTriplet)}
    (h : At b c (optEnc (fun l => l.flatMap AuthTriplet.octets) v ++ r)) (hv : AuthOk AuthTriplet.WF v) :
    ∃ c', rdTriplets b (UInt8.ofNat (authN v)) c = .ok (v, c') ∧ At b c' r := by
  obtain ⟨c', a1, h1⟩ := rdAuth_at (e := .ieIncorrect 103) AuthTriplet.ok h hv
  refine ⟨c', ?_, h1⟩
  rw [rdTriplets, if_neg, a1]
  rintro ⟨-, -, h3⟩
  cases v with
  | none =>
    have := h.le
    simp [authN] at h3
    omega
  | some l =>
    obtain ⟨h4, h5, h6⟩ := hv l rfl
    have hn : (UInt8.ofNat l.length).toNat = l.length := by simp; omega
    have hl := h.length
    simp only [optEnc, List.length_append, triplets_length h6] at hl
    simp only [authN, hn] at h3
    omega

theorem rdTriplets_safe {b : Bytes} {n : UInt8} {c : Nat} (h : c + 140 ≤ b.length) : (rdTriplets b n c).Safe fun p => p.2 ≤ c + 140 := by
  unfold rdTriplets
  split
  · trivial
  · exact rdAuth_safe AuthTriplet.safe (by omega)

/-- `MmContextGsmKeyTriplets` (mmctxgsmkeytriplets.rs:16-33). -/
structure MmContextGsmKeyTriplets where
  t : UInt8
  length : UInt16
  ins : UInt8
  sec_mode : SecurityMode
  cksn : UInt8
  used_cipher : CipherValues
  kc : UInt64
  auth_triplets : Option (List AuthTriplet)
  drx_params : Option Bytes
  subscr_ue_ambr : Option AmbrMM
  used_ue_ambr : Option AmbrMM
  ue_ntwk_cap : Option Bytes
  ms_ntwk_cap : Option Bytes
  mei : Option Bytes
  access_res : AccessRestrictionMM
  vdn_pref_ue_usage : Option Bytes
deriving DecidableEq, Repr

namespace MmContextGsmKeyTriplets

/-- The octets behind the instance octet (mmctxgsmkeytriplets.rs:71-131). -/
def body (x : MmContextGsmKeyTriplets) : Bytes :=
  mmOct4 x.sec_mode x.drx_params.isSome x.cksn ::
    mmOct5 (authN x.auth_triplets) false false false x.used_ue_ambr.isSome x.subscr_ue_ambr.isSome :: x.used_cipher.toU8 ::
    (be64 x.kc ++ (optEnc (fun l => l.flatMap AuthTriplet.octets) x.auth_triplets ++ (optEnc id x.drx_params ++
    (optEnc AmbrMM.octets x.subscr_ue_ambr ++ (optEnc AmbrMM.octets x.used_ue_ambr ++
    (lvOpt x.ue_ntwk_cap ++ (lvOpt x.ms_ntwk_cap ++ (lvOpt x.mei ++ (x.access_res.toU8 :: lvOpt x.vdn_pref_ue_usage)))))))))

/-- `marshal` (mmctxgsmkeytriplets.rs:65-134). -/
def marshal (x : MmContextGsmKeyTriplets) : Bytes :=
  tliv 103 x.length x.ins (x.body)

/-- `unmarshal` (mmctxgsmkeytriplets.rs:136-259). -/
def unmarshal (_m : Mode) (b : Bytes) : R Err MmContextGsmKeyTriplets := do
  if 20 ≤ b.length then
    let length ← rd16 b 1
    let ins ← rd b 3
    let f4 ← rd b 4
    let f5 ← rd b 5
    let f6 ← rd b 6
    let kc ← rd64 b 7
    let (auth_triplets, c) ← rdTriplets b (f5 >>> 5) 15
    let (drx_params, c) ← rdDrx (hasBits f4 0x08) b c
    let (subscr_ue_ambr, c) ← rdIf (hasBits f5 0x01) (rdAmbr 103 b) c
    let (used_ue_ambr, c) ← rdIf (hasBits f5 0x02) (rdAmbr 103 b) c
    let (ue_ntwk_cap, c) ← rdLv 1 (.ieInvalidLength 103) b c
    let (ms_ntwk_cap, c) ← rdLv 1 (.ieInvalidLength 103) b c
    let (mei, c) ← rdLv 1 (.ieInvalidLength 103) b c
    let (access, c) ← rd8s b c
    let (vdn_pref_ue_usage, c) ← rdLv 0 (.ieInvalidLength 103) b c
    return { t := 103, length, ins := ins &&& 0x0f, sec_mode := SecurityMode.ofU8 (f4 >>> 5),
             cksn := f4 &&& 0x07, used_cipher := CipherValues.ofU8 f6, kc, auth_triplets,
             drx_params, subscr_ue_ambr, used_ue_ambr, ue_ntwk_cap, ms_ntwk_cap, mei,
             access_res := AccessRestrictionMM.ofU8 access, vdn_pref_ue_usage }
  else .err (.ieInvalidLength 103)

/-- `len` (mmctxgsmkeytriplets.rs:261-263). -/
def len (_m : Mode) (x : MmContextGsmKeyTriplets) : R Err Nat := ieLenU x.length

/-- Field values that the encoding of a `MmContextGsmKeyTriplets` can represent. -/
def WF (x : MmContextGsmKeyTriplets) : Prop :=
  x.t = 103 ∧
  x.length.toNat = x.body.length ∧
  x.ins < 16 ∧
  x.cksn < 8 ∧
  (∀ s ∈ x.drx_params, s.length = 2) ∧
  LvOk x.ue_ntwk_cap ∧
  LvOk x.ms_ntwk_cap ∧
  LvOk x.mei ∧
  AuthOk AuthTriplet.WF x.auth_triplets ∧
  LvOk0 x.vdn_pref_ue_usage

instance (x : MmContextGsmKeyTriplets) : Decidable x.WF := by unfold WF; infer_instance

theorem rt : RoundTrips WF marshal unmarshal := by
  intro m x tail h
  obtain ⟨t, length, ins, sec_mode, cksn, used_cipher, kc, auth_triplets, drx_params, subscr_ue_ambr, used_ue_ambr, ue_ntwk_cap, ms_ntwk_cap, mei, access_res, vdn_pref_ue_usage⟩ := x
  obtain ⟨ht, hl, hi, hk, hdrx, hun, hms, hme, hau, hvd⟩ := h
  simp only at ht hl hi hk hdrx hun hms hme hau hvd
  simp only [marshal]
  obtain ⟨b, hb, e1, e2, p4, hbl0⟩ := tliv_at (ty := 103) (ins := ins) tail hl
  simp only [body, List.append_assoc, List.cons_append, List.nil_append] at p4
  have p5 : At b 5 _ := p4.next
  have p6 : At b 6 _ := p5.next
  have p7 : At b 7 _ := p6.next
  have q0 : At b 15 _ := p7.skip (by simp [be64])
  have hbl := q0.length
  have w0 := lvOpt_length_pos ue_ntwk_cap
  have w1 := lvOpt_length_pos ms_ntwk_cap
  have w2 := lvOpt_length_pos mei
  have w3 := lvOpt_length_pos vdn_pref_ue_usage
  simp only [List.length_append, List.length_cons] at hbl
  obtain ⟨d1, d2, d3⟩ := mmOct4_dec sec_mode drx_params.isSome hk
  obtain ⟨d4, d5, d6, d7, d8, d9⟩ := mmOct5_dec (authN_le hau) false false false used_ue_ambr.isSome subscr_ue_ambr.isSome
  obtain ⟨c1, a1, q1⟩ := rdTriplets_at q0 hau
  obtain ⟨c2, a2, q2⟩ := rdDrx_at q1 hdrx
  obtain ⟨c3, a3, q3⟩ := rdIf_at (st := rdAmbr 103 b) q2 (fun _ _ hat => rdAmbr_at hat)
  obtain ⟨c4, a4, q4⟩ := rdIf_at (st := rdAmbr 103 b) q3 (fun _ _ hat => rdAmbr_at hat)
  obtain ⟨c5, a5, q5⟩ := rdLv_at (skip := 1) (e := .ieInvalidLength 103) q4 hun
  obtain ⟨c6, a6, q6⟩ := rdLv_at (skip := 1) (e := .ieInvalidLength 103) q5 hms
  obtain ⟨c7, a7, q7⟩ := rdLv_at (skip := 1) (e := .ieInvalidLength 103) q6 hme
  obtain ⟨c8, a8, q8⟩ := rd8s_at q7
  obtain ⟨c9, a9, q9⟩ := rdLv_at0 (e := .ieInvalidLength 103) q8 hvd
  simp only [hb]
  cur_simp [unmarshal, e1, e2, p4.rd, p5.rd, p6.rd, p7.rd64, d1, d2, d3, d4, d8, d9, CipherValues.ofU8_toU8, a1, a2, a3, a4, a5, a6, a7, a8, a9, AccessRestrictionMM.ofU8_toU8, ht, hi]

theorem len_ok : LenOk WF marshal len := by
  intro m x h
  obtain ⟨t, length, ins, sec_mode, cksn, used_cipher, kc, auth_triplets, drx_params, subscr_ue_ambr, used_ue_ambr, ue_ntwk_cap, ms_ntwk_cap, mei, access_res, vdn_pref_ue_usage⟩ := x
  obtain ⟨ht, hl, hi, hk, hdrx, hun, hms, hme, hau, hvd⟩ := h
  simp only at ht hl hi hk hdrx hun hms hme hau hvd
  simp [marshal, tliv_eq, len, ieLenU, hl]

theorem safe : LooseSafe (fun b => 1200 ≤ b.length) unmarshal len := by
  intro m b hb hc
  unfold declLen at *
  try simp only at hc
  safe_simp [unmarshal, len]
  refine fun _ => ⟨by omega, by omega, by omega, by omega, by omega, by omega, ?_⟩
  refine ⟨by omega, by omega, by omega, by omega, by omega, by omega, by omega, by omega, ?_⟩
  refine Safe.mono (rdTriplets_safe (by omega)) fun ⟨v1, c1⟩ s1 => ?_
  try safe_simp []
  try simp only at s1
  refine Safe.mono (rdDrx_safe) fun ⟨v2, c2⟩ s2 => ?_
  try safe_simp []
  try simp only at s2
  refine Safe.mono (rdIf_safe (P := fun c => c ≤ c2 + 8) (by omega) (rdAmbr_safe)) fun ⟨v3, c3⟩ s3 => ?_
  try safe_simp []
  try simp only at s3
  refine Safe.mono (rdIf_safe (P := fun c => c ≤ c3 + 8) (by omega) (rdAmbr_safe)) fun ⟨v4, c4⟩ s4 => ?_
  try safe_simp []
  try simp only at s4
  refine Safe.mono (rdLv_safe (by omega) (by omega)) fun ⟨v5, c5⟩ s5 => ?_
  try safe_simp []
  try simp only at s5
  refine Safe.mono (rdLv_safe (by omega) (by omega)) fun ⟨v6, c6⟩ s6 => ?_
  try safe_simp []
  try simp only at s6
  refine Safe.mono (rdLv_safe (by omega) (by omega)) fun ⟨v7, c7⟩ s7 => ?_
  try safe_simp []
  try simp only at s7
  refine Safe.mono (rd8s_safe (by omega)) fun ⟨v8, c8⟩ s8 => ?_
  try safe_simp []
  try simp only at s8
  refine Safe.mono (rdLv_safe (by omega) (by omega)) fun ⟨v9, c9⟩ s9 => ?_
  try safe_simp []
  try simp only at s9

end MmContextGsmKeyTriplets

/-- `MmContextGsmKeyCipherQuintuplets` (mmctxgsmkeycipherquintuplets.rs:15-33). -/
structure MmContextGsmKeyCipherQuintuplets where
  t : UInt8
  length : UInt16
  ins : UInt8
  sec_mode : SecurityMode
  cksn : UInt8
  used_cipher : CipherValues
  kc : UInt64
  auth_quintuplets : Option (List AuthQuintuplet)
  drx_params : Option Bytes
  subscr_ue_ambr : Option AmbrMM
  used_ue_ambr : Option AmbrMM
  ue_ntwk_cap : Option Bytes
  ms_ntwk_cap : Option Bytes
  mei : Option Bytes
  access_res : AccessRestrictionMM
  vdn_pref_ue_usage : Option Bytes
  higher_than_16_mbps : Bool
deriving DecidableEq, Repr

namespace MmContextGsmKeyCipherQuintuplets

/-- The octets behind the instance octet (mmctxgsmkeycipherquintuplets.rs:71-138). -/
def body (x : MmContextGsmKeyCipherQuintuplets) : Bytes :=
  mmOct4 x.sec_mode x.drx_params.isSome x.cksn ::
    mmOct5 (authN x.auth_quintuplets) false false false x.used_ue_ambr.isSome x.subscr_ue_ambr.isSome :: x.used_cipher.toU8 ::
    (be64 x.kc ++ (optEnc (fun l => l.flatMap AuthQuintuplet.octets) x.auth_quintuplets ++ (optEnc id x.drx_params ++
    (optEnc AmbrMM.octets x.subscr_ue_ambr ++ (optEnc AmbrMM.octets x.used_ue_ambr ++
    (lvOpt x.ue_ntwk_cap ++ (lvOpt x.ms_ntwk_cap ++ (lvOpt x.mei ++ (x.access_res.toU8 :: (lvOpt x.vdn_pref_ue_usage ++
    higherEnc x.higher_than_16_mbps))))))))))

/-- `marshal` (mmctxgsmkeycipherquintuplets.rs:66-141). -/
def marshal (x : MmContextGsmKeyCipherQuintuplets) : Bytes :=
  tliv 105 x.length x.ins (x.body)

/-- `unmarshal` (mmctxgsmkeycipherquintuplets.rs:143-270). -/
def unmarshal (_m : Mode) (b : Bytes) : R Err MmContextGsmKeyCipherQuintuplets := do
  if 20 ≤ b.length then
    let length ← rd16 b 1
    let ins ← rd b 3
    let f4 ← rd b 4
    let f5 ← rd b 5
    let f6 ← rd b 6
    let kc ← rd64 b 7
    let (auth_quintuplets, c) ← rdAuth AuthQuintuplet.unm AuthQuintuplet.size (.ieIncorrect 105) b (f5 >>> 5) 15
    let (drx_params, c) ← rdDrx (hasBits f4 0x08) b c
    let (subscr_ue_ambr, c) ← rdIf (hasBits f5 0x01) (rdAmbr 105 b) c
    let (used_ue_ambr, c) ← rdIf (hasBits f5 0x02) (rdAmbr 105 b) c
    let (ue_ntwk_cap, c) ← rdLv 1 (.ieInvalidLength 105) b c
    let (ms_ntwk_cap, c) ← rdLv 1 (.ieInvalidLength 105) b c
    let (mei, c) ← rdLv 1 (.ieInvalidLength 105) b c
    let (access, c) ← rd8s b c
    let (vdn_pref_ue_usage, c) ← rdLv 0 (.ieInvalidLength 105) b c
    let (higher_than_16_mbps, _) ← rdHigher b c
    return { t := 105, length, ins := ins &&& 0x0f, sec_mode := SecurityMode.ofU8 (f4 >>> 5),
             cksn := f4 &&& 0x07, used_cipher := CipherValues.ofU8 f6, kc, auth_quintuplets,
             drx_params, subscr_ue_ambr, used_ue_ambr, ue_ntwk_cap, ms_ntwk_cap, mei,
             access_res := AccessRestrictionMM.ofU8 access, vdn_pref_ue_usage,
             higher_than_16_mbps }
  else .err (.ieInvalidLength 105)

/-- `len` (mmctxgsmkeycipherquintuplets.rs:272-274). -/
def len (_m : Mode) (x : MmContextGsmKeyCipherQuintuplets) : R Err Nat := ieLenU x.length

/-- Field values that the encoding of a `MmContextGsmKeyCipherQuintuplets` can represent. -/
def WF (x : MmContextGsmKeyCipherQuintuplets) : Prop :=
  x.t = 105 ∧
  x.length.toNat = x.body.length ∧
  x.ins < 16 ∧
  x.cksn < 8 ∧
  (∀ s ∈ x.drx_params, s.length = 2) ∧
  LvOk x.ue_ntwk_cap ∧
  LvOk x.ms_ntwk_cap ∧
  LvOk x.mei ∧
  AuthOk AuthQuintuplet.WF x.auth_quintuplets ∧
  LvOk0 x.vdn_pref_ue_usage ∧
  x.higher_than_16_mbps = true

instance (x : MmContextGsmKeyCipherQuintuplets) : Decidable x.WF := by unfold WF; infer_instance

theorem rt : RoundTrips WF marshal unmarshal := by
  intro m x tail h
  obtain ⟨t, length, ins, sec_mode, cksn, used_cipher, kc, auth_quintuplets, drx_params, subscr_ue_ambr, used_ue_ambr, ue_ntwk_cap, ms_ntwk_cap, mei, access_res, vdn_pref_ue_usage, higher_than_16_mbps⟩ := x
  obtain ⟨ht, hl, hi, hk, hdrx, hun, hms, hme, hau, hvd, hhi⟩ := h
  simp only at ht hl hi hk hdrx hun hms hme hau hvd hhi
  simp only [marshal]
  obtain ⟨b, hb, e1, e2, p4, hbl0⟩ := tliv_at (ty := 105) (ins := ins) tail hl
  simp only [body, List.append_assoc, List.cons_append, List.nil_append] at p4
  have p5 : At b 5 _ := p4.next
  have p6 : At b 6 _ := p5.next
  have p7 : At b 7 _ := p6.next
  subst hhi
  have q0 : At b 15 _ := p7.skip (by simp [be64])
  have hbl := q0.length
  have w0 := lvOpt_length_pos ue_ntwk_cap
  have w1 := lvOpt_length_pos ms_ntwk_cap
  have w2 := lvOpt_length_pos mei
  have w3 := lvOpt_length_pos vdn_pref_ue_usage
  simp only [List.length_append, List.length_cons] at hbl
  obtain ⟨d1, d2, d3⟩ := mmOct4_dec sec_mode drx_params.isSome hk
  obtain ⟨d4, d5, d6, d7, d8, d9⟩ := mmOct5_dec (authN_le hau) false false false used_ue_ambr.isSome subscr_ue_ambr.isSome
  obtain ⟨c1, a1, q1⟩ := rdAuth_at (e := .ieIncorrect 105) AuthQuintuplet.ok q0 hau
  obtain ⟨c2, a2, q2⟩ := rdDrx_at q1 hdrx
  obtain ⟨c3, a3, q3⟩ := rdIf_at (st := rdAmbr 105 b) q2 (fun _ _ hat => rdAmbr_at hat)
  obtain ⟨c4, a4, q4⟩ := rdIf_at (st := rdAmbr 105 b) q3 (fun _ _ hat => rdAmbr_at hat)
  obtain ⟨c5, a5, q5⟩ := rdLv_at (skip := 1) (e := .ieInvalidLength 105) q4 hun
  obtain ⟨c6, a6, q6⟩ := rdLv_at (skip := 1) (e := .ieInvalidLength 105) q5 hms
  obtain ⟨c7, a7, q7⟩ := rdLv_at (skip := 1) (e := .ieInvalidLength 105) q6 hme
  obtain ⟨c8, a8, q8⟩ := rd8s_at q7
  obtain ⟨c9, a9, q9⟩ := rdLv_at0 (e := .ieInvalidLength 105) q8 hvd
  obtain ⟨c10, a10, q10⟩ := rdHigher_true q9
  simp only [hb]
  cur_simp [unmarshal, e1, e2, p4.rd, p5.rd, p6.rd, p7.rd64, d1, d2, d3, d4, d8, d9, CipherValues.ofU8_toU8, a1, a2, a3, a4, a5, a6, a7, a8, a9, a10, AccessRestrictionMM.ofU8_toU8, ht, hi]

theorem len_ok : LenOk WF marshal len := by
  intro m x h
  obtain ⟨t, length, ins, sec_mode, cksn, used_cipher, kc, auth_quintuplets, drx_params, subscr_ue_ambr, used_ue_ambr, ue_ntwk_cap, ms_ntwk_cap, mei, access_res, vdn_pref_ue_usage, higher_than_16_mbps⟩ := x
  obtain ⟨ht, hl, hi, hk, hdrx, hun, hms, hme, hau, hvd, hhi⟩ := h
  simp only at ht hl hi hk hdrx hun hms hme hau hvd hhi
  simp [marshal, tliv_eq, len, ieLenU, hl]

theorem safe : LooseSafe (fun b => 4500 ≤ b.length) unmarshal len := by
  intro m b hb hc
  unfold declLen at *
  try simp only at hc
  safe_simp [unmarshal, len]
  refine fun _ => ⟨by omega, by omega, by omega, by omega, by omega, by omega, ?_⟩
  refine ⟨by omega, by omega, by omega, by omega, by omega, by omega, by omega, by omega, ?_⟩
  refine Safe.mono (rdAuth_safe AuthQuintuplet.safe (by omega)) fun ⟨v1, c1⟩ s1 => ?_
  try safe_simp []
  try simp only at s1
  refine Safe.mono (rdDrx_safe) fun ⟨v2, c2⟩ s2 => ?_
  try safe_simp []
  try simp only at s2
  refine Safe.mono (rdIf_safe (P := fun c => c ≤ c2 + 8) (by omega) (rdAmbr_safe)) fun ⟨v3, c3⟩ s3 => ?_
  try safe_simp []
  try simp only at s3
  refine Safe.mono (rdIf_safe (P := fun c => c ≤ c3 + 8) (by omega) (rdAmbr_safe)) fun ⟨v4, c4⟩ s4 => ?_
  try safe_simp []
  try simp only at s4
  refine Safe.mono (rdLv_safe (by omega) (by omega)) fun ⟨v5, c5⟩ s5 => ?_
  try safe_simp []
  try simp only at s5
  refine Safe.mono (rdLv_safe (by omega) (by omega)) fun ⟨v6, c6⟩ s6 => ?_
  try safe_simp []
  try simp only at s6
  refine Safe.mono (rdLv_safe (by omega) (by omega)) fun ⟨v7, c7⟩ s7 => ?_
  try safe_simp []
  try simp only at s7
  refine Safe.mono (rd8s_safe (by omega)) fun ⟨v8, c8⟩ s8 => ?_
  try safe_simp []
  try simp only at s8
  refine Safe.mono (rdLv_safe (by omega) (by omega)) fun ⟨v9, c9⟩ s9 => ?_
  try safe_simp []
  try simp only at s9
  refine Safe.mono (rdHigher_safe (by omega)) fun ⟨v10, c10⟩ s10 => ?_
  try safe_simp []
  try simp only at s10

end MmContextGsmKeyCipherQuintuplets

/-- `MmContextUmtsKeyCipherQuintuplets` (mmctxumtskeycipherquintuplets.rs:16-38). -/
structure MmContextUmtsKeyCipherQuintuplets where
  t : UInt8
  length : UInt16
  ins : UInt8
  sec_mode : SecurityMode
  ksi : UInt8
  used_cipher : CipherValues
  used_gprs_integrity : Option GprsIntegrityProtectionValues
  gupii : Bool
  ck : Bytes
  ik : Bytes
  auth_quintuplets : Option (List AuthQuintuplet)
  drx_params : Option Bytes
  subscr_ue_ambr : Option AmbrMM
  used_ue_ambr : Option AmbrMM
  ue_ntwk_cap : Option Bytes
  ms_ntwk_cap : Option Bytes
  mei : Option Bytes
  access_res : AccessRestrictionMM
  vdn_pref_ue_usage : Option Bytes
  higher_than_16_mbps : Bool
  iov_updates_counter : Option UInt8
deriving DecidableEq, Repr

namespace MmContextUmtsKeyCipherQuintuplets

/-- The octets behind the instance octet (mmctxumtskeycipherquintuplets.rs:80-168). -/
def body (x : MmContextUmtsKeyCipherQuintuplets) : Bytes :=
  mmOct4 x.sec_mode x.drx_params.isSome x.ksi ::
    mmOct5 (authN x.auth_quintuplets) x.iov_updates_counter.isSome x.gupii x.used_gprs_integrity.isSome
      x.used_ue_ambr.isSome x.subscr_ue_ambr.isSome :: mmOct6 x.used_gprs_integrity x.used_cipher ::
    (x.ck ++ (x.ik ++ (optEnc (fun l => l.flatMap AuthQuintuplet.octets) x.auth_quintuplets ++ (optEnc id x.drx_params ++
    (optEnc AmbrMM.octets x.subscr_ue_ambr ++ (optEnc AmbrMM.octets x.used_ue_ambr ++
    (lvOpt x.ue_ntwk_cap ++ (lvOpt x.ms_ntwk_cap ++ (lvOpt x.mei ++ (x.access_res.toU8 :: (lvOpt x.vdn_pref_ue_usage ++
    (higherEnc x.higher_than_16_mbps ++ x.iov_updates_counter.toList))))))))))))

/-- `marshal` (mmctxumtskeycipherquintuplets.rs:75-171). -/
def marshal (x : MmContextUmtsKeyCipherQuintuplets) : Bytes :=
  tliv 104 x.length x.ins (x.body)

/-- `unmarshal` (mmctxumtskeycipherquintuplets.rs:173-316). -/
def unmarshal (_m : Mode) (b : Bytes) : R Err MmContextUmtsKeyCipherQuintuplets := do
  if 40 ≤ b.length then
    let length ← rd16 b 1
    let ins ← rd b 3
    let f4 ← rd b 4
    let f5 ← rd b 5
    let f6 ← rd b 6
    let ck ← sl b 7 23
    let ik ← sl b 23 39
    let (auth_quintuplets, c) ← rdAuth AuthQuintuplet.unm AuthQuintuplet.size (.ieIncorrect 104) b (f5 >>> 5) 39
    let (drx_params, c) ← rdDrx (hasBits f4 0x08) b c
    let (subscr_ue_ambr, c) ← rdIf (hasBits f5 0x01) (rdAmbr 104 b) c
    let (used_ue_ambr, c) ← rdIf (hasBits f5 0x02) (rdAmbr 104 b) c
    let (ue_ntwk_cap, c) ← rdLv 1 (.ieInvalidLength 104) b c
    let (ms_ntwk_cap, c) ← rdLv 1 (.ieInvalidLength 104) b c
    let (mei, c) ← rdLv 1 (.ieInvalidLength 104) b c
    let (access, c) ← rd8s b c
    let (vdn_pref_ue_usage, c) ← rdLv 1 (.ieInvalidLength 104) b c
    let (higher_than_16_mbps, c) ← rdHigher b c
    let (iov_updates_counter, _) ← rdIov (hasBits f5 0x10) (.ieInvalidLength 104) b c
    return { t := 104, length, ins := ins &&& 0x0f, sec_mode := SecurityMode.ofU8 (f4 >>> 5),
             ksi := f4 &&& 0x07, used_cipher := CipherValues.ofU8 (f6 &&& 0x07),
             used_gprs_integrity := if hasBits f5 0x04 then some (GprsIntegrityProtectionValues.ofU8 (f6 >>> 3)) else none,
             gupii := hasBits f5 0x08, ck, ik, auth_quintuplets, drx_params, subscr_ue_ambr,
             used_ue_ambr, ue_ntwk_cap, ms_ntwk_cap, mei,
             access_res := AccessRestrictionMM.ofU8 access, vdn_pref_ue_usage,
             higher_than_16_mbps, iov_updates_counter }
  else .err (.ieInvalidLength 104)

/-- `len` (mmctxumtskeycipherquintuplets.rs:318-320). -/
def len (_m : Mode) (x : MmContextUmtsKeyCipherQuintuplets) : R Err Nat := ieLenU x.length

/-- Field values that the encoding of a `MmContextUmtsKeyCipherQuintuplets` can represent. -/
def WF (x : MmContextUmtsKeyCipherQuintuplets) : Prop :=
  x.t = 104 ∧
  x.length.toNat = x.body.length ∧
  x.ins < 16 ∧
  x.ksi < 8 ∧
  (∀ s ∈ x.drx_params, s.length = 2) ∧
  LvOk x.ue_ntwk_cap ∧
  LvOk x.ms_ntwk_cap ∧
  LvOk x.mei ∧
  x.ck.length = 16 ∧
  x.ik.length = 16 ∧
  AuthOk AuthQuintuplet.WF x.auth_quintuplets ∧
  LvOk x.vdn_pref_ue_usage ∧
  x.iov_updates_counter.isSome ∧
  (x.higher_than_16_mbps = true ∨ x.iov_updates_counter ≠ some 1)

instance (x : MmContextUmtsKeyCipherQuintuplets) : Decidable x.WF := by unfold WF; infer_instance

theorem rt : RoundTrips WF marshal unmarshal := by
  intro m x tail h
  obtain ⟨t, length, ins, sec_mode, ksi, used_cipher, used_gprs_integrity, gupii, ck, ik, auth_quintuplets, drx_params, subscr_ue_ambr, used_ue_ambr, ue_ntwk_cap, ms_ntwk_cap, mei, access_res, vdn_pref_ue_usage, higher_than_16_mbps, iov_updates_counter⟩ := x
  obtain ⟨ht, hl, hi, hk, hdrx, hun, hms, hme, hck, hik, hau, hvd, hio, hhi⟩ := h
  simp only at ht hl hi hk hdrx hun hms hme hck hik hau hvd hio hhi
  simp only [marshal]
  obtain ⟨b, hb, e1, e2, p4, hbl0⟩ := tliv_at (ty := 104) (ins := ins) tail hl
  simp only [body, List.append_assoc, List.cons_append, List.nil_append] at p4
  have p5 : At b 5 _ := p4.next
  have p6 : At b 6 _ := p5.next
  have p7 : At b 7 _ := p6.next
  obtain ⟨iov, rfl⟩ := Option.isSome_iff_exists.mp hio
  simp only [ne_eq, Option.some.injEq] at hhi
  simp only [Option.isSome_some, Option.toList_some, List.cons_append, List.nil_append, List.append_assoc] at p4 p5 p6 p7
  have r23 : At b 23 _ := p7.skip (by omega)
  have q0 : At b 39 _ := r23.skip (by omega)
  have hbl := q0.length
  have w0 := lvOpt_length_pos ue_ntwk_cap
  have w1 := lvOpt_length_pos ms_ntwk_cap
  have w2 := lvOpt_length_pos mei
  have w3 := lvOpt_length_pos vdn_pref_ue_usage
  simp only [List.length_append, List.length_cons] at hbl
  have s7 := p7.sl (ε := Err) (n := 23) (by omega)
  have s23 := r23.sl (ε := Err) (n := 39) (by omega)
  obtain ⟨d1, d2, d3⟩ := mmOct4_dec sec_mode drx_params.isSome hk
  obtain ⟨d4, d5, d6, d7, d8, d9⟩ := mmOct5_dec (authN_le hau) true gupii used_gprs_integrity.isSome used_ue_ambr.isSome subscr_ue_ambr.isSome
  obtain ⟨d10, d11⟩ := mmOct6_dec used_gprs_integrity used_cipher
  obtain ⟨c1, a1, q1⟩ := rdAuth_at (e := .ieIncorrect 104) AuthQuintuplet.ok q0 hau
  obtain ⟨c2, a2, q2⟩ := rdDrx_at q1 hdrx
  obtain ⟨c3, a3, q3⟩ := rdIf_at (st := rdAmbr 104 b) q2 (fun _ _ hat => rdAmbr_at hat)
  obtain ⟨c4, a4, q4⟩ := rdIf_at (st := rdAmbr 104 b) q3 (fun _ _ hat => rdAmbr_at hat)
  obtain ⟨c5, a5, q5⟩ := rdLv_at (skip := 1) (e := .ieInvalidLength 104) q4 hun
  obtain ⟨c6, a6, q6⟩ := rdLv_at (skip := 1) (e := .ieInvalidLength 104) q5 hms
  obtain ⟨c7, a7, q7⟩ := rdLv_at (skip := 1) (e := .ieInvalidLength 104) q6 hme
  obtain ⟨c8, a8, q8⟩ := rd8s_at q7
  obtain ⟨c9, a9, q9⟩ := rdLv_at (skip := 1) (e := .ieInvalidLength 104) q8 hvd
  obtain ⟨c10, a10, q10⟩ := rdHigher_at q9 hhi
  obtain ⟨c11, a11, q11⟩ := rdIov_at (e := .ieInvalidLength 104) q10
  simp only [hb]
  cur_simp [unmarshal, e1, e2, p4.rd, p5.rd, p6.rd, s7, s23, d1, d2, d3, d4, d5, d6, d7, d8, d9, d10, d11, a1, a2, a3, a4, a5, a6, a7, a8, a9, a10, a11, AccessRestrictionMM.ofU8_toU8, ht, hi]

theorem len_ok : LenOk WF marshal len := by
  intro m x h
  obtain ⟨t, length, ins, sec_mode, ksi, used_cipher, used_gprs_integrity, gupii, ck, ik, auth_quintuplets, drx_params, subscr_ue_ambr, used_ue_ambr, ue_ntwk_cap, ms_ntwk_cap, mei, access_res, vdn_pref_ue_usage, higher_than_16_mbps, iov_updates_counter⟩ := x
  obtain ⟨ht, hl, hi, hk, hdrx, hun, hms, hme, hck, hik, hau, hvd, hio, hhi⟩ := h
  simp only at ht hl hi hk hdrx hun hms hme hck hik hau hvd hio hhi
  simp [marshal, tliv_eq, len, ieLenU, hl]

theorem safe : LooseSafe (fun b => 5000 ≤ b.length) unmarshal len := by
  intro m b hb hc
  unfold declLen at *
  try simp only at hc
  safe_simp [unmarshal, len]
  refine fun _ => ⟨by omega, by omega, by omega, by omega, by omega, by omega, by omega, by omega, ?_⟩
  refine Safe.mono (rdAuth_safe AuthQuintuplet.safe (by omega)) fun ⟨v1, c1⟩ s1 => ?_
  try safe_simp []
  try simp only at s1
  refine Safe.mono (rdDrx_safe) fun ⟨v2, c2⟩ s2 => ?_
  try safe_simp []
  try simp only at s2
  refine Safe.mono (rdIf_safe (P := fun c => c ≤ c2 + 8) (by omega) (rdAmbr_safe)) fun ⟨v3, c3⟩ s3 => ?_
  try safe_simp []
  try simp only at s3
  refine Safe.mono (rdIf_safe (P := fun c => c ≤ c3 + 8) (by omega) (rdAmbr_safe)) fun ⟨v4, c4⟩ s4 => ?_
  try safe_simp []
  try simp only at s4
  refine Safe.mono (rdLv_safe (by omega) (by omega)) fun ⟨v5, c5⟩ s5 => ?_
  try safe_simp []
  try simp only at s5
  refine Safe.mono (rdLv_safe (by omega) (by omega)) fun ⟨v6, c6⟩ s6 => ?_
  try safe_simp []
  try simp only at s6
  refine Safe.mono (rdLv_safe (by omega) (by omega)) fun ⟨v7, c7⟩ s7 => ?_
  try safe_simp []
  try simp only at s7
  refine Safe.mono (rd8s_safe (by omega)) fun ⟨v8, c8⟩ s8 => ?_
  try safe_simp []
  try simp only at s8
  refine Safe.mono (rdLv_safe (by omega) (by omega)) fun ⟨v9, c9⟩ s9 => ?_
  try safe_simp []
  try simp only at s9
  refine Safe.mono (rdHigher_safe (by omega)) fun ⟨v10, c10⟩ s10 => ?_
  try safe_simp []
  try simp only at s10
  refine Safe.mono (rdIov_safe (by omega)) fun ⟨v11, c11⟩ s11 => ?_
  try safe_simp []
  try simp only at s11

end MmContextUmtsKeyCipherQuintuplets

/-- `MmContextUmtsKeyQuintuplets` (mmctxumtskeyquintuplets.rs:16-39). -/
structure MmContextUmtsKeyQuintuplets where
  t : UInt8
  length : UInt16
  ins : UInt8
  sec_mode : SecurityMode
  ksi : UInt8
  used_cipher : CipherValues
  used_gprs_integrity : Option GprsIntegrityProtectionValues
  gupii : Bool
  ck : Bytes
  ik : Bytes
  auth_quintuplets : Option (List AuthQuintuplet)
  drx_params : Option Bytes
  subscr_ue_ambr : Option AmbrMM
  used_ue_ambr : Option AmbrMM
  ue_ntwk_cap : Option Bytes
  ms_ntwk_cap : Option Bytes
  mei : Option Bytes
  access_res : AccessRestrictionMM
  vdn_pref_ue_usage : Option Bytes
  higher_than_16_mbps : Bool
  iov_updates_counter : Option UInt8
  ext_access_res : Option ExtendedAccessRestrictionMM
deriving DecidableEq, Repr

namespace MmContextUmtsKeyQuintuplets

/-- The octets behind the instance octet (mmctxumtskeyquintuplets.rs:82-176). -/
def body (x : MmContextUmtsKeyQuintuplets) : Bytes :=
  mmOct4 x.sec_mode x.drx_params.isSome x.ksi ::
    mmOct5 (authN x.auth_quintuplets) x.iov_updates_counter.isSome x.gupii x.used_gprs_integrity.isSome
      x.used_ue_ambr.isSome x.subscr_ue_ambr.isSome :: mmOct6 x.used_gprs_integrity x.used_cipher ::
    (x.ck ++ (x.ik ++ (optEnc (fun l => l.flatMap AuthQuintuplet.octets) x.auth_quintuplets ++ (optEnc id x.drx_params ++
    (optEnc AmbrMM.octets x.subscr_ue_ambr ++ (optEnc AmbrMM.octets x.used_ue_ambr ++
    (lvOpt x.ue_ntwk_cap ++ (lvOpt x.ms_ntwk_cap ++ (lvOpt x.mei ++ (x.access_res.toU8 :: (lvOpt x.vdn_pref_ue_usage ++
    (higherEnc x.higher_than_16_mbps ++ (x.iov_updates_counter.toList ++ extAccEnc x.ext_access_res)))))))))))))

/-- `marshal` (mmctxumtskeyquintuplets.rs:77-179). -/
def marshal (x : MmContextUmtsKeyQuintuplets) : Bytes :=
  tliv 106 x.length x.ins (x.body)

/-- `unmarshal` (mmctxumtskeyquintuplets.rs:181-341). -/
def unmarshal (_m : Mode) (b : Bytes) : R Err MmContextUmtsKeyQuintuplets := do
  if 41 ≤ b.length then
    let length ← rd16 b 1
    let ins ← rd b 3
    let f4 ← rd b 4
    let f5 ← rd b 5
    let f6 ← rd b 6
    let ck ← sl b 7 23
    let ik ← sl b 23 39
    let (auth_quintuplets, c) ← rdAuth AuthQuintuplet.unm AuthQuintuplet.size (.ieIncorrect 106) b (f5 >>> 5) 39
    let (drx_params, c) ← rdDrx (hasBits f4 0x08) b c
    let (subscr_ue_ambr, c) ← rdIf (hasBits f5 0x01) (rdAmbr 106 b) c
    let (used_ue_ambr, c) ← rdIf (hasBits f5 0x02) (rdAmbr 106 b) c
    let (ue_ntwk_cap, c) ← rdLv 1 (.ieInvalidLength 106) b c
    let (ms_ntwk_cap, c) ← rdLv 1 (.ieInvalidLength 106) b c
    let (mei, c) ← rdLv 1 (.ieInvalidLength 106) b c
    let (access, c) ← rd8s b c
    let (vdn_pref_ue_usage, c) ← rdLv 1 (.ieInvalidLength 106) b c
    let (higher_than_16_mbps, c) ← rdHigher b c
    let (iov_updates_counter, c) ← rdIov (hasBits f5 0x10) (.ieInvalidLength 106) b c
    let (ext_access_res, _) ← rdExtAcc (.ieInvalidLength 106) b c
    return { t := 106, length, ins := ins &&& 0x0f, sec_mode := SecurityMode.ofU8 (f4 >>> 5),
             ksi := f4 &&& 0x07, used_cipher := CipherValues.ofU8 (f6 &&& 0x07),
             used_gprs_integrity := if hasBits f5 0x04 then some (GprsIntegrityProtectionValues.ofU8 (f6 >>> 3)) else none,
             gupii := hasBits f5 0x08, ck, ik, auth_quintuplets, drx_params, subscr_ue_ambr,
             used_ue_ambr, ue_ntwk_cap, ms_ntwk_cap, mei,
             access_res := AccessRestrictionMM.ofU8 access, vdn_pref_ue_usage,
             higher_than_16_mbps, iov_updates_counter, ext_access_res }
  else .err (.ieInvalidLength 106)

/-- `len` (mmctxumtskeyquintuplets.rs:343-345). -/
def len (_m : Mode) (x : MmContextUmtsKeyQuintuplets) : R Err Nat := ieLenU x.length

/-- Field values that the encoding of a `MmContextUmtsKeyQuintuplets` can represent. -/
def WF (x : MmContextUmtsKeyQuintuplets) : Prop :=
  x.t = 106 ∧
  x.length.toNat = x.body.length ∧
  x.ins < 16 ∧
  x.ksi < 8 ∧
  (∀ s ∈ x.drx_params, s.length = 2) ∧
  LvOk x.ue_ntwk_cap ∧
  LvOk x.ms_ntwk_cap ∧
  LvOk x.mei ∧
  x.ck.length = 16 ∧
  x.ik.length = 16 ∧
  AuthOk AuthQuintuplet.WF x.auth_quintuplets ∧
  LvOk x.vdn_pref_ue_usage ∧
  x.iov_updates_counter.isSome ∧
  (x.higher_than_16_mbps = true ∨ x.iov_updates_counter ≠ some 1)

instance (x : MmContextUmtsKeyQuintuplets) : Decidable x.WF := by unfold WF; infer_instance

theorem rt : RoundTrips WF marshal unmarshal := by
  intro m x tail h
  obtain ⟨t, length, ins, sec_mode, ksi, used_cipher, used_gprs_integrity, gupii, ck, ik, auth_quintuplets, drx_params, subscr_ue_ambr, used_ue_ambr, ue_ntwk_cap, ms_ntwk_cap, mei, access_res, vdn_pref_ue_usage, higher_than_16_mbps, iov_updates_counter, ext_access_res⟩ := x
  obtain ⟨ht, hl, hi, hk, hdrx, hun, hms, hme, hck, hik, hau, hvd, hio, hhi⟩ := h
  simp only at ht hl hi hk hdrx hun hms hme hck hik hau hvd hio hhi
  simp only [marshal]
  obtain ⟨b, hb, e1, e2, p4, hbl0⟩ := tliv_at (ty := 106) (ins := ins) tail hl
  simp only [body, List.append_assoc, List.cons_append, List.nil_append] at p4
  have p5 : At b 5 _ := p4.next
  have p6 : At b 6 _ := p5.next
  have p7 : At b 7 _ := p6.next
  obtain ⟨iov, rfl⟩ := Option.isSome_iff_exists.mp hio
  simp only [ne_eq, Option.some.injEq] at hhi
  simp only [Option.isSome_some, Option.toList_some, List.cons_append, List.nil_append, List.append_assoc] at p4 p5 p6 p7
  have r23 : At b 23 _ := p7.skip (by omega)
  have q0 : At b 39 _ := r23.skip (by omega)
  have hbl := q0.length
  have w0 := lvOpt_length_pos ue_ntwk_cap
  have w1 := lvOpt_length_pos ms_ntwk_cap
  have w2 := lvOpt_length_pos mei
  have w3 := lvOpt_length_pos vdn_pref_ue_usage
  simp only [List.length_append, List.length_cons] at hbl
  have s7 := p7.sl (ε := Err) (n := 23) (by omega)
  have s23 := r23.sl (ε := Err) (n := 39) (by omega)
  obtain ⟨d1, d2, d3⟩ := mmOct4_dec sec_mode drx_params.isSome hk
  obtain ⟨d4, d5, d6, d7, d8, d9⟩ := mmOct5_dec (authN_le hau) true gupii used_gprs_integrity.isSome used_ue_ambr.isSome subscr_ue_ambr.isSome
  obtain ⟨d10, d11⟩ := mmOct6_dec used_gprs_integrity used_cipher
  obtain ⟨c1, a1, q1⟩ := rdAuth_at (e := .ieIncorrect 106) AuthQuintuplet.ok q0 hau
  obtain ⟨c2, a2, q2⟩ := rdDrx_at q1 hdrx
  obtain ⟨c3, a3, q3⟩ := rdIf_at (st := rdAmbr 106 b) q2 (fun _ _ hat => rdAmbr_at hat)
  obtain ⟨c4, a4, q4⟩ := rdIf_at (st := rdAmbr 106 b) q3 (fun _ _ hat => rdAmbr_at hat)
  obtain ⟨c5, a5, q5⟩ := rdLv_at (skip := 1) (e := .ieInvalidLength 106) q4 hun
  obtain ⟨c6, a6, q6⟩ := rdLv_at (skip := 1) (e := .ieInvalidLength 106) q5 hms
  obtain ⟨c7, a7, q7⟩ := rdLv_at (skip := 1) (e := .ieInvalidLength 106) q6 hme
  obtain ⟨c8, a8, q8⟩ := rd8s_at q7
  obtain ⟨c9, a9, q9⟩ := rdLv_at (skip := 1) (e := .ieInvalidLength 106) q8 hvd
  obtain ⟨c10, a10, q10⟩ := rdHigher_at q9 hhi
  obtain ⟨c11, a11, q11⟩ := rdIov_at (e := .ieInvalidLength 106) q10
  obtain ⟨c12, a12⟩ := rdExtAcc_val (e := .ieInvalidLength 106) q11
  simp only [hb]
  cur_simp [unmarshal, e1, e2, p4.rd, p5.rd, p6.rd, s7, s23, d1, d2, d3, d4, d5, d6, d7, d8, d9, d10, d11, a1, a2, a3, a4, a5, a6, a7, a8, a9, a10, a11, a12, AccessRestrictionMM.ofU8_toU8, ht, hi]

theorem len_ok : LenOk WF marshal len := by
  intro m x h
  obtain ⟨t, length, ins, sec_mode, ksi, used_cipher, used_gprs_integrity, gupii, ck, ik, auth_quintuplets, drx_params, subscr_ue_ambr, used_ue_ambr, ue_ntwk_cap, ms_ntwk_cap, mei, access_res, vdn_pref_ue_usage, higher_than_16_mbps, iov_updates_counter, ext_access_res⟩ := x
  obtain ⟨ht, hl, hi, hk, hdrx, hun, hms, hme, hck, hik, hau, hvd, hio, hhi⟩ := h
  simp only at ht hl hi hk hdrx hun hms hme hck hik hau hvd hio hhi
  simp [marshal, tliv_eq, len, ieLenU, hl]

theorem safe : LooseSafe (fun b => 5000 ≤ b.length) unmarshal len := by
  intro m b hb hc
  unfold declLen at *
  try simp only at hc
  safe_simp [unmarshal, len]
  refine fun _ => ⟨by omega, by omega, by omega, by omega, by omega, by omega, by omega, by omega, ?_⟩
  refine Safe.mono (rdAuth_safe AuthQuintuplet.safe (by omega)) fun ⟨v1, c1⟩ s1 => ?_
  try safe_simp []
  try simp only at s1
  refine Safe.mono (rdDrx_safe) fun ⟨v2, c2⟩ s2 => ?_
  try safe_simp []
  try simp only at s2
  refine Safe.mono (rdIf_safe (P := fun c => c ≤ c2 + 8) (by omega) (rdAmbr_safe)) fun ⟨v3, c3⟩ s3 => ?_
  try safe_simp []
  try simp only at s3
  refine Safe.mono (rdIf_safe (P := fun c => c ≤ c3 + 8) (by omega) (rdAmbr_safe)) fun ⟨v4, c4⟩ s4 => ?_
  try safe_simp []
  try simp only at s4
  refine Safe.mono (rdLv_safe (by omega) (by omega)) fun ⟨v5, c5⟩ s5 => ?_
  try safe_simp []
  try simp only at s5
  refine Safe.mono (rdLv_safe (by omega) (by omega)) fun ⟨v6, c6⟩ s6 => ?_
  try safe_simp []
  try simp only at s6
  refine Safe.mono (rdLv_safe (by omega) (by omega)) fun ⟨v7, c7⟩ s7 => ?_
  try safe_simp []
  try simp only at s7
  refine Safe.mono (rd8s_safe (by omega)) fun ⟨v8, c8⟩ s8 => ?_
  try safe_simp []
  try simp only at s8
  refine Safe.mono (rdLv_safe (by omega) (by omega)) fun ⟨v9, c9⟩ s9 => ?_
  try safe_simp []
  try simp only at s9
  refine Safe.mono (rdHigher_safe (by omega)) fun ⟨v10, c10⟩ s10 => ?_
  try safe_simp []
  try simp only at s10
  refine Safe.mono (rdIov_safe (by omega)) fun ⟨v11, c11⟩ s11 => ?_
  try safe_simp []
  try simp only at s11
  refine Safe.mono (rdExtAcc_safe (by omega)) fun ⟨v12, c12⟩ s12 => ?_
  try safe_simp []
  try simp only at s12

end MmContextUmtsKeyQuintuplets

/-- `MmContextUmtsKeyQuadrupletsQuintuplets` (mmctxumtskeyquadrupletsquintuplets.rs:16-35). -/
structure MmContextUmtsKeyQuadrupletsQuintuplets where
  t : UInt8
  length : UInt16
  ins : UInt8
  sec_mode : SecurityMode
  ksi : UInt8
  ck : Bytes
  ik : Bytes
  auth_quadruplets : Option (List AuthQuadruplet)
  auth_quintuplets : Option (List AuthQuintuplet)
  drx_params : Option Bytes
  subscr_ue_ambr : Option AmbrMM
  used_ue_ambr : Option AmbrMM
  ue_ntwk_cap : Option Bytes
  ms_ntwk_cap : Option Bytes
  mei : Option Bytes
  access_res : AccessRestrictionMM
  vdn_pref_ue_usage : Option Bytes
  apn_rate_controls : Option (List ApnRateControlStatusMM)
deriving DecidableEq, Repr

namespace MmContextUmtsKeyQuadrupletsQuintuplets

/-- The octets behind the instance octet (mmctxumtskeyquadrupletsquintuplets.rs:74-152). -/
def body (x : MmContextUmtsKeyQuadrupletsQuintuplets) : Bytes :=
  mmOct4 x.sec_mode x.drx_params.isSome x.ksi ::
    mmOct5q (authN x.auth_quintuplets) (authN x.auth_quadruplets) x.used_ue_ambr.isSome x.subscr_ue_ambr.isSome :: 0x00 ::
    (x.ck ++ (x.ik ++ (optEnc (fun l => l.flatMap AuthQuadruplet.octets) x.auth_quadruplets ++
    (optEnc (fun l => l.flatMap AuthQuintuplet.octets) x.auth_quintuplets ++ (optEnc id x.drx_params ++
    (optEnc AmbrMM.octets x.subscr_ue_ambr ++ (optEnc AmbrMM.octets x.used_ue_ambr ++
    (lvOpt x.ue_ntwk_cap ++ (lvOpt x.ms_ntwk_cap ++ (lvOpt x.mei ++ (x.access_res.toU8 :: (lvOpt x.vdn_pref_ue_usage ++
    apnRatesEnc x.apn_rate_controls))))))))))))

/-- `marshal` (mmctxumtskeyquadrupletsquintuplets.rs:69-155). -/
def marshal (x : MmContextUmtsKeyQuadrupletsQuintuplets) : Bytes :=
  tliv 108 x.length x.ins (x.body)

/-- `unmarshal` (mmctxumtskeyquadrupletsquintuplets.rs:157-314). -/
def unmarshal (_m : Mode) (b : Bytes) : R Err MmContextUmtsKeyQuadrupletsQuintuplets := do
  if 43 ≤ b.length then
    let length ← rd16 b 1
    let ins ← rd b 3
    let f4 ← rd b 4
    let f5 ← rd b 5
    let ck ← sl b 7 23
    let ik ← sl b 23 39
    let (auth_quadruplets, c) ← rdAuth AuthQuadruplet.unm AuthQuadruplet.size (.ieIncorrect 108) b ((f5 &&& 0x1c) >>> 2) 39
    let (auth_quintuplets, c) ← rdAuth AuthQuintuplet.unm AuthQuintuplet.size (.ieIncorrect 108) b (f5 >>> 5) c
    let (drx_params, c) ← rdDrx (hasBits f4 0x08) b c
    let (subscr_ue_ambr, c) ← rdIf (hasBits f5 0x01) (rdAmbr 108 b) c
    let (used_ue_ambr, c) ← rdIf (hasBits f5 0x02) (rdAmbr 108 b) c
    let (ue_ntwk_cap, c) ← rdLv 1 (.ieInvalidLength 108) b c
    let (ms_ntwk_cap, c) ← rdLv 1 (.ieInvalidLength 108) b c
    let (mei, c) ← rdLv 1 (.ieInvalidLength 108) b c
    let (access, c) ← rd8s b c
    let (vdn_pref_ue_usage, c) ← rdLv 0 (.ieInvalidLength 108) b c
    let (apn_rate_controls, _) ← rdApnRates (.ieInvalidLength 108) b c
    return { t := 108, length, ins := ins &&& 0x0f, sec_mode := SecurityMode.ofU8 (f4 >>> 5),
             ksi := f4 &&& 0x07, ck, ik, auth_quadruplets, auth_quintuplets, drx_params,
             subscr_ue_ambr, used_ue_ambr, ue_ntwk_cap, ms_ntwk_cap, mei,
             access_res := AccessRestrictionMM.ofU8 access, vdn_pref_ue_usage,
             apn_rate_controls }
  else .err (.ieInvalidLength 108)

/-- `len` (mmctxumtskeyquadrupletsquintuplets.rs:316-318). -/
def len (_m : Mode) (x : MmContextUmtsKeyQuadrupletsQuintuplets) : R Err Nat := ieLenU x.length

/-- Field values that the encoding of a `MmContextUmtsKeyQuadrupletsQuintuplets` can represent. -/
def WF (x : MmContextUmtsKeyQuadrupletsQuintuplets) : Prop :=
  x.t = 108 ∧
  x.length.toNat = x.body.length ∧
  x.ins < 16 ∧
  x.ksi < 8 ∧
  (∀ s ∈ x.drx_params, s.length = 2) ∧
  LvOk x.ue_ntwk_cap ∧
  LvOk x.ms_ntwk_cap ∧
  LvOk x.mei ∧
  x.ck.length = 16 ∧
  x.ik.length = 16 ∧
  AuthOk AuthQuadruplet.WF x.auth_quadruplets ∧
  AuthOk AuthQuintuplet.WF x.auth_quintuplets ∧
  LvOk0 x.vdn_pref_ue_usage ∧
  x.apn_rate_controls = none

instance (x : MmContextUmtsKeyQuadrupletsQuintuplets) : Decidable x.WF := by unfold WF; infer_instance

/-- Everything but the APN rate control statuses is representable. -/
def WFbut (x : MmContextUmtsKeyQuadrupletsQuintuplets) : Prop :=
  x.t = 108 ∧
  x.length.toNat = x.body.length ∧
  x.ins < 16 ∧
  (x.ksi < 8) ∧
  (∀ s ∈ x.drx_params, s.length = 2) ∧
  (LvOk x.ue_ntwk_cap) ∧
  (LvOk x.ms_ntwk_cap) ∧
  (LvOk x.mei) ∧
  (x.ck.length = 16) ∧
  (x.ik.length = 16) ∧
  (AuthOk AuthQuadruplet.WF x.auth_quadruplets) ∧
  (AuthOk AuthQuintuplet.WF x.auth_quintuplets) ∧
  (LvOk0 x.vdn_pref_ue_usage)

instance (x : MmContextUmtsKeyQuadrupletsQuintuplets) : Decidable x.WFbut := by unfold WFbut; infer_instance

theorem rt_any {m : Mode} {x : MmContextUmtsKeyQuadrupletsQuintuplets} {tail : Bytes} (h : x.WFbut)
    (hv : ∀ b c, At b c (apnRatesEnc x.apn_rate_controls ++ tail) →
      ∃ c', rdApnRates (.ieInvalidLength 108) b c = .ok (x.apn_rate_controls, c')) :
    unmarshal m (marshal x ++ tail) = .ok x := by
  obtain ⟨t, length, ins, sec_mode, ksi, ck, ik, auth_quadruplets, auth_quintuplets, drx_params, subscr_ue_ambr, used_ue_ambr, ue_ntwk_cap, ms_ntwk_cap, mei, access_res, vdn_pref_ue_usage, apn_rate_controls⟩ := x
  obtain ⟨ht, hl, hi, hk, hdrx, hun, hms, hme, hck, hik, haq, hau, hvd⟩ := h
  simp only at ht hl hi hk hdrx hun hms hme hck hik haq hau hvd hv
  simp only [marshal]
  obtain ⟨b, hb, e1, e2, p4, hbl0⟩ := tliv_at (ty := 108) (ins := ins) tail hl
  simp only [body, List.append_assoc, List.cons_append, List.nil_append] at p4
  have p5 : At b 5 _ := p4.next
  have p6 : At b 6 _ := p5.next
  have p7 : At b 7 _ := p6.next
  have r23 : At b 23 _ := p7.skip (by omega)
  have q0 : At b 39 _ := r23.skip (by omega)
  have hbl := q0.length
  have w0 := lvOpt_length_pos ue_ntwk_cap
  have w1 := lvOpt_length_pos ms_ntwk_cap
  have w2 := lvOpt_length_pos mei
  have w3 := lvOpt_length_pos vdn_pref_ue_usage
  simp only [List.length_append, List.length_cons] at hbl
  have s7 := p7.sl (ε := Err) (n := 23) (by omega)
  have s23 := r23.sl (ε := Err) (n := 39) (by omega)
  obtain ⟨d1, d2, d3⟩ := mmOct4_dec sec_mode drx_params.isSome hk
  obtain ⟨d4, d5, d6, d7⟩ := mmOct5q_dec (authN_le hau) (authN_le haq) used_ue_ambr.isSome subscr_ue_ambr.isSome
  obtain ⟨c1, a1, q1⟩ := rdAuth_at (e := .ieIncorrect 108) AuthQuadruplet.ok q0 haq
  obtain ⟨c2, a2, q2⟩ := rdAuth_at (e := .ieIncorrect 108) AuthQuintuplet.ok q1 hau
  obtain ⟨c3, a3, q3⟩ := rdDrx_at q2 hdrx
  obtain ⟨c4, a4, q4⟩ := rdIf_at (st := rdAmbr 108 b) q3 (fun _ _ hat => rdAmbr_at hat)
  obtain ⟨c5, a5, q5⟩ := rdIf_at (st := rdAmbr 108 b) q4 (fun _ _ hat => rdAmbr_at hat)
  obtain ⟨c6, a6, q6⟩ := rdLv_at (skip := 1) (e := .ieInvalidLength 108) q5 hun
  obtain ⟨c7, a7, q7⟩ := rdLv_at (skip := 1) (e := .ieInvalidLength 108) q6 hms
  obtain ⟨c8, a8, q8⟩ := rdLv_at (skip := 1) (e := .ieInvalidLength 108) q7 hme
  obtain ⟨c9, a9, q9⟩ := rd8s_at q8
  obtain ⟨c10, a10, q10⟩ := rdLv_at0 (e := .ieInvalidLength 108) q9 hvd
  obtain ⟨c11, a11⟩ := hv _ _ q10
  simp only [hb]
  cur_simp [unmarshal, e1, e2, p4.rd, p5.rd, s7, s23, d1, d2, d3, d4, d5, d6, d7, a1, a2, a3, a4, a5, a6, a7, a8, a9, a10, a11, AccessRestrictionMM.ofU8_toU8, ht, hi]

theorem rt : RoundTrips WF marshal unmarshal := by
  intro m x tail h
  obtain ⟨t, length, ins, sec_mode, ksi, ck, ik, auth_quadruplets, auth_quintuplets, drx_params, subscr_ue_ambr, used_ue_ambr, ue_ntwk_cap, ms_ntwk_cap, mei, access_res, vdn_pref_ue_usage, apn_rate_controls⟩ := x
  obtain ⟨ht, hl, hi, hk, hdrx, hun, hms, hme, hck, hik, haq, hau, hvd, hap⟩ := h
  simp only at ht hl hi hk hdrx hun hms hme hck hik haq hau hvd hap
  exact rt_any ⟨ht, hl, hi, hk, hdrx, hun, hms, hme, hck, hik, haq, hau, hvd⟩ fun b c hat => ⟨c, by simp only [hap, apnRatesEnc, List.cons_append] at hat ⊢; simp [rdApnRates, hat.rd]⟩

theorem len_ok : LenOk WF marshal len := by
  intro m x h
  obtain ⟨t, length, ins, sec_mode, ksi, ck, ik, auth_quadruplets, auth_quintuplets, drx_params, subscr_ue_ambr, used_ue_ambr, ue_ntwk_cap, ms_ntwk_cap, mei, access_res, vdn_pref_ue_usage, apn_rate_controls⟩ := x
  obtain ⟨ht, hl, hi, hk, hdrx, hun, hms, hme, hck, hik, haq, hau, hvd, hap⟩ := h
  simp only at ht hl hi hk hdrx hun hms hme hck hik haq hau hvd hap
  simp [marshal, tliv_eq, len, ieLenU, hl]

theorem safe : LooseSafe (fun b => 8000 ≤ b.length ∧ ∀ c, c < 8000 → (rdApnRates (.ieInvalidLength 108) b c).Safe fun _ => True) unmarshal len := by
  intro m b hb hc
  unfold declLen at *
  try simp only at hc
  safe_simp [unmarshal, len]
  refine fun _ => ⟨by omega, by omega, by omega, by omega, by omega, by omega, by omega, ?_⟩
  refine Safe.mono (rdAuth_safe AuthQuadruplet.safe (by omega)) fun ⟨v1, c1⟩ s1 => ?_
  try safe_simp []
  try simp only at s1
  refine Safe.mono (rdAuth_safe AuthQuintuplet.safe (by omega)) fun ⟨v2, c2⟩ s2 => ?_
  try safe_simp []
  try simp only at s2
  refine Safe.mono (rdDrx_safe) fun ⟨v3, c3⟩ s3 => ?_
  try safe_simp []
  try simp only at s3
  refine Safe.mono (rdIf_safe (P := fun c => c ≤ c3 + 8) (by omega) (rdAmbr_safe)) fun ⟨v4, c4⟩ s4 => ?_
  try safe_simp []
  try simp only at s4
  refine Safe.mono (rdIf_safe (P := fun c => c ≤ c4 + 8) (by omega) (rdAmbr_safe)) fun ⟨v5, c5⟩ s5 => ?_
  try safe_simp []
  try simp only at s5
  refine Safe.mono (rdLv_safe (by omega) (by omega)) fun ⟨v6, c6⟩ s6 => ?_
  try safe_simp []
  try simp only at s6
  refine Safe.mono (rdLv_safe (by omega) (by omega)) fun ⟨v7, c7⟩ s7 => ?_
  try safe_simp []
  try simp only at s7
  refine Safe.mono (rdLv_safe (by omega) (by omega)) fun ⟨v8, c8⟩ s8 => ?_
  try safe_simp []
  try simp only at s8
  refine Safe.mono (rd8s_safe (by omega)) fun ⟨v9, c9⟩ s9 => ?_
  try safe_simp []
  try simp only at s9
  refine Safe.mono (rdLv_safe (by omega) (by omega)) fun ⟨v10, c10⟩ s10 => ?_
  try safe_simp []
  try simp only at s10
  refine Safe.mono (hc.2 _ (by omega)) fun ⟨v11, c11⟩ s11 => ?_
  try safe_simp []
  try simp only at s11

end MmContextUmtsKeyQuadrupletsQuintuplets

/-- With APN rate control statuses the IE is read back when nothing follows it in the buffer: the decoder reads on to the end. -/
theorem MmContextUmtsKeyQuadrupletsQuintuplets.rt_last (m : Mode) (x : MmContextUmtsKeyQuadrupletsQuintuplets)
    (l : List ApnRateControlStatusMM) (h : x.WFbut) (hl : x.apn_rate_controls = some l) (h0 : 0 < l.length)
    (h1 : l.length < 256) (hw : ∀ s ∈ l, s.WF) : unmarshal m x.marshal = .ok x := by
  have := rt_any (m := m) (tail := []) h fun b c hat => ⟨b.length, by
    rw [List.append_nil] at hat
    rw [hl] at hat ⊢
    exact rdApnRates_last hat h0 h1 hw⟩
  rwa [List.append_nil] at this

/-- Octet 5 of the EPS context (mmctxepssecurityctxquadruplets.rs:100-110). -/
def epsOct4 (s : SecurityMode) (nh drx : Bool) (k : UInt8) : UInt8 :=
  s.toU8 <<< 5 ||| (if nh then 0x10 else 0) ||| (if drx then 0x08 else 0) ||| k &&& 0x07

theorem epsOct4_dec (s : SecurityMode) (nh drx : Bool) {k : UInt8} (h : k < 8) :
    SecurityMode.ofU8 (epsOct4 s nh drx k >>> 5) = s ∧ epsOct4 s nh drx k &&& 0x07 = k ∧
    hasBits (epsOct4 s nh drx k) 0x08 = drx ∧ hasBits (epsOct4 s nh drx k) 0x10 = nh := by
  revert k nh drx
  cases s <;> decide +kernel

/-- Octet 7 (mmctxepssecurityctxquadruplets.rs:128-136). -/
def epsOct6 (sambr : Bool) (i : NasIntegrityProtectionValues) (c : NasCipherValues) : UInt8 :=
  if sambr then (0x80 : UInt8) ||| i.toU8 <<< 4 ||| c.toU8 else i.toU8 <<< 4 ||| c.toU8

theorem epsOct6_dec (sambr : Bool) (i : NasIntegrityProtectionValues) (c : NasCipherValues) :
    (epsOct6 sambr i c >>> 7 == 1) = sambr ∧ NasIntegrityProtectionValues.ofU8 (epsOct6 sambr i c >>> 4 &&& 0x07) = i ∧
    NasCipherValues.ofU8 (epsOct6 sambr i c &&& 0x0f) = c := by
  cases sambr <;> cases i <;> cases c <;> decide +kernel

/-- Next hop and NCC (mmctxepssecurityctxquadruplets.rs:307-314). -/
def rdNextHop (flag : Bool) (b : Bytes) (c : Nat) : R Err ((Option Bytes × Option UInt8) × Nat) := do
  if flag ∧ c + 33 ≤ b.length then
    let s ← sl b c (c + 32)
    let n ← rd b (c + 32)
    return ((some s, some n), c + 33)
  else return ((none, none), c)

/-- Their encoding (mmctxepssecurityctxquadruplets.rs:153-163). -/
def nextHopEnc (nh : Option Bytes) (ncc : Option UInt8) : Bytes :=
  match nh, ncc with
  | some i, some j => i ++ [j &&& 0x07]
  | some i, none => i ++ [0]
  | _, _ => []

theorem rdNextHop_at {b r : Bytes} {c : Nat} {nh : Option Bytes} {ncc : Option UInt8} (h : At b c (nextHopEnc nh ncc ++ r))
    (h1 : ∀ s ∈ nh, s.length = 32) (h2 : ∀ n ∈ ncc, n < 8) (h3 : ncc.isSome = nh.isSome) :
    ∃ c', rdNextHop nh.isSome b c = .ok ((nh, ncc), c') ∧ At b c' r := by
  cases nh with
  | none => cases ncc with
    | none => exact ⟨c, by simp [rdNextHop], by simpa [nextHopEnc] using h⟩
    | some n => simp at h3
  | some s => cases ncc with
    | none => simp at h3
    | some n =>
      have hs := h1 s rfl
      have hn : n &&& 7 = n := by
        have := h2 n rfl
        revert n
        intro n
        have key : ∀ n : UInt8, n < 8 → n &&& 7 = n := by decide +kernel
        exact fun _ _ _ hn => key n hn
      simp only [nextHopEnc, List.append_assoc, List.cons_append, List.nil_append, hn] at h
      have h32 : At b (c + 32) _ := h.skip (by omega)
      have hl := h32.length
      simp only [List.length_cons] at hl
      exact ⟨c + 33, by cur_simp [rdNextHop, h.sl (ε := Err) (n := c + 32) (by omega), h32.rd], h32.next⟩

theorem rdNextHop_safe {flag : Bool} {b : Bytes} {c : Nat} : (rdNextHop flag b c).Safe fun p => p.2 ≤ c + 33 := by
  safe_simp [rdNextHop]
  exact ⟨fun h => ⟨⟨by omega, by omega⟩, by omega, by omega⟩, fun _ => by omega⟩

/-- `if buffer.len() >= cursor { ensct = Some(buffer[cursor] & 0x03) }` (mmctxepssecurityctxquadruplets.rs:500-504). -/
def rdEnsct (b : Bytes) (c : Nat) : R Err (Option UInt8) := do
  if c ≤ b.length then
    let v ← rd b c
    return some (v &&& 0x03)
  else return none

/-- What follows the APN rate control statuses (mmctxepssecurityctxquadruplets.rs:456-504). -/
def rdEpsTail (b : Bytes) (c : Nat) :
    R Err (Option (List ApnRateControlStatusMM) × Option Bytes × Option Bytes × Option UInt8) := do
  let (apn_rate_controls, c) ← rdApnRates (.ieInvalidLength 107) b c
  let (core_nw_res, c) ← rdLv 0 (.ieInvalidLength 107) b c
  let (ue_radio_cap_id, c) ← rdLv 0 (.ieInvalidLength 107) b c
  let ensct ← rdEnsct b c
  return (apn_rate_controls, core_nw_res, ue_radio_cap_id, ensct)

/-- An absent status list is not skipped, so that its count octet is read as the next length and so on. -/
theorem rdEpsTail_zero {b r : Bytes} {c : Nat} (h : At b c (0 :: 0 :: 0 :: 0 :: r)) :
    rdEpsTail b c = .ok (none, none, none, some 0) := by
  have h2 : At b (c + 1 + 1) _ := h.next.next
  have hle := h2.le
  have e1 : rdApnRates (.ieInvalidLength 107) b c = .ok (none, c) := by simp [rdApnRates, h.rd]
  have e2 : rdLv 0 (.ieInvalidLength 107) b c = .ok (none, c + 1) := by simp [rdLv, h.rd]
  have e3 : rdLv 0 (.ieInvalidLength 107) b (c + 1) = .ok (none, c + 1 + 1) := by simp [rdLv, h.next.rd]
  have e4 : rdEnsct b (c + 1 + 1) = .ok (some 0) := by cur_simp [rdEnsct, h2.rd]
  simp only [rdEpsTail, e1, e2, e3, e4, R.ok_bind, R.pure_eq]

/-- `MmContextEpsSecurityContextQuadruplets` (mmctxepssecurityctxquadruplets.rs:16-48). -/
structure MmContextEpsSecurityContextQuadruplets where
  t : UInt8
  length : UInt16
  ins : UInt8
  sec_mode : SecurityMode
  ksi : UInt8
  nas_integrity : NasIntegrityProtectionValues
  nas_cipher : NasCipherValues
  nas_dl_count : UInt32
  nas_ul_count : UInt32
  kasme : Bytes
  auth_quadruplets : Option (List AuthQuadruplet)
  auth_quintuplets : Option (List AuthQuintuplet)
  drx_params : Option Bytes
  next_hop : Option Bytes
  ncc : Option UInt8
  subscr_ue_ambr : Option AmbrMM
  used_ue_ambr : Option AmbrMM
  ue_ntwk_cap : Option Bytes
  ms_ntwk_cap : Option Bytes
  mei : Option Bytes
  access_res : AccessRestrictionMM
  old_eps_sec_ctx : Option OldEpsSecurityContext
  vdn_pref_ue_usage : Option Bytes
  ue_radio_cap_for_paging : Option Bytes
  ext_access_res : Option ExtendedAccessRestrictionMM
  ue_add_security_cap : Option Bytes
  ue_nr_security_cap : Option Bytes
  apn_rate_controls : Option (List ApnRateControlStatusMM)
  core_nw_res : Option Bytes
  ue_radio_cap_id : Option Bytes
  ensct : Option UInt8
deriving DecidableEq, Repr

namespace MmContextEpsSecurityContextQuadruplets

/-- The octets behind the instance octet (mmctxepssecurityctxquadruplets.rs:100-244). -/
def body (x : MmContextEpsSecurityContextQuadruplets) : Bytes :=
  epsOct4 x.sec_mode x.next_hop.isSome x.drx_params.isSome x.ksi ::
    mmOct5q (authN x.auth_quintuplets) (authN x.auth_quadruplets) x.used_ue_ambr.isSome x.old_eps_sec_ctx.isSome ::
    epsOct6 x.subscr_ue_ambr.isSome x.nas_integrity x.nas_cipher ::
    (be24 x.nas_dl_count ++ (be24 x.nas_ul_count ++ (x.kasme ++ (optEnc (fun l => l.flatMap AuthQuadruplet.octets) x.auth_quadruplets ++
    (optEnc (fun l => l.flatMap AuthQuintuplet.octets) x.auth_quintuplets ++ (optEnc id x.drx_params ++
    (nextHopEnc x.next_hop x.ncc ++
    (optEnc AmbrMM.octets x.subscr_ue_ambr ++ (optEnc AmbrMM.octets x.used_ue_ambr ++
    (lvOpt x.ue_ntwk_cap ++ (lvOpt x.ms_ntwk_cap ++ (lvOpt x.mei ++ (x.access_res.toU8 ::
    (optEnc OldEpsSecurityContext.octets x.old_eps_sec_ctx ++ (lvOpt x.vdn_pref_ue_usage ++ (lvOpt x.ue_radio_cap_for_paging ++
    (extAccEnc x.ext_access_res ++ (lvOpt x.ue_add_security_cap ++ (lvOpt x.ue_nr_security_cap ++
    (apnRatesEnc x.apn_rate_controls ++ (lvOpt x.core_nw_res ++ (lvOpt x.ue_radio_cap_id ++ x.ensct.toList))))))))))))))))))))))

/-- `marshal` (mmctxepssecurityctxquadruplets.rs:95-247). -/
def marshal (x : MmContextEpsSecurityContextQuadruplets) : Bytes :=
  tliv 107 x.length x.ins (x.body)

/-- `unmarshal` (mmctxepssecurityctxquadruplets.rs:249-509). -/
def unmarshal (_m : Mode) (b : Bytes) : R Err MmContextEpsSecurityContextQuadruplets := do
  if 46 ≤ b.length then
    let length ← rd16 b 1
    let ins ← rd b 3
    let f4 ← rd b 4
    let f5 ← rd b 5
    let f6 ← rd b 6
    let nas_dl_count ← rd24 b 7
    let nas_ul_count ← rd24 b 10
    let kasme ← sl b 13 45
    let (auth_quadruplets, c) ← rdAuth AuthQuadruplet.unm AuthQuadruplet.size (.ieIncorrect 107) b ((f5 &&& 0x1c) >>> 2) 45
    let (auth_quintuplets, c) ← rdAuth AuthQuintuplet.unm AuthQuintuplet.size (.ieIncorrect 107) b (f5 >>> 5) c
    let (drx_params, c) ← rdDrx (hasBits f4 0x08) b c
    let ((next_hop, ncc), c) ← rdNextHop (hasBits f4 0x10) b c
    let (subscr_ue_ambr, c) ← rdIf (f6 >>> 7 == 1) (rdAmbr 107 b) c
    let (used_ue_ambr, c) ← rdIf (hasBits f5 0x02) (rdAmbr 107 b) c
    let (ue_ntwk_cap, c) ← rdLv 1 (.ieInvalidLength 107) b c
    let (ms_ntwk_cap, c) ← rdLv 1 (.ieInvalidLength 107) b c
    let (mei, c) ← rdLv 1 (.ieInvalidLength 107) b c
    let (access, c) ← rd8s b c
    let (old_eps_sec_ctx, c) ← rdIf (hasBits f5 0x01) (rdItem OldEpsSecurityContext.unm OldEpsSecurityContext.size (.ieIncorrect 107) b) c
    let (vdn_pref_ue_usage, c) ← rdLv 0 (.ieInvalidLength 107) b c
    let (ue_radio_cap_for_paging, c) ← rdLv 0 (.ieInvalidLength 107) b c
    let (ext_access_res, c) ← rdExtAcc (.ieInvalidLength 107) b c
    let (ue_add_security_cap, c) ← rdLv 0 (.ieInvalidLength 107) b c
    let (ue_nr_security_cap, c) ← rdLv 0 (.ieInvalidLength 107) b c
    let (apn_rate_controls, core_nw_res, ue_radio_cap_id, ensct) ← rdEpsTail b c
    return { t := 107, length, ins := ins &&& 0x0f, sec_mode := SecurityMode.ofU8 (f4 >>> 5),
             ksi := f4 &&& 0x07,
             nas_integrity := NasIntegrityProtectionValues.ofU8 (f6 >>> 4 &&& 0x07),
             nas_cipher := NasCipherValues.ofU8 (f6 &&& 0x0f), nas_dl_count, nas_ul_count,
             kasme, auth_quadruplets, auth_quintuplets, drx_params, next_hop, ncc,
             subscr_ue_ambr, used_ue_ambr, ue_ntwk_cap, ms_ntwk_cap, mei,
             access_res := AccessRestrictionMM.ofU8 access, old_eps_sec_ctx, vdn_pref_ue_usage,
             ue_radio_cap_for_paging, ext_access_res, ue_add_security_cap, ue_nr_security_cap,
             apn_rate_controls, core_nw_res, ue_radio_cap_id, ensct }
  else .err (.ieInvalidLength 107)

/-- `len` (mmctxepssecurityctxquadruplets.rs:511-513). -/
def len (_m : Mode) (x : MmContextEpsSecurityContextQuadruplets) : R Err Nat := ieLenU x.length

/-- Field values that the encoding of a `MmContextEpsSecurityContextQuadruplets` can represent. -/
def WF (x : MmContextEpsSecurityContextQuadruplets) : Prop :=
  x.t = 107 ∧
  x.length.toNat = x.body.length ∧
  x.ins < 16 ∧
  x.ksi < 8 ∧
  (∀ s ∈ x.drx_params, s.length = 2) ∧
  LvOk x.ue_ntwk_cap ∧
  LvOk x.ms_ntwk_cap ∧
  LvOk x.mei ∧
  x.nas_dl_count.toNat < 16777216 ∧
  x.nas_ul_count.toNat < 16777216 ∧
  x.kasme.length = 32 ∧
  AuthOk AuthQuadruplet.WF x.auth_quadruplets ∧
  AuthOk AuthQuintuplet.WF x.auth_quintuplets ∧
  (∀ s ∈ x.next_hop, s.length = 32) ∧
  (∀ n ∈ x.ncc, n < 8) ∧
  x.ncc.isSome = x.next_hop.isSome ∧
  (∀ s ∈ x.old_eps_sec_ctx, s.WF) ∧
  LvOk0 x.vdn_pref_ue_usage ∧
  LvOk0 x.ue_radio_cap_for_paging ∧
  x.ext_access_res.isSome ∧
  LvOk0 x.ue_add_security_cap ∧
  LvOk0 x.ue_nr_security_cap ∧
  x.apn_rate_controls = none ∧
  x.core_nw_res = none ∧
  x.ue_radio_cap_id = none ∧
  x.ensct = some 0

instance (x : MmContextEpsSecurityContextQuadruplets) : Decidable x.WF := by unfold WF; infer_instance

theorem rt : RoundTrips WF marshal unmarshal := by
  intro m x tail h
  obtain ⟨t, length, ins, sec_mode, ksi, nas_integrity, nas_cipher, nas_dl_count, nas_ul_count, kasme, auth_quadruplets, auth_quintuplets, drx_params, next_hop, ncc, subscr_ue_ambr, used_ue_ambr, ue_ntwk_cap, ms_ntwk_cap, mei, access_res, old_eps_sec_ctx, vdn_pref_ue_usage, ue_radio_cap_for_paging, ext_access_res, ue_add_security_cap, ue_nr_security_cap, apn_rate_controls, core_nw_res, ue_radio_cap_id, ensct⟩ := x
  obtain ⟨ht, hl, hi, hk, hdrx, hun, hms, hme, hdl, hul, hka, haq, hau, hnh, hnc, hnn, hol, hvd, hpa, hex, had, hnr, hap, hco, hri, hen⟩ := h
  simp only at ht hl hi hk hdrx hun hms hme hdl hul hka haq hau hnh hnc hnn hol hvd hpa hex had hnr hap hco hri hen
  simp only [marshal]
  obtain ⟨b, hb, e1, e2, p4, hbl0⟩ := tliv_at (ty := 107) (ins := ins) tail hl
  simp only [body, List.append_assoc, List.cons_append, List.nil_append] at p4
  have p5 : At b 5 _ := p4.next
  have p6 : At b 6 _ := p5.next
  have p7 : At b 7 _ := p6.next
  subst hap hco hri hen
  simp only [apnRatesEnc, List.cons_append, List.nil_append, List.append_assoc, Option.toList_some] at p4 p5 p6 p7
  rw [show lvOpt none = [0] from rfl] at p4 p5 p6 p7
  simp only [List.cons_append, List.nil_append] at p4 p5 p6 p7
  have r10 : At b 10 _ := p7.skip (by simp [be24])
  have r13 : At b 13 _ := r10.skip (by simp [be24])
  have q0 : At b 45 _ := r13.skip (by omega)
  have hbl := q0.length
  have w0 := lvOpt_length_pos ue_ntwk_cap
  have w1 := lvOpt_length_pos ms_ntwk_cap
  have w2 := lvOpt_length_pos mei
  have w3 := lvOpt_length_pos vdn_pref_ue_usage
  simp only [List.length_append, List.length_cons] at hbl
  have s13 := r13.sl (ε := Err) (n := 45) (by omega)
  obtain ⟨d1, d2, d3, d8⟩ := epsOct4_dec sec_mode next_hop.isSome drx_params.isSome hk
  obtain ⟨d4, d5, d6, d7⟩ := mmOct5q_dec (authN_le hau) (authN_le haq) used_ue_ambr.isSome old_eps_sec_ctx.isSome
  obtain ⟨d9, d10, d11⟩ := epsOct6_dec subscr_ue_ambr.isSome nas_integrity nas_cipher
  obtain ⟨c1, a1, q1⟩ := rdAuth_at (e := .ieIncorrect 107) AuthQuadruplet.ok q0 haq
  obtain ⟨c2, a2, q2⟩ := rdAuth_at (e := .ieIncorrect 107) AuthQuintuplet.ok q1 hau
  obtain ⟨c3, a3, q3⟩ := rdDrx_at q2 hdrx
  obtain ⟨c4, a4, q4⟩ := rdNextHop_at q3 hnh hnc hnn
  obtain ⟨c5, a5, q5⟩ := rdIf_at (st := rdAmbr 107 b) q4 (fun _ _ hat => rdAmbr_at hat)
  obtain ⟨c6, a6, q6⟩ := rdIf_at (st := rdAmbr 107 b) q5 (fun _ _ hat => rdAmbr_at hat)
  obtain ⟨c7, a7, q7⟩ := rdLv_at (skip := 1) (e := .ieInvalidLength 107) q6 hun
  obtain ⟨c8, a8, q8⟩ := rdLv_at (skip := 1) (e := .ieInvalidLength 107) q7 hms
  obtain ⟨c9, a9, q9⟩ := rdLv_at (skip := 1) (e := .ieInvalidLength 107) q8 hme
  obtain ⟨c10, a10, q10⟩ := rd8s_at q9
  obtain ⟨c11, a11, q11⟩ := rdIf_at (st := rdItem OldEpsSecurityContext.unm OldEpsSecurityContext.size (.ieIncorrect 107) b) q10 (fun x hx hat => rdItem_at OldEpsSecurityContext.ok hat (hol x hx))
  obtain ⟨c12, a12, q12⟩ := rdLv_at0 (e := .ieInvalidLength 107) q11 hvd
  obtain ⟨c13, a13, q13⟩ := rdLv_at0 (e := .ieInvalidLength 107) q12 hpa
  obtain ⟨c14, a14, q14⟩ := rdExtAcc_some (e := .ieInvalidLength 107) q13 hex
  obtain ⟨c15, a15, q15⟩ := rdLv_at0 (e := .ieInvalidLength 107) q14 had
  obtain ⟨c16, a16, q16⟩ := rdLv_at0 (e := .ieInvalidLength 107) q15 hnr
  have a17 := rdEpsTail_zero q16
  simp only [hb]
  cur_simp [unmarshal, e1, e2, p4.rd, p5.rd, p6.rd, p7.rd24 hdl, r10.rd24 hul, s13, d1, d2, d3, d4, d5, d6, d7, d8, d9, d10, d11, a1, a2, a3, a4, a5, a6, a7, a8, a9, a10, a11, a12, a13, a14, a15, a16, a17, AccessRestrictionMM.ofU8_toU8, ht, hi]

theorem len_ok : LenOk WF marshal len := by
  intro m x h
  obtain ⟨t, length, ins, sec_mode, ksi, nas_integrity, nas_cipher, nas_dl_count, nas_ul_count, kasme, auth_quadruplets, auth_quintuplets, drx_params, next_hop, ncc, subscr_ue_ambr, used_ue_ambr, ue_ntwk_cap, ms_ntwk_cap, mei, access_res, old_eps_sec_ctx, vdn_pref_ue_usage, ue_radio_cap_for_paging, ext_access_res, ue_add_security_cap, ue_nr_security_cap, apn_rate_controls, core_nw_res, ue_radio_cap_id, ensct⟩ := x
  obtain ⟨ht, hl, hi, hk, hdrx, hun, hms, hme, hdl, hul, hka, haq, hau, hnh, hnc, hnn, hol, hvd, hpa, hex, had, hnr, hap, hco, hri, hen⟩ := h
  simp only at ht hl hi hk hdrx hun hms hme hdl hul hka haq hau hnh hnc hnn hol hvd hpa hex had hnr hap hco hri hen
  simp [marshal, tliv_eq, len, ieLenU, hl]

theorem safe : LooseSafe (fun b => 10000 ≤ b.length ∧ ∀ c, c < 9900 → (rdEpsTail b c).Safe fun _ => True) unmarshal len := by
  intro m b hb hc
  unfold declLen at *
  try simp only at hc
  safe_simp [unmarshal, len]
  refine fun _ => ⟨by omega, by omega, by omega, by omega, by omega, by omega, by omega, by omega, by omega, by omega, by omega, by omega, by omega, ?_⟩
  refine Safe.mono (rdAuth_safe AuthQuadruplet.safe (by omega)) fun ⟨v1, c1⟩ s1 => ?_
  try safe_simp []
  try simp only at s1
  refine Safe.mono (rdAuth_safe AuthQuintuplet.safe (by omega)) fun ⟨v2, c2⟩ s2 => ?_
  try safe_simp []
  try simp only at s2
  refine Safe.mono (rdDrx_safe) fun ⟨v3, c3⟩ s3 => ?_
  try safe_simp []
  try simp only at s3
  refine Safe.mono (rdNextHop_safe) fun ⟨v4, c4⟩ s4 => ?_
  try safe_simp []
  try simp only at s4
  refine Safe.mono (rdIf_safe (P := fun c => c ≤ c4 + 8) (by omega) (rdAmbr_safe)) fun ⟨v5, c5⟩ s5 => ?_
  try safe_simp []
  try simp only at s5
  refine Safe.mono (rdIf_safe (P := fun c => c ≤ c5 + 8) (by omega) (rdAmbr_safe)) fun ⟨v6, c6⟩ s6 => ?_
  try safe_simp []
  try simp only at s6
  refine Safe.mono (rdLv_safe (by omega) (by omega)) fun ⟨v7, c7⟩ s7 => ?_
  try safe_simp []
  try simp only at s7
  refine Safe.mono (rdLv_safe (by omega) (by omega)) fun ⟨v8, c8⟩ s8 => ?_
  try safe_simp []
  try simp only at s8
  refine Safe.mono (rdLv_safe (by omega) (by omega)) fun ⟨v9, c9⟩ s9 => ?_
  try safe_simp []
  try simp only at s9
  refine Safe.mono (rd8s_safe (by omega)) fun ⟨v10, c10⟩ s10 => ?_
  try safe_simp []
  try simp only at s10
  refine Safe.mono (rdIf_safe (P := fun c => c ≤ c10 + 65) (by omega) (rdItem_safe OldEpsSecurityContext.safe (by omega))) fun ⟨v11, c11⟩ s11 => ?_
  try safe_simp []
  try simp only at s11
  refine Safe.mono (rdLv_safe (by omega) (by omega)) fun ⟨v12, c12⟩ s12 => ?_
  try safe_simp []
  try simp only at s12
  refine Safe.mono (rdLv_safe (by omega) (by omega)) fun ⟨v13, c13⟩ s13 => ?_
  try safe_simp []
  try simp only at s13
  refine Safe.mono (rdExtAcc_safe (by omega)) fun ⟨v14, c14⟩ s14 => ?_
  try safe_simp []
  try simp only at s14
  refine Safe.mono (rdLv_safe (by omega) (by omega)) fun ⟨v15, c15⟩ s15 => ?_
  try safe_simp []
  try simp only at s15
  refine Safe.mono (rdLv_safe (by omega) (by omega)) fun ⟨v16, c16⟩ s16 => ?_
  try safe_simp []
  try simp only at s16
  refine Safe.mono (hc.2 _ (by omega)) fun ⟨v17, c17⟩ s17 => ?_
  try safe_simp []
  try simp only at s17

end MmContextEpsSecurityContextQuadruplets

/-- `enum MmContext` (mmctx.rs:8-15). -/
inductive MmContext where
  | MmContextEpsSecurityContextQuadruplets (v : V2.MmContextEpsSecurityContextQuadruplets)
  | MmContextUmtsKeyQuintuplets (v : V2.MmContextUmtsKeyQuintuplets)
  | MmContextUmtsKeyQuadrupletsQuintuplets (v : V2.MmContextUmtsKeyQuadrupletsQuintuplets)
  | MmContextUmtsKeyCipherQuintuplets (v : V2.MmContextUmtsKeyCipherQuintuplets)
  | MmContextGsmKeyTriplets (v : V2.MmContextGsmKeyTriplets)
  | MmContextGsmKeyCipherQuintuplets (v : V2.MmContextGsmKeyCipherQuintuplets)
deriving DecidableEq, Repr

namespace MmContext

/-- `marshal` (mmctx.rs:77-87). -/
def marshal : MmContext → Bytes
  | .MmContextEpsSecurityContextQuadruplets v => v.marshal
  | .MmContextUmtsKeyQuintuplets v => v.marshal
  | .MmContextUmtsKeyQuadrupletsQuintuplets v => v.marshal
  | .MmContextUmtsKeyCipherQuintuplets v => v.marshal
  | .MmContextGsmKeyTriplets v => v.marshal
  | .MmContextGsmKeyCipherQuintuplets v => v.marshal

/-- `unmarshal` (mmctx.rs:89-121): dispatch on the first octet. -/
def unmarshal (m : Mode) (b : Bytes) : R Err MmContext := do
  let t ← rd b 0
  if t = 107 then do let v ← V2.MmContextEpsSecurityContextQuadruplets.unmarshal m b; return .MmContextEpsSecurityContextQuadruplets v
  else if t = 106 then do let v ← V2.MmContextUmtsKeyQuintuplets.unmarshal m b; return .MmContextUmtsKeyQuintuplets v
  else if t = 108 then do let v ← V2.MmContextUmtsKeyQuadrupletsQuintuplets.unmarshal m b; return .MmContextUmtsKeyQuadrupletsQuintuplets v
  else if t = 104 then do let v ← V2.MmContextUmtsKeyCipherQuintuplets.unmarshal m b; return .MmContextUmtsKeyCipherQuintuplets v
  else if t = 103 then do let v ← V2.MmContextGsmKeyTriplets.unmarshal m b; return .MmContextGsmKeyTriplets v
  else if t = 105 then do let v ← V2.MmContextGsmKeyCipherQuintuplets.unmarshal m b; return .MmContextGsmKeyCipherQuintuplets v
  else .err (.ieIncorrect t)

/-- `len` (mmctx.rs:123-132). -/
def len (m : Mode) : MmContext → R Err Nat
  | .MmContextEpsSecurityContextQuadruplets v => v.len m
  | .MmContextUmtsKeyQuintuplets v => v.len m
  | .MmContextUmtsKeyQuadrupletsQuintuplets v => v.len m
  | .MmContextUmtsKeyCipherQuintuplets v => v.len m
  | .MmContextGsmKeyTriplets v => v.len m
  | .MmContextGsmKeyCipherQuintuplets v => v.len m

/-- `get_ins` (mmctx.rs:145-154). -/
def ins : MmContext → UInt8
  | .MmContextEpsSecurityContextQuadruplets v => v.ins
  | .MmContextUmtsKeyQuintuplets v => v.ins
  | .MmContextUmtsKeyQuadrupletsQuintuplets v => v.ins
  | .MmContextUmtsKeyCipherQuintuplets v => v.ins
  | .MmContextGsmKeyTriplets v => v.ins
  | .MmContextGsmKeyCipherQuintuplets v => v.ins

/-- `get_type` (mmctx.rs:156-165). -/
def t : MmContext → UInt8
  | .MmContextEpsSecurityContextQuadruplets _ => 107
  | .MmContextUmtsKeyQuintuplets _ => 106
  | .MmContextUmtsKeyQuadrupletsQuintuplets _ => 108
  | .MmContextUmtsKeyCipherQuintuplets _ => 104
  | .MmContextGsmKeyTriplets _ => 103
  | .MmContextGsmKeyCipherQuintuplets _ => 105

/-- The field `length`. -/
def length : MmContext → UInt16
  | .MmContextEpsSecurityContextQuadruplets v => v.length
  | .MmContextUmtsKeyQuintuplets v => v.length
  | .MmContextUmtsKeyQuadrupletsQuintuplets v => v.length
  | .MmContextUmtsKeyCipherQuintuplets v => v.length
  | .MmContextGsmKeyTriplets v => v.length
  | .MmContextGsmKeyCipherQuintuplets v => v.length

/-- Field values that the encoding can represent. -/
def WF : MmContext → Prop
  | .MmContextEpsSecurityContextQuadruplets v => v.WF
  | .MmContextUmtsKeyQuintuplets v => v.WF
  | .MmContextUmtsKeyQuadrupletsQuintuplets v => v.WF
  | .MmContextUmtsKeyCipherQuintuplets v => v.WF
  | .MmContextGsmKeyTriplets v => v.WF
  | .MmContextGsmKeyCipherQuintuplets v => v.WF

instance (x : MmContext) : Decidable x.WF := by cases x <;> unfold WF <;> infer_instance

theorem rt : RoundTrips WF marshal unmarshal := by
  intro m x tail h
  cases x with
  | MmContextEpsSecurityContextQuadruplets v =>
    have e := V2.MmContextEpsSecurityContextQuadruplets.rt m v tail h
    have e0 : (rd (v.marshal ++ tail) 0 : R Err UInt8) = .ok 107 := by simp [V2.MmContextEpsSecurityContextQuadruplets.marshal, tliv_eq, rd]
    simp [marshal, unmarshal, e0, e]
  | MmContextUmtsKeyQuintuplets v =>
    have e := V2.MmContextUmtsKeyQuintuplets.rt m v tail h
    have e0 : (rd (v.marshal ++ tail) 0 : R Err UInt8) = .ok 106 := by simp [V2.MmContextUmtsKeyQuintuplets.marshal, tliv_eq, rd]
    simp [marshal, unmarshal, e0, e]
  | MmContextUmtsKeyQuadrupletsQuintuplets v =>
    have e := V2.MmContextUmtsKeyQuadrupletsQuintuplets.rt m v tail h
    have e0 : (rd (v.marshal ++ tail) 0 : R Err UInt8) = .ok 108 := by simp [V2.MmContextUmtsKeyQuadrupletsQuintuplets.marshal, tliv_eq, rd]
    simp [marshal, unmarshal, e0, e]
  | MmContextUmtsKeyCipherQuintuplets v =>
    have e := V2.MmContextUmtsKeyCipherQuintuplets.rt m v tail h
    have e0 : (rd (v.marshal ++ tail) 0 : R Err UInt8) = .ok 104 := by simp [V2.MmContextUmtsKeyCipherQuintuplets.marshal, tliv_eq, rd]
    simp [marshal, unmarshal, e0, e]
  | MmContextGsmKeyTriplets v =>
    have e := V2.MmContextGsmKeyTriplets.rt m v tail h
    have e0 : (rd (v.marshal ++ tail) 0 : R Err UInt8) = .ok 103 := by simp [V2.MmContextGsmKeyTriplets.marshal, tliv_eq, rd]
    simp [marshal, unmarshal, e0, e]
  | MmContextGsmKeyCipherQuintuplets v =>
    have e := V2.MmContextGsmKeyCipherQuintuplets.rt m v tail h
    have e0 : (rd (v.marshal ++ tail) 0 : R Err UInt8) = .ok 105 := by simp [V2.MmContextGsmKeyCipherQuintuplets.marshal, tliv_eq, rd]
    simp [marshal, unmarshal, e0, e]

theorem len_ok : LenOk WF marshal len := by
  intro m x h
  cases x with
  | MmContextEpsSecurityContextQuadruplets v => exact V2.MmContextEpsSecurityContextQuadruplets.len_ok m v h
  | MmContextUmtsKeyQuintuplets v => exact V2.MmContextUmtsKeyQuintuplets.len_ok m v h
  | MmContextUmtsKeyQuadrupletsQuintuplets v => exact V2.MmContextUmtsKeyQuadrupletsQuintuplets.len_ok m v h
  | MmContextUmtsKeyCipherQuintuplets v => exact V2.MmContextUmtsKeyCipherQuintuplets.len_ok m v h
  | MmContextGsmKeyTriplets v => exact V2.MmContextGsmKeyTriplets.len_ok m v h
  | MmContextGsmKeyCipherQuintuplets v => exact V2.MmContextGsmKeyCipherQuintuplets.len_ok m v h

/-- A sufficient condition for not panicking. -/
def cond (b : Bytes) : Prop :=
  b ≠ [] ∧ (b.getD 0 0 = 103 → 1200 ≤ b.length) ∧ (b.getD 0 0 = 105 → 4500 ≤ b.length) ∧
  (b.getD 0 0 = 104 ∨ b.getD 0 0 = 106 → 5000 ≤ b.length) ∧
  (b.getD 0 0 = 108 → 8000 ≤ b.length ∧ ∀ c, c < 8000 → (rdApnRates (.ieInvalidLength 108) b c).Safe fun _ => True) ∧
  (b.getD 0 0 = 107 → 10000 ≤ b.length ∧ ∀ c, c < 9900 → (rdEpsTail b c).Safe fun _ => True)

theorem safe : LooseSafe (fun b => cond b) unmarshal len := by
  intro m b hl ⟨hb, h3, h5, h46, h8, h7⟩
  unfold unmarshal
  rw [Safe_bind, Safe_rd]
  refine ⟨List.length_pos_iff.mpr hb, ?_⟩
  rw [Safe_ite]
  refine ⟨fun e => by rw [Safe_bind]; exact MmContextEpsSecurityContextQuadruplets.safe m b hl (h7 e), fun _ => ?_⟩
  rw [Safe_ite]
  refine ⟨fun e => by rw [Safe_bind]; exact MmContextUmtsKeyQuintuplets.safe m b hl (h46 (.inr e)), fun _ => ?_⟩
  rw [Safe_ite]
  refine ⟨fun e => by rw [Safe_bind]; exact MmContextUmtsKeyQuadrupletsQuintuplets.safe m b hl (h8 e), fun _ => ?_⟩
  rw [Safe_ite]
  refine ⟨fun e => by rw [Safe_bind]; exact MmContextUmtsKeyCipherQuintuplets.safe m b hl (h46 (.inl e)), fun _ => ?_⟩
  rw [Safe_ite]
  refine ⟨fun e => by rw [Safe_bind]; exact MmContextGsmKeyTriplets.safe m b hl (h3 e), fun _ => ?_⟩
  rw [Safe_ite]
  exact ⟨fun e => by rw [Safe_bind]; exact MmContextGsmKeyCipherQuintuplets.safe m b hl (h5 e), fun _ => trivial⟩

end MmContext

end Gtp.V2
