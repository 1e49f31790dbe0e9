import Verif.V2.PostLen

/-!
# Decoding one IE finishes

No decoder of a plain IE diverges: its loops are over a list or make progress in every turn.
-/

namespace Gtp

/-- The computation finishes. -/
def R.Fin {ε α : Type} (x : R ε α) : Prop := x ≠ .diverge

section
variable {ε α β : Type}

theorem R.Fin.ok {a : α} : (R.ok a : R ε α).Fin := by intro h; cases h
theorem R.Fin.pure {a : α} : (pure a : R ε α).Fin := by intro h; cases h
theorem R.Fin.err {e : ε} : (R.err e : R ε α).Fin := by intro h; cases h
theorem R.Fin.panic : (R.panic : R ε α).Fin := by intro h; cases h

theorem R.Fin.bind {x : R ε α} {f : α → R ε β} (hx : x.Fin) (hf : ∀ a, (f a).Fin) : (x >>= f).Fin := by
  cases x with
  | ok a => exact hf a
  | diverge => exact absurd rfl hx
  | err => exact R.Fin.err
  | panic => exact R.Fin.panic

theorem R.Fin.bind' {x : R ε α} {f : α → R ε β} (hx : x.Fin) (hf : ∀ a, x = .ok a → (f a).Fin) : (x >>= f).Fin := by
  cases x with
  | ok a => exact hf a rfl
  | diverge => exact absurd rfl hx
  | err => exact R.Fin.err
  | panic => exact R.Fin.panic

theorem R.Fin.ite {c : Prop} [Decidable c] {x y : R ε α} (hx : c → x.Fin) (hy : ¬ c → y.Fin) : (if c then x else y).Fin := by
  split
  · exact hx ‹_›
  · exact hy ‹_›

theorem R.Fin.mapErr {x : R ε α} {e : ε} (hx : x.Fin) : (x.mapErr e).Fin := by
  cases x with
  | ok a => exact R.Fin.ok
  | diverge => exact absurd rfl hx
  | err => exact R.Fin.err
  | panic => exact R.Fin.panic

end

/-- One step of a proof that a decoder finishes. -/
syntax "fin_step" : tactic
macro_rules | `(tactic| fin_step) => `(tactic| split)
macro_rules | `(tactic| fin_step) => `(tactic| assumption)
macro_rules | `(tactic| fin_step) => `(tactic| with_reducible refine R.Fin.ite (fun _ => ?_) (fun _ => ?_))
macro_rules | `(tactic| fin_step) => `(tactic| with_reducible refine R.Fin.bind ?_ (fun _ => ?_))
macro_rules | `(tactic| fin_step) => `(tactic| with_reducible refine R.Fin.mapErr ?_)
macro_rules | `(tactic| fin_step) => `(tactic| with_reducible exact R.Fin.ok)
macro_rules | `(tactic| fin_step) => `(tactic| with_reducible exact R.Fin.pure)
macro_rules | `(tactic| fin_step) => `(tactic| with_reducible exact R.Fin.err)
macro_rules | `(tactic| fin_step) => `(tactic| with_reducible exact R.Fin.panic)

macro "fin" : tactic => `(tactic| repeat' fin_step)

section
variable {ε : Type}

theorem Fin_rd {b : Bytes} {i : Nat} : (rd b i : R ε UInt8).Fin := by unfold rd; fin
macro_rules | `(tactic| fin_step) => `(tactic| with_reducible exact Fin_rd)
theorem Fin_sl {b : Bytes} {i j : Nat} : (sl b i j : R ε Bytes).Fin := by unfold sl; fin
macro_rules | `(tactic| fin_step) => `(tactic| with_reducible exact Fin_sl)
theorem Fin_slFrom {b : Bytes} {i : Nat} : (slFrom b i : R ε Bytes).Fin := by unfold slFrom; fin
macro_rules | `(tactic| fin_step) => `(tactic| with_reducible exact Fin_slFrom)
theorem Fin_rd16 {b : Bytes} {i : Nat} : (rd16 b i : R ε UInt16).Fin := by unfold rd16; fin
macro_rules | `(tactic| fin_step) => `(tactic| with_reducible exact Fin_rd16)
theorem Fin_rd24 {b : Bytes} {i : Nat} : (rd24 b i : R ε UInt32).Fin := by unfold rd24; fin
macro_rules | `(tactic| fin_step) => `(tactic| with_reducible exact Fin_rd24)
theorem Fin_rd32 {b : Bytes} {i : Nat} : (rd32 b i : R ε UInt32).Fin := by unfold rd32; fin
macro_rules | `(tactic| fin_step) => `(tactic| with_reducible exact Fin_rd32)
theorem Fin_rd40 {b : Bytes} {i : Nat} : (rd40 b i : R ε UInt64).Fin := by unfold rd40; fin
macro_rules | `(tactic| fin_step) => `(tactic| with_reducible exact Fin_rd40)
theorem Fin_rd48 {b : Bytes} {i : Nat} : (rd48 b i : R ε UInt64).Fin := by unfold rd48; fin
macro_rules | `(tactic| fin_step) => `(tactic| with_reducible exact Fin_rd48)
theorem Fin_rd64 {b : Bytes} {i : Nat} : (rd64 b i : R ε UInt64).Fin := by unfold rd64; fin
macro_rules | `(tactic| fin_step) => `(tactic| with_reducible exact Fin_rd64)
theorem Fin_add16 {m : Mode} {a b : UInt16} : (add16 m a b : R ε UInt16).Fin := by unfold add16; fin
macro_rules | `(tactic| fin_step) => `(tactic| with_reducible exact Fin_add16)
theorem Fin_add8 {m : Mode} {a b : UInt8} : (add8 m a b : R ε UInt8).Fin := by unfold add8; fin
macro_rules | `(tactic| fin_step) => `(tactic| with_reducible exact Fin_add8)
theorem Fin_mul8 {m : Mode} {a b : UInt8} : (mul8 m a b : R ε UInt8).Fin := by unfold mul8; fin
macro_rules | `(tactic| fin_step) => `(tactic| with_reducible exact Fin_mul8)
theorem Fin_checkTliv {m : Mode} {l : UInt16} {b : Bytes} : (checkTliv m l b : R ε Bool).Fin := by unfold checkTliv; fin
macro_rules | `(tactic| fin_step) => `(tactic| with_reducible exact Fin_checkTliv)
theorem Fin_mccMncDecode {b : Bytes} : (mccMncDecode b : R ε (UInt16 × UInt16 × Bool)).Fin := by unfold mccMncDecode; fin
macro_rules | `(tactic| fin_step) => `(tactic| with_reducible exact Fin_mccMncDecode)

end
end Gtp

namespace Gtp.V2

section
variable {ε α : Type}

theorem Fin_rdIp6 {b : Bytes} {i : Nat} : (rdIp6 b i : R ε Ip6).Fin := by unfold rdIp6; fin
macro_rules | `(tactic| fin_step) => `(tactic| with_reducible exact Fin_rdIp6)
theorem Fin_ofOption {o : Option α} {e : ε} : (R.ofOption o e).Fin := by unfold R.ofOption; fin
macro_rules | `(tactic| fin_step) => `(tactic| with_reducible exact Fin_ofOption)
theorem Fin_ieLen16 {m : Mode} {l : UInt16} : (ieLen16 m l).Fin := by unfold ieLen16; fin
macro_rules | `(tactic| fin_step) => `(tactic| with_reducible exact Fin_ieLen16)
theorem Fin_ieLenU {l : UInt16} : (ieLenU l).Fin := by unfold ieLenU; fin
macro_rules | `(tactic| fin_step) => `(tactic| with_reducible exact Fin_ieLenU)
theorem Fin_slBody16 {m : Mode} {b : Bytes} {l : UInt16} : (slBody16 m b l).Fin := by unfold slBody16; fin
macro_rules | `(tactic| fin_step) => `(tactic| with_reducible exact Fin_slBody16)
theorem Fin_rdLv {k : Nat} {e : Err} {b : Bytes} {c : Nat} : (rdLv k e b c).Fin := by unfold rdLv; fin
macro_rules | `(tactic| fin_step) => `(tactic| with_reducible exact Fin_rdLv)
theorem Fin_rdIf {flag : Bool} {st : Nat → R Err (α × Nat)} {c : Nat} (h : ∀ c, (st c).Fin) : (rdIf flag st c).Fin := by
  have h := h c
  unfold rdIf; fin
macro_rules | `(tactic| fin_step) => `(tactic| with_reducible refine Fin_rdIf (fun _ => ?_))
theorem Fin_rd8s {b : Bytes} {c : Nat} : (rd8s b c).Fin := by unfold rd8s; fin
macro_rules | `(tactic| fin_step) => `(tactic| with_reducible exact Fin_rd8s)
theorem Fin_rdN {k : Nat} {b : Bytes} {c : Nat} : (rdN k b c).Fin := by unfold rdN; fin
macro_rules | `(tactic| fin_step) => `(tactic| with_reducible exact Fin_rdN)
theorem Fin_rdLvU {b : Bytes} {c : Nat} : (rdLvU b c).Fin := by unfold rdLvU; fin
macro_rules | `(tactic| fin_step) => `(tactic| with_reducible exact Fin_rdLvU)
theorem Fin_rdLvC {e : Err} {b : Bytes} {c : Nat} : (rdLvC e b c).Fin := by unfold rdLvC; fin
macro_rules | `(tactic| fin_step) => `(tactic| with_reducible exact Fin_rdLvC)

theorem Fin_decLabels {ε : Type} : ∀ {f : Nat} {b : Bytes}, b.length ≤ f → (decLabels f b : R ε Str).Fin
  | _, [], _ => by unfold decLabels; fin
  | 0, _ :: _, h => by simp at h
  | f + 1, n :: r, h => by
    have ih : (decLabels f (r.drop n.toNat) : R ε Str).Fin := Fin_decLabels (by simp at h ⊢; omega)
    unfold decLabels; fin

theorem Fin_decName {ε : Type} {b : Bytes} : (decName b : R ε Str).Fin := by
  have h := Fin_decLabels (ε := ε) (Nat.le_refl b.length)
  unfold decName; fin
macro_rules | `(tactic| fin_step) => `(tactic| with_reducible exact Fin_decName)

end

theorem Fin_rdStr {b : Bytes} {c : Nat} {e : Err} : (rdStr b c e).Fin := by
  unfold rdStr; fin
macro_rules | `(tactic| fin_step) => `(tactic| with_reducible exact Fin_rdStr)

theorem Fin_Container_read {b : Bytes} {v : UInt8} {n : Nat} : (Container.read b v n).Fin := by
  unfold Container.read; fin
macro_rules | `(tactic| fin_step) => `(tactic| with_reducible exact Fin_Container_read)

theorem Fin_rdIp50 {b : Bytes} {c : Nat} : (rdIp50 b c).Fin := by
  unfold rdIp50; fin
macro_rules | `(tactic| fin_step) => `(tactic| with_reducible exact Fin_rdIp50)

theorem Fin_rdMdtPlmns : ∀ {b : Bytes}, (rdMdtPlmns b).Fin
  | [] => by unfold rdMdtPlmns; fin
  | [_] => by unfold rdMdtPlmns; fin
  | [_, _] => by unfold rdMdtPlmns; fin
  | p0 :: p1 :: p2 :: r => by
    have ih : (rdMdtPlmns r).Fin := Fin_rdMdtPlmns
    unfold rdMdtPlmns; fin
macro_rules | `(tactic| fin_step) => `(tactic| with_reducible exact Fin_rdMdtPlmns)

theorem Fin_rdOpt8 {f : Bool} {b : Bytes} {c : Nat} : (rdOpt8 f b c).Fin := by
  unfold rdOpt8; fin
macro_rules | `(tactic| fin_step) => `(tactic| with_reducible exact Fin_rdOpt8)

theorem Fin_rdScope {b : Bytes} {c : Nat} : (MdtConfiguration.rdScope b c).Fin := by
  unfold MdtConfiguration.rdScope; fin
macro_rules | `(tactic| fin_step) => `(tactic| with_reducible exact Fin_rdScope)

theorem Fin_rdPlmnList {f : Bool} {b : Bytes} {c : Nat} : (MdtConfiguration.rdPlmnList f b c).Fin := by
  unfold MdtConfiguration.rdPlmnList; fin
macro_rules | `(tactic| fin_step) => `(tactic| with_reducible exact Fin_rdPlmnList)

theorem Fin_rdLe {α : Type} {e : Err} {b : Bytes} {st : Nat → R Err α} {c : Nat} (h : (st c).Fin) : (rdLe e b st c).Fin := by
  unfold rdLe; fin
macro_rules | `(tactic| fin_step) => `(tactic| with_reducible refine Fin_rdLe ?_)

theorem Fin_rdPlmnS {b : Bytes} {c : Nat} : (rdPlmnS b c).Fin := by
  unfold rdPlmnS; fin
macro_rules | `(tactic| fin_step) => `(tactic| with_reducible exact Fin_rdPlmnS)

theorem Fin_rdName {b : Bytes} {c : Nat} : (TwanId.rdName b c).Fin := by
  unfold TwanId.rdName; fin
macro_rules | `(tactic| fin_step) => `(tactic| with_reducible exact Fin_rdName)

theorem Fin_rdRelay {f : Bool} {b : Bytes} {c : Nat} : (TwanId.rdRelay f b c).Fin := by
  unfold TwanId.rdRelay; fin
macro_rules | `(tactic| fin_step) => `(tactic| with_reducible exact Fin_rdRelay)

theorem Fin_Cgi {b : Bytes} : (Cgi.unmarshal b).Fin := by
  unfold Cgi.unmarshal; fin
macro_rules | `(tactic| fin_step) => `(tactic| with_reducible exact Fin_Cgi)

theorem Fin_Sai {b : Bytes} : (Sai.unmarshal b).Fin := by
  unfold Sai.unmarshal; fin
macro_rules | `(tactic| fin_step) => `(tactic| with_reducible exact Fin_Sai)

theorem Fin_Rai {b : Bytes} : (Rai.unmarshal b).Fin := by
  unfold Rai.unmarshal; fin
macro_rules | `(tactic| fin_step) => `(tactic| with_reducible exact Fin_Rai)

theorem Fin_Tai {b : Bytes} : (Tai.unmarshal b).Fin := by
  unfold Tai.unmarshal; fin
macro_rules | `(tactic| fin_step) => `(tactic| with_reducible exact Fin_Tai)

theorem Fin_Ecgi {b : Bytes} : (Ecgi.unmarshal b).Fin := by
  unfold Ecgi.unmarshal; fin
macro_rules | `(tactic| fin_step) => `(tactic| with_reducible exact Fin_Ecgi)

theorem Fin_Lai {b : Bytes} : (Lai.unmarshal b).Fin := by
  unfold Lai.unmarshal; fin
macro_rules | `(tactic| fin_step) => `(tactic| with_reducible exact Fin_Lai)

theorem Fin_MacroEnbId {b : Bytes} : (MacroEnbId.unmarshal b).Fin := by
  unfold MacroEnbId.unmarshal; fin
macro_rules | `(tactic| fin_step) => `(tactic| with_reducible exact Fin_MacroEnbId)

theorem Fin_ExtMacroEnbId {b : Bytes} : (ExtMacroEnbId.unmarshal b).Fin := by
  unfold ExtMacroEnbId.unmarshal; fin
macro_rules | `(tactic| fin_step) => `(tactic| with_reducible exact Fin_ExtMacroEnbId)

theorem Fin_Location_read {k : Nat} {s : Bytes} : (Location.read k s).Fin := by
  unfold Location.read; fin
macro_rules | `(tactic| fin_step) => `(tactic| with_reducible exact Fin_Location_read)

theorem Fin_readAll {b : Bytes} : ∀ {l : List Nat} {c : Nat}, (Location.readAll b l c).Fin
  | [], _ => by unfold Location.readAll; fin
  | k :: ks, c => by
    unfold Location.readAll
    refine R.Fin.bind Fin_slFrom fun s => R.Fin.bind Fin_Location_read fun p => R.Fin.bind Fin_readAll fun _ => R.Fin.pure
macro_rules | `(tactic| fin_step) => `(tactic| with_reducible exact Fin_readAll)

theorem Fin_rdElems {α : Type} {chk : Bool} {unm : Bytes → R Err α} {k : Nat} {e : Err} {b : Bytes} (h : ∀ s, (unm s).Fin) :
    ∀ {n c : Nat}, (rdElems chk unm k e b n c).Fin
  | 0, _ => by unfold rdElems; fin
  | n + 1, c => by
    unfold rdElems
    refine R.Fin.ite (fun _ => R.Fin.err) fun _ => R.Fin.bind Fin_slFrom fun s => R.Fin.bind (R.Fin.mapErr (h s)) fun x =>
      R.Fin.bind (Fin_rdElems h) fun _ => R.Fin.pure
macro_rules | `(tactic| fin_step) => `(tactic| with_reducible refine Fin_rdElems (fun _ => ?_))

theorem Fin_rdItem {α : Type} {unm : Bytes → R Err α} {len : α → Nat} {e : Err} {b : Bytes} {c : Nat} (h : ∀ s, (unm s).Fin) :
    (rdItem unm len e b c).Fin := by
  unfold rdItem
  exact R.Fin.bind Fin_slFrom fun s => R.Fin.bind (R.Fin.mapErr (h s)) fun _ => R.Fin.pure
macro_rules | `(tactic| fin_step) => `(tactic| with_reducible refine Fin_rdItem (fun _ => ?_))

theorem Fin_rdItems {α : Type} {unm : Bytes → R Err α} {len : α → Nat} {e : Err} {b : Bytes} (h : ∀ s, (unm s).Fin) :
    ∀ {n c : Nat}, (rdItems unm len e b n c).Fin
  | 0, _ => by unfold rdItems; fin
  | n + 1, c => by
    unfold rdItems
    exact R.Fin.bind (Fin_rdItem h) fun _ => R.Fin.bind (Fin_rdItems h) fun _ => R.Fin.pure
macro_rules | `(tactic| fin_step) => `(tactic| with_reducible refine Fin_rdItems (fun _ => ?_))

theorem Fin_rdAuth {α : Type} {unm : Bytes → R Err α} {len : α → Nat} {e : Err} {b : Bytes} {n : UInt8} {c : Nat}
    (h : ∀ s, (unm s).Fin) : (rdAuth unm len e b n c).Fin := by
  unfold rdAuth
  exact R.Fin.ite (fun _ => R.Fin.pure) fun _ => R.Fin.ite (fun _ => R.Fin.bind (Fin_rdItems h) fun _ => R.Fin.pure) fun _ => R.Fin.err
macro_rules | `(tactic| fin_step) => `(tactic| with_reducible refine Fin_rdAuth (fun _ => ?_))

theorem Fin_AuthTriplet {b : Bytes} : (AuthTriplet.unm b).Fin := by
  unfold AuthTriplet.unm; fin
macro_rules | `(tactic| fin_step) => `(tactic| with_reducible exact Fin_AuthTriplet)

theorem Fin_AuthQuintuplet {b : Bytes} : (AuthQuintuplet.unm b).Fin := by
  unfold AuthQuintuplet.unm; fin
macro_rules | `(tactic| fin_step) => `(tactic| with_reducible exact Fin_AuthQuintuplet)

theorem Fin_AuthQuadruplet {b : Bytes} : (AuthQuadruplet.unm b).Fin := by
  unfold AuthQuadruplet.unm; fin
macro_rules | `(tactic| fin_step) => `(tactic| with_reducible exact Fin_AuthQuadruplet)

theorem Fin_AmbrMM {b : Bytes} : (AmbrMM.unm b).Fin := by
  unfold AmbrMM.unm; fin
macro_rules | `(tactic| fin_step) => `(tactic| with_reducible exact Fin_AmbrMM)

theorem Fin_OldEpsSecurityContext {b : Bytes} : (OldEpsSecurityContext.unm b).Fin := by
  unfold OldEpsSecurityContext.unm; fin
macro_rules | `(tactic| fin_step) => `(tactic| with_reducible exact Fin_OldEpsSecurityContext)

theorem Fin_ApnRateControlStatusMM {b : Bytes} : (ApnRateControlStatusMM.unm b).Fin := by
  unfold ApnRateControlStatusMM.unm; fin
macro_rules | `(tactic| fin_step) => `(tactic| with_reducible exact Fin_ApnRateControlStatusMM)

theorem Fin_rdAmbr {t : UInt8} {b : Bytes} {c : Nat} : (rdAmbr t b c).Fin := by
  unfold rdAmbr; fin
macro_rules | `(tactic| fin_step) => `(tactic| with_reducible exact Fin_rdAmbr)

theorem Fin_rdRates {b : Bytes} : ∀ {n c : Nat}, 0 < n → b.length + 1 < n + c → (rdRates b n c).Fin
  | n + 1, c, _, h => by
    unfold rdRates
    by_cases hc : c ≤ b.length
    · refine R.Fin.bind Fin_slFrom fun s => ?_
      split
      · exact R.Fin.bind (Fin_rdRates (by omega) (by unfold ApnRateControlStatusMM.size; omega)) fun _ => R.Fin.pure
      · exact R.Fin.pure
      · exact R.Fin.panic
      · exact absurd ‹_› Fin_ApnRateControlStatusMM
    · unfold slFrom
      rw [if_neg hc]
      exact R.Fin.panic

theorem Fin_rdApnRates {e : Err} {b : Bytes} {c : Nat} : (rdApnRates e b c).Fin := by
  have h := Fin_rdRates (b := b) (n := b.length + 1) (c := c + 1) (by omega) (by omega)
  unfold rdApnRates; fin
macro_rules | `(tactic| fin_step) => `(tactic| with_reducible exact Fin_rdApnRates)

theorem Fin_rdDrx {f : Bool} {b : Bytes} {c : Nat} : (rdDrx f b c).Fin := by
  unfold rdDrx; fin
macro_rules | `(tactic| fin_step) => `(tactic| with_reducible exact Fin_rdDrx)

theorem Fin_rdHigher {b : Bytes} {c : Nat} : (rdHigher b c).Fin := by
  unfold rdHigher; fin
macro_rules | `(tactic| fin_step) => `(tactic| with_reducible exact Fin_rdHigher)

theorem Fin_rdIov {f : Bool} {e : Err} {b : Bytes} {c : Nat} : (rdIov f e b c).Fin := by
  unfold rdIov; fin
macro_rules | `(tactic| fin_step) => `(tactic| with_reducible exact Fin_rdIov)

theorem Fin_rdExtAcc {e : Err} {b : Bytes} {c : Nat} : (rdExtAcc e b c).Fin := by
  unfold rdExtAcc; fin
macro_rules | `(tactic| fin_step) => `(tactic| with_reducible exact Fin_rdExtAcc)

theorem Fin_rdTriplets {b : Bytes} {n : UInt8} {c : Nat} : (rdTriplets b n c).Fin := by
  unfold rdTriplets; fin
macro_rules | `(tactic| fin_step) => `(tactic| with_reducible exact Fin_rdTriplets)

theorem Fin_rdNextHop {f : Bool} {b : Bytes} {c : Nat} : (rdNextHop f b c).Fin := by
  unfold rdNextHop; fin
macro_rules | `(tactic| fin_step) => `(tactic| with_reducible exact Fin_rdNextHop)

theorem Fin_rdEnsct {b : Bytes} {c : Nat} : (rdEnsct b c).Fin := by
  unfold rdEnsct; fin
macro_rules | `(tactic| fin_step) => `(tactic| with_reducible exact Fin_rdEnsct)

theorem Fin_rdEpsTail {b : Bytes} {c : Nat} : (rdEpsTail b c).Fin := by
  unfold rdEpsTail; fin
macro_rules | `(tactic| fin_step) => `(tactic| with_reducible exact Fin_rdEpsTail)

theorem Fin_SourceRncIdentifier {b : Bytes} : (SourceRncIdentifier.unmarshal b).Fin := by
  unfold SourceRncIdentifier.unmarshal; fin
macro_rules | `(tactic| fin_step) => `(tactic| with_reducible exact Fin_SourceRncIdentifier)

theorem Fin_RncIdentifier {b : Bytes} : (RncIdentifier.unmarshal b).Fin := by
  unfold RncIdentifier.unmarshal; fin
macro_rules | `(tactic| fin_step) => `(tactic| with_reducible exact Fin_RncIdentifier)

theorem Fin_MacroEnbIdentifier {b : Bytes} : (MacroEnbIdentifier.unmarshal b).Fin := by
  unfold MacroEnbIdentifier.unmarshal; fin
macro_rules | `(tactic| fin_step) => `(tactic| with_reducible exact Fin_MacroEnbIdentifier)

theorem Fin_ExtendedMacroEnbIdentifier {b : Bytes} : (ExtendedMacroEnbIdentifier.unmarshal b).Fin := by
  unfold ExtendedMacroEnbIdentifier.unmarshal; fin
macro_rules | `(tactic| fin_step) => `(tactic| with_reducible exact Fin_ExtendedMacroEnbIdentifier)

theorem Fin_GNbIdentifier {b : Bytes} : (GNbIdentifier.unmarshal b).Fin := by
  unfold GNbIdentifier.unmarshal; fin
macro_rules | `(tactic| fin_step) => `(tactic| with_reducible exact Fin_GNbIdentifier)

theorem Fin_MacronGeNbIdentifier {b : Bytes} : (MacronGeNbIdentifier.unmarshal b).Fin := by
  unfold MacronGeNbIdentifier.unmarshal; fin
macro_rules | `(tactic| fin_step) => `(tactic| with_reducible exact Fin_MacronGeNbIdentifier)

theorem Fin_ExtendedGeNbIdentifier {b : Bytes} : (ExtendedGeNbIdentifier.unmarshal b).Fin := by
  unfold ExtendedGeNbIdentifier.unmarshal; fin
macro_rules | `(tactic| fin_step) => `(tactic| with_reducible exact Fin_ExtendedGeNbIdentifier)

theorem Fin_EnGNbIdentifier {b : Bytes} : (EnGNbIdentifier.unmarshal b).Fin := by
  unfold EnGNbIdentifier.unmarshal; fin
macro_rules | `(tactic| fin_step) => `(tactic| with_reducible exact Fin_EnGNbIdentifier)

theorem Fin_CellIdentifier {b : Bytes} : (CellIdentifier.unmarshal b).Fin := by
  unfold CellIdentifier.unmarshal; fin
macro_rules | `(tactic| fin_step) => `(tactic| with_reducible exact Fin_CellIdentifier)

theorem Fin_SourceType {b : Bytes} : (SourceType.unmarshal b).Fin := by
  unfold SourceType.unmarshal; fin
macro_rules | `(tactic| fin_step) => `(tactic| with_reducible exact Fin_SourceType)

theorem Fin_TargetType {b : Bytes} : (TargetType.unmarshal b).Fin := by
  unfold TargetType.unmarshal; fin
macro_rules | `(tactic| fin_step) => `(tactic| with_reducible exact Fin_TargetType)

end Gtp.V2
