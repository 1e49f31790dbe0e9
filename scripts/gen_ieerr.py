"""Writes lean/Verif/V2/IEErr.lean: the IE types that decoding errors name."""
import re
src=open('/verif/scripts/gen_sum.py').read().split("def check_table")[0]
import os
ns={'__file__':'/verif/scripts/gen_sum.py'}
exec(src,ns)
K=ns['KINDS']
groups='BearerContext LoadControl OverloadControlInfo RemoteUeContext ScefPdnConnections PC5QosParameters PgwChangeInfo PdnConnections V2xInformation'.split()
out='''import Verif.V2.Decoder

/-!
# The IE types named by decoding errors

Expanded by `scripts/gen_ieerr.py`. For every IE: which IE types the errors `IEInvalidLength(t)` and `IEIncorrect(t)` name.
-/

namespace Gtp.V2

set_option linter.unusedSimpArgs false

/-- If the outcome is an error, it satisfies `P`. -/
def _root_.Gtp.R.Errs {ε α : Type} (x : R ε α) (P : ε → Prop) : Prop :=
  match x with
  | .err e => P e
  | _ => True

/-- The error names the IE type `t`. -/
def Err.Names (t : UInt8) (e : Err) : Prop := e = .ieInvalidLength t ∨ e = .ieIncorrect t

section
variable {ε α β : Type} {P : ε → Prop}
theorem Errs_ok {a : α} : (R.ok a : R ε α).Errs P := trivial
theorem Errs_pure {a : α} : (pure a : R ε α).Errs P := trivial
theorem Errs_panic : (R.panic : R ε α).Errs P := trivial
theorem Errs_len {t : UInt8} : (R.err (.ieInvalidLength t) : R Err α).Errs (Err.Names t) := .inl rfl
theorem Errs_inc {t : UInt8} : (R.err (.ieIncorrect t) : R Err α).Errs (Err.Names t) := .inr rfl
theorem Errs_bind {x : R ε α} {f : α → R ε β} (hx : x.Errs P) (h : ∀ a, (f a).Errs P) : (x >>= f).Errs P := by
  cases x with
  | ok a => exact h a
  | err e => exact hx
  | _ => trivial
theorem Errs_ite {c : Prop} [Decidable c] {x y : R ε α} (hx : x.Errs P) (hy : y.Errs P) : (if c then x else y).Errs P := by
  split
  · exact hx
  · exact hy
theorem Errs_rd {b : Bytes} {i : Nat} : (rd b i : R ε UInt8).Errs P := by unfold rd; split <;> trivial
theorem Errs_sl {b : Bytes} {i j : Nat} : (sl b i j : R ε Bytes).Errs P := by unfold sl; split <;> trivial
theorem Errs_slFrom {b : Bytes} {i : Nat} : (slFrom b i : R ε Bytes).Errs P := by unfold slFrom; split <;> trivial
theorem Errs_add16 {m : Mode} {x y : UInt16} : (add16 m x y : R ε UInt16).Errs P := by
  unfold add16; cases m <;> simp only <;> (try split) <;> trivial
theorem Errs_add8 {m : Mode} {x y : UInt8} : (add8 m x y : R ε UInt8).Errs P := by
  unfold add8; cases m <;> simp only <;> (try split) <;> trivial
theorem Errs_mapErr {x : R ε α} {e : ε} (h : P e) : (x.mapErr e).Errs P := by cases x <;> first | trivial | exact h
theorem Errs_ofOption {o : Option α} {e : ε} (h : P e) : (R.ofOption o e).Errs P := by cases o <;> first | trivial | exact h
end

theorem Errs_checkTliv {m : Mode} {l : UInt16} {b : Bytes} {P : Err → Prop} : (checkTliv m l b : R Err Bool).Errs P := by
  unfold checkTliv
  exact Errs_ite Errs_ok (Errs_bind Errs_add16 fun _ => Errs_pure)

theorem Names_len {t : UInt8} : Err.Names t (.ieInvalidLength t) := .inl rfl
theorem Names_inc {t : UInt8} : Err.Names t (.ieIncorrect t) := .inr rfl
section
variable {P : Err → Prop} {b : Bytes} {i : Nat}
theorem Errs_rd16 : (rd16 b i : R Err UInt16).Errs P := Errs_bind Errs_rd fun _ => Errs_bind Errs_rd fun _ => Errs_pure
theorem Errs_rd24 : (rd24 b i : R Err _).Errs P := Errs_bind Errs_rd fun _ => Errs_bind Errs_rd fun _ => Errs_bind Errs_rd fun _ => Errs_pure
theorem Errs_rd32 : (rd32 b i : R Err _).Errs P := by
  unfold rd32; repeat (refine Errs_bind Errs_rd fun _ => ?_)
  exact Errs_pure
theorem Errs_rd40 : (rd40 b i : R Err _).Errs P := by
  unfold rd40; repeat' first | exact Errs_pure | exact Errs_rd | exact Errs_rd32 | refine Errs_bind ?_ fun _ => ?_
theorem Errs_rd48 : (rd48 b i : R Err _).Errs P := by
  unfold rd48; repeat' first | exact Errs_pure | exact Errs_rd | exact Errs_rd32 | exact Errs_rd16 | refine Errs_bind ?_ fun _ => ?_
theorem Errs_rd64 : (rd64 b i : R Err _).Errs P := by
  unfold rd64; repeat' first | exact Errs_pure | exact Errs_rd | exact Errs_rd32 | refine Errs_bind ?_ fun _ => ?_
theorem Errs_rdIp6 : (rdIp6 b i : R Err _).Errs P := Errs_bind Errs_rd64 fun _ => Errs_bind Errs_rd64 fun _ => Errs_pure
theorem Errs_slBody16 {m : Mode} {l : UInt16} : (slBody16 m b l : R Err _).Errs P := Errs_bind Errs_add16 fun _ => Errs_sl
end

theorem Errs_mcc {b : Bytes} {P : Err → Prop} : (mccMncDecode b : R Err _).Errs P := by
  unfold mccMncDecode
  exact Errs_bind Errs_rd fun _ => Errs_bind Errs_rd fun _ => Errs_bind Errs_rd fun _ => Errs_pure

theorem Errs_labels {P : Err → Prop} : ∀ (n : Nat) (b : Bytes), (decLabels n b : R Err Str).Errs P := by
  intro n
  induction n with
  | zero => intro b; cases b <;> trivial
  | succ n ih =>
    intro b
    cases b with
    | nil => trivial
    | cons a r =>
      unfold decLabels
      exact Errs_ite (Errs_bind (ih _) fun _ => Errs_pure) Errs_panic

theorem Errs_elems {α : Type} {chk : Bool} {unm : Bytes → R Err α} {k : Nat} {e : Err} {b : Bytes} {P : Err → Prop} (h : P e) :
    ∀ n c, (rdElems chk unm k e b n c).Errs P := by
  intro n
  induction n with
  | zero => intro c; exact Errs_ok
  | succ n ih =>
    intro c
    unfold rdElems
    exact Errs_ite h (Errs_bind Errs_slFrom fun _ => Errs_bind (Errs_mapErr h) fun _ => Errs_bind (ih _) fun _ => Errs_pure)

theorem Errs_plmns : ∀ b : Bytes, (rdMdtPlmns b).Errs (Err.Names 162)
  | [] => Errs_ok
  | [_] => Errs_len
  | [_, _] => Errs_len
  | p0 :: p1 :: p2 :: r => by
    unfold rdMdtPlmns
    exact Errs_bind Errs_mcc fun _ => Errs_bind (Errs_plmns r) fun _ => Errs_pure

theorem Errs_items {α : Type} {unm : Bytes → R Err α} {len : α → Nat} {e : Err} {b : Bytes} {P : Err → Prop} (h : P e) :
    ∀ n c, (rdItems unm len e b n c).Errs P := by
  intro n
  induction n with
  | zero => intro c; exact Errs_ok
  | succ n ih =>
    intro c
    unfold rdItems rdItem
    exact Errs_bind (Errs_bind Errs_slFrom fun _ => Errs_bind (Errs_mapErr h) fun _ => Errs_pure)
      fun _ => Errs_bind (ih _) fun _ => Errs_pure

theorem Errs_rates {b : Bytes} {P : Err → Prop} : ∀ n c, (rdRates b n c).Errs P := by
  intro n
  induction n with
  | zero => intro c; trivial
  | succ n ih =>
    intro c
    unfold rdRates
    refine Errs_bind Errs_slFrom fun _ => ?_
    split
    · exact Errs_bind (ih _) fun _ => Errs_pure
    · exact Errs_pure
    · trivial
    · trivial

macro "err_own" : tactic => `(tactic| repeat' first
  | (with_reducible exact Errs_len)
  | (with_reducible exact Errs_inc)
  | (with_reducible exact Errs_pure)
  | (with_reducible exact Errs_ok)
  | (with_reducible exact Errs_panic)
  | (with_reducible exact Errs_rd)
  | (with_reducible exact Errs_rd16)
  | (with_reducible exact Errs_rd24)
  | (with_reducible exact Errs_rd32)
  | (with_reducible exact Errs_rd40)
  | (with_reducible exact Errs_rd48)
  | (with_reducible exact Errs_rd64)
  | (with_reducible exact Errs_rdIp6)
  | (with_reducible exact Errs_sl)
  | (with_reducible exact Errs_slFrom)
  | (with_reducible exact Errs_slBody16)
  | (with_reducible exact Errs_add16)
  | (with_reducible exact Errs_add8)
  | (with_reducible exact Errs_checkTliv)
  | (with_reducible exact Errs_mapErr Names_len)
  | (with_reducible exact Errs_mapErr Names_inc)
  | (with_reducible exact Errs_ofOption Names_len)
  | (with_reducible exact Errs_ofOption Names_inc)
  | (with_reducible refine Errs_bind ?_ fun _ => ?_)
  | (with_reducible refine Errs_ite ?_ ?_)
  | (with_reducible exact Errs_mcc)
  | (with_reducible exact Errs_labels _ _)
  | (with_reducible exact Errs_plmns _)
  | (with_reducible exact Errs_rates _ _)
  | (with_reducible exact Errs_elems Names_len _ _)
  | (with_reducible exact Errs_elems Names_inc _ _)
  | (with_reducible exact Errs_items Names_len _ _)
  | (with_reducible exact Errs_items Names_inc _ _)
  | unfold decName
  | unfold rdStr
  | unfold MdtConfiguration.rdScope
  | unfold rdLvU
  | unfold rdLv
  | unfold rdIp50
  | unfold TwanId.rdRelay
  | unfold MdtConfiguration.rdPlmnList
  | unfold rdOpt8
  | unfold rdLvC
  | unfold rdIf
  | unfold rdLe
  | unfold TwanId.rdName
  | unfold rdN
  | unfold rdPlmnS
  | unfold rdItem
  | unfold rdAuth
  | unfold rdAmbr
  | unfold rdDrx
  | unfold rdHigher
  | unfold rdIov
  | unfold rdExtAcc
  | unfold rdTriplets
  | unfold rd8s
  | unfold rdNextHop
  | unfold rdEnsct
  | unfold rdEpsTail
  | unfold rdApnRates
  | unfold Container.read
  | split)

'''
for c,s,t in K:
    if s in groups: continue
    if s in('MmContext','Uli','Unknown'): continue
    ty = t[0] if isinstance(t,list) else 0
    ty={'TwanId':169,'TraceReference':83}.get(s,ty)
    out+=f'''theorem {s}.errs (m : Mode) (b : Bytes) : ({s}.unmarshal m b).Errs (Err.Names {ty}) := by
  unfold {s}.unmarshal
  err_own

'''
mm=[('MmContextGsmKeyTriplets',103),('MmContextUmtsKeyCipherQuintuplets',104),('MmContextGsmKeyCipherQuintuplets',105),('MmContextUmtsKeyQuintuplets',106),('MmContextEpsSecurityContextQuadruplets',107),('MmContextUmtsKeyQuadrupletsQuintuplets',108)]
for n,c in mm:
    out+=f'''theorem {n}.errs (m : Mode) (b : Bytes) : ({n}.unmarshal m b).Errs (Err.Names {c}) := by
  unfold {n}.unmarshal
  err_own

'''
out+='''theorem Errs.mono {ε α : Type} {x : R ε α} {P Q : ε → Prop} (h : x.Errs P) (hq : ∀ e, P e → Q e) : x.Errs Q := by
  cases x with
  | err e => exact hq e h
  | _ => trivial

theorem Errs_ite' {ε α : Type} {P : ε → Prop} {c : Prop} [Decidable c] {x y : R ε α} (hx : c → x.Errs P) (hy : ¬ c → y.Errs P) :
    (if c then x else y).Errs P := by
  split
  · exact hx ‹_›
  · exact hy ‹_›

/-- An MM context names the type octet, which selects the variant. -/
theorem MmContext.errs (m : Mode) (b : Bytes) : (MmContext.unmarshal m b).Errs (Err.Names (b.getD 0 0)) := by
  unfold MmContext.unmarshal
  cases b with
  | nil => trivial
  | cons a r =>
    rw [rd_zero, R.ok_bind]
    simp only [List.getD_cons_zero]
'''
for n,c in [mm[4],mm[3],mm[5],mm[1],mm[0],mm[2]]:
    out+=f'    refine Errs_ite\' (fun h => by subst h; exact Errs_bind ({n}.errs m _) fun _ => Errs_pure) fun _ => ?_\n'
out+='''    exact Errs_inc

/-- The octets that an error about a ULI can name: the location readers name none. -/
theorem Uli.errs (m : Mode) (b : Bytes) : (Uli.unmarshal m b).Errs fun e => Err.Names 86 e ∨ e = .ieIncorrect 0 := by
  have hr : ∀ k (s : Bytes), (Location.read k s).Errs fun e => Err.Names 86 e ∨ e = .ieIncorrect 0 := by
    intro k s
    unfold Location.read
    repeat' first
        | (with_reducible exact Errs_pure)
        | (with_reducible exact Errs_ok)
        | (with_reducible exact Errs_panic)
        | (with_reducible exact Errs_rd)
        | (with_reducible exact Errs_rd16)
        | (with_reducible exact Errs_rd24)
        | (with_reducible exact Errs_rd32)
        | (with_reducible exact Errs_sl)
        | (with_reducible exact Errs_mcc)
        | (with_reducible refine Errs_bind ?_ fun _ => ?_)
        | (with_reducible refine Errs_ite ?_ ?_)
        | exact (.inr rfl : Err.Names 86 (.ieIncorrect 0) ∨ _)
        | unfold Cgi.unmarshal
        | unfold Sai.unmarshal
        | unfold Rai.unmarshal
        | unfold Tai.unmarshal
        | unfold Ecgi.unmarshal
        | unfold Lai.unmarshal
        | unfold MacroEnbId.unmarshal
        | unfold ExtMacroEnbId.unmarshal
        | split
  have ha : ∀ ks c, (Location.readAll b ks c).Errs fun e => Err.Names 86 e ∨ e = .ieIncorrect 0 := by
    intro ks
    induction ks with
    | nil => intro c; trivial
    | cons k ks ih =>
      intro c
      unfold Location.readAll
      exact Errs_bind Errs_slFrom fun _ => Errs_bind (hr _ _) fun _ => Errs_bind (ih _) fun _ => Errs_pure
  unfold Uli.unmarshal
  refine Errs_ite (Errs_bind Errs_rd16 fun _ => Errs_bind Errs_rd fun _ => Errs_bind Errs_checkTliv fun _ =>
    Errs_ite (Errs_bind Errs_rd fun _ => Errs_bind (ha _ _) fun _ => Errs_pure) ?_) ?_ <;> exact .inl (.inl rfl)

/-- An unknown type is not named if the length does not fit. -/
theorem Unknown.errs (m : Mode) (b : Bytes) : (Unknown.unmarshal m b).Errs fun e => Err.Names (b.getD 0 0) e ∨ e = .ieInvalidLength 0 := by
  unfold Unknown.unmarshal
  cases b with
  | nil => trivial
  | cons a r =>
    refine Errs_ite (Errs_bind Errs_rd16 fun _ => Errs_bind Errs_rd fun _ => Errs_bind Errs_checkTliv fun _ =>
      Errs_ite (Errs_bind Errs_slBody16 fun _ => Errs_pure) ?_) ?_
    · exact .inr rfl
    · rw [rd_zero, R.ok_bind]
      exact .inl (.inl rfl)

/-- The octets that an error of the arm `k` for the type octet `t` names. -/
def Kind.blames (t : UInt8) : Kind → List UInt8
'''
for c,s,t in K:
    if s in groups or s=='MmContext': b='[t]'
    elif s=='Uli': b='[86, 0]'
    elif s=='Unknown': b='[t, 0]'
    else:
        ty = t[0] if isinstance(t,list) else 0
        ty={'TwanId':169,'TraceReference':83}.get(s,ty)
        b=f'[{ty}]'
    lst={'LoadControl':181,'OverloadControlInfo':180,'PC5QosParameters':209}.get(s)
    if lst: b=f'[t, {lst}]'
    out+=f'  | .{c} => {b}\n'
out+='''
/-- The error names one of the types in `l`. -/
def Err.NamesAny (l : List UInt8) (e : Err) : Prop := ∃ t ∈ l, Err.Names t e

theorem Names.any {t : UInt8} {l : List UInt8} (h : t ∈ l) {e : Err} (he : Err.Names t e) : Err.NamesAny l e := ⟨t, h, he⟩

theorem slBody16_body {m : Mode} {b s : Bytes} {l : UInt16} (h : slBody16 m b l = .ok s) :
    s = (b.take (l.toNat + 4)).drop 4 ∧ l.toNat + 4 ≤ b.length := by
  unfold slBody16 add16 at h
  have h4 : (4 : UInt16).toNat = 4 := rfl
  have hl := l.toNat_lt
  have hs : ∀ x : UInt16, x = l + 4 → (sl b 4 x.toNat : R Err Bytes) = .ok s →
      s = (b.take (l.toNat + 4)).drop 4 ∧ l.toNat + 4 ≤ b.length := by
    intro x hx hs
    have hx2 : x.toNat = (l.toNat + 4) % 65536 := by rw [hx, UInt16.toNat_add, h4]
    unfold sl at hs
    split at hs
    · rename_i hc
      have : x.toNat = l.toNat + 4 := by omega
      injection hs with hs
      rw [this] at hs hc
      exact ⟨hs.symm, hc.2⟩
    · cases hs
  cases m
  · simp only at h
    split at h
    · exact hs _ rfl h
    · cases h
  · exact hs _ rfl h

/-- The octets of the body of an IE, as delimited by its length field. -/
theorem groupUnm_errs {α : Type} {dec : Bytes → R Err (List IE)} {mk : UInt8 → UInt16 → UInt8 → List IE → α} {m : Mode} {b : Bytes}
    {P : Err → Prop} (hd : (declLen b).toNat + 4 ≤ b.length → (dec ((b.take ((declLen b).toNat + 4)).drop 4)).Errs P) :
    (groupUnm dec mk m b).Errs fun e => Err.Names (b.getD 0 0) e ∨ P e := by
  unfold groupUnm
  cases hb : b with
  | nil => trivial
  | cons a r =>
    rw [← hb]
    have h0 : (rd b 0 : R Err UInt8) = .ok (b.getD 0 0) := by rw [hb]; rfl
    simp only [h0, R.ok_bind]
    refine Errs_ite' (fun h4 => ?_) fun _ => .inl (.inl rfl)
    have h1 : (rd16 b 1 : R Err UInt16) = .ok (declLen b) := by
      simp only [rd16, rd_getD (show 1 < b.length by omega), rd_getD (show 1 + 1 < b.length by omega), R.ok_bind, R.pure_eq, declLen]
    rw [h1, R.ok_bind]
    refine Errs_bind Errs_rd fun _ => Errs_bind Errs_checkTliv fun _ => Errs_ite ?_ (.inl (.inl rfl))
    cases hs : slBody16 m b (declLen b) with
    | ok s =>
      obtain ⟨h2, h3⟩ := slBody16_body hs
      rw [R.ok_bind]
      refine Errs_bind ?_ fun _ => Errs_pure
      rw [h2]
      exact Errs.mono (hd h3) fun _ => .inr
    | err e =>
      have := Errs_slBody16 (P := fun _ => False) (m := m) (b := b) (l := declLen b)
      rw [hs] at this
      exact this.elim
    | _ => trivial

theorem listCheck_errs {α β : Type} {t : UInt8} {l : α → Option (List β)} {x : α} : (listCheck t l x).Errs (Err.Names t) := by
  unfold listCheck
  split
  · exact Errs_ite Errs_inc Errs_ok
  · exact Errs_ok

/-- Errors of an arm name one of the arm's types, or come from a member of a grouped IE. -/
theorem unmKind_errs {dec : Bytes → R Err (List IE)} {m : Mode} {b : Bytes} {P : Err → Prop}
    (hd : (declLen b).toNat + 4 ≤ b.length → (dec ((b.take ((declLen b).toNat + 4)).drop 4)).Errs P) (k : Kind) :
    (unmKind dec m b k).Errs fun e => Err.NamesAny (k.blames (b.getD 0 0)) e ∨ P e := by
  have hg : ∀ {α : Type} {mk : UInt8 → UInt16 → UInt8 → List IE → α} {l : List UInt8}, b.getD 0 0 ∈ l →
      (groupUnm dec mk m b).Errs fun e => Err.NamesAny l e ∨ P e :=
    fun hl => Errs.mono (groupUnm_errs hd) fun e he => he.imp (Names.any hl) id
  cases k with
'''
for c,s,t in K:
    if s in('LoadControl','OverloadControlInfo'):
        out+=f'''  | {c} =>
    simp only [unmKind]
    exact Errs_bind (hg (by simp [Kind.blames])) fun _ => Errs_bind (Errs.mono listCheck_errs fun e he => .inl (Names.any (by simp [Kind.blames]) he)) fun _ => Errs_pure
'''
    elif s=='PC5QosParameters':
        out+=f'''  | {c} =>
    simp only [unmKind]
    exact Errs_bind (hg (by simp [Kind.blames])) fun _ => Errs_ite (.inl (Names.any (t := 209) (by simp [Kind.blames]) (.inr rfl))) Errs_pure
'''
    elif s in groups:
        out+=f'  | {c} => simp only [unmKind]; exact Errs_bind (hg (by simp [Kind.blames])) fun _ => Errs_pure\n'
    elif s=='Uli':
        out+=f'''  | {c} =>
    simp only [unmKind]
    refine Errs_bind (Errs.mono (Uli.errs m b) fun e he => .inl ?_) fun _ => Errs_pure
    rcases he with he | he
    · exact Names.any (by simp [Kind.blames]) he
    · exact Names.any (t := 0) (by simp [Kind.blames]) (.inr he)
'''
    elif s=='Unknown':
        out+=f'''  | {c} =>
    simp only [unmKind]
    refine Errs_bind (Errs.mono (Unknown.errs m b) fun e he => .inl ?_) fun _ => Errs_pure
    rcases he with he | he
    · exact Names.any (by simp [Kind.blames]) he
    · exact Names.any (t := 0) (by simp [Kind.blames]) (.inl he)
'''
    else:
        out+=f'  | {c} => simp only [unmKind]; exact Errs_bind (Errs.mono ({s}.errs m b) fun e he => .inl (Names.any (List.mem_singleton.mpr rfl) he)) fun _ => Errs_pure\n'
out+='''
/-- `len` returns no error. -/
theorem IE.len_errs {m : Mode} {P : Err → Prop} (x : IE) : (x.len m).Errs P := by
  cases x <;> simp only [IE.len] <;> first
    | exact Errs_ok
    | exact Errs_bind Errs_add16 fun _ => Errs_pure
    | (unfold EcgiList.len; split <;> exact Errs_ok)
    | (unfold MmContext.len; split <;> first | exact Errs_ok | exact Errs_bind Errs_add16 fun _ => Errs_pure)

/-- The type octets whose errors name another IE type: 86 (ULI), 115 (Trace Reference), 169 (TWAN Identifier), and the types
without an arm of their own. -/
def Misnamed (t : UInt8) : Bool := t = 86 || t = 115 || t = 169 || kindOf t = .Unknown

theorem Kind.blames_table : ∀ p ∈ kindTable, p.1 = 86 ∨ p.1 = 115 ∨ p.1 = 169 ∨ ∀ n ∈ p.2.blames p.1, n = p.1 := by
  have h : (kindTable.all fun p => p.1 == 86 || p.1 == 115 || p.1 == 169 || (p.2.blames p.1).all (· == p.1)) = true := by
    decide +kernel
  intro p hp
  have := List.all_eq_true.mp h p hp
  simpa [or_assoc] using this

theorem mem_of_lookup {α : Type} {t : UInt8} {k : α} : ∀ {l : List (UInt8 × α)}, l.lookup t = some k → (t, k) ∈ l
  | [], h => by cases h
  | (a, b) :: l, h => by
    rw [List.lookup_cons] at h
    split at h
    · rename_i ht
      injection h with h
      rw [eq_of_beq ht, h]
      exact List.mem_cons_self ..
    · exact List.mem_cons_of_mem _ (mem_of_lookup h)

theorem Kind.blames_own (t : UInt8) (h : Misnamed t = false) : ∀ n ∈ (kindOf t).blames t, n = t := by
  simp only [Misnamed, Bool.or_eq_false_iff, decide_eq_false_iff_not] at h
  obtain ⟨⟨⟨h1, h2⟩, h3⟩, h4⟩ := h
  unfold kindOf at h4 ⊢
  cases hl : kindTable.lookup t with
  | none => rw [hl] at h4; exact absurd rfl h4
  | some k =>
    rcases Kind.blames_table _ (mem_of_lookup hl) with h | h | h | h
    · exact absurd h h1
    · exact absurd h h2
    · exact absurd h h3
    · exact h

theorem decoder_errs_aux {m : Mode} : ∀ (k : Nat) (b : Bytes), b.length < k →
    (decoder m b).Errs fun e => ∃ s, Visits m b s ∧ decodeOne (decoder m) m s = .err e ∧
      Err.NamesAny ((kindOf (s.getD 0 0)).blames (s.getD 0 0)) e
  | k + 1, b, hk => by
    rw [decoder_eq]
    refine Errs_ite' (fun _ => trivial) fun hb => ?_
    have h0 : 0 < b.length := List.length_pos_iff.mpr hb
    have h1 := unmKind_errs (dec := decoder m) (m := m) (b := b) (k := kindOf (b.getD 0 0)) (P := fun e => ∃ s, Visits m b s ∧
        decodeOne (decoder m) m s = .err e ∧ Err.NamesAny ((kindOf (s.getD 0 0)).blames (s.getD 0 0)) e) fun hl =>
      Errs.mono (decoder_errs_aux k _ (by simp; omega)) fun e he => by
        obtain ⟨s, hs, h⟩ := he
        exact ⟨s, .inside b s hl hs, h⟩
    cases hp : decodeOne (decoder m) m b with
    | ok p =>
      obtain ⟨x, n⟩ := p
      rw [R.ok_bind]
      refine Errs_ite' (fun _ => trivial) fun hn => Errs_bind (Errs.mono (decoder_errs_aux k _ (by simp; omega)) fun e he => ?_)
        fun _ => Errs_pure
      obtain ⟨s, hs, h⟩ := he
      exact ⟨s, .next b s x n hp hs, h⟩
    | err e =>
      have h2 := hp
      unfold decodeOne at h2
      rw [rd_getD h0, R.ok_bind] at h2
      cases hu : unmKind (decoder m) m b (kindOf (b.getD 0 0)) with
      | ok x =>
        rw [hu, R.ok_bind] at h2
        have h3 := IE.len_errs (m := m) (P := fun _ => False) x
        cases hl : x.len m with
        | err e' => rw [hl] at h3; exact h3.elim
        | _ => rw [hl] at h2; cases h2
      | err e' =>
        rw [hu] at h1 h2
        injection h2 with h2
        subst h2
        rcases h1 with h1 | h1
        · exact ⟨b, .here b hb, hp, h1⟩
        · exact h1
      | _ => rw [hu] at h2; cases h2
    | _ => trivial

/-- An error of the decoder is the error of one of the IEs it comes across. -/
theorem decoder_errs {m : Mode} {b : Bytes} {e : Err} (h : decoder m b = .err e) :
    ∃ s, Visits m b s ∧ decodeOne (decoder m) m s = .err e ∧ Err.NamesAny ((kindOf (s.getD 0 0)).blames (s.getD 0 0)) e := by
  have := decoder_errs_aux (m := m) (b.length + 1) b (by omega)
  rw [h] at this
  exact this

'''
out+='end Gtp.V2\n'
open('/verif/lean/Verif/V2/IEErr.lean','w').write(out)
