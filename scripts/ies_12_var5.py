module('Var5', 'Source, target and user location', ('Verif.V2.Cursor', 'Verif.V2.Ies.Loc'))

raw('''
/-- No panic; a decoded IE is accounted with at least `lo` octets, possibly more than the buffer holds. -/
def OwnLoose {α : Type} (lo : Nat) (cond : Bytes → Prop) (unm : Mode → Bytes → R Err α)
    (len : Mode → α → R Err Nat) : Prop :=
  ∀ (m : Mode) (b : Bytes), cond b → (unm m b).Safe fun x => (len m x).Safe fun n => lo ≤ n

/-- Turn the decoding of an element at the front of a buffer into a stage on a slice. -/
theorem elem_sl {α : Type} {WF : α → Prop} {oct : α → Bytes} {unm : Bytes → R Err α} {k : Nat} (he : ElemOk WF oct unm k)
    {x : α} (hx : WF x) {b r : Bytes} {c n : Nat} (h : At b c (oct x ++ r)) (hn : n = c + k) :
    ∃ s, (sl b c n : R Err Bytes) = .ok s ∧ unm s = .ok x ∧ At b n r := by
  obtain ⟨h1, h2⟩ := he x hx
  refine ⟨oct x, h.sl (by omega), ?_, h.skip (by omega)⟩
  have := h2 []
  rwa [List.append_nil] at this

/-- `CellIdentifier` (targetid.rs:177-184). -/
structure CellIdentifier where
  mcc : UInt16
  mnc : UInt16
  mnc_is_three_digits : Bool
  lac : UInt16
  rac : UInt8
  ci : UInt16
deriving DecidableEq, Repr

namespace CellIdentifier

/-- `marshal` (targetid.rs:187-196). -/
def octets (x : CellIdentifier) : Bytes :=
  mccMncEncode x.mcc x.mnc x.mnc_is_three_digits ++ be16 x.lac ++ [x.rac] ++ be16 x.ci

/-- `unmarshal` (targetid.rs:198-213). -/
def unmarshal (b : Bytes) : R Err CellIdentifier := do
  if 8 ≤ b.length then
    let s ← sl b 0 3
    let (mcc, mnc, mnc_is_three_digits) ← mccMncDecode s
    let lac ← rd16 b 3
    let rac ← rd b 5
    let ci ← rd16 b 6
    return { mcc, mnc, mnc_is_three_digits, lac, rac, ci }
  else .err (.ieInvalidLength 0)

/-- Values that the encoding represents. -/
def WF (x : CellIdentifier) : Prop := PlmnOk x.mcc x.mnc x.mnc_is_three_digits

instance (x : CellIdentifier) : Decidable x.WF := by unfold WF; infer_instance

theorem elem : ElemOk WF octets unmarshal 8 := by
  rintro ⟨mcc, mnc, d, lac, rac, ci⟩ hp
  simp only [WF] at hp
  obtain ⟨p0, p1, p2, e1, e2⟩ := mccMnc_roundtrip3 hp
  constructor
  · simp [octets, e1, be16]
  · intro tail
    enc_simp [octets, e1, be16]
    rt_simp [unmarshal, e2, mccMncDecode, sl]

theorem elem_safe : ElemSafe 8 unmarshal := by
  intro b
  safe_simp [unmarshal, mccMncDecode, List.length_drop, List.length_take]
  safe_fin

end CellIdentifier

/-- `GNbIdentifier` (targetid.rs:232-239); `etac` is an array of 3 octets. -/
structure GNbIdentifier where
  mcc : UInt16
  mnc : UInt16
  mnc_is_three_digits : Bool
  gnb_id_length : UInt8
  gnb_id : UInt32
  etac : Bytes
deriving DecidableEq, Repr

namespace GNbIdentifier

/-- `marshal` (targetid.rs:255-264). -/
def octets (x : GNbIdentifier) : Bytes :=
  mccMncEncode x.mcc x.mnc x.mnc_is_three_digits ++ [x.gnb_id_length] ++ be32 x.gnb_id ++ x.etac

/-- `unmarshal` (targetid.rs:266-281). -/
def unmarshal (b : Bytes) : R Err GNbIdentifier := do
  if 11 ≤ b.length then
    let s ← sl b 0 3
    let (mcc, mnc, mnc_is_three_digits) ← mccMncDecode s
    let gnb_id_length ← rd b 3
    let gnb_id ← rd32 b 4
    let etac ← sl b 8 11
    return { mcc, mnc, mnc_is_three_digits, gnb_id_length, gnb_id, etac }
  else .err (.ieInvalidLength 0)

/-- Values that the encoding represents. -/
def WF (x : GNbIdentifier) : Prop := PlmnOk x.mcc x.mnc x.mnc_is_three_digits ∧ x.etac.length = 3

instance (x : GNbIdentifier) : Decidable x.WF := by unfold WF; infer_instance

theorem elem : ElemOk WF octets unmarshal 11 := by
  rintro ⟨mcc, mnc, d, l, i, etac⟩ ⟨hp, h3⟩
  simp only at hp h3
  obtain ⟨p0, p1, p2, e1, e2⟩ := mccMnc_roundtrip3 hp
  match etac, h3 with
  | [q0, q1, q2], _ =>
    constructor
    · simp [octets, e1, be32]
    · intro tail
      enc_simp [octets, e1, be32]
      rt_simp [unmarshal, e2, mccMncDecode, sl]

theorem elem_safe : ElemSafe 11 unmarshal := by
  intro b
  safe_simp [unmarshal, mccMncDecode, List.length_drop, List.length_take]
  safe_fin

end GNbIdentifier
''')

def comp(name, lines, fld, inner, tailf, tailty, k):
    st, mar, un = lines
    if tailty == 'UInt16':
        enc, dec, wf, hw = 'be16 x.%s' % tailf, 'rd16 b 6', 'x.%s.WF' % fld, 'h1'
    else:
        enc, dec, wf, hw = 'x.%s' % tailf, 'sl b 6 9', 'x.%s.WF ∧ x.%s.length = 3' % (fld, tailf), '⟨h1, h2⟩'
    note = '' if tailty == 'UInt16' else '; `etac` is an array of 3 octets'
    raw('''
/-- `%(name)s` (targetid.rs:%(st)s)%(note)s. -/
structure %(name)s where
  %(fld)s : %(inner)s
  %(tailf)s : %(tailty)s
deriving DecidableEq, Repr

namespace %(name)s

/-- `marshal` (targetid.rs:%(mar)s). -/
def octets (x : %(name)s) : Bytes := x.%(fld)s.octets ++ %(enc)s

/-- `unmarshal` (targetid.rs:%(un)s). -/
def unmarshal (b : Bytes) : R Err %(name)s := do
  if %(k)d ≤ b.length then
    let s ← sl b 0 6
    let %(fld)s ← (%(inner)s.unmarshal s).mapErr (.ieIncorrect 0)
    let %(tailf)s ← %(dec)s
    return { %(fld)s, %(tailf)s }
  else .err (.ieInvalidLength 0)

/-- Values that the encoding represents. -/
def WF (x : %(name)s) : Prop := %(wf)s

instance (x : %(name)s) : Decidable x.WF := by unfold WF; infer_instance

theorem elem : ElemOk WF octets unmarshal %(k)d := by
  rintro ⟨i, v⟩ %(hw)s
  try simp only [WF] at h1
  try simp only at h1 h2
  have hk := (%(inner)s.elem i h1).1
  constructor
  · simp [octets, hk%(x1)s]
  · intro tail
    generalize hb : octets ⟨i, v⟩ ++ tail = b
    have h := At.of_eq hb
    simp only [octets, List.append_assoc] at h
    obtain ⟨s, a1, a2, h3⟩ := elem_sl (n := 6) %(inner)s.elem h1 h rfl
    have hbl := h3.length
    simp only [List.length_append%(x2)s] at hbl
    cur_simp [unmarshal, a1, a2, %(x3)s]

theorem elem_safe : ElemSafe %(k)d unmarshal := by
  intro b
  safe_simp [unmarshal]
  refine fun h => ⟨by omega, ?_⟩
  refine Safe.mono (%(inner)s.elem_safe _) fun _ _ => ?_
  try safe_simp []
  safe_fin

end %(name)s
''' % dict(name=name, st=st, mar=mar, un=un, fld=fld, inner=inner, tailf=tailf, tailty=tailty, k=k, enc=enc, dec=dec, wf=wf, hw=hw, note=note,
           x1=', be16' if tailty == 'UInt16' else ', h2',
           x2=', be16, List.length_cons, List.length_nil' if tailty == 'UInt16' else ', h2',
           x3='h3.rd16' if tailty == 'UInt16' else 'h3.sl (ε := Err) (n := 9) (by rw [h2])'))


comp('MacroEnbIdentifier', ('88-91', '94-97', '99-115'), 'macro_enb_id', 'MacroEnbId', 'tac', 'UInt16', 8)
comp('ExtendedMacroEnbIdentifier', ('133-136', '139-142', '144-158'), 'ext_macro_enb_id', 'ExtMacroEnbId', 'tac', 'UInt16', 8)
comp('MacronGeNbIdentifier', ('300-303', '306-309', '311-325'), 'macro_ng_enb_id', 'MacroEnbId', 'etac', 'Bytes', 9)
comp('ExtendedGeNbIdentifier', ('344-347', '350-353', '355-369'), 'macro_ng_enb_id', 'ExtMacroEnbId', 'etac', 'Bytes', 9)

raw('''
/-- `RncIdentifier` (targetid.rs:17-21). -/
structure RncIdentifier where
  rai : Rai
  rnc_id : UInt16
  ext_rnc_id : Option UInt16
deriving DecidableEq, Repr

namespace RncIdentifier

/-- `marshal` (targetid.rs:26-34): the routing area without its last octet. -/
def octets (x : RncIdentifier) : Bytes :=
  x.rai.octets.dropLast ++ (be16 x.rnc_id ++ optEnc be16 x.ext_rnc_id)

/-- `unmarshal` (targetid.rs:36-66): whether the extended identifier is present depends on the size of the buffer. -/
def unmarshal (b : Bytes) : R Err RncIdentifier := do
  if 8 ≤ b.length ∧ b.length < 10 then
    let s ← sl b 0 6
    let rai ← (Rai.unmarshal s).mapErr (.ieIncorrect 0)
    let rnc_id ← rd16 b 6
    return { rai, rnc_id, ext_rnc_id := none }
  else if 10 ≤ b.length then
    let s ← sl b 0 6
    let rai ← (Rai.unmarshal s).mapErr (.ieIncorrect 0)
    let rnc_id ← rd16 b 6
    let e ← rd16 b 8
    return { rai, rnc_id, ext_rnc_id := some e }
  else .err (.ieInvalidLength 0)

/-- `len` (targetid.rs:68-73). -/
def len (x : RncIdentifier) : Nat := if x.ext_rnc_id.isSome then 10 else 8

/-- Values that the encoding represents when anything may follow. -/
def WF (x : RncIdentifier) : Prop := x.rai.WF ∧ x.ext_rnc_id.isSome = true

instance (x : RncIdentifier) : Decidable x.WF := by unfold WF; infer_instance

theorem rai6 {r : Rai} (h : r.WF) : ∃ p, r.octets.dropLast = p ∧ p.length = 6 ∧ Rai.unmarshal p = .ok r := by
  obtain ⟨mcc, mnc, d, lac, rac⟩ := r
  simp only [Rai.WF] at h
  obtain ⟨p0, p1, p2, e1, e2⟩ := mccMnc_roundtrip3 h
  refine ⟨[p0, p1, p2, hi16 lac, lo16 lac, rac], by simp [Rai.octets, e1, be16], rfl, ?_⟩
  rt_simp [Rai.unmarshal, e2, mccMncDecode, sl]

theorem rt_any {x : RncIdentifier} {tail : Bytes} (h : x.rai.WF) (ht : x.ext_rnc_id.isSome = true ∨ tail.length < 2) :
    x.octets.length = x.len ∧ unmarshal (x.octets ++ tail) = .ok x := by
  obtain ⟨rai, rnc, ext⟩ := x
  simp only at h ht
  obtain ⟨p, e1, e2, e3⟩ := rai6 h
  generalize hb : octets ⟨rai, rnc, ext⟩ ++ tail = b
  have hs := At.of_eq hb
  simp only [octets, List.append_assoc, e1] at hs ⊢
  have a1 := hs.sl (ε := Err) (n := 6) (by omega)
  have h1 : At b 6 _ := hs.skip (by omega)
  have h2 : At b 8 _ := h1.skip (by simp [be16])
  have hbl := h2.length
  cases ext with
  | none =>
    simp only [Option.isSome, Bool.false_eq_true, false_or, optEnc, List.nil_append] at ht hbl
    refine ⟨by simp [len, e2, be16, optEnc], ?_⟩
    cur_simp [unmarshal, a1, e3, h1.rd16]
  | some v =>
    simp only [optEnc] at hbl h2
    have : (be16 v).length = 2 := by simp [be16]
    simp only [List.length_append, this] at hbl
    refine ⟨by simp [len, e2, be16, optEnc], ?_⟩
    cur_simp [unmarshal, a1, e3, h1.rd16, h2.rd16]

theorem elem_safe : ElemSafe 8 unmarshal := by
  intro b
  have h := Rai.elem_safe
  safe_simp [unmarshal]
  refine ⟨fun _ => ⟨by omega, ?_⟩, fun _ _ => ⟨by omega, ?_⟩⟩ <;>
  · refine Safe.mono (Rai.elem_safe _) fun _ _ => ?_
    try safe_simp []
    omega

end RncIdentifier

/-- `EnGNbIdentifier` (targetid.rs:388-397); `etac` is an array of 3 octets. -/
structure EnGNbIdentifier where
  mcc : UInt16
  mnc : UInt16
  mnc_is_three_digits : Bool
  en_gnb_id_length : UInt8
  en_gnb_id : UInt32
  tac : Option UInt16
  etac : Option Bytes
deriving DecidableEq, Repr

namespace EnGNbIdentifier

/-- `marshal` (targetid.rs:414-433). -/
def octets (x : EnGNbIdentifier) : Bytes :=
  mccMncEncode x.mcc x.mnc x.mnc_is_three_digits ++
    (((if x.tac.isSome then 0x80 else 0) ||| (if x.etac.isSome then 0x40 else 0) ||| x.en_gnb_id_length) ::
    (be32 x.en_gnb_id ++ (optEnc be16 x.tac ++ optEnc id x.etac)))

/-- `unmarshal` (targetid.rs:435-461): both flags have to be set. -/
def unmarshal (b : Bytes) : R Err EnGNbIdentifier := do
  if 8 ≤ b.length then
    let l ← rd b 3
    let en_gnb_id ← rd32 b 4
    let s ← sl b 0 3
    let (mcc, mnc, mnc_is_three_digits) ← mccMncDecode s
    if l &&& 0x40 ≠ 0 ∧ 10 ≤ b.length then
      let tac ← rd16 b 8
      if l &&& 0x80 ≠ 0 ∧ 13 ≤ b.length then
        let etac ← sl b 10 13
        return { mcc, mnc, mnc_is_three_digits, en_gnb_id_length := l &&& 0x3f, en_gnb_id, tac := some tac, etac := some etac }
      else .err (.ieInvalidLength 0)
    else .err (.ieInvalidLength 0)
  else .err (.ieInvalidLength 0)

/-- `len` (targetid.rs:463-469). -/
def len (x : EnGNbIdentifier) : Nat :=
  match x.tac, x.etac with
  | some _, some _ => 14
  | some _, none => 11
  | _, _ => 8

theorem elem_safe : ElemSafe 13 unmarshal := by
  intro b
  safe_simp [unmarshal]
  refine fun h => ⟨by omega, by omega, by omega, by omega, by omega, by omega, mccMncDecode_safe (by simp; omega) fun x => ?_⟩
  try safe_simp []
  safe_fin

end EnGNbIdentifier

/-- `enum TargetType` (targetid.rs:486-499). -/
inductive TargetType where
  | RncId (i : RncIdentifier) | MacroeNbId (i : V2.MacroEnbIdentifier) | CellId (i : CellIdentifier)
  | MacroEnbIdentifier (i : MacroEnbId) | HomeeNbId (i : V2.MacroEnbIdentifier)
  | ExtendedMacroeNbId (i : ExtendedMacroEnbIdentifier) | GNbId (i : GNbIdentifier) | MacrongeNbId (i : MacronGeNbIdentifier)
  | ExtendedngeNbId (i : ExtendedGeNbIdentifier) | EngNbId (i : EnGNbIdentifier) | Spare
deriving DecidableEq, Repr

namespace TargetType

/-- `From<&TargetType> for u8` (targetid.rs:501-516). -/
def code : TargetType → UInt8
  | .RncId _ => 0
  | .MacroeNbId _ => 1
  | .CellId _ => 2
  | .HomeeNbId _ => 3
  | .ExtendedMacroeNbId _ => 4
  | .GNbId _ => 5
  | .MacrongeNbId _ => 6
  | .ExtendedngeNbId _ => 7
  | .EngNbId _ => 8
  | _ => 9

/-- `marshal` (targetid.rs:536-549). -/
def octets : TargetType → Bytes
  | .RncId i => i.octets
  | .MacroeNbId i => i.octets
  | .CellId i => i.octets
  | .HomeeNbId i => i.octets
  | .ExtendedMacroeNbId i => i.octets
  | .GNbId i => i.octets
  | .MacrongeNbId i => i.octets
  | .ExtendedngeNbId i => i.octets
  | .EngNbId i => i.octets
  | _ => []

/-- `unmarshal` (targetid.rs:551-620). -/
def unmarshal (b : Bytes) : R Err TargetType := do
  let v ← rd b 0
  if v = 0 then do
    let s ← slFrom b 1
    let i ← (RncIdentifier.unmarshal s).mapErr (.ieIncorrect 0)
    pure (.RncId i)
  else if v = 1 then do
    let s ← slFrom b 1
    let i ← (MacroEnbIdentifier.unmarshal s).mapErr (.ieIncorrect 0)
    pure (.MacroeNbId i)
  else if v = 2 then do
    let s ← slFrom b 1
    let i ← (CellIdentifier.unmarshal s).mapErr (.ieIncorrect 0)
    pure (.CellId i)
  else if v = 3 then do
    let s ← slFrom b 1
    let i ← (MacroEnbIdentifier.unmarshal s).mapErr (.ieIncorrect 0)
    pure (.HomeeNbId i)
  else if v = 4 then do
    let s ← slFrom b 1
    let i ← (ExtendedMacroEnbIdentifier.unmarshal s).mapErr (.ieIncorrect 0)
    pure (.ExtendedMacroeNbId i)
  else if v = 5 then do
    let s ← slFrom b 1
    let i ← (GNbIdentifier.unmarshal s).mapErr (.ieIncorrect 0)
    pure (.GNbId i)
  else if v = 6 then do
    let s ← slFrom b 1
    let i ← (MacronGeNbIdentifier.unmarshal s).mapErr (.ieIncorrect 0)
    pure (.MacrongeNbId i)
  else if v = 7 then do
    let s ← slFrom b 1
    let i ← (ExtendedGeNbIdentifier.unmarshal s).mapErr (.ieIncorrect 0)
    pure (.ExtendedngeNbId i)
  else if v = 8 then do
    let s ← slFrom b 1
    let i ← (EnGNbIdentifier.unmarshal s).mapErr (.ieIncorrect 0)
    pure (.EngNbId i)
  else pure .Spare

/-- `len` (targetid.rs:622-635). -/
def len : TargetType → Nat
  | .RncId i => i.len
  | .MacroeNbId _ | .CellId _ | .HomeeNbId _ | .ExtendedMacroeNbId _ => 8
  | .GNbId _ => 11
  | .MacrongeNbId _ | .ExtendedngeNbId _ => 9
  | .EngNbId i => i.len
  | _ => 1

/-- Targets that are read back, with the number of octets that may follow an RNC identifier without extension. -/
def Ok (tail : Nat) : TargetType → Prop
  | .RncId i => i.rai.WF ∧ (i.ext_rnc_id.isSome = true ∨ tail < 2)
  | .MacroeNbId i => i.WF
  | .CellId i => i.WF
  | .HomeeNbId i => i.WF
  | .ExtendedMacroeNbId i => i.WF
  | .GNbId i => i.WF
  | .MacrongeNbId i => i.WF
  | .ExtendedngeNbId i => i.WF
  | _ => False

instance (n : Nat) (x : TargetType) : Decidable (x.Ok n) := by cases x <;> unfold Ok <;> infer_instance

theorem rt {x : TargetType} {tail : Bytes} (h : x.Ok tail.length) :
    x.octets.length = x.len ∧ unmarshal (x.code :: (x.octets ++ tail)) = .ok x := by
  cases x with
  | RncId i =>
    obtain ⟨h1, h2⟩ := RncIdentifier.rt_any h.1 h.2
    exact ⟨h1, by simp [unmarshal, code, octets, rd, slFrom, h2]⟩
  | MacroeNbId i =>
    obtain ⟨h1, h2⟩ := MacroEnbIdentifier.elem i h
    exact ⟨h1, by simp [unmarshal, code, octets, rd, slFrom, h2]⟩
  | CellId i =>
    obtain ⟨h1, h2⟩ := CellIdentifier.elem i h
    exact ⟨h1, by simp [unmarshal, code, octets, rd, slFrom, h2]⟩
  | HomeeNbId i =>
    obtain ⟨h1, h2⟩ := MacroEnbIdentifier.elem i h
    exact ⟨h1, by simp [unmarshal, code, octets, rd, slFrom, h2]⟩
  | ExtendedMacroeNbId i =>
    obtain ⟨h1, h2⟩ := ExtendedMacroEnbIdentifier.elem i h
    exact ⟨h1, by simp [unmarshal, code, octets, rd, slFrom, h2]⟩
  | GNbId i =>
    obtain ⟨h1, h2⟩ := GNbIdentifier.elem i h
    exact ⟨h1, by simp [unmarshal, code, octets, rd, slFrom, h2]⟩
  | MacrongeNbId i =>
    obtain ⟨h1, h2⟩ := MacronGeNbIdentifier.elem i h
    exact ⟨h1, by simp [unmarshal, code, octets, rd, slFrom, h2]⟩
  | ExtendedngeNbId i =>
    obtain ⟨h1, h2⟩ := ExtendedGeNbIdentifier.elem i h
    exact ⟨h1, by simp [unmarshal, code, octets, rd, slFrom, h2]⟩
  | _ => exact absurd h (by simp [Ok])

theorem safe {b : Bytes} (h : 0 < b.length) : (unmarshal b).Safe fun x => 0 < x.len := by
  have hr : ∀ i : RncIdentifier, 0 < i.len := by intro i; unfold RncIdentifier.len; split <;> omega
  have he : ∀ i : EnGNbIdentifier, 0 < i.len := by intro i; unfold EnGNbIdentifier.len; split <;> omega
  safe_simp [unmarshal, len, hr, he]
  refine ⟨h, fun _ => ⟨by omega, Safe.mono (RncIdentifier.elem_safe _) fun _ _ => ?_⟩, fun _ => ⟨fun _ => ⟨by omega, Safe.mono (MacroEnbIdentifier.elem_safe _) fun _ _ => ?_⟩,
    fun _ => ⟨fun _ => ⟨by omega, Safe.mono (CellIdentifier.elem_safe _) fun _ _ => ?_⟩, fun _ => ⟨fun _ => ⟨by omega, Safe.mono (MacroEnbIdentifier.elem_safe _) fun _ _ => ?_⟩,
    fun _ => ⟨fun _ => ⟨by omega, Safe.mono (ExtendedMacroEnbIdentifier.elem_safe _) fun _ _ => ?_⟩, fun _ => ⟨fun _ => ⟨by omega, Safe.mono (GNbIdentifier.elem_safe _) fun _ _ => ?_⟩,
    fun _ => ⟨fun _ => ⟨by omega, Safe.mono (MacronGeNbIdentifier.elem_safe _) fun _ _ => ?_⟩, fun _ => ⟨fun _ => ⟨by omega, Safe.mono (ExtendedGeNbIdentifier.elem_safe _) fun _ _ => ?_⟩,
    fun _ => ⟨fun _ => ⟨by omega, Safe.mono (EnGNbIdentifier.elem_safe _) fun _ _ => ?_⟩, fun _ => by omega⟩⟩⟩⟩⟩⟩⟩⟩⟩ <;>
  first | trivial | omega | simp [R.Safe, len, hr, he]

end TargetType
''')
ie('TargetIdentification', 'targetid.rs', 0, [('target_type', 'TargetType')], 'x.target_type.code :: x.target_type.octets', mask=False,
   length='1 + x.target_type.len', minlen=5, bound=False, wf=[('hok', 'x.target_type.Ok 2')],
   dec='''
let s ← slFrom b 4
let target_type ← (TargetType.unmarshal s).mapErr (.ieIncorrect 121)''', ret='target_type',
   lendef='def len (_m : Mode) (x : TargetIdentification) : R Err Nat := .ok (5 + x.target_type.len)',
   aux2='''
/-- Any target that is read back in front of `tail`. -/
theorem rt_any {m : Mode} {x : TargetIdentification} {tail : Bytes} (ht : x.t = 121) (hl : x.length.toNat = 1 + x.target_type.len)
    (hok : x.target_type.Ok tail.length) : unmarshal m (marshal x ++ tail) = .ok x := by
  obtain ⟨t, length, ins, target_type⟩ := x
  simp only at ht hl hok
  obtain ⟨k1, k2⟩ := TargetType.rt hok
  simp only [marshal]
  obtain ⟨b, hb, e1, e2, h3, h4⟩ := tliv_at (ty := 121) (l := length) (ins := ins) (body := target_type.code :: target_type.octets) tail
    (by simp [hl, k1]; omega)
  simp only [List.cons_append] at h3
  simp only [hb]
  cur_simp [unmarshal, e1, e2, h3.slFrom, k2, ht]

theorem Ok_any {x : TargetType} (h : x.Ok 2) (n : Nat) : x.Ok n := by
  cases x with
  | RncId i => exact ⟨h.1, .inl (by rcases h.2 with h | h; exact h; omega)⟩
  | _ => exact h

/-- At the end of the buffer an RNC identifier without extension is read back too. -/
theorem rt_last (m : Mode) (x : TargetIdentification) (ht : x.t = 121) (hl : x.length.toNat = 1 + x.target_type.len)
    (hok : x.target_type.Ok 0) : unmarshal m x.marshal = .ok x := by
  have := rt_any (m := m) (tail := []) ht hl hok
  rwa [List.append_nil] at this
''',
   rt='exact rt_any ht hl (Ok_any hok _)',
   lenok='''
have k1 := (TargetType.rt (tail := []) (Ok_any hok _)).1
simp [marshal, tliv_eq, len, k1]
omega''',
   sname='OwnLoose 6 (fun _ => True)',
   safe='''
intro m b _
safe_simp [unmarshal, len]
refine fun h => ⟨by omega, by omega, by omega, by omega, Safe.mono (TargetType.safe (by simp; omega)) fun x hx => ?_⟩
try safe_simp []
omega''')

raw('''
/-- `SourceRncIdentifier` (sourceid.rs:15-21). -/
structure SourceRncIdentifier where
  mcc : UInt16
  mnc : UInt16
  mnc_is_three_digits : Bool
  rnc_id : UInt16
  ext_rnc_id : Option UInt16
deriving DecidableEq, Repr

namespace SourceRncIdentifier

/-- `marshal` (sourceid.rs:26-36). -/
def octets (x : SourceRncIdentifier) : Bytes :=
  mccMncEncode x.mcc x.mnc x.mnc_is_three_digits ++ (be16 x.rnc_id ++ optEnc be16 x.ext_rnc_id)

/-- `unmarshal` (sourceid.rs:38-64): the extension is read when at least seven octets are left, and with fewer
than five octets the indexing panics. -/
def unmarshal (b : Bytes) : R Err SourceRncIdentifier := do
  if b.length < 6 then
    let s ← sl b 0 3
    let (mcc, mnc, mnc_is_three_digits) ← mccMncDecode s
    let rnc_id ← rd16 b 3
    return { mcc, mnc, mnc_is_three_digits, rnc_id, ext_rnc_id := none }
  else if 7 ≤ b.length then
    let s ← sl b 0 3
    let (mcc, mnc, mnc_is_three_digits) ← mccMncDecode s
    let rnc_id ← rd16 b 3
    let e ← rd16 b 5
    return { mcc, mnc, mnc_is_three_digits, rnc_id, ext_rnc_id := some e }
  else .err (.ieInvalidLength 0)

/-- `len` (sourceid.rs:66-71). -/
def len (x : SourceRncIdentifier) : Nat := if x.ext_rnc_id.isSome then 7 else 5

theorem rt_any {x : SourceRncIdentifier} {tail : Bytes} (h : PlmnOk x.mcc x.mnc x.mnc_is_three_digits)
    (ht : x.ext_rnc_id.isSome = true ∨ tail.length = 0) :
    x.octets.length = x.len ∧ unmarshal (x.octets ++ tail) = .ok x := by
  obtain ⟨mcc, mnc, d, rnc, ext⟩ := x
  simp only at h ht
  obtain ⟨p0, p1, p2, e1, e2⟩ := mccMnc_roundtrip3 h
  cases ext with
  | none =>
    have : tail = [] := List.length_eq_zero_iff.mp (by simpa using ht)
    subst this
    exact ⟨by simp [len, octets, e1, be16, optEnc], by
      enc_simp [octets, e1, be16, optEnc]
      rt_simp [unmarshal, e2, mccMncDecode, sl]⟩
  | some v =>
    refine ⟨by simp [len, octets, e1, be16, optEnc], ?_⟩
    enc_simp [octets, e1, be16, optEnc]
    rt_simp [unmarshal, e2, mccMncDecode, sl]

theorem safe {b : Bytes} (h : 5 ≤ b.length) : (unmarshal b).Safe fun _ => True := by
  safe_simp [unmarshal]
  refine ⟨fun _ => ⟨by omega, mccMncDecode_safe (by simp; omega) fun x => ?_⟩, fun _ _ => ⟨by omega, mccMncDecode_safe (by simp; omega) fun x => ?_⟩⟩ <;>
  · try safe_simp []
    omega

end SourceRncIdentifier

/-- `enum SourceType` (sourceid.rs:88-93). -/
inductive SourceType where
  | SourceRncId (i : SourceRncIdentifier) | SourceCellId (i : CellIdentifier) | Spare
deriving DecidableEq, Repr

namespace SourceType

/-- `From<&SourceType> for u8` (sourceid.rs:95-103). -/
def code : SourceType → UInt8
  | .SourceCellId _ => 0
  | .SourceRncId _ => 1
  | .Spare => 2

/-- `marshal` (sourceid.rs:116-122). -/
def octets : SourceType → Bytes
  | .SourceRncId i => i.octets
  | .SourceCellId i => i.octets
  | .Spare => []

/-- `unmarshal` (sourceid.rs:124-143). -/
def unmarshal (b : Bytes) : R Err SourceType := do
  let v ← rd b 0
  if v = 0 then do
    let s ← slFrom b 1
    let i ← (CellIdentifier.unmarshal s).mapErr (.ieIncorrect 0)
    pure (.SourceCellId i)
  else if v = 1 then do
    let s ← slFrom b 1
    let i ← (SourceRncIdentifier.unmarshal s).mapErr (.ieIncorrect 0)
    pure (.SourceRncId i)
  else pure .Spare

/-- `len` (sourceid.rs:145-151). -/
def len : SourceType → Nat
  | .SourceRncId i => i.len
  | .SourceCellId _ => 8
  | .Spare => 1

/-- Sources that are read back, with the number of octets that may follow an RNC identifier without extension. -/
def Ok (tail : Nat) : SourceType → Prop
  | .SourceRncId i => PlmnOk i.mcc i.mnc i.mnc_is_three_digits ∧ (i.ext_rnc_id.isSome = true ∨ tail = 0)
  | .SourceCellId i => i.WF
  | .Spare => False

instance (n : Nat) (x : SourceType) : Decidable (x.Ok n) := by cases x <;> unfold Ok <;> infer_instance

theorem rt {x : SourceType} {tail : Bytes} (h : x.Ok tail.length) :
    x.octets.length = x.len ∧ unmarshal (x.code :: (x.octets ++ tail)) = .ok x := by
  cases x with
  | SourceRncId i =>
    obtain ⟨h1, h2⟩ := SourceRncIdentifier.rt_any h.1 h.2
    exact ⟨h1, by simp [unmarshal, code, octets, rd, slFrom, h2]⟩
  | SourceCellId i =>
    obtain ⟨h1, h2⟩ := CellIdentifier.elem i h
    exact ⟨h1, by simp [unmarshal, code, octets, rd, slFrom, h2]⟩
  | Spare => exact absurd h (by simp [Ok])

theorem safe {b : Bytes} (h : 0 < b.length) (h1 : b.getD 0 0 = 1 → 6 ≤ b.length) : (unmarshal b).Safe fun x => 0 < x.len := by
  have hr : ∀ i : SourceRncIdentifier, 0 < i.len := by intro i; unfold SourceRncIdentifier.len; split <;> omega
  safe_simp [unmarshal, len, hr]
  exact ⟨h, fun _ => ⟨by omega, Safe.mono (CellIdentifier.elem_safe _) fun _ _ => by omega⟩,
    fun _ => ⟨fun k => ⟨by omega, Safe.mono (SourceRncIdentifier.safe (by have := h1 k; simp; omega)) fun _ _ => trivial⟩, fun _ => by omega⟩⟩

end SourceType
''')
ie('SourceIdentification', 'sourceid.rs', 0, [('target_cell', 'CellIdentifier'), ('source_type', 'SourceType')],
   'x.target_cell.octets ++ x.source_type.code :: x.source_type.octets', mask=False,
   length='9 + x.source_type.len', minlen=13, bound=False, wf=[('hcell', 'x.target_cell.WF'), ('hok', 'x.source_type.Ok 1')],
   dec='''
let s ← sl b 4 12
let target_cell ← (CellIdentifier.unmarshal s).mapErr (.ieIncorrect 129)
let s ← slFrom b 12
let source_type ← (SourceType.unmarshal s).mapErr (.ieIncorrect 129)''', ret='target_cell, source_type',
   lendef='def len (_m : Mode) (x : SourceIdentification) : R Err Nat := .ok (13 + x.source_type.len)',
   aux2='''
/-- Any source that is read back in front of `tail`. -/
theorem rt_any {m : Mode} {x : SourceIdentification} {tail : Bytes} (ht : x.t = 129) (hl : x.length.toNat = 9 + x.source_type.len)
    (hcell : x.target_cell.WF) (hok : x.source_type.Ok tail.length) : unmarshal m (marshal x ++ tail) = .ok x := by
  obtain ⟨t, length, ins, target_cell, source_type⟩ := x
  simp only at ht hl hok hcell
  obtain ⟨k1, k2⟩ := SourceType.rt hok
  have k3 := (CellIdentifier.elem _ hcell).1
  simp only [marshal]
  obtain ⟨b, hb, e1, e2, h3, h4⟩ := tliv_at (ty := 129) (l := length) (ins := ins)
    (body := target_cell.octets ++ source_type.code :: source_type.octets) tail (by simp [hl, k1, k3]; omega)
  simp only [List.cons_append, List.append_assoc] at h3
  obtain ⟨s, a1, a2, h5⟩ := elem_sl (n := 12) CellIdentifier.elem hcell h3 rfl
  simp only [hb]
  cur_simp [unmarshal, e1, e2, a1, a2, h5.slFrom, k2, ht]

theorem Ok_any {x : SourceType} (h : x.Ok 1) (n : Nat) : x.Ok n := by
  cases x with
  | SourceRncId i => exact ⟨h.1, .inl (by rcases h.2 with h | h; exact h; omega)⟩
  | _ => exact h

/-- At the end of the buffer an RNC identifier without extension is read back too. -/
theorem rt_last (m : Mode) (x : SourceIdentification) (ht : x.t = 129) (hl : x.length.toNat = 9 + x.source_type.len)
    (hcell : x.target_cell.WF) (hok : x.source_type.Ok 0) : unmarshal m x.marshal = .ok x := by
  have := rt_any (m := m) (tail := []) ht hl hcell hok
  rwa [List.append_nil] at this
''',
   rt='exact rt_any ht hl hcell (Ok_any hok _)',
   lenok='''
have k1 := (SourceType.rt (tail := []) (Ok_any hok _)).1
have k3 := (CellIdentifier.elem _ hcell).1
simp [marshal, tliv_eq, len, k1, k3]
omega''',
   sname='OwnLoose 14 (fun b => b.getD 12 0 = 1 → 18 ≤ b.length)',
   safe='''
intro m b hc
try simp only at hc
safe_simp [unmarshal, len]
refine fun h => ⟨by omega, by omega, by omega, by omega, Safe.mono (CellIdentifier.elem_safe _) fun x hx => ?_⟩
try safe_simp []
refine ⟨by omega, Safe.mono (SourceType.safe (by simp; omega) ?_) fun x hx => ?_⟩
· intro h1
  have : b.getD 12 0 = 1 := by simpa [List.getD_eq_getElem?_getD] using h1
  have := hc this
  simp; omega
· try safe_simp []
  omega''')

raw('''
/-- `enum Location` (uli.rs:15-25). -/
inductive Location where
  | Cgi (i : V2.Cgi) | Sai (i : V2.Sai) | Rai (i : V2.Rai) | Tai (i : V2.Tai) | Ecgi (i : V2.Ecgi) | Lai (i : V2.Lai)
  | MacroEnbId (i : V2.MacroEnbId) | ExtMacroEnbId (i : V2.ExtMacroEnbId)
deriving DecidableEq, Repr

namespace Location

/-- The position of the variant, from 1: the flag number of the location. -/
def kind : Location → Nat
  | .Cgi _ => 1 | .Sai _ => 2 | .Rai _ => 3 | .Tai _ => 4 | .Ecgi _ => 5 | .Lai _ => 6 | .MacroEnbId _ => 7 | .ExtMacroEnbId _ => 8

/-- What the derived `PartialOrd` (uli.rs:15) compares, in order: the variant, then the fields. -/
def key : Location → List Nat
  | .Cgi i => [1, i.mcc.toNat, i.mnc.toNat, i.mnc_is_three_digits.toNat, i.lac.toNat, i.ci.toNat]
  | .Sai i => [2, i.mcc.toNat, i.mnc.toNat, i.mnc_is_three_digits.toNat, i.lac.toNat, i.sac.toNat]
  | .Rai i => [3, i.mcc.toNat, i.mnc.toNat, i.mnc_is_three_digits.toNat, i.lac.toNat, i.rac.toNat]
  | .Tai i => [4, i.mcc.toNat, i.mnc.toNat, i.mnc_is_three_digits.toNat, i.tac.toNat]
  | .Ecgi i => [5, i.mcc.toNat, i.mnc.toNat, i.mnc_is_three_digits.toNat, i.eci.toNat]
  | .Lai i => [6, i.mcc.toNat, i.mnc.toNat, i.mnc_is_three_digits.toNat, i.lac.toNat]
  | .MacroEnbId i => [7, i.mcc.toNat, i.mnc.toNat, i.mnc_is_three_digits.toNat, i.macro_id.toNat]
  | .ExtMacroEnbId i => [8, i.mcc.toNat, i.mnc.toNat, i.mnc_is_three_digits.toNat, i.smenb.toNat, i.ext_macro_id.toNat]

/-- Lexicographic comparison. -/
def lexLe : List Nat → List Nat → Bool
  | [], _ => true
  | _ :: _, [] => false
  | a :: as, b :: bs => a < b || (a == b && lexLe as bs)

/-- `partial_cmp(..) != Greater`. -/
def le (a b : Location) : Bool := lexLe a.key b.key

/-- The `marshal` of the location. -/
def octets : Location → Bytes
  | .Cgi i => i.octets | .Sai i => i.octets | .Rai i => i.octets | .Tai i => i.octets | .Ecgi i => i.octets | .Lai i => i.octets
  | .MacroEnbId i => i.octets | .ExtMacroEnbId i => i.octets

/-- The flag of a location, by its number. -/
def bit (k : Nat) : UInt8 := 1 <<< UInt8.ofNat (k - 1)

/-- The loop over the sorted locations (uli.rs:62-113): of every variant only the first is written. -/
def encode : UInt8 → List Location → UInt8 × Bytes
  | fl, [] => (fl, [])
  | fl, l :: ls =>
    if fl &&& bit l.kind = 0 then
      let (f, o) := encode (fl ||| bit l.kind) ls
      (f, l.octets ++ o)
    else encode fl ls

/-- `to_flags` (uli.rs:223-236). -/
def order (fl : UInt8) : List Nat := [1, 2, 3, 4, 5, 6, 7, 8].filter fun k => fl &&& bit k == bit k

/-- One round of the decoder: the location of number `k` at the front of the buffer, and the octets to advance by
(uli.rs:133-189). -/
def read (k : Nat) (s : Bytes) : R Err (Location × Nat) := do
  if k = 1 then
    let i ← V2.Cgi.unmarshal s
    return (.Cgi i, 7)
  else if k = 2 then
    let i ← V2.Sai.unmarshal s
    return (.Sai i, 7)
  else if k = 3 then
    let i ← V2.Rai.unmarshal s
    return (.Rai i, 7)
  else if k = 4 then
    let i ← V2.Tai.unmarshal s
    return (.Tai i, 5)
  else if k = 5 then
    let i ← V2.Ecgi.unmarshal s
    return (.Ecgi i, 7)
  else if k = 6 then
    let i ← V2.Lai.unmarshal s
    return (.Lai i, 5)
  else if k = 7 then
    let i ← V2.MacroEnbId.unmarshal s
    return (.MacroEnbId i, 6)
  else
    let i ← V2.ExtMacroEnbId.unmarshal s
    return (.ExtMacroEnbId i, 6)

/-- The loop over the flags (uli.rs:131-190). -/
def readAll (b : Bytes) : List Nat → Nat → R Err (List Location)
  | [], _ => .ok []
  | k :: ks, c => do
    let s ← slFrom b c
    let (l, n) ← read k s
    let ls ← readAll b ks (c + n)
    return l :: ls

/-- Values that the encoding represents. -/
def WF : Location → Prop
  | .Cgi i => i.WF | .Sai i => i.WF | .Rai i => i.WF | .Tai i => i.WF | .Ecgi i => i.WF | .Lai i => i.WF
  | .MacroEnbId i => i.WF | .ExtMacroEnbId i => i.WF

instance (x : Location) : Decidable x.WF := by cases x <;> unfold WF <;> infer_instance

theorem read_octets {l : Location} (h : l.WF) (tail : Bytes) : read l.kind (l.octets ++ tail) = .ok (l, l.octets.length) := by
  cases l with
  | Cgi i => obtain ⟨h1, h2⟩ := V2.Cgi.elem i h; simp [read, kind, octets, h1, h2]
  | Sai i => obtain ⟨h1, h2⟩ := V2.Sai.elem i h; simp [read, kind, octets, h1, h2]
  | Rai i => obtain ⟨h1, h2⟩ := V2.Rai.elem i h; simp [read, kind, octets, h1, h2]
  | Tai i => obtain ⟨h1, h2⟩ := V2.Tai.elem i h; simp [read, kind, octets, h1, h2]
  | Ecgi i => obtain ⟨h1, h2⟩ := V2.Ecgi.elem i h; simp [read, kind, octets, h1, h2]
  | Lai i => obtain ⟨h1, h2⟩ := V2.Lai.elem i h; simp [read, kind, octets, h1, h2]
  | MacroEnbId i => obtain ⟨h1, h2⟩ := V2.MacroEnbId.elem i h; simp [read, kind, octets, h1, h2]
  | ExtMacroEnbId i => obtain ⟨h1, h2⟩ := V2.ExtMacroEnbId.elem i h; simp [read, kind, octets, h1, h2]

theorem readAll_octets (b : Bytes) : ∀ (ls : List Location) (c : Nat) (tail : Bytes), (∀ l ∈ ls, l.WF) →
    At b c (ls.flatMap octets ++ tail) → readAll b (ls.map kind) c = .ok ls
  | [], _, _, _, _ => rfl
  | l :: ls, c, tail, hw, h => by
    simp only [List.flatMap_cons, List.append_assoc] at h
    have ih := readAll_octets b ls (c + l.octets.length) tail (fun x hx => hw x (by simp [hx])) (h.skip rfl)
    simp [readAll, h.slFrom, read_octets (hw l (by simp)), ih]

/-- The flags of a list of numbers. -/
def flagsOf (fl : UInt8) (ks : List Nat) : UInt8 := ks.foldl (fun f k => f ||| bit k) fl

theorem encode_eq : ∀ (ls : List Location) (fl : UInt8),
    (∀ ks ls', ls.map kind = ks ++ ls' → ∀ k ∈ ls'.head?, flagsOf fl ks &&& bit k = 0) →
    encode fl ls = (flagsOf fl (ls.map kind), ls.flatMap octets)
  | [], _, _ => rfl
  | l :: ls, fl, h => by
    have h0 := h [] _ rfl l.kind (by simp)
    have ih := encode_eq ls (fl ||| bit l.kind) fun ks ls' e k hk => h (l.kind :: ks) ls' (by simp [e]) k hk
    simp only [flagsOf, List.foldl_nil] at h0
    simp [encode, h0, ih, flagsOf]

/-- All sublists. -/
def subs : List Nat → List (List Nat)
  | [] => [[]]
  | a :: l => subs l ++ (subs l).map (a :: ·)

theorem mem_subs {s l : List Nat} (h : s.Sublist l) : s ∈ subs l := by
  induction h with
  | slnil => simp [subs]
  | cons a _ ih => simp [subs, ih]
  | cons_cons a _ ih => simp [subs, ih]

theorem order_flagsOf : ∀ ks ∈ subs [1, 2, 3, 4, 5, 6, 7, 8], order (flagsOf 0 ks) = ks ∧
    ∀ n ≤ 8, ∀ k ∈ (ks.drop n).head?, flagsOf 0 (ks.take n) &&& bit k = 0 := by decide +kernel

theorem le_of_kind {a b : Location} (h : a.kind < b.kind) : a.le b = true := by
  cases a <;> cases b <;> simp only [kind, Nat.reduceLT, Nat.lt_irrefl] at h <;> simp [le, key, lexLe]

theorem read_safe (k : Nat) (s : Bytes) : (read k s).Safe fun p => p.2 ≤ 7 ∧ (k ≠ 3 → p.2 ≤ s.length) := by
  safe_simp [read]
  refine ⟨fun _ => Safe.mono (V2.Cgi.elem_safe _) fun _ _ => ?_, fun _ => ⟨fun _ => Safe.mono (V2.Sai.elem_safe _) fun _ _ => ?_,
    fun _ => ⟨fun _ => Safe.mono (V2.Rai.elem_safe _) fun _ _ => ?_, fun _ => ⟨fun _ => Safe.mono (V2.Tai.elem_safe _) fun _ _ => ?_,
    fun _ => ⟨fun _ => Safe.mono (V2.Ecgi.elem_safe _) fun _ _ => ?_, fun _ => ⟨fun _ => Safe.mono (V2.Lai.elem_safe _) fun _ _ => ?_,
    fun _ => ⟨fun _ => Safe.mono (V2.MacroEnbId.elem_safe _) fun _ _ => ?_,
      fun _ => Safe.mono (V2.ExtMacroEnbId.elem_safe _) fun _ _ => ?_⟩⟩⟩⟩⟩⟩⟩ <;> omega

/-- The cursor stays inside the buffer: only the routing area, read from six octets, advances by seven. -/
theorem readAll_safe (b : Bytes) : ∀ (ks : List Nat) (c : Nat), c ≤ b.length → ks.Nodup →
    (3 ∈ ks → c + 7 * (ks.idxOf 3 + 1) ≤ b.length) → (readAll b ks c).Safe fun _ => True
  | [], _, _, _, _ => trivial
  | k :: ks, c, hc, hn, h3 => by
    simp only [List.nodup_cons] at hn
    rw [readAll, Safe_bind, Safe_slFrom]
    refine ⟨hc, ?_⟩
    rw [Safe_bind]
    refine Safe.mono (read_safe k _) fun ⟨l, n⟩ hln => ?_
    simp only [List.length_drop] at hln
    rw [Safe_bind]
    refine Safe.mono (readAll_safe b ks (c + n) ?_ hn.2 ?_) fun _ _ => trivial
    · by_cases hk : k = 3
      · have := h3 (by simp [hk]); omega
      · have := hln.2 hk; omega
    · intro h
      by_cases hk : k = 3
      · exact absurd h (hk ▸ hn.1)
      · have h1 := h3 (by simp [h])
        have h2 : (k :: ks).idxOf 3 = ks.idxOf 3 + 1 := by
          rw [List.idxOf_cons, show (k == 3) = false by simpa using hk]; rfl
        omega

theorem order_safe : ∀ fl : UInt8, (order fl).Nodup ∧ (order fl).idxOf 3 ≤ 2 + 6 * (fl &&& 0x04 == 0).toNat ∧ (fl &&& 0x04 = 0 → 3 ∉ order fl) := by
  decide +kernel

end Location
''')
ie('Uli', 'uli.rs', 0, [('loc', 'List Location')], 'x.body', length='1 + (x.loc.flatMap Location.octets).length', check=True, len='U', bound=True,
   note='',
   wf=[('hs', '(x.loc.map Location.kind).Sublist [1, 2, 3, 4, 5, 6, 7, 8]'), ('hw', '∀ l ∈ x.loc, l.WF')],
   aux='''
/-- Insertion in front of the first element that is not smaller. -/
def insertLe (a : Location) : List Location → List Location
  | [] => [a]
  | b :: r => if Location.le a b then a :: b :: r else b :: insertLe a r

/-- `sorted_loc.sort_by(..)` (uli.rs:61-62): the standard library's sort is stable, and so is this one. -/
def sort (l : List Location) : List Location := l.foldr insertLe []

theorem sort_of_pairwise : ∀ {l : List Location}, l.Pairwise (fun a b => Location.le a b = true) → sort l = l
  | [], _ => rfl
  | [_], _ => rfl
  | a :: b :: r, h => by
    rw [sort, List.foldr_cons, ← sort, sort_of_pairwise (List.Pairwise.of_cons h), insertLe,
      if_pos ((List.pairwise_cons.mp h).1 b (List.mem_cons_self ..))]

/-- The flags and locations (uli.rs:59-115). -/
def body (x : Uli) : Bytes :=
  let (f, o) := Location.encode 0 (sort x.loc)
  f :: o

theorem body_eq {t : UInt8} {length : UInt16} {ins : UInt8} {loc : List Location}
    (hs : (loc.map Location.kind).Sublist [1, 2, 3, 4, 5, 6, 7, 8]) :
    body ⟨t, length, ins, loc⟩ = Location.flagsOf 0 (loc.map Location.kind) :: loc.flatMap Location.octets := by
  have hp : List.Pairwise (· < ·) (loc.map Location.kind) := List.Pairwise.sublist hs (by decide)
  have hp2 : List.Pairwise (fun a b => Location.le a b = true) loc :=
    (List.pairwise_map.mp hp).imp Location.le_of_kind
  have hk := Location.order_flagsOf _ (Location.mem_subs hs)
  have hlen : (loc.map Location.kind).length ≤ 8 := hs.length_le
  rw [body]
  simp only
  rw [sort_of_pairwise hp2, Location.encode_eq]
  intro ks ls' e k hk2
  have h8 : ks.length ≤ 8 := by rw [e] at hlen; simp at hlen; omega
  have := hk.2 ks.length h8 k
  rw [e, List.drop_left, List.take_left] at this
  exact this hk2
''',
   dec='''
let fl ← rd b 4
let loc ← Location.readAll b (Location.order fl) 5''', ret='loc', tyenc='x.t',
   rt='''
have hb := body_eq (t := t) (length := length) (ins := ins) hs
have hk := Location.order_flagsOf _ (Location.mem_subs hs)
simp only [marshal, hb]
obtain ⟨b, hb, e1, e2, h3, h4⟩ := tliv_at (ty := t) (l := length) (ins := ins)
  (body := Location.flagsOf 0 (loc.map Location.kind) :: loc.flatMap Location.octets) tail (by simp [hl]; omega)
simp only [List.cons_append] at h3
have h5 := Location.readAll_octets b loc _ tail hw h3.next
simp only [hb]
cur_simp [unmarshal, e1, e2, h3.rd, hk.1, h5, ht, hi]''',
   lenok='''
simp [marshal, body_eq hs, tliv_eq, len, ieLenU, hl]
omega''',
   safecond='fun b => b.getD 4 0 &&& 0x04 = 0 ∨ 26 ≤ b.length',
   safe='''
intro m b hb hc
unfold declLen at *
try simp only at hc
safe_simp [unmarshal, len, Safe_checkTliv hb]
obtain ⟨k1, k2, k3⟩ := Location.order_safe (b.getD 4 0)
refine fun h => ⟨by omega, by omega, by omega, fun h1 => ⟨by omega, Safe.mono (Location.readAll_safe _ _ _ (by omega) k1 ?_) fun _ _ => by omega⟩⟩
intro hm
by_cases hz : b.getD 4 0 &&& 0x04 = 0
· exact absurd hm (k3 hz)
· have h26 := hc.resolve_left hz
  have : (b.getD 4 0 &&& 0x04 == 0) = false := by simpa using hz
  rw [this] at k2
  simp only [Bool.toNat_false] at k2
  omega''')
