import Verif.V2.Cursor

/-!
# Indication flags, MDT configuration and TWAN identifier

Expanded by `scripts/gen_ies.py`; the citations refer to `/repo/src/gtpv2/messages/ies`.
-/

namespace Gtp.V2

set_option linter.unusedSimpArgs false

/-- Eight flags in an octet, the first in the most significant bit. -/
def oct8 (a b c d e f g h : Bool) : UInt8 :=
  b2u a <<< 7 ||| b2u b <<< 6 ||| b2u c <<< 5 ||| b2u d <<< 4 ||| b2u e <<< 3 ||| b2u f <<< 2 ||| b2u g <<< 1 ||| b2u h

/-- `(i & (0x01 << k)) >> k == 1`. -/
def bitAt (k : UInt8) (i : UInt8) : Bool := (i &&& (0x01 <<< k)) >>> k == 1

theorem bitAt_oct8 (a b c d e f g h : Bool) :
    bitAt 7 (oct8 a b c d e f g h) = a ∧ bitAt 6 (oct8 a b c d e f g h) = b ∧ bitAt 5 (oct8 a b c d e f g h) = c ∧
    bitAt 4 (oct8 a b c d e f g h) = d ∧ bitAt 3 (oct8 a b c d e f g h) = e ∧ bitAt 2 (oct8 a b c d e f g h) = f ∧
    bitAt 1 (oct8 a b c d e f g h) = g ∧ bitAt 0 (oct8 a b c d e f g h) = h := by
  revert a b c d e f g h
  decide +kernel

/-- `Indication` (indication.rs:16-95). -/
structure Indication where
  t : UInt8
  length : UInt16
  ins : UInt8
  daf : Bool
  dtf : Bool
  hi : Bool
  dfi : Bool
  oi : Bool
  isrsi : Bool
  israi : Bool
  sgwci : Bool
  sqci : Bool
  uimsi : Bool
  cfsi : Bool
  crsi : Bool
  ps : Bool
  pt : Bool
  si : Bool
  msv : Bool
  retloc : Bool
  pbic : Bool
  srni : Bool
  s6af : Bool
  s4af : Bool
  mbmdt : Bool
  israu : Bool
  ccrsi : Bool
  cprai : Bool
  arrl : Bool
  ppoff : Bool
  ppon : Bool
  ppsi : Bool
  csfbi : Bool
  clii : Bool
  cpsr : Bool
  nsi : Bool
  uasi : Bool
  dtci : Bool
  bdwi : Bool
  psci : Bool
  pcri : Bool
  aosi : Bool
  aopi : Bool
  roaai : Bool
  epcosi : Bool
  cpopci : Bool
  pmtsmi : Bool
  s11tf : Bool
  pnsi : Bool
  unaccsi : Bool
  wpmsi : Bool
  g5snn26 : Bool
  reprefi : Bool
  g5siwki : Bool
  eevrsi : Bool
  ltemui : Bool
  ltempi : Bool
  enbcrsi : Bool
  tspcmi : Bool
  csrmfi : Bool
  mtedtn : Bool
  mtedta : Bool
  n5gnmi : Bool
  g5cnrs : Bool
  g5cnri : Bool
  s5rho : Bool
  ethpdn : Bool
  nspusi : Bool
  pgwrnsi : Bool
  rppcsi : Bool
  pgwchi : Bool
  sissme : Bool
  nsenbi : Bool
  idfupf : Bool
  emci : Bool
  ltemsai : Bool
  srtpi : Bool
  upipsi : Bool
deriving DecidableEq, Repr

namespace Indication

/-- `From<&Indication> for Vec<u8>` (indication.rs:188-268). -/
def body (x : Indication) : Bytes :=
  [oct8 x.daf x.dtf x.hi x.dfi x.oi x.isrsi x.israi x.sgwci,
   oct8 x.sqci x.uimsi x.cfsi x.crsi x.ps x.pt x.si x.msv,
   oct8 x.retloc x.pbic x.srni x.s6af x.s4af x.mbmdt x.israu x.ccrsi,
   oct8 x.cprai x.arrl x.ppoff x.ppon x.ppsi x.csfbi x.clii x.cpsr,
   oct8 x.nsi x.uasi x.dtci x.bdwi x.psci x.pcri x.aosi x.aopi,
   oct8 x.roaai x.epcosi x.cpopci x.pmtsmi x.s11tf x.pnsi x.unaccsi x.wpmsi,
   oct8 x.g5snn26 x.reprefi x.g5siwki x.eevrsi x.ltemui x.ltempi x.enbcrsi x.tspcmi,
   oct8 x.csrmfi x.mtedtn x.mtedta x.n5gnmi x.g5cnrs x.g5cnri x.s5rho x.ethpdn,
   oct8 x.nspusi x.pgwrnsi x.rppcsi x.pgwchi x.sissme x.nsenbi x.idfupf x.emci,
   oct8 false false false false false x.ltemsai x.srtpi x.upipsi]

/-- `convert` (indication.rs:271-374) applied to a fresh value: octets beyond the tenth are ignored and flags of
absent octets keep their default, false. -/
def convert (length : UInt16) (ins : UInt8) (s : Bytes) : Indication :=
  { t := 77, length, ins,
    daf := bitAt 7 (s.getD 0 0), dtf := bitAt 6 (s.getD 0 0), hi := bitAt 5 (s.getD 0 0), dfi := bitAt 4 (s.getD 0 0), oi := bitAt 3 (s.getD 0 0), isrsi := bitAt 2 (s.getD 0 0), israi := bitAt 1 (s.getD 0 0), sgwci := bitAt 0 (s.getD 0 0),
    sqci := bitAt 7 (s.getD 1 0), uimsi := bitAt 6 (s.getD 1 0), cfsi := bitAt 5 (s.getD 1 0), crsi := bitAt 4 (s.getD 1 0), ps := bitAt 3 (s.getD 1 0), pt := bitAt 2 (s.getD 1 0), si := bitAt 1 (s.getD 1 0), msv := bitAt 0 (s.getD 1 0),
    retloc := bitAt 7 (s.getD 2 0), pbic := bitAt 6 (s.getD 2 0), srni := bitAt 5 (s.getD 2 0), s6af := bitAt 4 (s.getD 2 0), s4af := bitAt 3 (s.getD 2 0), mbmdt := bitAt 2 (s.getD 2 0), israu := bitAt 1 (s.getD 2 0), ccrsi := bitAt 0 (s.getD 2 0),
    cprai := bitAt 7 (s.getD 3 0), arrl := bitAt 6 (s.getD 3 0), ppoff := bitAt 5 (s.getD 3 0), ppon := bitAt 4 (s.getD 3 0), ppsi := bitAt 3 (s.getD 3 0), csfbi := bitAt 2 (s.getD 3 0), clii := bitAt 1 (s.getD 3 0), cpsr := bitAt 0 (s.getD 3 0),
    nsi := bitAt 7 (s.getD 4 0), uasi := bitAt 6 (s.getD 4 0), dtci := bitAt 5 (s.getD 4 0), bdwi := bitAt 4 (s.getD 4 0), psci := bitAt 3 (s.getD 4 0), pcri := bitAt 2 (s.getD 4 0), aosi := bitAt 1 (s.getD 4 0), aopi := bitAt 0 (s.getD 4 0),
    roaai := bitAt 7 (s.getD 5 0), epcosi := bitAt 6 (s.getD 5 0), cpopci := bitAt 5 (s.getD 5 0), pmtsmi := bitAt 4 (s.getD 5 0), s11tf := bitAt 3 (s.getD 5 0), pnsi := bitAt 2 (s.getD 5 0), unaccsi := bitAt 1 (s.getD 5 0), wpmsi := bitAt 0 (s.getD 5 0),
    g5snn26 := bitAt 7 (s.getD 6 0), reprefi := bitAt 6 (s.getD 6 0), g5siwki := bitAt 5 (s.getD 6 0), eevrsi := bitAt 4 (s.getD 6 0), ltemui := bitAt 3 (s.getD 6 0), ltempi := bitAt 2 (s.getD 6 0), enbcrsi := bitAt 1 (s.getD 6 0), tspcmi := bitAt 0 (s.getD 6 0),
    csrmfi := bitAt 7 (s.getD 7 0), mtedtn := bitAt 6 (s.getD 7 0), mtedta := bitAt 5 (s.getD 7 0), n5gnmi := bitAt 4 (s.getD 7 0), g5cnrs := bitAt 3 (s.getD 7 0), g5cnri := bitAt 2 (s.getD 7 0), s5rho := bitAt 1 (s.getD 7 0), ethpdn := bitAt 0 (s.getD 7 0),
    nspusi := bitAt 7 (s.getD 8 0), pgwrnsi := bitAt 6 (s.getD 8 0), rppcsi := bitAt 5 (s.getD 8 0), pgwchi := bitAt 4 (s.getD 8 0), sissme := bitAt 3 (s.getD 8 0), nsenbi := bitAt 2 (s.getD 8 0), idfupf := bitAt 1 (s.getD 8 0), emci := bitAt 0 (s.getD 8 0),
    ltemsai := bitAt 2 (s.getD 9 0), srtpi := bitAt 1 (s.getD 9 0), upipsi := bitAt 0 (s.getD 9 0) }

theorem convert_body (t : UInt8) (length : UInt16) (ins : UInt8) (daf dtf hi dfi oi isrsi israi sgwci sqci uimsi cfsi crsi ps pt si msv retloc pbic srni s6af s4af mbmdt israu ccrsi cprai arrl ppoff ppon ppsi csfbi clii cpsr nsi uasi dtci bdwi psci pcri aosi aopi roaai epcosi cpopci pmtsmi s11tf pnsi unaccsi wpmsi g5snn26 reprefi g5siwki eevrsi ltemui ltempi enbcrsi tspcmi csrmfi mtedtn mtedta n5gnmi g5cnrs g5cnri s5rho ethpdn nspusi pgwrnsi rppcsi pgwchi sissme nsenbi idfupf emci ltemsai srtpi upipsi : Bool) :
    convert length ins (body ⟨t, length, ins, daf, dtf, hi, dfi, oi, isrsi, israi, sgwci, sqci, uimsi, cfsi, crsi, ps, pt, si, msv, retloc, pbic, srni, s6af, s4af, mbmdt, israu, ccrsi, cprai, arrl, ppoff, ppon, ppsi, csfbi, clii, cpsr, nsi, uasi, dtci, bdwi, psci, pcri, aosi, aopi, roaai, epcosi, cpopci, pmtsmi, s11tf, pnsi, unaccsi, wpmsi, g5snn26, reprefi, g5siwki, eevrsi, ltemui, ltempi, enbcrsi, tspcmi, csrmfi, mtedtn, mtedta, n5gnmi, g5cnrs, g5cnri, s5rho, ethpdn, nspusi, pgwrnsi, rppcsi, pgwchi, sissme, nsenbi, idfupf, emci, ltemsai, srtpi, upipsi⟩) = ⟨77, length, ins, daf, dtf, hi, dfi, oi, isrsi, israi, sgwci, sqci, uimsi, cfsi, crsi, ps, pt, si, msv, retloc, pbic, srni, s6af, s4af, mbmdt, israu, ccrsi, cprai, arrl, ppoff, ppon, ppsi, csfbi, clii, cpsr, nsi, uasi, dtci, bdwi, psci, pcri, aosi, aopi, roaai, epcosi, cpopci, pmtsmi, s11tf, pnsi, unaccsi, wpmsi, g5snn26, reprefi, g5siwki, eevrsi, ltemui, ltempi, enbcrsi, tspcmi, csrmfi, mtedtn, mtedta, n5gnmi, g5cnrs, g5cnri, s5rho, ethpdn, nspusi, pgwrnsi, rppcsi, pgwchi, sissme, nsenbi, idfupf, emci, ltemsai, srtpi, upipsi⟩ := by
  simp only [convert, body, List.getD_cons_succ, List.getD_cons_zero, bitAt_oct8]

/-- `marshal` (indication.rs:375-384). -/
def marshal (x : Indication) : Bytes :=
  tliv 77 x.length x.ins (x.body)

/-- `unmarshal` (indication.rs:386-398). -/
def unmarshal (_m : Mode) (b : Bytes) : R Err Indication := do
  if 4 ≤ b.length then
    let length ← rd16 b 1
    let ins ← rd b 3
    let s ← sl b 4 (length.toNat + 4)
    return convert length (ins &&& 0x0f) s
  else .err (.ieInvalidLength 77)

/-- `len` (indication.rs:400-402). -/
def len (_m : Mode) (x : Indication) : R Err Nat := ieLenU x.length

/-- Field values that the encoding of a `Indication` can represent. -/
def WF (x : Indication) : Prop := x.t = 77 ∧ x.length.toNat = 10 ∧ x.ins < 16

instance (x : Indication) : Decidable x.WF := by unfold WF; infer_instance

theorem rt : RoundTrips WF marshal unmarshal := by
  intro m x tail h
  obtain ⟨t, length, ins, daf, dtf, hi, dfi, oi, isrsi, israi, sgwci, sqci, uimsi, cfsi, crsi, ps, pt, si, msv, retloc, pbic, srni, s6af, s4af, mbmdt, israu, ccrsi, cprai, arrl, ppoff, ppon, ppsi, csfbi, clii, cpsr, nsi, uasi, dtci, bdwi, psci, pcri, aosi, aopi, roaai, epcosi, cpopci, pmtsmi, s11tf, pnsi, unaccsi, wpmsi, g5snn26, reprefi, g5siwki, eevrsi, ltemui, ltempi, enbcrsi, tspcmi, csrmfi, mtedtn, mtedta, n5gnmi, g5cnrs, g5cnri, s5rho, ethpdn, nspusi, pgwrnsi, rppcsi, pgwchi, sissme, nsenbi, idfupf, emci, ltemsai, srtpi, upipsi⟩ := x
  obtain ⟨ht, hl, hi⟩ := h
  simp only at ht hl hi
  simp only [marshal]
  generalize hbd : body _ = bd
  have hl2 : length.toNat = bd.length := by rw [hl, ← hbd]; rfl
  obtain ⟨b, hb, e1, e2, h3, h4⟩ := tliv_at (ty := 77) (ins := ins) tail hl2
  have h5 := h3.sl (ε := Err) (n := length.toNat + 4) (by omega)
  simp only [hb]
  cur_simp [unmarshal, e1, e2, h5, ← hbd, convert_body, ht, hi]

theorem len_ok : LenOk WF marshal len := by
  intro m x h
  obtain ⟨t, length, ins, daf, dtf, hi, dfi, oi, isrsi, israi, sgwci, sqci, uimsi, cfsi, crsi, ps, pt, si, msv, retloc, pbic, srni, s6af, s4af, mbmdt, israu, ccrsi, cprai, arrl, ppoff, ppon, ppsi, csfbi, clii, cpsr, nsi, uasi, dtci, bdwi, psci, pcri, aosi, aopi, roaai, epcosi, cpopci, pmtsmi, s11tf, pnsi, unaccsi, wpmsi, g5snn26, reprefi, g5siwki, eevrsi, ltemui, ltempi, enbcrsi, tspcmi, csrmfi, mtedtn, mtedta, n5gnmi, g5cnrs, g5cnri, s5rho, ethpdn, nspusi, pgwrnsi, rppcsi, pgwchi, sissme, nsenbi, idfupf, emci, ltemsai, srtpi, upipsi⟩ := x
  obtain ⟨ht, hl, hi⟩ := h
  simp only at ht hl hi
  simp [marshal, body, tliv_eq, len, ieLenU, hl]

theorem safe : SafeIf (fun b => (declLen b).toNat + 4 ≤ b.length) unmarshal len := by
  intro m b hb hc
  unfold declLen at *
  try simp only at hc
  safe_simp [unmarshal, len, convert]
  safe_fin

end Indication

/-- `enum MdtJobType` (mdtconfiguration.rs:15-24). -/
inductive MdtJobType where
  | ImmediateMdtonly | LoggedMdtonly | TraceOnly | ImmediateMdtandTrace | RlfReportsonly
  | RcefReportsonly | LoggedMbsfnMdt
deriving DecidableEq, Repr

namespace MdtJobType

/-- The code written for a `MdtJobType` (mdtconfiguration.rs). -/
def toU8 : MdtJobType → UInt8
  | .ImmediateMdtonly => 0
  | .LoggedMdtonly => 1
  | .TraceOnly => 2
  | .ImmediateMdtandTrace => 3
  | .RlfReportsonly => 4
  | .RcefReportsonly => 5
  | .LoggedMbsfnMdt => 6

/-- The `MdtJobType` read from a code (mdtconfiguration.rs). -/
def ofU8 (i : UInt8) : MdtJobType :=
  if i = 0 then .ImmediateMdtonly
  else if i = 1 then .LoggedMdtonly
  else if i = 2 then .TraceOnly
  else if i = 3 then .ImmediateMdtandTrace
  else if i = 4 then .RlfReportsonly
  else if i = 5 then .RcefReportsonly
  else if i = 6 then .LoggedMbsfnMdt
  else .ImmediateMdtonly

@[gtp] theorem ofU8_toU8 (v : MdtJobType) : ofU8 v.toU8 = v := by cases v <;> rfl

end MdtJobType

/-- `MdtPlmn` (mdtconfiguration.rs:57-62). -/
structure MdtPlmn where
  mcc : UInt16
  mnc : UInt16
  mnc_is_three_digits : Bool
deriving DecidableEq, Repr

/-- The three octets of a PLMN (mdtconfiguration.rs:155-160). -/
def MdtPlmn.octets (p : MdtPlmn) : Bytes := mccMncEncode p.mcc p.mnc p.mnc_is_three_digits

/-- `while cursor < buffer.len() { if buffer.len() >= cursor + 3 { .. } else { return Err(..) } }`
(mdtconfiguration.rs:218-231), on the rest of the buffer. -/
def rdMdtPlmns : Bytes → R Err (List MdtPlmn)
  | [] => .ok []
  | p0 :: p1 :: p2 :: r => do
    let (mcc, mnc, mnc_is_three_digits) ← mccMncDecode [p0, p1, p2]
    let ps ← rdMdtPlmns r
    return { mcc, mnc, mnc_is_three_digits } :: ps
  | _ => .err (.ieInvalidLength 162)

theorem rdMdtPlmns_octets (ps : List MdtPlmn) (h : ∀ p ∈ ps, PlmnOk p.mcc p.mnc p.mnc_is_three_digits) :
    rdMdtPlmns (ps.flatMap MdtPlmn.octets) = .ok ps := by
  induction ps with
  | nil => rfl
  | cons p ps ih =>
    obtain ⟨p0, p1, p2, e1, e2⟩ := mccMnc_roundtrip3 (h p (by simp))
    have ih := ih fun q hq => h q (by simp [hq])
    simp only [List.flatMap_cons, MdtPlmn.octets, e1, List.cons_append, List.nil_append] at ih ⊢
    simp [rdMdtPlmns, mccMncDecode, rd, e2, ih]

theorem MdtPlmn.octets_length (p : MdtPlmn) : p.octets.length = 3 := by simp [MdtPlmn.octets, mccMncEncode_length]

theorem mdtPlmns_length (ps : List MdtPlmn) : (ps.flatMap MdtPlmn.octets).length = 3 * ps.length := by
  induction ps with
  | nil => rfl
  | cons p ps ih => simp [List.flatMap_cons, MdtPlmn.octets_length, ih]; omega

theorem rdMdtPlmns_safe (b : Bytes) : (rdMdtPlmns b).Safe fun _ => True := by
  induction b using rdMdtPlmns.induct with
  | case1 => simp [rdMdtPlmns, R.Safe]
  | case2 p0 p1 p2 r ih =>
    simp only [rdMdtPlmns, Safe_bind]
    refine mccMncDecode_safe (by simp) fun x => ?_
    try simp only [Safe_bind]
    exact Safe.mono ih fun _ _ => by simp [R.pure_eq, R.Safe]
  | case3 b h1 h2 =>
    unfold rdMdtPlmns
    split
    · simp [R.Safe]
    · exact absurd rfl (h2 _ _ _ _)
    · simp [R.Safe]

/-- `if flag && buffer.len() > cursor { v = Some(buffer[cursor]); cursor += 1 }`. -/
def rdOpt8 (flag : Bool) (b : Bytes) (c : Nat) : R Err (Option UInt8 × Nat) := do
  if flag ∧ c < b.length then
    let v ← rd b c
    return (some v, c + 1)
  else return (none, c)

theorem rdOpt8_at {b r : Bytes} {c : Nat} {v : Option UInt8} (h : At b c (v.toList ++ r)) :
    ∃ c', rdOpt8 v.isSome b c = .ok (v, c') ∧ At b c' r := by
  cases v with
  | none => exact ⟨c, by simp [rdOpt8], by simpa using h⟩
  | some x =>
    simp only [Option.toList, List.cons_append, List.nil_append] at h
    have hl := h.length
    simp only [List.length_cons] at hl
    exact ⟨c + 1, by simp [rdOpt8, h.rd]; omega, h.next⟩

theorem rdOpt8_safe {flag : Bool} {b : Bytes} {c : Nat} : (rdOpt8 flag b c).Safe fun p => p.2 ≤ c + 1 := by
  safe_simp [rdOpt8]
  safe_fin

/-- The presence octet of the MDT configuration (mdtconfiguration.rs:127-143). -/
def mdtFlags (crrmi mpi pmi pli : Bool) : UInt8 :=
  (if crrmi then 1 else 0) ||| (if mpi then 2 else 0) ||| (if pmi then 4 else 0) ||| (if pli then 8 else 0)

theorem mdtFlags_dec (crrmi mpi pmi pli : Bool) :
    (mdtFlags crrmi mpi pmi pli >>> 3 == 1) = pli ∧ (mdtFlags crrmi mpi pmi pli >>> 2 &&& 1 == 1) = pmi ∧
    (mdtFlags crrmi mpi pmi pli >>> 1 &&& 1 == 1) = mpi ∧ (mdtFlags crrmi mpi pmi pli &&& 1 == 1) = crrmi := by
  revert crrmi mpi pmi pli
  decide +kernel

/-- `MdtConfiguration` (mdtconfiguration.rs:67-83); `list_measurements` is an array of 4 octets. -/
structure MdtConfiguration where
  t : UInt8
  length : UInt16
  ins : UInt8
  mdt_job_type : MdtJobType
  list_measurements : Bytes
  reporting_trigger : UInt8
  report_interval : UInt8
  report_amount : UInt8
  rsrp_event_threshold : UInt8
  rsrq_event_threshold : UInt8
  area_scope : Option Bytes
  collection_period_rrm : Option UInt8
  measurement_period_lte : Option UInt8
  positioning_method : Option UInt8
  mdt_plmns_list : Option (List MdtPlmn)
deriving DecidableEq, Repr

namespace MdtConfiguration

/-- The octets behind the instance octet (mdtconfiguration.rs:117-163). -/
def body (x : MdtConfiguration) : Bytes :=
  x.mdt_job_type.toU8 :: (x.list_measurements ++ x.reporting_trigger :: x.report_interval :: x.report_amount ::
    x.rsrp_event_threshold :: x.rsrq_event_threshold :: (lvOpt x.area_scope ++
    mdtFlags x.collection_period_rrm.isSome x.measurement_period_lte.isSome x.positioning_method.isSome x.mdt_plmns_list.isSome ::
    (x.collection_period_rrm.toList ++ (x.measurement_period_lte.toList ++ (x.positioning_method.toList ++
    optEnc (fun ps => UInt8.ofNat ps.length :: ps.flatMap MdtPlmn.octets) x.mdt_plmns_list)))))

/-- `let len = buffer[cursor] as usize; cursor += 1; match len { 0 => (), _ => { area_scope =
Some(buffer[cursor..cursor + len].to_vec()); cursor += len } }` (mdtconfiguration.rs:187-195). -/
def rdScope (b : Bytes) (c : Nat) : R Err (Option Bytes × Nat) := do
  let l ← rd b c
  if l.toNat = 0 then return (none, c + 1)
  else
    let s ← sl b (c + 1) (c + 1 + l.toNat)
    return (some s, c + 1 + l.toNat)

theorem rdScope_at {b r : Bytes} {c : Nat} {v : Option Bytes} (h : At b c (lvOpt v ++ r)) (hv : LvOk0 v) :
    ∃ c', rdScope b c = .ok (v, c') ∧ At b c' r := by
  rcases hv with rfl | ⟨s, rfl, h1, h2⟩
  · simp only [lvOpt, List.cons_append, List.nil_append] at h
    exact ⟨c + 1, by simp [rdScope, h.rd], h.next⟩
  · simp only [lvOpt, List.cons_append] at h
    have hs := lenU8_toNat h2
    refine ⟨c + 1 + s.length, ?_, h.next.skip rfl⟩
    simp only [rdScope, h.rd, R.ok_bind, hs, h.next.sl rfl, R.pure_eq]
    rw [if_neg (by omega)]

theorem rdScope_safe {b : Bytes} {c : Nat} (h : c + 256 ≤ b.length) : (rdScope b c).Safe fun p => p.2 ≤ c + 256 := by
  have := toNat_lt256 (b.getD c 0)
  safe_simp [rdScope]
  refine ⟨by omega, fun _ => by omega, fun _ => ⟨⟨by omega, by omega⟩, by omega⟩⟩

/-- The PLMN list (mdtconfiguration.rs:214-236): read to the end of the buffer. -/
def rdPlmnList (pli : Bool) (b : Bytes) (c : Nat) : R Err (Option (List MdtPlmn)) := do
  if pli then
    let n ← rd b c
    if n < 16 then
      if c + 1 + n.toNat * 3 ≤ b.length then
        let r ← slFrom b (c + 1)
        let ps ← rdMdtPlmns r
        return some ps
      else .err (.ieInvalidLength 162)
    else .err (.ieIncorrect 162)
  else return none

/-- `marshal` (mdtconfiguration.rs:114-170). -/
def marshal (x : MdtConfiguration) : Bytes :=
  tliv 162 x.length x.ins (x.body)

/-- `unmarshal` (mdtconfiguration.rs:172-249). -/
def unmarshal (_m : Mode) (b : Bytes) : R Err MdtConfiguration := do
  if 15 ≤ b.length then
    let length ← rd16 b 1
    let ins ← rd b 3
    let v ← rd b 4
    let list_measurements ← sl b 5 9
    let reporting_trigger ← rd b 9
    let report_interval ← rd b 10
    let report_amount ← rd b 11
    let rsrp_event_threshold ← rd b 12
    let rsrq_event_threshold ← rd b 13
    let (area_scope, c) ← rdScope b 14
    let fl ← rd b c
    let (collection_period_rrm, c) ← rdOpt8 (fl &&& 1 == 1) b (c + 1)
    let (measurement_period_lte, c) ← rdOpt8 (fl >>> 1 &&& 1 == 1) b c
    let (positioning_method, c) ← rdOpt8 (fl >>> 2 &&& 1 == 1) b c
    let mdt_plmns_list ← rdPlmnList (fl >>> 3 == 1) b c
    return { t := 162, length, ins := ins &&& 0x0f, mdt_job_type := MdtJobType.ofU8 v,
             list_measurements, reporting_trigger, report_interval, report_amount,
             rsrp_event_threshold, rsrq_event_threshold, area_scope, collection_period_rrm,
             measurement_period_lte, positioning_method, mdt_plmns_list }
  else .err (.ieInvalidLength 162)

/-- `len` (mdtconfiguration.rs:251-253). -/
def len (_m : Mode) (x : MdtConfiguration) : R Err Nat := ieLenU x.length

/-- Field values that the encoding of a `MdtConfiguration` can represent. -/
def WF (x : MdtConfiguration) : Prop :=
  x.t = 162 ∧
  x.length.toNat = x.body.length ∧
  x.ins < 16 ∧
  x.list_measurements.length = 4 ∧
  LvOk0 x.area_scope ∧
  x.mdt_plmns_list = none

instance (x : MdtConfiguration) : Decidable x.WF := by unfold WF; infer_instance

/-- Without the requirement that the PLMN list be absent. -/
def WFbut (x : MdtConfiguration) : Prop :=
  x.t = 162 ∧ x.length.toNat = x.body.length ∧ x.ins < 16 ∧ x.list_measurements.length = 4 ∧ LvOk0 x.area_scope

/-- All of the decoder but the PLMN list. -/
theorem unm_eq {m : Mode} {x : MdtConfiguration} {tail : Bytes} {v : Option (List MdtPlmn)} (h : WFbut x)
    (hv : ∀ b c, At b c (optEnc (fun ps => UInt8.ofNat ps.length :: ps.flatMap MdtPlmn.octets) x.mdt_plmns_list ++ tail) →
      rdPlmnList x.mdt_plmns_list.isSome b c = .ok v) :
    unmarshal m (marshal x ++ tail) = .ok { x with mdt_plmns_list := v } := by
  obtain ⟨t, length, ins, mdt_job_type, list_measurements, reporting_trigger, report_interval, report_amount, rsrp_event_threshold,
    rsrq_event_threshold, area_scope, collection_period_rrm, measurement_period_lte, positioning_method, mdt_plmns_list⟩ := x
  obtain ⟨ht, hl, hi, hm, ha⟩ := h
  simp only at ht hl hi hm ha hv
  simp only [marshal]
  obtain ⟨b, hb, e1, e2, h3, h4⟩ := tliv_at (ty := 162) (ins := ins) tail hl
  simp only [body, List.append_assoc, List.cons_append, List.nil_append] at h3
  have h5 : At b 5 _ := h3.next
  have e5 := h5.sl (ε := Err) (n := 9) (by omega)
  have h6 : At b 9 _ := h5.skip (by omega)
  have h7 : At b 10 _ := h6.next
  have h8 : At b 11 _ := h7.next
  have h9 : At b 12 _ := h8.next
  have h10 : At b 13 _ := h9.next
  have h11 : At b 14 _ := h10.next
  obtain ⟨c1, a1, h12⟩ := rdScope_at h11 ha
  obtain ⟨c2, a2, h13⟩ := rdOpt8_at h12.next
  obtain ⟨c3, a3, h14⟩ := rdOpt8_at h13
  obtain ⟨c4, a4, h15⟩ := rdOpt8_at h14
  have a5 := hv _ _ h15
  have hbl := h11.length
  have := lvOpt_length_pos area_scope
  simp only [List.length_append] at hbl
  simp only [hb]
  cur_simp [unmarshal, e1, e2, h3.rd, e5, h6.rd, h7.rd, h8.rd, h9.rd, h10.rd, a1, h12.rd, mdtFlags_dec, a2, a3, a4, a5,
    MdtJobType.ofU8_toU8, ht, hi]

theorem rt : RoundTrips WF marshal unmarshal := by
  intro m x tail h
  obtain ⟨t, length, ins, mdt_job_type, list_measurements, reporting_trigger, report_interval, report_amount, rsrp_event_threshold, rsrq_event_threshold, area_scope, collection_period_rrm, measurement_period_lte, positioning_method, mdt_plmns_list⟩ := x
  obtain ⟨ht, hl, hi, hm, ha, hn⟩ := h
  simp only at ht hl hi hm ha hn
  rw [unm_eq (v := none) ⟨ht, hl, hi, hm, ha⟩ (by intro b c _; subst hn; rfl)]
  simp only [hn]

theorem len_ok : LenOk WF marshal len := by
  intro m x h
  obtain ⟨t, length, ins, mdt_job_type, list_measurements, reporting_trigger, report_interval, report_amount, rsrp_event_threshold, rsrq_event_threshold, area_scope, collection_period_rrm, measurement_period_lte, positioning_method, mdt_plmns_list⟩ := x
  obtain ⟨ht, hl, hi, hm, ha, hn⟩ := h
  simp only at ht hl hi hm ha hn
  simp [marshal, tliv_eq, len, ieLenU, hl]

theorem safe : LooseSafe (fun b => 275 ≤ b.length) unmarshal len := by
  intro m b hb hc
  unfold declLen at *
  try simp only at hc
  safe_simp [unmarshal, len]
  refine fun _ => ⟨by omega, by omega, by omega, by omega, by omega, by omega, by omega, by omega, by omega, by omega, ?_⟩
  refine Safe.mono (rdScope_safe (by omega)) fun ⟨v1, c1⟩ h1 => ?_
  try safe_simp []
  simp only at h1
  refine ⟨by omega, ?_⟩
  refine Safe.mono rdOpt8_safe fun ⟨v2, c2⟩ h2 => ?_
  try safe_simp []
  simp only at h2
  refine Safe.mono rdOpt8_safe fun ⟨v3, c3⟩ h3 => ?_
  try safe_simp []
  simp only at h3
  refine Safe.mono rdOpt8_safe fun ⟨v4, c4⟩ h4 => ?_
  try safe_simp []
  simp only at h4
  safe_simp [rdPlmnList]
  exact fun _ => ⟨by omega, fun _ _ => ⟨by omega, rdMdtPlmns_safe _⟩⟩

end MdtConfiguration

/-- With a PLMN list the IE is read back when nothing follows it in the buffer: the decoder reads PLMNs to the end. -/
theorem MdtConfiguration.rt_last (m : Mode) (x : MdtConfiguration) (ps : List MdtPlmn) (h : x.WFbut)
    (hps : x.mdt_plmns_list = some ps) (hn : ps.length < 16) (hok : ∀ p ∈ ps, PlmnOk p.mcc p.mnc p.mnc_is_three_digits) :
    MdtConfiguration.unmarshal m x.marshal = .ok x := by
  have := unm_eq (m := m) (tail := []) (v := some ps) h ?_
  · rw [List.append_nil] at this
    rw [this]
    cases x; simp_all
  · intro b c hat
    rw [hps, List.append_nil] at hat
    simp only [optEnc] at hat
    have hn1 : (UInt8.ofNat ps.length).toNat = ps.length := by simp; omega
    have hlt : UInt8.ofNat ps.length < 16 := by rw [UInt8.lt_iff_toNat_lt, hn1]; exact hn
    have hl := hat.length
    simp only [List.length_cons, mdtPlmns_length] at hl
    simp only [hps, Option.isSome, rdPlmnList, hat.rd, R.ok_bind, if_true, hlt, hn1, hat.next.slFrom, rdMdtPlmns_octets ps hok, R.pure_eq]
    rw [if_pos (by omega)]

/-- `AdditionalMmContextForSrvcc` (additionalmmctxsrvcc.rs:16-23). -/
structure AdditionalMmContextForSrvcc where
  t : UInt8
  length : UInt16
  ins : UInt8
  mobile_station_classmark2 : Option Bytes
  mobile_station_classmark3 : Option Bytes
  supported_codec_list : Option Bytes
deriving DecidableEq, Repr

namespace AdditionalMmContextForSrvcc

/-- The octets behind the instance octet (additionalmmctxsrvcc.rs:49-66). -/
def body (x : AdditionalMmContextForSrvcc) : Bytes :=
  lvOpt x.mobile_station_classmark2 ++ (lvOpt x.mobile_station_classmark3 ++ lvOpt x.supported_codec_list)

/-- `marshal` (additionalmmctxsrvcc.rs:45-70). -/
def marshal (x : AdditionalMmContextForSrvcc) : Bytes :=
  tliv 159 x.length x.ins (x.body)

/-- `unmarshal` (additionalmmctxsrvcc.rs:72-125). -/
def unmarshal (_m : Mode) (b : Bytes) : R Err AdditionalMmContextForSrvcc := do
  if 5 ≤ b.length then
    let length ← rd16 b 1
    let ins ← rd b 3
    let (mobile_station_classmark2, c) ← rdLv 1 (.ieInvalidLength 159) b 4
    let (mobile_station_classmark3, c) ← rdLv 1 (.ieInvalidLength 159) b c
    let (supported_codec_list, _) ← rdLv 0 (.ieInvalidLength 159) b c
    return { t := 159, length, ins := ins &&& 0x0f, mobile_station_classmark2,
             mobile_station_classmark3, supported_codec_list }
  else .err (.ieInvalidLength 159)

/-- `len` (additionalmmctxsrvcc.rs:127-129). -/
def len (_m : Mode) (x : AdditionalMmContextForSrvcc) : R Err Nat := ieLenU x.length

/-- Field values that the encoding of a `AdditionalMmContextForSrvcc` can represent. -/
def WF (x : AdditionalMmContextForSrvcc) : Prop :=
  x.t = 159 ∧
  x.length.toNat = x.body.length ∧
  x.ins < 16 ∧
  LvOk x.mobile_station_classmark2 ∧
  LvOk x.mobile_station_classmark3 ∧
  LvOk0 x.supported_codec_list

instance (x : AdditionalMmContextForSrvcc) : Decidable x.WF := by unfold WF; infer_instance

theorem rt : RoundTrips WF marshal unmarshal := by
  intro m x tail h
  obtain ⟨t, length, ins, mobile_station_classmark2, mobile_station_classmark3, supported_codec_list⟩ := x
  obtain ⟨ht, hl, hi, h1, h2, h3⟩ := h
  simp only at ht hl hi h1 h2 h3
  simp only [marshal]
  obtain ⟨b, hb, e1, e2, h4, h5⟩ := tliv_at (ty := 159) (ins := ins) tail hl
  simp only [body, List.append_assoc, List.cons_append, List.nil_append] at h4
  have hp := lvOpt_length_pos mobile_station_classmark2
  have hbl := h4.length
  simp only [List.length_append] at hbl
  obtain ⟨c1, a1, h6⟩ := rdLv_at (skip := 1) (e := .ieInvalidLength 159) h4 h1
  obtain ⟨c2, a2, h7⟩ := rdLv_at (skip := 1) (e := .ieInvalidLength 159) h6 h2
  obtain ⟨c3, a3, h8⟩ := rdLv_at0 (e := .ieInvalidLength 159) h7 h3
  simp only [hb]
  cur_simp [unmarshal, e1, e2, a1, a2, a3, ht, hi]

theorem len_ok : LenOk WF marshal len := by
  intro m x h
  obtain ⟨t, length, ins, mobile_station_classmark2, mobile_station_classmark3, supported_codec_list⟩ := x
  obtain ⟨ht, hl, hi, h1, h2, h3⟩ := h
  simp only at ht hl hi h1 h2 h3
  simp [marshal, tliv_eq, len, ieLenU, hl]

theorem safe : LooseSafe (fun b => 517 ≤ b.length) unmarshal len := by
  intro m b hb hc
  unfold declLen at *
  try simp only at hc
  safe_simp [unmarshal, len]
  refine fun _ => ⟨by omega, by omega, by omega, ?_⟩
  refine Safe.mono (rdLv_safe (by omega) (by omega)) fun ⟨v1, c1⟩ h1 => ?_
  try safe_simp []
  simp only at h1
  refine Safe.mono (rdLv_safe (by omega) (by omega)) fun ⟨v2, c2⟩ h2 => ?_
  try safe_simp []
  simp only at h2
  refine Safe.mono (rdLv_safe (by omega) (by omega)) fun ⟨v3, c3⟩ h3 => ?_
  try safe_simp []

end AdditionalMmContextForSrvcc

/-- A stage guarded by `if cursor <= buffer.len() { .. } else { return Err(e) }`. -/
def rdLe {α : Type} (e : Err) (b : Bytes) (st : Nat → R Err α) (c : Nat) : R Err α :=
  if c ≤ b.length then st c else .err e

theorem rdLe_at {α : Type} {e : Err} {b r : Bytes} {st : Nat → R Err α} {c : Nat} (h : At b c r) : rdLe e b st c = st c :=
  if_pos h.le

theorem rdLe_safe {α : Type} {e : Err} {b : Bytes} {st : Nat → R Err α} {c : Nat} {P : α → Prop} (h : (st c).Safe P) :
    (rdLe e b st c).Safe P := by
  unfold rdLe
  split
  · exact h
  · simp [R.Safe]

/-- `mcc_mnc_decode(buffer[cursor..cursor + 3])`, then `cursor += 3`. -/
def rdPlmnS (b : Bytes) (c : Nat) : R Err ((UInt16 × UInt16 × Bool) × Nat) := do
  let s ← sl b c (c + 3)
  let p ← mccMncDecode s
  return (p, c + 3)

theorem rdPlmnS_at {b r : Bytes} {c : Nat} {mcc mnc : UInt16} {d : Bool} (h : At b c (mccMncEncode mcc mnc d ++ r))
    (hp : PlmnOk mcc mnc d) : ∃ c', rdPlmnS b c = .ok ((mcc, mnc, d), c') ∧ At b c' r := by
  obtain ⟨p0, p1, p2, e1, e2⟩ := mccMnc_roundtrip3 hp
  rw [e1] at h
  exact ⟨c + 3, by simp [rdPlmnS, h.sl (ε := Err) (n := c + 3) rfl, mccMncDecode, rd, e2], h.skip rfl⟩

theorem rdPlmnS_safe {b : Bytes} {c : Nat} (h : c + 3 ≤ b.length) : (rdPlmnS b c).Safe fun p => p.2 ≤ c + 3 := by
  simp only [rdPlmnS, Safe_bind, Safe_sl]
  refine ⟨⟨by omega, by omega⟩, mccMncDecode_safe (by simp; omega) fun x => ?_⟩
  simp [R.pure_eq, R.Safe]

/-- `TwanId` (twanid.rs:18-29). -/
structure TwanId where
  t : UInt8
  length : UInt16
  ins : UInt8
  ssid : Bytes
  bssid : Option Bytes
  civic_address : Option Bytes
  twan_plmnid : Option (UInt16 × UInt16 × Bool)
  twan_op_name : Option Str
  relay_id : Option (UInt8 × Bytes)
  circuit_id : Option Bytes
deriving DecidableEq, Repr

namespace TwanId

/-- The presence flags (twanid.rs:59-69). -/
def flags (relay op plmn civic bssid : Bool) : UInt8 :=
  (if relay then 16 else 0) + (if op then 8 else 0) + (if plmn then 4 else 0) + (if civic then 2 else 0) + (if bssid then 1 else 0)

theorem flags_dec (r o p c b : Bool) :
    (flags r o p c b &&& 1 == 1) = b ∧ (flags r o p c b >>> 1 &&& 1 == 1) = c ∧ (flags r o p c b >>> 2 &&& 1 == 1) = p ∧
    (flags r o p c b >>> 3 &&& 1 == 1) = o ∧ (flags r o p c b >>> 4 &&& 1 == 1) = r := by
  revert r o p c b
  decide +kernel

/-- The octets behind the instance octet (twanid.rs:59-99). -/
def body (x : TwanId) : Bytes :=
  flags x.relay_id.isSome x.twan_op_name.isSome x.twan_plmnid.isSome x.civic_address.isSome x.bssid.isSome ::
    lenU8 x.ssid :: (x.ssid ++ (optEnc id x.bssid ++ (optEnc (fun i => lenU8 i :: i) x.civic_address ++
    (optEnc (fun p => mccMncEncode p.1 p.2.1 p.2.2) x.twan_plmnid ++ (optEnc (fun i => lenU8 (utf8 i) :: utf8 i) x.twan_op_name ++
    (optEnc (fun i => i.1 :: lenU8 i.2 :: i.2) x.relay_id ++ optEnc (fun i => lenU8 i :: i) x.circuit_id))))))

/-- The operator name (twanid.rs:143-160). -/
def rdName (b : Bytes) (c : Nat) : R Err (Str × Nat) := do
  let (s, c) ← rdLvU b c
  let v ← R.ofOption (fromUtf8 s) (.ieIncorrect 169)
  return (v, c)

/-- Relay identity and circuit identifier (twanid.rs:161-196). -/
def rdRelay (flag : Bool) (b : Bytes) (c : Nat) : R Err (Option (UInt8 × Bytes) × Option Bytes) := do
  if flag then
    if c < b.length then
      let r ← rd b c
      let (s, c) ← rdLvC (.ieInvalidLength 169) b (c + 1)
      let (k, _) ← rdLe (.ieInvalidLength 169) b (rdLvC (.ieInvalidLength 169) b) c
      return (some (r, s), some k)
    else .err (.ieInvalidLength 169)
  else return (none, none)

theorem rdRelay_at {b r : Bytes} {c : Nat} {u : Option (UInt8 × Bytes)} {v : Option Bytes}
    (h : At b c (optEnc (fun i => i.1 :: lenU8 i.2 :: i.2) u ++ (optEnc (fun i => lenU8 i :: i) v ++ r)))
    (hu : ∀ p ∈ u, p.2.length < 256) (hv : ∀ s ∈ v, s.length < 256) (hrc : v.isSome = u.isSome) :
    rdRelay u.isSome b c = .ok (u, v) := by
  cases u with
  | none => cases v with
    | none => rfl
    | some s => simp at hrc
  | some p => cases v with
    | none => simp at hrc
    | some s =>
      simp only [optEnc, List.cons_append] at h
      have hl := h.length
      simp only [List.length_cons] at hl
      obtain ⟨c1, a1, h1⟩ := rdLvC_at (e := .ieInvalidLength 169) h.next (hu p rfl)
      obtain ⟨c2, a2, h2⟩ := rdLvC_at (e := .ieInvalidLength 169) h1 (hv s rfl)
      cur_simp [rdRelay, h.rd, a1, rdLe_at h1, a2]

/-- `marshal` (twanid.rs:55-100). -/
def marshal (x : TwanId) : Bytes :=
  tliv 169 x.length x.ins (x.body)

/-- `unmarshal` (twanid.rs:102-199). -/
def unmarshal (_m : Mode) (b : Bytes) : R Err TwanId := do
  if 6 ≤ b.length then
    let length ← rd16 b 1
    let ins ← rd b 3
    let fl ← rd b 4
    let (ssid, c) ← rdLvU b 5
    let (bssid, c) ← rdIf (fl &&& 1 == 1) (rdN 6 b) c
    let (civic_address, c) ← rdIf (fl >>> 1 &&& 1 == 1) (rdLe (.ieInvalidLength 169) b (rdLvU b)) c
    let (twan_plmnid, c) ← rdIf (fl >>> 2 &&& 1 == 1) (rdPlmnS b) c
    let (twan_op_name, c) ← rdIf (fl >>> 3 &&& 1 == 1) (rdLe (.ieInvalidLength 169) b (rdName b)) c
    let (relay_id, circuit_id) ← rdRelay (fl >>> 4 &&& 1 == 1) b c
    return { t := 169, length, ins := ins &&& 0x0f, ssid, bssid, civic_address, twan_plmnid,
             twan_op_name, relay_id, circuit_id }
  else .err (.ieInvalidLength 169)

/-- `len` (twanid.rs:201-203). -/
def len (_m : Mode) (x : TwanId) : R Err Nat := ieLenU x.length

/-- Field values that the encoding of a `TwanId` can represent. -/
def WF (x : TwanId) : Prop :=
  x.t = 169 ∧
  x.length.toNat = x.body.length ∧
  x.ins < 16 ∧
  x.ssid.length < 256 ∧
  (∀ s ∈ x.bssid, s.length = 6) ∧
  (∀ s ∈ x.civic_address, s.length < 256) ∧
  (∀ p ∈ x.twan_plmnid, PlmnOk p.1 p.2.1 p.2.2) ∧
  (∀ s ∈ x.twan_op_name, (utf8 s).length < 256) ∧
  (∀ p ∈ x.relay_id, p.2.length < 256) ∧
  (∀ s ∈ x.circuit_id, s.length < 256) ∧
  x.circuit_id.isSome = x.relay_id.isSome

instance (x : TwanId) : Decidable x.WF := by unfold WF; infer_instance

theorem rt : RoundTrips WF marshal unmarshal := by
  intro m x tail h
  obtain ⟨t, length, ins, ssid, bssid, civic_address, twan_plmnid, twan_op_name, relay_id, circuit_id⟩ := x
  obtain ⟨ht, hl, hi, hs, hbs, hcv, hpl, hop, hre, hci, hrc⟩ := h
  simp only at ht hl hi hs hbs hcv hpl hop hre hci hrc
  simp only [marshal]
  obtain ⟨b, hb, e1, e2, h3, h4⟩ := tliv_at (ty := 169) (ins := ins) tail hl
  simp only [body, List.append_assoc, List.cons_append, List.nil_append] at h3
  have hbl := h3.length
  simp only [List.length_cons] at hbl
  have h5 : At b 5 _ := h3.next
  obtain ⟨c1, a1, h6⟩ := rdLvU_at h5 hs
  obtain ⟨c2, a2, h7⟩ := rdIf_at (st := rdN 6 b) h6 (fun x hx hat => rdN_at hat (hbs x hx))
  obtain ⟨c3, a3, h8⟩ := rdIf_at (st := rdLe (.ieInvalidLength 169) b (rdLvU b)) h7 (fun x hx hat => by
    rw [rdLe_at hat]; exact rdLvU_at hat (hcv x hx))
  obtain ⟨c4, a4, h9⟩ := rdIf_at (st := rdPlmnS b) h8 (fun x hx hat => rdPlmnS_at hat (hpl x hx))
  obtain ⟨c5, a5, h10⟩ := rdIf_at (st := rdLe (.ieInvalidLength 169) b (rdName b)) h9 (fun x hx hat => by
    obtain ⟨c', k1, k2⟩ := rdLvU_at hat (hop x hx)
    exact ⟨c', by rw [rdLe_at hat]; simp [rdName, k1, fromUtf8_utf8, R.ofOption_some], k2⟩)
  have a6 := rdRelay_at h10 hre hci hrc
  simp only [hb]
  cur_simp [unmarshal, e1, e2, h3.rd, flags_dec, a1, a2, a3, a4, a5, a6, ht, hi]

theorem len_ok : LenOk WF marshal len := by
  intro m x h
  obtain ⟨t, length, ins, ssid, bssid, civic_address, twan_plmnid, twan_op_name, relay_id, circuit_id⟩ := x
  obtain ⟨ht, hl, hi, hs, hbs, hcv, hpl, hop, hre, hci, hrc⟩ := h
  simp only at ht hl hi hs hbs hcv hpl hop hre hci hrc
  simp [marshal, tliv_eq, len, ieLenU, hl]

theorem safe : LooseSafe (fun b => 1284 ≤ b.length) unmarshal len := by
  intro m b hb hc
  unfold declLen at *
  try simp only at hc
  safe_simp [unmarshal, len]
  refine fun _ => ⟨by omega, by omega, by omega, by omega, ?_⟩
  refine Safe.mono (rdLvU_safe (by omega)) fun ⟨v1, c1⟩ h1 => ?_
  try safe_simp []
  simp only at h1
  refine Safe.mono (rdIf_safe (P := fun c => c ≤ c1 + 6) (by omega) (by safe_simp [rdN]; omega)) fun ⟨v2, c2⟩ h2 => ?_
  try safe_simp []
  simp only at h2
  refine Safe.mono (rdIf_safe (P := fun c => c ≤ c2 + 256) (by omega) (rdLe_safe (rdLvU_safe (by omega)))) fun ⟨v3, c3⟩ h3 => ?_
  try safe_simp []
  simp only at h3
  refine Safe.mono (rdIf_safe (P := fun c => c ≤ c3 + 3) (by omega) (rdPlmnS_safe (by omega))) fun ⟨v4, c4⟩ h4 => ?_
  try safe_simp []
  simp only at h4
  refine Safe.mono (rdIf_safe (P := fun c => c ≤ c4 + 256) (by omega) (rdLe_safe ?_)) fun ⟨v5, c5⟩ h5 => ?_
  · simp only [rdName, Safe_bind]
    refine Safe.mono (rdLvU_safe (by omega)) fun ⟨v, c⟩ h => ?_
    simp only at h
    safe_simp []
    exact fun _ _ => h
  try safe_simp []
  simp only at h5
  safe_simp [rdRelay]
  refine fun _ _ => ⟨by omega, ?_⟩
  refine Safe.mono (rdLvC_safe (by omega)) fun ⟨v6, c6⟩ h6 => ?_
  try safe_simp []
  simp only at h6
  refine Safe.mono (rdLe_safe (rdLvC_safe (by omega))) fun ⟨v7, c7⟩ h7 => ?_
  try safe_simp []

end TwanId

end Gtp.V2
