import Verif.Props.FigureRead

/-! C74 and C90 for MM contexts: the figures 8.38-1 to 8.38-4 of TS 29.274 (GSM and UMTS keys, types 103 to 106). -/

namespace Gtp.Props.MmFigure
open Gtp.V2 Gtp.Props
open Row

/-- Table 8.38-1. -/
def modeCode : SecurityMode → Nat
  | .GsmKeyAndTriplets => 0 | .UmtsKeyUsedCipherAndQuintuplets => 1 | .GsmKeyUsedCipherAndQuintuplets => 2
  | .UmtsKeyAndQuintuplets => 3 | .EpsSecurityContextAndQuadruplets => 4 | .UmtsKeyQuadrupletsAndQuintuplets => 5 | .Spare => 6

/-- Table 8.38-3. -/
def cipherCode : CipherValues → Nat
  | .NoCipher => 0 | .Gea1 => 1 | .Gea2 => 2 | .Gea3 => 3 | .Gea4 => 4 | .Gea5 => 5 | .Gea6 => 6 | .Gea7 => 7

/-- The algorithms GIA4 and GIA5 (TS 24.008). -/
def giaCode : GprsIntegrityProtectionValues → Nat
  | .NoIntegrity => 0 | .Gia4 => 4 | .Gia5 => 5

/-- Figures 8.38-7 and 8.38-8. -/
def tripletFig (x : AuthTriplet) : List Row := [raw x.rand, raw x.sres, raw x.kc]
def quintupletFig (x : AuthQuintuplet) : List Row := raw x.rand :: (lv x.xres ++ [raw x.ck, raw x.ik] ++ lv x.autn)

/-- How many there are. -/
def many {α : Type} (v : Option (List α)) : Nat := (v.map List.length).getD 0

def ambrFig (x : AmbrMM) : List Row := [o4 x.uplink, o4 x.downlink]

/-- Octet 5: security mode, spare, DRXI and the identifier of the key. -/
def firstFig (s : SecurityMode) (drx : Bool) (k : UInt8) : Row := bits [(3, modeCode s), spare 1, flag drx, (3, k.toNat)]

/-- The access restrictions. -/
def accessFig (x : AccessRestrictionMM) : Row :=
  bits [flag x.ecna, flag x.nbna, flag x.hnna, flag x.ena, flag x.ina, flag x.gana, flag x.gena, flag x.una]

/-- What all figures have behind the authentication vectors, up to the voice domain preference. -/
def commonFig (drx : Option Bytes) (sub used : Option AmbrMM) (ue ms mei : Option Bytes) (acc : AccessRestrictionMM) (vdn : Option Bytes) :
    List Row :=
  opt drx (fun d => [raw d]) ++ opt sub ambrFig ++ opt used ambrFig ++ lvo ue ++ lvo ms ++ lvo mei ++ [accessFig acc] ++ lvo vdn

/-- The flag for bit rates above 16 Mbps behind its length: left out if it is not set. -/
def higherFig (h : Bool) : List Row := lv (if h then [1] else [])

/-- The extended access restrictions behind their length. -/
def extFig (v : Option ExtendedAccessRestrictionMM) : List Row :=
  match v with
  | none => [num 1 0]
  | some x => [num 1 1, bits [spare 3, flag x.nruna, flag x.nrusrna, flag x.nrna, flag x.ussrna, flag x.nrsrna]]

/-- Octets 6 and 7 of the contexts with a UMTS key and a cipher. -/
def umtsFig {α : Type} (q : Option (List α)) (iov gupii : Bool) (gia : Option GprsIntegrityProtectionValues) (used sub : Bool) (c : CipherValues) :
    List Row :=
  [bits [(3, many q), flag iov, flag gupii, flag gia.isSome, flag used, flag sub],
   bits [spare 2, (3, (gia.map giaCode).getD 0), (3, cipherCode c)]]

/-- The type and the rows of an MM context with a GSM or UMTS key. -/
def mmFigure : MmContext → Option (Nat × List Row)
  | .MmContextGsmKeyTriplets x => some (103,
      firstFig x.sec_mode x.drx_params.isSome x.cksn ::
      bits [(3, many x.auth_triplets), spare 3, flag x.used_ue_ambr.isSome, flag x.subscr_ue_ambr.isSome] ::
      bits [spare 5, (3, cipherCode x.used_cipher)] :: o8 x.kc ::
      (opt x.auth_triplets (fun l => l.flatMap tripletFig) ++
       commonFig x.drx_params x.subscr_ue_ambr x.used_ue_ambr x.ue_ntwk_cap x.ms_ntwk_cap x.mei x.access_res x.vdn_pref_ue_usage))
  | .MmContextUmtsKeyCipherQuintuplets x => some (104,
      firstFig x.sec_mode x.drx_params.isSome x.ksi ::
      (umtsFig x.auth_quintuplets x.iov_updates_counter.isSome x.gupii x.used_gprs_integrity x.used_ue_ambr.isSome x.subscr_ue_ambr.isSome x.used_cipher ++
       [raw x.ck, raw x.ik] ++ opt x.auth_quintuplets (fun l => l.flatMap quintupletFig) ++
       commonFig x.drx_params x.subscr_ue_ambr x.used_ue_ambr x.ue_ntwk_cap x.ms_ntwk_cap x.mei x.access_res x.vdn_pref_ue_usage ++
       higherFig x.higher_than_16_mbps ++ opt x.iov_updates_counter (fun c => [o1 c])))
  | .MmContextGsmKeyCipherQuintuplets x => some (105,
      firstFig x.sec_mode x.drx_params.isSome x.cksn ::
      bits [(3, many x.auth_quintuplets), spare 3, flag x.used_ue_ambr.isSome, flag x.subscr_ue_ambr.isSome] ::
      bits [spare 5, (3, cipherCode x.used_cipher)] :: o8 x.kc ::
      (opt x.auth_quintuplets (fun l => l.flatMap quintupletFig) ++
       commonFig x.drx_params x.subscr_ue_ambr x.used_ue_ambr x.ue_ntwk_cap x.ms_ntwk_cap x.mei x.access_res x.vdn_pref_ue_usage ++
       higherFig x.higher_than_16_mbps))
  | .MmContextUmtsKeyQuintuplets x => some (106,
      firstFig x.sec_mode x.drx_params.isSome x.ksi ::
      (umtsFig x.auth_quintuplets x.iov_updates_counter.isSome x.gupii x.used_gprs_integrity x.used_ue_ambr.isSome x.subscr_ue_ambr.isSome x.used_cipher ++
       [raw x.ck, raw x.ik] ++ opt x.auth_quintuplets (fun l => l.flatMap quintupletFig) ++
       commonFig x.drx_params x.subscr_ue_ambr x.used_ue_ambr x.ue_ntwk_cap x.ms_ntwk_cap x.mei x.access_res x.vdn_pref_ue_usage ++
       higherFig x.higher_than_16_mbps ++ opt x.iov_updates_counter (fun c => [o1 c]) ++ extFig x.ext_access_res))
  | _ => none

/-! ## The encoders -/

theorem draw_first {s : SecurityMode} {drx : Bool} {k : UInt8} (h : (firstFig s drx k).Fits) :
    (firstFig s drx k).draw = [(mmOct4 s drx k).toNat] := by
  have hk : k.toNat < 8 := h.2 (3, k.toNat) (by simp)
  have key : ∀ k : Fin 8, ∀ drx : Bool, (firstFig s drx (UInt8.ofNat k.val)).draw = [(mmOct4 s drx (UInt8.ofNat k.val)).toNat] := by
    cases s <;> decide +kernel
  simpa using key ⟨k.toNat, hk⟩ drx

theorem draw_access (x : AccessRestrictionMM) : (accessFig x).draw = [x.toU8.toNat] := by
  obtain ⟨a, b, c, d, e, f, g, h⟩ := x
  revert a b c d e f g h
  decide +kernel

theorem draw_counts {n : Nat} {a b c d e : Bool} (h : n < 8) :
    (bits [(3, n), flag a, flag b, flag c, flag d, flag e]).draw = [(mmOct5 n a b c d e).toNat] := by
  have key : ∀ n : Fin 8, ∀ a b c d e : Bool,
    (bits [(3, n.val), flag a, flag b, flag c, flag d, flag e]).draw = [(mmOct5 n.val a b c d e).toNat] := by decide +kernel
  exact key ⟨n, h⟩ a b c d e

theorem draw_counts0 {n : Nat} {d e : Bool} (h : n < 8) :
    (bits [(3, n), spare 3, flag d, flag e]).draw = [(mmOct5 n false false false d e).toNat] := by
  have key : ∀ n : Fin 8, ∀ d e : Bool,
    (bits [(3, n.val), spare 3, flag d, flag e]).draw = [(mmOct5 n.val false false false d e).toNat] := by decide +kernel
  exact key ⟨n, h⟩ d e

theorem draw_cipher (c : CipherValues) : (bits [spare 5, (3, cipherCode c)]).draw = [c.toU8.toNat] := by
  cases c <;> decide +kernel

theorem draw_gia (g : Option GprsIntegrityProtectionValues) (c : CipherValues) :
    (bits [spare 2, (3, (g.map giaCode).getD 0), (3, cipherCode c)]).draw = [(mmOct6 g c).toNat] := by
  rcases g with _ | g
  · cases c <;> decide +kernel
  · cases g <;> cases c <;> decide +kernel

theorem draw_flat {α : Type} {fig : α → List Row} {enc : α → Bytes} (h : ∀ x, (fig x).flatMap draw = (enc x).map UInt8.toNat) (l : List α) :
    (l.flatMap fig).flatMap draw = (l.flatMap enc).map UInt8.toNat := by
  induction l with
  | nil => rfl
  | cons a r ih => simp only [List.flatMap_cons, List.flatMap_append, List.map_append, h, ih]

theorem draw_some {α : Type} {fig : α → List Row} {enc : α → Bytes} (h : ∀ x, (fig x).flatMap draw = (enc x).map UInt8.toNat) (v : Option α) :
    (opt v fig).flatMap draw = (optEnc enc v).map UInt8.toNat := by
  cases v with
  | none => rfl
  | some a => exact h a

theorem draw_triplet (x : AuthTriplet) : (tripletFig x).flatMap draw = x.octets.map UInt8.toNat := by
  simp [tripletFig, draw_raw, AuthTriplet.octets]

theorem draw_quintuplet (x : AuthQuintuplet) : (quintupletFig x).flatMap draw = x.octets.map UInt8.toNat := by
  simp [quintupletFig, draw_raw, draw_lv, AuthQuintuplet.octets]

theorem draw_ambr (x : AmbrMM) : (ambrFig x).flatMap draw = x.octets.map UInt8.toNat := by
  simp [ambrFig, draw_o4, AmbrMM.octets]

theorem draw_common (drx : Option Bytes) (sub used : Option AmbrMM) (ue ms mei : Option Bytes) (acc : AccessRestrictionMM) (vdn : Option Bytes) :
    (commonFig drx sub used ue ms mei acc vdn).flatMap draw =
    (optEnc id drx ++ (optEnc AmbrMM.octets sub ++ (optEnc AmbrMM.octets used ++ (lvOpt ue ++ (lvOpt ms ++ (lvOpt mei ++
      (acc.toU8 :: lvOpt vdn))))))).map UInt8.toNat := by
  have hd : (opt drx fun d => [raw d]).flatMap draw = (optEnc id drx).map UInt8.toNat :=
    draw_some (enc := id) (fun d => by simp [draw_raw]) drx
  simp only [commonFig, List.flatMap_append, hd, draw_some draw_ambr, draw_lvo, List.flatMap_cons, List.flatMap_nil, draw_access,
    List.map_append, List.map_cons, List.append_assoc, List.cons_append, List.nil_append, List.append_nil]

theorem draw_higher (h : Bool) : (higherFig h).flatMap draw = (higherEnc h).map UInt8.toNat := by
  cases h <;> decide +kernel

theorem draw_iov (v : Option UInt8) : (opt v fun c => [o1 c]).flatMap draw = v.toList.map UInt8.toNat := by
  cases v with
  | none => rfl
  | some c => simp [opt, draw_o1]

theorem draw_ext (v : Option ExtendedAccessRestrictionMM) : (extFig v).flatMap draw = (extAccEnc v).map UInt8.toNat := by
  cases v with
  | none => decide +kernel
  | some x =>
    obtain ⟨a, b, c, d, e⟩ := x
    revert a b c d e
    decide +kernel

theorem many_eq {α : Type} (v : Option (List α)) : authN v = many v := by cases v <;> rfl

/-- C74 for MM contexts (partial): a context with a GSM or UMTS key whose values have room in their fields is written as the
figure has it. Missing: EPS security contexts and the contexts with quadruplets (107 and 108). -/
theorem C74_mm_partial (e : MmContext) (f : Nat × List Row) (h : mmFigure e = some f) (hf : ∀ r ∈ f.2, r.Fits) :
    Drawn (IE.marshal (.MmContext e)) f := by
  cases e with
  | MmContextEpsSecurityContextQuadruplets x => cases h
  | MmContextUmtsKeyQuadrupletsQuintuplets x => cases h
  | MmContextGsmKeyTriplets x =>
    cases h
    have h1 := draw_first (hf _ (.head _))
    have h2 : many x.auth_triplets < 8 := (hf _ (.tail _ (.head _))).2 (3, _) (.head _)
    refine drawn rfl ?_
    simp only [List.flatMap_cons, List.flatMap_append, h1, draw_counts0 h2, draw_cipher, draw_o8, draw_common,
      draw_some (draw_flat draw_triplet), MmContextGsmKeyTriplets.body, many_eq, List.map_append, List.map_cons, List.cons_append,
      List.nil_append, List.append_assoc]
  | MmContextGsmKeyCipherQuintuplets x =>
    cases h
    have h1 := draw_first (hf _ (.head _))
    have h2 : many x.auth_quintuplets < 8 := (hf _ (.tail _ (.head _))).2 (3, _) (.head _)
    refine drawn rfl ?_
    simp only [List.flatMap_cons, List.flatMap_append, h1, draw_counts0 h2, draw_cipher, draw_o8, draw_common, draw_higher,
      draw_some (draw_flat draw_quintuplet), MmContextGsmKeyCipherQuintuplets.body, many_eq, List.map_append, List.map_cons, List.cons_append,
      List.nil_append, List.append_assoc]
  | MmContextUmtsKeyCipherQuintuplets x =>
    cases h
    have h1 := draw_first (hf _ (.head _))
    have h2 : many x.auth_quintuplets < 8 := (hf _ (.tail _ (.head _))).2 (3, _) (.head _)
    refine drawn rfl ?_
    simp only [List.flatMap_cons, List.flatMap_nil, List.flatMap_append, h1, umtsFig, draw_counts h2, draw_gia, draw_raw, draw_common, draw_higher, draw_iov,
      draw_some (draw_flat draw_quintuplet), MmContextUmtsKeyCipherQuintuplets.body, many_eq, List.map_append, List.map_cons, List.cons_append,
      List.nil_append, List.append_nil, List.append_assoc]
  | MmContextUmtsKeyQuintuplets x =>
    cases h
    have h1 := draw_first (hf _ (.head _))
    have h2 : many x.auth_quintuplets < 8 := (hf _ (.tail _ (.head _))).2 (3, _) (.head _)
    refine drawn rfl ?_
    simp only [List.flatMap_cons, List.flatMap_nil, List.flatMap_append, h1, umtsFig, draw_counts h2, draw_gia, draw_raw, draw_common, draw_higher, draw_iov,
      draw_ext, draw_some (draw_flat draw_quintuplet), MmContextUmtsKeyQuintuplets.body, many_eq, List.map_append, List.map_cons, List.cons_append,
      List.nil_append, List.append_nil, List.append_assoc]

/-- C90 for MM contexts (partial): from octets that show the figure, with any spare bits in the fourth, the values of `IE.WF` are
understood. Missing: types 107 and 108, and that no other values are. -/
theorem C90_mm_partial (m : Mode) (e : MmContext) (f : Nat × List Row) (h : mmFigure e = some f) (hf : ∀ r ∈ f.2, r.Fits)
    (hw : (IE.MmContext e).WF) : Understood m (.MmContext e) f := by
  intro b tail hb hdr hbi
  have hm := C74_mm_partial e f h hf
  obtain ⟨r, hr, h3⟩ := IE.marshal_cons (.MmContext e)
  have h4 : 4 ≤ (IE.MmContext e).marshal.length := by rw [hr]; exact Nat.succ_le_succ h3
  have hs := decodeOne_marshal (m := m) hw (tail := tail) (decoder_encoder (m := m) fun _ hy => IE.WF_members hw hy)
  obtain ⟨t, a, l, i, j, s, e1, e2⟩ := drawn_same hm hdr h4 hb
  have ht : t ≠ 189 := by
    have h5 := hm.1
    rw [e1] at h5
    intro hc
    subst hc
    cases e <;> cases h <;> simp at h5
  rw [e1] at hs
  rw [e2] at hbi ⊢
  have := decodeOne_ins (i := j) ht hs
  rw [show instanceOf t j = (IE.MmContext e).ins from hbi, setIns_self] at this
  exact this

/-- A context with a GSM key, a triplet, a bit rate and the network capability of the terminal. -/
def exGsm : MmContext := .MmContextGsmKeyTriplets
  ⟨103, 57, 0, .GsmKeyAndTriplets, 5, .Gea3, 0x0102030405060708, some [⟨List.replicate 16 7, [1, 2, 3, 4], List.replicate 8 9⟩], none,
   some ⟨1000, 2000⟩, none, some [0xf0, 0x70], some [0xe5], some [0x53], ⟨true, false, false, false, false, false, false, false⟩, some [3]⟩

example : (∃ f, mmFigure exGsm = some f ∧ (∀ r ∈ f.2, r.Fits) ∧ Drawn (IE.marshal (.MmContext exGsm)) f) ∧ (IE.MmContext exGsm).WF :=
  ⟨⟨_, rfl, by decide +kernel, by decide +kernel⟩, by decide +kernel⟩

/-- A context with a UMTS key that has nothing optional. -/
def exUmts : MmContext := .MmContextUmtsKeyCipherQuintuplets
  ⟨104, 41, 0, .UmtsKeyUsedCipherAndQuintuplets, 5, .Gea3, none, false, List.replicate 16 7, List.replicate 16 9, none, none, none, none, none, none,
   none, ⟨false, false, false, false, false, false, false, false⟩, none, false, none⟩

/-- A context with a GSM key without the identity of the equipment. -/
def exNoMei : MmContext := .MmContextGsmKeyTriplets
  ⟨103, 20, 0, .GsmKeyAndTriplets, 5, .Gea3, 0x0102030405060708, none, none, none, none, some [0xf0, 0x70], some [0xe5], none,
   ⟨true, false, false, false, false, false, false, false⟩, some [3]⟩

/-- C90 violated: a context with a UMTS key and without a counter of IOV updates, as the figure has it, is rejected, also one without
the identity of the equipment: the octet behind an absent one is skipped, so that the access restrictions are read from the length of
the voice domain preference and that from its contents. -/
theorem C90_mm_violation (m : Mode) :
    (∃ f, mmFigure exUmts = some f ∧ (∀ r ∈ f.2, r.Fits) ∧ Drawn (IE.marshal (.MmContext exUmts)) f ∧
      ∃ x, decodeOne (decoder m) m (IE.marshal (.MmContext exUmts) ++ [73, 0, 1, 0, 5]) = .err x) ∧
    (∃ f, mmFigure exNoMei = some f ∧ (∀ r ∈ f.2, r.Fits) ∧ Drawn (IE.marshal (.MmContext exNoMei)) f ∧
      ∃ x, decodeOne (decoder m) m (IE.marshal (.MmContext exNoMei)) = .err x) :=
  ⟨⟨_, rfl, by decide +kernel, by decide +kernel, _, by cases m <;> rfl⟩,
   ⟨_, rfl, by decide +kernel, by decide +kernel, _, by cases m <;> rfl⟩⟩

end Gtp.Props.MmFigure
