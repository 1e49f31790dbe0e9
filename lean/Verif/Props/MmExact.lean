import Verif.V2.MmExactEps
import Verif.Props.Exact
import Verif.Props.MmFigure

/-!
# Property C06, the other direction, for MM contexts

`C06_exact_partial` leaves out MM contexts. For five of the six `IE.WF` is necessary as well. For the EPS security context it is not: the
cursor is moved too far behind some absent fields and not far enough behind others, and zeros that are read at a wrong place are read
as the absent fields that they stand for elsewhere.
-/

namespace Gtp.Props
open Gtp.V2

/-- C06 (partial), exactly, for MM contexts: except for the EPS security context, those that the decoder reads back from their encoding
are those of `IE.WF`. -/
theorem C06_mm_exact_partial (m : Mode) (x : MmContext) (hx : ∀ v, x ≠ .MmContextEpsSecurityContextQuadruplets v)
    (hl : (IE.MmContext x).marshal.length < 65536) : Survives m (.MmContext x) ↔ (IE.MmContext x).WF := by
  refine ⟨fun h => MmContext.WF_of_rt ?_ hl h, fun h tail => decodeOne_marshal h (decoder_encoder fun _ hy => IE.WF_members h hy)⟩
  intro he
  cases x with
  | MmContextEpsSecurityContextQuadruplets v => exact hx v rfl
  | _ => exact he

/-- GSM contexts: with all three capabilities, and the same without the equipment identity. -/
def exMmAll : MmContext := .MmContextGsmKeyTriplets
  { t := 103, length := 20, ins := 0, sec_mode := .GsmKeyAndTriplets, cksn := 1, used_cipher := .Gea3, kc := 5, auth_triplets := none,
    drx_params := none, subscr_ue_ambr := none, used_ue_ambr := none, ue_ntwk_cap := some [1], ms_ntwk_cap := some [2, 3], mei := some [4],
    access_res := ⟨false, false, false, false, false, false, false, false⟩, vdn_pref_ue_usage := none }
def exMmNoMei : MmContext := .MmContextGsmKeyTriplets
  { t := 103, length := 19, ins := 0, sec_mode := .GsmKeyAndTriplets, cksn := 1, used_cipher := .Gea3, kc := 5, auth_triplets := none,
    drx_params := none, subscr_ue_ambr := none, used_ue_ambr := none, ue_ntwk_cap := some [1], ms_ntwk_cap := some [2, 3], mei := none,
    access_res := ⟨false, false, false, false, false, false, false, false⟩, vdn_pref_ue_usage := none }

/-- The first survives, the second, with a correct length, does not. -/
example (m : Mode) : Survives m (.MmContext exMmAll) ∧ ¬ Survives m (.MmContext exMmNoMei) := by
  refine ⟨(C06_mm_exact_partial m exMmAll (by intro v h; cases h) (by decide +kernel)).mpr (by decide +kernel), fun h => ?_⟩
  exact absurd ((C06_mm_exact_partial m exMmNoMei (by intro v h; cases h) (by decide +kernel)).mp h) (by decide +kernel)

/-- C06 (partial), exactly, for EPS security contexts with both network capabilities and the equipment identity: the decoder reads back
those of `WF`, and those in which the extended access restriction is absent and so are the two security capabilities behind it.
Missing: contexts without one of the three strings, see `C06_eps_blank`. -/
theorem C06_eps_exact_partial (m : Mode) (x : MmContextEpsSecurityContextQuadruplets) (hu : x.ue_ntwk_cap ≠ none) (hm : x.ms_ntwk_cap ≠ none)
    (he : x.mei ≠ none) (hl : x.marshal.length < 65536) :
    Survives m (.MmContext (.MmContextEpsSecurityContextQuadruplets x)) ↔ x.WF ∨ x.Bare := by
  refine ⟨fun h => MmContextEpsSecurityContextQuadruplets.WF_or_bare_of_rt hu hm he hl h, ?_⟩
  rintro (h | h)
  · have hw : (IE.MmContext (.MmContextEpsSecurityContextQuadruplets x)).WF := h
    exact fun tail => decodeOne_marshal hw (decoder_encoder fun _ hy => IE.WF_members hw hy)
  · exact fun tail => MmContextEpsSecurityContextQuadruplets.survives_bare h tail

/-- Survivors outside `WF`: an EPS security context without extended access restriction. -/
theorem C06_eps_bare (m : Mode) (x : MmContextEpsSecurityContextQuadruplets) (h : x.Bare) :
    Survives m (.MmContext (.MmContextEpsSecurityContextQuadruplets x)) ∧ x.ext_access_res = none ∧ ¬ x.WF :=
  ⟨fun tail => MmContextEpsSecurityContextQuadruplets.survives_bare h tail, h.2.2.2.2.2.2.2.2.2.2.2.2.2.2.2.2.2.2.2.1,
    MmContextEpsSecurityContextQuadruplets.not_WF_of_bare h⟩

/-- The hypothesis on the strings in `C06_eps_exact_partial` cannot be dropped: without the capability of the mobile station and the equipment
identity the cursor is two octets too far, and two octets further on it has been left behind twice. -/
theorem C06_eps_blank (m : Mode) (x : MmContextEpsSecurityContextQuadruplets) (h : x.Blank) :
    Survives m (.MmContext (.MmContextEpsSecurityContextQuadruplets x)) ∧ x.ms_ntwk_cap = none ∧ x.mei = none ∧ ¬ x.WF ∧ ¬ x.Bare := by
  obtain ⟨-, -, -, -, -, -, h1, h2, -⟩ := id h
  refine ⟨fun tail => MmContextEpsSecurityContextQuadruplets.survives_blank h tail, h1, h2, ?_, ?_⟩
  · rintro ⟨-, -, -, -, -, -, ⟨s, h3, -⟩, -⟩
    simp [h1] at h3
  · rintro ⟨-, -, -, -, -, -, ⟨s, h3, -⟩, -⟩
    simp [h1] at h3

/-- An EPS security context with as few fields as possible. -/
def exEps (ms mei : Option Bytes) (ext : Option ExtendedAccessRestrictionMM) (n : UInt16) : MmContextEpsSecurityContextQuadruplets :=
  { t := 107, length := n, ins := 0, sec_mode := .EpsSecurityContextAndQuadruplets, ksi := 1, nas_integrity := .NoIntegrity, nas_cipher := .Eea1,
    nas_dl_count := 7, nas_ul_count := 9, kasme := List.replicate 32 0x5a, auth_quadruplets := none, auth_quintuplets := none, drx_params := none,
    next_hop := none, ncc := none, subscr_ue_ambr := none, used_ue_ambr := none, ue_ntwk_cap := some [1, 2], ms_ntwk_cap := ms, mei := mei,
    access_res := AccessRestrictionMM.ofU8 0, old_eps_sec_ctx := none, vdn_pref_ue_usage := none, ue_radio_cap_for_paging := none,
    ext_access_res := ext, ue_add_security_cap := none, ue_nr_security_cap := none, apn_rate_controls := none, core_nw_res := none,
    ue_radio_cap_id := none, ensct := some 0 }

/-- All three families are inhabited, and a context with an access restriction but without equipment identity does not survive. -/
example : (exEps (some [3]) (some [4]) (some (ExtendedAccessRestrictionMM.ofU8 1)) 59).WF ∧ (exEps (some [3]) (some [4]) none 58).Bare ∧
    (exEps none none none 56).Blank ∧ MmContextEpsSecurityContextQuadruplets.unmarshal .debug 
      (exEps (some [3]) none (some (ExtendedAccessRestrictionMM.ofU8 1)) 58).marshal ≠
      .ok (exEps (some [3]) none (some (ExtendedAccessRestrictionMM.ofU8 1)) 58) := by
  decide +kernel

/-- C90 for MM contexts (partial), exactly: of the contexts with a GSM or UMTS key (103 to 106), those of `IE.WF` are understood from the
figure and no others. Missing: types 107 and 108, of which no figure is given. -/
theorem C90_mm_understood_partial (m : Mode) (e : MmContext) (f : Nat × List Row) (h : MmFigure.mmFigure e = some f) (hf : ∀ r ∈ f.2, r.Fits)
    (hi : e.ins < 16) (hl : (IE.MmContext e).marshal.length < 65536) : Understood m (.MmContext e) f ↔ (IE.MmContext e).WF := by
  refine ⟨fun hu => ?_, MmFigure.C90_mm_partial m e f h hf⟩
  have hx : ∀ v, e ≠ .MmContextEpsSecurityContextQuadruplets v := by
    rintro v rfl
    cases h
  have h3 : 4 ≤ (IE.MmContext e).marshal.length ∧ (IE.MmContext e).marshal.getD 3 0 = e.ins := by
    have key : ∀ t l i b, 4 ≤ (tliv t l i b).length := fun t l i b => by rw [tliv_length]; omega
    rw [IE.marshal_eq]
    cases e <;> exact ⟨key _ _ _ _, tliv_ins _ _ _ _⟩
  refine (C06_mm_exact_partial m e hx hl).mp fun tail => hu _ tail h3.1 (MmFigure.C74_mm_partial e f h hf) ?_
  rw [h3.2]
  exact ins_small hi

/-- The figure of a context without equipment identity is not understood. -/
example (m : Mode) : ∃ f, MmFigure.mmFigure exMmNoMei = some f ∧ ¬ Understood m (.MmContext exMmNoMei) f :=
  ⟨_, rfl, fun h => absurd ((C90_mm_understood_partial m exMmNoMei _ rfl (by decide +kernel) (by decide) (by decide +kernel)).mp h) (by decide +kernel)⟩

end Gtp.Props
