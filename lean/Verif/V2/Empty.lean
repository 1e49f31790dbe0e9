import Verif.V2.Ies.Loc
import Verif.V2.Ies.Var5
import Verif.V2.Ies.MmCtx

/-! `is_empty` of the parts of GTPv2-C information elements (gtpv2/messages/ies/commons.rs, sourceid.rs and
targetid.rs). The comparison of an array `[u8; n]` with `[0; n]` is a comparison of lists. -/

namespace Gtp.V2

/-- `is_empty` (commons.rs:54-56). -/
def Cgi.isEmpty (x : Cgi) : Bool := x.mcc == 0 && x.mnc == 0 && x.lac == 0 && x.ci == 0

/-- `is_empty` (commons.rs:102-104). -/
def Sai.isEmpty (x : Sai) : Bool := x.mcc == 0 && x.mnc == 0 && x.lac == 0 && x.sac == 0

/-- `is_empty` (commons.rs:151-153). -/
def Rai.isEmpty (x : Rai) : Bool := x.mcc == 0 && x.mnc == 0 && x.lac == 0 && x.rac == 0

/-- `is_empty` (commons.rs:196-198). -/
def Tai.isEmpty (x : Tai) : Bool := x.mcc == 0 && x.mnc == 0 && x.tac == 0

/-- `is_empty` (commons.rs:241-243). -/
def Ecgi.isEmpty (x : Ecgi) : Bool := x.mcc == 0 && x.mnc == 0 && x.eci == 0

/-- `is_empty` (commons.rs:287-289). -/
def Lai.isEmpty (x : Lai) : Bool := x.mcc == 0 && x.mnc == 0 && x.lac == 0

/-- `is_empty` (commons.rs:334-336). -/
def MacroEnbId.isEmpty (x : MacroEnbId) : Bool := x.mcc == 0 && x.mnc == 0 && x.macro_id == 0

/-- `is_empty` (commons.rs:400-402): `smenb` is not looked at. -/
def ExtMacroEnbId.isEmpty (x : ExtMacroEnbId) : Bool := x.mcc == 0 && x.mnc == 0 && x.ext_macro_id == 0

/-- `is_empty` (commons.rs:443-445). -/
def AuthTriplet.isEmpty (x : AuthTriplet) : Bool :=
  x.rand == List.replicate 16 0 && x.sres == List.replicate 4 0 && x.kc == List.replicate 8 0

/-- `is_empty` (commons.rs:550-556). -/
def AuthQuintuplet.isEmpty (x : AuthQuintuplet) : Bool :=
  x.rand == List.replicate 16 0 && x.xres.length == 0 && x.ck == List.replicate 16 0 && x.ik == List.replicate 16 0 &&
    x.autn.length == 0

/-- `is_empty` (commons.rs:681-686). -/
def AuthQuadruplet.isEmpty (x : AuthQuadruplet) : Bool :=
  x.rand == List.replicate 16 0 && x.xres.length == 0 && x.autn.length == 0 && x.kasme == List.replicate 32 0

/-- `is_empty` (commons.rs:823-829). -/
def ApnRateControlStatusMM.isEmpty (x : ApnRateControlStatusMM) : Bool :=
  x.apn.isEmpty && x.uplink_rate_limit == 0 && x.nbr_of_exception_reports == 0 && x.downlink_rate_limit == 0 &&
    x.apn_rate_control_status_validity == List.replicate 8 0

/-- `is_empty` (commons.rs:1195-1197). -/
def AmbrMM.isEmpty (x : AmbrMM) : Bool := x.uplink == 0 && x.downlink == 0

/-- `is_empty` (commons.rs:1270-1272): `old_ncc` is not looked at. -/
def OldEpsSecurityContext.isEmpty (x : OldEpsSecurityContext) : Bool :=
  x.old_ksi == 0 && x.old_kasme == List.replicate 32 0 && x.old_next_hop.isNone

/-- `is_empty` (targetid.rs:75-77). -/
def RncIdentifier.isEmpty (x : RncIdentifier) : Bool := x.rai.isEmpty && x.rnc_id == 0 && x.ext_rnc_id.isNone

/-- `is_empty` (targetid.rs:120-122). -/
def MacroEnbIdentifier.isEmpty (x : MacroEnbIdentifier) : Bool := x.macro_enb_id.isEmpty && x.tac == 0

/-- `is_empty` (targetid.rs:164-166). -/
def ExtendedMacroEnbIdentifier.isEmpty (x : ExtendedMacroEnbIdentifier) : Bool := x.ext_macro_enb_id.isEmpty && x.tac == 0

/-- `is_empty` (targetid.rs:219-221). -/
def CellIdentifier.isEmpty (x : CellIdentifier) : Bool :=
  x.mcc == 0 && x.mnc == 0 && x.lac == 0 && x.rac == 0 && x.ci == 0

/-- `is_empty` (targetid.rs:287-289): the length of the identifier is not looked at. -/
def GNbIdentifier.isEmpty (x : GNbIdentifier) : Bool :=
  x.mcc == 0 && x.mnc == 0 && x.gnb_id == 0 && x.etac == List.replicate 3 0

/-- `is_empty` (targetid.rs:331-333). -/
def MacronGeNbIdentifier.isEmpty (x : MacronGeNbIdentifier) : Bool :=
  x.macro_ng_enb_id.isEmpty && x.etac == List.replicate 3 0

/-- `is_empty` (targetid.rs:375-377). -/
def ExtendedGeNbIdentifier.isEmpty (x : ExtendedGeNbIdentifier) : Bool :=
  x.macro_ng_enb_id.isEmpty && x.etac == List.replicate 3 0

/-- `is_empty` (targetid.rs:469-475): the length of the identifier is not looked at. -/
def EnGNbIdentifier.isEmpty (x : EnGNbIdentifier) : Bool :=
  x.mcc == 0 && x.mnc == 0 && x.en_gnb_id == 0 && x.tac.isNone && x.etac.isNone

/-- `is_empty` (targetid.rs:636-649): the case `MacroEnbIdentifier` falls under `_ => true`. -/
def TargetType.isEmpty : TargetType → Bool
  | .RncId i => i.isEmpty
  | .MacroeNbId i => i.isEmpty
  | .CellId i => i.isEmpty
  | .HomeeNbId i => i.isEmpty
  | .ExtendedMacroeNbId i => i.isEmpty
  | .GNbId i => i.isEmpty
  | .MacrongeNbId i => i.isEmpty
  | .ExtendedngeNbId i => i.isEmpty
  | .EngNbId i => i.isEmpty
  | _ => true

/-- `is_empty` (sourceid.rs:73-75). -/
def SourceRncIdentifier.isEmpty (x : SourceRncIdentifier) : Bool :=
  x.mcc == 0 && x.mnc == 0 && x.rnc_id == 0 && x.ext_rnc_id.isNone

/-- `is_empty` (sourceid.rs:152-158). -/
def SourceType.isEmpty : SourceType → Bool
  | .SourceRncId i => i.isEmpty
  | .SourceCellId i => i.isEmpty
  | .Spare => true

end Gtp.V2
