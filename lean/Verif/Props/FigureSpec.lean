import Verif.Props.Utils
import Verif.V2.IE

/-!
# Property C74: the octets of a GTPv2-C information element are those of the specification

The figures of 3GPP TS 29.274 chapter 8 are written down once more, independently of the encoders, as rows of octets. A row is an
octet that is divided into fields from bit 8 down to bit 1, a number in several octets, digits, a PLMN, or octets that are taken as
they are. The theorem compares the encoders with them.
-/

namespace Gtp.Props
open Gtp.V2

/-- A row of a figure. -/
inductive Row where
  /-- One octet: width and value of its fields, bit 8 first. -/
  | bits (l : List (Nat × Nat))
  /-- `v` in `k` octets, most significant first. -/
  | num (k v : Nat)
  /-- Decimal digits, two per octet, the first one in the lower half (TS 29.002). -/
  | digits (s : Str)
  /-- MCC and MNC in three octets (TS 24.008 §10.5.1.3). -/
  | plmn (mcc mnc : Nat) (three : Bool)
  /-- Octets as they are. -/
  | raw (l : Bytes)

namespace Row

/-- The octets of a row. -/
def draw : Row → List Nat
  | bits l => [l.foldl (fun a c => a * 2 ^ c.1 + c.2) 0]
  | num k v => ((List.range k).reverse).map fun i => v / 256 ^ i % 256
  | digits s => tbcdLayout s
  | plmn mcc mnc three =>
    let (d1, d2, d3) := if three then (digit 2 mnc, digit 1 mnc, digit 0 mnc) else (digit 1 mnc, digit 0 mnc, 15)
    [digit 2 mcc + 16 * digit 1 mcc, digit 0 mcc + 16 * d3, d1 + 16 * d2]
  | raw l => l.map UInt8.toNat

/-- The values have room in their fields, and the fields of an octet make up eight bits. -/
def Fits : Row → Prop
  | bits l => (l.map Prod.fst).sum = 8 ∧ ∀ c ∈ l, c.2 < 2 ^ c.1
  | num k v => v < 256 ^ k
  | digits s => ∀ c ∈ s, IsDigit c
  | plmn mcc mnc three => mcc ≤ 999 ∧ mnc ≤ if three then 999 else 99
  | raw _ => True

instance (r : Row) : Decidable r.Fits := by unfold Fits; split <;> infer_instance

end Row

open Row

/-- Spare bits. -/
def spare (w : Nat) : Nat × Nat := (w, 0)
/-- A flag. -/
def flag (b : Bool) : Nat × Nat := (1, b.toNat)
def o1 (v : UInt8) : Row := num 1 v.toNat
def o2 (v : UInt16) : Row := num 2 v.toNat
def o3 (v : UInt32) : Row := num 3 v.toNat
def o4 (v : UInt32) : Row := num 4 v.toNat
def o5 (v : UInt64) : Row := num 5 v.toNat
def o6 (v : UInt64) : Row := num 6 v.toNat
def o8 (v : UInt64) : Row := num 8 v.toNat
def pl (mcc mnc : UInt16) (three : Bool) : Row := plmn mcc.toNat mnc.toNat three
def ip6 (a : Ip6) : List Row := [o8 a.hi, o8 a.lo]
def ip : IpAddr → List Row
  | .V4 a => [o4 a]
  | .V6 a => ip6 a
/-- The number of octets of an address. -/
def ipSize : IpAddr → Nat
  | .V4 _ => 4
  | .V6 _ => 16
def text (s : Str) : Bytes := s.flatMap String.utf8EncodeChar
/-- An octet string behind its length. -/
def lv (b : Bytes) : List Row := [num 1 b.length, raw b]
def opt {α : Type} (v : Option α) (f : α → List Row) : List Row := (v.map f).getD []

/-! ## Codes -/

/-- TS 29.274 table 8.17-1. -/
def ratCode : V2.Rat → Nat
  | .Reserved => 0 | .Utran => 1 | .Geran => 2 | .Wlan => 3 | .Gan => 4 | .HspaEvo => 5 | .Eutran => 6 | .Virtual => 7
  | .EutranNbiot => 8 | .LteM => 9 | .NR => 10 | .WbEutranLeo => 11 | .WbEutranMeo => 12 | .WbEutranGeo => 13
  | .WbEutranOthersat => 14 | .EutranNbiotLeo => 15 | .EutranNbiotMeo => 16 | .EutranNbiotGeo => 17 | .EutranNbiotOthersat => 18
  | .LteMLeo => 19 | .LteMMeo => 20 | .LteMGeo => 21 | .LteMOthersat => 22 | .Spare => 23

/-- Table 8.34-1. -/
def pdnCode : Pdn → Nat
  | .Ipv4 => 1 | .Ipv6 => 2 | .Ipv46 => 3 | .NonIp => 4 | .Ethernet => 5 | .Reserved => 6

/-- Table 8.57-1. -/
def restrictionCode : Restriction → Nat
  | .NoApnRestriction => 0 | .Public1 => 1 | .Public2 => 2 | .Private1 => 3 | .Private2 => 4

/-- The codes of SRVCC causes, table 8.51a. -/
def srvccCode : SrvccCauseValues → Nat
  | .Reserved => 0 | .Unspecified => 1 | .HandoverRelocationCancelledBySourceSystem => 2
  | .HandoverRelocationFailureWithTargetSystem => 3 | .HandoverRelocationTargetNotAllowed => 4 | .UnknownTargetId => 5
  | .TargetCellNotAvailable => 6 | .NoRadioResourcesAvailableInTargetCell => 7 | .FailureInRadioInterfaceProcedure => 8
  | .PermanentSessionLegEstablishmentError => 9 | .TemporarySessionLegEstablishmentError => 10 | .Spare => 11

def detachCode : DetachTypeValue → Nat
  | .Reserved => 0 | .PsDetach => 1 | .CombinedPsCsDetach => 2 | .Spare => 3
def nodeCode : Node → Nat
  | .Mme => 0 | .Sgsn => 1
def membershipCode : CsgMembership → Nat
  | .CsgMembership => 0 | .NonCsgMembership => 1
def serviceCode : ServiceIndication → Nat
  | .Spare => 0 | .CsCallIndicator => 1 | .SmsIndicator => 2
def actionCode : IndicationValues → Nat
  | .NoAction => 0 | .DeactivationIndication => 1 | .PagingIndication => 2 | .PagingStopIndication => 3 | .Spare => 4
def upIpCode : UpIpPolicy → Nat
  | .NotNeeded => 0 | .Preferred => 1 | .Required => 2 | .Spare => 3
def selectCode : SelectMode → Nat
  | .ServingNetworkSelectedbyUE => 0 | .ServingNetworkSelectedbyNetwork => 1
def causeTypeCode : CauseType → Nat
  | .RadioNetworkLayer => 0 | .TransportLayer => 1 | .Nas => 2 | .Protocol => 3 | .Misc => 4 | .Spare => 5
def accessCode : AccessMode → Nat
  | .ClosedMode => 0 | .HybridMode => 1 | .Reserved => 2
def cmiCode : Cmi → Nat
  | .NonCsgMembership => 0 | .CsgMembership => 1
def jobCode : MdtJobType → Nat
  | .ImmediateMdtonly => 0 | .LoggedMdtonly => 1 | .TraceOnly => 2 | .ImmediateMdtandTrace => 3 | .RlfReportsonly => 4
  | .RcefReportsonly => 5 | .LoggedMbsfnMdt => 6
def hcCode : MbmsHc → Nat
  | .UncompressedHeader => 0 | .CompressedHeader => 1

/-! ## Parts that occur in several figures -/

def cgiFig (x : Cgi) : List Row := [pl x.mcc x.mnc x.mnc_is_three_digits, o2 x.lac, o2 x.ci]
def saiFig (x : Sai) : List Row := [pl x.mcc x.mnc x.mnc_is_three_digits, o2 x.lac, o2 x.sac]
/-- The routing area code takes two octets, the second of which is 255. -/
def raiFig (x : Rai) : List Row := [pl x.mcc x.mnc x.mnc_is_three_digits, o2 x.lac, o1 x.rac, num 1 255]
def taiFig (x : Tai) : List Row := [pl x.mcc x.mnc x.mnc_is_three_digits, o2 x.tac]
def laiFig (x : Lai) : List Row := [pl x.mcc x.mnc x.mnc_is_three_digits, o2 x.lac]
def ecgiFig (x : Ecgi) : List Row := [pl x.mcc x.mnc x.mnc_is_three_digits, o4 x.eci]
def macroFig (x : MacroEnbId) : List Row := [pl x.mcc x.mnc x.mnc_is_three_digits, o3 x.macro_id]
/-- The identity of a home eNodeB has 28 bits, in four octets. -/
def homeFig (x : MacroEnbId) : List Row := [pl x.mcc x.mnc x.mnc_is_three_digits, o4 x.macro_id]
/-- A short identity has 18 bits, a long one 21. -/
def extFig (x : ExtMacroEnbId) : List Row :=
  [pl x.mcc x.mnc x.mnc_is_three_digits,
   bits (if x.smenb then [(1, 1), spare 5, (2, x.ext_macro_id.toNat / 65536)] else [(1, 0), spare 2, (5, x.ext_macro_id.toNat / 65536)]),
   num 2 (x.ext_macro_id.toNat % 65536)]
def cellFig (x : CellIdentifier) : List Row := [pl x.mcc x.mnc x.mnc_is_three_digits, o2 x.lac, o1 x.rac, o2 x.ci]
def lvo (v : Option Bytes) : List Row := lv (v.getD [])

/-- The area: identifier and status. `more` tells that another one follows. -/
def areaFig (more : Bool) : PresenceReportingArea → List Row
  | .Ipra i => [o3 i, bits [spare 4, flag false, flag more, flag false, flag true]]
  | .Opra i => [o3 i, bits [spare 4, flag false, flag more, flag true, flag false]]
  | .Inapra i => [o3 i, bits [spare 4, flag true, flag more, flag false, flag false]]
def areasFig : List PresenceReportingArea → List Row
  | [] => []
  | [a] => areaFig false a
  | a :: b :: r => areaFig true a ++ areasFig (b :: r)

/-- Figures 8.51-1 ff. -/
def targetFig : TargetType → Option (List Row)
  | .RncId x => some (num 1 0 :: pl x.rai.mcc x.rai.mnc x.rai.mnc_is_three_digits :: o2 x.rai.lac :: o1 x.rai.rac :: o2 x.rnc_id ::
      opt x.ext_rnc_id fun i => [o2 i])
  | .MacroeNbId x => some (num 1 1 :: (macroFig x.macro_enb_id ++ [o2 x.tac]))
  | .CellId x => some (num 1 2 :: cellFig x)
  | .HomeeNbId x => some (num 1 3 :: (homeFig x.macro_enb_id ++ [o2 x.tac]))
  | .ExtendedMacroeNbId x => some (num 1 4 :: (extFig x.ext_macro_enb_id ++ [o2 x.tac]))
  | .GNbId x => some ([num 1 5, pl x.mcc x.mnc x.mnc_is_three_digits, bits [spare 2, (6, x.gnb_id_length.toNat)], o4 x.gnb_id, raw x.etac])
  | .MacrongeNbId x => some (num 1 6 :: (macroFig x.macro_ng_enb_id ++ [raw x.etac]))
  | .ExtendedngeNbId x => some (num 1 7 :: (extFig x.macro_ng_enb_id ++ [raw x.etac]))
  | _ => none

/-- Figure 8.59-1. -/
def sourceFig : SourceType → Option (List Row)
  | .SourceCellId x => some (num 1 0 :: cellFig x)
  | .SourceRncId x => some (num 1 1 :: pl x.mcc x.mnc x.mnc_is_three_digits :: o2 x.rnc_id :: opt x.ext_rnc_id fun i => [o2 i])
  | .Spare => none

/-- An offset from UTC in quarters of an hour, as in TS 23.040: units in the upper half, then the sign, then tens. -/
def zoneFig (z : Int8) : Row :=
  bits [(4, z.toInt.natAbs % 10), flag (z.toInt < 0), (3, z.toInt.natAbs / 10)]

/-- A name: its labels, which dots separate, each behind its length. -/
def nameFig (s : Str) : List Row := (s.splitOn '.').flatMap fun l => lv (text l)

def cgis (l : List Location) : List Cgi := l.filterMap fun | .Cgi i => some i | _ => none
def sais (l : List Location) : List Sai := l.filterMap fun | .Sai i => some i | _ => none
def rais (l : List Location) : List Rai := l.filterMap fun | .Rai i => some i | _ => none
def tais (l : List Location) : List Tai := l.filterMap fun | .Tai i => some i | _ => none
def ecgis (l : List Location) : List Ecgi := l.filterMap fun | .Ecgi i => some i | _ => none
def lais (l : List Location) : List Lai := l.filterMap fun | .Lai i => some i | _ => none
def macros (l : List Location) : List MacroEnbId := l.filterMap fun | .MacroEnbId i => some i | _ => none
def exts (l : List Location) : List ExtMacroEnbId := l.filterMap fun | .ExtMacroEnbId i => some i | _ => none

/-- How many there are of each. -/
def kindsIn (l : List Location) : List Nat :=
  [(cgis l).length, (sais l).length, (rais l).length, (tais l).length, (ecgis l).length, (lais l).length, (macros l).length, (exts l).length]

/-- A user location: which kinds there are, then the locations in the order of the kinds, in whatever order the value has them. -/
def uliFig (l : List Location) : List Row :=
  [bits [flag ((exts l).length = 1), flag ((macros l).length = 1), flag ((lais l).length = 1), flag ((ecgis l).length = 1),
    flag ((tais l).length = 1), flag ((rais l).length = 1), flag ((sais l).length = 1), flag ((cgis l).length = 1)]] ++
  (cgis l).flatMap cgiFig ++ (sais l).flatMap saiFig ++ (rais l).flatMap raiFig ++ (tais l).flatMap taiFig ++ (ecgis l).flatMap ecgiFig ++
  (lais l).flatMap laiFig ++ (macros l).flatMap macroFig ++ (exts l).flatMap extFig

/-- Type and octets behind the fourth one, as the specification has them. There is none for the grouped IEs, whose octets are those
of their members, for MM contexts, for user locations that
have two locations of one kind, and where the specification leaves the coding to another one. -/
def figure : IE → Option (Nat × List Row)
  | .Imsi x => some (1, [digits x.imsi])
  | .Cause x => some (2, [o1 x.value, bits [spare 5, flag x.pce, flag x.bce, flag x.cs]] ++
      opt x.offend_ie_type fun i => [o1 i, num 2 0, bits [spare 4, (4, 0)]])
  | .Recovery x => some (3, [o1 x.recovery])
  | .StnSr x => some (51, [o1 x.nanpi, digits x.msisdn])
  | .SrvccCause x => some (56, [num 1 (srvccCode x.value)])
  | .ApnAmbr x => some (72, [o4 x.ambr_ul, o4 x.ambr_dl])
  | .Ebi x => some (73, [bits [spare 4, (4, x.value.toNat)]])
  | .IpAddress x => some (74, ip x.ip)
  | .Mei x => some (75, [digits x.mei])
  | .Msisdn x => some (76, [digits x.msisdn])
  | .Indication x => some (77, [
      bits [flag x.daf, flag x.dtf, flag x.hi, flag x.dfi, flag x.oi, flag x.isrsi, flag x.israi, flag x.sgwci],
      bits [flag x.sqci, flag x.uimsi, flag x.cfsi, flag x.crsi, flag x.ps, flag x.pt, flag x.si, flag x.msv],
      bits [flag x.retloc, flag x.pbic, flag x.srni, flag x.s6af, flag x.s4af, flag x.mbmdt, flag x.israu, flag x.ccrsi],
      bits [flag x.cprai, flag x.arrl, flag x.ppoff, flag x.ppon, flag x.ppsi, flag x.csfbi, flag x.clii, flag x.cpsr],
      bits [flag x.nsi, flag x.uasi, flag x.dtci, flag x.bdwi, flag x.psci, flag x.pcri, flag x.aosi, flag x.aopi],
      bits [flag x.roaai, flag x.epcosi, flag x.cpopci, flag x.pmtsmi, flag x.s11tf, flag x.pnsi, flag x.unaccsi, flag x.wpmsi],
      bits [flag x.g5snn26, flag x.reprefi, flag x.g5siwki, flag x.eevrsi, flag x.ltemui, flag x.ltempi, flag x.enbcrsi, flag x.tspcmi],
      bits [flag x.csrmfi, flag x.mtedtn, flag x.mtedta, flag x.n5gnmi, flag x.g5cnrs, flag x.g5cnri, flag x.s5rho, flag x.ethpdn],
      bits [flag x.nspusi, flag x.pgwrnsi, flag x.rppcsi, flag x.pgwchi, flag x.sissme, flag x.nsenbi, flag x.idfupf, flag x.emci],
      bits [spare 5, flag x.ltemsai, flag x.srtpi, flag x.upipsi]])
  | .Pco x => some (78, [raw x.pco])
  | .PdnAddressAllocation x => some (79, match x.ip with
      | .V4 a => [bits [spare 5, (3, 1)], o4 a]
      | .V6 a p => [bits [spare 5, (3, 2)], o1 p] ++ ip6 a
      | .DualStack a b p => [bits [spare 5, (3, 3)], o1 p] ++ ip6 b ++ [o4 a]
      | .NonIp => [bits [spare 5, (3, 4)]]
      | .Ethernet => [bits [spare 5, (3, 5)]])
  | .BearerQos x => some (80, [
      bits [spare 1, (1, x.pre_emption_capability.toNat), (4, x.priority_level.toNat), spare 1, (1, x.pre_emption_vulnerability.toNat)],
      o1 x.qci, o5 x.maxbr_ul, o5 x.maxbr_dl, o5 x.gbr_ul, o5 x.gbr_dl])
  | .FlowQos x => some (81, [o1 x.qci, o5 x.maxbr_ul, o5 x.maxbr_dl, o5 x.gbr_ul, o5 x.gbr_dl])
  | .RatType x => some (82, [num 1 (ratCode x.rat_type)])
  | .ServingNetwork x => some (83, [pl x.mcc x.mnc x.mnc_is_three_digits])
  | .BearerTft x => some (84, [raw x.tft])
  | .TrafficAggregateDescription x => some (85, [raw x.tad])
  | .Fteid x => some (87, [bits [flag x.ipv4.isSome, flag x.ipv6.isSome, (6, x.interface.toNat)], o4 x.teid] ++
      opt x.ipv4 (fun a => [o4 a]) ++ opt x.ipv6 ip6)
  | .Tmsi x => some (88, [o4 x.tmsi])
  | .GlobalCnId x => some (89, [pl x.mcc x.mnc x.mnc_is_three_digits, o2 x.cnid])
  | .S103pdf x => some (90, [num 1 (ipSize x.hsgw_ip)] ++ ip x.hsgw_ip ++ [o4 x.gre_key, bits [spare 4, (4, x.eps_bearer_ids.length)]] ++
      x.eps_bearer_ids.map fun i => bits [spare 4, (4, i.toNat)])
  | .S1udf x => some (91, [bits [spare 4, (4, x.ebi.toNat)], num 1 (ipSize x.sgw_ip)] ++ ip x.sgw_ip ++ [o4 x.sgw_s1u_teid])
  | .DelayValue x => some (92, [o1 x.value])
  | .ChargingId x => some (94, [o4 x.charging_id])
  | .ChargingCharacteristics x => some (95, [o2 x.charging_char])
  | .TraceInformation x => some (96, [pl x.mcc x.mnc x.mnc_is_three_digits, o3 x.trace_id, raw x.trigger_events, o2 x.list_ne_types,
      o1 x.trace_depth, raw x.list_interfaces, o4 x.trace_collection_ip])
  | .BearerFlags x => some (97, [bits [spare 4, flag x.asi, flag x.vind, flag x.vb, flag x.ppc]])
  | .PdnType x => some (99, [bits [spare 5, (3, pdnCode x.pdn_type)]])
  | .Pti x => some (100, [o1 x.pti])
  | .PduNumbers x => some (110, [bits [spare 4, (4, x.nsapi.toNat)], o2 x.dl_gtpu_sqn, o2 x.ul_gtpu_sqn, o2 x.send_npdu, o2 x.receive_npdu])
  | .Ptmsi x => some (111, [o4 x.ptmsi])
  | .HopCounter x => some (113, [o1 x.hop_counter])
  | .UeTimeZone x => some (114, [zoneFig x.time_zone, bits [spare 6, (2, x.dst.toNat)]])
  | .TraceReference x => some (115, [pl x.mcc x.mnc x.mnc_is_three_digits, o3 x.trace_id])
  | .CompleteRequestMessage x => match x.message with
      | .AttachRequest b => some (116, [num 1 0, raw b])
      | .TauRequest b => some (116, [num 1 1, raw b])
      | .Spare => none
  | .Guti x => some (117, [pl x.mcc x.mnc x.mnc_is_three_digits, o2 x.mmegi, o1 x.mmec, o4 x.mtmsi])
  | .Fcontainer x => match x.container with
      | .Utran b => some (118, [bits [spare 4, (4, 1)], raw b])
      | .Bss b => some (118, [bits [spare 4, (4, 2)], raw b])
      | .Eutran b => some (118, [bits [spare 4, (4, 3)], raw b])
      | .Nbifom b => some (118, [bits [spare 4, (4, 4)], raw b])
      | .EnDc b => some (118, [bits [spare 4, (4, 5)], raw b])
      | .InterSystemSON b => some (118, [bits [spare 4, (4, 6)], raw b])
      | _ => none
  | .Fcause x => some (119, [bits [spare 4, (4, causeTypeCode x.cause_type)], raw x.cause_field])
  | .PlmnId x => some (120, [pl x.mcc x.mnc x.mnc_is_three_digits])
  | .TargetIdentification x => (targetFig x.target_type).map (121, ·)
  | .PacketFlowId x => some (123, [bits [spare 4, (4, x.ebi.toNat)], o4 x.flow_id])
  | .SrcRncPdcpCtxInfo x => some (125, [raw x.rrc_container])
  | .PortNumber x => some (126, [o2 x.port])
  | .ApnRestriction x => some (127, [num 1 (restrictionCode x.restriction_type)])
  | .SelectionMode x => some (128, [bits [spare 6, (2, x.mode.toNat)]])
  | .SourceIdentification x => (sourceFig x.source_type).map fun r => (129, cellFig x.target_cell ++ r)
  | .ChangeReportingAction x => some (131, [o1 x.action])
  | .Fqcsid x => some (132, (match x.nodeid with
      | .V4 a => [bits [(4, 0), (4, x.csid.length)], o4 a]
      | .V6 a => bits [(4, 1), (4, x.csid.length)] :: ip6 a
      | .NwAddr a => [bits [(4, 2), (4, x.csid.length)], o4 a]) ++ x.csid.map o2)
  | .ChannelNeeded x => some (133, [o1 x.chnl_needed])
  | .EmlppPriority x => some (134, [o1 x.priority])
  | .NodeType x => some (135, [num 1 (nodeCode x.node)])
  | .TransactionIdentifier x => some (137, if x.tid.id < 7 then [bits [flag x.tid.flag, (3, x.tid.id.toNat), spare 4]]
      else [bits [flag x.tid.flag, (3, 7), spare 4], bits [(1, 1), (7, x.tid.id.toNat)]])
  | .MbmsSa x => match x.mbms_sa with
      | [] => none
      | _ => some (139, num 1 (x.mbms_sa.length - 1) :: x.mbms_sa.map o2)
  | .MbmsSd x => some (138, [num 2 (x.seconds.toNat / 2), bits [(1, x.seconds.toNat % 2), (7, x.days.toNat)]])
  | .MbmsSessionId x => some (140, [o1 x.mbms_sessionid])
  | .MbmsFlowId x => some (141, [o2 x.mbms_flowid])
  | .MbmsIpMulticastDistribution x => some (142, [o4 x.common_teid] ++
      (match x.ip_multicast_address_1 with
        | .V4 a => [bits [(2, 0), (6, 4)], o4 a]
        | .V6 a => bits [(2, 1), (6, 16)] :: ip6 a) ++
      (match x.ip_multicast_address_2 with
        | .V4 a => [bits [(2, 0), (6, 4)], o4 a]
        | .V6 a => bits [(2, 1), (6, 16)] :: ip6 a) ++ [num 1 (hcCode x.mbms_hc)])
  | .MbmsDistributionAck x => some (143, [bits [spare 6, (2, x.distr_id.toNat)]])
  | .RfspIndex x => some (144, [o2 x.spid])
  | .Uci x => some (145, [pl x.mcc x.mnc x.mnc_is_three_digits, bits [spare 5, (3, x.csgid.toNat / 16777216)],
      num 3 (x.csgid.toNat % 16777216), bits [(2, accessCode x.access_mode), spare 4, flag x.lcsg, (1, cmiCode x.cmi)]])
  | .CSGInformationReportingAction x => some (146, [bits [spare 5, (3, x.action.toNat)]])
  | .CsgId x => some (147, [bits [spare 5, (3, x.csgid.toNat / 16777216)], num 3 (x.csgid.toNat % 16777216)])
  | .CsgMembershipIndication x => some (148, [bits [spare 7, (1, membershipCode x.cmi)]])
  | .ServiceIndicator x => some (149, [num 1 (serviceCode x.indicator)])
  | .DetachType x => some (150, [num 1 (detachCode x.detach_type)])
  | .Ldn x => some (151, [raw (text x.name)])
  | .NodeFeatures x => some (152, [bits [flag x.psset, flag x.mtedt, flag x.eth, flag x.s1un, flag x.ciot, flag x.ntsr, flag x.mabr, flag x.prn]])
  | .MbmsTimeToDataTransfer x => some (153, [o1 x.mbms_time_to_data])
  | .Throttling x => some (154, [bits [(3, x.delay_unit.toNat), (5, x.delay_value.toNat)], o1 x.factor])
  | .Arp x => some (155, [bits [spare 1, flag x.pci, (4, x.pl.toNat), spare 1, flag x.pvi]])
  | .EpcTimer x => some (156, [bits [(3, x.timer_unit.toNat), (5, x.timer_value.toNat)]])
  | .Spi x => some (157, [bits [spare 7, flag x.lapi]])
  | .Tmgi x => some (158, [raw x.tmgi])
  | .AdditionalMmContextForSrvcc x => some (159, lvo x.mobile_station_classmark2 ++ lvo x.mobile_station_classmark3 ++ lvo x.supported_codec_list)
  | .AdditionalFlagsSrvcc x => some (160, [bits [spare 6, flag x.vf, flag x.ics]])
  | .MdtConfiguration x => some (162, [num 1 (jobCode x.mdt_job_type), raw x.list_measurements, o1 x.reporting_trigger, o1 x.report_interval,
      o1 x.report_amount, o1 x.rsrp_event_threshold, o1 x.rsrq_event_threshold] ++ lvo x.area_scope ++
      [bits [spare 4, flag x.mdt_plmns_list.isSome, flag x.positioning_method.isSome, flag x.measurement_period_lte.isSome,
        flag x.collection_period_rrm.isSome]] ++ opt x.collection_period_rrm (fun i => [o1 i]) ++
      opt x.measurement_period_lte (fun i => [o1 i]) ++ opt x.positioning_method (fun i => [o1 i]) ++
      opt x.mdt_plmns_list fun l => num 1 l.length :: l.map fun p => pl p.mcc p.mnc p.mnc_is_three_digits)
  | .Apco x => some (163, [raw x.apco])
  | .AbsoluteTimeMbmsDataTransfer x => some (164, [o8 x.seconds])
  | .HenbInfoReporting x => some (165, [bits [spare 7, flag x.fti]])
  | .Ip4Cp x => some (166, [o1 x.subnet_prefix, o4 x.ip])
  | .ChangeToReportFlags x => some (167, [bits [spare 6, flag x.tzcr, flag x.sncr]])
  | .ActionIndication x => some (168, [bits [spare 5, (3, actionCode x.indication)]])
  | .TwanId x => some (169, [bits [spare 3, flag x.relay_id.isSome, flag x.twan_op_name.isSome, flag x.twan_plmnid.isSome,
        flag x.civic_address.isSome, flag x.bssid.isSome]] ++ lv x.ssid ++ opt x.bssid (fun b => [raw b]) ++ opt x.civic_address lv ++
      opt x.twan_plmnid (fun p => [pl p.1 p.2.1 p.2.2]) ++ opt x.twan_op_name (fun s => lv (text s)) ++
      opt x.relay_id (fun r => o1 r.1 :: lv r.2) ++ opt x.circuit_id lv)
  | .UliTimestamp x => some (170, [o4 x.timestamp])
  | .MbmsFlags x => some (171, [bits [spare 6, flag x.lmri, flag x.msri]])
  | .RanNasCause x => match x.cause with
      | .S1ap (.RadioLayer i) => some (172, [bits [(4, 1), (4, 0)], o1 i])
      | .S1ap (.TransportLayer i) => some (172, [bits [(4, 1), (4, 1)], o1 i])
      | .S1ap (.Nas i) => some (172, [bits [(4, 1), (4, 2)], o1 i])
      | .S1ap (.Protocol i) => some (172, [bits [(4, 1), (4, 3)], o1 i])
      | .S1ap (.Misc i) => some (172, [bits [(4, 1), (4, 4)], o1 i])
      | .Emm i => some (172, [bits [(4, 2), spare 4], o1 i])
      | .Esm i => some (172, [bits [(4, 3), spare 4], o1 i])
      | .Diameter i => some (172, [bits [(4, 4), spare 4], o2 i])
      | .Ikev2 i => some (172, [bits [(4, 5), spare 4], o2 i])
      | _ => none
  | .CnOperatorSelectionEntity x => some (173, [bits [spare 6, (2, selectCode x.selection_entity)]])
  | .Twmi x => some (174, [bits [spare 6, flag x.mcm, flag x.scm]])
  | .NodeIdentifier x => some (176, lv (text x.node_name) ++ lv (text x.node_realm))
  | .PresenceReportingAreaAction x => some (177, [bits [spare 4, flag x.inapra, (3, x.action.toNat)], o3 x.prai,
      bits [(4, x.tai.length), (4, x.rai.length)], bits [spare 2, (6, x.macro_enb.length)], bits [spare 2, (6, x.home_enb.length)],
      bits [spare 2, (6, x.ecgi.length)], bits [spare 2, (6, x.sai.length)], bits [spare 2, (6, x.cgi.length)]] ++
      x.tai.flatMap taiFig ++ x.macro_enb.flatMap macroFig ++ x.home_enb.flatMap homeFig ++ x.ecgi.flatMap ecgiFig ++
      x.rai.flatMap raiFig ++ x.sai.flatMap saiFig ++ x.cgi.flatMap cgiFig ++ [bits [spare 2, (6, x.ext_macro_enb.length)]] ++
      x.ext_macro_enb.flatMap extFig)
  | .PresenceReportingAreaInformation x => some (178, areasFig (x.prai :: x.add_prai.getD []))
  | .TwanIdTimeStamp x => some (179, [o4 x.timestamp])
  | .Metric x => some (182, [o1 x.metric])
  | .Sqn x => some (183, [o4 x.sqn])
  | .WlanOffloadIndication x => some (185, [bits [spare 6, flag x.eutran_ind, flag x.utran_ind]])
  | .PagingServiceInfo x => some (186, [bits [spare 4, (4, x.ebi.toNat)], bits [spare 7, flag x.paging_policy.isSome]] ++
      opt x.paging_policy fun i => [bits [spare 2, (6, i.toNat)]])
  | .IntegerNumber x => some (187, [raw x.number])
  | .MilliSecondTimeStamp x => some (188, [o6 x.timestamp])
  | .EcgiList x => some (190, num 2 (x.ecgi_list.getD []).length :: (x.ecgi_list.getD []).flatMap ecgiFig)
  | .RemoteUserId x => some (192, bits [spare 6, flag x.imei.isSome, flag x.msisdn.isSome] ::
      (num 1 ((x.imsi.length + 1) / 2) :: digits x.imsi :: opt x.msisdn (fun s => [num 1 ((s.length + 1) / 2), digits s])) ++
      opt x.imei fun s => [num 1 ((s.length + 1) / 2), digits s])
  | .CIoTOptimizationSupportIndication x => some (194, [bits [spare 4, flag x.ihcsi, flag x.awopdn, flag x.scnipdn, flag x.sgnipdn]])
  | .HeaderCompressionConfiguration x => some (196, [bits [spare 1, flag (0x0104 ∈ x.rohc_profiles), flag (0x0103 ∈ x.rohc_profiles),
      flag (0x0102 ∈ x.rohc_profiles), flag (0x0006 ∈ x.rohc_profiles), flag (0x0004 ∈ x.rohc_profiles), flag (0x0003 ∈ x.rohc_profiles),
      flag (0x0002 ∈ x.rohc_profiles)], bits [spare 8], o2 x.max_cid])
  | .Apn x => some (71, nameFig x.name)
  | .Fqdn x => some (136, nameFig x.name)
  | .PgwFqdn x => some (215, nameFig x.name)
  | .Uli x => if (kindsIn x.loc).all (· ≤ 1) then some (86, uliFig x.loc) else none
  | .Epco x => some (197, [raw x.epco])
  | .ServingPlmnRateControl x => some (198, [o2 x.rate_ctrl_ul, o2 x.rate_ctrl_dl])
  | .Counter x => some (199, [o4 x.timestamp, o1 x.counter])
  | .MappedUeUsageType x => some (200, [o2 x.usage_type])
  | .SecondaryRatUsageDataReport x => some (201, [bits [spare 5, flag x.second_rat_dur_tansfer.isSome, flag x.irsgw, flag x.irpgw],
      o1 x.rat_type, bits [spare 4, (4, x.ebi.toNat)], o4 x.start_timestamp, o4 x.end_timestamp, o8 x.usg_data_dl, o8 x.usg_data_ul] ++
      opt x.second_rat_dur_tansfer lv)
  | .UpFunctionSelectionIndicationFlags x => some (202, [bits [spare 7, flag x.dcnr]])
  | .MaxPacketLossRate x => some (203, [bits [spare 6, flag x.max_packet_loss_dl.isSome, flag x.max_packet_loss_ul.isSome]] ++
      opt x.max_packet_loss_ul (fun i => [o2 i]) ++ opt x.max_packet_loss_dl fun i => [o2 i])
  | .ApnRateControlStatus x => some (204, [o4 x.ul_packets_allowed, o4 x.nmbr_add_exception_reports, o4 x.dl_packets_allowed, o8 x.validity_time])
  | .ExtendedTraceInformation x => some (205, [pl x.mcc x.mnc x.mnc_is_three_digits, o3 x.trace_id] ++ lv x.trigger_events ++
      lv x.list_ne_types ++ [o1 x.session_trace_depth] ++ lv x.list_interfaces ++ [num 1 (ipSize x.trace_collection_ip)] ++ ip x.trace_collection_ip)
  | .MonitoringEventExtensionInfo x => some (206, [bits [spare 6, flag x.ext_scef_ref_id.isSome, flag x.rmplrt.isSome], o4 x.scef_ref_id] ++
      lv (text x.scef_id) ++ opt x.rmplrt (fun i => [o3 i]) ++ opt x.ext_scef_ref_id fun i => [o8 i])
  | .AdditionalRrmPolicyIndex x => some (207, [o4 x.arpi])
  | .ServicesAuthorized x => some (210, [num 1 x.vehicle_ue_auth.toNat, num 1 x.pedestrian_ue_auth.toNat])
  | .BitRate x => some (211, [o4 x.bitrate])
  | .PC5QosFlow x => some (212, [bits [spare 7, flag x.range.isSome], o1 x.pqi_label, o4 x.gfbr, o4 x.mfbr] ++ opt x.range fun i => [o1 i])
  | .SgiPtpTunnelAddress x => some (213, (match x.ip with
      | .V4 _ => bits [spare 5, flag x.port.isSome, flag false, flag true]
      | .V6 _ => bits [spare 5, flag x.port.isSome, flag true, flag false]) :: ip x.ip ++ opt x.port fun p => [o2 p])
  | .GroupId x => some (216, [raw x.groupid])
  | .PSCellId x => some (217, [pl x.mcc x.mnc x.mnc_is_three_digits, raw x.nr_cgi])
  | .UpSecurityPolicy x => some (218, [bits [spare 6, (2, upIpCode x.up_ip_policy)]])
  | .AlternativeImsi x => some (219, [digits x.imsi])
  | .SpecialIEWithTypeExt x => some (254, [o2 x.ie_type_ext, raw x.ie_data])
  | .PrivateExtension x => some (255, [o2 x.enterprise_id, raw x.value])
  | _ => none

/-- The octets of a marshalled IE show a figure: the type, the number of octets behind the fourth, and these octets. -/
def Drawn (m : Bytes) (f : Nat × List Row) : Prop :=
  (m.take 3).map UInt8.toNat = [f.1, (f.2.flatMap draw).length / 256 % 256, (f.2.flatMap draw).length % 256] ∧
  (m.drop 4).map UInt8.toNat = f.2.flatMap draw

instance (m : Bytes) (f : Nat × List Row) : Decidable (Drawn m f) := by unfold Drawn; infer_instance

/-- The values that the code writes differently: all time zones but three, trace references (with the type of a serving network), user
locations whose type field is not the type (which the other kinds do not write),
F-TEIDs without address, transaction identifiers from 7 on, and home eNodeB identities (three octets instead of four). -/
def deviates : IE → Bool
  | .UeTimeZone x => x.time_zone ∉ [0, 53, -8]
  | .TraceReference _ => true
  | .Uli x => x.t != 86
  | .Fteid x => x.ipv4.isNone && x.ipv6.isNone
  | .TransactionIdentifier x => !(x.tid.id < 7)
  | .TargetIdentification x => match x.target_type with
      | .HomeeNbId _ => true
      | _ => false
  | .PresenceReportingAreaAction x => !x.home_enb.isEmpty
  | _ => false


end Gtp.Props
