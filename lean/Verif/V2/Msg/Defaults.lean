import Verif.V2.Msg.Base

/-!
# `Default` of the IEs that are mandatory in some message

(`Ebi`, `Apn`, `Fteid` and `Ambr` are in `Verif/V2/Group.lean`.)
-/

namespace Gtp.V2

/-- `Cause::default` (cause.rs:29-42). -/
def Cause.dflt : Cause := ⟨2, 2, 0, 0, false, false, false, none⟩

/-- `Imsi::default` (imsi.rs:23-32). -/
def Imsi.dflt : Imsi := ⟨1, 0, 0, []⟩

/-- `Pti::default` (pti.rs:24-33). -/
def Pti.dflt : Pti := ⟨100, 1, 0, 0⟩

/-- `RatType::default` (rattype.rs:143-152). -/
def RatType.dflt : RatType := ⟨82, 1, 0, .Eutran⟩

/-- `Recovery::default` (recovery.rs:23-32). -/
def Recovery.dflt : Recovery := ⟨3, 1, 0, 0⟩

/-- `Tmgi::default` (tmgi.rs:24-33). -/
def Tmgi.dflt : Tmgi := ⟨158, 6, 0, [0, 0, 0, 0, 0, 0]⟩

/-- `MbmsSessionDuration::default` (mbmssd.rs:25-35). -/
def MbmsSessionDuration.dflt : MbmsSessionDuration := ⟨138, 3, 0, 0, 0⟩

/-- `BearerQos::default` (bearerqos.rs:31-47). -/
def BearerQos.dflt : BearerQos :=
  { t := 80, length := 22, ins := 0, pre_emption_vulnerability := 0, priority_level := 0, pre_emption_capability := 0, qci := 9,
    maxbr_ul := 0, maxbr_dl := 0, gbr_ul := 0, gbr_dl := 0 }

/-- `IpAddress::default` (ipaddress.rs:24-33). -/
def IpAddress.dflt : IpAddress := ⟨74, 0, 0, .V4 (ip4 0 0 0 0)⟩

/-- `TraceInformation::default` (traceinfo.rs:33-50). -/
def TraceInformation.dflt : TraceInformation :=
  { t := 96, length := 34, ins := 0, mcc := 0, mnc := 0, mnc_is_three_digits := false, trace_id := 0, trigger_events := [],
    list_ne_types := 0, trace_depth := 0, list_interfaces := [], trace_collection_ip := ip4 0 0 0 0 }

/-- `Fqdn::default` (fqdn.rs:23-32). -/
def Fqdn.dflt : Fqdn := ⟨136, 1, 0, []⟩

/-- `MmContext::default` (mmctx.rs:17-21, mmctxepssecurityctxquadruplets.rs:50-85). -/
def MmContext.dflt : MmContext := .MmContextEpsSecurityContextQuadruplets
  { t := 107, length := 0, ins := 0, sec_mode := .EpsSecurityContextAndQuadruplets, ksi := 0, nas_integrity := .NoIntegrity,
    nas_cipher := .NoChiper, nas_dl_count := 0, nas_ul_count := 0, kasme := List.replicate 32 0, auth_quadruplets := none,
    auth_quintuplets := none, drx_params := none, next_hop := none, ncc := none, subscr_ue_ambr := none, used_ue_ambr := none,
    ue_ntwk_cap := none, ms_ntwk_cap := none, mei := none, access_res := ⟨false, false, false, false, false, false, false, false⟩, old_eps_sec_ctx := none,
    vdn_pref_ue_usage := none, ue_radio_cap_for_paging := none, ext_access_res := none, ue_add_security_cap := none,
    ue_nr_security_cap := none, apn_rate_controls := none, core_nw_res := none, ue_radio_cap_id := none, ensct := none }

/-- `ActionIndication::default` (actionindication.rs:66-75). -/
def ActionIndication.dflt : ActionIndication := ⟨168, 1, 0, .NoAction⟩

/-- `MbmsServiceArea::default` (mbmssa.rs:23-32). -/
def MbmsServiceArea.dflt : MbmsServiceArea := ⟨139, 0, 0, [0]⟩

/-- `MbmsIpMulticastDistribution::default` (mbmsipmulticastdistribution.rs:35-47). -/
def MbmsIpMulticastDistribution.dflt : MbmsIpMulticastDistribution :=
  { t := 142, length := 0, ins := 0, common_teid := 0, ip_multicast_address_1 := .V4 (ip4 0 0 0 0),
    ip_multicast_address_2 := .V4 (ip4 0 0 0 0), mbms_hc := .UncompressedHeader }

/-- `Fcause::default` (fcause.rs:62-72). -/
def Fcause.dflt : Fcause := ⟨119, 0, 0, .RadioNetworkLayer, []⟩

/-- `PlmnId::default` (plmnid.rs:26-37). -/
def PlmnId.dflt : PlmnId := ⟨120, 3, 0, 0, 0, false⟩

end Gtp.V2
