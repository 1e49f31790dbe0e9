import Verif.Props.CRelay
import Verif.Props.Defaults
import Verif.Props.Resend

/-!
# Property C66: `Default` values are blank

`C58` says that defaults have the right type codes. Here: the octets behind type and length are all 0 and the length field has the
value that encoding computes, with the exceptions in the tables; and the decoder returns the default, with the computed length.
-/

namespace Gtp.Props
open Gtp.V2

/-- The contents of the defaults that are not all 0: identities without digits (filler 0xf), PLMN 000/00, a first value other than 0 of
an enumeration, lengths of inner parts, and the mandatory members of grouped IEs. -/
def v2Content : List (Kind × Bytes) := [
  (.StnSr, [0, 240]), (.SrvccCause, [1]), (.Mei, [240]), (.Msisdn, [240]), (.PdnAddressAllocation, [1, 0, 0, 0, 0]),
  (.BearerQos, [0, 9, 0, 0, 0, 0, 0, 0, 0, 0, 0, 0, 0, 0, 0, 0, 0, 0, 0, 0, 0, 0]),
  (.FlowQos, [9, 0, 0, 0, 0, 0, 0, 0, 0, 0, 0, 0, 0, 0, 0, 0, 0, 0, 0, 0, 0]), (.RatType, [6]), (.ServingNetwork, [0, 240, 0]),
  (.Fteid, [128, 0, 0, 0, 0, 0, 0, 0, 0]), (.GlobalCnId, [0, 240, 0, 0, 0]), (.S103pdf, [4, 0, 0, 0, 0, 0, 0, 0, 0, 0]),
  (.S1udf, [0, 4, 0, 0, 0, 0, 0, 0, 0, 0]), (.BearerContext, [73, 0, 1, 0, 0]),
  (.TraceInformation, [0, 240, 0, 0, 0, 0, 0, 0, 0, 0, 0, 0, 0]), (.PdnType, [1]),
  (.MmContext, [128, 0, 0, 0, 0, 0, 0, 0, 0, 0, 0, 0, 0, 0, 0, 0, 0, 0, 0, 0, 0, 0, 0, 0, 0, 0, 0, 0, 0, 0, 0, 0, 0, 0, 0, 0, 0, 0, 0, 0, 0, 0, 0, 0, 0, 0, 0, 0, 0, 0, 0, 0, 0]),
  (.PdnConnections, [71, 0, 1, 0, 0, 73, 0, 1, 0, 0, 87, 0, 9, 0, 128, 0, 0, 0, 0, 0, 0, 0, 0, 72, 0, 8, 0, 0, 0, 0, 0, 0, 0, 0, 0]),
  (.TraceReference, [0, 240, 0, 0, 0, 0]), (.CompleteRequestMessage, [2]), (.Guti, [0, 240, 0, 0, 0, 0, 0, 0, 0, 0]),
  (.PlmnId, [0, 240, 0]), (.TargetIdentification, [9]), (.RabContext, [240, 0, 0, 0, 0, 0, 0, 0, 0]),
  (.SourceIdentification, [0, 240, 0, 0, 0, 0, 0, 0, 2]), (.Fqcsid, [1, 0, 0, 0, 0, 0, 0]),
  (.MbmsIpMulticastDistribution, [0, 0, 0, 0, 4, 0, 0, 0, 0, 4, 0, 0, 0, 0, 0]), (.Uci, [0, 240, 0, 0, 0, 0, 0, 1]),
  (.CsgMembershipIndication, [1]), (.ServiceIndicator, [1]), (.DetachType, [1]), (.RanNasCause, [96, 0]),
  (.NodeNumber, [1, 145]), (.PresenceReportingAreaInformation, [0, 0, 0, 8]),
  (.OverloadControlInfo, [183, 0, 4, 0, 0, 0, 0, 0, 182, 0, 1, 0, 0, 156, 0, 1, 0, 0]),
  (.LoadControlInfo, [183, 0, 4, 0, 0, 0, 0, 0, 182, 0, 1, 0, 0]), (.RemoteUeContext, [192, 0, 2, 0, 0, 0]),
  (.RemoteUeIpInformation, [1, 0, 0, 0, 0]), (.ScefPdnConnections, [71, 0, 1, 0, 0, 73, 0, 1, 0, 0, 176, 0, 2, 0, 0, 0]),
  (.ExtendedTraceInformation, [0, 240, 0, 0, 0, 0, 0, 0, 0, 0, 4, 0, 0, 0, 0]), (.SgiPtpTunnelAddress, [1, 0, 0, 0, 0]),
  (.PSCellId, [0, 240, 0, 0, 0, 0, 0, 0])]

/-- The defaults whose length field is not the length of the encoding. -/
def v2Length : List (Kind × UInt16) := [
  (.StnSr, 0), (.Apn, 0), (.IpAddress, 0), (.Mei, 8), (.Msisdn, 0), (.PdnAddressAllocation, 0), (.Uli, 0), (.S103pdf, 0),
  (.S1udf, 0), (.BearerContext, 0), (.TraceInformation, 34), (.MmContext, 0), (.PdnConnections, 0), (.CompleteRequestMessage, 0),
  (.Fcontainer, 0), (.Fcause, 0), (.TargetIdentification, 0), (.SourceIdentification, 0), (.Fqcsid, 6),
  (.TransactionIdentifier, 0), (.MbmsSa, 0), (.MbmsIpMulticastDistribution, 0), (.AdditionalMmContextForSrvcc, 0),
  (.MdtConfiguration, 0), (.TwanId, 1), (.RanNasCause, 0), (.NodeNumber, 0), (.NodeIdentifier, 0),
  (.PresenceReportingAreaAction, 0), (.PresenceReportingAreaInformation, 8), (.OverloadControlInfo, 17), (.LoadControlInfo, 0),
  (.ApnRelativeCapacity, 0), (.MonitoringEventInformation, 0), (.EcgiList, 0), (.RemoteUeContext, 5), (.RemoteUserId, 0),
  (.RemoteUeIpInformation, 0), (.ScefPdnConnections, 0), (.MaxPacketLossRate, 0), (.ExtendedTraceInformation, 0),
  (.PC5QosFlow, 0), (.SgiPtpTunnelAddress, 0), (.PgwFqdn, 0), (.SpecialIEWithTypeExt, 0), (.PrivateExtension, 0)]

/-- The kinds whose default is not decoded to itself, whatever its length field. -/
def v2Altered : List Kind := [
  .Imsi, .Mei, .Pco, .BearerTft, .TrafficAggregateDescription, .TraceInformation, .MmContext, .PdnConnections, .TraceReference,
  .TargetIdentification, .SrcRncPdcpCtxInfo, .SourceIdentification, .Ldn, .AdditionalMmContextForSrvcc, .Apco, .TwanId,
  .PresenceReportingAreaInformation, .IntegerNumber, .RemoteUeContext, .ScefPdnConnections, .Epco, .V2xInformation,
  .PC5QosParameters, .PgwChangeInfo, .GroupId, .AlternativeImsi, .PrivateExtension, .Unknown]

theorem C66_v2_content_table : ∀ k ∈ Kind.list, ∀ o ∈ (k.dflt.marshal.drop 4).zipIdx,
    o.1 = ((v2Content.lookup k).getD []).getD o.2 0 := by decide +kernel

/-- C66, GTPv2-C: behind type, length and instance, the octets of a default are 0, or those in the table. -/
theorem C66_v2_content (k : Kind) (i : Nat) (o : UInt8) (h : (k.dflt.marshal.drop 4)[i]? = some o) :
    o = ((v2Content.lookup k).getD []).getD i 0 :=
  C66_v2_content_table k (kind_complete k) (o, i) (List.mem_zipIdx_iff_getElem?.mpr h)

theorem C66_v2_size_table : ∀ k ∈ Kind.list, (∀ c, v2Content.lookup k = some c → (k.dflt.marshal.drop 4).length = c.length) ∧
    k.dflt.length = (v2Length.lookup k).getD (UInt16.ofNat (k.dflt.marshal.length - 4)) := by decide +kernel

/-- C66, GTPv2-C: the length field of a default is the one that is written, but for the kinds in the table. -/
theorem C66_v2_length_partial (k : Kind) (h : v2Length.lookup k = none) : k.dflt.length.toNat + 4 = k.dflt.marshal.length := by
  have h1 : ∀ k ∈ Kind.list, v2Length.lookup k = none → k.dflt.length.toNat + 4 = k.dflt.marshal.length := by decide +kernel
  exact h1 k (kind_complete k) h

/-- The kinds in the table have a wrong length field in their default. -/
theorem C66_v2_length_violation : ∀ p ∈ v2Length, p.1.dflt.length = p.2 ∧ p.2.toNat + 4 ≠ p.1.dflt.marshal.length := by decide +kernel

theorem C66_v2_wf_table : ∀ k ∈ Kind.list, k.dflt.norm.WF ↔ k ∉ v2Altered := by decide +kernel

/-- C66, GTPv2-C (partial): the default is decoded to itself, with the computed length, whatever follows. Missing: the kinds in
`v2Altered`. -/
theorem C66_v2_decoded_partial (m : Mode) (k : Kind) (h : k ∉ v2Altered) (tail : Bytes) :
    decoder m (k.dflt.marshal ++ tail) = (decoder m tail >>= fun l => .ok (k.dflt.norm :: l)) :=
  C60_round_trip m k.dflt tail ((C66_v2_wf_table k (kind_complete k)).mpr h)

example : Kind.Fteid ∉ v2Altered ∧ v2Length.lookup Kind.Fteid = none ∧ (Kind.Fteid.dflt.marshal.drop 4)[0]? = some 128 := by decide +kernel

end Gtp.Props

namespace Gtp.Props.C1
open Gtp.C1

/-- The contents of the defaults that are not all 0. -/
def content : List (Kind × Bytes) := [
  (.Imsi, [240]), (.Rai, [0, 240, 0, 0, 0, 0]), (.ReorderingRequired, [254]), (.SelectionMode, [252]), (.TeardownInd, [255]),
  (.EndUserAddress, [241, 33]), (.Msisdn, [145, 240]), (.RatType, [2]), (.Uli, [0, 0, 240, 0, 0, 0, 0, 0]), (.Imei, [240]),
  (.Uci, [0, 240, 0, 0, 0, 0, 0, 0])]

/-- The defaults whose length field is not the length of the encoding. -/
def lengths : List (Kind × Nat) := [(.Apn, 0), (.Imei, 8), (.PrivateExtension, 0)]

theorem C66_c1_table : ∀ k ∈ Kind.all, (∀ o ∈ ((k.codec.mar k.codec.dflt).drop k.head).zipIdx, o.1 = ((content.lookup k).getD []).getD o.2 0) ∧
    (∀ c, content.lookup k = some c → ((k.codec.mar k.codec.dflt).drop k.head).length = c.length) ∧
    k.tOf k.codec.dflt = k.code ∧
    (k.lengthOf k.codec.dflt).isSome = decide (¬ NoLength k) ∧
    (∀ l, k.lengthOf k.codec.dflt = some l → l = (lengths.lookup k).getD ((k.codec.mar k.codec.dflt).length - k.head)) ∧
    (k.codec.WF (k.norm k.codec.dflt) ↔ k ∉ rejected) := by decide +kernel

theorem kind_all (k : Kind) : k ∈ Kind.all := by cases k <;> decide

/-- C66, GTPv1-C: behind type and length, the octets of a default are 0, or those in the table. -/
theorem C66_c1_content (k : Kind) (i : Nat) (o : UInt8) (h : ((k.codec.mar k.codec.dflt).drop k.head)[i]? = some o) :
    o = ((content.lookup k).getD []).getD i 0 :=
  (C66_c1_table k (kind_all k)).1 (o, i) (List.mem_zipIdx_iff_getElem?.mpr h)

/-- C66, GTPv1-C (partial): the type field of a default is the code of its kind, and its length field the one that is written. Missing:
the three kinds in `lengths`. -/
theorem C66_c1_fields_partial (k : Kind) : k.tOf k.codec.dflt = k.code ∧ ∀ l, k.lengthOf k.codec.dflt = some l → lengths.lookup k = none →
    l + k.head = (k.codec.mar k.codec.dflt).length := by
  have h := C66_c1_table k (kind_all k)
  refine ⟨h.2.2.1, fun l hl hn => ?_⟩
  have h1 := h.2.2.2.2.1 l hl
  have h2 : ∀ k ∈ Kind.all, k.head ≤ (k.codec.mar k.codec.dflt).length := by decide +kernel
  have := h2 k (kind_all k)
  rw [hn] at h1
  simp only [Option.getD_none] at h1
  omega

/-- C66, GTPv1-C (partial): the default is decoded to itself, with the computed length. Missing: the kinds in `rejected`. -/
theorem C66_c1_decoded_partial (m : Mode) (k : Kind) (h : k ∉ rejected) (tail : Bytes) (ht : Swallows k → tail = []) :
    k.codec.unm m (k.codec.mar k.codec.dflt ++ tail) = .ok (k.norm k.codec.dflt) :=
  C63_round_trip m k _ ((C66_c1_table k (kind_all k)).2.2.2.2.2.mpr h) tail ht

/-- The three kinds in `lengths` have a wrong length field in their default. -/
theorem C66_c1_violation : ∀ p ∈ lengths, p.1.lengthOf p.1.codec.dflt = some p.2 ∧
    p.2 + p.1.head ≠ (p.1.codec.mar p.1.codec.dflt).length := by decide +kernel

example : Kind.GsnAddress ∉ rejected ∧ ¬ Swallows .GsnAddress ∧ lengths.lookup .GsnAddress = none := by
  refine ⟨by decide, by simp [Swallows], by decide⟩

end Gtp.Props.C1
