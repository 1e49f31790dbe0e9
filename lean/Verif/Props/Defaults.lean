import Verif.V2.Defaults
import Verif.V2.Msg.All
import Verif.C1.Msgs

/-!
# Property C58: the `Default` values

Callers build an IE or a message as `X { field: .., ..X::default() }`; the defaults supply the type code and the header.
The statements are about every IE kind and message type, the tables name those for which the rest of the claim fails.
-/

namespace Gtp.Props
open Gtp.V2 (Kind kindOf unmKind decoder MsgKind)

/-- Encoding the default, decoding it as its own kind and encoding again gives the same octets. -/
def V2Stable (k : Kind) : Prop :=
  ∃ e, unmKind (decoder .debug) .debug k.dflt.marshal k = .ok e ∧ e.marshal = k.dflt.marshal

instance (k : Kind) : Decidable (V2Stable k) :=
  match h : unmKind (decoder .debug) .debug k.dflt.marshal k with
  | .ok e => if he : e.marshal = k.dflt.marshal then isTrue ⟨e, h, he⟩ else
      isFalse fun ⟨e', h', he'⟩ => he (by rw [h] at h'; cases h'; exact he')
  | .err _ => isFalse fun ⟨e', h', _⟩ => by rw [h] at h'; cases h'
  | .panic => isFalse fun ⟨e', h', _⟩ => by rw [h] at h'; cases h'
  | .diverge => isFalse fun ⟨e', h', _⟩ => by rw [h] at h'; cases h'

/-- The kinds whose own decoder does not accept the default. -/
def v2Rejected : List Kind := [.Imsi, .Pco, .BearerTft, .TrafficAggregateDescription, .TraceInformation, .MmContext, .SrcRncPdcpCtxInfo,
  .Ldn, .AdditionalMmContextForSrvcc, .Apco, .PresenceReportingAreaInformation, .IntegerNumber, .Epco, .V2xInformation,
  .PC5QosParameters, .PgwChangeInfo, .GroupId, .AlternativeImsi, .PrivateExtension, .Unknown]

theorem kind_complete (k : Kind) : k ∈ Kind.list := by cases k <;> decide +kernel

theorem C58_v2_table : ∀ k ∈ Kind.list, k.dflt.kind = k ∧ k.dflt.t = k.dflt.marshal.getD 0 0 ∧ k.dflt.ins = 0 ∧
    (kindOf k.dflt.t = k ↔ k ∉ [.TraceReference, .TwanId]) ∧ (V2Stable k ↔ k ∉ v2Rejected) := by
  decide +kernel

/-- C58, IEs of GTPv2-C (partial): the default of every kind is an element of that kind, with instance 0 and the type code
that is written on the wire; the sequence decoder takes it for this kind (but for two kinds, as in C12). Encoding it, decoding it
and encoding it again gives the same octets, but for the kinds in `v2Rejected`. Missing: those kinds, see `C58_v2_violation`. -/
theorem C58_v2_defaults_partial (k : Kind) : k.dflt.kind = k ∧ k.dflt.t = k.dflt.marshal.getD 0 0 ∧ k.dflt.ins = 0 ∧
    (k ∉ [.TraceReference, .TwanId] → kindOf k.dflt.t = k) ∧ (k ∉ v2Rejected → V2Stable k) := by
  obtain ⟨h1, h2, h3, h4, h5⟩ := C58_v2_table k (kind_complete k)
  exact ⟨h1, h2, h3, h4.mpr, h5.mpr⟩

example : Kind.Fteid ∉ [Kind.TraceReference, Kind.TwanId] ∧ Kind.Fteid ∉ v2Rejected ∧ Kind.Fteid.dflt.marshal =
    [87, 0, 9, 0, 0x80, 0, 0, 0, 0, 0, 0, 0, 0] := by decide +kernel

/-- The default of these kinds is not accepted by the kind's own decoder. -/
theorem C58_v2_violation (k : Kind) (h : k ∈ v2Rejected) : ∀ e, unmKind (decoder .debug) .debug k.dflt.marshal k ≠ .ok e := by
  have aux : ∀ k ∈ v2Rejected, (match unmKind (decoder .debug) .debug k.dflt.marshal k with | .ok _ => false | _ => true) = true := by
    decide +kernel
  intro e he
  have := aux k h
  rw [he] at this
  cases this

/-- The default of every message type carries the type code its decoder asks for, and a TEID but for the echo and version
messages. -/
theorem C58_v2_messages (k : MsgKind) : (k.codec.header k.codec.dflt).msgtype = k.codec.msgtype ∧
    ((k.codec.header k.codec.dflt).teid = none ↔ k ∈ [.EchoRequest, .EchoResponse, .VersionNotSupported]) := by
  cases k <;> decide +kernel

/-- Encoding the default message and decoding it gives a message with the same octets. -/
def V2MsgStable (k : MsgKind) : Bool :=
  match k.codec.unmarshal .debug (k.codec.marshal k.codec.dflt) with
  | .ok x => decide (k.codec.marshal x = k.codec.marshal k.codec.dflt)
  | _ => false

/-- Message types whose default is not accepted: a mandatory list is empty, or a mandatory IE is itself not accepted. -/
def v2MsgRejected : List MsgKind := [.CreateBearerRequest, .CreateBearerResponse, .CreateForwardingTunnelRequest,
  .CreateIndirectDataForwardingTunnelRequest, .CreateIndirectDataForwardingTunnelResponse, .CreateSessionRequest,
  .CreateSessionResponse, .CsPagingIndication, .DeleteBearerCommand, .DeleteBearerFailureInd, .ForwardRelocationRequest,
  .ModifyBearerCommand, .PgwDownlinkTriggeringNotification, .PgwRestartNotification, .ResumeNotification, .TraceSessionActivation,
  .TraceSessionDeactivation, .UeRegistrationQueryRequest, .UeRegistrationQueryResponse, .UpdateBearerRequest, .UpdateBearerResponse]

/-- The default message is accepted by its own decoder exactly for the other types; for all of these nothing is lost. -/
theorem C58_v2_message_defaults (k : MsgKind) : V2MsgStable k = true ↔ k ∉ v2MsgRejected := by
  cases k <;> decide +kernel

end Gtp.Props

namespace Gtp.Props.C1
open Gtp.C1

/-- Encoding the default of an element, decoding it and encoding again gives the same octets. -/
def Stable (k : Kind) : Bool :=
  match k.codec.unm .debug (k.codec.mar k.codec.dflt) with
  | .ok x => decide (k.codec.mar x = k.codec.mar k.codec.dflt)
  | _ => false

/-- The kinds whose own decoder does not accept the default. -/
def rejected : List Kind := [.Imsi, .ChargingID, .Pco, .Msisdn, .Qos, .Tft, .TriggerId, .OmcId, .Imei]

/-- C58, elements of GTPv1-C: the default is written with the type code of its kind; it is accepted by the decoder of its kind,
without loss, exactly for the kinds outside the list. -/
theorem C58_c1_defaults (k : Kind) :
    (k.codec.mar k.codec.dflt).head? = some k.code ∧ (Stable k = true ↔ k ∉ rejected) := by
  cases k <;> decide +kernel

/-- Encoding the default message and decoding it gives a message with the same octets. -/
def MsgStable (k : Msg) : Bool :=
  match k.desc.unmarshal .debug (k.desc.marshalInto [] k.desc.dflt) with
  | .ok x => decide (k.desc.marshalInto [] x = k.desc.marshalInto [] k.desc.dflt)
  | _ => false

/-- C58, messages of GTPv1-C. -/
theorem C58_c1_message_defaults (k : Msg) : (k.desc.header k.desc.dflt).msgtype = k.desc.code ∧
    (MsgStable k = true ↔ k ∉ [.CreatePDPContextRequest, .UpdatePDPContextRequest, .InitiatePDPContextActivationRequest,
      .PDUNotificationRequest, .PDUNotificationRejectRequest]) := by
  cases k <;> decide +kernel

end Gtp.Props.C1
