import Verif.V2.Msg.CreateSession
import Verif.V2.Msg.M01
import Verif.V2.Msg.M02
import Verif.V2.Msg.M03
import Verif.V2.Msg.M04
import Verif.V2.Msg.M05
import Verif.V2.Msg.M06
import Verif.V2.Msg.M07
import Verif.V2.Msg.M08
import Verif.V2.Msg.M09
import Verif.V2.Msg.M10

/-!
# All GTPv2-C message types

Generated by `scripts/gen_msgs.py`: the 83 message types as one family, so that properties can be stated for all of them.
-/

namespace Gtp.V2

/-- The message types (src/gtpv2/messages/mod.rs). -/
inductive MsgKind where
  | AlertMmeAcknowledge
  | AlertMmeNotification
  | BearerResourceCommand
  | BearerResourceFailureInd
  | ChangeNotificationRequest
  | ChangeNotificationResponse
  | ContextAcknowledge
  | ContextRequest
  | ContextResponse
  | CreateBearerRequest
  | CreateBearerResponse
  | CreateForwardingTunnelRequest
  | CreateForwardingTunnelResponse
  | CreateIndirectDataForwardingTunnelRequest
  | CreateIndirectDataForwardingTunnelResponse
  | CreateSessionRequest
  | CreateSessionResponse
  | CsPagingIndication
  | DeleteBearerCommand
  | DeleteBearerFailureInd
  | DeleteBearerRequest
  | DeleteBearerResponse
  | DeleteIndirectDataForwardingTunnelRequest
  | DeleteIndirectDataForwardingTunnelResponse
  | DeletePdnConnectionSetRequest
  | DeletePndConnectionSetResponse
  | DeleteSessionRequest
  | DeleteSessionResponse
  | DetachAcknowledge
  | DetachNotification
  | DownlinkDataNotification
  | DownlinkDataNotificationAcknowledge
  | DownlinkDataNotificationFailureIndication
  | EchoRequest
  | EchoResponse
  | ForwardAccessContextAcknowledge
  | ForwardAccessContextNotification
  | ForwardRelocationCompleteAcknowledge
  | ForwardRelocationCompleteNotification
  | ForwardRelocationRequest
  | ForwardRelocationResponse
  | IdentificationRequest
  | IdentificationResponse
  | IsrStatusIndication
  | MbmsSessionStartRequest
  | MbmsSessionStartResponse
  | MbmsSessionStopRequest
  | MbmsSessionStopResponse
  | MbmsSessionUpdateRequest
  | MbmsSessionUpdateResponse
  | ModifyAccessBearersRequest
  | ModifyAccessBearersResponse
  | ModifyBearerCommand
  | ModifyBearerFailureInd
  | ModifyBearerRequest
  | ModifyBearerResponse
  | PgwDownlinkTriggeringAcknowledge
  | PgwDownlinkTriggeringNotification
  | PgwRestartNotification
  | PgwRestartNotificationAcknowledge
  | RanInformationRelay
  | ReleaseAccessBearersRequest
  | ReleaseAccessBearersResponse
  | RelocationCancelRequest
  | RelocationCancelResponse
  | RemoteUeReportAcknowledge
  | RemoteUeReportNotification
  | ResumeAcknowledge
  | ResumeNotification
  | StopPagingIndication
  | SuspendAcknowledge
  | SuspendNotification
  | TraceSessionActivation
  | TraceSessionDeactivation
  | UeActivityAcknowledge
  | UeActivityNotification
  | UeRegistrationQueryRequest
  | UeRegistrationQueryResponse
  | UpdateBearerRequest
  | UpdateBearerResponse
  | UpdatePdnConnectionSetRequest
  | UpdatePndConnectionSetResponse
  | VersionNotSupported
deriving DecidableEq, Repr

namespace MsgKind

/-- All of them. -/
def all : List MsgKind :=
  [.AlertMmeAcknowledge, .AlertMmeNotification, .BearerResourceCommand, .BearerResourceFailureInd, .ChangeNotificationRequest, .ChangeNotificationResponse, .ContextAcknowledge, .ContextRequest, .ContextResponse, .CreateBearerRequest, .CreateBearerResponse, .CreateForwardingTunnelRequest, .CreateForwardingTunnelResponse, .CreateIndirectDataForwardingTunnelRequest, .CreateIndirectDataForwardingTunnelResponse, .CreateSessionRequest, .CreateSessionResponse, .CsPagingIndication, .DeleteBearerCommand, .DeleteBearerFailureInd, .DeleteBearerRequest, .DeleteBearerResponse, .DeleteIndirectDataForwardingTunnelRequest, .DeleteIndirectDataForwardingTunnelResponse, .DeletePdnConnectionSetRequest, .DeletePndConnectionSetResponse, .DeleteSessionRequest, .DeleteSessionResponse, .DetachAcknowledge, .DetachNotification, .DownlinkDataNotification, .DownlinkDataNotificationAcknowledge, .DownlinkDataNotificationFailureIndication, .EchoRequest, .EchoResponse, .ForwardAccessContextAcknowledge, .ForwardAccessContextNotification, .ForwardRelocationCompleteAcknowledge, .ForwardRelocationCompleteNotification, .ForwardRelocationRequest, .ForwardRelocationResponse, .IdentificationRequest, .IdentificationResponse, .IsrStatusIndication, .MbmsSessionStartRequest, .MbmsSessionStartResponse, .MbmsSessionStopRequest, .MbmsSessionStopResponse, .MbmsSessionUpdateRequest, .MbmsSessionUpdateResponse, .ModifyAccessBearersRequest, .ModifyAccessBearersResponse, .ModifyBearerCommand, .ModifyBearerFailureInd, .ModifyBearerRequest, .ModifyBearerResponse, .PgwDownlinkTriggeringAcknowledge, .PgwDownlinkTriggeringNotification, .PgwRestartNotification, .PgwRestartNotificationAcknowledge, .RanInformationRelay, .ReleaseAccessBearersRequest, .ReleaseAccessBearersResponse, .RelocationCancelRequest, .RelocationCancelResponse, .RemoteUeReportAcknowledge, .RemoteUeReportNotification, .ResumeAcknowledge, .ResumeNotification, .StopPagingIndication, .SuspendAcknowledge, .SuspendNotification, .TraceSessionActivation, .TraceSessionDeactivation, .UeActivityAcknowledge, .UeActivityNotification, .UeRegistrationQueryRequest, .UeRegistrationQueryResponse, .UpdateBearerRequest, .UpdateBearerResponse, .UpdatePdnConnectionSetRequest, .UpdatePndConnectionSetResponse, .VersionNotSupported]

theorem mem_all : ∀ k : MsgKind, k ∈ all := by intro k; cases k <;> simp [all]

/-- The Rust struct. -/
def T : MsgKind → Type
  | .AlertMmeAcknowledge => Msg.AlertMmeAcknowledge
  | .AlertMmeNotification => Msg.AlertMmeNotification
  | .BearerResourceCommand => Msg.BearerResourceCommand
  | .BearerResourceFailureInd => Msg.BearerResourceFailureInd
  | .ChangeNotificationRequest => Msg.ChangeNotificationRequest
  | .ChangeNotificationResponse => Msg.ChangeNotificationResponse
  | .ContextAcknowledge => Msg.ContextAcknowledge
  | .ContextRequest => Msg.ContextRequest
  | .ContextResponse => Msg.ContextResponse
  | .CreateBearerRequest => Msg.CreateBearerRequest
  | .CreateBearerResponse => Msg.CreateBearerResponse
  | .CreateForwardingTunnelRequest => Msg.CreateForwardingTunnelRequest
  | .CreateForwardingTunnelResponse => Msg.CreateForwardingTunnelResponse
  | .CreateIndirectDataForwardingTunnelRequest => Msg.CreateIndirectDataForwardingTunnelRequest
  | .CreateIndirectDataForwardingTunnelResponse => Msg.CreateIndirectDataForwardingTunnelResponse
  | .CreateSessionRequest => Msg.CreateSessionRequest
  | .CreateSessionResponse => Msg.CreateSessionResponse
  | .CsPagingIndication => Msg.CsPagingIndication
  | .DeleteBearerCommand => Msg.DeleteBearerCommand
  | .DeleteBearerFailureInd => Msg.DeleteBearerFailureInd
  | .DeleteBearerRequest => Msg.DeleteBearerRequest
  | .DeleteBearerResponse => Msg.DeleteBearerResponse
  | .DeleteIndirectDataForwardingTunnelRequest => Msg.DeleteIndirectDataForwardingTunnelRequest
  | .DeleteIndirectDataForwardingTunnelResponse => Msg.DeleteIndirectDataForwardingTunnelResponse
  | .DeletePdnConnectionSetRequest => Msg.DeletePdnConnectionSetRequest
  | .DeletePndConnectionSetResponse => Msg.DeletePndConnectionSetResponse
  | .DeleteSessionRequest => Msg.DeleteSessionRequest
  | .DeleteSessionResponse => Msg.DeleteSessionResponse
  | .DetachAcknowledge => Msg.DetachAcknowledge
  | .DetachNotification => Msg.DetachNotification
  | .DownlinkDataNotification => Msg.DownlinkDataNotification
  | .DownlinkDataNotificationAcknowledge => Msg.DownlinkDataNotificationAcknowledge
  | .DownlinkDataNotificationFailureIndication => Msg.DownlinkDataNotificationFailureIndication
  | .EchoRequest => Msg.EchoRequest
  | .EchoResponse => Msg.EchoResponse
  | .ForwardAccessContextAcknowledge => Msg.ForwardAccessContextAcknowledge
  | .ForwardAccessContextNotification => Msg.ForwardAccessContextNotification
  | .ForwardRelocationCompleteAcknowledge => Msg.ForwardRelocationCompleteAcknowledge
  | .ForwardRelocationCompleteNotification => Msg.ForwardRelocationCompleteNotification
  | .ForwardRelocationRequest => Msg.ForwardRelocationRequest
  | .ForwardRelocationResponse => Msg.ForwardRelocationResponse
  | .IdentificationRequest => Msg.IdentificationRequest
  | .IdentificationResponse => Msg.IdentificationResponse
  | .IsrStatusIndication => Msg.IsrStatusIndication
  | .MbmsSessionStartRequest => Msg.MbmsSessionStartRequest
  | .MbmsSessionStartResponse => Msg.MbmsSessionStartResponse
  | .MbmsSessionStopRequest => Msg.MbmsSessionStopRequest
  | .MbmsSessionStopResponse => Msg.MbmsSessionStopResponse
  | .MbmsSessionUpdateRequest => Msg.MbmsSessionUpdateRequest
  | .MbmsSessionUpdateResponse => Msg.MbmsSessionUpdateResponse
  | .ModifyAccessBearersRequest => Msg.ModifyAccessBearersRequest
  | .ModifyAccessBearersResponse => Msg.ModifyAccessBearersResponse
  | .ModifyBearerCommand => Msg.ModifyBearerCommand
  | .ModifyBearerFailureInd => Msg.ModifyBearerFailureInd
  | .ModifyBearerRequest => Msg.ModifyBearerRequest
  | .ModifyBearerResponse => Msg.ModifyBearerResponse
  | .PgwDownlinkTriggeringAcknowledge => Msg.PgwDownlinkTriggeringAcknowledge
  | .PgwDownlinkTriggeringNotification => Msg.PgwDownlinkTriggeringNotification
  | .PgwRestartNotification => Msg.PgwRestartNotification
  | .PgwRestartNotificationAcknowledge => Msg.PgwRestartNotificationAcknowledge
  | .RanInformationRelay => Msg.RanInformationRelay
  | .ReleaseAccessBearersRequest => Msg.ReleaseAccessBearersRequest
  | .ReleaseAccessBearersResponse => Msg.ReleaseAccessBearersResponse
  | .RelocationCancelRequest => Msg.RelocationCancelRequest
  | .RelocationCancelResponse => Msg.RelocationCancelResponse
  | .RemoteUeReportAcknowledge => Msg.RemoteUeReportAcknowledge
  | .RemoteUeReportNotification => Msg.RemoteUeReportNotification
  | .ResumeAcknowledge => Msg.ResumeAcknowledge
  | .ResumeNotification => Msg.ResumeNotification
  | .StopPagingIndication => Msg.StopPagingIndication
  | .SuspendAcknowledge => Msg.SuspendAcknowledge
  | .SuspendNotification => Msg.SuspendNotification
  | .TraceSessionActivation => Msg.TraceSessionActivation
  | .TraceSessionDeactivation => Msg.TraceSessionDeactivation
  | .UeActivityAcknowledge => Msg.UeActivityAcknowledge
  | .UeActivityNotification => Msg.UeActivityNotification
  | .UeRegistrationQueryRequest => Msg.UeRegistrationQueryRequest
  | .UeRegistrationQueryResponse => Msg.UeRegistrationQueryResponse
  | .UpdateBearerRequest => Msg.UpdateBearerRequest
  | .UpdateBearerResponse => Msg.UpdateBearerResponse
  | .UpdatePdnConnectionSetRequest => Msg.UpdatePdnConnectionSetRequest
  | .UpdatePndConnectionSetResponse => Msg.UpdatePndConnectionSetResponse
  | .VersionNotSupported => Msg.VersionNotSupported

/-- Encoder and decoder. -/
def codec : (k : MsgKind) → Codec k.T
  | .AlertMmeAcknowledge => Msg.AlertMmeAcknowledge.codec
  | .AlertMmeNotification => Msg.AlertMmeNotification.codec
  | .BearerResourceCommand => Msg.BearerResourceCommand.codec
  | .BearerResourceFailureInd => Msg.BearerResourceFailureInd.codec
  | .ChangeNotificationRequest => Msg.ChangeNotificationRequest.codec
  | .ChangeNotificationResponse => Msg.ChangeNotificationResponse.codec
  | .ContextAcknowledge => Msg.ContextAcknowledge.codec
  | .ContextRequest => Msg.ContextRequest.codec
  | .ContextResponse => Msg.ContextResponse.codec
  | .CreateBearerRequest => Msg.CreateBearerRequest.codec
  | .CreateBearerResponse => Msg.CreateBearerResponse.codec
  | .CreateForwardingTunnelRequest => Msg.CreateForwardingTunnelRequest.codec
  | .CreateForwardingTunnelResponse => Msg.CreateForwardingTunnelResponse.codec
  | .CreateIndirectDataForwardingTunnelRequest => Msg.CreateIndirectDataForwardingTunnelRequest.codec
  | .CreateIndirectDataForwardingTunnelResponse => Msg.CreateIndirectDataForwardingTunnelResponse.codec
  | .CreateSessionRequest => Msg.CreateSessionRequest.codec
  | .CreateSessionResponse => Msg.CreateSessionResponse.codec
  | .CsPagingIndication => Msg.CsPagingIndication.codec
  | .DeleteBearerCommand => Msg.DeleteBearerCommand.codec
  | .DeleteBearerFailureInd => Msg.DeleteBearerFailureInd.codec
  | .DeleteBearerRequest => Msg.DeleteBearerRequest.codec
  | .DeleteBearerResponse => Msg.DeleteBearerResponse.codec
  | .DeleteIndirectDataForwardingTunnelRequest => Msg.DeleteIndirectDataForwardingTunnelRequest.codec
  | .DeleteIndirectDataForwardingTunnelResponse => Msg.DeleteIndirectDataForwardingTunnelResponse.codec
  | .DeletePdnConnectionSetRequest => Msg.DeletePdnConnectionSetRequest.codec
  | .DeletePndConnectionSetResponse => Msg.DeletePndConnectionSetResponse.codec
  | .DeleteSessionRequest => Msg.DeleteSessionRequest.codec
  | .DeleteSessionResponse => Msg.DeleteSessionResponse.codec
  | .DetachAcknowledge => Msg.DetachAcknowledge.codec
  | .DetachNotification => Msg.DetachNotification.codec
  | .DownlinkDataNotification => Msg.DownlinkDataNotification.codec
  | .DownlinkDataNotificationAcknowledge => Msg.DownlinkDataNotificationAcknowledge.codec
  | .DownlinkDataNotificationFailureIndication => Msg.DownlinkDataNotificationFailureIndication.codec
  | .EchoRequest => Msg.EchoRequest.codec
  | .EchoResponse => Msg.EchoResponse.codec
  | .ForwardAccessContextAcknowledge => Msg.ForwardAccessContextAcknowledge.codec
  | .ForwardAccessContextNotification => Msg.ForwardAccessContextNotification.codec
  | .ForwardRelocationCompleteAcknowledge => Msg.ForwardRelocationCompleteAcknowledge.codec
  | .ForwardRelocationCompleteNotification => Msg.ForwardRelocationCompleteNotification.codec
  | .ForwardRelocationRequest => Msg.ForwardRelocationRequest.codec
  | .ForwardRelocationResponse => Msg.ForwardRelocationResponse.codec
  | .IdentificationRequest => Msg.IdentificationRequest.codec
  | .IdentificationResponse => Msg.IdentificationResponse.codec
  | .IsrStatusIndication => Msg.IsrStatusIndication.codec
  | .MbmsSessionStartRequest => Msg.MbmsSessionStartRequest.codec
  | .MbmsSessionStartResponse => Msg.MbmsSessionStartResponse.codec
  | .MbmsSessionStopRequest => Msg.MbmsSessionStopRequest.codec
  | .MbmsSessionStopResponse => Msg.MbmsSessionStopResponse.codec
  | .MbmsSessionUpdateRequest => Msg.MbmsSessionUpdateRequest.codec
  | .MbmsSessionUpdateResponse => Msg.MbmsSessionUpdateResponse.codec
  | .ModifyAccessBearersRequest => Msg.ModifyAccessBearersRequest.codec
  | .ModifyAccessBearersResponse => Msg.ModifyAccessBearersResponse.codec
  | .ModifyBearerCommand => Msg.ModifyBearerCommand.codec
  | .ModifyBearerFailureInd => Msg.ModifyBearerFailureInd.codec
  | .ModifyBearerRequest => Msg.ModifyBearerRequest.codec
  | .ModifyBearerResponse => Msg.ModifyBearerResponse.codec
  | .PgwDownlinkTriggeringAcknowledge => Msg.PgwDownlinkTriggeringAcknowledge.codec
  | .PgwDownlinkTriggeringNotification => Msg.PgwDownlinkTriggeringNotification.codec
  | .PgwRestartNotification => Msg.PgwRestartNotification.codec
  | .PgwRestartNotificationAcknowledge => Msg.PgwRestartNotificationAcknowledge.codec
  | .RanInformationRelay => Msg.RanInformationRelay.codec
  | .ReleaseAccessBearersRequest => Msg.ReleaseAccessBearersRequest.codec
  | .ReleaseAccessBearersResponse => Msg.ReleaseAccessBearersResponse.codec
  | .RelocationCancelRequest => Msg.RelocationCancelRequest.codec
  | .RelocationCancelResponse => Msg.RelocationCancelResponse.codec
  | .RemoteUeReportAcknowledge => Msg.RemoteUeReportAcknowledge.codec
  | .RemoteUeReportNotification => Msg.RemoteUeReportNotification.codec
  | .ResumeAcknowledge => Msg.ResumeAcknowledge.codec
  | .ResumeNotification => Msg.ResumeNotification.codec
  | .StopPagingIndication => Msg.StopPagingIndication.codec
  | .SuspendAcknowledge => Msg.SuspendAcknowledge.codec
  | .SuspendNotification => Msg.SuspendNotification.codec
  | .TraceSessionActivation => Msg.TraceSessionActivation.codec
  | .TraceSessionDeactivation => Msg.TraceSessionDeactivation.codec
  | .UeActivityAcknowledge => Msg.UeActivityAcknowledge.codec
  | .UeActivityNotification => Msg.UeActivityNotification.codec
  | .UeRegistrationQueryRequest => Msg.UeRegistrationQueryRequest.codec
  | .UeRegistrationQueryResponse => Msg.UeRegistrationQueryResponse.codec
  | .UpdateBearerRequest => Msg.UpdateBearerRequest.codec
  | .UpdateBearerResponse => Msg.UpdateBearerResponse.codec
  | .UpdatePdnConnectionSetRequest => Msg.UpdatePdnConnectionSetRequest.codec
  | .UpdatePndConnectionSetResponse => Msg.UpdatePndConnectionSetResponse.codec
  | .VersionNotSupported => Msg.VersionNotSupported.codec

/-- The slots, one per field. -/
def schema : MsgKind → Schema
  | .AlertMmeAcknowledge => Msg.AlertMmeAcknowledge.schema
  | .AlertMmeNotification => Msg.AlertMmeNotification.schema
  | .BearerResourceCommand => Msg.BearerResourceCommand.schema
  | .BearerResourceFailureInd => Msg.BearerResourceFailureInd.schema
  | .ChangeNotificationRequest => Msg.ChangeNotificationRequest.schema
  | .ChangeNotificationResponse => Msg.ChangeNotificationResponse.schema
  | .ContextAcknowledge => Msg.ContextAcknowledge.schema
  | .ContextRequest => Msg.ContextRequest.schema
  | .ContextResponse => Msg.ContextResponse.schema
  | .CreateBearerRequest => Msg.CreateBearerRequest.schema
  | .CreateBearerResponse => Msg.CreateBearerResponse.schema
  | .CreateForwardingTunnelRequest => Msg.CreateForwardingTunnelRequest.schema
  | .CreateForwardingTunnelResponse => Msg.CreateForwardingTunnelResponse.schema
  | .CreateIndirectDataForwardingTunnelRequest => Msg.CreateIndirectDataForwardingTunnelRequest.schema
  | .CreateIndirectDataForwardingTunnelResponse => Msg.CreateIndirectDataForwardingTunnelResponse.schema
  | .CreateSessionRequest => Msg.CreateSessionRequest.schema
  | .CreateSessionResponse => Msg.CreateSessionResponse.schema
  | .CsPagingIndication => Msg.CsPagingIndication.schema
  | .DeleteBearerCommand => Msg.DeleteBearerCommand.schema
  | .DeleteBearerFailureInd => Msg.DeleteBearerFailureInd.schema
  | .DeleteBearerRequest => Msg.DeleteBearerRequest.schema
  | .DeleteBearerResponse => Msg.DeleteBearerResponse.schema
  | .DeleteIndirectDataForwardingTunnelRequest => Msg.DeleteIndirectDataForwardingTunnelRequest.schema
  | .DeleteIndirectDataForwardingTunnelResponse => Msg.DeleteIndirectDataForwardingTunnelResponse.schema
  | .DeletePdnConnectionSetRequest => Msg.DeletePdnConnectionSetRequest.schema
  | .DeletePndConnectionSetResponse => Msg.DeletePndConnectionSetResponse.schema
  | .DeleteSessionRequest => Msg.DeleteSessionRequest.schema
  | .DeleteSessionResponse => Msg.DeleteSessionResponse.schema
  | .DetachAcknowledge => Msg.DetachAcknowledge.schema
  | .DetachNotification => Msg.DetachNotification.schema
  | .DownlinkDataNotification => Msg.DownlinkDataNotification.schema
  | .DownlinkDataNotificationAcknowledge => Msg.DownlinkDataNotificationAcknowledge.schema
  | .DownlinkDataNotificationFailureIndication => Msg.DownlinkDataNotificationFailureIndication.schema
  | .EchoRequest => Msg.EchoRequest.schema
  | .EchoResponse => Msg.EchoResponse.schema
  | .ForwardAccessContextAcknowledge => Msg.ForwardAccessContextAcknowledge.schema
  | .ForwardAccessContextNotification => Msg.ForwardAccessContextNotification.schema
  | .ForwardRelocationCompleteAcknowledge => Msg.ForwardRelocationCompleteAcknowledge.schema
  | .ForwardRelocationCompleteNotification => Msg.ForwardRelocationCompleteNotification.schema
  | .ForwardRelocationRequest => Msg.ForwardRelocationRequest.schema
  | .ForwardRelocationResponse => Msg.ForwardRelocationResponse.schema
  | .IdentificationRequest => Msg.IdentificationRequest.schema
  | .IdentificationResponse => Msg.IdentificationResponse.schema
  | .IsrStatusIndication => Msg.IsrStatusIndication.schema
  | .MbmsSessionStartRequest => Msg.MbmsSessionStartRequest.schema
  | .MbmsSessionStartResponse => Msg.MbmsSessionStartResponse.schema
  | .MbmsSessionStopRequest => Msg.MbmsSessionStopRequest.schema
  | .MbmsSessionStopResponse => Msg.MbmsSessionStopResponse.schema
  | .MbmsSessionUpdateRequest => Msg.MbmsSessionUpdateRequest.schema
  | .MbmsSessionUpdateResponse => Msg.MbmsSessionUpdateResponse.schema
  | .ModifyAccessBearersRequest => Msg.ModifyAccessBearersRequest.schema
  | .ModifyAccessBearersResponse => Msg.ModifyAccessBearersResponse.schema
  | .ModifyBearerCommand => Msg.ModifyBearerCommand.schema
  | .ModifyBearerFailureInd => Msg.ModifyBearerFailureInd.schema
  | .ModifyBearerRequest => Msg.ModifyBearerRequest.schema
  | .ModifyBearerResponse => Msg.ModifyBearerResponse.schema
  | .PgwDownlinkTriggeringAcknowledge => Msg.PgwDownlinkTriggeringAcknowledge.schema
  | .PgwDownlinkTriggeringNotification => Msg.PgwDownlinkTriggeringNotification.schema
  | .PgwRestartNotification => Msg.PgwRestartNotification.schema
  | .PgwRestartNotificationAcknowledge => Msg.PgwRestartNotificationAcknowledge.schema
  | .RanInformationRelay => Msg.RanInformationRelay.schema
  | .ReleaseAccessBearersRequest => Msg.ReleaseAccessBearersRequest.schema
  | .ReleaseAccessBearersResponse => Msg.ReleaseAccessBearersResponse.schema
  | .RelocationCancelRequest => Msg.RelocationCancelRequest.schema
  | .RelocationCancelResponse => Msg.RelocationCancelResponse.schema
  | .RemoteUeReportAcknowledge => Msg.RemoteUeReportAcknowledge.schema
  | .RemoteUeReportNotification => Msg.RemoteUeReportNotification.schema
  | .ResumeAcknowledge => Msg.ResumeAcknowledge.schema
  | .ResumeNotification => Msg.ResumeNotification.schema
  | .StopPagingIndication => Msg.StopPagingIndication.schema
  | .SuspendAcknowledge => Msg.SuspendAcknowledge.schema
  | .SuspendNotification => Msg.SuspendNotification.schema
  | .TraceSessionActivation => Msg.TraceSessionActivation.schema
  | .TraceSessionDeactivation => Msg.TraceSessionDeactivation.schema
  | .UeActivityAcknowledge => Msg.UeActivityAcknowledge.schema
  | .UeActivityNotification => Msg.UeActivityNotification.schema
  | .UeRegistrationQueryRequest => Msg.UeRegistrationQueryRequest.schema
  | .UeRegistrationQueryResponse => Msg.UeRegistrationQueryResponse.schema
  | .UpdateBearerRequest => Msg.UpdateBearerRequest.schema
  | .UpdateBearerResponse => Msg.UpdateBearerResponse.schema
  | .UpdatePdnConnectionSetRequest => Msg.UpdatePdnConnectionSetRequest.schema
  | .UpdatePndConnectionSetResponse => Msg.UpdatePndConnectionSetResponse.schema
  | .VersionNotSupported => Msg.VersionNotSupported.schema

/-- The fields, as lists of IEs. -/
def fields : (k : MsgKind) → k.T → List (List IE)
  | .AlertMmeAcknowledge => Msg.AlertMmeAcknowledge.fields
  | .AlertMmeNotification => Msg.AlertMmeNotification.fields
  | .BearerResourceCommand => Msg.BearerResourceCommand.fields
  | .BearerResourceFailureInd => Msg.BearerResourceFailureInd.fields
  | .ChangeNotificationRequest => Msg.ChangeNotificationRequest.fields
  | .ChangeNotificationResponse => Msg.ChangeNotificationResponse.fields
  | .ContextAcknowledge => Msg.ContextAcknowledge.fields
  | .ContextRequest => Msg.ContextRequest.fields
  | .ContextResponse => Msg.ContextResponse.fields
  | .CreateBearerRequest => Msg.CreateBearerRequest.fields
  | .CreateBearerResponse => Msg.CreateBearerResponse.fields
  | .CreateForwardingTunnelRequest => Msg.CreateForwardingTunnelRequest.fields
  | .CreateForwardingTunnelResponse => Msg.CreateForwardingTunnelResponse.fields
  | .CreateIndirectDataForwardingTunnelRequest => Msg.CreateIndirectDataForwardingTunnelRequest.fields
  | .CreateIndirectDataForwardingTunnelResponse => Msg.CreateIndirectDataForwardingTunnelResponse.fields
  | .CreateSessionRequest => Msg.CreateSessionRequest.fields
  | .CreateSessionResponse => Msg.CreateSessionResponse.fields
  | .CsPagingIndication => Msg.CsPagingIndication.fields
  | .DeleteBearerCommand => Msg.DeleteBearerCommand.fields
  | .DeleteBearerFailureInd => Msg.DeleteBearerFailureInd.fields
  | .DeleteBearerRequest => Msg.DeleteBearerRequest.fields
  | .DeleteBearerResponse => Msg.DeleteBearerResponse.fields
  | .DeleteIndirectDataForwardingTunnelRequest => Msg.DeleteIndirectDataForwardingTunnelRequest.fields
  | .DeleteIndirectDataForwardingTunnelResponse => Msg.DeleteIndirectDataForwardingTunnelResponse.fields
  | .DeletePdnConnectionSetRequest => Msg.DeletePdnConnectionSetRequest.fields
  | .DeletePndConnectionSetResponse => Msg.DeletePndConnectionSetResponse.fields
  | .DeleteSessionRequest => Msg.DeleteSessionRequest.fields
  | .DeleteSessionResponse => Msg.DeleteSessionResponse.fields
  | .DetachAcknowledge => Msg.DetachAcknowledge.fields
  | .DetachNotification => Msg.DetachNotification.fields
  | .DownlinkDataNotification => Msg.DownlinkDataNotification.fields
  | .DownlinkDataNotificationAcknowledge => Msg.DownlinkDataNotificationAcknowledge.fields
  | .DownlinkDataNotificationFailureIndication => Msg.DownlinkDataNotificationFailureIndication.fields
  | .EchoRequest => Msg.EchoRequest.fields
  | .EchoResponse => Msg.EchoResponse.fields
  | .ForwardAccessContextAcknowledge => Msg.ForwardAccessContextAcknowledge.fields
  | .ForwardAccessContextNotification => Msg.ForwardAccessContextNotification.fields
  | .ForwardRelocationCompleteAcknowledge => Msg.ForwardRelocationCompleteAcknowledge.fields
  | .ForwardRelocationCompleteNotification => Msg.ForwardRelocationCompleteNotification.fields
  | .ForwardRelocationRequest => Msg.ForwardRelocationRequest.fields
  | .ForwardRelocationResponse => Msg.ForwardRelocationResponse.fields
  | .IdentificationRequest => Msg.IdentificationRequest.fields
  | .IdentificationResponse => Msg.IdentificationResponse.fields
  | .IsrStatusIndication => Msg.IsrStatusIndication.fields
  | .MbmsSessionStartRequest => Msg.MbmsSessionStartRequest.fields
  | .MbmsSessionStartResponse => Msg.MbmsSessionStartResponse.fields
  | .MbmsSessionStopRequest => Msg.MbmsSessionStopRequest.fields
  | .MbmsSessionStopResponse => Msg.MbmsSessionStopResponse.fields
  | .MbmsSessionUpdateRequest => Msg.MbmsSessionUpdateRequest.fields
  | .MbmsSessionUpdateResponse => Msg.MbmsSessionUpdateResponse.fields
  | .ModifyAccessBearersRequest => Msg.ModifyAccessBearersRequest.fields
  | .ModifyAccessBearersResponse => Msg.ModifyAccessBearersResponse.fields
  | .ModifyBearerCommand => Msg.ModifyBearerCommand.fields
  | .ModifyBearerFailureInd => Msg.ModifyBearerFailureInd.fields
  | .ModifyBearerRequest => Msg.ModifyBearerRequest.fields
  | .ModifyBearerResponse => Msg.ModifyBearerResponse.fields
  | .PgwDownlinkTriggeringAcknowledge => Msg.PgwDownlinkTriggeringAcknowledge.fields
  | .PgwDownlinkTriggeringNotification => Msg.PgwDownlinkTriggeringNotification.fields
  | .PgwRestartNotification => Msg.PgwRestartNotification.fields
  | .PgwRestartNotificationAcknowledge => Msg.PgwRestartNotificationAcknowledge.fields
  | .RanInformationRelay => Msg.RanInformationRelay.fields
  | .ReleaseAccessBearersRequest => Msg.ReleaseAccessBearersRequest.fields
  | .ReleaseAccessBearersResponse => Msg.ReleaseAccessBearersResponse.fields
  | .RelocationCancelRequest => Msg.RelocationCancelRequest.fields
  | .RelocationCancelResponse => Msg.RelocationCancelResponse.fields
  | .RemoteUeReportAcknowledge => Msg.RemoteUeReportAcknowledge.fields
  | .RemoteUeReportNotification => Msg.RemoteUeReportNotification.fields
  | .ResumeAcknowledge => Msg.ResumeAcknowledge.fields
  | .ResumeNotification => Msg.ResumeNotification.fields
  | .StopPagingIndication => Msg.StopPagingIndication.fields
  | .SuspendAcknowledge => Msg.SuspendAcknowledge.fields
  | .SuspendNotification => Msg.SuspendNotification.fields
  | .TraceSessionActivation => Msg.TraceSessionActivation.fields
  | .TraceSessionDeactivation => Msg.TraceSessionDeactivation.fields
  | .UeActivityAcknowledge => Msg.UeActivityAcknowledge.fields
  | .UeActivityNotification => Msg.UeActivityNotification.fields
  | .UeRegistrationQueryRequest => Msg.UeRegistrationQueryRequest.fields
  | .UeRegistrationQueryResponse => Msg.UeRegistrationQueryResponse.fields
  | .UpdateBearerRequest => Msg.UpdateBearerRequest.fields
  | .UpdateBearerResponse => Msg.UpdateBearerResponse.fields
  | .UpdatePdnConnectionSetRequest => Msg.UpdatePdnConnectionSetRequest.fields
  | .UpdatePndConnectionSetResponse => Msg.UpdatePndConnectionSetResponse.fields
  | .VersionNotSupported => Msg.VersionNotSupported.fields

theorem describes : (k : MsgKind) → Describes k.codec k.schema k.fields
  | .AlertMmeAcknowledge => Msg.AlertMmeAcknowledge.describes
  | .AlertMmeNotification => Msg.AlertMmeNotification.describes
  | .BearerResourceCommand => Msg.BearerResourceCommand.describes
  | .BearerResourceFailureInd => Msg.BearerResourceFailureInd.describes
  | .ChangeNotificationRequest => Msg.ChangeNotificationRequest.describes
  | .ChangeNotificationResponse => Msg.ChangeNotificationResponse.describes
  | .ContextAcknowledge => Msg.ContextAcknowledge.describes
  | .ContextRequest => Msg.ContextRequest.describes
  | .ContextResponse => Msg.ContextResponse.describes
  | .CreateBearerRequest => Msg.CreateBearerRequest.describes
  | .CreateBearerResponse => Msg.CreateBearerResponse.describes
  | .CreateForwardingTunnelRequest => Msg.CreateForwardingTunnelRequest.describes
  | .CreateForwardingTunnelResponse => Msg.CreateForwardingTunnelResponse.describes
  | .CreateIndirectDataForwardingTunnelRequest => Msg.CreateIndirectDataForwardingTunnelRequest.describes
  | .CreateIndirectDataForwardingTunnelResponse => Msg.CreateIndirectDataForwardingTunnelResponse.describes
  | .CreateSessionRequest => Msg.CreateSessionRequest.describes
  | .CreateSessionResponse => Msg.CreateSessionResponse.describes
  | .CsPagingIndication => Msg.CsPagingIndication.describes
  | .DeleteBearerCommand => Msg.DeleteBearerCommand.describes
  | .DeleteBearerFailureInd => Msg.DeleteBearerFailureInd.describes
  | .DeleteBearerRequest => Msg.DeleteBearerRequest.describes
  | .DeleteBearerResponse => Msg.DeleteBearerResponse.describes
  | .DeleteIndirectDataForwardingTunnelRequest => Msg.DeleteIndirectDataForwardingTunnelRequest.describes
  | .DeleteIndirectDataForwardingTunnelResponse => Msg.DeleteIndirectDataForwardingTunnelResponse.describes
  | .DeletePdnConnectionSetRequest => Msg.DeletePdnConnectionSetRequest.describes
  | .DeletePndConnectionSetResponse => Msg.DeletePndConnectionSetResponse.describes
  | .DeleteSessionRequest => Msg.DeleteSessionRequest.describes
  | .DeleteSessionResponse => Msg.DeleteSessionResponse.describes
  | .DetachAcknowledge => Msg.DetachAcknowledge.describes
  | .DetachNotification => Msg.DetachNotification.describes
  | .DownlinkDataNotification => Msg.DownlinkDataNotification.describes
  | .DownlinkDataNotificationAcknowledge => Msg.DownlinkDataNotificationAcknowledge.describes
  | .DownlinkDataNotificationFailureIndication => Msg.DownlinkDataNotificationFailureIndication.describes
  | .EchoRequest => Msg.EchoRequest.describes
  | .EchoResponse => Msg.EchoResponse.describes
  | .ForwardAccessContextAcknowledge => Msg.ForwardAccessContextAcknowledge.describes
  | .ForwardAccessContextNotification => Msg.ForwardAccessContextNotification.describes
  | .ForwardRelocationCompleteAcknowledge => Msg.ForwardRelocationCompleteAcknowledge.describes
  | .ForwardRelocationCompleteNotification => Msg.ForwardRelocationCompleteNotification.describes
  | .ForwardRelocationRequest => Msg.ForwardRelocationRequest.describes
  | .ForwardRelocationResponse => Msg.ForwardRelocationResponse.describes
  | .IdentificationRequest => Msg.IdentificationRequest.describes
  | .IdentificationResponse => Msg.IdentificationResponse.describes
  | .IsrStatusIndication => Msg.IsrStatusIndication.describes
  | .MbmsSessionStartRequest => Msg.MbmsSessionStartRequest.describes
  | .MbmsSessionStartResponse => Msg.MbmsSessionStartResponse.describes
  | .MbmsSessionStopRequest => Msg.MbmsSessionStopRequest.describes
  | .MbmsSessionStopResponse => Msg.MbmsSessionStopResponse.describes
  | .MbmsSessionUpdateRequest => Msg.MbmsSessionUpdateRequest.describes
  | .MbmsSessionUpdateResponse => Msg.MbmsSessionUpdateResponse.describes
  | .ModifyAccessBearersRequest => Msg.ModifyAccessBearersRequest.describes
  | .ModifyAccessBearersResponse => Msg.ModifyAccessBearersResponse.describes
  | .ModifyBearerCommand => Msg.ModifyBearerCommand.describes
  | .ModifyBearerFailureInd => Msg.ModifyBearerFailureInd.describes
  | .ModifyBearerRequest => Msg.ModifyBearerRequest.describes
  | .ModifyBearerResponse => Msg.ModifyBearerResponse.describes
  | .PgwDownlinkTriggeringAcknowledge => Msg.PgwDownlinkTriggeringAcknowledge.describes
  | .PgwDownlinkTriggeringNotification => Msg.PgwDownlinkTriggeringNotification.describes
  | .PgwRestartNotification => Msg.PgwRestartNotification.describes
  | .PgwRestartNotificationAcknowledge => Msg.PgwRestartNotificationAcknowledge.describes
  | .RanInformationRelay => Msg.RanInformationRelay.describes
  | .ReleaseAccessBearersRequest => Msg.ReleaseAccessBearersRequest.describes
  | .ReleaseAccessBearersResponse => Msg.ReleaseAccessBearersResponse.describes
  | .RelocationCancelRequest => Msg.RelocationCancelRequest.describes
  | .RelocationCancelResponse => Msg.RelocationCancelResponse.describes
  | .RemoteUeReportAcknowledge => Msg.RemoteUeReportAcknowledge.describes
  | .RemoteUeReportNotification => Msg.RemoteUeReportNotification.describes
  | .ResumeAcknowledge => Msg.ResumeAcknowledge.describes
  | .ResumeNotification => Msg.ResumeNotification.describes
  | .StopPagingIndication => Msg.StopPagingIndication.describes
  | .SuspendAcknowledge => Msg.SuspendAcknowledge.describes
  | .SuspendNotification => Msg.SuspendNotification.describes
  | .TraceSessionActivation => Msg.TraceSessionActivation.describes
  | .TraceSessionDeactivation => Msg.TraceSessionDeactivation.describes
  | .UeActivityAcknowledge => Msg.UeActivityAcknowledge.describes
  | .UeActivityNotification => Msg.UeActivityNotification.describes
  | .UeRegistrationQueryRequest => Msg.UeRegistrationQueryRequest.describes
  | .UeRegistrationQueryResponse => Msg.UeRegistrationQueryResponse.describes
  | .UpdateBearerRequest => Msg.UpdateBearerRequest.describes
  | .UpdateBearerResponse => Msg.UpdateBearerResponse.describes
  | .UpdatePdnConnectionSetRequest => Msg.UpdatePdnConnectionSetRequest.describes
  | .UpdatePndConnectionSetResponse => Msg.UpdatePndConnectionSetResponse.describes
  | .VersionNotSupported => Msg.VersionNotSupported.describes

/-- Message types that do not look for their mandatory IEs. -/
def unchecked : List MsgKind := [.IdentificationResponse]

/-- Message types that report a missing IE by a wrong type. -/
def misreporting : List MsgKind := [.CreateForwardingTunnelResponse, .CreateIndirectDataForwardingTunnelResponse, .ForwardRelocationRequest, .MbmsSessionStartRequest]

theorem reportsType : (k : MsgKind) → k ∉ unchecked → k ∉ misreporting → ReportsType k.codec k.schema
  | .AlertMmeAcknowledge, _, _ => fun h els _ hm => Msg.AlertMmeAcknowledge.reports h els hm
  | .AlertMmeNotification, _, _ => fun _ _ _ hm => absurd (Schema.missing_nil (l := []) rfl (by simp)) hm
  | .BearerResourceCommand, _, _ => fun h els _ hm => Msg.BearerResourceCommand.reports h els hm
  | .BearerResourceFailureInd, _, _ => fun h els _ hm => Msg.BearerResourceFailureInd.reports h els hm
  | .ChangeNotificationRequest, _, _ => fun h els _ hm => Msg.ChangeNotificationRequest.reports h els hm
  | .ChangeNotificationResponse, _, _ => fun h els _ hm => Msg.ChangeNotificationResponse.reports h els hm
  | .ContextAcknowledge, _, _ => fun h els _ hm => Msg.ContextAcknowledge.reports h els hm
  | .ContextRequest, _, _ => fun _ _ _ hm => absurd (Schema.missing_nil (l := []) rfl (by simp)) hm
  | .ContextResponse, _, _ => fun h els _ hm => Msg.ContextResponse.reports h els hm
  | .CreateBearerRequest, _, _ => fun h els _ hm => Msg.CreateBearerRequest.reports h els hm
  | .CreateBearerResponse, _, _ => fun h els _ hm => Msg.CreateBearerResponse.reports h els hm
  | .CreateForwardingTunnelRequest, _, _ => fun h els _ hm => Msg.CreateForwardingTunnelRequest.reports h els hm
  | .CreateForwardingTunnelResponse, _, h => absurd (by simp [misreporting]) h
  | .CreateIndirectDataForwardingTunnelRequest, _, _ => fun h els _ hm => Msg.CreateIndirectDataForwardingTunnelRequest.reports h els hm
  | .CreateIndirectDataForwardingTunnelResponse, _, h => absurd (by simp [misreporting]) h
  | .CreateSessionRequest, _, _ => fun h els hq hm => Msg.CreateSessionRequest.reports h els hq hm
  | .CreateSessionResponse, _, _ => fun h els _ hm => Msg.CreateSessionResponse.reports h els hm
  | .CsPagingIndication, _, _ => fun h els _ hm => Msg.CsPagingIndication.reports h els hm
  | .DeleteBearerCommand, _, _ => fun h els _ hm => Msg.DeleteBearerCommand.reports h els hm
  | .DeleteBearerFailureInd, _, _ => fun h els _ hm => Msg.DeleteBearerFailureInd.reports h els hm
  | .DeleteBearerRequest, _, _ => fun _ _ _ hm => absurd (Schema.missing_nil (l := []) rfl (by simp)) hm
  | .DeleteBearerResponse, _, _ => fun h els _ hm => Msg.DeleteBearerResponse.reports h els hm
  | .DeleteIndirectDataForwardingTunnelRequest, _, _ => fun _ _ _ hm => absurd (Schema.missing_nil (l := []) rfl (by simp)) hm
  | .DeleteIndirectDataForwardingTunnelResponse, _, _ => fun h els _ hm => Msg.DeleteIndirectDataForwardingTunnelResponse.reports h els hm
  | .DeletePdnConnectionSetRequest, _, _ => fun _ _ _ hm => absurd (Schema.missing_nil (l := []) rfl (by simp)) hm
  | .DeletePndConnectionSetResponse, _, _ => fun h els _ hm => Msg.DeletePndConnectionSetResponse.reports h els hm
  | .DeleteSessionRequest, _, _ => fun _ _ _ hm => absurd (Schema.missing_nil (l := []) rfl (by simp)) hm
  | .DeleteSessionResponse, _, _ => fun h els _ hm => Msg.DeleteSessionResponse.reports h els hm
  | .DetachAcknowledge, _, _ => fun h els _ hm => Msg.DetachAcknowledge.reports h els hm
  | .DetachNotification, _, _ => fun h els _ hm => Msg.DetachNotification.reports h els hm
  | .DownlinkDataNotification, _, _ => fun _ _ _ hm => absurd (Schema.missing_nil (l := []) rfl (by simp)) hm
  | .DownlinkDataNotificationAcknowledge, _, _ => fun h els _ hm => Msg.DownlinkDataNotificationAcknowledge.reports h els hm
  | .DownlinkDataNotificationFailureIndication, _, _ => fun h els _ hm => Msg.DownlinkDataNotificationFailureIndication.reports h els hm
  | .EchoRequest, _, _ => fun h els _ hm => Msg.EchoRequest.reports h els hm
  | .EchoResponse, _, _ => fun h els _ hm => Msg.EchoResponse.reports h els hm
  | .ForwardAccessContextAcknowledge, _, _ => fun h els _ hm => Msg.ForwardAccessContextAcknowledge.reports h els hm
  | .ForwardAccessContextNotification, _, _ => fun _ _ _ hm => absurd (Schema.missing_nil (l := []) rfl (by simp)) hm
  | .ForwardRelocationCompleteAcknowledge, _, _ => fun h els _ hm => Msg.ForwardRelocationCompleteAcknowledge.reports h els hm
  | .ForwardRelocationCompleteNotification, _, _ => fun _ _ _ hm => absurd (Schema.missing_nil (l := []) rfl (by simp)) hm
  | .ForwardRelocationRequest, _, h => absurd (by simp [misreporting]) h
  | .ForwardRelocationResponse, _, _ => fun h els _ hm => Msg.ForwardRelocationResponse.reports h els hm
  | .IdentificationRequest, _, _ => fun _ _ _ hm => absurd (Schema.missing_nil (l := []) rfl (by simp)) hm
  | .IdentificationResponse, h, _ => absurd (by simp [unchecked]) h
  | .IsrStatusIndication, _, _ => fun h els _ hm => Msg.IsrStatusIndication.reports h els hm
  | .MbmsSessionStartRequest, _, h => absurd (by simp [misreporting]) h
  | .MbmsSessionStartResponse, _, _ => fun h els _ hm => Msg.MbmsSessionStartResponse.reports h els hm
  | .MbmsSessionStopRequest, _, _ => fun _ _ _ hm => absurd (Schema.missing_nil (l := []) rfl (by simp)) hm
  | .MbmsSessionStopResponse, _, _ => fun h els _ hm => Msg.MbmsSessionStopResponse.reports h els hm
  | .MbmsSessionUpdateRequest, _, _ => fun h els _ hm => Msg.MbmsSessionUpdateRequest.reports h els hm
  | .MbmsSessionUpdateResponse, _, _ => fun h els _ hm => Msg.MbmsSessionUpdateResponse.reports h els hm
  | .ModifyAccessBearersRequest, _, _ => fun _ _ _ hm => absurd (Schema.missing_nil (l := []) rfl (by simp)) hm
  | .ModifyAccessBearersResponse, _, _ => fun h els _ hm => Msg.ModifyAccessBearersResponse.reports h els hm
  | .ModifyBearerCommand, _, _ => fun h els _ hm => Msg.ModifyBearerCommand.reports h els hm
  | .ModifyBearerFailureInd, _, _ => fun h els _ hm => Msg.ModifyBearerFailureInd.reports h els hm
  | .ModifyBearerRequest, _, _ => fun _ _ _ hm => absurd (Schema.missing_nil (l := []) rfl (by simp)) hm
  | .ModifyBearerResponse, _, _ => fun h els _ hm => Msg.ModifyBearerResponse.reports h els hm
  | .PgwDownlinkTriggeringAcknowledge, _, _ => fun h els _ hm => Msg.PgwDownlinkTriggeringAcknowledge.reports h els hm
  | .PgwDownlinkTriggeringNotification, _, _ => fun h els _ hm => Msg.PgwDownlinkTriggeringNotification.reports h els hm
  | .PgwRestartNotification, _, _ => fun h els _ hm => Msg.PgwRestartNotification.reports h els hm
  | .PgwRestartNotificationAcknowledge, _, _ => fun h els _ hm => Msg.PgwRestartNotificationAcknowledge.reports h els hm
  | .RanInformationRelay, _, _ => fun h els _ hm => Msg.RanInformationRelay.reports h els hm
  | .ReleaseAccessBearersRequest, _, _ => fun _ _ _ hm => absurd (Schema.missing_nil (l := []) rfl (by simp)) hm
  | .ReleaseAccessBearersResponse, _, _ => fun h els _ hm => Msg.ReleaseAccessBearersResponse.reports h els hm
  | .RelocationCancelRequest, _, _ => fun _ _ _ hm => absurd (Schema.missing_nil (l := []) rfl (by simp)) hm
  | .RelocationCancelResponse, _, _ => fun h els _ hm => Msg.RelocationCancelResponse.reports h els hm
  | .RemoteUeReportAcknowledge, _, _ => fun h els _ hm => Msg.RemoteUeReportAcknowledge.reports h els hm
  | .RemoteUeReportNotification, _, _ => fun _ _ _ hm => absurd (Schema.missing_nil (l := []) rfl (by simp)) hm
  | .ResumeAcknowledge, _, _ => fun h els _ hm => Msg.ResumeAcknowledge.reports h els hm
  | .ResumeNotification, _, _ => fun h els _ hm => Msg.ResumeNotification.reports h els hm
  | .StopPagingIndication, _, _ => fun _ _ _ hm => absurd (Schema.missing_nil (l := []) rfl (by simp)) hm
  | .SuspendAcknowledge, _, _ => fun h els _ hm => Msg.SuspendAcknowledge.reports h els hm
  | .SuspendNotification, _, _ => fun _ _ _ hm => absurd (Schema.missing_nil (l := []) rfl (by simp)) hm
  | .TraceSessionActivation, _, _ => fun h els _ hm => Msg.TraceSessionActivation.reports h els hm
  | .TraceSessionDeactivation, _, _ => fun h els _ hm => Msg.TraceSessionDeactivation.reports h els hm
  | .UeActivityAcknowledge, _, _ => fun h els _ hm => Msg.UeActivityAcknowledge.reports h els hm
  | .UeActivityNotification, _, _ => fun _ _ _ hm => absurd (Schema.missing_nil (l := []) rfl (by simp)) hm
  | .UeRegistrationQueryRequest, _, _ => fun h els _ hm => Msg.UeRegistrationQueryRequest.reports h els hm
  | .UeRegistrationQueryResponse, _, _ => fun h els _ hm => Msg.UeRegistrationQueryResponse.reports h els hm
  | .UpdateBearerRequest, _, _ => fun h els _ hm => Msg.UpdateBearerRequest.reports h els hm
  | .UpdateBearerResponse, _, _ => fun h els _ hm => Msg.UpdateBearerResponse.reports h els hm
  | .UpdatePdnConnectionSetRequest, _, _ => fun _ _ _ hm => absurd (Schema.missing_nil (l := []) rfl (by simp)) hm
  | .UpdatePndConnectionSetResponse, _, _ => fun h els _ hm => Msg.UpdatePndConnectionSetResponse.reports h els hm
  | .VersionNotSupported, _, _ => fun _ _ _ hm => absurd (Schema.missing_nil (l := []) rfl (by simp)) hm

theorem settled : (k : MsgKind) → k ∉ unchecked → Settled k.codec k.schema
  | .AlertMmeAcknowledge, _ => fun h els els' _ _ he hm => Msg.AlertMmeAcknowledge.settled h els els' he hm
  | .AlertMmeNotification, _ => fun _ _ _ _ _ _ hm => absurd (Schema.missing_nil (l := []) rfl (by simp)) hm
  | .BearerResourceCommand, _ => fun h els els' _ _ he hm => Msg.BearerResourceCommand.settled h els els' he hm
  | .BearerResourceFailureInd, _ => fun h els els' _ _ he hm => Msg.BearerResourceFailureInd.settled h els els' he hm
  | .ChangeNotificationRequest, _ => fun h els els' _ _ he hm => Msg.ChangeNotificationRequest.settled h els els' he hm
  | .ChangeNotificationResponse, _ => fun h els els' _ _ he hm => Msg.ChangeNotificationResponse.settled h els els' he hm
  | .ContextAcknowledge, _ => fun h els els' _ _ he hm => Msg.ContextAcknowledge.settled h els els' he hm
  | .ContextRequest, _ => fun _ _ _ _ _ _ hm => absurd (Schema.missing_nil (l := []) rfl (by simp)) hm
  | .ContextResponse, _ => fun h els els' _ _ he hm => Msg.ContextResponse.settled h els els' he hm
  | .CreateBearerRequest, _ => fun h els els' _ _ he hm => Msg.CreateBearerRequest.settled h els els' he hm
  | .CreateBearerResponse, _ => fun h els els' _ _ he hm => Msg.CreateBearerResponse.settled h els els' he hm
  | .CreateForwardingTunnelRequest, _ => fun h els els' _ _ he hm => Msg.CreateForwardingTunnelRequest.settled h els els' he hm
  | .CreateForwardingTunnelResponse, _ => fun h els els' _ _ he hm => Msg.CreateForwardingTunnelResponse.settled h els els' he hm
  | .CreateIndirectDataForwardingTunnelRequest, _ => fun h els els' _ _ he hm => Msg.CreateIndirectDataForwardingTunnelRequest.settled h els els' he hm
  | .CreateIndirectDataForwardingTunnelResponse, _ => fun h els els' _ _ he hm => Msg.CreateIndirectDataForwardingTunnelResponse.settled h els els' he hm
  | .CreateSessionRequest, _ => fun h els els' hq hq' he hm => Msg.CreateSessionRequest.settled h els els' hq hq' he hm
  | .CreateSessionResponse, _ => fun h els els' _ _ he hm => Msg.CreateSessionResponse.settled h els els' he hm
  | .CsPagingIndication, _ => fun h els els' _ _ he hm => Msg.CsPagingIndication.settled h els els' he hm
  | .DeleteBearerCommand, _ => fun h els els' _ _ he hm => Msg.DeleteBearerCommand.settled h els els' he hm
  | .DeleteBearerFailureInd, _ => fun h els els' _ _ he hm => Msg.DeleteBearerFailureInd.settled h els els' he hm
  | .DeleteBearerRequest, _ => fun _ _ _ _ _ _ hm => absurd (Schema.missing_nil (l := []) rfl (by simp)) hm
  | .DeleteBearerResponse, _ => fun h els els' _ _ he hm => Msg.DeleteBearerResponse.settled h els els' he hm
  | .DeleteIndirectDataForwardingTunnelRequest, _ => fun _ _ _ _ _ _ hm => absurd (Schema.missing_nil (l := []) rfl (by simp)) hm
  | .DeleteIndirectDataForwardingTunnelResponse, _ => fun h els els' _ _ he hm => Msg.DeleteIndirectDataForwardingTunnelResponse.settled h els els' he hm
  | .DeletePdnConnectionSetRequest, _ => fun _ _ _ _ _ _ hm => absurd (Schema.missing_nil (l := []) rfl (by simp)) hm
  | .DeletePndConnectionSetResponse, _ => fun h els els' _ _ he hm => Msg.DeletePndConnectionSetResponse.settled h els els' he hm
  | .DeleteSessionRequest, _ => fun _ _ _ _ _ _ hm => absurd (Schema.missing_nil (l := []) rfl (by simp)) hm
  | .DeleteSessionResponse, _ => fun h els els' _ _ he hm => Msg.DeleteSessionResponse.settled h els els' he hm
  | .DetachAcknowledge, _ => fun h els els' _ _ he hm => Msg.DetachAcknowledge.settled h els els' he hm
  | .DetachNotification, _ => fun h els els' _ _ he hm => Msg.DetachNotification.settled h els els' he hm
  | .DownlinkDataNotification, _ => fun _ _ _ _ _ _ hm => absurd (Schema.missing_nil (l := []) rfl (by simp)) hm
  | .DownlinkDataNotificationAcknowledge, _ => fun h els els' _ _ he hm => Msg.DownlinkDataNotificationAcknowledge.settled h els els' he hm
  | .DownlinkDataNotificationFailureIndication, _ => fun h els els' _ _ he hm => Msg.DownlinkDataNotificationFailureIndication.settled h els els' he hm
  | .EchoRequest, _ => fun h els els' _ _ he hm => Msg.EchoRequest.settled h els els' he hm
  | .EchoResponse, _ => fun h els els' _ _ he hm => Msg.EchoResponse.settled h els els' he hm
  | .ForwardAccessContextAcknowledge, _ => fun h els els' _ _ he hm => Msg.ForwardAccessContextAcknowledge.settled h els els' he hm
  | .ForwardAccessContextNotification, _ => fun _ _ _ _ _ _ hm => absurd (Schema.missing_nil (l := []) rfl (by simp)) hm
  | .ForwardRelocationCompleteAcknowledge, _ => fun h els els' _ _ he hm => Msg.ForwardRelocationCompleteAcknowledge.settled h els els' he hm
  | .ForwardRelocationCompleteNotification, _ => fun _ _ _ _ _ _ hm => absurd (Schema.missing_nil (l := []) rfl (by simp)) hm
  | .ForwardRelocationRequest, _ => fun h els els' _ _ he hm => Msg.ForwardRelocationRequest.settled h els els' he hm
  | .ForwardRelocationResponse, _ => fun h els els' _ _ he hm => Msg.ForwardRelocationResponse.settled h els els' he hm
  | .IdentificationRequest, _ => fun _ _ _ _ _ _ hm => absurd (Schema.missing_nil (l := []) rfl (by simp)) hm
  | .IdentificationResponse, h => absurd (by simp [unchecked]) h
  | .IsrStatusIndication, _ => fun h els els' _ _ he hm => Msg.IsrStatusIndication.settled h els els' he hm
  | .MbmsSessionStartRequest, _ => fun h els els' _ _ he hm => Msg.MbmsSessionStartRequest.settled h els els' he hm
  | .MbmsSessionStartResponse, _ => fun h els els' _ _ he hm => Msg.MbmsSessionStartResponse.settled h els els' he hm
  | .MbmsSessionStopRequest, _ => fun _ _ _ _ _ _ hm => absurd (Schema.missing_nil (l := []) rfl (by simp)) hm
  | .MbmsSessionStopResponse, _ => fun h els els' _ _ he hm => Msg.MbmsSessionStopResponse.settled h els els' he hm
  | .MbmsSessionUpdateRequest, _ => fun h els els' _ _ he hm => Msg.MbmsSessionUpdateRequest.settled h els els' he hm
  | .MbmsSessionUpdateResponse, _ => fun h els els' _ _ he hm => Msg.MbmsSessionUpdateResponse.settled h els els' he hm
  | .ModifyAccessBearersRequest, _ => fun _ _ _ _ _ _ hm => absurd (Schema.missing_nil (l := []) rfl (by simp)) hm
  | .ModifyAccessBearersResponse, _ => fun h els els' _ _ he hm => Msg.ModifyAccessBearersResponse.settled h els els' he hm
  | .ModifyBearerCommand, _ => fun h els els' _ _ he hm => Msg.ModifyBearerCommand.settled h els els' he hm
  | .ModifyBearerFailureInd, _ => fun h els els' _ _ he hm => Msg.ModifyBearerFailureInd.settled h els els' he hm
  | .ModifyBearerRequest, _ => fun _ _ _ _ _ _ hm => absurd (Schema.missing_nil (l := []) rfl (by simp)) hm
  | .ModifyBearerResponse, _ => fun h els els' _ _ he hm => Msg.ModifyBearerResponse.settled h els els' he hm
  | .PgwDownlinkTriggeringAcknowledge, _ => fun h els els' _ _ he hm => Msg.PgwDownlinkTriggeringAcknowledge.settled h els els' he hm
  | .PgwDownlinkTriggeringNotification, _ => fun h els els' _ _ he hm => Msg.PgwDownlinkTriggeringNotification.settled h els els' he hm
  | .PgwRestartNotification, _ => fun h els els' _ _ he hm => Msg.PgwRestartNotification.settled h els els' he hm
  | .PgwRestartNotificationAcknowledge, _ => fun h els els' _ _ he hm => Msg.PgwRestartNotificationAcknowledge.settled h els els' he hm
  | .RanInformationRelay, _ => fun h els els' _ _ he hm => Msg.RanInformationRelay.settled h els els' he hm
  | .ReleaseAccessBearersRequest, _ => fun _ _ _ _ _ _ hm => absurd (Schema.missing_nil (l := []) rfl (by simp)) hm
  | .ReleaseAccessBearersResponse, _ => fun h els els' _ _ he hm => Msg.ReleaseAccessBearersResponse.settled h els els' he hm
  | .RelocationCancelRequest, _ => fun _ _ _ _ _ _ hm => absurd (Schema.missing_nil (l := []) rfl (by simp)) hm
  | .RelocationCancelResponse, _ => fun h els els' _ _ he hm => Msg.RelocationCancelResponse.settled h els els' he hm
  | .RemoteUeReportAcknowledge, _ => fun h els els' _ _ he hm => Msg.RemoteUeReportAcknowledge.settled h els els' he hm
  | .RemoteUeReportNotification, _ => fun _ _ _ _ _ _ hm => absurd (Schema.missing_nil (l := []) rfl (by simp)) hm
  | .ResumeAcknowledge, _ => fun h els els' _ _ he hm => Msg.ResumeAcknowledge.settled h els els' he hm
  | .ResumeNotification, _ => fun h els els' _ _ he hm => Msg.ResumeNotification.settled h els els' he hm
  | .StopPagingIndication, _ => fun _ _ _ _ _ _ hm => absurd (Schema.missing_nil (l := []) rfl (by simp)) hm
  | .SuspendAcknowledge, _ => fun h els els' _ _ he hm => Msg.SuspendAcknowledge.settled h els els' he hm
  | .SuspendNotification, _ => fun _ _ _ _ _ _ hm => absurd (Schema.missing_nil (l := []) rfl (by simp)) hm
  | .TraceSessionActivation, _ => fun h els els' _ _ he hm => Msg.TraceSessionActivation.settled h els els' he hm
  | .TraceSessionDeactivation, _ => fun h els els' _ _ he hm => Msg.TraceSessionDeactivation.settled h els els' he hm
  | .UeActivityAcknowledge, _ => fun h els els' _ _ he hm => Msg.UeActivityAcknowledge.settled h els els' he hm
  | .UeActivityNotification, _ => fun _ _ _ _ _ _ hm => absurd (Schema.missing_nil (l := []) rfl (by simp)) hm
  | .UeRegistrationQueryRequest, _ => fun h els els' _ _ he hm => Msg.UeRegistrationQueryRequest.settled h els els' he hm
  | .UeRegistrationQueryResponse, _ => fun h els els' _ _ he hm => Msg.UeRegistrationQueryResponse.settled h els els' he hm
  | .UpdateBearerRequest, _ => fun h els els' _ _ he hm => Msg.UpdateBearerRequest.settled h els els' he hm
  | .UpdateBearerResponse, _ => fun h els els' _ _ he hm => Msg.UpdateBearerResponse.settled h els els' he hm
  | .UpdatePdnConnectionSetRequest, _ => fun _ _ _ _ _ _ hm => absurd (Schema.missing_nil (l := []) rfl (by simp)) hm
  | .UpdatePndConnectionSetResponse, _ => fun h els els' _ _ he hm => Msg.UpdatePndConnectionSetResponse.settled h els els' he hm
  | .VersionNotSupported, _ => fun _ _ _ _ _ _ hm => absurd (Schema.missing_nil (l := []) rfl (by simp)) hm

theorem reports (k : MsgKind) (hk : k ∉ unchecked) : Reports k.codec k.schema := by
  by_cases h : k ∈ misreporting
  · simp only [misreporting, List.mem_cons, List.not_mem_nil, or_false] at h
    rcases h with rfl | rfl | rfl | rfl
    · exact fun h els _ hm => Msg.CreateForwardingTunnelResponse.reports h els hm
    · exact fun h els _ hm => Msg.CreateIndirectDataForwardingTunnelResponse.reports h els hm
    · exact fun h els _ hm => Msg.ForwardRelocationRequest.reports h els hm
    · exact fun h els _ hm => Msg.MbmsSessionStartRequest.reports h els hm
  · intro h' els hq hm
    obtain ⟨_, _, t, ht, _⟩ := reportsType k hk h h' els hq hm
    exact ⟨t, ht⟩

end MsgKind

end Gtp.V2
