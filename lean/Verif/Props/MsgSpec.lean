import Verif.V2.Msg.All

/-!
# The messages of TS 29.274

Type codes (table 6.1-1) and information elements (tables of clause 7) of the 83 message types of the crate, as far as the author knows them: a
row that is missing here is one that nothing is claimed about. Written without looking at the encoders and decoders; the names of the message types
are the only connection.
-/

namespace Gtp.Props.Ts274
open Gtp.V2

/-- A row of a table: type and instance of the IE, whether it is mandatory, and whether several with this type and instance may be included. -/
structure Row where
  type : UInt8
  ins : UInt8
  must : Bool
  several : Bool
deriving DecidableEq, Repr

/-- Mandatory. -/
def M (t i : UInt8) : Row := ⟨t, i, true, false⟩
/-- Mandatory, several. -/
def Ms (t i : UInt8) : Row := ⟨t, i, true, true⟩
/-- Conditional or optional. -/
def C (t i : UInt8) : Row := ⟨t, i, false, false⟩
/-- Conditional or optional, several. -/
def Cs (t i : UInt8) : Row := ⟨t, i, false, true⟩

/-- Table 6.1-1. -/
def code : MsgKind → UInt8
  | .EchoRequest => 1
  | .EchoResponse => 2
  | .VersionNotSupported => 3
  | .CreateSessionRequest => 32
  | .CreateSessionResponse => 33
  | .ModifyBearerRequest => 34
  | .ModifyBearerResponse => 35
  | .DeleteSessionRequest => 36
  | .DeleteSessionResponse => 37
  | .ChangeNotificationRequest => 38
  | .ChangeNotificationResponse => 39
  | .RemoteUeReportNotification => 40
  | .RemoteUeReportAcknowledge => 41
  | .ModifyBearerCommand => 64
  | .ModifyBearerFailureInd => 65
  | .DeleteBearerCommand => 66
  | .DeleteBearerFailureInd => 67
  | .BearerResourceCommand => 68
  | .BearerResourceFailureInd => 69
  | .DownlinkDataNotificationFailureIndication => 70
  | .TraceSessionActivation => 71
  | .TraceSessionDeactivation => 72
  | .StopPagingIndication => 73
  | .CreateBearerRequest => 95
  | .CreateBearerResponse => 96
  | .UpdateBearerRequest => 97
  | .UpdateBearerResponse => 98
  | .DeleteBearerRequest => 99
  | .DeleteBearerResponse => 100
  | .DeletePdnConnectionSetRequest => 101
  | .DeletePndConnectionSetResponse => 102
  | .PgwDownlinkTriggeringNotification => 103
  | .PgwDownlinkTriggeringAcknowledge => 104
  | .IdentificationRequest => 128
  | .IdentificationResponse => 129
  | .ContextRequest => 130
  | .ContextResponse => 131
  | .ContextAcknowledge => 132
  | .ForwardRelocationRequest => 133
  | .ForwardRelocationResponse => 134
  | .ForwardRelocationCompleteNotification => 135
  | .ForwardRelocationCompleteAcknowledge => 136
  | .ForwardAccessContextNotification => 137
  | .ForwardAccessContextAcknowledge => 138
  | .RelocationCancelRequest => 139
  | .RelocationCancelResponse => 140
  | .DetachNotification => 149
  | .DetachAcknowledge => 150
  | .CsPagingIndication => 151
  | .RanInformationRelay => 152
  | .AlertMmeNotification => 153
  | .AlertMmeAcknowledge => 154
  | .UeActivityNotification => 155
  | .UeActivityAcknowledge => 156
  | .IsrStatusIndication => 157
  | .UeRegistrationQueryRequest => 158
  | .UeRegistrationQueryResponse => 159
  | .CreateForwardingTunnelRequest => 160
  | .CreateForwardingTunnelResponse => 161
  | .SuspendNotification => 162
  | .SuspendAcknowledge => 163
  | .ResumeNotification => 164
  | .ResumeAcknowledge => 165
  | .CreateIndirectDataForwardingTunnelRequest => 166
  | .CreateIndirectDataForwardingTunnelResponse => 167
  | .DeleteIndirectDataForwardingTunnelRequest => 168
  | .DeleteIndirectDataForwardingTunnelResponse => 169
  | .ReleaseAccessBearersRequest => 170
  | .ReleaseAccessBearersResponse => 171
  | .DownlinkDataNotification => 176
  | .DownlinkDataNotificationAcknowledge => 177
  | .PgwRestartNotification => 179
  | .PgwRestartNotificationAcknowledge => 180
  | .UpdatePdnConnectionSetRequest => 200
  | .UpdatePndConnectionSetResponse => 201
  | .ModifyAccessBearersRequest => 211
  | .ModifyAccessBearersResponse => 212
  | .MbmsSessionStartRequest => 231
  | .MbmsSessionStartResponse => 232
  | .MbmsSessionUpdateRequest => 233
  | .MbmsSessionUpdateResponse => 234
  | .MbmsSessionStopRequest => 235
  | .MbmsSessionStopResponse => 236

/-- The tables of clause 7. 103 stands for the six types of MM contexts, 103 to 108. -/
def rows : MsgKind → List Row
  | .EchoRequest => [M 3 0, C 152 0, Cs 255 0]
  | .EchoResponse => [M 3 0, C 152 0, Cs 255 0]
  | .VersionNotSupported => []
  | .CreateSessionRequest => [C 1 0, C 76 0, C 75 0, C 86 0, C 83 0, M 82 0, C 77 0, M 87 0, C 87 1, M 71 0, C 128 0, C 99 0, C 79 0, C
      127 0, C 72 0, C 73 0, C 174 0, C 78 0, Ms 93 0, Cs 93 1, C 96 0, C 3 0, C 132 0, C 132 1, C 132 2, C 132 3, C 114 0, C 145 0, C
      95 0, C 151 0, C 151 1, C 151 2, C 151 3, C 157 0, C 74 0, C 126 0, C 163 0, C 74 1, C 126 1, C 74 2, C 169 0, C 74 3, C 173 0,
      Cs 178 0, C 180 0, C 180 1, C 180 2, C 188 0, C 187 0, C 169 1, C 179 0, C 118 0, Cs 191 0, C 176 0, C 197 0, C 198 0, C 199 0, C
      126 2, C 200 0, C 86 1, C 136 0, Cs 201 0, C 202 0, C 204 0, C 217 0, Cs 255 0]
  | .CreateSessionResponse => [M 2 0, C 131 0, C 146 0, C 165 0, C 87 0, C 87 1, C 79 0, C 127 0, C 72 0, C 73 0, C 78 0, Ms 93 0, Cs
      93 1, C 3 0, C 136 0, C 74 0, C 132 0, C 132 1, C 151 0, C 151 1, C 156 0, C 163 0, C 166 0, C 77 0, Cs 177 0, C 181 0, Cs 181 1,
      C 181 2, Cs 180 0, C 180 1, C 118 0, C 94 0, C 197 0, Cs 255 0]
  | .ModifyBearerRequest => [C 75 0, C 86 0, C 83 0, C 82 0, C 77 0, C 87 0, C 72 0, C 92 0, Cs 93 0, Cs 93 1, C 3 0, C 114 0, C 132 0,
      C 132 1, C 145 0, C 74 0, C 126 0, C 74 1, C 126 1, C 151 0, C 151 1, C 74 2, C 173 0, Cs 178 0, C 180 0, C 180 1, C 180 2, C 198
      0, C 199 0, C 1 0, C 86 1, C 169 0, C 179 0, Cs 201 0, Cs 255 0]
  | .ModifyBearerResponse => [M 2 0, C 76 0, C 73 0, C 127 0, C 78 0, Cs 93 0, Cs 93 1, C 131 0, C 146 0, C 165 0, C 136 0, C 74 0, C
      132 0, C 132 1, C 3 0, C 151 0, C 151 1, C 77 0, Cs 177 0, C 181 0, Cs 181 1, C 181 2, Cs 180 0, C 180 1, C 94 0, Cs 255 0]
  | .DeleteSessionRequest => [C 2 0, C 73 0, C 86 0, C 77 0, C 78 0, C 135 0, C 87 0, C 114 0, C 170 0, C 172 0, C 169 0, C 179 0, C
      180 0, C 180 1, C 180 2, C 169 1, C 179 1, C 74 0, C 126 0, C 197 0, C 126 1, Cs 201 0, Cs 255 0]
  | .DeleteSessionResponse => [M 2 0, C 3 0, C 78 0, C 77 0, C 181 0, Cs 181 1, C 181 2, Cs 180 0, C 180 1, C 197 0, C 204 0, Cs 255 0]
  | .ChangeNotificationRequest => [C 1 0, C 75 0, C 77 0, M 82 0, C 86 0, C 145 0, C 74 0, C 73 0, Cs 178 0, C 199 0, Cs 201 0, Cs 255
      0]
  | .ChangeNotificationResponse => [C 1 0, C 75 0, M 2 0, C 131 0, C 146 0, Cs 177 0, Cs 255 0]
  | .RemoteUeReportNotification => [Cs 191 0, Cs 191 1, Cs 255 0]
  | .RemoteUeReportAcknowledge => [M 2 0, Cs 255 0]
  | .ModifyBearerCommand => [M 72 0, M 93 0, C 180 0, C 180 1, C 180 2, C 87 0, Cs 255 0]
  | .ModifyBearerFailureInd => [M 2 0, C 3 0, C 77 0, C 180 0, C 180 1, Cs 255 0]
  | .DeleteBearerCommand => [Ms 93 0, C 86 0, C 170 0, C 114 0, C 180 0, C 180 1, C 87 0, Cs 201 0, Cs 255 0]
  | .DeleteBearerFailureInd => [M 2 0, Ms 93 0, C 3 0, C 77 0, C 180 0, C 180 1, Cs 255 0]
  | .BearerResourceCommand => [M 73 0, M 100 0, C 81 0, C 85 0, C 82 0, C 83 0, C 86 0, C 73 1, C 77 0, C 87 0, C 87 1, C 78 0, C 157
      0, C 180 0, C 180 1, C 118 0, C 197 0, Cs 255 0]
  | .BearerResourceFailureInd => [M 2 0, M 73 0, M 100 0, C 77 0, C 180 0, C 180 1, C 3 0, C 118 0, Cs 255 0]
  | .DownlinkDataNotificationFailureIndication => [M 2 0, C 135 0, C 1 0, Cs 255 0]
  | .TraceSessionActivation => [C 1 0, M 96 0, C 75 0]
  | .TraceSessionDeactivation => [M 115 0]
  | .StopPagingIndication => [C 1 0, Cs 255 0]
  | .CreateBearerRequest => [C 100 0, M 73 0, C 78 0, Ms 93 0, C 132 0, C 132 1, C 131 0, C 146 0, C 165 0, Cs 177 0, C 77 0, C 181 0,
      Cs 181 1, C 181 2, Cs 180 0, C 180 1, C 118 0, Cs 255 0]
  | .CreateBearerResponse => [M 2 0, Ms 93 0, C 3 0, C 132 0, C 132 1, C 132 2, C 132 3, C 78 0, C 114 0, C 86 0, C 169 0, C 180 0, C
      180 1, C 180 2, Cs 178 0, C 74 0, C 169 1, C 179 0, C 126 0, C 118 0, C 126 1, Cs 255 0]
  | .UpdateBearerRequest => [Ms 93 0, C 100 0, C 78 0, M 72 0, C 131 0, C 146 0, C 165 0, C 77 0, C 132 0, C 132 1, Cs 177 0, C 181 0,
      Cs 181 1, C 181 2, Cs 180 0, C 180 1, C 118 0, Cs 255 0]
  | .UpdateBearerResponse => [M 2 0, Ms 93 0, C 78 0, C 3 0, C 132 0, C 132 1, C 132 2, C 132 3, C 77 0, C 114 0, C 86 0, C 169 0, C
      180 0, C 180 1, C 180 2, Cs 178 0, C 74 0, C 169 1, C 126 0, C 118 0, C 126 1, Cs 255 0]
  | .DeleteBearerRequest => [C 73 0, Cs 73 1, Cs 93 0, C 100 0, C 78 0, C 132 0, C 132 1, C 2 0, C 77 0, C 181 0, Cs 181 1, C 181 2, Cs
      180 0, C 180 1, C 118 0, C 204 0, C 197 0, Cs 255 0]
  | .DeleteBearerResponse => [M 2 0, C 73 0, Cs 93 0, C 3 0, C 132 0, C 132 1, C 132 2, C 132 3, C 78 0, C 114 0, C 86 0, C 170 0, C
      169 0, C 179 0, C 180 0, C 180 1, C 180 2, C 74 0, C 169 1, C 179 1, C 126 0, C 118 0, C 126 1, Cs 201 0, Cs 255 0]
  | .DeletePdnConnectionSetRequest => [C 132 0, C 132 1, C 132 2, C 132 3, C 132 4, Cs 255 0]
  | .DeletePndConnectionSetResponse => [M 2 0, C 3 0, Cs 255 0]
  | .PgwDownlinkTriggeringNotification => [M 1 0, C 74 0, Cs 255 0]
  | .PgwDownlinkTriggeringAcknowledge => [M 2 0, C 1 0, C 74 0, Cs 255 0]
  | .IdentificationRequest => [C 117 0, C 86 0, C 111 0, C 112 0, C 116 0, C 74 0, C 126 0, C 113 0, C 83 0, Cs 255 0]
  | .IdentificationResponse => [M 2 0, C 1 0, C 103 0, C 96 0, C 187 0, Cs 189 0, Cs 255 0]
  | .ContextRequest => [C 1 0, C 117 0, C 86 0, C 111 0, C 112 0, C 116 0, C 87 0, C 126 0, C 82 0, C 77 0, C 113 0, C 83 0, C 151 0, C
      136 0, C 136 1, C 175 0, C 176 0, C 176 1, C 194 0, Cs 255 0]
  | .ContextResponse => [M 2 0, C 1 0, C 103 0, Cs 109 0, C 87 0, C 87 1, C 136 0, C 77 0, C 96 0, C 74 0, C 74 1, C 144 0, C 144 1, C
      114 0, C 151 0, C 162 0, C 136 1, C 136 2, C 145 0, Cs 189 0, C 187 0, Cs 195 0, C 82 0, C 198 0, C 199 0, C 187 1, C 205 0, C
      207 0, C 207 1, Cs 255 0]
  | .ContextAcknowledge => [M 2 0, C 77 0, C 87 0, Cs 93 0, C 175 0, C 175 1, C 176 0, C 176 1, Cs 255 0]
  | .ForwardRelocationRequest => [C 1 0, M 87 0, Cs 109 0, C 87 1, C 136 0, M 103 0, C 77 0, C 118 0, C 118 1, C 118 2, C 121 0, C 74
      0, C 74 1, C 119 0, C 119 1, C 119 2, C 129 0, C 120 0, C 3 0, C 96 0, C 144 0, C 144 1, C 147 0, C 148 0, C 114 0, C 83 0, C 151
      0, C 159 0, C 160 0, C 51 0, C 76 0, C 162 0, C 136 1, C 136 2, C 145 0, Cs 189 0, C 187 0, Cs 195 0, C 76 1, C 126 0, C 198 0, C
      205 0, C 207 0, C 207 1, Cs 255 0]
  | .ForwardRelocationResponse => [M 2 0, C 87 0, C 77 0, Cs 93 0, Cs 93 1, Cs 93 2, C 119 0, C 119 1, C 119 2, C 118 0, C 118 1, C 118
      2, C 151 0, C 136 0, C 136 1, C 175 0, C 176 0, C 176 1, C 175 1, C 176 2, C 176 3, Cs 93 3, Cs 255 0]
  | .ForwardRelocationCompleteNotification => [C 77 0, Cs 255 0]
  | .ForwardRelocationCompleteAcknowledge => [M 2 0, C 3 0, Cs 201 0, Cs 255 0]
  | .ForwardAccessContextNotification => [Cs 124 0, C 125 0, C 110 0, C 118 0, Cs 255 0]
  | .ForwardAccessContextAcknowledge => [M 2 0, Cs 255 0]
  | .RelocationCancelRequest => [C 1 0, C 75 0, C 77 0, C 119 0, Cs 255 0]
  | .RelocationCancelResponse => [M 2 0, Cs 255 0]
  | .DetachNotification => [M 2 0, C 150 0, Cs 255 0]
  | .DetachAcknowledge => [M 2 0, C 3 0, Cs 255 0]
  | .CsPagingIndication => [M 1 0, M 136 0, C 88 0, C 86 0, C 89 0, C 133 0, C 134 0, C 149 0, Cs 255 0]
  | .RanInformationRelay => [M 118 0, C 121 0, Cs 255 0]
  | .AlertMmeNotification => [Cs 255 0]
  | .AlertMmeAcknowledge => [M 2 0, Cs 255 0]
  | .UeActivityNotification => [Cs 255 0]
  | .UeActivityAcknowledge => [M 2 0, Cs 255 0]
  | .IsrStatusIndication => [M 168 0, Cs 255 0]
  | .UeRegistrationQueryRequest => [M 1 0, Cs 255 0]
  | .UeRegistrationQueryResponse => [M 2 0, M 1 0, M 120 0, Cs 255 0]
  | .CreateForwardingTunnelRequest => [Ms 90 0, Cs 255 0]
  | .CreateForwardingTunnelResponse => [M 2 0, Cs 91 0, Cs 255 0]
  | .SuspendNotification => [C 1 0, C 86 0, C 73 0, C 111 0, C 135 0, C 74 0, C 126 0, C 113 0, C 87 0, Cs 255 0]
  | .SuspendAcknowledge => [M 2 0, Cs 255 0]
  | .ResumeNotification => [M 1 0, C 73 0, C 135 0, C 87 0, Cs 255 0]
  | .ResumeAcknowledge => [M 2 0, Cs 255 0]
  | .CreateIndirectDataForwardingTunnelRequest => [C 1 0, C 75 0, C 77 0, C 87 0, Ms 93 0, C 3 0, Cs 255 0]
  | .CreateIndirectDataForwardingTunnelResponse => [M 2 0, C 87 0, Ms 93 0, C 3 0, Cs 255 0]
  | .DeleteIndirectDataForwardingTunnelRequest => [Cs 255 0]
  | .DeleteIndirectDataForwardingTunnelResponse => [M 2 0, C 3 0, Cs 255 0]
  | .ReleaseAccessBearersRequest => [Cs 73 0, C 135 0, C 77 0, Cs 201 0, Cs 255 0]
  | .ReleaseAccessBearersResponse => [M 2 0, C 3 0, C 77 0, C 181 0, C 180 0, Cs 255 0]
  | .DownlinkDataNotification => [C 2 0, Cs 73 0, C 155 0, C 1 0, C 87 0, C 77 0, C 181 0, C 180 0, C 186 0, C 187 0, Cs 255 0]
  | .DownlinkDataNotificationAcknowledge => [M 2 0, C 92 0, C 3 0, C 154 0, C 1 0, C 156 0, C 187 0, Cs 255 0]
  | .PgwRestartNotification => [M 74 0, M 74 1, C 2 0, Cs 255 0]
  | .PgwRestartNotificationAcknowledge => [M 2 0, Cs 255 0]
  | .UpdatePdnConnectionSetRequest => [C 132 0, C 132 1, Cs 255 0]
  | .UpdatePndConnectionSetResponse => [M 2 0, C 132 0, C 3 0, Cs 255 0]
  | .ModifyAccessBearersRequest => [C 77 0, C 87 0, C 92 0, Cs 93 0, Cs 93 1, C 3 0, Cs 201 0, Cs 255 0]
  | .ModifyAccessBearersResponse => [M 2 0, Cs 93 0, Cs 93 1, C 3 0, C 77 0, C 181 0, C 180 0, Cs 255 0]
  | .MbmsSessionStartRequest => [M 87 0, M 158 0, M 138 0, M 139 0, C 140 0, C 141 0, M 80 0, M 142 0, C 3 0, C 153 0, C 164 0, C 171
      0, C 142 1, C 190 0, Cs 255 0]
  | .MbmsSessionStartResponse => [M 2 0, M 87 0, C 143 0, C 87 1, C 3 0, Cs 255 0]
  | .MbmsSessionUpdateRequest => [C 139 0, M 158 0, C 87 0, M 138 0, M 80 0, C 140 0, C 141 0, C 153 0, C 164 0, C 190 0, Cs 255 0]
  | .MbmsSessionUpdateResponse => [M 2 0, C 143 0, C 87 0, C 3 0, Cs 255 0]
  | .MbmsSessionStopRequest => [C 141 0, C 164 0, C 171 0, Cs 255 0]
  | .MbmsSessionStopResponse => [M 2 0, C 3 0, Cs 255 0]

end Gtp.Props.Ts274
