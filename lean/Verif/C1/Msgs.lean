import Verif.C1.Msgs.CreatePDPContextRequest
import Verif.C1.Msgs.CreatePDPContextResponse
import Verif.C1.Msgs.UpdatePDPContextRequest
import Verif.C1.Msgs.UpdatePDPContextResponse
import Verif.C1.Msgs.UpdatePDPContextRequestGGSN
import Verif.C1.Msgs.UpdatePDPContextResponseGGSN
import Verif.C1.Msgs.DeletePDPContextRequest
import Verif.C1.Msgs.DeletePDPContextResponse
import Verif.C1.Msgs.InitiatePDPContextActivationRequest
import Verif.C1.Msgs.InitiatePDPContextActivationResponse
import Verif.C1.Msgs.PDUNotificationRequest
import Verif.C1.Msgs.PDUNotificationResponse
import Verif.C1.Msgs.PDUNotificationRejectRequest
import Verif.C1.Msgs.PDUNotificationRejectResponse
import Verif.C1.Msgs.MSInfoChangeNotificationRequest
import Verif.C1.Msgs.MSInfoChangeNotificationResponse

/-!
# The GTPv1-C messages that carry information elements

Expanded by `scripts/gen_c1_msgs.py`.
-/

namespace Gtp.C1

/-- The message types. -/
inductive Msg where
  | CreatePDPContextRequest
  | CreatePDPContextResponse
  | UpdatePDPContextRequest
  | UpdatePDPContextResponse
  | UpdatePDPContextRequestGGSN
  | UpdatePDPContextResponseGGSN
  | DeletePDPContextRequest
  | DeletePDPContextResponse
  | InitiatePDPContextActivationRequest
  | InitiatePDPContextActivationResponse
  | PDUNotificationRequest
  | PDUNotificationResponse
  | PDUNotificationRejectRequest
  | PDUNotificationRejectResponse
  | MSInfoChangeNotificationRequest
  | MSInfoChangeNotificationResponse
deriving DecidableEq, Repr

namespace Msg

/-- All message types. -/
def all : List Msg := [
  .CreatePDPContextRequest,
  .CreatePDPContextResponse,
  .UpdatePDPContextRequest,
  .UpdatePDPContextResponse,
  .UpdatePDPContextRequestGGSN,
  .UpdatePDPContextResponseGGSN,
  .DeletePDPContextRequest,
  .DeletePDPContextResponse,
  .InitiatePDPContextActivationRequest,
  .InitiatePDPContextActivationResponse,
  .PDUNotificationRequest,
  .PDUNotificationResponse,
  .PDUNotificationRejectRequest,
  .PDUNotificationRejectResponse,
  .MSInfoChangeNotificationRequest,
  .MSInfoChangeNotificationResponse]

theorem mem_all (t : Msg) : t ∈ all := by cases t <;> decide

/-- The description of a message type. -/
def desc : Msg → Desc
  | .CreatePDPContextRequest => C1.CreatePDPContextRequest.desc
  | .CreatePDPContextResponse => C1.CreatePDPContextResponse.desc
  | .UpdatePDPContextRequest => C1.UpdatePDPContextRequest.desc
  | .UpdatePDPContextResponse => C1.UpdatePDPContextResponse.desc
  | .UpdatePDPContextRequestGGSN => C1.UpdatePDPContextRequestGGSN.desc
  | .UpdatePDPContextResponseGGSN => C1.UpdatePDPContextResponseGGSN.desc
  | .DeletePDPContextRequest => C1.DeletePDPContextRequest.desc
  | .DeletePDPContextResponse => C1.DeletePDPContextResponse.desc
  | .InitiatePDPContextActivationRequest => C1.InitiatePDPContextActivationRequest.desc
  | .InitiatePDPContextActivationResponse => C1.InitiatePDPContextActivationResponse.desc
  | .PDUNotificationRequest => C1.PDUNotificationRequest.desc
  | .PDUNotificationResponse => C1.PDUNotificationResponse.desc
  | .PDUNotificationRejectRequest => C1.PDUNotificationRejectRequest.desc
  | .PDUNotificationRejectResponse => C1.PDUNotificationRejectResponse.desc
  | .MSInfoChangeNotificationRequest => C1.MSInfoChangeNotificationRequest.desc
  | .MSInfoChangeNotificationResponse => C1.MSInfoChangeNotificationResponse.desc

theorem lawful : (t : Msg) → t.desc.Lawful
  | .CreatePDPContextRequest => C1.CreatePDPContextRequest.lawful
  | .CreatePDPContextResponse => C1.CreatePDPContextResponse.lawful
  | .UpdatePDPContextRequest => C1.UpdatePDPContextRequest.lawful
  | .UpdatePDPContextResponse => C1.UpdatePDPContextResponse.lawful
  | .UpdatePDPContextRequestGGSN => C1.UpdatePDPContextRequestGGSN.lawful
  | .UpdatePDPContextResponseGGSN => C1.UpdatePDPContextResponseGGSN.lawful
  | .DeletePDPContextRequest => C1.DeletePDPContextRequest.lawful
  | .DeletePDPContextResponse => C1.DeletePDPContextResponse.lawful
  | .InitiatePDPContextActivationRequest => C1.InitiatePDPContextActivationRequest.lawful
  | .InitiatePDPContextActivationResponse => C1.InitiatePDPContextActivationResponse.lawful
  | .PDUNotificationRequest => C1.PDUNotificationRequest.lawful
  | .PDUNotificationResponse => C1.PDUNotificationResponse.lawful
  | .PDUNotificationRejectRequest => C1.PDUNotificationRejectRequest.lawful
  | .PDUNotificationRejectResponse => C1.PDUNotificationRejectResponse.lawful
  | .MSInfoChangeNotificationRequest => C1.MSInfoChangeNotificationRequest.lawful
  | .MSInfoChangeNotificationResponse => C1.MSInfoChangeNotificationResponse.lawful

end Msg
end Gtp.C1
