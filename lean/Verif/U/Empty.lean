import Verif.U.ExtHdr
import Verif.U.Ies

/-!
# `is_empty` of the GTPv1-U information elements and extension headers
-/

namespace Gtp.U
open Gtp.V1

/-- `Recovery::is_empty` (gtpu/messages/ies/recovery.rs:48-50). -/
def Recovery.isEmpty (x : Recovery) : Bool := x.value == 0

/-- `Teid::is_empty` (gtpu/messages/ies/teid.rs:49-51). -/
def Teid.isEmpty (x : Teid) : Bool := x.teid == 0

/-- `GsnAddress::is_empty` (gtpu/messages/ies/gsnaddress.rs:78-80). -/
def GsnAddress.isEmpty (x : GsnAddress) : Bool := x.ip == .v4 0

/-- `PrivateExtension::is_empty` (gtpu/messages/ies/privateextension.rs:66-68). -/
def PrivateExtension.isEmpty (x : PrivateExtension) : Bool := x.value.isEmpty

/-- `ExtensionHeaderTypeList::is_empty` (gtpu/messages/ies/extensionheadertypelist.rs:58-60). -/
def ExtTypeList.isEmpty (x : ExtTypeList) : Bool := x.list.isEmpty

/-- `ExtensionHeader::is_empty` (gtpu/header.rs:99-112) with the nine `fn is_empty` it calls (pdcppdunumber.rs:52-54, udpport.rs:52-54,
longpdcppdunumber.rs:60-62, sci.rs:53-55, rancontainer.rs:53-55, xwrancontainer.rs:53-55, nrrancontainer.rs:53-55, pdusessioncontainer.rs:53-55,
unknown.rs:51-53). -/
def ExtHdr.isEmpty : ExtHdr → Bool
  | .noMore => true
  | .pdcpPduNumber x => x.number == 0
  | .udpPort x => x.port == 0
  | .longPdcpPduNumber x => x.length == 0
  | .sci x => x.sci == 0
  | .ranContainer x => x.container.isEmpty
  | .xwRanContainer x => x.container.isEmpty
  | .nrRanContainer x => x.container.isEmpty
  | .pduSessionContainer x => x.container.isEmpty
  | .unknown x => x.container.isEmpty

end Gtp.U
