import Verif.Props.Header
import Verif.Props.Utils
import Verif.Props.Ie
import Verif.Props.Msg
import Verif.C1.ExtHdr
import Verif.C1.Header
import Verif.Props.CHeader
import Verif.Props.UHeader
import Verif.Props.UMsg
import Verif.Props.UErrInd
import Verif.Str
import Verif.V2.Ies.Numeric1
import Verif.V2.Ies.Numeric2
import Verif.V2.Ies.Enums
import Verif.V2.Ies.Flags
import Verif.V2.Ies.Plmn
import Verif.V2.Ies.Octets
import Verif.V2.Ies.Strings
import Verif.V2.Ies.Bits
import Verif.V2.Ies.Var1
import Verif.V2.Ies.Var2
import Verif.V2.Ies.Names
import Verif.V2.Ies.Loc
import Verif.V2.Ies.Var3
import Verif.V2.Ies.Var4
import Verif.V2.Ies.Var5
import Verif.V2.Ies.MmCtx
import Verif.C1.IeBase
import Verif.C1.Kind
import Verif.Props.CIe
import Verif.C1.MsgBase
import Verif.C1.MsgLemmas
import Verif.C1.Msgs
import Verif.C1.Simple
import Verif.Props.CMsg
import Verif.Props.CMsgRecv
import Verif.Props.CMsgAll
import Verif.Props.CSimple
import Verif.Tests.C1_1
import Verif.Tests.C1_2
import Verif.Tests.U_1
import Verif.Tests.V1Other_1
import Verif.Tests.V2Ies_1
import Verif.Tests.V2Ies_2
import Verif.Tests.V2Ies_3
import Verif.Tests.V2Ies_4
import Verif.Tests.V2Msg_1
import Verif.Tests.V2Msg_2
import Verif.Tests.V2Other_1
import Verif.V2.Defaults
import Verif.V2.IEErr
import Verif.Props.Layout
import Verif.Props.Defaults
import Verif.Props.IeErr
import Verif.Props.Instance
import Verif.Props.Append
import Verif.Props.Own
import Verif.Props.Spare
import Verif.Props.CSpare
import Verif.Props.Exact
import Verif.Props.CExact
import Verif.Props.HeaderExact
import Verif.Props.UFigure
import Verif.Props.MsgExact
import Verif.Props.Pace
import Verif.Props.UAccept
import Verif.Props.UAcceptRelease
import Verif.Props.Stack
import Verif.Props.CAccept
import Verif.Props.MsgSpec
import Verif.Props.MsgTable
import Verif.Props.CTable
import Verif.Props.Accessors
import Verif.Props.FigureRead
import Verif.Props.CFigureRead
import Verif.Props.UExact
import Verif.Props.CAppend
import Verif.Props.CPanic
import Verif.V2.SetLen
import Verif.V2.PostLen
import Verif.V2.StableBase
import Verif.V2.Stable
import Verif.V2.Deep
import Verif.V2.PostType
import Verif.Props.Resend
import Verif.Props.Relay
import Verif.Props.CRelay
import Verif.Props.Blank
import Verif.Props.Decode1
import Verif.Props.Version
import Verif.Props.URelay
import Verif.Props.Panic
import Verif.Props.Release
import Verif.Props.ChainRelease
import Verif.Props.URelease
import Verif.Props.FigureSpec
import Verif.Props.Figure
import Verif.Props.CFigureSpec
import Verif.Props.CFigure
import Verif.C1.Empty
import Verif.U.Empty
import Verif.Props.Empty1
import Verif.ErrText
import Verif.Props.ErrText
import Verif.Props.Members
import Verif.Props.Grouped
import Verif.Props.GroupedWrite
import Verif.Props.GroupedRead
import Verif.Props.Peer
import Verif.Props.CPeer
import Verif.Props.Unused
import Verif.Props.UPeer
import Verif.Props.EmptyPart
import Verif.Props.MmFigure
import Verif.Props.MmExact
