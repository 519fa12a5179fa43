import Verif.Base
import Verif.Msg
import Verif.Time
import Verif.Fsm.Model
import Verif.Fsm.Spec
import Verif.Fsm.Lemmas
import Verif.Fsm.Examples
import Verif.Fsm.AckLemmas
import Verif.Fsm.PropsCommon
import Verif.TimeProps
import Verif.Fsm.Inv
import Verif.Fsm.InvIct
import Verif.Fsm.InvNict
import Verif.Fsm.InvIst
import Verif.Fsm.InvNist
import Verif.Fsm.Safe
import Verif.Fsm.Transport
import Verif.Fsm.PropsIct
import Verif.Fsm.PropsIctTimer
import Verif.Fsm.PropsNict
import Verif.Fsm.PropsClientEnd
import Verif.Fsm.PropsIst
import Verif.Fsm.PropsNist
import Verif.Fsm.PropsOwner
import Verif.Fsm.PropsTimers
import Verif.Fsm.PropsAck
import Verif.ParamSpec
import Verif.Fsm.PropsDest
import Verif.Timeout
import Verif.TimeoutProps
import Verif.Hdr
import Verif.Match.Model
import Verif.Match.Inv
import Verif.Match.Props
import Verif.Match.PropsStack
import Verif.Match.PropsRetrans
import Verif.Match.Examples
import Verif.Match.PropsOld
import Verif.Match.PropsCompare
import Verif.Parse.PropsOrder
import Verif.Parse.PropsParamList
import Verif.Parse.PropsNumber
import Verif.Sdp.PropsTravel
import Verif.Match.PropsDict
import Verif.Match.PropsDictStack
import Verif.Parse.Mini
import Verif.Parse.PropsMini
import Verif.Wire.Mini
import Verif.Wire.PropsMini
import Verif.Wire.PropsSigned
import Verif.Fsm.PropsCb
import Verif.Fsm.PropsWait
import Verif.Fsm.PropsLate
import Verif.Match.PropsLate
import Verif.Match.PropsAbsorb
import Verif.Fsm.PropsEnds
import Verif.Misc.PropsPort
import Verif.Fsm.PropsSpacing
import Verif.Dialog.PropsPeers
import Verif.Dialog.PropsHistory
import Verif.Match.PropsWire
import Verif.Dest
import Verif.Dialog.Model
import Verif.Dialog.Props
import Verif.Dialog.Examples
import Verif.Ixt.Model
import Verif.Ixt.Props
import Verif.Ixt.Examples
import Verif.CList.Model
import Verif.CList.Lemmas
import Verif.CList.Props
import Verif.CList.PropsIter
import Verif.CList.Examples
import Verif.Fifo.Model
import Verif.Fifo.Props
import Verif.Str.Buf
import Verif.Str.Port
import Verif.Str.PropsTrim
import Verif.Str.PropsQuote
import Verif.Str.PropsEnquote
import Verif.Str.Escape
import Verif.Str.PropsEscape
import Verif.Parse.Case
import Verif.Parse.PropsCase
import Verif.Parse.HeaderTable
import Verif.Parse.PropsTable
import Verif.Parse.Lines
import Verif.Parse.PropsFold
import Verif.Parse.PropsLines
import Verif.Parse.Ptr
import Verif.Parse.Multi
import Verif.Parse.PropsMulti
import Verif.Parse.Params
import Verif.Parse.PropsSmall
import Verif.Parse.PropsParams
import Verif.Parse.Via
import Verif.Parse.PropsVia
import Verif.Parse.Uri
import Verif.Parse.PropsUri
import Verif.Parse.PropsUriBounds
import Verif.Parse.From
import Verif.Parse.PropsFrom
import Verif.Parse.Start
import Verif.Parse.PropsStart
import Verif.Parse.Headers
import Verif.Parse.PropsHeaders
import Verif.Parse.FixVia
import Verif.Parse.PropsFixVia
import Verif.Md5.Model
import Verif.Md5.Props
import Verif.Parse.Media
import Verif.Parse.PropsMedia
import Verif.Parse.Auth
import Verif.Parse.PropsAuth
import Verif.Parse.PropsAuthStr
import Verif.Parse.PropsAuthBounds
import Verif.Parse.Body
import Verif.Parse.PropsBody
import Verif.Parse.PropsMime
import Verif.Parse.Message
import Verif.Parse.ToStr
import Verif.Parse.PropsToStr
import Verif.Parse.PropsWrite
import Verif.Parse.PropsUndivided
import Verif.Parse.PropsMessage
import Verif.Parse.PropsClone
import Verif.Setup.Props
import Verif.Parse.PropsSafe
import Verif.Parse.PropsRead
import Verif.Parse.NoEol
import Verif.Parse.NoEolStr
import Verif.Parse.PropsInject
import Verif.Parse.PropsInjectRead
import Verif.Parse.PropsWire
import Verif.Parse.PropsAlike
import Verif.Parse.PropsStable
import Verif.Parse.PropsStableVia
import Verif.Parse.PropsStableUri
import Verif.Parse.PropsStableAddr
import Verif.Parse.PropsStableAuth
import Verif.Parse.PropsStableMessage
import Verif.Parse.Frag
import Verif.Parse.PropsFrag
import Verif.Sdp.Model
import Verif.Sdp.PropsLine
import Verif.Sdp.PropsParse
import Verif.Sdp.PropsText
import Verif.Sdp.PropsWrite
import Verif.Sdp.Access
import Verif.Sdp.PropsAccess
import Verif.Parse.Edit
import Verif.Parse.PropsEdit
import Verif.Exec.Model
import Verif.Exec.Props
import Verif.Exec.Threads
import Verif.Exec.PropsThreads
import Verif.Misc.Reason
import Verif.Misc.PropsReason
import Verif.Misc.Clock
import Verif.Misc.PropsClock
import Verif.Misc.Trace
import Verif.Misc.PropsTrace
import Verif.Exec.Locks
import Verif.Exec.PropsLocks
import Verif.Pair.Model
import Verif.Pair.Lemmas
import Verif.Pair.Inv
import Verif.Pair.Props
import Verif.Cond.Model
import Verif.Cond.Props
import Verif.Parse.PropsCanonical
import Verif.Copy.Model
import Verif.Copy.Props
import Verif.Wire.Model
import Verif.Wire.Props
import Verif.Wire.Examples
import Verif.Own.Props
import Verif.Own.StackProps
import Verif.Own.Sdp
import Verif.Own.SdpSpec
import Verif.Own.SdpContracts
import Verif.Own.SdpProps
