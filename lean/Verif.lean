import Verif.Basic
import Verif.Sip.CharsetLemmas
import Verif.Rtp.HeaderLemmas
import Verif.Props.Text
import Verif.Props.RtpHeader
import Verif.Props.Dsp
import Verif.Props.Awgn
import Verif.Props.Noise
import Verif.Props.RtpSession
import Verif.Props.Uri
import Verif.Props.Sdp
import Verif.Props.Msg
import Verif.Props.Routing
import Verif.Props.Transport
import Verif.Props.Ident
import Verif.Props.Call
import Verif.Props.CallReply
import Verif.Props.CallEnd
import Verif.Props.CallSilent
import Verif.Props.Handshake
import Verif.Props.CallClose
import Verif.Props.Copy
import Verif.Props.Memory
import Verif.Props.Alias
import Verif.Props.Body
import Verif.Props.Headers
import Verif.Props.Lists
import Verif.Props.RoundTrip
import Verif.Props.Quoting
import Verif.Spec.Report
import Verif.Spec.Later
import Verif.Dialog.Report
import Verif.Dialog.Moved
import Verif.Props.CallReport
import Verif.Spec.Local
import Verif.Dialog.Local
import Verif.Props.CallLocal
import Verif.Dialog.Peers
import Verif.Props.CallMedia
import Verif.Spec.Redirect
import Verif.Dialog.Redirect
import Verif.Dialog.Seq
import Verif.Props.CallRedirect
import Verif.Props.CallLate
import Verif.Props.CallAlways
import Verif.Spec.Going
import Verif.Dialog.Going
import Verif.Dialog.Budget
import Verif.Props.CallGoing
import Verif.Spec.Transport
import Verif.Dialog.Listen
import Verif.Props.Wire
import Verif.Props.Request
import Verif.Props.Listen
import Verif.Props.EndToEnd
import Verif.Spec.Grammar
import Verif.Props.Grammar
import Verif.Props.Work
import Verif.Props.Relay
import Verif.Props.Fatal
import Verif.Props.Phone
import Verif.Props.Audio
import Verif.Sip.UriExact
import Verif.Fone.Formats
import Verif.Spec.Media
import Verif.Props.PhoneMedia
import Verif.Spec.Sections
import Verif.Sdp.Insert
import Verif.Props.SdpSections
import Verif.Spec.Arrivals
import Verif.Props.Arrivals
import Verif.Props.CallAnswers
import Verif.Props.Hangup
import Verif.Sip.ResponseError
import Verif.Spec.Timing
import Verif.Dialog.Fresh
import Verif.Props.Timing
import Verif.Spec.ErrorText
import Verif.Props.ErrorText
import Verif.Props.SocketErrors
import Verif.Props.Carried
import Verif.Props.Readable
import Verif.Props.Exchange
import Verif.Props.Placing
import Verif.Props.Asked
import Verif.Props.LowLevel
import Verif.Props.WholeCall
import Verif.Props.WholeEnd
