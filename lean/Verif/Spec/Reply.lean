import Verif.Spec.Call

/-!
# Specification of the responses of a dialog
-/

namespace Gosip.Spec
open Sip Dialog

/-- The version of SIP in the start line is 2.0. -/
def Sip20 (m : Msg) : Prop := m.versionMajor = 2 ∧ m.versionMinor = 0

/-- After these events, the message `m` gives reason for a response with this status, in a call with this Call-ID. -/
inductive Reason (callID : Bytes) (before : List Event) (m : Msg) : Int → Prop
  | version : ¬ Sip20 m → Reason callID before m 505
  | stranger : Sip20 m → m.callID ≠ callID → Reason callID before m 481
  | forwards : Sip20 m → m.callID = callID → m.status ≤ 0 → m.maxForwards ≤ 0 → Reason callID before m 483
  | order (m' : Msg) : Proper callID m → .msg m' ∈ before → Proper callID m' → m.cseq < m'.cseq → Reason callID before m 500
  | done : Proper callID m → m.method ∈ [b!"INVITE", b!"BYE", b!"OPTIONS"] → Reason callID before m 200
  | method : Proper callID m → m.method ∉ [b!"INVITE", b!"BYE", b!"OPTIONS", b!"ACK"] → Reason callID before m 405

/-- The response `r` answers one of the messages among the events, which gave reason for it when it arrived: it repeats
what a response has to repeat of that message (up to time stamps in the Via). -/
def AnswersOne (callID : Bytes) (evs : List Event) (r : Msg) : Prop :=
  ∃ before m after n r0, evs = before ++ .msg m :: after ∧ Reason callID before m n ∧ Echoes m n r0 ∧ Stamped r0 r

/-- The message carries a session description. -/
def HasDescription (m : Msg) : Prop := ∃ d, m.payload = some (.sdp d)

end Gosip.Spec
