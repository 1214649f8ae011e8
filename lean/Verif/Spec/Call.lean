import Verif.Dialog.Machine
import Verif.Spec.Dialog

/-!
# Specification of calls

What an application sees of a call, as predicates on the events that happened and the outputs of the
dialog. Only the types of events and outputs are used here, not the functions of `dialog.go`.
-/

namespace Gosip.Spec
open Sip Dialog

/-- The states seen by the application, in order. -/
def published (l : List Out) : List CallState :=
  l.filterMap fun
    | .state c => some c
    | _ => none

/-- The errors seen by the application, in order. -/
def errors (l : List Out) : List DErr :=
  l.filterMap fun
    | .err e => some e
    | _ => none

/-- The messages sent, in order, with their destination. -/
def sends (l : List Out) : List (Bytes × Msg) :=
  l.filterMap fun
    | .sent d m _ => some (d, m)
    | _ => none

/-- `b` may come after `a`: not an earlier state, after "answered" only "hangup", after "hangup" nothing. -/
def MayFollow (a b : CallState) : Prop :=
  (match a, b with
   | .proceeding, _ => True
   | .ringing, b => b ≠ .proceeding
   | .answered, b => b = .hangup
   | .hangup, _ => False)

/-- A sequence of states that only moves forward. -/
def Forward (l : List CallState) : Prop := l.Pairwise MayFollow

/-- How far a response says the call has come: trying, ringing or answered. -/
def progress : Event → Option Nat
  | .msg m =>
    if m.status = 100 then some 0
    else if m.status = 180 ∨ m.status = 183 then some 1
    else if m.status = 200 then some 2
    else none
  | _ => none

/-- No response is overtaken by one that says less: no 100 after a 180 or 183, neither after a 200. -/
def Orderly (evs : List Event) : Prop :=
  evs.Pairwise fun a b => ∀ x y, progress a = some x → progress b = some y → x ≤ y

/-- The requests sent to keep the call going, in order, with their destinations: not ACK, which belongs
to a response, and not CANCEL, which belongs to another request. -/
def requests (l : List Out) : List (Bytes × Msg) :=
  (sends l).filter fun x =>
    decide (x.2.status ≤ 0) && x.2.method != b!"ACK" && x.2.method != b!"CANCEL"

/-- An INVITE request, as given to `NewDialog`. -/
def IsInvite (m : Msg) : Prop := m.status = 0 ∧ m.method = b!"INVITE"

/-- The top Via has this branch. -/
def HasBranch (m : Msg) (b : Bytes) : Prop := ∃ v l, m.via = v :: l ∧ ParamIs v.param b!"branch" b

/-- `sent` is `m`, except that time stamps may have been added to the parameters of the top Via. -/
def Stamped (m sent : Msg) : Prop :=
  sent = m ∨ ∃ v l stamps, m.via = v :: l ∧ (∀ p ∈ stamps, p.1 = b!"usi") ∧
    sent = { m with via := { v with param := stamps ++ v.param } :: l }

/-- What the request `m` received by a dialog must be answered with; `callID` is the Call-ID of the
dialog, `seq` the CSeq of the last request accepted from the other side, if any. -/
def answer (callID : Bytes) (seq : Option Int) (m : Msg) : Option Int :=
  if m.method = b!"ACK" then none
  else if ¬ (m.versionMajor = 2 ∧ m.versionMinor = 0) then some 505
  else if m.callID ≠ callID then some 481
  else if m.maxForwards ≤ 0 then some 483
  else if seq.any (m.cseq < ·) then some 500
  else if m.method = b!"BYE" ∨ m.method = b!"OPTIONS" ∨ m.method = b!"INVITE" then some 200
  else some 405

/-- Every address in the message has a URI, as in every message that was parsed. -/
def HasUris (m : Msg) : Prop := ∀ f, ∀ a ∈ m.addrs f, a.uri ≠ none

/-- What a dialog expects of the messages it receives; `stamps` is whether time stamps are turned on. -/
structure Civil (stamps : Bool) (m : Msg) : Prop where
  uris : HasUris m
  via : stamps = true → m.via ≠ []
  audio : ∀ d, m.payload = some (.sdp d) → d.audio ≠ none
  contact : (m.status ≤ 0 ∧ m.method = b!"INVITE") ∨ m.status = 301 ∨ m.status = 302 → m.addrs .contact ≠ []

/-- Events that a dialog is made for: civil messages, and no socket error "connection refused". -/
def Harmless (stamps : Bool) : Event → Prop
  | .sockErr refused _ => refused = false
  | .msg m => Civil stamps m
  | _ => True

/-- A call ends with this: an error, or the state "hangup". -/
def IsEnd : Out → Bool
  | .err _ => true
  | .state .hangup => true
  | _ => false

/-- The network: every write succeeds, an address can be dialled or not, whenever that is tried, and the
optional second socket can be opened. -/
structure Network (w : World) (up : Bytes → Bool) : Prop where
  write : ∀ n, w.write n = .ok ()
  dial : ∀ n a, up a = true → ∃ c, w.dial n a = some c ∧ c.remote = a
  down : ∀ n a, up a = false → w.dial n a = none
  listen : w.loose = true → ∀ n, (w.listen n).isSome

/-- The only thing sent is one message, which is, but for time stamps, a response to `m` with status `n`. -/
def SentReply (m : Msg) (n : Int) (new : List Out) : Prop :=
  ∃ dest r0 r, sends new = [(dest, r)] ∧ Echoes m n r0 ∧ Stamped r0 r

/-- A request of the call with this Call-ID that is good but, maybe, for its number: right version, and Max-Forwards
left. -/
structure Proper (callID : Bytes) (m : Msg) : Prop where
  request : m.status ≤ 0
  version : m.versionMajor = 2 ∧ m.versionMinor = 0
  call : m.callID = callID
  forwards : 0 < m.maxForwards

/-- No request of the call before had a greater CSeq. -/
def Newest (callID : Bytes) (evs : List Event) (m : Msg) : Prop :=
  ∀ m', .msg m' ∈ evs → Proper callID m' → m'.cseq ≤ m.cseq

/-- An INVITE that can be sent: it says where to, and the addresses in it have URIs. -/
structure Placeable (m : Msg) : Prop where
  invite : IsInvite m
  request : m.request ≠ none
  uris : HasUris m

end Gosip.Spec
