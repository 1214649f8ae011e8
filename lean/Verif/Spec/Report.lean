import Verif.Spec.Call

/-!
# Specification of what an application hears of a call

Which values a dialog puts on the channels `OnState`, `OnPeer` and `OnErr` because of one message.
-/

namespace Gosip.Spec
open Sip Dialog

/-- The media addresses seen by the application, in order. -/
def peers (l : List Out) : List (Bytes × UInt16) :=
  l.filterMap fun
    | .peer a p => some (a, p)
    | _ => none

/-- Where a message asks to be sent audio: the address and the audio port of its session description. -/
def mediaOf (m : Msg) : List (Bytes × UInt16) :=
  match m.payload with
  | some (.sdp d) =>
    match d.audio with
    | some a => [(d.addr, a.port)]
    | none => []
  | _ => []

/-- The report of that. -/
def mediaNews (m : Msg) : List Out := (mediaOf m).map fun x => .peer x.1 x.2

/-- What a provisional response says about a call: 100 that it proceeds, 180 and 183 that it rings. -/
def provisionalNews (status : Int) : List Out :=
  if status = 100 then [.state .proceeding]
  else if status = 180 ∨ status = 183 then [.state .ringing]
  else []

/-- A final response that refuses a request for good: neither 200, nor a redirection that is followed (301, 302), nor
503, after which other servers are to be tried. -/
def Refuses (status : Int) : Prop := 200 < status ∧ status ≠ 301 ∧ status ≠ 302 ∧ status ≠ 503

/-- A response that makes the other side a party of the call, or a request that does: an event of that kind is the
reason why the dialog knows the other side. -/
def Introduces : Event → Prop
  | .msg m => (m.status = 200 ∧ m.cseqMethod = b!"INVITE") ∨ (m.status ≤ 0 ∧ m.method = b!"INVITE")
  | _ => False

/-- The media addresses an event offers to a call: that of a response that is no refusal, or that of an INVITE. -/
def offered (callID : Bytes) : Event → List (Bytes × UInt16)
  | .msg m =>
    if (m.versionMajor = 2 ∧ m.versionMinor = 0) ∧ m.callID = callID ∧
        (0 < m.status ∧ m.status ≤ 200 ∨ m.status ≤ 0 ∧ m.method = b!"INVITE") then mediaOf m else []
  | _ => []

end Gosip.Spec
