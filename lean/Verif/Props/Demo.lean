import Verif.Spec.Redirect
import Verif.Spec.Report
import Verif.Spec.Later

/-!
# A call to demonstrate the theorems about dialogs with

One possible world (every address can be dialled, every write succeeds, no time stamps), an INVITE as an
application would build it, and messages of the other side. Used only in examples and as witnesses.
-/

namespace Gosip.Props
open Sip Spec Dialog

/-- A world in which everything works. -/
def demoWorld : World where
  maxResends := 2
  loose := false
  clock _ := none
  ids n := { callID := b!"id", cseq := 7, branch := b!"z9hG4bK" ++ List.replicate n 65, tag := b!"tag" }
  origin _ := b!"1"
  resolver _ := { isIP := fun _ => true, srv := fun _ => none, resolve := fun a => .ok a }
  dial _ a := some ⟨a, b!"10.0.0.1", 5070⟩
  listen _ := none
  write _ := .ok ()
  frees _ := true

/-- The same, but nothing arrives while sockets are being closed. -/
def demoIdle : World := { demoWorld with frees := fun _ => false }

/-- Every identifier of that world is fresh. -/
theorem demoWorld_fresh : ∀ a b, (demoWorld.ids a).branch = (demoWorld.ids b).branch → a = b := by
  intro a b h
  have := congrArg List.length h
  simpa [demoWorld] using this

/-- An INVITE as given to `NewDialog`. -/
def demoInvite : Msg :=
  { method := b!"INVITE", request := some { scheme := b!"sip", user := b!"bob", host := b!"10.0.0.2" },
    addrs := fun
      | .from => [{ uri := some { scheme := b!"sip", user := b!"alice", host := b!"10.0.0.1" } }]
      | .to => [{ uri := some { scheme := b!"sip", user := b!"bob", host := b!"10.0.0.2" } }]
      | _ => [] }

/-- The dialog after these events. -/
def demo (evs : List Event) : Run := loop demoWorld evs (start demoWorld demoInvite)

/-- The methods of the requests, and the statuses of the responses, sent during these events. -/
def demoSends (evs : List Event) : List (Bytes × Int) :=
  (sends (demo evs).s.outs).map fun x => (x.2.method, x.2.status)

/-- The last request of the call so far. -/
def demoLast (evs : List Event) : Msg :=
  match (requests (demo evs).s.outs).getLast? with
  | some (_, m) => m
  | none => {}

/-- Where the other side wants to be reached. -/
def demoBob : Addr := { uri := some { scheme := b!"sip", user := b!"bob", host := b!"10.0.0.2", port := 5062 } }

/-- The other side's response to the last request. -/
def demoRspMsg (evs : List Event) (status : Int) : Msg :=
  { newResponse (demoLast evs) status with
    versionMajor := 2, addrs := setAt (newResponse (demoLast evs) status).addrs .contact [demoBob] }

@[inherit_doc demoRspMsg] def demoRsp (evs : List Event) (status : Int) : Event := .msg (demoRspMsg evs status)

/-- The same without a Contact. -/
def demoRspNoContact (evs : List Event) (status : Int) : Event :=
  .msg { newResponse (demoLast evs) status with versionMajor := 2 }

/-- A request of the other side. -/
def demoReqMsg (method : Bytes) (cseq : Int) : Msg :=
  { method := method, request := some { scheme := b!"sip", host := b!"10.0.0.1" }, versionMajor := 2,
    callID := b!"id", cseq := cseq, cseqMethod := method, maxForwards := 70,
    via := [{ host := b!"10.0.0.2", param := [(b!"branch", b!"z9hG4bKbob")] }],
    addrs := fun
      | .from => [{ uri := some { scheme := b!"sip", user := b!"bob", host := b!"10.0.0.2" } }]
      | .to => [{ uri := some { scheme := b!"sip", user := b!"alice", host := b!"10.0.0.1" } }]
      | .contact => [demoBob]
      | _ => [] }

@[inherit_doc demoReqMsg] def demoReq (method : Bytes) (cseq : Int) : Event := .msg (demoReqMsg method cseq)

/-- A session description for video only. -/
def demoVideo : Sdp.SDP := { video := some { codecs := [{ pt := 99, name := b!"VP8", rate := 90000 }], port := 5004 } }

/-- A session description. -/
def demoSdp : Sdp.SDP :=
  { origin := {}, addr := b!"10.0.0.9", audio := some { proto := b!"RTP/AVP", port := 4000, codecs := [] } }

/-- An offer of the other side. -/
def demoOffer (port : UInt16) (cseq : Int) : Msg :=
  { demoReqMsg b!"INVITE" cseq with payload := some (.sdp { addr := b!"10.0.0.9", audio := some { port := port } }) }

/-- A redirection of the demo call. -/
def demoMoved (evs : List Event) (status : Int) : Event :=
  .msg { demoRspMsg evs status with
    addrs := setAt (demoRspMsg evs status).addrs .contact
      [{ uri := some { scheme := b!"sip", user := b!"bob", host := b!"10.0.0.3" } }] }

/-- A name that cannot be resolved. -/
def demoLost : World :=
  { demoWorld with resolver := fun _ =>
      { isIP := fun _ => false, srv := fun _ => none, resolve := fun _ => .error 3 } }

/-- A world in which the name of the other side has three addresses, the second of which cannot be dialled. -/
def demoWorld3 : World :=
  { demoWorld with
    resolver := fun _ =>
      { isIP := fun _ => false
        srv := fun _ => some [(b!"a", 1), (b!"b", 2), (b!"c", 3)]
        resolve := fun a => .ok a }
    dial := fun _ a => if a = b!"b:2" then none else some ⟨a, b!"10.0.0.1", 5070⟩ }

/-- An INVITE to a name. -/
def demoInvite3 : Msg := { demoInvite with request := some { scheme := b!"sip", user := b!"bob", host := b!"example.com" } }

/-- The same without anything to deliver. -/
def demoIdle3 : World := { demoWorld3 with frees := fun _ => false }

/-- The response of the first address of `demoWorld3` to the INVITE. -/
def demoRsp3 (status : Int) : Event :=
  match (requests (start demoWorld3 demoInvite3).s.outs).getLast? with
  | some (_, m) =>
    .msg { newResponse m status with versionMajor := 2, addrs := setAt (newResponse m status).addrs .contact [demoBob] }
  | none => .hangup

/-- A world in which the destination has two addresses, reached from different addresses of this machine. -/
def twoHomes : World :=
  { demoWorld with
    maxResends := 0
    resolver := fun _ =>
      { isIP := fun h => h != b!"example.com"
        srv := fun _ => some [(b!"10.0.0.2", 5060), (b!"172.16.0.2", 5060)]
        resolve := fun a => .ok a }
    dial := fun _ a => some (if a = b!"10.0.0.2:5060" then ⟨a, b!"10.0.0.1", 5070⟩ else ⟨a, b!"172.16.0.1", 5080⟩) }

/-- An INVITE to that destination, with a session description that lacks addresses. -/
def twoHomesInvite : Msg :=
  { demoInvite with
    request := some { scheme := b!"sip", user := b!"bob", host := b!"example.com" }
    payload := some (.sdp { audio := some { port := 9000 } }) }

/-- The address in a session description. -/
def bodyAddr (m : Msg) : Bytes :=
  match m.payload with
  | some (.sdp d) => d.addr
  | _ => []

/-- A proxy that keeps itself in the path. -/
def demoProxy (lr : Bool) : Addr :=
  { uri := some { scheme := b!"sip", host := b!"10.0.0.8", param := if lr then [(b!"lr", [])] else [] } }

/-- The demo call through a proxy. -/
def demoInviteVia (lr : Bool) : Msg := { demoInvite with addrs := setAt demoInvite.addrs .route [demoProxy lr] }

/-- The 200 of the demo call, with a proxy that has recorded itself. -/
def demoRecorded : Msg :=
  { demoRspMsg [] 200 with addrs := setAt (demoRspMsg [] 200).addrs .recordRoute [demoProxy true] }

end Gosip.Props
