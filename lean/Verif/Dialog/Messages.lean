import Verif.Sip.Msg

/-!
# Building and matching messages

`dialog/messages.go`, and the methods of `sip.Via` (`sip/via.go`) and `sip.Addr` (`sip/addr.go`) it
uses. Pointers are values here: two messages that share a `Via` or `Addr` node in Go have equal copies
of it (what sharing does is the subject of `Verif.Dialog.Heap`). Dereferencing a nil pointer is the
outcome `panic`. Randomly generated identifiers are arguments.
-/

namespace Gosip.Dialog
open Sip

/-- Errors of `dialog/`: the two returned by `RouteMessage`, an opaque one of the network. -/
inductive Err where
  | registerRouted          -- "Don't route REGISTER requests" (`dialog/route.go:107`)
  | badRport (s : Bytes)    -- the error of `strconv.Atoi` (`dialog/route.go:96-98`)
  | net (n : Nat)           -- an error of the operating system or of the resolver
  deriving DecidableEq, Repr

/-- `GosipUA`, `GosipAllow` (`dialog/messages.go:25-26`). -/
def gosipUA : Bytes := b!"slytherin/1.o"
@[inherit_doc gosipUA] def gosipAllow : Bytes := b!"INVITE, ACK, CANCEL, BYE, OPTIONS"

/-- `p.Get(name).Value`, `none` when `Get` returns nil. -/
def paramVal (l : Pairs) (name : Bytes) : Option Bytes :=
  match l.get name with
  | some (p :: _) => some p.2
  | _ => none

/-- `Via.CompareHostPort` (`sip/via.go:103-111`) on pointers; only the first node counts. -/
def viaCompareHostPort : Option Via → Option Via → Bool
  | some a, some b => a.host == b.host && a.port == b.port
  | _, _ => false

/-- `Via.CompareBranch` (`sip/via.go:113-124`). -/
def viaCompareBranch : Option Via → Option Via → Bool
  | some a, some b =>
    match paramVal a.param b!"branch", paramVal b.param b!"branch" with
    | some x, some y => x == y
    | _, _ => false
  | _, _ => false

/-- `Via.Detach` (`sip/via.go:87-92`); `*via` panics on nil. -/
def viaDetach : List Via → Res Err (List Via)
  | [] => .panic
  | v :: _ => .ok [v]

/-- `Addr.CompareHostPort` (`sip/addr.go:101-108`) on pointers. -/
def addrCompareHostPort : Option Addr → Option Addr → Bool
  | some a, some b => compareHostPort a.uri b.uri
  | _, _ => false

/-- One node of `Addr.Copy` (`sip/addr.go:94-96`): `Display` is not copied. -/
def addrCopy1 (a : Addr) : Addr := { uri := a.uri, param := a.param }

/-- `Addr.Copy` (`sip/addr.go:90-99`). -/
def addrCopy (l : List Addr) : List Addr := l.map addrCopy1

/-- `Addr.Reversed` (`sip/addr.go:129-138`): the loop, `res` being the reversed part. -/
def addrReversedAux : List Addr → List Addr → List Addr
  | [], res => res
  | a :: l, res => addrReversedAux l (a :: res)

@[inherit_doc addrReversedAux] def addrReversed (l : List Addr) : List Addr := addrReversedAux l []

/-- `Addr.Or` (`sip/addr.go:56-61`). -/
def addrOr (a b : List Addr) : List Addr := if a = [] then b else a

/-- `Addr.Tag` (`sip/addr.go:64-67`). -/
def addrTag (tag : Bytes) : List Addr → Res Err (List Addr)
  | [] => .panic
  | a :: l => .ok ({ a with param := (b!"tag", tag) :: a.param } :: l)

/-- `Via.Branch` (`sip/via.go:81-84`). -/
def viaBranch (branch : Bytes) : List Via → Res Err (List Via)
  | [] => .panic
  | v :: l => .ok ({ v with param := (b!"branch", branch) :: v.param } :: l)

/-- `x.Uri` on a pointer to an address. -/
def headUri : List Addr → Res Err (Option URI)
  | [] => .panic
  | a :: _ => .ok a.uri

/-- Random identifiers drawn by one call: `util.GenerateCallID`, `GenerateCSeq`, `GenerateBranch`,
`GenerateTag` (`util/util.go:45-75`). -/
structure Ids where
  callID : Bytes
  cseq : Int
  branch : Bytes
  tag : Bytes

/-- `NewRequest` (`dialog/messages.go:29-41`); `tvia`, `tcontact` are the fields of the transport. -/
def newRequest (ids : Ids) (tvia : List Via) (tcontact : List Addr) (method : Bytes)
    (to from' : List Addr) : Res Err Msg := do
  let uri ← headUri to
  let via ← viaBranch ids.branch tvia
  let fr ← addrTag ids.tag (addrCopy (addrOr from' tcontact))
  pure { method := method, request := uri, via := via, callID := ids.callID, cseq := ids.cseq,
         cseqMethod := method,
         addrs := fun
           | .from => fr
           | .to => addrCopy to
           | _ => [],
         hdr := fun
           | .userAgent => gosipUA
           | _ => [] }

/-- `NewResponse` (`dialog/messages.go:43-57`). -/
def newResponse (msg : Msg) (status : Int) : Msg :=
  { status := status, phrase := phraseOf status, via := msg.via, callID := msg.callID,
    cseq := msg.cseq, cseqMethod := msg.cseqMethod,
    addrs := fun
      | .from => msg.addrs .from
      | .to => msg.addrs .to
      | .recordRoute => msg.addrs .recordRoute
      | _ => [],
    hdr := fun
      | .userAgent => gosipUA
      | .allow => gosipAllow
      | _ => [] }

/-- `NewAck` (`dialog/messages.go:60-75`). -/
def newAck (msg invite : Msg) : Res Err Msg := do
  let uri ← headUri (msg.addrs .contact)
  let via ← viaDetach msg.via
  pure { method := b!"ACK", request := uri, via := via, callID := msg.callID, cseq := msg.cseq,
         cseqMethod := b!"ACK",
         addrs := fun
           | .from => msg.addrs .from
           | .to => msg.addrs .to
           | .route => addrReversed (msg.addrs .recordRoute)
           | _ => [],
         hdr := fun
           | .authorization => invite.hdr .authorization
           | .proxyAuthorization => invite.hdr .proxyAuthorization
           | .userAgent => gosipUA
           | _ => [] }

/-- `NewCancel` (`dialog/messages.go:77-92`); the log line is not modelled. -/
def newCancel (invite : Msg) : Msg :=
  { method := b!"CANCEL", request := invite.request, via := invite.via, callID := invite.callID,
    cseq := invite.cseq, cseqMethod := b!"CANCEL",
    addrs := fun
      | .from => invite.addrs .from
      | .to => invite.addrs .to
      | .route => invite.addrs .route
      | _ => [] }

/-- `NewBye` (`dialog/messages.go:94-110`): the message and the new value of `*lseq`; a nil `lseq` is
`none`. -/
def newBye (invite remote : Msg) (lseq : Option Int) : Res Err (Msg × Int) := do
  let n := wrap64 (lseq.getD invite.cseq + 1)
  let uri ← headUri (remote.addrs .contact)
  pure ({ method := b!"BYE", request := uri, callID := invite.callID, cseq := n, cseqMethod := b!"BYE",
          addrs := fun
            | .from => invite.addrs .from
            | .to => remote.addrs .to
            | .route => addrReversed (remote.addrs .recordRoute)
            | _ => [] }, n)

/-- `ResponseMatch` (`dialog/messages.go:114-120`); `Last` of nil is nil. -/
def responseMatch (req rsp : Msg) : Bool :=
  rsp.isResponse && rsp.cseq == req.cseq && rsp.cseqMethod == req.method &&
    viaCompareHostPort rsp.via.getLast? req.via.head? &&
    viaCompareBranch rsp.via.getLast? req.via.head?

/-- `AckMatch` (`dialog/messages.go:125-131`). -/
def ackMatch (msg ack : Msg) : Bool :=
  !ack.isResponse && ack.method == b!"ACK" && ack.cseq == msg.cseq && ack.cseqMethod == b!"ACK" &&
    viaCompareHostPort ack.via.getLast? msg.via.head?

end Gosip.Dialog
