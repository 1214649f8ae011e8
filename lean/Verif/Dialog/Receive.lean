import Verif.Dialog.Route
import Verif.Sip.MsgParse

/-!
# The transport: receiving and sending

`dialog/receiver.go` and `dialog/transport.go`. One turn of the receive loop is a function of the
datagram and its source; the goroutine and its channels are in `Verif.Dialog.Handshake`, the reuse of
the receive buffer in `Verif.Dialog.Alias`.
-/

namespace Gosip.Dialog
open Sip

/-- A UDP address: `addr.IP.String()` and `addr.Port`. -/
structure UDPAddr where
  ip : Bytes
  port : UInt16
  deriving DecidableEq, Repr

/-- `p.Get(name).Value = v` for a node known to exist. -/
def setParam (name v : Bytes) : Pairs → Pairs
  | [] => []
  | p :: l => if equalFold p.1 name then (p.1, v) :: l else p :: setParam name v l

/-- `dialog/receiver.go:63-81`: the `rport` stamp. -/
def stampRport (addr : UDPAddr) (v : Via) : Via :=
  if v.port ≠ addr.port then
    match paramVal v.param b!"rport" with
    | none => { v with param := (b!"rport", itoa addr.port.toNat) :: v.param }
    | some s =>
      if s = [] then { v with param := setParam b!"rport" (itoa addr.port.toNat) v.param } else v
  else v

/-- `dialog/receiver.go:82-90`: the `received` stamp. -/
def stampReceived (addr : UDPAddr) (v : Via) : Via :=
  if v.host ≠ addr.ip then
    if (v.param.get b!"received").isNone then { v with param := (b!"received", addr.ip) :: v.param }
    else v
  else v

/-- `addReceived` (`dialog/receiver.go:59-91`). -/
def addReceived (addr : UDPAddr) (msg : Msg) : Res Err Msg :=
  if msg.isResponse then .ok msg
  else match msg.via with
    | [] => .panic
    | v :: l => .ok { msg with via := stampReceived addr (stampRport addr v) :: l }

/-- `addTimestamp` (`dialog/receiver.go:93-101`); the flag `timestampTagging` is off when `ts` is
`none`, otherwise `ts` is the time in microseconds. -/
def addTimestamp (ts : Option Int) (msg : Msg) : Res Err Msg :=
  match ts with
  | none => .ok msg
  | some t =>
    match msg.via with
    | [] => .panic
    | v :: l => .ok { msg with via := { v with param := (b!"usi", itoa t) :: v.param } :: l }

/-- The test of `dialog/receiver.go:49` on the first route. -/
def routeIsSelf (lhost : Bytes) (lport : UInt16) (a : Addr) : Res Err Bool :=
  match a.uri with
  | none => .panic
  | some u => .ok (u.host == lhost && or5060 u.port == lport)

/-- `dialog/receiver.go:49-51`: remove ourselves from the route set. -/
def popSelf (lhost : Bytes) (lport : UInt16) (msg : Msg) : Res Err Msg :=
  match msg.addrs .route with
  | [] => .ok msg
  | a :: l => do
    let b ← routeIsSelf lhost lport a
    pure (if b then { msg with addrs := setAt msg.addrs .route l } else msg)

/-- The condition of `dialog/receiver.go:106-110`, except `msg.Route != nil`. -/
def strictlyHere (lhost : Bytes) (lport : UInt16) (u : URI) : Bool :=
  (u.param.get b!"lr").isSome && u.host == lhost && or5060 u.port == lport

/-- `fixMessagesFromStrictRouters` (`dialog/receiver.go:105-127`): both branches take the last route as
the request URI and remove it. -/
def fixStrict (lhost : Bytes) (lport : UInt16) (msg : Msg) : Msg :=
  match msg.request, (msg.addrs .route).getLast? with
  | some u, some a =>
    if strictlyHere lhost lport u then
      { msg with request := a.uri, addrs := setAt msg.addrs .route (msg.addrs .route).dropLast }
    else msg
  | _, _ => msg

/-- One turn of the loop of `ReceiveMessages` (`dialog/receiver.go:31-54`) for a datagram (at most 2048
bytes of it are read): `none` when it is dropped, else the message sent on the channel. -/
def receiveOne (lhost : Bytes) (lport : UInt16) (ts : Option Int) (datagram : Bytes) (addr : UDPAddr) :
    Res Err (Option Msg) :=
  match parseMsg (datagram.take 2048) with
  | .err _ => .ok none
  | .panic => .panic
  | .ok m => do
    let m ← addReceived addr m
    let m ← addTimestamp ts m
    let m ← popSelf lhost lport m
    pure (some (fixStrict lhost lport m))

/-! ### Sending -/

/-- The fields of `Transport` that matter for sending (`dialog/transport.go:30-36`). -/
structure Transport where
  via : List Via
  contact : List Addr

/-- Everything outside the program that one `Send` meets: random identifiers, a random SDP origin
identifier, the clock, name resolution and the socket. -/
structure SendEnv where
  ids : Ids
  origin : Bytes
  ts : Option Int
  resolve : Bytes → Except Nat Bytes
  write : Except Nat Unit

/-- Result of `Send`: the transport and the message afterwards, the datagram handed to the socket with
its destination, if any, and the result. -/
structure Sent where
  tp : Transport
  msg : Msg
  wire : Option (Bytes × Bytes)
  res : Res Err Unit

/-- `dialog/transport.go:89-91`. -/
def decForwards (msg : Msg) : Msg :=
  if msg.maxForwards > 0 then { msg with maxForwards := msg.maxForwards - 1 } else msg

/-- `dialog/transport.go:89-103`: the end of `Send`, after the address is known. -/
def sendTo (env : SendEnv) (tp : Transport) (own : Bool) (dest : Bytes) (msg : Msg) : Sent :=
  match addTimestamp env.ts (decForwards msg) with
  | .ok m =>
    { tp := if own then { tp with via := m.via } else tp, msg := m.appended,
      wire := some (m.text env.origin, dest),
      res := match env.write with
        | .ok _ => .ok ()
        | .error e => .err (.net e) }
  | _ => { tp := tp, msg := msg, wire := none, res := .panic }

/-- `Transport.Send` (`dialog/transport.go:79-104`). When the message has no Via, `PopulateMessage` makes
it point to the transport's own Via, so the branch and the time stamp are also added to the transport's
Via (`own`). Likewise a missing Contact becomes the transport's, which nothing here changes. -/
def Transport.send (env : SendEnv) (tp : Transport) (msg : Msg) : Sent :=
  match populateMessage env.ids tp.via tp.contact msg with
  | .ok m =>
    let own := !msg.isResponse && msg.via == []
    let tp := if own then { tp with via := m.via } else tp
    let r := routeMessage tp.via.head? tp.contact.head? m
    match r.2 with
    | .ok (host, port) =>
      match env.resolve (joinHostPort host (portstr port)) with
      | .ok dest => sendTo env tp own dest r.1
      | .error e => { tp := tp, msg := r.1, wire := none, res := .err (.net e) }
    | .err e => { tp := tp, msg := r.1, wire := none, res := .err e }
    | .panic => { tp := tp, msg := r.1, wire := none, res := .panic }
  | _ => { tp := tp, msg := msg, wire := none, res := .panic }

end Gosip.Dialog
