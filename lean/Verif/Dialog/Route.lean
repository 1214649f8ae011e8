import Verif.Dialog.Messages

/-!
# Routing

`dialog/route.go`, `dialog/util.go` and the sending half of `dialog/transport.go`.
-/

namespace Gosip.Dialog
open Sip

/-- `or5060` (`dialog/util.go:25-30`). -/
def or5060 (p : UInt16) : UInt16 := if p = 0 then 5060 else p

/-! ### PopulateMessage -/

/-- `dialog/route.go:43-46`: a missing `From` is the Contact without its URI parameters. -/
def fromContact : List Addr → Res Err (List Addr)
  | [] => .panic
  | a :: l =>
    match a.uri with
    | some u => .ok ({ addrCopy1 a with uri := some { u with param := [] } } :: addrCopy l)
    | none => .panic

/-- `dialog/route.go:62-68`: add a branch to the first Via unless it has one. -/
def ensureBranch (branch : Bytes) : List Via → Res Err (List Via)
  | [] => .panic
  | v :: l =>
    if (v.param.get b!"branch").isNone then
      .ok ({ v with param := (b!"branch", branch) :: v.param } :: l)
    else .ok (v :: l)

/-- `dialog/route.go:69-75`: add a tag to the first `From` unless it has one. -/
def ensureTag (tag : Bytes) : List Addr → Res Err (List Addr)
  | [] => .panic
  | a :: l =>
    if (a.param.get b!"tag").isNone then
      .ok ({ a with param := (b!"tag", tag) :: a.param } :: l)
    else .ok (a :: l)

/-- `dialog/route.go:43-46`: the `From` of the message. -/
def ensureFrom (from' contact : List Addr) : Res Err (List Addr) :=
  if from' = [] then fromContact contact else .ok from'

/-- `PopulateMessage` (`dialog/route.go:32-77`). In Go a missing Via or Contact becomes the *same* node
as the argument; the effect of that on the argument is part of `Transport.send` below. -/
def populateMessage (ids : Ids) (via : List Via) (contact : List Addr) (msg : Msg) : Res Err Msg :=
  if msg.isResponse then .ok msg else do
    let mvia := if msg.via = [] then via else msg.via
    let mcontact := if msg.addrs .contact = [] then contact else msg.addrs .contact
    let mto := if msg.addrs .to = [] then [{ uri := msg.request }] else msg.addrs .to
    let mfrom ← ensureFrom (msg.addrs .from) mcontact
    let mvia ← ensureBranch ids.branch mvia
    let mfrom ← ensureTag ids.tag mfrom
    pure { msg with
      via := mvia
      addrs := setAt (setAt (setAt msg.addrs .contact mcontact) .to mto) .from mfrom
      callID := if msg.callID = [] then ids.callID else msg.callID
      cseq := if msg.cseq = 0 then ids.cseq else msg.cseq
      cseqMethod := if msg.cseqMethod = [] then msg.method else msg.cseqMethod
      maxForwards := if msg.maxForwards = 0 then 70 else msg.maxForwards
      hdr := if msg.hdr .userAgent = [] then setAt msg.hdr .userAgent gosipUA else msg.hdr }

/-! ### RouteMessage -/

/-- `dialog/route.go:82-83`: our own Via is removed from a response. -/
def popVia (via : Option Via) (l : List Via) : List Via :=
  if viaCompareHostPort via l.head? then l.tail else l

/-- `dialog/route.go:93-100`: the port override. -/
def rportOf (v : Via) : Res Err UInt16 :=
  match paramVal v.param b!"rport" with
  | none => .ok v.port
  | some s =>
    if s = [] then .ok v.port
    else match atoi s with
      | none => .err (.badRport s)
      | some i => .ok (UInt16.ofInt i)

/-- `dialog/route.go:85-100`: where a response with this (remaining) Via list goes. -/
def responseHop : List Via → Res Err (Bytes × UInt16)
  | [] => .panic
  | v :: _ => do
    let port ← rportOf v
    pure ((paramVal v.param b!"received").getD v.host, port)

/-- `dialog/route.go:102-104`: our own entry is removed from the route set. -/
def popRoute (contact : Option Addr) (l : List Addr) : List Addr :=
  if addrCompareHostPort contact l.head? then l.tail else l

/-- `x.Host, x.Port` on a pointer to a URI. -/
def uriHop : Option URI → Res Err (Bytes × UInt16)
  | none => .panic
  | some u => .ok (u.host, u.port)

/-- `RouteMessage` (`dialog/route.go:79-125`): the message as modified, and the host and port. -/
def routeMessage (via : Option Via) (contact : Option Addr) (msg : Msg) :
    Msg × Res Err (Bytes × UInt16) :=
  if msg.isResponse then
    ({ msg with via := popVia via msg.via }, responseHop (popVia via msg.via))
  else
    let route := popRoute contact (msg.addrs .route)
    let m := { msg with addrs := setAt msg.addrs .route route }
    match route with
    | [] => (m, uriHop m.request)
    | r :: rest =>
      if m.method = b!"REGISTER" then (m, .err .registerRouted)
      else match r.uri with
        | none => (m, .panic)
        | some u =>
          if (u.param.get b!"lr").isSome then (m, .ok (u.host, u.port))
          else
            ({ m with
               request := some u
               addrs := setAt m.addrs .route (addrCopy rest ++ [{ uri := m.request }]) },
             .ok (u.host, u.port))

/-! ### RouteAddress -/

/-- `net.JoinHostPort`. -/
def joinHostPort (host port : Bytes) : Bytes :=
  if host.contains 58 then b!"[" ++ host ++ b!"]:" ++ port else host ++ b!":" ++ port

/-- What `RouteAddress` asks of the network library: `net.ParseIP(host) != nil`; the records of
`net.LookupSRV("sip", "udp", host)` (target and port), `none` for an error; the text of the address
returned by `net.ResolveUDPAddr`, or an error. -/
structure Resolver where
  isIP : Bytes → Bool
  srv : Bytes → Option (List (Bytes × UInt16))
  resolve : Bytes → Except Nat Bytes

/-- A query sent to the network library. -/
inductive Query where
  | srv (host : Bytes)
  | resolve (address : Bytes)
  deriving DecidableEq

/-- `dialog/route.go:139-145`: the loop over the records, from the last to the first; `routes` is the
list built so far. -/
def srvRoutes : List (Bytes × UInt16) → List Bytes → List Bytes
  | [], routes => routes
  | s :: rest, routes => srvRoutes rest (joinHostPort s.1 (portstr s.2) :: routes)

/-- `dialog/route.go:153-157`. -/
def resolveOne (r : Resolver) (host : Bytes) (port : UInt16) : List Query × Res Err (List Bytes) :=
  let a := joinHostPort host (portstr port)
  ([.resolve a],
   match r.resolve a with
   | .ok t => .ok [t]
   | .error e => .err (.net e))

/-- `RouteAddress` (`dialog/route.go:127-158`): the queries made and the list of addresses, in the
order of the linked list. -/
def routeAddress (r : Resolver) (host : Bytes) (port : UInt16) (wantSRV : Bool) :
    List Query × Res Err (List Bytes) :=
  if r.isIP host then ([], .ok [joinHostPort host (portstr (or5060 port))])
  else if port = 0 then
    if wantSRV then
      match r.srv host with
      | some (s :: l) => ([.srv host], .ok (srvRoutes (s :: l).reverse []))
      | _ => ((.srv host) :: (resolveOne r host 5060).1, (resolveOne r host 5060).2)
    else resolveOne r host 5060
  else resolveOne r host port

end Gosip.Dialog
