import Verif.Dialog.Receive

/-!
# The dialog

`dialog/dialog.go`: the goroutine behind `NewDialog`, as a function from the sequence of things it
selects (messages, timers, socket errors, hang-up commands) to the sequence of things it does (datagrams,
dials, values on the three channels of the application).

* Everything outside the program is in `World`: flags, clock, random identifiers, name resolution,
  dialling, results of socket writes. Each use takes the value at the current tick and advances it, so
  all combinations of results are covered.
* Channel sends to the application are outputs: the application is assumed to receive.
* Waiting for the receiving goroutine in `cleanupSock` ends only if that goroutine had a message to deliver
  when the socket was closed: this is proved in `Verif.Dialog.Handshake` for all schedules. Whether it had
  one is part of the world here (`World.frees`).
* Pointers: `dls.request` is the invite or another message. CANCEL shares its Via with the invite, which
  matters for time stamps and is modelled. The invite given by the application is assumed to have no
  nodes shared between its own fields. Other sharing (response and re-INVITE, BYE and remote) is not
  observable: nobody reads the shared node after it is changed.
* Methods called on a nil `*net.UDPConn` panic: `RemoteAddr`, `Write` are promoted from an embedded
  struct, whose address is taken.
* Log lines are not modelled, except that they dereference `dls.sock`.
-/

namespace Gosip.Dialog
open Sip

/-- The states (`dialog/dialog.go:33-38`). -/
inductive CallState where
  | proceeding | ringing | answered | hangup
  deriving DecidableEq, Repr

/-- The numbers behind the states, by which the code compares them. -/
def CallState.rank : CallState → Nat
  | .proceeding => 0
  | .ringing => 1
  | .answered => 2
  | .hangup => 3

/-- The errors delivered on `OnErr`. -/
inductive DErr where
  | route (e : Err)         -- of `RouteMessage` or `RouteAddress` (`dialog/dialog.go:155,161`)
  | failed (dest : Bytes)   -- "Failed to contact" (`dialog/dialog.go:172`)
  | strangeVersion          -- `dialog/dialog.go:286`
  | noContact               -- `dialog/dialog.go:307`
  | response (m : Msg)      -- `sip.ResponseError` (`dialog/dialog.go:340,349`)
  | remoteLoop              -- `dialog/dialog.go:361`
  | localLoop               -- `dialog/dialog.go:405`
  | net (n : Nat)           -- an error of a socket (`dialog/dialog.go:120,126,418`)
  deriving DecidableEq

/-- What the dialog does. -/
inductive Out where
  | dial (addr : Bytes)                          -- `net.Dial` (`dialog/dialog.go:197`)
  | sent (dest : Bytes) (m : Msg) (text : Bytes) -- `sock.Write` of `m` serialised (`dialog/dialog.go:416`)
  | state (s : CallState)                        -- on `OnState`
  | err (e : DErr)                               -- on `OnErr`
  | peer (ip : Bytes) (port : UInt16)            -- on `OnPeer`; `ip` is the text given to `net.ParseIP`
  | closed                                       -- the three channels are closed
  deriving DecidableEq

/-- A connected socket: text of the remote address, text of the local IP address, local port. -/
structure Conn where
  remote : Bytes
  lhost : Bytes
  lport : UInt16
  deriving DecidableEq

/-- Everything outside the program. -/
structure World where
  maxResends : Int                          -- flag `maxResends`
  loose : Bool                              -- flag `looseSignalling`
  clock : Nat → Option Int                  -- flag `timestampTagging` and the clock
  ids : Nat → Ids                           -- random identifiers
  origin : Nat → Bytes                      -- `util.GenerateOriginID`
  resolver : Nat → Resolver
  dial : Nat → Bytes → Option Conn          -- `net.Dial`, `none` for an error
  listen : Nat → Option UInt16              -- `rtp.Listen`: the port, `none` for an error
  write : Nat → Except Nat Unit             -- result of `sock.Write`
  frees : Nat → Bool                        -- the receiver of a socket being closed had a message to deliver

/-- The pointer `dls.request`. -/
inductive Req where
  | none
  | invite
  | other (m : Msg)

/-- `dialogState` (`dialog/dialog.go:54-80`), with the outputs so far. A timer is `true` when its channel
will deliver. `csock` is the port of the socket. -/
structure St where
  state : CallState := .proceeding
  dest : Bytes := []
  addr : Bytes := []
  sock : Option Conn := none
  csock : Option UInt16 := none
  routes : List Bytes := []
  invite : Msg
  remote : Option Msg := none
  req : Req := .none
  requestResends : Int := 0
  requestTimer : Bool := false
  response : Option Msg := none
  responseResends : Int := 0
  responseTimer : Bool := false
  lseq : Int := 0
  rseq : Int := 0
  tick : Nat := 0
  outs : List Out := []

/-- How a handler ends: it returned true, it returned false, it panicked, it waits for ever. -/
inductive Cont where
  | go | stop | crash | stuck
  deriving DecidableEq, Repr

/-- Result of a handler. -/
structure Run where
  s : St
  c : Cont

/-- `if !r { return false }; f`. -/
def Run.andThen (r : Run) (f : St → Run) : Run :=
  match r.c with
  | .go => f r.s
  | .stop => r
  | .crash => r
  | .stuck => r

/-- Append an output. -/
def St.out (s : St) (o : Out) : St := { s with outs := s.outs ++ [o] }

/-- `dls.errChan <- e; return false`. -/
def St.fail (s : St) (e : DErr) : Run := ⟨s.out (.err e), .stop⟩

/-- `dls.request`. -/
def St.cur (s : St) : Option Msg :=
  match s.req with
  | .none => none
  | .invite => some s.invite
  | .other m => some m

/-- `*dls.request = m`. -/
def St.setCur (s : St) (m : Msg) : St :=
  match s.req with
  | .none => s
  | .invite => { s with invite := m }
  | .other _ => { s with req := .other m }

/-- `transition` (`dialog/dialog.go:488-491`). -/
def transition (s : St) (c : CallState) : St := { s with state := c }.out (.state c)

/-- The writing half of `send` (`dialog/dialog.go:409-421`). -/
def writeMsg (w : World) (s : St) (m : Msg) : Run × Msg :=
  match addTimestamp (w.clock s.tick) m, s.sock with
  | .ok m, some c =>
    let s' := { s with tick := s.tick + 1 }.out (.sent c.remote m (m.text (w.origin s.tick)))
    match w.write s.tick with
    | .ok _ => (⟨s', .go⟩, m.appended)
    | .error e => (s'.fail (.net e), m.appended)
  | _, _ => (⟨s, .crash⟩, m)

/-- `send` (`dialog/dialog.go:401-422`): the result and the message afterwards. -/
def send (w : World) (s : St) (m : Msg) : Run × Msg :=
  if m.maxForwards = 1 then (s.fail .localLoop, { m with maxForwards := 0 })
  else writeMsg w s (decForwards m)

/-- `dls.send(m)` for a message that is not kept. -/
def sendNew (w : World) (s : St) (m : Msg) : Run := (send w s m).1

/-- `dls.send(dls.request)`. -/
def sendCur (w : World) (s : St) : Run :=
  match s.cur with
  | none => ⟨s, .crash⟩
  | some m => ⟨(send w s m).1.s.setCur (send w s m).2, (send w s m).1.c⟩

/-- `dls.send(dls.response)`. -/
def sendRsp (w : World) (s : St) : Run :=
  match s.response with
  | none => ⟨s, .crash⟩
  | some m => ⟨{ (send w s m).1.s with response := some (send w s m).2 }, (send w s m).1.c⟩

/-- `dls.send(NewCancel(dls.invite))` (`dialog/dialog.go:474`): the Via is shared. -/
def sendCancel (w : World) (s : St) : Run :=
  let r := send w s (newCancel s.invite)
  ⟨{ r.1.s with invite := { r.1.s.invite with via := r.2.via } }, r.1.c⟩

/-! ### Connecting -/

/-- The optional second socket (`dialog/dialog.go:212-224`). -/
def connectLoose (w : World) (s : St) : St × Bool :=
  if s.csock.isNone && w.loose then
    match w.listen s.tick with
    | none => ({ s with tick := s.tick + 1 }, false)
    | some p => ({ s with csock := some p, tick := s.tick + 1 }, true)
  else (s, true)

/-- `connect` (`dialog/dialog.go:191-227`), when `cleanupSock` returns. -/
def connect (w : World) (s : St) : St × Bool :=
  if s.sock.any (·.remote == s.addr) then (s, true)
  else
    let s' := { s with sock := none, tick := s.tick + 1 }.out (.dial s.addr)
    match w.dial s.tick s.addr with
    | none => (s', false)
    | some c => connectLoose w { s' with sock := some c }

/-- The Via made by `populate` (`dialog/dialog.go:234-247`). -/
def populateVia (branch : Bytes) (c : Conn) (l : List Via) : List Via :=
  match l with
  | [] => [{ host := c.lhost, port := c.lport, param := [(b!"branch", branch)] }]
  | v :: more =>
    (if (v.param.get b!"branch").isSome then
      { v with port := c.lport, param := setParam b!"branch" branch v.param }
     else { v with port := c.lport, param := (b!"branch", branch) :: v.param }) :: more

/-- The Contact URI made by `populate` (`dialog/dialog.go:252-263`). -/
def populateContactUri (port : UInt16) (u : URI) : URI :=
  if (u.param.get b!"transport").isNone then
    { u with port := port, param := (b!"transport", b!"udp") :: u.param }
  else { u with port := port }

/-- The Contact made by `populate` (`dialog/dialog.go:249-263`). -/
def populateContact (c : Conn) (csock : Option UInt16) (l : List Addr) : Res Err (List Addr) :=
  match l with
  | [] => .ok [{ uri := some (populateContactUri (csock.getD c.lport) { scheme := b!"sip", host := c.lhost }) }]
  | a :: more =>
    match a.uri with
    | none => .panic
    | some u => .ok ({ a with uri := some (populateContactUri (csock.getD c.lport) u) } :: more)

/-- `if x == "" { x = v }`. -/
def orElse (x v : Bytes) : Bytes := if x = [] then v else x

/-- The session description completed by `populate` (`dialog/dialog.go:265-277`). -/
def populateSDP (origin : Bytes) (c : Conn) (d : Sdp.SDP) : Sdp.SDP :=
  { d with
    addr := orElse d.addr c.lhost
    origin := { d.origin with addr := orElse d.origin.addr c.lhost, id := orElse d.origin.id origin } }

/-- The payload after `populate` (`dialog/dialog.go:265-277`). -/
def populatePayload (origin : Bytes) (c : Conn) (m : Msg) : Option Payload :=
  match m.payload with
  | some (.sdp d) => if m.method = b!"INVITE" then some (.sdp (populateSDP origin c d)) else some (.sdp d)
  | p => p

/-- `populate` (`dialog/dialog.go:229-279`). -/
def populate (ids : Ids) (origin : Bytes) (c : Conn) (csock : Option UInt16) (m : Msg) : Res Err Msg := do
  let contact ← populateContact c csock (m.addrs .contact)
  populateMessage ids [] []
    { m with
      via := populateVia ids.branch c m.via
      addrs := setAt m.addrs .contact contact
      payload := populatePayload origin c m }

/-- `dialog/dialog.go:181-187`: bookkeeping for a new attempt with the request `m`. -/
def newAttempt (s : St) (m : Msg) : St :=
  let s := s.setCur m
  let s := if s.state.rank < CallState.answered.rank then
      { s with rseq := 0, remote := none, lseq := m.cseq } else s
  { s with requestResends := 0, requestTimer := true }

/-- `dialog/dialog.go:180-188`: the part of `popRoute` after `connect`. -/
def attempt (w : World) (s : St) : Run :=
  match s.sock, s.cur with
  | some c, some m =>
    match populate (w.ids s.tick) (w.origin s.tick) c s.csock m with
    | .ok m => sendCur w (newAttempt { s with tick := s.tick + 1 } m)
    | _ => ⟨s, .crash⟩
  | _, _ => ⟨s, .crash⟩

/-- Whether `cleanupSock` (`dialog/dialog.go:501-508`), called by `connect` (`dialog/dialog.go:196`), waits for
ever. -/
def blocked (w : World) (s : St) : Bool := s.sock.any (·.remote != s.addr) && !w.frees s.tick

/-- `popRoute` (`dialog/dialog.go:170-189`) with the addresses left to try. -/
def popRoutes (w : World) : List Bytes → St → Run
  | [], s => { s with routes := [] }.fail (.failed s.dest)
  | a :: rest, s =>
    if blocked w { s with addr := a, routes := rest } then
      ⟨{ s with addr := a, routes := rest, sock := none }, .stuck⟩
    else
    let r := connect w { s with addr := a, routes := rest }
    if r.2 then attempt w r.1 else popRoutes w rest r.1

@[inherit_doc popRoutes] def nextRoute (w : World) (s : St) : Run := popRoutes w s.routes s

/-- `sendRequest` (`dialog/dialog.go:152-168`) after `RouteMessage`; `q` is the request. -/
def sendTowards (w : World) (s : St) (q : Req) (hop : Res Err (Bytes × UInt16)) : Run :=
  match hop with
  | .panic => ⟨s, .crash⟩
  | .err e => s.fail (.route e)
  | .ok (host, port) =>
    match (routeAddress (w.resolver s.tick) host port (s.state.rank < CallState.answered.rank)).2 with
    | .panic => ⟨s, .crash⟩
    | .err e => { s with tick := s.tick + 1 }.fail (.route e)
    | .ok rs => nextRoute w { s with req := q, routes := rs, dest := host, tick := s.tick + 1 }

/-- `sendRequest(dls.invite)`. -/
def sendInvite (w : World) (s : St) : Run :=
  let r := routeMessage none none s.invite
  sendTowards w { s with invite := r.1 } .invite r.2

/-- `sendRequest(m)` for a new message. -/
def sendOther (w : World) (s : St) (m : Msg) : Run :=
  let r := routeMessage none none m
  sendTowards w s (.other r.1) r.2

/-! ### Handling events -/

/-- `checkSDP` (`dialog/dialog.go:395-399`). -/
def checkSDP (s : St) (m : Msg) : Run :=
  match m.payload with
  | some (.sdp d) =>
    match d.audio with
    | some a => ⟨s.out (.peer d.addr a.port), .go⟩
    | none => ⟨s, .crash⟩
  | _ => ⟨s, .go⟩

/-- The ACK of a final response (`dialog/dialog.go:305-313`). -/
def ackFinal (w : World) (s : St) (m cur : Msg) : Run :=
  if m.status ≥ 200 ∧ cur.method = b!"INVITE" then
    if m.addrs .contact = [] then s.fail .noContact
    else match newAck m cur with
      | .ok ack => sendNew w s ack
      | _ => ⟨s, .crash⟩
  else ⟨s, .go⟩

/-- `dialog/dialog.go:343-346`. -/
def redirect (w : World) (s : St) (m : Msg) : Run :=
  match headUri (m.addrs .contact) with
  | .ok u => sendInvite w { s with invite := { s.invite with request := u, addrs := setAt s.invite.addrs .route [] } }
  | _ => ⟨s, .crash⟩

/-- A 200 response (`dialog/dialog.go:324-334`). -/
def handleOK (s : St) (m : Msg) : Run :=
  if m.cseqMethod = b!"INVITE" then
    ⟨{ (if s.remote.isNone then transition s .answered else s) with remote := some m }, .go⟩
  else if m.cseqMethod = b!"BYE" ∨ m.cseqMethod = b!"CANCEL" then ⟨transition s .hangup, .stop⟩
  else ⟨s, .go⟩

/-- The switch of `handleResponse` (`dialog/dialog.go:319-353`). -/
def handleStatus (w : World) (s : St) (m : Msg) : Run :=
  if m.status = 100 then ⟨transition s .proceeding, .go⟩
  else if m.status = 180 ∨ m.status = 183 then ⟨transition s .ringing, .go⟩
  else if m.status = 200 then handleOK s m
  else if m.status = 503 then
    match s.req with
    | .invite => nextRoute w s
    | _ => s.fail (.response m)
  else if m.status = 301 ∨ m.status = 302 then redirect w s m
  else if m.status > 200 then s.fail (.response m)
  else ⟨s, .go⟩

/-- `dialog/dialog.go:314-318`. -/
def settle (s : St) (m : Msg) : Run :=
  let s := { s with routes := [], requestTimer := false }
  if m.status ≤ 200 then checkSDP s m else ⟨s, .go⟩

/-- `handleResponse` (`dialog/dialog.go:300-354`). -/
def handleResponse (w : World) (s : St) (m : Msg) : Run :=
  match s.cur with
  | none => ⟨s, .crash⟩
  | some cur =>
    if responseMatch cur m then
      ((ackFinal w s m cur).andThen fun s => settle s m).andThen fun s => handleStatus w s m
    else ⟨s, .go⟩

/-- `sendResponse` (`dialog/dialog.go:444-449`). -/
def sendResponse (w : World) (s : St) (m : Msg) : Run :=
  sendRsp w { s with response := some m, responseResends := 0, responseTimer := true }

/-- The switch of `handleRequest` (`dialog/dialog.go:373-392`). -/
def handleMethod (w : World) (s : St) (m : Msg) : Run :=
  if m.method = b!"BYE" then
    (sendNew w s (newResponse m 200)).andThen fun s => ⟨transition s .hangup, .stop⟩
  else if m.method = b!"OPTIONS" then sendNew w s (newResponse m 200)
  else if m.method = b!"INVITE" then
    (checkSDP { s with remote := some m } m).andThen fun s => sendResponse w s (newResponse m 200)
  else if m.method = b!"ACK" then ⟨{ s with response := none, responseTimer := false }, .go⟩
  else sendNew w s (newResponse m 405)

/-- `handleRequest` (`dialog/dialog.go:356-393`). -/
def handleRequest (w : World) (s : St) (m : Msg) : Run :=
  if m.maxForwards ≤ 0 then
    (sendNew w s (newResponse m 483)).andThen fun s => s.fail .remoteLoop
  else if s.rseq ≠ 0 ∧ m.cseq < s.rseq then sendNew w s (newResponse m 500)
  else handleMethod w { s with rseq := m.cseq } m

/-- `handleMessage` (`dialog/dialog.go:281-298`). -/
def handleMessage (w : World) (s : St) (m : Msg) : Run :=
  match s.cur with
  | none => ⟨s, .crash⟩
  | some cur =>
    if m.versionMajor ≠ 2 ∨ m.versionMinor ≠ 0 then
      (sendNew w s (newResponse m 505)).andThen fun s => s.fail .strangeVersion
    else if m.callID ≠ cur.callID then sendNew w s (newResponse m 481)
    else if m.isResponse then handleResponse w s m
    else handleRequest w s m

/-- `resendRequest` (`dialog/dialog.go:424-441`). -/
def resendRequest (w : World) (s : St) : Run :=
  match s.cur with
  | none => ⟨s, .go⟩
  | some _ =>
    if s.requestResends < w.maxResends then
      (sendCur w s).andThen fun s =>
        ⟨{ s with requestResends := s.requestResends + 1, requestTimer := true }, .go⟩
    else match s.sock with
      | none => ⟨s, .crash⟩
      | some _ => nextRoute w s

/-- `resendResponse` (`dialog/dialog.go:451-469`). -/
def resendResponse (w : World) (s : St) : Run :=
  match s.response with
  | none => ⟨s, .go⟩
  | some _ =>
    if s.responseResends < w.maxResends then
      (sendRsp w s).andThen fun s =>
        ⟨{ s with responseResends := s.responseResends + 1, responseTimer := true }, .go⟩
    else match s.sock with
      | none => ⟨s, .crash⟩
      | some _ => nextRoute w s

/-- `sendHangup` (`dialog/dialog.go:471-486`). The default case cannot happen. -/
def sendHangup (w : World) (s : St) : Run :=
  match s.state with
  | .proceeding | .ringing => sendCancel w s
  | .answered =>
    match s.remote with
    | none => ⟨s, .crash⟩
    | some remote =>
      match newBye s.invite remote (some s.lseq) with
      | .ok (m, n) => sendOther w { s with lseq := n } m
      | _ => ⟨s, .crash⟩
  | .hangup => ⟨s, .crash⟩

/-- What the `select` statement of `run` can choose (`dialog/dialog.go:110-148`). -/
inductive Event where
  | sockErr (refused : Bool) (e : Nat)
  | csockErr (e : Nat)
  | requestTimer
  | responseTimer
  | msg (m : Msg)
  | hangup

/-- One turn of the loop of `run` (`dialog/dialog.go:109-149`). An event that cannot happen, because the
socket does not exist or the timer is not running, changes nothing. -/
def step (w : World) (s : St) : Event → Run
  | .sockErr refused e =>
    if s.sock.isNone then ⟨s, .go⟩
    else if refused then ⟨{ s with sock := none }, .crash⟩  -- `dls.sock.RemoteAddr()`, line 115
    else { s with sock := none }.fail (.net e)
  | .csockErr e =>
    if s.csock.isNone then ⟨s, .go⟩ else { s with csock := none }.fail (.net e)
  | .requestTimer => if s.requestTimer then resendRequest w { s with requestTimer := false } else ⟨s, .go⟩
  | .responseTimer => if s.responseTimer then resendResponse w { s with responseTimer := false } else ⟨s, .go⟩
  | .msg m => if s.sock.isNone && s.csock.isNone then ⟨s, .go⟩ else handleMessage w s m
  | .hangup => sendHangup w s

/-- `cleanup` (`dialog/dialog.go:493-517`): the receivers of the two sockets are waited for, then the channels
are closed. -/
def cleanup (w : World) (s : St) : Run :=
  if s.sock.isSome && !w.frees s.tick then ⟨{ s with sock := none }, .stuck⟩
  else if s.csock.isSome && !w.frees (s.tick + 1) then ⟨{ s with sock := none, csock := none }, .stuck⟩
  else ⟨{ s with sock := none, csock := none }.out .closed, .stop⟩

/-- The loop, until it is left or the events are used up. -/
def loop (w : World) : List Event → Run → Run
  | [], r => r
  | ev :: evs, r => loop w evs (r.andThen fun s => step w s ev)

/-- `NewDialog(invite)` (`dialog/dialog.go:83-102`) and the life of its goroutine `run`
(`dialog/dialog.go:104-150`). -/
def start (w : World) (invite : Msg) : Run := sendInvite w { invite := invite }

@[inherit_doc start] def dialog (w : World) (invite : Msg) (evs : List Event) : Run :=
  let r := loop w evs (start w invite)
  match r.c with
  | .stop => cleanup w r.s
  | _ => r

end Gosip.Dialog
