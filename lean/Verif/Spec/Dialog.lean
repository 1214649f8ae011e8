import Verif.Spec.Uri
import Verif.Sip.Msg

/-!
# Specification of message building, matching and routing

Written from RFC 3261 (sections 8.1.1, 8.2.6, 9.1, 12.2.1.1, 13.2.2.4, 16.4, 16.6, 16.12, 17.1.1.3,
17.1.3, 18.2.2), without reference to the functions of `dialog/`.
-/

namespace Gosip.Spec
open Sip

/-- Beyond the start line, Via, Call-ID and CSeq the message has only the address fields `as` and the text fields `hs`: no
body, no extension header, and no version but the default one. -/
structure Only (as : List AField) (hs : List SField) (m : Msg) : Prop where
  addrs : ∀ f, m.addrs f ≠ [] → f ∈ as
  hdr : ∀ f, m.hdr f ≠ [] → f ∈ hs
  rest : m.payload = none ∧ m.xheader = [] ∧ m.maxForwards = 0 ∧ m.expires = 0 ∧ m.minExpires = 0
  version : m.versionMajor = 0 ∧ m.versionMinor = 0

/-- The response `rsp` echoes what RFC 3261 section 8.2.6.2 wants echoed from the request, and contains
nothing else except its status, the default phrase, the server's product name and the methods it
allows: no body, no other header. -/
structure Echoes (req : Msg) (status : Int) (rsp : Msg) : Prop where
  status : rsp.status = status
  phrase : rsp.phrase ≠ []
  via : rsp.via = req.via
  fromTo : rsp.addrs .from = req.addrs .from ∧ rsp.addrs .to = req.addrs .to
  callID : rsp.callID = req.callID
  cseq : rsp.cseq = req.cseq ∧ rsp.cseqMethod = req.cseqMethod
  recordRoute : rsp.addrs .recordRoute = req.addrs .recordRoute
  noRequestLine : rsp.method = [] ∧ rsp.request = none
  product : rsp.hdr .userAgent = b!"slytherin/1.o" ∧ rsp.hdr .allow = b!"INVITE, ACK, CANCEL, BYE, OPTIONS"
  only : Only [.from, .to, .recordRoute] [.userAgent, .allow] rsp

/-- `ack` acknowledges the final response `rsp` (RFC 3261 sections 13.2.2.4 and 17.1.1.3, as this library
does it for every final response): same dialog and sequence number, top Via only, sent to the remote
target along the reversed record route, with the credentials of the INVITE. -/
structure Acknowledges (invite rsp ack : Msg) : Prop where
  method : ack.method = b!"ACK" ∧ ack.cseqMethod = b!"ACK" ∧ ack.status = 0
  target : ∃ c more, rsp.addrs .contact = c :: more ∧ ack.request = c.uri
  via : ∃ top more, rsp.via = top :: more ∧ ack.via = [top]
  fromTo : ack.addrs .from = rsp.addrs .from ∧ ack.addrs .to = rsp.addrs .to
  callID : ack.callID = rsp.callID
  cseq : ack.cseq = rsp.cseq
  route : ack.addrs .route = (rsp.addrs .recordRoute).reverse
  credentials : ack.hdr .authorization = invite.hdr .authorization ∧
    ack.hdr .proxyAuthorization = invite.hdr .proxyAuthorization
  only : Only [.from, .to, .route] [.authorization, .proxyAuthorization, .userAgent] ack

/-- `c` cancels the request `invite` (RFC 3261 section 9.1). -/
structure Cancels (invite c : Msg) : Prop where
  method : c.method = b!"CANCEL" ∧ c.cseqMethod = b!"CANCEL" ∧ c.status = 0
  request : c.request = invite.request
  via : c.via = invite.via
  fromTo : c.addrs .from = invite.addrs .from ∧ c.addrs .to = invite.addrs .to
  callID : c.callID = invite.callID
  cseq : c.cseq = invite.cseq
  route : c.addrs .route = invite.addrs .route
  only : Only [.from, .to, .route] [] c

/-- An address without its display name. -/
def bare (a : Addr) : Addr := { a with display := [] }

/-- `b` is a BYE inside the dialog of `invite` and `remote`, with sequence number `seq` (RFC 3261
section 12.2.1.1): sent to the remote target along the reversed record route. -/
structure Byes (invite remote : Msg) (seq : Int) (b : Msg) : Prop where
  method : b.method = b!"BYE" ∧ b.cseqMethod = b!"BYE" ∧ b.status = 0
  target : ∃ c more, remote.addrs .contact = c :: more ∧ b.request = c.uri
  fromTo : b.addrs .from = invite.addrs .from ∧ b.addrs .to = remote.addrs .to
  callID : b.callID = invite.callID
  cseq : b.cseq = seq
  route : b.addrs .route = (remote.addrs .recordRoute).reverse
  via : b.via = []
  only : Only [.from, .to, .route] [] b

/-- `m` starts a transaction and a dialog of its own (RFC 3261 section 8.1.1): a request `method` to `to` from `from'`, with
the Vias `vias` of the transport and new identifiers. Display names are left out. -/
structure Begins (callID branch tag : Bytes) (cseq : Int) (vias : List Via) (method : Bytes) (to from' : List Addr)
    (m : Msg) : Prop where
  method : m.method = method ∧ m.cseqMethod = method ∧ m.status = 0
  target : ∃ a l, to = a :: l ∧ m.request = a.uri
  via : ∃ v l, vias = v :: l ∧ m.via = { v with param := (b!"branch", branch) :: v.param } :: l
  from' : ∃ a l, from' = a :: l ∧ m.addrs .from = { bare a with param := (b!"tag", tag) :: a.param } :: l.map bare
  to : m.addrs .to = to.map bare
  callID : m.callID = callID
  cseq : m.cseq = cseq
  product : m.hdr .userAgent = b!"slytherin/1.o"
  only : Only [.from, .to] [.userAgent] m

/-- `rsp` is a response of the transaction of `req` (RFC 3261 section 17.1.3, seen from the client
that created the only Via): the last Via of the response is the one of the request. -/
def Answers (req rsp : Msg) : Prop :=
  0 < rsp.status ∧ rsp.cseq = req.cseq ∧ rsp.cseqMethod = req.method ∧
  ∃ more mine sent older, rsp.via = more ++ [mine] ∧ req.via = sent :: older ∧
    mine.host = sent.host ∧ mine.port = sent.port ∧
    ∃ branch, ParamIs mine.param b!"branch" branch ∧ ParamIs sent.param b!"branch" branch

/-- `ack` acknowledges the message `msg` (any branch will do): the last Via is that of `msg`. -/
def AckOf (msg ack : Msg) : Prop :=
  ack.status ≤ 0 ∧ ack.method = b!"ACK" ∧ ack.cseqMethod = b!"ACK" ∧ ack.cseq = msg.cseq ∧
  ∃ more mine sent older, ack.via = more ++ [mine] ∧ msg.via = sent :: older ∧ mine.host = sent.host ∧ mine.port = sent.port

/-- The port of a URI, with the default of its scheme. -/
def portOf (u : URI) : Nat :=
  if u.port ≠ 0 then u.port.toNat else if u.scheme = b!"sips" then 5061 else 5060

/-- The address names the same host and port as the contact. -/
def SameHost (contact a : Addr) : Prop :=
  ∃ u v, contact.uri = some u ∧ a.uri = some v ∧ u.host = v.host ∧ portOf u = portOf v

/-- `lr` is present in the URI. -/
def LooseRoute (u : URI) : Prop := ∃ v, ParamIs u.param b!"lr" v

/-- The route set without our own first entry. -/
def ForeignRoute (contact : Option Addr) (before after : List Addr) : Prop :=
  (∃ c a, contact = some c ∧ SameHost c a ∧ before = a :: after) ∨
  ((∀ c a l, contact = some c → before = a :: l → ¬ SameHost c a) ∧ after = before)

/-- Where a request goes (RFC 3261 sections 16.6 step 6, 16.12.1), `route` being the foreign route set:
the request URI and the route set it is sent with, and the next hop. -/
inductive NextHop (req : Msg) : List Addr → Option URI → List Addr → Bytes × UInt16 → Prop where
  | direct {u} : req.request = some u → NextHop req [] (some u) [] (u.host, u.port)
  | loose {a u l} : a.uri = some u → LooseRoute u →
      NextHop req (a :: l) req.request (a :: l) (u.host, u.port)
  | strict {a u l} : a.uri = some u → ¬ LooseRoute u →
      NextHop req (a :: l) (some u) (l.map bare ++ [{ uri := req.request }]) (u.host, u.port)

/-- The Via is ours. -/
def OwnVia (via : Option Via) (v : Via) : Prop := ∃ w, via = some w ∧ w.host = v.host ∧ w.port = v.port

/-- The remaining Vias of a response once our own is removed. -/
def ForeignVia (via : Option Via) (before after : List Via) : Prop :=
  (∃ v, OwnVia via v ∧ before = v :: after) ∨
  ((∀ v l, before = v :: l → ¬ OwnVia via v) ∧ after = before)

/-- The value of a parameter, or a default when there is none. -/
def ParamOr (l : List (Bytes × Bytes)) (name dflt v : Bytes) : Prop :=
  ParamIs l name v ∨ (NoParam l name ∧ v = dflt)

/-- A decimal number with an optional sign. -/
inductive IntText : Bytes → Int → Prop where
  | plain {s} : s ≠ [] → (∀ c ∈ s, isDig c) → IntText s (decVal s)
  | plus {s} : s ≠ [] → (∀ c ∈ s, isDig c) → IntText (b!"+" ++ s) (decVal s)
  | minus {s} : s ≠ [] → (∀ c ∈ s, isDig c) → IntText (b!"-" ++ s) (-(decVal s : Int))

/-- Where a response goes (RFC 3261 section 18.2.2, RFC 3581): `received` overrides the host of the top
Via, a non-empty `rport` its port. -/
def ResponseHop (v : Via) (host : Bytes) (port : UInt16) : Prop :=
  ParamOr v.param b!"received" v.host host ∧
  ((∃ s i, ParamIs v.param b!"rport" s ∧ IntText s i ∧ -2 ^ 63 ≤ i ∧ i < 2 ^ 63 ∧
      port = UInt16.ofInt i) ∨
   ((NoParam v.param b!"rport" ∨ ParamIs v.param b!"rport" []) ∧ port = v.port))

/-- A request can be sent: it has everything RFC 3261 section 8.1.1 makes mandatory. -/
structure Sendable (m : Msg) : Prop where
  via : ∃ v l b, m.via = v :: l ∧ ParamIs v.param b!"branch" b
  contact : m.addrs .contact ≠ []
  to : m.addrs .to ≠ []
  from' : ∃ a l t, m.addrs .from = a :: l ∧ ParamIs a.param b!"tag" t
  callID : m.callID ≠ []
  cseqMethod : m.method ≠ [] → m.cseqMethod ≠ []
  maxForwards : m.maxForwards ≠ 0
  userAgent : m.hdr .userAgent ≠ []

/-- `after` has everything of `before`: fields that were set are kept; a Via without branch and a From
without tag only gain that parameter. -/
structure Keeps (before after : Msg) : Prop where
  line : after.method = before.method ∧ after.request = before.request ∧ after.status = before.status
  via : ∀ v l, before.via = v :: l → ∃ p, after.via = { v with param := p } :: l ∧
    (p = v.param ∨ NoParam v.param b!"branch" ∧ ∃ b, p = (b!"branch", b) :: v.param)
  from' : ∀ a l, before.addrs .from = a :: l → ∃ p, after.addrs .from = { a with param := p } :: l ∧
    (p = a.param ∨ NoParam a.param b!"tag" ∧ ∃ t, p = (b!"tag", t) :: a.param)
  addrs : ∀ f, f ≠ .from → before.addrs f ≠ [] → after.addrs f = before.addrs f
  callID : before.callID ≠ [] → after.callID = before.callID
  cseq : before.cseq ≠ 0 → after.cseq = before.cseq
  cseqMethod : before.cseqMethod ≠ [] → after.cseqMethod = before.cseqMethod
  maxForwards : before.maxForwards ≠ 0 → after.maxForwards = before.maxForwards
  hdr : ∀ f, before.hdr f ≠ [] → after.hdr f = before.hdr f
  rest : after.payload = before.payload ∧ after.xheader = before.xheader ∧
    after.expires = before.expires ∧ after.minExpires = before.minExpires ∧
    after.phrase = before.phrase

end Gosip.Spec
