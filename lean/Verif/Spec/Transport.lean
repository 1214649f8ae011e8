import Verif.Spec.Dialog
import Verif.Dialog.Receive

/-!
# Specification of what a transport sends and delivers
-/

namespace Gosip.Spec
open Sip Dialog

/-- What `after` has that `before` lacked comes from where RFC 3261 section 8.1.1 says: the transport's Via and Contact,
the request URI as To, the Contact without URI parameters as From, freshly generated identifiers, the method, 70 and the
product name. Nothing else is added. -/
structure FilledFrom (ids : Ids) (via : List Via) (contact : List Addr) (before after : Msg) : Prop where
  via : ∃ v l p, (if before.via = [] then via else before.via) = v :: l ∧ after.via = { v with param := p } :: l ∧
    ((∃ b, ParamIs v.param b!"branch" b) ∧ p = v.param ∨
      NoParam v.param b!"branch" ∧ p = (b!"branch", ids.branch) :: v.param)
  contact : before.addrs .contact = [] → after.addrs .contact = contact
  to : before.addrs .to = [] → after.addrs .to = [{ uri := before.request }]
  from' : before.addrs .from = [] → ∃ c u l p, after.addrs .contact = c :: l ∧ c.uri = some u ∧
    after.addrs .from = { uri := some { u with param := [] }, param := p } :: l.map bare ∧
    ((∃ t, ParamIs c.param b!"tag" t) ∧ p = c.param ∨ NoParam c.param b!"tag" ∧ p = (b!"tag", ids.tag) :: c.param)
  tag : ∀ a l, before.addrs .from = a :: l → NoParam a.param b!"tag" →
    after.addrs .from = { a with param := (b!"tag", ids.tag) :: a.param } :: l
  callID : before.callID = [] → after.callID = ids.callID
  cseq : before.cseq = 0 → after.cseq = ids.cseq
  cseqMethod : before.cseqMethod = [] → after.cseqMethod = before.method
  maxForwards : before.maxForwards = 0 → after.maxForwards = 70
  userAgent : before.hdr .userAgent = [] → after.hdr .userAgent = b!"slytherin/1.o"
  noMore : (∀ f, f ≠ .contact → f ≠ .to → f ≠ .from → after.addrs f = before.addrs f) ∧
    (∀ f, f ≠ .userAgent → after.hdr f = before.hdr f) ∧
    after.versionMajor = before.versionMajor ∧ after.versionMinor = before.versionMinor ∧
    after.sourceAddr = before.sourceAddr

/-- The time stamp `ts` is put in front of the parameters of the top Via, if stamping is on. -/
def Timed (ts : Option Int) (m m' : Msg) : Prop :=
  ts = none ∧ m' = m ∨
  ∃ t v l, ts = some t ∧ m.via = v :: l ∧ m' = { m with via := { v with param := (b!"usi", itoa t) :: v.param } :: l }

/-- The text contains this line. -/
def HasLine (line text : Bytes) : Prop := ∃ pre post, text = pre ++ line ++ b!"\r\n" ++ post

/-- One hop less to go, if any are left. -/
def oneLess (n : Int) : Int := if 0 < n then n - 1 else n

/-- The URI names the host and port (default 5060) of the local socket. -/
def AtHome (host : Bytes) (port : UInt16) (u : URI) : Prop :=
  u.host = host ∧ (if u.port = 0 then 5060 else u.port) = port

/-- The parameters `p` of the Via `v` of a request that came from the port `port` (RFC 3581): `rport` is added, or given
its value, if the Via names another port, unless the sender has given it one. -/
inductive PortTold (port : UInt16) (v : Via) : Pairs → Prop where
  | same : v.port = port → PortTold port v v.param
  | added : v.port ≠ port → NoParam v.param b!"rport" → PortTold port v ((b!"rport", natDec port.toNat) :: v.param)
  | filled {newer n older} : v.port ≠ port → v.param = newer ++ (n, []) :: older → SameName n b!"rport" →
      NoParam newer b!"rport" → PortTold port v (newer ++ (n, natDec port.toNat) :: older)
  | kept {x} : v.port ≠ port → ParamIs v.param b!"rport" x → x ≠ [] → PortTold port v v.param

/-- `received` is put in front of the parameters `p` of a Via naming `host` if that is not the host `ip` the request came
from, unless the sender has put one there. -/
inductive HostTold (ip host : Bytes) (p : Pairs) : Pairs → Prop where
  | same : host = ip → HostTold ip host p p
  | added : host ≠ ip → NoParam p b!"received" → HostTold ip host p ((b!"received", ip) :: p)
  | kept {x} : host ≠ ip → ParamIs p b!"received" x → HostTold ip host p p

/-- The Vias of a request, once its source is noted in the top one (RFC 3261 section 18.2.1, RFC 3581). -/
def SourceNoted (addr : UDPAddr) (m m' : Msg) : Prop :=
  ∃ v l p q, m.via = v :: l ∧ PortTold addr.port v p ∧ HostTold addr.ip v.host p q ∧
    m' = { m with via := { v with param := q } :: l }

/-- The route set without the entry that led here. -/
def RouteHere (host : Bytes) (port : UInt16) (before after : List Addr) : Prop :=
  (∃ a u, a.uri = some u ∧ AtHome host port u ∧ before = a :: after) ∨
  ((∀ a u l, before = a :: l → a.uri = some u → ¬ AtHome host port u) ∧ after = before)

/-- The request URI and the route set as they are before a strict router (RFC 3261 section 16.4): if the request URI is
one that we have put in a Record-Route, the last route is the request URI meant. -/
def StrictUndone (host : Bytes) (port : UInt16) (request : Option URI) (route : List Addr) (request' : Option URI)
    (route' : List Addr) : Prop :=
  (∃ u a, request = some u ∧ LooseRoute u ∧ AtHome host port u ∧ route = route' ++ [a] ∧ request' = a.uri) ∨
  ((route = [] ∨ ∀ u, request = some u → ¬ (LooseRoute u ∧ AtHome host port u)) ∧ request' = request ∧ route' = route)

/-- The message `m'` delivered by a receiver at `host` and `port` for the message `m` that came from `addr`. -/
def Received (host : Bytes) (port : UInt16) (ts : Option Int) (addr : UDPAddr) (m m' : Msg) : Prop :=
  ∃ m1 m2 route request' route',
    (m.status ≤ 0 ∧ SourceNoted addr m m1 ∨ 0 < m.status ∧ m1 = m) ∧ Timed ts m1 m2 ∧
    RouteHere host port (m.addrs .route) route ∧ StrictUndone host port m.request route request' route' ∧
    m' = { m2 with request := request', addrs := setAt m.addrs .route route' }

end Gosip.Spec
