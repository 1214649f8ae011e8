import Verif.Spec.Call

/-!
# Specification of the local addresses in requests

A request tells the other side where to send responses (the first Via), further requests (Contact) and audio (the
session description). What it says must be true of a socket that exists.
-/

namespace Gosip.Spec
open Sip Dialog

/-- The operating system returned this socket. -/
def Socket (w : World) (c : Conn) : Prop := ∃ n a, w.dial n a = some c

/-- The text is the local address of a socket. -/
def LocalHost (w : World) (h : Bytes) : Prop := ∃ c, Socket w c ∧ c.lhost = h

/-- Responses to the request are sent to the port of the socket. -/
def ViaNames (c : Conn) (m : Msg) : Prop := ∃ v more, m.via = v :: more ∧ v.port = c.lport

/-- Further requests are sent by UDP to the port of the socket; but if the program is told to have one (flag
`looseSignalling`) to the port of the socket for messages from everywhere, unless it could not be opened. -/
def ContactNames (w : World) (c : Conn) (m : Msg) : Prop :=
  ∃ a more u, m.addrs .contact = a :: more ∧ a.uri = some u ∧ (∃ t, ParamIs u.param b!"transport" t) ∧
    (u.port = c.lport ∧ (w.loose = true → ∃ n, w.listen n = none) ∨ w.loose = true ∧ ∃ n, w.listen n = some u.port)

/-- The host of the first Via. -/
def viaHost (m : Msg) : Option Bytes := m.via.head?.map fun v => v.host

/-- The host of the first Contact. -/
def contactHost (m : Msg) : Option Bytes := (m.addrs .contact).head?.bind fun a => a.uri.map fun u => u.host

/-- The Contact is the one given by the application, where the port is replaced and `transport=udp` is put in front unless
a transport is named, or it was made from the address of a socket. -/
def ContactGiven (w : World) (given : List Addr) (l : List Addr) : Prop :=
  ∀ a more u, l = a :: more → a.uri = some u →
    (∃ a0 u0, given = a0 :: more ∧ a0.uri = some u0 ∧ a = { a0 with uri := some u } ∧
      (u = { u0 with port := u.port } ∨
        (∀ t, ¬ ParamIs u0.param b!"transport" t) ∧
        u = { u0 with port := u.port, param := (b!"transport", b!"udp") :: u0.param })) ∨
    (∃ h, LocalHost w h ∧ more = [] ∧
      a = { uri := some { scheme := b!"sip", host := h, port := u.port, param := [(b!"transport", b!"udp")] } })

/-- A text is as given, or it was not given and is what `P` says (or still missing). -/
def Given (P : Bytes → Prop) (x y : Bytes) : Prop := y = x ∨ x = [] ∧ P y

/-- The session description `d` is `d0` with missing addresses and identifier filled in, and nothing else changed. -/
structure FilledIn (w : World) (d0 d : Sdp.SDP) : Prop where
  only : d = { d0 with addr := d.addr, origin := { d0.origin with addr := d.origin.addr, id := d.origin.id } }
  addr : Given (LocalHost w) d0.addr d.addr
  oaddr : Given (LocalHost w) d0.origin.addr d.origin.addr
  id : Given (fun x => ∃ n, w.origin n = x) d0.origin.id d.origin.id

/-- The body of an INVITE is the one given by the application, a session description filled in. -/
def BodyGiven (w : World) (p0 p : Option Payload) : Prop :=
  p = p0 ∨ ∃ d0 d, p0 = some (.sdp d0) ∧ p = some (.sdp d) ∧ FilledIn w d0 d

/-- Sockets have addresses, and identifiers are not empty. -/
def Speaks (w : World) : Prop := (∀ c, Socket w c → c.lhost ≠ []) ∧ ∀ n, w.origin n ≠ []

/-- A session description says where to send audio and who speaks. -/
def SdpComplete (d : Sdp.SDP) : Prop := d.addr ≠ [] ∧ d.origin.addr ≠ [] ∧ d.origin.id ≠ []

end Gosip.Spec
