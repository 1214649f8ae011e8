import Verif.Spec.RoundTrip
import Verif.Spec.Local
import Verif.Sdp.New

/-!
# Specification: calls whose messages can be read

What the application, the other side and the operating system must provide so that all that a call sends can be written
and read; and what the reader sees.
-/

namespace Gosip.Spec
open Sip Dialog

/-- A scheme that is left out is `sip`. -/
def withScheme (u : URI) : URI := if u.scheme = [] then { u with scheme := b!"sip" } else u

/-- The address as the reader sees it. -/
def addrSeen (a : Addr) : Addr := { a with uri := a.uri.map withScheme }

/-- The body as the reader sees it: blanks of a session description are filled in (C22). -/
def bodySeen (gen : Bytes) : Payload → Payload
  | .sdp d => .sdp (d.filled gen)
  | .misc t x => .misc t x

/-- The message with the schemes of its URIs and a session description without blanks. -/
def seen (gen : Bytes) (m : Msg) : Msg :=
  { m with
    request := m.request.map withScheme
    addrs := fun f => (m.addrs f).map addrSeen
    payload := m.payload.map (bodySeen gen) }

/-- The text is read as the message: `gen` is the identifier for a session description without one. -/
def ReadsAs (w : World) (m : Msg) (x : Bytes) : Prop :=
  ∃ n, parseMsg x = .ok (readBack (seen (w.origin n) m))

/-- Random texts are words, and sockets have names or IPv4 addresses in lower case. -/
structure PlainWorld (w : World) : Prop where
  callID : ∀ n, CallIDText (w.ids n).callID
  branch : ∀ n, ∀ c ∈ (w.ids n).branch, token c
  tag : ∀ n, ∀ c ∈ (w.ids n).tag, token c
  cseq : ∀ n, 0 ≤ (w.ids n).cseq
  host : ∀ c, Socket w c → HostOK c.lhost ∧ ∀ b ∈ c.lhost, viaHostc b
  origin : ∀ n, w.origin n ≠ []

/-- A body that can be written and read, a session description however its missing addresses are filled in. -/
def BodyFits (w : World) : Payload → Prop
  | .sdp d => ∀ d', FilledIn w d d' → ∀ n, PayloadOK (w.origin n) (.sdp (d'.filled (w.origin n)))
  | .misc t x => PayloadOK [] (.misc t x)

/-- A request given by the application that can be written and read; `From`, `To`, `Call-ID`, the method of `CSeq` and
schemes may be left out. -/
structure Writable (w : World) (m : Msg) : Prop where
  status : m.status ≤ 0
  method : IsToken m.method
  request : ∃ u, m.request = some u ∧ URIText (withScheme u).text (withScheme u)
  maxForwards : 0 ≤ m.maxForwards ∧ m.maxForwards < 2 ^ 63
  via : ∀ v ∈ m.via, ViaOK v
  addrs : ∀ f, ∀ a ∈ m.addrs f, AddrOK (addrSeen a)
  callID : m.callID = [] ∨ CallIDText m.callID
  cseq : 0 ≤ m.cseq
  cseqMethod : m.cseqMethod = [] ∨ IsToken m.cseqMethod
  expires : 0 ≤ m.expires ∧ m.expires < 2 ^ 63
  minExpires : 0 ≤ m.minExpires ∧ m.minExpires < 2 ^ 63
  hdr : ∀ f, f ≠ .acceptContact → TextOK (m.hdr f)
  xheader : ∀ p ∈ m.xheader, IsName p.1 ∧ headerOf p.1 = none ∧ ¬ StubName p.1 ∧ TextOK p.2
  payload : ∀ p, m.payload = some p → BodyFits w p

end Gosip.Spec
