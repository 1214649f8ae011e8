import Verif.Spec.Exchange

/-!
# Specification: calls made with a transport alone

A program that does without the dialog builds its requests with `NewRequest`, `NewAck` and `NewBye` and hands them to
`Transport.Send`. What it and the operating system must provide so that the other program can read them.
-/

namespace Gosip.Spec
open Sip Dialog

/-- Random texts are words, numbers are not negative. -/
structure GoodIds (ids : Ids) : Prop where
  callID : CallIDText ids.callID
  branch : ∀ c ∈ ids.branch, token c
  tag : ∀ c ∈ ids.tag, token c
  cseq : 0 ≤ ids.cseq ∧ ids.cseq < 2 ^ 63

/-- A transport whose Via and Contact can be written and read, and what `Send` draws at random. -/
structure Carrier (env : SendEnv) (tp : Transport) : Prop where
  ids : GoodIds env.ids
  origin : env.origin ≠ []
  via : ∀ v ∈ tp.via, ViaOK v
  contact : ∀ a ∈ tp.contact, AddrOK (addrSeen a)

/-- A request given by the application that can be written and read; `From`, `To`, `Call-ID`, the method of `CSeq`, the Via,
the Contact and schemes may be left out. `gen` is the identifier for a session description without one. -/
structure Portable (gen : Bytes) (m : Msg) : Prop where
  status : m.status ≤ 0
  method : IsToken m.method
  request : ∃ u, m.request = some u ∧ URIText (withScheme u).text (withScheme u)
  maxForwards : 0 ≤ m.maxForwards ∧ m.maxForwards < 2 ^ 63
  via : ∀ v ∈ m.via, ViaOK v
  addrs : ∀ f, ∀ a ∈ m.addrs f, AddrOK (addrSeen a)
  callID : m.callID = [] ∨ CallIDText m.callID
  cseq : 0 ≤ m.cseq ∧ m.cseq < 2 ^ 63
  cseqMethod : m.cseqMethod = [] ∨ IsToken m.cseqMethod
  expires : 0 ≤ m.expires ∧ m.expires < 2 ^ 63
  minExpires : 0 ≤ m.minExpires ∧ m.minExpires < 2 ^ 63
  hdr : ∀ f, f ≠ .acceptContact → TextOK (m.hdr f)
  xheader : ∀ p ∈ m.xheader, IsName p.1 ∧ headerOf p.1 = none ∧ ¬ StubName p.1 ∧ TextOK p.2
  payload : ∀ p, m.payload = some p → PayloadOK gen (bodySeen gen p)

/-- The one Via a request goes out with: its own, or that of the transport. -/
def OneVia (tp : Transport) (m : Msg) (v : Via) : Prop := (if m.via = [] then tp.via else m.via) = [v]

/-- The called program gets the request that was sent as `x`, and hears in it the ACK or BYE of the call `first` begins. -/
structure SameCall (first x : Msg) (method : Bytes) (seq : Int) : Prop where
  method : x.method = method ∧ x.cseqMethod = method ∧ x.status = 0
  callID : x.callID = first.callID
  cseq : x.cseq = seq
  parties : x.addrs .from = (first.addrs .from).map addrSeen ∧ x.addrs .to = (first.addrs .to).map addrSeen

end Gosip.Spec
