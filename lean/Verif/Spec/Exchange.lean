import Verif.Spec.Readable
import Verif.Spec.Report
import Verif.Spec.Local
import Verif.Dialog.Receive

/-!
# Specification: a call between two programs that use the library

The caller runs a dialog, the called program a transport. What they exchange are texts.
-/

namespace Gosip.Spec
open Sip Dialog

/-- One who receives datagrams: host and port of their socket, and the clock if time stamps are on. -/
structure Ear where
  host : Bytes
  port : UInt16
  clock : Option Int

/-- The message that is delivered for a datagram. -/
def Hears (e : Ear) (datagram : Bytes) (source : UDPAddr) (m : Msg) : Prop :=
  receiveOne e.host e.port e.clock datagram source = .ok (some m)

/-- The answer to a request, as a program makes it: `NewResponse`, then it says where it is to be reached, and a body is
put in. -/
def answerTo (got : Msg) (status : Int) (contact : List Addr) (body : Option Payload) : Msg :=
  { newResponse got status with addrs := setAt (newResponse got status).addrs .contact contact, payload := body }

/-- What a program may put into its answer: addresses and a body that can be written and read. -/
structure GoodAnswer (env : SendEnv) (status : Int) (contact : List Addr) (body : Option Payload) : Prop where
  status : 100 ≤ status ∧ status ≤ 999
  contact : ∀ a ∈ contact, AddrOK a
  body : ∀ p, body = some p → PayloadOK env.origin p ∧ ∀ t, p ≠ .misc t []

/-- The called program gets the datagram `t` from `source`, answers it, and its transport hands `t'` to the socket for
`dest`. Datagrams longer than 2048 bytes would be cut off. -/
structure Exchange (callee : Ear) (tp : Transport) (env : SendEnv) (source : UDPAddr) (status : Int) (contact : List Addr)
    (body : Option Payload) (t t' dest : Bytes) : Prop where
  known : ∀ c ∈ source.ip, ip6c c
  good : GoodAnswer env status contact body
  answered : ∃ got, Hears callee t source got ∧ (tp.send env (answerTo got status contact body)).wire = some (t', dest)
  short : t.length ≤ 2048 ∧ t'.length ≤ 2048

/-- What the application and the operating system of the caller must provide: random texts and sockets as in
`Spec/Readable.lean`, and an INVITE that can be written, with at most one Via and no other method in CSeq. -/
structure Placed (w : World) (invite : Msg) : Prop where
  plain : PlainWorld w
  request : IsInvite invite
  writable : Writable w invite
  via : invite.via.length ≤ 1
  cseqMethod : invite.cseqMethod = [] ∨ invite.cseqMethod = b!"INVITE"

/-- All sockets of the caller are at port 5060, or none is. -/
def AllAt5060 (w : World) : Prop := ∀ c, Socket w c → c.lport = 5060

@[inherit_doc AllAt5060] def NoneAt5060 (w : World) : Prop := ∀ c, Socket w c → c.lport ≠ 5060

/-- The messages received so far can be written, and there are numbers left for the requests. -/
def Numbered (w : World) (invite : Msg) (evs : List Event) : Prop :=
  (∀ m, .msg m ∈ evs → ∃ gen, MsgOK gen m) ∧
  invite.cseq + evs.length + 1 < 2 ^ 63 ∧ ∀ n, (w.ids n).cseq + evs.length + 1 < 2 ^ 63

/-- The message is heard as the request `x`: with its method and numbers, the addresses of the parties and the body.
`gen` is the identifier for a session description without one. -/
structure HeardAs (gen : Bytes) (x got : Msg) : Prop where
  request : got.status = 0
  method : got.method = x.method
  callID : got.callID = x.callID
  cseq : got.cseq = x.cseq ∧ got.cseqMethod = x.cseqMethod
  addrs : ∀ f, f ≠ .route → got.addrs f = (x.addrs f).map addrSeen
  body : (∀ t, x.payload ≠ some (.misc t [])) → got.payload = x.payload.map (bodySeen gen)

end Gosip.Spec
