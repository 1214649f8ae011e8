import Verif.Spec.Exchange

/-!
# Specification: requests of the other program

A call goes on between the caller, who runs a dialog, and another program, which runs a transport. The other program may
send requests of its own, above all the BYE.
-/

namespace Gosip.Spec
open Sip Dialog

/-- A request of the other program within the call, as its transport writes it: it can be written and read, has one Via
with a branch, goes to the caller directly, and is a request of the call. -/
structure FromPeer (gen callID : Bytes) (req : Msg) : Prop where
  ok : MsgOK gen req
  request : req.status ≤ 0
  via : ∃ v b, req.via = [v] ∧ ParamIs v.param b!"branch" b
  cseqMethod : req.cseqMethod = req.method
  version : req.versionMajor = 0 ∨ req.versionMajor = 2 ∧ req.versionMinor = 0
  direct : req.addrs .route = []
  call : req.callID = callID

/-- The other program hears this: an answer with this status to its request, which it knows to be one. -/
def Understood (req : Msg) (status : Int) (datagram : Bytes) : Prop :=
  ∀ (e : Ear) (source : UDPAddr), ∃ ans, Hears e datagram source ans ∧ Answers req ans ∧ ans.status = status ∧
    ans.callID = req.callID ∧ (ans.versionMajor = 2 ∧ ans.versionMinor = 0) ∧
    ans.addrs .from = req.addrs .from ∧ ans.addrs .to = req.addrs .to

/-- The other program hears an answer with this status, and does not know that it answers its request. -/
def Misunderstood (req : Msg) (status : Int) (datagram : Bytes) : Prop :=
  ∀ (e : Ear) (source : UDPAddr), ∃ ans, Hears e datagram source ans ∧ ¬ Answers req ans ∧ ans.status = status ∧
    ans.callID = req.callID

/-- The status due for a request in order. -/
def due (method : Bytes) : Int :=
  if method = b!"BYE" ∨ method = b!"OPTIONS" ∨ method = b!"INVITE" then 200 else 405

end Gosip.Spec
