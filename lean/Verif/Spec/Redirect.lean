import Verif.Spec.Local

/-!
# Specification of redirection and routing of calls
-/

namespace Gosip.Spec
open Sip Dialog

/-- `y` is the INVITE `x` tried again at the address `u` (RFC 3261 section 8.1.3.4): the same call, addressed to `u` and
not sent along the old route. The body and the other headers are the ones of `x`; Via and Contact are those of the new
attempt (see C58 and C65). -/
structure TriedAgain (x y : Msg) (u : URI) : Prop where
  method : y.method = b!"INVITE" ∧ y.status = x.status
  request : y.request = some u
  route : y.addrs .route = []
  callID : y.callID = x.callID
  cseq : y.cseq = x.cseq ∧ y.cseqMethod = x.cseqMethod
  from' : y.addrs .from = x.addrs .from
  to : y.addrs .to = x.addrs .to
  other : ∀ f, f ≠ .contact → f ≠ .to → f ≠ .from → f ≠ .route → y.addrs f = x.addrs f
  headers : y.hdr = x.hdr ∧ y.xheader = x.xheader
  forwards : y.maxForwards = x.maxForwards - 1

/-- The address `a` is reached through the socket `c`: it was dialled, or its remote address is `a` already. -/
def Reaches (w : World) (a : Bytes) (c : Conn) : Prop := c.remote = a ∨ ∃ n, w.dial n a = some c

/-- Nothing but (at most one) dialling. -/
def OnlyDials (l : List Out) : Prop := l = [] ∨ ∃ a, l = [.dial a]

end Gosip.Spec
