import Verif.Spec.Redirect
import Verif.Spec.Report

/-!
# Specification of the destinations of a call
-/

namespace Gosip.Spec
open Sip Dialog

/-- What a request of a call is meant for, before routing: its method, whether the records of the domain are to be asked
for, its target and its route set. `invite` is the request given to `NewDialog`, `seen` the messages that arrived.

* The first INVITE goes to the target and along the route the application has given.
* After a redirection the INVITE goes to the address in the Contact of the redirection, along no route
  (RFC 3261 section 8.1.3.4).
* The BYE goes to the Contact of the other side, along the proxies that have recorded themselves, the last one first
  (RFC 3261 section 12.1.2). -/
inductive Asked (invite : Msg) (seen : Msg → Prop) : Bytes → Bool → Option URI → List Addr → Prop where
  | first : Asked invite seen b!"INVITE" true invite.request (invite.addrs .route)
  | moved {m a l} (srv : Bool) : seen m → (m.status = 301 ∨ m.status = 302) → m.addrs .contact = a :: l →
      Asked invite seen b!"INVITE" srv a.uri []
  | bye {m a l} : seen m → Introduces (.msg m) → m.addrs .contact = a :: l →
      Asked invite seen b!"BYE" false a.uri (m.addrs .recordRoute).reverse

/-- The request is one of the call and carries the request URI and the route set that routing gives it; `addrs` are the
addresses of its next hop. -/
def Towards (w : World) (invite : Msg) (seen : Msg → Prop) (m : Msg) (addrs : List Bytes) : Prop :=
  ∃ srv target route host port n, Asked invite seen m.method srv target route ∧
    NextHop ({ request := target } : Msg) route m.request (m.addrs .route) (host, port) ∧
    (routeAddress (w.resolver n) host port srv).2 = .ok addrs

/-- The request was sent to one of the addresses of its next hop. -/
def SentRight (w : World) (invite : Msg) (seen : Msg → Prop) (dest : Bytes) (m : Msg) : Prop :=
  ∃ addrs a c, Towards w invite seen m addrs ∧ a ∈ addrs ∧ Reaches w a c ∧ dest = c.remote

end Gosip.Spec
