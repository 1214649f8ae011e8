import Verif.Spec.Exchange
import Verif.Spec.Redirect

/-!
# Specification: a call from beginning to end
-/

namespace Gosip.Spec
open Sip Dialog

/-- When the call is up, `u` leads to the network address `a`, which can be dialled at any time. -/
structure LeadsTo (w : World) (u : URI) (a : Bytes) : Prop where
  first : ∀ n, ∃ l, (routeAddress (w.resolver n) u.host u.port false).2 = .ok (a :: l)
  dial : ∀ n, w.dial n a ≠ none

/-- The message says where its sender is to be reached: directly, without proxies that want to be on the way, and at an
address that can be dialled. -/
def SaysWhere (w : World) (m : Msg) (u : URI) : Prop :=
  m.addrs .recordRoute = [] ∧ (∃ c more, m.addrs .contact = c :: more ∧ c.uri = some u) ∧ ∃ a, LeadsTo w u a

/-- The operating system does its part: all writes succeed, the second socket can be opened if there is to be one, and a
receiver always has something to deliver when its socket is given up. -/
structure WellServed (w : World) : Prop where
  write : ∀ n, w.write n = .ok ()
  listen : w.loose = false ∨ ∀ n, w.listen n ≠ none
  frees : ∀ n, w.frees n = true

/-- A request to hang up, addressed to `u`. -/
def IsBye (m : Msg) (u : URI) : Prop := m.status = 0 ∧ m.method = b!"BYE" ∧ m.request = some u

end Gosip.Spec
