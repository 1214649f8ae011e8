import Verif.Spec.Call

/-!
# The documented limits of a call (dialog/prefs.go:25-73)

The settings of `dialog/prefs.go` are variables which nothing in the library reads. What limits a call in their place is
Max-Forwards, of which every transmission of the INVITE uses up one.
-/

namespace Gosip.Spec
open Sip Dialog

/-- What is sent to set up the call: every transmission of the INVITE, first attempts and repetitions alike. -/
def invites (l : List Out) : List (Bytes × Msg) := (requests l).filter fun x => x.2.method == b!"INVITE"

/-- Where Max-Forwards starts: 70 when the application does not say. -/
def hops (invite : Msg) : Int := if invite.maxForwards = 0 then 70 else invite.maxForwards

/-- The documented maximum of attempts (dialog/prefs.go:33-35). -/
def maxAttempts : Nat := 10

/-- The documented maximum of the length of a message (dialog/prefs.go:29-31). -/
def mtu : Nat := 1450

end Gosip.Spec
