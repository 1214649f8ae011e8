import Verif.Fone.Main
import Verif.Spec.Call
import Verif.Spec.Report

/-!
# Specification of the phone
-/

namespace Gosip.Spec
open Sip Dialog Fone

/-- What the dialog tells the application: errors, states and media addresses. -/
def audible (l : List Out) : List Out :=
  l.filter fun
    | .state _ | .err _ | .peer _ _ => true
    | _ => false

/-- What the phone has heard from the dialog. -/
def heard (l : List Input) : List Out :=
  l.filterMap fun
    | .state c => some (.state c)
    | .err e => some (.err e)
    | .peer a p => some (.peer a p)
    | _ => none

/-- The phone reads one of the channels of the dialog after it was closed. -/
def PastEnd : Input → Prop
  | .noPeer | .noState | .noErr => True
  | _ => False

/-- The phone hears what a dialog tells it, in order (the channels have no buffer, so the dialog waits until each of its news
is taken), maybe not everything yet; it finds the channels closed only when it has
heard everything and they are closed. -/
structure Listens (ins : List Input) (outs : List Out) : Prop where
  order : heard ins <+: audible outs
  after : ∀ pre x post, ins = pre ++ x :: post → PastEnd x → .closed ∈ outs ∧ heard pre = audible outs

/-- The RTP socket of the phone works: no error comes from the session, and none of its channels is closed. -/
def RtpWorks (ins : List Input) : Prop := ∀ x ∈ ins, x ≠ .rtpErr ∧ x ≠ .noRtpErr ∧ x ≠ .audio none

/-- A turn in which the phone asks the dialog to hang up: a signal, or an error of its RTP session. -/
def asksHangup : Input → Bool
  | .death | .rtpErr => true
  | _ => false

/-- What the exit status should be, from what the dialog has told: 0 if the call was answered and has been hung up, 1 if it
failed or was hung up before it was answered. -/
def verdict (told : List Out) : Status :=
  if errors told ≠ [] then .exited 1
  else if .hangup ∈ published told then .exited (if .answered ∈ published told then 0 else 1)
  else .running

end Gosip.Spec
