import Verif.Spec.Call

/-!
# The times at which a dialog does things

The dialog sets one timer for its requests: whenever it sends a request it calls `time.After` with the configured
interval. Here the events have times, and what is done in answer to an event happens at the time of the event.
-/

namespace Gosip.Spec
open Sip Dialog

/-- What happens from `r` on, with times. -/
def calendar (w : World) : Run → List (Nat × Event) → List (Nat × Out)
  | _, [] => []
  | r, (t, e) :: rest =>
    ((r.andThen fun s => step w s e).s.outs.drop r.s.outs.length).map (fun o => (t, o)) ++
      calendar w (r.andThen fun s => step w s e) rest

/-- Everything a dialog does, with times: it is begun at the time `t0`. -/
def timedOuts (w : World) (invite : Msg) (t0 : Nat) (evs : List (Nat × Event)) : List (Nat × Out) :=
  (start w invite).s.outs.map (fun o => (t0, o)) ++ calendar w (start w invite) evs

/-- The requests among them: time, destination and message. -/
def timedRequests (l : List (Nat × Out)) : List (Nat × Bytes × Msg) :=
  l.flatMap fun x => (requests [x.2]).map fun q => (x.1, q)

/-- The times are those of a clock, and the timer of the request does its duty: it goes off no sooner than
`interval` after the last request. -/
structure Clocked (interval : Nat) (w : World) (invite : Msg) (t0 : Nat) (evs : List (Nat × Event)) : Prop where
  order : (t0 :: evs.map Prod.fst).Pairwise (· ≤ ·)
  timer : ∀ pre t post, evs = pre ++ (t, .requestTimer) :: post →
    ∀ x, (timedRequests (timedOuts w invite t0 pre)).getLast? = some x → x.1 + interval ≤ t

/-- The timer is not late by more than `slack`. -/
def Prompt (interval slack : Nat) (w : World) (invite : Msg) (t0 : Nat) (evs : List (Nat × Event)) : Prop :=
  ∀ pre t post, evs = pre ++ (t, .requestTimer) :: post →
    ∀ x, (timedRequests (timedOuts w invite t0 pre)).getLast? = some x → t ≤ x.1 + (interval + slack)

/-- Something done by a dialog that no longer waits for an answer to the request `m`: it turns to an address, says
that nobody can be reached, or sends another request. -/
def Abandons (m : Msg) (o : Out) : Prop :=
  (∃ a, o = .dial a) ∨ (∃ d, o = .err (.failed d)) ∨
    ∃ q ∈ requests [o], ∀ b, HasBranch m b → ¬ HasBranch q.2 b

end Gosip.Spec
