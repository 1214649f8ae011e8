import Verif.Props.CallReport
import Verif.Dialog.Local

/-!
# Property C59: a socket that fails is reported

The errors the sockets of a dialog report, except a refusal (`C52_refused`), reach the application.
-/

namespace Gosip.Props
open Sip Spec Dialog

/-- **C59.** When the socket towards the other side fails, the call is over and the application is told this error. -/
theorem C59_socket_failed (w : World) (invite : Msg) (evs : List Event) (e : Nat) (hi : IsInvite invite)
    (hid : ∀ n, (w.ids n).callID ≠ []) (hg : (loop w evs (start w invite)).c = .go) :
    (loop w (evs ++ [.sockErr false e]) (start w invite)).c = .stop ∧
    (loop w (evs ++ [.sockErr false e]) (start w invite)).s.outs =
      (loop w evs (start w invite)).s.outs ++ [.err (.net e)] := by
  obtain ⟨c, hs⟩ := (alive_dialog hi hid hg).sock
  rw [loop_snoc, Run.andThen_of_go hg]
  simp only [step, hs]
  exact ⟨rfl, rfl⟩

/-- **C59.** The same for the second socket of a dialog that permits messages from other servers, which it has if it
could be opened. -/
theorem C59_second_socket_failed (w : World) (invite : Msg) (evs : List Event) (e : Nat) (hi : IsInvite invite)
    (hid : ∀ n, (w.ids n).callID ≠ []) (hg : (loop w evs (start w invite)).c = .go) (hl : w.loose = true)
    (ho : ∀ n, w.listen n ≠ none) :
    (loop w (evs ++ [.csockErr e]) (start w invite)).c = .stop ∧
    (loop w (evs ++ [.csockErr e]) (start w invite)).s.outs =
      (loop w evs (start w invite)).s.outs ++ [.err (.net e)] := by
  obtain ⟨c, hs⟩ := (alive_dialog hi hid hg).sock
  have h := (tied_loop evs _ (tied_start w invite (isOwn_invite hi))).1.both
  rw [if_pos hg] at h
  cases hc : (loop w evs (start w invite)).s.csock with
  | none =>
    rcases h hc with h | h
    · rw [show (loop w evs (start w invite)).s.sock = none from h] at hs; cases hs
    · obtain ⟨n, hn⟩ := h hl
      exact absurd hn (ho n)
  | some p =>
    rw [loop_snoc, Run.andThen_of_go hg]
    simp only [step, hc]
    exact ⟨rfl, rfl⟩

/-- **C59.** A dialog that does not permit them has no second socket, so none that could fail. -/
theorem C59_no_second_socket (w : World) (invite : Msg) (evs : List Event) (e : Nat) (hi : IsInvite invite)
    (hl : w.loose = false) :
    loop w (evs ++ [.csockErr e]) (start w invite) = loop w evs (start w invite) := by
  have h := (tied_loop evs _ (tied_start w invite (isOwn_invite hi))).1.csock
  rw [loop_snoc]
  cases hc : (loop w evs (start w invite)).s.csock with
  | some p => have := (h p hc).1; rw [hl] at this; cases this
  | none =>
    generalize loop w evs (start w invite) = r at hc
    obtain ⟨s, c⟩ := r
    cases c <;> simp only [Run.andThen, step]
    rw [show s.csock = none from hc]
    rfl

/-- A world with a second socket. -/
private def demoLoose : World := { demoWorld with loose := true, listen := fun _ => some 5080 }

/-- The hypotheses of these theorems can be met. -/
example : (loop demoLoose [demoRsp [] 180] (start demoLoose demoInvite)).c = .go ∧
    (loop demoLoose [demoRsp [] 180] (start demoLoose demoInvite)).s.csock = some 5080 ∧
    errors (loop demoLoose [demoRsp [] 180, .csockErr 5] (start demoLoose demoInvite)).s.outs = [.net 5] ∧
    errors (demo [demoRsp [] 180, .sockErr false 5]).s.outs = [.net 5] := by
  decide +kernel

end Gosip.Props
