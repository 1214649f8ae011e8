import Verif.Props.CallEnd
import Verif.Props.Handshake
import Verif.Dialog.Closing

/-!
# Property C48: what is closed when a call ends

`dialog w invite evs` is the whole life of a dialog. `w.frees` says, whenever the dialog closes a socket, whether the
receiver of that socket has a message to deliver then: this decides whether the wait for it ends, by `C48_wait_ends` and
`C48_wait_blocks`.
-/

namespace Gosip.Props
open Sip Spec Dialog

/-- **C48** (missing: receivers without a message to deliver, see `C48_never_closed`). When a dialog has ended, its sockets
are closed, and its channels are closed as the last thing it does. -/
theorem C48_closed_partial (w : World) (invite : Msg) (evs : List Event) (h : (loop w evs (start w invite)).c = .stop)
    (hf : ∀ n, w.frees n = true) :
    (dialog w invite evs).c = .stop ∧ (dialog w invite evs).s.sock = none ∧ (dialog w invite evs).s.csock = none ∧
    ∃ l, (dialog w invite evs).s.outs = l ++ [.closed] ∧ .closed ∉ l := by
  have ht := tells_loop w invite evs
  have hd : dialog w invite evs = cleanup w (loop w evs (start w invite)).s := by
    unfold dialog; simp only [h]
  have hc : cleanup w (loop w evs (start w invite)).s =
      ⟨{ (loop w evs (start w invite)).s with sock := none, csock := none }.out .closed, .stop⟩ := by
    unfold cleanup
    simp [hf]
  rw [hd, hc]
  refine ⟨rfl, rfl, rfl, (loop w evs (start w invite)).s.outs, rfl, ?_⟩
  rcases ht with ⟨k, _⟩ | ⟨_, l, o, h1, h2, h3⟩
  · exact absurd h k
  · have h1 : (loop w evs (start w invite)).s.outs = [] ++ l ++ [o] := h1
    rw [h1]
    simp only [List.nil_append, List.mem_append, List.mem_singleton, not_or]
    refine ⟨fun hm => (h2 _ hm).2 rfl, fun e => ?_⟩
    rw [← e] at h3; cases h3

/-- **C48** (second case). The same, whatever the receivers do, when the call ended because the only socket of the dialog
failed. -/
theorem C48_closed_failed_partial (w : World) (invite : Msg) (evs : List Event) (e : Nat)
    (hg : (loop w evs (start w invite)).c = .go) (hs : (loop w evs (start w invite)).s.sock ≠ none)
    (hc : (loop w evs (start w invite)).s.csock = none) :
    (dialog w invite (evs ++ [.sockErr false e])).c = .stop ∧
    ∃ l, (dialog w invite (evs ++ [.sockErr false e])).s.outs = l ++ [.err (.net e), .closed] := by
  have hl : loop w (evs ++ [.sockErr false e]) (start w invite) =
      { (loop w evs (start w invite)).s with sock := none }.fail (.net e) := by
    rw [loop_snoc]
    unfold Run.andThen
    rw [hg]
    simp only [step]
    rw [if_neg (by cases h : (loop w evs (start w invite)).s.sock with
      | none => exact absurd h hs
      | some c => simp)]
    simp
  unfold dialog
  rw [hl]
  simp only [St.fail]
  unfold cleanup
  simp only [St.out, hc]
  simp

/-- **C48 is false.** A call that ended with "hangup", by a BYE of either side or a CANCEL, during which nothing arrives
after the last message: the channels are never closed, and the dialog waits for ever. -/
theorem C48_never_closed (w : World) (invite : Msg) (evs : List Event) (hi : IsInvite invite)
    (hid : ∀ n, (w.ids n).callID ≠ []) (hf : ∀ n, w.frees n = false)
    (hh : .hangup ∈ published (dialog w invite evs).s.outs) :
    (dialog w invite evs).c = .stuck ∧ .closed ∉ (dialog w invite evs).s.outs := by
  obtain ⟨p, q, hpq⟩ := List.append_of_mem hh
  obtain ⟨rfl, hst, _⟩ := C46_hangup_last w invite evs p q hpq
  rw [published_dialog] at hpq
  have hstate : (loop w evs (start w invite)).s.state = .hangup := by
    have := (shown_loop w invite evs).last
    rw [hpq] at this
    simpa using this.symm
  obtain ⟨c, hs⟩ := hangup_sock hi hid evs hstate
  have hd : dialog w invite evs = cleanup w (loop w evs (start w invite)).s := by
    unfold dialog; simp only [hst]
  have hc : cleanup w (loop w evs (start w invite)).s = ⟨{ (loop w evs (start w invite)).s with sock := none }, .stuck⟩ := by
    unfold cleanup
    rw [if_pos (by rw [hs, hf]; rfl)]
  rw [hd, hc]
  refine ⟨rfl, ?_⟩
  rcases tells_loop w invite evs with ⟨k, _⟩ | ⟨_, l, o, h1, h2, h3⟩
  · exact absurd hst k
  · have h1 : (loop w evs (start w invite)).s.outs = [] ++ l ++ [o] := h1
    dsimp only
    rw [h1]
    simp only [List.nil_append, List.mem_append, List.mem_singleton, not_or]
    refine ⟨fun hm => (h2 _ hm).2 rfl, fun e => ?_⟩
    rw [← e] at h3; cases h3

/-- The hypotheses can be met: the other side hangs up, or does not accept the call. -/
example : (loop demoWorld [demoRsp [] 200, demoReq b!"BYE" 1] (start demoWorld demoInvite)).c = .stop ∧
    .hangup ∈ published (dialog demoIdle demoInvite [demoRsp [] 200, demoReq b!"BYE" 1]).s.outs ∧
    (loop demoIdle [demoRsp [] 200] (start demoIdle demoInvite)).c = .go ∧
    (dialog demoIdle demoInvite [demoRsp [] 200, .sockErr false 5]).s.outs.getLast? = some .closed := by
  decide +kernel

end Gosip.Props
