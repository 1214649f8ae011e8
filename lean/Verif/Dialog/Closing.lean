import Verif.Dialog.Final
import Verif.Props.CallReply

/-!
# The socket at the end of a call
-/

namespace Gosip.Dialog
open Sip Spec

/-- A handler that ends the call with "hangup" keeps the socket. -/
def Keep (s : St) (r : Run) : Prop := r.s.state = .hangup → s.state = .hangup ∨ r.s.sock = s.sock

theorem Keep.of_net {s : St} {r : Run} (h : Net s r.s) : Keep s r := fun k => .inl (by rw [← h.state]; exact k)

theorem Keep.of_sock {s : St} {r : Run} (h : r.s.sock = s.sock) : Keep s r := fun _ => .inr h

theorem sendNew_sock (w : World) (s : St) (m : Msg) : (sendNew w s m).s.sock = s.sock := by
  unfold sendNew
  have h := send_res w s m
  generalize send w s m = x at h ⊢
  cases h <;> rfl

theorem ackFinal_sock (w : World) (s : St) (m cur : Msg) : (ackFinal w s m cur).s.sock = s.sock := by
  unfold ackFinal
  split
  · split
    · rfl
    · split
      · exact sendNew_sock w s _
      · rfl
  · rfl

theorem settle_sock (s : St) (m : Msg) : (settle s m).s.sock = s.sock := by
  unfold settle
  dsimp only
  split
  · unfold checkSDP
    split
    · split <;> rfl
    · rfl
  · rfl

theorem andThen_sock {s : St} {r : Run} {f : St → Run} (h : r.s.sock = s.sock) (k : ∀ t, (f t).s.sock = t.sock) :
    (r.andThen f).s.sock = s.sock := by
  unfold Run.andThen
  split
  · exact (k _).trans h
  · exact h
  · exact h
  · exact h

/-- The first handler keeps the socket, and the call is not over after it if it was not before. -/
theorem Keep.andThen {s : St} {r : Run} {f : St → Run} (h : r.s.sock = s.sock) (hn : Net s r.s)
    (k : ∀ t, Keep t (f t)) : Keep s (r.andThen f) := by
  unfold Run.andThen
  split
  · intro hh
    rcases k r.s hh with e | e
    · exact .inl (by rw [← hn.state]; exact e)
    · exact .inr (e.trans h)
  · exact .of_sock h
  · exact .of_sock h
  · exact .of_sock h

theorem keep_handleStatus (w : World) (s : St) (m : Msg) : Keep s (handleStatus w s m) := by
  unfold handleStatus
  split
  · exact .of_sock rfl
  split
  · exact .of_sock rfl
  split
  · unfold handleOK
    split
    · refine .of_sock ?_
      dsimp only
      split <;> rfl
    · split <;> exact .of_sock rfl
  split
  · split
    · exact .of_net (net_nextRoute w s)
    · exact .of_sock rfl
  split
  · exact .of_net (net_redirect w s m)
  split
  · exact .of_sock rfl
  · exact .of_sock rfl

theorem keep_handleMessage (w : World) (s : St) (m : Msg) : Keep s (handleMessage w s m) := by
  unfold handleMessage
  split
  · exact .of_sock rfl
  split
  · exact .of_sock (andThen_sock (sendNew_sock w s _) fun t => rfl)
  split
  · exact .of_sock (sendNew_sock w s _)
  split
  · unfold handleResponse
    split
    · exact .of_sock rfl
    split
    · refine .andThen (andThen_sock (ackFinal_sock w s m _) fun t => settle_sock t m) ?_ fun t => keep_handleStatus w t m
      exact net_andThen (net_ackFinal w s m _) fun t ht => ht.trans (net_settle _ _)
    · exact .of_sock rfl
  · unfold handleRequest
    split
    · exact .of_sock (andThen_sock (sendNew_sock w s _) fun t => rfl)
    split
    · exact .of_sock (sendNew_sock w s _)
    · unfold handleMethod
      split
      · exact .of_sock ((andThen_sock (sendNew_sock w _ _) fun t => rfl).trans rfl)
      split
      · exact .of_sock (sendNew_sock w _ _)
      split
      · intro hh
        left
        have : Net { s with rseq := m.cseq, remote := some m }
            ((checkSDP { s with rseq := m.cseq, remote := some m } m).andThen
              fun s => sendResponse w s (newResponse m 200)).s :=
          net_andThen (net_checkSDP _ _) fun t ht => ht.trans (net_sendResponse w _ _)
        rw [← show _ = s.state from this.state]
        exact hh
      split
      · exact .of_sock rfl
      · exact .of_sock (sendNew_sock w _ _)

theorem keep_step (w : World) (s : St) (ev : Event) : Keep s (step w s ev) := by
  cases ev with
  | sockErr b e =>
    simp only [step]
    split
    · exact .of_sock rfl
    split
    · exact fun h => .inl h
    · exact fun h => .inl h
  | csockErr e =>
    simp only [step]
    split <;> exact .of_sock rfl
  | requestTimer =>
    simp only [step]
    split
    · exact .of_net (Net.via (net_resendRequest w _) rfl rfl rfl)
    · exact .of_sock rfl
  | responseTimer =>
    simp only [step]
    split
    · exact .of_net (Net.via (net_resendResponse w _) rfl rfl rfl)
    · exact .of_sock rfl
  | msg m =>
    simp only [step]
    split
    · exact .of_sock rfl
    · exact keep_handleMessage w s m
  | hangup => exact .of_net (net_sendHangup w s)

/-- A call that ended with "hangup" has its socket still. -/
theorem hangup_sock {w : World} {invite : Msg} (hi : IsInvite invite) (hid : ∀ n, (w.ids n).callID ≠ []) (evs : List Event) :
    (loop w evs (start w invite)).s.state = .hangup → ∃ c, (loop w evs (start w invite)).s.sock = some c := by
  refine snoc_rec (P := fun evs => (loop w evs (start w invite)).s.state = .hangup →
    ∃ c, (loop w evs (start w invite)).s.sock = some c) ?_ ?_ evs
  · intro h
    have : (start w invite).s.state = .proceeding := (net_sendInvite w { invite := invite }).state
    rw [show loop w [] (start w invite) = start w invite from rfl, this] at h
    cases h
  · intro evs ev ih
    rw [loop_snoc]
    unfold Run.andThen
    split
    · rename_i hg
      intro h
      rcases keep_step w _ ev h with e | e
      · exfalso
        have hs := shown_loop w invite evs
        have hl := hs.last
        rw [e] at hl
        have ha := hs.alive hg
        cases hp : (published (loop w evs (start w invite)).s.outs).getLast? with
        | none => rw [hp] at hl; cases hl
        | some x =>
          rw [hp] at hl
          exact ha (by have := List.mem_of_getLast? hp; rw [show x = .hangup from hl] at this; exact this)
      · rw [e]; exact (Props.alive_dialog hi hid hg).sock
    · exact ih
    · exact ih
    · exact ih

end Gosip.Dialog
