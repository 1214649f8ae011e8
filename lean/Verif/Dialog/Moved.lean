import Verif.Dialog.Report
import Verif.Spec.Later

/-!
# The dialog does not look at its own past

What a dialog does depends on its outputs so far and on the time only through the world: the same state later, in a
world that is as much later, and with other outputs before, does the same.
-/

namespace Gosip.Dialog
open Sip Spec

/-- Later, after other outputs. -/
def St.moved (k : Nat) (o : List Out) (s : St) : St := { s with tick := s.tick + k, outs := o ++ s.outs }

@[inherit_doc St.moved] def Run.moved (k : Nat) (o : List Out) (r : Run) : Run := ⟨r.s.moved k o, r.c⟩

theorem moved_andThen (k : Nat) (o : List Out) {r r' : Run} {f f' : St → Run} (h : r = r'.moved k o)
    (hf : ∀ s, f (s.moved k o) = (f' s).moved k o) : r.andThen f = (r'.andThen f').moved k o := by
  subst h
  obtain ⟨t, c⟩ := r'
  cases c
  · exact hf t
  · rfl
  · rfl
  · rfl

theorem moved_out (k : Nat) (o : List Out) (s : St) (x : Out) : (s.moved k o).out x = (s.out x).moved k o := by
  simp [St.moved, St.out]

theorem moved_outAll (k : Nat) (o : List Out) (s : St) (x : List Out) :
    (s.moved k o).outAll x = (s.outAll x).moved k o := by
  simp [St.moved, St.outAll]

theorem moved_fail (k : Nat) (o : List Out) (s : St) (e : DErr) : (s.moved k o).fail e = (s.fail e).moved k o := by
  simp [St.fail, Run.moved, moved_out]

theorem moved_cur (k : Nat) (o : List Out) (s : St) : (s.moved k o).cur = s.cur := rfl

theorem moved_setCur (k : Nat) (o : List Out) (s : St) (m : Msg) :
    (s.moved k o).setCur m = (s.setCur m).moved k o := by
  cases h : s.req <;> simp [St.setCur, St.moved, h]

theorem moved_transition (k : Nat) (o : List Out) (s : St) (c : CallState) :
    transition (s.moved k o) c = (transition s c).moved k o := moved_out k o { s with state := c } _

theorem moved_tick (k : Nat) (o : List Out) (s : St) :
    ({ s.moved k o with tick := s.tick + k + 1 } : St) = ({ s with tick := s.tick + 1 } : St).moved k o := by
  simp [St.moved, Nat.add_right_comm]

theorem moved_writeMsg (w : World) (k : Nat) (o : List Out) (s : St) (m : Msg) :
    writeMsg w (s.moved k o) m = ((writeMsg (later w k) s m).1.moved k o, (writeMsg (later w k) s m).2) := by
  unfold writeMsg
  have h1 : (later w k).clock s.tick = w.clock (s.tick + k) := rfl
  have h2 : (later w k).origin s.tick = w.origin (s.tick + k) := rfl
  have h3 : (later w k).write s.tick = w.write (s.tick + k) := rfl
  have h4 : (s.moved k o).tick = s.tick + k := rfl
  have h5 : (s.moved k o).sock = s.sock := rfl
  rw [h1, h2, h3, h4, h5]
  split
  · dsimp only
    split <;> simp [St.moved, St.out, St.fail, Run.moved, Nat.add_right_comm]
  · rfl

theorem moved_send (w : World) (k : Nat) (o : List Out) (s : St) (m : Msg) :
    send w (s.moved k o) m = ((send (later w k) s m).1.moved k o, (send (later w k) s m).2) := by
  unfold send
  split
  · rw [moved_fail]
  · exact moved_writeMsg w k o s _

theorem moved_sendNew (w : World) (k : Nat) (o : List Out) (s : St) (m : Msg) :
    sendNew w (s.moved k o) m = (sendNew (later w k) s m).moved k o := by
  unfold sendNew
  rw [moved_send]

theorem moved_sendCur (w : World) (k : Nat) (o : List Out) (s : St) :
    sendCur w (s.moved k o) = (sendCur (later w k) s).moved k o := by
  unfold sendCur
  rw [moved_cur]
  cases s.cur with
  | none => rfl
  | some m =>
    dsimp only
    rw [moved_send]
    simp only [Run.moved, moved_setCur]

theorem moved_sendRsp (w : World) (k : Nat) (o : List Out) (s : St) :
    sendRsp w (s.moved k o) = (sendRsp (later w k) s).moved k o := by
  unfold sendRsp
  show (match s.response with | none => _ | some m => _) = _
  cases s.response with
  | none => rfl
  | some m =>
    dsimp only
    rw [moved_send]
    rfl

theorem moved_sendCancel (w : World) (k : Nat) (o : List Out) (s : St) :
    sendCancel w (s.moved k o) = (sendCancel (later w k) s).moved k o := by
  unfold sendCancel
  dsimp only
  rw [show (s.moved k o).invite = s.invite from rfl, moved_send]
  rfl

theorem moved_connectLoose (w : World) (k : Nat) (o : List Out) (s : St) :
    connectLoose w (s.moved k o) = ((connectLoose (later w k) s).1.moved k o, (connectLoose (later w k) s).2) := by
  unfold connectLoose
  rw [show (s.moved k o).csock = s.csock from rfl, show (later w k).loose = w.loose from rfl]
  split
  · show (match w.listen (s.tick + k) with
      | none => ({ s.moved k o with tick := s.tick + k + 1 }, false)
      | some p => (({ s.moved k o with csock := some p, tick := s.tick + k + 1 } : St), true)) =
      ((match w.listen (s.tick + k) with
      | none => ({ s with tick := s.tick + 1 }, false)
      | some p => ({ s with csock := some p, tick := s.tick + 1 }, true) : St × Bool).1.moved k o,
       (match w.listen (s.tick + k) with
      | none => ({ s with tick := s.tick + 1 }, false)
      | some p => ({ s with csock := some p, tick := s.tick + 1 }, true) : St × Bool).2)
    cases w.listen (s.tick + k) with
    | none => dsimp only; rw [moved_tick]
    | some p => simp [St.moved, Nat.add_right_comm]
  · rfl

theorem moved_connect (w : World) (k : Nat) (o : List Out) (s : St) :
    connect w (s.moved k o) = ((connect (later w k) s).1.moved k o, (connect (later w k) s).2) := by
  unfold connect
  rw [show (s.moved k o).sock = s.sock from rfl, show (s.moved k o).addr = s.addr from rfl]
  split
  · rfl
  · dsimp only
    rw [show (s.moved k o).tick = s.tick + k from rfl, show (later w k).dial s.tick s.addr = w.dial (s.tick + k) s.addr from rfl]
    cases w.dial (s.tick + k) s.addr with
    | none => simp [St.moved, St.out, Nat.add_right_comm]
    | some c =>
      refine Eq.trans (congrArg (connectLoose w) ?_)
        (moved_connectLoose w k o { ({ s with sock := none, tick := s.tick + 1 } : St).out (.dial s.addr) with sock := some c })
      simp [St.moved, St.out, Nat.add_right_comm]

theorem moved_newAttempt (k : Nat) (o : List Out) (s : St) (m : Msg) :
    newAttempt (s.moved k o) m = (newAttempt s m).moved k o := by
  unfold newAttempt
  rw [moved_setCur]
  dsimp only
  rw [show ((s.setCur m).moved k o).state = (s.setCur m).state from rfl]
  split <;> rfl

theorem moved_attempt (w : World) (k : Nat) (o : List Out) (s : St) :
    attempt w (s.moved k o) = (attempt (later w k) s).moved k o := by
  unfold attempt
  rw [moved_cur, show (s.moved k o).sock = s.sock from rfl]
  cases hs : s.sock with
  | none => rfl
  | some c =>
    cases s.cur with
    | none => rfl
    | some m =>
      dsimp only
      rw [show (s.moved k o).tick = s.tick + k from rfl, show (s.moved k o).csock = s.csock from rfl,
        show (later w k).ids s.tick = w.ids (s.tick + k) from rfl,
        show (later w k).origin s.tick = w.origin (s.tick + k) from rfl]
      cases populate (w.ids (s.tick + k)) (w.origin (s.tick + k)) c s.csock m with
      | panic => rfl
      | err e => rfl
      | ok m =>
        dsimp only
        refine Eq.trans (congrArg (fun t => sendCur w (newAttempt t m)) ?_)
          (Eq.trans (congrArg (sendCur w) (moved_newAttempt k o { s with tick := s.tick + 1, sock := some c } m))
            (moved_sendCur w k o _))
        simp [St.moved, Nat.add_right_comm]

theorem moved_blocked (w : World) (k : Nat) (o : List Out) (s : St) : blocked w (s.moved k o) = blocked (later w k) s := rfl

theorem moved_popRoutes (w : World) (k : Nat) (o : List Out) (l : List Bytes) : ∀ s : St,
    popRoutes w l (s.moved k o) = (popRoutes (later w k) l s).moved k o := by
  induction l with
  | nil => intro s; exact moved_fail k o { s with routes := [] } _
  | cons a l ih =>
    intro s
    unfold popRoutes
    have hb : blocked w { s.moved k o with addr := a, routes := l } = blocked (later w k) { s with addr := a, routes := l } := rfl
    rw [hb]
    split
    · rfl
    · have hc := moved_connect w k o { s with addr := a, routes := l }
      have hc : connect w { s.moved k o with addr := a, routes := l } = _ := hc
      dsimp only
      rw [hc]
      dsimp only
      split
      · exact moved_attempt w k o _
      · exact ih _

theorem moved_nextRoute (w : World) (k : Nat) (o : List Out) (s : St) :
    nextRoute w (s.moved k o) = (nextRoute (later w k) s).moved k o := moved_popRoutes w k o s.routes s

theorem moved_sendTowards (w : World) (k : Nat) (o : List Out) (s : St) (q : Req) (hop : Res Err (Bytes × UInt16)) :
    sendTowards w (s.moved k o) q hop = (sendTowards (later w k) s q hop).moved k o := by
  unfold sendTowards
  cases hop with
  | panic => rfl
  | err e => exact moved_fail k o s _
  | ok h =>
    obtain ⟨host, port⟩ := h
    dsimp only
    rw [show (s.moved k o).tick = s.tick + k from rfl, show (s.moved k o).state = s.state from rfl,
      show (later w k).resolver s.tick = w.resolver (s.tick + k) from rfl]
    cases (routeAddress (w.resolver (s.tick + k)) host port (s.state.rank < CallState.answered.rank)).2 with
    | panic => rfl
    | err e => simp [St.fail, St.moved, St.out, Run.moved, Nat.add_right_comm]
    | ok rs =>
      dsimp only
      refine Eq.trans (congrArg (nextRoute w) ?_)
        (moved_nextRoute w k o { s with req := q, routes := rs, dest := host, tick := s.tick + 1 })
      simp [St.moved, Nat.add_right_comm]

theorem moved_sendInvite (w : World) (k : Nat) (o : List Out) (s : St) :
    sendInvite w (s.moved k o) = (sendInvite (later w k) s).moved k o :=
  moved_sendTowards w k o { s with invite := (routeMessage none none s.invite).1 } _ _

theorem moved_sendOther (w : World) (k : Nat) (o : List Out) (s : St) (m : Msg) :
    sendOther w (s.moved k o) m = (sendOther (later w k) s m).moved k o := moved_sendTowards w k o s _ _

theorem moved_checkSDP (k : Nat) (o : List Out) (s : St) (m : Msg) :
    checkSDP (s.moved k o) m = (checkSDP s m).moved k o := by
  unfold checkSDP
  split
  · split
    · rw [moved_out]; rfl
    · rfl
  · rfl

theorem moved_ackFinal (w : World) (k : Nat) (o : List Out) (s : St) (m cur : Msg) :
    ackFinal w (s.moved k o) m cur = (ackFinal (later w k) s m cur).moved k o := by
  unfold ackFinal
  split
  · split
    · exact moved_fail k o s _
    · split
      · exact moved_sendNew w k o s _
      · rfl
  · rfl

theorem moved_redirect (w : World) (k : Nat) (o : List Out) (s : St) (m : Msg) :
    redirect w (s.moved k o) m = (redirect (later w k) s m).moved k o := by
  unfold redirect
  split
  · rename_i u _
    exact moved_sendInvite w k o
      { s with invite := { s.invite with request := u, addrs := setAt s.invite.addrs .route [] } }
  · rfl

theorem moved_handleOK (k : Nat) (o : List Out) (s : St) (m : Msg) :
    handleOK (s.moved k o) m = (handleOK s m).moved k o := by
  unfold handleOK
  split
  · rw [show (s.moved k o).remote = s.remote from rfl, moved_transition]
    split <;> rfl
  · split
    · rw [moved_transition]; rfl
    · rfl

theorem moved_handleStatus (w : World) (k : Nat) (o : List Out) (s : St) (m : Msg) :
    handleStatus w (s.moved k o) m = (handleStatus (later w k) s m).moved k o := by
  unfold handleStatus
  split
  · rw [moved_transition]; rfl
  split
  · rw [moved_transition]; rfl
  split
  · exact moved_handleOK k o s m
  split
  · show (match s.req with | .invite => _ | _ => _) = _
    cases s.req with
    | none => exact moved_fail k o s _
    | invite => exact moved_nextRoute w k o s
    | other _ => exact moved_fail k o s _
  split
  · exact moved_redirect w k o s m
  split
  · exact moved_fail k o s _
  · rfl

theorem moved_settle (k : Nat) (o : List Out) (s : St) (m : Msg) : settle (s.moved k o) m = (settle s m).moved k o := by
  unfold settle
  dsimp only
  split
  · exact moved_checkSDP k o { s with routes := [], requestTimer := false } m
  · rfl

theorem moved_handleResponse (w : World) (k : Nat) (o : List Out) (s : St) (m : Msg) :
    handleResponse w (s.moved k o) m = (handleResponse (later w k) s m).moved k o := by
  unfold handleResponse
  rw [moved_cur]
  cases s.cur with
  | none => rfl
  | some cur =>
    dsimp only
    split
    · exact moved_andThen k o (moved_andThen k o (moved_ackFinal w k o s m cur) fun t => moved_settle k o t m)
        fun t => moved_handleStatus w k o t m
    · rfl

theorem moved_sendResponse (w : World) (k : Nat) (o : List Out) (s : St) (m : Msg) :
    sendResponse w (s.moved k o) m = (sendResponse (later w k) s m).moved k o :=
  moved_sendRsp w k o { s with response := some m, responseResends := 0, responseTimer := true }

theorem moved_handleMethod (w : World) (k : Nat) (o : List Out) (s : St) (m : Msg) :
    handleMethod w (s.moved k o) m = (handleMethod (later w k) s m).moved k o := by
  unfold handleMethod
  split
  · exact moved_andThen k o (moved_sendNew w k o s _) fun t => by rw [moved_transition]; rfl
  split
  · exact moved_sendNew w k o s _
  split
  · exact moved_andThen k o (moved_checkSDP k o { s with remote := some m } m) fun t => moved_sendResponse w k o t _
  split
  · rfl
  · exact moved_sendNew w k o s _

theorem moved_handleRequest (w : World) (k : Nat) (o : List Out) (s : St) (m : Msg) :
    handleRequest w (s.moved k o) m = (handleRequest (later w k) s m).moved k o := by
  unfold handleRequest
  split
  · exact moved_andThen k o (moved_sendNew w k o s _) fun t => moved_fail k o t _
  · rw [show (s.moved k o).rseq = s.rseq from rfl]
    split
    · exact moved_sendNew w k o s _
    · exact moved_handleMethod w k o { s with rseq := m.cseq } m

theorem moved_handleMessage (w : World) (k : Nat) (o : List Out) (s : St) (m : Msg) :
    handleMessage w (s.moved k o) m = (handleMessage (later w k) s m).moved k o := by
  unfold handleMessage
  rw [moved_cur]
  cases s.cur with
  | none => rfl
  | some cur =>
    dsimp only
    split
    · exact moved_andThen k o (moved_sendNew w k o s _) fun t => moved_fail k o t _
    split
    · exact moved_sendNew w k o s _
    split
    · exact moved_handleResponse w k o s m
    · exact moved_handleRequest w k o s m

theorem moved_resendRequest (w : World) (k : Nat) (o : List Out) (s : St) :
    resendRequest w (s.moved k o) = (resendRequest (later w k) s).moved k o := by
  unfold resendRequest
  rw [moved_cur]
  cases s.cur with
  | none => rfl
  | some cur =>
    dsimp only
    rw [show (s.moved k o).requestResends = s.requestResends from rfl, show (later w k).maxResends = w.maxResends from rfl]
    split
    · exact moved_andThen k o (moved_sendCur w k o s) fun t => rfl
    · rw [show (s.moved k o).sock = s.sock from rfl]
      cases s.sock with
      | none => rfl
      | some c => exact moved_nextRoute w k o s

theorem moved_resendResponse (w : World) (k : Nat) (o : List Out) (s : St) :
    resendResponse w (s.moved k o) = (resendResponse (later w k) s).moved k o := by
  unfold resendResponse
  rw [show (s.moved k o).response = s.response from rfl]
  cases s.response with
  | none => rfl
  | some cur =>
    dsimp only
    rw [show (s.moved k o).responseResends = s.responseResends from rfl, show (later w k).maxResends = w.maxResends from rfl]
    split
    · exact moved_andThen k o (moved_sendRsp w k o s) fun t => rfl
    · rw [show (s.moved k o).sock = s.sock from rfl]
      cases s.sock with
      | none => rfl
      | some c => exact moved_nextRoute w k o s

theorem moved_sendHangup (w : World) (k : Nat) (o : List Out) (s : St) :
    sendHangup w (s.moved k o) = (sendHangup (later w k) s).moved k o := by
  unfold sendHangup
  rw [show (s.moved k o).state = s.state from rfl]
  cases s.state with
  | proceeding => exact moved_sendCancel w k o s
  | ringing => exact moved_sendCancel w k o s
  | hangup => rfl
  | answered =>
    dsimp only
    rw [show (s.moved k o).remote = s.remote from rfl]
    cases s.remote with
    | none => rfl
    | some r =>
      dsimp only
      rw [show (s.moved k o).invite = s.invite from rfl, show (s.moved k o).lseq = s.lseq from rfl]
      cases newBye s.invite r (some s.lseq) with
      | panic => rfl
      | err e => rfl
      | ok x =>
        exact moved_sendOther w k o { s with state := .answered, remote := some r, lseq := x.2 } x.1

theorem moved_step (w : World) (k : Nat) (o : List Out) (s : St) (ev : Event) :
    step w (s.moved k o) ev = (step (later w k) s ev).moved k o := by
  cases ev with
  | sockErr b e =>
    simp only [step]
    rw [show (s.moved k o).sock = s.sock from rfl]
    split
    · rfl
    split
    · rfl
    · exact moved_fail k o { s with sock := none } _
  | csockErr e =>
    simp only [step]
    rw [show (s.moved k o).csock = s.csock from rfl]
    split
    · rfl
    · exact moved_fail k o { s with csock := none } _
  | requestTimer =>
    simp only [step]
    rw [show (s.moved k o).requestTimer = s.requestTimer from rfl]
    split
    · exact moved_resendRequest w k o { s with requestTimer := false }
    · rfl
  | responseTimer =>
    simp only [step]
    rw [show (s.moved k o).responseTimer = s.responseTimer from rfl]
    split
    · exact moved_resendResponse w k o { s with responseTimer := false }
    · rfl
  | msg m =>
    simp only [step]
    rw [show (s.moved k o).sock = s.sock from rfl, show (s.moved k o).csock = s.csock from rfl]
    split
    · rfl
    · exact moved_handleMessage w k o s m
  | hangup => exact moved_sendHangup w k o s

theorem moved_loop (w : World) (k : Nat) (o : List Out) (evs : List Event) : ∀ r : Run,
    loop w evs (r.moved k o) = (loop (later w k) evs r).moved k o := by
  induction evs with
  | nil => intro r; rfl
  | cons ev evs ih =>
    intro r
    unfold loop
    rw [moved_andThen k o rfl fun t => moved_step w k o t ev]
    exact ih _

theorem moved_cleanup (w : World) (k : Nat) (o : List Out) (s : St) :
    cleanup w (s.moved k o) = (cleanup (later w k) s).moved k o := by
  unfold cleanup
  rw [show (s.moved k o).tick = s.tick + k from rfl, show (s.moved k o).sock = s.sock from rfl,
    show (s.moved k o).csock = s.csock from rfl, show (later w k).frees s.tick = w.frees (s.tick + k) from rfl,
    show (later w k).frees (s.tick + 1) = w.frees (s.tick + k + 1) by simp [later, Nat.add_right_comm]]
  split
  · rfl
  split
  · rfl
  · exact congrArg (Run.mk · .stop) (moved_out k o { s with sock := none, csock := none } .closed)

theorem moved_finish (w : World) (k : Nat) (o : List Out) (evs : List Event) (s : St) :
    finish w evs (s.moved k o) = (finish (later w k) evs s).moved k o := by
  unfold finish
  have h := moved_loop w k o evs ⟨s, .go⟩
  have h : loop w evs ⟨s.moved k o, .go⟩ = _ := h
  dsimp only
  rw [h, show ((loop (later w k) evs ⟨s, .go⟩).moved k o).c = (loop (later w k) evs ⟨s, .go⟩).c from rfl]
  cases (loop (later w k) evs ⟨s, .go⟩).c with
  | stop => exact moved_cleanup w k o _
  | _ => rfl

end Gosip.Dialog
