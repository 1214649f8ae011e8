import Verif.Dialog.Report
import Verif.Dialog.From

/-!
# The socket in use is the one something was sent through last
-/

namespace Gosip.Dialog
open Sip Spec

/-- The last thing sent went to the other end of the socket in use. -/
def LastTo (s : St) : Prop := ∀ c, s.sock = some c → ∃ m, (sends s.outs).getLast? = some (c.remote, m)

theorem LastTo.frame {s t : St} (h : LastTo s) (h1 : t.sock = s.sock) (h2 : sends t.outs = sends s.outs) : LastTo t := by
  unfold LastTo
  rw [h1, h2]
  exact h

theorem LastTo.out {s : St} {o : Out} (h : LastTo s) (ho : sends [o] = []) : LastTo (s.out o) :=
  h.frame rfl (by show sends (s.outs ++ [o]) = _; rw [sends_append, ho, List.append_nil])

/-- What a handler leaves behind if the call goes on. -/
def Settled (r : Run) : Prop := r.c = .go → LastTo r.s

theorem Settled.andThen {r : Run} {f : St → Run} (h : Settled r) (hf : ∀ s, LastTo s → Settled (f s)) : Settled (r.andThen f) := by
  unfold Run.andThen
  split
  · rename_i hc; exact hf _ (h hc)
  · exact h
  · exact h
  · exact h

theorem settled_fail (s : St) (e : DErr) : Settled (s.fail e) := fun h => by cases h

theorem settled_send (w : World) (s : St) (m : Msg) : Settled (send w s m).1 := by
  unfold send
  split
  · exact settled_fail _ _
  · unfold writeMsg
    split
    · rename_i m' c _ hc
      dsimp only
      split
      · intro _ c' hc'
        have : c' = c := by
          have h1 : s.sock = some c' := hc'
          rw [hc] at h1; cases h1; rfl
        subst this
        exact ⟨m', by simp [St.out, sends]⟩
      · exact settled_fail _ _
    · intro h; cases h

theorem setCur_sock (s : St) (m : Msg) : (s.setCur m).sock = s.sock ∧ (s.setCur m).outs = s.outs := by
  unfold St.setCur
  split <;> exact ⟨rfl, rfl⟩

theorem settled_sendCur (w : World) (s : St) : Settled (sendCur w s) := by
  unfold sendCur
  split
  · intro h; cases h
  · rename_i m _
    intro h
    obtain ⟨h1, h2⟩ := setCur_sock (send w s m).1.s (send w s m).2
    exact (settled_send w s m h).frame h1 (by rw [h2])

theorem settled_sendRsp (w : World) (s : St) : Settled (sendRsp w s) := by
  unfold sendRsp
  split
  · intro h; cases h
  · intro h; exact (settled_send w s _ h).frame rfl rfl

theorem settled_sendCancel (w : World) (s : St) : Settled (sendCancel w s) := fun h => (settled_send w s _ h).frame rfl rfl

theorem settled_attempt (w : World) (s : St) : Settled (attempt w s) := by
  unfold attempt
  split
  · split
    · exact settled_sendCur w _
    · intro h; cases h
  · intro h; cases h

theorem settled_popRoutes (w : World) (l : List Bytes) (s : St) : Settled (popRoutes w l s) := by
  induction l generalizing s with
  | nil => exact settled_fail _ _
  | cons a l ih =>
    unfold popRoutes
    split
    · intro h; cases h
    · dsimp only
      split
      · exact settled_attempt w _
      · exact ih _

theorem settled_sendTowards (w : World) (s : St) (q : Req) (hop : Res Err (Bytes × UInt16)) : Settled (sendTowards w s q hop) := by
  unfold sendTowards
  split
  · intro h; cases h
  · exact settled_fail _ _
  · split
    · intro h; cases h
    · exact settled_fail _ _
    · exact settled_popRoutes w _ _

theorem settled_checkSDP {s : St} (m : Msg) (h : LastTo s) : Settled (checkSDP s m) := by
  unfold checkSDP
  split
  · split
    · exact fun _ => h.out rfl
    · intro h; cases h
  · exact fun _ => h

theorem settled_handleOK {s : St} (m : Msg) (h : LastTo s) : Settled (handleOK s m) := by
  unfold handleOK
  split
  · intro _
    split
    · exact (h.out (o := .state .answered) rfl).frame rfl rfl
    · exact h.frame rfl rfl
  · split
    · intro h; cases h
    · exact fun _ => h

theorem settled_handleStatus (w : World) {s : St} (m : Msg) (h : LastTo s) : Settled (handleStatus w s m) := by
  unfold handleStatus
  split
  · exact fun _ => (h.out (o := .state .proceeding) rfl).frame rfl rfl
  · split
    · exact fun _ => (h.out (o := .state .ringing) rfl).frame rfl rfl
    · split
      · exact settled_handleOK m h
      · split
        · split
          · exact settled_popRoutes w _ _
          · exact settled_fail _ _
        · split
          · unfold redirect
            split
            · exact settled_sendTowards w _ _ _
            · intro h; cases h
          · split
            · exact settled_fail _ _
            · exact fun _ => h

theorem settled_handleResponse (w : World) {s : St} (m : Msg) (h : LastTo s) : Settled (handleResponse w s m) := by
  unfold handleResponse
  split
  · intro h; cases h
  · split
    · refine Settled.andThen (Settled.andThen ?_ ?_) fun s hs => settled_handleStatus w m hs
      · unfold ackFinal
        split
        · split
          · exact settled_fail _ _
          · split
            · exact settled_send w s _
            · intro h; cases h
        · exact fun _ => h
      · intro s hs
        unfold settle
        dsimp only
        split
        · exact settled_checkSDP m (hs.frame rfl rfl)
        · exact fun _ => hs.frame rfl rfl
    · exact fun _ => h

theorem settled_handleMessage (w : World) {s : St} (m : Msg) (h : LastTo s) : Settled (handleMessage w s m) := by
  unfold handleMessage
  split
  · intro h; cases h
  · split
    · exact (settled_send w s _).andThen fun s _ => settled_fail _ _
    · split
      · exact settled_send w s _
      · split
        · exact settled_handleResponse w m h
        · unfold handleRequest
          split
          · exact (settled_send w s _).andThen fun s _ => settled_fail _ _
          · split
            · exact settled_send w s _
            · unfold handleMethod
              split
              · exact Settled.andThen (settled_send w _ _) fun s _ h => by cases h
              · split
                · exact settled_send w _ _
                · split
                  · refine Settled.andThen (settled_checkSDP m ?_) fun s _ => settled_sendRsp w _
                    exact h.frame rfl rfl
                  · split
                    · exact fun _ => h.frame rfl rfl
                    · exact settled_send w _ _

theorem settled_step (w : World) {s : St} (ev : Event) (h : LastTo s) : Settled (step w s ev) := by
  cases ev with
  | sockErr refused e =>
    simp only [step]
    split
    · exact fun _ => h
    · split
      · intro h; cases h
      · exact settled_fail _ _
  | csockErr e =>
    simp only [step]
    split
    · exact fun _ => h
    · exact settled_fail _ _
  | requestTimer =>
    simp only [step]
    split
    · unfold resendRequest
      split
      · exact fun _ => h.frame rfl rfl
      · split
        · exact (settled_sendCur w _).andThen fun s hs _ => hs.frame rfl rfl
        · split
          · intro h; cases h
          · exact settled_popRoutes w _ _
    · exact fun _ => h
  | responseTimer =>
    simp only [step]
    split
    · unfold resendResponse
      split
      · exact fun _ => h.frame rfl rfl
      · split
        · exact (settled_sendRsp w _).andThen fun s hs _ => hs.frame rfl rfl
        · split
          · intro h; cases h
          · exact settled_popRoutes w _ _
    · exact fun _ => h
  | msg m =>
    simp only [step]
    split
    · exact fun _ => h
    · exact settled_handleMessage w m h
  | hangup =>
    simp only [step]
    unfold sendHangup
    split
    · exact settled_sendCancel w s
    · exact settled_sendCancel w s
    · split
      · intro h; cases h
      · split
        · exact settled_sendTowards w _ _ _
        · intro h; cases h
    · intro h; cases h

/-- In a call that goes on, the last datagram went through the socket in use. -/
theorem lastTo_loop {w : World} {invite : Msg} {evs : List Event} (hg : (loop w evs (start w invite)).c = .go) :
    LastTo (loop w evs (start w invite)).s := by
  have key : ∀ evs r, Settled r → Settled (loop w evs r) := by
    intro evs
    induction evs with
    | nil => exact fun r h => h
    | cons ev evs ih => exact fun r h => ih _ (h.andThen fun s hs => settled_step w ev hs)
  exact key evs _ (settled_sendTowards w _ _ _) hg

/-- Hanging up an answered call sends nothing if the first address of the other side is not the one in use and the receiver has nothing
to deliver. -/
theorem hangup_blocked {w : World} {s : St} {c : Conn} (hst : s.state = .answered) (hs : s.sock = some c)
    (hf : ∀ n, w.frees n = false)
    (ha : ∀ remote b k host port, s.remote = some remote → newBye s.invite remote (some s.lseq) = .ok (b, k) →
      (routeMessage none none b).2 = .ok (host, port) →
      ∀ n a rest, (routeAddress (w.resolver n) host port false).2 = .ok (a :: rest) → a ≠ c.remote) :
    sends (step w s .hangup).s.outs = sends s.outs ∧ (step w s .hangup).c ≠ .go := by
  have hfail : ∀ (t : St) e, t.outs = s.outs → sends (t.fail e).s.outs = sends s.outs ∧ (t.fail e).c ≠ .go := by
    intro t e h
    refine ⟨?_, by simp [St.fail]⟩
    show sends (t.outs ++ [.err e]) = _
    rw [h, sends_append]; simp [sends]
  have hstep : step w s .hangup = match s.remote with
    | none => ⟨s, .crash⟩
    | some remote =>
      match newBye s.invite remote (some s.lseq) with
      | .ok (m, n) => sendOther w { s with lseq := n } m
      | _ => ⟨s, .crash⟩ := by
    simp only [step]
    unfold sendHangup
    rw [hst]
    rfl
  rw [hstep]
  split
  · exact ⟨rfl, by simp⟩
  · rename_i remote hrem
    split
    · rename_i m n hbye
      unfold sendOther sendTowards
      dsimp only
      split
      · exact ⟨rfl, by simp⟩
      · exact hfail _ _ rfl
      · rename_i host port hhop
        split
        · exact ⟨rfl, by simp⟩
        · exact hfail _ _ rfl
        · rename_i rs hrs
          have hrk : (decide (({ s with lseq := n } : St).state.rank < CallState.answered.rank)) = false := by
            show decide (s.state.rank < _) = false
            rw [hst]; rfl
          rw [hrk] at hrs
          cases rs with
          | nil => exact hfail _ _ rfl
          | cons a rest =>
            have hne := ha _ _ _ _ _ hrem hbye hhop _ _ _ hrs
            unfold nextRoute popRoutes
            rw [if_pos (by simp [blocked, hs, hf, Ne.symm hne])]
            exact ⟨rfl, by simp⟩
    · exact ⟨rfl, by simp⟩

/-- Where a BYE goes without Record-Route. -/
theorem hop_bye {invite remote b : Msg} {l : Option Int} {n : Int} {host : Bytes} {port : UInt16}
    (h : newBye invite remote l = .ok (b, n)) (hr : remote.addrs .recordRoute = [])
    (hh : (routeMessage none none b).2 = .ok (host, port)) :
    ∃ a more u, remote.addrs .contact = a :: more ∧ a.uri = some u ∧ host = u.host ∧ port = u.port := by
  simp only [newBye, Res.bind_eq, Res.bind_ok_iff] at h
  obtain ⟨u, hu, h⟩ := h
  cases h
  cases hc : remote.addrs .contact with
  | nil => rw [hc] at hu; cases hu
  | cons a more =>
    rw [hc] at hu
    cases hu
    unfold routeMessage at hh
    rw [if_neg (by simp [Msg.isResponse])] at hh
    have : popRoute none (addrReversed (remote.addrs .recordRoute)) = [] := by rw [hr]; rfl
    simp only [this] at hh
    unfold uriHop at hh
    cases hau : a.uri with
    | none => rw [hau] at hh; cases hh
    | some u =>
      rw [hau] at hh
      cases hh
      exact ⟨a, more, u, rfl, hau, rfl, rfl⟩

/-- Without Record-Route, a BYE has no Route. -/
theorem route_bye {invite remote b : Msg} {l : Option Int} {n : Int}
    (h : newBye invite remote l = .ok (b, n)) (hr : remote.addrs .recordRoute = []) :
    (routeMessage none none b).1.addrs .route = [] := by
  simp only [newBye, Res.bind_eq, Res.bind_ok_iff] at h
  obtain ⟨u, hu, h⟩ := h
  cases h
  unfold routeMessage
  rw [if_neg (by simp [Msg.isResponse])]
  have : popRoute none (addrReversed (remote.addrs .recordRoute)) = [] := by rw [hr]; rfl
  simp only [this]
  simp [setAt]

/-- The destination of a BYE. -/
theorem bye_to {invite remote b : Msg} {l : Option Int} {n : Int} (h : newBye invite remote l = .ok (b, n)) :
    (routeMessage none none b).1.method = b!"BYE" ∧ (routeMessage none none b).1.status = 0 ∧
    (routeMessage none none b).1.addrs .to = remote.addrs .to := by
  obtain ⟨u, a, hr, ha⟩ := route_none b
  rw [hr]
  simp only [newBye, Res.bind_eq, Res.bind_ok_iff] at h
  obtain ⟨u, _, h⟩ := h
  cases h
  dsimp only
  rw [ha .to (by simp)]
  exact ⟨rfl, rfl, rfl⟩

/-- A re-INVITE in order: the new state. -/
theorem reinvite_full {w : World} {s : St} {c : Conn} {cur m : Msg} (hw : ∀ n, w.write n = .ok ())
    (hs : s.sock = some c) (hc : s.cur = some cur) (hr : m.status ≤ 0)
    (hver : m.versionMajor = 2 ∧ m.versionMinor = 0) (hid : m.callID = cur.callID) (hmf : 0 < m.maxForwards)
    (hq : s.rseq = 0 ∨ s.rseq ≤ m.cseq) (hb : m.method = b!"INVITE") (ha : HasAudio m) (hv : CanStamp w m) :
    ∃ r x, Stamped (newResponse m 200) r ∧
      step w s (.msg m) =
        ⟨{ s with
            rseq := m.cseq, remote := some m, response := some r, responseResends := 0, responseTimer := true
            tick := s.tick + 1, outs := s.outs ++ mediaNews m ++ [.sent c.remote r x] }, .go⟩ := by
  have hnr : m.isResponse = false := by simp [Msg.isResponse]; omega
  have h0 : step w s (.msg m) = handleMessage w s m := by simp [step, hs]
  obtain ⟨r, x, h1, h2⟩ := sendRsp_ok (w := w)
    (s := { ({ s with rseq := m.cseq, remote := some m } : St).outAll (mediaNews m) with
      response := some (newResponse m 200), responseResends := 0, responseTimer := true }) hw hs
    (r0 := newResponse m 200) rfl (.inl rfl) rfl (phraseOf_ne_nil 200) (canStamp_rsp hv 200)
  refine ⟨r, x, h1, ?_⟩
  rw [h0]
  unfold handleMessage
  simp only [hc, hnr, Bool.false_eq_true, if_false]
  rw [if_neg (show ¬ (m.versionMajor ≠ 2 ∨ m.versionMinor ≠ 0) by simp [hver]), if_neg (not_not_intro hid)]
  unfold handleRequest
  rw [if_neg (by omega), if_neg (by omega)]
  unfold handleMethod
  rw [if_neg (by rw [hb]; decide), if_neg (by rw [hb]; decide), if_pos hb, checkSDP_eq ha]
  simp only [Run.andThen]
  unfold sendResponse
  rw [h2]
  rfl

/-- The answer to a re-INVITE is sent once more: nothing but the answer changes. -/
theorem waiting_frame {w : World} {s : St} {r0 : Msg} {k : Int} (hw : ∀ n, w.write n = .ok ()) (h : Waiting w r0 k s)
    (hf : r0.maxForwards = 0) (hp : r0.phrase ≠ []) (hv : CanStamp w r0) (hk : k < w.maxResends) :
    (step w s .responseTimer).s.routes = s.routes ∧ (step w s .responseTimer).s.dest = s.dest := by
  obtain ⟨c, hs⟩ := h.sock
  obtain ⟨r, hr, h0⟩ := h.response
  obtain ⟨m', x, h1, h2⟩ := sendRsp_ok (s := { s with responseTimer := false }) hw hs hr h0 hf hp hv
  have hst : step w s .responseTimer =
      ⟨{ ({ s with responseTimer := false, tick := s.tick + 1 }.out (.sent c.remote m' x)) with
          response := some m', responseResends := s.responseResends + 1, responseTimer := true }, .go⟩ := by
    simp only [step, h.timer, if_true]
    unfold resendResponse
    dsimp only
    rw [hr]
    dsimp only
    rw [if_pos (by rw [h.resends]; exact hk)]
    have : ({ s with responseTimer := false, response := some r } : St) = { s with responseTimer := false } := by
      rw [← hr]
    rw [this, h2]
    rfl
  rw [hst]
  exact ⟨rfl, rfl⟩

theorem waiting_frames {w : World} {r0 : Msg} (hw : ∀ n, w.write n = .ok ())
    (hf : r0.maxForwards = 0) (hp : r0.phrase ≠ []) (hv : CanStamp w r0) (n : Nat) :
    ∀ (r : Run) (k : Int), r.c = .go → Waiting w r0 k r.s → k + n ≤ w.maxResends →
    (loop w (List.replicate n .responseTimer) r).s.routes = r.s.routes ∧
    (loop w (List.replicate n .responseTimer) r).s.dest = r.s.dest := by
  induction n with
  | zero => intro r k _ _ _; exact ⟨rfl, rfl⟩
  | succ n ih =>
    intro r k hg h hk
    rw [List.replicate_succ]
    unfold loop
    obtain ⟨h1, h2, _⟩ := waiting_step hw h hf hp hv (by omega)
    obtain ⟨f1, f2⟩ := waiting_frame hw h hf hp hv (by omega)
    have hr : (r.andThen fun s => step w s .responseTimer) = step w r.s .responseTimer := by
      unfold Run.andThen; rw [hg]
    rw [hr]
    obtain ⟨i1, i2⟩ := ih (step w r.s .responseTimer) (k + 1) h1 h2 (by omega)
    exact ⟨i1.trans f1, i2.trans f2⟩

/-- The answer has been repeated often enough, and there is no other address. -/
theorem waiting_end {w : World} {s : St} {r0 : Msg} (h : Waiting w r0 w.maxResends s) (hr : s.routes = []) :
    (step w s .responseTimer).c = .stop ∧ (step w s .responseTimer).s.outs = s.outs ++ [.err (.failed s.dest)] := by
  obtain ⟨c, hs⟩ := h.sock
  obtain ⟨r, hrsp, _⟩ := h.response
  simp only [step, h.timer, if_true]
  unfold resendResponse
  dsimp only
  rw [hrsp]
  dsimp only
  rw [if_neg (by rw [h.resends]; exact Int.lt_irrefl _), hs]
  dsimp only
  unfold nextRoute
  dsimp only
  rw [hr]
  exact ⟨rfl, rfl⟩

end Gosip.Dialog
