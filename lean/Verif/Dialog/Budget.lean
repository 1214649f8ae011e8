import Verif.Dialog.Going

/-!
# How many responses a dialog sends

Every message can make the dialog send one response, and that response at most `maxResends` times again.
-/

namespace Gosip.Dialog
open Sip Spec

/-- Number of responses sent. -/
def rsps (l : List Out) : Nat := (sends l).countP fun x => x.2.isResponse

/-- How often the pending response may be sent again. -/
def budget (w : World) (s : St) : Nat :=
  if s.responseTimer = true ∧ s.response.isSome = true then (w.maxResends - s.responseResends).toNat else 0

/-- The requests of the dialog are no responses. -/
structure NoRsp (s : St) : Prop where
  invite : s.invite.isResponse = false
  other : ∀ m, s.req = .other m → m.isResponse = false

theorem NoRsp.cur {s : St} (h : NoRsp s) {m : Msg} (hm : s.cur = some m) : m.isResponse = false := by
  unfold St.cur at hm
  cases hq : s.req with
  | none => rw [hq] at hm; cases hm
  | invite => rw [hq] at hm; cases hm; exact h.invite
  | other x => rw [hq] at hm; cases hm; exact h.other _ hq

theorem NoRsp.frame {s t : St} (h : NoRsp s) (h1 : t.invite = s.invite) (h2 : t.req = s.req) : NoRsp t :=
  ⟨by rw [h1]; exact h.invite, by rw [h2]; exact h.other⟩

theorem NoRsp.setCur {s : St} (h : NoRsp s) {m : Msg} (hm : m.isResponse = false) : NoRsp (s.setCur m) := by
  unfold St.setCur
  split
  · exact h
  · exact ⟨hm, h.other⟩
  · exact ⟨h.invite, fun x hx => by cases hx; exact hm⟩

theorem rsps_append (a b : List Out) : rsps (a ++ b) = rsps a + rsps b := by
  unfold rsps; rw [sends_append, List.countP_append]

theorem rsps_sent (l : List Out) (d : Bytes) (m : Msg) (x : Bytes) :
    rsps (l ++ [.sent d m x]) = rsps l + if m.isResponse = true then 1 else 0 := by
  rw [rsps_append]
  simp [rsps, sends, List.countP_cons]

theorem rsps_other (l : List Out) (o : Out) (h : ∀ d m x, o ≠ .sent d m x) : rsps (l ++ [o]) = rsps l := by
  rw [rsps_append]
  cases o with
  | sent d m x => exact absurd rfl (h d m x)
  | _ => rfl

/-- No response is sent and the pending one stays as it is. -/
structure Hush (s : St) (r : Run) : Prop where
  cnt : rsps r.s.outs = rsps s.outs
  timer : r.s.responseTimer = s.responseTimer
  rsp : r.s.response = s.response
  resends : r.s.responseResends = s.responseResends
  own : NoRsp r.s

theorem Hush.budget {w : World} {s : St} {r : Run} (h : Hush s r) : budget w r.s = budget w s := by
  unfold Dialog.budget
  rw [h.timer, h.rsp, h.resends]

theorem hush_here {s : St} (h : NoRsp s) (c : Cont) : Hush s ⟨s, c⟩ := ⟨rfl, rfl, rfl, rfl, h⟩

theorem hush_fail {s : St} (h : NoRsp s) (e : DErr) : Hush s (s.fail e) :=
  ⟨rsps_other _ _ (by simp), rfl, rfl, rfl, h.frame rfl rfl⟩

theorem Hush.trans {s t : St} {r : Run} (h : Hush s ⟨t, .go⟩) (k : Hush t r) : Hush s r :=
  ⟨k.cnt.trans h.cnt, k.timer.trans h.timer, k.rsp.trans h.rsp, k.resends.trans h.resends, k.own⟩

theorem Hush.andThen {s : St} {r : Run} {f : St → Run} (h : Hush s r) (k : ∀ t, NoRsp t → Hush t (f t)) :
    Hush s (r.andThen f) := by
  obtain ⟨t, c⟩ := r
  cases c
  · exact h.trans (k t h.own)
  all_goals exact h

/-- What sending a message leaves alone. -/
theorem send_rest (w : World) (s : St) (m : Msg) : (send w s m).1.s.responseTimer = s.responseTimer ∧
    (send w s m).1.s.response = s.response ∧ (send w s m).1.s.responseResends = s.responseResends ∧
    (send w s m).1.s.invite = s.invite ∧ (send w s m).1.s.req = s.req ∧
    rsps s.outs ≤ rsps (send w s m).1.s.outs ∧
    rsps (send w s m).1.s.outs ≤ rsps s.outs + if m.isResponse = true then 1 else 0 := by
  have h := send_res w s m
  have key : ∀ m', addTimestamp (w.clock s.tick) (decForwards m) = .ok m' → m'.isResponse = m.isResponse := by
    intro m' ht
    obtain ⟨v, rfl, _⟩ := addTimestamp_frame ht
    obtain ⟨n, hn⟩ := decForwards_frame m
    rw [hn]; rfl
  generalize send w s m = x at h ⊢
  cases h with
  | loop =>
    have : rsps (s.fail .localLoop).s.outs = rsps s.outs := rsps_other _ _ (by simp)
    refine ⟨rfl, rfl, rfl, rfl, rfl, ?_, ?_⟩ <;> dsimp only <;> omega
  | crash => exact ⟨rfl, rfl, rfl, rfl, rfl, Nat.le_refl _, by dsimp only; omega⟩
  | @sent c m' x hs hne ht =>
    have : rsps (s.outs ++ [.sent c.remote m' x]) = _ := rsps_sent _ _ _ _
    rw [key _ ht] at this
    refine ⟨rfl, rfl, rfl, rfl, rfl, ?_, ?_⟩
    · show rsps s.outs ≤ rsps (s.outs ++ [.sent c.remote m' x]); omega
    · show rsps (s.outs ++ [.sent c.remote m' x]) ≤ _; omega
  | @broken c m' x e hs hne ht =>
    have : rsps (s.outs ++ [.sent c.remote m' x]) = _ := rsps_sent _ _ _ _
    rw [key _ ht] at this
    have h2 : rsps ((s.outs ++ [.sent c.remote m' x]) ++ [.err (.net e)]) = _ := rsps_other _ _ (by simp)
    refine ⟨rfl, rfl, rfl, rfl, rfl, ?_, ?_⟩
    · show rsps s.outs ≤ rsps ((s.outs ++ [.sent c.remote m' x]) ++ [.err (.net e)]); omega
    · show rsps ((s.outs ++ [.sent c.remote m' x]) ++ [.err (.net e)]) ≤ _; omega

theorem hush_sendNew {w : World} {s : St} (h : NoRsp s) {m : Msg} (hm : m.isResponse = false) :
    Hush s (sendNew w s m) := by
  obtain ⟨h1, h2, h3, h4, h5, h6, h7⟩ := send_rest w s m
  rw [hm] at h7
  exact ⟨by simp at h7; exact Nat.le_antisymm h7 h6, h1, h2, h3, h.frame h4 h5⟩

theorem hush_sendCancel {w : World} {s : St} (h : NoRsp s) : Hush s (sendCancel w s) := by
  obtain ⟨h1, h2, h3, h4, h5, h6, h7⟩ := send_rest w s (newCancel s.invite)
  rw [show (newCancel s.invite).isResponse = false from rfl] at h7
  refine ⟨by simp at h7; exact Nat.le_antisymm h7 h6, h1, h2, h3, ?_, ?_⟩
  · show (send w s (newCancel s.invite)).1.s.invite.isResponse = false
    rw [h4]; exact h.invite
  · show ∀ m, (send w s (newCancel s.invite)).1.s.req = _ → _
    rw [h5]; exact h.other

theorem setCur_rest (s : St) (m : Msg) : (s.setCur m).responseTimer = s.responseTimer ∧
    (s.setCur m).responseResends = s.responseResends := by
  unfold St.setCur; split <;> exact ⟨rfl, rfl⟩

theorem hush_sendCur {w : World} {s : St} (h : NoRsp s) : Hush s (sendCur w s) := by
  unfold sendCur
  split
  · exact hush_here h _
  · rename_i m hm
    have hr := h.cur hm
    obtain ⟨h1, h2, h3, h4, h5, h6, h7⟩ := send_rest w s m
    have hs := send_isResponse w s m
    rw [hr] at h7 hs
    obtain ⟨f1, _⟩ := setCur_frame (send w s m).1.s (send w s m).2
    obtain ⟨g1, g2⟩ := setCur_rest (send w s m).1.s (send w s m).2
    exact ⟨by rw [f1]; simp at h7; exact Nat.le_antisymm h7 h6, g1.trans h1, (setCur_more _ _).2.trans h2, g2.trans h3,
      (h.frame h4 h5).setCur hs⟩

theorem hush_connect {w : World} {s : St} (h : NoRsp s) (c : Cont) : Hush s ⟨(connect w s).1, c⟩ := by
  have ho : rsps (s.outs ++ [.dial s.addr]) = rsps s.outs := rsps_other _ _ (by simp)
  unfold connect
  split
  · exact hush_here h _
  · dsimp only
    split
    · exact ⟨ho, rfl, rfl, rfl, h.frame rfl rfl⟩
    · unfold connectLoose
      split
      · split
        · exact ⟨ho, rfl, rfl, rfl, h.frame rfl rfl⟩
        · exact ⟨ho, rfl, rfl, rfl, h.frame rfl rfl⟩
      · exact ⟨ho, rfl, rfl, rfl, h.frame rfl rfl⟩

theorem hush_attempt {w : World} {t : St} (h : NoRsp t) : Hush t (attempt w t) := by
  rcases attempt_spec w t with e | ⟨c, m, m', hs, hm, hp, e⟩
  · rw [e]; exact hush_here h _
  · rw [e]
    have hr := h.cur hm
    have hpop := populate_spec hr hp
    have hr' : m'.isResponse = false := by
      unfold Msg.isResponse at *
      rw [hpop.status]; exact hr
    have h1 : NoRsp { t with tick := t.tick + 1 } := h.frame rfl rfl
    obtain ⟨f1, f2, f3, f4, f5, f6, f7, f8, f9⟩ := newAttempt_frame { t with tick := t.tick + 1 } m'
    obtain ⟨g1, g2⟩ := setCur_rest { t with tick := t.tick + 1 } m'
    have g3 := (setCur_more { t with tick := t.tick + 1 } m').2
    have hx : (newAttempt { t with tick := t.tick + 1 } m').responseTimer =
          ({ t with tick := t.tick + 1 }.setCur m').responseTimer ∧
        (newAttempt { t with tick := t.tick + 1 } m').response = ({ t with tick := t.tick + 1 }.setCur m').response ∧
        (newAttempt { t with tick := t.tick + 1 } m').responseResends =
          ({ t with tick := t.tick + 1 }.setCur m').responseResends := by
      unfold newAttempt; dsimp only
      split <;> exact ⟨rfl, rfl, rfl⟩
    obtain ⟨x1, x2, x3⟩ := hx
    have hs : Hush t ⟨newAttempt { t with tick := t.tick + 1 } m', .go⟩ :=
      ⟨by rw [f1], x1.trans g1, x2.trans g3, x3.trans g2, (h1.setCur hr').frame f7 f8⟩
    exact hs.trans (hush_sendCur hs.own)

theorem hush_popRoutes {w : World} (l : List Bytes) (s : St) (h : NoRsp s) : Hush s (popRoutes w l s) := by
  induction l generalizing s with
  | nil =>
    have h0 : Hush s ⟨{ s with routes := [] }, .go⟩ := ⟨rfl, rfl, rfl, rfl, h.frame rfl rfl⟩
    exact h0.trans (hush_fail h0.own _)
  | cons a l ih =>
    have h0 : Hush s ⟨{ s with addr := a, routes := l }, .go⟩ := ⟨rfl, rfl, rfl, rfl, h.frame rfl rfl⟩
    simp only [popRoutes]
    split
    · exact ⟨rfl, rfl, rfl, rfl, h.frame rfl rfl⟩
    · have h1 := h0.trans (hush_connect (w := w) h0.own .go)
      split
      · exact h1.trans (hush_attempt h1.own)
      · exact h1.trans (ih _ h1.own)

theorem hush_sendTowards {w : World} {s : St} {q : Req} {hop : Res Err (Bytes × UInt16)} (h : NoRsp s)
    (k : ∀ m, q = .other m → m.isResponse = false) : Hush s (sendTowards w s q hop) := by
  unfold sendTowards
  split
  · exact hush_here h _
  · exact hush_fail h _
  · split
    · exact hush_here h _
    · have h0 : Hush s ⟨{ s with tick := s.tick + 1 }, .go⟩ := ⟨rfl, rfl, rfl, rfl, h.frame rfl rfl⟩
      exact h0.trans (hush_fail h0.own _)
    · rename_i rs _
      have h0 : Hush s ⟨{ s with req := q, routes := rs, dest := ‹Bytes›, tick := s.tick + 1 }, .go⟩ :=
        ⟨rfl, rfl, rfl, rfl, h.invite, k⟩
      exact h0.trans (hush_popRoutes _ _ h0.own)

theorem hush_sendInvite {w : World} {s : St} (h : NoRsp s) : Hush s (sendInvite w s) := by
  unfold sendInvite
  obtain ⟨u, a, hr, ha⟩ := route_none s.invite
  have h0 : Hush s ⟨{ s with invite := (routeMessage none none s.invite).1 }, .go⟩ := by
    refine ⟨rfl, rfl, rfl, rfl, ?_, h.other⟩
    show (routeMessage none none s.invite).1.isResponse = false
    rw [hr]; exact h.invite
  exact h0.trans (hush_sendTowards h0.own (by simp))

theorem hush_out {s : St} (h : NoRsp s) (o : Out) (c : Cont) (ho : ∀ d m x, o ≠ .sent d m x) : Hush s ⟨s.out o, c⟩ :=
  ⟨rsps_other _ _ ho, rfl, rfl, rfl, h.frame rfl rfl⟩

theorem hush_checkSDP {s : St} (h : NoRsp s) (m : Msg) : Hush s (checkSDP s m) := by
  unfold checkSDP
  split
  · split
    · exact hush_out h _ _ (by simp)
    · exact hush_here h _
  · exact hush_here h _

theorem hush_transition {s : St} (h : NoRsp s) (c : CallState) (d : Cont) : Hush s ⟨transition s c, d⟩ :=
  ⟨rsps_other _ _ (by simp), rfl, rfl, rfl, h.frame rfl rfl⟩

theorem hush_ackFinal {w : World} {s : St} (h : NoRsp s) (m cur : Msg) : Hush s (ackFinal w s m cur) := by
  unfold ackFinal
  split
  · split
    · exact hush_fail h _
    · split
      · rename_i hk
        refine hush_sendNew h ?_
        simp only [newAck, Res.bind_eq, Res.bind_ok_iff] at hk
        obtain ⟨_, _, _, _, hk⟩ := hk
        cases hk; rfl
      · exact hush_here h _
  · exact hush_here h _

theorem hush_settle {s : St} (h : NoRsp s) (m : Msg) : Hush s (settle s m) := by
  have h0 : Hush s ⟨{ s with routes := [], requestTimer := false }, .go⟩ := ⟨rfl, rfl, rfl, rfl, h.frame rfl rfl⟩
  unfold settle
  dsimp only
  split
  · exact h0.trans (hush_checkSDP h0.own m)
  · exact h0.trans (hush_here h0.own _)

theorem hush_redirect {w : World} {s : St} (h : NoRsp s) (m : Msg) : Hush s (redirect w s m) := by
  unfold redirect
  split
  · rename_i u _
    have h0 : Hush s ⟨{ s with invite := { s.invite with request := u, addrs := setAt s.invite.addrs .route [] } }, .go⟩ :=
      ⟨rfl, rfl, rfl, rfl, h.invite, h.other⟩
    exact h0.trans (hush_sendInvite h0.own)
  · exact hush_here h _

theorem hush_handleOK {s : St} (h : NoRsp s) (m : Msg) : Hush s (handleOK s m) := by
  unfold handleOK
  split
  · have : Hush s ⟨if s.remote.isNone then transition s .answered else s, .go⟩ := by
      split
      · exact hush_transition h _ _
      · exact hush_here h _
    exact ⟨this.cnt, this.timer, this.rsp, this.resends, this.own.frame rfl rfl⟩
  · split
    · exact hush_transition h _ _
    · exact hush_here h _

theorem hush_handleStatus {w : World} {s : St} (h : NoRsp s) (m : Msg) : Hush s (handleStatus w s m) := by
  unfold handleStatus
  split
  · exact hush_transition h _ _
  split
  · exact hush_transition h _ _
  split
  · exact hush_handleOK h m
  split
  · split
    · exact hush_popRoutes _ _ h
    · exact hush_fail h _
  split
  · exact hush_redirect h m
  split
  · exact hush_fail h _
  · exact hush_here h _

theorem hush_handleResponse {w : World} {s : St} (h : NoRsp s) (m : Msg) : Hush s (handleResponse w s m) := by
  unfold handleResponse
  split
  · exact hush_here h _
  · split
    · exact ((hush_ackFinal h m _).andThen fun t h => hush_settle h m).andThen fun t h => hush_handleStatus h m
    · exact hush_here h _

theorem hush_resendRequest {w : World} {s : St} (h : NoRsp s) : Hush s (resendRequest w s) := by
  unfold resendRequest
  split
  · exact hush_here h _
  split
  · exact (hush_sendCur h).andThen fun t h => ⟨rfl, rfl, rfl, rfl, h.frame rfl rfl⟩
  · split
    · exact hush_here h _
    · exact hush_popRoutes _ _ h

theorem hush_sendHangup {w : World} {s : St} (h : NoRsp s) : Hush s (sendHangup w s) := by
  unfold sendHangup
  split
  · exact hush_sendCancel h
  · exact hush_sendCancel h
  · split
    · exact hush_here h _
    · split
      · rename_i m n hb
        have h0 : Hush s ⟨{ s with lseq := n }, .go⟩ := ⟨rfl, rfl, rfl, rfl, h.frame rfl rfl⟩
        refine h0.trans (hush_sendTowards h0.own ?_)
        intro x hx
        cases hx
        obtain ⟨u, a, hr, ha⟩ := route_none m
        rw [hr]
        exact isOwn_not_response (m := m) (by
          have := isOwn_bye hb
          rw [hr] at this
          exact this)
      · exact hush_here h _
  · exact hush_here h _

/-! ### Responses -/

/-- At most `k` more responses, counting those that may follow. -/
structure Spends (w : World) (k : Nat) (s : St) (r : Run) : Prop where
  cnt : rsps r.s.outs + budget w r.s ≤ rsps s.outs + budget w s + k
  own : NoRsp r.s

theorem Hush.spends {w : World} {s : St} {r : Run} (h : Hush s r) (k : Nat) : Spends w k s r :=
  ⟨by rw [h.budget, h.cnt]; omega, h.own⟩

theorem Spends.mono {w : World} {k k' : Nat} {s : St} {r : Run} (h : Spends w k s r) (hk : k ≤ k') : Spends w k' s r :=
  ⟨by have := h.cnt; omega, h.own⟩

theorem Spends.andThen {w : World} {k : Nat} {s : St} {r : Run} {f : St → Run} (h : Spends w k s r)
    (hf : ∀ t, NoRsp t → Hush t (f t)) : Spends w k s (r.andThen f) := by
  obtain ⟨t, c⟩ := r
  cases c
  · have h1 := hf t h.own
    have h2 := h.cnt
    exact ⟨by show rsps (f t).s.outs + budget w (f t).s ≤ _; rw [h1.budget, h1.cnt]; exact h2, h1.own⟩
  all_goals exact h

/-- A response that is not kept. -/
theorem spends_sendNew {w : World} {s : St} (h : NoRsp s) (m : Msg) : Spends w 1 s (sendNew w s m) := by
  obtain ⟨h1, h2, h3, h4, h5, h6, h7⟩ := send_rest w s m
  refine ⟨?_, h.frame h4 h5⟩
  have : budget w (sendNew w s m).s = budget w s := by
    show budget w (send w s m).1.s = _
    unfold budget
    rw [h1, h2, h3]
  rw [this]
  have : rsps (sendNew w s m).s.outs ≤ _ := h7
  split at this <;> omega

/-- Sending the pending response. -/
theorem sendRsp_rest (w : World) (s : St) : (sendRsp w s).s.responseTimer = s.responseTimer ∧
    (sendRsp w s).s.responseResends = s.responseResends ∧ (sendRsp w s).s.invite = s.invite ∧
    (sendRsp w s).s.req = s.req ∧ rsps (sendRsp w s).s.outs ≤ rsps s.outs + 1 := by
  unfold sendRsp
  split
  · exact ⟨rfl, rfl, rfl, rfl, by dsimp only; omega⟩
  · rename_i m _
    obtain ⟨h1, h2, h3, h4, h5, h6, h7⟩ := send_rest w s m
    refine ⟨h1, h3, h4, h5, ?_⟩
    have : rsps (send w s m).1.s.outs ≤ _ := h7
    show rsps (send w s m).1.s.outs ≤ _
    split at this <;> omega

theorem budget_le (w : World) (s : St) (h : 0 ≤ s.responseResends) : budget w s ≤ w.maxResends.toNat := by
  unfold budget
  split
  · omega
  · omega

theorem spends_sendResponse {w : World} {s : St} (h : NoRsp s) (m : Msg) :
    Spends w (w.maxResends.toNat + 1) s (sendResponse w s m) := by
  unfold sendResponse
  obtain ⟨h1, h2, h3, h4, h5⟩ := sendRsp_rest w { s with response := some m, responseResends := 0, responseTimer := true }
  refine ⟨?_, h.frame h3 h4⟩
  have := budget_le w _ (by rw [h2]; exact Int.le_refl 0)
  have h5 : rsps (sendRsp w { s with response := some m, responseResends := 0, responseTimer := true }).s.outs ≤
    rsps s.outs + 1 := h5
  omega

theorem spends_handleMethod {w : World} {s : St} (h : NoRsp s) (m : Msg) :
    Spends w (w.maxResends.toNat + 1) s (handleMethod w s m) := by
  unfold handleMethod
  split
  · exact ((spends_sendNew h _).andThen fun t h => hush_transition h _ _).mono (by omega)
  split
  · exact (spends_sendNew h _).mono (by omega)
  split
  · have h0 : Hush s ⟨{ s with remote := some m }, .go⟩ := ⟨rfl, rfl, rfl, rfl, h.frame rfl rfl⟩
    have h1 := h0.trans (hush_checkSDP h0.own m)
    generalize checkSDP { s with remote := some m } m = r at h1
    obtain ⟨t, c⟩ := r
    cases c
    · have h2 := spends_sendResponse (w := w) h1.own (newResponse m 200)
      have h3 : budget w t = budget w s := h1.budget
      have h4 : rsps t.outs = rsps s.outs := h1.cnt
      exact ⟨by have := h2.cnt; rw [h3, h4] at this; exact this, h2.own⟩
    all_goals exact h1.spends _
  split
  · refine ⟨?_, h.frame rfl rfl⟩
    have : budget w { s with response := none, responseTimer := false } = 0 := rfl
    rw [this]
    show rsps s.outs + 0 ≤ _
    omega
  · exact (spends_sendNew h _).mono (by omega)

theorem spends_handleMessage {w : World} {s : St} (h : NoRsp s) (m : Msg) :
    Spends w (w.maxResends.toNat + 1) s (handleMessage w s m) := by
  unfold handleMessage
  split
  · exact (hush_here h _).spends _
  split
  · exact ((spends_sendNew h _).andThen fun t h => hush_fail h _).mono (by omega)
  split
  · exact (spends_sendNew h _).mono (by omega)
  split
  · exact (hush_handleResponse h m).spends _
  · unfold handleRequest
    split
    · exact ((spends_sendNew h _).andThen fun t h => hush_fail h _).mono (by omega)
    split
    · exact (spends_sendNew h _).mono (by omega)
    · have h0 : NoRsp { s with rseq := m.cseq } := h.frame rfl rfl
      have := spends_handleMethod (w := w) h0 m
      exact ⟨this.cnt, this.own⟩

theorem spends_responseTimer {w : World} {s : St} (h : NoRsp s) (ht : s.responseTimer = true) :
    Spends w 0 s (resendResponse w { s with responseTimer := false }) := by
  have h0 : NoRsp { s with responseTimer := false } := h.frame rfl rfl
  have hb : budget w { s with responseTimer := false } = 0 := rfl
  unfold resendResponse
  split
  · refine ⟨?_, h0⟩
    show rsps s.outs + budget w { s with responseTimer := false } ≤ _
    rw [hb]; omega
  · rename_i m hm
    have hm : s.response = some m := hm
    split
    · rename_i hlt
      have hlt : s.responseResends < w.maxResends := hlt
      have hbs : budget w s = (w.maxResends - s.responseResends).toNat := by
        unfold budget
        rw [if_pos ⟨ht, by rw [hm]; rfl⟩]
      obtain ⟨h1, h2, h3, h4, h5⟩ := sendRsp_rest w { s with responseTimer := false }
      generalize sendRsp w { s with responseTimer := false } = r at *
      have h5 : rsps r.s.outs ≤ rsps s.outs + 1 := h5
      have h2 : r.s.responseResends = s.responseResends := h2
      have h1 : r.s.responseTimer = false := h1
      obtain ⟨t, c⟩ := r
      have hbt : budget w t = 0 := by unfold budget; rw [if_neg]; rw [h1]; simp
      have hbt' : budget w { t with responseResends := t.responseResends + 1, responseTimer := true } ≤
          (w.maxResends - s.responseResends).toNat - 1 := by
        unfold budget
        split
        · dsimp only; rw [show t.responseResends = s.responseResends from h2]; omega
        · omega
      have h5 : rsps t.outs ≤ rsps s.outs + 1 := h5
      cases c
      · refine ⟨?_, h.frame h3 h4⟩
        show rsps t.outs + budget w { t with responseResends := t.responseResends + 1, responseTimer := true } ≤ _
        omega
      all_goals
        refine ⟨?_, h.frame h3 h4⟩
        show rsps t.outs + budget w t ≤ _
        omega
    · have key : ∀ r, Hush { s with responseTimer := false } r → Spends w 0 s r := by
        intro r hr
        refine ⟨?_, hr.own⟩
        rw [hr.budget, hb, hr.cnt]
        show rsps s.outs + 0 ≤ _
        omega
      split
      · exact key _ (hush_here h0 _)
      · exact key _ (hush_popRoutes _ _ h0)

/-- The event is a message. -/
def isMsg : Event → Bool
  | .msg _ => true
  | _ => false

/-- Number of messages among the events. -/
def msgs (evs : List Event) : Nat := evs.countP isMsg

theorem spends_step {w : World} {s : St} (h : NoRsp s) (e : Event) :
    Spends w (if isMsg e = true then w.maxResends.toNat + 1 else 0) s (step w s e) := by
  cases e <;> simp only [isMsg, Bool.false_eq_true, if_true, if_false]
  case sockErr r n =>
    simp only [step]
    split
    · exact (hush_here h _).spends _
    have h0 : Hush s ⟨{ s with sock := none }, .go⟩ := ⟨rfl, rfl, rfl, rfl, h.frame rfl rfl⟩
    split
    · exact (h0.trans (hush_here h0.own _)).spends _
    · exact (h0.trans (hush_fail h0.own _)).spends _
  case csockErr n =>
    simp only [step]
    split
    · exact (hush_here h _).spends _
    · have h0 : Hush s ⟨{ s with csock := none }, .go⟩ := ⟨rfl, rfl, rfl, rfl, h.frame rfl rfl⟩
      exact (h0.trans (hush_fail h0.own _)).spends _
  case requestTimer =>
    simp only [step]
    split
    · have h0 : Hush s ⟨{ s with requestTimer := false }, .go⟩ := ⟨rfl, rfl, rfl, rfl, h.frame rfl rfl⟩
      exact (h0.trans (hush_resendRequest h0.own)).spends _
    · exact (hush_here h _).spends _
  case responseTimer =>
    simp only [step]
    split
    · rename_i ht
      exact spends_responseTimer h ht
    · exact (hush_here h _).spends _
  case msg m =>
    simp only [step]
    split
    · exact (hush_here h _).spends _
    · exact spends_handleMessage h m
  case hangup => exact (hush_sendHangup h).spends _

theorem spends_loop {w : World} (evs : List Event) (r : Run) (h : NoRsp r.s) :
    rsps (loop w evs r).s.outs + budget w (loop w evs r).s ≤
      rsps r.s.outs + budget w r.s + msgs evs * (w.maxResends.toNat + 1) := by
  induction evs generalizing r with
  | nil => simp [loop, msgs]
  | cons e evs ih =>
    have hstep : rsps (r.andThen fun s => step w s e).s.outs + budget w (r.andThen fun s => step w s e).s ≤
        rsps r.s.outs + budget w r.s + (if isMsg e = true then w.maxResends.toNat + 1 else 0) ∧
        NoRsp (r.andThen fun s => step w s e).s := by
      obtain ⟨t, c⟩ := r
      cases c
      · have := spends_step (w := w) h e
        exact ⟨this.cnt, this.own⟩
      all_goals exact ⟨Nat.le_add_right _ _, h⟩
    have := ih _ hstep.2
    have hk : msgs (e :: evs) = msgs evs + if isMsg e = true then 1 else 0 := by
      simp [msgs, List.countP_cons]
    have hmul : msgs (e :: evs) * (w.maxResends.toNat + 1) = msgs evs * (w.maxResends.toNat + 1) +
        if isMsg e = true then w.maxResends.toNat + 1 else 0 := by
      rw [hk, Nat.add_mul]
      congr 1
      split <;> simp
    have h1 := hstep.1
    rw [hmul]
    simp only [loop]
    omega

theorem spends_dialog (w : World) (i0 : Msg) (evs : List Event) (hi : i0.isResponse = false) :
    rsps (dialog w i0 evs).s.outs ≤ msgs evs * (w.maxResends.toNat + 1) := by
  have h0 : NoRsp { invite := i0 } := ⟨hi, fun m hm => by cases hm⟩
  have h1 : Hush { invite := i0 } (start w i0) := hush_sendInvite h0
  have h2 := spends_loop (w := w) evs _ h1.own
  have h3 : rsps (start w i0).s.outs = 0 := h1.cnt
  have h4 : budget w (start w i0).s = 0 := h1.budget
  rw [h3, h4] at h2
  have h : rsps (loop w evs (start w i0)).s.outs ≤ msgs evs * (w.maxResends.toNat + 1) := by omega
  unfold dialog
  dsimp only
  split
  · unfold cleanup
    split
    · exact h
    split
    · exact h
    · show rsps (_ ++ [.closed]) ≤ _
      rw [rsps_other _ _ (by simp)]; exact h
  · exact h

end Gosip.Dialog
