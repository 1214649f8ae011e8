import Verif.Dialog.Resend

/-!
# What keeps the dialog from crashing
-/

namespace Gosip.Dialog
open Sip Spec

/-- The first Contact has a URI, if there is one. -/
def ContactOK (m : Msg) : Prop := ∀ a l, m.addrs .contact = a :: l → a.uri ≠ none

/-- The message can be routed. -/
structure Routable (m : Msg) : Prop where
  line : m.isResponse = false
  contact : ContactOK m
  request : m.request ≠ none
  route : ∀ a ∈ m.addrs .route, a.uri ≠ none

/-- The message can be hung up on. -/
structure RemoteOK (m : Msg) : Prop where
  contact : ∃ a l, m.addrs .contact = a :: l ∧ a.uri ≠ none
  recordRoute : ∀ a ∈ m.addrs .recordRoute, a.uri ≠ none

/-- What does not concern the request. -/
structure Calm (w : World) (s : St) : Prop where
  remote : ∀ m, s.remote = some m → RemoteOK m
  known : s.state = .answered → s.remote.isSome
  response : ∀ r, s.response = some r → CanStamp w r
  alive : s.state ≠ .hangup

/-- The dialog is about to send its current request. -/
structure Chosen (w : World) (s : St) : Prop extends Calm w s where
  cur : ∃ m, s.cur = some m ∧ ContactOK m ∧ m.isResponse = false
  invite : Routable s.invite
  sent : s.req = .invite ∨ s.invite.via ≠ []

/-- The dialog is running. -/
structure Safe (w : World) (s : St) : Prop extends Calm w s where
  sock : ∃ c, s.sock = some c
  cur : ∃ m, s.cur = some m ∧ ContactOK m ∧ m.isResponse = false ∧ m.via ≠ []
  invite : Routable s.invite
  sent : s.invite.via ≠ []

/-- A handler did not crash, waits for ever only for a receiver that has nothing to deliver, and may go on only in a
safe state. -/
def SafeRun (w : World) (r : Run) : Prop :=
  (r.c ≠ .crash ∧ (r.c = .stuck → ∃ n, w.frees n = false)) ∧ (r.c = .go → Safe w r.s)

theorem SafeRun.andThen {w : World} {r : Run} {f : St → Run} (h : SafeRun w r) (k : ∀ t, Safe w t → SafeRun w (f t)) :
    SafeRun w (r.andThen f) := by
  obtain ⟨t, c⟩ := r
  cases c with
  | go => exact k t (h.2 rfl)
  | stop => exact h
  | crash => exact h
  | stuck => exact h

theorem safe_fail (w : World) (s : St) (e : DErr) : SafeRun w (s.fail e) := ⟨by simp [St.fail], by simp [St.fail]⟩

theorem Calm.of_eq {w : World} {s t : St} (h : Calm w s) (h1 : t.remote = s.remote := by rfl) (h2 : t.state = s.state := by rfl)
    (h3 : t.response = s.response := by rfl) : Calm w t :=
  ⟨fun m hm => h.remote m (h1 ▸ hm), fun hs => by rw [h1]; exact h.known (h2 ▸ hs),
    fun r hr => h.response r (h3 ▸ hr), fun hs => h.alive (h2 ▸ hs)⟩

theorem Safe.of_eq {w : World} {s t : St} (h : Safe w s) (h4 : t.sock = s.sock := by rfl)
    (h5 : t.req = s.req := by rfl) (h6 : t.invite = s.invite := by rfl)
    (h1 : t.remote = s.remote := by rfl) (h2 : t.state = s.state := by rfl)
    (h3 : t.response = s.response := by rfl) : Safe w t :=
  { h.toCalm.of_eq h1 h2 h3 with
    sock := h4 ▸ h.sock
    cur := by have := h.cur; unfold St.cur at this ⊢; rw [h5, h6]; exact this
    invite := h6 ▸ h.invite
    sent := h6 ▸ h.sent }

theorem Safe.with_calm {w : World} {s t : St} (h : Safe w s) (k : Calm w t) (h4 : t.sock = s.sock := by rfl)
    (h5 : t.req = s.req := by rfl) (h6 : t.invite = s.invite := by rfl) : Safe w t :=
  { k with
    sock := h4 ▸ h.sock
    cur := by have := h.cur; unfold St.cur at this ⊢; rw [h5, h6]; exact this
    invite := h6 ▸ h.invite
    sent := h6 ▸ h.sent }

/-! ### Sending -/

theorem stamped_frame {x y : Msg} (h : Stamped x y) : ∃ v, y = { x with via := v } := by
  rcases h with rfl | ⟨v, l, ts, _, _, rfl⟩
  · exact ⟨_, rfl⟩
  · exact ⟨_, rfl⟩

theorem decForwards_via (m : Msg) : (decForwards m).via = m.via := by unfold decForwards; split <;> rfl

theorem canStamp_dec {w : World} {m : Msg} (h : CanStamp w m) : CanStamp w (decForwards m) := by
  rcases h with h | h
  · exact .inl (by rw [decForwards_via]; exact h)
  · exact .inr h

/-- What sending a message that can be stamped does. -/
inductive Posted (w : World) (s : St) (c : Conn) (m : Msg) : Run × Msg → Prop where
  | loop : Posted w s c m (s.fail .localLoop, { m with maxForwards := 0 })
  | sent {m'} (x) : Stamped (decForwards m) m' →
      Posted w s c m (⟨{ s with tick := s.tick + 1 }.out (.sent c.remote m' x), .go⟩, m'.appended)
  | broken {m'} (x e) : Stamped (decForwards m) m' →
      Posted w s c m (({ s with tick := s.tick + 1 }.out (.sent c.remote m' x)).fail (.net e), m'.appended)

theorem send_sent {w : World} {s : St} {c : Conn} {m : Msg} (hs : s.sock = some c) (hv : CanStamp w m) :
    Posted w s c m (send w s m) := by
  unfold send
  split
  · exact .loop
  · obtain ⟨m', ht, hst⟩ := stamp_ok (canStamp_dec hv) s.tick
    unfold writeMsg
    split
    · rename_i h1 h2
      rw [ht] at h1
      cases h1
      rw [hs] at h2
      cases h2
      dsimp only
      split
      · exact .sent _ hst
      · exact .broken _ _ hst
    · rename_i hno
      exact absurd hs (hno _ _ ht)

theorem safe_sendNew {w : World} {s : St} {m : Msg} (h : Safe w s) (hv : CanStamp w m) : SafeRun w (sendNew w s m) := by
  obtain ⟨c, hs⟩ := h.sock
  have hr := send_sent (w := w) (m := m) hs hv
  unfold sendNew
  generalize send w s m = x at hr ⊢
  cases hr with
  | loop => exact safe_fail w s _
  | sent x => exact ⟨by simp, fun _ => h.of_eq⟩
  | broken x e => exact safe_fail w _ _

theorem appended_via (m : Msg) : m.appended.via = m.via := by unfold Msg.appended; split <;> rfl

theorem canStamp_sent {w : World} {m m' : Msg} (h : Stamped (decForwards m) m') (hv : CanStamp w m) :
    CanStamp w m'.appended := by
  rcases canStamp_stamped h (canStamp_dec hv) with k | k
  · exact .inl (by rw [appended_via]; exact k)
  · exact .inr k

theorem safe_sendRsp {w : World} {s : St} (h : Safe w s) (hr : s.response ≠ none) : SafeRun w (sendRsp w s) := by
  obtain ⟨c, hs⟩ := h.sock
  unfold sendRsp
  split
  · contradiction
  · rename_i m hm
    have hv := h.response m hm
    have hr := send_sent (w := w) (m := m) hs hv
    generalize send w s m = x at hr ⊢
    cases hr with
    | loop => exact ⟨by simp [St.fail], by simp [St.fail]⟩
    | sent x hst =>
      refine ⟨by simp, fun _ => h.with_calm ⟨h.remote, h.known, fun r hr => ?_, h.alive⟩⟩
      cases hr
      exact canStamp_sent hst hv
    | broken x e => exact ⟨by simp [St.fail], by simp [St.fail]⟩

/-- The request that was sent is as good as the one to be sent. -/
theorem sent_frame {m m' : Msg} (h : Stamped (decForwards m) m') (hl : m.isResponse = false) :
    ∃ v n, m'.appended = { m with via := v, maxForwards := n } := by
  obtain ⟨n, hn⟩ := decForwards_frame m
  obtain ⟨v, hv⟩ := stamped_frame h
  refine ⟨v, n, ?_⟩
  rw [hn] at hv
  rw [appended_own (by rw [hv]; exact hl), hv]

theorem sent_via {m m' : Msg} (h : Stamped (decForwards m) m') (hv : m.via ≠ []) : m'.appended.via ≠ [] := by
  rw [appended_via]
  exact via_stamped h (by rw [decForwards_via]; exact hv)

theorem safe_setCur {w : World} {s : St} {m : Msg} (hs : ∃ c, s.sock = some c) (hc : Calm w s) (hq : s.cur ≠ none)
    (hi : Routable s.invite)
    (hsent : s.req = .invite ∨ s.invite.via ≠ []) (h1 : ContactOK m) (h2 : m.isResponse = false) (h3 : m.via ≠ [])
    (h4 : s.req = .invite → Routable m) : Safe w (s.setCur m) := by
  unfold St.setCur
  cases hr : s.req with
  | none => unfold St.cur at hq; rw [hr] at hq; contradiction
  | invite => exact { hc.of_eq with sock := hs, cur := ⟨m, by simp [St.cur], h1, h2, h3⟩, invite := h4 hr, sent := h3 }
  | other m0 =>
    refine { hc.of_eq with sock := hs, cur := ⟨m, by simp [St.cur], h1, h2, h3⟩, invite := hi, sent := ?_ }
    rcases hsent with k | k
    · rw [hr] at k; cases k
    · exact k

theorem safe_sendCur {w : World} {s : St} (hs : ∃ c, s.sock = some c) (hc : Calm w s)
    (hq : ∃ m, s.cur = some m ∧ ContactOK m ∧ m.isResponse = false ∧ m.via ≠ []) (hi : Routable s.invite)
    (hsent : s.req = .invite ∨ s.invite.via ≠ []) : SafeRun w (sendCur w s) := by
  obtain ⟨c, hs'⟩ := hs
  obtain ⟨m, hm, h1, h2, h3⟩ := hq
  unfold sendCur
  rw [hm]
  dsimp only
  have hr := send_sent (w := w) (m := m) hs' (.inl h3)
  generalize send w s m = x at hr ⊢
  cases hr with
  | loop => exact ⟨by simp [St.fail], by simp [St.fail]⟩
  | @sent m' x hst =>
    refine ⟨by simp, fun _ => ?_⟩
    obtain ⟨v, n, hf⟩ := sent_frame hst h2
    refine safe_setCur ⟨c, hs'⟩ hc.of_eq ?_ hi hsent ?_ ?_ (sent_via hst h3) ?_
    · show s.cur ≠ none; rw [hm]; simp
    · rw [hf]; exact h1
    · rw [hf]; exact h2
    · intro hq
      have hq' : s.req = .invite := hq
      have : m = s.invite := by unfold St.cur at hm; rw [hq'] at hm; exact (Option.some.inj hm).symm
      rw [hf, this]
      exact ⟨hi.line, hi.contact, hi.request, hi.route⟩
  | broken x e => exact ⟨by simp [St.fail], by simp [St.fail]⟩

theorem safe_sendCur' {w : World} {s : St} (h : Safe w s) : SafeRun w (sendCur w s) :=
  safe_sendCur h.sock h.toCalm h.cur h.invite (.inr h.sent)

theorem safe_sendCancel {w : World} {s : St} (h : Safe w s) : SafeRun w (sendCancel w s) := by
  obtain ⟨c, hs⟩ := h.sock
  unfold sendCancel
  dsimp only
  have hr := send_sent (w := w) (m := newCancel s.invite) hs (.inl h.sent)
  generalize send w s (newCancel s.invite) = x at hr ⊢
  cases hr with
  | loop => exact ⟨by simp [St.fail], by simp [St.fail]⟩
  | @sent m' x hst =>
    refine ⟨by simp, fun _ => ?_⟩
    have hv := sent_via hst (show (newCancel s.invite).via ≠ [] from h.sent)
    exact { h.toCalm.of_eq with
      sock := ⟨c, hs⟩
      cur := by
        obtain ⟨m, hm, h1, h2, h3⟩ := h.cur
        cases hq : s.req with
        | none => unfold St.cur at hm; rw [hq] at hm; cases hm
        | invite =>
          refine ⟨{ s.invite with via := m'.appended.via }, by simp [St.cur, St.out], h.invite.contact, h.invite.line, hv⟩
        | other m0 =>
          refine ⟨m, ?_, h1, h2, h3⟩
          unfold St.cur at hm ⊢
          simp only [hq, St.out] at hm ⊢
          exact hm
      invite := ⟨h.invite.line, h.invite.contact, h.invite.request, h.invite.route⟩
      sent := hv }
  | broken x e => exact ⟨by simp [St.fail], by simp [St.fail]⟩

/-! ### Connecting -/

theorem connectLoose_frame (w : World) (s : St) : ∃ y n, (connectLoose w s).1 = { s with csock := y, tick := n } := by
  unfold connectLoose
  split
  · split
    · exact ⟨s.csock, s.tick + 1, rfl⟩
    · rename_i p _; exact ⟨some p, s.tick + 1, rfl⟩
  · exact ⟨s.csock, s.tick, rfl⟩

theorem connect_frame (w : World) (s : St) : ∃ x y n o, (connect w s).1 = { s with sock := x, csock := y, tick := n, outs := o } := by
  unfold connect
  split
  · exact ⟨s.sock, s.csock, s.tick, s.outs, rfl⟩
  · dsimp only
    split
    · exact ⟨none, s.csock, s.tick + 1, _, rfl⟩
    · rename_i c _
      obtain ⟨y, n, h⟩ := connectLoose_frame w { ({ s with sock := none, tick := s.tick + 1 }.out (.dial s.addr)) with sock := some c }
      rw [h]
      exact ⟨some c, y, n, _, rfl⟩

theorem populateContact_ok {c : Conn} {cs : Option UInt16} {l : List Addr} (h : ∀ a k, l = a :: k → a.uri ≠ none) :
    ∃ a u k, populateContact c cs l = .ok (a :: k) ∧ a.uri = some u := by
  unfold populateContact
  cases l with
  | nil => exact ⟨_, _, _, rfl, rfl⟩
  | cons a k =>
    cases hu : a.uri with
    | none => exact absurd hu (h a k rfl)
    | some u => exact ⟨{ a with uri := some (populateContactUri (cs.getD c.lport) u) }, _, k, by simp only [hu], rfl⟩

theorem populateVia_ne (b : Bytes) (c : Conn) (l : List Via) : populateVia b c l ≠ [] := by
  unfold populateVia
  split <;> simp

/-- Completing a request succeeds. -/
theorem populate_ok {ids : Ids} {o : Bytes} {c : Conn} {cs : Option UInt16} {m : Msg} (h : ContactOK m)
    (hl : m.isResponse = false) :
    ∃ m', populate ids o c cs m = .ok m' ∧ ContactOK m' ∧ m'.isResponse = false ∧ m'.via ≠ [] ∧
      m'.request = m.request ∧ m'.addrs .route = m.addrs .route := by
  obtain ⟨a, u, k, hc, hu⟩ := populateContact_ok (c := c) (cs := cs) h
  have hex : ∃ m', populate ids o c cs m = .ok m' ∧ m'.addrs .contact = a :: k := by
    unfold populate
    rw [hc]
    simp only [Res.bind_eq, Res.bind]
    unfold populateMessage
    rw [if_neg (by intro hc; rw [show m.isResponse = true from hc] at hl; simp at hl)]
    have hne := populateVia_ne ids.branch c m.via
    have hca : setAt m.addrs .contact (a :: k) .contact = a :: k := by simp [setAt]
    simp only [hca, hne, if_false, reduceCtorEq]
    have hf : ∃ b l, ensureFrom (setAt m.addrs .contact (a :: k) .from) (a :: k) = .ok (b :: l) := by
      unfold ensureFrom
      split
      · simp only [fromContact, hu]
        exact ⟨_, _, rfl⟩
      · rename_i hn
        cases hx : setAt m.addrs .contact (a :: k) .from with
        | nil => rw [hx] at hn; exact absurd rfl hn
        | cons b l => exact ⟨b, l, rfl⟩
    obtain ⟨b, l, hf⟩ := hf
    rw [hf]
    simp only [Res.bind_eq, Res.bind]
    cases hv : populateVia ids.branch c m.via with
    | nil => exact absurd hv hne
    | cons v vs =>
      have hb : ∃ v', ensureBranch ids.branch (v :: vs) = .ok v' := by
        simp only [ensureBranch]; split <;> exact ⟨_, rfl⟩
      have ht : ∃ f', ensureTag ids.tag (b :: l) = .ok f' := by
        simp only [ensureTag]; split <;> exact ⟨_, rfl⟩
      obtain ⟨v', hb⟩ := hb
      obtain ⟨f', ht⟩ := ht
      rw [hb, ht]
      refine ⟨_, rfl, ?_⟩
      simp [setAt]
  obtain ⟨m', h1, h2⟩ := hex
  have hs := populate_spec hl h1
  refine ⟨m', h1, ?_, ?_, hs.via, hs.request, hs.other .route (by simp) (by simp) (by simp)⟩
  · intro x l hx
    rw [h2] at hx
    cases hx
    rw [hu]; simp
  · unfold Msg.isResponse at hl ⊢; rw [hs.status]; exact hl

theorem setCur_calm {w : World} {s : St} (m : Msg) (h : Calm w s) : Calm w (s.setCur m) := by
  unfold St.setCur; split <;> exact h.of_eq

theorem newAttempt_calm {w : World} {s : St} (m : Msg) (h : Calm w s) : Calm w (newAttempt s m) := by
  have k := setCur_calm m h
  unfold newAttempt
  dsimp only
  split
  · rename_i hr
    exact ⟨by simp, fun hs => by rw [show (s.setCur m).state = .answered from hs] at hr; simp [CallState.rank] at hr,
      k.response, k.alive⟩
  · exact k.of_eq

theorem newAttempt_req (s : St) (m : Msg) : (newAttempt s m).req = (s.setCur m).req ∧
    (newAttempt s m).invite = (s.setCur m).invite ∧ (newAttempt s m).sock = s.sock := by
  unfold newAttempt
  dsimp only
  split
  · refine ⟨rfl, rfl, ?_⟩
    show (s.setCur m).sock = _
    exact (setCur_frame s m).2.2.2.1
  · refine ⟨rfl, rfl, ?_⟩
    show (s.setCur m).sock = _
    exact (setCur_frame s m).2.2.2.1

theorem safe_attempt {w : World} {s : St} (hs : ∃ c, s.sock = some c) (h : Chosen w s) : SafeRun w (attempt w s) := by
  obtain ⟨c, hs⟩ := hs
  obtain ⟨m, hm, h1, h2⟩ := h.cur
  obtain ⟨m', hp, p1, p2, p3, p4, p5⟩ := populate_ok (ids := w.ids s.tick) (o := w.origin s.tick) (c := c) (cs := s.csock) h1 h2
  unfold attempt
  rw [hs, hm]
  dsimp only
  rw [hp]
  dsimp only
  have hcalm := newAttempt_calm m' (h.toCalm.of_eq (t := { s with tick := s.tick + 1 }))
  obtain ⟨q1, q2, q3⟩ := newAttempt_req { s with tick := s.tick + 1 } m'
  have hset := safe_setCur (w := w) (s := { s with tick := s.tick + 1 }) (m := m') ⟨c, hs⟩ h.toCalm.of_eq
    (by show s.cur ≠ none; rw [hm]; simp) h.invite h.sent p1 p2 p3 (by
      intro hq
      have hq' : s.req = .invite := hq
      have hmi : m = s.invite := by unfold St.cur at hm; rw [hq'] at hm; exact (Option.some.inj hm).symm
      subst hmi
      exact ⟨p2, p1, by rw [p4]; exact h.invite.request, by rw [p5]; exact h.invite.route⟩)
  rw [hs, hm] at *
  refine safe_sendCur ?_ hcalm ?_ ?_ ?_
  · rw [q3]; exact ⟨c, hs⟩
  · have := hset.cur
    unfold St.cur at this ⊢
    rw [q1, q2]
    exact this
  · rw [q2]; exact hset.invite
  · rw [q2]; exact .inr hset.sent

theorem safe_popRoutes {w : World} (l : List Bytes) : ∀ s, Chosen w s → SafeRun w (popRoutes w l s) := by
  induction l with
  | nil => intro s _; exact safe_fail w _ _
  | cons a l ih =>
    intro s h
    have hk : Chosen w (connect w { s with addr := a, routes := l }).1 := by
      obtain ⟨x, y, n, o, hf⟩ := connect_frame w { s with addr := a, routes := l }
      rw [hf]
      exact { h.toCalm.of_eq with cur := h.cur, invite := h.invite, sent := h.sent }
    unfold popRoutes
    dsimp only
    split
    · rename_i hb
      refine ⟨⟨by simp, fun _ => ⟨s.tick, ?_⟩⟩, by simp⟩
      unfold blocked at hb
      simp at hb
      exact hb.2
    split
    · rename_i hc
      exact safe_attempt (connect_sock w _ hc) hk
    · exact ih _ hk

theorem Safe.chosen {w : World} {s : St} (h : Safe w s) : Chosen w s :=
  { h.toCalm with
    cur := by obtain ⟨m, h1, h2, h3, _⟩ := h.cur; exact ⟨m, h1, h2, h3⟩
    invite := h.invite
    sent := .inr h.sent }

theorem routeAddress_ne_panic (r : Resolver) (host : Bytes) (port : UInt16) (b : Bool) :
    (routeAddress r host port b).2 ≠ .panic := by
  have h : ∀ p, (resolveOne r host p).2 ≠ .panic := by
    intro p
    unfold resolveOne
    dsimp only
    split <;> simp
  unfold routeAddress
  split
  · simp
  split
  · split
    · split
      · simp
      · exact h _
    · exact h _
  · exact h _

/-- Routing a routable message works, and leaves it routable. -/
theorem route_ok {m : Msg} (h : Routable m) :
    Routable (routeMessage none none m).1 ∧ (routeMessage none none m).2 ≠ .panic ∧
    (routeMessage none none m).1.via = m.via := by
  unfold routeMessage
  rw [if_neg (by rw [h.line]; simp)]
  have hp : popRoute none (m.addrs .route) = m.addrs .route := by simp [popRoute, addrCompareHostPort]
  rw [hp]
  have hset : setAt m.addrs .route (m.addrs .route) = m.addrs := by
    funext f; unfold setAt; split
    · rename_i hf; rw [hf]
    · rfl
  dsimp only
  rw [hset]
  split
  · refine ⟨h, ?_, rfl⟩
    have := h.request
    unfold uriHop
    split
    · contradiction
    · simp
  · rename_i r rest hr
    split
    · exact ⟨h, by simp, rfl⟩
    · split
      · rename_i hu; exact absurd hu (h.route r (by rw [hr]; simp))
      · rename_i u hu
        split
        · exact ⟨h, by simp, rfl⟩
        · refine ⟨⟨h.line, ?_, by simp, ?_⟩, by simp, rfl⟩
          · intro a l ha
            simp [setAt] at ha
            exact h.contact a l ha
          · intro a ha
            simp only [setAt, if_true, addrCopy, List.mem_append, List.mem_map, List.mem_singleton] at ha
            rcases ha with ⟨b, hb, rfl⟩ | rfl
            · exact h.route b (by rw [hr]; simp [hb])
            · exact h.request

theorem safe_towards {w : World} {s : St} {q : Req} {hop : Res Err (Bytes × UInt16)} (hp : hop ≠ .panic)
    (h : ∀ rs host, Chosen w { s with req := q, routes := rs, dest := host, tick := s.tick + 1 }) :
    SafeRun w (sendTowards w s q hop) := by
  unfold sendTowards
  split
  · contradiction
  · exact safe_fail w _ _
  · split
    · rename_i hr; exact absurd hr (routeAddress_ne_panic _ _ _ _)
    · exact safe_fail w _ _
    · exact safe_popRoutes _ _ (h _ _)

theorem safe_sendInvite {w : World} {s : St} (hc : Calm w s) (hi : Routable s.invite) : SafeRun w (sendInvite w s) := by
  obtain ⟨h1, h2, h3⟩ := route_ok hi
  unfold sendInvite
  dsimp only
  refine safe_towards h2 fun rs host => ?_
  exact { hc.of_eq with
    cur := ⟨_, rfl, h1.contact, h1.line⟩
    invite := h1
    sent := .inl rfl }

/-! ### Handlers -/

theorem safe_checkSDP {w : World} {s : St} {m : Msg} (h : Safe w s) (ha : HasAudio m) : SafeRun w (checkSDP s m) := by
  rcases checkSDP_ok (s := s) ha with k | ⟨a, p, k⟩
  · rw [k]; exact ⟨by simp, fun _ => h⟩
  · rw [k]; exact ⟨by simp, fun _ => h.of_eq⟩

theorem safe_settle {w : World} {s : St} {m : Msg} (h : Safe w s) (ha : HasAudio m) : SafeRun w (settle s m) := by
  unfold settle
  dsimp only
  split
  · exact safe_checkSDP h.of_eq ha
  · exact ⟨by simp, fun _ => h.of_eq⟩

theorem safe_transition {w : World} {s : St} (h : Safe w s) (c : CallState) (hc : c = .proceeding ∨ c = .ringing) :
    Safe w (transition s c) := by
  refine h.with_calm ⟨h.remote, ?_, h.response, ?_⟩
  · intro hs
    have : c = .answered := hs
    rcases hc with rfl | rfl <;> cases this
  · intro hs
    have : c = .hangup := hs
    rcases hc with rfl | rfl <;> cases this

theorem remoteOK_of {m : Msg} (hu : HasUris m) (hc : m.addrs .contact ≠ []) : RemoteOK m := by
  refine ⟨?_, hu _⟩
  cases h : m.addrs .contact with
  | nil => contradiction
  | cons a l => exact ⟨a, l, rfl, hu .contact a (by rw [h]; simp)⟩

theorem safe_handleStatus {w : World} {s : St} {m : Msg} (h : Safe w s) (hu : HasUris m)
    (hc : m.status = 301 ∨ m.status = 302 ∨ (m.status = 200 ∧ m.cseqMethod = b!"INVITE") → m.addrs .contact ≠ []) :
    SafeRun w (handleStatus w s m) := by
  unfold handleStatus
  split
  · exact ⟨by simp, fun _ => safe_transition h _ (.inl rfl)⟩
  split
  · exact ⟨by simp, fun _ => safe_transition h _ (.inr rfl)⟩
  split
  · rename_i h200
    unfold handleOK
    split
    · rename_i hinv
      refine ⟨by simp, fun _ => ?_⟩
      have hr := remoteOK_of hu (hc (.inr (.inr ⟨h200, hinv⟩)))
      dsimp only
      split
      · refine h.with_calm ⟨?_, by simp, h.response, by simp [transition, St.out]⟩
        intro x hx; cases hx; exact hr
      · refine h.with_calm ⟨?_, by simp, h.response, h.alive⟩
        intro x hx; cases hx; exact hr
    · split
      · exact ⟨by simp, by simp⟩
      · exact ⟨by simp, fun _ => h⟩
  split
  · split
    · exact safe_popRoutes _ _ h.chosen
    · exact safe_fail w _ _
  split
  · rename_i h3
    unfold redirect
    have hne := hc (by rcases h3 with k | k; exact .inl k; exact .inr (.inl k))
    cases hcon : m.addrs .contact with
    | nil => contradiction
    | cons a l =>
      simp only [headUri]
      refine safe_sendInvite h.toCalm.of_eq ⟨h.invite.line, ?_, ?_, ?_⟩
      · intro x k hx
        simp [setAt] at hx
        exact h.invite.contact x k hx
      · exact hu .contact a (by rw [hcon]; simp)
      · intro x hx; simp [setAt] at hx
  split
  · exact safe_fail w _ _
  · exact ⟨by simp, fun _ => h⟩

theorem match_via {cur m : Msg} (h : responseMatch cur m = true) : m.via ≠ [] := by
  obtain ⟨_, _, _, more, mine, _, _, h, _⟩ := (Props.C36_response_match cur m).1 h
  rw [h]; simp

theorem safe_ackFinal {w : World} {s : St} {m cur : Msg} (h : Safe w s) (hv : m.via ≠ []) :
    SafeRun w (ackFinal w s m cur) := by
  unfold ackFinal
  split
  · split
    · exact safe_fail w _ _
    · rename_i hc
      have hack := Props.C35_ack m cur
      cases ha : newAck m cur with
      | panic => rcases hack.2.1.1 ha with k | k <;> contradiction
      | err e => exact absurd ha (hack.2.2 e)
      | ok a =>
        dsimp only
        refine safe_sendNew h (.inl ?_)
        obtain ⟨top, more, _, h2⟩ := (hack.1 a ha).via
        rw [h2]; simp
  · exact ⟨by simp, fun _ => h⟩

theorem safe_handleResponse {w : World} {s : St} {m : Msg} {b : Bool} (h : Safe w s) (hm : Civil b m) :
    SafeRun w (handleResponse w s m) := by
  obtain ⟨cur, hc, _⟩ := h.cur
  unfold handleResponse
  rw [hc]
  dsimp only
  split
  · rename_i hmt
    have hA := (Props.C36_response_match cur m).1 hmt
    by_cases hno : m.status = 200 ∧ m.cseqMethod = b!"INVITE" ∧ m.addrs .contact = []
    · -- the response is refused at once
      have hmeth : cur.method = b!"INVITE" := by rw [← hA.2.2.1]; exact hno.2.1
      have : ackFinal w s m cur = s.fail .noContact := by
        unfold ackFinal
        rw [if_pos ⟨by rw [hno.1]; decide, hmeth⟩, if_pos hno.2.2]
      rw [this]
      exact safe_fail w s _
    · refine ((safe_ackFinal h (match_via hmt)).andThen fun t ht => safe_settle ht hm.audio).andThen
        fun t ht => safe_handleStatus ht hm.uris ?_
      rintro (k | k | k)
      · exact hm.contact (.inr (.inl k))
      · exact hm.contact (.inr (.inr k))
      · exact fun hn => hno ⟨k.1, k.2, hn⟩
  · exact ⟨by simp, fun _ => h⟩

theorem safe_sendResponse {w : World} {s : St} {m : Msg} (h : Safe w s) (hv : CanStamp w m) :
    SafeRun w (sendResponse w s m) := by
  unfold sendResponse
  refine safe_sendRsp (h.with_calm ⟨h.remote, h.known, ?_, h.alive⟩) (by simp)
  intro r hr
  cases hr
  exact hv

theorem safe_handleMethod {w : World} {s : St} {m : Msg} {b : Bool} (h : Safe w s) (hm : Civil b m) (hreq : m.status ≤ 0)
    (hv : CanStamp w m) : SafeRun w (handleMethod w s m) := by
  unfold handleMethod
  split
  · exact (safe_sendNew h (canStamp_rsp hv 200)).andThen fun t _ => ⟨by simp, by simp⟩
  split
  · exact safe_sendNew h (canStamp_rsp hv 200)
  split
  · rename_i hi
    have hr := remoteOK_of hm.uris (hm.contact (.inl ⟨hreq, hi⟩))
    have h' : Safe w { s with remote := some m } := by
      refine h.with_calm ⟨?_, by simp, h.response, h.alive⟩
      intro x hx; cases hx; exact hr
    exact (safe_checkSDP h' hm.audio).andThen fun t ht => safe_sendResponse ht (canStamp_rsp hv 200)
  split
  · refine ⟨by simp, fun _ => h.with_calm ⟨h.remote, h.known, by simp, h.alive⟩⟩
  · exact safe_sendNew h (canStamp_rsp hv 405)

theorem safe_handleRequest {w : World} {s : St} {m : Msg} {b : Bool} (h : Safe w s) (hm : Civil b m) (hreq : m.status ≤ 0)
    (hv : CanStamp w m) : SafeRun w (handleRequest w s m) := by
  unfold handleRequest
  split
  · exact (safe_sendNew h (canStamp_rsp hv 483)).andThen fun t _ => safe_fail w t _
  split
  · exact safe_sendNew h (canStamp_rsp hv 500)
  · exact safe_handleMethod h.of_eq hm hreq hv

theorem safe_handleMessage {w : World} {s : St} {m : Msg} {b : Bool} (h : Safe w s) (hm : Civil b m)
    (hv : CanStamp w m) : SafeRun w (handleMessage w s m) := by
  obtain ⟨cur, hc, _⟩ := h.cur
  unfold handleMessage
  rw [hc]
  dsimp only
  split
  · exact (safe_sendNew h (canStamp_rsp hv 505)).andThen fun t _ => safe_fail w t _
  split
  · exact safe_sendNew h (canStamp_rsp hv 481)
  split
  · exact safe_handleResponse h hm
  · rename_i hr
    exact safe_handleRequest h hm (by simp [Msg.isResponse] at hr; omega) hv

theorem mem_addrReversed {l : List Addr} {a : Addr} (h : a ∈ addrReversed l) : a ∈ l := by
  have key : ∀ (l res : List Addr), a ∈ addrReversedAux l res → a ∈ l ∨ a ∈ res := by
    intro l
    induction l with
    | nil => intro res h; exact .inr h
    | cons x l ih =>
      intro res h
      rcases ih (x :: res) h with k | k
      · exact .inl (by simp [k])
      · rcases List.mem_cons.1 k with rfl | k
        · exact .inl (by simp)
        · exact .inr k
  rcases key l [] h with k | k
  · exact k
  · simp at k

theorem safe_sendHangup {w : World} {s : St} (h : Safe w s) : SafeRun w (sendHangup w s) := by
  unfold sendHangup
  split
  · exact safe_sendCancel h
  · exact safe_sendCancel h
  · rename_i hst
    cases hr : s.remote with
    | none => have := h.known hst; rw [hr] at this; simp at this
    | some remote =>
      dsimp only
      have hk := h.remote remote hr
      obtain ⟨a, l, hca, hau⟩ := hk.contact
      have hbye : newBye s.invite remote (some s.lseq) = .ok (
          { method := b!"BYE", request := a.uri, callID := s.invite.callID, cseq := wrap64 (s.lseq + 1),
            cseqMethod := b!"BYE",
            addrs := fun
              | .from => s.invite.addrs .from
              | .to => remote.addrs .to
              | .route => addrReversed (remote.addrs .recordRoute)
              | _ => [] }, wrap64 (s.lseq + 1)) := by
        unfold newBye
        rw [hca]
        rfl
      rw [hbye]
      dsimp only
      unfold sendOther
      dsimp only
      obtain ⟨r1, r2, r3⟩ := route_ok (m := 
          { method := b!"BYE", request := a.uri, callID := s.invite.callID, cseq := wrap64 (s.lseq + 1),
            cseqMethod := b!"BYE",
            addrs := fun
              | .from => s.invite.addrs .from
              | .to => remote.addrs .to
              | .route => addrReversed (remote.addrs .recordRoute)
              | _ => [] }) ⟨rfl, (fun _ _ hx => by cases hx), hau, fun x hx => hk.recordRoute x (mem_addrReversed hx)⟩
      refine safe_towards r2 fun rs host => ?_
      exact { (h.toCalm.of_eq (t := { s with remote := some remote }) hr.symm) with
        cur := ⟨_, rfl, r1.contact, r1.line⟩
        invite := h.invite
        sent := .inr h.sent }
  · rename_i hst; exact absurd hst h.alive

/-- Events that cannot crash the dialog. -/
def Tame (w : World) : Event → Prop
  | .sockErr refused _ => refused = false
  | .msg m => ∃ b, Civil b m ∧ CanStamp w m
  | _ => True

theorem safe_step {w : World} {s : St} {ev : Event} (h : Safe w s) (he : Tame w ev) : SafeRun w (step w s ev) := by
  cases ev with
  | sockErr b e =>
    simp only [step]
    split
    · exact ⟨by simp, fun _ => h⟩
    · have : b = false := he
      rw [this, if_neg (by simp)]
      exact safe_fail w _ _
  | csockErr e =>
    simp only [step]
    split
    · exact ⟨by simp, fun _ => h⟩
    · exact safe_fail w _ _
  | requestTimer =>
    simp only [step]
    split
    · have h' : Safe w { s with requestTimer := false } := h.of_eq
      unfold resendRequest
      split
      · exact ⟨by simp, fun _ => h'⟩
      · split
        · exact (safe_sendCur' h').andThen fun t ht => ⟨by simp, fun _ => ht.of_eq⟩
        · split
          · rename_i hn
            obtain ⟨c, hc⟩ := h'.sock
            rw [hn] at hc
            cases hc
          · exact safe_popRoutes _ _ h'.chosen
    · exact ⟨by simp, fun _ => h⟩
  | responseTimer =>
    simp only [step]
    split
    · have h' : Safe w { s with responseTimer := false } := h.of_eq
      unfold resendResponse
      split
      · exact ⟨by simp, fun _ => h'⟩
      · rename_i r hr
        split
        · exact (safe_sendRsp h' (by rw [hr]; simp)).andThen fun t ht => ⟨by simp, fun _ => ht.of_eq⟩
        · split
          · rename_i hn
            obtain ⟨c, hc⟩ := h'.sock
            rw [hn] at hc
            cases hc
          · exact safe_popRoutes _ _ h'.chosen
    · exact ⟨by simp, fun _ => h⟩
  | msg m =>
    obtain ⟨b, h1, h2⟩ := he
    simp only [step]
    split
    · exact ⟨by simp, fun _ => h⟩
    · exact safe_handleMessage h h1 h2
  | hangup => exact safe_sendHangup h

theorem safe_loop {w : World} {invite : Msg} {evs : List Event} (hi : Routable invite) (he : ∀ ev ∈ evs, Tame w ev) :
    SafeRun w (loop w evs (start w invite)) := by
  have h0 : SafeRun w (start w invite) := safe_sendInvite ⟨by simp, by simp, by simp, by simp⟩ hi
  generalize start w invite = r at h0
  induction evs generalizing r with
  | nil => exact h0
  | cons e evs ih =>
    exact ih (fun ev hev => he ev (by simp [hev])) _ (h0.andThen fun t ht => safe_step ht (he e (by simp)))

end Gosip.Dialog
