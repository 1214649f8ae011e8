import Verif.Dialog.Local
import Verif.Spec.Going

/-!
# Where the requests of a dialog go

An invariant of the dialog: the current request carries the request URI and the route set that routing gives it, the
addresses still to be tried are addresses of its next hop, and so is the one behind the socket.
-/

namespace Gosip.Dialog
open Sip Spec

theorem towards_same {w : World} {i0 : Msg} {seen : Msg → Prop} {m m' : Msg} {l : List Bytes}
    (h : Towards w i0 seen m l) (h1 : m'.method = m.method) (h2 : m'.request = m.request)
    (h3 : m'.addrs .route = m.addrs .route) : Towards w i0 seen m' l := by
  unfold Towards at *
  rw [h1, h2, h3]; exact h

/-- What holds at all times. -/
structure Going (w : World) (i0 : Msg) (seen : Msg → Prop) (s : St) : Prop where
  sent : ∀ x ∈ own s.outs, SentRight w i0 seen x.1 x.2
  invite : s.invite.method = b!"INVITE"
  owni : isOwn s.invite = true
  remote : ∀ m, s.remote = some m → seen m ∧ Introduces (.msg m)
  rsp : RspOK s

/-- What holds between events. -/
structure Here (w : World) (i0 : Msg) (seen : Msg → Prop) (s : St) : Prop where
  cur : ∀ m, s.cur = some m → isOwn m = true ∧ ∃ l, Towards w i0 seen m l ∧ ∀ a ∈ s.routes, a ∈ l
  sock : ∀ m c, s.cur = some m → s.sock = some c → ∃ l a, Towards w i0 seen m l ∧ a ∈ l ∧ Reaches w a c

/-- The result of a handler. -/
def Headed (w : World) (i0 : Msg) (seen : Msg → Prop) (r : Run) : Prop :=
  Going w i0 seen r.s ∧ (r.c = .go → Here w i0 seen r.s)

section
variable {w : World} {i0 : Msg} {seen : Msg → Prop}

theorem Going.frame {s t : St} (h : Going w i0 seen s) (h1 : own t.outs = own s.outs) (h2 : t.invite = s.invite)
    (h3 : t.remote = s.remote ∨ t.remote = none) (h4 : t.response = s.response ∨ RspOK t) : Going w i0 seen t := by
  constructor
  · rw [h1]; exact h.sent
  · rw [h2]; exact h.invite
  · rw [h2]; exact h.owni
  · rcases h3 with h3 | h3
    · rw [h3]; exact h.remote
    · rw [h3]; simp
  · rcases h4 with h4 | h4
    · intro m hm; exact h.rsp m (h4 ▸ hm)
    · exact h4

theorem Here.frame {s t : St} (h : Here w i0 seen s) (h1 : t.sock = s.sock) (h2 : t.invite = s.invite)
    (h3 : t.req = s.req) (h4 : t.routes = s.routes ∨ t.routes = []) : Here w i0 seen t := by
  have hc : t.cur = s.cur := by unfold St.cur; rw [h2, h3]
  refine ⟨?_, ?_⟩
  · rw [hc]
    intro m hm
    obtain ⟨ho, l, hl, hr⟩ := h.cur m hm
    refine ⟨ho, l, hl, ?_⟩
    rcases h4 with h4 | h4
    · rw [h4]; exact hr
    · rw [h4]; simp
  · rw [hc, h1]; exact h.sock

theorem headed {s : St} (h : Going w i0 seen s) (k : Here w i0 seen s) (c : Cont) : Headed w i0 seen ⟨s, c⟩ :=
  ⟨h, fun _ => k⟩

theorem headed_dead {s : St} {c : Cont} (h : Going w i0 seen s) (hc : c ≠ .go) : Headed w i0 seen ⟨s, c⟩ :=
  ⟨h, fun e => absurd e hc⟩

theorem headed_fail {s : St} (h : Going w i0 seen s) (e : DErr) : Headed w i0 seen (s.fail e) :=
  ⟨h.frame (own_err _ _) rfl (.inl rfl) (.inl rfl), fun e => by simp [St.fail] at e⟩

theorem Headed.andThen {r : Run} {f : St → Run} (h : Headed w i0 seen r)
    (k : ∀ t, Going w i0 seen t → Here w i0 seen t → Headed w i0 seen (f t)) : Headed w i0 seen (r.andThen f) := by
  obtain ⟨s, c⟩ := r
  cases c
  · exact k s h.1 (h.2 rfl)
  all_goals exact h

/-- Sending a message that is none of the dialog's own requests, continued. -/
theorem send_frame (w : World) (s : St) (m : Msg) : (send w s m).1.s.routes = s.routes ∧
    (send w s m).1.s.remote = s.remote := by
  have h := send_res w s m
  generalize send w s m = x at h ⊢
  cases h <;> exact ⟨rfl, rfl⟩

theorem headed_sendNew {s : St} (h : Going w i0 seen s) (k : Here w i0 seen s) (m : Msg) (ho : isOwn m = false) :
    Headed w i0 seen (sendNew w s m) := by
  obtain ⟨h1, h2, h3, h4, h5, h6⟩ := send_other w s m ho
  obtain ⟨g1, g2⟩ := send_frame w s m
  exact ⟨h.frame h1 h4 (.inl g2) (.inl h6), fun _ => k.frame h2 h4 h5 (.inl g1)⟩

theorem headed_sendRsp {s : St} (h : Going w i0 seen s) (k : Here w i0 seen s) : Headed w i0 seen (sendRsp w s) := by
  unfold sendRsp
  split
  · exact headed h k _
  · rename_i m hm
    obtain ⟨h1, h2, h3, h4, h5, h6⟩ := send_other w s m (by simp [isOwn, h.rsp m hm])
    obtain ⟨g1, g2⟩ := send_frame w s m
    refine ⟨h.frame h1 h4 (.inl g2) (.inr ?_), fun _ => k.frame h2 h4 h5 (.inl g1)⟩
    intro x hx
    cases hx
    rw [send_isResponse]; exact h.rsp m hm

theorem headed_sendCancel {s : St} (h : Going w i0 seen s) (k : Here w i0 seen s) :
    Headed w i0 seen (sendCancel w s) := by
  obtain ⟨h1, h2, h3, h4, h5, h6⟩ := send_other w s (newCancel s.invite) (own_newCancel _)
  obtain ⟨g1, g2⟩ := send_frame w s (newCancel s.invite)
  unfold sendCancel
  generalize send w s (newCancel s.invite) = r at *
  refine ⟨⟨?_, ?_, ?_, ?_, ?_⟩, fun _ => ?_⟩
  · show ∀ x ∈ own r.1.s.outs, _
    rw [h1]; exact h.sent
  · show r.1.s.invite.method = _
    rw [h4]; exact h.invite
  · show isOwn { r.1.s.invite with via := _ } = true
    rw [h4, isOwn_via]; exact h.owni
  · show ∀ m, r.1.s.remote = some m → _
    rw [g2]; exact h.remote
  · intro m hm; exact h.rsp m (h6 ▸ hm)
  · have hcur : ∀ m, ({ r.1.s with invite := { r.1.s.invite with via := r.2.via } } : St).cur = some m →
        ∃ m0, s.cur = some m0 ∧ isOwn m = isOwn m0 ∧ m.method = m0.method ∧ m.request = m0.request ∧
          m.addrs = m0.addrs := by
      intro m hm
      unfold St.cur at hm ⊢
      simp only [h5, h4] at hm
      cases hq : s.req with
      | none => rw [hq] at hm; cases hm
      | other x => rw [hq] at hm; cases hm; exact ⟨_, rfl, rfl, rfl, rfl, rfl⟩
      | invite => rw [hq] at hm; cases hm; exact ⟨_, rfl, isOwn_via _ _, rfl, rfl, rfl⟩
    refine ⟨?_, ?_⟩
    · intro m hm
      obtain ⟨m0, e0, e1, e2, e3, e4⟩ := hcur m hm
      obtain ⟨ho, l, hl, hr⟩ := k.cur m0 e0
      exact ⟨e1.trans ho, l, towards_same hl e2 e3 (by rw [e4]), by
        show ∀ a ∈ r.1.s.routes, _
        rw [g1]; exact hr⟩
    · intro m c hm hc
      obtain ⟨m0, e0, e1, e2, e3, e4⟩ := hcur m hm
      have hc : s.sock = some c := h2 ▸ hc
      obtain ⟨l, a, hl, hr⟩ := k.sock m0 c e0 hc
      exact ⟨l, a, towards_same hl e2 e3 (by rw [e4]), hr⟩

/-! ### The current request -/

theorem setCur_more (s : St) (m : Msg) : (s.setCur m).routes = s.routes ∧ (s.setCur m).response = s.response := by
  unfold St.setCur; split <;> exact ⟨rfl, rfl⟩

/-- The current request is replaced by one with the same method. -/
theorem going_setCur {s : St} {m m0 : Msg} (h : Going w i0 seen s) (hc : s.cur = some m0) (hm : m.method = m0.method)
    (ho : isOwn m = true) : Going w i0 seen (s.setCur m) := by
  unfold St.setCur
  split
  · exact h
  · rename_i hq
    unfold St.cur at hc
    rw [hq] at hc
    cases hc
    exact ⟨h.sent, hm.trans h.invite, ho, h.remote, h.rsp⟩
  · exact ⟨h.sent, h.invite, h.owni, h.remote, h.rsp⟩

theorem here_setCur {s : St} {m m0 : Msg} (k : Here w i0 seen s) (hc : s.cur = some m0) (hm : m.method = m0.method)
    (hr : m.request = m0.request) (ha : m.addrs .route = m0.addrs .route)
    (ho : isOwn m = true) : Here w i0 seen (s.setCur m) := by
  refine ⟨?_, ?_⟩
  · intro x hx
    rw [cur_setCur' hx, (setCur_more s m).1]
    obtain ⟨_, l, hl, hl'⟩ := k.cur m0 hc
    exact ⟨ho, l, towards_same hl hm hr ha, hl'⟩
  · intro x c hx hs
    rw [cur_setCur' hx]
    rw [(setCur_frame s m).2.2.2.1] at hs
    obtain ⟨l, a, hl, hl'⟩ := k.sock m0 c hc hs
    exact ⟨l, a, towards_same hl hm hr ha, hl'⟩

theorem headed_sendCur {s : St} (h : Going w i0 seen s) (k : Here w i0 seen s) : Headed w i0 seen (sendCur w s) := by
  unfold sendCur
  split
  · exact headed h k _
  · rename_i m hm
    obtain ⟨hom, lm, htm, hlm⟩ := k.cur m hm
    have hr := send_res w s m
    have hcr := send_crash w s m
    generalize send w s m = x at hr hcr ⊢
    have key : ∀ m', addTimestamp (w.clock s.tick) (decForwards m) = .ok m' →
        isOwn m' = true ∧ m'.method = m.method ∧ m'.request = m.request ∧ m'.addrs = m.addrs ∧ m'.appended = m' := by
      intro m' ht
      obtain ⟨v, hv, _, _⟩ := addTimestamp_frame ht
      obtain ⟨n, hn⟩ := decForwards_frame m
      have ho' : isOwn m' = true := by rw [hv, isOwn_via, hn, isOwn_mf]; exact hom
      exact ⟨ho', by rw [hv, hn], by rw [hv, hn], by rw [hv, hn], appended_own (isOwn_not_response ho')⟩
    have curOf : ∀ t : St, t.invite = s.invite → t.req = s.req → t.cur = some m := by
      intro t h1 h2
      unfold St.cur at hm ⊢
      rw [h1, h2]; exact hm
    cases hr with
    | loop hl =>
      have h0 : Going w i0 seen (s.fail .localLoop).s := h.frame (own_err _ _) rfl (.inl rfl) (.inl rfl)
      exact headed_dead (going_setCur (m0 := m) h0 (curOf _ rfl rfl) rfl (by rw [isOwn_mf]; exact hom)) (by simp [St.fail])
    | crash m' =>
      have hm' : m' = decForwards m := hcr rfl
      obtain ⟨n, hn⟩ := decForwards_frame m
      rw [hm', hn]
      exact headed_dead (going_setCur h hm rfl (by rw [isOwn_mf]; exact hom)) (by simp)
    | @sent c m' x hs hne ht =>
      obtain ⟨k1, k2, k3, k4, k5⟩ := key m' ht
      obtain ⟨l, a, hl, hal, hre⟩ := k.sock m c hm hs
      have hsn : SentRight w i0 seen c.remote m' := ⟨l, a, c, towards_same hl k2 k3 (by rw [k4]), hal, hre, rfl⟩
      rw [k5]
      have h0 : Going w i0 seen ({ s with tick := s.tick + 1 }.out (.sent c.remote m' x)) := by
        refine ⟨?_, h.invite, h.owni, h.remote, h.rsp⟩
        show ∀ y ∈ own (s.outs ++ [.sent c.remote m' x]), _
        rw [own_sent _ _ _ k1]
        intro y hy
        rcases List.mem_append.1 hy with hy | hy
        · exact h.sent y hy
        · simp at hy; subst hy; exact hsn
      have k0 : Here w i0 seen ({ s with tick := s.tick + 1 }.out (.sent c.remote m' x)) :=
        k.frame rfl rfl rfl (.inl rfl)
      exact ⟨going_setCur h0 (curOf _ rfl rfl) k2 k1, fun _ => here_setCur k0 (curOf _ rfl rfl) k2 k3 (by rw [k4]) k1⟩
    | @broken c m' x e hs hne ht =>
      obtain ⟨k1, k2, k3, k4, k5⟩ := key m' ht
      obtain ⟨l, a, hl, hal, hre⟩ := k.sock m c hm hs
      have hsn : SentRight w i0 seen c.remote m' := ⟨l, a, c, towards_same hl k2 k3 (by rw [k4]), hal, hre, rfl⟩
      rw [k5]
      have h0 : Going w i0 seen (({ s with tick := s.tick + 1 }.out (.sent c.remote m' x)).fail (.net e)).s := by
        refine ⟨?_, h.invite, h.owni, h.remote, h.rsp⟩
        show ∀ y ∈ own ((s.outs ++ [.sent c.remote m' x]) ++ [.err (.net e)]), _
        rw [own_err, own_sent _ _ _ k1]
        intro y hy
        rcases List.mem_append.1 hy with hy | hy
        · exact h.sent y hy
        · simp at hy; subst hy; exact hsn
      exact ⟨going_setCur h0 (curOf _ rfl rfl) k2 k1, fun e => by simp [St.fail] at e⟩

/-! ### Connecting and routing -/

theorem connect_reach (w : World) (s : St) : own (connect w s).1.outs = own s.outs ∧
    (connect w s).1.invite = s.invite ∧ (connect w s).1.remote = s.remote ∧ (connect w s).1.response = s.response ∧
    (connect w s).1.req = s.req ∧ (connect w s).1.routes = s.routes ∧
    ∀ c, (connect w s).1.sock = some c → Reaches w s.addr c := by
  have ho : own (s.outs ++ [.dial s.addr]) = own s.outs := by rw [own_append]; simp [own, sends]
  unfold connect
  split
  · rename_i hr
    refine ⟨rfl, rfl, rfl, rfl, rfl, rfl, ?_⟩
    intro c hc
    rw [hc] at hr
    exact .inl (by simpa using hr)
  · dsimp only
    split
    · exact ⟨ho, rfl, rfl, rfl, rfl, rfl, fun c hc => by cases hc⟩
    · rename_i c hc
      unfold connectLoose
      split
      · split
        · exact ⟨ho, rfl, rfl, rfl, rfl, rfl, fun c' hc' => by cases hc'; exact .inr ⟨_, hc⟩⟩
        · exact ⟨ho, rfl, rfl, rfl, rfl, rfl, fun c' hc' => by cases hc'; exact .inr ⟨_, hc⟩⟩
      · exact ⟨ho, rfl, rfl, rfl, rfl, rfl, fun c' hc' => by cases hc'; exact .inr ⟨_, hc⟩⟩

theorem headed_attempt {t : St} (h : Going w i0 seen t) (k : Here w i0 seen t) : Headed w i0 seen (attempt w t) := by
  rcases attempt_spec w t with e | ⟨c, m, m', hs, hm, hp, e⟩
  · rw [e]; exact headed_dead h (by simp)
  · rw [e]
    obtain ⟨hom, _⟩ := k.cur m hm
    have hpop := populate_spec (isOwn_not_response hom) hp
    have ho := isOwn_populated hpop hom
    have h1 : Going w i0 seen { t with tick := t.tick + 1 } := h.frame rfl rfl (.inl rfl) (.inl rfl)
    have k1 : Here w i0 seen { t with tick := t.tick + 1 } := k.frame rfl rfl rfl (.inl rfl)
    have h2 := going_setCur h1 (m0 := m) hm hpop.method ho
    have k2 := here_setCur k1 (m0 := m) hm hpop.method hpop.request (hpop.other .route (by simp) (by simp) (by simp)) ho
    obtain ⟨f1, f2, f3, f4, f5, f6, f7, f8, f9⟩ := newAttempt_frame { t with tick := t.tick + 1 } m'
    obtain ⟨g1, _, _, g4, _⟩ := setCur_frame { t with tick := t.tick + 1 } m'
    have hx : (newAttempt { t with tick := t.tick + 1 } m').routes = ({ t with tick := t.tick + 1 }.setCur m').routes ∧
        (newAttempt { t with tick := t.tick + 1 } m').response = ({ t with tick := t.tick + 1 }.setCur m').response ∧
        ((newAttempt { t with tick := t.tick + 1 } m').remote = ({ t with tick := t.tick + 1 }.setCur m').remote ∨
          (newAttempt { t with tick := t.tick + 1 } m').remote = none) := by
      unfold newAttempt; dsimp only
      split
      · exact ⟨rfl, rfl, .inr rfl⟩
      · exact ⟨rfl, rfl, .inl rfl⟩
    obtain ⟨x1, x2, x3⟩ := hx
    exact headed_sendCur (h2.frame (by rw [f1, g1]) f7 x3 (.inl x2)) (k2.frame (f4.trans g4.symm) f7 f8 (.inl x1))

/-- Trying addresses of the next hop of the current request. -/
theorem headed_popRoutes (l : List Bytes) (s : St) (h : Going w i0 seen s)
    (k : ∀ m, s.cur = some m → isOwn m = true ∧ ∃ l', Towards w i0 seen m l' ∧ ∀ a ∈ l, a ∈ l') :
    Headed w i0 seen (popRoutes w l s) := by
  induction l generalizing s with
  | nil =>
    have h0 : Going w i0 seen { s with routes := [] } := h.frame rfl rfl (.inl rfl) (.inl rfl)
    exact headed_fail h0 _
  | cons a l ih =>
    have h0 : Going w i0 seen { s with addr := a, routes := l } := h.frame rfl rfl (.inl rfl) (.inl rfl)
    simp only [popRoutes]
    split
    · exact headed_dead (h.frame rfl rfl (.inl rfl) (.inl rfl)) (by simp)
    · obtain ⟨c1, c2, c3, c4, c5, c6, c7⟩ := connect_reach w { s with addr := a, routes := l }
      have h1 : Going w i0 seen (connect w { s with addr := a, routes := l }).1 := h0.frame c1 c2 (.inl c3) (.inl c4)
      have hcur : (connect w { s with addr := a, routes := l }).1.cur = s.cur := by unfold St.cur; rw [c2, c5]
      split
      · refine headed_attempt h1 ⟨?_, ?_⟩
        · rw [hcur, c6]
          intro m hm
          obtain ⟨ho, l', hl, hr⟩ := k m hm
          exact ⟨ho, l', hl, fun x hx => hr x (by simp [show x ∈ l from hx])⟩
        · rw [hcur]
          intro m c hm hc
          obtain ⟨ho, l', hl, hr⟩ := k m hm
          exact ⟨l', a, hl, hr a (by simp), c7 c hc⟩
      · refine ih _ h1 ?_
        rw [hcur]
        intro m hm
        obtain ⟨ho, l', hl, hr⟩ := k m hm
        exact ⟨ho, l', hl, fun x hx => hr x (by simp [hx])⟩

/-- What routing makes of a request. -/
theorem route_hop {m : Msg} {hop : Bytes × UInt16} (hr : m.isResponse = false)
    (h : (routeMessage none none m).2 = .ok hop) :
    NextHop ({ request := m.request } : Msg) (m.addrs .route) (routeMessage none none m).1.request
      ((routeMessage none none m).1.addrs .route) hop := by
  have hp : popRoute none (m.addrs .route) = m.addrs .route := by
    unfold popRoute
    cases m.addrs .route <;> simp [addrCompareHostPort]
  unfold routeMessage at h ⊢
  simp only [hr, Bool.false_eq_true, if_false, hp] at h ⊢
  cases hl : m.addrs .route with
  | nil =>
    simp only [hl, setAt_same] at h ⊢
    cases hq : m.request with
    | none => simp [uriHop, hq] at h
    | some u =>
      simp [uriHop, hq] at h
      subst h
      exact .direct rfl
  | cons a l =>
    simp only [hl] at h ⊢
    by_cases hm : m.method = b!"REGISTER"
    · simp [hm] at h
    · simp only [hm, if_false] at h ⊢
      cases hu : a.uri with
      | none => simp [hu] at h
      | some u =>
        simp only [hu] at h ⊢
        by_cases hlr : (u.param.get b!"lr").isSome = true
        · simp only [hlr, if_true] at h ⊢
          cases h
          simp only [setAt_same]
          exact .loose hu (get_isSome.1 hlr)
        · simp only [hlr, if_false, Bool.false_eq_true] at h ⊢
          cases h
          simp only [setAt_same]
          rw [addrCopy_eq]
          exact .strict hu (fun h => hlr (get_isSome.2 h))

theorem headed_sendTowards {s : St} {q : Req} {m : Msg} (h : Going w i0 seen s)
    (hq : ∀ t : St, t.req = q → t.invite = s.invite → t.cur = some (routeMessage none none m).1) (ho : isOwn m = true)
    (hk : Asked i0 seen m.method (s.state.rank < CallState.answered.rank) m.request (m.addrs .route)) :
    Headed w i0 seen (sendTowards w s q (routeMessage none none m).2) := by
  unfold sendTowards
  split
  · exact headed_dead h (by simp)
  · exact headed_fail h _
  · rename_i host port hop
    split
    · exact headed_dead h (by simp)
    · have h0 : Going w i0 seen { s with tick := s.tick + 1 } := h.frame rfl rfl (.inl rfl) (.inl rfl)
      exact headed_fail h0 _
    · rename_i rs hrs
      refine headed_popRoutes _ _ (h.frame rfl rfl (.inl rfl) (.inl rfl)) ?_
      intro x hx
      have hx : some (routeMessage none none m).1 = some x := (hq _ (by rfl) (by rfl)).symm.trans hx
      cases hx
      have hn := route_hop (isOwn_not_response ho) hop
      obtain ⟨u, a, hr, ha⟩ := route_none m
      have hm : (routeMessage none none m).1.method = m.method := by rw [hr]
      refine ⟨?_, rs, ⟨_, _, _, host, port, s.tick, by rw [hm]; exact hk, hn, hrs⟩, fun x hx => hx⟩
      rw [hr]; exact ho

theorem headed_sendInvite {s : St} (h : Going w i0 seen s)
    (hk : Asked i0 seen b!"INVITE" (s.state.rank < CallState.answered.rank) s.invite.request (s.invite.addrs .route)) :
    Headed w i0 seen (sendInvite w s) := by
  unfold sendInvite
  obtain ⟨u, a, hr, ha⟩ := route_none s.invite
  refine headed_sendTowards (m := s.invite) ⟨h.sent, ?_, ?_, h.remote, h.rsp⟩ ?_ h.owni (by rw [h.invite]; exact hk)
  · show (routeMessage none none s.invite).1.method = _
    rw [hr]; exact h.invite
  · show isOwn (routeMessage none none s.invite).1 = true
    rw [hr]; exact h.owni
  · intro t h1 h2
    unfold St.cur
    rw [h1, h2]

/-! ### Events -/

theorem headed_nextRoute {s : St} (h : Going w i0 seen s) (k : Here w i0 seen s) : Headed w i0 seen (nextRoute w s) :=
  headed_popRoutes _ _ h k.cur

theorem headed_checkSDP {s : St} (h : Going w i0 seen s) (k : Here w i0 seen s) (m : Msg) :
    Headed w i0 seen (checkSDP s m) := by
  unfold checkSDP
  split
  · split
    · rename_i d _ _ a _
      have ho : own (s.outs ++ [.peer d.addr a.port]) = own s.outs := by rw [own_append]; simp [own, sends]
      exact ⟨h.frame ho rfl (.inl rfl) (.inl rfl), fun _ => k.frame rfl rfl rfl (.inl rfl)⟩
    · exact headed h k _
  · exact headed h k _

theorem headed_transition {s : St} (h : Going w i0 seen s) (k : Here w i0 seen s) (c : CallState) (d : Cont) :
    Headed w i0 seen ⟨transition s c, d⟩ :=
  ⟨h.frame (own_transition s c) rfl (.inl rfl) (.inl rfl), fun _ => k.frame rfl rfl rfl (.inl rfl)⟩

theorem headed_ackFinal {s : St} (h : Going w i0 seen s) (k : Here w i0 seen s) (m cur : Msg) :
    Headed w i0 seen (ackFinal w s m cur) := by
  unfold ackFinal
  split
  · split
    · exact headed_fail h _
    · split
      · rename_i hk; exact headed_sendNew h k _ (own_newAck hk)
      · exact headed h k _
  · exact headed h k _

theorem headed_settle {s : St} (h : Going w i0 seen s) (k : Here w i0 seen s) (m : Msg) :
    Headed w i0 seen (settle s m) := by
  have h' : Going w i0 seen { s with routes := [], requestTimer := false } := h.frame rfl rfl (.inl rfl) (.inl rfl)
  have k' : Here w i0 seen { s with routes := [], requestTimer := false } := k.frame rfl rfl rfl (.inr rfl)
  unfold settle
  dsimp only
  split
  · exact headed_checkSDP h' k' m
  · exact headed h' k' _

theorem headed_redirect {s : St} (h : Going w i0 seen s) {m : Msg} (hm : seen m) (hs : m.status = 301 ∨ m.status = 302) :
    Headed w i0 seen (redirect w s m) := by
  unfold redirect
  cases hc : m.addrs .contact with
  | nil => exact headed_dead h (by simp)
  | cons a l =>
    refine headed_sendInvite ⟨h.sent, h.invite, h.owni, h.remote, h.rsp⟩ ?_
    have := Asked.moved (invite := i0) (decide (s.state.rank < CallState.answered.rank)) hm hs hc
    simpa only [setAt_same] using this

theorem headed_handleOK {s : St} (h : Going w i0 seen s) (k : Here w i0 seen s) {m : Msg} (hm : seen m)
    (hs : m.status = 200) : Headed w i0 seen (handleOK s m) := by
  unfold handleOK
  split
  · rename_i hi
    have : Headed w i0 seen ⟨if s.remote.isNone then transition s .answered else s, .go⟩ := by
      split
      · exact headed_transition h k _ _
      · exact headed h k _
    refine ⟨⟨this.1.sent, this.1.invite, this.1.owni, ?_, this.1.rsp⟩, fun _ => (this.2 rfl).frame rfl rfl rfl (.inl rfl)⟩
    intro x hx
    cases hx
    exact ⟨hm, .inl ⟨hs, hi⟩⟩
  · split
    · exact headed_transition h k _ _
    · exact headed h k _

theorem headed_handleStatus {s : St} (h : Going w i0 seen s) (k : Here w i0 seen s) {m : Msg} (hm : seen m) :
    Headed w i0 seen (handleStatus w s m) := by
  unfold handleStatus
  split
  · exact headed_transition h k _ _
  split
  · exact headed_transition h k _ _
  split
  · rename_i hs
    exact headed_handleOK h k hm hs
  split
  · split
    · exact headed_nextRoute h k
    · exact headed_fail h _
  split
  · rename_i hs
    exact headed_redirect h hm hs
  split
  · exact headed_fail h _
  · exact headed h k _

theorem headed_handleResponse {s : St} (h : Going w i0 seen s) (k : Here w i0 seen s) {m : Msg} (hm : seen m) :
    Headed w i0 seen (handleResponse w s m) := by
  unfold handleResponse
  split
  · exact headed h k _
  · split
    · exact ((headed_ackFinal h k m _).andThen fun t h k => headed_settle h k m).andThen fun t h k =>
        headed_handleStatus h k hm
    · exact headed h k _

theorem headed_handleMethod {s : St} (h : Going w i0 seen s) (k : Here w i0 seen s) {m : Msg} (hm : seen m)
    (hr : m.isResponse = false) : Headed w i0 seen (handleMethod w s m) := by
  unfold handleMethod
  split
  · exact (headed_sendNew h k _ (own_newResponse m _ (by decide))).andThen fun t h k => headed_transition h k _ _
  split
  · exact headed_sendNew h k _ (own_newResponse m _ (by decide))
  split
  · rename_i hi
    have h0 : Going w i0 seen { s with remote := some m } := by
      refine ⟨h.sent, h.invite, h.owni, ?_, h.rsp⟩
      intro x hx
      cases hx
      exact ⟨hm, .inr ⟨by simpa [Msg.isResponse] using hr, hi⟩⟩
    have k0 : Here w i0 seen { s with remote := some m } := k.frame rfl rfl rfl (.inl rfl)
    refine (headed_checkSDP h0 k0 m).andThen fun t h k => ?_
    unfold sendResponse
    refine headed_sendRsp (h.frame rfl rfl (.inl rfl) (.inr ?_)) (k.frame rfl rfl rfl (.inl rfl))
    intro x hx
    cases hx
    exact isResponse_new m (by decide)
  split
  · refine ⟨h.frame rfl rfl (.inl rfl) (.inr ?_), fun _ => k.frame rfl rfl rfl (.inl rfl)⟩
    intro x hx; cases hx
  · exact headed_sendNew h k _ (own_newResponse m _ (by decide))

theorem headed_handleRequest {s : St} (h : Going w i0 seen s) (k : Here w i0 seen s) {m : Msg} (hm : seen m)
    (hr : m.isResponse = false) : Headed w i0 seen (handleRequest w s m) := by
  unfold handleRequest
  split
  · exact (headed_sendNew h k _ (own_newResponse m _ (by decide))).andThen fun t h k => headed_fail h _
  split
  · exact headed_sendNew h k _ (own_newResponse m _ (by decide))
  · have h0 : Going w i0 seen { s with rseq := m.cseq } := h.frame rfl rfl (.inl rfl) (.inl rfl)
    exact headed_handleMethod h0 (k.frame rfl rfl rfl (.inl rfl)) hm hr

theorem headed_handleMessage {s : St} (h : Going w i0 seen s) (k : Here w i0 seen s) {m : Msg} (hm : seen m) :
    Headed w i0 seen (handleMessage w s m) := by
  unfold handleMessage
  split
  · exact headed h k _
  split
  · exact (headed_sendNew h k _ (own_newResponse m _ (by decide))).andThen fun t h k => headed_fail h _
  split
  · exact headed_sendNew h k _ (own_newResponse m _ (by decide))
  split
  · exact headed_handleResponse h k hm
  · rename_i hr
    exact headed_handleRequest h k hm (by simpa using hr)

theorem headed_resendRequest {s : St} (h : Going w i0 seen s) (k : Here w i0 seen s) :
    Headed w i0 seen (resendRequest w s) := by
  unfold resendRequest
  split
  · exact headed h k _
  split
  · exact (headed_sendCur h k).andThen fun t h k =>
      ⟨h.frame rfl rfl (.inl rfl) (.inl rfl), fun _ => k.frame rfl rfl rfl (.inl rfl)⟩
  · split
    · exact headed h k _
    · exact headed_nextRoute h k

theorem headed_resendResponse {s : St} (h : Going w i0 seen s) (k : Here w i0 seen s) :
    Headed w i0 seen (resendResponse w s) := by
  unfold resendResponse
  split
  · exact headed h k _
  split
  · exact (headed_sendRsp h k).andThen fun t h k =>
      ⟨h.frame rfl rfl (.inl rfl) (.inl rfl), fun _ => k.frame rfl rfl rfl (.inl rfl)⟩
  · split
    · exact headed h k _
    · exact headed_nextRoute h k

theorem headed_sendHangup {s : St} (h : Going w i0 seen s) (k : Here w i0 seen s) :
    Headed w i0 seen (sendHangup w s) := by
  unfold sendHangup
  split
  · exact headed_sendCancel h k
  · exact headed_sendCancel h k
  · rename_i hst
    split
    · exact headed h k _
    · rename_i remote hrem
      split
      · rename_i b n hb
        have ho := isOwn_bye hb
        simp only [newBye, Res.bind_eq, Res.bind_ok_iff] at hb
        obtain ⟨u, hu, hb⟩ := hb
        obtain ⟨hsn, hin⟩ := h.remote remote hrem
        cases hc : remote.addrs .contact with
        | nil => rw [hc] at hu; cases hu
        | cons a l =>
          rw [hc] at hu
          cases hu
          have hk := Asked.bye (invite := i0) hsn hin hc
          rw [← addrReversed_eq] at hk
          cases hb
          have h0 : ∀ n : Int, Going w i0 seen { s with lseq := n } := fun n => h.frame rfl rfl (.inl rfl) (.inl rfl)
          refine headed_sendTowards (h0 _) ?_ rfl ?_
          · intro t h1 _
            unfold St.cur
            rw [h1]
          · have : decide (s.state.rank < CallState.answered.rank) = false := by rw [hst]; rfl
            show Asked i0 seen _ (decide (s.state.rank < CallState.answered.rank)) _ _
            rw [this]; exact hk
      · exact headed h k _
  · exact headed h k _

theorem headed_step {s : St} (h : Going w i0 seen s) (k : Here w i0 seen s) (e : Event)
    (he : ∀ m, e = .msg m → seen m) : Headed w i0 seen (step w s e) := by
  cases e with
  | sockErr r n =>
    simp only [step]
    have h' : Going w i0 seen { s with sock := none } := h.frame rfl rfl (.inl rfl) (.inl rfl)
    split
    · exact headed h k _
    split
    · exact headed_dead h' (by simp)
    · exact headed_fail h' _
  | csockErr n =>
    simp only [step]
    split
    · exact headed h k _
    · have h' : Going w i0 seen { s with csock := none } := h.frame rfl rfl (.inl rfl) (.inl rfl)
      exact headed_fail h' _
  | requestTimer =>
    simp only [step]
    split
    · exact headed_resendRequest (h.frame rfl rfl (.inl rfl) (.inl rfl)) (k.frame rfl rfl rfl (.inl rfl))
    · exact headed h k _
  | responseTimer =>
    simp only [step]
    split
    · exact headed_resendResponse (h.frame rfl rfl (.inl rfl) (.inl rfl)) (k.frame rfl rfl rfl (.inl rfl))
    · exact headed h k _
  | msg m =>
    simp only [step]
    split
    · exact headed h k _
    · exact headed_handleMessage h k (he m rfl)
  | hangup => exact headed_sendHangup h k

theorem headed_loop (evs : List Event) (r : Run) (h : Headed w i0 seen r) (he : ∀ m, .msg m ∈ evs → seen m) :
    Headed w i0 seen (loop w evs r) := by
  induction evs generalizing r with
  | nil => exact h
  | cons e evs ih =>
    exact ih _ (h.andThen fun t h k => headed_step h k e fun m hm => he m (by simp [hm]))
      fun m hm => he m (by simp [hm])

theorem headed_start (hi : i0.method = b!"INVITE") (ho : isOwn i0 = true) : Headed w i0 seen (start w i0) := by
  refine headed_sendInvite ⟨?_, hi, ho, ?_, ?_⟩ .first
  · intro x hx; simp [own, sends] at hx
  · intro m hm; cases hm
  · intro m hm; cases hm

end

theorem headed_dialog (w : World) (i0 : Msg) (evs : List Event) (hi : i0.method = b!"INVITE") (ho : isOwn i0 = true) :
    ∀ x ∈ own (dialog w i0 evs).s.outs, SentRight w i0 (fun m => .msg m ∈ evs) x.1 x.2 := by
  have h : ∀ x ∈ own (loop w evs (start w i0)).s.outs, _ :=
    (headed_loop (seen := fun m => .msg m ∈ evs) evs _ (headed_start hi ho) fun m hm => hm).1.sent
  unfold dialog
  dsimp only
  split
  · unfold cleanup
    split
    · exact h
    split
    · exact h
    · show ∀ x ∈ own (_ ++ [.closed]), _
      rw [own_append]; simpa [own, sends] using h
  · exact h

end Gosip.Dialog
