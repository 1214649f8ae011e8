import Verif.Dialog.States

/-!
# Every event is a sequence of elementary acts

Invariants about the requests the dialog sends are proved for the elementary acts; here every event is
decomposed into them, once and for all.
-/

namespace Gosip.Dialog
open Sip Spec

/-- A request of the dialog itself: not a response, not an ACK, not a CANCEL. -/
def isOwn (m : Msg) : Bool := !m.isResponse && m.method != b!"ACK" && m.method != b!"CANCEL"

/-- The requests of the dialog itself among the outputs, with their destinations. -/
def own (l : List Out) : List (Bytes × Msg) := (sends l).filter fun x => isOwn x.2

theorem sends_append (a b : List Out) : sends (a ++ b) = sends a ++ sends b := by
  simp [sends, List.filterMap_append]

theorem own_append (a b : List Out) : own (a ++ b) = own a ++ own b := by
  simp [own, sends_append]

/-- `dls.response` is always a response. -/
def RspOK (s : St) : Prop := ∀ m, s.response = some m → m.isResponse = true

/-- An act that does not concern the requests of the dialog. When it ends the loop only the outputs
matter. -/
structure Quiet (s : St) (r : Run) : Prop where
  own : own r.s.outs = own s.outs
  tick : s.tick ≤ r.s.tick
  shown : published r.s.outs = published s.outs
  state : r.s.state = s.state
  rsp : RspOK s → RspOK r.s
  same : r.c = .go → r.s.invite = s.invite ∧ r.s.req = s.req ∧ r.s.requestResends = s.requestResends ∧
    r.s.lseq = s.lseq ∧ r.s.sock = s.sock

/-- The state in which a request is about to be sent to an address for the first time: connected, the
request being the current one, the invite (possibly with a new target or route) or a new BYE. -/
structure Ready (s t : St) : Prop where
  own : Dialog.own t.outs = Dialog.own s.outs
  tick : s.tick ≤ t.tick
  shown : published t.outs = published s.outs
  state : t.state = s.state
  rsp : RspOK s → RspOK t
  sock : ∃ c, t.sock = some c
  invite : ∃ u a, t.invite = { s.invite with request := u, addrs := a } ∧
    ∀ f, f ≠ .route → a f = s.invite.addrs f
  kept : t.req ≠ .invite → t.invite = s.invite
  choice : (t.lseq = s.lseq ∧ (t.req = s.req ∨ t.req = .invite)) ∨
    ∃ remote b n, s.state = .answered ∧ s.remote = some remote ∧
      newBye s.invite remote (some s.lseq) = .ok (b, n) ∧ t.lseq = n ∧
      t.req = .other (routeMessage none none b).1

/-- The elementary acts. -/
inductive Act (w : World) (s : St) : Run → Prop where
  | quiet {r} : Quiet s r → Act w s r
  | cancel : Act w s (sendCancel w s)
  | resend : s.requestResends < w.maxResends → Act w s ((sendCur w s).andThen fun s =>
      ⟨{ s with requestResends := s.requestResends + 1, requestTimer := true }, .go⟩)
  | attempt {t} : Ready s t → Act w s (Dialog.attempt w t)

/-- A sequence of acts. -/
inductive Acts (w : World) (s : St) : Run → Prop where
  | refl (c) : Acts w s ⟨s, c⟩
  | snoc {t r} : Acts w s ⟨t, .go⟩ → Act w t r → Acts w s r

/-- What may come at the end of an event: a state is published. There is a request then. -/
inductive Ends : Run → Run → Prop where
  | same (r) : Ends r r
  | publish (t c x c') : t.req ≠ .none → Ends ⟨t, .go⟩ ⟨{ transition t c with remote := x }, c'⟩

/-- A sequence of acts with its end. -/
def Did (w : World) (s : St) (r : Run) : Prop := ∃ r0, Acts w s r0 ∧ Ends r0 r

theorem quiet_of_eq {s t : St} (c : Cont) (h1 : t.invite = s.invite) (h2 : t.req = s.req)
    (h3 : t.requestResends = s.requestResends) (h4 : t.lseq = s.lseq) (h5 : own t.outs = own s.outs)
    (h6 : s.tick ≤ t.tick) (h7 : t.sock = s.sock) (h9 : t.state = s.state)
    (h10 : published t.outs = published s.outs) (h11 : RspOK s → RspOK t := by exact id) : Quiet s ⟨t, c⟩ :=
  ⟨h5, h6, h10, h9, h11, fun _ => ⟨h1, h2, h3, h4, h7⟩⟩

theorem quiet_refl (s : St) (c : Cont) : Quiet s ⟨s, c⟩ := quiet_of_eq c rfl rfl rfl rfl rfl (Nat.le_refl _) rfl rfl rfl

theorem Acts.one {w : World} {s : St} {r : Run} (h : Act w s r) : Acts w s r := .snoc (.refl _) h

theorem Acts.trans {w : World} {s t : St} {r : Run} (h : Acts w s ⟨t, .go⟩) (k : Acts w t r) : Acts w s r := by
  induction k with
  | refl c =>
    cases c with
    | go => exact h
    | stop => exact .snoc h (.quiet (quiet_refl _ _))
    | crash => exact .snoc h (.quiet (quiet_refl _ _))
    | stuck => exact .snoc h (.quiet (quiet_refl _ _))
  | snoc _ a ih => exact .snoc ih a

theorem Acts.cons {w : World} {s t : St} {r : Run} (h : Act w s ⟨t, .go⟩) (k : Acts w t r) : Acts w s r :=
  (Acts.one h).trans k

theorem Acts.andThen {w : World} {s : St} {r : Run} {f : St → Run} (h : Acts w s r) (k : ∀ t, Acts w t (f t)) :
    Acts w s (r.andThen f) := by
  obtain ⟨t, c⟩ := r
  cases c with
  | go => exact h.trans (k t)
  | stop => exact h
  | crash => exact h
  | stuck => exact h

theorem Did.of_acts {w : World} {s : St} {r : Run} (h : Acts w s r) : Did w s r := ⟨r, h, .same r⟩

theorem Did.andThen {w : World} {s : St} {r : Run} {f : St → Run} (h : Acts w s r) (k : ∀ t, Did w t (f t)) :
    Did w s (r.andThen f) := by
  obtain ⟨t, c⟩ := r
  cases c with
  | go => obtain ⟨r0, a, e⟩ := k t; exact ⟨r0, h.trans a, e⟩
  | stop => exact .of_acts h
  | crash => exact .of_acts h
  | stuck => exact .of_acts h

theorem Quiet.trans {s t : St} {r : Run} (h : Quiet s ⟨t, .go⟩) (k : Quiet t r) : Quiet s r := by
  refine ⟨k.own.trans h.own, Nat.le_trans h.tick k.tick, k.shown.trans h.shown, k.state.trans h.state,
    fun x => k.rsp (h.rsp x), fun hc => ?_⟩
  obtain ⟨a1, a2, a3, a4, a5⟩ := h.same rfl
  obtain ⟨b1, b2, b3, b4, b5⟩ := k.same hc
  exact ⟨b1.trans a1, b2.trans a2, b3.trans a3, b4.trans a4, b5.trans a5⟩

theorem Quiet.andThen {s : St} {r : Run} {f : St → Run} (h : Quiet s r) (k : ∀ t, Quiet t (f t)) :
    Quiet s (r.andThen f) := by
  obtain ⟨t, c⟩ := r
  cases c with
  | go => exact h.trans (k t)
  | stop => exact h
  | crash => exact h
  | stuck => exact h

/-- What comes after something quiet has the same request. -/
theorem Did.after {w : World} {s : St} {r : Run} {f : St → Run} (h : Quiet s r)
    (k : ∀ t, t.req = s.req → Did w t (f t)) : Did w s (r.andThen f) := by
  obtain ⟨t, c⟩ := r
  cases c with
  | go =>
    obtain ⟨r0, a, e⟩ := k t (h.same rfl).2.1
    exact ⟨r0, .cons (.quiet h) a, e⟩
  | stop => exact .of_acts (.one (.quiet h))
  | crash => exact .of_acts (.one (.quiet h))
  | stuck => exact .of_acts (.one (.quiet h))

/-- An act that ends the loop and sends no request. -/
theorem quiet_dead {s t : St} {c : Cont} (hc : c ≠ .go) (h5 : own t.outs = own s.outs) (h6 : s.tick ≤ t.tick)
    (h9 : t.state = s.state) (h10 : published t.outs = published s.outs) (h11 : RspOK s → RspOK t := by exact id) :
    Quiet s ⟨t, c⟩ := ⟨h5, h6, h10, h9, h11, fun h => absurd h hc⟩

theorem own_err (l : List Out) (e : DErr) : own (l ++ [.err e]) = own l := by
  rw [own_append]; simp [own, sends]

theorem published_err (l : List Out) (e : DErr) : published (l ++ [.err e]) = published l := by
  rw [published_append]; simp [published]

theorem quiet_fail (s : St) (e : DErr) : Quiet s (s.fail e) :=
  quiet_dead (by simp) (own_err _ _) (Nat.le_refl _) rfl (published_err _ _)

theorem addTimestamp_frame {ts : Option Int} {m m' : Msg} (h : addTimestamp ts m = .ok m') :
    ∃ v, m' = { m with via := v } ∧ (m.via = [] → v = []) ∧
      (∀ x l, m.via = x :: l → ∃ y, v = y :: l ∧ y.host = x.host ∧ y.port = x.port ∧
        (y.param = x.param ∨ ∃ t, y.param = (b!"usi", t) :: x.param)) := by
  unfold addTimestamp at h
  split at h
  · cases h
    exact ⟨m.via, rfl, id, fun x l hx => ⟨x, hx, rfl, rfl, .inl rfl⟩⟩
  · split at h
    · simp at h
    · rename_i v l hv
      cases h
      refine ⟨_, rfl, by simp [hv], fun x l' hx => ?_⟩
      rw [hv] at hx
      simp only [List.cons.injEq] at hx
      obtain ⟨rfl, rfl⟩ := hx
      exact ⟨_, rfl, rfl, rfl, .inr ⟨_, rfl⟩⟩

theorem decForwards_frame (m : Msg) : ∃ n, decForwards m = { m with maxForwards := n } := by
  unfold decForwards
  split
  · exact ⟨_, rfl⟩
  · exact ⟨m.maxForwards, rfl⟩

theorem isOwn_via (m : Msg) (v : List Via) : isOwn { m with via := v } = isOwn m := rfl
theorem isOwn_mf (m : Msg) (n : Int) : isOwn { m with maxForwards := n } = isOwn m := rfl

/-- Sending a message that is not a request of the dialog. -/
theorem quiet_writeMsg (w : World) (s : St) (m : Msg) (h : isOwn m = false) : Quiet s (writeMsg w s m).1 := by
  unfold writeMsg
  split
  · rename_i m' c hts hs
    obtain ⟨v, rfl, _⟩ := addTimestamp_frame hts
    have hq : ∀ x, Quiet s ⟨{ s with tick := s.tick + 1 }.out (.sent c.remote { m with via := v } x), .go⟩ := by
      intro x
      refine quiet_of_eq _ rfl rfl rfl rfl ?_ (Nat.le_succ _) rfl rfl ?_
      · simp only [St.out]
        rw [own_append]
        simp [own, sends, isOwn_via, h]
      · simp only [St.out]
        rw [published_append]
        simp [published]
    dsimp only
    split
    · exact hq _
    · exact (hq _).trans (quiet_fail _ _)
  · exact quiet_refl s _

theorem quiet_send (w : World) (s : St) (m : Msg) (h : isOwn m = false) : Quiet s (send w s m).1 := by
  unfold send
  split
  · exact quiet_fail _ _
  · refine quiet_writeMsg w s _ ?_
    obtain ⟨n, hn⟩ := decForwards_frame m
    rw [hn, isOwn_mf]; exact h

theorem quiet_sendNew (w : World) (s : St) (m : Msg) (h : isOwn m = false) : Quiet s (sendNew w s m) :=
  quiet_send w s m h

theorem own_newResponse (m : Msg) (n : Int) (h : 0 < n) : isOwn (newResponse m n) = false := by
  simp [isOwn, newResponse, Msg.isResponse, h]

theorem own_newAck {m i a : Msg} (h : newAck m i = .ok a) : isOwn a = false := by
  unfold newAck at h
  cases h1 : headUri (m.addrs .contact) with
  | ok u =>
    cases h2 : viaDetach m.via with
    | ok v => simp [h1, h2] at h; subst h; rfl
    | _ => simp [h1, h2] at h
  | _ => simp [h1] at h

theorem own_newCancel (m : Msg) : isOwn (newCancel m) = false := rfl

theorem acts_fail (w : World) (s : St) (e : DErr) : Acts w s (s.fail e) := .one (.quiet (quiet_fail s e))

theorem acts_sendNew (w : World) (s : St) (m : Msg) (n : Int) (h : 0 < n) : Acts w s (sendNew w s (newResponse m n)) :=
  .one (.quiet (quiet_sendNew w s _ (own_newResponse m n h)))

theorem appended_isResponse (m : Msg) : m.appended.isResponse = m.isResponse := by
  unfold Msg.appended; split <;> rfl

theorem send_isResponse (w : World) (s : St) (m : Msg) : (send w s m).2.isResponse = m.isResponse := by
  unfold send
  split
  · rfl
  · obtain ⟨n, hn⟩ := decForwards_frame m
    rw [hn]
    unfold writeMsg
    split
    · rename_i m' c hts hs
      obtain ⟨v, rfl, _⟩ := addTimestamp_frame hts
      dsimp only
      split <;> exact appended_isResponse _
    · rfl

theorem quiet_sendRsp (w : World) (s : St) (h : RspOK s) : Quiet s (sendRsp w s) := by
  unfold sendRsp
  split
  · exact quiet_refl s _
  · rename_i m hm
    have hq := quiet_send w s m (by simp [isOwn, h m hm])
    exact ⟨hq.own, hq.tick, hq.shown, hq.state, fun _ x hx => by cases hx; rw [send_isResponse]; exact h m hm, hq.same⟩

/-- Connecting, as a step towards `Ready`. -/
structure Dialled (s t : St) : Prop where
  sends : sends t.outs = sends s.outs
  tick : s.tick ≤ t.tick
  shown : published t.outs = published s.outs
  same : t.state = s.state ∧ t.response = s.response ∧ t.invite = s.invite ∧ t.req = s.req ∧ t.lseq = s.lseq

theorem Dialled.own {s t : St} (h : Dialled s t) : own t.outs = own s.outs := by
  unfold Dialog.own; rw [h.sends]

theorem Dialled.trans {a b c : St} (h : Dialled a b) (k : Dialled b c) : Dialled a c := by
  obtain ⟨h1, h2, h3, h4, h5⟩ := h.same
  obtain ⟨k1, k2, k3, k4, k5⟩ := k.same
  exact ⟨k.sends.trans h.sends, Nat.le_trans h.tick k.tick, k.shown.trans h.shown, k1.trans h1, k2.trans h2,
    k3.trans h3, k4.trans h4, k5.trans h5⟩

theorem dialled_connect (w : World) (s : St) : Dialled s (connect w s).1 := by
  have hd : sends (s.outs ++ [.dial s.addr]) = sends s.outs := by rw [sends_append]; simp [sends]
  have hp : published (s.outs ++ [.dial s.addr]) = published s.outs := by rw [published_append]; simp [published]
  unfold connect
  split
  · exact ⟨rfl, Nat.le_refl _, rfl, rfl, rfl, rfl, rfl, rfl⟩
  · dsimp only
    split
    · exact ⟨hd, Nat.le_succ _, hp, rfl, rfl, rfl, rfl, rfl⟩
    · unfold connectLoose
      split
      · split
        · exact ⟨hd, by simp [St.out]; omega, hp, rfl, rfl, rfl, rfl, rfl⟩
        · exact ⟨hd, by simp [St.out]; omega, hp, rfl, rfl, rfl, rfl, rfl⟩
      · exact ⟨hd, Nat.le_succ _, hp, rfl, rfl, rfl, rfl, rfl⟩

theorem connect_sock (w : World) (s : St) (h : (connect w s).2 = true) : ∃ c, (connect w s).1.sock = some c := by
  unfold connect at h ⊢
  split at h
  · rename_i hs
    rw [if_pos hs]
    cases hc : s.sock with
    | none => simp [hc] at hs
    | some c => exact ⟨c, rfl⟩
  · rename_i hs
    rw [if_neg hs]
    dsimp only at h ⊢
    split at h
    · simp at h
    · unfold connectLoose at h ⊢
      split at h
      · split at h
        · simp at h
        · split
          · exact ⟨_, rfl⟩
          · exact ⟨_, rfl⟩
      · split
        · simp_all
        · exact ⟨_, rfl⟩

/-- `popRoute` fails, waits for ever, or makes an attempt once connected. -/
theorem popRoutes_cases (w : World) (l : List Bytes) (s : St) :
    ∃ t, Dialled s t ∧ ((∃ e, popRoutes w l s = t.fail e) ∨ popRoutes w l s = ⟨t, .stuck⟩ ∨ ((∃ c, t.sock = some c) ∧ popRoutes w l s = attempt w t)) := by
  induction l generalizing s with
  | nil => exact ⟨{ s with routes := [] }, ⟨rfl, Nat.le_refl _, rfl, rfl, rfl, rfl, rfl, rfl⟩, .inl ⟨_, rfl⟩⟩
  | cons a l ih =>
    have h0 : Dialled s { s with addr := a, routes := l } := ⟨rfl, Nat.le_refl _, rfl, rfl, rfl, rfl, rfl, rfl⟩
    have h1 := h0.trans (dialled_connect w { s with addr := a, routes := l })
    simp only [popRoutes]
    split
    · exact ⟨{ s with addr := a, routes := l, sock := none }, ⟨rfl, Nat.le_refl _, rfl, rfl, rfl, rfl, rfl, rfl⟩, .inr (.inl rfl)⟩
    split
    · rename_i hb
      exact ⟨_, h1, .inr (.inr ⟨connect_sock w _ hb, rfl⟩)⟩
    · obtain ⟨t, ht, hc⟩ := ih (connect w { s with addr := a, routes := l }).1
      exact ⟨t, h1.trans ht, hc⟩

theorem rsp_of_eq {s t : St} (h : t.response = s.response) : RspOK s → RspOK t := by
  unfold RspOK; rw [h]; exact id

/-- `popRoute` from a state `t` that differs from `s` only in what is chosen to be sent. -/
theorem acts_choose (w : World) (s t : St) (l : List Bytes) (h1 : own t.outs = own s.outs) (h2 : s.tick ≤ t.tick)
    (h3 : published t.outs = published s.outs) (h4 : t.state = s.state) (h5 : t.response = s.response)
    (h6 : ∃ u a, t.invite = { s.invite with request := u, addrs := a } ∧
      ∀ f, f ≠ .route → a f = s.invite.addrs f)
    (h8 : t.req ≠ .invite → t.invite = s.invite)
    (h7 : (t.lseq = s.lseq ∧ (t.req = s.req ∨ t.req = .invite)) ∨
      ∃ remote b n, s.state = .answered ∧ s.remote = some remote ∧
        newBye s.invite remote (some s.lseq) = .ok (b, n) ∧ t.lseq = n ∧
        t.req = .other (routeMessage none none b).1) : Acts w s (popRoutes w l t) := by
  obtain ⟨t', hd, hc⟩ := popRoutes_cases w l t
  obtain ⟨d1, d2, d3, d4, d5⟩ := hd.same
  rcases hc with ⟨e, he⟩ | he | ⟨hs, he⟩
  · rw [he]
    refine .one (.quiet (quiet_dead (by simp) ?_ ?_ ?_ ?_ ?_))
    · simp only [St.out]; rw [own_err, hd.own, h1]
    · exact Nat.le_trans h2 hd.tick
    · exact d1.trans h4
    · simp only [St.out]; rw [published_err, hd.shown, h3]
    · exact rsp_of_eq (d2.trans h5)
  · rw [he]
    exact .one (.quiet (quiet_dead (by simp) (hd.own.trans h1) (Nat.le_trans h2 hd.tick) (d1.trans h4)
      (hd.shown.trans h3) (rsp_of_eq (d2.trans h5))))
  · rw [he]
    refine .one (.attempt ⟨hd.own.trans h1, Nat.le_trans h2 hd.tick, hd.shown.trans h3, d1.trans h4,
      rsp_of_eq (d2.trans h5), hs, by rw [d3]; exact h6, by rw [d3, d4]; exact h8, ?_⟩)
    rw [d4, d5]; exact h7

theorem acts_nextRoute (w : World) (s : St) : Acts w s (nextRoute w s) :=
  acts_choose w s s _ rfl (Nat.le_refl _) rfl rfl rfl ⟨_, _, rfl, fun _ _ => rfl⟩ (fun _ => rfl) (.inl ⟨rfl, .inl rfl⟩)

/-- `RouteMessage` without own addresses changes the request URI and the routes at most. -/
theorem route_none (m : Msg) : ∃ u a, (routeMessage none none m).1 = { m with request := u, addrs := a } ∧
    ∀ f, f ≠ .route → a f = m.addrs f := by
  unfold routeMessage
  split
  · exact ⟨m.request, m.addrs, by simp [popVia, viaCompareHostPort], fun _ _ => rfl⟩
  · simp only
    split
    · exact ⟨_, _, rfl, fun f hf => by simp [setAt, hf]⟩
    · split
      · exact ⟨_, _, rfl, fun f hf => by simp [setAt, hf]⟩
      · split
        · exact ⟨_, _, rfl, fun f hf => by simp [setAt, hf]⟩
        · split
          · exact ⟨_, _, rfl, fun f hf => by simp [setAt, hf]⟩
          · exact ⟨_, _, rfl, fun f hf => by simp [setAt, hf]⟩

/-- `sendRequest(dls.invite)`, from a state `t` that differs from `s` in the target of the invite. -/
theorem acts_sendInvite' (w : World) (s t : St) (h1 : t.outs = s.outs) (h2 : t.tick = s.tick)
    (h4 : t.state = s.state) (h5 : t.response = s.response)
    (h6 : ∃ u a, t.invite = { s.invite with request := u, addrs := a } ∧
      ∀ f, f ≠ .route → a f = s.invite.addrs f) (h7 : t.lseq = s.lseq) :
    Acts w s (sendInvite w t) := by
  have dead : ∀ (x : St) (e : DErr), x.outs = s.outs → s.tick ≤ x.tick → x.state = s.state → x.response = s.response →
      Acts w s (x.fail e) := by
    intro x e a1 a2 a3 a4
    refine .one (.quiet (quiet_dead (by simp) ?_ a2 a3 ?_ (rsp_of_eq a4)))
    · show own (x.outs ++ _) = _; rw [own_err, a1]
    · show published (x.outs ++ _) = _; rw [published_err, a1]
  have crash : ∀ (x : St), x.outs = s.outs → s.tick ≤ x.tick → x.state = s.state → x.response = s.response →
      Acts w s ⟨x, .crash⟩ := by
    intro x a1 a2 a3 a4
    exact .one (.quiet (quiet_dead (by simp) (by rw [a1]) a2 a3 (by rw [a1]) (rsp_of_eq a4)))
  have hle : s.tick ≤ t.tick := by rw [h2]; exact Nat.le_refl _
  unfold sendInvite sendTowards
  dsimp only
  split
  · exact crash _ h1 hle h4 h5
  · exact dead _ _ h1 hle h4 h5
  · split
    · exact crash _ h1 hle h4 h5
    · exact dead _ _ h1 (Nat.le_succ_of_le hle) h4 h5
    · refine acts_choose w s _ _ (by dsimp only; rw [h1]) (Nat.le_succ_of_le hle) (by dsimp only; rw [h1]) h4 h5 ?_
        (fun hc => absurd rfl hc) (.inl ⟨h7, .inr rfl⟩)
      obtain ⟨u, a, hi, hf⟩ := h6
      obtain ⟨u', a', hr, ha⟩ := route_none t.invite
      refine ⟨u', a', ?_, fun f hne => ?_⟩
      · dsimp only; rw [hr, hi]
      · rw [ha f hne, hi]; exact hf f hne

theorem acts_sendInvite (w : World) (s : St) : Acts w s (sendInvite w s) :=
  acts_sendInvite' w s s rfl rfl rfl rfl ⟨_, _, rfl, fun _ _ => rfl⟩ rfl

theorem acts_hangup (w : World) (s : St) : Acts w s (sendHangup w s) := by
  unfold sendHangup
  split
  · exact .one .cancel
  · exact .one .cancel
  · rename_i hst
    split
    · exact .refl _
    · rename_i remote hr
      split
      · rename_i b n hb
        unfold sendOther sendTowards
        dsimp only
        split
        · exact .one (.quiet (quiet_dead (by simp) rfl (Nat.le_refl _) rfl rfl))
        · exact .one (.quiet (quiet_dead (by simp) (own_err _ _) (Nat.le_refl _) rfl (published_err _ _)))
        · split
          · exact .one (.quiet (quiet_dead (by simp) rfl (Nat.le_refl _) rfl rfl))
          · exact .one (.quiet (quiet_dead (by simp) (own_err _ _) (Nat.le_succ _) rfl (published_err _ _)))
          · exact acts_choose w _ _ _ rfl (Nat.le_succ _) rfl rfl rfl ⟨_, _, rfl, fun _ _ => rfl⟩ (fun _ => rfl)
              (.inr ⟨remote, b, n, hst, hr, hb, rfl, rfl⟩)
      · exact .refl _
  · exact .refl _

theorem quiet_checkSDP (s : St) (m : Msg) : Quiet s (checkSDP s m) := by
  unfold checkSDP
  split
  · split
    · refine quiet_of_eq _ rfl rfl rfl rfl ?_ (Nat.le_refl _) rfl rfl ?_
      · simp only [St.out]; rw [own_append]; simp [own, sends]
      · simp only [St.out]; rw [published_append]; simp [published]
    · exact quiet_refl s _
  · exact quiet_refl s _

theorem quiet_ackFinal (w : World) (s : St) (m cur : Msg) : Quiet s (ackFinal w s m cur) := by
  unfold ackFinal
  split
  · split
    · exact quiet_fail s _
    · split
      · rename_i a ha
        exact quiet_sendNew w s _ (own_newAck ha)
      · exact quiet_refl s _
  · exact quiet_refl s _

theorem quiet_settle (s : St) (m : Msg) : Quiet s (settle s m) := by
  have h : Quiet s ⟨{ s with routes := [], requestTimer := false }, .go⟩ :=
    quiet_of_eq _ rfl rfl rfl rfl rfl (Nat.le_refl _) rfl rfl rfl
  unfold settle
  dsimp only
  split
  · exact h.trans (quiet_checkSDP _ _)
  · exact h

theorem did_handleStatus (w : World) (s : St) (m : Msg) (hq : s.req ≠ .none) : Did w s (handleStatus w s m) := by
  unfold handleStatus
  split
  · exact ⟨⟨s, .go⟩, .refl _, .publish s _ s.remote _ hq⟩
  split
  · exact ⟨⟨s, .go⟩, .refl _, .publish s _ s.remote _ hq⟩
  split
  · unfold handleOK
    split
    · split
      · exact ⟨⟨s, .go⟩, .refl _, .publish s _ (some m) _ hq⟩
      · exact .of_acts (.one (.quiet (quiet_of_eq _ rfl rfl rfl rfl rfl (Nat.le_refl _) rfl rfl rfl)))
    · split
      · exact ⟨⟨s, .go⟩, .refl _, .publish s _ s.remote _ hq⟩
      · exact .of_acts (.refl _)
  split
  · split
    · exact .of_acts (acts_nextRoute w s)
    · exact .of_acts (acts_fail w s _)
  split
  · unfold redirect
    split
    · refine .of_acts (acts_sendInvite' w s _ rfl rfl rfl rfl ⟨_, _, rfl, fun f hf => ?_⟩ rfl)
      exact setAt_ne _ _ hf
    · exact .of_acts (.refl _)
  split
  · exact .of_acts (acts_fail w s _)
  · exact .of_acts (.refl _)

theorem did_handleResponse (w : World) (s : St) (m : Msg) : Did w s (handleResponse w s m) := by
  unfold handleResponse
  split
  · exact .of_acts (.refl _)
  · rename_i cur hcur
    have hq : s.req ≠ .none := by
      intro h; unfold St.cur at hcur; rw [h] at hcur; cases hcur
    split
    · exact Did.after ((quiet_ackFinal w s m _).andThen fun t => quiet_settle t m) fun t ht =>
        did_handleStatus w t m (ht ▸ hq)
    · exact .of_acts (.refl _)

theorem acts_reinvite (w : World) (s : St) (m : Msg) :
    Acts w s ((checkSDP { s with remote := some m } m).andThen fun s => sendResponse w s (newResponse m 200)) := by
  refine .cons (t := { s with remote := some m })
    (.quiet (quiet_of_eq _ rfl rfl rfl rfl rfl (Nat.le_refl _) rfl rfl rfl)) ?_
  refine Acts.andThen (.one (.quiet (quiet_checkSDP _ _))) fun t => ?_
  unfold sendResponse
  refine .cons (t := { t with response := some (newResponse m 200), responseResends := 0, responseTimer := true })
    (.quiet (quiet_of_eq _ rfl rfl rfl rfl rfl (Nat.le_refl _) rfl rfl rfl ?_)) ?_
  · intro _ x hx
    cases hx
    simp [newResponse, Msg.isResponse]
  · refine .one (.quiet (quiet_sendRsp w _ ?_))
    intro x hx
    cases hx
    simp [newResponse, Msg.isResponse]

theorem did_handleMethod (w : World) (s : St) (m : Msg) (hq : s.req ≠ .none) : Did w s (handleMethod w s m) := by
  unfold handleMethod
  split
  · exact Did.after (quiet_sendNew w s _ (own_newResponse m _ (by decide))) fun t ht =>
      ⟨⟨t, .go⟩, .refl _, .publish t _ t.remote _ (ht ▸ hq)⟩
  split
  · exact .of_acts (acts_sendNew w s m _ (by decide))
  split
  · exact .of_acts (acts_reinvite w s m)
  split
  · exact .of_acts (.one (.quiet (quiet_of_eq _ rfl rfl rfl rfl rfl (Nat.le_refl _) rfl rfl rfl
      (fun _ x hx => by cases hx))))
  · exact .of_acts (acts_sendNew w s m _ (by decide))

theorem did_handleMessage (w : World) (s : St) (m : Msg) : Did w s (handleMessage w s m) := by
  unfold handleMessage
  split
  · exact .of_acts (.refl _)
  rename_i cur hcur
  have hq : s.req ≠ .none := by
    intro h; unfold St.cur at hcur; rw [h] at hcur; cases hcur
  split
  · exact .of_acts ((acts_sendNew w s m _ (by decide)).andThen fun t => acts_fail w t _)
  split
  · exact .of_acts (acts_sendNew w s m _ (by decide))
  split
  · exact did_handleResponse w s m
  · unfold handleRequest
    split
    · exact .of_acts ((acts_sendNew w s m _ (by decide)).andThen fun t => acts_fail w t _)
    split
    · exact .of_acts (acts_sendNew w s m _ (by decide))
    · obtain ⟨r0, a, e⟩ := did_handleMethod w { s with rseq := m.cseq } m hq
      refine ⟨r0, .cons (.quiet ?_) a, e⟩
      exact quiet_of_eq _ rfl rfl rfl rfl rfl (Nat.le_refl _) rfl rfl rfl

theorem did_step (w : World) (s : St) (ev : Event) (h : RspOK s) : Did w s (step w s ev) := by
  cases ev with
  | sockErr b e =>
    simp only [step]
    split
    · exact .of_acts (.refl _)
    split
    · exact .of_acts (.one (.quiet (quiet_dead (by simp) rfl (Nat.le_refl _) rfl rfl)))
    · exact .of_acts (.one (.quiet (quiet_dead (by simp) (own_err _ _) (Nat.le_refl _) rfl (published_err _ _))))
  | csockErr e =>
    simp only [step]
    split
    · exact .of_acts (.refl _)
    · exact .of_acts (.one (.quiet (quiet_dead (by simp) (own_err _ _) (Nat.le_refl _) rfl (published_err _ _))))
  | requestTimer =>
    simp only [step]
    split
    · refine .of_acts (.cons (t := { s with requestTimer := false })
        (.quiet (quiet_of_eq _ rfl rfl rfl rfl rfl (Nat.le_refl _) rfl rfl rfl)) ?_)
      unfold resendRequest
      split
      · exact .refl _
      · split
        · rename_i hlt
          exact .one (.resend hlt)
        · split
          · exact .refl _
          · exact acts_nextRoute w _
    · exact .of_acts (.refl _)
  | responseTimer =>
    simp only [step]
    split
    · refine .of_acts (.cons (t := { s with responseTimer := false })
        (.quiet (quiet_of_eq _ rfl rfl rfl rfl rfl (Nat.le_refl _) rfl rfl rfl)) ?_)
      unfold resendResponse
      split
      · exact .refl _
      · split
        · refine Acts.andThen (.one (.quiet (quiet_sendRsp w _ h))) fun t => ?_
          exact .one (.quiet (quiet_of_eq _ rfl rfl rfl rfl rfl (Nat.le_refl _) rfl rfl rfl))
        · split
          · exact .refl _
          · exact acts_nextRoute w _
    · exact .of_acts (.refl _)
  | msg m =>
    simp only [step]
    split
    · exact .of_acts (.refl _)
    · exact did_handleMessage w s m
  | hangup => exact .of_acts (acts_hangup w s)

/-! ### Invariants -/

/-- What `send` does: it only adds outputs and ticks. -/
inductive SendRes (w : World) (s : St) (m : Msg) : Run × Msg → Prop where
  | loop : m.maxForwards = 1 → SendRes w s m (s.fail .localLoop, { m with maxForwards := 0 })
  | crash (m') : SendRes w s m (⟨s, .crash⟩, m')
  | sent {c m'} (x) : s.sock = some c → m.maxForwards ≠ 1 →
      addTimestamp (w.clock s.tick) (decForwards m) = .ok m' →
      SendRes w s m (⟨{ s with tick := s.tick + 1 }.out (.sent c.remote m' x), .go⟩, m'.appended)
  | broken {c m'} (x e) : s.sock = some c → m.maxForwards ≠ 1 →
      addTimestamp (w.clock s.tick) (decForwards m) = .ok m' →
      SendRes w s m (({ s with tick := s.tick + 1 }.out (.sent c.remote m' x)).fail (.net e), m'.appended)

theorem send_res (w : World) (s : St) (m : Msg) : SendRes w s m (send w s m) := by
  unfold send
  split
  · rename_i h; exact .loop h
  · rename_i hne
    unfold writeMsg
    split
    · rename_i m' c ht hs
      dsimp only
      split
      · exact .sent _ hs hne ht
      · exact .broken _ _ hs hne ht
    · exact .crash _

theorem appended_own {m : Msg} (h : m.isResponse = false) : m.appended = m := by
  unfold Msg.appended; simp [h]

/-- `dls.response` stays a response. -/
theorem rsp_send (w : World) (s : St) (m : Msg) : (send w s m).1.s.response = s.response := by
  have h := send_res w s m
  generalize send w s m = x at h ⊢
  cases h <;> rfl

theorem rsp_setCur (s : St) (m : Msg) : (s.setCur m).response = s.response := by
  unfold St.setCur; split <;> rfl

theorem rsp_sendCur (w : World) (s : St) : (sendCur w s).s.response = s.response := by
  unfold sendCur
  split
  · rfl
  · rw [rsp_setCur, rsp_send]

theorem rsp_newAttempt (s : St) (m : Msg) : (newAttempt s m).response = s.response := by
  unfold newAttempt
  dsimp only
  split <;> exact rsp_setCur s m

theorem rsp_attempt (w : World) (s : St) : (attempt w s).s.response = s.response := by
  unfold attempt
  split
  · split
    · rw [rsp_sendCur, rsp_newAttempt]
    · rfl
  · rfl

theorem rsp_act {w : World} {s : St} {r : Run} (h : Act w s r) (k : RspOK s) : RspOK r.s := by
  cases h with
  | quiet h => exact h.rsp k
  | cancel => exact rsp_of_eq (rsp_send w s _) k
  | resend _ =>
    refine rsp_of_eq ?_ k
    have := rsp_sendCur w s
    unfold Run.andThen
    split <;> exact this
  | attempt h => exact rsp_of_eq (rsp_attempt w _) (h.rsp k)

theorem rsp_acts {w : World} {s : St} {r : Run} (h : Acts w s r) (k : RspOK s) : RspOK r.s := by
  induction h with
  | refl => exact k
  | snoc _ a ih => exact rsp_act a ih

theorem rsp_ends {r r' : Run} (h : Ends r r') (k : RspOK r.s) : RspOK r'.s := by
  cases h with
  | same => exact k
  | publish => exact k

/-- Rule for invariants: they hold initially, acts of a running loop keep them, so does the end of an
event, and they do not depend on the loop running. -/
theorem invariant {w : World} {J : Run → Prop} (invite : Msg) (h0 : J ⟨{ invite := invite }, .go⟩)
    (hc : ∀ s c, J ⟨s, .go⟩ → J ⟨s, c⟩) (ha : ∀ s r, J ⟨s, .go⟩ → Act w s r → J r)
    (he : ∀ r r', J r → Ends r r' → J r') (evs : List Event) : J (loop w evs (start w invite)) := by
  have acts : ∀ s r, J ⟨s, .go⟩ → Acts w s r → J r := by
    intro s r hs h
    induction h with
    | refl c => exact hc _ _ hs
    | snoc _ a ih => exact ha _ _ ih a
  have hr0 : RspOK (start w invite).s := rsp_acts (acts_sendInvite w _) (fun m hm => by cases hm)
  have hj0 : J (start w invite) := acts _ _ h0 (acts_sendInvite w _)
  suffices ∀ r, RspOK r.s → J r → J (loop w evs r) from this _ hr0 hj0
  induction evs with
  | nil => exact fun r _ h => h
  | cons e evs ih =>
    intro r hr h
    simp only [loop]
    obtain ⟨s, c⟩ := r
    cases c with
    | go =>
      obtain ⟨r0, a, en⟩ := did_step w s e hr
      exact ih _ (rsp_ends en (rsp_acts a hr)) (he _ _ (acts _ _ h a) en)
    | stop => exact ih _ hr h
    | crash => exact ih _ hr h
    | stuck => exact ih _ hr h

end Gosip.Dialog
