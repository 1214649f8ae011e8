import Verif.Dialog.Reply
import Verif.Props.Routing

/-!
# How the dialog acknowledges and hangs up
-/

namespace Gosip.Dialog
open Sip Spec

/-! ### Time stamps and matching -/

theorem answers_stamped {x y m : Msg} (h : Stamped x y) (k : Answers x m) : Answers y m := by
  rcases h with rfl | ⟨v, l, ts, hv, ht, rfl⟩
  · exact k
  · obtain ⟨k1, k2, k3, more, mine, sent, older, k4, k5, k6, k7, b, k8, k9⟩ := k
    rw [hv] at k5
    cases k5
    refine ⟨k1, k2, k3, more, mine, _, _, k4, rfl, k6, k7, b, k8, ?_⟩
    obtain ⟨newer, p, older, e1, e2, e3, e4⟩ := k9
    refine ⟨ts ++ newer, p, older, by simp [e1], e2, e3, ?_⟩
    intro q hq
    rcases List.mem_append.1 hq with hq | hq
    · intro hs
      rw [ht q hq] at hs
      exact absurd hs (by decide)
    · exact e4 q hq

theorem hdr_stamped {x y : Msg} (h : Stamped x y) : y.hdr = x.hdr := by
  rcases h with rfl | ⟨v, l, ts, _, _, rfl⟩ <;> rfl

theorem acknowledges_stamped {x y m a : Msg} (h : Stamped x y) (k : Acknowledges y m a) : Acknowledges x m a := by
  obtain ⟨k1, k2, k3, k4, k5, k6, k7, k8, k9⟩ := k
  rw [hdr_stamped h] at k8
  exact ⟨k1, k2, k3, k4, k5, k6, k7, k8, k9⟩

/-! ### Outputs are only added -/

/-- `t` has all outputs of `s`. -/
def Grows (s t : St) : Prop := ∃ l, t.outs = s.outs ++ l

theorem Grows.refl (s : St) : Grows s s := ⟨[], by simp⟩

theorem Grows.trans {a b c : St} (h : Grows a b) (k : Grows b c) : Grows a c := by
  obtain ⟨l, h⟩ := h
  obtain ⟨l', k⟩ := k
  exact ⟨l ++ l', by rw [k, h, List.append_assoc]⟩

theorem Net.grows {s t : St} (h : Net s t) : Grows s t := by
  obtain ⟨l, h, _⟩ := h.outs
  exact ⟨l, h⟩

theorem grows_andThen {s : St} {r : Run} {f : St → Run} (h : Grows s r.s) (hf : ∀ t, Grows t (f t).s) :
    Grows s (r.andThen f).s := by
  unfold Run.andThen
  split
  · exact h.trans (hf _)
  · exact h
  · exact h
  · exact h

theorem grows_transition (s : St) (c : CallState) : Grows s (transition s c) := ⟨[.state c], rfl⟩

theorem grows_handleStatus (w : World) (s : St) (m : Msg) : Grows s (handleStatus w s m).s := by
  unfold handleStatus
  split
  · exact grows_transition _ _
  split
  · exact grows_transition _ _
  split
  · unfold handleOK
    split
    · dsimp only
      split
      · exact ⟨[.state .answered], rfl⟩
      · exact ⟨[], by simp⟩
    · split
      · exact grows_transition _ _
      · exact .refl s
  split
  · split
    · exact (net_nextRoute w s).grows
    · exact (net_fail _ _).grows
  split
  · exact (net_redirect w s m).grows
  split
  · exact (net_fail _ _).grows
  · exact .refl s

theorem grows_step (w : World) (s : St) (ev : Event) : Grows s (step w s ev).s := by
  cases ev with
  | sockErr b e =>
    simp only [step]
    split
    · exact .refl s
    split
    · exact ⟨[], by simp⟩
    · exact ⟨[.err (.net e)], rfl⟩
  | csockErr e =>
    simp only [step]
    split
    · exact .refl s
    · exact ⟨[.err (.net e)], rfl⟩
  | requestTimer =>
    simp only [step]
    split
    · exact (net_resendRequest w { s with requestTimer := false }).grows
    · exact .refl s
  | responseTimer =>
    simp only [step]
    split
    · exact (net_resendResponse w { s with responseTimer := false }).grows
    · exact .refl s
  | hangup => exact (net_sendHangup w s).grows
  | msg m =>
    simp only [step]
    split
    · exact .refl s
    unfold handleMessage
    split
    · exact .refl s
    split
    · exact (net_andThen (net_sendNew w s _) fun t ht => ht.trans (net_fail _ _)).grows
    split
    · exact (net_sendNew w s _).grows
    split
    · unfold handleResponse
      split
      · exact .refl s
      split
      · refine grows_andThen ?_ fun t => grows_handleStatus w t m
        exact (net_andThen (net_ackFinal w s m _) fun t ht => ht.trans (net_settle _ _)).grows
      · exact .refl s
    · unfold handleRequest
      split
      · exact (net_andThen (net_sendNew w s _) fun t ht => ht.trans (net_fail _ _)).grows
      split
      · exact (net_sendNew w s _).grows
      · unfold handleMethod
        split
        · exact grows_andThen (net_sendNew w { s with rseq := m.cseq } _).grows fun t => grows_transition _ _
        split
        · exact (net_sendNew w { s with rseq := m.cseq } _).grows
        split
        · exact (net_andThen (net_checkSDP { s with rseq := m.cseq, remote := some m } m)
            fun t ht => ht.trans (net_sendResponse w _ _)).grows
        split
        · exact ⟨[], by simp⟩
        · exact (net_sendNew w { s with rseq := m.cseq } _).grows

theorem grows_loop (w : World) (evs : List Event) (r : Run) : Grows r.s (loop w evs r).s := by
  induction evs generalizing r with
  | nil => exact .refl _
  | cons e evs ih => exact (grows_andThen (.refl _) fun t => grows_step w t e).trans (ih _)

/-! ### ACK -/

/-- A final response to the INVITE that is the current request. -/
theorem ack_step {w : World} {s : St} {c : Conn} {cur m : Msg} (hs : s.sock = some c) (hc : s.cur = some cur)
    (hi : cur.method = b!"INVITE") (hver : m.versionMajor = 2 ∧ m.versionMinor = 0) (hid : m.callID = cur.callID)
    (hm : Answers cur m) (hst : 200 ≤ m.status) :
    (m.addrs .contact = [] → step w s (.msg m) = s.fail .noContact) ∧
    (m.addrs .contact ≠ [] → ∃ a ack x rest, Acknowledges cur m a ∧ Stamped a ack ∧
      (step w s (.msg m)).s.outs = s.outs ++ .sent c.remote ack x :: rest) := by
  have hmt : responseMatch cur m = true := (Props.C36_response_match cur m).2 hm
  have hr : m.isResponse = true := by simp [Msg.isResponse]; omega
  have hvia : m.via ≠ [] := by
    obtain ⟨_, _, _, more, mine, _, _, h, _⟩ := hm
    rw [h]; simp
  have hstep : step w s (.msg m) =
      ((ackFinal w s m cur).andThen fun s => settle s m).andThen fun s => handleStatus w s m := by
    have h0 : step w s (.msg m) = handleMessage w s m := by simp [step, hs]
    rw [h0]
    unfold handleMessage
    simp only [hc, hr, if_true]
    rw [if_neg (show ¬ (m.versionMajor ≠ 2 ∨ m.versionMinor ≠ 0) by simp [hver]), if_neg (not_not_intro hid)]
    unfold handleResponse
    simp only [hc, hmt, if_true]
  rw [hstep]
  unfold ackFinal
  rw [if_pos ⟨hst, hi⟩]
  constructor
  · intro hcon
    rw [if_pos hcon]
    rfl
  · intro hcon
    rw [if_neg hcon]
    have hack := Props.C35_ack m cur
    have hf : ∀ a, newAck m cur = .ok a → a.maxForwards = 0 ∧ a.via ≠ [] := by
      intro a ha
      have h2 := (hack.1 a ha).via
      obtain ⟨top, more, _, h2⟩ := h2
      refine ⟨?_, by rw [h2]; simp⟩
      simp only [newAck, Res.bind_eq, Res.bind_ok_iff] at ha
      obtain ⟨_, _, _, _, ha⟩ := ha
      cases ha
      rfl
    cases ha : newAck m cur with
    | panic => rcases hack.2.1.1 ha with h | h <;> contradiction
    | err e => exact absurd ha (hack.2.2 e)
    | ok a =>
      dsimp only
      obtain ⟨hf1, hf2⟩ := hf a ha
      have hA := hack.1 a ha
      obtain ⟨ack, x, h1, _, h2⟩ := send_plain (w := w) hs (m := a) (by rw [hf1]; exact Int.le_refl 0) (.inl hf2)
      have hg : Grows ({ s with tick := s.tick + 1 }.out (.sent c.remote ack x))
          (((sendNew w s a).andThen fun s => settle s m).andThen fun s => handleStatus w s m).s := by
        refine grows_andThen (grows_andThen ?_ fun t => (net_settle t m).grows) fun t => grows_handleStatus w t m
        unfold sendNew
        rcases h2 with h2 | ⟨e, h2⟩
        · rw [h2]; exact .refl _
        · rw [h2]; exact (net_fail _ _).grows
      obtain ⟨rest, hg⟩ := hg
      exact ⟨a, ack, x, rest, hA, h1, by rw [hg]; simp [St.out]⟩

/-! ### CANCEL -/

theorem branch_via {m : Msg} (h : branchOf m ≠ none) : m.via ≠ [] := by
  intro hv
  unfold branchOf at h
  rw [hv] at h
  simp at h

theorem cancel_step {w : World} {s : St} {c : Conn} (hs : s.sock = some c) (hv : s.invite.via ≠ [])
    (hst : s.state.rank < 2) :
    ∃ c0 c' new, Cancels s.invite c0 ∧ Stamped c0 c' ∧
      (step w s .hangup).s.outs = s.outs ++ new ∧ sends new = [(c.remote, c')] := by
  have hstep : step w s .hangup = sendCancel w s := by
    simp only [step]
    unfold sendHangup
    cases h : s.state <;> simp [h, CallState.rank] at hst ⊢
  rw [hstep]
  obtain ⟨m', x, h1, _, h2⟩ := send_plain (w := w) hs (m := newCancel s.invite) (Int.le_refl 0) (.inl hv)
  unfold sendCancel
  dsimp only
  rcases h2 with h2 | ⟨e, h2⟩
  · rw [h2]
    exact ⟨_, m', _, Props.C35_cancel s.invite, h1, rfl, rfl⟩
  · rw [h2]
    exact ⟨_, m', [.sent c.remote m' x, .err (.net e)], Props.C35_cancel s.invite, h1,
      by simp [St.out, St.fail], rfl⟩

/-! ### BYE -/

/-- An attempt with the request `m0`. -/
theorem attempt_out (w : World) (t : St) (m0 : Msg) (hc : t.cur = some m0) (ho : isOwn m0 = true) :
    (sends (attempt w t).s.outs = sends t.outs ∧ (attempt w t).c ≠ .go) ∨
    ∃ c m m' n, t.sock = some c ∧ Populated (w.ids n) m0 m ∧ SentAs m m' ∧
      sends (attempt w t).s.outs = sends t.outs ++ [(c.remote, m')] := by
  rcases attempt_spec w t with ha | ⟨c, m1, m, h1, h2, h3, ha⟩
  · rw [ha]; exact .inl ⟨rfl, by simp⟩
  · rw [h2] at hc
    cases hc
    have hpop := populate_spec (isOwn_not_response ho) h3
    have hom := isOwn_populated hpop ho
    obtain ⟨f1, f2, f3, f4, f5, f6, f7, f8, f9⟩ := newAttempt_frame { t with tick := t.tick + 1 } m
    have hcur : (newAttempt { t with tick := t.tick + 1 } m).cur = some m := by
      rw [f6]; exact cur_setCur (m0 := m0) h2
    rw [ha]
    generalize newAttempt { t with tick := t.tick + 1 } m = q at *
    rcases sendCur_sent w q m hcur hom with ⟨_, e2, _⟩ | ⟨m', d, e1, e2, e3, e4, e5⟩
    · have : sends (sendCur w q).s.outs = sends q.outs ∨ (∃ c' x, sends (sendCur w q).s.outs = sends q.outs ++ [(c', x)]
          ∧ isOwn x = true) := by
        unfold sendCur
        simp only [hcur]
        rw [(setCur_frame _ _).1]
        have hsr := send_res w q m
        generalize send w q m = y at hsr ⊢
        cases hsr with
        | loop => left; show sends (q.outs ++ [_]) = _; rw [sends_append]; simp [sends]
        | crash => exact .inl rfl
        | @sent c m' x hs hne ht =>
          right
          obtain ⟨v, hv, _⟩ := addTimestamp_frame ht
          refine ⟨c.remote, m', sends_sent _ _ _ _, ?_⟩
          obtain ⟨k, hk⟩ := decForwards_frame m
          rw [hv, isOwn_via, hk, isOwn_mf]; exact hom
        | @broken c m' x e hs hne ht =>
          right
          obtain ⟨v, hv, _⟩ := addTimestamp_frame ht
          refine ⟨c.remote, m', ?_, ?_⟩
          · show sends ((q.outs ++ [_]) ++ [_]) = _
            rw [sends_append, sends_sent]; simp [sends]
          obtain ⟨k, hk⟩ := decForwards_frame m
          rw [hv, isOwn_via, hk, isOwn_mf]; exact hom
      rename_i e1 _
      rcases this with h | ⟨c', x, h, hx⟩
      · exact .inl ⟨by rw [h, f1], e2⟩
      · exfalso
        unfold own at e1
        rw [h] at e1
        simp [hx] at e1
    · right
      have hsd : ∃ c' x, sends (sendCur w q).s.outs = sends q.outs ++ [(c', x)] ∧ q.sock.map (·.remote) = some c' ∨
          sends (sendCur w q).s.outs = sends q.outs := by
        unfold sendCur
        simp only [hcur]
        rw [(setCur_frame _ _).1]
        have hsr := send_res w q m
        generalize send w q m = y at hsr ⊢
        cases hsr with
        | loop => exact ⟨[], {}, .inr (by show sends (q.outs ++ [_]) = _; rw [sends_append]; simp [sends])⟩
        | crash => exact ⟨[], {}, .inr rfl⟩
        | @sent c m' x hs hne ht => exact ⟨c.remote, m', .inl ⟨sends_sent _ _ _ _, by simp [hs]⟩⟩
        | @broken c m' x e hs hne ht =>
          refine ⟨c.remote, m', .inl ⟨?_, by simp [hs]⟩⟩
          show sends ((q.outs ++ [_]) ++ [_]) = _
          rw [sends_append, sends_sent]; simp [sends]
      obtain ⟨c', x, ⟨h, hc'⟩ | h⟩ := hsd
      · unfold own at e1
        rw [h] at e1
        simp only [List.filter_append] at e1
        have hx : (d, m') = (c', x) := by
          have := List.append_cancel_left e1
          cases hb : isOwn x <;> simp [hb] at this
          exact Prod.ext this.1.symm this.2.symm
        cases hx
        rw [f4, h1] at hc'
        simp only [Option.map_some, Option.some.injEq] at hc'
        exact ⟨c, m, m', t.tick, h1, hpop, e3, by rw [h, f1, hc']⟩
      · exfalso
        unfold own at e1
        rw [h] at e1
        simp at e1

theorem fail_sends (t : St) (e : DErr) : sends (t.fail e).s.outs = sends t.outs := by
  show sends (t.outs ++ [_]) = _
  rw [sends_append]; simp [sends]

/-- `popRoute` sends the current request, or ends the loop. -/
theorem popRoutes_out (w : World) (l : List Bytes) (s : St) (m0 : Msg) (hc : s.cur = some m0) (ho : isOwn m0 = true) :
    (sends (popRoutes w l s).s.outs = sends s.outs ∧ (popRoutes w l s).c ≠ .go) ∨
    ∃ d m m' n, Populated (w.ids n) m0 m ∧ SentAs m m' ∧
      sends (popRoutes w l s).s.outs = sends s.outs ++ [(d, m')] := by
  obtain ⟨t, hd, hc'⟩ := popRoutes_cases w l s
  obtain ⟨d1, d2, d3, d4, d5⟩ := hd.same
  rcases hc' with ⟨e, he⟩ | he | ⟨_, he⟩
  · rw [he, fail_sends, hd.sends]; exact .inl ⟨rfl, by simp [St.fail]⟩
  · rw [he]; exact .inl ⟨hd.sends, by simp⟩
  · rw [he]
    have htc : t.cur = some m0 := by unfold St.cur at hc ⊢; rw [d4, d3]; exact hc
    rcases attempt_out w t m0 htc ho with ⟨h1, h2⟩ | ⟨c, m, m', n, h1, h2, h3, h4⟩
    · exact .inl ⟨h1.trans hd.sends, h2⟩
    · exact .inr ⟨c.remote, m, m', n, h2, h3, by rw [h4, hd.sends]⟩

/-- Hanging up an answered call. -/
theorem bye_step {w : World} {s : St} (hst : s.state = .answered) :
    (sends (step w s .hangup).s.outs = sends s.outs ∧ (step w s .hangup).c ≠ .go) ∨
    ∃ remote b n d m m' k, s.remote = some remote ∧ newBye s.invite remote (some s.lseq) = .ok (b, n) ∧
      Populated (w.ids k) (routeMessage none none b).1 m ∧ SentAs m m' ∧
      sends (step w s .hangup).s.outs = sends s.outs ++ [(d, m')] := by
  have hstep : step w s .hangup = match s.remote with
    | none => ⟨s, .crash⟩
    | some remote =>
      match newBye s.invite remote (some s.lseq) with
      | .ok (m, n) => sendOther w { s with lseq := n } m
      | _ => ⟨s, .crash⟩ := by
    simp only [step]
    unfold sendHangup
    rw [hst]
    rfl
  rw [hstep]
  cases hr : s.remote with
  | none => exact .inl ⟨rfl, by simp⟩
  | some remote =>
    dsimp only
    cases hb : newBye s.invite remote (some s.lseq) with
    | panic => exact .inl ⟨rfl, by simp⟩
    | err e => exact .inl ⟨rfl, by simp⟩
    | ok bn =>
      obtain ⟨b, n⟩ := bn
      dsimp only
      unfold sendOther sendTowards
      dsimp only
      split
      · exact .inl ⟨rfl, by simp⟩
      · exact .inl ⟨fail_sends _ _, by simp [St.fail]⟩
      · split
        · exact .inl ⟨rfl, by simp⟩
        · exact .inl ⟨fail_sends _ _, by simp [St.fail]⟩
        · have ho : isOwn (routeMessage none none b).1 = true := isOwn_bye hb
          rename_i host port _ _ rs _
          unfold nextRoute
          rcases popRoutes_out w rs
            ({ s with lseq := n, remote := some remote, req := .other (routeMessage none none b).1, routes := rs, dest := host, tick := s.tick + 1 })
            (routeMessage none none b).1 rfl ho with h | ⟨d, m, m', k, h1, h2, h3⟩
          · exact .inl h
          · exact .inr ⟨remote, b, n, d, m, m', k, rfl, hb, h1, h2, h3⟩

/-! ### The other side's last word -/

/-- The message is a 200 response to an INVITE, or an INVITE. -/
def FromRemote (m : Msg) : Prop :=
  (m.status = 200 ∧ m.cseqMethod = b!"INVITE") ∨ (m.status ≤ 0 ∧ m.method = b!"INVITE")

/-- `s.remote` is one of the messages received. -/
def Heard (done : List Event) (s : St) : Prop := ∀ m, s.remote = some m → Event.msg m ∈ done ∧ FromRemote m

theorem Net.heard {s t : St} {done : List Event} (h : Net s t) (k : Heard done s) : Heard done t := by
  intro m hm
  rcases h.remote with h | h
  · exact k m (h ▸ hm)
  · rw [h.2] at hm; cases hm

theorem heard_andThen {s : St} {r : Run} {f : St → Run} {done : List Event} (h : Net s r.s)
    (hf : ∀ t, Heard done t → Heard done (f t).s) (k : Heard done s) : Heard done (r.andThen f).s := by
  unfold Run.andThen
  split
  · exact hf _ (h.heard k)
  · exact h.heard k
  · exact h.heard k
  · exact h.heard k

theorem heard_step (w : World) (s : St) (ev : Event) (done : List Event) (h : Heard done s) :
    Heard (done ++ [ev]) (step w s ev).s := by
  have h0 : Heard (done ++ [ev]) s := fun m hm => ⟨List.mem_append_left _ (h m hm).1, (h m hm).2⟩
  cases ev with
  | sockErr b e =>
    simp only [step]
    split
    · exact h0
    split <;> exact h0
  | csockErr e =>
    simp only [step]
    split <;> exact h0
  | requestTimer =>
    simp only [step]
    split
    · exact (net_resendRequest w _).heard h0
    · exact h0
  | responseTimer =>
    simp only [step]
    split
    · exact (net_resendResponse w _).heard h0
    · exact h0
  | hangup => exact (net_sendHangup w s).heard h0
  | msg m =>
    have hm : ∀ t : St, FromRemote m → t.remote = some m → Heard (done ++ [.msg m]) t := by
      intro t hf ht x hx
      rw [ht] at hx; cases hx; exact ⟨by simp, hf⟩
    simp only [step]
    split
    · exact h0
    unfold handleMessage
    split
    · exact h0
    split
    · exact (net_andThen (net_sendNew w s _) fun t ht => ht.trans (net_fail _ _)).heard h0
    split
    · exact (net_sendNew w s _).heard h0
    split
    · unfold handleResponse
      split
      · exact h0
      split
      · refine heard_andThen ?_ (fun t k => ?_) h0
        · exact net_andThen (net_ackFinal w s m _) fun t ht => ht.trans (net_settle _ _)
        · unfold handleStatus
          split
          · exact k
          split
          · exact k
          split
          · rename_i h200
            unfold handleOK
            split
            · rename_i hinv; exact hm _ (.inl ⟨h200, hinv⟩) rfl
            · split <;> exact k
          split
          · split
            · exact (net_nextRoute w t).heard k
            · exact (net_fail _ _).heard k
          split
          · exact (net_redirect w t m).heard k
          split
          · exact (net_fail _ _).heard k
          · exact k
      · exact h0
    · rename_i hnr
      have hnr : m.status ≤ 0 := by simp [Msg.isResponse] at hnr; omega
      unfold handleRequest
      split
      · exact (net_andThen (net_sendNew w s _) fun t ht => ht.trans (net_fail _ _)).heard h0
      split
      · exact (net_sendNew w s _).heard h0
      · unfold handleMethod
        split
        · exact heard_andThen (net_sendNew w _ _) (fun t k => k) h0
        split
        · exact (net_sendNew w _ _).heard h0
        split
        · rename_i hinv
          exact (net_andThen (net_checkSDP _ _) fun t ht => ht.trans (net_sendResponse w _ _)).heard
            (hm _ (.inr ⟨hnr, hinv⟩) rfl)
        split
        · exact h0
        · exact (net_sendNew w _ _).heard h0

theorem heard_loop (w : World) (invite : Msg) (evs : List Event) : Heard evs (loop w evs (start w invite)).s := by
  refine snoc_rec (P := fun evs => Heard evs (loop w evs (start w invite)).s) ?_ ?_ evs
  · exact (net_sendInvite w _).heard (fun m hm => by cases hm)
  · intro evs ev ih
    rw [loop_snoc]
    unfold Run.andThen
    split
    · exact heard_step w _ ev evs ih
    · exact fun m hm => ⟨List.mem_append_left _ (ih m hm).1, (ih m hm).2⟩
    · exact fun m hm => ⟨List.mem_append_left _ (ih m hm).1, (ih m hm).2⟩
    · exact fun m hm => ⟨List.mem_append_left _ (ih m hm).1, (ih m hm).2⟩

end Gosip.Dialog
