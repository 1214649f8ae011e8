import Verif.Props.Call
import Verif.Dialog.Resend

/-!
# Properties C50 and C51: answers to requests, acknowledgement of responses
-/

namespace Gosip.Props
open Sip Spec Dialog

/-! ## C50 -/

/-- Call-ID of the current request, from the requests sent. -/
theorem callID_cur {s : St} (h : Alive s) {callID : Bytes} (hcall : ∃ x ∈ requests s.outs, x.2.callID = callID) :
    ∃ cur, s.cur = some cur ∧ cur.callID = callID := by
  obtain ⟨cur, hc, _, _, hcid⟩ := h.cur
  obtain ⟨x, hx, hxc⟩ := hcall
  rw [requests_eq] at hx
  exact ⟨cur, hc, by rw [hcid, ← hxc, h.call x hx]⟩

theorem state_of_published {w : World} {invite : Msg} {evs : List Event}
    {c : CallState} (h : (published (loop w evs (start w invite)).s.outs).getLast? = some c) :
    (loop w evs (start w invite)).s.state = c := by
  have := (shown_loop w invite evs).last
  rw [h] at this
  exact this.symm

theorem loop_append (w : World) (a b : List Event) (r : Run) : loop w (a ++ b) r = loop w b (loop w a r) := by
  induction a generalizing r with
  | nil => rfl
  | cons e a ih => exact ih _

theorem loop_go {w : World} {l : List Event} {r : Run} (h : (loop w l r).c = .go) : r.c = .go := by
  induction l generalizing r with
  | nil => exact h
  | cons e l ih => exact (Run.andThen_go (ih h)).1

theorem loop_cons_go {w : World} {e : Event} {l : List Event} {r : Run} (h : (loop w (e :: l) r).c = .go) :
    loop w (e :: l) r = loop w l (step w r.s e) := by
  have := loop_go (l := l) (r := r.andThen fun s => step w s e) h
  show loop w l (r.andThen fun s => step w s e) = _
  rw [(Run.andThen_go this).2]

/-- **C50** (out of order). In an answered call, a request `m1` is accepted; then things happen, but no provisional
response; then a request with a smaller CSeq arrives: it is answered 500. -/
theorem C50_out_of_order (w : World) (invite : Msg) (evs mid : List Event) (m1 m2 : Msg) (callID : Bytes)
    (hi : IsInvite invite) (hid : ∀ n, (w.ids n).callID ≠ [])
    (hans : (published (loop w evs (start w invite)).s.outs).getLast? = some .answered)
    (hcall : ∃ x ∈ requests (loop w evs (start w invite)).s.outs, x.2.callID = callID)
    (h1 : Proper callID m1) (hnew : Newest callID evs m1) (hpos : 0 < m1.cseq)
    (hmid : ∀ ev ∈ mid, progress ev ≠ some 0 ∧ progress ev ≠ some 1)
    (hg : (loop w (evs ++ .msg m1 :: mid) (start w invite)).c = .go)
    (h2 : Proper callID m2) (hlt : m2.cseq < m1.cseq) (hv : m2.via ≠ [] ∨ ∀ n, w.clock n = none) :
    ∃ new, (loop w (evs ++ .msg m1 :: mid ++ [.msg m2]) (start w invite)).s.outs =
      (loop w (evs ++ .msg m1 :: mid) (start w invite)).s.outs ++ new ∧ SentReply m2 500 new := by
  have hal := alive_dialog hi hid hg
  have hg' := hg
  rw [loop_append] at hg'
  have hg1 := loop_go hg'
  have hal1 := alive_dialog hi hid hg1
  obtain ⟨c1, hs1⟩ := hal1.sock
  obtain ⟨cur1, hc1, hcid1⟩ := callID_cur hal1 hcall
  rw [loop_cons_go hg'] at hg'
  have hacc := accept_step (w := w) hs1 hc1 h1.request h1.version (h1.call.trans hcid1.symm) h1.forwards
    (state_of_published hans) (seq_newest hi hid hg1 hcall hnew) (loop_go hg')
  obtain ⟨hk, _⟩ := rises_loop w mid _ hacc.2 m1.cseq hpos (by rw [hacc.1]; exact Int.le_refl _) hmid hg'
  have hloop : loop w (evs ++ .msg m1 :: mid) (start w invite) =
      loop w mid (step w (loop w evs (start w invite)).s (.msg m1)) := by
    rw [loop_append]
    exact loop_cons_go (by rw [← loop_append]; exact hg)
  have hrs : (loop w (evs ++ .msg m1 :: mid) (start w invite)).s.rseq ≥ m1.cseq := by
    rw [hloop]; exact hk
  have hcall2 : ∃ x ∈ requests (loop w (evs ++ .msg m1 :: mid) (start w invite)).s.outs, x.2.callID = callID := by
    obtain ⟨x, hx, hxc⟩ := hcall
    refine ⟨x, ?_, hxc⟩
    have hgr : Grows (loop w evs (start w invite)).s (loop w (evs ++ .msg m1 :: mid) (start w invite)).s := by
      rw [loop_append]; exact grows_loop w _ _
    obtain ⟨l, hl⟩ := hgr
    rw [hl, requests_eq, own_append, List.mem_append]
    exact .inl (by rw [← requests_eq]; exact hx)
  obtain ⟨cur, hc, hcid⟩ := callID_cur hal hcall2
  obtain ⟨c, hs⟩ := hal.sock
  -- the request is refused before its session description is looked at
  have hnr : m2.isResponse = false := by have := h2.request; simp [Msg.isResponse]; omega
  have hstep : step w (loop w (evs ++ .msg m1 :: mid) (start w invite)).s (.msg m2) =
      sendNew w (loop w (evs ++ .msg m1 :: mid) (start w invite)).s (newResponse m2 500) := by
    have h0 : step w (loop w (evs ++ .msg m1 :: mid) (start w invite)).s (.msg m2) =
      handleMessage w (loop w (evs ++ .msg m1 :: mid) (start w invite)).s m2 := by simp [step, hs]
    rw [h0]
    unfold handleMessage
    simp only [hc, hnr, Bool.false_eq_true, if_false]
    rw [if_neg (show ¬ (m2.versionMajor ≠ 2 ∨ m2.versionMinor ≠ 0) by simp [h2.version]),
      if_neg (not_not_intro (h2.call.trans hcid.symm))]
    unfold handleRequest
    rw [if_neg (by have := h2.forwards; omega), if_pos (by omega)]
  rw [loop_snoc, Run.andThen_of_go hg, hstep]
  obtain ⟨c', r, new, _, k2, k3, k4⟩ := reply 500 hs hv
  exact ⟨new, k3, c'.remote, newResponse m2 500, r, k4, C34_response_echoes m2 500, k2⟩

/-- **C50** (re-INVITE). A re-INVITE in order is answered 200; the answer is sent again every time the timer
fires, up to `maxResends` times. -/
theorem C50_reinvite_repeated (w : World) (invite : Msg) (evs : List Event) (m : Msg) (callID : Bytes) (n : Nat)
    (hi : IsInvite invite) (hid : ∀ n, (w.ids n).callID ≠ []) (hw : ∀ n, w.write n = .ok ())
    (hg : (loop w evs (start w invite)).c = .go)
    (hcall : ∃ x ∈ requests (loop w evs (start w invite)).s.outs, x.2.callID = callID)
    (hm : m.method = b!"INVITE") (ho : Proper callID m) (hnew : Newest callID evs m)
    (hv : m.via ≠ [] ∨ ∀ n, w.clock n = none) (haudio : ∀ d, m.payload = some (.sdp d) → d.audio ≠ none)
    (hn : n ≤ w.maxResends) :
    (loop w (evs ++ .msg m :: List.replicate n .responseTimer) (start w invite)).c = .go ∧
    ∃ l r0, l.length = n + 1 ∧ Echoes m 200 r0 ∧ (∀ x ∈ l, Stamped r0 x.2) ∧
      sends (loop w (evs ++ .msg m :: List.replicate n .responseTimer) (start w invite)).s.outs =
      sends (loop w evs (start w invite)).s.outs ++ l := by
  have hal := alive_dialog hi hid hg
  obtain ⟨c, hs⟩ := hal.sock
  obtain ⟨cur, hc, hcid⟩ := callID_cur hal hcall
  obtain ⟨h1, h2, d, r, h3, h4⟩ := reinvite_step (w := w) hw hs hc ho.request hm ho.version
    (ho.call.trans hcid.symm) ho.forwards (seq_newest hi hid hg hcall hnew) haudio hv
  have hl : loop w (evs ++ .msg m :: List.replicate n .responseTimer) (start w invite) =
      loop w (List.replicate n .responseTimer) (step w (loop w evs (start w invite)).s (.msg m)) := by
    rw [loop_append]
    show loop w _ (Run.andThen _ _) = _
    unfold Run.andThen
    rw [hg]
  rw [hl]
  obtain ⟨i1, _, l, i3, i4, i5⟩ := waiting_loop hw rfl (phraseOf_ne_nil 200) (canStamp_rsp hv 200) n _ 0 h1 h2 (by omega)
  refine ⟨i1, (d, r) :: l, newResponse m 200, by simp [i3], C34_response_echoes m 200, ?_, ?_⟩
  · intro x hx
    rcases List.mem_cons.1 hx with rfl | hx
    · exact h3
    · exact i4 x hx
  · rw [i5, h4]; simp

/-- **C50** (re-INVITE). Once an ACK in order has arrived, the answer is not sent any more. -/
theorem C50_reinvite_until_ack (w : World) (invite : Msg) (evs : List Event) (m : Msg) (callID : Bytes) (n : Nat)
    (hi : IsInvite invite) (hid : ∀ n, (w.ids n).callID ≠ [])
    (hg : (loop w evs (start w invite)).c = .go)
    (hcall : ∃ x ∈ requests (loop w evs (start w invite)).s.outs, x.2.callID = callID)
    (hm : m.method = b!"ACK") (ho : Proper callID m) (hnew : Newest callID evs m) :
    (loop w (evs ++ .msg m :: List.replicate n .responseTimer) (start w invite)).s.outs =
    (loop w evs (start w invite)).s.outs := by
  have hal := alive_dialog hi hid hg
  obtain ⟨c, hs⟩ := hal.sock
  obtain ⟨cur, hc, hcid⟩ := callID_cur hal hcall
  have hstep := ackReq_step (w := w) hs hc ho.request hm ho.version
    (ho.call.trans hcid.symm) ho.forwards (seq_newest hi hid hg hcall hnew)
  have hl : loop w (evs ++ .msg m :: List.replicate n .responseTimer) (start w invite) =
      loop w (List.replicate n .responseTimer) (step w (loop w evs (start w invite)).s (.msg m)) := by
    rw [loop_append]
    show loop w _ (Run.andThen _ _) = _
    unfold Run.andThen
    rw [hg]
  rw [hl, hstep, quiet_loop n _ rfl]

/-- **C50 is false** for ACK: one that belongs to another call, one with another version, one that has run out of
forwards and one out of order are answered. -/
theorem C50_ack_answered :
    demoSends [demoRsp [] 200, .msg { demoReqMsg b!"ACK" 1 with callID := b!"other" }] =
      [(b!"INVITE", 0), (b!"ACK", 0), ([], 481)] ∧
    demoSends [demoRsp [] 200, .msg { demoReqMsg b!"ACK" 1 with versionMajor := 3 }] =
      [(b!"INVITE", 0), (b!"ACK", 0), ([], 505)] ∧
    demoSends [demoRsp [] 200, .msg { demoReqMsg b!"ACK" 1 with maxForwards := 0 }] =
      [(b!"INVITE", 0), (b!"ACK", 0), ([], 483)] ∧
    demoSends [demoRsp [] 200, demoReq b!"OPTIONS" 2, demoReq b!"ACK" 1] =
      [(b!"INVITE", 0), (b!"ACK", 0), ([], 200), ([], 500)] := by
  decide +kernel

/-- Not even responses are safe: a response of another call is answered with a response, which two such peers
can do to each other for ever. -/
theorem C50_response_answered :
    demoSends [.msg { demoRspMsg [] 200 with callID := b!"other" }] = [(b!"INVITE", 0), ([], 481)] := by
  decide +kernel

/-- When the answer to a re-INVITE has been repeated often enough, the dialog does not give up on the re-INVITE:
it looks for another address for its own, long answered INVITE, and reports that as failed. -/
theorem C50_reinvite_unacknowledged :
    errors (demo ([demoRsp [] 200, demoReq b!"INVITE" 1] ++ List.replicate 3 .responseTimer)).s.outs =
      [.failed b!"10.0.0.2"] := by
  decide +kernel

example : demoSends [demoRsp [] 200, demoReq b!"OPTIONS" 2, demoReq b!"INFO" 3, demoReq b!"OPTIONS" 1,
    demoReq b!"INVITE" 4, .responseTimer, demoReq b!"ACK" 4, .responseTimer, demoReq b!"BYE" 5] =
    [(b!"INVITE", 0), (b!"ACK", 0), ([], 200), ([], 405), ([], 500), ([], 200), ([], 200), ([], 200)] := by
  decide +kernel

/-- The hypotheses of `C50_out_of_order`, `C50_reinvite_repeated` and `C50_reinvite_until_ack` can be met. -/
example : (demo ([demoRsp [] 200] ++ demoReq b!"OPTIONS" 2 :: [.requestTimer, demoRsp [] 200])).c = .go ∧
    (published (demo [demoRsp [] 200]).s.outs).getLast? = some .answered ∧
    (∃ x ∈ requests (demo [demoRsp [] 200]).s.outs, x.2.callID = b!"id") ∧ Proper b!"id" (demoReqMsg b!"OPTIONS" 2) ∧
    Newest b!"id" [demoRsp [] 200, demoReq b!"OPTIONS" 2] (demoReqMsg b!"INVITE" 2) := by
  refine ⟨by decide +kernel, by decide +kernel, by decide +kernel, by constructor <;> decide, ?_⟩
  intro m' hm' hp
  simp only [List.mem_cons, List.not_mem_nil, or_false] at hm'
  rcases hm' with h | h
  · cases h; exact absurd hp.request (by decide)
  · cases h; decide

/-! ## C51 -/

/-- **C51** (missing: responses to an INVITE after the application hung up, see `C51_after_hangup`). While the INVITE
is the last request of the dialog, every final response to it that names a Contact is acknowledged before anything
else is sent; one without Contact ends the call with an error. -/
theorem C51_final_acknowledged_partial (w : World) (invite : Msg) (evs : List Event) (m : Msg) (d : Bytes) (x : Msg)
    (hi : IsInvite invite) (hid : ∀ n, (w.ids n).callID ≠ []) (hg : (loop w evs (start w invite)).c = .go)
    (hx : (requests (loop w evs (start w invite)).s.outs).getLast? = some (d, x)) (hxi : x.method = b!"INVITE")
    (hm : Answers x m) (hst : 200 ≤ m.status) (hver : m.versionMajor = 2 ∧ m.versionMinor = 0)
    (hcall : m.callID = x.callID) :
    (m.addrs .contact = [] →
      (step w (loop w evs (start w invite)).s (.msg m)).s.outs =
        (loop w evs (start w invite)).s.outs ++ [.err .noContact] ∧
      (step w (loop w evs (start w invite)).s (.msg m)).c = .stop) ∧
    (m.addrs .contact ≠ [] → ∃ a ack dest text rest, Acknowledges x m a ∧ Stamped a ack ∧
      (step w (loop w evs (start w invite)).s (.msg m)).s.outs =
        (loop w evs (start w invite)).s.outs ++ .sent dest ack text :: rest) := by
  have h := alive_dialog hi hid hg
  obtain ⟨c, hs⟩ := h.sock
  obtain ⟨pre, d', x', cur, h1, h2, h3⟩ := h.last
  rw [requests_eq, h1] at hx
  simp only [List.getLast?_append, List.getLast?_singleton, Option.some_or, Option.some.injEq, Prod.mk.injEq] at hx
  obtain ⟨rfl, rfl⟩ := hx
  obtain ⟨v, hv⟩ := h3.only
  have hci : cur.method = b!"INVITE" := by rw [hv]; exact hxi
  have hcc : m.callID = cur.callID := by rw [hcall, hv]
  obtain ⟨k1, k2⟩ := ack_step (w := w) hs h2 hci hver hcc (answers_stamped h3.stamped hm) hst
  refine ⟨fun hc => ?_, fun hc => ?_⟩
  · rw [k1 hc]; exact ⟨rfl, rfl⟩
  · obtain ⟨a, ack, t, rest, e1, e2, e3⟩ := k2 hc
    exact ⟨a, ack, c.remote, t, rest, acknowledges_stamped h3.stamped e1, e2, e3⟩

/-- **C51 is false** after hanging up: the other side repeats its 200 because the ACK was lost, and is not
acknowledged any more. -/
theorem C51_after_hangup :
    demoSends [demoRsp [] 200, .hangup] = [(b!"INVITE", 0), (b!"ACK", 0), (b!"BYE", 0)] ∧
    demoSends [demoRsp [] 200, .hangup, demoRsp [] 200] = [(b!"INVITE", 0), (b!"ACK", 0), (b!"BYE", 0)] := by
  decide +kernel

/-- A refusal usually has no Contact: it is not acknowledged, and the application learns nothing of its status. -/
theorem C51_refusal_unacknowledged :
    demoSends [demoRspNoContact [] 486] = [(b!"INVITE", 0)] ∧
    errors (demo [demoRspNoContact [] 486]).s.outs = [.noContact] := by
  decide +kernel

example : demoSends [demoRsp [] 180, demoRsp [] 200, demoRsp [] 200] =
    [(b!"INVITE", 0), (b!"ACK", 0), (b!"ACK", 0)] ∧
    demoSends [demoRsp [] 486] = [(b!"INVITE", 0), (b!"ACK", 0)] ∧ (demo [demoRsp [] 180]).c = .go := by
  decide +kernel

end Gosip.Props
