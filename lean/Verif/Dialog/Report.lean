import Verif.Dialog.Safe
import Verif.Dialog.Final
import Verif.Dialog.Silent
import Verif.Spec.Report

/-!
# What one message makes the dialog do, exactly
-/

namespace Gosip.Dialog
open Sip Spec

theorem paramIs_stamps {ts l : List (Bytes × Bytes)} {b : Bytes} (ht : ∀ p ∈ ts, p.1 = b!"usi")
    (h : ParamIs (ts ++ l) b!"branch" b) : ParamIs l b!"branch" b := by
  induction ts with
  | nil => exact h
  | cons t ts ih =>
    obtain ⟨newer, p, older, e1, e2, e3, e4⟩ := h
    cases newer with
    | nil =>
      simp only [List.nil_append, List.cons_append, List.cons.injEq] at e1
      rw [← e1.1, ht t (by simp)] at e2
      exact absurd e2 (by decide)
    | cons n newer =>
      simp only [List.cons_append, List.cons.injEq] at e1
      exact ih (fun p hp => ht p (by simp [hp])) ⟨newer, p, older, e1.2, e2, e3, fun q hq => e4 q (by simp [hq])⟩

theorem answers_unstamped {x y m : Msg} (h : Stamped x y) (k : Answers y m) : Answers x m := by
  rcases h with rfl | ⟨v, l, ts, hv, ht, rfl⟩
  · exact k
  · obtain ⟨k1, k2, k3, more, mine, sent, older, k4, k5, k6, k7, b, k8, k9⟩ := k
    simp only [List.cons.injEq] at k5
    obtain ⟨rfl, rfl⟩ := k5
    exact ⟨k1, k2, k3, more, mine, v, l, k4, hv, k6, k7, b, k8, paramIs_stamps ht k9⟩

/-- More outputs. -/
def St.outAll (s : St) (l : List Out) : St := { s with outs := s.outs ++ l }

theorem outAll_nil (s : St) : s.outAll [] = s := by simp [St.outAll]

theorem checkSDP_eq {s : St} {m : Msg} (h : HasAudio m) : checkSDP s m = ⟨s.outAll (mediaNews m), .go⟩ := by
  unfold checkSDP mediaNews mediaOf
  split
  · rename_i d hd
    split
    · rename_i a ha; simp [hd, ha, St.outAll, St.out]
    · rename_i ha; exact absurd ha (h d hd)
  · rename_i hn
    split
    · rename_i d hd; exact absurd hd (hn d)
    · simp [outAll_nil]

/-- A response to the current request. -/
theorem response_step {w : World} {s : St} {c : Conn} {cur m : Msg} (hs : s.sock = some c) (hc : s.cur = some cur)
    (hver : m.versionMajor = 2 ∧ m.versionMinor = 0) (hid : m.callID = cur.callID) (hm : Answers cur m) :
    step w s (.msg m) =
      ((ackFinal w s m cur).andThen fun s => settle s m).andThen fun s => handleStatus w s m := by
  have hmt : responseMatch cur m = true := (Props.C36_response_match cur m).2 hm
  have hr : m.isResponse = true := by
    have := hm.1; simp [Msg.isResponse]; omega
  have h0 : step w s (.msg m) = handleMessage w s m := by simp [step, hs]
  rw [h0]
  unfold handleMessage
  simp only [hc, hr, if_true]
  rw [if_neg (show ¬ (m.versionMajor ≠ 2 ∨ m.versionMinor ≠ 0) by simp [hver]), if_neg (not_not_intro hid)]
  unfold handleResponse
  simp only [hc, hmt, if_true]

/-- A response of another request. -/
theorem unmatched_step {w : World} {s : St} {c : Conn} {cur m : Msg} (hs : s.sock = some c) (hc : s.cur = some cur)
    (hver : m.versionMajor = 2 ∧ m.versionMinor = 0) (hid : m.callID = cur.callID) (hr : 0 < m.status)
    (hm : ¬ Answers cur m) : step w s (.msg m) = ⟨s, .go⟩ := by
  have hmt : responseMatch cur m ≠ true := fun h => hm ((Props.C36_response_match cur m).1 h)
  have hr : m.isResponse = true := by simp [Msg.isResponse]; omega
  have h0 : step w s (.msg m) = handleMessage w s m := by simp [step, hs]
  rw [h0]
  unfold handleMessage
  simp only [hc, hr, if_true]
  rw [if_neg (show ¬ (m.versionMajor ≠ 2 ∨ m.versionMinor ≠ 0) by simp [hver]), if_neg (not_not_intro hid)]
  unfold handleResponse
  simp only [hc, hmt, Bool.false_eq_true, if_false]

/-- Sending a message that has no Max-Forwards succeeds when the write does. -/
theorem sendNew_ok {w : World} {s : St} {c : Conn} {m : Msg} (hw : ∀ n, w.write n = .ok ()) (hs : s.sock = some c)
    (hf : m.maxForwards ≤ 0) (hv : CanStamp w m) :
    ∃ m' x, Stamped m m' ∧ sendNew w s m = ⟨{ s with tick := s.tick + 1 }.out (.sent c.remote m' x), .go⟩ := by
  obtain ⟨m', ht, hst⟩ := stamp_ok hv s.tick
  have hd : decForwards m = m := by unfold decForwards; rw [if_neg (by omega)]
  refine ⟨m', m'.text (w.origin s.tick), hst, ?_⟩
  unfold sendNew send
  rw [if_neg (by omega), hd]
  unfold writeMsg
  rw [ht, hs]
  dsimp only
  rw [hw]

/-- The acknowledgement, when the write succeeds. -/
theorem ack_ok {w : World} {s : St} {c : Conn} {cur m : Msg} (hw : ∀ n, w.write n = .ok ()) (hs : s.sock = some c)
    (hi : cur.method = b!"INVITE") (hm : Answers cur m) (hst : 200 ≤ m.status) (hcon : m.addrs .contact ≠ []) :
    ∃ a ack x, Acknowledges cur m a ∧ Stamped a ack ∧
      ackFinal w s m cur = ⟨{ s with tick := s.tick + 1 }.out (.sent c.remote ack x), .go⟩ := by
  have hvia : m.via ≠ [] := by
    obtain ⟨_, _, _, more, mine, _, _, h, _⟩ := hm
    rw [h]; simp
  have hack := Props.C35_ack m cur
  unfold ackFinal
  rw [if_pos ⟨hst, hi⟩, if_neg hcon]
  cases ha : newAck m cur with
  | panic => rcases hack.2.1.1 ha with h | h <;> contradiction
  | err e => exact absurd ha (hack.2.2 e)
  | ok a =>
    dsimp only
    have hA := hack.1 a ha
    have hf2 : a.via ≠ [] := by
      obtain ⟨top, more, _, h2⟩ := hA.via
      rw [h2]; simp
    have hf1 : a.maxForwards = 0 := by
      simp only [newAck, Res.bind_eq, Res.bind_ok_iff] at ha
      obtain ⟨_, _, _, _, ha⟩ := ha
      cases ha
      rfl
    obtain ⟨ack, x, h1, h2⟩ := sendNew_ok hw hs (m := a) (by rw [hf1]; exact Int.le_refl 0) (.inl hf2)
    exact ⟨a, ack, x, hA, h1, h2⟩

theorem settle_eq {s : St} {m : Msg} (h : HasAudio m) (hst : m.status ≤ 200) :
    settle s m = ⟨{ s with routes := [], requestTimer := false }.outAll (mediaNews m), .go⟩ := by
  unfold settle
  dsimp only
  rw [if_pos hst, checkSDP_eq h]

theorem settle_refused {s : St} {m : Msg} (hst : 200 < m.status) :
    settle s m = ⟨{ s with routes := [], requestTimer := false }, .go⟩ := by
  unfold settle
  dsimp only
  rw [if_neg (by omega)]

theorem ackFinal_none {w : World} {s : St} {cur m : Msg} (h : ¬ (200 ≤ m.status ∧ cur.method = b!"INVITE")) :
    ackFinal w s m cur = ⟨s, .go⟩ := by
  unfold ackFinal
  rw [if_neg h]

/-- A provisional response. -/
theorem provisional_eq {w : World} {s : St} {c : Conn} {cur m : Msg} (hs : s.sock = some c) (hc : s.cur = some cur)
    (hver : m.versionMajor = 2 ∧ m.versionMinor = 0) (hid : m.callID = cur.callID) (hm : Answers cur m)
    (hst : m.status < 200) (ha : HasAudio m) :
    (step w s (.msg m)).c = .go ∧
    (step w s (.msg m)).s.outs = s.outs ++ mediaNews m ++ provisionalNews m.status := by
  rw [response_step hs hc hver hid hm, ackFinal_none (by omega)]
  simp only [Run.andThen]
  rw [settle_eq ha (by omega)]
  dsimp only
  unfold handleStatus provisionalNews
  split
  · exact ⟨rfl, rfl⟩
  split
  · exact ⟨rfl, rfl⟩
  rw [if_neg (by omega), if_neg (by omega), if_neg (by omega), if_neg (by omega)]
  exact ⟨rfl, by simp [St.outAll]⟩

/-- A 200 response to an INVITE. -/
theorem ok_invite_eq {w : World} {s : St} {c : Conn} {cur m : Msg} (hw : ∀ n, w.write n = .ok ())
    (hs : s.sock = some c) (hc : s.cur = some cur)
    (hver : m.versionMajor = 2 ∧ m.versionMinor = 0) (hid : m.callID = cur.callID) (hm : Answers cur m)
    (hi : cur.method = b!"INVITE") (hst : m.status = 200) (hcon : m.addrs .contact ≠ []) (ha : HasAudio m) :
    ∃ a ack x, Acknowledges cur m a ∧ Stamped a ack ∧ (step w s (.msg m)).c = .go ∧
      (step w s (.msg m)).s.outs = s.outs ++ .sent c.remote ack x :: mediaNews m ++
        (if s.remote.isNone then [.state .answered] else []) := by
  rw [response_step hs hc hver hid hm]
  obtain ⟨a, ack, x, h1, h2, h3⟩ := ack_ok hw hs hi hm (by omega) hcon
  refine ⟨a, ack, x, h1, h2, ?_⟩
  rw [h3]
  simp only [Run.andThen]
  rw [settle_eq ha (by omega)]
  dsimp only
  unfold handleStatus
  rw [if_neg (by omega), if_neg (by omega), if_pos hst]
  unfold handleOK
  rw [if_pos (hm.2.2.1.trans hi)]
  refine ⟨rfl, ?_⟩
  cases hr : s.remote <;> simp [transition, St.out, St.outAll]

/-- A 200 response to a BYE. -/
theorem ok_bye_eq {w : World} {s : St} {c : Conn} {cur m : Msg} (hs : s.sock = some c) (hc : s.cur = some cur)
    (hver : m.versionMajor = 2 ∧ m.versionMinor = 0) (hid : m.callID = cur.callID) (hm : Answers cur m)
    (hi : cur.method = b!"BYE") (hst : m.status = 200) (ha : HasAudio m) :
    (step w s (.msg m)).c = .stop ∧
    (step w s (.msg m)).s.outs = s.outs ++ mediaNews m ++ [.state .hangup] := by
  have hcm : m.cseqMethod = b!"BYE" := hm.2.2.1.trans hi
  rw [response_step hs hc hver hid hm, ackFinal_none (by rw [hi]; simp [show b!"BYE" ≠ b!"INVITE" by decide])]
  simp only [Run.andThen]
  rw [settle_eq ha (by omega)]
  dsimp only
  unfold handleStatus
  rw [if_neg (by omega), if_neg (by omega), if_pos hst]
  unfold handleOK
  rw [if_neg (by rw [hcm]; decide), if_pos (.inl hcm)]
  exact ⟨rfl, by simp [transition, St.out, St.outAll]⟩

/-- After the acknowledgement. -/
theorem refused_status {w : World} {s : St} {m : Msg} (hst : 200 < m.status) (h1 : m.status ≠ 301) (h2 : m.status ≠ 302)
    (h3 : m.status = 503 → s.req ≠ .invite) : handleStatus w s m = s.fail (.response m) := by
  unfold handleStatus
  rw [if_neg (by omega), if_neg (by omega), if_neg (by omega)]
  split
  · rename_i h5
    split
    · rename_i hq; exact absurd hq (h3 h5)
    · rfl
  · split
    · omega
    · rfl

/-- A refusal of an INVITE. -/
theorem refused_invite_eq {w : World} {s : St} {c : Conn} {cur m : Msg} (hw : ∀ n, w.write n = .ok ())
    (hs : s.sock = some c) (hc : s.cur = some cur)
    (hver : m.versionMajor = 2 ∧ m.versionMinor = 0) (hid : m.callID = cur.callID) (hm : Answers cur m)
    (hi : cur.method = b!"INVITE") (hst : Refuses m.status) (hcon : m.addrs .contact ≠ []) :
    ∃ a ack x, Acknowledges cur m a ∧ Stamped a ack ∧ (step w s (.msg m)).c = .stop ∧
      (step w s (.msg m)).s.outs = s.outs ++ [.sent c.remote ack x, .err (.response m)] := by
  obtain ⟨k0, k1, k2, k3⟩ := hst
  rw [response_step hs hc hver hid hm]
  obtain ⟨a, ack, x, h1, h2, h3⟩ := ack_ok hw hs hi hm (by omega) hcon
  refine ⟨a, ack, x, h1, h2, ?_⟩
  rw [h3]
  simp only [Run.andThen]
  rw [settle_refused k0]
  dsimp only
  rw [refused_status k0 k1 k2 (fun h => absurd h k3)]
  exact ⟨rfl, by simp [St.fail, St.out]⟩

/-- A refusal of another request. -/
theorem refused_other_eq {w : World} {s : St} {c : Conn} {cur m : Msg}
    (hs : s.sock = some c) (hc : s.cur = some cur)
    (hver : m.versionMajor = 2 ∧ m.versionMinor = 0) (hid : m.callID = cur.callID) (hm : Answers cur m)
    (hi : cur.method ≠ b!"INVITE") (hq : s.req ≠ .invite)
    (hst : 200 < m.status ∧ m.status ≠ 301 ∧ m.status ≠ 302) :
    (step w s (.msg m)).c = .stop ∧ (step w s (.msg m)).s.outs = s.outs ++ [.err (.response m)] := by
  obtain ⟨k0, k1, k2⟩ := hst
  rw [response_step hs hc hver hid hm, ackFinal_none (fun h => hi h.2)]
  simp only [Run.andThen]
  rw [settle_refused k0]
  dsimp only
  rw [refused_status (s := { s with routes := [], requestTimer := false }) k0 k1 k2 (fun _ => hq)]
  exact ⟨rfl, rfl⟩

/-- A 503 to the INVITE: the other addresses have been forgotten. -/
theorem unavailable_eq {w : World} {s : St} {c : Conn} {cur m : Msg} (hw : ∀ n, w.write n = .ok ())
    (hs : s.sock = some c) (hc : s.cur = some cur)
    (hver : m.versionMajor = 2 ∧ m.versionMinor = 0) (hid : m.callID = cur.callID) (hm : Answers cur m)
    (hi : cur.method = b!"INVITE") (hq : s.req = .invite) (hst : m.status = 503) (hcon : m.addrs .contact ≠ []) :
    ∃ a ack x, Acknowledges cur m a ∧ Stamped a ack ∧ (step w s (.msg m)).c = .stop ∧
      (step w s (.msg m)).s.outs = s.outs ++ [.sent c.remote ack x, .err (.failed s.dest)] := by
  rw [response_step hs hc hver hid hm]
  obtain ⟨a, ack, x, h1, h2, h3⟩ := ack_ok hw hs hi hm (by omega) hcon
  refine ⟨a, ack, x, h1, h2, ?_⟩
  rw [h3]
  simp only [Run.andThen]
  rw [settle_refused (by omega)]
  dsimp only
  unfold handleStatus
  rw [if_neg (by omega), if_neg (by omega), if_neg (by omega), if_pos hst]
  simp only [St.out, hq]
  exact ⟨rfl, by simp [nextRoute, popRoutes, St.fail, St.out]⟩

/-- A BYE in order. -/
theorem bye_req_eq {w : World} {s : St} {c : Conn} {cur m : Msg} (hw : ∀ n, w.write n = .ok ())
    (hs : s.sock = some c) (hc : s.cur = some cur) (hr : m.status ≤ 0)
    (hver : m.versionMajor = 2 ∧ m.versionMinor = 0) (hid : m.callID = cur.callID) (hmf : 0 < m.maxForwards)
    (hq : s.rseq = 0 ∨ s.rseq ≤ m.cseq) (hb : m.method = b!"BYE") (hv : CanStamp w m) :
    ∃ r x, Stamped (newResponse m 200) r ∧ (step w s (.msg m)).c = .stop ∧
      (step w s (.msg m)).s.outs = s.outs ++ [.sent c.remote r x, .state .hangup] := by
  have hnr : m.isResponse = false := by simp [Msg.isResponse]; omega
  have h0 : step w s (.msg m) = handleMessage w s m := by simp [step, hs]
  obtain ⟨r, x, h1, h2⟩ := sendNew_ok (w := w) (s := { s with rseq := m.cseq }) hw hs (m := newResponse m 200)
    (Int.le_refl 0) (canStamp_rsp hv 200)
  refine ⟨r, x, h1, ?_⟩
  rw [h0]
  unfold handleMessage
  simp only [hc, hnr, Bool.false_eq_true, if_false]
  rw [if_neg (show ¬ (m.versionMajor ≠ 2 ∨ m.versionMinor ≠ 0) by simp [hver]), if_neg (not_not_intro hid)]
  unfold handleRequest
  rw [if_neg (by omega), if_neg (by omega)]
  unfold handleMethod
  rw [if_pos hb, h2]
  exact ⟨rfl, by simp [Run.andThen, transition, St.out]⟩

/-- A re-INVITE in order. -/
theorem reinvite_eq {w : World} {s : St} {c : Conn} {cur m : Msg} (hw : ∀ n, w.write n = .ok ())
    (hs : s.sock = some c) (hc : s.cur = some cur) (hr : m.status ≤ 0)
    (hver : m.versionMajor = 2 ∧ m.versionMinor = 0) (hid : m.callID = cur.callID) (hmf : 0 < m.maxForwards)
    (hq : s.rseq = 0 ∨ s.rseq ≤ m.cseq) (hb : m.method = b!"INVITE") (ha : HasAudio m) (hv : CanStamp w m) :
    ∃ r x, Stamped (newResponse m 200) r ∧ (step w s (.msg m)).c = .go ∧
      (step w s (.msg m)).s.outs = s.outs ++ mediaNews m ++ [.sent c.remote r x] := by
  have hnr : m.isResponse = false := by simp [Msg.isResponse]; omega
  have h0 : step w s (.msg m) = handleMessage w s m := by simp [step, hs]
  obtain ⟨r, x, h1, h2⟩ := sendNew_ok (w := w)
    (s := { ({ s with rseq := m.cseq, remote := some m } : St).outAll (mediaNews m) with
      response := some (newResponse m 200), responseResends := 0, responseTimer := true }) hw hs
    (m := newResponse m 200) (Int.le_refl 0) (canStamp_rsp hv 200)
  refine ⟨r, x, h1, ?_⟩
  rw [h0]
  unfold handleMessage
  simp only [hc, hnr, Bool.false_eq_true, if_false]
  rw [if_neg (show ¬ (m.versionMajor ≠ 2 ∨ m.versionMinor ≠ 0) by simp [hver]), if_neg (not_not_intro hid)]
  unfold handleRequest
  rw [if_neg (by omega), if_neg (by omega)]
  unfold handleMethod
  rw [if_neg (by rw [hb]; decide), if_neg (by rw [hb]; decide), if_pos hb, checkSDP_eq ha]
  simp only [Run.andThen]
  unfold sendResponse sendRsp
  dsimp only
  unfold sendNew at h2
  rw [h2]
  exact ⟨rfl, by simp [St.out, St.outAll]⟩

/-- A message of another call. -/
theorem stranger_eq {w : World} {s : St} {c : Conn} {cur m : Msg} (hw : ∀ n, w.write n = .ok ())
    (hs : s.sock = some c) (hc : s.cur = some cur)
    (hver : m.versionMajor = 2 ∧ m.versionMinor = 0) (hid : m.callID ≠ cur.callID) (hv : CanStamp w m) :
    ∃ r x, Stamped (newResponse m 481) r ∧
      step w s (.msg m) = ⟨{ s with tick := s.tick + 1 }.out (.sent c.remote r x), .go⟩ := by
  have h0 : step w s (.msg m) = handleMessage w s m := by simp [step, hs]
  obtain ⟨r, x, h1, h2⟩ := sendNew_ok (w := w) (s := s) hw hs (m := newResponse m 481)
    (Int.le_refl 0) (canStamp_rsp hv 481)
  refine ⟨r, x, h1, ?_⟩
  rw [h0]
  unfold handleMessage
  simp only [hc]
  rw [if_neg (show ¬ (m.versionMajor ≠ 2 ∨ m.versionMinor ≠ 0) by simp [hver]), if_pos hid, h2]

/-- A message of another version. -/
theorem version_eq {w : World} {s : St} {c : Conn} {m : Msg} (hw : ∀ n, w.write n = .ok ())
    (hs : s.sock = some c) (hc : s.cur.isSome)
    (hver : m.versionMajor ≠ 2 ∨ m.versionMinor ≠ 0) (hv : CanStamp w m) :
    ∃ r x, Stamped (newResponse m 505) r ∧ (step w s (.msg m)).c = .stop ∧
      (step w s (.msg m)).s.outs = s.outs ++ [.sent c.remote r x, .err .strangeVersion] := by
  have h0 : step w s (.msg m) = handleMessage w s m := by simp [step, hs]
  obtain ⟨r, x, h1, h2⟩ := sendNew_ok (w := w) (s := s) hw hs (m := newResponse m 505)
    (Int.le_refl 0) (canStamp_rsp hv 505)
  refine ⟨r, x, h1, ?_⟩
  obtain ⟨cur, hc⟩ := Option.isSome_iff_exists.1 hc
  rw [h0]
  unfold handleMessage
  simp only [hc]
  rw [if_pos hver, h2]
  exact ⟨rfl, by simp [Run.andThen, St.fail, St.out]⟩

/-- A request that may not be forwarded any more. -/
theorem forwards_eq {w : World} {s : St} {c : Conn} {cur m : Msg} (hw : ∀ n, w.write n = .ok ())
    (hs : s.sock = some c) (hc : s.cur = some cur) (hr : m.status ≤ 0)
    (hver : m.versionMajor = 2 ∧ m.versionMinor = 0) (hid : m.callID = cur.callID) (hmf : m.maxForwards ≤ 0)
    (hv : CanStamp w m) :
    ∃ r x, Stamped (newResponse m 483) r ∧ (step w s (.msg m)).c = .stop ∧
      (step w s (.msg m)).s.outs = s.outs ++ [.sent c.remote r x, .err .remoteLoop] := by
  have hnr : m.isResponse = false := by simp [Msg.isResponse]; omega
  have h0 : step w s (.msg m) = handleMessage w s m := by simp [step, hs]
  obtain ⟨r, x, h1, h2⟩ := sendNew_ok (w := w) (s := s) hw hs (m := newResponse m 483)
    (Int.le_refl 0) (canStamp_rsp hv 483)
  refine ⟨r, x, h1, ?_⟩
  rw [h0]
  unfold handleMessage
  simp only [hc, hnr, Bool.false_eq_true, if_false]
  rw [if_neg (show ¬ (m.versionMajor ≠ 2 ∨ m.versionMinor ≠ 0) by simp [hver]), if_neg (not_not_intro hid)]
  unfold handleRequest
  rw [if_pos hmf, h2]
  exact ⟨rfl, by simp [Run.andThen, St.fail, St.out]⟩

/-- An answered call knows the other side. -/
theorem known_step (w : World) (s : St) (ev : Event) (h : s.state = .answered → s.remote.isSome)
    (ha : (step w s ev).s.state = .answered) : (step w s ev).s.remote.isSome := by
  cases pub_step w s ev with
  | quiet h1 _ h3 =>
    rw [h1] at ha
    rcases h3 with h3 | h3 | h3
    · rw [h3]; exact h ha
    · rw [ha] at h3; simp [CallState.rank] at h3
    · exact h3
  | proceeding _ h1 _ => rw [h1] at ha; cases ha
  | ringing _ h1 _ => rw [h1] at ha; cases ha
  | answered _ _ _ _ h5 => exact h5
  | hangup _ h1 _ => rw [h1] at ha; cases ha

theorem known_loop (w : World) (invite : Msg) (evs : List Event) :
    (loop w evs (start w invite)).s.state = .answered → (loop w evs (start w invite)).s.remote.isSome := by
  refine snoc_rec (P := fun evs => (loop w evs (start w invite)).s.state = .answered →
    (loop w evs (start w invite)).s.remote.isSome) ?_ ?_ evs
  · intro h
    rw [show (loop w [] (start w invite)).s.state = CallState.proceeding from (net_sendInvite w _).state] at h
    cases h
  · intro evs ev ih
    rw [loop_snoc]
    unfold Run.andThen
    split
    · exact known_step w _ ev ih
    · exact ih
    · exact ih
    · exact ih

end Gosip.Dialog
