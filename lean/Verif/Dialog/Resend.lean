import Verif.Dialog.Final

/-!
# How the dialog repeats its answer to a re-INVITE
-/

namespace Gosip.Dialog
open Sip Spec

theorem phraseOf_ne_nil (n : Int) : phraseOf n ≠ [] := (Props.C34_response_echoes {} n).phrase

theorem phrase_stamped {x y : Msg} (h : Stamped x y) : y.phrase = x.phrase := by
  rcases h with rfl | ⟨v, l, ts, _, _, rfl⟩ <;> rfl

theorem forwards_stamped {x y : Msg} (h : Stamped x y) : y.maxForwards = x.maxForwards := by
  rcases h with rfl | ⟨v, l, ts, _, _, rfl⟩ <;> rfl

theorem via_stamped {x y : Msg} (h : Stamped x y) (k : x.via ≠ []) : y.via ≠ [] := by
  rcases h with rfl | ⟨v, l, ts, _, _, rfl⟩
  · exact k
  · simp

theorem canStamp_stamped {w : World} {x y : Msg} (h : Stamped x y) (k : CanStamp w x) : CanStamp w y := by
  rcases k with k | k
  · exact .inl (via_stamped h k)
  · exact .inr k

theorem send_ok {w : World} {s : St} {c : Conn} {m : Msg} (hw : ∀ n, w.write n = .ok ()) (hs : s.sock = some c)
    (hf : m.maxForwards ≤ 0) (hv : CanStamp w m) :
    ∃ m' x, Stamped m m' ∧ send w s m =
      (⟨{ s with tick := s.tick + 1 }.out (.sent c.remote m' x), .go⟩, m'.appended) := by
  obtain ⟨m', ht, hst⟩ := stamp_ok hv s.tick
  have hd : decForwards m = m := by unfold decForwards; rw [if_neg (by omega)]
  have hne : m.maxForwards ≠ 1 := by omega
  refine ⟨m', m'.text (w.origin s.tick), hst, ?_⟩
  unfold send
  rw [if_neg hne, hd]
  unfold writeMsg
  rw [ht, hs]
  dsimp only
  rw [hw]

/-- The dialog waits for the ACK of its response `r0`, which it has repeated `k` times. -/
structure Waiting (w : World) (r0 : Msg) (k : Int) (s : St) : Prop where
  sock : ∃ c, s.sock = some c
  timer : s.responseTimer = true
  response : ∃ r, s.response = some r ∧ Stamped r0 r
  resends : s.responseResends = k

/-- Sending the response. -/
theorem sendRsp_ok {w : World} {s : St} {c : Conn} {r0 r : Msg} (hw : ∀ n, w.write n = .ok ()) (hs : s.sock = some c)
    (hr : s.response = some r) (h0 : Stamped r0 r) (hf : r0.maxForwards = 0) (hp : r0.phrase ≠ [])
    (hv : CanStamp w r0) :
    ∃ m' x, Stamped r0 m' ∧ sendRsp w s =
      ⟨{ { s with tick := s.tick + 1 }.out (.sent c.remote m' x) with response := some m' }, .go⟩ := by
  obtain ⟨m', x, h1, h2⟩ := send_ok (s := s) (m := r) hw hs (by rw [forwards_stamped h0, hf]; exact Int.le_refl 0)
    (canStamp_stamped h0 hv)
  have ha : m'.appended = m' := by
    unfold Msg.appended
    rw [if_neg]
    rintro ⟨_, h⟩
    rw [phrase_stamped h1, phrase_stamped h0] at h
    exact hp h
  refine ⟨m', x, stamped_trans h0 h1, ?_⟩
  unfold sendRsp
  rw [hr]
  dsimp only
  rw [h2, ha]
  rfl

theorem waiting_step {w : World} {s : St} {r0 : Msg} {k : Int} (hw : ∀ n, w.write n = .ok ()) (h : Waiting w r0 k s)
    (hf : r0.maxForwards = 0) (hp : r0.phrase ≠ []) (hv : CanStamp w r0) (hk : k < w.maxResends) :
    (step w s .responseTimer).c = .go ∧ Waiting w r0 (k + 1) (step w s .responseTimer).s ∧
    ∃ d r, Stamped r0 r ∧ sends (step w s .responseTimer).s.outs = sends s.outs ++ [(d, r)] := by
  obtain ⟨c, hs⟩ := h.sock
  obtain ⟨r, hr, h0⟩ := h.response
  obtain ⟨m', x, h1, h2⟩ := sendRsp_ok (s := { s with responseTimer := false }) hw hs hr h0 hf hp hv
  have hst : step w s .responseTimer =
      ⟨{ ({ s with responseTimer := false, tick := s.tick + 1 }.out (.sent c.remote m' x)) with
          response := some m', responseResends := s.responseResends + 1, responseTimer := true }, .go⟩ := by
    simp only [step, h.timer, if_true]
    unfold resendResponse
    dsimp only
    rw [hr]
    dsimp only
    rw [if_pos (by rw [h.resends]; exact hk)]
    have : ({ s with responseTimer := false, response := some r } : St) = { s with responseTimer := false } := by
      rw [← hr]
    rw [this, h2]
    rfl
  rw [hst]
  refine ⟨rfl, ⟨⟨c, hs⟩, rfl, ⟨m', rfl, h1⟩, by show s.responseResends + 1 = _; rw [h.resends]⟩,
    c.remote, m', h1, sends_sent _ _ _ _⟩

/-- The timer fires `n` times. -/
theorem waiting_loop {w : World} {r0 : Msg} (hw : ∀ n, w.write n = .ok ())
    (hf : r0.maxForwards = 0) (hp : r0.phrase ≠ []) (hv : CanStamp w r0) (n : Nat) :
    ∀ (r : Run) (k : Int), r.c = .go → Waiting w r0 k r.s → k + n ≤ w.maxResends →
    (loop w (List.replicate n .responseTimer) r).c = .go ∧
    Waiting w r0 (k + n) (loop w (List.replicate n .responseTimer) r).s ∧
    ∃ l, l.length = n ∧ (∀ x ∈ l, Stamped r0 x.2) ∧
      sends (loop w (List.replicate n .responseTimer) r).s.outs = sends r.s.outs ++ l := by
  induction n with
  | zero => intro r k hg h _; exact ⟨hg, by simpa [loop] using h, [], rfl, by simp, by simp [loop]⟩
  | succ n ih =>
    intro r k hg h hk
    rw [List.replicate_succ]
    unfold loop
    obtain ⟨h1, h2, d, m, h3, h4⟩ := waiting_step hw h hf hp hv (by omega)
    have hr : (r.andThen fun s => step w s .responseTimer) = step w r.s .responseTimer := by
      unfold Run.andThen; rw [hg]
    rw [hr]
    obtain ⟨i1, i2, l, i3, i4, i5⟩ := ih (step w r.s .responseTimer) (k + 1) h1 h2 (by omega)
    refine ⟨i1, ?_, (d, m) :: l, by simp [i3], ?_, ?_⟩
    · rw [show k + ((n + 1 : Nat) : Int) = k + 1 + n by omega]; exact i2
    · intro x hx
      rcases List.mem_cons.1 hx with rfl | hx
      · exact h3
      · exact i4 x hx
    · rw [i5, h4]; simp

/-- A re-INVITE in order starts the repetition. -/
theorem reinvite_step {w : World} {s : St} {c : Conn} {cur m : Msg} (hw : ∀ n, w.write n = .ok ())
    (hs : s.sock = some c) (hc : s.cur = some cur) (hreq : m.status ≤ 0) (hm : m.method = b!"INVITE")
    (hver : m.versionMajor = 2 ∧ m.versionMinor = 0) (hid : m.callID = cur.callID) (hmf : 0 < m.maxForwards)
    (hord : s.rseq = 0 ∨ s.rseq ≤ m.cseq) (ha : HasAudio m) (hv : CanStamp w m) :
    (step w s (.msg m)).c = .go ∧ Waiting w (newResponse m 200) 0 (step w s (.msg m)).s ∧
    ∃ d r, Stamped (newResponse m 200) r ∧ sends (step w s (.msg m)).s.outs = sends s.outs ++ [(d, r)] := by
  have hnr : m.isResponse = false := by simp [Msg.isResponse]; omega
  have hstep : step w s (.msg m) = (checkSDP { s with rseq := m.cseq, remote := some m } m).andThen
      fun s => sendResponse w s (newResponse m 200) := by
    have h0 : step w s (.msg m) = handleMessage w s m := by simp [step, hs]
    rw [h0]
    unfold handleMessage
    simp only [hc, hnr, Bool.false_eq_true, if_false]
    rw [if_neg (show ¬ (m.versionMajor ≠ 2 ∨ m.versionMinor ≠ 0) by simp [hver]), if_neg (not_not_intro hid)]
    unfold handleRequest
    rw [if_neg (by omega), if_neg (by omega)]
    unfold handleMethod
    rw [if_neg (by rw [hm]; decide), if_neg (by rw [hm]; decide), if_pos hm]
  have key : ∀ t : St, t.sock = some c → sends t.outs = sends s.outs →
      (sendResponse w t (newResponse m 200)).c = .go ∧
      Waiting w (newResponse m 200) 0 (sendResponse w t (newResponse m 200)).s ∧
      ∃ d r, Stamped (newResponse m 200) r ∧
        sends (sendResponse w t (newResponse m 200)).s.outs = sends s.outs ++ [(d, r)] := by
    intro t ht ho
    obtain ⟨m', x, h1, h2⟩ := sendRsp_ok
      (s := { t with response := some (newResponse m 200), responseResends := 0, responseTimer := true })
      (r0 := newResponse m 200) hw ht rfl (.inl rfl) rfl (phraseOf_ne_nil 200) (canStamp_rsp hv 200)
    unfold sendResponse
    rw [h2]
    exact ⟨rfl, ⟨⟨c, ht⟩, rfl, ⟨m', rfl, h1⟩, rfl⟩, c.remote, m', h1, (sends_sent _ _ _ _).trans (by rw [ho])⟩
  rw [hstep]
  rcases checkSDP_ok (s := { s with rseq := m.cseq, remote := some m }) ha with h | ⟨a, p, h⟩
  · rw [h]; exact key _ hs rfl
  · rw [h]
    refine key _ hs ?_
    show sends (s.outs ++ [_]) = _
    rw [sends_append]; simp [sends]

/-- After the ACK the timer does nothing. -/
theorem quiet_loop {w : World} (n : Nat) : ∀ (r : Run), r.s.responseTimer = false →
    loop w (List.replicate n .responseTimer) r = r := by
  induction n with
  | zero => intro r _; rfl
  | succ n ih =>
    intro r h
    rw [List.replicate_succ]
    unfold loop
    have : (r.andThen fun s => step w s .responseTimer) = r := by
      unfold Run.andThen
      cases hc : r.c
      · simp only [step, h]
        cases r; simp_all
      · rfl
      · rfl
      · rfl
    rw [this]
    exact ih r h

theorem ackReq_step {w : World} {s : St} {c : Conn} {cur m : Msg} (hs : s.sock = some c) (hc : s.cur = some cur)
    (hreq : m.status ≤ 0) (hm : m.method = b!"ACK") (hver : m.versionMajor = 2 ∧ m.versionMinor = 0)
    (hid : m.callID = cur.callID) (hmf : 0 < m.maxForwards) (hord : s.rseq = 0 ∨ s.rseq ≤ m.cseq) :
    step w s (.msg m) = ⟨{ s with rseq := m.cseq, response := none, responseTimer := false }, .go⟩ := by
  have hnr : m.isResponse = false := by simp [Msg.isResponse]; omega
  have h0 : step w s (.msg m) = handleMessage w s m := by simp [step, hs]
  rw [h0]
  unfold handleMessage
  simp only [hc, hnr, Bool.false_eq_true, if_false]
  rw [if_neg (show ¬ (m.versionMajor ≠ 2 ∨ m.versionMinor ≠ 0) by simp [hver]), if_neg (not_not_intro hid)]
  unfold handleRequest
  rw [if_neg (by omega), if_neg (by omega)]
  unfold handleMethod
  rw [if_neg (by rw [hm]; decide), if_neg (by rw [hm]; decide), if_neg (by rw [hm]; decide), if_pos hm]

end Gosip.Dialog
