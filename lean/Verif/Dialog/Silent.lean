import Verif.Dialog.Safe

/-!
# A call to somebody who does not answer
-/

namespace Gosip.Dialog
open Sip Spec

/-- Only the INVITE has been sent, and can be sent again `n` times. -/
structure Calling (up : Bytes → Bool) (n : Int) (s : St) : Prop where
  req : s.req = .invite
  line : s.invite.isResponse = false
  contact : ContactOK s.invite
  forwards : n < (if s.invite.maxForwards = 0 then 70 else s.invite.maxForwards)
  sock : ∀ c, s.sock = some c → up c.remote = true
  method : s.invite.method = b!"INVITE"

/-- The dialog has sent the INVITE `k` times again to the address `a`, and has the addresses `rest` left. -/
structure Trying (up : Bytes → Bool) (n : Int) (rest : List Bytes) (a : Bytes) (k : Int) (dest : Bytes) (s : St) : Prop
    extends Calling up n s where
  here : ∃ c, s.sock = some c ∧ c.remote = a
  via : s.invite.via ≠ []
  positive : s.invite.maxForwards ≠ 0
  timer : s.requestTimer = true
  resends : s.requestResends = k
  routes : s.routes = rest
  dest : s.dest = dest

/-- Sending a request that may be forwarded. -/
theorem send_forward {w : World} {s : St} {c : Conn} {m : Msg} (hw : ∀ n, w.write n = .ok ()) (hs : s.sock = some c)
    (hf : 2 ≤ m.maxForwards) (hv : m.via ≠ []) (hl : m.isResponse = false) :
    ∃ m' x, Stamped { m with maxForwards := m.maxForwards - 1 } m' ∧ send w s m =
      (⟨{ s with tick := s.tick + 1 }.out (.sent c.remote m' x), .go⟩, m') := by
  have hd : decForwards m = { m with maxForwards := m.maxForwards - 1 } := by
    unfold decForwards; rw [if_pos (by omega)]
  obtain ⟨m', ht, hst⟩ := stamp_ok (w := w) (m := { m with maxForwards := m.maxForwards - 1 }) (.inl hv) s.tick
  have hne : m.maxForwards ≠ 1 := by omega
  have ha : m'.appended = m' := by
    have : m'.isResponse = false := by
      rcases hst with rfl | ⟨v, l, ts, _, _, rfl⟩ <;> exact hl
    unfold Msg.appended
    rw [if_neg]
    simp [this]
  refine ⟨m', m'.text (w.origin s.tick), hst, ?_⟩
  unfold send
  rw [if_neg hne, hd]
  unfold writeMsg
  rw [ht, hs]
  dsimp only
  rw [hw, ha]

theorem contactOK_stamped {x y : Msg} (h : Stamped x y) (k : ContactOK x) : ContactOK y := by
  rcases h with rfl | ⟨v, l, ts, _, _, rfl⟩ <;> exact k

/-- Sending the INVITE. -/
theorem sendCur_invite {w : World} {s : St} {c : Conn} (hw : ∀ n, w.write n = .ok ()) (hs : s.sock = some c)
    (hq : s.req = .invite) (hf : 2 ≤ s.invite.maxForwards) (hv : s.invite.via ≠ [])
    (hl : s.invite.isResponse = false) :
    ∃ m' x, Stamped { s.invite with maxForwards := s.invite.maxForwards - 1 } m' ∧
      sendCur w s = ⟨{ { s with tick := s.tick + 1 }.out (.sent c.remote m' x) with invite := m' }, .go⟩ := by
  obtain ⟨m', x, h1, h2⟩ := send_forward (w := w) (s := s) hw hs hf hv hl
  refine ⟨m', x, h1, ?_⟩
  unfold sendCur
  rw [show s.cur = some s.invite by unfold St.cur; rw [hq]]
  dsimp only
  rw [h2]
  unfold St.setCur
  dsimp only [St.out]
  rw [hq]

theorem calling_sent {up : Bytes → Bool} {n : Int} {s t : St} {m' : Msg} (h : Calling up (n + 1) s)
    (hpos : s.invite.maxForwards ≠ 0) (hn : 0 ≤ n)
    (hst : Stamped { s.invite with maxForwards := s.invite.maxForwards - 1 } m') (ht : t.invite = m')
    (hq : t.req = s.req) (hsock : t.sock = s.sock) : Calling up n t ∧ t.invite.maxForwards ≠ 0 := by
  have hf := h.forwards
  rw [if_neg hpos] at hf
  have hmf : m'.maxForwards = s.invite.maxForwards - 1 := forwards_stamped hst
  refine ⟨⟨hq.trans h.req, ?_, ?_, ?_, by rw [hsock]; exact h.sock, ?_⟩, by rw [ht, hmf]; omega⟩
  · rw [ht]; rcases hst with rfl | ⟨v, l, ts, _, _, rfl⟩ <;> exact h.line
  · rw [ht]; exact contactOK_stamped hst h.contact
  · rw [ht, hmf, if_neg (by omega)]; omega
  · rw [ht]; rcases hst with rfl | ⟨v, l, ts, _, _, rfl⟩ <;> exact h.method

/-- The bookkeeping of an attempt with the INVITE. -/
theorem newAttempt_invite (s : St) (m : Msg) (hq : s.req = .invite) :
    (newAttempt s m).req = .invite ∧ (newAttempt s m).invite = m ∧ (newAttempt s m).sock = s.sock ∧
    (newAttempt s m).routes = s.routes ∧ (newAttempt s m).dest = s.dest ∧ (newAttempt s m).requestTimer = true ∧
    (newAttempt s m).requestResends = 0 ∧ (newAttempt s m).outs = s.outs := by
  unfold newAttempt St.setCur
  rw [hq]
  dsimp only
  split <;> simp

theorem attempt_invite {w : World} {up : Bytes → Bool} {n : Int} {s : St} {c : Conn} (hw : Network w up)
    (h : Calling up (n + 1) s) (hn : 0 ≤ n) (hs : s.sock = some c) :
    (attempt w s).c = .go ∧ Trying up n s.routes c.remote 0 s.dest (attempt w s).s ∧
    ∃ m o, (attempt w s).s.outs = s.outs ++ [.sent c.remote m o] ∧ m.method = b!"INVITE" := by
  obtain ⟨m', hp, p1, p2, p3, p4, p5⟩ := populate_ok (ids := w.ids s.tick) (o := w.origin s.tick) (c := c) (cs := s.csock)
    h.contact h.line
  have hpop := populate_spec h.line hp
  have hat : attempt w s = sendCur w (newAttempt { s with tick := s.tick + 1 } m') := by
    have hc : s.cur = some s.invite := by unfold St.cur; rw [h.req]
    unfold attempt
    split
    · rename_i c' m e1 e2
      rw [hs] at e1; cases e1
      rw [hc] at e2; cases e2
      rw [hp]
    · rename_i hno
      exact (hno c s.invite hs hc).elim
  rw [hat]
  obtain ⟨a1, a2, a3, a4, a5, a6, a7, a8⟩ := newAttempt_invite { s with tick := s.tick + 1 } m' h.req
  generalize newAttempt { s with tick := s.tick + 1 } m' = t at *
  have hmf : t.invite.maxForwards = if s.invite.maxForwards = 0 then 70 else s.invite.maxForwards := by
    rw [a2, hpop.forwards]
  have hf := h.forwards
  have hpos : t.invite.maxForwards ≠ 0 := by omega
  have ht : Calling up (n + 1) t := by
    refine ⟨a1, by rw [a2]; exact p2, by rw [a2]; exact p1, by rw [if_neg hpos, hmf]; exact hf,
      by rw [a3]; exact h.sock, by rw [a2, hpop.method]; exact h.method⟩
  obtain ⟨x, o, h1, h2⟩ := sendCur_invite (w := w) (s := t) (c := c) hw.write (a3.trans hs) a1 (by omega)
    (by rw [a2]; exact p3) ht.line
  rw [h2]
  obtain ⟨k1, k2⟩ := calling_sent (t := { { t with tick := t.tick + 1 }.out (.sent c.remote x o) with invite := x })
    ht hpos hn h1 rfl rfl rfl
  refine ⟨rfl, { k1 with
    here := ⟨c, a3.trans hs, rfl⟩
    via := via_stamped h1 (by show t.invite.via ≠ []; rw [a2]; exact p3)
    positive := k2
    timer := a6
    resends := a7
    routes := a4
    dest := a5 }, x, o, ?_, ?_⟩
  · show t.outs ++ _ = _
    rw [a8]
  · have : x.method = t.invite.method := by rcases h1 with rfl | ⟨v, l, ts, _, _, rfl⟩ <;> rfl
    rw [this]; exact ht.method

/-- Connecting to an address. -/
theorem connect_network {w : World} {up : Bytes → Bool} (hw : Network w up) (s : St)
    (hs : ∀ c, s.sock = some c → up c.remote = true) :
    (connect w s).2 = up s.addr ∧ ∃ x y n o, (connect w s).1 = { s with sock := x, csock := y, tick := n, outs := s.outs ++ o } ∧
      (∀ e ∈ o, e = .dial s.addr) ∧ (up s.addr = true → ∃ c, x = some c ∧ c.remote = s.addr) ∧
      (∀ c, x = some c → up c.remote = true) ∧ (up s.addr = false → s.sock = none → x = none) := by
  unfold connect
  split
  · rename_i hc
    rw [Option.any_eq_true] at hc
    obtain ⟨c, hc, he⟩ := hc
    have he : c.remote = s.addr := by simpa using he
    have hu := hs c hc
    rw [he] at hu
    exact ⟨hu.symm, s.sock, s.csock, s.tick, [], by simp, by simp, fun _ => ⟨c, hc, he⟩, hs, fun _ h => h⟩
  · dsimp only
    cases hu : up s.addr with
    | false =>
      rw [hw.down _ _ hu]
      exact ⟨rfl, none, s.csock, s.tick + 1, [.dial s.addr], rfl, by simp, by simp, by simp, fun _ _ => rfl⟩
    | true =>
      obtain ⟨c, hc, he⟩ := hw.dial s.tick _ hu
      rw [hc]
      dsimp only
      unfold connectLoose
      split
      · rename_i hl
        have hl : w.loose = true := by simp at hl; exact hl.2
        have := hw.listen hl
        dsimp only
        split
        · rename_i hn
          have := this (s.tick + 1)
          simp only [St.out] at hn
          rw [hn] at this
          cases this
        · rename_i p _
          refine ⟨rfl, some c, some p, s.tick + 2, [.dial s.addr], rfl, by simp, fun _ => ⟨c, rfl, he⟩, ?_, by simp⟩
          intro c' hc'; cases hc'; rw [he]; exact hu
      · refine ⟨rfl, some c, s.csock, s.tick + 1, [.dial s.addr], rfl, by simp, fun _ => ⟨c, rfl, he⟩, ?_, by simp⟩
        intro c' hc'; cases hc'; rw [he]; exact hu

theorem sends_dials {o : List Out} {a : Bytes} (h : ∀ e ∈ o, e = .dial a) : sends o = [] ∧ errors o = [] := by
  constructor
  · rw [sends, List.filterMap_eq_nil_iff]; intro e he; rw [h e he]
  · rw [errors, List.filterMap_eq_nil_iff]; intro e he; rw [h e he]

theorem errors_append (a b : List Out) : errors (a ++ b) = errors a ++ errors b := List.filterMap_append

/-- The previous socket, if any, is got rid of. -/
theorem blocked_free {w : World} {s : St} (h : (∀ n, w.frees n = true) ∨ s.sock = none) : blocked w s = false := by
  unfold blocked
  rcases h with h | h
  · rw [h]; simp
  · rw [h]; simp

/-- The first address that can be dialled. -/
theorem popRoutes_network {w : World} {up : Bytes → Bool} (hw : Network w up) {n : Int} (l : List Bytes) (hn : l.filter up ≠ [] → 1 ≤ n) :
    ∀ s : St, Calling up n s → (∀ n, w.frees n = true) ∨ l = [] ∨ s.sock = none →
    match l.filter up with
    | [] => (popRoutes w l s).c = .stop ∧ sends (popRoutes w l s).s.outs = sends s.outs ∧
        errors (popRoutes w l s).s.outs = errors s.outs ++ [.failed s.dest]
    | a :: more => ∃ rest m, (∃ pre, l = pre ++ a :: rest ∧ (∀ b ∈ pre, up b = false)) ∧ rest.filter up = more ∧
        (popRoutes w l s).c = .go ∧
        Trying up (n - 1) rest a 0 s.dest (popRoutes w l s).s ∧ m.method = b!"INVITE" ∧
        sends (popRoutes w l s).s.outs = sends s.outs ++ [(a, m)] ∧
        errors (popRoutes w l s).s.outs = errors s.outs := by
  induction l with
  | nil =>
    intro s h _
    refine ⟨rfl, ?_, ?_⟩
    · show sends (s.outs ++ [_]) = _
      rw [sends_append]; simp [sends]
    · show errors (s.outs ++ [_]) = _
      rw [errors_append]; simp [errors]
  | cons a l ih =>
    intro s h hfr
    have hfr : (∀ n, w.frees n = true) ∨ s.sock = none := by simpa using hfr
    obtain ⟨c1, x, y, n', o, c2, c3, c4, c5, c6⟩ := connect_network hw { s with addr := a, routes := l } h.sock
    obtain ⟨d1, d2⟩ := sends_dials c3
    have hk : Calling up n (connect w { s with addr := a, routes := l }).1 := by
      rw [c2]; exact ⟨h.req, h.line, h.contact, h.forwards, c5, h.method⟩
    have ho : sends (connect w { s with addr := a, routes := l }).1.outs = sends s.outs ∧
        errors (connect w { s with addr := a, routes := l }).1.outs = errors s.outs := by
      rw [c2]; dsimp only; rw [sends_append, errors_append, d1, d2]; simp
    have hd : (connect w { s with addr := a, routes := l }).1.dest = s.dest ∧
        (connect w { s with addr := a, routes := l }).1.routes = l := by rw [c2]; exact ⟨rfl, rfl⟩
    have hsock : (connect w { s with addr := a, routes := l }).1.sock = x := by rw [c2]
    unfold popRoutes
    dsimp only
    rw [blocked_free (s := { s with addr := a, routes := l }) hfr, c1]
    simp only [Bool.false_eq_true, if_false]
    generalize (connect w { s with addr := a, routes := l }).1 = t at *
    dsimp only at c1 c4
    cases hu : up a with
    | true =>
      rw [List.filter_cons_of_pos hu]
      obtain ⟨c, hc, he⟩ := c4 hu
      simp only [if_true]
      obtain ⟨k1, k2, m, o', k3, k4⟩ := attempt_invite hw (n := n - 1)
        (by rw [Int.sub_add_cancel]; exact hk) (by have := hn (by rw [List.filter_cons_of_pos hu]; simp); omega)
        (hsock.trans hc)
      rw [hd.1, hd.2, he] at k2
      refine ⟨l, m, ⟨[], rfl, by simp⟩, rfl, k1, k2, k4, ?_, ?_⟩
      · rw [k3, sends_sent, ho.1, he]
      · rw [k3, errors_append, ho.2]; simp [errors]
    | false =>
      rw [List.filter_cons_of_neg (by simp [hu])]
      simp only [Bool.false_eq_true, if_false]
      have := ih (fun hl => hn (by rw [List.filter_cons_of_neg (by simp [hu])]; exact hl)) t hk
        (hfr.imp_right fun e => .inr (hsock.trans (c6 hu e)))
      rw [hd.1, ho.1, ho.2] at this
      split at this
      · exact this
      · obtain ⟨rest, m, ⟨pre, h1, h2⟩, h3⟩ := this
        refine ⟨rest, m, ⟨a :: pre, by rw [h1]; rfl, ?_⟩, h3⟩
        intro b hb
        rcases List.mem_cons.1 hb with rfl | hb
        · exact hu
        · exact h2 b hb

/-- The timer fires while the INVITE may be sent again. -/
theorem trying_again {w : World} {up : Bytes → Bool} (hw : Network w up) {n : Int} {rest : List Bytes} {a dest : Bytes}
    {k : Int} {s : St} (hn : 0 ≤ n) (h : Trying up (n + 1) rest a k dest s) (hk : k < w.maxResends) :
    (step w s .requestTimer).c = .go ∧ Trying up n rest a (k + 1) dest (step w s .requestTimer).s ∧
    ∃ m, m.method = b!"INVITE" ∧ sends (step w s .requestTimer).s.outs = sends s.outs ++ [(a, m)] ∧
      errors (step w s .requestTimer).s.outs = errors s.outs := by
  obtain ⟨c, hs, hc⟩ := h.here
  have hf := h.forwards
  have hpos := h.positive
  rw [if_neg hpos] at hf
  obtain ⟨x, o, h1, h2⟩ := sendCur_invite (w := w) (s := { s with requestTimer := false }) (c := c) hw.write hs h.req
    (show 2 ≤ s.invite.maxForwards by omega) h.via h.line
  have hst : step w s .requestTimer =
      ⟨{ ({ s with requestTimer := false, tick := s.tick + 1 }.out (.sent c.remote x o)) with
          invite := x, requestResends := s.requestResends + 1, requestTimer := true }, .go⟩ := by
    simp only [step, h.timer, if_true]
    unfold resendRequest
    rw [show ({ s with requestTimer := false } : St).cur = some s.invite by unfold St.cur; dsimp only; rw [h.req]]
    dsimp only
    rw [if_pos (by rw [h.resends]; exact hk), h2]
    rfl
  rw [hst]
  obtain ⟨k1, k2⟩ := calling_sent (t := { ({ s with requestTimer := false, tick := s.tick + 1 }.out (.sent c.remote x o)) with
    invite := x, requestResends := s.requestResends + 1, requestTimer := true }) h.toCalling hpos hn h1 rfl rfl rfl
  refine ⟨rfl, { k1 with
    here := ⟨c, hs, hc⟩
    via := via_stamped h1 h.via
    positive := k2
    timer := rfl
    resends := by show s.requestResends + 1 = _; rw [h.resends]
    routes := h.routes
    dest := h.dest }, x, ?_, ?_, ?_⟩
  · have : x.method = s.invite.method := by rcases h1 with rfl | ⟨v, l, ts, _, _, rfl⟩ <;> rfl
    rw [this]; exact h.method
  · show sends (s.outs ++ [_]) = _
    rw [sends_sent, hc]
  · show errors (s.outs ++ [_]) = _
    rw [errors_append]; simp [errors]

/-- The timer fires when the INVITE has been sent often enough. -/
theorem trying_next {w : World} {s : St} {up : Bytes → Bool} {n : Int} {rest : List Bytes} {a dest : Bytes}
    {k : Int} (h : Trying up n rest a k dest s) (hk : ¬ k < w.maxResends) :
    step w s .requestTimer = popRoutes w rest { s with requestTimer := false } := by
  obtain ⟨c, hs, hc⟩ := h.here
  simp only [step, h.timer, if_true]
  unfold resendRequest
  rw [show ({ s with requestTimer := false } : St).cur = some s.invite by unfold St.cur; dsimp only; rw [h.req]]
  dsimp only
  rw [if_neg (by rw [h.resends]; exact hk)]
  split
  · rename_i hn; rw [hs] at hn; cases hn
  · unfold nextRoute; rw [← h.routes]

/-- A provisional response turns the timer off. -/
theorem provisional_step {w : World} {s : St} {c : Conn} {cur m : Msg} (hs : s.sock = some c) (hc : s.cur = some cur)
    (hver : m.versionMajor = 2 ∧ m.versionMinor = 0) (hid : m.callID = cur.callID) (hm : Answers cur m)
    (hst : m.status < 200) (ha : HasAudio m) :
    (step w s (.msg m)).c = .go ∧ (step w s (.msg m)).s.requestTimer = false ∧
    sends (step w s (.msg m)).s.outs = sends s.outs ∧ errors (step w s (.msg m)).s.outs = errors s.outs := by
  have hmt : responseMatch cur m = true := (Props.C36_response_match cur m).2 hm
  have hr : m.isResponse = true := by
    have := hm.1; simp [Msg.isResponse]; omega
  have hstep : step w s (.msg m) =
      ((ackFinal w s m cur).andThen fun s => settle s m).andThen fun s => handleStatus w s m := by
    have h0 : step w s (.msg m) = handleMessage w s m := by simp [step, hs]
    rw [h0]
    unfold handleMessage
    simp only [hc, hr, if_true]
    rw [if_neg (show ¬ (m.versionMajor ≠ 2 ∨ m.versionMinor ≠ 0) by simp [hver]), if_neg (not_not_intro hid)]
    unfold handleResponse
    simp only [hc, hmt, if_true]
  have key : ∀ t : St, t.requestTimer = false → sends t.outs = sends s.outs → errors t.outs = errors s.outs →
      (handleStatus w t m).c = .go ∧ (handleStatus w t m).s.requestTimer = false ∧
      sends (handleStatus w t m).s.outs = sends s.outs ∧ errors (handleStatus w t m).s.outs = errors s.outs := by
    intro t h1 h2 h3
    have tr : ∀ k, sends (transition t k).outs = sends s.outs ∧ errors (transition t k).outs = errors s.outs := by
      intro k
      constructor
      · show sends (t.outs ++ [_]) = _
        rw [sends_append, h2]; simp [sends]
      · show errors (t.outs ++ [_]) = _
        rw [errors_append, h3]; simp [errors]
    unfold handleStatus
    split
    · exact ⟨rfl, h1, tr _⟩
    split
    · exact ⟨rfl, h1, tr _⟩
    rw [if_neg (by omega), if_neg (by omega), if_neg (by omega), if_neg (by omega)]
    exact ⟨rfl, h1, h2, h3⟩
  rw [hstep]
  unfold ackFinal
  rw [if_neg (by omega)]
  show _ ∧ _
  simp only [Run.andThen]
  unfold settle
  dsimp only
  rw [if_pos (by omega)]
  rcases checkSDP_ok (s := { s with routes := [], requestTimer := false }) ha with h | ⟨a, p, h⟩
  · rw [h]; exact key _ rfl rfl rfl
  · rw [h]
    refine key _ rfl ?_ ?_
    · show sends (s.outs ++ [_]) = _
      rw [sends_append]; simp [sends]
    · show errors (s.outs ++ [_]) = _
      rw [errors_append]; simp [errors]

/-- Without timer nothing is repeated. -/
theorem off_loop {w : World} (n : Nat) : ∀ (r : Run), r.s.requestTimer = false →
    loop w (List.replicate n .requestTimer) r = r := by
  induction n with
  | zero => intro r _; rfl
  | succ n ih =>
    intro r h
    rw [List.replicate_succ]
    unfold loop
    have : (r.andThen fun s => step w s .requestTimer) = r := by
      unfold Run.andThen
      cases hc : r.c
      · simp only [step, h]
        cases r; simp_all
      · rfl
      · rfl
      · rfl
    rw [this]
    exact ih r h

/-- How often an address is tried. -/
def tries (w : World) : Nat := w.maxResends.toNat + 1

/-- The addresses of the transmissions still to come. -/
def plan (w : World) (up : Bytes → Bool) (l : List Bytes) : List Bytes :=
  (l.filter up).flatMap fun a => List.replicate (tries w) a

/-- The timer fires `k` times. -/
theorem trying_loop {w : World} {up : Bytes → Bool} (hw : Network w up) {dest : Bytes} (k : Nat) :
    ∀ (n : Int) (rest : List Bytes) (a : Bytes) (j : Nat) (r : Run), r.c = .go → Trying up n rest a j dest r.s →
    j ≤ w.maxResends.toNat → (∀ n, w.frees n = true) ∨ rest = [] →
    ((List.replicate (w.maxResends.toNat - j) a ++ plan w up rest).length : Int) ≤ n →
    (sends (loop w (List.replicate k .requestTimer) r).s.outs).map Prod.fst = (sends r.s.outs).map Prod.fst ++
      (List.replicate (w.maxResends.toNat - j) a ++ plan w up rest).take k ∧
    (∀ x ∈ sends (loop w (List.replicate k .requestTimer) r).s.outs, x ∈ sends r.s.outs ∨ x.2.method = b!"INVITE") ∧
    (if k ≤ (List.replicate (w.maxResends.toNat - j) a ++ plan w up rest).length
     then (loop w (List.replicate k .requestTimer) r).c = .go ∧
       errors (loop w (List.replicate k .requestTimer) r).s.outs = errors r.s.outs
     else (loop w (List.replicate k .requestTimer) r).c = .stop ∧
       errors (loop w (List.replicate k .requestTimer) r).s.outs = errors r.s.outs ++ [.failed dest]) := by
  induction k with
  | zero =>
    intro n rest a j r hg h hj hfr hl
    refine ⟨by simp [loop], fun x hx => .inl hx, ?_⟩
    rw [if_pos (Nat.zero_le _)]
    exact ⟨hg, rfl⟩
  | succ k ih =>
    intro n rest a j r hg h hj hfr hl
    rw [List.replicate_succ]
    unfold loop
    have hr : (r.andThen fun s => step w s .requestTimer) = step w r.s .requestTimer := by
      unfold Run.andThen; rw [hg]
    rw [hr]
    by_cases hjm : (j : Int) < w.maxResends
    · have hlt : j < w.maxResends.toNat := by omega
      obtain ⟨m, hm⟩ : ∃ m, w.maxResends.toNat - j = m + 1 := ⟨w.maxResends.toNat - j - 1, by omega⟩
      have hm' : w.maxResends.toNat - (j + 1) = m := by omega
      rw [hm, List.replicate_succ, List.cons_append] at hl ⊢
      simp only [List.length_cons] at hl
      obtain ⟨h1, h2, x, h3, h4, h5⟩ := trying_again hw (n := n - 1) (by omega) (by rw [Int.sub_add_cancel]; exact h) hjm
      obtain ⟨i1, i2, i3⟩ := ih (n - 1) rest a (j + 1) (step w r.s .requestTimer) h1 h2 (by omega) hfr
        (by rw [hm']; omega)
      rw [hm'] at i1 i3
      refine ⟨?_, ?_, ?_⟩
      · rw [i1, h4]; simp
      · intro y hy
        rcases i2 y hy with hy | hy
        · rw [h4] at hy
          rcases List.mem_append.1 hy with hy | hy
          · exact .inl hy
          · simp only [List.mem_singleton] at hy; subst hy; exact .inr h3
        · exact .inr hy
      · rw [h5] at i3
        simp only [List.length_cons, Nat.add_le_add_iff_right]
        exact i3
    · have hje : w.maxResends.toNat - j = 0 := by omega
      rw [hje, List.replicate_zero, List.nil_append] at hl ⊢
      have hstep := trying_next h hjm
      have hC : Calling up n { r.s with requestTimer := false } :=
        ⟨h.req, h.line, h.contact, h.forwards, h.sock, h.method⟩
      rw [hstep]
      cases hf : rest.filter up with
      | nil =>
        have hp : plan w up rest = [] := by unfold plan; rw [hf]; rfl
        have := popRoutes_network hw (n := n) rest (fun hne => absurd hf hne) { r.s with requestTimer := false } hC
          (hfr.imp_right .inl)
        rw [hf] at this
        obtain ⟨p1, p2, p3⟩ := this
        rw [loop_stop _ _ p1, p2, p3, hp]
        refine ⟨by simp, fun x hx => .inl hx, ?_⟩
        rw [if_neg (by simp)]
        exact ⟨p1, by rw [h.dest]⟩
      | cons b more =>
        have hp : plan w up rest = b :: (List.replicate w.maxResends.toNat b ++
            (more.flatMap fun a => List.replicate (tries w) a)) := by
          unfold plan; rw [hf]; simp [tries, List.replicate_succ]
        have hpl : 1 ≤ n := by rw [hp] at hl; simp only [List.length_cons] at hl; omega
        have := popRoutes_network hw (n := n) rest (fun _ => hpl) { r.s with requestTimer := false } hC
          (hfr.imp_right .inl)
        rw [hf] at this
        obtain ⟨rest', m, _, q0, q1, q2, q3, q4, q5⟩ := this
        have hp' : more.flatMap (fun a => List.replicate (tries w) a) = plan w up rest' := by
          unfold plan; rw [q0]
        rw [hp'] at hp
        rw [hp] at hl ⊢
        simp only [List.length_cons] at hl
        have hd : ({ r.s with requestTimer := false } : St).dest = dest := h.dest
        rw [hd] at q2
        obtain ⟨i1, i2, i3⟩ := ih (n - 1) rest' b 0 (popRoutes w rest { r.s with requestTimer := false }) q1 q2 (by omega)
          (hfr.imp_right fun e => by rw [e] at hf; cases hf)
          (by rw [Nat.sub_zero]; omega)
        rw [Nat.sub_zero] at i1 i3
        refine ⟨?_, ?_, ?_⟩
        · rw [i1, q4]; simp
        · intro y hy
          rcases i2 y hy with hy | hy
          · rw [q4] at hy
            rcases List.mem_append.1 hy with hy | hy
            · exact .inl hy
            · simp only [List.mem_singleton] at hy; subst hy; exact .inr q3
          · exact .inr hy
        · rw [q5] at i3
          simp only [List.length_cons, Nat.add_le_add_iff_right]
          exact i3

/-- The timer fires `k` times, and the next address is another one. -/
theorem trying_stuck {w : World} {up : Bytes → Bool} (hw : Network w up) (hfr : ∀ n, w.frees n = false) {dest a b : Bytes}
    {rest : List Bytes} (hab : b ≠ a) (k : Nat) :
    ∀ (n : Int) (j : Nat) (r : Run), r.c = .go → Trying up n (b :: rest) a j dest r.s → j ≤ w.maxResends.toNat →
    ((w.maxResends.toNat - j : Nat) : Int) ≤ n →
    (sends (loop w (List.replicate k .requestTimer) r).s.outs).map Prod.fst = (sends r.s.outs).map Prod.fst ++
      (List.replicate (w.maxResends.toNat - j) a).take k ∧
    errors (loop w (List.replicate k .requestTimer) r).s.outs = errors r.s.outs ∧
    (loop w (List.replicate k .requestTimer) r).c = if k ≤ w.maxResends.toNat - j then .go else .stuck := by
  induction k with
  | zero =>
    intro n j r hg h hj hl
    refine ⟨by simp [loop], rfl, ?_⟩
    rw [if_pos (Nat.zero_le _)]
    exact hg
  | succ k ih =>
    intro n j r hg h hj hl
    rw [List.replicate_succ]
    unfold loop
    have hr : (r.andThen fun s => step w s .requestTimer) = step w r.s .requestTimer := by
      unfold Run.andThen; rw [hg]
    rw [hr]
    by_cases hjm : (j : Int) < w.maxResends
    · have hlt : j < w.maxResends.toNat := by omega
      obtain ⟨m, hm⟩ : ∃ m, w.maxResends.toNat - j = m + 1 := ⟨w.maxResends.toNat - j - 1, by omega⟩
      have hm' : w.maxResends.toNat - (j + 1) = m := by omega
      rw [hm, List.replicate_succ] at *
      obtain ⟨h1, h2, x, h3, h4, h5⟩ := trying_again hw (n := n - 1) (by omega) (by rw [Int.sub_add_cancel]; exact h) hjm
      obtain ⟨i1, i2, i3⟩ := ih (n - 1) (j + 1) (step w r.s .requestTimer) h1 h2 (by omega) (by rw [hm']; omega)
      rw [hm'] at i1 i3
      refine ⟨?_, by rw [i2, h5], ?_⟩
      · rw [i1, h4]; simp
      · rw [i3]; simp
    · have hje : w.maxResends.toNat - j = 0 := by omega
      obtain ⟨c, hs, hc⟩ := h.here
      have hb : blocked w { r.s with requestTimer := false, addr := b, routes := rest } = true := by
        unfold blocked
        simp only [hs, hfr, Option.any_some, hc, Bool.not_false, Bool.and_true]
        simpa using fun e => hab e.symm
      have hp : popRoutes w (b :: rest) { r.s with requestTimer := false } =
          ⟨{ r.s with requestTimer := false, addr := b, routes := rest, sock := none }, .stuck⟩ := by
        unfold popRoutes
        rw [if_pos hb]
      rw [trying_next h hjm, hp, loop_stuck _ _ rfl, hje]
      exact ⟨by simp, rfl, by simp⟩

end Gosip.Dialog
