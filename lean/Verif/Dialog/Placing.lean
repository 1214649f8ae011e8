import Verif.Dialog.Redirect

/-!
# Placing a call
-/

namespace Gosip.Dialog
open Sip Spec

/-- Addresses that cannot be dialled are passed over. -/
theorem popRoutes_skip {w : World} (l rest : List Bytes) (hd : ∀ a ∈ l, ∀ n, w.dial n a = none) : ∀ s : St, s.sock = none →
    ∃ t : St, popRoutes w (l ++ rest) s = popRoutes w rest t ∧ t.sock = none ∧ t.cur = s.cur ∧
      t.outs = s.outs ++ l.map .dial := by
  induction l with
  | nil => intro s hs; exact ⟨s, rfl, hs, rfl, by simp⟩
  | cons a l ih =>
    intro s hs
    have hc : connect w { s with addr := a, routes := l ++ rest } =
        ({ ({ s with addr := a, routes := l ++ rest, sock := none, tick := s.tick + 1 } : St) with
          outs := s.outs ++ [.dial a] }, false) := by
      unfold connect
      rw [if_neg (by simp [hs])]
      dsimp only
      rw [hd a (by simp)]
      rfl
    obtain ⟨t, h1, h2, h3, h4⟩ := ih (fun b hb => hd b (by simp [hb]))
      ({ ({ s with addr := a, routes := l ++ rest, sock := none, tick := s.tick + 1 } : St) with
        outs := s.outs ++ [.dial a] }) rfl
    refine ⟨t, ?_, h2, h3, by rw [h4]; simp⟩
    simp only [popRoutes, List.cons_append]
    rw [if_neg (by simp [blocked, hs]), hc]
    simpa using h1

/-- The first connection to an address that can be dialled. -/
theorem connect_first {w : World} {s : St} (hs : s.sock = none) (hd : ∀ n, w.dial n s.addr ≠ none)
    (hl : w.loose = false ∨ ∀ n, w.listen n ≠ none) :
    (connect w s).2 = true ∧ ∃ c n, (connect w s).1.sock = some c ∧ w.dial n s.addr = some c ∧
      (connect w s).1.outs = s.outs ++ [.dial s.addr] ∧ (connect w s).1.cur = s.cur := by
  unfold connect
  rw [if_neg (by simp [hs])]
  dsimp only
  cases hc : w.dial s.tick s.addr with
  | none => exact absurd hc (hd _)
  | some c =>
    dsimp only
    unfold connectLoose
    split
    · rename_i h
      simp only [Bool.and_eq_true] at h
      rcases hl with hl | hl
      · rw [hl] at h; simp at h
      · split
        · rename_i hn; exact absurd hn (hl _)
        · exact ⟨rfl, c, _, rfl, hc, rfl, rfl⟩
    · exact ⟨rfl, c, _, rfl, hc, rfl, rfl⟩

/-- An attempt, when the write succeeds: what is written is the text of the message. -/
theorem attempt_text {w : World} {s : St} {c : Conn} {m : Msg} (hw : ∀ n, w.write n = .ok ()) (hs : s.sock = some c)
    (hc : s.cur = some m) (hk : ContactOK m) (hl : m.isResponse = false) (hf : m.maxForwards ≠ 1) :
    ∃ m0 m' n, populate (w.ids s.tick) (w.origin s.tick) c s.csock m = .ok m0 ∧ SentAs m0 m' ∧ (attempt w s).c = .go ∧
      (attempt w s).s.outs = s.outs ++ [.sent c.remote m' (m'.text (w.origin n))] := by
  obtain ⟨m0, hp, _, p2, p3, _⟩ := populate_ok (ids := w.ids s.tick) (o := w.origin s.tick) (c := c) (cs := s.csock) hk hl
  have hpop := populate_spec hl hp
  have hat : attempt w s = sendCur w (newAttempt { s with tick := s.tick + 1 } m0) := by
    unfold attempt
    split
    · rename_i c' m e1 e2
      rw [hs] at e1; cases e1
      rw [hc] at e2; cases e2
      rw [hp]
    · rename_i hno
      exact (hno c m hs hc).elim
  obtain ⟨f1, _, _, f4, _, f6, _⟩ := newAttempt_frame { s with tick := s.tick + 1 } m0
  have hne : m0.maxForwards ≠ 1 := by rw [hpop.forwards]; split <;> omega
  generalize newAttempt { s with tick := s.tick + 1 } m0 = t at hat f1 f4 f6
  have h4 : t.sock = some c := f4.trans hs
  have h6 : t.cur = some m0 := f6.trans (cur_setCur (m0 := m) hc)
  obtain ⟨m', ht, _⟩ := stamp_ok (w := w) (m := decForwards m0) (.inl (by rw [decForwards_via]; exact p3)) t.tick
  refine ⟨m0, m', t.tick, hp, sentAs_ts hne ht, ?_⟩
  rw [hat]
  unfold sendCur
  rw [h6]
  dsimp only
  unfold send
  rw [if_neg hne]
  unfold writeMsg
  rw [ht, h4]
  dsimp only
  rw [hw]
  refine ⟨rfl, ?_⟩
  dsimp only
  rw [(setCur_frame _ _).1]
  show t.outs ++ _ = _
  rw [f1]

/-- Starting a call when the first address that can be dialled is `a`. -/
theorem start_placed {w : World} {invite : Msg} {host : Bytes} {port : UInt16} {dead rest : List Bytes} {a : Bytes}
    (hi : invite.isResponse = false) (hr : (routeMessage none none invite).2 = .ok (host, port))
    (ha : (routeAddress (w.resolver 0) host port true).2 = .ok (dead ++ a :: rest))
    (hdead : ∀ b ∈ dead, ∀ n, w.dial n b = none) (hd : ∀ n, w.dial n a ≠ none)
    (hl : w.loose = false ∨ ∀ n, w.listen n ≠ none) (hw : ∀ n, w.write n = .ok ())
    (hk : ContactOK invite) (hf : invite.maxForwards ≠ 1) :
    ∃ c n k o cs m0 y, w.dial n a = some c ∧
      populate (w.ids k) (w.origin k) c cs (routeMessage none none invite).1 = .ok m0 ∧ SentAs m0 y ∧
      (start w invite).c = .go ∧
      (start w invite).s.outs = dead.map .dial ++ [.dial a, .sent c.remote y (y.text (w.origin o))] := by
  obtain ⟨u, ad, hrm, hadd⟩ := route_none invite
  have hst : start w invite = popRoutes w (dead ++ a :: rest)
      { invite := (routeMessage none none invite).1, req := .invite, routes := dead ++ a :: rest, dest := host, tick := 1 } := by
    unfold start sendInvite sendTowards
    dsimp only
    rw [hr]
    dsimp only
    have : (routeAddress (w.resolver 0) host port
      (decide (CallState.proceeding.rank < CallState.answered.rank))).2 = .ok (dead ++ a :: rest) := ha
    rw [this]
    rfl
  obtain ⟨t, t1, t2, t3, t4⟩ := popRoutes_skip (w := w) dead (a :: rest) hdead
    { invite := (routeMessage none none invite).1, req := .invite, routes := dead ++ a :: rest, dest := host, tick := 1 } rfl
  obtain ⟨c1, c, n, c2, c3, c4, c5⟩ := connect_first (w := w) (s := { t with addr := a, routes := rest }) t2 hd hl
  have hcur : (connect w { t with addr := a, routes := rest }).1.cur = some (routeMessage none none invite).1 := by
    rw [c5]; exact t3
  obtain ⟨m0, y, o, k1, k2, k3, k4⟩ := attempt_text (w := w) hw c2 hcur
    (by
      intro a' l' ha'
      rw [hrm] at ha'
      exact hk a' l' ((hadd .contact (by simp)).symm.trans ha'))
    (by rw [hrm]; exact hi) (by rw [hrm]; exact hf)
  have hb : blocked w { t with addr := a, routes := rest } = false := by
    unfold blocked
    simp [t2]
  refine ⟨c, n, _, o, _, m0, y, c3, k1, k2, ?_⟩
  rw [hst, t1]
  simp only [popRoutes, hb, Bool.false_eq_true, if_false, c1, if_true]
  refine ⟨k3, ?_⟩
  rw [k4, c4]
  show (t.outs ++ _) ++ _ = _
  rw [t4]
  simp

end Gosip.Dialog
