import Verif.Dialog.Report
import Verif.Dialog.Local
import Verif.Dialog.Silent
import Verif.Spec.Redirect

/-!
# Following a redirection
-/

namespace Gosip.Dialog
open Sip Spec

theorem sentAs_ts {ts : Option Int} {m m' : Msg} (hne : m.maxForwards ≠ 1)
    (ht : addTimestamp ts (decForwards m) = .ok m') : SentAs m m' := by
  have hb := branchOf_ts ht
  have hsb := sentBy_ts ht
  obtain ⟨v, hv, _, _⟩ := addTimestamp_frame ht
  have hbd : branchOf (decForwards m) = branchOf m := by unfold decForwards; split <;> rfl
  have hsd : sentBy (decForwards m) = sentBy m := by unfold decForwards; split <;> rfl
  have hmf : decForwards m = { m with
      maxForwards := if m.maxForwards > 0 then m.maxForwards - 1 else m.maxForwards } := by
    unfold decForwards; split <;> rfl
  have hbh : (decForwards m).via.tail = m.via.tail := by unfold decForwards; split <;> rfl
  exact ⟨⟨v, by rw [hv, hmf]⟩, hb.trans hbd, hsb.trans hsd, hne, (behind_ts ht).trans hbh⟩

/-- Sending the current request, when the write succeeds. -/
theorem sendCur_ok {w : World} {s : St} {c : Conn} {m : Msg} (hw : ∀ n, w.write n = .ok ()) (hs : s.sock = some c)
    (hc : s.cur = some m) (hf : m.maxForwards ≠ 1) (hv : m.via ≠ []) :
    ∃ m' x, SentAs m m' ∧ (sendCur w s).c = .go ∧ (sendCur w s).s.outs = s.outs ++ [.sent c.remote m' x] := by
  obtain ⟨m', ht, _⟩ := stamp_ok (w := w) (m := decForwards m) (.inl (by rw [decForwards_via]; exact hv)) s.tick
  refine ⟨m', m'.text (w.origin s.tick), sentAs_ts hf ht, ?_⟩
  unfold sendCur
  rw [hc]
  dsimp only
  unfold send
  rw [if_neg hf]
  unfold writeMsg
  rw [ht, hs]
  dsimp only
  rw [hw]
  refine ⟨rfl, ?_⟩
  dsimp only
  rw [(setCur_frame _ _).1]
  rfl

/-- An attempt, when the write succeeds. -/
theorem attempt_ok {w : World} {s : St} {c : Conn} {m : Msg} (hw : ∀ n, w.write n = .ok ()) (hs : s.sock = some c)
    (hc : s.cur = some m) (hk : ContactOK m) (hl : m.isResponse = false) (hf : m.maxForwards ≠ 1) :
    ∃ m0 m' x, populate (w.ids s.tick) (w.origin s.tick) c s.csock m = .ok m0 ∧ SentAs m0 m' ∧ (attempt w s).c = .go ∧
      (attempt w s).s.outs = s.outs ++ [.sent c.remote m' x] := by
  obtain ⟨m0, hp, _, p2, p3, _⟩ := populate_ok (ids := w.ids s.tick) (o := w.origin s.tick) (c := c) (cs := s.csock) hk hl
  have hpop := populate_spec hl hp
  have hat : attempt w s = sendCur w (newAttempt { s with tick := s.tick + 1 } m0) := by
    unfold attempt
    split
    · rename_i c' m e1 e2
      rw [hs] at e1; cases e1
      rw [hc] at e2; cases e2
      rw [hp]
    · rename_i hno
      exact (hno c m hs hc).elim
  obtain ⟨f1, _, _, f4, _, f6, _⟩ := newAttempt_frame { s with tick := s.tick + 1 } m0
  obtain ⟨m', x, h1, h2, h3⟩ := sendCur_ok (w := w) (s := newAttempt { s with tick := s.tick + 1 } m0) (m := m0) hw
    (f4.trans hs) (f6.trans (cur_setCur (m0 := m) hc)) (by rw [hpop.forwards]; split <;> omega) p3
  exact ⟨m0, m', x, hp, h1, by rw [hat]; exact h2, by rw [hat, h3, f1]⟩

/-- Connecting to an address that can be dialled. -/
theorem connect_ok {w : World} {s : St} (hd : ∀ n, w.dial n s.addr ≠ none) (hl : w.loose = false ∨ ∀ n, w.listen n ≠ none) :
    (connect w s).2 = true ∧ ∃ c dials, (connect w s).1.sock = some c ∧ Reaches w s.addr c ∧ OnlyDials dials ∧
      (connect w s).1.outs = s.outs ++ dials ∧ (connect w s).1.invite = s.invite ∧ (connect w s).1.req = s.req ∧
      (connect w s).1.state = s.state := by
  unfold connect
  split
  · rename_i h
    cases hs : s.sock with
    | none => rw [hs] at h; simp at h
    | some c =>
      rw [hs] at h
      simp only [Option.any_some, beq_iff_eq] at h
      exact ⟨rfl, c, [], rfl, .inl h, .inl rfl, by simp, rfl, rfl, rfl⟩
  · dsimp only
    cases hc : w.dial s.tick s.addr with
    | none => exact absurd hc (hd _)
    | some c =>
      dsimp only
      unfold connectLoose
      split
      · rename_i h
        simp only [Bool.and_eq_true] at h
        rcases hl with hl | hl
        · rw [hl] at h; simp at h
        · split
          · rename_i hn; exact absurd hn (hl _)
          · exact ⟨rfl, c, [.dial s.addr], rfl, .inr ⟨_, hc⟩, .inr ⟨_, rfl⟩, rfl, rfl, rfl, rfl⟩
      · exact ⟨rfl, c, [.dial s.addr], rfl, .inr ⟨_, hc⟩, .inr ⟨_, rfl⟩, rfl, rfl, rfl, rfl⟩

/-- Sending a request to an address that can be dialled. -/
theorem popRoutes_ok {w : World} {s : St} {a : Bytes} {l : List Bytes} {m : Msg} (hw : ∀ n, w.write n = .ok ())
    (hfr : ∀ n, w.frees n = true) (hd : ∀ n, w.dial n a ≠ none) (hl : w.loose = false ∨ ∀ n, w.listen n ≠ none)
    (hc : s.cur = some m) (hk : ContactOK m) (hr : m.isResponse = false) (hf : m.maxForwards ≠ 1) :
    ∃ c n cs dials m0 m' x, Reaches w a c ∧ OnlyDials dials ∧
      populate (w.ids n) (w.origin n) c cs m = .ok m0 ∧ SentAs m0 m' ∧
      (popRoutes w (a :: l) s).c = .go ∧ (popRoutes w (a :: l) s).s.outs = s.outs ++ dials ++ [.sent c.remote m' x] := by
  have hb : blocked w { s with addr := a, routes := l } = false := by
    unfold blocked
    rw [hfr]; simp
  obtain ⟨h1, c, dials, h2, h3, h4, h5, h6, h7, h8⟩ := connect_ok (w := w) (s := { s with addr := a, routes := l }) hd hl
  have hcur : (connect w { s with addr := a, routes := l }).1.cur = some m := by
    unfold St.cur at hc ⊢
    rw [h7, h6]; exact hc
  obtain ⟨m0, m', x, k1, k2, k3, k4⟩ := attempt_ok (w := w) hw h2 hcur hk hr hf
  refine ⟨c, _, _, dials, m0, m', x, h3, h4, k1, k2, ?_⟩
  simp only [popRoutes, hb, Bool.false_eq_true, if_false, h1, if_true]
  exact ⟨k3, by rw [k4, h5]⟩

/-- Sending the INVITE to an address without a route. -/
theorem sendInvite_ok {w : World} {s : St} {u : URI} {a : Bytes} {l : List Bytes} (hw : ∀ n, w.write n = .ok ())
    (hfr : ∀ n, w.frees n = true) (hu : s.invite.request = some u) (hrt : s.invite.addrs .route = [])
    (hra : ∀ n, (routeAddress (w.resolver n) u.host u.port (s.state.rank < CallState.answered.rank)).2 = .ok (a :: l))
    (hd : ∀ n, w.dial n a ≠ none) (hl : w.loose = false ∨ ∀ n, w.listen n ≠ none)
    (hk : ContactOK s.invite) (hr : s.invite.isResponse = false) (hf : s.invite.maxForwards ≠ 1) :
    ∃ c n cs dials m0 m' x, Reaches w a c ∧ OnlyDials dials ∧
      populate (w.ids n) (w.origin n) c cs s.invite = .ok m0 ∧ SentAs m0 m' ∧
      (sendInvite w s).c = .go ∧ (sendInvite w s).s.outs = s.outs ++ dials ++ [.sent c.remote m' x] := by
  have hrm : routeMessage none none s.invite = (s.invite, .ok (u.host, u.port)) := by
    unfold routeMessage
    rw [if_neg (by rw [hr]; simp)]
    rw [hrt]
    have : popRoute none [] = [] := by decide
    rw [this]
    dsimp only
    have hh : uriHop s.invite.request = .ok (u.host, u.port) := by rw [hu]; rfl
    have hsa : setAt s.invite.addrs .route [] = s.invite.addrs := by
      funext f
      unfold setAt
      split
      · rename_i h; rw [h, hrt]
      · rfl
    rw [hsa]
    exact congrArg (Prod.mk _) hh
  unfold sendInvite
  rw [hrm]
  dsimp only
  unfold sendTowards
  dsimp only
  rw [hra]
  exact popRoutes_ok (w := w) (s := { s with req := .invite, routes := a :: l, dest := u.host, tick := s.tick + 1 })
    (m := s.invite) hw hfr hd hl rfl hk hr hf

/-- A redirection of the INVITE. -/
theorem redirect_eq {w : World} {s : St} {c : Conn} {cur m : Msg} {ad : Addr} {more : List Addr} {u : URI} {a : Bytes}
    {l : List Bytes} (hw : ∀ n, w.write n = .ok ()) (hfr : ∀ n, w.frees n = true)
    (hs : s.sock = some c) (hc : s.cur = some cur) (hq : s.req = .invite)
    (hver : m.versionMajor = 2 ∧ m.versionMinor = 0) (hid : m.callID = cur.callID) (hm : Answers cur m)
    (hi : cur.method = b!"INVITE") (hst : m.status = 301 ∨ m.status = 302)
    (hcon : m.addrs .contact = ad :: more) (hu : ad.uri = some u)
    (hra : ∀ n, (routeAddress (w.resolver n) u.host u.port (s.state.rank < CallState.answered.rank)).2 = .ok (a :: l))
    (hd : ∀ n, w.dial n a ≠ none) (hl : w.loose = false ∨ ∀ n, w.listen n ≠ none)
    (hk : ContactOK cur) (hr : cur.isResponse = false) (hf : cur.maxForwards ≠ 1) :
    ∃ a0 ack x0 c' n cs dials m0 m' x, Acknowledges cur m a0 ∧ Stamped a0 ack ∧ Reaches w a c' ∧ OnlyDials dials ∧
      populate (w.ids n) (w.origin n) c' cs { cur with request := some u, addrs := setAt cur.addrs .route [] } = .ok m0 ∧
      SentAs m0 m' ∧ (step w s (.msg m)).c = .go ∧
      (step w s (.msg m)).s.outs = s.outs ++ .sent c.remote ack x0 :: dials ++ [.sent c'.remote m' x] := by
  have hcur : s.invite = cur := by
    unfold St.cur at hc; rw [hq] at hc; cases hc; rfl
  rw [response_step hs hc hver hid hm]
  obtain ⟨a0, ack, x0, h1, h2, h3⟩ := ack_ok (w := w) hw hs hi hm (by omega) (by rw [hcon]; simp)
  rw [h3]
  simp only [Run.andThen]
  rw [settle_refused (by omega)]
  dsimp only
  unfold handleStatus
  rw [if_neg (by omega), if_neg (by omega), if_neg (by omega), if_neg (by omega), if_pos (by omega)]
  unfold redirect
  have hh : headUri (m.addrs .contact) = .ok (some u) := by rw [hcon]; simp [headUri, hu]
  rw [hh]
  dsimp only
  obtain ⟨c', n, cs, dials, m0, m', x, k1, k2, k3, k4, k5, k6⟩ := sendInvite_ok (w := w)
    (s := { ({ s with tick := s.tick + 1 } : St).out (.sent c.remote ack x0) with
      routes := [], requestTimer := false,
      invite := { s.invite with request := some u, addrs := setAt s.invite.addrs .route [] } })
    (u := u) (a := a) (l := l) hw hfr rfl (by simp [setAt]) hra hd hl
    (by
      intro a' l' ha'
      rw [hcur] at ha'
      exact hk a' l' (by simpa [setAt] using ha'))
    (by rw [hcur]; exact hr) (by rw [hcur]; exact hf)
  refine ⟨a0, ack, x0, c', n, cs, dials, m0, m', x, h1, h2, k1, k2, by rw [← hcur]; exact k3, k4, k5, ?_⟩
  refine k6.trans ?_
  simp [St.out]

end Gosip.Dialog
