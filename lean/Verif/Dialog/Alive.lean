import Verif.Dialog.Order

/-!
# The running dialog

Whenever the loop waits for an event, it has a socket and has sent a request, and all its requests carry
one Call-ID.
-/

namespace Gosip.Dialog
open Sip Spec

/-- The dialog waits for an event. -/
structure Alive (s : St) : Prop where
  sock : ∃ c, s.sock = some c
  cur : ∃ m, s.cur = some m ∧ isOwn m = true ∧ branchOf m ≠ none ∧ m.callID = s.invite.callID
  invite : isOwn s.invite = true ∧ branchOf s.invite ≠ none ∧ s.invite.callID ≠ []
  last : ∃ pre d x m, own s.outs = pre ++ [(d, x)] ∧ s.cur = some m ∧ Core x m
  sent : ∃ pre d x post, own s.outs = pre ++ (d, x) :: post ∧ Core x s.invite ∧
    (∀ y ∈ post, y.2.method = b!"BYE") ∧ (s.req = .invite → post = [])
  other : ∀ m, s.req = .other m → m.method = b!"BYE"
  call : ∀ x ∈ own s.outs, x.2.callID = s.invite.callID

theorem act_sock {w : World} {s : St} {r : Run} (h : ∃ c, s.sock = some c) (a : Act w s r) (hg : r.c = .go) :
    ∃ c, r.s.sock = some c := by
  cases a with
  | quiet q => rw [(q.same hg).2.2.2.2]; exact h
  | cancel =>
    have hq := quiet_send w s _ (own_newCancel s.invite)
    obtain ⟨c, hc⟩ := h
    exact ⟨c, ((hq.same hg).2.2.2.2).trans hc⟩
  | resend _ =>
    have hs : ∀ s : St, (sendCur w s).s.sock = s.sock := by
      intro s
      unfold sendCur
      split
      · rfl
      · rename_i m _
        rw [(setCur_frame _ _).2.2.2.1]
        have h := send_res w s m
        generalize send w s m = x at h ⊢
        cases h <;> rfl
    obtain ⟨c, hc⟩ := h
    refine ⟨c, ?_⟩
    unfold Run.andThen
    split <;> exact (hs s).trans hc
  | attempt hr =>
    rename_i t
    have hs : ∀ s : St, (sendCur w s).s.sock = s.sock := by
      intro s
      unfold sendCur
      split
      · rfl
      · rename_i m _
        rw [(setCur_frame _ _).2.2.2.1]
        have h := send_res w s m
        generalize send w s m = x at h ⊢
        cases h <;> rfl
    obtain ⟨c, hc⟩ := hr.sock
    refine ⟨c, ?_⟩
    rcases attempt_spec w t with ha | ⟨_, m0, m, _, _, _, ha⟩
    · rw [ha]; exact hc
    · rw [ha, hs, (newAttempt_frame _ _).2.2.2.1]; exact hc

theorem attempt_sock {w : World} {s t : St} (hr : Ready s t) :
    ∃ c, (attempt w t).s.sock = some c := by
  have hs : ∀ s : St, (sendCur w s).s.sock = s.sock := by
    intro s
    unfold sendCur
    split
    · rfl
    · rename_i m _
      rw [(setCur_frame _ _).2.2.2.1]
      have h := send_res w s m
      generalize send w s m = x at h ⊢
      cases h <;> rfl
  obtain ⟨c, hc⟩ := hr.sock
  refine ⟨c, ?_⟩
  rcases attempt_spec w t with ha | ⟨_, m0, m, _, _, _, ha⟩
  · rw [ha]; exact hc
  · rw [ha, hs, (newAttempt_frame _ _).2.2.2.1]; exact hc

theorem callID_bye {invite remote b : Msg} {l : Option Int} {n : Int} (h : newBye invite remote l = .ok (b, n)) :
    (routeMessage none none b).1.callID = invite.callID := by
  obtain ⟨u, a, hr, _⟩ := route_none b
  rw [hr]
  simp only [newBye, Res.bind_eq, Res.bind_ok_iff] at h
  obtain ⟨u, _, h⟩ := h
  cases h
  rfl

theorem alive_acts {w : World} {s : St} {r : Run} (h : Alive s) (a : Act w s r) (hg : r.c = .go) : Alive r.s := by
  obtain ⟨h1, ⟨m, hm, hmo, hmb, hmc⟩, ⟨i1, i2, i3⟩, ⟨p1, d1, x1, y1, hl1, hl2, hl3⟩, ⟨p2, d2, x2, q2, hs1, hs2, hs3, hs4⟩, h6, h5⟩ := h
  have hc : ∀ m, s.cur = some m → isOwn m = true := by
    intro y hy; rw [hm] at hy; cases hy; exact hmo
  have hsock := act_sock h1 a hg
  have e := effect_act w s r i1 hc a
  obtain ⟨al1, al2⟩ := alive_act i1 hc a hg
  cases e with
  | quiet e1 e2 e3 =>
    obtain ⟨k, k2, _⟩ := e3 hg
    have hcur : ∃ m', r.s.cur = some m' ∧ Core m m' := by
      unfold St.cur at hm ⊢
      rw [k2]
      cases hq : s.req with
      | none => rw [hq] at hm; cases hm
      | invite => rw [hq] at hm; cases hm; exact ⟨r.s.invite, rfl, k⟩
      | other y => rw [hq] at hm; cases hm; exact ⟨m, rfl, Core.refl m⟩
    obtain ⟨m', hm', hk'⟩ := hcur
    have hy1 : y1 = m := by rw [hm] at hl2; exact (Option.some.inj hl2).symm
    refine ⟨hsock, ⟨m', hm', al2 m' hm', by rw [hk'.branch]; exact hmb, by rw [hk'.callID, hmc, k.callID]⟩,
      ⟨al1, by rw [k.branch]; exact i2, by rw [k.callID]; exact i3⟩,
      ⟨p1, d1, x1, m', e1.trans hl1, hm', (hy1 ▸ hl3).trans hk'⟩,
      ⟨p2, d2, x2, q2, e1.trans hs1, hs2.trans k, hs3, by rw [k2]; exact hs4⟩, by rw [k2]; exact h6, ?_⟩
    rw [e1, k.callID]; exact h5
  | @resend y m' d inv e1 e2 e3 e4 e5 e6 e7 =>
    have hy : y = m := by
      unfold St.cur at hm
      rcases e5 with ⟨_, k, k2⟩ | ⟨_, k⟩
      · rw [k] at hm; cases hm; exact k2
      · rw [k] at hm; cases hm; rfl
    subst hy
    obtain ⟨_, _, hk⟩ := e7 hg
    have hb' : branchOf m' ≠ none := by rw [e3.branch]; exact hmb
    have hc' : m'.callID = s.invite.callID := by rw [e3.callID]; exact hmc
    have hcall : ∀ x ∈ own r.s.outs, x.2.callID = s.invite.callID := by
      rw [e1]; intro x hx
      simp only [List.mem_append, List.mem_singleton] at hx
      rcases hx with hx | rfl
      · exact h5 x hx
      · exact hc'
    rcases hk with ⟨hi, k0, k⟩ | ⟨hi, k0, k⟩
    · have hcur' : r.s.cur = some m' := by rw [cur_of_invite k0, k]
      refine ⟨hsock, ⟨m', hcur', e4, hb', by rw [k]⟩, ⟨by rw [k]; exact e4, by rw [k]; exact hb', by rw [k, hc']; exact i3⟩,
        ⟨_, d, m', m', e1, hcur', Core.refl _⟩, ⟨_, d, m', [], e1, by rw [k]; exact Core.refl _, by simp, by simp⟩,
        by rw [k0]; simp, by rw [k, hc']; exact hcall⟩
    · have hbye : m'.method = b!"BYE" := by
        rcases e5 with ⟨hi2, _⟩ | ⟨_, k1⟩
        · rw [hi] at hi2; cases hi2
        · rw [e3.method]; exact h6 _ k1
      refine ⟨hsock, ⟨m', cur_of_req k0, e4, hb', by rw [k]; exact hc'⟩,
        ⟨by rw [k]; exact i1, by rw [k]; exact i2, by rw [k]; exact i3⟩,
        ⟨_, d, m', m', e1, cur_of_req k0, Core.refl _⟩,
        ⟨p2, d2, x2, q2 ++ [(d, m')], by rw [e1, hs1]; simp, by rw [k]; exact hs2, ?_, by rw [k0]; simp⟩,
        by rw [k0]; intro y hy; cases hy; exact hbye, by rw [k]; exact hcall⟩
      intro y hy
      simp only [List.mem_append, List.mem_singleton] at hy
      rcases hy with hy | rfl
      · exact hs3 y hy
      · exact hbye
  | @attempt m0 m2 m' d n l inv e1 e2 e3 e4 e5 e6 e7 e8 =>
    obtain ⟨_, _, hk⟩ := e8 hg
    have hc0 : m0.callID = s.invite.callID ∧ (inv = false → m0.method = b!"BYE") := by
      cases e4 with
      | invite => exact ⟨rfl, fun hc => by cases hc⟩
      | other hr =>
        unfold St.cur at hm; rw [hr] at hm; cases hm; exact ⟨hmc, fun _ => h6 _ hr⟩
      | bye _ _ h3 => exact ⟨callID_bye h3, fun _ => (bye_method h3).1⟩
    obtain ⟨hc0, hbye0⟩ := hc0
    have hb' : branchOf m' ≠ none := by rw [e6.branch, e5.branch]; simp
    have hc' : m'.callID = s.invite.callID := by
      rw [e6.callID, e5.callID, hc0, if_neg i3]
    have hcall : ∀ x ∈ own r.s.outs, x.2.callID = s.invite.callID := by
      rw [e1]; intro x hx
      simp only [List.mem_append, List.mem_singleton] at hx
      rcases hx with hx | rfl
      · exact h5 x hx
      · exact hc'
    rcases hk with ⟨hi, k0, k⟩ | ⟨hi, k0, k⟩
    · have hcur' : r.s.cur = some m' := by rw [cur_of_invite k0, k]
      refine ⟨hsock, ⟨m', hcur', e7, hb', by rw [k]⟩, ⟨by rw [k]; exact e7, by rw [k]; exact hb', by rw [k, hc']; exact i3⟩,
        ⟨_, d, m', m', e1, hcur', Core.refl _⟩, ⟨_, d, m', [], e1, by rw [k]; exact Core.refl _, by simp, by simp⟩,
        by rw [k0]; simp, by rw [k, hc']; exact hcall⟩
    · have hbye : m'.method = b!"BYE" := by rw [e6.method, e5.method]; exact hbye0 hi
      refine ⟨hsock, ⟨m', cur_of_req k0, e7, hb', by rw [k]; exact hc'⟩,
        ⟨by rw [k]; exact i1, by rw [k]; exact i2, by rw [k]; exact i3⟩,
        ⟨_, d, m', m', e1, cur_of_req k0, Core.refl _⟩,
        ⟨p2, d2, x2, q2 ++ [(d, m')], by rw [e1, hs1]; simp, by rw [k]; exact hs2, ?_, by rw [k0]; simp⟩,
        by rw [k0]; intro y hy; cases hy; exact hbye, by rw [k]; exact hcall⟩
      intro y hy
      simp only [List.mem_append, List.mem_singleton] at hy
      rcases hy with hy | rfl
      · exact hs3 y hy
      · exact hbye

/-- The first attempt. -/
theorem alive_first {w : World} {s t : St} (hr : Ready s t) (hi : isOwn s.invite = true) (hq : s.req = .none)
    (hs : s.state ≠ .answered) (ho : own s.outs = []) (hid : ∀ n, (w.ids n).callID ≠ [])
    (hg : (attempt w t).c = .go) : Alive (attempt w t).s := by
  have hc : ∀ m, s.cur = some m → isOwn m = true := by
    intro m hm; unfold St.cur at hm; rw [hq] at hm; cases hm
  have a : Act w s (attempt w t) := .attempt hr
  have e := effect_act w s _ hi hc a
  have hsock := attempt_sock (w := w) hr
  cases e with
  | quiet e1 e2 e3 =>
    -- the request is not none after an attempt that goes on
    obtain ⟨_, k2, _⟩ := e3 hg
    rw [hq] at k2
    exfalso
    rcases attempt_spec w t with ha | ⟨c, m0, m, _, hc0, _, ha⟩
    · rw [ha] at hg; cases hg
    · rw [ha] at hg k2
      obtain ⟨_, _, _, _, _, f6, _, f8, _⟩ := newAttempt_frame { t with tick := t.tick + 1 } m
      have hcur : (newAttempt { t with tick := t.tick + 1 } m).cur = some m := by
        rw [f6]; exact cur_setCur (m0 := m0) hc0
      unfold sendCur at k2
      rw [hcur] at k2
      have : ∀ (q : St) (y : Msg), (q.setCur y).req = .none → q.req = .none := by
        intro q y hh; unfold St.setCur at hh; split at hh <;> simp_all
      have k3 := this _ _ k2
      have hsr := send_res w (newAttempt { t with tick := t.tick + 1 } m) m
      generalize send w (newAttempt { t with tick := t.tick + 1 } m) m = x at hsr k3
      have k4 : (newAttempt { t with tick := t.tick + 1 } m).req = .none := by cases hsr <;> exact k3
      unfold St.cur at hcur
      rw [k4] at hcur
      cases hcur
  | resend e1 e2 e3 e4 e5 e6 e7 =>
    rcases e5 with ⟨_, k, _⟩ | ⟨_, k⟩ <;> rw [hq] at k <;> cases k
  | @attempt m0 m2 m' d n l inv e1 e2 e3 e4 e5 e6 e7 e8 =>
    obtain ⟨_, _, hk⟩ := e8 hg
    have hinv : inv = true := by
      cases e4 with
      | invite => rfl
      | other hr => rw [hq] at hr; cases hr
      | bye h1 _ _ => exact absurd h1 hs
    have hb' : branchOf m' ≠ none := by rw [e6.branch, e5.branch]; simp
    have hc' : m'.callID ≠ [] := by
      rw [e6.callID, e5.callID]
      split
      · exact hid n
      · assumption
    rcases hk with ⟨_, k0, k⟩ | ⟨hf, _⟩
    · have hcur' : (attempt w t).s.cur = some m' := by rw [cur_of_invite k0, k]
      refine ⟨hsock, ⟨m', hcur', e7, hb', by rw [k]⟩, ⟨by rw [k]; exact e7, by rw [k]; exact hb', by rw [k]; exact hc'⟩,
        ⟨_, d, m', m', e1, hcur', Core.refl _⟩, ⟨_, d, m', [], e1, by rw [k]; exact Core.refl _, by simp, by simp⟩,
        by rw [k0]; simp, ?_⟩
      rw [e1, ho, k]
      intro x hx
      simp only [List.nil_append, List.mem_singleton] at hx
      rw [hx]
    · rw [hinv] at hf; cases hf

theorem alive_start (w : World) (invite : Msg) (hi : isOwn invite = true) (hid : ∀ n, (w.ids n).callID ≠ [])
    (hg : (start w invite).c = .go) : Alive (start w invite).s := by
  unfold start sendInvite sendTowards at hg ⊢
  dsimp only at hg ⊢
  split at hg
  · cases hg
  · cases hg
  · rename_i host port hr
    split at hg
    · cases hg
    · cases hg
    · rename_i rs hrs
      unfold nextRoute at hg ⊢
      generalize hS : (St.mk .proceeding host [] none none rs (routeMessage none none invite).1 none .invite 0 false none 0
        false 0 0 (0 + 1) []) = S at hg ⊢
      obtain ⟨t, hd, hc⟩ := popRoutes_cases w rs S
      obtain ⟨d1, d2, d3, d4, d5⟩ := hd.same
      have hrs' : S.routes = rs := by rw [← hS]
      rw [hrs'] at hg ⊢
      rcases hc with ⟨e, he⟩ | he | ⟨hs, he⟩
      · rw [he] at hg; cases hg
      · rw [he] at hg; cases hg
      · rw [he] at hg ⊢
        refine alive_first (s := { invite := (routeMessage none none invite).1 }) ⟨?_, ?_, ?_, ?_, ?_, hs, ?_, ?_, ?_⟩ ?_ rfl
          (by simp) (by simp [own, sends]) hid hg
        · rw [hd.own, ← hS]
        · exact Nat.zero_le _
        · rw [hd.shown, ← hS]
        · rw [d1, ← hS]
        · intro _ y hy; rw [d2, ← hS] at hy; cases hy
        · rw [d3, ← hS]; exact ⟨_, _, rfl, fun _ _ => rfl⟩
        · intro _; rw [d3, ← hS]
        · left
          rw [d4, d5, ← hS]
          exact ⟨rfl, .inr rfl⟩
        · obtain ⟨u, ad, hrt, _⟩ := route_none invite
          show isOwn (routeMessage none none invite).1 = true
          rw [hrt]; exact hi

theorem alive_step {w : World} {s : St} (ev : Event) (hr : RspOK s) (h : Alive s) (hg : (step w s ev).c = .go) :
    Alive (step w s ev).s := by
  obtain ⟨r0, a, e⟩ := did_step w s ev hr
  have acts : ∀ r, Acts w s r → r.c = .go → Alive r.s := by
    intro r hr hg
    induction hr with
    | refl c => exact h
    | snoc _ a ih => exact alive_acts (ih rfl) a hg
  generalize step w s ev = r at e hg ⊢
  cases e with
  | same => exact acts _ a hg
  | publish t c x c' hq =>
    have k := acts _ a rfl
    have ho := own_transition t c
    refine ⟨k.sock, k.cur, k.invite, ?_, ?_, k.other, ?_⟩
    · obtain ⟨p, d, y, m, h1, h2, h3⟩ := k.last
      exact ⟨p, d, y, m, ho.trans h1, h2, h3⟩
    · obtain ⟨p, d, y, m, h1, h2⟩ := k.sent
      exact ⟨p, d, y, m, ho.trans h1, h2⟩
    · show ∀ x ∈ own (transition t c).outs, _
      rw [ho]; exact k.call

theorem rsp_step {w : World} {s : St} (ev : Event) (hr : RspOK s) : RspOK (step w s ev).s := by
  obtain ⟨r0, a, e⟩ := did_step w s ev hr
  exact rsp_ends e (rsp_acts a hr)

/-- The dialog waiting for an event is alive. -/
theorem alive_loop (w : World) (invite : Msg) (evs : List Event) (hi : isOwn invite = true)
    (hid : ∀ n, (w.ids n).callID ≠ []) (hg : (loop w evs (start w invite)).c = .go) :
    Alive (loop w evs (start w invite)).s ∧ RspOK (loop w evs (start w invite)).s := by
  have hr0 : RspOK (start w invite).s := rsp_acts (acts_sendInvite w _) (fun m hm => by cases hm)
  suffices ∀ r, RspOK r.s → (r.c = .go → Alive r.s) → (loop w evs r).c = .go →
      Alive (loop w evs r).s ∧ RspOK (loop w evs r).s from this _ hr0 (alive_start w invite hi hid) hg
  clear hg
  induction evs with
  | nil => exact fun r h1 h2 h3 => ⟨h2 h3, h1⟩
  | cons e evs ih =>
    intro r h1 h2 h3
    simp only [loop] at h3 ⊢
    obtain ⟨s, c⟩ := r
    cases c with
    | go => exact ih _ (rsp_step e h1) (alive_step e h1 (h2 rfl)) h3
    | stop => exact ih _ h1 (fun hc => by cases hc) h3
    | crash => exact ih _ h1 (fun hc => by cases hc) h3
    | stuck => exact ih _ h1 (fun hc => by cases hc) h3

end Gosip.Dialog
