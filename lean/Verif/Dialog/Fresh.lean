import Verif.Dialog.Effects
import Verif.Dialog.Alive

/-!
# Only the timer of the request sends a request again

All other events send requests with new branches only. A world that allows no retransmission behaves in the same
way for them, so the acts of such an event contain no retransmission.
-/

namespace Gosip.Dialog
open Sip Spec

/-- The world that allows no retransmissions. -/
def World.once (w : World) : World := { w with maxResends := 0 }

theorem once_popRoutes (w : World) (l : List Bytes) (s : St) : popRoutes w.once l s = popRoutes w l s := by
  induction l generalizing s with
  | nil => rfl
  | cons a l ih =>
    simp only [popRoutes]
    rw [show blocked w.once { s with addr := a, routes := l } = blocked w { s with addr := a, routes := l } from rfl,
      show connect w.once { s with addr := a, routes := l } = connect w { s with addr := a, routes := l } from rfl]
    split
    · rfl
    · split
      · rfl
      · exact ih _

theorem once_nextRoute (w : World) (s : St) : nextRoute w.once s = nextRoute w s := once_popRoutes w _ s

theorem once_sendTowards (w : World) (s : St) (q : Req) (h : Res Err (Bytes × UInt16)) :
    sendTowards w.once s q h = sendTowards w s q h := by
  unfold sendTowards
  simp only [once_nextRoute]
  rfl

theorem once_sendInvite (w : World) (s : St) : sendInvite w.once s = sendInvite w s := once_sendTowards w _ _ _

theorem once_start (w : World) (m : Msg) : start w.once m = start w m := once_sendInvite w _

theorem once_handleMessage (w : World) (s : St) (m : Msg) : handleMessage w.once s m = handleMessage w s m := by
  unfold handleMessage handleResponse handleStatus redirect
  simp only [once_nextRoute, once_sendInvite]
  rfl

theorem once_hangup (w : World) (s : St) : sendHangup w.once s = sendHangup w s := by
  unfold sendHangup sendOther
  simp only [once_sendTowards]
  rfl

/-- An event other than the timer of the request is a sequence of acts without retransmission. -/
theorem did_once (w : World) (s : St) (ev : Event) (hr : RspOK s) (he : ev ≠ .requestTimer) :
    Did w.once s (step w s ev) := by
  cases ev with
  | requestTimer => exact absurd rfl he
  | sockErr b e => exact did_step w.once s (.sockErr b e) hr
  | csockErr e => exact did_step w.once s (.csockErr e) hr
  | msg m =>
    have h := did_step w.once s (.msg m) hr
    simp only [step] at h ⊢
    rw [once_handleMessage] at h
    exact h
  | hangup =>
    have h := did_step w.once s .hangup hr
    simp only [step] at h ⊢
    rw [once_hangup] at h
    exact h
  | responseTimer =>
    simp only [step]
    split
    · refine .of_acts (.cons (t := { s with responseTimer := false })
        (.quiet (quiet_of_eq _ rfl rfl rfl rfl rfl (Nat.le_refl _) rfl rfl rfl)) ?_)
      unfold resendResponse
      split
      · exact .refl _
      · split
        · refine Acts.andThen (.one (.quiet (quiet_sendRsp w _ hr))) fun t => ?_
          exact .one (.quiet (quiet_of_eq _ rfl rfl rfl rfl rfl (Nat.le_refl _) rfl rfl rfl))
        · split
          · exact .refl _
          · rw [← once_nextRoute]; exact acts_nextRoute w.once _
    · exact .of_acts (.refl _)

/-- Since the state `s` only requests with new branches have been sent. -/
structure Anew (w : World) (s : St) (r : Run) : Prop where
  tick : s.tick ≤ r.s.tick
  new : ∃ l, own r.s.outs = own s.outs ++ l ∧
    (∀ x ∈ l, ∃ n, s.tick ≤ n ∧ n < r.s.tick ∧ branchOf x.2 = some (w.ids n).branch) ∧
    l.Pairwise fun x y => branchOf x.2 ≠ branchOf y.2
  live : r.c = .go → isOwn r.s.invite = true ∧ 0 ≤ r.s.requestResends ∧ ∀ m, r.s.cur = some m → isOwn m = true

theorem anew_refl (w : World) (s : St) (c : Cont) (h : isOwn s.invite = true) (h0 : 0 ≤ s.requestResends)
    (hm : ∀ m, s.cur = some m → isOwn m = true) : Anew w s ⟨s, c⟩ :=
  ⟨Nat.le_refl _, ⟨[], by simp, by simp, .nil⟩, fun _ => ⟨h, h0, hm⟩⟩

theorem anew_act (w : World) (inj : ∀ a b, (w.ids a).branch = (w.ids b).branch → a = b) (s t : St) (r : Run)
    (h : Anew w s ⟨t, .go⟩) (a : Act w.once t r) : Anew w s r := by
  obtain ⟨l1, l2, l3⟩ := h.live rfl
  dsimp only at l1 l2 l3
  obtain ⟨l, hl, hb, hp⟩ := h.new
  dsimp only at hl hb
  have ht := h.tick
  dsimp only at ht
  cases effect_act w.once t r l1 l3 a with
  | quiet e1 e2 e3 =>
    refine ⟨by omega, ⟨l, e1.trans hl, fun x hx => ?_, hp⟩, fun hg => ?_⟩
    · obtain ⟨n, n1, n2, n3⟩ := hb x hx
      exact ⟨n, n1, by omega, n3⟩
    · obtain ⟨k1, k2, k3, _⟩ := e3 hg
      refine ⟨isOwn_core k1 l1, by rw [k3]; exact l2, fun m hm => ?_⟩
      unfold St.cur at hm
      rw [k2] at hm
      cases hq : t.req with
      | none => rw [hq] at hm; cases hm
      | invite => rw [hq] at hm; cases hm; exact isOwn_core k1 l1
      | other y => rw [hq] at hm; cases hm; exact l3 m (cur_of_req hq)
  | resend _ _ _ _ _ e6 _ => exact absurd e6 (by simp only [World.once]; omega)
  | @attempt m0 m m' d n l0 inv e1 e2 e3 e4 e5 e6 e7 e8 =>
    have hbr : branchOf m' = some (w.ids n).branch := e6.branch.trans e5.branch
    refine ⟨by omega, ⟨l ++ [(d, m')], by rw [e1, hl, List.append_assoc], fun x hx => ?_, ?_⟩, fun hg => ?_⟩
    · rcases List.mem_append.1 hx with hx | hx
      · obtain ⟨k, k1, k2, k3⟩ := hb x hx
        exact ⟨k, k1, by omega, k3⟩
      · rw [List.mem_singleton.1 hx]
        exact ⟨n, by omega, e3, hbr⟩
    · refine List.pairwise_append.2 ⟨hp, List.pairwise_singleton _ _, fun x hx y hy => ?_⟩
      rw [List.mem_singleton.1 hy]
      obtain ⟨k, k1, k2, k3⟩ := hb x hx
      rw [k3]
      dsimp only
      rw [hbr]
      intro hc
      have := inj _ _ (Option.some.inj hc)
      omega
    · obtain ⟨k1, _, k⟩ := e8 hg
      rcases k with ⟨_, k0, k⟩ | ⟨_, k0, k⟩
      · refine ⟨by rw [k]; exact e7, by omega, fun m2 hm => ?_⟩
        rw [cur_of_invite k0, k] at hm; cases hm; exact e7
      · refine ⟨by rw [k]; exact l1, by omega, fun m2 hm => ?_⟩
        rw [cur_of_req k0] at hm; cases hm; exact e7

theorem anew_acts (w : World) (inj : ∀ a b, (w.ids a).branch = (w.ids b).branch → a = b) (s : St) (r : Run)
    (h : Anew w s ⟨s, .go⟩) (a : Acts w.once s r) : Anew w s r := by
  induction a with
  | refl c => exact ⟨h.tick, h.new, fun _ => h.live rfl⟩
  | snoc _ a ih => exact anew_act w inj s _ _ ih a

theorem anew_ends {w : World} {s : St} {r r' : Run} (h : Anew w s r) (e : Ends r r') : Anew w s r' := by
  cases e with
  | same => exact h
  | publish t c x c' =>
    obtain ⟨l, hl, hb⟩ := h.new
    exact ⟨h.tick, ⟨l, (own_transition t c).trans hl, hb⟩, fun _ => h.live rfl⟩

/-- An event sends requests with new branches only, or it is the timer of the request and the current request is
sent again. -/
theorem anew_step (w : World) (inj : ∀ a b, (w.ids a).branch = (w.ids b).branch → a = b) (s : St) (ev : Event)
    (hr : RspOK s) (h : Anew w s ⟨s, .go⟩) : Anew w s (step w s ev) ∨ (ev = .requestTimer ∧ s.requestTimer = true ∧
      s.requestResends < w.maxResends ∧ ∃ x m, own (step w s ev).s.outs = own s.outs ++ [x] ∧ s.cur = some m ∧
        branchOf x.2 = branchOf m) := by
  by_cases he : ev = .requestTimer
  · subst he
    obtain ⟨l1, l2, l3⟩ := h.live rfl
    simp only [step]
    split
    · rename_i ht
      have h' : Anew w s ⟨{ s with requestTimer := false }, .go⟩ := ⟨h.tick, h.new, fun _ => ⟨l1, l2, l3⟩⟩
      unfold resendRequest
      split
      · exact .inl h'
      · rename_i m hm
        have hm : s.cur = some m := hm
        split
        · rename_i hlt
          have a : Act w { s with requestTimer := false }
            ((sendCur w { s with requestTimer := false }).andThen fun s =>
              ⟨{ s with requestResends := s.requestResends + 1, requestTimer := true }, .go⟩) := .resend hlt
          rcases sendCur_sent w { s with requestTimer := false } m hm (l3 m hm) with
            ⟨e1, e2, e3⟩ | ⟨m', d, e1, e2, e3, e4, e5⟩
          · left
            have hx : ((sendCur w { s with requestTimer := false }).andThen fun s =>
              ⟨{ s with requestResends := s.requestResends + 1, requestTimer := true }, .go⟩) =
                sendCur w { s with requestTimer := false } := by
              unfold Run.andThen
              split
              · rename_i hc; exact absurd hc e2
              · rfl
              · rfl
              · rfl
            rw [hx]
            exact ⟨by rw [e3]; exact Nat.le_refl _, ⟨[], by rw [e1]; simp, by simp, .nil⟩, fun hg => absurd hg e2⟩
          · right
            refine ⟨trivial, ht, hlt, (d, m'), m, ?_, hm, e3.branch⟩
            have houts : ((sendCur w { s with requestTimer := false }).andThen fun s =>
              ⟨{ s with requestResends := s.requestResends + 1, requestTimer := true }, .go⟩).s.outs =
                (sendCur w { s with requestTimer := false }).s.outs := by
              unfold Run.andThen; split <;> rfl
            rw [houts]; exact e1
        · split
          · exact .inl ⟨h'.tick, h'.new, fun hc => nomatch hc⟩
          · left
            rw [← once_nextRoute]
            have hs : Acts w.once s ⟨{ s with requestTimer := false }, .go⟩ :=
              .one (.quiet (quiet_of_eq _ rfl rfl rfl rfl rfl (Nat.le_refl _) rfl rfl rfl))
            exact anew_acts w inj s _ h (hs.trans (acts_nextRoute w.once _))
    · exact .inl h
  · left
    obtain ⟨r0, a, e⟩ := did_once w s ev hr he
    exact anew_ends (anew_acts w inj s _ h a) e

theorem rsp_loop (w : World) (invite : Msg) (evs : List Event) : RspOK (loop w evs (start w invite)).s :=
  invariant (J := fun r => RspOK r.s) (w := w) invite (fun m hm => by cases hm) (fun _ _ h => h)
    (fun _ _ h a => rsp_act a h) (fun _ _ h e => rsp_ends e h) evs

/-! ### How often the current request has been sent -/

/-- The current request has been sent at least as often as the counter says. -/
def Counted (r : Run) : Prop := r.c = .go → isOwn r.s.invite = true ∧ ∀ m, r.s.cur = some m →
  isOwn m = true ∧ r.s.requestResends + 1 ≤ transmissions (branchOf m) r.s.outs

theorem counted_act (w : World) (s : St) (r : Run) (h : Counted ⟨s, .go⟩) (a : Act w s r) : Counted r := by
  obtain ⟨l1, l3⟩ := h rfl
  dsimp only at l1 l3
  intro hg
  cases effect_act w s r l1 (fun m hm => (l3 m hm).1) a with
  | quiet e1 e2 e3 =>
    obtain ⟨k1, k2, k3, _⟩ := e3 hg
    refine ⟨isOwn_core k1 l1, fun m hm => ?_⟩
    have hcur : ∃ m0, s.cur = some m0 ∧ Core m0 m := by
      unfold St.cur at hm ⊢
      rw [k2] at hm
      cases hq : s.req with
      | none => rw [hq] at hm; cases hm
      | invite => rw [hq] at hm; cases hm; exact ⟨s.invite, rfl, k1⟩
      | other y => rw [hq] at hm; cases hm; exact ⟨m, rfl, Core.refl _⟩
    obtain ⟨m0, hm0, hk⟩ := hcur
    obtain ⟨a1, a2⟩ := l3 m0 hm0
    rw [hk.branch, k3, transmissions_own e1]
    exact ⟨isOwn_core hk a1, a2⟩
  | @resend m m' d inv e1 e2 e3 e4 e5 e6 e7 =>
    have hcur : s.cur = some m := by
      rcases e5 with ⟨_, k, k2⟩ | ⟨_, k⟩
      · rw [k2]; exact cur_of_invite k
      · exact cur_of_req k
    obtain ⟨a1, a2⟩ := l3 m hcur
    obtain ⟨k1, _, k⟩ := e7 hg
    have hr : r.s.requestResends + 1 ≤ transmissions (branchOf m') r.s.outs := by
      rw [transmissions_snoc' e1, if_pos rfl, e3.branch, k1]; omega
    rcases k with ⟨_, k0, k⟩ | ⟨_, k0, k⟩
    · refine ⟨by rw [k]; exact e4, fun m2 hm => ?_⟩
      rw [cur_of_invite k0, k] at hm; cases hm; exact ⟨e4, hr⟩
    · refine ⟨by rw [k]; exact l1, fun m2 hm => ?_⟩
      rw [cur_of_req k0] at hm; cases hm; exact ⟨e4, hr⟩
  | @attempt m0 m m' d n l inv e1 e2 e3 e4 e5 e6 e7 e8 =>
    obtain ⟨k1, _, k⟩ := e8 hg
    have hr : r.s.requestResends + 1 ≤ transmissions (branchOf m') r.s.outs := by
      rw [transmissions_snoc' e1, if_pos rfl, k1]; omega
    rcases k with ⟨_, k0, k⟩ | ⟨_, k0, k⟩
    · refine ⟨by rw [k]; exact e7, fun m2 hm => ?_⟩
      rw [cur_of_invite k0, k] at hm; cases hm; exact ⟨e7, hr⟩
    · refine ⟨by rw [k]; exact l1, fun m2 hm => ?_⟩
      rw [cur_of_req k0] at hm; cases hm; exact ⟨e7, hr⟩

theorem counted_ends (r r' : Run) (h : Counted r) (e : Ends r r') : Counted r' := by
  cases e with
  | same => exact h
  | publish t c x c' =>
    obtain ⟨l1, l3⟩ := h rfl
    refine fun _ => ⟨l1, fun m hm => ?_⟩
    obtain ⟨a1, a2⟩ := l3 m hm
    refine ⟨a1, ?_⟩
    show _ ≤ ((transmissions (branchOf m) (transition t c).outs : Nat) : Int)
    rw [transmissions_own (own_transition t c)]; exact a2

theorem counted_loop (w : World) (invite : Msg) (evs : List Event) (hi : isOwn invite = true) :
    Counted (loop w evs (start w invite)) :=
  invariant (J := Counted) invite (fun _ => ⟨hi, fun m hm => by simp [St.cur] at hm⟩) (fun _ _ h _ => h rfl)
    (counted_act w) counted_ends evs

end Gosip.Dialog
