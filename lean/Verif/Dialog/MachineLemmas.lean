import Verif.Spec.Call

/-!
# Frame lemmas for the dialog machine
-/

namespace Gosip.Dialog
open Sip Spec

/-- What sending and connecting may change, as far as the call state is concerned. -/
structure Net (s s' : St) : Prop where
  state : s'.state = s.state
  memory : (s'.remote = s.remote ∧ s'.rseq = s.rseq) ∨ (s.state.rank < 2 ∧ s'.remote = none ∧ s'.rseq = 0)
  outs : ∃ new, s'.outs = s.outs ++ new ∧ published new = []

theorem Net.remote {s s' : St} (h : Net s s') :
    s'.remote = s.remote ∨ (s.state.rank < 2 ∧ s'.remote = none) := by
  rcases h.memory with h | h
  · exact .inl h.1
  · exact .inr ⟨h.1, h.2.1⟩

theorem Net.refl (s : St) : Net s s := ⟨rfl, .inl ⟨rfl, rfl⟩, [], by simp, rfl⟩

theorem Net.trans {a b c : St} (h : Net a b) (k : Net b c) : Net a c := by
  obtain ⟨n, hn, hp⟩ := h.outs
  obtain ⟨n', hn', hp'⟩ := k.outs
  refine ⟨k.state.trans h.state, ?_, n ++ n', by simp [hn', hn], ?_⟩
  · rcases k.memory with k1 | k1
    · rw [k1.1, k1.2]; exact h.memory
    · rw [h.state] at k1; exact .inr k1
  · simp only [published, List.filterMap_append] at *
    simp [hp, hp']

/-- Fields that do not matter for `Net`. -/
theorem Net.of_eq {s s' : St} (h1 : s'.state = s.state) (h2 : s'.remote = s.remote) (h3 : s'.outs = s.outs)
    (h4 : s'.rseq = s.rseq := by rfl) : Net s s' := ⟨h1, .inl ⟨h2, h4⟩, [], by simp [h3], rfl⟩

/-- A quiet change before. -/
theorem Net.via {s t s' : St} (k : Net t s') (h1 : t.state = s.state) (h2 : t.remote = s.remote)
    (h3 : t.outs = s.outs) (h4 : t.rseq = s.rseq := by rfl) : Net s s' := (Net.of_eq h1 h2 h3 h4).trans k

theorem Net.out {s s' : St} (o : Out) (h1 : s'.state = s.state) (h2 : s'.remote = s.remote)
    (h3 : s'.outs = s.outs ++ [o]) (ho : published [o] = []) (h4 : s'.rseq = s.rseq := by rfl) : Net s s' :=
  ⟨h1, .inl ⟨h2, h4⟩, [o], h3, ho⟩

theorem net_fail (s : St) (e : DErr) : Net s (s.fail e).s := Net.out (.err e) rfl rfl rfl rfl

theorem net_andThen {s : St} {r : Run} {f : St → Run} (h : Net s r.s) (hf : ∀ t, Net s t → Net s (f t).s) :
    Net s (r.andThen f).s := by
  unfold Run.andThen
  split
  · exact hf _ h
  · exact h
  · exact h
  · exact h

theorem net_setCur (s : St) (m : Msg) : Net s (s.setCur m) := by
  unfold St.setCur; split <;> exact Net.of_eq rfl rfl rfl

theorem net_writeMsg (w : World) (s : St) (m : Msg) : Net s (writeMsg w s m).1.s := by
  unfold writeMsg
  split
  · dsimp only
    split
    · exact Net.out _ rfl rfl rfl rfl
    · refine Net.trans ?_ (net_fail _ _)
      exact Net.out _ rfl rfl rfl rfl
  · exact Net.refl s

theorem net_send (w : World) (s : St) (m : Msg) : Net s (send w s m).1.s := by
  unfold send
  split
  · exact net_fail _ _
  · exact net_writeMsg w s _

theorem net_sendNew (w : World) (s : St) (m : Msg) : Net s (sendNew w s m).s := net_send w s m

theorem net_sendCur (w : World) (s : St) : Net s (sendCur w s).s := by
  unfold sendCur
  split
  · exact Net.refl s
  · exact (net_send w s _).trans (net_setCur _ _)

theorem net_sendRsp (w : World) (s : St) : Net s (sendRsp w s).s := by
  unfold sendRsp
  split
  · exact Net.refl s
  · exact (net_send w s _).trans (Net.of_eq rfl rfl rfl)

theorem net_sendCancel (w : World) (s : St) : Net s (sendCancel w s).s :=
  (net_send w s _).trans (Net.of_eq rfl rfl rfl)

theorem net_connectLoose (w : World) (s : St) : Net s (connectLoose w s).1 := by
  unfold connectLoose
  split
  · split <;> exact Net.of_eq rfl rfl rfl
  · exact Net.refl s

theorem net_connect (w : World) (s : St) : Net s (connect w s).1 := by
  unfold connect
  split
  · exact Net.refl s
  · dsimp only
    split
    · exact Net.out (.dial _) rfl rfl rfl rfl
    · refine Net.trans ?_ (net_connectLoose w _)
      exact Net.out _ rfl rfl rfl rfl

theorem net_newAttempt (s : St) (m : Msg) : Net s (newAttempt s m) := by
  have h1 := net_setCur s m
  unfold newAttempt
  dsimp only
  split
  · rename_i h
    exact h1.trans ⟨rfl, .inr ⟨h, rfl, rfl⟩, [], by simp, rfl⟩
  · exact h1.trans (Net.of_eq rfl rfl rfl)

theorem net_attempt (w : World) (s : St) : Net s (attempt w s).s := by
  unfold attempt
  split
  · split
    · exact Net.via ((net_newAttempt _ _).trans (net_sendCur w _)) rfl rfl rfl
    · exact Net.refl s
  · exact Net.refl s

theorem net_popRoutes (w : World) (l : List Bytes) (s : St) : Net s (popRoutes w l s).s := by
  induction l generalizing s with
  | nil =>
    simp only [popRoutes]
    exact Net.via (net_fail _ _) rfl rfl rfl
  | cons a l ih =>
    simp only [popRoutes]
    have h : Net s (connect w { s with addr := a, routes := l }).1 := Net.via (net_connect w _) rfl rfl rfl
    split
    · exact Net.of_eq rfl rfl rfl
    split
    · exact h.trans (net_attempt w _)
    · exact h.trans (ih _)

theorem net_nextRoute (w : World) (s : St) : Net s (nextRoute w s).s := net_popRoutes w _ s

theorem net_sendTowards (w : World) (s : St) (q : Req) (hop) : Net s (sendTowards w s q hop).s := by
  unfold sendTowards
  split
  · exact Net.refl s
  · exact net_fail _ _
  · split
    · exact Net.refl s
    · exact Net.via (net_fail _ _) rfl rfl rfl
    · exact Net.via (net_nextRoute w _) rfl rfl rfl

theorem net_sendInvite (w : World) (s : St) : Net s (sendInvite w s).s :=
  Net.via (net_sendTowards w _ _ _) rfl rfl rfl

theorem net_sendOther (w : World) (s : St) (m : Msg) : Net s (sendOther w s m).s := net_sendTowards w _ _ _

theorem net_checkSDP (s : St) (m : Msg) : Net s (checkSDP s m).s := by
  unfold checkSDP
  split
  · split
    · exact Net.out (.peer _ _) rfl rfl rfl rfl
    · exact Net.refl s
  · exact Net.refl s

theorem net_ackFinal (w : World) (s : St) (m cur : Msg) : Net s (ackFinal w s m cur).s := by
  unfold ackFinal
  split
  · split
    · exact net_fail _ _
    · split
      · exact net_sendNew w s _
      · exact Net.refl s
  · exact Net.refl s

theorem net_redirect (w : World) (s : St) (m : Msg) : Net s (redirect w s m).s := by
  unfold redirect
  split
  · exact Net.via (net_sendInvite w _) rfl rfl rfl
  · exact Net.refl s

theorem net_settle (s : St) (m : Msg) : Net s (settle s m).s := by
  unfold settle
  dsimp only
  split
  · exact Net.via (net_checkSDP _ _) rfl rfl rfl
  · exact Net.of_eq rfl rfl rfl

theorem net_sendResponse (w : World) (s : St) (m : Msg) : Net s (sendResponse w s m).s :=
  Net.via (net_sendRsp w _) rfl rfl rfl

theorem net_resendRequest (w : World) (s : St) : Net s (resendRequest w s).s := by
  unfold resendRequest
  split
  · exact Net.refl s
  · split
    · exact net_andThen (net_sendCur w s) fun t ht => ht.trans (Net.of_eq rfl rfl rfl)
    · split
      · exact Net.refl s
      · exact net_nextRoute w s

theorem net_resendResponse (w : World) (s : St) : Net s (resendResponse w s).s := by
  unfold resendResponse
  split
  · exact Net.refl s
  · split
    · exact net_andThen (net_sendRsp w s) fun t ht => ht.trans (Net.of_eq rfl rfl rfl)
    · split
      · exact Net.refl s
      · exact net_nextRoute w s

theorem net_sendHangup (w : World) (s : St) : Net s (sendHangup w s).s := by
  unfold sendHangup
  split
  · exact net_sendCancel w s
  · exact net_sendCancel w s
  · split
    · exact Net.refl s
    · split
      · exact Net.via (net_sendOther w _ _) rfl rfl rfl
      · exact Net.refl s
  · exact Net.refl s

/-- The loop over a longer history. -/
theorem loop_append (w : World) (a b : List Event) (r : Run) : loop w (a ++ b) r = loop w b (loop w a r) := by
  induction a generalizing r with
  | nil => rfl
  | cons e a ih => simp only [List.cons_append, loop]; exact ih _

theorem loop_snoc (w : World) (a : List Event) (e : Event) (r : Run) :
    loop w (a ++ [e]) r = (loop w a r).andThen fun s => step w s e := by
  rw [loop_append]; rfl

/-- After the end nothing happens. -/
theorem loop_stop {w : World} (evs : List Event) : ∀ r : Run, r.c = .stop → loop w evs r = r := by
  induction evs with
  | nil => intro r _; rfl
  | cons e evs ih =>
    intro r hr
    unfold loop
    rw [show (r.andThen fun s => step w s e) = r by unfold Run.andThen; rw [hr]]
    exact ih r hr

/-- After a deadlock nothing happens. -/
theorem loop_stuck {w : World} (evs : List Event) : ∀ r : Run, r.c = .stuck → loop w evs r = r := by
  induction evs with
  | nil => intro r _; rfl
  | cons e evs ih =>
    intro r hr
    unfold loop
    rw [show (r.andThen fun s => step w s e) = r by unfold Run.andThen; rw [hr]]
    exact ih r hr

/-- The clean-up closes the channels, or waits for ever. -/
theorem cleanup_cases (w : World) (s : St) :
    ((cleanup w s).c = .stuck ∧ (cleanup w s).s.outs = s.outs) ∨
    ((cleanup w s).c = .stop ∧ (cleanup w s).s.outs = s.outs ++ [.closed]) := by
  unfold cleanup
  split
  · exact .inl ⟨rfl, rfl⟩
  · split
    · exact .inl ⟨rfl, rfl⟩
    · exact .inr ⟨rfl, rfl⟩

end Gosip.Dialog
