import Verif.Dialog.Silent

/-!
# A request whose Max-Forwards is used up
-/

namespace Gosip.Dialog
open Sip Spec

/-- The call is over; nothing was sent, and only a loop or a failure was reported. -/
structure GaveUp (s : St) (r : Run) : Prop where
  sent : sends r.s.outs = sends s.outs
  over : r.c ≠ .go
  errs : ∀ e ∈ errors r.s.outs, e ∈ errors s.outs ∨ e = .localLoop ∨ ∃ d, e = .failed d

theorem gaveUp_fail {s t : St} {e : DErr} (hs : sends t.outs = sends s.outs) (he : errors t.outs = errors s.outs)
    (h : e = .localLoop ∨ ∃ d, e = .failed d) : GaveUp s (t.fail e) := by
  refine ⟨?_, (fun h => nomatch h), ?_⟩
  · show sends (t.outs ++ [_]) = _
    rw [sends_append, hs]; simp [sends]
  · intro x hx
    have hx : x ∈ errors (t.outs ++ [.err e]) := hx
    rw [errors_append, he] at hx
    rcases List.mem_append.1 hx with hx | hx
    · exact .inl hx
    · simp [errors] at hx
      exact .inr (hx ▸ h)

theorem outs_setCur (s : St) (m : Msg) : (s.setCur m).outs = s.outs := by
  unfold St.setCur; split <;> rfl

theorem gaveUp_sendCur {w : World} {s t : St} {m : Msg} (hm : t.cur = some m) (hf : m.maxForwards = 1)
    (hs : sends t.outs = sends s.outs) (he : errors t.outs = errors s.outs) : GaveUp s (sendCur w t) := by
  have h := gaveUp_fail (e := .localLoop) hs he (.inl rfl)
  unfold sendCur
  rw [hm]
  unfold send
  dsimp only
  rw [if_pos hf]
  refine ⟨?_, (fun h => nomatch h), ?_⟩
  · show sends ((t.fail .localLoop).s.setCur _).outs = _
    rw [outs_setCur]; exact h.sent
  · show ∀ e ∈ errors ((t.fail .localLoop).s.setCur _).outs, _
    rw [outs_setCur]; exact h.errs

theorem connect_quiet (w : World) (s : St) :
    sends (connect w s).1.outs = sends s.outs ∧ errors (connect w s).1.outs = errors s.outs := by
  have hd : ∀ a, sends (s.outs ++ [.dial a]) = sends s.outs ∧ errors (s.outs ++ [.dial a]) = errors s.outs := by
    intro a
    rw [sends_append, errors_append]; simp [sends, errors]
  unfold connect
  split
  · exact ⟨rfl, rfl⟩
  · dsimp only
    split
    · exact hd _
    · unfold connectLoose
      split
      · split <;> exact hd _
      · exact hd _

theorem gaveUp_popRoutes {w : World} {s : St} (l : List Bytes) (t : St) (m : Msg) (hm : t.cur = some m)
    (hr : m.isResponse = false) (hf : m.maxForwards = 1) (hs : sends t.outs = sends s.outs)
    (he : errors t.outs = errors s.outs) : GaveUp s (popRoutes w l t) := by
  induction l generalizing t with
  | nil => exact gaveUp_fail (t := { t with routes := [] }) hs he (.inr ⟨_, rfl⟩)
  | cons a rest ih =>
    unfold popRoutes
    split
    · exact ⟨hs, (fun h => nomatch h), fun e h => .inl (by rw [← he]; exact h)⟩
    · obtain ⟨q1, q2⟩ := connect_quiet w { t with addr := a, routes := rest }
      obtain ⟨x, y, n, o, hx⟩ := connect_frame w { t with addr := a, routes := rest }
      have hc : (connect w { t with addr := a, routes := rest }).1.cur = some m := by
        rw [hx]; exact hm
      generalize connect w { t with addr := a, routes := rest } = r at q1 q2 hc
      dsimp only
      split
      · unfold attempt
        split
        · rename_i c m1 h1 h2
          rw [hc] at h2
          cases h2
          split
          · rename_i m2 hp
            have hpop := populate_spec hr hp
            have hf2 : m2.maxForwards = 1 := by rw [hpop.forwards, if_neg (by omega), hf]
            have hout : (newAttempt { r.1 with tick := r.1.tick + 1 } m2).outs = r.1.outs := by
              unfold newAttempt
              dsimp only
              split <;> exact outs_setCur _ _
            refine gaveUp_sendCur (m := m2) ?_ hf2 ?_ ?_
            · have hq : (({ r.1 with tick := r.1.tick + 1 } : St).setCur m2).cur = some m2 := cur_setCur (m0 := m) hc
              unfold newAttempt
              dsimp only
              split <;> exact hq
            · rw [hout]; exact q1.trans hs
            · rw [hout]; exact q2.trans he
          · exact ⟨q1.trans hs, (fun h => nomatch h), fun e h => .inl (by rw [← he, ← q2]; exact h)⟩
        · exact ⟨q1.trans hs, (fun h => nomatch h), fun e h => .inl (by rw [← he, ← q2]; exact h)⟩
      · exact ih r.1 hc (q1.trans hs) (q2.trans he)

/-- When its time is up, a request that must not be forwarded any more is not sent anywhere. -/
theorem gaveUp_timer {w : World} {s : St} {m : Msg} (hm : s.cur = some m) (hr : m.isResponse = false)
    (hf : m.maxForwards = 1) : step w s .requestTimer = ⟨s, .go⟩ ∨ GaveUp s (step w s .requestTimer) := by
  show (if s.requestTimer then resendRequest w { s with requestTimer := false } else ⟨s, .go⟩) = _ ∨
    GaveUp s (if s.requestTimer then resendRequest w { s with requestTimer := false } else ⟨s, .go⟩)
  split
  · right
    unfold resendRequest
    have hm' : ({ s with requestTimer := false } : St).cur = some m := hm
    rw [hm']
    dsimp only
    split
    · have h := gaveUp_sendCur (w := w) (s := s) hm' hf rfl rfl
      have e : (sendCur w { s with requestTimer := false }).andThen (fun s =>
          ⟨{ s with requestResends := s.requestResends + 1, requestTimer := true }, .go⟩) =
          sendCur w { s with requestTimer := false } := by
        unfold Run.andThen
        split
        · rename_i hg; exact absurd hg h.over
        all_goals rfl
      rw [e]
      exact h
    · split
      · exact ⟨rfl, (fun h => nomatch h), fun e h => .inl h⟩
      · exact gaveUp_popRoutes _ _ m hm' hr hf rfl rfl
  · exact .inl rfl

end Gosip.Dialog
