import Verif.Dialog.Acts
import Verif.Spec.Report

/-!
# The media addresses a dialog reports
-/

namespace Gosip.Dialog
open Sip Spec

/-- No media address is reported between the two states. -/
def Mute (s t : St) : Prop := peers t.outs = peers s.outs

theorem peers_append (a b : List Out) : peers (a ++ b) = peers a ++ peers b := by
  simp [peers, List.filterMap_append]

theorem Mute.refl (s : St) : Mute s s := rfl

theorem Mute.trans {a b c : St} (h : Mute a b) (k : Mute b c) : Mute a c := by
  unfold Mute at *; rw [k, h]

theorem mute_eq {s t : St} (h : t.outs = s.outs) : Mute s t := congrArg peers h

theorem mute_fail (s : St) (e : DErr) : Mute s (s.fail e).s := by
  show peers (s.outs ++ [.err e]) = _
  rw [peers_append]; simp [peers]

theorem mute_andThen {s : St} {r : Run} {f : St → Run} (h : Mute s r.s) (k : ∀ t, Mute t (f t).s) :
    Mute s (r.andThen f).s := by
  obtain ⟨t, c⟩ := r
  cases c
  · exact h.trans (k t)
  all_goals exact h

theorem mute_send (w : World) (s : St) (m : Msg) : Mute s (send w s m).1.s := by
  have h := send_res w s m
  generalize send w s m = x at h ⊢
  cases h with
  | loop => exact mute_fail s _
  | crash => rfl
  | sent x =>
    show peers (s.outs ++ [_]) = _
    rw [peers_append]; simp [peers]
  | broken x e =>
    show peers ((s.outs ++ [_]) ++ [_]) = _
    rw [peers_append, peers_append]; simp [peers]

theorem mute_setCur (s : St) (m : Msg) : Mute s (s.setCur m) := by
  unfold St.setCur; split <;> rfl

theorem mute_sendCur (w : World) (s : St) : Mute s (sendCur w s).s := by
  unfold sendCur
  split
  · rfl
  · exact (mute_send w s _).trans (mute_setCur _ _)

theorem mute_sendRsp (w : World) (s : St) : Mute s (sendRsp w s).s := by
  unfold sendRsp
  split
  · rfl
  · exact mute_send w s _

theorem mute_sendCancel (w : World) (s : St) : Mute s (sendCancel w s).s := mute_send w s _

theorem mute_connect (w : World) (s : St) : Mute s (connect w s).1 := by
  have hd : peers (s.outs ++ [.dial s.addr]) = peers s.outs := by rw [peers_append]; simp [peers]
  unfold connect
  split
  · rfl
  · dsimp only
    split
    · exact hd
    · unfold connectLoose
      split
      · split <;> exact hd
      · exact hd

theorem mute_newAttempt (s : St) (m : Msg) : Mute s (newAttempt s m) := by
  refine (mute_setCur s m).trans ?_
  unfold newAttempt
  dsimp only
  split <;> rfl

theorem mute_attempt (w : World) (s : St) : Mute s (attempt w s).s := by
  unfold attempt
  split
  · split
    · refine Mute.trans ?_ (mute_sendCur w _)
      exact Mute.trans (mute_eq (t := { s with tick := s.tick + 1 }) rfl) (mute_newAttempt _ _)
    · rfl
  · rfl

theorem mute_popRoutes (w : World) (l : List Bytes) (s : St) : Mute s (popRoutes w l s).s := by
  induction l generalizing s with
  | nil => exact mute_fail { s with routes := [] } _
  | cons a l ih =>
    simp only [popRoutes]
    have h := mute_connect w { s with addr := a, routes := l }
    split
    · rfl
    · split
      · exact Mute.trans (a := s) h (mute_attempt w _)
      · exact Mute.trans (a := s) h (ih _)

theorem mute_sendTowards (w : World) (s : St) (q : Req) (hop : Res Err (Bytes × UInt16)) :
    Mute s (sendTowards w s q hop).s := by
  unfold sendTowards
  split
  · rfl
  · exact mute_fail s _
  · split
    · rfl
    · exact mute_fail { s with tick := s.tick + 1 } _
    · exact mute_popRoutes w _ { s with req := _, routes := _, dest := _, tick := _ }

theorem mute_sendInvite (w : World) (s : St) : Mute s (sendInvite w s).s := mute_sendTowards w _ _ _

theorem mute_ackFinal (w : World) (s : St) (m cur : Msg) : Mute s (ackFinal w s m cur).s := by
  unfold ackFinal
  split
  · split
    · exact mute_fail s _
    · split
      · exact mute_send w s _
      · rfl
  · rfl

theorem mute_redirect (w : World) (s : St) (m : Msg) : Mute s (redirect w s m).s := by
  unfold redirect
  split
  · exact mute_sendInvite w { s with invite := _ }
  · rfl

theorem mute_transition (s : St) (c : CallState) : Mute s (transition s c) := by
  show peers (s.outs ++ [_]) = _
  rw [peers_append]; simp [peers]

theorem mute_handleOK (s : St) (m : Msg) : Mute s (handleOK s m).s := by
  unfold handleOK
  split
  · dsimp only
    split
    · exact mute_transition s _
    · rfl
  · split
    · exact mute_transition s _
    · rfl

theorem mute_handleStatus (w : World) (s : St) (m : Msg) : Mute s (handleStatus w s m).s := by
  unfold handleStatus
  split
  · exact mute_transition s _
  split
  · exact mute_transition s _
  split
  · exact mute_handleOK s m
  split
  · split
    · exact mute_popRoutes w _ s
    · exact mute_fail s _
  split
  · exact mute_redirect w s m
  split
  · exact mute_fail s _
  · rfl

theorem mute_resendRequest (w : World) (s : St) : Mute s (resendRequest w s).s := by
  unfold resendRequest
  split
  · rfl
  split
  · exact mute_andThen (mute_sendCur w s) fun t => rfl
  · split
    · rfl
    · exact mute_popRoutes w _ s

theorem mute_resendResponse (w : World) (s : St) : Mute s (resendResponse w s).s := by
  unfold resendResponse
  split
  · rfl
  split
  · exact mute_andThen (mute_sendRsp w s) fun t => rfl
  · split
    · rfl
    · exact mute_popRoutes w _ s

theorem mute_sendHangup (w : World) (s : St) : Mute s (sendHangup w s).s := by
  unfold sendHangup
  split
  · exact mute_sendCancel w s
  · exact mute_sendCancel w s
  · split
    · rfl
    · split
      · exact mute_sendTowards w { s with lseq := _ } _ _
      · rfl
  · rfl

/-- What one event adds: nothing, or what it offers. -/
def Adds (s t : St) (l : List (Bytes × UInt16)) : Prop := Mute s t ∨ peers t.outs = peers s.outs ++ l

theorem Adds.via {a b c : St} {l : List (Bytes × UInt16)} (h : Mute a b) (k : Adds b c l) : Adds a c l := by
  rcases k with k | k
  · exact .inl (h.trans k)
  · exact .inr (by rw [k, h])

theorem Adds.then {a b c : St} {l : List (Bytes × UInt16)} (h : Adds a b l) (k : Mute b c) : Adds a c l := by
  rcases h with h | h
  · exact .inl (h.trans k)
  · exact .inr ((show peers c.outs = peers b.outs from k).trans h)

theorem adds_checkSDP (s : St) (m : Msg) : Adds s (checkSDP s m).s (mediaOf m) := by
  unfold checkSDP
  split
  · split
    · right
      rename_i d hd _ a ha
      show peers (s.outs ++ [.peer _ _]) = _
      rw [peers_append]
      simp [peers, mediaOf, hd, ha]
    · exact .inl rfl
  · exact .inl rfl

theorem adds_andThen {s : St} {r : Run} {f : St → Run} {l : List (Bytes × UInt16)} (h : Adds s r.s l)
    (k : ∀ t, Mute t (f t).s) : Adds s (r.andThen f).s l := by
  obtain ⟨t, c⟩ := r
  cases c
  · exact h.then (k t)
  all_goals exact h

theorem adds_handleResponse (w : World) (s : St) (m : Msg) :
    Adds s (handleResponse w s m).s (if m.status ≤ 200 then mediaOf m else []) := by
  unfold handleResponse
  split
  · exact .inl rfl
  · split
    · refine adds_andThen ?_ fun t => mute_handleStatus w t m
      have h := mute_ackFinal w s m (by assumption)
      generalize ackFinal w s m _ = r at h
      obtain ⟨t, c⟩ := r
      cases c
      · refine Adds.via h ?_
        show Adds t (settle t m).s _
        unfold settle
        dsimp only
        split
        · exact adds_checkSDP { t with routes := [], requestTimer := false } m
        · exact .inl rfl
      all_goals exact .inl h
    · exact .inl rfl

theorem adds_handleRequest (w : World) (s : St) (m : Msg) :
    Adds s (handleRequest w s m).s (if m.method = b!"INVITE" then mediaOf m else []) := by
  unfold handleRequest
  split
  · exact .inl (mute_andThen (mute_send w s _) fun t => mute_fail t _)
  split
  · exact .inl (mute_send w s _)
  · unfold handleMethod
    split
    · exact .inl (mute_andThen (mute_send w { s with rseq := m.cseq } _) fun t => mute_transition t _)
    split
    · exact .inl (mute_send w { s with rseq := m.cseq } _)
    split
    · refine adds_andThen (adds_checkSDP { s with rseq := m.cseq, remote := some m } m) fun t => ?_
      exact mute_sendRsp w { t with response := _, responseResends := _, responseTimer := _ }
    split
    · exact .inl rfl
    · exact .inl (mute_send w { s with rseq := m.cseq } _)

/-- One event adds what it offers at most. -/
theorem adds_step (w : World) (s : St) (e : Event) {cur : Msg} (hc : s.cur = some cur) :
    Adds s (step w s e).s (offered cur.callID e) := by
  cases e with
  | sockErr r n =>
    simp only [step]
    split
    · exact .inl rfl
    split
    · exact .inl rfl
    · exact .inl (mute_fail { s with sock := none } _)
  | csockErr n =>
    simp only [step]
    split
    · exact .inl rfl
    · exact .inl (mute_fail { s with csock := none } _)
  | requestTimer =>
    simp only [step]
    split
    · exact .inl (mute_resendRequest w { s with requestTimer := false })
    · exact .inl rfl
  | responseTimer =>
    simp only [step]
    split
    · exact .inl (mute_resendResponse w { s with responseTimer := false })
    · exact .inl rfl
  | hangup => exact .inl (mute_sendHangup w s)
  | msg m =>
    simp only [step]
    split
    · exact .inl rfl
    · unfold handleMessage
      simp only [hc]
      split
      · exact .inl (mute_andThen (mute_send w s _) fun t => mute_fail t _)
      · rename_i hver
        have hver : m.versionMajor = 2 ∧ m.versionMinor = 0 := by
          constructor
          · exact Decidable.by_contra fun h => hver (.inl h)
          · exact Decidable.by_contra fun h => hver (.inr h)
        split
        · exact .inl (mute_send w s _)
        · rename_i hid
          have hid : m.callID = cur.callID := Decidable.not_not.1 hid
          split
          · rename_i hr
            have hr : 0 < m.status := by simpa [Msg.isResponse] using hr
            have h := adds_handleResponse w s m
            simp only [offered, hver, hid, true_and, and_self]
            by_cases h2 : m.status ≤ 200
            · rw [if_pos h2] at h
              rw [if_pos (.inl ⟨hr, h2⟩)]; exact h
            · rw [if_neg h2] at h
              rw [if_neg (by omega)]; exact h
          · rename_i hr
            have hr : m.status ≤ 0 := by simp [Msg.isResponse] at hr; omega
            have h := adds_handleRequest w s m
            simp only [offered, hver, hid, true_and, and_self]
            by_cases h2 : m.method = b!"INVITE"
            · rw [if_pos h2] at h
              rw [if_pos (.inr ⟨hr, h2⟩)]; exact h
            · rw [if_neg h2] at h
              rw [if_neg (by
                rintro (⟨h3, _⟩ | ⟨_, h3⟩)
                · omega
                · exact h2 h3)]
              exact h

end Gosip.Dialog
