import Verif.Dialog.Final

/-!
# How the dialog ends
-/

namespace Gosip.Dialog
open Sip Spec

/-- There is no end in this list, and the channels are not closed. -/
def NoEnd (l : List Out) : Prop := ∀ o ∈ l, IsEnd o = false ∧ o ≠ .closed

theorem NoEnd.append {a b : List Out} (h : NoEnd a) (k : NoEnd b) : NoEnd (a ++ b) := by
  intro o ho
  rcases List.mem_append.1 ho with ho | ho
  · exact h o ho
  · exact k o ho

/-- A handler stops exactly when it has told the application why, which is the last thing it does. -/
def Tells (s : St) (r : Run) : Prop :=
  (r.c ≠ .stop ∧ ∃ l, r.s.outs = s.outs ++ l ∧ NoEnd l) ∨
  (r.c = .stop ∧ ∃ l o, r.s.outs = s.outs ++ l ++ [o] ∧ NoEnd l ∧ IsEnd o = true)

theorem tells_go {s t : St} {c : Cont} (hc : c ≠ .stop) (h : t.outs = s.outs) : Tells s ⟨t, c⟩ :=
  .inl ⟨hc, [], by simp [h], by simp [NoEnd]⟩

theorem tells_refl (s : St) (c : Cont) (hc : c ≠ .stop) : Tells s ⟨s, c⟩ := tells_go hc rfl

theorem tells_fail (s : St) (e : DErr) : Tells s (s.fail e) :=
  .inr ⟨rfl, [], .err e, by simp [St.fail, St.out], by simp [NoEnd], rfl⟩

theorem Tells.trans {s t : St} {r : Run} (h : Tells s ⟨t, .go⟩) (k : Tells t r) : Tells s r := by
  rcases h with ⟨_, l, h1, h2⟩ | ⟨h, _⟩
  · dsimp only at h1
    rcases k with ⟨k0, l', k1, k2⟩ | ⟨k0, l', o, k1, k2, k3⟩
    · exact .inl ⟨k0, l ++ l', by rw [k1, h1, List.append_assoc], h2.append k2⟩
    · exact .inr ⟨k0, l ++ l', o, by rw [k1, h1]; simp, h2.append k2, k3⟩
  · cases h

/-- Changes that do not show before. -/
theorem Tells.via {s t : St} {r : Run} (k : Tells t r) (h : t.outs = s.outs := by rfl) : Tells s r :=
  (tells_go (by simp) h : Tells s ⟨t, .go⟩).trans k

theorem Tells.andThen {s : St} {r : Run} {f : St → Run} (h : Tells s r) (k : ∀ t, Tells t (f t)) :
    Tells s (r.andThen f) := by
  obtain ⟨t, c⟩ := r
  cases c with
  | go => exact h.trans (k t)
  | stop => exact h
  | crash => exact h
  | stuck => exact h

/-- Changes that do not show afterwards. -/
theorem Tells.then {s : St} {r : Run} {t : St} (h : Tells s r) (ht : t.outs = r.s.outs) : Tells s ⟨t, r.c⟩ := by
  unfold Tells at h ⊢
  dsimp only
  rw [ht]
  exact h

theorem tells_send (w : World) (s : St) (m : Msg) : Tells s (send w s m).1 := by
  have h := send_res w s m
  generalize send w s m = x at h ⊢
  cases h with
  | loop => exact tells_fail s _
  | crash => exact tells_refl s _ (by simp)
  | sent x => exact .inl ⟨by simp, [_], rfl, by simp [NoEnd, IsEnd]⟩
  | broken x e => exact .inr ⟨rfl, [_], .err (.net e), rfl, by simp [NoEnd, IsEnd], rfl⟩

theorem tells_sendNew (w : World) (s : St) (m : Msg) : Tells s (sendNew w s m) := tells_send w s m

theorem tells_sendCur (w : World) (s : St) : Tells s (sendCur w s) := by
  unfold sendCur
  split
  · exact tells_refl s _ (by simp)
  · exact (tells_send w s _).then (setCur_frame _ _).1

theorem tells_sendRsp (w : World) (s : St) : Tells s (sendRsp w s) := by
  unfold sendRsp
  split
  · exact tells_refl s _ (by simp)
  · exact (tells_send w s _).then rfl

theorem tells_sendCancel (w : World) (s : St) : Tells s (sendCancel w s) := (tells_send w s _).then rfl

theorem newAttempt_outs (s : St) (m : Msg) : (newAttempt s m).outs = s.outs := (newAttempt_frame s m).1

theorem tells_attempt (w : World) (s : St) : Tells s (attempt w s) := by
  unfold attempt
  split
  · split
    · exact (tells_sendCur w _).via (newAttempt_outs _ _)
    · exact tells_refl s _ (by simp)
  · exact tells_refl s _ (by simp)

theorem connectLoose_outs (w : World) (s : St) : (connectLoose w s).1.outs = s.outs := by
  unfold connectLoose
  split
  · split <;> rfl
  · rfl

theorem tells_connect (w : World) (s : St) : Tells s ⟨(connect w s).1, .go⟩ := by
  unfold connect
  split
  · exact tells_refl s _ (by simp)
  · dsimp only
    split
    · exact .inl ⟨by simp, [.dial s.addr], rfl, by simp [NoEnd, IsEnd]⟩
    · exact .inl ⟨by simp, [.dial s.addr], connectLoose_outs w _, by simp [NoEnd, IsEnd]⟩

theorem tells_popRoutes (w : World) (l : List Bytes) : ∀ s, Tells s (popRoutes w l s) := by
  induction l with
  | nil => intro s; exact (tells_fail _ _).via
  | cons a l ih =>
    intro s
    have h := (tells_connect w { s with addr := a, routes := l }).via (s := s)
    unfold popRoutes
    dsimp only
    split
    · exact tells_refl s _ (by simp)
    split
    · exact h.trans (tells_attempt w _)
    · exact h.trans (ih _)

theorem tells_towards (w : World) (s : St) (q : Req) (hop : Res Err (Bytes × UInt16)) : Tells s (sendTowards w s q hop) := by
  unfold sendTowards
  split
  · exact tells_refl s _ (by simp)
  · exact tells_fail s _
  · split
    · exact tells_refl s _ (by simp)
    · exact (tells_fail _ _).via
    · exact (tells_popRoutes w _ _).via

theorem tells_sendInvite (w : World) (s : St) : Tells s (sendInvite w s) := (tells_towards w _ _ _).via

theorem tells_sendOther (w : World) (s : St) (m : Msg) : Tells s (sendOther w s m) := tells_towards w _ _ _

theorem tells_transition (s : St) (c : CallState) (h : c ≠ .hangup) : Tells s ⟨transition s c, .go⟩ :=
  .inl ⟨by simp, [.state c], rfl, by cases c <;> simp [NoEnd, IsEnd] at h ⊢⟩

theorem tells_checkSDP (s : St) (m : Msg) : Tells s (checkSDP s m) := by
  unfold checkSDP
  split
  · split
    · exact .inl ⟨by simp, [_], rfl, by simp [NoEnd, IsEnd]⟩
    · exact tells_refl s _ (by simp)
  · exact tells_refl s _ (by simp)

theorem tells_settle (s : St) (m : Msg) : Tells s (settle s m) := by
  unfold settle
  dsimp only
  split
  · exact (tells_checkSDP _ _).via
  · exact tells_go (by simp) rfl

theorem tells_ackFinal (w : World) (s : St) (m cur : Msg) : Tells s (ackFinal w s m cur) := by
  unfold ackFinal
  split
  · split
    · exact tells_fail s _
    · split
      · exact tells_sendNew w s _
      · exact tells_refl s _ (by simp)
  · exact tells_refl s _ (by simp)

theorem tells_hangup (s : St) : Tells s ⟨transition s .hangup, .stop⟩ :=
  .inr ⟨rfl, [], .state .hangup, by simp [transition, St.out], by simp [NoEnd], rfl⟩

theorem tells_handleStatus (w : World) (s : St) (m : Msg) : Tells s (handleStatus w s m) := by
  unfold handleStatus
  split
  · exact tells_transition s _ (by simp)
  split
  · exact tells_transition s _ (by simp)
  split
  · unfold handleOK
    split
    · dsimp only
      split
      · exact (tells_transition s .answered (by simp)).then rfl
      · exact tells_go (by simp) rfl
    · split
      · exact tells_hangup s
      · exact tells_refl s _ (by simp)
  split
  · split
    · exact tells_popRoutes w _ s
    · exact tells_fail s _
  split
  · unfold redirect
    split
    · exact (tells_sendInvite w _).via
    · exact tells_refl s _ (by simp)
  split
  · exact tells_fail s _
  · exact tells_refl s _ (by simp)

theorem tells_handleMethod (w : World) (s : St) (m : Msg) : Tells s (handleMethod w s m) := by
  unfold handleMethod
  split
  · exact (tells_sendNew w s _).andThen fun t => tells_hangup t
  split
  · exact tells_sendNew w s _
  split
  · exact ((tells_checkSDP _ _).via (s := s)).andThen fun t => (tells_sendRsp w _).via
  split
  · exact tells_go (by simp) rfl
  · exact tells_sendNew w s _

theorem tells_handleMessage (w : World) (s : St) (m : Msg) : Tells s (handleMessage w s m) := by
  unfold handleMessage
  split
  · exact tells_refl s _ (by simp)
  split
  · exact (tells_sendNew w s _).andThen fun t => tells_fail t _
  split
  · exact tells_sendNew w s _
  split
  · unfold handleResponse
    split
    · exact tells_refl s _ (by simp)
    split
    · exact ((tells_ackFinal w s m _).andThen fun t => tells_settle t m).andThen fun t => tells_handleStatus w t m
    · exact tells_refl s _ (by simp)
  · unfold handleRequest
    split
    · exact (tells_sendNew w s _).andThen fun t => tells_fail t _
    split
    · exact tells_sendNew w s _
    · exact (tells_handleMethod w _ m).via

theorem tells_sendHangup (w : World) (s : St) : Tells s (sendHangup w s) := by
  unfold sendHangup
  split
  · exact tells_sendCancel w s
  · exact tells_sendCancel w s
  · split
    · exact tells_refl s _ (by simp)
    · split
      · exact (tells_sendOther w _ _).via
      · exact tells_refl s _ (by simp)
  · exact tells_refl s _ (by simp)

theorem tells_step (w : World) (s : St) (ev : Event) : Tells s (step w s ev) := by
  cases ev with
  | sockErr b e =>
    simp only [step]
    split
    · exact tells_refl s _ (by simp)
    split
    · exact tells_go (by simp) rfl
    · exact (tells_fail _ _).via
  | csockErr e =>
    simp only [step]
    split
    · exact tells_refl s _ (by simp)
    · exact (tells_fail _ _).via
  | requestTimer =>
    simp only [step]
    split
    · unfold resendRequest
      split
      · exact tells_go (by simp) rfl
      · split
        · exact ((tells_sendCur w _).via (s := s)).andThen fun t => tells_go (by simp) rfl
        · split
          · exact tells_go (by simp) rfl
          · exact (tells_popRoutes w _ _).via
    · exact tells_refl s _ (by simp)
  | responseTimer =>
    simp only [step]
    split
    · unfold resendResponse
      split
      · exact tells_go (by simp) rfl
      · split
        · exact ((tells_sendRsp w _).via (s := s)).andThen fun t => tells_go (by simp) rfl
        · split
          · exact tells_go (by simp) rfl
          · exact (tells_popRoutes w _ _).via
    · exact tells_refl s _ (by simp)
  | msg m =>
    simp only [step]
    split
    · exact tells_refl s _ (by simp)
    · exact tells_handleMessage w s m
  | hangup => exact tells_sendHangup w s

/-- The whole dialog. -/
theorem tells_loop (w : World) (invite : Msg) (evs : List Event) :
    Tells { invite := invite } (loop w evs (start w invite)) := by
  have h0 : Tells { invite := invite } (start w invite) := tells_sendInvite w _
  generalize start w invite = r at h0 ⊢
  induction evs generalizing r with
  | nil => exact h0
  | cons e evs ih => exact ih _ (h0.andThen fun t => tells_step w t e)

end Gosip.Dialog
