import Verif.Dialog.Handshake
import Verif.Rtp.Handshake

/-!
# Properties C48 and C49: closing sockets
-/

namespace Gosip.Props
open Spec

/-! ## C48: the wait for a receiving goroutine -/

section
open Dialog

/-- The receiver has a message to deliver. -/
def HasMessage (p : Recv) : Prop := p = .offering ∨ p = .parsing true

/-- The receiver has ended and `cleanupSock` has returned. -/
def CleanEnd (s : Pair) : Prop := s.recv = .ended ∧ s.owner = .returned

/-- What holds while the socket is in use, and after it failed. -/
def InUse (s : Pair) : Prop :=
  (s.owner = .looping → s.isOpen = true ∧ s.msgsClosed = false ∧ s.errsClosed = false ∧
      (s.recv = .failing ∨ s.recv = .offering ∨ s.recv = .reading ∨ ∃ b, s.recv = .parsing b)) ∧
  (s.owner = .dropped → s.recv = .leaving ∨ s.recv = .leaving2 ∨ s.recv = .ended)

theorem inUse {s : Pair} (h : Reach PairStep .start s) : InUse s := by
  refine h.invariant (by simp [Pair.start, InUse]) ?_
  intro a b hp hs
  unfold InUse at *
  cases hs <;> simp_all

theorem leave2 {o : Owner} {i m e : Bool} (ho : o = .returned ∨ o = .dropped) :
    Inevitable PairStep (fun s => s.recv = .ended ∧ s.owner = o) ⟨.leaving2, o, i, m, e⟩ := by
  refine .later ⟨_, .closeErrs ..⟩ fun t ht => ?_
  rcases ho with rfl | rfl <;> cases ht <;> exact .now ⟨rfl, rfl⟩

theorem leave {o : Owner} {i m e : Bool} (ho : o = .returned ∨ o = .dropped) :
    Inevitable PairStep (fun s => s.recv = .ended ∧ s.owner = o) ⟨.leaving, o, i, m, e⟩ := by
  refine .later ⟨_, .closeMsgs ..⟩ fun t ht => ?_
  rcases ho with rfl | rfl <;> cases ht
  · exact leave2 (.inl rfl)
  · exact leave2 (.inr rfl)

theorem clean_offering : Inevitable PairStep CleanEnd ⟨.offering, .takingMsg, false, false, false⟩ := by
  refine .later ⟨_, .lastMsg ..⟩ fun t ht => ?_
  cases ht
  refine .later ⟨_, .error ..⟩ fun t ht => ?_
  cases ht
  refine .later ⟨_, .lastErr ..⟩ fun t ht => ?_
  cases ht
  exact leave (.inl rfl)

/-- **C48** (the wait). At any time while a socket is in use, let the dialog close it and wait for its receiver. If the
receiver has a message to deliver then, under every schedule the wait ends and so does the receiver. -/
theorem C48_wait_ends (s : Pair) (h : Reach PairStep .start s) (ho : s.owner = .looping) (hm : HasMessage s.recv) :
    Inevitable PairStep CleanEnd { s with owner := .takingMsg, isOpen := false } := by
  obtain ⟨r, o, i, m, e⟩ := s
  obtain ⟨_, h2, h3, _⟩ := (inUse h).1 ho
  dsimp only at *
  subst h2 h3
  rcases hm with rfl | rfl
  · exact clean_offering
  · refine .later ⟨_, .parsed ..⟩ fun t ht => ?_
    cases ht
    exact clean_offering

/-- Nobody can go on. -/
def Deadlock (s : Pair) : Prop :=
  s.recv = .failing ∧ s.owner = .takingMsg ∧ s.isOpen = false ∧ s.msgsClosed = false ∧ s.errsClosed = false

theorem deadlock_blocked {s : Pair} (h : Deadlock s) : Blocked PairStep s := by
  intro t ht
  obtain ⟨h1, h2, h3, h4, h5⟩ := h
  cases ht <;> simp_all

theorem dead_reading : Inevitable PairStep Deadlock ⟨.reading, .takingMsg, false, false, false⟩ := by
  refine .later ⟨_, .error ..⟩ fun t ht => ?_
  cases ht
  exact .now ⟨rfl, rfl, rfl, rfl, rfl⟩

/-- **C48 is false.** If the receiver has no message to deliver when the socket is closed, the wait never ends: under every
schedule both goroutines come to a state in which neither can take a step, so the receiver never ends either. -/
theorem C48_wait_blocks (s : Pair) (h : Reach PairStep .start s) (ho : s.owner = .looping) (hm : ¬ HasMessage s.recv) :
    Inevitable PairStep (fun t => t.recv ≠ .ended ∧ t.owner = .takingMsg ∧ Blocked PairStep t)
      { s with owner := .takingMsg, isOpen := false } := by
  have key : ∀ t, Deadlock t → t.recv ≠ .ended ∧ t.owner = .takingMsg ∧ Blocked PairStep t := fun t ht =>
    ⟨by rw [ht.1]; simp, ht.2.1, deadlock_blocked ht⟩
  have mono : ∀ t, Inevitable PairStep Deadlock t → Inevitable PairStep (fun t => t.recv ≠ .ended ∧
      t.owner = .takingMsg ∧ Blocked PairStep t) t := by
    intro t ht
    induction ht with
    | now h => exact .now (key _ h)
    | later he _ ih => exact .later he ih
  refine mono _ ?_
  obtain ⟨r, o, i, m, e⟩ := s
  obtain ⟨_, h2, h3, h4⟩ := (inUse h).1 ho
  dsimp only at *
  subst h2 h3
  rcases h4 with rfl | rfl | rfl | ⟨b, rfl⟩
  · exact .now ⟨rfl, rfl, rfl, rfl, rfl⟩
  · exact absurd (.inl rfl) hm
  · exact dead_reading
  · cases b with
    | true => exact absurd (.inr rfl) hm
    | false =>
      refine .later ⟨_, .drop ..⟩ fun t ht => ?_
      cases ht
      exact dead_reading

/-- **C48.** When it was the socket that failed, its receiver ends, and nobody waits for it. -/
theorem C48_failed_socket (s : Pair) (h : Reach PairStep .start s) (ho : s.owner = .dropped) :
    Inevitable PairStep (fun t => t.recv = .ended ∧ t.owner = .dropped) s := by
  have hi := (inUse h).2 ho
  obtain ⟨r, o, i, m, e⟩ := s
  dsimp only at *
  subst ho
  rcases hi with rfl | rfl | rfl
  · exact leave (.inr rfl)
  · exact leave2 (.inr rfl)
  · exact .now ⟨rfl, rfl⟩

/-- The three cases occur: a receiver with a message, one that is waiting for a packet, and one whose socket failed. -/
example : (∃ s, Reach PairStep .start s ∧ s.owner = .looping ∧ HasMessage s.recv) ∧
    (∃ s, Reach PairStep .start s ∧ s.owner = .looping ∧ ¬ HasMessage s.recv) ∧
    (∃ s, Reach PairStep .start s ∧ s.owner = .dropped) := by
  refine ⟨⟨_, .step (.step .refl (.packet _ _ _ true)) (.parsed ..), rfl, .inl rfl⟩, ⟨_, .refl, rfl, ?_⟩,
    ⟨_, .step (.step .refl (.error ..)) (.takeErr ..), rfl⟩⟩
  rintro (h | h) <;> cases h

end

/-! ## C49 -/

section
open Rtp

/-- What holds as long as neither `Close` nor `CloseAfterError` is called. -/
def Using (s : Pair) : Prop :=
  s.isOpen = true ∧ s.rClosed = false ∧
  ((s.app = .idle ∧ s.eClosed = false ∧ ((s.cClosed = false ∧ (s.recv = .reading ∨ s.recv = .offering ∨ s.recv = .stopping ∨
      ∃ b, s.recv = .parsing b)) ∨ (s.cClosed = true ∧ s.recv = .failing))) ∨
   (s.app = .holding ∧ s.recv = .awaiting ∧ s.cClosed = false ∧ s.eClosed = false) ∨
   (s.app = .failed ∧ s.cClosed = true ∧ (s.recv = .leaving ∨ (s.recv = .ended ∧ s.eClosed = true))))

theorem using' {s : Pair} (h : Reach PairStep .start s) : Using s := by
  refine h.invariant (by simp [Pair.start, Using]) ?_
  intro a b hp hs
  unfold Using at *
  cases hs <;> simp_all

/-- The call has returned and the receiver has ended. -/
def Over (s : Pair) : Prop := s.app = .returned ∧ s.recv = .ended

theorem over_ended {i c r : Bool} : Inevitable PairStep Over ⟨.ended, .takingE, i, c, true, r⟩ := by
  refine .later ⟨_, .noE ..⟩ fun t ht => ?_
  cases ht
  refine .later ⟨_, .closeR ..⟩ fun t ht => ?_
  cases ht
  exact .now ⟨rfl, rfl⟩

theorem over_closing {i c e r : Bool} : Inevitable PairStep Over ⟨.leaving, .closingR, i, c, e, r⟩ := by
  refine .later ⟨_, .closeE ..⟩ fun t ht => ?_
  cases ht with
  | closeE =>
    refine .later ⟨_, .closeR ..⟩ fun t ht => ?_
    cases ht
    exact .now ⟨rfl, rfl⟩
  | closeR =>
    refine .later ⟨_, .closeE ..⟩ fun t ht => ?_
    cases ht
    exact .now ⟨rfl, rfl⟩

theorem over_failing {r : Bool} : Inevitable PairStep Over ⟨.failing, .takingE, false, true, false, r⟩ := by
  refine .later ⟨_, .lastErr ..⟩ fun t ht => ?_
  cases ht
  exact over_closing

theorem over_takingE {r : Bool} : Inevitable PairStep Over ⟨.reading, .takingE, false, false, false, r⟩ := by
  refine .later ⟨_, .error ..⟩ fun t ht => ?_
  cases ht
  refine .later ⟨_, .closeC ..⟩ fun t ht => ?_
  cases ht
  exact over_failing

theorem over_failing' {r : Bool} : Inevitable PairStep Over ⟨.failing, .takingC, false, true, false, r⟩ := by
  refine .later ⟨_, .noC ..⟩ fun t ht => ?_
  cases ht
  exact over_failing

theorem over_stopping {r : Bool} : Inevitable PairStep Over ⟨.stopping, .takingC, false, false, false, r⟩ := by
  refine .later ⟨_, .closeC ..⟩ fun t ht => ?_
  cases ht
  exact over_failing'

theorem over_reading {r : Bool} : Inevitable PairStep Over ⟨.reading, .takingC, false, false, false, r⟩ := by
  refine .later ⟨_, .error ..⟩ fun t ht => ?_
  cases ht
  exact over_stopping

theorem over_offering : Inevitable PairStep Over ⟨.offering, .takingC, false, false, false, false⟩ := by
  refine .later ⟨_, .lastFrame ..⟩ fun t ht => ?_
  cases ht
  refine .later ⟨_, .giveLast ..⟩ fun t ht => ?_
  cases ht
  exact over_takingE

theorem over_leaving {e r : Bool} : Inevitable PairStep Over ⟨.leaving, .takingC, false, true, e, r⟩ := by
  have h1 : ∀ {e r : Bool}, Inevitable PairStep Over ⟨.ended, .takingC, false, true, true, r⟩ := by
    intro e r
    refine .later ⟨_, .noC ..⟩ fun t ht => ?_
    cases ht
    exact over_ended
  have h2 : ∀ {e r : Bool}, Inevitable PairStep Over ⟨.leaving, .takingE, false, true, e, r⟩ := by
    intro e r
    refine .later ⟨_, .closeE ..⟩ fun t ht => ?_
    cases ht
    · exact over_ended
    · exact over_closing
  refine .later ⟨_, .noC ..⟩ fun t ht => ?_
  cases ht
  · exact h1 (e := e)
  · exact h2

/-- **C49.** `Close`, called at any time when the application holds no frame, returns and the receiver ends, under every
schedule and whatever packets arrived: whether or not the application has received an error before. -/
theorem C49_close_returns (s : Pair) (h : Reach PairStep .start s) (ha : s.app = .idle ∨ s.app = .failed) :
    Inevitable PairStep Over s.close := by
  have hu := using' h
  obtain ⟨p, a, i, c, e, r⟩ := s
  obtain ⟨h1, h2, h3⟩ := hu
  unfold Pair.close
  dsimp only at *
  subst h1 h2
  rcases h3 with ⟨_, rfl, ⟨rfl, rfl | rfl | rfl | ⟨b, rfl⟩⟩ | ⟨rfl, rfl⟩⟩ | ⟨rfl, _⟩ | ⟨_, rfl, rfl | ⟨rfl, rfl⟩⟩
  · exact over_reading
  · exact over_offering
  · exact over_stopping
  · cases b with
    | true =>
      refine .later ⟨_, .parsed ..⟩ fun t ht => ?_
      cases ht
      exact over_offering
    | false =>
      refine .later ⟨_, .drop ..⟩ fun t ht => ?_
      cases ht
      exact over_reading
  · exact over_failing'
  · rcases ha with ha | ha <;> cases ha
  · exact over_leaving
  · refine .later ⟨_, .noC ..⟩ fun t ht => ?_
    cases ht
    exact over_ended

/-- **C49.** The same for `CloseAfterError`, called after an error was received. -/
theorem C49_close_after_error_returns (s : Pair) (h : Reach PairStep .start s) (ha : s.app = .failed) :
    Inevitable PairStep Over s.closeAfterError := by
  have hu := using' h
  obtain ⟨p, a, i, c, e, r⟩ := s
  obtain ⟨h1, h2, h3⟩ := hu
  unfold Pair.closeAfterError
  dsimp only at *
  subst h1 h2 ha
  have e1 : ∀ {c r : Bool}, Inevitable PairStep Over ⟨.ended, .takingE2, false, c, true, r⟩ := by
    intro c r
    refine .later ⟨_, .noE2 ..⟩ fun t ht => ?_
    cases ht
    exact .now ⟨rfl, rfl⟩
  have e2 : ∀ {c r : Bool}, Inevitable PairStep Over ⟨.leaving, .returned, false, c, true, r⟩ := by
    intro c r
    refine .later ⟨_, .closeE ..⟩ fun t ht => ?_
    cases ht
    exact .now ⟨rfl, rfl⟩
  have e3 : ∀ {c r : Bool}, Inevitable PairStep Over ⟨.ended, .closingR2, false, c, true, r⟩ := by
    intro c r
    refine .later ⟨_, .closeR2 ..⟩ fun t ht => ?_
    cases ht
    exact e1
  have e4 : ∀ {c e r : Bool}, Inevitable PairStep Over ⟨.leaving, .takingE2, false, c, e, r⟩ := by
    intro c e r
    refine .later ⟨_, .closeE ..⟩ fun t ht => ?_
    cases ht
    · exact e1
    · exact e2
  rcases h3 with ⟨h, _⟩ | ⟨h, _⟩ | ⟨_, rfl, rfl | ⟨rfl, rfl⟩⟩
  · cases h
  · cases h
  · refine .later ⟨_, .closeR2 ..⟩ fun t ht => ?_
    cases ht
    · exact e3
    · exact e4
  · exact e3

/-- The condition is needed: `Close` never returns while the application holds a frame, and the receiver never ends. -/
theorem C49_close_holding_blocks (s : Pair) (h : Reach PairStep .start s) (ha : s.app = .holding) :
    Blocked PairStep s.close := by
  have hu := using' h
  obtain ⟨p, a, i, c, e, r⟩ := s
  obtain ⟨h1, h2, h3⟩ := hu
  unfold Pair.close
  dsimp only at *
  subst h1 h2 ha
  rcases h3 with ⟨h, _⟩ | ⟨_, rfl, rfl, rfl⟩ | ⟨h, _⟩
  · cases h
  · intro t ht
    cases ht
  · cases h

/-- So is the condition on `CloseAfterError`: called without an error, it does not return if a frame is on offer. -/
theorem C49_close_after_no_error_blocks (s : Pair) (h : Reach PairStep .start s) (ha : s.app = .idle)
    (ho : s.recv = .offering) :
    Inevitable PairStep (fun t => t.app ≠ .returned ∧ Blocked PairStep t) s.closeAfterError := by
  have hu := using' h
  obtain ⟨p, a, i, c, e, r⟩ := s
  obtain ⟨h1, h2, h3⟩ := hu
  unfold Pair.closeAfterError
  dsimp only at *
  subst h1 h2 ha ho
  rcases h3 with ⟨_, rfl, ⟨rfl, _⟩ | ⟨_, h⟩⟩ | ⟨h, _⟩ | ⟨h, _⟩
  · refine .later ⟨_, .closeR2 ..⟩ fun t ht => ?_
    cases ht
    refine .now ⟨by simp, fun t ht => ?_⟩
    cases ht
  · cases h
  · cases h
  · cases h

/-- All cases occur, while a packet is being decoded, after a frame was given back, and after an error. -/
example : (∃ s, Reach PairStep .start s ∧ s.app = .idle ∧ s.recv = .parsing true) ∧
    (∃ s, Reach PairStep .start s ∧ s.app = .idle ∧ s.recv = .offering) ∧
    (∃ s, Reach PairStep .start s ∧ s.app = .holding) ∧
    (∃ s, Reach PairStep .start s ∧ s.app = .failed) := by
  have h0 : Reach PairStep .start _ := .step .refl (.packet _ _ _ _ true)
  have h1 := Reach.step h0 (.parsed ..)
  have h2 := Reach.step h1 (.take ..)
  have h3 := Reach.step h2 (.give ..)
  have h4 := Reach.step (Reach.step (Reach.step h3 (.error ..)) (.closeC ..)) (.fail ..)
  exact ⟨⟨_, h0, rfl, rfl⟩, ⟨_, h1, rfl, rfl⟩, ⟨_, h2, rfl⟩, ⟨_, h4, rfl⟩⟩

end
end Gosip.Props
