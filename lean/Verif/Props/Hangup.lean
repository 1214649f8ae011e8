import Verif.Dialog.Hangup

/-!
# Property C87: asking to hang up does not block
-/

namespace Gosip.Props
open Spec Dialog

/-- The application reads all channels of the dialog. -/
def readsAll : News → Bool := fun _ => true

/-- Requests to hang up are in the channel, taken, or about to be put there. -/
structure Counted (s : Phone) : Prop where
  room : s.queued ≤ 4
  sum : s.asked = s.taken + s.queued + if s.asker = .hanging then 1 else 0

theorem counted {reads : News → Bool} {s : Phone} (h : Reach (PhoneStep reads) .start s) : Counted s := by
  refine h.invariant ⟨by simp [Phone.start], by simp [Phone.start]⟩ ?_
  intro a b ha hs
  obtain ⟨h1, h2⟩ := ha
  cases hs with
  | event => exact ⟨h1, h2⟩
  | serve => exact ⟨by dsimp only at *; omega, by dsimp only at *; omega⟩
  | hear => exact ⟨h1, h2⟩
  | ask => exact ⟨h1, by dsimp only at *; simp at h2 ⊢; omega⟩
  | put d q n t hq =>
    have : hangupRoom = 4 := rfl
    exact ⟨by dsimp only at *; omega, by dsimp only at *; simp at h2 ⊢; omega⟩

/-- **C87** (when). Let an application read all channels of a dialog. Whatever has happened, the application and the dialog
can both do nothing any more if and only if the application wants to hang up while four such requests are waiting and the
dialog does not look at them, because it has news to tell or has ended. -/
theorem C87_blocked_iff (s : Phone) (h : Reach (PhoneStep readsAll) .start s) :
    Blocked (PhoneStep readsAll) s ↔ s.asker = .hanging ∧ s.queued = 4 ∧ s.talker ≠ .looping := by
  have hc := (counted h).room
  obtain ⟨d, a, q, n, t⟩ := s
  dsimp only at *
  constructor
  · intro hb
    cases a with
    | selecting => exact absurd (PhoneStep.ask d q n t) (hb _)
    | hanging =>
      refine ⟨rfl, ?_, ?_⟩
      · by_cases hq : q < hangupRoom
        · exact absurd (PhoneStep.put d q n t hq) (hb _)
        · have : hangupRoom = 4 := rfl
          omega
      · rintro rfl
        exact hb _ (PhoneStep.event .looping _ _ _ _)
  · rintro ⟨rfl, rfl, hd⟩ u hu
    cases hu with
    | event => exact hd rfl
    | serve => exact hd rfl
    | put _ _ _ _ hq => exact absurd hq (by simp [hangupRoom])

/-- **C87** (not blocked), the part that holds. However often an application wanted to hang up, if at most four of these
requests have not been taken, counting the one it is about to make, then it can make it at once, whatever the dialog is
doing, even if nobody reads its news. -/
theorem C87_at_once_partial (reads : News → Bool) (s : Phone) (h : Reach (PhoneStep reads) .start s)
    (ha : s.asker = .hanging) (hn : s.asked ≤ s.taken + 4) :
    ∃ u, PhoneStep reads s u ∧ u = { s with asker := .selecting, queued := s.queued + 1 } := by
  have hc := (counted h).sum
  obtain ⟨d, a, q, n, t⟩ := s
  dsimp only at *
  subst ha
  simp only [if_true] at hc
  exact ⟨_, .put d q n t (by simp only [hangupRoom]; omega), rfl⟩

/-- The dialog can take all requests to hang up. -/
theorem serve_all {reads : News → Bool} (a : Asker) (n q : Nat) : ∀ t,
    Reach (PhoneStep reads) ⟨.looping, a, q, n, t⟩ ⟨.looping, a, 0, n, t + q⟩ := by
  induction q with
  | zero => exact fun t => .refl
  | succ q ih =>
    intro t
    have := ih (t + 1)
    rw [show t + 1 + q = t + (q + 1) by omega] at this
    exact (Reach.step .refl (.serve .looping a q n t)).trans this

/-- **C87** (obeyed), the part that holds. If the application reads all channels and at most four of its requests have not
been taken, then the dialog can still get to take all of them, unless it has ended: nothing is lost. (That it does depends
on the choices of its `select` statement, which are random.) -/
theorem C87_obeyed_partial (s : Phone) (h : Reach (PhoneStep readsAll) .start s) (hn : s.asked ≤ s.taken + 4)
    (hd : s.talker ≠ .gone) :
    ∃ u, Reach (PhoneStep readsAll) s u ∧ u.taken = s.asked ∧ u.asked = s.asked ∧ u.queued = 0 := by
  have hc := counted h
  have key : ∀ d q n t, d ≠ .gone → n = t + q →
      ∃ u, Reach (PhoneStep readsAll) ⟨d, .selecting, q, n, t⟩ u ∧ u.taken = n ∧ u.asked = n ∧ u.queued = 0 := by
    intro d q n t hd hs
    have hl := serve_all (reads := readsAll) .selecting n q t
    cases d with
    | looping => exact ⟨_, hl, hs.symm, rfl, rfl⟩
    | news k => exact ⟨_, (Reach.step .refl (.hear k .looping q n t rfl)).trans hl, hs.symm, rfl, rfl⟩
    | gone => exact absurd rfl hd
  obtain ⟨d, a, q, n, t⟩ := s
  obtain ⟨h1, h2⟩ := hc
  dsimp only at *
  cases a with
  | selecting => exact key d q n t hd (by simpa using h2)
  | hanging =>
    simp only [if_true] at h2
    obtain ⟨u, k1, k2⟩ := key d (q + 1) n t hd (by omega)
    exact ⟨u, (Reach.step .refl (.put d q n t (by simp only [hangupRoom]; omega))).trans k1, k2⟩

/-- The application asks `k` times. -/
theorem ask_many {reads : News → Bool} (d : Talker) (n t k : Nat) : ∀ q, q + k ≤ 4 →
    Reach (PhoneStep reads) ⟨d, .selecting, q, n, t⟩ ⟨d, .selecting, q + k, n + k, t⟩ := by
  induction k with
  | zero => exact fun q _ => .refl
  | succ k ih =>
    intro q hq
    refine (ih q (by omega)).trans ?_
    exact .step (.step .refl (.ask ..)) (.put _ _ _ _ (by simp only [hangupRoom]; omega))

/-- **C87**: the fifth request. From every state in which the application waits and the dialog has news to tell or has
ended, if the application asks to hang up until five of its requests have not been taken, then application and dialog are
blocked for ever, although the application reads all channels: in particular the state it is waiting for is never
heard. -/
theorem C87_fifth (s : Phone) (h : Reach (PhoneStep readsAll) .start s) (ha : s.asker = .selecting)
    (hd : s.talker ≠ .looping) :
    ∃ u, Reach (PhoneStep readsAll) s u ∧ u.asked = s.taken + 5 ∧ u.talker = s.talker ∧ u.asker = .hanging ∧
      Blocked (PhoneStep readsAll) u := by
  have hc := counted h
  obtain ⟨d, a, q, n, t⟩ := s
  obtain ⟨h1, h2⟩ := hc
  dsimp only at *
  subst ha
  have hr := ask_many (reads := readsAll) d n t (4 - q) q (by omega)
  have hr' := Reach.step hr (.ask ..)
  refine ⟨_, hr', ?_, rfl, rfl, ?_⟩
  · dsimp only; simp at h2; omega
  · refine (C87_blocked_iff _ (h.trans hr')).2 ⟨rfl, by dsimp only; omega, hd⟩

/-- **C87** (news nobody reads). An application that does not read one of the channels can no longer hang up once the dialog
has news for it: under every schedule the dialog stays where it is and takes no request. -/
theorem C87_unread (reads : News → Bool) (s u : Phone) (k : News) (hk : reads k = false) (hs : s.talker = .news k)
    (h : Reach (PhoneStep reads) s u) : u.talker = .news k ∧ u.taken = s.taken := by
  refine h.invariant (P := fun u => u.talker = .news k ∧ u.taken = s.taken) ⟨hs, rfl⟩ ?_
  rintro a b ⟨h1, h2⟩ hab
  cases hab with
  | event => cases h1
  | serve => cases h1
  | hear _ _ _ _ _ hr => cases h1; rw [hk] at hr; cases hr
  | ask => exact ⟨h1, h2⟩
  | put => exact ⟨h1, h2⟩

/-- A dialog that has news while the application asks twice: the hypotheses hold, and both requests are taken. -/
example : ∃ s, Reach (PhoneStep readsAll) .start s ∧ s.asker = .hanging ∧ s.asked = 2 ∧ s.taken = 0 ∧
    s.talker = .news .state ∧ s.queued = 1 := by
  refine ⟨_, .step (.step (.step (.step .refl (.event (.news .state) ..)) (.ask ..)) (.put _ _ _ _ (by decide))) (.ask ..),
    rfl, rfl, rfl, rfl, rfl⟩

/-- An application that reads states only, with a dialog that has learnt of a media address. -/
example : ∃ s, Reach (PhoneStep fun k => k == .state) .start s ∧ s.talker = .news .peer ∧ (News.peer == .state) = false :=
  ⟨_, .step .refl (.event (.news .peer) ..), rfl, rfl⟩

end Gosip.Props
