/-!
# Schedules

Vocabulary for goroutines: a relation `R` gives the steps that can be taken from a state of the whole program, whichever
goroutine takes them. A schedule is a choice among them.
-/

namespace Gosip.Spec

/-- `t` is the state after some steps from `s`. -/
inductive Reach {S : Type} (R : S → S → Prop) (s : S) : S → Prop
  | refl : Reach R s s
  | step {t u} : Reach R s t → R t u → Reach R s u

/-- Under every schedule, a state with the property `P` is reached from `s` after finitely many steps. -/
inductive Inevitable {S : Type} (R : S → S → Prop) (P : S → Prop) : S → Prop
  | now {s} : P s → Inevitable R P s
  | later {s} : (∃ t, R s t) → (∀ t, R s t → Inevitable R P t) → Inevitable R P s

/-- No goroutine can take a step. -/
def Blocked {S : Type} (R : S → S → Prop) (s : S) : Prop := ∀ t, ¬ R s t

theorem Reach.trans {S : Type} {R : S → S → Prop} {s t u : S} (h : Reach R s t) (k : Reach R t u) : Reach R s u := by
  induction k with
  | refl => exact h
  | step _ hr ih => exact .step ih hr

/-- A property kept by every step holds in every state that is reached. -/
theorem Reach.invariant {S : Type} {R : S → S → Prop} {s t : S} (h : Reach R s t) {P : S → Prop} (h0 : P s)
    (hs : ∀ a b, P a → R a b → P b) : P t := by
  induction h with
  | refl => exact h0
  | step _ hr ih => exact hs _ _ ih hr

end Gosip.Spec
