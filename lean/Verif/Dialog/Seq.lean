import Verif.Dialog.Alive
import Verif.Dialog.Reply

/-!
# Where the remembered CSeq of the other side comes from
-/

namespace Gosip.Dialog
open Sip Spec

/-- The number is kept or forgotten. -/
def Same (s t : St) : Prop := t.rseq = s.rseq ∨ t.rseq = 0

theorem Net.same {s t : St} (h : Net s t) : Same s t := by
  rcases h.memory with h | h
  · exact .inl h.2
  · exact .inr h.2.2

theorem same_trans {a b c : St} (h : Same a b) (k : Same b c) : Same a c := by
  unfold Same at *
  rcases k with k | k
  · rw [k]; exact h
  · exact .inr k

theorem same_andThen {s : St} {r : Run} {f : St → Run} (h : Same s r.s) (hf : ∀ t, Same t (f t).s) :
    Same s (r.andThen f).s := by
  unfold Run.andThen
  split
  · exact same_trans h (hf _)
  · exact h
  · exact h
  · exact h

theorem same_handleStatus (w : World) (s : St) (m : Msg) : Same s (handleStatus w s m).s := by
  unfold handleStatus
  split
  · exact .inl rfl
  split
  · exact .inl rfl
  split
  · unfold handleOK
    split
    · refine .inl ?_
      dsimp only
      split <;> rfl
    · split <;> exact .inl rfl
  split
  · split
    · exact (net_nextRoute w s).same
    · exact (net_fail _ _).same
  split
  · exact (net_redirect w s m).same
  split
  · exact (net_fail _ _).same
  · exact .inl rfl

theorem same_handleMethod (w : World) (s : St) (m : Msg) : Same s (handleMethod w s m).s := by
  unfold handleMethod
  split
  · exact same_andThen (net_sendNew w s _).same fun t => .inl rfl
  split
  · exact (net_sendNew w s _).same
  split
  · refine same_andThen ?_ fun t => (net_sendResponse w t _).same
    exact (net_checkSDP { s with remote := some m } m).same
  split
  · exact .inl rfl
  · exact (net_sendNew w s _).same

/-- Only a proper request sets the number, to its own. -/
theorem seq_step (w : World) (s : St) (ev : Event) {cur : Msg} (hc : s.cur = some cur) :
    Same s (step w s ev).s ∨ ∃ m, ev = .msg m ∧ Proper cur.callID m ∧ (step w s ev).s.rseq ∈ [m.cseq, 0] := by
  by_cases hev : ∃ m, ev = .msg m ∧ m.status ≤ 0
  · obtain ⟨m, rfl, hm⟩ := hev
    have hr : m.isResponse = false := by simp [Msg.isResponse]; omega
    simp only [step]
    split
    · exact .inl (.inl rfl)
    unfold handleMessage
    rw [hc]
    dsimp only
    split
    · exact .inl (net_andThen (net_sendNew w s _) fun t ht => ht.trans (net_fail _ _)).same
    rename_i hver
    split
    · exact .inl (net_sendNew w s _).same
    rename_i hid
    rw [hr, if_neg (by simp)]
    unfold handleRequest
    split
    · exact .inl (net_andThen (net_sendNew w s _) fun t ht => ht.trans (net_fail _ _)).same
    rename_i hmf
    split
    · exact .inl (net_sendNew w s _).same
    · refine .inr ⟨m, rfl, ⟨hm, ⟨?_, ?_⟩, ?_, by omega⟩, ?_⟩
      · exact Decidable.byContradiction fun h => hver (.inl h)
      · exact Decidable.byContradiction fun h => hver (.inr h)
      · exact Decidable.byContradiction fun h => hid h
      · rcases same_handleMethod w { s with rseq := m.cseq } m with h | h
        · rw [h]; simp
        · rw [h]; simp
  · refine .inl ?_
    cases ev with
    | sockErr b e =>
      simp only [step]
      split
      · exact .inl rfl
      split
      · exact .inl rfl
      · exact .inl rfl
    | csockErr e =>
      simp only [step]
      split
      · exact .inl rfl
      · exact .inl rfl
    | requestTimer =>
      simp only [step]
      split
      · exact same_trans (b := { s with requestTimer := false }) (.inl rfl) (net_resendRequest w _).same
      · exact .inl rfl
    | responseTimer =>
      simp only [step]
      split
      · exact same_trans (b := { s with responseTimer := false }) (.inl rfl) (net_resendResponse w _).same
      · exact .inl rfl
    | hangup => exact (net_sendHangup w s).same
    | msg m =>
      have hr : m.isResponse = true := by
        simp only [Msg.isResponse, decide_eq_true_eq]
        exact Int.not_le.1 fun h => hev ⟨m, rfl, h⟩
      simp only [step]
      split
      · exact .inl rfl
      unfold handleMessage
      split
      · exact .inl rfl
      split
      · exact (net_andThen (net_sendNew w s _) fun t ht => ht.trans (net_fail _ _)).same
      split
      · exact (net_sendNew w s _).same
      unfold handleResponse
      split
      · exact .inl rfl
      split
      · refine same_andThen ?_ fun t => same_handleStatus w t m
        exact (net_andThen (net_ackFinal w s m _) fun t ht => ht.trans (net_settle _ _)).same
      · exact .inl rfl

end Gosip.Dialog
