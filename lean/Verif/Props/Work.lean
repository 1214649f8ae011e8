import Verif.Props.Grammar
import Verif.Props.Uri
import Verif.Sip.WorkSlow

/-!
# Property C82: how long it takes to read a message

The work is `parseWork` (`Sip/Work.lean`): passes of the loop, actions, bytes copied, list nodes walked over.
-/

namespace Gosip.Props
open Sip Spec MsgM

/-- **C82.** Whatever the bytes are, reading the head of a message takes work at most proportional to the square of
their number. -/
theorem C82_work_at_most_quadratic (d : Bytes) (n : Nat) : parseWork n d ≤ 880 * ((d.length + 1) * (d.length + 1)) := by
  have h0 : Short 0 (initCtx d) := fun f => by cases f <;> exact Nat.le_refl _
  have h1 := runWork_le (n := 10 * d.length + 1) (inv_init d) h0
  have h2 : parseWork n d ≤ runWork d (10 * d.length + 1) 1 (initCtx d) := by
    rcases Nat.le_total n (10 * d.length + 1) with h | h
    · exact runWork_mono h
    · exact Nat.le_of_eq (runWork_end (run_linear (Nat.le_refl _)) h)
  refine Nat.le_trans h2 (Nat.le_trans h1 ?_)
  generalize d.length = N
  have e : 880 * ((N + 1) * (N + 1)) = (10 * (N + 1)) * (88 * (N + 1)) := by
    rw [Nat.mul_mul_mul_comm]
  rw [e]
  refine Nat.le_trans (Nat.mul_le_mul_left (10 * N + 1) (m := 88 * N + 33) (by omega)) (Nat.mul_le_mul ?_ ?_) <;> omega

/-- The message read from `slow n`. -/
def slowMsg : Msg :=
  { method := b!"A", request := some { scheme := b!"sip", host := b!"a" }, versionMajor := 2,
    addrs := setAt (fun _ => []) .to [{ display := b!"a", uri := some { scheme := b!"sip", host := b!"a" } }] }

/-- The square is needed: a display name followed by `n + 1` blanks is an accepted message that costs more than half the
square of `n`, because the blanks are dropped again at each of them (`sip/sip.rl:197-203`, `sip/sip.rl:416`). -/
theorem C82_blanks_cost_quadratic (n k : Nat) (h : 10 * (n + 33) + 1 ≤ k) :
    parseMsg (slow (n + 1)) = .ok slowMsg ∧ n * n ≤ 2 * parseWork k (slow (n + 1)) := by
  have hu : URIText b!"sip:a" { scheme := b!"sip", host := b!"a" } := (C02_parseURI_grammar _ _).1 (by decide +kernel)
  constructor
  · rw [C76_message_grammar]
    have hw : Blanks (List.replicate (n + 1) 32) := fun c hc => .inl (List.eq_of_mem_replicate hc)
    refine ⟨b!"A sip:a SIP/2.0", [headerLine b!"To" [] (b!"a" ++ List.replicate (n + 1) 32 ++ b!"<sip:a>")], [],
      { method := b!"A", request := some { scheme := b!"sip", host := b!"a" }, versionMajor := 2 }, { msg := slowMsg }, ?_,
      (by rintro ⟨_, _, e, _⟩; cases e), plain_ok (by decide +kernel), ?_, ?_, .inl ⟨Int.le_refl _, rfl⟩⟩
    · simp [slow, headText, headerLine, CRLF]
    · exact StartText.request (m := b!"A") (u := b!"sip:a") (v := b!"SIP/2.0") ⟨by simp, by decide +kernel⟩ hu
        (.mk (a := b!"2") (b := b!"0") ⟨by simp, by decide +kernel⟩ ⟨by simp, by decide +kernel⟩)
    · refine .cons ⟨by simp, by decide +kernel⟩ (fun c hc => by cases hc) (plain_ok ?_) ?_ .nil
      · simp
      · have ht := AddrText.angle (d := b!"a" ++ List.replicate (n + 1) 32) (w := [])
            (.words (.one ⟨by simp, by decide +kernel⟩ ⟨.blanks hw, by simp⟩)) hu (.blanks fun c hc => by cases hc)
        exact FieldText.address (f := .to) (w := []) (by decide +kernel) (by simp) (.blanks fun c hc => by cases hc) (.one ht)
  · have := slow_work (n := n + 1) (m := k) (by omega)
    have e : n * n ≤ (n + 1) * (n + 1 + 1) := Nat.mul_le_mul (by omega) (by omega)
    omega

/-- Ten and forty blanks. -/
example : parseWork 500 (slow 10) = 160 ∧ parseWork 800 (slow 40) = 1045 := by decide +kernel

/-- So no constant bounds the work for each byte. -/
theorem C82_work_not_linear (c : Nat) : ∃ d m, parseMsg d = .ok m ∧ ∀ k, 10 * d.length + 1 ≤ k → c * d.length < parseWork k d := by
  refine ⟨slow (2 * c + 34 + 1), slowMsg, ?_, fun k hk => ?_⟩
  · exact (C82_blanks_cost_quadratic _ _ (Nat.le_refl _)).1
  · rw [slow_length] at hk ⊢
    have h := (C82_blanks_cost_quadratic (2 * c + 34) k (by omega)).2
    have e1 : (2 * c + 34) * (2 * c + 34) = 2 * (c * (2 * c + 34)) + 34 * (2 * c + 34) := by
      rw [Nat.add_mul, Nat.mul_assoc]
    have e2 : c * (2 * c + 34 + 1 + 32) = c * (2 * c + 34) + c * 33 := by
      rw [Nat.add_assoc (2 * c + 34), Nat.mul_add]
    omega

end Gosip.Props
