import Verif.Dsp.Noise
import Mathlib.Tactic.Linarith
import Mathlib.Tactic.Positivity

/-!
# Specification of samples, and an arithmetic for examples
-/

namespace Gosip.Spec
open Dsp

/-- The sample `y` stands for the amplitude `x`: it is `x` without its fraction, or the limit that `x` exceeds. -/
structure Clipped (x : ℚ) (y : Int) : Prop where
  above : 32767 < x → y = 32767
  below : x < -32768 → y = -32768
  between : -32768 ≤ x → x ≤ 32767 → |x - y| < 1 ∧ |(y : ℚ)| ≤ |x|
  range : -32768 ≤ y ∧ y ≤ 32767

/-- Random number `t`, between -1 and 1. -/
def uniform (A : Arith) (idum : Int) (t : Nat) : ℚ := A.polar (ran1 (draws t (newAwgn idum))).1

/-- Random numbers `2j` and `2j+1` are the coordinates of a point in the circle. -/
def InCircle (A : Arith) (idum : Int) (j : Nat) : Prop :=
  A.radius (uniform A idum (2 * j)) (uniform A idum (2 * j + 1)) < 1

/-- What call number `k` of `Get` returns, counted from 0. -/
def sample (A : Arith) (idum : Int) (rms : ℚ) (k : Nat) : Option Int :=
  (A.after 129600 k (newNoise idum rms)).bind fun s => (A.get 129600 s).bind fun x => x.1

/-- An arithmetic that always errs upwards; `log` and `sqrt` are crude, but have the right signs. -/
def upwards : Arith where
  rd x := x + |x| / 2 ^ 53
  log x := (x - 1) * (3 - x) / 2
  sqrt x := (x + 1) / 2
  near x := by
    rw [add_sub_cancel_left, abs_div, abs_abs, abs_of_nonneg (show (0 : ℚ) ≤ 2 ^ 53 by positivity)]
  log_neg x h0 h1 := by
    have : (x - 1) * (3 - x) ≤ 0 := mul_nonpos_of_nonpos_of_nonneg (by linarith) (by linarith)
    linarith

end Gosip.Spec
