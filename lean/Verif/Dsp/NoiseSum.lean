import Verif.Dsp.Noise
import Verif.Dsp.Lcg
import Verif.Props.Awgn
import Mathlib.Tactic.NormNum
import Mathlib.Tactic.Positivity
import Mathlib.Algebra.BigOperators.Fin
import Mathlib.Algebra.Order.BigOperators.Group.Finset
import Mathlib.Algebra.BigOperators.Intervals
import Mathlib.Tactic.FieldSimp

/-!
# The loop of the noise generator is left
-/

namespace Gosip.Dsp

/-! ### Precision -/

theorem rd_le (A : Arith) {x y e M : ℚ} (h : |x - y| ≤ e) (hM : |y| ≤ M) : |A.rd x - y| ≤ e + (M + e) / 2 ^ 53 := by
  have h1 := A.near x
  have h2 : |x| ≤ M + e := by
    have : x = (x - y) + y := by ring
    rw [this]
    exact (abs_add_le _ _).trans (by linarith)
  have h3 : |A.rd x - y| ≤ |A.rd x - x| + |x - y| := by
    have : A.rd x - y = (A.rd x - x) + (x - y) := by ring
    rw [this]
    exact abs_add_le _ _
  have h4 : |x| / 2 ^ 53 ≤ (M + e) / 2 ^ 53 := div_le_div_of_nonneg_right h2 (by positivity)
  linarith

/-- What is computed for a table entry. -/
def meant (p : Int × Int) : ℚ := (p.1 + p.2 / 134456) / 259200

theorem unit_near (A : Arith) {p : Int × Int} (h1 : 0 ≤ p.1 ∧ p.1 < m1) (h2 : 0 ≤ p.2 ∧ p.2 < m2) :
    (0 ≤ meant p ∧ meant p ≤ 1) ∧ |A.unit p - meant p| ≤ 1 / 2 ^ 49 := by
  obtain ⟨a, b⟩ := p
  simp only [m1, m2] at h1 h2
  have a0 : (0 : ℚ) ≤ a := by exact_mod_cast h1.1
  have a1 : (a : ℚ) ≤ 259199 := by exact_mod_cast (show a ≤ 259199 by omega)
  have b0 : (0 : ℚ) ≤ b := by exact_mod_cast h2.1
  have b1 : (b : ℚ) ≤ 134455 := by exact_mod_cast (show b ≤ 134455 by omega)
  unfold Arith.unit meant
  simp only [m1, m2]
  push_cast
  set c2 := A.rd (1 / 134456) with hc2
  set c1 := A.rd (1 / 259200) with hc1
  have e2 : |c2 - 1 / 134456| ≤ 1 / 134456 / 2 ^ 53 := by
    have := A.near (1 / 134456)
    rwa [abs_of_nonneg (show (0 : ℚ) ≤ 1 / 134456 by norm_num)] at this
  have e1 : |c1 - 1 / 259200| ≤ 1 / 259200 / 2 ^ 53 := by
    have := A.near (1 / 259200)
    rwa [abs_of_nonneg (show (0 : ℚ) ≤ 1 / 259200 by norm_num)] at this
  have f1 : |(b : ℚ) * c2 - b / 134456| ≤ 1 / 2 ^ 53 := by
    rw [show (b : ℚ) * c2 - b / 134456 = b * (c2 - 1 / 134456) by ring, abs_mul, abs_of_nonneg b0]
    calc (b : ℚ) * |c2 - 1 / 134456| ≤ 134456 * (1 / 134456 / 2 ^ 53) :=
          mul_le_mul (by linarith) e2 (abs_nonneg _) (by norm_num)
      _ = 1 / 2 ^ 53 := by norm_num
  have bb : |(b : ℚ) / 134456| ≤ 1 := by
    rw [abs_of_nonneg (by positivity)]
    rw [div_le_one (by norm_num)]; linarith
  have f2 := rd_le A f1 bb
  set B := A.rd (b * c2) with hB
  have f3 : |((a : ℚ) + B) - (a + b / 134456)| ≤ 4 / 2 ^ 53 := by
    rw [show ((a : ℚ) + B) - (a + b / 134456) = B - b / 134456 by ring]
    refine f2.trans ?_
    norm_num
  have t0 : 0 ≤ (a : ℚ) + b / 134456 := by positivity
  have t1 : (a : ℚ) + b / 134456 ≤ 259200 := by
    have := (abs_le.1 bb).2
    linarith
  have f4 := rd_le A f3 (M := 259200) (by rw [abs_of_nonneg t0]; exact t1)
  set C := A.rd (a + B) with hC
  set T := (a : ℚ) + b / 134456 with hT
  have f5 : |C - T| ≤ 2 ^ 19 / 2 ^ 53 := f4.trans (by norm_num)
  have hx : 0 ≤ T / 259200 ∧ T / 259200 ≤ 1 := by
    constructor
    · positivity
    · rw [div_le_one (by norm_num)]; exact t1
  refine ⟨hx, ?_⟩
  have f6 : |C * c1 - T / 259200| ≤ 10 / 2 ^ 53 := by
    rw [show C * c1 - T / 259200 = (C - T) * c1 + T * (c1 - 1 / 259200) by ring]
    have g1 : |c1| ≤ 2 / 259200 := by
      have := abs_le.1 e1
      rw [abs_le]
      constructor
      · have : (0 : ℚ) ≤ 2 / 259200 := by norm_num
        have h' := (abs_le.1 e1).1
        have : (1 : ℚ) / 259200 / 2 ^ 53 ≤ 1 / 259200 := by norm_num
        linarith
      · have : (1 : ℚ) / 259200 / 2 ^ 53 ≤ 1 / 259200 := by norm_num
        have h' := (abs_le.1 e1).2
        have : (2 : ℚ) / 259200 = 1 / 259200 + 1 / 259200 := by norm_num
        linarith
    have g2 : |(C - T) * c1| ≤ 2 ^ 19 / 2 ^ 53 * (2 / 259200) := by
      rw [abs_mul]
      exact mul_le_mul f5 g1 (abs_nonneg _) (by norm_num)
    have g3 : |T * (c1 - 1 / 259200)| ≤ 259200 * (1 / 259200 / 2 ^ 53) := by
      rw [abs_mul, abs_of_nonneg t0]
      exact mul_le_mul t1 e1 (abs_nonneg _) (by norm_num)
    refine (abs_add_le _ _).trans ((add_le_add g2 g3).trans ?_)
    norm_num
  have f7 := rd_le A f6 (M := 1) (by rw [abs_of_nonneg hx.1]; exact hx.2)
  exact f7.trans (by norm_num)

theorem polar_near (A : Arith) {p : Int × Int} (h1 : 0 ≤ p.1 ∧ p.1 < m1) (h2 : 0 ≤ p.2 ∧ p.2 < m2) :
    |A.polar (some p) - (2 * meant p - 1)| ≤ 1 / 2 ^ 44 := by
  obtain ⟨⟨k0, k1⟩, k2⟩ := unit_near A h1 h2
  unfold Arith.polar
  simp only
  set X := A.unit p
  have f1 : |2 * X - 2 * meant p| ≤ 2 / 2 ^ 49 := by
    rw [show 2 * X - 2 * meant p = 2 * (X - meant p) by ring, abs_mul, abs_of_nonneg (by norm_num : (0 : ℚ) ≤ 2)]
    calc (2 : ℚ) * |X - meant p| ≤ 2 * (1 / 2 ^ 49) := by linarith
      _ = 2 / 2 ^ 49 := by norm_num
  have f2 := rd_le A f1 (M := 2) (by rw [abs_of_nonneg (by linarith)]; linarith)
  have f3 : |A.rd (2 * X) - 1 - (2 * meant p - 1)| ≤ 3 / 2 ^ 49 := by
    rw [show A.rd (2 * X) - 1 - (2 * meant p - 1) = A.rd (2 * X) - 2 * meant p by ring]
    exact f2.trans (by norm_num)
  have f4 := rd_le A f3 (M := 1) (by rw [abs_le]; constructor <;> linarith)
  exact f4.trans (by norm_num)

/-- Only one pair stands for the middle. -/
theorem polar_zero (A : Arith) {p : Int × Int} (h1 : 0 ≤ p.1 ∧ p.1 < m1) (h2 : 0 ≤ p.2 ∧ p.2 < m2)
    (h : A.polar (some p) = 0) : p.1 = 129600 := by
  have hn := polar_near A h1 h2
  rw [h] at hn
  obtain ⟨a, b⟩ := p
  simp only [m1, m2] at h1 h2
  unfold meant at hn
  simp only at hn ⊢
  have e : (0 : ℚ) - (2 * (((a : ℚ) + b / 134456) / 259200) - 1) =
      ((259200 * 134456 - 2 * (a * 134456 + b) : Int) : ℚ) / (259200 * 134456) := by
    push_cast
    field_simp
    ring
  rw [e, abs_div, abs_of_nonneg (show (0 : ℚ) ≤ 259200 * 134456 by norm_num), div_le_iff₀ (by norm_num)] at hn
  have hlt : |((259200 * 134456 - 2 * (a * 134456 + b) : Int) : ℚ)| < 1 := hn.trans_lt (by norm_num)
  rw [← Int.cast_abs] at hlt
  have : |259200 * 134456 - 2 * (a * 134456 + b)| < 1 := by exact_mod_cast hlt
  have := abs_lt.1 this
  omega

/-- The square depends on the first generator, mostly. -/
theorem polar_sq (A : Arith) {p : Int × Int} (h1 : 0 ≤ p.1 ∧ p.1 < m1) (h2 : 0 ≤ p.2 ∧ p.2 < m2) :
    A.polar (some p) ^ 2 ≤ (2 * (p.1 : ℚ) / 259200 - 1) ^ 2 + 5 / 259200 := by
  have hn := polar_near A h1 h2
  obtain ⟨a, b⟩ := p
  simp only [m1, m2] at h1 h2
  have a0 : (0 : ℚ) ≤ a := by exact_mod_cast h1.1
  have a1 : (a : ℚ) ≤ 259200 := by exact_mod_cast (show a ≤ 259200 by omega)
  have b0 : (0 : ℚ) ≤ b := by exact_mod_cast h2.1
  have b1 : (b : ℚ) ≤ 134456 := by exact_mod_cast (show b ≤ 134456 by omega)
  unfold meant at hn
  simp only at hn ⊢
  set V := A.polar (some (a, b))
  set w := 2 * (a : ℚ) / 259200 - 1 with hw
  have hb : 0 ≤ (b : ℚ) / 134456 ∧ (b : ℚ) / 134456 ≤ 1 := ⟨by positivity, by rw [div_le_one (by norm_num)]; exact b1⟩
  have hwr : -1 ≤ w ∧ w ≤ 1 := by
    have : 0 ≤ 2 * (a : ℚ) / 259200 ∧ 2 * (a : ℚ) / 259200 ≤ 2 := by
      constructor
      · positivity
      · rw [div_le_iff₀ (by norm_num)]; linarith
    constructor <;> linarith [this.1, this.2]
  have he : 2 * (((a : ℚ) + b / 134456) / 259200) - 1 = w + 2 * (b / 134456) / 259200 := by rw [hw]; ring
  rw [he] at hn
  obtain ⟨n1, n2⟩ := abs_le.1 hn
  have hd : 0 ≤ 2 * ((b : ℚ) / 134456) / 259200 ∧ 2 * ((b : ℚ) / 134456) / 259200 ≤ 2 / 259200 := by
    constructor
    · have := hb.1; positivity
    · exact div_le_div_of_nonneg_right (by linarith [hb.2]) (by norm_num)
  set e := V - w with hev
  have he1 : -(2 / 259200 + 1 / 2 ^ 44) ≤ e := by
    have : (0 : ℚ) ≤ 2 / 259200 := by norm_num
    linarith [hd.1]
  have he2 : e ≤ 2 / 259200 + 1 / 2 ^ 44 := by linarith [hd.2]
  have hV : V = w + e := by rw [hev]; ring
  rw [hV]
  have s1 : w * e ≤ 2 / 259200 + 1 / 2 ^ 44 := by
    have : |w * e| ≤ 1 * (2 / 259200 + 1 / 2 ^ 44) := by
      rw [abs_mul]
      exact mul_le_mul (abs_le.2 hwr) (abs_le.2 ⟨he1, he2⟩) (abs_nonneg _) (by norm_num)
    exact (le_abs_self _).trans (this.trans (by norm_num))
  have s2 : e ^ 2 ≤ (2 / 259200 + 1 / 2 ^ 44) ^ 2 := sq_le_sq' he1 he2
  have s3 : 2 * ((2 : ℚ) / 259200 + 1 / 2 ^ 44) + (2 / 259200 + 1 / 2 ^ 44) ^ 2 ≤ 5 / 259200 := by norm_num
  calc (w + e) ^ 2 = w ^ 2 + 2 * (w * e) + e ^ 2 := by ring
    _ ≤ w ^ 2 + 5 / 259200 := by linarith

theorem rd_pos (A : Arith) {x : ℚ} (h : 0 ≤ x) : x / 2 ≤ A.rd x ∧ A.rd x ≤ x * (1 + 1 / 2 ^ 53) := by
  have := abs_le.1 (A.near x)
  rw [abs_of_nonneg h] at this
  constructor
  · have h2 : x / 2 ^ 53 ≤ x / 2 := by
      apply div_le_div_of_nonneg_left h <;> norm_num
    linarith [this.1]
  · have h2 : x * (1 + 1 / 2 ^ 53) = x + x / 2 ^ 53 := by ring
    rw [h2]; linarith [this.2]

theorem radius_large (A : Arith) {a b : ℚ} (h : 1 ≤ A.radius a b) : 9 / 10 ≤ a ^ 2 + b ^ 2 := by
  unfold Arith.radius at h
  have ha := rd_pos A (mul_self_nonneg a)
  have hb := rd_pos A (mul_self_nonneg b)
  have h0 : 0 ≤ A.rd (a * a) + A.rd (b * b) := by
    have := mul_self_nonneg a
    have := mul_self_nonneg b
    linarith [ha.1, hb.1]
  have hr := rd_pos A h0
  have h1 : 1 ≤ (A.rd (a * a) + A.rd (b * b)) * (1 + 1 / 2 ^ 53) := h.trans hr.2
  have h2 : (A.rd (a * a) + A.rd (b * b)) ≤ (a ^ 2 + b ^ 2) * (1 + 1 / 2 ^ 53) := by
    have : (a ^ 2 + b ^ 2) * (1 + 1 / 2 ^ 53) = a * a * (1 + 1 / 2 ^ 53) + b * b * (1 + 1 / 2 ^ 53) := by ring
    rw [this]; linarith [ha.2, hb.2]
  by_contra hlt
  have hlt := not_le.1 hlt
  have h3 : (A.rd (a * a) + A.rd (b * b)) ≤ 9 / 10 * (1 + 1 / 2 ^ 53) :=
    h2.trans (mul_le_mul_of_nonneg_right hlt.le (by norm_num))
  have h4 : (A.rd (a * a) + A.rd (b * b)) * (1 + 1 / 2 ^ 53) ≤ 9 / 10 * (1 + 1 / 2 ^ 53) * (1 + 1 / 2 ^ 53) :=
    mul_le_mul_of_nonneg_right h3 (by norm_num)
  have h5 : (9 : ℚ) / 10 * (1 + 1 / 2 ^ 53) * (1 + 1 / 2 ^ 53) < 1 := by norm_num
  linarith

theorem radius_zero (A : Arith) {a b : ℚ} (h : A.radius a b ≤ 0) : a = 0 ∧ b = 0 := by
  unfold Arith.radius at h
  have ha := rd_pos A (mul_self_nonneg a)
  have hb := rd_pos A (mul_self_nonneg b)
  have na := mul_self_nonneg a
  have nb := mul_self_nonneg b
  have h0 : 0 ≤ A.rd (a * a) + A.rd (b * b) := by linarith [ha.1, hb.1]
  have hr := rd_pos A h0
  have h1 : a * a = 0 := by linarith [ha.1, hb.1, hr.1]
  have h2 : b * b = 0 := by linarith [ha.1, hb.1, hr.1]
  exact ⟨mul_self_eq_zero.1 h1, mul_self_eq_zero.1 h2⟩

end Gosip.Dsp
