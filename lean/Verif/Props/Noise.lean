import Verif.Dsp.NoiseLoop
import Verif.Spec.Noise
import Mathlib.Data.Nat.Nth

/-!
# Property C91: the noise generator always delivers a sample
-/

namespace Gosip.Dsp
open Spec

theorem tdiv_rat (x : ℚ) : |x - (Int.tdiv x.num x.den : Int)| < 1 ∧ |((Int.tdiv x.num x.den : Int) : ℚ)| ≤ |x| := by
  have hd : (0 : ℚ) < x.den := by exact_mod_cast x.den_pos
  have hx : x = x.num / x.den := (Rat.num_div_den x).symm
  have key : ∀ n : Nat, ∀ d : Nat, 0 < d → ((n / d : Nat) : ℚ) ≤ (n : ℚ) / d ∧ (n : ℚ) / d < (n / d : Nat) + 1 := by
    intro n d h
    have h' : (0 : ℚ) < d := by exact_mod_cast h
    rw [le_div_iff₀ h', div_lt_iff₀ h']
    constructor
    · exact_mod_cast Nat.div_mul_le_self n d
    · exact_mod_cast (Nat.lt_mul_of_div_lt (Nat.lt_succ_self _) h)
  rcases Int.eq_nat_or_neg x.num with ⟨n, hn | hn⟩
  · have he : Int.tdiv x.num x.den = ((n / x.den : Nat) : Int) := by rw [hn]; rfl
    rw [he]
    obtain ⟨a, b⟩ := key n x.den x.den_pos
    have hv : x = (n : ℚ) / x.den := by
      conv_lhs => rw [hx, hn]
      rw [Int.cast_natCast]
    rw [← hv] at a b
    simp only [Int.cast_natCast]
    have h0 : (0 : ℚ) ≤ (n / x.den : Nat) := by positivity
    rw [abs_of_nonneg h0, abs_of_nonneg (h0.trans a), abs_of_nonneg (by linarith)]
    exact ⟨by linarith, a⟩
  · have he : Int.tdiv x.num x.den = -((n / x.den : Nat) : Int) := by rw [hn, Int.neg_tdiv]; rfl
    rw [he]
    obtain ⟨a, b⟩ := key n x.den x.den_pos
    have hv : -x = (n : ℚ) / x.den := by
      have : x = -((n : ℚ) / x.den) := by
        conv_lhs => rw [hx, hn]
        push_cast
        ring
      linarith
    rw [← hv] at a b
    simp only [Int.cast_neg, Int.cast_natCast]
    have h0 : (0 : ℚ) ≤ (n / x.den : Nat) := by positivity
    rw [abs_neg, abs_of_nonneg h0, abs_of_nonpos (show x ≤ 0 by linarith), abs_of_nonpos (by linarith)]
    exact ⟨by linarith, a⟩

/-- A number is converted. -/
theorem fsaturate_clipped (x : ℚ) : ∃ y, fsaturate (some x) = some y ∧ Clipped x y := by
  unfold fsaturate
  refine ⟨_, rfl, ?_⟩
  by_cases h1 : x > 32767
  · rw [if_pos h1]
    exact ⟨fun _ => rfl, fun h => absurd h (by linarith), fun _ h => absurd h (by linarith), by decide⟩
  rw [if_neg h1]
  by_cases h2 : x < -32768
  · rw [if_pos h2]
    exact ⟨fun h => absurd h h1, fun _ => rfl, fun h _ => absurd h (by linarith), by decide⟩
  rw [if_neg h2]
  have h3 := not_lt.1 h1
  have h4 := not_lt.1 h2
  have ht := tdiv_rat x
  refine ⟨fun h => absurd h h1, fun h => absurd h h2, fun _ _ => ht, ?_⟩
  rcases le_total 0 x with h0 | h0
  · have hy := ht.2
    rw [abs_of_nonneg h0] at hy
    obtain ⟨a, b⟩ := abs_le.1 hy
    constructor
    · have : (-32767 : ℚ) ≤ (Int.tdiv x.num x.den : Int) := by linarith
      have : (-32767 : Int) ≤ Int.tdiv x.num x.den := by exact_mod_cast this
      omega
    · have : ((Int.tdiv x.num x.den : Int) : ℚ) ≤ 32767 := by linarith
      exact_mod_cast this
  · have hy := ht.2
    rw [abs_of_nonpos h0] at hy
    obtain ⟨a, b⟩ := abs_le.1 hy
    have hs := (abs_lt.1 ht.1).1
    constructor
    · have : (-32768 : ℚ) ≤ (Int.tdiv x.num x.den : Int) := by linarith
      exact_mod_cast this
    · have : ((Int.tdiv x.num x.den : Int) : ℚ) < 1 := by linarith
      have : Int.tdiv x.num x.den < 1 := by exact_mod_cast this
      omega

theorem after_going (A : Arith) {idum : Int} (h : idum.natAbs < 2 ^ 63 - 54773) (k : Nat) :
    ∀ {s : Noise}, Going idum s → ∃ s', A.after 129600 k s = some s' ∧ Going idum s' ∧ s'.rms = s.rms := by
  induction k with
  | zero => intro s hs; exact ⟨s, rfl, hs, rfl⟩
  | succ k ih =>
    intro s hs
    obtain ⟨y, s1, e1, e2, e3⟩ := get_going A h hs
    obtain ⟨s2, f1, f2, f3⟩ := ih e2
    exact ⟨s2, by rw [Arith.after, e1]; exact f1, f2, f3.trans e3⟩

theorem after_add (A : Arith) (n a b : Nat) (s : Noise) : A.after n (a + b) s = (A.after n a s).bind (A.after n b) := by
  induction a generalizing s with
  | zero => simp [Arith.after]
  | succ a ih =>
    rw [Nat.succ_add]
    simp only [Arith.after]
    cases A.get n s with
    | none => rfl
    | some x => exact ih x.2

noncomputable instance (A : Arith) (idum : Int) : DecidablePred (InCircle A idum) := fun _ => Classical.dec _

/-- The search goes on from where it stopped. -/
theorem tries_point (A : Arith) {idum : Int} (n : Nat) : ∀ {a s t v1 v2 r}, s = draws (2 * a) (newAwgn idum) →
    A.tries n s = some ((v1, v2, r), t) →
    ∃ j, a ≤ j ∧ InCircle A idum j ∧ (∀ i, a ≤ i → i < j → ¬ InCircle A idum i) ∧
      t = draws (2 * (j + 1)) (newAwgn idum) ∧ v1 = uniform A idum (2 * j) ∧ v2 = uniform A idum (2 * j + 1) ∧
      r = A.radius v1 v2 := by
  induction n with
  | zero => intro a s t v1 v2 r _ h; cases h
  | succ n ih =>
    intro a s t v1 v2 r hs h
    unfold Arith.tries at h
    dsimp only at h
    have e1 : ran1 s = ran1 (draws (2 * a) (newAwgn idum)) := by rw [hs]
    have e2 : (ran1 s).2 = draws (2 * a + 1) (newAwgn idum) := by rw [e1, ← draws_succ]
    have e3 : (ran1 (ran1 s).2).2 = draws (2 * (a + 1)) (newAwgn idum) := by rw [e2, ← draws_succ]; rfl
    split at h
    · rename_i hr
      cases h
      refine ⟨a, Nat.le_refl a, ?_, fun i h1 h2 => by omega, e3, ?_, ?_, rfl⟩
      · unfold InCircle uniform
        rw [← e1, ← e2]; exact hr
      · unfold uniform; rw [← e1]
      · unfold uniform; rw [← e2]
    · rename_i hr
      obtain ⟨j, j1, j2, j3, j4⟩ := ih e3 h
      refine ⟨j, by omega, j2, fun i h1 h2 => ?_, j4⟩
      by_cases hi : i = a
      · rw [hi]
        unfold InCircle uniform
        rw [← e1, ← e2]; exact hr
      · exact j3 i (by omega) h2

/-- What the first call of two does. -/
theorem get_point (A : Arith) {idum : Int} {s s' : Noise} {a : Nat} {y : Int} (hk : s.kept = none)
    (hs : s.gen = draws (2 * a) (newAwgn idum)) (h : A.get 129600 s = some (some y, s')) :
    ∃ j f, a ≤ j ∧ InCircle A idum j ∧ (∀ i, a ≤ i → i < j → ¬ InCircle A idum i) ∧
      A.factor (A.radius (uniform A idum (2 * j)) (uniform A idum (2 * j + 1))) = some f ∧
      fsaturate (some (A.rd (A.rd (uniform A idum (2 * j + 1) * f) * s.rms))) = some y ∧
      s'.gen = draws (2 * (j + 1)) (newAwgn idum) ∧ s'.kept = some (some (A.rd (uniform A idum (2 * j) * f))) := by
  unfold Arith.get at h
  rw [hk] at h
  dsimp only at h
  cases he : A.tries 129600 s.gen with
  | none => rw [he] at h; cases h
  | some x =>
    obtain ⟨⟨v1, v2, r⟩, gen⟩ := x
    rw [he] at h
    dsimp only at h
    obtain ⟨j, j1, j2, j3, j4, j5, j6, j7⟩ := tries_point A _ hs he
    simp only [Option.some.injEq, Prod.mk.injEq] at h
    obtain ⟨e1, e2⟩ := h
    cases hf : A.factor r with
    | none => rw [hf] at e1; cases e1
    | some f =>
      rw [hf] at e1 e2
      subst j5 j6 j7
      exact ⟨j, f, j1, j2, j3, hf, e1, by rw [← e2]; exact j4, by rw [← e2]; rfl⟩

theorem count_gap {p : Nat → Prop} [DecidablePred p] {a j : Nat} (h : a ≤ j) (hn : ∀ i, a ≤ i → i < j → ¬ p i) :
    Nat.count p j = Nat.count p a := by
  induction j with
  | zero => rw [Nat.le_zero.1 h]
  | succ j ih =>
    by_cases haj : a = j + 1
    · rw [haj]
    · rw [Nat.count_succ, if_neg (hn j (by omega) (by omega)), ih (by omega) fun i x y => hn i x (by omega), Nat.add_zero]

/-- After two calls for each of `k` points. -/
theorem after_points (A : Arith) {idum : Int} (h : idum.natAbs < 2 ^ 63 - 54773) (rms : ℚ) (k : Nat) :
    ∃ s a, A.after 129600 (2 * k) (newNoise idum rms) = some s ∧ Going idum s ∧ s.kept = none ∧
      s.gen = draws (2 * a) (newAwgn idum) ∧ Nat.count (InCircle A idum) a = k := by
  induction k with
  | zero => exact ⟨_, 0, rfl, ⟨⟨0, rfl⟩, by simp [newNoise]⟩, rfl, rfl, by simp⟩
  | succ k ih =>
    obtain ⟨s, a, h1, h2, h3, h4, h5⟩ := ih
    obtain ⟨y1, s1, g1, g2, _⟩ := get_going A h h2
    obtain ⟨y2, s2, g4, g5, _⟩ := get_going A h g2
    obtain ⟨j, f, j1, j2, j3, _, _, j6, j7⟩ := get_point A h3 h4 g1
    refine ⟨s2, j + 1, ?_, g5, ?_, ?_, ?_⟩
    · rw [show 2 * (k + 1) = 2 * k + 2 by omega, after_add, h1]
      simp only [Option.bind_some, Arith.after, g1, g4]
    · unfold Arith.get at g4
      rw [j7] at g4
      simp only [Option.some.injEq, Prod.mk.injEq] at g4
      rw [← g4.2]
    · unfold Arith.get at g4
      rw [j7] at g4
      simp only [Option.some.injEq, Prod.mk.injEq] at g4
      rw [← g4.2]; exact j6
    · rw [Nat.count_succ, if_pos j2, count_gap j1 j3, h5]

end Gosip.Dsp

namespace Gosip.Props
open Dsp Spec

/-- **C91.** For every seed for which C32 holds, every volume, every rounding and any number of earlier calls, the next call of
`Get` returns, after at most 129600 attempts to find a point in the circle. What it returns is a sample; in
particular it never takes the logarithm of 0 or divides by 0. -/
theorem C91_always_a_sample (A : Arith) (idum : Int) (h : idum.natAbs < 2 ^ 63 - 54773) (rms : ℚ) (k : Nat) :
    ∃ s y s', A.after 129600 k (newNoise idum rms) = some s ∧ A.get 129600 s = some (some y, s') ∧
      -32768 ≤ y ∧ y ≤ 32767 := by
  obtain ⟨s, h1, h2, _⟩ := after_going A h k (s := newNoise idum rms) ⟨⟨0, rfl⟩, by simp [newNoise]⟩
  obtain ⟨y, s', h3, _, _⟩ := get_going A h h2
  refine ⟨s, y, s', h1, h3, ?_⟩
  have : ∃ o, fsaturate o = some y := by
    unfold Arith.get at h3
    split at h3
    · simp only [Option.some.injEq, Prod.mk.injEq] at h3
      exact ⟨_, h3.1⟩
    · split at h3
      · cases h3
      · simp only [Option.some.injEq, Prod.mk.injEq] at h3
        exact ⟨_, h3.1⟩
  obtain ⟨o, ho⟩ := this
  cases o with
  | none => cases ho
  | some x =>
    obtain ⟨y', e1, e2⟩ := fsaturate_clipped x
    rw [e1] at ho
    cases ho
    exact e2.range

/-- **C91** (what the samples are). Of the random numbers, taken two by two, those are points that lie in the circle. Samples
`2k` and `2k+1` are made from point number `k`, which is not the centre: its second and first coordinate, multiplied by the same
factor and by the volume, and clipped. No point is left out. -/
theorem C91_points (A : Arith) (idum : Int) (h : idum.natAbs < 2 ^ 63 - 54773) (rms : ℚ) (k : Nat) :
    let j := Nat.nth (InCircle A idum) k
    let v1 := uniform A idum (2 * j)
    let v2 := uniform A idum (2 * j + 1)
    let r := A.radius v1 v2
    let f := A.sqrt (A.rd (A.rd (-2 * A.log r) / r))
    InCircle A idum j ∧ 0 < r ∧
    (∃ y, sample A idum rms (2 * k) = some y ∧ Clipped (A.rd (A.rd (v2 * f) * rms)) y) ∧
    (∃ y, sample A idum rms (2 * k + 1) = some y ∧ Clipped (A.rd (A.rd (v1 * f) * rms)) y) := by
  obtain ⟨s, a, h1, h2, h3, h4, h5⟩ := after_points A h rms k
  obtain ⟨y1, s1, g1, g2, g3⟩ := get_going A h h2
  obtain ⟨y2, s2, g4, _, _⟩ := get_going A h g2
  obtain ⟨j, f, j1, j2, j3, j4, j5, j6, j7⟩ := get_point A h3 h4 g1
  have hj : Nat.nth (InCircle A idum) k = j := by
    rw [← h5, ← count_gap j1 j3]
    exact Nat.nth_count j2
  have hg : A.get 129600 s1 = some (fsaturate (some (A.rd (A.rd (uniform A idum (2 * j) * f) * s1.rms))),
      { s1 with kept := none }) := by
    unfold Arith.get
    rw [j7]
    rfl
  obtain ⟨z2, c3, c4⟩ := fsaturate_clipped (A.rd (A.rd (uniform A idum (2 * j) * f) * s1.rms))
  obtain ⟨z1, c1, c2⟩ := fsaturate_clipped (A.rd (A.rd (uniform A idum (2 * j + 1) * f) * s.rms))
  have hrms : s.rms = rms := (after_going A h (2 * k) (s := newNoise idum rms) ⟨⟨0, rfl⟩, by simp [newNoise]⟩).elim
    fun t ht => by
      have : s = t := by
        have := h1.symm.trans ht.1
        cases this; rfl
      rw [this]; exact ht.2.2
  rw [g3, hrms] at c3 c4 hg
  rw [hrms] at c1 c2 j5
  rw [c1] at j5
  rw [c3] at hg
  dsimp only
  rw [hj]
  have hf : 0 < A.radius (uniform A idum (2 * j)) (uniform A idum (2 * j + 1)) ∧
      f = A.sqrt (A.rd (A.rd (-2 * A.log (A.radius (uniform A idum (2 * j)) (uniform A idum (2 * j + 1)))) /
        A.radius (uniform A idum (2 * j)) (uniform A idum (2 * j + 1)))) := by
    unfold Arith.factor at j4
    split at j4
    · cases j4
    · rename_i hr
      dsimp only at j4
      split at j4
      · cases j4
      · cases j4; exact ⟨not_le.1 hr, rfl⟩
  rw [← hf.2]
  refine ⟨j2, hf.1, ⟨y1, ?_, ?_⟩, ⟨z2, ?_, c4⟩⟩
  · unfold sample
    rw [h1]
    simp only [Option.bind_some, g1]
  · cases j5; exact c2
  · unfold sample
    rw [after_add, h1]
    simp only [Option.bind_some, Arith.after, g1, hg]

/-- The first three samples of the generator with the seed that `NewAWGN` uses, at a low volume; the second call
uses up what the first has left. -/
example : (upwards.get 5 (newNoise 7162534 50)).map (·.1) = some (some 73) ∧
    ((upwards.after 5 1 (newNoise 7162534 50)).bind fun s => (upwards.get 0 s).map (·.1)) = some (some (-32)) ∧
    ((upwards.after 5 2 (newNoise 7162534 50)).bind fun s => (upwards.get 5 s).map (·.1)) = some (some 1) := by
  decide +kernel

/-- At a high volume samples are clipped. -/
example : (upwards.get 5 (newNoise 7162534 50000)).map (·.1) = some (some 32767) ∧
    ((upwards.after 5 1 (newNoise 7162534 100000)).bind fun s => (upwards.get 0 s).map (·.1)) = some (some (-32768)) := by
  decide +kernel

/-- The conversion drops the fraction, for both signs. -/
example : fsaturate (some (7 / 2)) = some 3 ∧ fsaturate (some (-7 / 2)) = some (-3) := by decide +kernel

end Gosip.Props
