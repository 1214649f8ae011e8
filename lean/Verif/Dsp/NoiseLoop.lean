import Verif.Dsp.NoiseSum
import Mathlib.Order.Interval.Finset.Basic
import Mathlib.Data.Int.Interval
import Mathlib.Algebra.BigOperators.Field

/-!
# The loop of the noise generator is left, and never with 0
-/

namespace Gosip.Dsp
open Function

/-- A pair that the first two generators can hold. -/
def PairOK (p : Int × Int) : Prop := (0 ≤ p.1 ∧ p.1 < m1) ∧ (0 ≤ p.2 ∧ p.2 < m2)

/-- The generators are in range, and so is the table. -/
def Full (s : Awgn) : Prop := InRange s ∧ ∀ k, 1 ≤ k → k ≤ 97 → PairOK (s.r k)

/-! ### The generators as affine maps -/

theorem lcg_eq {ia ic m x : Int} (h0 : 0 ≤ x) (hx : x < 1000000) (ha : 0 ≤ ia) (ha' : ia < 10000)
    (hc : 0 ≤ ic) (hc' : ic < 100000) : lcg ia ic m x = (ia * x + ic) % m := by
  have hp : 0 ≤ ia * x := Int.mul_nonneg ha h0
  have hq : ia * x ≤ 10000 * 1000000 := Int.mul_le_mul (by omega) (by omega) h0 (by omega)
  unfold lcg
  rw [wrap64_id (x := ia * x) (by omega) (by omega), wrap64_id (by omega) (by omega)]
  exact Int.tmod_eq_emod_of_nonneg (by omega)

theorem cast_emod {m : ℕ} (x : Int) : ((x % (m : Int) : Int) : ZMod m) = (x : ZMod m) := by
  simp

/-- The step of the first generator. -/
abbrev f1 : ZMod 259200 → ZMod 259200 := affine 7141 54773

/-- The step of the third generator. -/
abbrev f3 : ZMod 243000 → ZMod 243000 := affine 4561 51349

theorem lcg1_cast {x : Int} (h0 : 0 ≤ x) (hx : x < m1) : ((lcg ia1 ic1 m1 x : Int) : ZMod 259200) = f1 (x : ZMod 259200) := by
  simp only [m1] at hx
  rw [lcg_eq h0 (by omega) (by decide) (by decide) (by decide) (by decide)]
  have := cast_emod (m := 259200) (ia1 * x + ic1)
  rw [show ((259200 : ℕ) : Int) = m1 from rfl] at this
  rw [this]
  simp [affine, ia1, ic1]

theorem lcg3_cast {x : Int} (h0 : 0 ≤ x) (hx : x < m3) : ((lcg ia3 ic3 m3 x : Int) : ZMod 243000) = f3 (x : ZMod 243000) := by
  simp only [m3] at hx
  rw [lcg_eq h0 (by omega) (by decide) (by decide) (by decide) (by decide)]
  have := cast_emod (m := 243000) (ia3 * x + ic3)
  rw [show ((243000 : ℕ) : Int) = m3 from rfl] at this
  rw [this]
  simp [affine, ia3, ic3]

/-! ### One draw -/

theorem ran1_full {s : Awgn} (h : Full s) :
    Full (ran1 s).2 ∧ ((ran1 s).2.ix1 = lcg ia1 ic1 m1 s.ix1 ∧ (ran1 s).2.ix3 = lcg ia3 ic3 m3 s.ix3) ∧
    ∃ j, drawIndex (ran1 s).2.ix3 = j ∧ 1 ≤ j ∧ j ≤ 97 ∧ (ran1 s).1 = some (s.r j) ∧
      (ran1 s).2.r = fun k => if k = j then ((ran1 s).2.ix1, (ran1 s).2.ix2) else s.r k := by
  obtain ⟨⟨⟨a1, a2⟩, ⟨b1, b2⟩, c1, c2⟩, hr⟩ := h
  simp only [m1, m2, m3] at a2 b2 c2
  have l1 := lcg_range (ia := ia1) (ic := ic1) (m := m1) a1 (by omega) (by decide) (by decide)
    (by decide) (by decide) (by decide)
  have l2 := lcg_range (ia := ia2) (ic := ic2) (m := m2) b1 (by omega) (by decide) (by decide)
    (by decide) (by decide) (by decide)
  have l3 := lcg_range (ia := ia3) (ic := ic3) (m := m3) c1 (by omega) (by decide) (by decide)
    (by decide) (by decide) (by decide)
  have hj := drawIndex_range l3.1 l3.2
  unfold ran1
  simp only
  rw [if_neg (by omega)]
  refine ⟨⟨⟨l1, l2, l3⟩, fun k hk hk' => ?_⟩, ⟨rfl, rfl⟩, _, rfl, hj.1, hj.2, rfl, rfl⟩
  dsimp only
  split
  · exact ⟨l1, l2⟩
  · exact hr k hk hk'

theorem draws_succ (n : Nat) (s : Awgn) : draws (n + 1) s = (ran1 (draws n s)).2 := by
  induction n generalizing s with
  | zero => rfl
  | succ n ih => rw [draws, ih]; rfl

theorem draws_add (a b : Nat) (s : Awgn) : draws (a + b) s = draws b (draws a s) := by
  induction b with
  | zero => rfl
  | succ b ih => rw [← Nat.add_assoc, draws_succ, draws_succ, ih]

theorem draws_full (n : Nat) {s : Awgn} (h : Full s) : Full (draws n s) := by
  induction n with
  | zero => exact h
  | succ n ih => rw [draws_succ]; exact (ran1_full ih).1

theorem ix1_cast (n : Nat) {s : Awgn} (h : Full s) :
    (((draws n s).ix1 : Int) : ZMod 259200) = f1^[n] (s.ix1 : ZMod 259200) := by
  induction n with
  | zero => rfl
  | succ n ih =>
    have hf := draws_full n h
    rw [draws_succ, (ran1_full hf).2.1.1, iterate_succ_apply', ← ih]
    exact lcg1_cast hf.1.1.1 hf.1.1.2

theorem ix3_cast (n : Nat) {s : Awgn} (h : Full s) :
    (((draws n s).ix3 : Int) : ZMod 243000) = f3^[n] (s.ix3 : ZMod 243000) := by
  induction n with
  | zero => rfl
  | succ n ih =>
    have hf := draws_full n h
    rw [draws_succ, (ran1_full hf).2.1.2, iterate_succ_apply', ← ih]
    exact lcg3_cast hf.1.2.2.1 hf.1.2.2.2

/-! ### Sums -/

theorem sum_orbit {m : ℕ} [NeZero m] {f : ZMod m → ZMod m} (h : minimalPeriod f 0 = m) (x : ZMod m) (g : ℕ → ℚ) :
    ∑ t ∈ Finset.range m, g (f^[t] x).val = ∑ i ∈ Finset.range m, g i := by
  rw [← Fin.sum_univ_eq_sum_range (fun t => g (f^[t] x).val) m, ← Fin.sum_univ_eq_sum_range g m]
  have h1 : ∑ t : Fin m, g (f^[t] x).val = ∑ z : ZMod m, g z.val :=
    (orbit_bijective h x).sum_comp fun z => g z.val
  rw [h1]
  cases m with
  | zero => exact absurd rfl (NeZero.ne 0)
  | succ m => rfl

theorem sum_squares (n : ℚ) (k : ℕ) :
    ∑ i ∈ Finset.range k, (2 * (i : ℚ) - n) ^ 2 = k * (4 * k ^ 2 - 6 * k + 2 - 6 * n * k + 6 * n + 3 * n ^ 2) / 3 := by
  induction k with
  | zero => simp
  | succ k ih =>
    rw [Finset.sum_range_succ, ih]
    push_cast
    ring

/-- What the generators make in one period. -/
theorem sum_made (A : Arith) {s : Awgn} (h : Full s) :
    ∑ t ∈ Finset.range 259200, A.polar (some ((draws (t + 1) s).ix1, (draws (t + 1) s).ix2)) ^ 2 ≤ 86406 := by
  have hle : ∀ t, A.polar (some ((draws (t + 1) s).ix1, (draws (t + 1) s).ix2)) ^ 2 ≤
      (fun i : ℕ => (2 * (i : ℚ) / 259200 - 1) ^ 2 + 5 / 259200) (f1^[t] (f1 (s.ix1 : ZMod 259200))).val := by
    intro t
    have hf := draws_full (t + 1) h
    refine (polar_sq A hf.1.1 hf.1.2.1).trans (le_of_eq ?_)
    have hc := ix1_cast (t + 1) h
    rw [iterate_succ_apply] at hc
    rw [← hc]
    have hv : ((((draws (t + 1) s).ix1 : Int) : ZMod 259200).val : Int) = (draws (t + 1) s).ix1 := by
      rw [ZMod.val_intCast]
      exact Int.emod_eq_of_lt hf.1.1.1 hf.1.1.2
    have hq : ((((draws (t + 1) s).ix1 : Int) : ZMod 259200).val : ℚ) = ((draws (t + 1) s).ix1 : ℚ) := by
      exact_mod_cast hv
    simp only [hq]
  refine (Finset.sum_le_sum fun t _ => hle t).trans ?_
  rw [sum_orbit period1 (f1 (s.ix1 : ZMod 259200)) fun i : ℕ => (2 * (i : ℚ) / 259200 - 1) ^ 2 + 5 / 259200]
  have he : ∀ i : ℕ, (2 * (i : ℚ) / 259200 - 1) ^ 2 + 5 / 259200 = (2 * (i : ℚ) - 259200) ^ 2 / 259200 ^ 2 + 5 / 259200 := by
    intro i
    field_simp
  rw [Finset.sum_congr rfl fun i _ => he i, Finset.sum_add_distrib, ← Finset.sum_div, sum_squares, Finset.sum_const,
    Finset.card_range, nsmul_eq_mul]
  norm_num

/-- The table. -/
def held (A : Arith) (s : Awgn) : ℚ := ∑ k ∈ Finset.Icc (1 : Int) 97, A.polar (some (s.r k)) ^ 2

theorem held_step (A : Arith) {s : Awgn} (h : Full s) :
    A.polar (ran1 s).1 ^ 2 + held A (ran1 s).2 = A.polar (some ((ran1 s).2.ix1, (ran1 s).2.ix2)) ^ 2 + held A s := by
  obtain ⟨_, _, j, _, j1, j2, hv, hr⟩ := ran1_full h
  have hm : j ∈ Finset.Icc (1 : Int) 97 := Finset.mem_Icc.2 ⟨j1, j2⟩
  unfold held
  rw [hv, hr, ← Finset.add_sum_erase _ _ hm, ← Finset.add_sum_erase _ (fun k => A.polar (some (s.r k)) ^ 2) hm]
  have : ∑ x ∈ (Finset.Icc (1 : Int) 97).erase j,
      A.polar (some ((fun k => if k = j then ((ran1 s).2.ix1, (ran1 s).2.ix2) else s.r k) x)) ^ 2 =
      ∑ x ∈ (Finset.Icc (1 : Int) 97).erase j, A.polar (some (s.r x)) ^ 2 := by
    refine Finset.sum_congr rfl fun x hx => ?_
    simp only
    rw [if_neg (Finset.ne_of_mem_erase hx)]
  rw [this]
  simp only [if_true]
  ring

theorem held_run (A : Arith) {s : Awgn} (h : Full s) (n : ℕ) :
    ∑ t ∈ Finset.range n, A.polar (ran1 (draws t s)).1 ^ 2 + held A (draws n s) =
      ∑ t ∈ Finset.range n, A.polar (some ((draws (t + 1) s).ix1, (draws (t + 1) s).ix2)) ^ 2 + held A s := by
  induction n with
  | zero => simp [draws]
  | succ n ih =>
    rw [Finset.sum_range_succ, Finset.sum_range_succ]
    have := held_step A (draws_full n h)
    rw [← draws_succ] at this
    linarith

theorem held_le (A : Arith) {s : Awgn} (h : Full s) : held A s ≤ 194 := by
  unfold held
  have : ∀ k ∈ Finset.Icc (1 : Int) 97, A.polar (some (s.r k)) ^ 2 ≤ 2 := by
    intro k hk
    obtain ⟨k1, k2⟩ := Finset.mem_Icc.1 hk
    obtain ⟨h1, h2⟩ := h.2 k k1 k2
    refine (polar_sq A h1 h2).trans ?_
    simp only [m1] at h1
    have a0 : (0 : ℚ) ≤ (s.r k).1 := by exact_mod_cast h1.1
    have a1 : ((s.r k).1 : ℚ) ≤ 259200 := by exact_mod_cast (show (s.r k).1 ≤ 259200 by omega)
    have : (2 * ((s.r k).1 : ℚ) / 259200 - 1) ^ 2 ≤ 1 ^ 2 := by
      apply sq_le_sq'
      · have : 0 ≤ 2 * ((s.r k).1 : ℚ) / 259200 := by positivity
        linarith
      · have : 2 * ((s.r k).1 : ℚ) / 259200 ≤ 2 := by
          rw [div_le_iff₀ (by norm_num)]; linarith
        linarith
    have h5 : (1 : ℚ) ^ 2 + 5 / 259200 ≤ 2 := by norm_num
    linarith
  refine (Finset.sum_le_card_nsmul _ _ _ this).trans ?_
  rw [Int.card_Icc, nsmul_eq_mul, show (97 + 1 - 1 : Int).toNat = 97 from rfl]
  norm_num

theorem held_nonneg (A : Arith) (s : Awgn) : 0 ≤ held A s := Finset.sum_nonneg fun _ _ => sq_nonneg _

theorem tries_none (A : Arith) (n : Nat) : ∀ s, A.tries n s = none →
    ∀ i < n, 1 ≤ A.radius (A.polar (ran1 (draws (2 * i) s)).1) (A.polar (ran1 (draws (2 * i + 1) s)).1) := by
  induction n with
  | zero => intro s _ i hi; omega
  | succ n ih =>
    intro s h i hi
    unfold Arith.tries at h
    dsimp only at h
    split at h
    · cases h
    · rename_i hr
      cases i with
      | zero => exact not_lt.1 hr
      | succ i =>
        have := ih _ h i (by omega)
        rw [show 2 * (i + 1) = 2 + 2 * i by omega, show 2 + 2 * i + 1 = 2 + (2 * i + 1) by omega, draws_add, draws_add]
        exact this

theorem sum_pairs (a : ℕ → ℚ) (n : ℕ) :
    ∑ t ∈ Finset.range (2 * n), a t = ∑ i ∈ Finset.range n, (a (2 * i) + a (2 * i + 1)) := by
  induction n with
  | zero => simp
  | succ n ih =>
    rw [show 2 * (n + 1) = 2 * n + 1 + 1 by omega, Finset.sum_range_succ, Finset.sum_range_succ, Finset.sum_range_succ, ih]
    ring

/-- The loop is left. -/
theorem tries_some (A : Arith) {s : Awgn} (h : Full s) : A.tries 129600 s ≠ none := by
  intro hn
  have h1 := tries_none A _ s hn
  have h2 : (129600 : ℕ) • (9 / 10 : ℚ) ≤ ∑ t ∈ Finset.range (2 * 129600), A.polar (ran1 (draws t s)).1 ^ 2 := by
    rw [sum_pairs]
    have := Finset.card_nsmul_le_sum (Finset.range 129600)
      (fun i => A.polar (ran1 (draws (2 * i) s)).1 ^ 2 + A.polar (ran1 (draws (2 * i + 1) s)).1 ^ 2) (9 / 10)
      (fun i hi => radius_large A (h1 i (Finset.mem_range.1 hi)))
    rwa [Finset.card_range] at this
  have h3 := held_run A h 259200
  have h4 := sum_made A h
  have h5 := held_le A h
  have h6 := held_nonneg A (draws 259200 s)
  rw [show 2 * 129600 = 259200 from rfl, nsmul_eq_mul] at h2
  push_cast at h2
  linarith

/-! ### The table holds no number twice -/

/-- The index of draw `i`. -/
def indexAt (s : Awgn) (i : Nat) : Int := drawIndex (draws (i + 1) s).ix3

/-- Every index is drawn within a period of the third generator. -/
theorem index_soon {s : Awgn} (h : Full s) (t : Nat) {k : Int} (h1 : 1 ≤ k) (h2 : k ≤ 97) :
    ∃ i, t ≤ i ∧ i < t + 243000 ∧ indexAt s i = k := by
  have hf := draws_full (t + 1) h
  obtain ⟨i, hi⟩ := (orbit_bijective period3 (((draws (t + 1) s).ix3 : Int) : ZMod 243000)).2
    ((((k - 1) * 243000 + 96) / 97 : Int) : ZMod 243000)
  simp only at hi
  refine ⟨t + i, by omega, by omega, ?_⟩
  have hc := ix3_cast i hf
  rw [← draws_add, hi] at hc
  have hg := draws_full (t + 1 + i) h
  have he : (draws (t + 1 + i) s).ix3 = ((k - 1) * 243000 + 96) / 97 := by
    have := (ZMod.intCast_eq_intCast_iff' _ _ 243000).1 hc
    rw [show ((243000 : Nat) : Int) = m3 from rfl, Int.emod_eq_of_lt hg.1.2.2.1 hg.1.2.2.2, Int.emod_eq_of_lt (by omega) (by simp only [m3]; omega)] at this
    exact this
  unfold indexAt
  rw [show t + i + 1 = t + 1 + i by omega, he]
  unfold drawIndex
  rw [Int.tdiv_eq_ediv_of_nonneg (by omega)]
  simp only [m3]
  omega

/-- What a place of the table holds: what it has held from the beginning, or what was put there when its index was drawn
last. -/
theorem slot {s : Awgn} (h : Full s) (n : Nat) (k : Int) :
    ((draws n s).r k = s.r k ∧ ∀ i < n, indexAt s i ≠ k) ∨
    ∃ i < n, indexAt s i = k ∧ (∀ i', i < i' → i' < n → indexAt s i' ≠ k) ∧
      (draws n s).r k = ((draws (i + 1) s).ix1, (draws (i + 1) s).ix2) := by
  induction n with
  | zero => exact .inl ⟨rfl, by omega⟩
  | succ n ih =>
    obtain ⟨_, _, j, hj, _, _, _, hr⟩ := ran1_full (draws_full n h)
    rw [← draws_succ] at hj hr
    have hk : (draws (n + 1) s).r k =
        if k = j then ((draws (n + 1) s).ix1, (draws (n + 1) s).ix2) else (draws n s).r k := by
      conv_lhs => rw [hr]
    have hjn : indexAt s n = j := hj
    by_cases hkj : k = j
    · right
      rw [if_pos hkj] at hk
      exact ⟨n, by omega, hjn.trans hkj.symm, fun i' a b => by omega, hk⟩
    · rw [if_neg hkj] at hk
      rcases ih with ⟨a, b⟩ | ⟨i, a, b, c, d⟩
      · left
        refine ⟨hk.trans a, fun i hi => ?_⟩
        by_cases hin : i = n
        · rw [hin, hjn]; exact fun e => hkj e.symm
        · exact b i (by omega)
      · right
        refine ⟨i, by omega, b, fun i' x y => ?_, hk.trans d⟩
        by_cases hin : i' = n
        · rw [hin, hjn]; exact fun e => hkj e.symm
        · exact c i' x (by omega)

/-- How the table is filled at the beginning. -/
def Filled (s : Awgn) : Prop :=
  ∀ k : Int, 1 ≤ k → k ≤ 97 → ((s.ix1 : Int) : ZMod 259200) = f1^[(97 - k).toNat] ((s.r k).1 : ZMod 259200)

/-- The age of what a place of the table holds. -/
theorem age {s : Awgn} (h : Full s) (h0 : Filled s) (n : Nat) {k : Int} (h1 : 1 ≤ k) (h2 : k ≤ 97) :
    ∃ a : Nat, a < 243097 ∧ (((draws n s).ix1 : Int) : ZMod 259200) = f1^[a] (((draws n s).r k).1 : ZMod 259200) ∧
      ((∃ i < n, indexAt s i = k ∧ a + i + 1 = n) ∨ a + k.toNat = n + 97) := by
  rcases slot h n k with ⟨a, b⟩ | ⟨i, a, b, c, d⟩
  · refine ⟨n + (97 - k).toNat, ?_, ?_, .inr (by omega)⟩
    · obtain ⟨i, i1, i2, i3⟩ := index_soon h 0 h1 h2
      have : ¬ i < n := fun hi => b i hi i3
      omega
    · rw [a, ix1_cast n h, h0 k h1 h2, ← iterate_add_apply]
  · refine ⟨n - (i + 1), ?_, ?_, .inl ⟨i, a, b, by omega⟩⟩
    · obtain ⟨i', i1, i2, i3⟩ := index_soon h (i + 1) h1 h2
      have : ¬ i' < n := fun hi => c i' (by omega) hi i3
      omega
    · rw [d]
      have : n = (i + 1) + (n - (i + 1)) := by omega
      conv_lhs => rw [this, draws_add]
      exact ix1_cast _ (draws_full _ h)

theorem ages_ne {x : ZMod 259200} {a b : Nat} (ha : a < 259200) (hb : b < 259200) (h : f1^[a] x = f1^[b] x) : a = b := by
  have := iterate_injOn_Iio_minimalPeriod (f := f1) (x := x)
  rw [full_orbit period1 x] at this
  exact this ha hb h

/-- Two places hold different numbers. -/
theorem slots_differ {s : Awgn} (h : Full s) (h0 : Filled s) (n : Nat) {k l : Int} (h1 : 1 ≤ k) (h2 : k ≤ 97)
    (h3 : 1 ≤ l) (h4 : l ≤ 97) (hkl : k ≠ l) : ((draws n s).r k).1 ≠ ((draws n s).r l).1 := by
  intro he
  obtain ⟨a, a1, a2, a3⟩ := age h h0 n h1 h2
  obtain ⟨b, b1, b2, b3⟩ := age h h0 n h3 h4
  rw [he] at a2
  have hab := ages_ne (by omega) (by omega) (a2.symm.trans b2)
  rcases a3 with ⟨i, i1, i2, i3⟩ | i3 <;> rcases b3 with ⟨j, j1, j2, j3⟩ | j3
  · have : i = j := by omega
    rw [← i2, ← j2, this] at hkl
    exact hkl rfl
  · omega
  · omega
  · omega

/-- Two draws in a row yield different numbers. -/
theorem draws_differ {s : Awgn} (h : Full s) (h0 : Filled s) (n : Nat) :
    ∃ p q, (ran1 (draws n s)).1 = some p ∧ (ran1 (draws (n + 1) s)).1 = some q ∧ PairOK p ∧ PairOK q ∧ p.1 ≠ q.1 := by
  have hf := draws_full n h
  have hg := draws_full (n + 1) h
  obtain ⟨_, _, j, _, j1, j2, j3, j4⟩ := ran1_full hf
  obtain ⟨_, _, l, _, l1, l2, l3, _⟩ := ran1_full hg
  refine ⟨_, _, j3, l3, hf.2 j j1 j2, hg.2 l l1 l2, ?_⟩
  rw [← draws_succ] at j4
  have hl : (draws (n + 1) s).r l = if l = j then ((draws (n + 1) s).ix1, (draws (n + 1) s).ix2) else (draws n s).r l := by
    conv_lhs => rw [j4]
  rw [hl]
  by_cases hlj : l = j
  · rw [if_pos hlj]
    intro he
    simp only at he
    obtain ⟨a, a1, a2, _⟩ := age h h0 n j1 j2
    have hc : (((draws (n + 1) s).ix1 : Int) : ZMod 259200) = f1 ((draws n s).ix1 : ZMod 259200) := by
      have := ix1_cast 1 hf
      rw [← draws_add] at this
      exact this
    rw [a2, ← iterate_succ_apply' f1, he] at hc
    have := ages_ne (a := 0) (b := a + 1) (by omega) (by omega) hc
    omega
  · rw [if_neg hlj]
    exact slots_differ h h0 n j1 j2 l1 l2 fun e => hlj e.symm

/-! ### The beginning -/

theorem fill_full (n : Nat) (j : Int) (s : Awgn) (h : InRange s)
    (hr : ∀ k, 1 ≤ k → k < j → PairOK (s.r k))
    (hc : ∀ k, 1 ≤ k → k < j → ((s.ix1 : Int) : ZMod 259200) = f1^[(j - 1 - k).toNat] ((s.r k).1 : ZMod 259200)) :
    InRange (fill n j s) ∧ ∀ k, 1 ≤ k → k < j + n → PairOK ((fill n j s).r k) ∧
      (((fill n j s).ix1 : Int) : ZMod 259200) = f1^[(j + n - 1 - k).toNat] (((fill n j s).r k).1 : ZMod 259200) := by
  induction n generalizing j s with
  | zero =>
    refine ⟨h, fun k hk hk' => ?_⟩
    simp only [fill]
    refine ⟨hr k hk (by omega), ?_⟩
    rw [show (j + (0 : Nat) - 1 - k) = j - 1 - k by omega]
    exact hc k hk (by omega)
  | succ n ih =>
    obtain ⟨⟨a1, a2⟩, ⟨b1, b2⟩, c⟩ := h
    have a2' := a2
    simp only [m1, m2] at a2 b2
    have l1 := lcg_range (ia := ia1) (ic := ic1) (m := m1) a1 (by omega) (by decide) (by decide)
      (by decide) (by decide) (by decide)
    have l2 := lcg_range (ia := ia2) (ic := ic2) (m := m2) b1 (by omega) (by decide) (by decide)
      (by decide) (by decide) (by decide)
    obtain ⟨r1, r2⟩ := ih (j + 1) (Awgn.mk (lcg ia1 ic1 m1 s.ix1) (lcg ia2 ic2 m2 s.ix2) s.ix3
      fun k => if k = j then (lcg ia1 ic1 m1 s.ix1, lcg ia2 ic2 m2 s.ix2) else s.r k)
      ⟨l1, l2, c⟩ (by
      intro k hk hk'
      dsimp only
      split
      · exact ⟨l1, l2⟩
      · exact hr k hk (by omega)) (by
      intro k hk hk'
      dsimp only
      split
      · rename_i e
        rw [show (j + 1 - 1 - k).toNat = 0 by omega]
        rfl
      · rw [lcg1_cast a1 a2', hc k hk (by omega), ← iterate_succ_apply' f1,
          show (j + 1 - 1 - k).toNat = (j - 1 - k).toNat + 1 by omega])
    rw [fill]
    refine ⟨r1, fun k hk hk' => ?_⟩
    have := r2 k hk (by omega)
    rw [show j + ((n + 1 : Nat) : Int) - 1 - k = j + 1 + n - 1 - k by omega]
    exact this

theorem newAwgn_full (idum : Int) (h : idum.natAbs < 2 ^ 63 - 54773) : Full (newAwgn idum) ∧ Filled (newAwgn idum) := by
  have e : (if idum < 0 then wrap64 (-idum) else idum) = idum.natAbs := by
    split
    · rw [wrap64_id] <;> omega
    · omega
  unfold newAwgn
  simp only [e]
  rw [wrap64_id (x := ic1 + idum.natAbs) (by simp only [ic1]; omega) (by simp only [ic1]; omega)]
  have h1 : 0 ≤ Int.tmod (ic1 + idum.natAbs) m1 := Int.tmod_nonneg _ (by simp only [ic1]; omega)
  have h2 : Int.tmod (ic1 + idum.natAbs) m1 < m1 := Int.tmod_lt_of_pos _ (by decide)
  generalize Int.tmod (ic1 + idum.natAbs) m1 = x at *
  have h2' : x < 259200 := h2
  have l1 := lcg_range (ia := ia1) (ic := ic1) (m := m1) h1 (by omega) (by decide) (by decide)
    (by decide) (by decide) (by decide)
  generalize lcg ia1 ic1 m1 x = y at *
  have hy : y < 259200 := l1.2
  have l2 := lcg_range (ia := ia1) (ic := ic1) (m := m1) l1.1 (by omega) (by decide) (by decide)
    (by decide) (by decide) (by decide)
  obtain ⟨r1, r2⟩ := fill_full 97 1 (Awgn.mk (lcg ia1 ic1 m1 y) (Int.tmod y m2)
      (Int.tmod (lcg ia1 ic1 m1 y) m3) fun _ => (0, 0))
    ⟨l2, ⟨Int.tmod_nonneg _ l1.1, Int.tmod_lt_of_pos _ (by decide)⟩,
      ⟨Int.tmod_nonneg _ l2.1, Int.tmod_lt_of_pos _ (by decide)⟩⟩ (by intro k h h'; omega) (by intro k h h'; omega)
  refine ⟨⟨r1, fun k hk hk' => (r2 k hk (by omega)).1⟩, fun k hk hk' => ?_⟩
  have := (r2 k hk (by omega)).2
  rw [show (1 + ((97 : Nat) : Int) - 1 - k) = 97 - k by omega] at this
  exact this

/-! ### A sample -/

theorem tries_eq (A : Arith) (n : Nat) : ∀ {s t v1 v2 r}, A.tries n s = some ((v1, v2, r), t) →
    ∃ i, t = draws (i + 2) s ∧ v1 = A.polar (ran1 (draws i s)).1 ∧ v2 = A.polar (ran1 (draws (i + 1) s)).1 ∧
      r = A.radius v1 v2 ∧ r < 1 := by
  induction n with
  | zero => intro s t v1 v2 r h; cases h
  | succ n ih =>
    intro s t v1 v2 r h
    unfold Arith.tries at h
    dsimp only at h
    split at h
    · rename_i hr
      cases h
      exact ⟨0, rfl, rfl, rfl, rfl, hr⟩
    · obtain ⟨i, e1, e2, e3, e4⟩ := ih h
      refine ⟨2 + i, ?_, ?_, ?_, e4⟩
      · rw [e1, Nat.add_assoc, draws_add 2]; rfl
      · rw [e2, draws_add 2]; rfl
      · rw [e3, Nat.add_assoc, draws_add 2]; rfl

theorem factor_some (A : Arith) {r : ℚ} (h0 : 0 < r) (h1 : r < 1) : ∃ f, A.factor r = some f := by
  unfold Arith.factor
  rw [if_neg (not_le.2 h0)]
  have hl : 0 ≤ -2 * A.log r := by
    have := A.log_neg r h0 h1
    linarith
  have h2 := rd_pos A hl
  have h3 : 0 ≤ A.rd (-2 * A.log r) / r := div_nonneg (by linarith [h2.1]) h0.le
  have h4 := rd_pos A h3
  dsimp only
  rw [if_neg (by linarith [h4.1])]
  exact ⟨_, rfl⟩

/-- The generator after some calls. -/
def Going (idum : Int) (s : Noise) : Prop :=
  (∃ t, s.gen = draws t (newAwgn idum)) ∧ s.kept ≠ some none

theorem get_going (A : Arith) {idum : Int} (h : idum.natAbs < 2 ^ 63 - 54773) {s : Noise} (hs : Going idum s) :
    ∃ y s', A.get 129600 s = some (some y, s') ∧ Going idum s' ∧ s'.rms = s.rms := by
  obtain ⟨⟨t, ht⟩, hk⟩ := hs
  obtain ⟨hF, hI⟩ := newAwgn_full idum h
  unfold Arith.get
  cases hc : s.kept with
  | some g =>
    cases g with
    | none => exact absurd hc hk
    | some g => exact ⟨_, _, rfl, ⟨⟨t, ht⟩, by simp⟩, rfl⟩
  | none =>
    dsimp only
    have hfull := draws_full t hF
    cases he : A.tries 129600 s.gen with
    | none => rw [ht] at he; exact absurd he (tries_some A hfull)
    | some x =>
      obtain ⟨⟨v1, v2, r⟩, gen⟩ := x
      dsimp only
      obtain ⟨i, e1, e2, e3, e4, e5⟩ := tries_eq A _ he
      rw [ht, ← draws_add] at e1 e2 e3
      obtain ⟨p, q, d1, d2, d3, d4, d5⟩ := draws_differ hF hI (t + i)
      have hr : 0 < r := by
        by_contra hn
        have hz := radius_zero A (e4 ▸ not_lt.1 hn)
        rw [e2, e3, d1] at hz
        rw [← Nat.add_assoc, d2] at hz
        exact d5 ((polar_zero A d3.1 d3.2 hz.1).trans (polar_zero A d4.1 d4.2 hz.2).symm)
      obtain ⟨f, hf⟩ := factor_some A hr e5
      rw [hf]
      exact ⟨_, _, rfl, ⟨⟨_, e1⟩, by simp⟩, rfl⟩

end Gosip.Dsp
