import Mathlib.Dynamics.PeriodicPts.Defs
import Mathlib.Data.ZMod.Basic
import Mathlib.Algebra.BigOperators.Group.Finset.Basic
import Mathlib.Tactic.Ring
import Mathlib.Tactic.Linarith

/-!
# Linear congruential generators of full period
-/

namespace Gosip.Dsp
open Function

/-- The affine map of a generator. -/
def affine {R : Type} [CommRing R] (a c : ℤ) (x : R) : R := a * x + c

theorem affine_cast {m : ℕ} (a c : ℤ) (n : ℕ) (x : ℤ) :
    (((affine a c)^[n] x : ℤ) : ZMod m) = (affine a c)^[n] (x : ZMod m) := by
  induction n generalizing x with
  | zero => rfl
  | succ n ih =>
    rw [iterate_succ_apply, iterate_succ_apply, ih]
    simp [affine]

theorem affine_closed (a c : ℤ) (n : ℕ) : (affine a c)^[n] (0 : ℤ) * (a - 1) = c * (a ^ n - 1) := by
  induction n with
  | zero => simp
  | succ n ih =>
    rw [iterate_succ_apply']
    show (a * (affine a c)^[n] (0 : ℤ) + c) * (a - 1) = _
    rw [add_mul, mul_assoc, ih]
    ring

theorem affine_zero_iff {m : ℕ} (a c : ℤ) (ha : a ≠ 1) (n : ℕ) :
    (affine a c)^[n] (0 : ZMod m) = 0 ↔ (m : ℤ) * (a - 1) ∣ c * (a ^ n - 1) := by
  have h := affine_cast (m := m) a c n 0
  rw [Int.cast_zero] at h
  rw [← h, ZMod.intCast_zmod_eq_zero_iff_dvd, ← affine_closed]
  exact (mul_dvd_mul_iff_right (sub_ne_zero.2 ha)).symm

theorem full_period {m : ℕ} (f : ZMod m → ZMod m) (h : f^[m] 0 = 0)
    (hp : ∀ p, p.Prime → p ∣ m → f^[m / p] 0 ≠ 0) : minimalPeriod f 0 = m := by
  have hd : minimalPeriod f 0 ∣ m := IsPeriodicPt.minimalPeriod_dvd h
  obtain ⟨e, he⟩ := hd
  by_cases h1 : e = 1
  · rw [h1, mul_one] at he; exact he.symm
  · obtain ⟨p, hp1, hp2⟩ := Nat.exists_prime_and_dvd h1
    obtain ⟨k, rfl⟩ := hp2
    exfalso
    refine hp p hp1 ⟨minimalPeriod f 0 * k, he.trans (by ring)⟩ ?_
    have : m / p = minimalPeriod f 0 * k := Nat.div_eq_of_eq_mul_right hp1.pos (he.trans (by ring))
    rw [this]
    exact (isPeriodicPt_minimalPeriod f 0).mul_const k

/-- Every number is passed by, from every start. -/
theorem full_orbit {m : ℕ} [NeZero m] {f : ZMod m → ZMod m} (h : minimalPeriod f 0 = m) (x : ZMod m) :
    minimalPeriod f x = m := by
  have hinj : Injective fun t : Fin m => f^[t] (0 : ZMod m) := by
    intro a b hab
    have := (iterate_injOn_Iio_minimalPeriod (f := f) (x := (0 : ZMod m)))
    rw [h] at this
    exact Fin.ext (this a.2 b.2 hab)
  have hbij : Bijective fun t : Fin m => f^[t] (0 : ZMod m) :=
    (Fintype.bijective_iff_injective_and_card _).2 ⟨hinj, by simp⟩
  obtain ⟨t, ht⟩ := hbij.2 x
  have hper : (0 : ZMod m) ∈ periodicPts f :=
    minimalPeriod_pos_iff_mem_periodicPts.1 (by rw [h]; exact Nat.pos_of_ne_zero (NeZero.ne m))
  rw [← ht]
  simp only
  rw [minimalPeriod_apply_iterate hper, h]

theorem orbit_bijective {m : ℕ} [NeZero m] {f : ZMod m → ZMod m} (h : minimalPeriod f 0 = m) (x : ZMod m) :
    Bijective fun t : Fin m => f^[t] x := by
  refine (Fintype.bijective_iff_injective_and_card _).2 ⟨?_, by simp⟩
  intro a b hab
  have := (iterate_injOn_Iio_minimalPeriod (f := f) (x := x))
  rw [full_orbit h x] at this
  exact Fin.ext (this a.2 b.2 hab)

/-- The first generator has full period. -/
theorem period1 : minimalPeriod (affine (R := ZMod 259200) 7141 54773) 0 = 259200 := by
  refine full_period _ ?_ ?_
  · rw [affine_zero_iff _ _ (by decide)]
    decide +kernel
  · intro p hp hd
    have : p ∣ 2 ^ 7 * (3 ^ 4 * 5 ^ 2) := by simpa using hd
    have : p = 2 ∨ p = 3 ∨ p = 5 := by
      rcases (Nat.Prime.dvd_mul hp).1 this with h | h
      · exact .inl ((Nat.prime_dvd_prime_iff_eq hp Nat.prime_two).1 (hp.dvd_of_dvd_pow h))
      · rcases (Nat.Prime.dvd_mul hp).1 h with h | h
        · exact .inr (.inl ((Nat.prime_dvd_prime_iff_eq hp Nat.prime_three).1 (hp.dvd_of_dvd_pow h)))
        · exact .inr (.inr ((Nat.prime_dvd_prime_iff_eq hp Nat.prime_five).1 (hp.dvd_of_dvd_pow h)))
    rcases this with rfl | rfl | rfl <;> rw [Ne, affine_zero_iff _ _ (by decide)] <;> decide +kernel

/-- The third generator has full period. -/
theorem period3 : minimalPeriod (affine (R := ZMod 243000) 4561 51349) 0 = 243000 := by
  refine full_period _ ?_ ?_
  · rw [affine_zero_iff _ _ (by decide)]
    decide +kernel
  · intro p hp hd
    have : p ∣ 2 ^ 3 * (3 ^ 5 * 5 ^ 3) := by simpa using hd
    have : p = 2 ∨ p = 3 ∨ p = 5 := by
      rcases (Nat.Prime.dvd_mul hp).1 this with h | h
      · exact .inl ((Nat.prime_dvd_prime_iff_eq hp Nat.prime_two).1 (hp.dvd_of_dvd_pow h))
      · rcases (Nat.Prime.dvd_mul hp).1 h with h | h
        · exact .inr (.inl ((Nat.prime_dvd_prime_iff_eq hp Nat.prime_three).1 (hp.dvd_of_dvd_pow h)))
        · exact .inr (.inr ((Nat.prime_dvd_prime_iff_eq hp Nat.prime_five).1 (hp.dvd_of_dvd_pow h)))
    rcases this with rfl | rfl | rfl <;> rw [Ne, affine_zero_iff _ _ (by decide)] <;> decide +kernel

end Gosip.Dsp
