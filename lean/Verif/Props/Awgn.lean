import Verif.Dsp.Awgn

/-!
# Property C32: the noise generator stays in its table
-/

namespace Gosip.Dsp

/-- The three generators are in range. -/
def InRange (s : Awgn) : Prop :=
  (0 ≤ s.ix1 ∧ s.ix1 < m1) ∧ (0 ≤ s.ix2 ∧ s.ix2 < m2) ∧ (0 ≤ s.ix3 ∧ s.ix3 < m3)

/-- A table entry `(a, b)` stands for `(a + b/m2)/m1`; it lies in `[0, 1)`. -/
def UnitValue (v : Int × Int) : Prop := 0 ≤ v.1 * m2 + v.2 ∧ v.1 * m2 + v.2 < m1 * m2

theorem wrap64_id {x : Int} (h1 : -2 ^ 63 ≤ x) (h2 : x < 2 ^ 63) : wrap64 x = x :=
  Int.bmod_eq_of_le (by omega) (by omega)

theorem lcg_range {ia ic m x : Int} (h0 : 0 ≤ x) (hx : x < 1000000) (ha : 0 ≤ ia) (ha' : ia < 10000)
    (hc : 0 ≤ ic) (hc' : ic < 100000) (hm : 0 < m) : 0 ≤ lcg ia ic m x ∧ lcg ia ic m x < m := by
  have hp : 0 ≤ ia * x := Int.mul_nonneg ha h0
  have hq : ia * x ≤ 10000 * 1000000 := Int.mul_le_mul (by omega) (by omega) h0 (by omega)
  unfold lcg
  rw [wrap64_id (x := ia * x) (by omega) (by omega), wrap64_id (by omega) (by omega)]
  exact ⟨Int.tmod_nonneg _ (by omega), Int.tmod_lt_of_pos _ hm⟩

theorem unitValue_of {a b : Int} (h1 : 0 ≤ a) (h2 : a < m1) (h3 : 0 ≤ b) (h4 : b < m2) :
    UnitValue (a, b) := by
  simp only [m1, m2] at *
  constructor <;> simp only [m1, m2] <;> omega

theorem fill_ok (n : Nat) (j : Int) (s : Awgn) (h : InRange s)
    (hr : ∀ k, 1 ≤ k → k < j → UnitValue (s.r k)) :
    InRange (fill n j s) ∧ ∀ k, 1 ≤ k → k < j + n → UnitValue ((fill n j s).r k) := by
  induction n generalizing j s with
  | zero => exact ⟨h, by simpa [fill] using hr⟩
  | succ n ih =>
    obtain ⟨⟨a1, a2⟩, ⟨b1, b2⟩, c⟩ := h
    simp only [m1, m2] at a2 b2
    have l1 := lcg_range (ia := ia1) (ic := ic1) (m := m1) a1 (by omega) (by decide) (by decide)
      (by decide) (by decide) (by decide)
    have l2 := lcg_range (ia := ia2) (ic := ic2) (m := m2) b1 (by omega) (by decide) (by decide)
      (by decide) (by decide) (by decide)
    obtain ⟨r1, r2⟩ := ih (j + 1) (Awgn.mk (lcg ia1 ic1 m1 s.ix1) (lcg ia2 ic2 m2 s.ix2) s.ix3
      fun k => if k = j then (lcg ia1 ic1 m1 s.ix1, lcg ia2 ic2 m2 s.ix2) else s.r k)
      ⟨l1, l2, c⟩ (by
      intro k hk hk'
      dsimp only
      split
      · exact unitValue_of l1.1 l1.2 l2.1 l2.2
      · exact hr k hk (by omega))
    rw [fill]
    refine ⟨r1, fun k hk hk' => r2 k hk (by omega)⟩

/-- The generator invariant: everything in range and the table full of unit values. -/
def Ready (s : Awgn) : Prop := InRange s ∧ ∀ k, 1 ≤ k → k ≤ 97 → UnitValue (s.r k)

theorem drawIndex_range {x : Int} (h0 : 0 ≤ x) (h1 : x < m3) :
    1 ≤ drawIndex x ∧ drawIndex x ≤ 97 := by
  simp only [drawIndex, m3] at *
  rw [Int.tdiv_eq_ediv_of_nonneg (by omega)]
  omega

theorem ran1_ready {s : Awgn} (h : Ready s) :
    Ready (ran1 s).2 ∧ ∃ v, (ran1 s).1 = some v ∧ UnitValue v := by
  obtain ⟨⟨⟨a1, a2⟩, ⟨b1, b2⟩, c1, c2⟩, hr⟩ := h
  simp only [m1, m2, m3] at a2 b2 c2
  have l1 := lcg_range (ia := ia1) (ic := ic1) (m := m1) a1 (by omega) (by decide) (by decide)
    (by decide) (by decide) (by decide)
  have l2 := lcg_range (ia := ia2) (ic := ic2) (m := m2) b1 (by omega) (by decide) (by decide)
    (by decide) (by decide) (by decide)
  have l3 := lcg_range (ia := ia3) (ic := ic3) (m := m3) c1 (by omega) (by decide) (by decide)
    (by decide) (by decide) (by decide)
  have hj := drawIndex_range l3.1 l3.2
  unfold ran1
  simp only
  rw [if_neg (by omega)]
  refine ⟨⟨⟨l1, l2, l3⟩, fun k hk hk' => ?_⟩, _, rfl, hr _ hj.1 hj.2⟩
  dsimp only
  split
  · exact unitValue_of l1.1 l1.2 l2.1 l2.2
  · exact hr k hk hk'

theorem draws_ready (n : Nat) {s : Awgn} (h : Ready s) : Ready (draws n s) := by
  induction n generalizing s with
  | zero => exact h
  | succ n ih => exact ih (ran1_ready h).1

theorem newAwgn_ready (idum : Int) (h : idum.natAbs < 2 ^ 63 - 54773) : Ready (newAwgn idum) := by
  have e : (if idum < 0 then wrap64 (-idum) else idum) = idum.natAbs := by
    split
    · rw [wrap64_id] <;> omega
    · omega
  unfold newAwgn
  simp only [e]
  rw [wrap64_id (x := ic1 + idum.natAbs) (by simp only [ic1]; omega) (by simp only [ic1]; omega)]
  have h1 : 0 ≤ Int.tmod (ic1 + idum.natAbs) m1 := Int.tmod_nonneg _ (by simp only [ic1]; omega)
  have h2 : Int.tmod (ic1 + idum.natAbs) m1 < m1 := Int.tmod_lt_of_pos _ (by decide)
  generalize Int.tmod (ic1 + idum.natAbs) m1 = x at *
  have h2' : x < 259200 := h2
  have l1 := lcg_range (ia := ia1) (ic := ic1) (m := m1) h1 (by omega) (by decide) (by decide)
    (by decide) (by decide) (by decide)
  generalize lcg ia1 ic1 m1 x = y at *
  have hy : y < 259200 := l1.2
  have l2 := lcg_range (ia := ia1) (ic := ic1) (m := m1) l1.1 (by omega) (by decide) (by decide)
    (by decide) (by decide) (by decide)
  obtain ⟨r1, r2⟩ := fill_ok 97 1 (Awgn.mk (lcg ia1 ic1 m1 y) (Int.tmod y m2)
      (Int.tmod (lcg ia1 ic1 m1 y) m3) fun _ => (0, 0))
    ⟨l2, ⟨Int.tmod_nonneg _ l1.1, Int.tmod_lt_of_pos _ (by decide)⟩,
      ⟨Int.tmod_nonneg _ l2.1, Int.tmod_lt_of_pos _ (by decide)⟩⟩ (by intro k h h'; omega)
  exact ⟨r1, fun k hk hk' => r2 k hk (by omega)⟩

end Gosip.Dsp

namespace Gosip.Props
open Dsp

/-- **C32 (all seeds but the largest 54774 of each sign).** After any number of draws the next
draw uses an index in 1..97, returns a table entry in `[0, 1)` and never the fallback.
The full statement ranges over every 64-bit seed; it fails for the others, see
`C32_large_seed_falls_back`. -/
theorem C32_noise_in_table_partial (idum : Int) (h : idum.natAbs < 2 ^ 63 - 54773) (n : Nat) :
    let s := draws n (newAwgn idum)
    (1 ≤ drawIndex (ran1 s).2.ix3 ∧ drawIndex (ran1 s).2.ix3 ≤ 97) ∧ InRange (ran1 s).2 ∧
    ∃ v, (ran1 s).1 = some v ∧ UnitValue v := by
  have hs := draws_ready n (newAwgn_ready idum h)
  obtain ⟨h1, v, h2, h3⟩ := ran1_ready hs
  exact ⟨drawIndex_range h1.1.2.2.1 h1.1.2.2.2, h1.1, v, h2, h3⟩

/-- The default seed of `NewAWGN` (`dsp/awgn.go:56`) qualifies. -/
example : (7162534 : Int).natAbs < 2 ^ 63 - 54773 := by decide

/-- **C32 is false as stated**: the largest seed overflows `ic1 + idum`, the generators go
negative and the very first draw returns the fallback `-1`; the smallest seed likewise. -/
theorem C32_large_seed_falls_back :
    (ran1 (newAwgn (2 ^ 63 - 1))).1 = none ∧ (ran1 (newAwgn (-2 ^ 63))).1 = none := by
  decide +kernel

end Gosip.Props
