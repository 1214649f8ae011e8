import Verif.Dsp.Ulaw
import Verif.Spec.G711

namespace Gosip.Dsp
open Spec

theorem log2_or {m s : Nat} (h : m < 2 ^ (s + 8)) (h2 : s = 0 ∨ 2 ^ (s + 7) ≤ m) :
    Nat.log2 (m ||| 255) = s + 7 := by
  have h255 : 255 < 2 ^ (s + 8) := by
    calc 255 < 2 ^ 8 := by decide
      _ ≤ 2 ^ (s + 8) := Nat.pow_le_pow_right (by decide) (by omega)
  have hlt : m ||| 255 < 2 ^ (s + 8) := Nat.or_lt_two_pow h h255
  have hr : 255 ≤ m ||| 255 := Nat.right_le_or
  have hl : m ≤ m ||| 255 := Nat.left_le_or
  have hge : 2 ^ (s + 7) ≤ m ||| 255 := by
    rcases h2 with rfl | h2
    · simp; omega
    · omega
  have hne : m ||| 255 ≠ 0 := by omega
  apply Nat.le_antisymm
  · have := (Nat.log2_lt hne).2 hlt; omega
  · exact (Nat.le_log2 hne).2 hge

theorem log2_or_ge {m : Nat} (h : 2 ^ 15 ≤ m) : 15 ≤ Nat.log2 (m ||| 255) := by
  have hl : m ≤ m ||| 255 := Nat.left_le_or
  exact (Nat.le_log2 (by omega)).2 (by omega)

theorem log2_lt_64 {m : Nat} (h : m < 2 ^ 64) : Nat.log2 (m ||| 255) < 64 := by
  have hlt : m ||| 255 < 2 ^ 64 := Nat.or_lt_two_pow h (by decide)
  have hr : 255 ≤ m ||| 255 := Nat.right_le_or
  exact (Nat.log2_lt (by omega)).2 hlt

theorem bsr_or (ax : Reg) : bsr (ax ||| 0xFF) = BitVec.ofNat 64 (Nat.log2 (ax.toNat ||| 255)) := by
  simp [bsr, BitVec.toNat_or]

theorem ulawTail_loud (ax r13 : Reg) (h : 2 ^ 15 ≤ ax.toNat) : ulawTail ax r13 = r13 ^^^ 0x7F := by
  have h1 := log2_or_ge h
  have h2 := log2_lt_64 ax.isLt
  unfold ulawTail
  simp only [bsr_or]
  rw [if_pos]
  generalize Nat.log2 (ax.toNat ||| 255) = k at *
  have : (BitVec.ofNat 64 k - 7 : Reg) = BitVec.ofNat 64 (k - 7) := by
    apply BitVec.eq_of_toNat_eq
    simp [BitVec.toNat_sub]; omega
  rw [this, BitVec.toInt_eq_toNat_of_lt] <;> simp <;> omega

theorem ulawTail_seg (ax r13 : Reg) (s : Nat) (hs : s < 8) (h : ax.toNat < 2 ^ (s + 8))
    (h2 : s = 0 ∨ 2 ^ (s + 7) ≤ ax.toNat) :
    ulawTail ax r13 =
      (BitVec.ofNat 64 (ax.toNat / 2 ^ (s + 3) % 16) ||| BitVec.ofNat 64 (16 * s)) ^^^ r13 := by
  unfold ulawTail
  simp only [bsr_or, log2_or h h2]
  have e1 : (BitVec.ofNat 64 (s + 7) - 7 : Reg) = BitVec.ofNat 64 s := by
    apply BitVec.eq_of_toNat_eq
    simp [BitVec.toNat_sub]; omega
  have hpow : (2 : Nat) ^ (s + 8) ≤ 2 ^ 15 := Nat.pow_le_pow_right (by decide) (by omega)
  rw [e1, if_neg]
  · have e2 : (BitVec.ofNat 64 s + 3 : Reg).toNat = s + 3 := by
      simp [BitVec.toNat_add]; omega
    have e3 : (BitVec.ofNat 64 s <<< 4 : Reg) = BitVec.ofNat 64 (16 * s) := by
      apply BitVec.eq_of_toNat_eq
      simp [BitVec.toNat_shiftLeft, Nat.shiftLeft_eq]; omega
    have hm : ax.msb = false := by
      rw [BitVec.msb_eq_false_iff_two_mul_lt]; omega
    have e4 : (ax.sshiftRight (s + 3) &&& 0xF : Reg) =
        BitVec.ofNat 64 (ax.toNat / 2 ^ (s + 3) % 16) := by
      apply BitVec.eq_of_toNat_eq
      rw [BitVec.sshiftRight_eq_of_msb_false hm]
      simp only [BitVec.toNat_and, BitVec.toNat_ushiftRight, BitVec.toNat_ofNat,
        Nat.shiftRight_eq_div_pow]
      have : (15 % 2 ^ 64 : Nat) = 2 ^ 4 - 1 := by decide
      show ax.toNat / 2 ^ (s + 3) &&& (15 % 2 ^ 64) = _
      rw [this, Nat.and_two_pow_sub_one_eq_mod]
      omega
    rw [e2, e3, e4]
  · rw [BitVec.toInt_eq_toNat_of_lt] <;> simp <;> omega

theorem code_pos : ∀ s < 8, ∀ q < 16,
    ((BitVec.ofNat 64 q ||| BitVec.ofNat 64 (16 * s)) ^^^ (0xFF : Reg)).toNat = 255 - (16 * s + q) := by
  decide +kernel

theorem code_neg : ∀ s < 8, ∀ q < 16,
    ((BitVec.ofNat 64 q ||| BitVec.ofNat 64 (16 * s)) ^^^ (0x7F : Reg)).toNat = 127 - (16 * s + q) := by
  decide +kernel

/-- Every biased magnitude below 2^15 has a segment. -/
theorem seg_exists (m : Nat) (h1 : 128 ≤ m) (h2 : m < 2 ^ 15) :
    ∃ s < 8, 2 ^ (s + 7) ≤ m ∧ m < 2 ^ (s + 8) := by
  have hne : m ≠ 0 := by omega
  have a := (Nat.le_log2 hne (k := 7)).2 (by omega)
  have b := (Nat.log2_lt hne (k := 15)).2 h2
  refine ⟨Nat.log2 m - 7, by omega, ?_, ?_⟩
  · rw [Nat.sub_add_cancel a]; exact Nat.log2_self_le hne
  · have : Nat.log2 m - 7 + 8 = Nat.log2 m + 1 := by omega
    rw [this]; exact Nat.lt_log2_self

theorem step_bounds {m s : Nat} (a : 2 ^ (s + 7) ≤ m) (b : m < 2 ^ (s + 8)) :
    2 ^ (s + 7) + m / 2 ^ (s + 3) % 16 * 2 ^ (s + 3) ≤ m ∧
    m < 2 ^ (s + 7) + (m / 2 ^ (s + 3) % 16 + 1) * 2 ^ (s + 3) := by
  have e7 : 2 ^ (s + 7) = 16 * 2 ^ (s + 3) := by rw [show s + 7 = s + 3 + 4 by omega, Nat.pow_add]; omega
  have e8 : 2 ^ (s + 8) = 32 * 2 ^ (s + 3) := by rw [show s + 8 = s + 3 + 5 by omega, Nat.pow_add]; omega
  have hp : 0 < 2 ^ (s + 3) := Nat.two_pow_pos _
  rw [e7] at a ⊢
  rw [e8] at b
  generalize 2 ^ (s + 3) = p at *
  have h1 : 16 ≤ m / p := (Nat.le_div_iff_mul_le hp).2 (by omega)
  have h2 : m / p < 32 := (Nat.div_lt_iff_lt_mul hp).2 (by omega)
  have h3 : m / p % 16 = m / p - 16 := by omega
  have h4 := Nat.div_add_mod m p
  have h5 := Nat.mod_lt m hp
  rw [h3]
  generalize m / p = q at *
  obtain ⟨r, rfl⟩ : ∃ r, q = 16 + r := ⟨q - 16, by omega⟩
  simp only [Nat.add_sub_cancel_left, Nat.add_mul, Nat.mul_add] at *
  rw [Nat.mul_comm p r] at h4
  omega

/-- Master lemma of the encoder: for every 64-bit sample, either it is loud and the code is the
last one of its sign, or the code's interval contains the biased magnitude. -/
theorem linearToUlaw_spec (x : Int) (hx : -2 ^ 63 ≤ x) (hx' : x < 2 ^ 63) :
    (x.natAbs ≤ 32635 ∧ ∃ s < 8, ∃ q < 16,
      2 ^ (s + 7) + q * 2 ^ (s + 3) ≤ x.natAbs + 132 ∧
      x.natAbs + 132 < 2 ^ (s + 7) + (q + 1) * 2 ^ (s + 3) ∧
      (linearToUlaw (BitVec.ofInt 64 x)).toNat = (if 0 ≤ x then 255 else 127) - (16 * s + q)) ∨
    (32635 < x.natAbs ∧ (linearToUlaw (BitVec.ofInt 64 x)).toNat = if 0 ≤ x then 128 else 0) := by
  have hti : (BitVec.ofInt 64 x).toInt = x := by
    rw [BitVec.toInt_ofInt]
    exact Int.bmod_eq_of_le (by omega) (by omega)
  have hmsb : (BitVec.ofInt 64 x).msb = decide (x < 0) := by
    rw [BitVec.msb_eq_toInt, hti]
  have hm : (if (BitVec.ofInt 64 x).msb then (0x84 - BitVec.ofInt 64 x : Reg)
      else BitVec.ofInt 64 x + 0x84).toNat = x.natAbs + 132 := by
    rw [hmsb]
    split
    · rename_i h; simp at h
      simp [BitVec.toNat_sub]; omega
    · rename_i h; simp at h
      simp [BitVec.toNat_add]; omega
  have key : linearToUlaw (BitVec.ofInt 64 x) =
      ulawTail (if (BitVec.ofInt 64 x).msb then (0x84 - BitVec.ofInt 64 x : Reg)
        else BitVec.ofInt 64 x + 0x84) (if 0 ≤ x then 0xFF else 0x7F) := by
    unfold linearToUlaw
    rw [hmsb]
    by_cases h : x < 0
    · simp [h, show ¬ (0 ≤ x) by omega]
    · simp [h, show 0 ≤ x by omega]
  generalize hax : (if (BitVec.ofInt 64 x).msb then (0x84 - BitVec.ofInt 64 x : Reg)
      else BitVec.ofInt 64 x + 0x84) = ax at *
  rcases Nat.lt_or_ge 32635 x.natAbs with h | h
  · right
    refine ⟨h, ?_⟩
    rw [key, ulawTail_loud _ _ (by omega)]
    split <;> decide
  · left
    refine ⟨h, ?_⟩
    obtain ⟨s, hs, h1, h2⟩ := seg_exists ax.toNat (by omega) (by omega)
    obtain ⟨b1, b2⟩ := step_bounds h1 h2
    refine ⟨s, hs, ax.toNat / 2 ^ (s + 3) % 16, by omega, by omega, by omega, ?_⟩
    rw [key, ulawTail_seg ax _ s hs h2 (.inr h1)]
    split
    · exact code_pos s hs _ (by omega)
    · exact code_neg s hs _ (by omega)

/-- The decoder on the 256 codes. -/
theorem ulawToLinear_spec : ∀ c < 256, (ulawToLinear (BitVec.ofNat 64 c)).toInt = ulawSample c := by
  decide +kernel

end Gosip.Dsp
