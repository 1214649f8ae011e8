import Verif.Dsp.UlawLemmas

/-!
# Properties C30, C31: μ-law companding and mixing
-/

namespace Gosip.Dsp
open Spec

/-- `LinearToUlaw` on a sample given as an integer (64-bit two's complement). -/
def encode (x : Int) : Nat := (linearToUlaw (BitVec.ofInt 64 x)).toNat

/-- `UlawToLinear` on a byte. -/
def decode (c : Nat) : Int := (ulawToLinear (BitVec.ofNat 64 c)).toInt

/-- A 64-bit sample. -/
def Sample (x : Int) : Prop := -2 ^ 63 ≤ x ∧ x < 2 ^ 63

/-- The lower end of the `k`-th magnitude interval. -/
def lowEnd (k : Nat) : Nat := 2 ^ (k / 16 + 7) + k % 16 * 2 ^ (k / 16 + 3)

/-- The encoder as a magnitude index. -/
theorem encode_index (x : Int) (hx : Sample x) : ∃ k < 128,
    encode x = (if 0 ≤ x then 255 else 127) - k ∧
    lowEnd k ≤ x.natAbs + 132 ∧
    (32635 < x.natAbs → k = 127) ∧
    (x.natAbs ≤ 32635 → x.natAbs + 132 < lowEnd k + 2 ^ (k / 16 + 3)) := by
  rcases linearToUlaw_spec x hx.1 hx.2 with ⟨h, s, hs, q, hq, h1, h2, h3⟩ | ⟨h, h1⟩
  · refine ⟨16 * s + q, by omega, h3, ?_, by omega, ?_⟩
    · rw [lowEnd, show (16 * s + q) / 16 = s by omega, show (16 * s + q) % 16 = q by omega]
      exact h1
    · intro _
      rw [lowEnd, show (16 * s + q) / 16 = s by omega, show (16 * s + q) % 16 = q by omega]
      rw [Nat.add_mul] at h2; omega
  · refine ⟨127, by omega, ?_, ?_, by omega, by omega⟩
    · rw [encode, h1]; split <;> rfl
    · have : lowEnd 127 = 31744 := by decide
      omega

theorem lowEnd_step : ∀ k < 127, lowEnd k + 2 ^ (k / 16 + 3) = lowEnd (k + 1) := by decide +kernel

theorem lowEnd_mono {a b : Nat} (h : a ≤ b) (hb : b < 128) : lowEnd a ≤ lowEnd b := by
  induction b with
  | zero => simp [Nat.le_zero.1 h]
  | succ b ih =>
    rcases Nat.lt_or_ge b a with h' | h'
    · rw [show a = b + 1 by omega]; omega
    · have := ih h' (by omega)
      have := lowEnd_step b (by omega)
      have := Nat.two_pow_pos (b / 16 + 3)
      omega

theorem index_mono {x y : Int} {k l : Nat} (hk : k < 128) (hl : l < 128)
    (hxy : x.natAbs ≤ y.natAbs) (h1 : lowEnd k ≤ x.natAbs + 132)
    (h2 : 32635 < y.natAbs → l = 127)
    (h3 : y.natAbs ≤ 32635 → y.natAbs + 132 < lowEnd l + 2 ^ (l / 16 + 3)) : k ≤ l := by
  rcases Nat.lt_or_ge 32635 y.natAbs with h | h
  · rw [h2 h]; omega
  · have h3 := h3 h
    rcases Nat.lt_or_ge l k with hlt | hge
    · have := lowEnd_mono (show l + 1 ≤ k by omega) hk
      have := lowEnd_step l (by omega)
      omega
    · exact hge

theorem decode_spec (c : Nat) (h : c < 256) : decode c = ulawSample c := ulawToLinear_spec c h

theorem decode_pos : ∀ k < 128, ulawSample (255 - k) = (lowEnd k : Int) + 2 ^ (k / 16 + 2) - 132 := by
  decide +kernel
theorem decode_neg : ∀ k < 128,
    ulawSample (127 - k) = 132 - (lowEnd k : Int) - 2 ^ (k / 16 + 2) := by
  decide +kernel
theorem value_mono {a b : Nat} (h : a ≤ b) (hb : b < 128) :
    (lowEnd a : Int) + 2 ^ (a / 16 + 2) ≤ lowEnd b + 2 ^ (b / 16 + 2) := by
  have := lowEnd_mono h hb
  have : (2 : Nat) ^ (a / 16 + 2) ≤ 2 ^ (b / 16 + 2) :=
    Nat.pow_le_pow_right (by decide) (by omega)
  have : (2 : Int) ^ (a / 16 + 2) ≤ 2 ^ (b / 16 + 2) := by exact_mod_cast this
  omega
theorem value_nonneg : ∀ k < 128, 132 ≤ lowEnd k + 2 ^ (k / 16 + 2) := by decide +kernel

end Gosip.Dsp

namespace Gosip.Props
open Dsp Spec

/-- **C30 (range and decoder).** Every 64-bit sample is encoded as a byte; the decoder is the
G.711 one on every byte, with values in -32124..32124. -/
theorem C30_ulaw_ranges :
    (∀ x, Sample x → encode x < 256) ∧
    ∀ c < 256, decode c = ulawSample c ∧ -32124 ≤ decode c ∧ decode c ≤ 32124 := by
  constructor
  · intro x hx
    obtain ⟨k, _, h, _⟩ := encode_index x hx
    split at h <;> omega
  · intro c hc
    rw [decode_spec c hc]
    have : ∀ c < 256, ulawSample c = ulawSample c ∧ -32124 ≤ ulawSample c ∧ ulawSample c ≤ 32124 := by
      decide +kernel
    exact this c hc

/-- **C30 (codes are stable).** Re-encoding a decoded byte gives the byte, except for negative
zero (127), which becomes positive zero (255). -/
theorem C30_encode_decode (c : Nat) (hc : c < 256) :
    encode (decode c) = if c = 127 then 255 else c := by
  revert c
  unfold encode decode
  decide +kernel

/-- **C30 (quantisation error).** Within the representable range the reconstruction differs from
the sample by at most half the step of its segment, and has the sample's sign. -/
theorem C30_error (x : Int) (hx : x.natAbs ≤ 32635) :
    (decode (encode x) - x).natAbs ≤ 2 ^ (seg (encode x) + 2) ∧
    (0 ≤ x → 0 ≤ decode (encode x)) ∧ (x ≤ 0 → decode (encode x) ≤ 0) := by
  obtain ⟨k, hk, h, h1, -, h3⟩ := encode_index x ⟨by omega, by omega⟩
  have h3 := h3 hx
  have hv := value_nonneg k hk
  have e : 2 ^ (k / 16 + 3) = 2 * 2 ^ (k / 16 + 2) := by rw [Nat.pow_succ, Nat.mul_comm]
  have hz : k = 0 ∨ 0 < k := by omega
  by_cases h0 : 0 ≤ x
  · rw [if_pos h0] at h
    have hs : seg (255 - k) = k / 16 := by simp [seg]; omega
    rw [h, decode_spec _ (by omega), decode_pos k hk, hs]
    have : ((2 : Int) ^ (k / 16 + 2)) = ((2 ^ (k / 16 + 2) : Nat) : Int) := by simp
    refine ⟨by omega, by omega, fun hx0 => ?_⟩
    have hx0 : x = 0 := by omega
    subst hx0
    rcases hz with rfl | hz
    · decide
    · have := lowEnd_mono (show 1 ≤ k by omega) hk
      have : lowEnd 1 = 136 := by decide
      simp at h1; omega
  · rw [if_neg h0] at h
    have hs : seg (127 - k) = k / 16 := by simp [seg]; omega
    rw [h, decode_spec _ (by omega), decode_neg k hk, hs]
    have : ((2 : Int) ^ (k / 16 + 2)) = ((2 ^ (k / 16 + 2) : Nat) : Int) := by simp
    exact ⟨by omega, by omega, by omega⟩

/-- **C30 (saturation).** Louder samples give the largest value of their sign. -/
theorem C30_saturation (x : Int) (hx : Sample x) :
    (32635 < x → decode (encode x) = 32124) ∧ (x < -32635 → decode (encode x) = -32124) := by
  obtain ⟨k, hk, h, -, h2, -⟩ := encode_index x hx
  constructor <;> intro hl
  · rw [h2 (by omega), if_pos (by omega)] at h
    rw [h, decode_spec _ (by omega)]; decide
  · rw [h2 (by omega), if_neg (by omega)] at h
    rw [h, decode_spec _ (by omega)]; decide

/-- **C30 (symmetry).** The code of `-x` is the code of `x` with the sign bit cleared. -/
theorem C30_symmetry (x : Int) (hx : Sample x) (h0 : 0 < x) : encode x = encode (-x) + 128 := by
  obtain ⟨k, hk, h, h1, h2, h3⟩ := encode_index x hx
  obtain ⟨l, hl, h', h1', h2', h3'⟩ := encode_index (-x) ⟨by have := hx.2; omega, by omega⟩
  have e : (-x).natAbs = x.natAbs := by omega
  have a := index_mono hk hl (x := x) (y := -x) (by omega) h1 h2' h3'
  have b := index_mono hl hk (x := -x) (y := x) (by omega) h1' h2 h3
  rw [if_pos (by omega)] at h
  rw [if_neg (by omega)] at h'
  omega

/-- **C30 (monotone).** Compression followed by expansion never inverts the order of samples. -/
theorem C30_monotone (x y : Int) (hx : Sample x) (hy : Sample y) (hxy : x ≤ y) :
    decode (encode x) ≤ decode (encode y) := by
  obtain ⟨k, hk, h, h1, h2, h3⟩ := encode_index x hx
  obtain ⟨l, hl, h', h1', h2', h3'⟩ := encode_index y hy
  have hv := value_nonneg k hk
  have hw := value_nonneg l hl
  have ek : ((2 : Int) ^ (k / 16 + 2)) = ((2 ^ (k / 16 + 2) : Nat) : Int) := by simp
  have el : ((2 : Int) ^ (l / 16 + 2)) = ((2 ^ (l / 16 + 2) : Nat) : Int) := by simp
  by_cases hx0 : 0 ≤ x
  · have a := index_mono hk hl (x := x) (y := y) (by omega) h1 h2' h3'
    rw [if_pos hx0] at h
    rw [if_pos (by omega)] at h'
    rw [h, h', decode_spec _ (by omega), decode_spec _ (by omega), decode_pos k hk, decode_pos l hl]
    have := value_mono a hl
    omega
  · rw [if_neg hx0] at h
    by_cases hy0 : 0 ≤ y
    · rw [if_pos hy0] at h'
      rw [h, h', decode_spec _ (by omega), decode_spec _ (by omega), decode_neg k hk,
        decode_pos l hl]
      omega
    · rw [if_neg hy0] at h'
      have a := index_mono hl hk (x := y) (y := x) (by omega) h1' h2 h3
      rw [h, h', decode_spec _ (by omega), decode_spec _ (by omega), decode_neg k hk,
        decode_neg l hl]
      have := value_mono a hk
      omega

example : encode 1000 = 206 ∧ decode 206 = 988 ∧ encode (-32768) = 0 ∧ Sample 1000 := by
  unfold encode decode Sample; decide +kernel

/-! ### Mixing -/

theorem addSat_toInt (a b : Int16) : (addSat a b).toInt = satSum b.toInt a.toInt := by
  have ha := a.toInt_lt; have ha' := a.le_toInt
  have hb := b.toInt_lt; have hb' := b.le_toInt
  unfold addSat sat16 satSum
  rw [Int16.toInt_ofInt_of_le] <;> (repeat' split) <;> omega

theorem mixLoop_spec (n : Nat) (m : Mem) (dst src : Nat) (hd : dst % 8 = 0) (hs : src % 8 = 0)
    (hov : dst = src ∨ src + 8 * (n + 1) ≤ dst ∨ dst + 8 * (n + 1) ≤ src) :
    ∃ m', mixLoop n m dst src = some m' ∧
      ∀ a, m' a = if dst ≤ a ∧ a < dst + 8 * (n + 1) then addSat (m (src + (a - dst))) (m a)
        else m a := by
  induction n generalizing m dst src with
  | zero => exact ⟨_, by simp [mixLoop, mixBlock, hd, hs]; rfl, fun a => by simp⟩
  | succ n ih =>
    obtain ⟨m', h1, h2⟩ := ih
      (fun a => if dst ≤ a ∧ a < dst + 8 then addSat (m (src + (a - dst))) (m a) else m a)
      (dst + 8) (src + 8) (by omega) (by omega) (by omega)
    refine ⟨m', by simp [mixLoop, mixBlock, hd, hs, h1], fun a => ?_⟩
    rw [h2]
    by_cases h : dst ≤ a ∧ a < dst + 8
    · rw [if_neg (by omega), if_pos h, if_pos (by omega)]
    · by_cases h' : dst + 8 ≤ a ∧ a < dst + 8 + 8 * (n + 1)
      · have e : src + 8 + (a - (dst + 8)) = src + (a - dst) := by omega
        rw [if_pos h', e, if_neg h, if_neg (by omega),
          if_pos (by omega : dst ≤ a ∧ a < dst + 8 * (n + 1 + 1))]
      · rw [if_neg h', if_neg h, if_neg (by omega)]

/-- **C31.** For 16-byte aligned frames that coincide or do not overlap, exactly the 160 samples
at `dst` change, each to the saturated sum with the corresponding original sample at `src`. -/
theorem C31_mix_saturates (m : Mem) (dst src : Nat) (hd : dst % 8 = 0) (hs : src % 8 = 0)
    (hov : dst = src ∨ src + 160 ≤ dst ∨ dst + 160 ≤ src) :
    ∃ m', l16MixSat160 m dst src = some m' ∧
      (∀ i < 160, (m' (dst + i)).toInt = satSum (m (dst + i)).toInt (m (src + i)).toInt) ∧
      ∀ a, a < dst ∨ dst + 160 ≤ a → m' a = m a := by
  obtain ⟨m', h1, h2⟩ := mixLoop_spec 19 m dst src hd hs (by omega)
  refine ⟨m', h1, fun i hi => ?_, fun a ha => ?_⟩
  · rw [h2, if_pos (by omega), Nat.add_sub_cancel_left, addSat_toInt]
  · rw [h2, if_neg (by omega)]

/-- **C31 (precondition is needed).** A frame that is not 16-byte aligned faults. -/
theorem C31_unaligned_faults (m : Mem) (dst src : Nat) (h : dst % 8 ≠ 0 ∨ src % 8 ≠ 0) :
    l16MixSat160 m dst src = none := by
  have : mixBlock m dst src = none := by
    unfold mixBlock; rw [if_neg]; omega
  simp [l16MixSat160, mixLoop, this]

example : (l16MixSat160 (fun a => if a < 160 then 30000 else 10000) 0 160).map (· 7) =
    some 32767 := by decide +kernel

end Gosip.Props
