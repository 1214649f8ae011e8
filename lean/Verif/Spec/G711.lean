import Verif.Basic

/-!
# Specification of G.711 μ-law

A code byte is stored complemented: sign bit (1 = positive), three segment bits, four mantissa
bits. On the 16-bit scale the biased magnitude of segment `s`, step `q` is the middle of the
interval `[2^(s+7) + q*2^(s+3), 2^(s+7) + (q+1)*2^(s+3))`, the bias being 132.
-/

namespace Gosip.Spec

/-- Segment, mantissa and sign of a code byte `c < 256`. -/
def seg (c : Nat) : Nat := (255 - c) / 16 % 8
@[inherit_doc seg] def mant (c : Nat) : Nat := (255 - c) % 16
@[inherit_doc seg] def positive (c : Nat) : Prop := 128 ≤ c

instance (c : Nat) : Decidable (positive c) := inferInstanceAs (Decidable (128 ≤ c))

/-- Reconstructed magnitude of a code byte. -/
def ulawMag (c : Nat) : Nat := 2 ^ (seg c + 7) + mant c * 2 ^ (seg c + 3) + 2 ^ (seg c + 2) - 132

/-- Reconstructed sample of a code byte. -/
def ulawSample (c : Nat) : Int := if positive c then (ulawMag c : Int) else -(ulawMag c : Int)

/-- Saturating 16-bit sum. -/
def satSum (a b : Int) : Int := max (-32768) (min 32767 (a + b))

end Gosip.Spec
