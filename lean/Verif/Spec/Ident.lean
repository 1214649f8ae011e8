import Verif.Spec.Charsets

/-!
# Specification of identifier shapes
-/

namespace Gosip.Spec

/-- A lower case hexadecimal digit. -/
def LowHex (c : UInt8) : Prop := c ∈ b!"0123456789abcdef"

/-- The character found at a position of a UUID of version 4 (RFC 4122 section 4.4), with variant
digit `a`: groups of 8, 4, 4, 4 and 12 hexadecimal digits separated by dashes, the third group
starting with `4`. -/
def UUID4Char (i : Nat) (c : UInt8) : Prop :=
  if i = 8 ∨ i = 13 ∨ i = 18 ∨ i = 23 then c = 45
  else if i = 14 then c = 52
  else if i = 19 then c = 97
  else LowHex c

/-- A UUID of version 4. -/
def UUID4 (s : Bytes) : Prop := s.length = 36 ∧ ∀ i (h : i < s.length), UUID4Char i s[i]

instance : DecidablePred LowHex := fun c => by unfold LowHex; infer_instance

end Gosip.Spec
