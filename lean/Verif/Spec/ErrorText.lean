import Verif.Spec.MsgText
import Verif.Spec.Grammar

/-!
# Specification: line breaks hidden in percent escapes
-/

namespace Gosip.Spec

/-- The text contains a percent escape for CR or LF: `%0D`, `%0d`, `%0A` or `%0a`. -/
def EscapedBreak (t : Bytes) : Prop := ∃ a b x, t = a ++ 37 :: 48 :: x :: b ∧ x ∈ b!"dDaA"

end Gosip.Spec
