import Verif.Spec.Charsets

/-!
# Independent specification: inside of a quoted string

RFC 3261: `quoted-string = SWS DQUOTE *(qdtext / quoted-pair ) DQUOTE`, where line breaks
may occur only as folding: CR LF followed by space or tab.
-/

namespace Gosip.Spec

/-- The inside of a quoted string: plain bytes (neither the quote, the backslash, CR nor LF),
backslash pairs, and folds CR LF (space or tab). -/
inductive QBody : Bytes → Prop where
  | nil : QBody []
  | plain {c s} : c ≠ 34 → c ≠ 92 → c ≠ 13 → c ≠ 10 → QBody s → QBody (c :: s)
  | pair {c s} : quotable c → QBody s → QBody (92 :: c :: s)
  | fold {w s} : (w = 32 ∨ w = 9) → QBody (w :: s) → QBody (13 :: 10 :: w :: s)

/-- As `QBody`, but also allowing a line feed that does not follow a carriage return. -/
inductive QBodyLF : Bytes → Prop where
  | nil : QBodyLF []
  | plain {c s} : c ≠ 34 → c ≠ 92 → c ≠ 13 → QBodyLF s → QBodyLF (c :: s)
  | pair {c s} : quotable c → QBodyLF s → QBodyLF (92 :: c :: s)
  | fold {w s} : (w = 32 ∨ w = 9) → QBodyLF (10 :: w :: s) → QBodyLF (13 :: 10 :: w :: s)

/-- Every line feed in the text follows a carriage return. `prev` is the byte before the text. -/
def noBareLF (prev : UInt8) : Bytes → Prop
  | [] => True
  | c :: s => (c = 10 → prev = 13) ∧ noBareLF c s

end Gosip.Spec
