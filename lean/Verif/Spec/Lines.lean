import Verif.Basic

/-!
# Specification: the lines of a message

RFC 3261 section 7.3.1: a header field ends at a CRLF that is not followed by a blank; a CRLF followed by a
space or a tab continues the field. The head of the message ends at the first empty line.
-/

namespace Gosip.Spec

/-- CR LF. -/
def CRLF : Bytes := [13, 10]

/-- Begins with a space or a tab. -/
def Blank (t : Bytes) : Prop := ∃ w r, t = w :: r ∧ (w = 32 ∨ w = 9)

/-- One logical line: within `L` every CRLF is followed by a blank. -/
def LogicalLine (L : Bytes) : Prop := ∀ x y, L ++ CRLF = x ++ CRLF ++ y → y = [] ∨ Blank y

/-- A header line: not empty, not the continuation of the line before, not beginning with the end of a
line. -/
structure HeaderLine (L : Bytes) : Prop where
  ne : L ≠ []
  start : ¬ Blank L
  nocr : L.head? ≠ some 13
  one : LogicalLine L

/-- The text of a head: the start line, the header lines and the empty line. -/
def headText (start : Bytes) (lines : List Bytes) : Bytes :=
  start ++ CRLF ++ lines.flatMap (· ++ CRLF) ++ CRLF

/-- `body` is what follows the first empty line of `d`. -/
def BodyOf (d body : Bytes) : Prop :=
  (∃ x, d = x ++ CRLF ++ CRLF ++ body) ∧ ∀ x y, d = x ++ CRLF ++ CRLF ++ y → y.length ≤ body.length

end Gosip.Spec
