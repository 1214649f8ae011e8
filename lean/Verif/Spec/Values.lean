import Verif.Spec.Headers
import Verif.Spec.Lines

/-!
# Specification: header values
-/

namespace Gosip.Spec

/-- A space or a tab. -/
def blank (c : UInt8) : Bool := c == 32 || c == 9

/-- Without the blanks at the beginning. -/
def skipBlanks (v : Bytes) : Bytes := v.dropWhile blank

/-- Without the white space at the beginning: blanks, and one continuation of the line with the blanks after
it (RFC 3261 section 25.1, `SWS`). -/
def skipWs (v : Bytes) : Bytes :=
  match skipBlanks v with
  | 13 :: 10 :: w :: r => if blank w then skipBlanks r else 13 :: 10 :: w :: r
  | t => t

/-- White space that may be absent: blanks, possibly with one continuation of the line (RFC 3261 section 25.1,
`SWS`). -/
inductive Sws : Bytes → Prop
  | blanks {w : Bytes} : Blanks w → Sws w
  | fold {w w' : Bytes} : Blanks w → Blanks w' → w' ≠ [] → Sws (w ++ CRLF ++ w')

/-- A continuation byte of UTF-8. -/
def utf8Cont (c : UInt8) : Prop := 128 ≤ c.toNat ∧ c.toNat ≤ 191

/-- The number of continuation bytes after a first byte (RFC 3261 section 25.1, `UTF8-NONASCII`). -/
def utf8Len (c : UInt8) : Option Nat :=
  if c.toNat < 192 then none
  else if c.toNat ≤ 223 then some 1
  else if c.toNat ≤ 239 then some 2
  else if c.toNat ≤ 247 then some 3
  else if c.toNat ≤ 251 then some 4
  else if c.toNat ≤ 253 then some 5
  else none

/-- The text of a header value: tabs, the bytes 32 to 127, UTF-8 sequences, and continued lines. -/
inductive ValueText : Bytes → Prop
  | nil : ValueText []
  | char {c : UInt8} {t : Bytes} : c = 9 ∨ (32 ≤ c.toNat ∧ c.toNat ≤ 127) → ValueText t → ValueText (c :: t)
  | utf8 {c : UInt8} {s t : Bytes} : utf8Len c = some s.length → (∀ x ∈ s, utf8Cont x) → ValueText t →
      ValueText (c :: s ++ t)
  | fold {w : UInt8} {t : Bytes} : blank w = true → ValueText t → ValueText (CRLF ++ w :: t)

end Gosip.Spec
