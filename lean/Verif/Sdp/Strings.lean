import Verif.Basic

/-!
# Standard library string functions used by `sdp/` (and by `sip/` for ports)

Modelled from their documentation.
-/

namespace Gosip

/-- `strings.HasPrefix(s, p)`. -/
def hasPrefix (p s : Bytes) : Bool := p.isPrefixOf s

/-- `strings.Split(s, sep)` for a one-byte separator. -/
def splitByte (sep : UInt8) : Bytes → List Bytes
  | [] => [[]]
  | c :: s =>
    if c = sep then [] :: splitByte sep s
    else match splitByte sep s with
      | [] => [[c]]
      | t :: ts => (c :: t) :: ts

/-- Is the text after a CR a LF. -/
def startsLF : Bytes → Bool
  | 10 :: _ => true
  | _ => false

/-- `strings.Split(s, "\r\n")`; the first argument says that the previous byte was the CR of a
separator. -/
def splitCRLFAux : Bool → Bytes → List Bytes
  | _, [] => [[]]
  | true, _ :: s => splitCRLFAux false s
  | false, c :: s =>
    if c = 13 ∧ startsLF s = true then [] :: splitCRLFAux true s
    else match splitCRLFAux false s with
      | [] => [[c]]
      | t :: ts => (c :: t) :: ts

/-- `strings.Split(s, "\r\n")`. -/
def splitCRLF (s : Bytes) : List Bytes := splitCRLFAux false s

/-- `strings.Index(s, string(c))`: position of the first `c`, `none` for -1. -/
def indexByte (c : UInt8) (s : Bytes) : Option Nat :=
  if s.contains c then some (s.takeWhile (· != c)).length else none

/-- `strconv.ParseUint(s, 10, bits)`: decimal digits only, at most `bits` bits. -/
def parseUint (bits : Nat) (s : Bytes) : Option Nat :=
  if s ≠ [] ∧ s.all isDigit = true ∧ decVal s < 2 ^ bits then some (decVal s) else none

/-- `strconv.Atoi` on a 64-bit platform: optional sign, decimal digits, 64-bit range. -/
def atoi : Bytes → Option Int
  | [] => none
  | c :: s =>
    if c = 45 then
      if s ≠ [] ∧ s.all isDigit = true ∧ decVal s ≤ 2 ^ 63 then some (-(decVal s : Int)) else none
    else
      let t := if c = 43 then s else c :: s
      if t ≠ [] ∧ t.all isDigit = true ∧ decVal t < 2 ^ 63 then some (decVal t : Int) else none

/-- `s[i:]`, with the slice-bounds panic. -/
def sliceFrom {ε : Type} (s : Bytes) (i : Nat) : Res ε Bytes :=
  if i ≤ s.length then .ok (s.drop i) else .panic

/-- `s[0:i]`, with the slice-bounds panic. -/
def sliceTo {ε : Type} (s : Bytes) (i : Nat) : Res ε Bytes :=
  if i ≤ s.length then .ok (s.take i) else .panic

/-- `l[i]`, with the index panic. -/
def idx {ε α : Type} (l : List α) (i : Nat) : Res ε α :=
  match l[i]? with
  | some a => .ok a
  | none => .panic

example : splitCRLF b!"ab\r\n\r\nc\r" = [b!"ab", [], b!"c\r"] := by decide
example : splitByte 32 b!"a  b" = [b!"a", [], b!"b"] := by decide
example : atoi b!"-12" = some (-12) ∧ atoi b!"+7" = some 7 ∧ atoi b!"1x" = none ∧ atoi b!"-" = none := by
  decide
example : parseUint 16 b!"65535" = some 65535 ∧ parseUint 16 b!"65536" = none := by decide

end Gosip
