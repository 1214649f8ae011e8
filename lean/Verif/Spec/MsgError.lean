import Verif.Sdp.StringLemmas

/-!
# Specification: how a parse error is shown
-/

namespace Gosip.Spec

/-- Lines joined with LF. -/
def joinLF (ls : List Bytes) : Bytes := joinByte 10 ls

/-- The message as it is shown: its lines, separated by LF instead of CR LF. -/
def Shown (msg text : Bytes) : Prop :=
  ∃ ls, ls ≠ [] ∧ msg = joinCRLF ls ∧ (∀ l ∈ ls, NoCRLF l) ∧ text = joinLF ls

/-- Byte number `off` of the message is byte number `col` of line number `before.length + 1`, whose text
is `line`; `after` are the other lines. -/
def Located (msg : Bytes) (off : Int) (before : List Bytes) (line : Bytes) (after : List Bytes) (col : Nat) :
    Prop :=
  msg = joinCRLF (before ++ line :: after) ∧ (∀ l ∈ before ++ line :: after, NoCRLF l) ∧
    col < line.length ∧ off = ((before.map fun l => l.length + 2).sum + col : Nat)

/-- The message with a caret below byte `col` of the line after `before`. -/
def withCaret (before : List Bytes) (line : Bytes) (after : List Bytes) (col : Nat) : Bytes :=
  joinLF (before ++ line :: (List.replicate col 32 ++ b!"^") :: after)

end Gosip.Spec
