import Verif.Sip.MsgParse
import Verif.Sdp.StringLemmas

/-!
# `MsgIncompleteError.Error` and `MsgParseError.Error` (`sip/msgerror.go`)
-/

namespace Gosip.Sip

/-- `MsgIncompleteError.Error` (`sip/msgerror.go:26-28`). -/
def incompleteText (msg : Bytes) : Bytes := b!"Incomplete SIP message:\n" ++ msg

/-- The loop of `MsgParseError.Error` (`sip/msgerror.go:41-56`): what is written to the buffer, and the
final values of `line` and `lineOffset`. `i`, `o`, `line`, `lineOffset` are the Go variables; `i <
len(lines)-1` is "more lines follow". -/
def errLoop (off : Int) : List Bytes → Nat → Int → Nat → Int → Bytes × Nat × Int
  | [], _, _, line, lo => ([], line, lo)
  | l :: rest, i, o, line, lo =>
    let hit := o ≤ off ∧ off < o + l.length
    let r := errLoop off rest (i + 1) (o + l.length + 2) (if hit then i + 1 else line)
      (if hit then off - o else lo)
    (l ++ (if hit then b!"\n" ++ List.replicate (off - o).toNat 32 ++ b!"^" else []) ++
      (if rest = [] then [] else b!"\n") ++ r.1, r.2)

/-- `MsgParseError.Error` (`sip/msgerror.go:35-58`). Every operation in it is total in Go, so there is no
panic to model. -/
def parseErrorText (msg : Bytes) (off : Int) : Bytes :=
  let r := errLoop off (splitCRLF msg) 0 0 0 0
  b!"Error in SIP message at line " ++ natDec r.2.1 ++ b!" offset " ++ itoa r.2.2 ++ b!":\n" ++ r.1

end Gosip.Sip
