import Verif.Sip.MsgParse

/-!
# What `ParseMsg` costs

The work of the loop of `ParseMsg`, counted in bytes and list nodes touched: every pass and every action
counts one, an action that copies a piece of the input or of the scratch buffer counts its bytes, the loop
of `AddrUnquotedDisplay` its passes, `ParseURI` the bytes it reads (it reads each byte once), and `lastAddr`
the nodes it walks over. The reading of the body after the loop is not counted.
-/

namespace Gosip.Sip.MsgM

/-- The passes of the loop of the action `AddrUnquotedDisplay` (`sip/sip.rl:199-201`); `n` counts down from
`p`. -/
def trimSteps (d : Bytes) (mark : Nat) : Nat → Nat
  | 0 => 0
  | n + 1 =>
    if mark < n + 1 then
      match d[n]? with
      | some c => if whitespacec c then trimSteps d mark n + 1 else 0
      | none => 0
    else 0

/-- The work of one action (`sip/sip.rl:72-250,437-485`). `value` without destination copies nothing in Go;
it is counted like the others. -/
def actWork (d : Bytes) (a : MAct) (x : Ctx) : Nat :=
  1 + match a with
    | .method | .requestURI | .viaProtocol | .viaVersion | .viaTransport | .viaHost | .name | .value | .addrUri
    | .callID | .contentType | .cseqMethod => x.p - x.mark
    | .reasonPhrase | .viaParam | .addrQuotedDisplay | .addrParam => x.amt
    | .addrUnquotedDisplay => trimSteps d x.mark x.p + (x.p - trimSteps d x.mark x.p - x.mark)
    | .lastAddr f => (x.msg.addrs f).length
    | _ => 0

/-- The work of the actions of a transition; nothing after an action that fails. -/
def actsWork (d : Bytes) : List MAct → Ctx → Nat
  | [], _ => 0
  | a :: l, x => actWork d a x +
      match exec d a x with
      | .ok y => actsWork d l y
      | _ => 0

/-- The work of one pass. -/
def passWork (d : Bytes) (k : Nat) (x : Ctx) : Nat :=
  1 + match d[x.p]? with
    | none => 0
    | some c =>
      match lookup (rows k) (symbol d k x.p c) with
      | none => 0
      | some r => actsWork d r.acts x

/-- The work of the first passes of the loop; none after its end. -/
def runWork (d : Bytes) : Nat → Nat → Ctx → Nat
  | 0, _, _ => 0
  | n + 1, k, x => passWork d k x +
      match step d k x with
      | .cont k' x' => runWork d n k' x'
      | _ => 0

/-- The work of at most `n` passes of the loop of `ParseMsg` (`sip/msg_parse.rl:29-78`). -/
def parseWork (n : Nat) (d : Bytes) : Nat := runWork d n 1 (initCtx d)

end Gosip.Sip.MsgM
