import Verif.Sip.Msg

/-!
# Actions of the message machine (`sip/sip.rl:72-260,437-497,532-534`)
-/

namespace Gosip.Sip.MsgM

/-- The actions of `sip/sip.rl`; their effect is defined in `Verif.Sip.MsgParse`. The jumps (`fgoto`,
`gxh`, `fbreak`) are part of the transition table. -/
inductive MAct where
  | hold | mark | backtrack | start | append | hexHi | hexLo | method | versionMajor | versionMinor
  | requestURI | statusCode | reasonPhrase | viaNew | via | viaProtocol | viaVersion | viaTransport
  | viaHost | viaPort | viaParam | name | value | addrNew | addrQuotedDisplay | addrUnquotedDisplay
  | addrUri | addrParam | addr | callID | contentLength | contentType | cseq | cseqMethod | expires
  | maxForwards | minExpires | clen0 | expires0 | maxForwards0 | minExpires0 | valueNil
  | lastAddr (f : AField) | setValue (f : SField)
  deriving DecidableEq, Repr

/-- One range of symbols of a state: actions and next state. -/
structure Row where
  lo : Nat
  hi : Nat
  acts : List MAct
  tgt : Nat
  deriving DecidableEq, Repr

end Gosip.Sip.MsgM
