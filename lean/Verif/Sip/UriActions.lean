import Verif.Basic

/-!
# Actions of the URI machine (`sip/uri_parse.rl:43-115`)
-/

namespace Gosip.Sip.Uri

/-- The actions of `sip/uri_parse.rl`; their effect is defined in `Verif.Sip.UriParse`. -/
inductive UAct where
  | start | append | hexHi | hexLo | scheme | user | pass | host | port | b1 | b2 | lower
  | param | header
  deriving DecidableEq, Repr

/-- One range of symbols of a state: actions and next state. -/
structure Row where
  lo : Nat
  hi : Nat
  acts : List UAct
  tgt : Nat
  deriving DecidableEq, Repr

end Gosip.Sip.Uri
