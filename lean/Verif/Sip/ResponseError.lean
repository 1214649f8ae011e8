import Verif.Sip.Msg

/-!
# `ResponseError.Error` (`sip/errors.go`)
-/

namespace Gosip.Sip

/-- `ResponseError.Error` (`sip/errors.go:26-28`): `fmt.Sprintf("%d: %s", err.Msg.Status, err.Msg.Phrase)`. `%d` of an
`int` is `strconv.Itoa`, `%s` of a string its bytes. -/
def responseErrorText (m : Msg) : Bytes := itoa m.status ++ b!": " ++ m.phrase

end Gosip.Sip
