import Verif.Spec.Fields
import Verif.Sip.MsgParse

/-!
# Specification: headers that hold lists
-/

namespace Gosip.Spec
open Gosip.Sip

/-- The message with one header line only. -/
def Alone (L : Bytes) (m : Msg) : Prop := parseMsg (headText b!"SIP/2.0 200 OK" [L]) = .ok m

/-- `xs` is what the lines of the header `h` contribute to a field, one line after the other, each as if it
were the only one of its message; other lines contribute nothing. -/
inductive InOrder {α : Type} (h : Header) (field : Msg → List α) : List Bytes → List α → Prop
  | nil : InOrder h field [] []
  | own {L : Bytes} {ls : List Bytes} {m : Msg} {xs : List α} : IsHeader h L → Alone L m → InOrder h field ls xs →
      InOrder h field (L :: ls) (field m ++ xs)
  | other {L : Bytes} {ls : List Bytes} {xs : List α} : ¬ IsHeader h L → InOrder h field ls xs →
      InOrder h field (L :: ls) xs

end Gosip.Spec
