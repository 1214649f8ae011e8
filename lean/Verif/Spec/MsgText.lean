import Verif.Sip.Msg
import Verif.Spec.Charsets

/-!
# Specification: what text a parsed message may contain
-/

namespace Gosip.Spec
open Sip

/-- Only token characters of RFC 3261. -/
def TokenText (s : Bytes) : Prop := ∀ c ∈ s, token c

/-- No CR and no LF. -/
def OneLine (s : Bytes) : Prop := ∀ c ∈ s, c ≠ 13 ∧ c ≠ 10

/-- A space or a tab. -/
def wsp (c : UInt8) : Prop := c = 32 ∨ c = 9

/-- CR and LF occur only in folds: every CR is followed by LF and a blank, every LF is preceded by CR
and followed by a blank. -/
def FoldedText (s : Bytes) : Prop :=
  ∀ a c b, s = a ++ c :: b →
    (c = 13 → ∃ w r, b = 10 :: w :: r ∧ wsp w) ∧
    (c = 10 → (∃ a', a = a' ++ [13]) ∧ ∃ w r, b = w :: r ∧ wsp w)

/-- A list of parameters without line breaks. -/
def ParamsOK (l : List (Bytes × Bytes)) : Prop := ∀ p ∈ l, TokenText p.1 ∧ FoldedText p.2

/-- No text of the message, other than the reason phrase and the URIs, can start a new line. -/
structure NoSmuggling (m : Msg) : Prop where
  method : TokenText m.method
  cseqMethod : TokenText m.cseqMethod
  callID : OneLine m.callID
  hdr : ∀ f, FoldedText (m.hdr f)
  xheader : ParamsOK m.xheader
  via : ∀ v ∈ m.via, TokenText v.protocol ∧ TokenText v.version ∧ TokenText v.transport ∧
    OneLine v.host ∧ ParamsOK v.param
  addrs : ∀ f, ∀ a ∈ m.addrs f, FoldedText a.display ∧ ParamsOK a.param
  contentType : ∀ t b, m.payload = some (.misc t b) → OneLine t

end Gosip.Spec
