import Verif.Spec.Uri
import Verif.Spec.Values
import Verif.Spec.MsgText

/-!
# Specification: messages that can be written and read back

RFC 3261 section 25.1, less what the library does not write in a form it can read; the theorems in
`Verif/Props/RoundTrip.lean` show what happens outside of these conditions.
-/

namespace Gosip.Spec
open Sip

/-- A token of RFC 3261, not empty. -/
def IsToken (s : Bytes) : Prop := s ≠ [] ∧ ∀ c ∈ s, token c

/-- Text that can be written between quotation marks: ASCII, and line breaks only where a line is continued. -/
inductive Quotable : Bytes → Prop
  | nil : Quotable []
  | char {c : UInt8} {s : Bytes} : c.toNat < 128 → c ≠ 13 → c ≠ 10 → Quotable s → Quotable (c :: s)
  | fold {w : UInt8} {s : Bytes} : wsp w → Quotable s → Quotable (13 :: 10 :: w :: s)

/-- Not only token characters and spaces: written between quotation marks. -/
def NeedsQuotes (s : Bytes) : Prop := ∃ c ∈ s, ¬ token c ∧ c ≠ 32

/-- A parameter value: empty, a token, or quotable text with a byte that makes the library quote it. -/
def ValueOK (v : Bytes) : Prop := (∀ c ∈ v, token c) ∨ (Quotable v ∧ NeedsQuotes v)

/-- A display name: words separated by spaces, or quotable text with a byte that makes the library quote it. -/
def DisplayOK (d : Bytes) : Prop :=
  ((∀ c ∈ d, token c ∨ c = 32) ∧ d.head? ≠ some 32 ∧ d.getLast? ≠ some 32) ∨ (Quotable d ∧ NeedsQuotes d)

/-- Parameters of an address or a Via. -/
def ParamOK (l : List (Bytes × Bytes)) : Prop := ∀ p ∈ l, IsToken p.1 ∧ ValueOK p.2

/-- Characters of the host in a Via: a name or an IPv4 address. -/
def viaHostc (c : UInt8) : Prop := alnum c ∨ c ∈ b!"-."

instance (c : UInt8) : Decidable (viaHostc c) := inferInstanceAs (Decidable (_ ∨ _))

/-- A Via that can be written and read. -/
structure ViaOK (v : Via) : Prop where
  protocol : ∀ c ∈ v.protocol, token c
  version : ∀ c ∈ v.version, token c
  transport : ∀ c ∈ v.transport, token c
  host : v.host ≠ []
  hostc : ∀ c ∈ v.host, viaHostc c
  param : ParamOK v.param

/-- The Via read back: RFC 3261's values for texts left empty, and no port when it was 5060. -/
def viaRead (v : Via) : Via :=
  { v with
    protocol := if v.protocol = [] then b!"SIP" else v.protocol
    version := if v.version = [] then b!"2.0" else v.version
    transport := if v.transport = [] then b!"UDP" else v.transport
    port := if v.port = 5060 then 0 else v.port }

/-- An address that can be written and read. The URI is one whose text is a text of this URI (C03 says when). -/
structure AddrOK (a : Addr) : Prop where
  uri : ∃ u, a.uri = some u ∧ URIText u.text u
  display : DisplayOK a.display
  param : ParamOK a.param

/-- The text of a header value, not beginning with white space. -/
def TextOK (v : Bytes) : Prop := ValueText v ∧ skipWs v = v

/-- Characters of a `word` of RFC 3261. -/
def wordc (c : UInt8) : Prop := alnum c ∨ c ∈ b!"-.!%*_+`'~()<>:\\\"/[]?{}"

instance (c : UInt8) : Decidable (wordc c) := inferInstanceAs (Decidable (_ ∨ _))

/-- `callid = word [ "@" word ]`. -/
def CallIDText (v : Bytes) : Prop :=
  ∃ a b, a ≠ [] ∧ (∀ c ∈ a, wordc c) ∧ (v = a ∨ (v = a ++ 64 :: b ∧ b ≠ [] ∧ ∀ c ∈ b, wordc c))

/-- `type/subtype`, without parameters. -/
def TypeText (v : Bytes) : Prop := ∃ a b, v = a ++ 47 :: b ∧ IsToken a ∧ IsToken b

/-- Characters of a reason phrase that stand for themselves. -/
def reasonc (c : UInt8) : Prop := alnum c ∨ c ∈ b!"\t !$&'()*+,-./:;=?@_~"

instance (c : UInt8) : Decidable (reasonc c) := inferInstanceAs (Decidable (_ ∨ _))

/-- A reason phrase without percent escapes. -/
inductive ReasonText : Bytes → Prop
  | nil : ReasonText []
  | char {c : UInt8} {t : Bytes} : reasonc c → ReasonText t → ReasonText (c :: t)
  | utf8 {c : UInt8} {s t : Bytes} : utf8Len c = some s.length → (∀ x ∈ s, utf8Cont x) → ReasonText t →
      ReasonText (c :: s ++ t)

end Gosip.Spec
