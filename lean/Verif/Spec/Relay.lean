import Verif.Spec.Grammar
import Verif.Spec.RoundTrip

/-!
# Specification: messages that can be passed on

What a message that was read must satisfy, beyond having been read, for its text to be readable.
-/

namespace Gosip.Spec
open Sip

/-- A parameter value that is written as it can be read: ASCII, and a space only if the library puts it between
quotation marks. -/
def KeptValue (v : Bytes) : Prop := (∀ c ∈ v, c.toNat < 128) ∧ (32 ∈ v → NeedsQuotes v)

/-- A display name that is written as it can be read: ASCII, and a space at the beginning or at the end only if the
library puts it between quotation marks. -/
def KeptDisplay (d : Bytes) : Prop :=
  (∀ c ∈ d, c.toNat < 128) ∧ (d.head? = some 32 ∨ d.getLast? = some 32 → NeedsQuotes d)

/-- No `&` in the headers of a URI, where it would separate two headers. -/
def KeptURI (u : URI) : Prop := ∀ p ∈ u.header, 38 ∉ p.1 ∧ 38 ∉ p.2

/-- What a message that was read must satisfy to be readable when it is written again. -/
structure Relayable (gen : Bytes) (m : Msg) : Prop where
  /-- A response whose status is at least 100. -/
  status : m.method = [] → 100 ≤ m.status
  /-- No escapes in the reason phrase for what must be escaped. -/
  phrase : ReasonText m.phrase
  request : ∀ u, m.request = some u → KeptURI u
  /-- No IPv6 address in a Via. -/
  viaHost : ∀ v ∈ m.via, 58 ∉ v.host
  viaParam : ∀ v ∈ m.via, ∀ p ∈ v.param, KeptValue p.2
  uris : ∀ f, ∀ a ∈ m.addrs f, ∀ u, a.uri = some u → KeptURI u
  displays : ∀ f, ∀ a ∈ m.addrs f, KeptDisplay a.display
  params : ∀ f, ∀ a ∈ m.addrs f, ∀ p ∈ a.param, KeptValue p.2
  /-- The headers RFC 3261 wants in every message. -/
  from_ : m.addrs .from ≠ []
  to : m.addrs .to ≠ []
  callID : m.callID ≠ []
  cseqMethod : m.cseqMethod ≠ []
  /-- No number of `2^63` or more was read. -/
  numbers : 0 ≤ m.cseq ∧ 0 ≤ m.maxForwards ∧ 0 ≤ m.expires ∧ 0 ≤ m.minExpires
  /-- No value begins with a second continuation of the line. -/
  hdr : ∀ f, (m.hdr f).head? ≠ some 13
  xheader : ∀ p ∈ m.xheader, p.2.head? ≠ some 13
  /-- A body has a type; a session description has nothing left blank. -/
  payload : ∀ p, m.payload = some p → match p with
    | .sdp d => NoBlanks d ∧ (d.text gen).length < 2 ^ 63
    | .misc t _ => t ≠ []

end Gosip.Spec
