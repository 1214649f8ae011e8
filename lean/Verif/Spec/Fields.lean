import Verif.Spec.Values

/-!
# Specification: header lines and the fields of the message
-/

namespace Gosip.Spec
open Gosip.Sip

/-- Lines that correspond one by one. -/
inductive LinesRel (R : Bytes → Bytes → Prop) : List Bytes → List Bytes → Prop
  | nil : LinesRel R [] []
  | cons {L M : Bytes} {ls ms : List Bytes} : R L M → LinesRel R ls ms → LinesRel R (L :: ls) (M :: ms)

/-- The same line, or the same header with its known name spelled with other upper and lower case letters. -/
def SameUpToCase (L M : Bytes) : Prop :=
  L = M ∨ ∃ n n' w v, L = headerLine n w v ∧ M = headerLine n' w v ∧ IsName n ∧ IsName n' ∧ Blanks w ∧
    n.map lower = n'.map lower ∧ headerOf n ≠ none

/-- The same line, or the same header under two of its names, other than `l` for Content-Length. -/
def SameHeader (L M : Bytes) : Prop :=
  L = M ∨ ∃ n n' w v, L = headerLine n w v ∧ M = headerLine n' w v ∧ IsName n ∧ IsName n' ∧ Blanks w ∧
    headerOf n ≠ none ∧ headerOf n = headerOf n' ∧ n.map lower ≠ b!"l" ∧ n'.map lower ≠ b!"l"

/-- The two messages differ at most in the field that belongs to a header; `none` stands for the extension
headers. The payload belongs to Content-Length and Content-Type. -/
structure SameExcept (h : Option Header) (a b : Msg) : Prop where
  versionMajor : a.versionMajor = b.versionMajor
  versionMinor : a.versionMinor = b.versionMinor
  method : a.method = b.method
  request : a.request = b.request
  status : a.status = b.status
  phrase : a.phrase = b.phrase
  sourceAddr : a.sourceAddr = b.sourceAddr
  hdr : ∀ f, h ≠ some (.text f) → a.hdr f = b.hdr f
  addrs : ∀ f, h ≠ some (.address f) → a.addrs f = b.addrs f
  via : h ≠ some .via → a.via = b.via
  callID : h ≠ some .callID → a.callID = b.callID
  cseq : h ≠ some .cseq → a.cseq = b.cseq ∧ a.cseqMethod = b.cseqMethod
  maxForwards : h ≠ some .maxForwards → a.maxForwards = b.maxForwards
  expires : h ≠ some .expires → a.expires = b.expires
  minExpires : h ≠ some .minExpires → a.minExpires = b.minExpires
  xheader : h ≠ none → a.xheader = b.xheader
  payload : h ≠ some .contentLength → h ≠ some .contentType → a.payload = b.payload

/-- A decimal number after optional white space: `v` is white space followed by the digits `ds`. -/
def NumberText (v ds : Bytes) : Prop :=
  (∃ w w', (v = w ++ ds ∨ (v = w ++ CRLF ++ w' ++ ds ∧ w' ≠ [])) ∧ Blanks w ∧ Blanks w') ∧
    ds ≠ [] ∧ ∀ c ∈ ds, isDigit c = true

/-- A header line whose name stands for the header `h`. -/
def IsHeader (h : Header) (L : Bytes) : Prop :=
  ∃ n w v, L = headerLine n w v ∧ IsName n ∧ Blanks w ∧ headerOf n = some h

/-- A header line whose name is not a known one. -/
def IsExtension (L : Bytes) : Prop :=
  ∃ n w v, L = headerLine n w v ∧ IsName n ∧ Blanks w ∧ headerOf n = none

end Gosip.Spec
