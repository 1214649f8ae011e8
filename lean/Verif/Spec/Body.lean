import Verif.Spec.Fields

/-!
# Specification: what the header lines say about the body
-/

namespace Gosip.Spec
open Gosip.Sip

/-- No line of the header `h`. -/
def NoHeader (h : Header) (ls : List Bytes) : Prop := ∀ L ∈ ls, ¬ IsHeader h L

/-- `v` is the text after the colon in the last line of the header `h`. -/
def LastHeader (h : Header) (ls : List Bytes) (v : Bytes) : Prop :=
  ∃ pre post n w, ls = pre ++ headerLine n w v :: post ∧ IsName n ∧ Blanks w ∧ headerOf n = some h ∧ NoHeader h post

/-- The declared length of the body, in decimal digits: the last Content-Length. -/
def DeclaredLength (ls : List Bytes) (ds : Bytes) : Prop := ∃ v, LastHeader .contentLength ls v ∧ NumberText v ds

/-- The media type at the beginning of a Content-Type value: `type/subtype` (RFC 3261 section 25.1). -/
def MediaType (v t : Bytes) : Prop :=
  ∃ a b r, skipWs v = a ++ b!"/" ++ b ++ r ∧ a ≠ [] ∧ b ≠ [] ∧ (∀ c ∈ a ++ b, token c) ∧
    (∀ c t, r = c :: t → ¬ token c) ∧ t = a ++ b!"/" ++ b

/-- The declared type of the body: the last Content-Type, or nothing. -/
def DeclaredType (ls : List Bytes) (t : Bytes) : Prop :=
  NoHeader .contentType ls ∧ t = [] ∨ ∃ v, LastHeader .contentType ls v ∧ MediaType v t

/-- `p` is the payload with the declared type `t` and the bytes `body`: a session description is parsed,
everything else is kept as it is. -/
def PayloadIs (t body : Bytes) (p : Option Payload) : Prop :=
  (t ≠ b!"application/sdp" → p = some (.misc t body)) ∧
    (t = b!"application/sdp" → ∃ ms, Sdp.parse body = .ok ms ∧ p = some (.sdp ms))

end Gosip.Spec
