import Verif.Spec.Sdp

/-!
# Specification of the sections of a session description

RFC 4566 §5: the lines after an `m=` line, up to the next one, belong to that media; what is said there about the address
holds for that media only and takes precedence over what is said for the session (§5.7); `a=rtpmap` and `a=fmtp` lines give
the meaning of the numbers on the `m=` line of their own section (§6).
-/

namespace Gosip.Spec
open Sdp

/-- An `m=` line. -/
def isMediaLine (l : Bytes) : Bool := b!"m=".isPrefixOf l

/-- The lines before the first `m=` line. -/
def sessionLines (ls : List Bytes) : List Bytes := ls.takeWhile (! isMediaLine ·)

/-- `own` is the section of the line `m=type v`, the only one of this type; `others` are the lines outside it. -/
def Section (ls : List Bytes) (type v : Bytes) (own others : List Bytes) : Prop :=
  ∃ before after, ls = before ++ (b!"m=" ++ type ++ v) :: own ++ after ∧ others = before ++ after ∧
    (∀ l ∈ own, isMediaLine l = false) ∧ (∀ l, after.head? = some l → isMediaLine l = true) ∧
    ∀ l ∈ others, ¬ (b!"m=" ++ type) <+: l

/-- The address for a section: that of its own `c=` line, otherwise that of the session. -/
def SectionAddr (ls own : List Bytes) (addr : Bytes) : Prop :=
  (∃ v ∈ values 99 (pairs own), ConnValue v addr) ∨
  values 99 (pairs own) = [] ∧ ∃ v ∈ values 99 (pairs (sessionLines ls)), ConnValue v addr

/-- The media is what its own section says. -/
def SectionMedia (own : List Bytes) (v : Bytes) (m : Media) : Prop :=
  MediaValue (fields 97 b!"rtpmap:" (pairs own)) (fields 97 b!"fmtp:" (pairs own)) v m

/-- The line says something (`a=rtpmap:` or `a=fmtp:`) about the payload type. -/
def About (pt : UInt8) (l : Bytes) : Prop :=
  (b!"a=rtpmap:" ++ natDec pt.toNat ++ b!" ") <+: l ∨ (b!"a=fmtp:" ++ natDec pt.toNat ++ b!" ") <+: l

/-- The attributes kept of the lines, and the lines with other keys. -/
def keptAttrs (ls : List Bytes) : List (Bytes × Bytes) := ((values 97 (pairs ls)).filter (! reserved ·)).map attrOf
def keptOthers (ls : List Bytes) : List (Bytes × Bytes) :=
  ((pairs ls).filter (fun p => !knownKeys.contains p.1)).map fun p => ([p.1], p.2)

/-- A line that says nothing this package knows: not of the form `k=value`, or with another key than m, s, t, c, o and a, or
an attribute that is none of rtpmap, fmtp, ptime and the directions, or a media that is neither audio nor video. -/
def Unknown (l : Bytes) : Prop :=
  ∀ k v, keyValue l = some (k, v) →
    k ∉ b!"mstcoa" ∨ k = 97 ∧ (reserved v = false ∨ b!":" <+: v) ∨ k = 109 ∧ ¬ b!"audio " <+: v ∧ ¬ b!"video " <+: v

end Gosip.Spec
