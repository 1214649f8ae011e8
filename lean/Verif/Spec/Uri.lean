import Verif.Spec.Charsets
import Verif.Sip.Uri

/-!
# Independent specification of SIP URI texts

The grammar documented in RFC 3261 section 25.1 / `sip/uri_parse.rl:117-156`, as relations between a
text and the component it denotes. Nothing here refers to the parser or to the serialiser.
-/

namespace Gosip.Spec

/-- Characters of a scheme after the first. -/
def schemec (c : UInt8) : Prop := alnum c ∨ c ∈ b!"+-."
/-- Characters of a host name, IPv4 address or telephone number. -/
def hostc (c : UInt8) : Prop := alnum c ∨ c ∈ b!"+-."
/-- Characters of an IPv6 address. -/
def ip6c (c : UInt8) : Prop := hexVal c ≠ none ∨ c ∈ b!".:"
/-- ASCII lower case. -/
def lower (c : UInt8) : UInt8 := if 65 ≤ c.toNat ∧ c.toNat ≤ 90 then UInt8.ofNat (c.toNat + 32) else c

/-- Two names are equal ignoring ASCII case. -/
def SameName (a b : Bytes) : Prop := a.map lower = b.map lower

instance (a b : Bytes) : Decidable (SameName a b) := by unfold SameName; infer_instance

/-- The newest entry with that name (ignoring case) has this value; lists have the newest first. -/
def ParamIs (l : List (Bytes × Bytes)) (name v : Bytes) : Prop :=
  ∃ newer p older, l = newer ++ p :: older ∧ SameName p.1 name ∧ p.2 = v ∧
    ∀ q ∈ newer, ¬ SameName q.1 name

/-- No entry has that name. -/
def NoParam (l : List (Bytes × Bytes)) (name : Bytes) : Prop := ∀ q ∈ l, ¬ SameName q.1 name

instance : DecidablePred schemec := fun c => by unfold schemec; infer_instance
instance : DecidablePred hostc := fun c => by unfold hostc; infer_instance
instance : DecidablePred ip6c := fun c => by unfold ip6c; infer_instance

/-- `scheme = alpha schemec*`, read in lower case. -/
inductive SchemeText : Bytes → Bytes → Prop where
  | mk {c t} : isAlpha c → (∀ d ∈ t, schemec d) → SchemeText (c :: t) ((c :: t).map lower)

/-- `[ user [ ":" password ] "@" ]`: text, user, password. -/
inductive UserText : Bytes → Bytes → Bytes → Prop where
  | none : UserText [] [] []
  | user {t u} : Unescapes Spec.user t u → u ≠ [] → UserText (t ++ b!"@") u []
  | userPass {t u w p} : Unescapes Spec.user t u → u ≠ [] → Unescapes Spec.pass w p → p ≠ [] →
      UserText (t ++ b!":" ++ w ++ b!"@") u p

/-- `host = 1*hostc / "[" 1*ip6c "]"`, read in lower case. -/
inductive HostText : Bytes → Bytes → Prop where
  | name {t} : t ≠ [] → (∀ c ∈ t, hostc c) → HostText t (t.map lower)
  | ip6 {t} : t ≠ [] → (∀ c ∈ t, ip6c c) → HostText (b!"[" ++ t ++ b!"]") (t.map lower)

/-- `[ ":" 1*digit ]`; the number is taken modulo 65536. -/
inductive PortText : Bytes → UInt16 → Prop where
  | none : PortText [] 0
  | some {ds} : ds ≠ [] → (∀ c ∈ ds, isDig c) → PortText (b!":" ++ ds) (UInt16.ofNat (decVal ds))

/-- `name [ "=" value ]` over the characters `P` and escapes. -/
inductive PairText (P : UInt8 → Prop) : Bytes → Bytes × Bytes → Prop where
  | name {t n} : Unescapes P t n → n ≠ [] → PairText P t (n, [])
  | value {t n w v} : Unescapes P t n → n ≠ [] → Unescapes P w v → v ≠ [] →
      PairText P (t ++ b!"=" ++ w) (n, v)

/-- `*( ";" name [ "=" value ] )`, in the order written. -/
inductive ParamsText : Bytes → List (Bytes × Bytes) → Prop where
  | nil : ParamsText [] []
  | cons {t p r l} : PairText param t p → ParamsText r l → ParamsText (b!";" ++ t ++ r) (p :: l)

/-- `pair *( "&" pair )`, in the order written. -/
inductive HeaderListText : Bytes → List (Bytes × Bytes) → Prop where
  | one {t p} : PairText header t p → HeaderListText t [p]
  | cons {t p r l} : PairText header t p → HeaderListText r l →
      HeaderListText (t ++ b!"&" ++ r) (p :: l)

/-- `[ "?" pair *( "&" pair ) ]`, in the order written. -/
inductive HeadersText : Bytes → List (Bytes × Bytes) → Prop where
  | none : HeadersText [] []
  | some {t l} : HeaderListText t l → HeadersText (b!"?" ++ t) l

/-- A whole SIP URI and what it denotes: parameters and headers are listed latest first. -/
inductive URIText : Bytes → Sip.URI → Prop where
  | mk {s sch ut usr pw h host pt port ps params hs hdrs} :
      SchemeText s sch → UserText ut usr pw → HostText h host → PortText pt port →
      ParamsText ps params → HeadersText hs hdrs →
      URIText (s ++ b!":" ++ ut ++ h ++ pt ++ ps ++ hs)
        { scheme := sch, user := usr, pass := pw, host := host, port := port,
          param := params.reverse, header := hdrs.reverse }

/-- A legal scheme: a letter, then letters, digits, `+`, `-`, `.`; lower case. -/
def SchemeOK (s : Bytes) : Prop := SchemeText s s
/-- A legal host: a lower-case name, or a lower-case IPv6 address with a colon. -/
def HostOK (h : Bytes) : Prop :=
  h ≠ [] ∧ h.map lower = h ∧ ((∀ c ∈ h, hostc c) ∨ (58 ∈ h ∧ ∀ c ∈ h, ip6c c))

/-- Bytes that would end a URI inside a message: CR, LF, space, tab, `<`, `>`, `"`. -/
def breaksOut (c : UInt8) : Prop := c ∈ b!"\r\n\t <>\""

instance : DecidablePred breaksOut := fun c => by unfold breaksOut; infer_instance

end Gosip.Spec
