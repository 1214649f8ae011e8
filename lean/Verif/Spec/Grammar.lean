import Verif.Spec.Body
import Verif.Spec.Wellformed

/-!
# Specification: the texts of messages

The grammar of `sip/sip.rl:264-557` (a subset of RFC 3261 section 25.1, with its own choices of where white
space may stand), as relations between a text and what it says. Nothing here refers to the parser.
-/

namespace Gosip.Spec
open Gosip.Sip

/-- White space that must be present (RFC 3261 section 25.1, `LWS`). -/
def Lws (w : Bytes) : Prop := Sws w ∧ w ≠ []

/-- A separator with optional white space on both sides (RFC 3261: `SEMI`, `COMMA`, `EQUAL`, `SLASH`, `COLON`). -/
def Sep (c : UInt8) (s : Bytes) : Prop := ∃ a b, s = a ++ c :: b ∧ Sws a ∧ Sws b

/-- Decimal digits. -/
def Digits (ds : Bytes) : Prop := ds ≠ [] ∧ ∀ c ∈ ds, isDig c

/-! ### Quoted strings and parameters -/

/-- Bytes of a quoted string that stand for themselves, outside of line breaks and UTF-8 sequences. -/
def qchar (c : UInt8) : Prop := blank c = true ∨ (33 ≤ c.toNat ∧ c.toNat ≤ 126 ∧ c ≠ 34 ∧ c ≠ 92)

instance (c : UInt8) : Decidable (qchar c) := inferInstanceAs (Decidable (_ ∨ _))

/-- The inside of a quoted string, and the bytes it stands for. -/
inductive QText : Bytes → Bytes → Prop
  | nil : QText [] []
  | char {c : UInt8} {t v : Bytes} : qchar c → QText t v → QText (c :: t) (c :: v)
  | pair {c : UInt8} {t v : Bytes} : quotable c → QText t v → QText (92 :: c :: t) (c :: v)
  | utf8 {c : UInt8} {s t v : Bytes} : utf8Len c = some s.length → (∀ x ∈ s, utf8Cont x) → QText t v →
      QText (c :: s ++ t) (c :: s ++ v)
  | fold {w : UInt8} {t v : Bytes} : blank w = true → QText t v → QText (CRLF ++ w :: t) (CRLF ++ w :: v)

/-- Characters of an unquoted parameter value. -/
def valuec (c : UInt8) : Prop := token c ∨ c ∈ b!":[]"

instance (c : UInt8) : Decidable (valuec c) := inferInstanceAs (Decidable (_ ∨ _))

/-- `name`, `name=value` or `name="value"`. -/
inductive ParamText : Bytes → Bytes × Bytes → Prop
  | flag {n : Bytes} : IsToken n → ParamText n (n, [])
  | plain {n s v : Bytes} : IsToken n → Sep 61 s → v ≠ [] → (∀ c ∈ v, valuec c) → ParamText (n ++ s ++ v) (n, v)
  | quoted {n s t v : Bytes} : IsToken n → Sep 61 s → QText t v → ParamText (n ++ s ++ (34 :: t ++ [34])) (n, v)

/-- `*( ";" parameter )`, in the order written. -/
inductive ParamList : Bytes → List (Bytes × Bytes) → Prop
  | nil : ParamList [] []
  | cons {s p t : Bytes} {x : Bytes × Bytes} {xs : List (Bytes × Bytes)} : Sep 59 s → ParamText p x → ParamList t xs →
      ParamList (s ++ p ++ t) (x :: xs)

/-! ### Via -/

/-- The host of a Via. -/
inductive ViaHost : Bytes → Bytes → Prop
  | name {h : Bytes} : h ≠ [] → (∀ c ∈ h, alnum c ∨ c ∈ b!"-.") → ViaHost h h
  | ip6 {h : Bytes} : h ≠ [] → (∀ c ∈ h, ip6c c) → ViaHost (91 :: h ++ [93]) h

/-- The port of a Via, modulo 65536. -/
inductive ViaPort : Bytes → UInt16 → Prop
  | none : ViaPort [] 0
  | some {s ds : Bytes} : Sep 58 s → Digits ds → ViaPort (s ++ ds) (UInt16.ofNat (decVal ds))

/-- `protocol "/" version "/" transport host [ ":" port ] *( ";" parameter )`; the parameters are listed latest
first. -/
inductive ViaText : Bytes → Via → Prop
  | mk {p s1 v s2 t w h host pt ps : Bytes} {port : UInt16} {xs : List (Bytes × Bytes)} : IsToken p → Sep 47 s1 →
      IsToken v → Sep 47 s2 → IsToken t → Lws w → ViaHost h host → ViaPort pt port → ParamList ps xs →
      ViaText (p ++ s1 ++ v ++ s2 ++ t ++ w ++ h ++ pt ++ ps)
        { protocol := p, version := v, transport := t, host := host, port := port, param := xs.reverse }

/-- `via *( "," via )`. -/
inductive ViaList : Bytes → List Via → Prop
  | one {t : Bytes} {v : Via} : ViaText t v → ViaList t [v]
  | cons {t s r : Bytes} {v : Via} {vs : List Via} : ViaText t v → Sep 44 s → ViaList r vs → ViaList (t ++ s ++ r) (v :: vs)

/-! ### Addresses -/

/-- An unquoted display name with the white space after it, and the name: tokens with white space between them. -/
inductive Words : Bytes → Bytes → Prop
  | one {a w : Bytes} : IsToken a → Lws w → Words (a ++ w) a
  | cons {a w t d : Bytes} : IsToken a → Lws w → Words t d → Words (a ++ w ++ t) (a ++ w ++ d)

/-- What stands before `<`, and the display name. -/
inductive DisplayText : Bytes → Bytes → Prop
  | none : DisplayText [] []
  | words {t d : Bytes} : Words t d → DisplayText t d
  | quoted {t v w : Bytes} : QText t v → Sws w → DisplayText (34 :: t ++ 34 :: w) v

/-- A URI that may stand without angle brackets: after the character behind the scheme, neither a comma nor a
semicolon. -/
def Bare (u : Bytes) : Prop := ∃ s c r, u = s ++ 58 :: c :: r ∧ 58 ∉ s ∧ 44 ∉ r ∧ 59 ∉ r

/-- A separator after an address; directly after a URI without angle brackets (`e`), white space is allowed on
either both sides of it or none, beginning with the left. -/
def SepAfter (e : Bool) (c : UInt8) (s : Bytes) : Prop :=
  if e then s = [c] ∨ ∃ a b, s = a ++ c :: b ∧ Lws a ∧ Sws b else Sep c s

/-- An address; the flag tells whether the text ends with a URI without angle brackets. Parameters are listed latest
first. -/
inductive AddrText : Bytes → Addr → Bool → Prop
  | bare {u : Bytes} {x : URI} : URIText u x → Bare u → AddrText u { uri := some x } true
  | angle {d n u w : Bytes} {x : URI} : DisplayText d n → URIText u x → Sws w →
      AddrText (d ++ 60 :: u ++ 62 :: w) { display := n, uri := some x } false
  | param {t s p : Bytes} {a : Addr} {e : Bool} {x : Bytes × Bytes} : AddrText t a e → SepAfter e 59 s → ParamText p x →
      AddrText (t ++ s ++ p) { a with param := x :: a.param } false

/-- `address *( "," address )`. -/
inductive AddrList : Bytes → List Addr → Prop
  | one {t : Bytes} {a : Addr} {e : Bool} : AddrText t a e → AddrList t [a]
  | cons {t s r : Bytes} {a : Addr} {e : Bool} {as : List Addr} : AddrText t a e → SepAfter e 44 s → AddrList r as →
      AddrList (t ++ s ++ r) (a :: as)

/-! ### Content-Type -/

/-- `name=value` or `name="value"`. -/
inductive TypeParam : Bytes → Prop
  | plain {n s v : Bytes} : IsToken n → Sep 61 s → IsToken v → TypeParam (n ++ s ++ v)
  | quoted {n s t v : Bytes} : IsToken n → Sep 61 s → QText t v → TypeParam (n ++ s ++ (34 :: t ++ [34]))

/-- `*( ";" parameter )`. -/
inductive TypeParams : Bytes → Prop
  | nil : TypeParams []
  | cons {s p t : Bytes} : Sep 59 s → TypeParam p → TypeParams t → TypeParams (s ++ p ++ t)

/-! ### The start line -/

/-- `SIP/major.minor`, each modulo 256. -/
inductive VersionText : Bytes → UInt8 → UInt8 → Prop
  | mk {a b : Bytes} : Digits a → Digits b →
      VersionText (b!"SIP/" ++ a ++ b!"." ++ b) (UInt8.ofNat (decVal a)) (UInt8.ofNat (decVal b))

/-- A reason phrase, and the bytes it stands for. -/
inductive PhraseText : Bytes → Bytes → Prop
  | nil : PhraseText [] []
  | char {c : UInt8} {t v : Bytes} : reasonc c → PhraseText t v → PhraseText (c :: t) (c :: v)
  | esc {h l : UInt8} {x y : Nat} {t v : Bytes} : hexVal h = some x → hexVal l = some y → PhraseText t v →
      PhraseText (37 :: h :: l :: t) (UInt8.ofNat (x * 16 + y) :: v)
  | utf8 {c : UInt8} {s t v : Bytes} : utf8Len c = some s.length → (∀ x ∈ s, utf8Cont x) → PhraseText t v →
      PhraseText (c :: s ++ t) (c :: s ++ v)

/-- The start line of a request or of a response. -/
inductive StartText : Bytes → Msg → Prop
  | request {m u v : Bytes} {x : URI} {a b : UInt8} : IsToken m → URIText u x → VersionText v a b →
      StartText (m ++ 32 :: u ++ 32 :: v) { method := m, request := some x, versionMajor := a, versionMinor := b }
  | response {v ds t p : Bytes} {a b : UInt8} : VersionText v a b → Digits ds → ds.length = 3 → t ≠ [] → PhraseText t p →
      StartText (v ++ 32 :: ds ++ 32 :: t) { versionMajor := a, versionMinor := b, status := decVal ds, phrase := p }

/-! ### Header lines and messages -/

/-- What has been read: the fields of the message, and the declared length and type of the body. -/
structure Draft where
  msg : Msg := {}
  length : Int := 0
  type : Bytes := []

/-- What the header with the name `n` and the text `v` after the colon adds to what has been read. Text headers
replace each other, addresses and Vias are appended, extension headers are listed latest first, numbers are taken
modulo `2^64` as signed numbers. The compact name `l` also sets three other fields; the digits of several CSeq
lines are strung together. -/
inductive FieldText (n v : Bytes) (x : Draft) : Draft → Prop
  | text {f : SField} : headerOf n = some (.text f) → ValueText (skipWs v) →
      FieldText n v x { x with msg.hdr := setAt x.msg.hdr f (skipWs v) }
  | extension : headerOf n = none → ¬ StubName n → ValueText (skipWs v) →
      FieldText n v x { x with msg.xheader := (n, skipWs v) :: x.msg.xheader }
  | via {w t : Bytes} {vs : List Via} : headerOf n = some .via → v = w ++ t → Sws w → ViaList t vs →
      FieldText n v x { x with msg.via := x.msg.via ++ vs }
  | address {f : AField} {w t : Bytes} {as : List Addr} : headerOf n = some (.address f) → v = w ++ t → Sws w →
      AddrList t as → FieldText n v x { x with msg.addrs := setAt x.msg.addrs f (x.msg.addrs f ++ as) }
  | callID {w t : Bytes} : headerOf n = some .callID → v = w ++ t → Sws w → CallIDText t →
      FieldText n v x { x with msg.callID := t }
  | cseq {w ds w' t : Bytes} : headerOf n = some .cseq → v = w ++ ds ++ w' ++ t → Sws w → Digits ds → Lws w' →
      IsToken t → FieldText n v x
        { x with msg.cseq := wrap64 (x.msg.cseq * 10 ^ ds.length + decVal ds), msg.cseqMethod := t }
  | contentType {w t ps : Bytes} : headerOf n = some .contentType → v = w ++ t ++ ps → Sws w → TypeText t →
      TypeParams ps → FieldText n v x { x with type := t }
  | contentLength {w ds : Bytes} {k : Int} : headerOf n = some .contentLength → n.map lower ≠ b!"l" → v = w ++ ds → Sws w →
      Digits ds → k = wrap64 (decVal ds) → FieldText n v x { x with length := k }
  | compactLength {w ds : Bytes} {k : Int} : n.map lower = b!"l" → v = w ++ ds → Sws w → Digits ds → k = wrap64 (decVal ds) →
      FieldText n v x { x with length := k, msg.expires := k, msg.maxForwards := k, msg.minExpires := k }
  | expires {w ds : Bytes} {k : Int} : headerOf n = some .expires → v = w ++ ds → Sws w → Digits ds → k = wrap64 (decVal ds) →
      FieldText n v x { x with msg.expires := k }
  | maxForwards {w ds : Bytes} {k : Int} : headerOf n = some .maxForwards → v = w ++ ds → Sws w → Digits ds → k = wrap64 (decVal ds) →
      FieldText n v x { x with msg.maxForwards := k }
  | minExpires {w ds : Bytes} {k : Int} : headerOf n = some .minExpires → v = w ++ ds → Sws w → Digits ds → k = wrap64 (decVal ds) →
      FieldText n v x { x with msg.minExpires := k }

/-- Header lines, one after the other. -/
inductive FieldLines : List Bytes → Draft → Draft → Prop
  | nil {x : Draft} : FieldLines [] x x
  | cons {n w v : Bytes} {ls : List Bytes} {x y z : Draft} : IsName n → Blanks w → LogicalLine v →
      FieldText n v x y → FieldLines ls y z → FieldLines (headerLine n w v :: ls) x z

/-- What the body makes of what the head says: nothing is read from it unless a positive length is declared, which
must then be its length. -/
def BodyText (x : Draft) (body : Bytes) (m : Msg) : Prop :=
  (x.length ≤ 0 ∧ m = x.msg) ∨
  (x.length = body.length ∧ body ≠ [] ∧ ∃ p, PayloadIs x.type body p ∧ m = { x.msg with payload := p })

/-- The text of a message: a start line, header lines, an empty line and the body, which must not begin with a
blank. -/
def MessageText (d : Bytes) (m : Msg) : Prop :=
  ∃ s ls body m0 x, d = headText s ls ++ body ∧ ¬ Blank body ∧ LogicalLine s ∧ StartText s m0 ∧
    FieldLines ls { msg := m0 } x ∧ BodyText x body m

end Gosip.Spec
