import Verif.Basic

/-!
# Independent specification of the RFC 3261 character classes and of percent decoding

Written from RFC 3261 section 25.1 (as quoted in `sip/sip.rl` and `sip/uri_parse.rl`),
without reference to the bit masks of `sip/charsets.go`.
-/

namespace Gosip.Spec

def isAlpha (c : UInt8) : Prop := (97 ≤ c.toNat ∧ c.toNat ≤ 122) ∨ (65 ≤ c.toNat ∧ c.toNat ≤ 90)
def isDig (c : UInt8) : Prop := 48 ≤ c.toNat ∧ c.toNat ≤ 57
def alnum (c : UInt8) : Prop := isAlpha c ∨ isDig c

/-- RFC 3261: mark. -/
def mark (c : UInt8) : Prop := c ∈ b!"-_.!~*'()"
/-- RFC 3261: unreserved. -/
def unreserved (c : UInt8) : Prop := alnum c ∨ mark c
/-- RFC 3261: characters of a token. -/
def token (c : UInt8) : Prop := alnum c ∨ c ∈ b!"-.!%*_+`'~"
/-- RFC 3261: user, the characters that need no escaping. -/
def user (c : UInt8) : Prop := unreserved c ∨ c ∈ b!"&=+$,;?/"
/-- RFC 3261: password, the characters that need no escaping. -/
def pass (c : UInt8) : Prop := unreserved c ∨ c ∈ b!"&=+$,"
/-- RFC 3261: paramchar, the characters that need no escaping. -/
def param (c : UInt8) : Prop := unreserved c ∨ c ∈ b!"[]/:&+$"
/-- RFC 3261: hname / hvalue, the characters that need no escaping. -/
def header (c : UInt8) : Prop := unreserved c ∨ c ∈ b!"[]/?:+$"
/-- RFC 3261: qdtext in ASCII together with the bytes of linear white space. -/
def qdtext (c : UInt8) : Prop :=
  c.toNat = 0x21 ∨ (0x23 ≤ c.toNat ∧ c.toNat ≤ 0x5B) ∨ (0x5D ≤ c.toNat ∧ c.toNat ≤ 0x7E) ∨
    c ∈ b!"\r\n\t "
/-- RFC 3261: what may follow a backslash: %x00-09 / %x0B-0C / %x0E-7F. -/
def quotable (c : UInt8) : Prop := c.toNat ≤ 0x7F ∧ c.toNat ≠ 0x0A ∧ c.toNat ≠ 0x0D

instance : DecidablePred isAlpha := fun c => by unfold isAlpha; infer_instance
instance : DecidablePred isDig := fun c => by unfold isDig; infer_instance
instance : DecidablePred alnum := fun c => by unfold alnum; infer_instance
instance : DecidablePred mark := fun c => by unfold mark; infer_instance
instance : DecidablePred unreserved := fun c => by unfold unreserved; infer_instance
instance : DecidablePred token := fun c => by unfold token; infer_instance
instance : DecidablePred user := fun c => by unfold user; infer_instance
instance : DecidablePred pass := fun c => by unfold pass; infer_instance
instance : DecidablePred param := fun c => by unfold param; infer_instance
instance : DecidablePred header := fun c => by unfold header; infer_instance
instance : DecidablePred qdtext := fun c => by unfold qdtext; infer_instance
instance : DecidablePred quotable := fun c => by unfold quotable; infer_instance

/-- Value of a hexadecimal digit of either case. -/
def hexVal (c : UInt8) : Option Nat :=
  if 48 ≤ c.toNat ∧ c.toNat ≤ 57 then some (c.toNat - 48)
  else if 97 ≤ c.toNat ∧ c.toNat ≤ 102 then some (c.toNat - 87)
  else if 65 ≤ c.toNat ∧ c.toNat ≤ 70 then some (c.toNat - 55)
  else none

/-- `Unescapes p t s`: the text `t` is a percent encoded form of `s`, in which the bytes
satisfying `p` may stand for themselves (the RFC 3261 production `*( p / escaped )`). -/
inductive Unescapes (p : UInt8 → Prop) : Bytes → Bytes → Prop where
  | nil : Unescapes p [] []
  | lit {c t s} : p c → Unescapes p t s → Unescapes p (c :: t) (c :: s)
  | esc {h l x y t s} : hexVal h = some x → hexVal l = some y → Unescapes p t s →
      Unescapes p (37 :: h :: l :: t) (UInt8.ofNat (x * 16 + y) :: s)

/-- Percent decoding as a function: `%XY` is replaced by one byte, other bytes are kept. -/
def unescape : Bytes → Bytes
  | 37 :: h :: l :: t =>
    match hexVal h, hexVal l with
    | some x, some y => UInt8.ofNat (x * 16 + y) :: unescape t
    | _, _ => 37 :: unescape (h :: l :: t)
  | c :: t => c :: unescape t
  | [] => []
termination_by t => t.length

end Gosip.Spec
