import Verif.Spec.Wellformed
import Verif.Spec.Headers
import Verif.Spec.Lines
import Verif.Spec.Sdp

/-!
# Specification: messages that can be written and read back

The conditions of C14 on a whole message, and what is read from its text.
-/

namespace Gosip.Spec
open Sip

instance (o : Option Payload) : Decidable (∃ t, o = some (.misc t [])) :=
  match o with
  | some (.misc t []) => .isTrue ⟨t, rfl⟩
  | some (.misc t (c :: d)) => .isFalse (by rintro ⟨_, e⟩; cases e)
  | some (.sdp d) => .isFalse (by rintro ⟨_, e⟩; cases e)
  | none => .isFalse (by rintro ⟨_, e⟩; cases e)

/-- A body that can be written and read: a session description as in C22, or bytes of another type, not
beginning with a blank (C61). -/
def PayloadOK (gen : Bytes) (p : Payload) : Prop :=
  (p.data gen).length < 2 ^ 63 ∧
  match p with
  | .sdp d => WellFormed d
  | .misc t d => TypeText t ∧ t ≠ b!"application/sdp" ∧ ¬ Blank d

/-- The start line of a request can be written and read. -/
structure RequestOK (m : Msg) : Prop where
  status : m.status ≤ 0
  method : m.method = [] ∨ IsToken m.method
  request : ∀ u, m.request = some u → URIText u.text u
  maxForwards : 0 ≤ m.maxForwards ∧ m.maxForwards < 2 ^ 63

/-- The start line of a response can be written and read: a status of three digits. -/
structure ResponseOK (m : Msg) : Prop where
  status : 100 ≤ m.status ∧ m.status ≤ 999
  phrase : ReasonText m.phrase

/-- Messages whose text can be read. -/
structure MsgOK (gen : Bytes) (m : Msg) : Prop where
  start : RequestOK m ∨ ResponseOK m
  via : ∀ v ∈ m.via, ViaOK v
  addrs : ∀ f, ∀ a ∈ m.addrs f, AddrOK a
  from_ : m.addrs .from ≠ []
  to : m.addrs .to ≠ []
  callID : CallIDText m.callID
  cseq : 0 ≤ m.cseq ∧ m.cseq < 2 ^ 63
  cseqMethod : IsToken m.cseqMethod
  expires : 0 ≤ m.expires ∧ m.expires < 2 ^ 63
  minExpires : 0 ≤ m.minExpires ∧ m.minExpires < 2 ^ 63
  hdr : ∀ f, f ≠ .acceptContact → TextOK (m.hdr f)
  xheader : ∀ p ∈ m.xheader, IsName p.1 ∧ headerOf p.1 = none ∧ ¬ StubName p.1 ∧ TextOK p.2
  payload : ∀ p, m.payload = some p → PayloadOK gen p

/-- The message as the text tells it: RFC 3261's values, and some of the library's own, for what was left
out; `Retry-After` under another name; nothing the text does not have. -/
def readBack (m : Msg) : Msg :=
  { m with
    versionMajor := if m.versionMajor = 0 then 2 else m.versionMajor
    versionMinor := if m.versionMajor = 0 then 0 else m.versionMinor
    method := if m.status > 0 then [] else if m.method = [] then b!"INVITE" else m.method
    request := if m.status > 0 then none else some (m.request.getD { scheme := b!"sip", host := b!"www.nasa.gov", port := 80 })
    status := if m.status > 0 then m.status else 0
    phrase := if m.status > 0 then (if m.phrase = [] then phraseOf m.status else m.phrase) else []
    maxForwards := if m.status > 0 then 0 else if m.maxForwards = 0 then 70 else m.maxForwards
    via := m.via.map viaRead
    hdr := fun f => if f = .acceptContact ∨ f = .retryAfter then [] else m.hdr f
    xheader := m.xheader ++ if m.hdr .retryAfter = [] then [] else [(b!"RetryAfter", m.hdr .retryAfter)]
    payload := if ∃ t, m.payload = some (.misc t []) then none else m.payload
    sourceAddr := none }

/-- Nothing is left out, so nothing is filled in, and there is nothing the text does not have. The reason
phrase may be left out: writing a response fills it in (`Msg.appended`). -/
structure Complete (m : Msg) : Prop where
  version : m.versionMajor ≠ 0
  request : m.status ≤ 0 → m.method ≠ [] ∧ m.request ≠ none ∧ m.maxForwards ≠ 0 ∧ m.status = 0 ∧ m.phrase = []
  response : m.status > 0 → m.method = [] ∧ m.request = none ∧ m.maxForwards = 0
  via : ∀ v ∈ m.via, v.protocol ≠ [] ∧ v.version ≠ [] ∧ v.transport ≠ [] ∧ v.port ≠ 5060
  acceptContact : m.hdr .acceptContact = []
  retryAfter : m.hdr .retryAfter = []
  payload : ∀ t, m.payload ≠ some (.misc t [])
  sourceAddr : m.sourceAddr = none

end Gosip.Spec
