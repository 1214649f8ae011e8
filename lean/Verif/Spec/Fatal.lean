import Verif.Spec.Call

/-!
# Specification of messages that bring down a call
-/

namespace Gosip.Spec
open Sip Dialog

/-- The message describes a session, and there is no audio in it. -/
def NoAudio (m : Msg) : Prop := ∃ d, m.payload = some (.sdp d) ∧ d.audio = none

/-- The message `m` was delivered by a receiver for some datagram; `tagging` is whether time stamps are turned on. -/
def FromWire (tagging : Bool) (m : Msg) : Prop :=
  ∃ lhost lport ts datagram addr, (ts ≠ none ↔ tagging = true) ∧ receiveOne lhost lport ts datagram addr = .ok (some m)

/-- The messages that bring down a dialog that has sent the request `x` last. All of them know the Call-ID; the responses
know the branch and the CSeq of `x`, too. -/
inductive Fatal (x m : Msg) : Prop where
  /-- A new offer without audio, or one that does not say where the other side is to be reached. -/
  | offer : m.callID = x.callID → m.versionMajor = 2 ∧ m.versionMinor = 0 → m.status ≤ 0 → m.method = b!"INVITE" →
      0 < m.maxForwards → NoAudio m ∨ m.addrs .contact = [] → Fatal x m
  /-- A provisional response or a 200 that describes a session without audio. -/
  | answer : m.callID = x.callID → m.versionMajor = 2 ∧ m.versionMinor = 0 → Answers x m → m.status ≤ 200 →
      (m.status = 200 → x.method = b!"INVITE" → m.addrs .contact ≠ []) → NoAudio m → Fatal x m
  /-- A BYE is redirected to nowhere. -/
  | nowhere : m.callID = x.callID → m.versionMajor = 2 ∧ m.versionMinor = 0 → Answers x m → x.method ≠ b!"INVITE" →
      m.status = 301 ∨ m.status = 302 → m.addrs .contact = [] → Fatal x m

end Gosip.Spec
