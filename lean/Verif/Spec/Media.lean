import Verif.Spec.Phone

/-!
# Specification of agreed media

RFC 3264: the answer lists the formats of the offer that the other side can receive; a port of 0 rejects the media; a
description marked `sendonly` asks for no media in return.
-/

namespace Gosip.Spec
open Sip Dialog

/-- The payload types a session description lists for audio. -/
def formats (d : Sdp.SDP) : List Nat :=
  match d.audio with
  | some a => a.codecs.map (·.pt.toNat)
  | none => []

/-- The other side, which sent the description `theirs`, wants audio of that payload type, at that address. -/
def Wants (theirs : Sdp.SDP) (pt : Nat) (to : Bytes × UInt16) : Prop :=
  pt ∈ formats theirs ∧ theirs.sendOnly = false ∧
  ∃ a, theirs.audio = some a ∧ a.port ≠ 0 ∧ to = (theirs.addr, a.port)

/-- The session descriptions the other side has sent in a call. -/
def descriptions (callID : Bytes) : Event → List Sdp.SDP
  | .msg m =>
    if m.callID = callID then
      match m.payload with
      | some (.sdp d) => [d]
      | _ => []
    else []
  | _ => []

end Gosip.Spec
