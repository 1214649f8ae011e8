import Verif.Spec.Audio
import Verif.Spec.Rtp

/-!
# Specification of what a listener should hear
-/

namespace Gosip.Spec
open Rtp

/-- A datagram with the host and port it came from. -/
abbrev Arrival := (Bytes × UInt16) × Bytes

/-- The datagrams among those that arrived which came from the peer. -/
def fromPeer (peer : Bytes × UInt16) (arrived : List Arrival) : List Arrival := arrived.filter fun a => decide (a.1 = peer)

/-- `heard` is the sound of the frames `fs`: as many, in the same order, each like the one spoken. -/
def Sounds (fs : List Frame) (heard : List (List Int16)) : Prop := All2 (fun (f : Frame) l => All2 SoundsLike f.toList l) fs heard

end Gosip.Spec
