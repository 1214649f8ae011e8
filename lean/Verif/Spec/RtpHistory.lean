import Verif.Rtp.Session
import Verif.Spec.Rtp

/-!
# Specification of the packets of a session over a history of operations
-/

namespace Gosip.Spec
open Rtp

/-- Samples by which an operation advances the media clock, given whether the session can send. -/
def samples (canSend : Bool) : Op → Nat
  | .send _ => if canSend then 160 else 0
  | .sendRaw _ _ n => if canSend then n.toNat else 0
  | _ => 0

/-- Whether the session can send after a history: not closed, and the peer known. -/
def canSend : List Op → Bool × Bool → Bool × Bool
  | [], f => f
  | .setPeer b :: t, f => canSend t (f.1, b)
  | .close :: t, f => canSend t (false, f.2)
  | _ :: t, f => canSend t f

/-- Total of the samples of a history. -/
def totalSamples : List Op → Bool × Bool → Nat
  | [], _ => 0
  | o :: t, f => samples (f.1 && f.2) o + totalSamples t (canSend [o] f)

/-- Two successive write attempts: the number goes up by one, or the first attempt failed and the
number is used again. -/
def SeqStep (a b : Bytes × Bool) : Prop :=
  seqOf b.1 = (seqOf a.1 + 1) % 2 ^ 16 ∨ (a.2 = false ∧ seqOf b.1 = seqOf a.1)

/-- `R` holds between all neighbours of a list. -/
def Adjacent {α : Type} (R : α → α → Prop) : List α → Prop
  | a :: b :: t => R a b ∧ Adjacent R (b :: t)
  | _ => True

/-- The packets of one DTMF event as RFC 2833 prescribes: event `code`, timestamp `ts`, numbers from
`seq`; payloads (durations 1, 101, 201, 301, then three times the end packet of 400). -/
def dtmfPackets (s : Sess) (code : UInt8) : List Bytes :=
  let pkt := fun (k : Nat) (m e : Bool) (dur : Nat) =>
    ({ s.hdr with pt := 101, mark := m, seq := s.hdr.seq + UInt16.ofNat k } : Header).write [] ++
      [code, if e then 134 else 6, UInt8.ofNat (dur / 256), UInt8.ofNat (dur % 256)]
  [pkt 0 true false 1, pkt 1 false false 101, pkt 2 false false 201, pkt 3 false false 301,
    pkt 4 false true 400, pkt 5 false true 400, pkt 6 false true 400]

/-- The condition under which a packet is a frame for the application. -/
def IsUlawFrame (p : Bytes) : Prop :=
  p.length = 172 ∧ (p.getD 0 0).toNat / 64 = 2 ∧ (p.getD 0 0).toNat / 16 % 2 = 0 ∧ ptOf p = 0

instance (p : Bytes) : Decidable (IsUlawFrame p) := by unfold IsUlawFrame; infer_instance

end Gosip.Spec
