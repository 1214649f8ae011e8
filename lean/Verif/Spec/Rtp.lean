import Verif.Basic

/-!
# Specification of the RTP wire formats

RFC 3550 section 5.1 and RFC 2833 section 3.5, as positional (big-endian) numbers.
-/

namespace Gosip.Spec

/-- A byte string read as one big-endian number, first byte most significant. -/
def beNat (b : Bytes) : Nat := b.foldl (fun a c => a * 256 + c.toNat) 0

/-- RFC 3550 fixed header: V=2 (2 bits), P, X=0, CC=0 (4 bits), M, PT (7 bits), sequence number
(16), timestamp (32), SSRC (32), from the most significant bit down. -/
def rtpHeaderNat (pad mark : Bool) (pt seq ts ssrc : Nat) : Nat :=
  2 * 2 ^ 94 + pad.toNat * 2 ^ 93 + mark.toNat * 2 ^ 87 + pt * 2 ^ 80 + seq * 2 ^ 64 + ts * 2 ^ 32 + ssrc

/-- RFC 2833 event payload: event (8 bits), E, R, volume (6 bits), duration (16). -/
def eventNat (event : Nat) (e r : Bool) (volume duration : Nat) : Nat :=
  event * 2 ^ 24 + e.toNat * 2 ^ 23 + r.toNat * 2 ^ 22 + volume * 2 ^ 16 + duration

/-- RFC 2833 table 1: the DTMF characters in event order; `!` is hook flash. -/
def dtmfAlphabet : Bytes := b!"0123456789*#ABCD!"

/-- ASCII upper case. -/
def upper (c : UInt8) : UInt8 := if 97 ≤ c ∧ c ≤ 122 then c - 32 else c

end Gosip.Spec

namespace Gosip.Spec

/-- Fields of an RTP packet read off the wire (RFC 3550 section 5.1). -/
def seqOf (p : Bytes) : Nat := beNat ((p.drop 2).take 2)
@[inherit_doc seqOf] def tsOf (p : Bytes) : Nat := beNat ((p.drop 4).take 4)
@[inherit_doc seqOf] def ssrcOf (p : Bytes) : Nat := beNat ((p.drop 8).take 4)
@[inherit_doc seqOf] def markOf (p : Bytes) : Bool := 128 ≤ (p.getD 1 0).toNat
@[inherit_doc seqOf] def ptOf (p : Bytes) : Nat := (p.getD 1 0).toNat % 128

end Gosip.Spec
