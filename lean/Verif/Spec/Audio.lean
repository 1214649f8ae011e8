import Verif.Spec.RtpHistory
import Verif.Spec.G711

/-!
# Specification of audio over RTP
-/

namespace Gosip.Spec
open Rtp

/-- Two lists of the same length, related position by position. -/
def All2 {α β : Type} (R : α → β → Prop) : List α → List β → Prop
  | [], [] => True
  | a :: l, b :: m => R a b ∧ All2 R l m
  | _, _ => False

/-- How the sample `x` may sound at the other end of a μ-law line: with the same sign, off by at most a 32nd of its
magnitude and a bias of 132; too loud samples at the limit. -/
def SoundsLike (x y : Int16) : Prop :=
  (x.toInt.natAbs ≤ 32635 → 32 * (y.toInt - x.toInt).natAbs ≤ x.toInt.natAbs + 132 ∧
    (0 ≤ x.toInt → 0 ≤ y.toInt) ∧ (x.toInt ≤ 0 → y.toInt ≤ 0)) ∧
  (32635 < x.toInt → y.toInt = 32124) ∧ (x.toInt < -32635 → y.toInt = -32124)

/-- The frames that a history of operations sends: those given to `Send` while the session is open and the peer known. -/
def framesSent : List Op → Bool × Bool → List Frame
  | [], _ => []
  | .send f :: t, c => if c.1 && c.2 then f :: framesSent t c else framesSent t c
  | o :: t, c => framesSent t (canSend [o] c)

/-- Raw packets of a history do not look like frames of audio. -/
def NoRawAudio (ops : List Op) : Prop := ∀ pt d n, .sendRaw pt d n ∈ ops → pt.toNat % 128 ≠ 0 ∨ d.length ≠ 160

end Gosip.Spec
