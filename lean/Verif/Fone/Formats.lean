import Verif.Fone.Lemmas

/-!
# Lemmas on the formats of the packets the phone sends
-/

namespace Gosip.Fone
open Sip Spec Dialog Rtp

/-- Every packet logged is μ-law or a telephone event. -/
def TwoFormats (s : Sess) : Prop := ∀ x ∈ s.log, ptOf x.1 = 0 ∨ ptOf x.1 = 101

theorem two_write {w : Writes} {s : Sess} {p : Bytes} (h : TwoFormats s) (hp : ptOf p = 0 ∨ ptOf p = 101) :
    TwoFormats (s.writeTo w p).2 := by
  intro x hx
  rcases List.mem_append.1 hx with hx | hx
  · exact h x hx
  · rw [List.mem_singleton.1 hx]; exact hp

theorem two_start (w : Writes) (c v : UInt8) (fuel : Nat) (dur : UInt16) (s : Sess) (h : TwoFormats s)
    (hp : s.hdr.pt = 101) : TwoFormats (dtmfStart w c v fuel dur s).2 ∧ (dtmfStart w c v fuel dur s).2.hdr.pt = 101 := by
  induction fuel generalizing dur s with
  | zero => exact ⟨h, hp⟩
  | succ n ih =>
    have k := two_write (w := w) h (p := s.hdr.write [] ++ [c, v, (dur >>> 8).toUInt8, (dur &&& 0xff).toUInt8])
      (.inr (by rw [(write_fields s.hdr _).2.2.2.2.1, hp]; rfl))
    unfold dtmfStart
    dsimp only
    split
    · exact ⟨k, hp⟩
    · split
      · exact ⟨k, hp⟩
      · exact ih _ _ k hp

theorem two_end (w : Writes) (ev : Bytes) (n : Nat) (s : Sess) (h : TwoFormats s) (hp : s.hdr.pt = 101) :
    TwoFormats (dtmfEnd w ev n s).2 := by
  induction n generalizing s with
  | zero => exact h
  | succ n ih =>
    have k := two_write (w := w) h (p := s.hdr.write [] ++ ev)
      (.inr (by rw [(write_fields s.hdr _).2.2.2.2.1, hp]; rfl))
    unfold dtmfEnd
    dsimp only
    split
    · exact k
    · exact ih _ k hp

theorem two_send (w : Writes) (s : Sess) (f : Frame) (h : TwoFormats s) : TwoFormats (s.send w f).2 := by
  unfold Sess.send
  split
  · exact h
  · exact two_write (s := { s with hdr := _ }) h (.inl (write_fields { s.hdr with pt := ulawPT } _).2.2.2.2.1)

theorem two_dtmf (w : Writes) (s : Sess) (d : UInt8) (h : TwoFormats s) : TwoFormats (s.sendDTMF w d).2 := by
  unfold Sess.sendDTMF
  dsimp only
  split
  · exact h
  · split
    · exact h
    · have k := two_start w (dtmfCodes d) (dtmfVolume &&& 0x3f) 8 1 { s with hdr := { s.hdr with pt := dtmfPT, mark := true } }
        h rfl
      generalize dtmfStart w (dtmfCodes d) (dtmfVolume &&& 0x3f) 8 1 { s with hdr := { s.hdr with pt := dtmfPT, mark := true } } = r at k
      obtain ⟨o, s'⟩ := r
      cases o with
      | none => exact k.1
      | some b =>
        cases b with
        | false => exact k.1
        | true => exact two_end w _ 3 s' k.1 k.2

theorem two_step (w : Writes) (p : Phone) (x : Input) (h : TwoFormats p.sess) : TwoFormats (p.step w x).sess := by
  cases x with
  | tick f =>
    cases f with
    | none => exact h
    | some f => exact two_send w _ f h
  | key c => exact two_dtmf w _ c h
  | audio f => cases f <;> exact h
  | state c => cases c <;> exact h
  | _ => exact h

theorem two_phone (w : Writes) (ssrc : UInt32) (ins : List Input) : TwoFormats (phone w ssrc ins).sess := by
  refine list_snoc (P := fun ins => TwoFormats (phone w ssrc ins).sess) ?_ (fun l x ih => ?_) ins
  · intro x hx; cases hx
  · unfold phone at ih ⊢
    rw [run_snoc]
    split
    · exact two_step w _ x ih
    · exact ih

end Gosip.Fone
