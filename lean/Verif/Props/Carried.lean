import Verif.Dialog.Carried
import Verif.Props.Phone
import Verif.Props.CallLocal

/-!
# Property C93: what the application puts into its INVITE is what is sent
-/

namespace Gosip.Props
open Sip Spec Dialog

theorem own_dialog_loop (w : World) (invite : Msg) (evs : List Event) :
    own (dialog w invite evs).s.outs = own (loop w evs (start w invite)).s.outs := by
  rcases dialog_outs w invite evs with h | h
  · rw [h]
  · rw [h, own_append]; simp [own, sends]

/-- **C93.** Every INVITE of a dialog, also a retransmitted one, one to another address and one that follows a redirection,
carries what the application gave to `NewDialog`. -/
theorem C93_carried (w : World) (invite : Msg) (evs : List Event) (hi : IsInvite invite) :
    ∀ x ∈ requests (dialog w invite evs).s.outs, x.2.method = b!"INVITE" →
      Carries invite x.2 ∧ BodyGiven w invite.payload x.2.payload := by
  intro x hx hm
  refine ⟨?_, (C65_description w invite evs hi x hx hm).1⟩
  rw [requests_eq, own_dialog_loop] at hx
  exact (carried_loop w invite evs (isOwn_invite hi)).sent x hx hm

/-- **C93** (caller). Every request of a dialog, whatever its method, names the caller that the application gave, with a
tag. -/
theorem C93_caller (w : World) (invite : Msg) (evs : List Event) (hi : IsInvite invite) (hf : invite.addrs .from ≠ []) :
    ∀ x ∈ requests (dialog w invite evs).s.outs,
      WithTag (invite.addrs .from) (x.2.addrs .from) ∧
      ∃ a more t, x.2.addrs .from = a :: more ∧ ParamIs a.param b!"tag" t := by
  intro x hx
  rw [requests_eq] at hx
  obtain ⟨c, _, _, h3, _⟩ := tied_dialog w invite evs (isOwn_invite hi) x hx
  refine ⟨?_, h3.full.2.1⟩
  rw [own_dialog_loop] at hx
  exact (caller_loop w invite evs (isOwn_invite hi) hf).sent x hx

/-- **C93** (the phone). Every INVITE of the phone is from its user at its public address to the party that was asked for,
says the words, and offers μ-law and telephone events at the public address and the port of its RTP session. All its
requests are from that user. -/
theorem C93_phone (w : World) (evs : List Event) (request : URI) (publicIP user : Bytes) (rtpPort : UInt16) (origin : Bytes)
    (hip : publicIP ≠ []) (hid : origin ≠ []) :
    ∀ x ∈ requests (dialog w (Fone.invite request publicIP user rtpPort origin) evs).s.outs,
      (∃ t, x.2.addrs .from = [{ uri := some { host := publicIP, user := user }, param := [(b!"tag", t)] }]) ∧
      (x.2.method = b!"INVITE" →
        x.2.addrs .to = [{ uri := some request }] ∧
        x.2.hdr .warning = b!"dark lord funk you up" ∧
        x.2.payload = some (.sdp
          { addr := publicIP, origin := { id := origin, addr := publicIP },
            audio := some { port := rtpPort, codecs := [Sdp.ulawCodec, Sdp.dtmfCodec] } })) := by
  intro x hx
  have hi : IsInvite (Fone.invite request publicIP user rtpPort origin) := ⟨rfl, rfl⟩
  refine ⟨?_, fun hm => ?_⟩
  · obtain ⟨h1, a, more, t, h2, h3⟩ := C93_caller w _ evs hi (by simp [Fone.invite]) x hx
    rcases h1 with h1 | ⟨a', more', t', h4, _, h5⟩
    · rw [h1] at h2
      simp only [Fone.invite, List.cons.injEq] at h2
      rw [← h2.1] at h3
      obtain ⟨k, l, r, he, _⟩ := h3
      simp at he
    · simp only [Fone.invite, List.cons.injEq] at h4
      rw [h5, ← h4.1, ← h4.2]
      exact ⟨t', rfl⟩
  · obtain ⟨h1, h2⟩ := C93_carried w _ evs hi x hx hm
    refine ⟨h1.callee (by simp [Fone.invite]), h1.hdr .warning (.inl (by decide)), ?_⟩
    rcases h2 with h2 | ⟨d0, d, e1, e2, e3⟩
    · exact h2
    · simp only [Fone.invite, Option.some.injEq, Payload.sdp.injEq] at e1
      subst e1
      rw [e2, e3.only]
      rcases e3.addr with k1 | ⟨k1, _⟩
      · rcases e3.oaddr with k2 | ⟨k2, _⟩
        · rcases e3.id with k3 | ⟨k3, _⟩
          · rw [k1, k2, k3]
          · exact absurd k3 hid
        · exact absurd k2 hip
      · exact absurd k1 hip

/-! ## Examples -/

-- The call of the phone: what its INVITE and the answer to the other side's INVITE say.
example : IsInvite demoCall ∧ demoCall.addrs .from ≠ [] ∧
    (requests (dialog demoWorld demoCall demoCallEvs).s.outs).map (fun x => (x.2.method, x.2.addrs .from)) =
      [(b!"INVITE", [{ uri := some { host := b!"10.0.0.1", user := b!"alice" }, param := [(b!"tag", b!"tag")] }])] := by
  refine ⟨⟨rfl, rfl⟩, by decide, by decide +kernel⟩

end Gosip.Props
