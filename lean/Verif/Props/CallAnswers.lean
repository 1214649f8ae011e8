import Verif.Dialog.Answers
import Verif.Props.CallMedia

/-!
# Property C88: responses answer messages, offers get no answer
-/

namespace Gosip.Props
open Sip Spec Dialog

theorem notResponse {invite : Msg} (hi : IsInvite invite) : invite.isResponse = false := by
  have := hi.1
  unfold Msg.isResponse; simp; omega

/-- **C88** (responses). Every response a dialog sends, at any time, answers a message that it received before and that
gave reason for it when it arrived. -/
theorem C88_answers_received (w : World) (invite : Msg) (evs : List Event) (callID : Bytes) (hi : IsInvite invite)
    (hid : ∀ n, (w.ids n).callID ≠ [])
    (hcall : ∀ x ∈ requests (dialog w invite evs).s.outs, x.2.callID = callID)
    (x : Bytes × Msg) (hx : x ∈ sends (dialog w invite evs).s.outs) (hs : 0 < x.2.status) :
    AnswersOne callID evs x.2 := by
  rw [(peers_dialog w invite evs).2] at hcall
  have h := mirror_loop (w := w) (invite := invite) (P := fun evs => AnswersOne callID evs) ?_ ?_ evs ?_ (notResponse hi)
  · exact (mirror_dialog h).sent x hx (by unfold Msg.isResponse; simpa using hs)
  · intro evs
    refine ⟨fun a b ⟨p, m, q, n, r0, h1, h2, h3, h4⟩ h => ⟨p, m, q, n, r0, h1, h2, h3, stamped_trans h4 h⟩,
      fun a ⟨p, m, q, n, r0, h1, h2, h3, h4⟩ => ?_, fun a ⟨p, m, q, n, r0, h1, h2, h3, h4⟩ => ?_⟩
    · rw [forwards_stamped h4]; exact h3.only.rest.2.2.1
    · rw [phrase_stamped h4]; exact h3.phrase
  · rintro evs e a ⟨p, m, q, n, r0, h1, h2⟩
    exact ⟨p, m, q ++ [e], n, r0, by rw [h1]; simp, h2⟩
  · intro before m after n he hg hc
    have hal := alive_dialog hi hid hg
    obtain ⟨pre', d, y, cur, h1, h2, h3⟩ := hal.last
    obtain ⟨l, hl⟩ : Grows (loop w before (start w invite)).s (loop w evs (start w invite)).s := by
      rw [he, loop_append]; exact grows_loop w _ _
    have hy0 : (d, y) ∈ requests (loop w before (start w invite)).s.outs := by rw [requests_eq, h1]; simp
    have hy : (d, y) ∈ requests (loop w evs (start w invite)).s.outs := by
      rw [hl, requests_eq, own_append, ← requests_eq]; exact List.mem_append_left _ hy0
    have hyc := hcall _ hy
    have hcid : ∀ c, (loop w before (start w invite)).s.cur = some c → c.callID = callID := by
      intro c hcc
      rw [h2] at hcc; cases hcc
      rw [h3.callID]; exact hyc
    refine ⟨before, m, [], n, newResponse m n, rfl, ?_, C34_response_echoes m n, .inl rfl⟩
    cases hc with
    | version h => exact .version h
    | stranger c k h k' => exact .stranger h (by rw [← hcid c k]; exact k')
    | forwards c k h1 h2 h3 h4 => exact .forwards h1 (h2.trans (hcid c k)) h3 h4
    | order c k h1 h2 h3 =>
      rw [hcid c k] at h1
      obtain ⟨m', k1, k2, k3⟩ := seq_loop hi hid hg ⟨_, hy0, hyc⟩ h2
      exact .order m' h1 k1 k2 (by rw [k3]; exact h3)
    | done c k h1 h2 => rw [hcid c k] at h1; exact .done h1 h2
    | method c k h1 h2 => rw [hcid c k] at h1; exact .method h1 h2

/-- **C88** (no answer). No response of a dialog ever has a session description, or any other body, or a Contact. -/
theorem C88_never_answered (w : World) (invite : Msg) (evs : List Event) (hi : IsInvite invite)
    (x : Bytes × Msg) (hx : x ∈ sends (dialog w invite evs).s.outs) (hs : 0 < x.2.status) :
    x.2.payload = none ∧ x.2.addrs .contact = [] := by
  have h := mirror_loop (w := w) (invite := invite)
    (P := fun _ r => (r.payload = none ∧ r.addrs .contact = []) ∧ r.maxForwards = 0 ∧ r.phrase ≠ []) ?_ ?_ evs ?_
    (notResponse hi)
  · exact ((mirror_dialog h).sent x hx (by unfold Msg.isResponse; simpa using hs)).1
  · intro evs
    refine ⟨fun a b h k => ?_, fun a h => h.2.1, fun a h => h.2.2⟩
    rcases k with k | ⟨v, l, ts, _, _, k⟩ <;> rw [k] <;> exact h
  · exact fun _ _ _ h => h
  · intro _ m _ n _ _ _
    exact ⟨⟨rfl, rfl⟩, rfl, phraseOf_ne_nil n⟩

/-- **C88**: in every call, an INVITE of the other side that is in order and offers audio is heeded, so that audio is
sent to the address it names from now on; it is answered 200; and neither this response nor any other one of the call,
whatever happens later, has the answer to the offer (RFC 3261 section 13.3.1.4 wants it in
the 200). -/
theorem C88_offer_unanswered (w : World) (invite : Msg) (evs later : List Event) (m : Msg) (callID : Bytes) (d : Sdp.SDP)
    (a : Sdp.Media)
    (hi : IsInvite invite) (hid : ∀ n, (w.ids n).callID ≠ []) (hw : ∀ n, w.write n = .ok ())
    (hg : (loop w evs (start w invite)).c = .go)
    (hcall : ∃ x ∈ requests (loop w evs (start w invite)).s.outs, x.2.callID = callID)
    (hm : m.method = b!"INVITE") (ho : Proper callID m) (hnew : Newest callID evs m)
    (hoffer : m.payload = some (.sdp d)) (haudio : d.audio = some a)
    (hv : m.via ≠ [] ∨ ∀ n, w.clock n = none) :
    (∃ r0 r dest text, Echoes m 200 r0 ∧ Stamped r0 r ∧ (loop w (evs ++ [.msg m]) (start w invite)).s.outs =
      (loop w evs (start w invite)).s.outs ++ [.peer d.addr a.port, .sent dest r text]) ∧
    ∀ x ∈ sends (dialog w invite (evs ++ .msg m :: later)).s.outs, 0 < x.2.status → ¬ HasDescription x.2 := by
  constructor
  · obtain ⟨_, r0, r, dest, text, h1, h2, h3⟩ := C63_reinvite w invite evs m callID hi hid hw hg hcall hm ho hnew
      (fun d' hd => by rw [hoffer] at hd; cases hd; rw [haudio]; simp) hv
    refine ⟨r0, r, dest, text, h1, h2, ?_⟩
    rw [h3]
    have : mediaNews m = [.peer d.addr a.port] := by simp [mediaNews, mediaOf, hoffer, haudio]
    rw [this]; simp
  · rintro x hx hs ⟨d', hd⟩
    rw [(C88_never_answered w invite _ hi x hx hs).1] at hd
    cases hd

/-- The demo call: answered, then the other side offers another address. The offer is heeded and answered with an empty
200; the INVITE had a description. -/
example : demoSends [demoRsp [] 200, .msg (demoOffer 4000 5)] = [(b!"INVITE", 0), (b!"ACK", 0), ([], 200)] ∧
    ((sends (demo [demoRsp [] 200, .msg (demoOffer 4000 5)]).s.outs).filter fun x => decide (0 < x.2.status)).map
      (fun x => x.2.payload.isSome) = [false] ∧
    peers (demo [demoRsp [] 200, .msg (demoOffer 4000 5)]).s.outs = [(b!"10.0.0.9", 4000)] ∧
    IsInvite demoInvite ∧ Proper b!"id" (demoOffer 4000 5) ∧ Newest b!"id" [demoRsp [] 200] (demoOffer 4000 5) ∧
    (demo [demoRsp [] 200]).c = .go ∧ (∃ x ∈ requests (demo [demoRsp [] 200]).s.outs, x.2.callID = b!"id") := by
  refine ⟨by decide +kernel, by decide +kernel, by decide +kernel, ⟨rfl, rfl⟩, ⟨by decide +kernel, by decide +kernel,
    by decide +kernel, by decide +kernel⟩, ?_, by decide +kernel, by decide +kernel⟩
  intro m' hm' hp
  simp only [List.mem_singleton, demoRsp, Event.msg.injEq] at hm'
  subst hm'
  exact absurd hp.request (by decide +kernel)

/-- Each reason but one occurs: a call that answers 481, 200, 500, 405, 200 and 505. -/
example : let evs := [demoRsp [] 200, .msg { demoReqMsg b!"OPTIONS" 4 with callID := b!"other" }, demoReq b!"OPTIONS" 5,
      demoReq b!"OPTIONS" 4, demoReq b!"INFO" 6, demoReq b!"INVITE" 7, .msg { demoReqMsg b!"BYE" 8 with versionMajor := 3 }]
    (sends (dialog demoWorld demoInvite evs).s.outs).map (·.2.status) = [0, 0, 481, 200, 500, 405, 200, 505] ∧
    ∀ x ∈ requests (dialog demoWorld demoInvite evs).s.outs, x.2.callID = b!"id" := by
  decide +kernel

end Gosip.Props
