import Verif.Props.CallRedirect
import Verif.Props.CallEnd

/-!
# What goes wrong in every call (C46, C51, C53, C62, C64)

The concrete calls in `C46_late_response`, `C51_after_hangup`, `C53_cancel_after_answer`, `C62_accepted_refused` and
`C64_bye_redirected` are not special cases: what they show happens in every running call.
-/

namespace Gosip.Props
open Sip Spec Dialog

theorem published_media (m : Msg) : published (mediaNews m) = [] := by
  unfold published mediaNews
  simp [List.filterMap_map]

/-- **C46 is false in every call that is answered**: a 180 or 183 for the INVITE that arrives after the 200 (UDP does not
keep the order) makes the application see `ringing` after `answered`. -/
theorem C46_late_response_always (w : World) (invite : Msg) (evs : List Event) (m : Msg) (d : Bytes) (x : Msg)
    (hi : IsInvite invite) (hid : ∀ n, (w.ids n).callID ≠ []) (hg : (loop w evs (start w invite)).c = .go)
    (hx : (requests (loop w evs (start w invite)).s.outs).getLast? = some (d, x))
    (hans : (published (loop w evs (start w invite)).s.outs).getLast? = some .answered)
    (hm : Answers x m) (hver : m.versionMajor = 2 ∧ m.versionMinor = 0) (hcall : m.callID = x.callID)
    (hst : m.status = 180 ∨ m.status = 183) (haudio : ∀ d, m.payload = some (.sdp d) → d.audio ≠ none) :
    (loop w (evs ++ [.msg m]) (start w invite)).c = .go ∧
    published (loop w (evs ++ [.msg m]) (start w invite)).s.outs =
      published (loop w evs (start w invite)).s.outs ++ [.ringing] ∧
    ¬ Forward (published (loop w (evs ++ [.msg m]) (start w invite)).s.outs) := by
  obtain ⟨h1, h2⟩ := C62_provisional w invite evs m d x hi hid hg hx hm hver hcall (by omega) haudio
  have h3 : published (loop w (evs ++ [.msg m]) (start w invite)).s.outs =
      published (loop w evs (start w invite)).s.outs ++ [.ringing] := by
    rw [h2, published_append, published_append, published_media]
    unfold provisionalNews
    rw [if_neg (by omega), if_pos hst]
    simp [published]
  refine ⟨h1, h3, ?_⟩
  rw [h3]
  intro hf
  obtain ⟨pre, hpre⟩ := List.getLast?_eq_some_iff.1 hans
  rw [hpre] at hf
  unfold Forward at hf
  rw [List.append_assoc, List.pairwise_append] at hf
  have := hf.2.1
  simp [MayFollow] at this

/-- **C53 is false in every call that is answered**: after such a response, hanging up sends CANCEL instead of BYE, so
that the other side keeps talking to nobody. -/
theorem C53_cancel_after_answer_always (w : World) (invite : Msg) (evs : List Event) (m : Msg) (d : Bytes) (x : Msg)
    (hi : IsInvite invite) (hid : ∀ n, (w.ids n).callID ≠ []) (hg : (loop w evs (start w invite)).c = .go)
    (hx : (requests (loop w evs (start w invite)).s.outs).getLast? = some (d, x))
    (hans : (published (loop w evs (start w invite)).s.outs).getLast? = some .answered)
    (hm : Answers x m) (hver : m.versionMajor = 2 ∧ m.versionMinor = 0) (hcall : m.callID = x.callID)
    (hst : m.status = 180 ∨ m.status = 183) (haudio : ∀ d, m.payload = some (.sdp d) → d.audio ≠ none) :
    ∃ x' c0 c dest, Cancels x' c0 ∧ Stamped c0 c ∧
      sends (loop w (evs ++ [.msg m, .hangup]) (start w invite)).s.outs =
        sends (loop w (evs ++ [.msg m]) (start w invite)).s.outs ++ [(dest, c)] := by
  obtain ⟨h1, h2, _⟩ := C46_late_response_always w invite evs m d x hi hid hg hx hans hm hver hcall hst haudio
  obtain ⟨pre, d', x0, post, x', c0, c, dest, new, _, _, _, _, k1, k2, k3, k4⟩ :=
    C53_cancel w invite (evs ++ [.msg m]) hi hid h1 (by rw [h2]; simp)
  refine ⟨x', c0, c, dest, k1, k2, ?_⟩
  rw [show evs ++ [.msg m, .hangup] = (evs ++ [.msg m]) ++ [.hangup] by simp, loop_snoc, Run.andThen_of_go h1, k3,
    sends_append, k4]

/-- **C62 is false for every other success**: a final response 201 to 299 ends the call with an error, although the
other side has accepted. -/
theorem C62_accepted_refused_always (w : World) (invite : Msg) (evs : List Event) (m : Msg) (d : Bytes) (x : Msg)
    (hi : IsInvite invite) (hid : ∀ n, (w.ids n).callID ≠ []) (hw : ∀ n, w.write n = .ok ())
    (hg : (loop w evs (start w invite)).c = .go)
    (hx : (requests (loop w evs (start w invite)).s.outs).getLast? = some (d, x)) (hxi : x.method = b!"INVITE")
    (hm : Answers x m) (hver : m.versionMajor = 2 ∧ m.versionMinor = 0) (hcall : m.callID = x.callID)
    (hst : 200 < m.status ∧ m.status < 300) (hcon : m.addrs .contact ≠ []) :
    (loop w (evs ++ [.msg m]) (start w invite)).c = .stop ∧
    errors (loop w (evs ++ [.msg m]) (start w invite)).s.outs =
      errors (loop w evs (start w invite)).s.outs ++ [.response m] ∧
    published (loop w (evs ++ [.msg m]) (start w invite)).s.outs = published (loop w evs (start w invite)).s.outs := by
  obtain ⟨h1, new, h2, h3, _⟩ := C62_refused_partial w invite evs m d x hi hid hw hg hx hm hver hcall
    ⟨by omega, by omega, by omega, by omega⟩ (fun _ => hcon)
  obtain ⟨_, ack, dest, text, _, _, rfl⟩ := h3 hxi
  refine ⟨h1, ?_, ?_⟩ <;> rw [h2]
  · simp [errors]
  · simp [published]

/-- **C51 is false after hanging up**: once the BYE has been sent, the 200 for the INVITE, repeated because the ACK was
lost, is not acknowledged again; nothing at all happens. -/
theorem C51_after_hangup_always (w : World) (invite : Msg) (evs more : List Event) (m : Msg) (d : Bytes) (x : Msg)
    (hi : IsInvite invite) (hid : ∀ n, (w.ids n).callID ≠ []) (hg : (loop w evs (start w invite)).c = .go)
    (hx : (requests (loop w evs (start w invite)).s.outs).getLast? = some (d, x)) (hxb : x.method = b!"BYE")
    (hm : 0 < m.status ∧ m.cseqMethod = b!"INVITE") (hver : m.versionMajor = 2 ∧ m.versionMinor = 0)
    (hcall : m.callID = x.callID) :
    dialog w invite (evs ++ .msg m :: more) = dialog w invite (evs ++ more) := by
  refine C67_stray_response w invite evs more m d x hi hid hg hx hm.1 ?_ hver hcall
  intro h
  have := h.2.2.1
  rw [hm.2, hxb] at this
  cases this

/-- **C64 is false whenever the BYE is redirected**: instead of sending the BYE again, the dialog calls the address named:
it sends the INVITE of the call that was to be ended. -/
theorem C64_bye_redirected_always (w : World) (invite : Msg) (evs : List Event) (m : Msg) (d : Bytes) (x : Msg)
    (ad : Addr) (more : List Addr) (u : URI) (a : Bytes) (rest : List Bytes)
    (hi : IsInvite invite) (hid : ∀ n, (w.ids n).callID ≠ []) (hw : ∀ n, w.write n = .ok ())
    (hfr : ∀ n, w.frees n = true) (hl : w.loose = false ∨ ∀ n, w.listen n ≠ none)
    (hg : (loop w evs (start w invite)).c = .go)
    (hx : (requests (loop w evs (start w invite)).s.outs).getLast? = some (d, x)) (hxb : x.method = b!"BYE")
    (hm : Answers x m) (hver : m.versionMajor = 2 ∧ m.versionMinor = 0) (hcall : m.callID = x.callID)
    (hst : m.status = 301 ∨ m.status = 302) (hcon : m.addrs .contact = ad :: more) (hu : ad.uri = some u)
    (hra : ∀ n srv, (routeAddress (w.resolver n) u.host u.port srv).2 = .ok (a :: rest)) (hd : ∀ n, w.dial n a ≠ none)
    (hf : ∀ y ∈ requests (loop w evs (start w invite)).s.outs, y.2.maxForwards ≠ 1) :
    (loop w (evs ++ [.msg m]) (start w invite)).c = .go ∧
    ∃ dials c y text, OnlyDials dials ∧ Reaches w a c ∧ y.method = b!"INVITE" ∧ y.status ≤ 0 ∧ y.request = some u ∧
      y.callID = x.callID ∧
      (loop w (evs ++ [.msg m]) (start w invite)).s.outs =
        (loop w evs (start w invite)).s.outs ++ dials ++ [.sent c.remote y text] := by
  obtain ⟨c, cur, hs, hc, h3⟩ := current hi hid hg hx
  have hal := alive_dialog hi hid hg
  obtain ⟨v, hv⟩ := h3.only
  obtain ⟨cur', hc', hoc, _, hcid⟩ := hal.cur
  have : cur' = cur := by
    have : some cur' = some cur := hc'.symm.trans hc
    cases this; rfl
  subst this
  have hcb : cur'.method = b!"BYE" := by rw [hv]; exact hxb
  obtain ⟨pre, d1, x1, post, e1, e2, _⟩ := hal.sent
  have hmem : (d1, x1) ∈ own (loop w evs (start w invite)).s.outs := by rw [e1]; simp
  obtain ⟨v1, hv1⟩ := e2.only
  have hmf := hf (d1, x1) (by rw [requests_eq]; exact hmem)
  have hnm := named_loop w invite evs (isOwn_invite hi) hg
  have hr := isOwn_not_response hal.invite.1
  have hk : ContactOK (loop w evs (start w invite)).s.invite := by
    obtain ⟨c1, _, _, n1, _⟩ := (tied_loop evs _ (tied_start w invite (isOwn_invite hi))).1.sent (d1, x1) hmem
    obtain ⟨a1, l1, u1, g1, g2, _⟩ := n1.contact
    intro a' l' ha'
    rw [hv1] at ha'
    have : x1.addrs .contact = a' :: l' := ha'
    rw [g1] at this
    cases this
    rw [g2]; simp
  rw [loop_snoc, (Run.andThen_of_go hg), response_step hs hc hver (by rw [hcall, hv]) (answers_stamped h3.stamped hm),
    ackFinal_none (by rw [hcb]; intro h; exact absurd h.2 (by decide))]
  simp only [Run.andThen]
  rw [settle_refused (by omega)]
  dsimp only
  unfold handleStatus
  rw [if_neg (by omega), if_neg (by omega), if_neg (by omega), if_neg (by omega), if_pos (by omega)]
  unfold redirect
  have hh : headUri (m.addrs .contact) = .ok (some u) := by rw [hcon]; simp [headUri, hu]
  rw [hh]
  dsimp only
  obtain ⟨c', n, cs, dials, m0, m', t, k1, k2, k3, k4, k5, k6⟩ := sendInvite_ok (w := w)
    (s := { (loop w evs (start w invite)).s with
      routes := [], requestTimer := false,
      invite := { (loop w evs (start w invite)).s.invite with
        request := some u, addrs := setAt (loop w evs (start w invite)).s.invite.addrs .route [] } })
    (u := u) (a := a) (l := rest) hw hfr rfl (by simp [setAt]) (fun n => hra n _) hd hl
    (by
      intro a' l' ha'
      exact hk a' l' (by simpa [setAt] using ha'))
    hr (by show (loop w evs (start w invite)).s.invite.maxForwards ≠ 1; rw [hv1]; exact hmf)
  have hpop := populate_spec (by exact hr) k3
  refine ⟨k5, dials, c', m', t, k2, k1, ?_, ?_, ?_, ?_, k6⟩
  · rw [k4.method, hpop.method]
    exact hnm.1.trans hi.2
  · rw [k4.status, hpop.status]
    show (loop w evs (start w invite)).s.invite.status ≤ 0
    unfold Msg.isResponse at hr
    simpa using hr
  · obtain ⟨v', hm'⟩ := k4.only
    rw [hm']; exact hpop.request
  · obtain ⟨v', hm'⟩ := k4.only
    rw [hm']
    refine hpop.callID.trans ?_
    show (if (loop w evs (start w invite)).s.invite.callID = [] then _ else (loop w evs (start w invite)).s.invite.callID) = _
    rw [if_neg hal.invite.2.2, ← hcid, hv]

/-- The hypotheses can be met: the call has been answered (and its last request is the INVITE), or hung up (and its last
request is the BYE), and the responses answer that request in the same call. -/
example :
    (demo [demoRsp [] 180, demoRsp [] 200]).c = .go ∧
    ((requests (demo [demoRsp [] 180, demoRsp [] 200]).s.outs).getLast?.map fun x => x.2.method) = some b!"INVITE" ∧
    (published (demo [demoRsp [] 180, demoRsp [] 200]).s.outs).getLast? = some .answered ∧
    published (demo [demoRsp [] 180, demoRsp [] 200, demoRsp [] 183]).s.outs = [.ringing, .answered, .ringing] ∧
    demoSends [demoRsp [] 180, demoRsp [] 200, demoRsp [] 183, .hangup] =
      [(b!"INVITE", 0), (b!"ACK", 0), (b!"CANCEL", 0)] ∧
    errors (demo [demoRsp [] 180, demoRsp [] 204]).s.outs = [.response (demoRspMsg [] 204)] ∧
    (demo [demoRsp [] 200, .hangup]).c = .go ∧
    ((requests (demo [demoRsp [] 200, .hangup]).s.outs).getLast?.map fun x => x.2.method) = some b!"BYE" ∧
    (demoRspMsg [] 200).cseqMethod = b!"INVITE" ∧
    (sends (demo [demoRsp [] 200, .hangup, demoMoved [demoRsp [] 200, .hangup] 301]).s.outs).map
      (fun x => (x.1, x.2.method)) =
    [(b!"10.0.0.2:5060", b!"INVITE"), (b!"10.0.0.2:5060", b!"ACK"), (b!"10.0.0.2:5062", b!"BYE"),
     (b!"10.0.0.3:5060", b!"INVITE")] ∧
    (demo [demoRsp [] 200, .hangup, demoMoved [demoRsp [] 200, .hangup] 301]).c = .go ∧
    (demoLast [demoRsp [] 200, .hangup, demoMoved [demoRsp [] 200, .hangup] 301]).callID =
      (demoLast [demoRsp [] 200, .hangup]).callID := by
  decide +kernel

end Gosip.Props
