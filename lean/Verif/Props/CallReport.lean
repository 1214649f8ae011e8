import Verif.Props.CallReply
import Verif.Dialog.Moved
import Verif.Dialog.From

/-!
# Properties C62, C66 and C67: what the application hears, hanging up by the other side, strangers
-/

namespace Gosip.Props
open Sip Spec Dialog

/-- The last request sent is the current one, except for time stamps. -/
theorem current {w : World} {invite : Msg} {evs : List Event} {d : Bytes} {x : Msg}
    (hi : IsInvite invite) (hid : ∀ n, (w.ids n).callID ≠ []) (hg : (loop w evs (start w invite)).c = .go)
    (hx : (requests (loop w evs (start w invite)).s.outs).getLast? = some (d, x)) :
    ∃ c cur, (loop w evs (start w invite)).s.sock = some c ∧ (loop w evs (start w invite)).s.cur = some cur ∧
      Core x cur := by
  have h := alive_dialog hi hid hg
  obtain ⟨c, hs⟩ := h.sock
  obtain ⟨pre, d', x', cur, h1, h2, h3⟩ := h.last
  rw [requests_eq, h1] at hx
  simp only [List.getLast?_append, List.getLast?_singleton, Option.some_or, Option.some.injEq, Prod.mk.injEq] at hx
  obtain ⟨rfl, rfl⟩ := hx
  exact ⟨c, cur, hs, h2, h3⟩

/-- While the last request is not an INVITE the dialog is not sending its invite. -/
theorem current_other {w : World} {invite : Msg} {evs : List Event}
    (hi : IsInvite invite) (hid : ∀ n, (w.ids n).callID ≠ []) (hg : (loop w evs (start w invite)).c = .go)
    {cur : Msg} (hc : (loop w evs (start w invite)).s.cur = some cur) :
    (cur.method = b!"INVITE" ∧ (loop w evs (start w invite)).s.req = .invite) ∨
    (cur.method = b!"BYE" ∧ (loop w evs (start w invite)).s.req ≠ .invite) := by
  have h := alive_dialog hi hid hg
  have hn := named_loop w invite evs (isOwn_invite hi) hg
  rw [hi.2] at hn
  unfold St.cur at hc
  cases hq : (loop w evs (start w invite)).s.req with
  | none => rw [hq] at hc; cases hc
  | invite =>
    rw [hq] at hc
    cases hc
    exact .inl ⟨hn.1, rfl⟩
  | other m =>
    rw [hq] at hc
    cases hc
    exact .inr ⟨h.other _ hq, by simp⟩

/-! ## C62 -/

/-- **C62** (provisional). A provisional response to the last request is reported exactly: the media address in it, if
there is one, then "proceeding" for 100 and "ringing" for 180 and 183. Nothing is sent, and the call goes on. -/
theorem C62_provisional (w : World) (invite : Msg) (evs : List Event) (m : Msg) (d : Bytes) (x : Msg)
    (hi : IsInvite invite) (hid : ∀ n, (w.ids n).callID ≠ []) (hg : (loop w evs (start w invite)).c = .go)
    (hx : (requests (loop w evs (start w invite)).s.outs).getLast? = some (d, x))
    (hm : Answers x m) (hver : m.versionMajor = 2 ∧ m.versionMinor = 0) (hcall : m.callID = x.callID)
    (hst : m.status < 200) (haudio : ∀ d, m.payload = some (.sdp d) → d.audio ≠ none) :
    (loop w (evs ++ [.msg m]) (start w invite)).c = .go ∧
    (loop w (evs ++ [.msg m]) (start w invite)).s.outs =
      (loop w evs (start w invite)).s.outs ++ mediaNews m ++ provisionalNews m.status := by
  obtain ⟨c, cur, hs, hc, h3⟩ := current hi hid hg hx
  obtain ⟨v, hv⟩ := h3.only
  rw [loop_snoc, (Run.andThen_of_go hg)]
  exact provisional_eq hs hc hver (by rw [hcall, hv]) (answers_stamped h3.stamped hm) hst haudio

/-- **C62** (answer). The first 200 to the INVITE, before anything else introduced the other side, is acknowledged,
its media address is reported, then "answered". -/
theorem C62_answered_partial (w : World) (invite : Msg) (evs : List Event) (m : Msg) (d : Bytes) (x : Msg)
    (hi : IsInvite invite) (hid : ∀ n, (w.ids n).callID ≠ []) (hw : ∀ n, w.write n = .ok ())
    (hg : (loop w evs (start w invite)).c = .go)
    (hx : (requests (loop w evs (start w invite)).s.outs).getLast? = some (d, x)) (hxi : x.method = b!"INVITE")
    (hfirst : ∀ ev ∈ evs, ¬ Introduces ev)
    (hm : Answers x m) (hver : m.versionMajor = 2 ∧ m.versionMinor = 0) (hcall : m.callID = x.callID)
    (hst : m.status = 200) (hcon : m.addrs .contact ≠ [])
    (haudio : ∀ d, m.payload = some (.sdp d) → d.audio ≠ none) :
    (loop w (evs ++ [.msg m]) (start w invite)).c = .go ∧
    ∃ a ack dest text, Acknowledges x m a ∧ Stamped a ack ∧
      (loop w (evs ++ [.msg m]) (start w invite)).s.outs =
        (loop w evs (start w invite)).s.outs ++ .sent dest ack text :: mediaNews m ++ [.state .answered] := by
  obtain ⟨c, cur, hs, hc, h3⟩ := current hi hid hg hx
  obtain ⟨v, hv⟩ := h3.only
  have hr : (loop w evs (start w invite)).s.remote = none := by
    cases hr : (loop w evs (start w invite)).s.remote with
    | none => rfl
    | some r =>
      obtain ⟨hmem, hf⟩ := heard_loop w invite evs r hr
      exact absurd hf (hfirst _ hmem)
  rw [loop_snoc, (Run.andThen_of_go hg)]
  obtain ⟨a, ack, t, h4, h5, h6, h7⟩ := ok_invite_eq (w := w) hw hs hc hver (by rw [hcall, hv])
    (answers_stamped h3.stamped hm) (by rw [hv]; exact hxi) hst hcon haudio
  rw [hr] at h7
  exact ⟨h6, a, ack, c.remote, t, acknowledges_stamped h3.stamped h4, h5, h7⟩

/-- **C62** (answer repeated). While the call is answered, another 200 to the INVITE is acknowledged and its media
address reported, but "answered" is not repeated. -/
theorem C62_answered_again (w : World) (invite : Msg) (evs : List Event) (m : Msg) (d : Bytes) (x : Msg)
    (hi : IsInvite invite) (hid : ∀ n, (w.ids n).callID ≠ []) (hw : ∀ n, w.write n = .ok ())
    (hg : (loop w evs (start w invite)).c = .go)
    (hx : (requests (loop w evs (start w invite)).s.outs).getLast? = some (d, x)) (hxi : x.method = b!"INVITE")
    (hans : (published (loop w evs (start w invite)).s.outs).getLast? = some .answered)
    (hm : Answers x m) (hver : m.versionMajor = 2 ∧ m.versionMinor = 0) (hcall : m.callID = x.callID)
    (hst : m.status = 200) (hcon : m.addrs .contact ≠ [])
    (haudio : ∀ d, m.payload = some (.sdp d) → d.audio ≠ none) :
    (loop w (evs ++ [.msg m]) (start w invite)).c = .go ∧
    ∃ a ack dest text, Acknowledges x m a ∧ Stamped a ack ∧
      (loop w (evs ++ [.msg m]) (start w invite)).s.outs =
        (loop w evs (start w invite)).s.outs ++ .sent dest ack text :: mediaNews m := by
  obtain ⟨c, cur, hs, hc, h3⟩ := current hi hid hg hx
  obtain ⟨v, hv⟩ := h3.only
  have hr := known_loop w invite evs (state_of_published hans)
  rw [loop_snoc, (Run.andThen_of_go hg)]
  obtain ⟨a, ack, t, h4, h5, h6, h7⟩ := ok_invite_eq (w := w) hw hs hc hver (by rw [hcall, hv])
    (answers_stamped h3.stamped hm) (by rw [hv]; exact hxi) hst hcon haudio
  rw [if_neg (by rw [Option.isNone_iff_eq_none]; intro h; rw [h] at hr; cases hr), List.append_nil] at h7
  exact ⟨h6, a, ack, c.remote, t, acknowledges_stamped h3.stamped h4, h5, h7⟩

/-- **C62** (hung up). A 200 to the BYE of the application is reported as "hangup", and the call is over. -/
theorem C62_hung_up (w : World) (invite : Msg) (evs : List Event) (m : Msg) (d : Bytes) (x : Msg)
    (hi : IsInvite invite) (hid : ∀ n, (w.ids n).callID ≠ []) (hg : (loop w evs (start w invite)).c = .go)
    (hx : (requests (loop w evs (start w invite)).s.outs).getLast? = some (d, x)) (hxi : x.method = b!"BYE")
    (hm : Answers x m) (hver : m.versionMajor = 2 ∧ m.versionMinor = 0) (hcall : m.callID = x.callID)
    (hst : m.status = 200) (haudio : ∀ d, m.payload = some (.sdp d) → d.audio ≠ none) :
    (loop w (evs ++ [.msg m]) (start w invite)).c = .stop ∧
    (loop w (evs ++ [.msg m]) (start w invite)).s.outs =
      (loop w evs (start w invite)).s.outs ++ mediaNews m ++ [.state .hangup] := by
  obtain ⟨c, cur, hs, hc, h3⟩ := current hi hid hg hx
  obtain ⟨v, hv⟩ := h3.only
  rw [loop_snoc, (Run.andThen_of_go hg)]
  exact ok_bye_eq hs hc hver (by rw [hcall, hv]) (answers_stamped h3.stamped hm) (by rw [hv]; exact hxi) hst haudio

/-- **C62** (refusal). A response that refuses the last request is handed to the application as error, after it has
been acknowledged if it refuses an INVITE, and the call is over. -/
theorem C62_refused_partial (w : World) (invite : Msg) (evs : List Event) (m : Msg) (d : Bytes) (x : Msg)
    (hi : IsInvite invite) (hid : ∀ n, (w.ids n).callID ≠ []) (hw : ∀ n, w.write n = .ok ())
    (hg : (loop w evs (start w invite)).c = .go)
    (hx : (requests (loop w evs (start w invite)).s.outs).getLast? = some (d, x))
    (hm : Answers x m) (hver : m.versionMajor = 2 ∧ m.versionMinor = 0) (hcall : m.callID = x.callID)
    (hst : Refuses m.status) (hcon : x.method = b!"INVITE" → m.addrs .contact ≠ []) :
    (loop w (evs ++ [.msg m]) (start w invite)).c = .stop ∧
    ∃ new, (loop w (evs ++ [.msg m]) (start w invite)).s.outs =
        (loop w evs (start w invite)).s.outs ++ new ++ [.err (.response m)] ∧
      (x.method = b!"INVITE" → ∃ a ack dest text, Acknowledges x m a ∧ Stamped a ack ∧ new = [.sent dest ack text]) ∧
      (x.method ≠ b!"INVITE" → new = []) := by
  obtain ⟨c, cur, hs, hc, h3⟩ := current hi hid hg hx
  obtain ⟨v, hv⟩ := h3.only
  have hmeth : cur.method = x.method := by rw [hv]
  rw [loop_snoc, (Run.andThen_of_go hg)]
  rcases current_other hi hid hg hc with ⟨h4, _⟩ | ⟨h4, h5⟩
  · obtain ⟨a, ack, t, k1, k2, k3, k4⟩ := refused_invite_eq (w := w) hw hs hc hver (by rw [hcall, hv])
      (answers_stamped h3.stamped hm) h4 hst (hcon (hmeth ▸ h4))
    exact ⟨k3, [.sent c.remote ack t], by rw [k4]; simp,
      fun _ => ⟨a, ack, c.remote, t, acknowledges_stamped h3.stamped k1, k2, rfl⟩,
      fun hn => absurd (hmeth ▸ h4) hn⟩
  · have hne : cur.method ≠ b!"INVITE" := by rw [h4]; decide
    obtain ⟨k1, k2⟩ := refused_other_eq (w := w) hs hc hver (by rw [hcall, hv])
      (answers_stamped h3.stamped hm) hne h5 ⟨hst.1, hst.2.1, hst.2.2.1⟩
    exact ⟨k1, [], by rw [k2]; simp, fun h => absurd (hmeth ▸ h) hne, fun _ => rfl⟩

/-- **C62 is false** for 503: it should make the dialog try the other servers found for the destination, and report the
response when there are none. Every 503 to an INVITE ends the call with "failed to contact". -/
theorem C62_unavailable (w : World) (invite : Msg) (evs : List Event) (m : Msg) (d : Bytes) (x : Msg)
    (hi : IsInvite invite) (hid : ∀ n, (w.ids n).callID ≠ []) (hw : ∀ n, w.write n = .ok ())
    (hg : (loop w evs (start w invite)).c = .go)
    (hx : (requests (loop w evs (start w invite)).s.outs).getLast? = some (d, x)) (hxi : x.method = b!"INVITE")
    (hm : Answers x m) (hver : m.versionMajor = 2 ∧ m.versionMinor = 0) (hcall : m.callID = x.callID)
    (hst : m.status = 503) (hcon : m.addrs .contact ≠ []) :
    (loop w (evs ++ [.msg m]) (start w invite)).c = .stop ∧
    ∃ ack dest text host, (loop w (evs ++ [.msg m]) (start w invite)).s.outs =
      (loop w evs (start w invite)).s.outs ++ [.sent dest ack text, .err (.failed host)] := by
  obtain ⟨c, cur, hs, hc, h3⟩ := current hi hid hg hx
  obtain ⟨v, hv⟩ := h3.only
  have hmeth : cur.method = b!"INVITE" := by rw [hv]; exact hxi
  rw [loop_snoc, (Run.andThen_of_go hg)]
  rcases current_other hi hid hg hc with ⟨h4, h5⟩ | ⟨h4, h5⟩
  · obtain ⟨a, ack, t, k1, k2, k3, k4⟩ := unavailable_eq (w := w) hw hs hc hver (by rw [hcall, hv])
      (answers_stamped h3.stamped hm) h4 h5 hst hcon
    exact ⟨k3, ack, c.remote, t, _, k4⟩
  · rw [h4] at hmeth; exact absurd hmeth (by decide)

/-- **C62 is false** for the other successes: a response like 202, which says that the request succeeded, is reported
as an error. -/
theorem C62_accepted_refused :
    (errors (demo [demoRsp [] 202]).s.outs).length = 1 ∧ published (demo [demoRsp [] 202]).s.outs = [] ∧
    (demo [demoRsp [] 202]).c = .stop := by
  decide +kernel

/-- **C62 is false** when the other side sends an INVITE of its own before it answers: "answered" is never published,
and hanging up then sends CANCEL for a call that is established. -/
theorem C62_early_invite :
    published (demo [demoReq b!"INVITE" 1, demoRsp [] 200]).s.outs = [] ∧
    demoSends [demoReq b!"INVITE" 1, demoRsp [] 200, .hangup] =
      [(b!"INVITE", 0), ([], 200), (b!"ACK", 0), (b!"CANCEL", 0)] := by
  decide +kernel

/-- The hypotheses of the theorems on C62 can be met; the second line is `C62_provisional` with a session description. -/
example : published (demo [demoRsp [] 100, demoRsp [] 180, demoRsp [] 183, demoRsp [] 200, demoRsp [] 200]).s.outs =
      [.proceeding, .ringing, .ringing, .answered] ∧
    (demo [.msg { demoRspMsg [] 183 with payload := some (.sdp demoSdp) }]).s.outs.drop 2 =
      [.peer b!"10.0.0.9" 4000, .state .ringing] ∧
    peers (demo [.msg { demoRspMsg [] 200 with payload := some (.sdp demoSdp) }]).s.outs = [(b!"10.0.0.9", 4000)] ∧
    published (demo [demoRsp [] 200, .hangup, demoRsp [demoRsp [] 200, .hangup] 200]).s.outs = [.answered, .hangup] ∧
    errors (demo [demoRsp [] 404]).s.outs = [.response (demoRspMsg [] 404)] ∧
    errors (demo [demoRsp [] 200, .hangup, demoRsp [demoRsp [] 200, .hangup] 481]).s.outs =
      [.response (demoRspMsg [demoRsp [] 200, .hangup] 481)] ∧
    errors (demo [demoRsp [] 503]).s.outs = [.failed b!"10.0.0.2"] := by
  decide +kernel

/-! ## C66 -/

/-- **C66.** A BYE in order from the other side is answered 200, "hangup" is published, and the call is over. -/
theorem C66_bye (w : World) (invite : Msg) (evs : List Event) (m : Msg) (callID : Bytes)
    (hi : IsInvite invite) (hid : ∀ n, (w.ids n).callID ≠ []) (hw : ∀ n, w.write n = .ok ())
    (hg : (loop w evs (start w invite)).c = .go)
    (hcall : ∃ x ∈ requests (loop w evs (start w invite)).s.outs, x.2.callID = callID)
    (hm : m.method = b!"BYE") (ho : Proper callID m) (hnew : Newest callID evs m)
    (hv : m.via ≠ [] ∨ ∀ n, w.clock n = none) :
    (loop w (evs ++ [.msg m]) (start w invite)).c = .stop ∧
    ∃ r0 r dest text, Echoes m 200 r0 ∧ Stamped r0 r ∧ (loop w (evs ++ [.msg m]) (start w invite)).s.outs =
      (loop w evs (start w invite)).s.outs ++ [.sent dest r text, .state .hangup] := by
  have hal := alive_dialog hi hid hg
  obtain ⟨c, hs⟩ := hal.sock
  obtain ⟨cur, hc, hcid⟩ := callID_cur hal hcall
  rw [loop_snoc, (Run.andThen_of_go hg)]
  obtain ⟨r, t, h1, h2, h3⟩ := bye_req_eq (w := w) hw hs hc ho.request ho.version
    (ho.call.trans hcid.symm) ho.forwards (seq_newest hi hid hg hcall hnew) hm hv
  exact ⟨h2, _, r, c.remote, t, C34_response_echoes m 200, h1, h3⟩

/-- **C66.** The channels of the application are closed then, unless nothing arrives while the socket is being
closed (see `C53`). -/
theorem C66_bye_closes (w : World) (invite : Msg) (evs : List Event) (m : Msg) (callID : Bytes)
    (hi : IsInvite invite) (hid : ∀ n, (w.ids n).callID ≠ []) (hw : ∀ n, w.write n = .ok ())
    (hf : ∀ n, w.frees n = true)
    (hg : (loop w evs (start w invite)).c = .go)
    (hcall : ∃ x ∈ requests (loop w evs (start w invite)).s.outs, x.2.callID = callID)
    (hm : m.method = b!"BYE") (ho : Proper callID m) (hnew : Newest callID evs m)
    (hv : m.via ≠ [] ∨ ∀ n, w.clock n = none) (more : List Event) :
    ∃ l, (dialog w invite (evs ++ .msg m :: more)).s.outs = l ++ [.state .hangup, .closed] := by
  obtain ⟨h1, r0, r, dest, text, _, _, h2⟩ := C66_bye w invite evs m callID hi hid hw hg hcall hm ho hnew hv
  have hl : loop w (evs ++ .msg m :: more) (start w invite) = loop w (evs ++ [.msg m]) (start w invite) := by
    rw [show evs ++ .msg m :: more = (evs ++ [.msg m]) ++ more by simp, loop_append]
    exact loop_stop more _ h1
  refine ⟨(loop w evs (start w invite)).s.outs ++ [.sent dest r text], ?_⟩
  unfold dialog
  dsimp only
  rw [hl, h1]
  unfold cleanup
  rw [hf, hf]
  simp [St.out, h2]

/-- A BYE that is numbered lower than an earlier request is refused (RFC 3261 section 12.2.2), and the call goes on. The
hypotheses of the theorems on C66 can be met. -/
example : demoSends [demoRsp [] 200, demoReq b!"OPTIONS" 2, demoReq b!"BYE" 1] =
      [(b!"INVITE", 0), (b!"ACK", 0), ([], 200), ([], 500)] ∧
    (dialog demoWorld demoInvite [demoRsp [] 200, demoReq b!"BYE" 1, .hangup]).s.outs.getLast? = some .closed := by
  decide +kernel

/-! ## C67 -/

/-- **C67** (responses). A response to something else than the last request of the call does not matter: whatever
happens afterwards, everything is as if it had not arrived. -/
theorem C67_stray_response (w : World) (invite : Msg) (evs more : List Event) (m : Msg) (d : Bytes) (x : Msg)
    (hi : IsInvite invite) (hid : ∀ n, (w.ids n).callID ≠ []) (hg : (loop w evs (start w invite)).c = .go)
    (hx : (requests (loop w evs (start w invite)).s.outs).getLast? = some (d, x))
    (hr : 0 < m.status) (hm : ¬ Answers x m) (hver : m.versionMajor = 2 ∧ m.versionMinor = 0)
    (hcall : m.callID = x.callID) :
    dialog w invite (evs ++ .msg m :: more) = dialog w invite (evs ++ more) := by
  obtain ⟨c, cur, hs, hc, h3⟩ := current hi hid hg hx
  obtain ⟨v, hv⟩ := h3.only
  have hl : loop w (evs ++ .msg m :: more) (start w invite) = loop w (evs ++ more) (start w invite) := by
    rw [loop_append, loop_append]
    show loop w more (Run.andThen _ _) = _
    rw [(Run.andThen_of_go hg), unmatched_step hs hc hver (by rw [hcall, hv]) hr
      (fun h => hm (answers_unstamped h3.stamped h)), ← hg]
  unfold dialog
  rw [hl]

theorem dialog_append {w : World} {invite : Msg} {evs : List Event} (more : List Event)
    (hg : (loop w evs (start w invite)).c = .go) :
    dialog w invite (evs ++ more) = finish w more (loop w evs (start w invite)).s := by
  unfold dialog finish
  rw [loop_append, show (⟨(loop w evs (start w invite)).s, .go⟩ : Run) = loop w evs (start w invite) by rw [← hg]]
  generalize loop w more (loop w evs (start w invite)) = r
  obtain ⟨t, c⟩ := r
  cases c <;> rfl

/-- **C67** (messages of other calls). A message that belongs to another call is answered 481 (a response, too: see
`C50_response_answered`), and apart from that does not matter: whatever happens afterwards, the dialog does the same
as it would have done without the message, in a world that had only made a step of its own meanwhile. -/
theorem C67_stranger_partial (w : World) (invite : Msg) (evs : List Event) (m : Msg) (callID : Bytes)
    (hi : IsInvite invite) (hid : ∀ n, (w.ids n).callID ≠ []) (hw : ∀ n, w.write n = .ok ())
    (hg : (loop w evs (start w invite)).c = .go)
    (hcall : ∃ x ∈ requests (loop w evs (start w invite)).s.outs, x.2.callID = callID)
    (hver : m.versionMajor = 2 ∧ m.versionMinor = 0) (hm : m.callID ≠ callID)
    (hv : m.via ≠ [] ∨ ∀ n, w.clock n = none) :
    ∃ r0 r dest text, Echoes m 481 r0 ∧ Stamped r0 r ∧ ∀ more, ∃ rest,
      (dialog w invite (evs ++ .msg m :: more)).s.outs =
        (loop w evs (start w invite)).s.outs ++ .sent dest r text :: rest ∧
      (finish (later w 1) more (loop w evs (start w invite)).s).s.outs =
        (loop w evs (start w invite)).s.outs ++ rest ∧
      (dialog w invite (evs ++ .msg m :: more)).c = (finish (later w 1) more (loop w evs (start w invite)).s).c := by
  have hal := alive_dialog hi hid hg
  obtain ⟨c, hs⟩ := hal.sock
  obtain ⟨cur, hc, hcid⟩ := callID_cur hal hcall
  obtain ⟨r, t, h1, h2⟩ := stranger_eq (w := w) hw hs hc hver (fun h => hm (h.trans hcid)) hv
  refine ⟨_, r, c.remote, t, C34_response_echoes m 481, h1, fun more => ?_⟩
  have hg1 : (loop w (evs ++ [.msg m]) (start w invite)).c = .go := by
    rw [loop_snoc, (Run.andThen_of_go hg), h2]
  have e1 : (loop w (evs ++ [.msg m]) (start w invite)).s =
      St.moved 1 ((loop w evs (start w invite)).s.outs ++ [Out.sent c.remote r t])
        { (loop w evs (start w invite)).s with outs := [] } := by
    rw [loop_snoc, (Run.andThen_of_go hg), h2]
    simp [St.moved, St.out]
  have e2 : (loop w evs (start w invite)).s =
      St.moved 0 (loop w evs (start w invite)).s.outs { (loop w evs (start w invite)).s with outs := [] } := by
    simp [St.moved]
  rw [show evs ++ .msg m :: more = (evs ++ [.msg m]) ++ more by simp, dialog_append more hg1, e1,
    moved_finish w 1]
  have e3 : finish (later w 1) more (loop w evs (start w invite)).s =
      (finish (later w 1) more { (loop w evs (start w invite)).s with outs := [] }).moved 0
        (loop w evs (start w invite)).s.outs := by
    conv => lhs; rw [e2]
    exact moved_finish (later w 1) 0 _ more _
  rw [e3]
  exact ⟨_, by simp [Run.moved, St.moved], rfl, rfl⟩

example : demoSends [demoRsp [] 200, .msg { demoReqMsg b!"BYE" 1 with callID := b!"other" }, .hangup] =
    [(b!"INVITE", 0), (b!"ACK", 0), ([], 481), (b!"BYE", 0)] := by
  decide +kernel

/-- **C67 is false** for messages with another version: even if they belong to no call at all, one of them ends the
call. -/
theorem C67_other_version (w : World) (invite : Msg) (evs : List Event) (m : Msg)
    (hi : IsInvite invite) (hid : ∀ n, (w.ids n).callID ≠ []) (hw : ∀ n, w.write n = .ok ())
    (hg : (loop w evs (start w invite)).c = .go)
    (hver : m.versionMajor ≠ 2 ∨ m.versionMinor ≠ 0) (hv : m.via ≠ [] ∨ ∀ n, w.clock n = none) :
    (loop w (evs ++ [.msg m]) (start w invite)).c = .stop ∧
    ∃ r0 r dest text, Echoes m 505 r0 ∧ Stamped r0 r ∧ (loop w (evs ++ [.msg m]) (start w invite)).s.outs =
      (loop w evs (start w invite)).s.outs ++ [.sent dest r text, .err .strangeVersion] := by
  have hal := alive_dialog hi hid hg
  obtain ⟨c, hs⟩ := hal.sock
  obtain ⟨cur, hc, _⟩ := hal.cur
  rw [loop_snoc, (Run.andThen_of_go hg)]
  obtain ⟨r, t, h1, h2, h3⟩ := version_eq (w := w) hw hs (by rw [hc]; rfl) hver hv
  exact ⟨h2, _, r, c.remote, t, C34_response_echoes m 505, h1, h3⟩

/-- **C67 is false** for requests that may not be forwarded any more, although they have arrived: any of them ends the
call, even one that is only an OPTIONS. -/
theorem C67_no_forwards (w : World) (invite : Msg) (evs : List Event) (m : Msg) (callID : Bytes)
    (hi : IsInvite invite) (hid : ∀ n, (w.ids n).callID ≠ []) (hw : ∀ n, w.write n = .ok ())
    (hg : (loop w evs (start w invite)).c = .go)
    (hcall : ∃ x ∈ requests (loop w evs (start w invite)).s.outs, x.2.callID = callID)
    (hr : m.status ≤ 0) (hver : m.versionMajor = 2 ∧ m.versionMinor = 0) (hm : m.callID = callID)
    (hmf : m.maxForwards ≤ 0) (hv : m.via ≠ [] ∨ ∀ n, w.clock n = none) :
    (loop w (evs ++ [.msg m]) (start w invite)).c = .stop ∧
    ∃ r0 r dest text, Echoes m 483 r0 ∧ Stamped r0 r ∧ (loop w (evs ++ [.msg m]) (start w invite)).s.outs =
      (loop w evs (start w invite)).s.outs ++ [.sent dest r text, .err .remoteLoop] := by
  have hal := alive_dialog hi hid hg
  obtain ⟨c, hs⟩ := hal.sock
  obtain ⟨cur, hc, hcid⟩ := callID_cur hal hcall
  rw [loop_snoc, (Run.andThen_of_go hg)]
  obtain ⟨r, t, h1, h2, h3⟩ := forwards_eq (w := w) hw hs hc hr hver (hm.trans hcid.symm) hmf hv
  exact ⟨h2, _, r, c.remote, t, C34_response_echoes m 483, h1, h3⟩

end Gosip.Props
