import Verif.Props.CallLate
import Verif.Dialog.Sock

/-!
# What goes wrong in every call, continued (C50, C53, C62)

The concrete calls in `C50_ack_answered`, `C50_response_answered`, `C50_reinvite_unacknowledged`, `C53_bye_stuck`,
`C53_answer_missed` and `C53_bye_to_self` are not special cases either.
-/

namespace Gosip.Props
open Sip Spec Dialog

/-! ## C50 -/

/-- **C50 is false for every ACK, and every response, with another SIP version**: it is answered 505. -/
theorem C50_version_answered_always (w : World) (invite : Msg) (evs : List Event) (m : Msg)
    (hi : IsInvite invite) (hid : ∀ n, (w.ids n).callID ≠ []) (hg : (loop w evs (start w invite)).c = .go)
    (hver : ¬ (m.versionMajor = 2 ∧ m.versionMinor = 0)) (hv : m.via ≠ [] ∨ ∀ n, w.clock n = none) :
    ∃ new, (loop w (evs ++ [.msg m]) (start w invite)).s.outs = (loop w evs (start w invite)).s.outs ++ new ∧
      SentReply m 505 new := by
  have hal := alive_dialog hi hid hg
  obtain ⟨c, hs⟩ := hal.sock
  obtain ⟨cur, hc, _⟩ := hal.cur
  have h0 : step w (loop w evs (start w invite)).s (.msg m) = handleMessage w (loop w evs (start w invite)).s m := by
    simp [step, hs]
  rw [loop_snoc, Run.andThen_of_go hg, h0]
  unfold handleMessage
  simp only [hc]
  rw [if_pos (by
    by_cases h : m.versionMajor = 2
    · exact .inr fun k => hver ⟨h, k⟩
    · exact .inl h)]
  obtain ⟨c', r, new, _, k2, k3, k4⟩ := reply_then (f := fun s => s.fail .strangeVersion) (reply 505 hs hv)
    fun t => ⟨[.err .strangeVersion], rfl, rfl⟩
  exact ⟨new, k3, c'.remote, newResponse m 505, r, k4, C34_response_echoes m 505, k2⟩

/-- **C50 is false for every ACK, and every response, of another call**: it is answered 481. Two such peers answer each
other's 481 for ever. -/
theorem C50_stranger_answered_always (w : World) (invite : Msg) (evs : List Event) (m : Msg) (callID : Bytes)
    (hi : IsInvite invite) (hid : ∀ n, (w.ids n).callID ≠ []) (hg : (loop w evs (start w invite)).c = .go)
    (hcall : ∃ x ∈ requests (loop w evs (start w invite)).s.outs, x.2.callID = callID)
    (hver : m.versionMajor = 2 ∧ m.versionMinor = 0) (hother : m.callID ≠ callID)
    (hv : m.via ≠ [] ∨ ∀ n, w.clock n = none) :
    ∃ new, (loop w (evs ++ [.msg m]) (start w invite)).s.outs = (loop w evs (start w invite)).s.outs ++ new ∧
      SentReply m 481 new := by
  have hal := alive_dialog hi hid hg
  obtain ⟨c, hs⟩ := hal.sock
  obtain ⟨cur, hc, hcid⟩ := callID_cur hal hcall
  have h0 : step w (loop w evs (start w invite)).s (.msg m) = handleMessage w (loop w evs (start w invite)).s m := by
    simp [step, hs]
  rw [loop_snoc, Run.andThen_of_go hg, h0]
  unfold handleMessage
  simp only [hc]
  rw [if_neg (show ¬ (m.versionMajor ≠ 2 ∨ m.versionMinor ≠ 0) by simp [hver]), if_pos (by rw [hcid]; exact hother)]
  obtain ⟨c', r, new, _, k2, k3, k4⟩ := reply 481 hs hv
  exact ⟨new, k3, c'.remote, newResponse m 481, r, k4, C34_response_echoes m 481, k2⟩

/-- **C50 is false for every ACK that may not be forwarded any more**: it is answered 483, as every other request. -/
theorem C50_forwards_answered_always (w : World) (invite : Msg) (evs : List Event) (m : Msg) (callID : Bytes)
    (hi : IsInvite invite) (hid : ∀ n, (w.ids n).callID ≠ []) (hg : (loop w evs (start w invite)).c = .go)
    (hcall : ∃ x ∈ requests (loop w evs (start w invite)).s.outs, x.2.callID = callID)
    (hver : m.versionMajor = 2 ∧ m.versionMinor = 0) (hm : m.callID = callID) (hr : m.status ≤ 0)
    (hf : m.maxForwards ≤ 0) (hv : m.via ≠ [] ∨ ∀ n, w.clock n = none) :
    ∃ new, (loop w (evs ++ [.msg m]) (start w invite)).s.outs = (loop w evs (start w invite)).s.outs ++ new ∧
      SentReply m 483 new := by
  have hal := alive_dialog hi hid hg
  obtain ⟨c, hs⟩ := hal.sock
  obtain ⟨cur, hc, hcid⟩ := callID_cur hal hcall
  have hnr : m.isResponse = false := by simp [Msg.isResponse]; omega
  have h0 : step w (loop w evs (start w invite)).s (.msg m) = handleMessage w (loop w evs (start w invite)).s m := by
    simp [step, hs]
  rw [loop_snoc, Run.andThen_of_go hg, h0]
  unfold handleMessage
  simp only [hc, hnr, Bool.false_eq_true, if_false]
  rw [if_neg (show ¬ (m.versionMajor ≠ 2 ∨ m.versionMinor ≠ 0) by simp [hver]),
    if_neg (not_not_intro (hm.trans hcid.symm))]
  unfold handleRequest
  rw [if_pos hf]
  obtain ⟨c', r, new, _, k2, k3, k4⟩ := reply_then (f := fun s => s.fail .remoteLoop) (reply 483 hs hv)
    fun t => ⟨[.err .remoteLoop], rfl, rfl⟩
  exact ⟨new, k3, c'.remote, newResponse m 483, r, k4, C34_response_echoes m 483, k2⟩

/-- After a re-INVITE in order. -/
theorem after_reinvite {w : World} {invite : Msg} {evs : List Event} {i : Msg} {callID : Bytes}
    (hi : IsInvite invite) (hid : ∀ n, (w.ids n).callID ≠ []) (hw : ∀ n, w.write n = .ok ())
    (hg : (loop w evs (start w invite)).c = .go)
    (hcall : ∃ x ∈ requests (loop w evs (start w invite)).s.outs, x.2.callID = callID)
    (hm : i.method = b!"INVITE") (ho : Proper callID i) (hnew : Newest callID evs i)
    (hv : i.via ≠ [] ∨ ∀ n, w.clock n = none) (haudio : ∀ d, i.payload = some (.sdp d) → d.audio ≠ none) :
    ∃ c r x, (loop w evs (start w invite)).s.sock = some c ∧ Stamped (newResponse i 200) r ∧
      loop w (evs ++ [.msg i]) (start w invite) =
        ⟨{ (loop w evs (start w invite)).s with
            rseq := i.cseq, remote := some i, response := some r, responseResends := 0, responseTimer := true
            tick := (loop w evs (start w invite)).s.tick + 1
            outs := (loop w evs (start w invite)).s.outs ++ mediaNews i ++ [.sent c.remote r x] }, .go⟩ := by
  have hal := alive_dialog hi hid hg
  obtain ⟨c, hs⟩ := hal.sock
  obtain ⟨cur, hc, hcid⟩ := callID_cur hal hcall
  obtain ⟨r, x, h1, h2⟩ := reinvite_full (w := w) hw hs hc ho.request ho.version (ho.call.trans hcid.symm) ho.forwards
    (seq_newest hi hid hg hcall hnew) hm haudio hv
  exact ⟨c, r, x, hs, h1, by rw [loop_snoc, Run.andThen_of_go hg, h2]⟩

/-- After the answer no addresses are left to try. -/
theorem after_answer {w : World} {invite : Msg} {evs : List Event} {m : Msg} {d : Bytes} {x : Msg}
    (hi : IsInvite invite) (hid : ∀ n, (w.ids n).callID ≠ []) (hw : ∀ n, w.write n = .ok ())
    (hg : (loop w evs (start w invite)).c = .go)
    (hx : (requests (loop w evs (start w invite)).s.outs).getLast? = some (d, x)) (hxi : x.method = b!"INVITE")
    (hm : Answers x m) (hver : m.versionMajor = 2 ∧ m.versionMinor = 0) (hcall : m.callID = x.callID)
    (hst : m.status = 200) (hcon : m.addrs .contact ≠ []) (haudio : ∀ d, m.payload = some (.sdp d) → d.audio ≠ none) :
    (loop w (evs ++ [.msg m]) (start w invite)).c = .go ∧ (loop w (evs ++ [.msg m]) (start w invite)).s.routes = [] := by
  obtain ⟨c, cur, hs, hc, h3⟩ := current hi hid hg hx
  obtain ⟨v, hvv⟩ := h3.only
  have hci : cur.method = b!"INVITE" := by rw [hvv]; exact hxi
  have hans := answers_stamped h3.stamped hm
  obtain ⟨a, ack, t, k1, k2, k3⟩ := ack_ok (w := w) hw hs hci hans (by omega) hcon
  rw [loop_snoc, Run.andThen_of_go hg, response_step hs hc hver (by rw [hcall, hvv]) hans, k3]
  simp only [Run.andThen]
  rw [settle_eq haudio (by omega)]
  dsimp only
  unfold handleStatus
  rw [if_neg (by omega), if_neg (by omega), if_pos hst]
  unfold handleOK
  rw [if_pos (hans.2.2.1.trans hci)]
  refine ⟨rfl, ?_⟩
  cases hr : (loop w evs (start w invite)).s.remote <;> simp [transition, St.out, St.outAll]

/-- **C50, in every call that is answered**: when the answer to a re-INVITE has been sent again `maxResends` times without
an ACK (`C50_reinvite_repeated` says what is sent until then), the next time-out ends the call with the report that the
call, which is up, could not be placed. Nothing is sent, in particular no BYE. -/
theorem C50_reinvite_unacknowledged_always (w : World) (invite : Msg) (evs : List Event) (m i : Msg) (d : Bytes) (x : Msg)
    (hi : IsInvite invite) (hid : ∀ n, (w.ids n).callID ≠ []) (hw : ∀ n, w.write n = .ok ()) (hmax : 0 ≤ w.maxResends)
    (hg : (loop w evs (start w invite)).c = .go)
    (hx : (requests (loop w evs (start w invite)).s.outs).getLast? = some (d, x)) (hxi : x.method = b!"INVITE")
    (hm : Answers x m) (hver : m.versionMajor = 2 ∧ m.versionMinor = 0) (hcall : m.callID = x.callID)
    (hst : m.status = 200) (hcon : m.addrs .contact ≠ []) (hma : ∀ d, m.payload = some (.sdp d) → d.audio ≠ none)
    (him : i.method = b!"INVITE") (ho : Proper x.callID i) (hnew : Newest x.callID (evs ++ [.msg m]) i)
    (hv : i.via ≠ [] ∨ ∀ n, w.clock n = none) (haudio : ∀ d, i.payload = some (.sdp d) → d.audio ≠ none) :
    ∃ h, (loop w (evs ++ [.msg m, .msg i] ++ List.replicate (w.maxResends.toNat + 1) .responseTimer) (start w invite)).c = .stop ∧
    (loop w (evs ++ [.msg m, .msg i] ++ List.replicate (w.maxResends.toNat + 1) .responseTimer) (start w invite)).s.outs =
      (loop w (evs ++ [.msg m, .msg i] ++ List.replicate w.maxResends.toNat .responseTimer) (start w invite)).s.outs ++
        [.err (.failed h)] := by
  obtain ⟨g1, g2⟩ := after_answer hi hid hw hg hx hxi hm hver hcall hst hcon hma
  have hcall2 : ∃ y ∈ requests (loop w (evs ++ [.msg m]) (start w invite)).s.outs, y.2.callID = x.callID := by
    refine ⟨(d, x), ?_, rfl⟩
    have hgr : Grows (loop w evs (start w invite)).s (loop w (evs ++ [.msg m]) (start w invite)).s := by
      rw [loop_append]; exact grows_loop w _ _
    obtain ⟨l, hl⟩ := hgr
    rw [hl, requests_eq, own_append, List.mem_append]
    exact .inl (by rw [← requests_eq]; exact List.mem_of_getLast? hx)
  obtain ⟨c, r, t, hs, h1, h2⟩ := after_reinvite hi hid hw g1 hcall2 him ho hnew hv haudio
  have he : evs ++ [.msg m, .msg i] = evs ++ [.msg m] ++ [.msg i] := by simp
  rw [he, List.replicate_succ', ← List.append_assoc, loop_snoc,
    loop_append w (evs ++ [Event.msg m] ++ [Event.msg i])]
  have hW : Waiting w (newResponse i 200) 0 (loop w (evs ++ [.msg m] ++ [.msg i]) (start w invite)).s := by
    rw [h2]; exact ⟨⟨c, hs⟩, rfl, ⟨r, rfl, h1⟩, rfl⟩
  have hgo : (loop w (evs ++ [.msg m] ++ [.msg i]) (start w invite)).c = .go := by rw [h2]
  have hro : (loop w (evs ++ [.msg m] ++ [.msg i]) (start w invite)).s.routes = [] := by rw [h2]; exact g2
  obtain ⟨i1, i2, _⟩ := waiting_loop hw rfl (phraseOf_ne_nil 200) (canStamp_rsp hv 200) w.maxResends.toNat _ 0 hgo hW (by omega)
  obtain ⟨f1, _⟩ := waiting_frames hw rfl (phraseOf_ne_nil 200) (canStamp_rsp hv 200) w.maxResends.toNat _ 0 hgo hW (by omega)
  rw [Run.andThen_of_go i1]
  rw [show (0 : Int) + w.maxResends.toNat = w.maxResends by omega] at i2
  exact ⟨_, waiting_end i2 (f1.trans hro)⟩

/-! ## C53, C62 -/

/-- **C62 is false in every call in which the other side sends an INVITE of its own before it answers**: the answer is
acknowledged, but the application does not learn of it. -/
theorem C62_early_invite_always (w : World) (invite : Msg) (evs : List Event) (i m : Msg) (d : Bytes) (x : Msg)
    (hi : IsInvite invite) (hid : ∀ n, (w.ids n).callID ≠ []) (hw : ∀ n, w.write n = .ok ())
    (hg : (loop w evs (start w invite)).c = .go)
    (hx : (requests (loop w evs (start w invite)).s.outs).getLast? = some (d, x)) (hxi : x.method = b!"INVITE")
    (him : i.method = b!"INVITE") (ho : Proper x.callID i) (hnew : Newest x.callID evs i)
    (hv : i.via ≠ [] ∨ ∀ n, w.clock n = none) (haudio : ∀ d, i.payload = some (.sdp d) → d.audio ≠ none)
    (hm : Answers x m) (hver : m.versionMajor = 2 ∧ m.versionMinor = 0) (hcall : m.callID = x.callID)
    (hst : m.status = 200) (hcon : m.addrs .contact ≠ []) (hma : ∀ d, m.payload = some (.sdp d) → d.audio ≠ none) :
    (loop w (evs ++ [.msg i, .msg m]) (start w invite)).c = .go ∧
    published (loop w (evs ++ [.msg i, .msg m]) (start w invite)).s.outs = published (loop w evs (start w invite)).s.outs ∧
    ∃ a ack dest, Acknowledges x m a ∧ Stamped a ack ∧
      sends (loop w (evs ++ [.msg i, .msg m]) (start w invite)).s.outs =
        sends (loop w (evs ++ [.msg i]) (start w invite)).s.outs ++ [(dest, ack)] := by
  obtain ⟨c, cur, hs, hc, h3⟩ := current hi hid hg hx
  obtain ⟨v, hvv⟩ := h3.only
  have hci : cur.method = b!"INVITE" := by rw [hvv]; exact hxi
  have hans := answers_stamped h3.stamped hm
  obtain ⟨c', r, t, hs', h1, h2⟩ := after_reinvite hi hid hw hg ⟨(d, x), List.mem_of_getLast? hx, rfl⟩ him ho hnew hv haudio
  have hgo : (loop w (evs ++ [.msg i]) (start w invite)).c = .go := by rw [h2]
  rw [show evs ++ [.msg i, .msg m] = evs ++ [.msg i] ++ [.msg m] by simp, loop_snoc, Run.andThen_of_go hgo]
  have hso : (loop w (evs ++ [.msg i]) (start w invite)).s.sock = some c := by rw [h2]; exact hs
  have hcu : (loop w (evs ++ [.msg i]) (start w invite)).s.cur = some cur := by rw [h2]; exact hc
  have hre : (loop w (evs ++ [.msg i]) (start w invite)).s.remote.isNone = false := by rw [h2]; rfl
  have hpu : published (loop w (evs ++ [.msg i]) (start w invite)).s.outs = published (loop w evs (start w invite)).s.outs := by
    rw [h2]
    show published (_ ++ _ ++ _) = _
    rw [published_append, published_append, published_media]
    simp [published]
  obtain ⟨a, ack, t', e1, e2, e3, e4⟩ := ok_invite_eq (w := w) hw hso hcu hver (by rw [hcall, hvv]) hans hci hst hcon hma
  refine ⟨e3, ?_, a, ack, c.remote, acknowledges_stamped h3.stamped e1, e2, ?_⟩
  · rw [e4, hre, ← hpu]
    simp only [Bool.false_eq_true, if_false, List.append_nil]
    rw [show ∀ (l : List Out) (o : Out) k, l ++ o :: k = l ++ [o] ++ k from fun _ _ _ => by simp, published_append, published_append,
      published_media]
    simp [published]
  · rw [e4, hre]
    simp only [Bool.false_eq_true, if_false, List.append_nil]
    rw [show ∀ (l : List Out) (o : Out) k, l ++ o :: k = l ++ [o] ++ k from fun _ _ _ => by simp, sends_append, sends_append]
    have : sends (mediaNews m) = [] := by unfold sends mediaNews; simp [List.filterMap_map]
    rw [this]
    simp [sends]

/-- **C53 is false in every such call**: hanging up sends CANCEL, not BYE, so that the call stays up. -/
theorem C53_answer_missed_always (w : World) (invite : Msg) (evs : List Event) (i m : Msg) (d : Bytes) (x : Msg)
    (hi : IsInvite invite) (hid : ∀ n, (w.ids n).callID ≠ []) (hw : ∀ n, w.write n = .ok ())
    (hg : (loop w evs (start w invite)).c = .go)
    (hx : (requests (loop w evs (start w invite)).s.outs).getLast? = some (d, x)) (hxi : x.method = b!"INVITE")
    (him : i.method = b!"INVITE") (ho : Proper x.callID i) (hnew : Newest x.callID evs i)
    (hv : i.via ≠ [] ∨ ∀ n, w.clock n = none) (haudio : ∀ d, i.payload = some (.sdp d) → d.audio ≠ none)
    (hm : Answers x m) (hver : m.versionMajor = 2 ∧ m.versionMinor = 0) (hcall : m.callID = x.callID)
    (hst : m.status = 200) (hcon : m.addrs .contact ≠ []) (hma : ∀ d, m.payload = some (.sdp d) → d.audio ≠ none)
    (hno : (published (loop w evs (start w invite)).s.outs).getLast? ≠ some .answered) :
    ∃ x' c0 c dest, Cancels x' c0 ∧ Stamped c0 c ∧
      sends (loop w (evs ++ [.msg i, .msg m, .hangup]) (start w invite)).s.outs =
        sends (loop w (evs ++ [.msg i, .msg m]) (start w invite)).s.outs ++ [(dest, c)] := by
  obtain ⟨h1, h2, _⟩ := C62_early_invite_always w invite evs i m d x hi hid hw hg hx hxi him ho hnew hv haudio hm hver hcall
    hst hcon hma
  obtain ⟨pre, d', x0, post, x', c0, c, dest, new, _, _, _, _, k1, k2, k3, k4⟩ :=
    C53_cancel w invite (evs ++ [.msg i, .msg m]) hi hid h1 (by rw [h2]; exact hno)
  refine ⟨x', c0, c, dest, k1, k2, ?_⟩
  rw [show evs ++ [.msg i, .msg m, .hangup] = (evs ++ [.msg i, .msg m]) ++ [.hangup] by simp, loop_snoc,
    Run.andThen_of_go h1, k3, sends_append, k4]

/-- **C53 is false in every answered call in which the other side has sent an INVITE**: the BYE names in its To what the To
of that INVITE names, that is, the caller itself; and it is routed by the Record-Route of that INVITE, not by that of the
answer: without one, it goes to its Contact. -/
theorem C53_bye_to_self_always (w : World) (invite : Msg) (evs : List Event) (i : Msg) (callID : Bytes)
    (hi : IsInvite invite) (hid : ∀ n, (w.ids n).callID ≠ []) (hw : ∀ n, w.write n = .ok ())
    (hg : (loop w evs (start w invite)).c = .go)
    (hans : (published (loop w evs (start w invite)).s.outs).getLast? = some .answered)
    (hcall : ∃ x ∈ requests (loop w evs (start w invite)).s.outs, x.2.callID = callID)
    (him : i.method = b!"INVITE") (ho : Proper callID i) (hnew : Newest callID evs i) (hto : i.addrs .to ≠ [])
    (hv : i.via ≠ [] ∨ ∀ n, w.clock n = none) (haudio : ∀ d, i.payload = some (.sdp d) → d.audio ≠ none) :
    (sends (loop w (evs ++ [.msg i, .hangup]) (start w invite)).s.outs =
        sends (loop w (evs ++ [.msg i]) (start w invite)).s.outs ∧
      (loop w (evs ++ [.msg i, .hangup]) (start w invite)).c ≠ .go) ∨
    ∃ d b, sends (loop w (evs ++ [.msg i, .hangup]) (start w invite)).s.outs =
        sends (loop w (evs ++ [.msg i]) (start w invite)).s.outs ++ [(d, b)] ∧
      b.method = b!"BYE" ∧ b.addrs .to = i.addrs .to ∧
      (i.addrs .recordRoute = [] → b.addrs .route = [] ∧ ∃ a more, i.addrs .contact = a :: more ∧ b.request = a.uri) := by
  obtain ⟨c, r, t, hs, h1, h2⟩ := after_reinvite hi hid hw hg hcall him ho hnew hv haudio
  have hgo : (loop w (evs ++ [.msg i]) (start w invite)).c = .go := by rw [h2]
  rw [show evs ++ [.msg i, .hangup] = evs ++ [.msg i] ++ [.hangup] by simp, loop_snoc, Run.andThen_of_go hgo]
  have hst : (loop w (evs ++ [.msg i]) (start w invite)).s.state = .answered := by
    rw [h2]; exact state_of_published hans
  rcases bye_step (w := w) hst with hl | ⟨remote, b, n, d, m, m', k, r1, r2, r3, r4, r5⟩
  · exact .inl hl
  · right
    have hrem : remote = i := by
      rw [h2] at r1; cases r1; rfl
    subst hrem
    obtain ⟨b1, b2, b3⟩ := bye_to r2
    refine ⟨d, m', r5, by rw [r4.method, r3.method, b1], by rw [r4.addrs, r3.to (by rw [b3]; exact hto), b3], ?_⟩
    intro hrr
    obtain ⟨a, more, e1, e2⟩ := request_bye r2 hrr
    obtain ⟨v, hv⟩ := r4.only
    refine ⟨?_, a, more, e1, ?_⟩
    · rw [r4.addrs, r3.other .route (by decide) (by decide) (by decide), route_bye r2 hrr]
    · rw [hv]
      exact r3.request.trans e2

theorem loop_ended {w : World} (evs : List Event) : ∀ {r : Run}, r.c ≠ .go → loop w evs r = r := by
  induction evs with
  | nil => intro r _; rfl
  | cons e evs ih =>
    intro r hr
    have : (r.andThen fun s => step w s e) = r := by
      unfold Run.andThen
      split
      · rename_i h; exact absurd h hr
      · rfl
      · rfl
      · rfl
    show loop w evs (r.andThen fun s => step w s e) = r
    rw [this]
    exact ih hr

/-- **C53 is false in every answered call** in which the other side is to be reached elsewhere than the last datagram was
sent to, if the receiving goroutine has nothing to deliver while the socket is closed: hanging up sends nothing. The dialog does
not go on after that, so that it never will. -/
theorem C53_bye_stuck_always (w : World) (invite : Msg) (evs more : List Event) (d : Bytes) (x : Msg)
    (hi : IsInvite invite) (hid : ∀ n, (w.ids n).callID ≠ []) (hg : (loop w evs (start w invite)).c = .go)
    (hans : (published (loop w evs (start w invite)).s.outs).getLast? = some .answered)
    (hfr : ∀ n, w.frees n = false) (hd : (sends (loop w evs (start w invite)).s.outs).getLast? = some (d, x))
    (hfar : ∀ m, .msg m ∈ evs → (m.status = 200 ∧ m.cseqMethod = b!"INVITE") ∨ m.method = b!"INVITE" →
      m.addrs .recordRoute = [] ∧ ∀ a rest u, m.addrs .contact = a :: rest → a.uri = some u →
        ∀ n to others, (routeAddress (w.resolver n) u.host u.port false).2 = .ok (to :: others) → to ≠ d) :
    sends (dialog w invite (evs ++ .hangup :: more)).s.outs = sends (loop w evs (start w invite)).s.outs := by
  have hl := lastTo_loop hg
  have hheard := heard_loop w invite evs
  obtain ⟨c, hs⟩ : ∃ c, (loop w evs (start w invite)).s.sock = some c := (alive_dialog hi hid hg).sock
  obtain ⟨y, hy⟩ := hl c hs
  rw [hd] at hy
  obtain ⟨rfl, rfl⟩ : d = c.remote ∧ x = y := by cases hy; exact ⟨rfl, rfl⟩
  obtain ⟨k1, k2⟩ := hangup_blocked (w := w) (state_of_published hans) hs hfr (by
    intro remote b k host port h1 h2 h3 n a rest h4
    obtain ⟨e1, e2⟩ := hheard remote h1
    obtain ⟨f1, f2⟩ := hfar remote e1 (e2.imp id And.right)
    obtain ⟨ad, more, u, g1, g2, rfl, rfl⟩ := hop_bye h2 f1 h3
    exact f2 ad more u g1 g2 n a rest h4)
  have hloop : loop w (evs ++ .hangup :: more) (start w invite) = step w (loop w evs (start w invite)).s .hangup := by
    rw [loop_append]
    show loop w more (Run.andThen _ _) = _
    rw [Run.andThen_of_go hg]
    exact loop_ended more k2
  rcases dialog_outs w invite (evs ++ .hangup :: more) with h | h <;> rw [h, hloop]
  · exact k1
  · rw [sends_append, k1]; simp [sends]

/-! The hypotheses can be met. -/

example : (demo []).c = .go ∧ (requests (demo []).s.outs).getLast?.map Prod.snd = some (demoLast []) ∧
    (demoLast []).method = b!"INVITE" ∧ (demoLast []).callID = b!"id" ∧
    Answers (demoLast []) (demoRspMsg [] 200) ∧ (demoRspMsg [] 200).callID = b!"id" ∧
    (demoRspMsg [] 200).addrs .contact ≠ [] ∧ Proper b!"id" (demoReqMsg b!"INVITE" 1) ∧
    (demoReqMsg b!"INVITE" 1).addrs .to ≠ [] := by
  refine ⟨by decide +kernel, rfl, by decide +kernel, by decide +kernel, ?_, by decide +kernel,
    by decide +kernel, by constructor <;> decide, by decide +kernel⟩
  exact (C36_response_match _ _).1 (by decide +kernel)

/-- In `C53_bye_stuck_always`, the answer names another port than the INVITE was sent to. -/
example : (loop demoIdle [demoRsp [] 200] (start demoIdle demoInvite)).c = .go ∧
    (published (loop demoIdle [demoRsp [] 200] (start demoIdle demoInvite)).s.outs).getLast? = some .answered ∧
    (sends (loop demoIdle [demoRsp [] 200] (start demoIdle demoInvite)).s.outs).getLast?.map Prod.fst =
      some b!"10.0.0.2:5060" ∧
    (demoRspMsg [] 200).addrs .recordRoute = [] ∧
    (demoRspMsg [] 200).addrs .contact = [demoBob] ∧
    (routeAddress (demoIdle.resolver 0) b!"10.0.0.2" 5062 false).2 = .ok [b!"10.0.0.2:5062"] := by
  decide +kernel

end Gosip.Props
