import Verif.Props.CallReply
import Verif.Dialog.Safe
import Verif.Dialog.Ending
import Verif.Dialog.From

/-!
# Properties C52, C53 and C59: crashes, hanging up, and the end of a call
-/

namespace Gosip.Props
open Sip Spec Dialog

/-! ## C59 -/

/-- **C59.** When a dialog ends, that is, when its loop is left, the last thing the application hears is why: an error,
or the state "hangup". It hears neither before. After that its channels are at most closed; when they are is the
subject of C48. -/
theorem C59_told_why (w : World) (invite : Msg) (evs : List Event) (h : (loop w evs (start w invite)).c = .stop) :
    ∃ l o, ((dialog w invite evs).s.outs = l ++ [o] ∨ (dialog w invite evs).s.outs = l ++ [o, .closed]) ∧
      IsEnd o = true ∧ ∀ x ∈ l, IsEnd x = false ∧ x ≠ .closed := by
  rcases tells_loop w invite evs with ⟨k, _⟩ | ⟨_, l, o, h1, h2, h3⟩
  · exact absurd h k
  · have h1 : (loop w evs (start w invite)).s.outs = [] ++ l ++ [o] := h1
    refine ⟨l, o, ?_, h3, h2⟩
    rcases dialog_outs w invite evs with hd | hd
    · left; rw [hd, h1]; simp
    · right; rw [hd, h1]; simp

/-- **C59.** As long as the dialog has not ended, the application has heard no error and no "hangup", and its
channels are open. -/
theorem C59_not_before (w : World) (invite : Msg) (evs : List Event) (h : (loop w evs (start w invite)).c ≠ .stop) :
    ∀ x ∈ (dialog w invite evs).s.outs, IsEnd x = false ∧ x ≠ .closed := by
  have hd : dialog w invite evs = loop w evs (start w invite) := by
    unfold dialog
    dsimp only
    split
    · rename_i hc; exact absurd hc h
    · rfl
  rw [hd]
  rcases tells_loop w invite evs with ⟨_, l, h1, h2⟩ | ⟨k, _⟩
  · have h1 : (loop w evs (start w invite)).s.outs = [] ++ l := h1
    rw [h1]; exact fun x hx => h2 x (by simpa using hx)
  · exact absurd k h

/-- **C59.** So a dialog reports at most one error, and none once it has published "hangup". -/
theorem C59_one_end (w : World) (invite : Msg) (evs : List Event) :
    (errors (dialog w invite evs).s.outs).length ≤ 1 ∧
    (.hangup ∈ published (dialog w invite evs).s.outs → errors (dialog w invite evs).s.outs = []) := by
  have he : ∀ l : List Out, (∀ x ∈ l, IsEnd x = false ∧ x ≠ .closed) → errors l = [] ∧ .hangup ∉ published l := by
    intro l hl
    constructor
    · rw [errors, List.filterMap_eq_nil_iff]
      intro a ha
      have := (hl a ha).1
      cases a <;> simp [IsEnd] at this ⊢
    · rw [published, List.mem_filterMap]
      rintro ⟨a, ha, hb⟩
      have := (hl a ha).1
      cases a with
      | state c => simp at hb; subst hb; simp [IsEnd] at this
      | _ => simp at hb
  by_cases h : (loop w evs (start w invite)).c = .stop
  · obtain ⟨l, o, h1, h2, h3⟩ := C59_told_why w invite evs h
    obtain ⟨k1, k2⟩ := he l h3
    have hx : errors (dialog w invite evs).s.outs = errors l ++ errors [o] ∧
        published (dialog w invite evs).s.outs = published l ++ published [o] := by
      rcases h1 with h1 | h1 <;> rw [h1] <;> unfold errors published <;> simp [List.filterMap_append, List.filterMap_cons]
    rw [hx.1, hx.2, k1]
    cases o with
    | err e =>
      refine ⟨by simp [errors], fun hm => absurd ?_ k2⟩
      simpa [published] using hm
    | state c => simp [errors]
    | _ => simp [IsEnd] at h2
  · obtain ⟨k1, k2⟩ := he _ (C59_not_before w invite evs h)
    rw [k1]; simp [k2]

example : (dialog demoWorld demoInvite [demoRsp [] 486]).s.outs.getLast? = some .closed ∧
    errors (dialog demoWorld demoInvite [demoRsp [] 486]).s.outs = [.response (demoRspMsg [] 486)] ∧
    published (dialog demoWorld demoInvite [demoRsp [] 200, demoReq b!"BYE" 1, demoReq b!"BYE" 2]).s.outs =
      [.answered, .hangup] := by
  decide +kernel

/-! ## C52 -/

theorem _root_.Gosip.Spec.Placeable.routable {m : Msg} (h : Placeable m) : Routable m := by
  refine ⟨by simp [Msg.isResponse, h.invite.1], fun a l ha => h.uris .contact a (by rw [ha]; simp), h.request,
    fun a ha => h.uris .route a ha⟩

theorem tame_harmless {w : World} {evs : List Event} {stamps : Bool} (hs : stamps = true ∨ ∀ n, w.clock n = none)
    (he : ∀ ev ∈ evs, Harmless stamps ev) : ∀ ev ∈ evs, Tame w ev := fun ev hev => by
  have := he ev hev
  cases ev with
  | msg m =>
    refine ⟨stamps, this, ?_⟩
    rcases hs with hs | hs
    · exact .inl (this.via hs)
    · exact .inr hs
  | sockErr r e => exact this
  | _ => trivial

/-- **C52** (missing: what `Harmless` excludes, see the theorems below). No message that a peer can be expected to
send, no timer, no failed write, dial or lookup and no time of hanging up crashes the dialog. -/
theorem C52_no_crash_partial (w : World) (invite : Msg) (evs : List Event) (stamps : Bool) (hi : Placeable invite)
    (hs : stamps = true ∨ ∀ n, w.clock n = none) (he : ∀ ev ∈ evs, Harmless stamps ev) :
    (dialog w invite evs).c ≠ .crash := by
  have h := safe_loop (w := w) (evs := evs) hi.routable (tame_harmless hs he)
  unfold dialog
  dsimp only
  split
  · rcases cleanup_cases w (loop w evs (start w invite)).s with ⟨h, _⟩ | ⟨h, _⟩ <;> rw [h] <;> simp
  · exact h.1.1

/-- **C52 is false**, first: an ICMP "port unreachable" crashes the application, as nobody is listening on the
other side. -/
theorem C52_refused : (dialog demoWorld demoInvite [.sockErr true 0]).c = .crash := by decide +kernel

/-- **C52 is false**, second: the answer describes video only; so does an offer of the other side. -/
theorem C52_video_only :
    (dialog demoWorld demoInvite [.msg { demoRspMsg [] 200 with payload := some (.sdp demoVideo) }]).c = .crash ∧
    (dialog demoWorld demoInvite
      [demoRsp [] 200, .msg { demoReqMsg b!"INVITE" 1 with payload := some (.sdp demoVideo) }]).c = .crash := by
  decide +kernel

/-- **C52 is false**, third: the other side offers a new session without Contact, and the application hangs up. -/
theorem C52_reinvite_no_contact :
    (dialog demoWorld demoInvite [demoRsp [] 200,
      .msg { demoReqMsg b!"INVITE" 1 with addrs := setAt (demoReqMsg b!"INVITE" 1).addrs .contact [] },
      .hangup]).c = .crash := by
  decide +kernel

/-- **C52 is false**, fourth: the BYE is redirected to nowhere. -/
theorem C52_bye_redirected_nowhere :
    (dialog demoWorld demoInvite [demoRsp [] 200, .hangup, demoRspNoContact [demoRsp [] 200, .hangup] 302]).c =
      .crash := by
  decide +kernel

/-- **C52 is false**, fifth: time stamps are turned on, and a request has no Via. -/
theorem C52_no_via :
    (dialog { demoWorld with clock := fun _ => some 1 } demoInvite
      [.msg { demoReqMsg b!"OPTIONS" 1 with via := [] }]).c = .crash := by
  decide +kernel

/-- The hypotheses of `C52_no_crash_partial` can be met. -/
example : Placeable demoInvite ∧ Harmless true (demoReq b!"INVITE" 1) ∧ Harmless true (.sockErr false 1) := by
  have hu : ∀ f, ∀ a ∈ (demoReqMsg b!"INVITE" 1).addrs f, a.uri ≠ none := by
    intro f; cases f <;> decide +kernel
  have hu2 : ∀ f, ∀ a ∈ demoInvite.addrs f, a.uri ≠ none := by
    intro f; cases f <;> decide +kernel
  exact ⟨⟨⟨rfl, rfl⟩, by simp [demoInvite], hu2⟩, ⟨hu, by simp [demoReqMsg], by simp [demoReqMsg], by simp [demoReqMsg]⟩, rfl⟩

/-! ## C53 -/

/-- **C53** (before the answer). As long as the call is not answered, hanging up sends one CANCEL, and nothing else;
it cancels the last INVITE that was sent, as far as the dialog remembers it: but for time stamps. -/
theorem C53_cancel (w : World) (invite : Msg) (evs : List Event)
    (hi : IsInvite invite) (hid : ∀ n, (w.ids n).callID ≠ []) (hg : (loop w evs (start w invite)).c = .go)
    (hst : (published (loop w evs (start w invite)).s.outs).getLast? ≠ some .answered) :
    ∃ pre d x post x' c0 c dest new,
      requests (loop w evs (start w invite)).s.outs = pre ++ (d, x) :: post ∧ x.method = b!"INVITE" ∧
      (∀ y ∈ post, y.2.method = b!"BYE") ∧ Stamped x x' ∧ Cancels x' c0 ∧ Stamped c0 c ∧
      (step w (loop w evs (start w invite)).s .hangup).s.outs = (loop w evs (start w invite)).s.outs ++ new ∧
      sends new = [(dest, c)] := by
  have h := alive_dialog hi hid hg
  have hl := (shown_loop w invite evs).last
  have hno : .hangup ∉ published (loop w evs (start w invite)).s.outs := by
    intro hm
    obtain ⟨p, q, hpq⟩ := List.append_of_mem hm
    rw [← published_dialog] at hpq
    have := (C46_hangup_last w invite evs p q hpq).2.1
    rw [hg] at this
    cases this
  have hn := named_loop w invite evs (isOwn_invite hi) hg
  rw [hi.2] at hn
  generalize (loop w evs (start w invite)).s = s at *
  obtain ⟨c, hs⟩ := h.sock
  have hrank : s.state.rank < 2 := by
    rw [← hl]
    cases hp : (published s.outs).getLast? with
    | none => decide
    | some x =>
      cases x with
      | answered => exact absurd hp hst
      | hangup => exact absurd (List.mem_of_getLast? hp) hno
      | _ => decide
  obtain ⟨c0, c', new, h1, h2, h3, h4⟩ := cancel_step (w := w) hs (branch_via h.invite.2.1) hrank
  obtain ⟨pre, d, x, post, k1, k2, k3, _⟩ := h.sent
  refine ⟨pre, d, x, post, s.invite, c0, c', c.remote, new, by rw [requests_eq]; exact k1, ?_, k3, k2.stamped, h1, h2, h3, h4⟩
  rw [← k2.method]; exact hn.1

/-- **C53** (after the answer; missing: responses out of order, see `C53_cancel_after_answer`, and offers of the other
side, see `C53_answer_missed` and `C53_bye_to_self`; and that something is sent, see `C53_bye_stuck`). Hanging up an answered call sends one BYE to the other side, with
the next sequence number, or ends or blocks the dialog without sending anything. -/
theorem C53_bye_partial (w : World) (invite : Msg) (evs : List Event)
    (hi : IsInvite invite) (hid : ∀ n, (w.ids n).callID ≠ []) (hids : ∀ n, 0 < (w.ids n).cseq) (h0 : 0 ≤ invite.cseq)
    (hg : (loop w evs (start w invite)).c = .go) (ho : Orderly evs)
    (hst : (published (loop w evs (start w invite)).s.outs).getLast? = some .answered)
    (hno : ∀ m, .msg m ∈ evs → m.method = b!"INVITE" → 0 < m.status)
    (hb : ∀ x ∈ requests (loop w evs (start w invite)).s.outs,
      x.2.cseq + (requests (loop w evs (start w invite)).s.outs).length < 2 ^ 63 - 1) :
    (sends (step w (loop w evs (start w invite)).s .hangup).s.outs = sends (loop w evs (start w invite)).s.outs ∧
      (step w (loop w evs (start w invite)).s .hangup).c ≠ .go) ∨
    ∃ rsp d b, .msg rsp ∈ evs ∧ rsp.status = 200 ∧ rsp.cseqMethod = b!"INVITE" ∧
      sends (step w (loop w evs (start w invite)).s .hangup).s.outs =
        sends (loop w evs (start w invite)).s.outs ++ [(d, b)] ∧
      b.method = b!"BYE" ∧ b.cseqMethod = b!"BYE" ∧ b.status = 0 ∧
      (∀ x ∈ requests (loop w evs (start w invite)).s.outs,
        x.2.cseq < b.cseq ∧ x.2.callID = b.callID ∧ x.2.addrs .from = b.addrs .from) ∧
      (∃ x ∈ requests (loop w evs (start w invite)).s.outs, b.cseq = x.2.cseq + 1) ∧
      (rsp.addrs .to ≠ [] → b.addrs .to = rsp.addrs .to) ∧
      (rsp.addrs .recordRoute = [] → ∃ a more, rsp.addrs .contact = a :: more ∧ b.request = a.uri) := by
  have h := alive_dialog hi hid hg
  have hstate := state_of_published hst
  have hsig := signed_loop w invite evs (isOwn_invite hi)
  have hheard := heard_loop w invite evs
  have hnum := numbered_loop w invite evs (isOwn_invite hi) h0 hids
  have hfw : Forward (published (loop w evs (start w invite)).s.outs) := (ordered_loop w invite evs ho).forward
  rw [requests_eq] at *
  generalize hS : loop w evs (start w invite) = r at *
  obtain ⟨s, c⟩ := r
  dsimp only at *
  subst hg
  have hne : own s.outs ≠ [] := by
    obtain ⟨pre, d, x, m, h1, _⟩ := h.last
    rw [h1]; simp
  rcases hnum with hp | ⟨c, hc, hseq, x, hx, hxc⟩
  · exact absurd hp.own hne
  have hbc : c + (own s.outs).length < 2 ^ 63 - 1 := by
    rw [← hxc]; exact hb x hx
  have hn := hseq.numbers hfw hbc
  have hreq : s.req ≠ .none := fun hq => hne (hn.none rfl hq).1
  obtain ⟨q1, q2, q3, q4⟩ := hn.lseq rfl hreq
  dsimp only at q1 q2 q3 q4
  rcases bye_step (w := w) hstate with hl | ⟨remote, b, n, d, m, m', k, r1, r2, r3, r4, r5⟩
  · exact .inl hl
  · right
    obtain ⟨b1, b2, b3, b4, b5, b6, b7, b8⟩ := bye_fields r2 (by omega) (by omega)
    obtain ⟨hr1, hr2⟩ := hheard remote r1
    have hr : remote.status = 200 ∧ remote.cseqMethod = b!"INVITE" := by
      rcases hr2 with hr2 | ⟨e1, e2⟩
      · exact hr2
      · have := hno remote hr1 e2; omega
    have hcs : m'.cseq = s.lseq + 1 := by
      rw [r4.cseq, r3.cseq, b2, if_neg (by omega)]
    have hcall : m'.callID = s.invite.callID := by
      rw [r4.callID, r3.callID, b6, if_neg h.invite.2.2]
    obtain ⟨x0, hx0⟩ := List.exists_mem_of_ne_nil _ hne
    have htag : Tagged ((routeMessage none none b).1.addrs .from) := by
      rw [b7, ← hsig.same rfl x0 hx0]; exact (hsig.all x0 hx0).1
    refine ⟨remote, d, m', hr1, hr.1, hr.2, r5, ?_, ?_, ?_, ?_, ?_, ?_, ?_⟩
    · rw [r4.method, r3.method, b4]
    · obtain ⟨v, hv⟩ := r4.only
      rw [hv]
      exact (r3.cseqMethod (by rw [b3]; decide)).trans b3
    · rw [r4.status, r3.status, b5]
    · intro x hx
      refine ⟨by have := q3 x hx; omega, (h.call x hx).trans hcall.symm, ?_⟩
      rw [r4.addrs, r3.from' htag, b7]
      exact hsig.same rfl x hx
    · obtain ⟨x, hx, hxl⟩ := q4
      exact ⟨x, hx, by omega⟩
    · intro ht
      rw [r4.addrs, r3.to (by rw [b8]; exact ht), b8]
    · intro hrr
      obtain ⟨a, more, e1, e2⟩ := request_bye r2 hrr
      refine ⟨a, more, e1, ?_⟩
      obtain ⟨v, hv⟩ := r4.only
      rw [hv]
      exact r3.request.trans e2

/-- **C53** (after the answer). If all events are harmless, no deadlock is possible and nothing could be sent, the
application is told. -/
theorem C53_bye_or_told (w : World) (invite : Msg) (evs : List Event) (stamps : Bool) (hi : Placeable invite)
    (hs : stamps = true ∨ ∀ n, w.clock n = none) (he : ∀ ev ∈ evs, Harmless stamps ev) (hfree : ∀ n, w.frees n = true)
    (hg : (loop w evs (start w invite)).c = .go) (hn : (step w (loop w evs (start w invite)).s .hangup).c ≠ .go) :
    ∃ l o, (step w (loop w evs (start w invite)).s .hangup).s.outs = (loop w evs (start w invite)).s.outs ++ l ++ [o] ∧
      IsEnd o = true := by
  have h := C52_no_crash_partial w invite (evs ++ [.hangup]) stamps hi hs (by
    intro ev hev
    rcases List.mem_append.1 hev with hev | hev
    · exact he ev hev
    · simp only [List.mem_singleton] at hev; subst hev; trivial)
  have hl : loop w (evs ++ [.hangup]) (start w invite) = step w (loop w evs (start w invite)).s .hangup := by
    rw [loop_snoc]; unfold Run.andThen; rw [hg]
  have hc : (step w (loop w evs (start w invite)).s .hangup).c ≠ .crash := by
    intro hc
    unfold dialog at h
    simp only [hl, hc] at h
    exact h rfl
  rcases tells_step w (loop w evs (start w invite)).s .hangup with ⟨k, _⟩ | ⟨_, l, o, h1, h2, h3⟩
  · cases hx : (step w (loop w evs (start w invite)).s .hangup).c with
    | go => exact absurd hx hn
    | stop => exact absurd hx k
    | crash => exact absurd hx hc
    | stuck =>
      have hk := (safe_loop (w := w) (evs := evs ++ [.hangup]) hi.routable (tame_harmless hs (by
        intro ev hev
        rcases List.mem_append.1 hev with hev | hev
        · exact he ev hev
        · simp only [List.mem_singleton] at hev; subst hev; trivial))).1.2
      rw [hl] at hk
      obtain ⟨n, hn⟩ := hk hx
      rw [hfree n] at hn; cases hn
  · exact ⟨l, o, h1, h3⟩

/-- **C53 is false** when the other side is to be reached at another address than the INVITE was sent to, here at another
port: the dialog closes its socket and waits for ever for the receiving goroutine, if that has no message to deliver. No BYE
is sent, no error is reported, and the call stays up. -/
theorem C53_bye_stuck :
    (loop demoIdle [demoRsp [] 200, .hangup] (start demoIdle demoInvite)).c = .stuck ∧
    (sends (dialog demoIdle demoInvite [demoRsp [] 200, .hangup]).s.outs).map (·.2.method) = [b!"INVITE", b!"ACK"] ∧
    errors (dialog demoIdle demoInvite [demoRsp [] 200, .hangup]).s.outs = [] ∧
    published (dialog demoIdle demoInvite [demoRsp [] 200, .hangup]).s.outs = [.answered] := by
  decide +kernel

/-- **C53 is false** when a response is late: after the call was answered, a 180 makes the application's hanging up a
CANCEL, and the call stays up. -/
theorem C53_cancel_after_answer :
    demoSends [demoRsp [] 200, demoRsp [] 180, .hangup] = [(b!"INVITE", 0), (b!"ACK", 0), (b!"CANCEL", 0)] := by
  decide +kernel

/-- **C53 is false** when the other side sent an INVITE before it answered: the answer is not published, and hanging up is a
CANCEL. -/
theorem C53_answer_missed :
    demoSends [demoReq b!"INVITE" 1, demoRsp [] 200, .hangup] =
      [(b!"INVITE", 0), ([], 200), (b!"ACK", 0), (b!"CANCEL", 0)] ∧
    published (demo [demoReq b!"INVITE" 1, demoRsp [] 200]).s.outs = [] := by
  decide +kernel

/-- **C53 is false** when the other side has sent an INVITE: the BYE carries the To of that INVITE, which is the caller
itself. -/
theorem C53_bye_to_self :
    ((demoLast [demoRsp [] 200, .hangup]).addrs .to).map Addr.uri = (demoInvite.addrs .to).map Addr.uri ∧
    (demoLast [demoRsp [] 200, demoReq b!"INVITE" 1, .hangup]).method = b!"BYE" ∧
    ((demoLast [demoRsp [] 200, demoReq b!"INVITE" 1, .hangup]).addrs .to).map Addr.uri =
      (demoInvite.addrs .from).map Addr.uri := by
  decide +kernel

/-- The hypotheses of the theorems of C53 can be met. -/
example : demoSends [demoRsp [] 180, .requestTimer, .hangup] = [(b!"INVITE", 0), (b!"CANCEL", 0)] ∧
    demoSends [demoRsp [] 180, demoRsp [] 200, demoReq b!"OPTIONS" 3, .hangup] =
      [(b!"INVITE", 0), (b!"ACK", 0), ([], 200), (b!"BYE", 0)] ∧
    (demoLast [demoRsp [] 180, demoRsp [] 200, .hangup]).cseq = 8 ∧
    (demo [demoRsp [] 180, demoRsp [] 200]).c = .go ∧
    (published (demo [demoRsp [] 180, demoRsp [] 200]).s.outs).getLast? = some .answered := by
  decide +kernel

end Gosip.Props
