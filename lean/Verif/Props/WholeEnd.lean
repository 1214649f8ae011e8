import Verif.Props.WholeCall
import Verif.Props.Asked

/-!
# Property C101: the other ways in which a call ends
-/

namespace Gosip.Props
open Sip Spec Dialog

/-- How a dialog ends that has been told to stop and whose sockets can be closed. -/
theorem dialog_stops {w : World} {invite : Msg} {evs : List Event} (hos : WellServed w)
    (h : (loop w evs (start w invite)).c = .stop) : (dialog w invite evs).c = .stop ∧
      (dialog w invite evs).s.outs = (loop w evs (start w invite)).s.outs ++ [.closed] := by
  have hdl : dialog w invite evs = cleanup w (loop w evs (start w invite)).s := by
    unfold dialog
    dsimp only
    rw [h]
  rw [hdl]
  unfold cleanup
  simp only [hos.frees, Bool.not_true, Bool.and_false, Bool.false_eq_true, if_false]
  exact ⟨trivial, rfl⟩

/-- **C101** (the other side hangs up). The INVITE leaves for the first address that can be dialled. When the other program
accepts it and says where it is to be reached, the application hears the media address, if one was given, and that the call
is answered, and an ACK leaves. When the other program then hangs up, a 200 leaves which it understands, the application
hears that the call is over, and the sockets and channels are closed. Nothing else is sent or reported, and there is no
error. -/
theorem C101_other_hangs_up (w : World) (invite : Msg) (host : Bytes) (port : UInt16) (dead : List Bytes) (a : Bytes)
    (rest : List Bytes) (hp : Placed w invite) (hos : WellServed w) (hport : NoneAt5060 w)
    (hr : (routeMessage none none invite).2 = .ok (host, port))
    (ha : (routeAddress (w.resolver 0) host port true).2 = .ok (dead ++ a :: rest))
    (hdead : ∀ b ∈ dead, ∀ n, w.dial n b = none) (hd : ∀ n, w.dial n a ≠ none)
    (hk : ∀ ad more, invite.addrs .contact = ad :: more → ad.uri ≠ none) (hf : invite.maxForwards ≠ 1)
    (hnum : invite.cseq + 3 < 2 ^ 63 ∧ ∀ n, (w.ids n).cseq + 3 < 2 ^ 63) :
    ∃ d y t, IsInvite y ∧ Carries invite y ∧ (start w invite).c = .go ∧
      (start w invite).s.outs = dead.map .dial ++ [.dial a, .sent d y t] ∧
    ∀ (callee caller : Ear) (tp : Transport) (env : SendEnv) (source source' : UDPAddr) (con : Addr) (more : List Addr)
      (body : Option Payload) (t' dest : Bytes),
      Exchange callee tp env source 200 (con :: more) body t t' dest → (∀ sdp, body = some (.sdp sdp) → sdp.audio ≠ none) →
    ∃ ans ack dack tack, Hears caller t' source' ans ∧ ack.method = b!"ACK" ∧ ack.request = con.uri ∧
      (loop w [.msg ans] (start w invite)).c = .go ∧
      (loop w [.msg ans] (start w invite)).s.outs =
        dead.map .dial ++ [.dial a, .sent d y t, .sent dack ack tack] ++ mediaNews { payload := body } ++ [.state .answered] ∧
    ∀ (gen : Bytes) (req : Msg) (caller₂ : Ear) (source₂ : UDPAddr), FromPeer gen y.callID req → req.method = b!"BYE" →
      (∀ v ∈ req.via, v.port ≠ 5060) → (∀ c ∈ source₂.ip, ip6c c) → (req.text gen).length ≤ 2048 →
    ∃ got dok ok tok, Hears caller₂ (req.text gen) source₂ got ∧ (tok.length ≤ 2048 → Understood req 200 tok) ∧
      (dialog w invite [.msg ans, .msg got]).c = .stop ∧
      (dialog w invite [.msg ans, .msg got]).s.outs =
        dead.map .dial ++ [.dial a, .sent d y t, .sent dack ack tack] ++ mediaNews { payload := body } ++ [.state .answered] ++
          [.sent dok ok tok, .state .hangup, .closed] := by
  obtain ⟨hgo, c, n, y, o, _, hy, _, hcar, _, _, hout⟩ := C97_placed w invite host port dead a rest hp.request hr ha hdead hd
    hos.listen hos.write hk hf
  refine ⟨c.remote, y, y.text (w.origin o), hy, hcar, hgo, hout, ?_⟩
  intro callee caller tp env source source' con more body t' dest hex haudio
  have hn0 : Numbered w invite [] := ⟨(fun m h => nomatch h), by simp; omega, fun n => by have := hnum.2 n; simp; omega⟩
  have hx0 : .sent c.remote y (y.text (w.origin o)) ∈ (loop w [] (start w invite)).s.outs := by
    show _ ∈ (start w invite).s.outs
    rw [hout]; simp
  have hl0 : (requests (loop w [] (start w invite)).s.outs).getLast? = some (c.remote, y) := by
    show (requests (start w invite).s.outs).getLast? = _
    rw [hout, show dead.map Out.dial ++ [.dial a, .sent c.remote y (y.text (w.origin o))] =
      dead.map Out.dial ++ [.dial a] ++ [.sent c.remote y (y.text (w.origin o))] by simp]
    exact last_request hy.1 (by rw [hy.2]; decide)
  obtain ⟨ans, h1, h2, ack, dack, tack, h3, h3', h4, _⟩ := C95_answered_partial w invite [] hp hn0 hport hos.write hgo c.remote y _
    hx0 hl0 hy.2 (by simp) callee caller tp env source source' con more body t' dest hex haudio
  obtain ⟨⟨ans', a1, _, a2, _, _, _, _, a3⟩, _⟩ := C95_understood_partial w invite [] hp hn0 hport c.remote y _ hx0
    (mem_of_last hl0) callee caller tp env source source' 200 (con :: more) body t' dest hex
  have : ans' = ans := by
    unfold Hears at h1 a1
    rw [h1] at a1; cases a1; rfl
  subst this
  have hst : 0 < ans'.status := by rw [a2]; decide
  have h2 : (loop w [.msg ans'] (start w invite)).c = .go := h2
  have h4' : (loop w [.msg ans'] (start w invite)).s.outs =
      dead.map .dial ++ [.dial a, .sent c.remote y (y.text (w.origin o)), .sent dack ack tack] ++
        mediaNews { payload := body } ++ [.state .answered] := by
    refine h4.trans ?_
    show (start w invite).s.outs ++ _ ++ _ = _
    rw [hout]; simp
  refine ⟨ans', ack, dack, tack, h1, h3', h3, h2, h4', ?_⟩
  intro gen req caller₂ source₂ hfrom hbye h5060 hip hlen
  obtain ⟨got, g1, g2, dok, ok, tok, g3, g4⟩ := C98_bye_partial w invite [.msg ans'] hp
    ⟨fun m hm => by simp only [List.mem_singleton, Event.msg.injEq] at hm; subst hm; exact a3,
      by simp; omega, fun n => by have := hnum.2 n; simp; omega⟩
    hos.write h2 gen y.callID
    ⟨(c.remote, y), by
      show _ ∈ requests (loop w ([] ++ [.msg ans']) (start w invite)).s.outs
      rw [h4, requests_eq, own_append, own_append, ← requests_eq]
      exact List.mem_append_left _ (List.mem_append_left _ (mem_of_last hl0)), rfl⟩
    req hfrom hbye
    (fun m hm hp => by
      simp only [List.mem_singleton, Event.msg.injEq] at hm; subst hm
      exact absurd hp.request (by omega))
    h5060 caller₂ source₂ hip hlen
  have g2 : (loop w [.msg ans', .msg got] (start w invite)).c = .stop := g2
  have g3 : (loop w [.msg ans', .msg got] (start w invite)).s.outs = _ := g3
  obtain ⟨d1, d2⟩ := dialog_stops hos g2
  refine ⟨got, dok, ok, tok, g1, g4, d1, ?_⟩
  rw [d2, g3, h4']; simp

/-- **C101** (the call is refused). The INVITE leaves for the first address that can be dialled. When the other program
refuses it, an ACK leaves, the application hears the refusal as it was given, as an error and as the last thing, and the
sockets and channels are closed. Nothing else is sent or reported. -/
theorem C101_refused (w : World) (invite : Msg) (host : Bytes) (port : UInt16) (dead : List Bytes) (a : Bytes)
    (rest : List Bytes) (hp : Placed w invite) (hos : WellServed w) (hport : NoneAt5060 w)
    (hr : (routeMessage none none invite).2 = .ok (host, port))
    (ha : (routeAddress (w.resolver 0) host port true).2 = .ok (dead ++ a :: rest))
    (hdead : ∀ b ∈ dead, ∀ n, w.dial n b = none) (hd : ∀ n, w.dial n a ≠ none)
    (hk : ∀ ad more, invite.addrs .contact = ad :: more → ad.uri ≠ none) (hf : invite.maxForwards ≠ 1)
    (hnum : invite.cseq + 3 < 2 ^ 63 ∧ ∀ n, (w.ids n).cseq + 3 < 2 ^ 63) :
    ∃ d y t, IsInvite y ∧ Carries invite y ∧ (start w invite).c = .go ∧
      (start w invite).s.outs = dead.map .dial ++ [.dial a, .sent d y t] ∧
    ∀ (callee caller : Ear) (tp : Transport) (env : SendEnv) (source source' : UDPAddr) (status : Int) (con : Addr)
      (more : List Addr) (body : Option Payload) (t' dest : Bytes),
      Exchange callee tp env source status (con :: more) body t t' dest → Refuses status →
    ∃ ans a' ack dack tack, Hears caller t' source' ans ∧ ans.status = status ∧ ans.callID = y.callID ∧
      ans.addrs .contact = con :: more ∧ ans.payload = body ∧ Acknowledges y ans a' ∧ Stamped a' ack ∧
      (dialog w invite [.msg ans]).c = .stop ∧
      (dialog w invite [.msg ans]).s.outs =
        dead.map .dial ++ [.dial a, .sent d y t, .sent dack ack tack, .err (.response ans), .closed] := by
  obtain ⟨hgo, c, n, y, o, _, hy, _, hcar, _, _, hout⟩ := C97_placed w invite host port dead a rest hp.request hr ha hdead hd
    hos.listen hos.write hk hf
  refine ⟨c.remote, y, y.text (w.origin o), hy, hcar, hgo, hout, ?_⟩
  intro callee caller tp env source source' status con more body t' dest hex hst
  have hn0 : Numbered w invite [] := ⟨(fun m h => nomatch h), by simp; omega, fun n => by have := hnum.2 n; simp; omega⟩
  have hx0 : .sent c.remote y (y.text (w.origin o)) ∈ (loop w [] (start w invite)).s.outs := by
    show _ ∈ (start w invite).s.outs
    rw [hout]; simp
  have hl0 : (requests (loop w [] (start w invite)).s.outs).getLast? = some (c.remote, y) := by
    show (requests (start w invite).s.outs).getLast? = _
    rw [hout, show dead.map Out.dial ++ [.dial a, .sent c.remote y (y.text (w.origin o))] =
      dead.map Out.dial ++ [.dial a] ++ [.sent c.remote y (y.text (w.origin o))] by simp]
    exact last_request hy.1 (by rw [hy.2]; decide)
  obtain ⟨⟨ans, a1, a2, a3, a4, a5, a6, a7, a8⟩, _⟩ := C95_understood_partial w invite [] hp hn0 hport c.remote y _ hx0
    (mem_of_last hl0) callee caller tp env source source' status (con :: more) body t' dest hex
  obtain ⟨k1, new, k2, k3, _⟩ := C62_refused_partial w invite [] ans c.remote y hp.request (callID_ne hp.plain) hos.write hgo hl0
    a2 a5 a4 (by rw [a3]; exact hst) (fun _ => by rw [a6]; simp)
  obtain ⟨a', ack, dack, tack, b1, b2, rfl⟩ := k3 hy.2
  have k1 : (loop w [.msg ans] (start w invite)).c = .stop := k1
  have k2 : (loop w [.msg ans] (start w invite)).s.outs = (start w invite).s.outs ++ _ ++ _ := k2
  obtain ⟨d1, d2⟩ := dialog_stops hos k1
  refine ⟨ans, a', ack, dack, tack, a1, a3, a4, a6, a7, b1, b2, d1, ?_⟩
  rw [d2, k2, hout]; simp

theorem stamped_method {m m' : Msg} (h : Stamped m m') : m'.method = m.method := by
  rcases h with rfl | ⟨_, _, _, _, _, rfl⟩ <;> rfl

/-- Cancelling, when writing works. -/
theorem cancel_goes {w : World} {s : St} {c : Conn} (hw : ∀ n, w.write n = .ok ()) (hs : s.sock = some c)
    (hv : s.invite.via ≠ []) (hst : s.state.rank < 2) :
    (step w s .hangup).c = .go ∧ ∃ m t, (step w s .hangup).s.outs = s.outs ++ [.sent c.remote m t] := by
  have hstep : step w s .hangup = sendCancel w s := by
    simp only [step]
    unfold sendHangup
    cases h : s.state <;> simp [h, CallState.rank] at hst ⊢
  rw [hstep]
  obtain ⟨m', x, _, h2⟩ := send_ok (w := w) hw hs (m := newCancel s.invite) (Int.le_refl 0) (.inl hv)
  unfold sendCancel
  dsimp only
  rw [h2]
  exact ⟨rfl, m', x, rfl⟩

/-- **C101** (giving up, for every history). As long as the call is not answered and writing works, the application can give
it up: one CANCEL leaves, for the last INVITE that was sent, and nothing else; the dialog then waits for what comes. -/
theorem C101_cancel_goes (w : World) (invite : Msg) (evs : List Event)
    (hi : IsInvite invite) (hid : ∀ n, (w.ids n).callID ≠ []) (hw : ∀ n, w.write n = .ok ())
    (hg : (loop w evs (start w invite)).c = .go)
    (hst : (published (loop w evs (start w invite)).s.outs).getLast? ≠ some .answered) :
    ∃ pre d x post x' c0 c dest t,
      requests (loop w evs (start w invite)).s.outs = pre ++ (d, x) :: post ∧ x.method = b!"INVITE" ∧
      (∀ y ∈ post, y.2.method = b!"BYE") ∧ Stamped x x' ∧ Cancels x' c0 ∧ Stamped c0 c ∧
      (loop w (evs ++ [.hangup]) (start w invite)).c = .go ∧
      (loop w (evs ++ [.hangup]) (start w invite)).s.outs = (loop w evs (start w invite)).s.outs ++ [.sent dest c t] := by
  obtain ⟨pre, d, x, post, x', c0, c, dest, new, k1, k2, k3, k4, k5, k6, k7, k8⟩ := C53_cancel w invite evs hi hid hg hst
  have h := alive_dialog hi hid hg
  have hl := (shown_loop w invite evs).last
  have hno : .hangup ∉ published (loop w evs (start w invite)).s.outs := by
    intro hm
    obtain ⟨p, q, hpq⟩ := List.append_of_mem hm
    rw [← published_dialog] at hpq
    have := (C46_hangup_last w invite evs p q hpq).2.1
    rw [hg] at this
    cases this
  obtain ⟨cn, hs⟩ := h.sock
  have hrank : (loop w evs (start w invite)).s.state.rank < 2 := by
    rw [← hl]
    cases hp : (published (loop w evs (start w invite)).s.outs).getLast? with
    | none => decide
    | some x =>
      cases x with
      | answered => exact absurd hp hst
      | hangup => exact absurd (List.mem_of_getLast? hp) hno
      | _ => decide
  obtain ⟨g1, m, t, g2⟩ := cancel_goes hw hs (branch_via h.invite.2.1) hrank
  rw [g2] at k7
  obtain rfl := List.append_cancel_left k7
  have hm : (cn.remote, m) = (dest, c) := by
    have : [(cn.remote, m)] = [(dest, c)] := k8
    simpa using this
  simp only [Prod.mk.injEq] at hm
  obtain ⟨rfl, rfl⟩ := hm
  refine ⟨pre, d, x, post, x', c0, m, cn.remote, t, k1, k2, k3, k4, k5, k6, ?_⟩
  rw [loop_snoc, Run.andThen_of_go hg]
  exact ⟨g1, g2⟩

/-- **C101** (the call is given up). The INVITE leaves for the first address that can be dialled. When the application hangs
up before there is an answer, a CANCEL for it leaves. When the other program then refuses the INVITE, as it should, an ACK
leaves, the application hears the refusal as it was given, as an error and as the last thing, and the sockets and channels
are closed. Nothing else is sent or reported. -/
theorem C101_given_up (w : World) (invite : Msg) (host : Bytes) (port : UInt16) (dead : List Bytes) (a : Bytes)
    (rest : List Bytes) (hp : Placed w invite) (hos : WellServed w) (hport : NoneAt5060 w)
    (hr : (routeMessage none none invite).2 = .ok (host, port))
    (ha : (routeAddress (w.resolver 0) host port true).2 = .ok (dead ++ a :: rest))
    (hdead : ∀ b ∈ dead, ∀ n, w.dial n b = none) (hd : ∀ n, w.dial n a ≠ none)
    (hk : ∀ ad more, invite.addrs .contact = ad :: more → ad.uri ≠ none) (hf : invite.maxForwards ≠ 1)
    (hnum : invite.cseq + 3 < 2 ^ 63 ∧ ∀ n, (w.ids n).cseq + 3 < 2 ^ 63) :
    ∃ d y t y' c0 cancel dc tc, IsInvite y ∧ Carries invite y ∧ Stamped y y' ∧ Cancels y' c0 ∧ Stamped c0 cancel ∧
      (start w invite).s.outs = dead.map .dial ++ [.dial a, .sent d y t] ∧
      (loop w [.hangup] (start w invite)).c = .go ∧
      (loop w [.hangup] (start w invite)).s.outs = dead.map .dial ++ [.dial a, .sent d y t, .sent dc cancel tc] ∧
    ∀ (callee caller : Ear) (tp : Transport) (env : SendEnv) (source source' : UDPAddr) (status : Int) (con : Addr)
      (more : List Addr) (body : Option Payload) (t' dest : Bytes),
      Exchange callee tp env source status (con :: more) body t t' dest → Refuses status →
    ∃ ans a' ack dack tack, Hears caller t' source' ans ∧ ans.status = status ∧ ans.callID = y.callID ∧
      ans.addrs .contact = con :: more ∧ ans.payload = body ∧ Acknowledges y ans a' ∧ Stamped a' ack ∧
      (dialog w invite [.hangup, .msg ans]).c = .stop ∧
      (dialog w invite [.hangup, .msg ans]).s.outs =
        dead.map .dial ++ [.dial a, .sent d y t, .sent dc cancel tc, .sent dack ack tack, .err (.response ans), .closed] := by
  obtain ⟨hgo, c, n, y, o, _, hy, _, hcar, _, _, hout⟩ := C97_placed w invite host port dead a rest hp.request hr ha hdead hd
    hos.listen hos.write hk hf
  have hreq : requests (start w invite).s.outs = [(c.remote, y)] := by
    have hds : sends (dead.map Out.dial) = [] := by simp [sends]
    rw [hout]
    unfold requests
    rw [sends_append, hds]
    simp [sends, hy.1, hy.2]
  obtain ⟨pre, d, x, post, x', c0, cancel, dc, tc, k1, k2, k3, k4, k5, k6, k7, k8⟩ := C101_cancel_goes w invite [] hp.request
    (callID_ne hp.plain) hos.write hgo (by
      show (published (start w invite).s.outs).getLast? ≠ _
      have hds : published (dead.map Out.dial) = [] := by simp [published]
      rw [hout, published_append, hds]
      simp [published])
  have hxy : x = y := by
    have k1 : requests (start w invite).s.outs = pre ++ (d, x) :: post := k1
    rw [hreq] at k1
    have : (d, x) ∈ [(c.remote, y)] := by rw [k1]; simp
    simp only [List.mem_singleton, Prod.mk.injEq] at this
    exact this.2
  subst hxy
  have k7 : (loop w [.hangup] (start w invite)).c = .go := k7
  have k8 : (loop w [.hangup] (start w invite)).s.outs = (start w invite).s.outs ++ [.sent dc cancel tc] := k8
  have k8' : (loop w [.hangup] (start w invite)).s.outs =
      dead.map .dial ++ [.dial a, .sent c.remote x (x.text (w.origin o)), .sent dc cancel tc] := by
    rw [k8, hout]; simp
  refine ⟨c.remote, x, x.text (w.origin o), x', c0, cancel, dc, tc, hy, hcar, k4, k5, k6, hout, k7, k8', ?_⟩
  intro callee caller tp env source source' status con more body t' dest hex hst
  have hn1 : Numbered w invite [.hangup] :=
    ⟨(fun m h => by simp at h), by simp; omega, fun n => by have := hnum.2 n; simp; omega⟩
  have hx1 : .sent c.remote x (x.text (w.origin o)) ∈ (loop w [.hangup] (start w invite)).s.outs := by
    rw [k8']; simp
  have hmeth : cancel.method = b!"CANCEL" := (stamped_method k6).trans k5.method.1
  have hl1 : (requests (loop w [.hangup] (start w invite)).s.outs).getLast? = some (c.remote, x) := by
    rw [k8, requests_eq, own_append, ← requests_eq, hreq]
    have ho : isOwn cancel = false := by
      unfold isOwn
      rw [hmeth]; simp
    have : own [.sent dc cancel tc] = [] := by simp [own, sends, ho]
    rw [this]; rfl
  obtain ⟨⟨ans, a1, a2, a3, a4, a5, a6, a7, a8⟩, _⟩ := C95_understood_partial w invite [.hangup] hp hn1 hport c.remote x _ hx1
    (mem_of_last hl1) callee caller tp env source source' status (con :: more) body t' dest hex
  obtain ⟨q1, new, q2, q3, _⟩ := C62_refused_partial w invite [.hangup] ans c.remote x hp.request (callID_ne hp.plain) hos.write
    k7 hl1 a2 a5 a4 (by rw [a3]; exact hst) (fun _ => by rw [a6]; simp)
  obtain ⟨a', ack, dack, tack, b1, b2, rfl⟩ := q3 hy.2
  have q1 : (loop w [.hangup, .msg ans] (start w invite)).c = .stop := q1
  have q2 : (loop w [.hangup, .msg ans] (start w invite)).s.outs = (loop w [.hangup] (start w invite)).s.outs ++ _ ++ _ := q2
  obtain ⟨d1, d2⟩ := dialog_stops hos q1
  refine ⟨ans, a', ack, dack, tack, a1, a3, a4, a6, a7, b1, b2, d1, ?_⟩
  rw [d2, q2, k8']; simp

/-! ## Examples -/

theorem demo_exchange_486 : ∃ t', Exchange demoCallee ⟨[{ host := b!"10.0.0.2", port := 5060 }], []⟩ demoEnv ⟨b!"10.0.0.1", 5070⟩ 486
    [demoBob] (some demoBody) demoFirst t' b!"10.0.0.1:5070" := by
  have hb : (demoBack 486).map (fun x => (x.2, decide (x.1.length ≤ 2048))) = some (b!"10.0.0.1:5070", true) := by decide +kernel
  obtain ⟨t, hex⟩ := demo_exchange
  cases hd : demoBack 486 with
  | none => rw [hd] at hb; exact absurd hb (by simp)
  | some x =>
    rw [hd] at hb
    simp only [Option.map_some, Option.some.injEq, Prod.mk.injEq, decide_eq_true_eq] at hb
    refine ⟨x.1, ⟨hex.known, ⟨by decide, hex.good.contact, hex.good.body⟩, ?_, hex.short.1, hb.2⟩⟩
    obtain ⟨got, hgot, _⟩ := hex.answered
    refine ⟨got, hgot, ?_⟩
    unfold demoBack at hd
    rw [show receiveOne demoCallee.host demoCallee.port none demoFirst ⟨b!"10.0.0.1", 5070⟩ = .ok (some got) from hgot] at hd
    rw [← hb.1]
    exact hd

theorem demo_contacts : ∀ ad more, demoCall.addrs .contact = ad :: more → ad.uri ≠ none := by
  intro ad more h
  have : ((demoCall.addrs .contact).head?.map fun a => a.uri.isSome) = some true := by decide +kernel
  rw [h] at this
  intro hc
  rw [List.head?_cons, Option.map_some, hc] at this
  cases this

/-- The conditions can be met: the phone calls, is answered, and the other program hangs up. -/
example : ∃ ans got d₁ d₂ d₃ y ack ok t₁ t₂ t₃, y.method = b!"INVITE" ∧ ack.method = b!"ACK" ∧
    (t₃.length ≤ 2048 → Understood (demoLeave 5080) 200 t₃) ∧ (dialog demoWorld demoCall [.msg ans, .msg got]).c = .stop ∧
    (dialog demoWorld demoCall [.msg ans, .msg got]).s.outs =
      [.dial b!"10.0.0.2:5060", .sent d₁ y t₁, .sent d₂ ack t₂, .peer b!"10.0.0.2" 4000, .state .answered, .sent d₃ ok t₃,
        .state .hangup, .closed] := by
  obtain ⟨d, y, t, hy, hcar, _, hout, h⟩ := C101_other_hangs_up demoWorld demoCall b!"10.0.0.2" 0 [] b!"10.0.0.2:5060" []
    demo_placed ⟨fun _ => rfl, .inl rfl, fun _ => rfl⟩ demo_ports (by decide +kernel) (by decide +kernel)
    (fun b hb => nomatch hb) (fun n h => nomatch h) demo_contacts (by decide +kernel)
    ⟨by decide +kernel, fun n => by show (7 : Int) + 3 < 2 ^ 63; decide⟩
  have ht : t = demoFirst := by unfold demoFirst; rw [hout]; rfl
  obtain ⟨t', hex⟩ := demo_exchange
  rw [← ht] at hex
  obtain ⟨ans, ack, dack, tack, _, h2, _, _, _, h⟩ := h demoCallee ⟨b!"10.0.0.1", 5070, none⟩ _ _ _ ⟨b!"10.0.0.2", 5060⟩ _ _ _ _ _
    hex (by intro d hd; cases hd; decide +kernel)
  have hid : y.callID = b!"id" := by
    have hc : (match (start demoWorld demoCall).s.outs with
        | [.dial _, .sent _ x _] => decide (x.callID = b!"id")
        | _ => false) = true := by decide +kernel
    rw [hout] at hc
    simpa using hc
  obtain ⟨got, dok, ok, tok, _, g2, g3, g4⟩ := h b!"1" (demoLeave 5080) ⟨b!"10.0.0.1", 5070, none⟩ ⟨b!"10.0.0.2", 5080⟩
    (by rw [hid]; exact demo_asked _) rfl (by simp [demoLeave]) (by decide +kernel) (by decide +kernel)
  exact ⟨ans, got, d, dack, dok, y, ack, ok, t, tack, tok, hy.2, h2, g2, g3, g4⟩

/-- The conditions can be met: the phone calls, and the other program is busy. -/
example : ∃ ans d₁ d₂ y ack t₁ t₂, y.method = b!"INVITE" ∧ ans.status = 486 ∧
    (dialog demoWorld demoCall [.msg ans]).c = .stop ∧ (dialog demoWorld demoCall [.msg ans]).s.outs =
      [.dial b!"10.0.0.2:5060", .sent d₁ y t₁, .sent d₂ ack t₂, .err (.response ans), .closed] := by
  obtain ⟨d, y, t, hy, hcar, _, hout, h⟩ := C101_refused demoWorld demoCall b!"10.0.0.2" 0 [] b!"10.0.0.2:5060" []
    demo_placed ⟨fun _ => rfl, .inl rfl, fun _ => rfl⟩ demo_ports (by decide +kernel) (by decide +kernel)
    (fun b hb => nomatch hb) (fun n h => nomatch h) demo_contacts (by decide +kernel)
    ⟨by decide +kernel, fun n => by show (7 : Int) + 3 < 2 ^ 63; decide⟩
  have ht : t = demoFirst := by unfold demoFirst; rw [hout]; rfl
  obtain ⟨t', hex⟩ := demo_exchange_486
  rw [← ht] at hex
  obtain ⟨ans, _, ack, dack, tack, _, h2, _, _, _, _, _, h3, h4⟩ := h demoCallee ⟨b!"10.0.0.1", 5070, none⟩ _ _ _
    ⟨b!"10.0.0.2", 5060⟩ _ _ _ _ _ _ hex (by unfold Refuses; decide)
  exact ⟨ans, d, dack, y, ack, t, tack, hy.2, h2, h3, h4⟩

/-- The conditions can be met: the phone calls, gives up, and the other program refuses. -/
example : ∃ ans d₁ d₂ d₃ y cancel ack t₁ t₂ t₃, y.method = b!"INVITE" ∧ cancel.method = b!"CANCEL" ∧ ans.status = 486 ∧
    (dialog demoWorld demoCall [.hangup, .msg ans]).c = .stop ∧ (dialog demoWorld demoCall [.hangup, .msg ans]).s.outs =
      [.dial b!"10.0.0.2:5060", .sent d₁ y t₁, .sent d₂ cancel t₂, .sent d₃ ack t₃, .err (.response ans), .closed] := by
  obtain ⟨d, y, t, _, _, cancel, dc, tc, hy, hcar, _, hc1, hc2, hout, _, _, h⟩ := C101_given_up demoWorld demoCall b!"10.0.0.2" 0 []
    b!"10.0.0.2:5060" [] demo_placed ⟨fun _ => rfl, .inl rfl, fun _ => rfl⟩ demo_ports (by decide +kernel) (by decide +kernel)
    (fun b hb => nomatch hb) (fun n h => nomatch h) demo_contacts (by decide +kernel)
    ⟨by decide +kernel, fun n => by show (7 : Int) + 3 < 2 ^ 63; decide⟩
  have ht : t = demoFirst := by unfold demoFirst; rw [hout]; rfl
  obtain ⟨t', hex⟩ := demo_exchange_486
  rw [← ht] at hex
  obtain ⟨ans, _, ack, dack, tack, _, h2, _, _, _, _, _, h3, h4⟩ := h demoCallee ⟨b!"10.0.0.1", 5070, none⟩ _ _ _
    ⟨b!"10.0.0.2", 5060⟩ _ _ _ _ _ _ hex (by unfold Refuses; decide)
  exact ⟨ans, d, dc, dack, y, cancel, ack, t, tc, tack, hy.2, (stamped_method hc2).trans hc1.method.1, h2, h3, h4⟩

end Gosip.Props
