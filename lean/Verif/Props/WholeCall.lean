import Verif.Spec.WholeCall
import Verif.Props.Exchange
import Verif.Props.Placing

/-!
# Property C100: a call from beginning to end
-/

namespace Gosip.Props
open Sip Spec Dialog

/-- Hanging up when the call is up and the other side has said where it is to be reached. -/
theorem bye_goes {w : World} {s : St} {remote : Msg} {u : URI} (hst : s.state = .answered) (hr : s.remote = some remote)
    (hos : WellServed w) (hu : SaysWhere w remote u) :
    ∃ a c dials y t, LeadsTo w u a ∧ Reaches w a c ∧ OnlyDials dials ∧ IsBye y u ∧
      (step w s .hangup).c = .go ∧ (step w s .hangup).s.outs = s.outs ++ dials ++ [.sent c.remote y t] := by
  obtain ⟨hrr, ⟨ad, more, hcon, hau⟩, a, hlead⟩ := hu
  have hb : ∃ b, newBye s.invite remote (some s.lseq) = .ok (b, wrap64 (s.lseq + 1)) ∧ b.request = some u ∧
      b.addrs .route = [] ∧ b.addrs .contact = [] ∧ b.status = 0 ∧ b.method = b!"BYE" ∧ b.maxForwards = 0 := by
    have hh : headUri (remote.addrs .contact) = .ok (some u) := by rw [hcon]; simp [headUri, hau]
    unfold newBye
    rw [hh]
    refine ⟨_, rfl, rfl, ?_, rfl, rfl, rfl, rfl⟩
    show addrReversed (remote.addrs .recordRoute) = []
    rw [hrr]; rfl
  obtain ⟨b, hb, b1, b2, b3, b4, b5, b6⟩ := hb
  have hresp : b.isResponse = false := by simp [Msg.isResponse, b4]
  have hrm : routeMessage none none b = (b, .ok (u.host, u.port)) := by
    unfold routeMessage
    rw [if_neg (by rw [hresp]; simp)]
    rw [b2]
    have : popRoute none [] = [] := by decide
    rw [this]
    dsimp only
    have hh : uriHop b.request = .ok (u.host, u.port) := by rw [b1]; rfl
    have hsa : setAt b.addrs .route [] = b.addrs := by
      funext f
      unfold setAt
      split
      · rename_i h; rw [h, b2]
      · rfl
    rw [hsa]
    exact congrArg (Prod.mk _) hh
  obtain ⟨l, hra⟩ := hlead.first s.tick
  have hstep : step w s .hangup = popRoutes w (a :: l)
      { ({ s with lseq := wrap64 (s.lseq + 1) } : St) with
        req := .other b, routes := a :: l, dest := u.host, tick := s.tick + 1 } := by
    show sendHangup w s = _
    unfold sendHangup
    rw [hst]
    dsimp only
    rw [hr]
    dsimp only
    rw [hb]
    dsimp only
    unfold sendOther
    rw [hrm]
    unfold sendTowards
    dsimp only
    have : (routeAddress (w.resolver s.tick) u.host u.port
      (decide (CallState.answered.rank < CallState.answered.rank))).2 = .ok (a :: l) := hra
    rw [this]
    cases s
    cases hst
    cases hr
    rfl
  obtain ⟨c, n, cs, dials, m0, y, x, k1, k2, k3, k4, k5, k6⟩ := popRoutes_ok (w := w) (a := a) (l := l)
    (s := { ({ s with lseq := wrap64 (s.lseq + 1) } : St) with
        req := .other b, routes := a :: l, dest := u.host, tick := s.tick + 1 })
    (m := b) hos.write hos.frees hlead.dial hos.listen rfl (fun a' l' h => by rw [b3] at h; cases h) hresp
    (by rw [b6]; decide)
  have hpop := populate_spec hresp k3
  refine ⟨a, c, dials, y, x, hlead, k1, k2, ⟨?_, ?_, ?_⟩, by rw [hstep]; exact k5, by rw [hstep]; exact k6⟩
  · exact k4.status.trans (hpop.status.trans b4)
  · exact k4.method.trans (hpop.method.trans b5)
  · obtain ⟨v, hv⟩ := k4.only
    rw [hv]; exact hpop.request.trans b1

/-- **C100** (hanging up). As long as the call is up the application can end it: if everybody who came in as the other side
of the call has said where they are to be reached, and the operating system does its part, hanging up sends a BYE to one
of them, and nothing else. -/
theorem C100_bye_goes (w : World) (invite : Msg) (evs : List Event) (hos : WellServed w)
    (hg : (loop w evs (start w invite)).c = .go)
    (hst : (published (loop w evs (start w invite)).s.outs).getLast? = some .answered)
    (hwhere : ∀ m, .msg m ∈ evs → Introduces (.msg m) → ∃ u, SaysWhere w m u) :
    ∃ m u a c dials y t, .msg m ∈ evs ∧ Introduces (.msg m) ∧ SaysWhere w m u ∧ LeadsTo w u a ∧ Reaches w a c ∧
      OnlyDials dials ∧ IsBye y u ∧
      (loop w (evs ++ [.hangup]) (start w invite)).c = .go ∧
      (loop w (evs ++ [.hangup]) (start w invite)).s.outs =
        (loop w evs (start w invite)).s.outs ++ dials ++ [.sent c.remote y t] := by
  have hstate := state_of_published hst
  obtain ⟨m, hm⟩ := Option.isSome_iff_exists.1 (known_loop w invite evs hstate)
  obtain ⟨hm1, hm2⟩ := heard_loop w invite evs m hm
  obtain ⟨u, hu⟩ := hwhere m hm1 hm2
  obtain ⟨a, c, dials, y, t, k1, k2, k3, k4, k5, k6⟩ := bye_goes (w := w) hstate hm hos hu
  refine ⟨m, u, a, c, dials, y, t, hm1, hm2, hu, k1, k2, k3, k4, ?_⟩
  rw [loop_snoc, Run.andThen_of_go hg]
  exact ⟨k5, k6⟩

/-- What the other program says in its answer, and what it repeats. -/
theorem answer_says {w : World} {invite : Msg} {evs : List Event} (hp : Placed w invite) (hn : Numbered w invite evs)
    {d x t} (hx : .sent d x t ∈ (loop w evs (start w invite)).s.outs)
    (hr : (d, x) ∈ requests (loop w evs (start w invite)).s.outs) {callee caller : Ear} {tp : Transport} {env : SendEnv}
    {source source' : UDPAddr} {status : Int} {contact : List Addr} {body : Option Payload} {t' dest : Bytes} {ans : Msg}
    (h : Exchange callee tp env source status contact body t t' dest) (ha : Hears caller t' source' ans) :
    ans.addrs .recordRoute = (x.addrs .recordRoute).map addrSeen ∧ ans.addrs .contact = contact ∧
      ∃ gen, MsgOK gen ans := by
  obtain ⟨n, v, b, rfl, hok, hs, hv, _, hb, hcm⟩ := request_facts hp hn hx hr
  obtain ⟨got, hgot, hsend⟩ := h.answered
  obtain ⟨ans', w', h1, _, _, _, _, h6, _, _, h9, _, _, _, _, _, _, _, h17⟩ :=
    reply_arrives (lhost' := caller.host) (lport' := caller.port) (ts' := caller.clock) (addr' := source') hok hs hv h.short.1
      h.known h.good hgot hsend h.short.2
  have : ans = ans' := by
    have := ha.symm.trans h1
    simpa using this
  subst this
  exact ⟨h17, h6, _, h9⟩

theorem last_request {l new : List Out} {d x t} (hx : x.status = 0) (hm : x.method ≠ b!"ACK" ∧ x.method ≠ b!"CANCEL") :
    (requests (l ++ new ++ [.sent d x t])).getLast? = some (d, x) := by
  rw [requests_eq, own_sent _ _ _ (by simp [isOwn, Msg.isResponse, hx, hm])]
  simp

theorem published_state (l : List Out) (c : CallState) : published (l ++ [.state c]) = published l ++ [c] := by
  simp [published]

/-- **C100.** A call from beginning to end, between an application that calls and a program that answers with this library.
The INVITE leaves for the first address that can be dialled. When the other program accepts it and says where it is to be
reached, the application hears the media address, if one was given, and that the call is answered, and an ACK leaves. When
the application then hangs up, a BYE leaves for the address that was given. When the other program accepts that one, the
application hears that the call is over, and the sockets and channels are closed. Nothing else is sent or reported, and
there is no error. -/
theorem C100_whole_call (w : World) (invite : Msg) (host : Bytes) (port : UInt16) (dead : List Bytes) (a : Bytes)
    (rest : List Bytes) (hp : Placed w invite) (hos : WellServed w) (hport : NoneAt5060 w)
    (hr : (routeMessage none none invite).2 = .ok (host, port))
    (ha : (routeAddress (w.resolver 0) host port true).2 = .ok (dead ++ a :: rest))
    (hdead : ∀ b ∈ dead, ∀ n, w.dial n b = none) (hd : ∀ n, w.dial n a ≠ none)
    (hk : ∀ ad more, invite.addrs .contact = ad :: more → ad.uri ≠ none) (hf : invite.maxForwards ≠ 1)
    (hrr : invite.addrs .recordRoute = [])
    (hnum : invite.cseq + 3 < 2 ^ 63 ∧ ∀ n, (w.ids n).cseq + 3 < 2 ^ 63) :
    ∃ d y t, IsInvite y ∧ Carries invite y ∧ (start w invite).c = .go ∧
      (start w invite).s.outs = dead.map .dial ++ [.dial a, .sent d y t] ∧
    ∀ (callee caller : Ear) (tp : Transport) (env : SendEnv) (source source' : UDPAddr) (con : Addr) (more : List Addr)
      (u : URI) (b : Bytes) (body : Option Payload) (t' dest : Bytes),
      Exchange callee tp env source 200 (con :: more) body t t' dest → con.uri = some u → LeadsTo w u b →
      (∀ sdp, body = some (.sdp sdp) → sdp.audio ≠ none) →
    ∃ ans ack dack tack bye dbye tbye dials, Hears caller t' source' ans ∧ ack.method = b!"ACK" ∧ ack.request = some u ∧
      IsBye bye u ∧ OnlyDials dials ∧
      (loop w [.msg ans] (start w invite)).s.outs =
        dead.map .dial ++ [.dial a, .sent d y t, .sent dack ack tack] ++ mediaNews { payload := body } ++ [.state .answered] ∧
      (loop w [.msg ans, .hangup] (start w invite)).c = .go ∧
      (loop w [.msg ans, .hangup] (start w invite)).s.outs =
        dead.map .dial ++ [.dial a, .sent d y t, .sent dack ack tack] ++ mediaNews { payload := body } ++ [.state .answered] ++
          dials ++ [.sent dbye bye tbye] ∧
    ∀ (callee₂ caller₂ : Ear) (tp₂ : Transport) (env₂ : SendEnv) (source₂ source₂' : UDPAddr) (contact₂ : List Addr)
      (t₂ dest₂ : Bytes),
      Exchange callee₂ tp₂ env₂ source₂ 200 contact₂ none tbye t₂ dest₂ →
    ∃ ans₂, Hears caller₂ t₂ source₂' ans₂ ∧ (dialog w invite [.msg ans, .hangup, .msg ans₂]).c = .stop ∧
      (dialog w invite [.msg ans, .hangup, .msg ans₂]).s.outs =
        dead.map .dial ++ [.dial a, .sent d y t, .sent dack ack tack] ++ mediaNews { payload := body } ++ [.state .answered] ++
          dials ++ [.sent dbye bye tbye, .state .hangup, .closed] := by
  obtain ⟨hgo, c, n, y, o, _, hy, _, hcar, _, _, hout⟩ := C97_placed w invite host port dead a rest hp.request hr ha hdead hd
    hos.listen hos.write hk hf
  refine ⟨c.remote, y, y.text (w.origin o), hy, hcar, hgo, hout, ?_⟩
  intro callee caller tp env source source' con more u b body t' dest hex hcon hlead haudio
  have hn0 : Numbered w invite [] := ⟨(fun m h => nomatch h), by simp; omega, fun n => by have := hnum.2 n; simp; omega⟩
  have hx0 : .sent c.remote y (y.text (w.origin o)) ∈ (loop w [] (start w invite)).s.outs := by
    show _ ∈ (start w invite).s.outs
    rw [hout]; simp
  have hl0 : (requests (loop w [] (start w invite)).s.outs).getLast? = some (c.remote, y) := by
    show (requests (start w invite).s.outs).getLast? = _
    rw [hout, show dead.map Out.dial ++ [.dial a, .sent c.remote y (y.text (w.origin o))] =
      dead.map Out.dial ++ [.dial a] ++ [.sent c.remote y (y.text (w.origin o))] by simp]
    exact last_request hy.1 (by rw [hy.2]; decide)
  obtain ⟨ans, h1, h2, ack, dack, tack, h3, h3', h4, _⟩ := C95_answered_partial w invite [] hp hn0 hport hos.write hgo c.remote y _
    hx0 hl0 hy.2 (by simp) callee caller tp env source source' con more body t' dest hex haudio
  obtain ⟨s1, s2, s3⟩ := answer_says hp hn0 hx0 (mem_of_last hl0) hex h1
  have hR : y.addrs .recordRoute = [] := (hcar.addrs .recordRoute (by decide) (by decide) (by decide) (by decide)).trans hrr
  have hsays : SaysWhere w ans u := ⟨by rw [s1, hR]; rfl, ⟨con, more, s2, hcon⟩, b, hlead⟩
  have h4' : (loop w [.msg ans] (start w invite)).s.outs =
      dead.map .dial ++ [.dial a, .sent c.remote y (y.text (w.origin o)), .sent dack ack tack] ++
        mediaNews { payload := body } ++ [.state .answered] := by
    refine h4.trans ?_
    show (start w invite).s.outs ++ _ ++ _ = _
    rw [hout]; simp
  obtain ⟨m, u', _, c', dials, bye, tbye, k1, _, k3, _, _, k6, k7, k8, k9⟩ := C100_bye_goes w invite [.msg ans] hos h2
    (by rw [h4', published_state]; simp)
    (by
      intro m hm _
      simp only [List.mem_singleton, Event.msg.injEq] at hm
      subst hm; exact ⟨u, hsays⟩)
  simp only [List.mem_singleton, Event.msg.injEq] at k1
  subst k1
  obtain rfl : u' = u := by
    obtain ⟨_, ⟨c1, l1, e1, e2⟩, _⟩ := k3
    rw [s2] at e1; cases e1
    rw [hcon] at e2; cases e2; rfl
  have k9' : (loop w [.msg m, .hangup] (start w invite)).s.outs = _ := k9
  rw [h4'] at k9'
  refine ⟨m, ack, dack, tack, bye, c'.remote, tbye, dials, h1, h3', h3.trans hcon, k7, k6, h4', k8, k9', ?_⟩
  intro callee₂ caller₂ tp₂ env₂ source₂ source₂' contact₂ t₂ dest₂ hex₂
  have hn2 : Numbered w invite [.msg m, .hangup] := by
    refine ⟨?_, by simp; omega, fun n => by have := hnum.2 n; simp; omega⟩
    intro m' hm'
    simp only [List.mem_cons, Event.msg.injEq, List.not_mem_nil, or_false, reduceCtorEq] at hm'
    subst hm'; exact s3
  obtain ⟨ans₂, q1, q2, q3⟩ := C95_over_partial w invite [.msg m, .hangup] hp hn2 hport k8 c'.remote bye tbye
    (by rw [k9']; simp) (by rw [k9']; exact last_request k7.1 (by rw [k7.2.1]; decide)) k7.2.1
    callee₂ caller₂ tp₂ env₂ source₂ source₂' contact₂ t₂ dest₂ hex₂
  have hdl : dialog w invite [.msg m, .hangup, .msg ans₂] = cleanup w (loop w [.msg m, .hangup, .msg ans₂] (start w invite)).s := by
    unfold dialog
    have : (loop w [.msg m, .hangup, .msg ans₂] (start w invite)).c = .stop := q2
    dsimp only
    rw [this]
  have q3 : (loop w [.msg m, .hangup, .msg ans₂] (start w invite)).s.outs = _ := q3
  rw [k9'] at q3
  refine ⟨ans₂, q1, ?_⟩
  rw [hdl]
  unfold cleanup
  simp only [hos.frees, Bool.not_true, Bool.and_false, Bool.false_eq_true, if_false]
  refine ⟨trivial, ?_⟩
  show (loop w [.msg m, .hangup, .msg ans₂] (start w invite)).s.outs ++ [.closed] = _
  rw [q3]; simp

/-! ## Example -/

/-- The datagrams of the demo call, in which the phone calls, the other program accepts, the phone hangs up and the other
program accepts that: the answer to the INVITE, the BYE, and the answer to it. -/
def demoWhole : Option (Bytes × Bytes × Bytes × Bytes) :=
  match demoBack 200 with
  | some (t', _) =>
    match receiveOne b!"10.0.0.1" 5070 none t' ⟨b!"10.0.0.2", 5060⟩ with
    | .ok (some ans) =>
      match (loop demoWorld [.msg ans, .hangup] (start demoWorld demoCall)).s.outs.getLast? with
      | some (.sent _ _ tbye) =>
        match receiveOne demoCallee.host demoCallee.port none tbye ⟨b!"10.0.0.1", 5070⟩ with
        | .ok (some got) =>
          match (Transport.send demoEnv ⟨[{ host := b!"10.0.0.2", port := 5060 }], []⟩ (answerTo got 200 [] none)).wire with
          | some (t₂, dest₂) => some (t', tbye, t₂, dest₂)
          | none => none
        | _ => none
      | _ => none
    | _ => none
  | none => none

theorem demo_whole : demoWhole.map (fun x => (decide (x.2.1.length ≤ 2048 ∧ x.2.2.1.length ≤ 2048), x.2.2.2)) =
    some (true, b!"10.0.0.1:5070") := by
  decide +kernel

theorem demo_leads : LeadsTo demoWorld { scheme := b!"sip", user := b!"bob", host := b!"10.0.0.2", port := 5062 }
    b!"10.0.0.2:5062" :=
  ⟨fun n => ⟨[], by show (routeAddress (demoWorld.resolver 0) _ _ false).2 = _; decide +kernel⟩, fun n h => nomatch h⟩

/-- The conditions can be met, to the end: the phone hears where to send its audio, that it is answered, and that the call
is over; INVITE, ACK and BYE are all that was sent. -/
example : ∃ ans ans₂ d₁ d₂ d₃ y ack bye t₁ t₂ t₃, y.method = b!"INVITE" ∧ ack.method = b!"ACK" ∧ bye.method = b!"BYE" ∧
    (dialog demoWorld demoCall [.msg ans, .hangup, .msg ans₂]).c = .stop ∧
    ∃ dials, OnlyDials dials ∧ (dialog demoWorld demoCall [.msg ans, .hangup, .msg ans₂]).s.outs =
      [.dial b!"10.0.0.2:5060", .sent d₁ y t₁, .sent d₂ ack t₂, .peer b!"10.0.0.2" 4000, .state .answered] ++ dials ++
        [.sent d₃ bye t₃, .state .hangup, .closed] := by
  obtain ⟨d, y, t, hy, _, _, hout, h⟩ := C100_whole_call demoWorld demoCall b!"10.0.0.2" 0 [] b!"10.0.0.2:5060" [] demo_placed
    ⟨fun _ => rfl, .inl rfl, fun _ => rfl⟩ demo_ports (by decide +kernel) (by decide +kernel) (fun b hb => nomatch hb)
    (fun n h => nomatch h)
    (by
      intro ad more h
      have : ((demoCall.addrs .contact).head?.map fun a => a.uri.isSome) = some true := by decide +kernel
      rw [h] at this
      intro hc
      rw [List.head?_cons, Option.map_some, hc] at this
      cases this)
    (by decide +kernel) (by decide +kernel) ⟨by decide +kernel, fun n => by show (7 : Int) + 3 < 2 ^ 63; decide⟩
  have ht : t = demoFirst := by unfold demoFirst; rw [hout]; rfl
  obtain ⟨t', hex⟩ := demo_exchange
  rw [← ht] at hex
  obtain ⟨ans, ack, dack, tack, bye, dbye, tbye, dials, h1, h2, _, h4, h5, _, _, h8, h9⟩ := h demoCallee
    ⟨b!"10.0.0.1", 5070, none⟩ _ _ _ ⟨b!"10.0.0.2", 5060⟩ _ _ _ _ _ _ _ hex rfl demo_leads
    (by intro d hd; cases hd; decide +kernel)
  have hback : demoBack 200 = some (t', b!"10.0.0.1:5070") := by
    obtain ⟨got, g1, g2⟩ := hex.answered
    unfold demoBack
    rw [← ht, show receiveOne demoCallee.host demoCallee.port none t ⟨b!"10.0.0.1", 5070⟩ = .ok (some got) from g1]
    exact g2
  have hwh := demo_whole
  unfold demoWhole at hwh
  rw [hback] at hwh
  dsimp only at hwh
  rw [show receiveOne b!"10.0.0.1" 5070 none t' ⟨b!"10.0.0.2", 5060⟩ = .ok (some ans) from h1] at hwh
  dsimp only at hwh
  rw [h8, List.getLast?_append, List.getLast?_singleton] at hwh
  dsimp only [Option.or] at hwh
  split at hwh
  · rename_i got hgot
    split at hwh
    · rename_i t₂ dest₂ hsend
      simp only [Option.map_some, Option.some.injEq, Prod.mk.injEq, decide_eq_true_eq] at hwh
      obtain ⟨ans₂, _, q2, q3⟩ := h9 demoCallee ⟨b!"10.0.0.1", 5070, none⟩ _ demoEnv ⟨b!"10.0.0.1", 5070⟩ ⟨b!"10.0.0.2", 5060⟩ []
        t₂ dest₂ ⟨by decide +kernel, ⟨by decide, (fun a ha => nomatch ha), (fun p hp => nomatch hp)⟩, ⟨got, hgot, hsend⟩, hwh.1⟩
      exact ⟨ans, ans₂, d, dack, dbye, y, ack, bye, t, tack, tbye, hy.2, h2, h4.2.1, q2, dials, h5, q3⟩
    · cases hwh
  · cases hwh

end Gosip.Props
