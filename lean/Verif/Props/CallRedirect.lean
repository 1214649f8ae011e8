import Verif.Props.CallReport
import Verif.Dialog.Redirect

/-!
# Properties C64 and C68: redirected calls, and calls that cannot be placed
-/

namespace Gosip.Props
open Sip Spec Dialog

/-- **C64.** An INVITE redirected (301 or 302) to the address `u` is acknowledged, then tried again at `u`: the next
request is the same INVITE addressed to `u`, sent to the first address found for `u` and not along the old route. Nothing
is reported, and the call goes on. The conditions say that `a` can be found and dialled, that Max-Forwards is not used up,
and that the receiver of the old socket can be stopped (see `C47_failover_stuck`). -/
theorem C64_followed_partial (w : World) (invite : Msg) (evs : List Event) (m : Msg) (d : Bytes) (x : Msg)
    (ad : Addr) (more : List Addr) (u : URI) (a : Bytes) (rest : List Bytes)
    (hi : IsInvite invite) (hid : ∀ n, (w.ids n).callID ≠ []) (hw : ∀ n, w.write n = .ok ())
    (hfr : ∀ n, w.frees n = true) (hl : w.loose = false ∨ ∀ n, w.listen n ≠ none)
    (hg : (loop w evs (start w invite)).c = .go)
    (hx : (requests (loop w evs (start w invite)).s.outs).getLast? = some (d, x)) (hxi : x.method = b!"INVITE")
    (hm : Answers x m) (hver : m.versionMajor = 2 ∧ m.versionMinor = 0) (hcall : m.callID = x.callID)
    (hst : m.status = 301 ∨ m.status = 302) (hcon : m.addrs .contact = ad :: more) (hu : ad.uri = some u)
    (hra : ∀ n, (routeAddress (w.resolver n) u.host u.port
      (decide ((published (loop w evs (start w invite)).s.outs).getLast? ≠ some .answered))).2 = .ok (a :: rest))
    (hd : ∀ n, w.dial n a ≠ none) (hf : 2 ≤ x.maxForwards) (hq : x.cseq ≠ 0) :
    (loop w (evs ++ [.msg m]) (start w invite)).c = .go ∧
    ∃ a0 ack dest text dials c y text', Acknowledges x m a0 ∧ Stamped a0 ack ∧ OnlyDials dials ∧ Reaches w a c ∧
      TriedAgain x y u ∧ (∃ n, paramVal ((y.via.head?.map (·.param)).getD []) b!"branch" = some (w.ids n).branch) ∧
      (loop w (evs ++ [.msg m]) (start w invite)).s.outs =
        (loop w evs (start w invite)).s.outs ++ .sent dest ack text :: dials ++ [.sent c.remote y text'] := by
  obtain ⟨c, cur, hs, hc, h3⟩ := current hi hid hg hx
  have hal := alive_dialog hi hid hg
  obtain ⟨v, hv⟩ := h3.only
  have hown := ((alive_loop w invite evs (isOwn_invite hi) hid hg).1.cur)
  obtain ⟨cur', hc', hoc, _, hcid⟩ := hown
  have : cur' = cur := by
    have : some cur' = some cur := hc'.symm.trans hc
    cases this; rfl
  subst this
  have hnm : Names w c cur' := (tied_loop evs _ (tied_start w invite (isOwn_invite hi))).2 hg c cur' hs hc
  have hci : cur'.method = b!"INVITE" := by rw [hv]; exact hxi
  have hreq : (loop w evs (start w invite)).s.req = .invite := by
    rcases current_other hi hid hg hc with ⟨_, h⟩ | ⟨h, _⟩
    · exact h
    · rw [hci] at h; exact absurd h (by decide)
  have hrank : (decide ((loop w evs (start w invite)).s.state.rank < CallState.answered.rank)) =
      decide ((published (loop w evs (start w invite)).s.outs).getLast? ≠ some .answered) := by
    have hsh := shown_loop w invite evs
    have h1 := hsh.last
    have h2 := hsh.alive hg
    rw [← h1]
    cases hp : (published (loop w evs (start w invite)).s.outs).getLast? with
    | none => simp; decide
    | some st =>
      have hne : st ≠ .hangup := by
        rintro rfl
        exact h2 (List.mem_of_getLast? hp)
      cases st <;> first | (exact absurd rfl hne) | decide
  rw [loop_snoc, (Run.andThen_of_go hg)]
  have hr := isOwn_not_response hoc
  have hk : ContactOK cur' := by
    obtain ⟨a1, l1, u1, e1, e2, _⟩ := hnm.contact
    intro a' l' ha'
    rw [e1] at ha'
    cases ha'
    rw [e2]; simp
  have hmf : cur'.maxForwards = x.maxForwards := h3.forwards
  obtain ⟨a0, ack, x0, c', n, cs, dials, m0, m', t, r1, r2, r3, r4, r5, r6, r7, r8⟩ := redirect_eq (w := w) (a := a) (l := rest)
    hw hfr hs hc hreq hver (by rw [hcall, hv]) (answers_stamped h3.stamped hm) hci hst hcon hu
    (by intro n; rw [hrank]; exact hra n) hd hl hk hr (by omega)
  have hpop := populate_spec (by exact hr) r5
  obtain ⟨p1, p2, p3, p4, p5, p6⟩ := populate_full (by exact hr) r5
  refine ⟨r7, a0, ack, c.remote, x0, dials, c', m', t, acknowledges_stamped h3.stamped r1, r2, r4, r3, ?_, ?_, r8⟩
  · obtain ⟨v', hm'⟩ := r6.only
    have e0 : cur'.cseq = x.cseq := h3.cseq
    have e1 : m0.cseq = x.cseq := by
      rw [hpop.cseq]; dsimp only; rw [if_neg (by rw [e0]; exact hq), e0]
    have e2 : m0.cseqMethod = x.cseqMethod := by
      rw [hpop.cseqMethod (hnm.full.2.2.1 (by rw [hci]; decide))]
      rw [hv]
    have hto : cur'.addrs .to = x.addrs .to := by rw [hv]
    have hfrm : cur'.addrs .from = x.addrs .from := by rw [hv]
    have sA : ∀ f, f ≠ .route → setAt cur'.addrs .route [] f = x.addrs f := by
      intro f hf; simp [setAt, hf, hv]
    constructor
    · rw [hm']; refine ⟨hpop.method.trans hci, hpop.status.trans ?_⟩
      show cur'.status = _
      rw [hv]
    · rw [hm']; exact hpop.request
    · rw [hm']; exact (hpop.other .route (by simp) (by simp) (by simp)).trans (by simp [setAt])
    · rw [hm']
      refine hpop.callID.trans ?_
      have : cur'.callID = x.callID := h3.callID
      dsimp only
      rw [if_neg, this]
      rw [hcid]; exact hal.invite.2.2
    · rw [hm']; exact ⟨e1, e2⟩
    · rw [hm']
      refine (hpop.from' ?_).trans (sA .from (by simp))
      show Tagged (setAt cur'.addrs .route [] .from)
      rw [show setAt cur'.addrs .route [] .from = cur'.addrs .from by simp [setAt]]
      exact hnm.full.2.1
    · rw [hm']
      refine (hpop.to ?_).trans (sA .to (by simp))
      show setAt cur'.addrs .route [] .to ≠ []
      rw [show setAt cur'.addrs .route [] .to = cur'.addrs .to by simp [setAt]]
      exact hnm.full.1
    · intro f h1 h2 h3 h4
      rw [hm']
      exact (hpop.other f h1 h2 h3).trans (sA f h4)
    · rw [hm']
      refine ⟨(p5 hnm.full.2.2.2).trans ?_, p6.trans ?_⟩ <;> rw [hv]
    · rw [hm']
      have : m0.maxForwards = x.maxForwards := by
        rw [hpop.forwards]; dsimp only; rw [if_neg (by omega), hmf]
      dsimp only
      rw [this, if_pos (by omega)]
  · refine ⟨n, ?_⟩
    have hb := r6.branch.trans hpop.branch
    unfold branchOf at hb
    cases hvv : m'.via with
    | nil => rw [hvv] at hb; simp at hb
    | cons z l => rw [hvv] at hb; simpa using hb

/-- The conditions can be met: the call is redirected twice. -/
example : (sends (demo [demoRsp [] 180, demoMoved [demoRsp [] 180] 302]).s.outs).map (fun x => (x.1, x.2.method)) =
    [(b!"10.0.0.2:5060", b!"INVITE"), (b!"10.0.0.2:5060", b!"ACK"), (b!"10.0.0.3:5060", b!"INVITE")] ∧
    ((demoLast [demoRsp [] 180, demoMoved [demoRsp [] 180] 302]).request.map (·.host)) = some b!"10.0.0.3" ∧
    (demo [demoRsp [] 180, demoMoved [demoRsp [] 180] 302]).c = .go := by
  decide +kernel

/-- **C64 is false** for a call being hung up: when the BYE is redirected, the dialog does not send it again but calls
the new address: it sends an INVITE for the call that was to be ended. -/
theorem C64_bye_redirected :
    (requests (demo [demoRsp [] 200, .hangup, demoMoved [demoRsp [] 200, .hangup] 302]).s.outs).map
      (fun x => (x.1, x.2.method)) =
    [(b!"10.0.0.2:5060", b!"INVITE"), (b!"10.0.0.2:5062", b!"BYE"), (b!"10.0.0.3:5060", b!"INVITE")] := by
  decide +kernel

/-! ## C68 -/

/-- **C68** (name resolution). If no address can be found for the destination, the application is told the reason,
nothing is sent or dialled, and the channels are closed. -/
theorem C68_unresolved (w : World) (invite : Msg) (evs : List Event) (host : Bytes) (port : UInt16) (e : Err)
    (hr : (routeMessage none none invite).2 = .ok (host, port))
    (ha : (routeAddress (w.resolver 0) host port true).2 = .err e) :
    (dialog w invite evs).c = .stop ∧ (dialog w invite evs).s.outs = [.err (.route e), .closed] := by
  have hst : start w invite = St.fail { invite := (routeMessage none none invite).1, tick := 1 } (.route e) := by
    unfold start sendInvite sendTowards
    dsimp only
    rw [hr]
    dsimp only
    have : (routeAddress (w.resolver 0) host port
      (decide (CallState.proceeding.rank < CallState.answered.rank))).2 = .err e := ha
    rw [this]
  unfold dialog
  rw [hst]
  rw [loop_stop _ _ (by rfl)]
  exact ⟨rfl, rfl⟩

theorem popRoutes_undialled {w : World} (l : List Bytes) (hd : ∀ a ∈ l, ∀ n, w.dial n a = none) : ∀ s : St, s.sock = none →
    ∃ t : St, popRoutes w l s = t.fail (.failed s.dest) ∧ t.sock = none ∧ t.csock = s.csock ∧
      t.outs = s.outs ++ l.map .dial := by
  induction l with
  | nil => intro s hs; exact ⟨_, rfl, hs, rfl, by simp⟩
  | cons a l ih =>
    intro s hs
    have hc : connect w { s with addr := a, routes := l } =
        ({ ({ s with addr := a, routes := l, sock := none, tick := s.tick + 1 } : St) with outs := s.outs ++ [.dial a] }, false) := by
      unfold connect
      rw [if_neg (by simp [hs])]
      dsimp only
      rw [hd a (by simp)]
      rfl
    obtain ⟨t, h1, h2, h3, h4⟩ := ih (fun b hb => hd b (by simp [hb]))
      ({ ({ s with addr := a, routes := l, sock := none, tick := s.tick + 1 } : St) with outs := s.outs ++ [.dial a] }) rfl
    refine ⟨t, ?_, h2, h3, by rw [h4]; simp⟩
    simp only [popRoutes]
    rw [if_neg (by simp [blocked, hs]), hc]
    simpa using h1

/-- **C68** (connection). If none of the addresses found can be dialled, each is tried once, in order, then the
application is told that the destination cannot be contacted; nothing is sent, and the channels are closed. -/
theorem C68_undialled (w : World) (invite : Msg) (evs : List Event) (host : Bytes) (port : UInt16) (addrs : List Bytes)
    (hr : (routeMessage none none invite).2 = .ok (host, port))
    (ha : (routeAddress (w.resolver 0) host port true).2 = .ok addrs)
    (hd : ∀ a ∈ addrs, ∀ n, w.dial n a = none) :
    (dialog w invite evs).c = .stop ∧
    (dialog w invite evs).s.outs = addrs.map .dial ++ [.err (.failed host), .closed] := by
  have hst : start w invite = popRoutes w addrs
      { invite := (routeMessage none none invite).1, req := .invite, routes := addrs, dest := host, tick := 1 } := by
    unfold start sendInvite sendTowards
    dsimp only
    rw [hr]
    dsimp only
    have : (routeAddress (w.resolver 0) host port
      (decide (CallState.proceeding.rank < CallState.answered.rank))).2 = .ok addrs := ha
    rw [this]
    rfl
  obtain ⟨t, h1, h2, h3, h4⟩ := popRoutes_undialled (w := w) addrs hd
    { invite := (routeMessage none none invite).1, req := .invite, routes := addrs, dest := host, tick := 1 } rfl
  unfold dialog
  rw [hst, h1, loop_stop _ _ (by rfl)]
  have hs : (t.fail (.failed host)).s.sock = none := h2
  have hcs : (t.fail (.failed host)).s.csock = none := h3
  show (cleanup w (t.fail (.failed host)).s).c = _ ∧ (cleanup w (t.fail (.failed host)).s).s.outs = _
  unfold cleanup
  rw [hs, hcs]
  refine ⟨rfl, ?_⟩
  show (t.outs ++ [_]) ++ [_] = _
  rw [h4]
  simp

/-- The conditions can be met. -/
example : (routeMessage none none demoInvite).2 = .ok (b!"10.0.0.2", 0) ∧
    (∃ e, (routeAddress (demoLost.resolver 0) b!"10.0.0.2" 0 true).2 = .err e) ∧
    (routeAddress (demoWorld.resolver 0) b!"10.0.0.2" 0 true).2 = .ok [b!"10.0.0.2:5060"] ∧
    (dialog { demoWorld with dial := fun _ _ => none } demoInvite [.hangup]).s.outs =
      [.dial b!"10.0.0.2:5060", .err (.failed b!"10.0.0.2"), .closed] := by
  refine ⟨rfl, ?_, by decide +kernel, by decide +kernel⟩
  exact ⟨_, rfl⟩

end Gosip.Props
