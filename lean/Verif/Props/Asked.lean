import Verif.Spec.Asked
import Verif.Props.Exchange
import Verif.Props.Relay

/-!
# Property C98: requests of the other program are understood, and so are the answers
-/

namespace Gosip.Props
open Sip Spec Dialog

/-- The Via that comes back with the answer. -/
structure CameBack (v w : Via) : Prop where
  host : w.host = v.host
  port : w.port = if v.port = 5060 then 0 else v.port
  branch : ∀ b, ParamIs w.param b!"branch" b ↔ ParamIs v.param b!"branch" b

/-- The request that the dialog gets. -/
theorem asked_heard {gen callID : Bytes} {req : Msg} (h : FromPeer gen callID req) {source : UDPAddr}
    (hip : ∀ c ∈ source.ip, ip6c c) (hlen : (req.text gen).length ≤ 2048) (e : Ear) :
    ∃ got v w, Hears e (req.text gen) source got ∧ MsgOK gen got ∧ Proper callID got ∧ got.method = req.method ∧
      got.cseq = req.cseq ∧ got.cseqMethod = req.cseqMethod ∧ req.via = [v] ∧ got.via = [w] ∧ CameBack v w ∧
      (got.payload = req.payload ∨ got.payload = none) ∧ got.addrs = req.addrs := by
  obtain ⟨v, b, hv, hb⟩ := h.via
  have hs := h.request
  have hm : req.method ≠ [] := by
    have := h.ok.cseqMethod.1
    rw [h.cseqMethod] at this
    exact this
  have hpt : parseMsg ((req.text gen).take 2048) = .ok (readBack req) := by
    rw [List.take_of_length_le hlen]; exact C14_read_back gen h.ok
  have hrs : (readBack req).status = 0 := by
    show (if req.status > 0 then req.status else 0) = 0
    rw [if_neg (by omega)]
  have hreq : RequestOK req := by
    rcases h.ok.start with r | r
    · exact r
    · have := r.status; omega
  have hbase := h.ok.via v (by rw [hv]; simp)
  cases hd : receiveOne e.host e.port e.clock (req.text gen) source with
  | panic =>
    obtain ⟨m', hm', hv', _⟩ := (C40_receive_panics_iff_partial _ _ _ _ _).1 hd
    rw [hpt] at hm'; cases hm'
    have hv' : req.via.map viaRead = [] := hv'
    rw [hv] at hv'; cases hv'
  | err er => exact absurd hd (receiveOne_no_err _ _ _ _ _ _)
  | ok o =>
    cases o with
    | none =>
      obtain ⟨er, he⟩ := (C70_delivered _ _ _ _ _).2.1 hd
      rw [hpt] at he; cases he
    | some got =>
      obtain ⟨m, hm1, hr⟩ := (C70_delivered _ _ _ _ _).1 got hd
      rw [hpt] at hm1; cases hm1
      obtain ⟨w, g1, g2, g3, g4, g5, g6, _⟩ := got_facts (v := viaRead v) hr (by omega) (by simp [readBack, hv]) hip
      have hw := g2.ok (viaOK_read hbase)
      obtain ⟨m1, m2, route, rq, rt, h1, h2, h3, h4, rfl⟩ := hr
      have hro : (readBack req).addrs .route = [] := h.direct
      have e1 : route = [] := by
        rw [hro] at h3
        rcases h3 with ⟨_, _, _, _, h⟩ | ⟨_, h⟩
        · cases h
        · exact h
      subst e1
      have e2 : rq = (readBack req).request ∧ rt = [] := by
        rcases h4 with ⟨u, a, _, _, _, h, _⟩ | ⟨_, a, b⟩
        · exact absurd h (by simp)
        · exact ⟨a, b⟩
      obtain ⟨rfl, rfl⟩ := e2
      have hmm : (readBack req).method = req.method := by
        show (if req.status > 0 then [] else if req.method = [] then b!"INVITE" else req.method) = req.method
        rw [if_neg (by omega), if_neg hm]
      have hmf : (readBack req).maxForwards = if req.maxForwards = 0 then 70 else req.maxForwards := by
        show (if req.status > 0 then 0 else if req.maxForwards = 0 then 70 else req.maxForwards) = _
        rw [if_neg (by omega)]
      have hfw := hreq.maxForwards
      have hver : (readBack req).versionMajor = 2 ∧ (readBack req).versionMinor = 0 := by
        show (if req.versionMajor = 0 then 2 else req.versionMajor) = 2 ∧ (if req.versionMajor = 0 then 0 else req.versionMinor) = 0
        rcases h.version with k | ⟨k1, k2⟩
        · simp [k]
        · rw [k1, k2]; decide
      -- the Via is all that differs from what was read
      have hsame : ∃ vs, m2 = { readBack req with via := vs } := by
        rcases h1 with ⟨_, v', l', p, q, _, _, _, rfl⟩ | ⟨h1, _⟩
        · rcases h2 with ⟨_, rfl⟩ | ⟨_, _, _, _, _, rfl⟩ <;> exact ⟨_, rfl⟩
        · omega
      obtain ⟨vs, rfl⟩ := hsame
      have hvs : vs = [w] := g1
      subst hvs
      have had : setAt (readBack req).addrs .route [] = req.addrs := by
        funext f
        by_cases hf : f = .route
        · subst hf; rw [setAt_same]; exact h.direct.symm
        · rw [setAt_ne _ _ hf]; rfl
      refine ⟨_, v, w, hd, ?_, ⟨by rw [show Msg.status _ = (readBack req).status from rfl]; omega, hver, h.call, ?_⟩, hmm, rfl, rfl,
        hv, rfl, ⟨g2.host, ?_, g2.branch⟩, ?_, had⟩
      · have hok := h.ok
        refine ⟨.inl ⟨?_, ?_, ?_, ?_⟩, ?_, ?_, ?_, ?_, hok.callID, hok.cseq, hok.cseqMethod, hok.expires, hok.minExpires, ?_, ?_, ?_⟩
        · show (readBack req).status ≤ 0
          omega
        · show (readBack req).method = [] ∨ IsToken (readBack req).method
          rw [hmm]; exact hreq.method
        · intro u hu
          have hu : (readBack req).request = some u := hu
          simp only [readBack, if_neg (show ¬ req.status > 0 by omega), Option.some.injEq] at hu
          cases e : req.request with
          | none => rw [e] at hu; cases hu; exact MsgM.default_uri
          | some w => rw [e] at hu; cases hu; exact hreq.request _ e
        · show 0 ≤ (readBack req).maxForwards ∧ (readBack req).maxForwards < 2 ^ 63
          rw [hmf]
          split
          · decide
          · exact hfw
        · intro y hy
          have hy : y ∈ [w] := hy
          rw [List.mem_singleton] at hy
          subst hy; exact hw
        · dsimp only; rw [had]; exact hok.addrs
        · dsimp only; rw [had]; exact hok.from_
        · dsimp only; rw [had]; exact hok.to
        · intro f hf
          show TextOK (if f = .acceptContact ∨ f = .retryAfter then [] else req.hdr f)
          split
          · exact textOK_nil
          · exact hok.hdr f hf
        · intro p hp
          rcases List.mem_append.1 (show p ∈ req.xheader ++ if req.hdr .retryAfter = [] then [] else _ from hp) with hp | hp
          · exact hok.xheader p hp
          · by_cases hr : req.hdr .retryAfter = []
            · rw [if_pos hr] at hp; cases hp
            · rw [if_neg hr, List.mem_singleton] at hp
              subst hp
              exact ⟨retry_name.1, retry_name.2.1, retry_name.2.2, hok.hdr _ (by decide)⟩
        · intro p hp
          have hp : (if ∃ t, req.payload = some (.misc t []) then none else req.payload) = some p := hp
          split at hp
          · cases hp
          · exact hok.payload p hp
      · show 0 < (readBack req).maxForwards
        rw [hmf]
        split
        · decide
        · omega
      · exact g2.port
      · show (if ∃ t, req.payload = some (.misc t []) then none else req.payload) = req.payload ∨
          (if ∃ t, req.payload = some (.misc t []) then none else req.payload) = none
        split
        · exact .inr rfl
        · exact .inl rfl

theorem stamps_iff {ts l : Pairs} {b : Bytes} (ht : ∀ p ∈ ts, p.1 = b!"usi") :
    ParamIs (ts ++ l) b!"branch" b ↔ ParamIs l b!"branch" b := by
  refine ⟨paramIs_stamps ht, fun h => ?_⟩
  induction ts with
  | nil => exact h
  | cons t ts ih =>
    obtain ⟨n, x⟩ := t
    have : n = b!"usi" := ht (n, x) (by simp)
    subst this
    exact (paramIs_cons_ne (by decide)).2 (ih fun p hp => ht p (by simp [hp]))

theorem addrs_seen {l : List Addr} (h : ∀ a ∈ l, AddrOK a) : l.map addrSeen = l := by
  have : ∀ a ∈ l, addrSeen a = a := by
    intro a ha
    obtain ⟨u, hu, ht⟩ := (h a ha).uri
    cases a
    simp only at hu
    subst hu
    simp only [addrSeen, Option.map_some, withScheme_of_text ht]
  conv => rhs; rw [← List.map_id l]
  exact List.map_congr_left this

/-- The answer that the other program gets. -/
theorem reply_heard {w : World} (hw : PlainWorld w) {req got r0 r : Msg} {v v' : Via} {status : Int} {t : Bytes}
    (hst : 0 < status) (hE : Echoes got status r0) (hS : Stamped r0 r) (hwr : Written w r t) (hlen : t.length ≤ 2048)
    (hgv : got.via = [v']) (hb : CameBack v v') (hcall : got.callID = req.callID) (hseq : got.cseq = req.cseq)
    (hcm : got.cseqMethod = req.cseqMethod) (had : got.addrs = req.addrs) (hok : ∀ f, ∀ a ∈ req.addrs f, AddrOK a) (e : Ear) (source : UDPAddr) :
    ∃ ans v'', Hears e t source ans ∧ ans.status = status ∧ ans.callID = req.callID ∧ ans.cseq = req.cseq ∧
      ans.cseqMethod = req.cseqMethod ∧ ((ans.versionMajor = 2 ∧ ans.versionMinor = 0) ∧
        ans.addrs .from = req.addrs .from ∧ ans.addrs .to = req.addrs .to) ∧ ans.via = [v''] ∧ CameBack v v'' := by
  obtain ⟨hwr, n, rfl⟩ := hwr
  rw [← text_seen (hw.origin n)] at hlen ⊢
  -- all but the Via is as in the answer without time stamps
  have hr : ∃ u, r = { r0 with via := [u] } ∧ CameBack v u := by
    rcases hS with rfl | ⟨y, l, stamps, e1, e2, rfl⟩
    · exact ⟨v', by rw [← hgv, ← hE.via], hb⟩
    · rw [hE.via, hgv] at e1
      cases e1
      exact ⟨_, rfl, ⟨hb.host, hb.port, fun b => (stamps_iff e2).trans (hb.branch b)⟩⟩
  obtain ⟨u, rfl, hu⟩ := hr
  have hs0 : r0.status > 0 := by rw [hE.status]; exact hst
  have hparse := C14_read_back (w.origin n) (hwr n)
  generalize hM : seen (w.origin n) { r0 with via := [u] } = M at *
  have hMs : M.status > 0 := by rw [← hM]; exact hs0
  rw [← List.take_of_length_le (i := 2048) hlen] at hparse
  have hMr : M.addrs .route = [] := by
    rw [← hM]
    show (r0.addrs .route).map addrSeen = []
    have : r0.addrs .route = [] := Classical.byContradiction fun hne => by
      have := hE.only.addrs _ hne
      revert this; decide
    rw [this]; rfl
  obtain ⟨ans, x, r1, r2, r3⟩ := response_delivered (lhost := e.host) (lport := e.port) (ts := e.clock) (addr := source)
    (v := viaRead u) hparse (by simp only [readBack]; rw [if_pos hMs]; exact hMs)
    (by simp only [readBack]; rw [← hM]; rfl) (by simp only [readBack]; rw [if_pos hMs]) hMr
  refine ⟨ans, x, r1, ?_, ?_, ?_, ?_, ?_, by rw [r2], ⟨r3.host.trans hu.host, ?_, fun b => (r3.branch b).trans (hu.branch b)⟩⟩
  · rw [r2]; simp only [readBack]; rw [if_pos hMs, ← hM]; exact hE.status
  · rw [r2]; simp only [readBack]; rw [← hM]; exact hE.callID.trans hcall
  · rw [r2]; simp only [readBack]; rw [← hM]; exact hE.cseq.1.trans hseq
  · rw [r2]; simp only [readBack]; rw [← hM]; exact hE.cseq.2.trans hcm
  · have : M.versionMajor = 0 := by rw [← hM]; exact hE.only.version.1
    rw [r2]; simp only [readBack, this]
    refine ⟨⟨rfl, rfl⟩, ?_, ?_⟩
    · rw [← hM]
      show (r0.addrs .from).map addrSeen = _
      rw [hE.fromTo.1, had]; exact addrs_seen (hok _)
    · rw [← hM]
      show (r0.addrs .to).map addrSeen = _
      rw [hE.fromTo.2, had]; exact addrs_seen (hok _)
  · rw [r3.port]
    have := hu.port
    simp only [viaRead, this]
    by_cases h : v.port = 5060
    · simp [h]
    · simp [h]

theorem comes_back {req ans : Msg} {v w : Via} {b : Bytes} (hv : req.via = [v]) (hb : ParamIs v.param b!"branch" b)
    (hw : ans.via = [w]) (hc : CameBack v w) (hst : 0 < ans.status) (h1 : ans.cseq = req.cseq)
    (h2 : ans.cseqMethod = req.cseqMethod) (h3 : req.cseqMethod = req.method) : Answers req ans ↔ v.port ≠ 5060 := by
  constructor
  · rintro ⟨_, _, _, l, mine, sent, older, e1, e2, _, e4, _⟩ hp
    rw [hw] at e1
    have e1 : [w] = l ++ [mine] := e1
    rw [hv] at e2
    cases e2
    have : mine = w := by
      have := congrArg List.getLast? e1
      simpa using this.symm
    subst this
    rw [hc.port, if_pos hp, hp] at e4
    exact absurd e4 (by decide)
  · intro hp
    exact ⟨hst, h1, h2.trans h3, [], w, v, [], hw, hv, hc.host, by rw [hc.port, if_neg hp], b, (hc.branch b).2 hb, hb⟩

/-- The events of a call and one more message. -/
theorem written_more {w : World} {invite : Msg} {evs : List Event} (hp : Placed w invite) (hn : Numbered w invite evs)
    {gen : Bytes} {got : Msg} (hok : MsgOK gen got) {d : Bytes} {r : Msg} {t : Bytes}
    (h : .sent d r t ∈ (loop w (evs ++ [.msg got]) (start w invite)).s.outs) : Written w r t :=
  written w invite (evs ++ [.msg got]) hp.plain hp.writable
    (by
      intro m hm
      rcases List.mem_append.1 hm with hm | hm
      · exact hn.1 m hm
      · simp only [List.mem_singleton, Event.msg.injEq] at hm
        subst hm; exact ⟨gen, hok⟩)
    ⟨by have := hn.2.1; simp only [List.length_append, List.length_cons, List.length_nil]; omega,
      fun n => by have := hn.2.2 n; simp only [List.length_append, List.length_cons, List.length_nil]; omega⟩ d r t h

/-- **C98** (hanging up; missing: programs at port 5060, see `C98_5060_unheard`). When the other program hangs up, the dialog
hears its BYE, the application hears that the call is over, and the other program hears that its BYE was accepted. -/
theorem C98_bye_partial (w : World) (invite : Msg) (evs : List Event) (hp : Placed w invite) (hn : Numbered w invite evs)
    (hw : ∀ n, w.write n = .ok ()) (hg : (loop w evs (start w invite)).c = .go)
    (gen callID : Bytes) (hcall : ∃ x ∈ requests (loop w evs (start w invite)).s.outs, x.2.callID = callID)
    (req : Msg) (ha : FromPeer gen callID req) (hm : req.method = b!"BYE") (hnew : Newest callID evs req)
    (hport : ∀ v ∈ req.via, v.port ≠ 5060)
    (caller : Ear) (source : UDPAddr) (hip : ∀ c ∈ source.ip, ip6c c) (hlen : (req.text gen).length ≤ 2048) :
    ∃ got, Hears caller (req.text gen) source got ∧ (loop w (evs ++ [.msg got]) (start w invite)).c = .stop ∧
      ∃ dest r text, (loop w (evs ++ [.msg got]) (start w invite)).s.outs =
          (loop w evs (start w invite)).s.outs ++ [.sent dest r text, .state .hangup] ∧
        (text.length ≤ 2048 → Understood req 200 text) := by
  obtain ⟨got, v, v', h1, h2, h3, h4, h5, h6, h7, h8, h9, _, h11⟩ := asked_heard ha hip hlen caller
  obtain ⟨k1, r0, r, dest, text, k2, k3, k4⟩ := C66_bye w invite evs got callID hp.request (callID_ne hp.plain) hw hg hcall
    (h4.trans hm) h3 (fun m' a b => by rw [h5]; exact hnew m' a b) (.inl (by rw [h8]; simp))
  refine ⟨got, h1, k1, dest, r, text, k4, fun hl e src => ?_⟩
  have hwr := written_more hp hn h2 (d := dest) (r := r) (t := text) (by rw [k4]; simp)
  obtain ⟨ans, u, a1, a2, a3, a4, a5, a6, a7, a8⟩ := reply_heard hp.plain (req := req) (v := v) (by decide) k2 k3 hwr hl h8 h9
    (h3.call.trans ha.call.symm) h5 h6 h11 ha.ok.addrs e src
  obtain ⟨v0, b, b1, b2⟩ := ha.via
  rw [h7] at b1; cases b1
  exact ⟨ans, a1, (comes_back h7 b2 a7 a8 (by rw [a2]; decide) a4 a5 ha.cseqMethod).2 (hport v (by rw [h7]; simp)), a2, a3, a6⟩

theorem mem_of_sends {l : List Out} {d : Bytes} {r : Msg} (h : (d, r) ∈ sends l) : ∃ t, .sent d r t ∈ l := by
  obtain ⟨o, ho, e⟩ := List.mem_filterMap.1 h
  cases o <;> cases e
  exact ⟨_, ho⟩

theorem answer_due {callID : Bytes} {evs : List Event} {seq : Option Int} {m : Msg} (ho : Proper callID m)
    (hnew : Newest callID evs m) (hq : ∀ q, seq = some q → ∃ m', .msg m' ∈ evs ∧ Proper callID m' ∧ m'.cseq = q)
    (hm : m.method ≠ b!"ACK") : answer callID seq m = some (due m.method) := by
  unfold answer due
  have hf := ho.forwards
  rw [if_neg hm, if_neg (by simp [ho.version]), if_neg (by simp [ho.call]), if_neg (by omega), if_neg]
  · split <;> rfl
  · cases seq with
    | none => simp
    | some q =>
      obtain ⟨m', a, b, c⟩ := hq q rfl
      have := hnew m' a b
      simp only [Option.any_some, decide_eq_true_eq]
      omega

theorem due_pos (m : Bytes) : 0 < due m := by
  unfold due; split <;> decide

/-- What the dialog does with a request of the other program, whatever its port. -/
theorem asked_answered (w : World) (invite : Msg) (evs : List Event) (hp : Placed w invite) (hn : Numbered w invite evs)
    (hg : (loop w evs (start w invite)).c = .go)
    (gen callID : Bytes) (hcall : ∃ x ∈ requests (loop w evs (start w invite)).s.outs, x.2.callID = callID)
    (req : Msg) (ha : FromPeer gen callID req) (hm : req.method ≠ b!"ACK") (hnew : Newest callID evs req)
    (haudio : ∀ d, req.payload = some (.sdp d) → d.audio ≠ none)
    (caller : Ear) (source : UDPAddr) (hip : ∀ c ∈ source.ip, ip6c c) (hlen : (req.text gen).length ≤ 2048) :
    ∃ got, Hears caller (req.text gen) source got ∧
      ∃ new dest r text, (loop w (evs ++ [.msg got]) (start w invite)).s.outs = (loop w evs (start w invite)).s.outs ++ new ∧
        sends new = [(dest, r)] ∧ .sent dest r text ∈ new ∧
        (text.length ≤ 2048 → ∀ (e : Ear) (src : UDPAddr), ∃ ans, Hears e text src ans ∧
          (Answers req ans ↔ ∀ v ∈ req.via, v.port ≠ 5060) ∧ ans.status = due req.method ∧
          ans.callID = req.callID ∧ (ans.versionMajor = 2 ∧ ans.versionMinor = 0) ∧
          ans.addrs .from = req.addrs .from ∧ ans.addrs .to = req.addrs .to) := by
  obtain ⟨got, v, v', h1, h2, h3, h4, h5, h6, h7, h8, h9, h10, h11⟩ := asked_heard ha hip hlen caller
  obtain ⟨seq, k1, new, k2, k3, _⟩ := C50_request_answered_partial w invite evs got callID hp.request (callID_ne hp.plain) hg
    hcall h3.request (.inl (by rw [h8]; simp))
    (by
      intro _ d hd
      rcases h10 with e | e
      · rw [e] at hd; exact haudio d hd
      · rw [e] at hd; cases hd)
    (fun e => absurd (h4.symm.trans e) hm)
  obtain ⟨dest, r0, r, s1, s2, s3⟩ := k3 _ (answer_due h3 (fun m' a b => by rw [h5]; exact hnew m' a b) k1 (by rw [h4]; exact hm))
  rw [h4] at s2
  obtain ⟨text, ht⟩ := mem_of_sends (l := new) (d := dest) (r := r) (by rw [s1]; simp)
  refine ⟨got, h1, new, dest, r, text, k2, s1, ht, fun hl e src => ?_⟩
  have hwr := written_more hp hn h2 (d := dest) (r := r) (t := text) (by rw [k2]; exact List.mem_append_right _ ht)
  obtain ⟨ans, u, a1, a2, a3, a4, a5, a6, a7, a8⟩ := reply_heard hp.plain (req := req) (v := v) (due_pos _) s2 s3 hwr hl h8 h9
    (h3.call.trans ha.call.symm) h5 h6 h11 ha.ok.addrs e src
  obtain ⟨v0, b, b1, b2⟩ := ha.via
  rw [h7] at b1; cases b1
  refine ⟨ans, a1, (comes_back h7 b2 a7 a8 (by rw [a2]; exact due_pos _) a4 a5 ha.cseqMethod).trans ?_, a2, a3, a6⟩
  rw [h7]; simp

/-- **C98** (any request; missing as above). A request of the other program, whatever its method, is heard by the dialog; the
one thing sent is an answer; and the other program hears it, knows what it answers, and finds the status due. -/
theorem C98_answered_partial (w : World) (invite : Msg) (evs : List Event) (hp : Placed w invite) (hn : Numbered w invite evs)
    (hg : (loop w evs (start w invite)).c = .go)
    (gen callID : Bytes) (hcall : ∃ x ∈ requests (loop w evs (start w invite)).s.outs, x.2.callID = callID)
    (req : Msg) (ha : FromPeer gen callID req) (hm : req.method ≠ b!"ACK") (hnew : Newest callID evs req)
    (haudio : ∀ d, req.payload = some (.sdp d) → d.audio ≠ none) (hport : ∀ v ∈ req.via, v.port ≠ 5060)
    (caller : Ear) (source : UDPAddr) (hip : ∀ c ∈ source.ip, ip6c c) (hlen : (req.text gen).length ≤ 2048) :
    ∃ got, Hears caller (req.text gen) source got ∧
      ∃ new dest r text, (loop w (evs ++ [.msg got]) (start w invite)).s.outs = (loop w evs (start w invite)).s.outs ++ new ∧
        sends new = [(dest, r)] ∧ .sent dest r text ∈ new ∧
        (text.length ≤ 2048 → Understood req (due req.method) text) := by
  obtain ⟨got, h1, new, dest, r, text, h2, h3, h4, h5⟩ :=
    asked_answered w invite evs hp hn hg gen callID hcall req ha hm hnew haudio caller source hip hlen
  refine ⟨got, h1, new, dest, r, text, h2, h3, h4, fun hl e src => ?_⟩
  obtain ⟨ans, a1, a2, a3⟩ := h5 hl e src
  exact ⟨ans, a1, a2.2 hport, a3⟩

/-- **C98** (finding). If the other program is at port 5060, the default port, it hears the answer and does not know that it is
the answer to its request. -/
theorem C98_5060_unheard (w : World) (invite : Msg) (evs : List Event) (hp : Placed w invite) (hn : Numbered w invite evs)
    (hg : (loop w evs (start w invite)).c = .go)
    (gen callID : Bytes) (hcall : ∃ x ∈ requests (loop w evs (start w invite)).s.outs, x.2.callID = callID)
    (req : Msg) (ha : FromPeer gen callID req) (hm : req.method ≠ b!"ACK") (hnew : Newest callID evs req)
    (haudio : ∀ d, req.payload = some (.sdp d) → d.audio ≠ none) (hport : ∀ v ∈ req.via, v.port = 5060)
    (caller : Ear) (source : UDPAddr) (hip : ∀ c ∈ source.ip, ip6c c) (hlen : (req.text gen).length ≤ 2048) :
    ∃ got, Hears caller (req.text gen) source got ∧
      ∃ new dest r text, (loop w (evs ++ [.msg got]) (start w invite)).s.outs = (loop w evs (start w invite)).s.outs ++ new ∧
        sends new = [(dest, r)] ∧ .sent dest r text ∈ new ∧
        (text.length ≤ 2048 → Misunderstood req (due req.method) text) := by
  obtain ⟨got, h1, new, dest, r, text, h2, h3, h4, h5⟩ :=
    asked_answered w invite evs hp hn hg gen callID hcall req ha hm hnew haudio caller source hip hlen
  refine ⟨got, h1, new, dest, r, text, h2, h3, h4, fun hl e src => ?_⟩
  obtain ⟨ans, a1, a2, a3, a4, _⟩ := h5 hl e src
  refine ⟨ans, a1, fun h => ?_, a3, a4⟩
  obtain ⟨v, b, hv, _⟩ := ha.via
  have hmem : v ∈ req.via := by rw [hv]; simp
  exact a2.1 h v hmem (hport v hmem)

/-! ## Examples -/

/-- The BYE of the program that was called, at another port or at port 5060. -/
def demoLeave (port : UInt16) : Msg :=
  { demoReqMsg b!"BYE" 6 with via := [{ host := b!"10.0.0.2", port := port, param := [(b!"branch", b!"z9hG4bKbob")] }] }

theorem demo_asked (port : UInt16) : FromPeer b!"1" b!"id" (demoLeave port) := by
  have h := demo_heard
  refine ⟨⟨.inl ?_, ?_, h.addrs, h.from_, h.to, h.callID, h.cseq, h.cseqMethod, h.expires, h.minExpires, h.hdr, h.xheader, h.payload⟩,
    Int.le_refl _, ⟨_, b!"z9hG4bKbob", rfl, paramIs_cons rfl⟩, rfl, .inr ⟨rfl, rfl⟩, rfl, rfl⟩
  · rcases h.start with r | r
    · exact ⟨r.status, r.method, r.request, r.maxForwards⟩
    · exact absurd r.status (by decide)
  · intro v hv
    simp only [demoLeave, List.mem_singleton] at hv
    subst hv
    have := h.via _ (List.mem_singleton.2 rfl)
    exact ⟨this.protocol, this.version, this.transport, this.host, this.hostc, this.param⟩

/-- What the other program hears of its BYE when the call is going on: the status of the answer, and whether the library
knows it for the answer. -/
def demoLeaves (port : UInt16) : Option (Int × Bool × List CallState) :=
  match receiveOne b!"10.0.0.1" 5070 none ((demoLeave port).text b!"1") ⟨b!"10.0.0.2", port⟩ with
  | .ok (some got) =>
    match (demo [demoRsp [] 200, .msg got]).s.outs.reverse with
    | .state .hangup :: .sent _ _ t :: _ =>
      match receiveOne b!"10.0.0.2" port none t ⟨b!"10.0.0.1", 5070⟩ with
      | .ok (some ans) => some (ans.status, responseMatch (demoLeave port) ans, published (demo [demoRsp [] 200, .msg got]).s.outs)
      | _ => none
    | _ => none
  | _ => none

example : demoLeaves 5080 = some (200, true, [.answered, .hangup]) ∧ demoLeaves 5060 = some (200, false, [.answered, .hangup]) := by
  decide +kernel

/-- The hypotheses can be met: the phone calls, the other program answers, and hangs up. -/
example : ∃ ans got dest r text, (loop demoWorld [.msg ans] (start demoWorld demoCall)).s.outs.getLast? = some (.state .answered) ∧
    Hears ⟨b!"10.0.0.1", 5070, none⟩ ((demoLeave 5080).text b!"1") ⟨b!"10.0.0.2", 5080⟩ got ∧
    (loop demoWorld [.msg ans, .msg got] (start demoWorld demoCall)).s.outs =
      (loop demoWorld [.msg ans] (start demoWorld demoCall)).s.outs ++ [.sent dest r text, .state .hangup] ∧
    (text.length ≤ 2048 → Understood (demoLeave 5080) 200 text) := by
  obtain ⟨t', h⟩ := demo_exchange
  have hl : ∃ d x, .sent d x demoFirst ∈ (start demoWorld demoCall).s.outs ∧
      (requests (start demoWorld demoCall).s.outs).getLast? = some (d, x) ∧ x.method = b!"INVITE" ∧ x.callID = b!"id" := by
    have hc : (match (start demoWorld demoCall).s.outs with
        | [.dial _, .sent _ x t] => decide (t = demoFirst) && decide (x.method = b!"INVITE") && decide (x.status = 0) &&
            decide (x.callID = b!"id")
        | _ => false) = true := by decide +kernel
    split at hc
    · rename_i o d x t e
      simp only [Bool.and_eq_true, decide_eq_true_eq] at hc
      refine ⟨d, x, by rw [e, hc.1.1.1]; simp, ?_, hc.1.1.2, hc.2⟩
      rw [e]
      simp [requests, sends, hc.1.1.2, hc.1.2]
    · cases hc
  obtain ⟨d, x, h1, h2, h3, h4⟩ := hl
  obtain ⟨ans, k1, k3, ack, dest, text, _, _, k2, _⟩ := C95_answered_partial demoWorld demoCall [] demo_placed demo_numbered demo_ports
    (fun _ => rfl) (by decide +kernel) d x demoFirst h1 h2 h3 (by simp) demoCallee ⟨b!"10.0.0.1", 5070, none⟩ _ _ _
    ⟨b!"10.0.0.2", 5060⟩ _ _ _ _ _ h (by intro d hd; cases hd; decide +kernel)
  obtain ⟨⟨ans', a1, _, a2, _, _, _, _, a3⟩, _⟩ := C95_understood_partial demoWorld demoCall [] demo_placed demo_numbered demo_ports
    d x demoFirst h1 (mem_of_last h2) demoCallee ⟨b!"10.0.0.1", 5070, none⟩ _ _ _ ⟨b!"10.0.0.2", 5060⟩ _ _ _ _ _ h
  have : ans' = ans := by
    unfold Hears at k1 a1
    rw [k1] at a1; cases a1; rfl
  subst this
  have hst : 0 < ans'.status := by rw [a2]; decide
  simp only [List.nil_append] at k2 k3
  obtain ⟨got, g1, g2, dest', r, text', g3, g4⟩ := C98_bye_partial demoWorld demoCall [.msg ans'] demo_placed
    ⟨fun m hm => by simp only [List.mem_singleton, Event.msg.injEq] at hm; subst hm; exact a3,
      by show (0 : Int) + 1 + 1 < 2 ^ 63; decide,
      fun n => by show (7 : Int) + 1 + 1 < 2 ^ 63; decide⟩
    (fun _ => rfl) k3 b!"1" b!"id"
    ⟨(d, x), by rw [k2, requests_eq, own_append, own_append, ← requests_eq]; exact List.mem_append_left _ (List.mem_append_left _ (mem_of_last h2)), h4⟩
    (demoLeave 5080) (demo_asked _) rfl
    (fun m hm hp => by
      simp only [List.mem_singleton, Event.msg.injEq] at hm; subst hm
      exact absurd hp.request (by omega))
    (by simp [demoLeave]) ⟨b!"10.0.0.1", 5070, none⟩ ⟨b!"10.0.0.2", 5080⟩ (by decide +kernel) (by decide +kernel)
  exact ⟨ans', got, dest', r, text', by rw [k2, List.getLast?_concat], g1, g3, g4⟩

end Gosip.Props
