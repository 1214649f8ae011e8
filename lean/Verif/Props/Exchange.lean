import Verif.Spec.Exchange
import Verif.Dialog.Lone
import Verif.Props.Readable
import Verif.Props.EndToEnd
import Verif.Props.CallReport

/-!
# Property C95: two programs that use the library understand each other
-/

namespace Gosip.Props
open Sip Spec Dialog

/-- The answer that the caller gets. -/
theorem reply_arrives {req got : Msg} {gen : Bytes} {v : Via} {callee : Ear} {lhost' : Bytes} {lport' : UInt16}
    {ts' : Option Int} {addr addr' : UDPAddr} {tp : Transport} {env : SendEnv} {status : Int} {contact : List Addr}
    {body : Option Payload} {t dest : Bytes}
    (hok : MsgOK gen req) (hreq : req.status ≤ 0) (hv : req.via = [v]) (hlen : (req.text gen).length ≤ 2048)
    (hip : ∀ c ∈ addr.ip, ip6c c) (hg : GoodAnswer env status contact body)
    (hgot : Hears callee (req.text gen) addr got)
    (hsend : (tp.send env (answerTo got status contact body)).wire = some (t, dest)) (hlen' : t.length ≤ 2048) :
    ∃ ans w, receiveOne lhost' lport' ts' t addr' = .ok (some ans) ∧ ans.status = status ∧ ans.callID = req.callID ∧
      ans.cseq = req.cseq ∧ ans.cseqMethod = req.cseqMethod ∧ ans.addrs .contact = contact ∧ ans.payload = body ∧
      (ans.versionMajor = 2 ∧ ans.versionMinor = 0) ∧ MsgOK env.origin ans ∧ ans.via = [w] ∧ w.host = v.host ∧
      w.port = (if v.port = 5060 then 0 else v.port) ∧ (∀ b, ParamIs w.param b!"branch" b ↔ ParamIs v.param b!"branch" b) ∧
      (NoParam v.param b!"received" → (NoParam v.param b!"rport" ∨ ParamIs v.param b!"rport" []) →
        env.resolve (joinHostPort addr.ip (natDec addr.port.toNat)) = .ok dest) ∧
      ans.addrs .from = req.addrs .from ∧ ans.addrs .to = req.addrs .to ∧
      ans.addrs .recordRoute = req.addrs .recordRoute := by
  have hst := hg.status
  obtain ⟨m, hm, hr⟩ := (C70_delivered _ _ _ _ _).1 got hgot
  rw [List.take_of_length_le hlen, C14_read_back gen hok] at hm
  cases hm
  have hrs : (readBack req).status ≤ 0 := by
    unfold readBack; dsimp only; rw [if_neg (by omega)]; omega
  obtain ⟨w1, g1, g2, g3, g4, g5, g6, g7⟩ := got_facts (v := viaRead v) hr hrs (by simp [readBack, hv]) hip
  have hrsp : (answerTo got status contact body).isResponse = true := by
    show decide (status > 0) = true
    exact decide_eq_true (by omega)
  obtain ⟨x, l, host, port, m1, a1, a2, a3, a4, rfl⟩ := C71_response env tp _ t dest hrsp hsend
  have hx : x :: l = [w1] := by
    have e : (answerTo got status contact body).via = [w1] := g1
    rw [e] at a1
    rcases a1 with ⟨y, ⟨z, hz, z1, z2⟩, hy⟩ | ⟨_, h⟩
    · cases hy
    · exact h
  cases hx
  obtain ⟨w2, rfl, k2, _⟩ := sameHop_timed a4 rfl
  have hbase := hok.via v (by rw [hv]; simp)
  have hvok := k2.ok (g2.ok (viaOK_read hbase))
  have hmf : oneLess (answerTo got status contact body).maxForwards = 0 := by
    show oneLess 0 = 0
    decide
  rw [hmf] at hlen' ⊢
  generalize hM : ({ ({ answerTo got status contact body with via := [w1], maxForwards := 0 } : Msg) with via := [w2] } : Msg) = M at *
  have hMs : M.status = status := by rw [← hM]; rfl
  have hMp : M.status > 0 := by omega
  have hfrom : M.addrs .from = req.addrs .from := by
    rw [← hM]; show setAt (newResponse got status).addrs .contact contact .from = _
    rw [setAt_ne _ _ (by decide)]; exact g6 _ (by decide)
  have hto : M.addrs .to = req.addrs .to := by
    rw [← hM]; show setAt (newResponse got status).addrs .contact contact .to = _
    rw [setAt_ne _ _ (by decide)]; exact g6 _ (by decide)
  have hrr : M.addrs .recordRoute = req.addrs .recordRoute := by
    rw [← hM]; show setAt (newResponse got status).addrs .contact contact .recordRoute = _
    rw [setAt_ne _ _ (by decide)]; exact g6 _ (by decide)
  have hcon : M.addrs .contact = contact := by
    rw [← hM]; show setAt (newResponse got status).addrs .contact contact .contact = contact
    exact setAt_same _ _ _
  have hadr : ∀ f, f ≠ .from → f ≠ .to → f ≠ .recordRoute → f ≠ .contact → M.addrs f = [] := by
    intro f h1 h2 h3 h4
    rw [← hM]; show setAt (newResponse got status).addrs .contact contact f = _
    rw [setAt_ne _ _ h4]
    cases f <;> first | rfl | (exact absurd rfl (by assumption))
  have hhdr : ∀ f, TextOK (M.hdr f) := by
    intro f
    have h0 : TextOK [] := text_plain (by simp) rfl
    have h1 : TextOK gosipUA := plain_of (by decide) (by decide)
    have h2 : TextOK gosipAllow := plain_of (by decide) (by decide)
    rw [← hM]
    cases f <;> first | exact h0 | exact h1 | exact h2
  have hre : M.hdr .retryAfter = [] := by rw [← hM]; rfl
  have hpay : M.payload = body := by rw [← hM]; rfl
  have haddrs : ∀ f, ∀ a ∈ M.addrs f, AddrOK a := by
    intro f a ha
    by_cases h1 : f = .from
    · rw [h1, hfrom] at ha; exact hok.addrs _ a ha
    by_cases h2 : f = .to
    · rw [h2, hto] at ha; exact hok.addrs _ a ha
    by_cases h3 : f = .recordRoute
    · rw [h3, hrr] at ha; exact hok.addrs _ a ha
    by_cases h4 : f = .contact
    · rw [h4, hcon] at ha; exact hg.contact a ha
    · rw [hadr f h1 h2 h3 h4] at ha; cases ha
  have hcall : M.callID = req.callID := by rw [← hM]; exact g3
  have hseq : M.cseq = req.cseq := by rw [← hM]; exact g4
  have hcm : M.cseqMethod = req.cseqMethod := by rw [← hM]; exact g5
  have hphrase : M.phrase = phraseOf status := by rw [← hM]; rfl
  have hx0 : M.xheader = [] := by rw [← hM]; rfl
  have hv2 : M.via = [w2] := by rw [← hM]
  have hex : M.expires = 0 ∧ M.minExpires = 0 := by rw [← hM]; exact ⟨rfl, rfl⟩
  have hver : M.versionMajor = 0 := by rw [← hM]; rfl
  have hok2 : MsgOK env.origin M := by
    refine ⟨.inr ⟨hMs ▸ hst, by rw [hphrase]; exact (MsgM.phrase_ok status).1⟩, ?_, haddrs, by rw [hfrom]; exact hok.from_,
      by rw [hto]; exact hok.to, by rw [hcall]; exact hok.callID, by rw [hseq]; exact hok.cseq, by rw [hcm]; exact hok.cseqMethod,
      by rw [hex.1]; exact zero_ok, by rw [hex.2]; exact zero_ok, fun f _ => hhdr f, by rw [hx0]; exact (fun p hp => nomatch hp), ?_⟩
    · intro y hy
      rw [hv2, List.mem_singleton] at hy
      subst hy
      exact hvok
    · intro p hp
      rw [hpay] at hp
      exact (hg.body p hp).1
  have hparse := C14_read_back env.origin hok2
  rw [← List.take_of_length_le (i := 2048) hlen'] at hparse
  obtain ⟨ans, w, r1, r2, r3⟩ := response_delivered (lhost := lhost') (lport := lport') (ts := ts') (addr := addr')
    (v := viaRead w2) hparse (by simp only [readBack]; rw [if_pos hMp]; exact hMp)
    (by simp only [readBack]; rw [hv2]; rfl) (by simp only [readBack]; rw [if_pos hMp])
    (by simp only [readBack]; exact hadr _ (by decide) (by decide) (by decide) (by decide))
  have hbody : ans.payload = body := by
    rw [r2]; simp only [readBack]; rw [hpay]
    split
    · rename_i h
      obtain ⟨t, ht⟩ := h
      exact absurd rfl ((hg.body _ ht).2 t)
    · rfl
  have hvers : ans.versionMajor = 2 ∧ ans.versionMinor = 0 := by
    rw [r2]; simp only [readBack, hver]; exact ⟨rfl, rfl⟩
  have hstat : ans.status = status := by rw [r2]; simp only [readBack]; rw [if_pos hMp]; exact hMs
  refine ⟨ans, w, r1, hstat, by rw [r2]; exact hcall, by rw [r2]; exact hseq, by rw [r2]; exact hcm, by rw [r2]; exact hcon, hbody,
    hvers, ?_, by rw [r2], ?_, ?_, ?_, ?_, by rw [r2]; exact hfrom, by rw [r2]; exact hto, by rw [r2]; exact hrr⟩
  · refine ⟨.inr ⟨hstat ▸ hst, ?_⟩, ?_, by rw [r2]; exact haddrs, by rw [r2]; exact hok2.from_, by rw [r2]; exact hok2.to,
      by rw [r2]; exact hok2.callID, by rw [r2]; exact hok2.cseq, by rw [r2]; exact hok2.cseqMethod, by rw [r2]; exact hok2.expires,
      by rw [r2]; exact hok2.minExpires, ?_, ?_, ?_⟩
    · rw [r2]; simp only [readBack]; rw [if_pos hMp]
      split
      · exact (MsgM.phrase_ok _).1
      · rw [hphrase]; exact (MsgM.phrase_ok _).1
    · intro y hy
      rw [r2] at hy
      simp only [List.mem_singleton] at hy
      subst hy
      exact r3.ok (viaOK_read hvok)
    · intro f _
      rw [r2]; simp only [readBack]
      split
      · exact textOK_nil
      · exact hhdr f
    · rw [r2]; simp only [readBack, hx0, hre, if_true]
      exact fun p hp => nomatch hp
    · intro p hp
      rw [hbody] at hp
      exact (hg.body p hp).1
  · rw [r3.host]; exact k2.host.trans g2.host
  · rw [r3.port]
    have : w2.port = if v.port = 5060 then 0 else v.port := k2.port.trans g2.port
    simp only [viaRead, this]
    by_cases h : v.port = 5060
    · simp [h]
    · simp [h]
  · intro b
    exact (r3.branch b).trans ((k2.branch b).trans (g2.branch b))
  · intro a b
    obtain ⟨rfl, rfl⟩ := C38_hop_unique a2 (g7 a b)
    exact a3

/-! ## C95 -/

theorem callID_ne {w : World} (hw : PlainWorld w) (n : Nat) : (w.ids n).callID ≠ [] := by
  obtain ⟨a, b, h1, h2, h3 | ⟨h3, _⟩⟩ := hw.callID n
  · rw [h3]; exact h1
  · rw [h3]; simp

theorem request_facts {w : World} {invite : Msg} {evs : List Event} (hp : Placed w invite) (hn : Numbered w invite evs)
    {d x t} (hx : .sent d x t ∈ (loop w evs (start w invite)).s.outs)
    (hr : (d, x) ∈ requests (loop w evs (start w invite)).s.outs) :
    ∃ n v b, t = (seen (w.origin n) x).text (w.origin n) ∧ MsgOK (w.origin n) (seen (w.origin n) x) ∧ x.status ≤ 0 ∧
      x.via = [v] ∧ (∃ c, Socket w c ∧ v.port = c.lport) ∧ ParamIs v.param b!"branch" b ∧ x.cseqMethod = x.method := by
  obtain ⟨hwr, n, rfl⟩ := written w invite evs hp.plain hp.writable hn.1 ⟨by have := hn.2.1; omega, fun n => by have := hn.2.2 n; omega⟩ d x t hx
  have hl : Lone invite := by
    refine ⟨?_, ?_⟩
    · have := hp.via
      cases hv : invite.via with
      | nil => rfl
      | cons v l =>
        rw [hv] at this
        simp only [List.length_cons] at this
        exact List.eq_nil_of_length_eq_zero (show l.length = 0 by omega)
    · rw [hp.request.2]; exact hp.cseqMethod
  rw [requests_eq] at hr
  obtain ⟨h1, h2, b, h3⟩ := (loners_loop w invite evs (isOwn_invite hp.request) hl).sent _ hr
  have hr' : (d, x) ∈ own (dialog w invite evs).s.outs := by rw [own_dialog_loop]; exact hr
  obtain ⟨c, hc, _, hN, _⟩ := tied_dialog w invite evs (isOwn_invite hp.request) _ hr'
  obtain ⟨v, l, hv, hvp⟩ := hN.via
  have hl0 : l = [] := by
    have : x.via.tail = [] := h1
    rw [hv] at this; exact this
  subst hl0
  obtain ⟨v', l', e, hb⟩ := hasBranch_iff.2 h3
  have : v' = v := by
    have e : x.via = v' :: l' := e
    rw [hv] at e; cases e; rfl
  subst this
  refine ⟨n, v', b, (text_seen (hp.plain.origin n) x).symm, hwr n, ?_, hv, ⟨c, hc, hvp⟩, hb, h2⟩
  rw [← requests_eq] at hr
  have := (List.mem_filter.1 hr).2
  simp only [Bool.and_eq_true, decide_eq_true_eq] at this
  exact this.1.1

/-- **C95** (the answer; missing: callers at port 5060, see `C95_5060_deaf`). A program that gets a request of a call and answers with `NewResponse` over its transport is
understood: the dialog hears status, Contact and body as they were given, and recognises the answer as one to its request.
The answer goes back to where the request came from, unless the application put other parameters into its Via. -/
theorem C95_understood_partial (w : World) (invite : Msg) (evs : List Event) (hp : Placed w invite) (hn : Numbered w invite evs)
    (hport : NoneAt5060 w)
    (d : Bytes) (x : Msg) (t : Bytes) (hx : .sent d x t ∈ (loop w evs (start w invite)).s.outs)
    (hr : (d, x) ∈ requests (loop w evs (start w invite)).s.outs)
    (callee caller : Ear) (tp : Transport) (env : SendEnv) (source source' : UDPAddr) (status : Int) (contact : List Addr)
    (body : Option Payload) (t' dest : Bytes) (h : Exchange callee tp env source status contact body t t' dest) :
    (∃ ans, Hears caller t' source' ans ∧ Answers x ans ∧ ans.status = status ∧ ans.callID = x.callID ∧
      (ans.versionMajor = 2 ∧ ans.versionMinor = 0) ∧ ans.addrs .contact = contact ∧ ans.payload = body ∧
      ∃ gen, MsgOK gen ans) ∧
    ((∀ v ∈ x.via, NoParam v.param b!"received" ∧ NoParam v.param b!"rport") →
      env.resolve (joinHostPort source.ip (natDec source.port.toNat)) = .ok dest) := by
  obtain ⟨n, v, b, rfl, hok, hs, hv, ⟨sk, hsk, hvp⟩, hb, hcm⟩ := request_facts hp hn hx hr
  have hvp : v.port ≠ 5060 := by rw [hvp]; exact hport sk hsk
  obtain ⟨got, hgot, hsend⟩ := h.answered
  obtain ⟨ans, w', h1, h2, h3, h4, h5, h6, h7, h8, h9, h10, h11, h12, h13, h14, _⟩ :=
    reply_arrives (lhost' := caller.host) (lport' := caller.port) (ts' := caller.clock) (addr' := source') hok hs hv h.short.1
      h.known h.good hgot hsend h.short.2
  refine ⟨⟨ans, h1, ⟨?_, h4, h5.trans hcm, [], w', v, [], by rw [h10]; rfl, hv, h11, ?_, b, (h13 b).2 hb, hb⟩, h2, h3, h8, h6, h7, _, h9⟩, ?_⟩
  · have := h.good.status; omega
  · rw [h12, if_neg hvp]
  · intro hno
    have := hno v (by rw [hv]; simp)
    exact h14 this.1 (.inl this.2)

/-- A request that can be written is heard. -/
theorem heard_of {gen : Bytes} {x : Msg} (hok : MsgOK gen (seen gen x)) (hs : x.status ≤ 0) (hm : x.method ≠ [])
    (hv : x.via ≠ []) {t : Bytes} (ht : t = (seen gen x).text gen) (hlen : t.length ≤ 2048) (e : Ear) (source : UDPAddr) :
    ∃ got, Hears e t source got ∧ HeardAs gen x got := by
  have hpt : parseMsg (t.take 2048) = .ok (readBack (seen gen x)) := by
    rw [List.take_of_length_le hlen, ht]; exact C14_read_back gen hok
  have hrs : (readBack (seen gen x)).status = 0 := by
    show (if x.status > 0 then x.status else 0) = 0
    rw [if_neg (by omega)]
  cases hd : receiveOne e.host e.port e.clock t source with
  | panic =>
    obtain ⟨m', hm', hv', _⟩ := (C40_receive_panics_iff_partial _ _ _ _ _).1 hd
    rw [hpt] at hm'; cases hm'
    have hv' : x.via.map viaRead = [] := hv'
    exact absurd (List.map_eq_nil_iff.1 hv') hv
  | err er => exact absurd hd (receiveOne_no_err _ _ _ _ _ _)
  | ok o =>
    cases o with
    | none =>
      obtain ⟨er, he⟩ := (C70_delivered _ _ _ _ _).2.1 hd
      rw [hpt] at he; cases he
    | some got =>
      refine ⟨got, hd, ?_⟩
      obtain ⟨m, hm1, m1, m2, route, rq, rt, h1, h2, _, _, rfl⟩ := (C70_delivered _ _ _ _ _).1 got hd
      rw [hpt] at hm1; cases hm1
      have hmm : (readBack (seen gen x)).method = x.method := by
        show (if x.status > 0 then [] else if x.method = [] then b!"INVITE" else x.method) = x.method
        rw [if_neg (by omega), if_neg hm]
      have hb : (∀ t, x.payload ≠ some (.misc t [])) → (readBack (seen gen x)).payload = x.payload.map (bodySeen gen) := by
        intro h
        show (if _ then _ else _) = _
        rw [if_neg]
        · rfl
        · rintro ⟨ct, hct⟩
          have hct : x.payload.map (bodySeen gen) = some (.misc ct []) := hct
          cases hp : x.payload with
          | none => rw [hp] at hct; cases hct
          | some p =>
            rw [hp] at hct
            cases p with
            | sdp d => cases hct
            | misc c y =>
              simp only [Option.map_some, bodySeen, Option.some.injEq, Payload.misc.injEq] at hct
              exact h c (by rw [hp, hct.2])
      rcases h1 with ⟨_, v', l', p, q, _, _, _, rfl⟩ | ⟨h1, _⟩
      · rcases h2 with ⟨_, rfl⟩ | ⟨_, _, _, _, _, rfl⟩ <;>
          exact ⟨hrs, hmm, rfl, ⟨rfl, rfl⟩, fun f hf => setAt_ne _ _ hf, hb⟩
      · omega

/-- **C95** (the request). Whoever gets a request of a call hears it, with its method and numbers, the parties and the
body. -/
theorem C95_heard (w : World) (invite : Msg) (evs : List Event) (hp : Placed w invite) (hn : Numbered w invite evs)
    (d : Bytes) (x : Msg) (t : Bytes) (hx : .sent d x t ∈ (loop w evs (start w invite)).s.outs)
    (hr : (d, x) ∈ requests (loop w evs (start w invite)).s.outs) (hlen : t.length ≤ 2048) (callee : Ear) (source : UDPAddr) :
    ∃ got n, Hears callee t source got ∧ HeardAs (w.origin n) x got := by
  obtain ⟨n, v, b, rfl, hok, hs, hv, hvp, hb, hcm⟩ := request_facts hp hn hx hr
  have hm : x.method ≠ [] := by
    have := hok.cseqMethod
    have hcm' : (seen (w.origin n) x).cseqMethod = x.method := hcm
    rw [hcm'] at this
    exact this.1
  obtain ⟨got, h1, h2⟩ := heard_of hok hs hm (by rw [hv]; simp) rfl hlen callee source
  exact ⟨got, n, h1, h2⟩

theorem mediaNews_eq {m m' : Msg} (h : m.payload = m'.payload) : mediaNews m = mediaNews m' := by
  unfold mediaNews mediaOf; rw [h]

theorem mem_of_last {α : Type} {l : List α} {a : α} (h : l.getLast? = some a) : a ∈ l := by
  obtain ⟨k, rfl⟩ := List.getLast?_eq_some_iff.1 h
  simp

/-- **C95** (ringing; missing as above). When the program that is called answers the last request of a call with a provisional response,
the application hears that the call proceeds or rings, and where it may hear the other side. -/
theorem C95_rings_partial (w : World) (invite : Msg) (evs : List Event) (hp : Placed w invite) (hn : Numbered w invite evs)
    (hport : NoneAt5060 w)
    (hg : (loop w evs (start w invite)).c = .go)
    (d : Bytes) (x : Msg) (t : Bytes) (hx : .sent d x t ∈ (loop w evs (start w invite)).s.outs)
    (hr : (requests (loop w evs (start w invite)).s.outs).getLast? = some (d, x))
    (callee caller : Ear) (tp : Transport) (env : SendEnv) (source source' : UDPAddr) (status : Int) (contact : List Addr)
    (body : Option Payload) (t' dest : Bytes) (h : Exchange callee tp env source status contact body t t' dest)
    (hst : status < 200) (haudio : ∀ d, body = some (.sdp d) → d.audio ≠ none) :
    ∃ ans, Hears caller t' source' ans ∧ (loop w (evs ++ [.msg ans]) (start w invite)).c = .go ∧
      (loop w (evs ++ [.msg ans]) (start w invite)).s.outs =
        (loop w evs (start w invite)).s.outs ++ mediaNews { payload := body } ++ provisionalNews status := by
  obtain ⟨⟨ans, h1, h2, h3, h4, h5, h6, h7, h8⟩, _⟩ := C95_understood_partial w invite evs hp hn hport d x t hx (mem_of_last hr)
    callee caller tp env source source' status contact body t' dest h
  have k := C62_provisional w invite evs ans d x hp.request (callID_ne hp.plain) hg hr h2 h5 h4 (by rw [h3]; exact hst)
    (by rw [h7]; exact haudio)
  rw [h3, mediaNews_eq (m' := { payload := body }) h7] at k
  exact ⟨ans, h1, k⟩

/-- **C95** (answered; missing as above). When the program that is called accepts an INVITE, the application hears so once, and where to
send its audio; the ACK goes to the Contact that was given, and whoever gets it hears an ACK with the number of the
INVITE. -/
theorem C95_answered_partial (w : World) (invite : Msg) (evs : List Event) (hp : Placed w invite) (hn : Numbered w invite evs)
    (hport : NoneAt5060 w)
    (hw : ∀ n, w.write n = .ok ()) (hg : (loop w evs (start w invite)).c = .go)
    (d : Bytes) (x : Msg) (t : Bytes) (hx : .sent d x t ∈ (loop w evs (start w invite)).s.outs)
    (hr : (requests (loop w evs (start w invite)).s.outs).getLast? = some (d, x)) (hxi : x.method = b!"INVITE")
    (hfirst : ∀ ev ∈ evs, ¬ Introduces ev)
    (callee caller : Ear) (tp : Transport) (env : SendEnv) (source source' : UDPAddr) (c : Addr) (more : List Addr)
    (body : Option Payload) (t' dest : Bytes) (h : Exchange callee tp env source 200 (c :: more) body t t' dest)
    (haudio : ∀ d, body = some (.sdp d) → d.audio ≠ none) :
    ∃ ans, Hears caller t' source' ans ∧ (loop w (evs ++ [.msg ans]) (start w invite)).c = .go ∧
      ∃ ack dest' text, ack.request = c.uri ∧ ack.method = b!"ACK" ∧
        (loop w (evs ++ [.msg ans]) (start w invite)).s.outs =
          (loop w evs (start w invite)).s.outs ++ .sent dest' ack text :: mediaNews { payload := body } ++ [.state .answered] ∧
        (text.length ≤ 2048 → ∀ ear src, ∃ got, Hears ear text src got ∧ got.status = 0 ∧ got.method = b!"ACK" ∧
          got.callID = x.callID ∧ got.cseq = x.cseq) := by
  obtain ⟨⟨ans, h1, h2, h3, h4, h5, h6, h7, h8⟩, _⟩ := C95_understood_partial w invite evs hp hn hport d x t hx (mem_of_last hr)
    callee caller tp env source source' 200 (c :: more) body t' dest h
  obtain ⟨k1, a, ack, dest', text, hA, hS, k2⟩ := C62_answered_partial w invite evs ans d x hp.request (callID_ne hp.plain) hw
    hg hr hxi hfirst h2 h5 h4 h3 (by rw [h6]; simp) (by rw [h7]; exact haudio)
  rw [mediaNews_eq (m' := { payload := body }) h7] at k2
  have hmem : .sent dest' ack text ∈ (loop w (evs ++ [.msg ans]) (start w invite)).s.outs := by
    rw [k2]; simp
  obtain ⟨hwr, n, rfl⟩ := written w invite (evs ++ [.msg ans]) hp.plain hp.writable
    (by
      intro m hm
      rcases List.mem_append.1 hm with hm | hm
      · exact hn.1 m hm
      · simp only [List.mem_singleton, Event.msg.injEq] at hm
        subst hm; exact h8)
    ⟨by have := hn.2.1; simp only [List.length_append, List.length_cons, List.length_nil]; omega,
      fun n => by have := hn.2.2 n; simp only [List.length_append, List.length_cons, List.length_nil]; omega⟩ dest' ack _ hmem
  have hq : ack.request = c.uri ∧ ack.status = 0 ∧ ack.method = b!"ACK" ∧ ack.via ≠ [] ∧ ack.callID = x.callID ∧
      ack.cseq = x.cseq := by
    obtain ⟨c', l', e1, e2⟩ := hA.target
    rw [h6] at e1; cases e1
    obtain ⟨tv, mv, e3, e4⟩ := hA.via
    have hcs : a.cseq = x.cseq := hA.cseq.trans h2.2.1
    rcases hS with rfl | ⟨v, l, st, e5, _, rfl⟩
    · exact ⟨e2, hA.method.2.2, hA.method.1, by rw [e4]; simp, hA.callID.trans h4, hcs⟩
    · exact ⟨e2, hA.method.2.2, hA.method.1, by simp, hA.callID.trans h4, hcs⟩
  refine ⟨ans, h1, k1, ack, dest', _, hq.1, hq.2.2.1, k2, ?_⟩
  intro hl ear src
  obtain ⟨got, g1, g2⟩ := heard_of (hwr n) (by rw [hq.2.1]; exact Int.le_refl _) (by rw [hq.2.2.1]; decide) hq.2.2.2.1
    (text_seen (hp.plain.origin n) ack).symm hl ear src
  exact ⟨got, g1, g2.request, g2.method.trans hq.2.2.1, g2.callID.trans hq.2.2.2.2.1, g2.cseq.1.trans hq.2.2.2.2.2⟩

/-- **C95** (over; missing as above). When the program that is called answers a BYE with 200, the call has ended for the application. -/
theorem C95_over_partial (w : World) (invite : Msg) (evs : List Event) (hp : Placed w invite) (hn : Numbered w invite evs)
    (hport : NoneAt5060 w)
    (hg : (loop w evs (start w invite)).c = .go)
    (d : Bytes) (x : Msg) (t : Bytes) (hx : .sent d x t ∈ (loop w evs (start w invite)).s.outs)
    (hr : (requests (loop w evs (start w invite)).s.outs).getLast? = some (d, x)) (hxi : x.method = b!"BYE")
    (callee caller : Ear) (tp : Transport) (env : SendEnv) (source source' : UDPAddr) (contact : List Addr) (t' dest : Bytes)
    (h : Exchange callee tp env source 200 contact none t t' dest) :
    ∃ ans, Hears caller t' source' ans ∧ (loop w (evs ++ [.msg ans]) (start w invite)).c = .stop ∧
      (loop w (evs ++ [.msg ans]) (start w invite)).s.outs = (loop w evs (start w invite)).s.outs ++ [.state .hangup] := by
  obtain ⟨⟨ans, h1, h2, h3, h4, h5, h6, h7, h8⟩, _⟩ := C95_understood_partial w invite evs hp hn hport d x t hx (mem_of_last hr)
    callee caller tp env source source' 200 contact none t' dest h
  obtain ⟨k1, k2⟩ := C62_hung_up w invite evs ans d x hp.request (callID_ne hp.plain) hg hr hxi h2 h5 h4 h3
    (by rw [h7]; intro d hd; cases hd)
  rw [mediaNews_eq (m' := { payload := none }) h7] at k2
  exact ⟨ans, h1, k1, k2.trans (by simp [mediaNews, mediaOf])⟩

/-- **C95** (refused; missing as above). When the program that is called refuses a request, and says where it is to be reached, the
application gets the refusal as an error, with the status that was given, and the call is over. -/
theorem C95_refused_partial (w : World) (invite : Msg) (evs : List Event) (hp : Placed w invite) (hn : Numbered w invite evs)
    (hport : NoneAt5060 w)
    (hw : ∀ n, w.write n = .ok ()) (hg : (loop w evs (start w invite)).c = .go)
    (d : Bytes) (x : Msg) (t : Bytes) (hx : .sent d x t ∈ (loop w evs (start w invite)).s.outs)
    (hr : (requests (loop w evs (start w invite)).s.outs).getLast? = some (d, x))
    (callee caller : Ear) (tp : Transport) (env : SendEnv) (source source' : UDPAddr) (status : Int) (contact : List Addr)
    (body : Option Payload) (t' dest : Bytes) (h : Exchange callee tp env source status contact body t t' dest)
    (hst : Refuses status) (hcon : x.method = b!"INVITE" → contact ≠ []) :
    ∃ ans, Hears caller t' source' ans ∧ ans.status = status ∧ (loop w (evs ++ [.msg ans]) (start w invite)).c = .stop ∧
      errors (loop w (evs ++ [.msg ans]) (start w invite)).s.outs =
        errors (loop w evs (start w invite)).s.outs ++ [.response ans] := by
  obtain ⟨⟨ans, h1, h2, h3, h4, h5, h6, h7, h8⟩, _⟩ := C95_understood_partial w invite evs hp hn hport d x t hx (mem_of_last hr)
    callee caller tp env source source' status contact body t' dest h
  obtain ⟨k1, new, k2, k3, k4⟩ := C62_refused_partial w invite evs ans d x hp.request (callID_ne hp.plain) hw hg hr h2 h5 h4
    (by rw [h3]; exact hst) (by rw [h6]; exact hcon)
  refine ⟨ans, h1, h3, k1, ?_⟩
  have he : errors new = [] := by
    by_cases hi : x.method = b!"INVITE"
    · obtain ⟨_, _, _, _, _, _, rfl⟩ := k3 hi; rfl
    · rw [k4 hi]; rfl
  rw [k2]
  simp [errors] at he ⊢
  exact he

/-- **C95** (finding). If the sockets of the caller are at port 5060, nothing that a program answers with this library
is ever heeded: whatever it answers, and whatever happens afterwards, all is as if the answer had not arrived. -/
theorem C95_5060_deaf (w : World) (invite : Msg) (evs more : List Event) (hp : Placed w invite) (hn : Numbered w invite evs)
    (hport : AllAt5060 w) (hg : (loop w evs (start w invite)).c = .go)
    (d : Bytes) (x : Msg) (t : Bytes) (hx : .sent d x t ∈ (loop w evs (start w invite)).s.outs)
    (hr : (requests (loop w evs (start w invite)).s.outs).getLast? = some (d, x))
    (callee caller : Ear) (tp : Transport) (env : SendEnv) (source source' : UDPAddr) (status : Int) (contact : List Addr)
    (body : Option Payload) (t' dest : Bytes) (h : Exchange callee tp env source status contact body t t' dest) :
    ∃ ans, Hears caller t' source' ans ∧ ans.status = status ∧
      dialog w invite (evs ++ .msg ans :: more) = dialog w invite (evs ++ more) := by
  obtain ⟨n, v, b, rfl, hok, hs, hv, ⟨sk, hsk, hvp⟩, hb, hcm⟩ := request_facts hp hn hx (mem_of_last hr)
  have hvp : v.port = 5060 := by rw [hvp]; exact hport sk hsk
  obtain ⟨got, hgot, hsend⟩ := h.answered
  obtain ⟨ans, w', h1, h2, h3, h4, h5, h6, h7, h8, h9, h10, h11, h12, h13, h14, _⟩ :=
    reply_arrives (lhost' := caller.host) (lport' := caller.port) (ts' := caller.clock) (addr' := source') hok hs hv h.short.1
      h.known h.good hgot hsend h.short.2
  refine ⟨ans, h1, h2, C67_stray_response w invite evs more ans d x hp.request (callID_ne hp.plain) hg hr
    (by rw [h2]; have := h.good.status; omega) ?_ h8 h3⟩
  rintro ⟨_, _, _, l, mine, sent, older, e1, e2, _, e4, _⟩
  rw [h10] at e1
  have e1 : [w'] = l ++ [mine] := e1
  rw [hv] at e2
  cases e2
  have : mine = w' := by
    have := congrArg List.getLast? e1
    simpa using this.symm
  subst this
  rw [h12, if_pos hvp, hvp] at e4
  exact absurd e4 (by decide)

/-! ## Examples -/

theorem demo_placed : Placed demoWorld demoCall := by
  refine ⟨demo_plain, ⟨rfl, rfl⟩, writable_phone _ ?_ ⟨⟨by decide, by decide +kernel, .inl (by decide +kernel)⟩, by decide +kernel⟩
    ⟨by decide, by decide +kernel⟩ ⟨by decide, by decide⟩, by decide, .inl rfl⟩
  exact (C02_parseURI_grammar _ _).1 (by decide +kernel)

theorem demo_ports : NoneAt5060 demoWorld := by
  rintro c ⟨n, a, h⟩
  cases h
  show (5070 : UInt16) ≠ 5060
  decide

theorem demo_numbered : Numbered demoWorld demoCall [] :=
  ⟨(fun m h => nomatch h), by decide, fun n => by show (7 : Int) + 0 + 1 < 2 ^ 63; decide⟩

/-- The program that is called, and what it says: it is to be sent audio at port 4000. -/
def demoCallee : Ear := ⟨b!"10.0.0.2", 5060, none⟩

@[inherit_doc demoCallee] def demoBody : Payload := .sdp ((phoneSdp b!"10.0.0.2" 4000 b!"1").filled b!"1")

@[inherit_doc demoCallee] def demoEnv : SendEnv := ⟨⟨b!"id", 5, b!"z9hG4bK-2", b!"u"⟩, b!"1", none, fun a => .ok a, .ok ()⟩

/-- The datagram of the INVITE of the demo call. -/
def demoFirst : Bytes :=
  ((start demoWorld demoCall).s.outs.filterMap fun | .sent _ _ t => some t | _ => none).headD []

/-- What the program that is called sends back. -/
def demoBack (status : Int) : Option (Bytes × Bytes) :=
  match receiveOne demoCallee.host demoCallee.port none demoFirst ⟨b!"10.0.0.1", 5070⟩ with
  | .ok (some got) =>
    (Transport.send demoEnv ⟨[{ host := b!"10.0.0.2", port := 5060 }], []⟩ (answerTo got status [demoBob] (some demoBody))).wire
  | _ => none

theorem demo_back : (demoBack 200).map (fun x => (x.2, decide (x.1.length ≤ 2048))) = some (b!"10.0.0.1:5070", true) ∧
    demoFirst.length ≤ 2048 := by
  decide +kernel

theorem demo_exchange : ∃ t', Exchange demoCallee ⟨[{ host := b!"10.0.0.2", port := 5060 }], []⟩ demoEnv ⟨b!"10.0.0.1", 5070⟩ 200
    [demoBob] (some demoBody) demoFirst t' b!"10.0.0.1:5070" := by
  have hb := demo_back
  cases hd : demoBack 200 with
  | none => rw [hd] at hb; exact absurd hb.1 (by simp)
  | some x =>
    rw [hd] at hb
    simp only [Option.map_some, Option.some.injEq, Prod.mk.injEq, decide_eq_true_eq] at hb
    refine ⟨x.1, ⟨by decide +kernel, ⟨by decide, ?_, ?_⟩, ?_, hb.2, hb.1.2⟩⟩
    · intro a ha
      simp only [List.mem_singleton] at ha
      subst ha
      exact ⟨⟨_, rfl, (C02_parseURI_grammar _ _).1 (by decide +kernel)⟩, display_nil, param_nil⟩
    · intro p hp
      cases hp
      exact ⟨phoneSdp_ok ⟨⟨by decide, by decide +kernel, .inl (by decide +kernel)⟩, by decide +kernel⟩
        ⟨by decide, by decide +kernel⟩ ⟨by decide, by decide⟩ _, fun t h => nomatch h⟩
    · unfold demoBack at hd
      split at hd
      · rename_i got hgot
        exact ⟨got, hgot, by rw [hd, ← hb.1.1]⟩
      · cases hd

/-- The phone calls, the other program accepts and says where it is to be sent audio: the phone hears both. -/
example : ∃ t' ans dest ack text, demoBack 200 = some (t', b!"10.0.0.1:5070") ∧
    Hears ⟨b!"10.0.0.1", 5070, none⟩ t' ⟨b!"10.0.0.2", 5060⟩ ans ∧
    (loop demoWorld [.msg ans] (start demoWorld demoCall)).s.outs =
      (start demoWorld demoCall).s.outs ++ [.sent dest ack text, .peer b!"10.0.0.2" 4000, .state .answered] := by
  obtain ⟨t', h⟩ := demo_exchange
  have hl : ∃ d x, .sent d x demoFirst ∈ (start demoWorld demoCall).s.outs ∧
      (requests (start demoWorld demoCall).s.outs).getLast? = some (d, x) ∧ x.method = b!"INVITE" := by
    have hc : (match (start demoWorld demoCall).s.outs with
        | [.dial _, .sent _ x t] => decide (t = demoFirst) && decide (x.method = b!"INVITE") && decide (x.status = 0)
        | _ => false) = true := by decide +kernel
    split at hc
    · rename_i o d x t e
      simp only [Bool.and_eq_true, decide_eq_true_eq] at hc
      refine ⟨d, x, by rw [e, hc.1.1]; simp, ?_, hc.1.2⟩
      rw [e]
      simp [requests, sends, hc.1.2, hc.2]
    · cases hc
  obtain ⟨d, x, h1, h2, h3⟩ := hl
  obtain ⟨ans, k1, _, ack, dest, text, _, _, k2, _⟩ := C95_answered_partial demoWorld demoCall [] demo_placed demo_numbered demo_ports (fun _ => rfl)
    (by decide +kernel) d x demoFirst h1 h2 h3 (by simp) demoCallee ⟨b!"10.0.0.1", 5070, none⟩ _ _ _ ⟨b!"10.0.0.2", 5060⟩ _ _ _ _ _ h
    (by intro d hd; cases hd; decide +kernel)
  refine ⟨t', ans, dest, ack, text, ?_, k1, k2.trans ?_⟩
  · obtain ⟨got, g1, g2⟩ := h.answered
    unfold demoBack
    rw [show receiveOne demoCallee.host demoCallee.port none demoFirst ⟨b!"10.0.0.1", 5070⟩ = .ok (some got) from g1]
    exact g2
  · rw [List.append_assoc]
    exact congrArg _ (by rfl)

/-- The same caller at port 5060. -/
def demoAt5060 : World := { demoWorld with dial := fun _ a => some ⟨a, b!"10.0.0.1", 5060⟩ }

/-- An answer of the other program to the INVITE of that caller. -/
def demoUnheard : Option Msg :=
  match receiveOne demoCallee.host demoCallee.port none
      (((start demoAt5060 demoCall).s.outs.filterMap fun | .sent _ _ t => some t | _ => none).headD []) ⟨b!"10.0.0.1", 5060⟩ with
  | .ok (some got) =>
    match (Transport.send demoEnv ⟨[{ host := b!"10.0.0.2", port := 5060 }], []⟩ (answerTo got 200 [demoBob] none)).wire with
    | some (t, _) =>
      match receiveOne b!"10.0.0.1" 5060 none t ⟨b!"10.0.0.2", 5060⟩ with
      | .ok (some ans) => some ans
      | _ => none
    | none => none
  | _ => none

/-- They go on sending the INVITE although it was answered. -/
example : demoUnheard.map (fun m => (m.status, published (dialog demoAt5060 demoCall [.msg m]).s.outs,
      (requests (dialog demoAt5060 demoCall [.msg m, .requestTimer]).s.outs).length)) = some (200, [], 2) := by
  decide +kernel

end Gosip.Props
