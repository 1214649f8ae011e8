import Verif.Spec.Carrier
import Verif.Props.Asked
import Verif.Props.Request

/-!
# Property C99: a call made with a transport alone
-/

namespace Gosip.Props
open Sip Spec Dialog

/-- `C71_request`, and the message as `Send` leaves it. -/
theorem request_sent {env : SendEnv} {tp : Transport} {msg : Msg} {t dest : Bytes} (hr : msg.isResponse = false)
    (h : (tp.send env msg).wire = some (t, dest)) :
    ∃ m route u sent hop m1, FilledFrom env.ids tp.via tp.contact msg m ∧ Keeps msg m ∧
      ForeignRoute tp.contact.head? (msg.addrs .route) route ∧ NextHop msg route u sent hop ∧
      Timed env.ts { m with request := u, addrs := setAt m.addrs .route sent, maxForwards := oneLess m.maxForwards } m1 ∧
      t = m1.text env.origin ∧ (tp.send env msg).msg = m1 ∧
      (msg.via ≠ [] → (tp.send env msg).tp = tp) := by
  unfold Transport.send at h ⊢
  cases hp : populateMessage env.ids tp.via tp.contact msg with
  | ok m =>
    rw [hp] at h
    obtain ⟨f, k⟩ := C43_filled _ _ _ _ _ hr hp
    have hm : m.isResponse = false := by unfold Msg.isResponse at hr ⊢; rw [k.line.2.2]; exact hr
    simp only at h ⊢
    generalize hv : (if (!msg.isResponse && msg.via == []) = true then { tp with via := m.via } else tp).via.head? = v at h ⊢
    have hc : (if (!msg.isResponse && msg.via == []) = true then { tp with via := m.via } else tp).contact.head? =
        tp.contact.head? := by split <;> rfl
    rw [hc] at h ⊢
    cases hq : (routeMessage v tp.contact.head? m).2 with
    | ok hop =>
      obtain ⟨route, u, sent, h1, h2, h3, h4⟩ := route_next hm hq
      obtain ⟨host, port⟩ := hop
      rw [hq] at h
      simp only at h ⊢
      rw [portstr_nat] at h ⊢
      cases hres : env.resolve (joinHostPort host (natDec port.toNat)) with
      | error e => rw [hres] at h; cases h
      | ok d =>
        rw [hres, h4] at h
        rw [h4]
        dsimp only at h ⊢
        rw [f.noMore.1 .route (by decide) (by decide) (by decide)] at h1
        generalize hm0 : ({ m with request := u, addrs := setAt m.addrs .route sent } : Msg) = m0 at h ⊢
        have hd : decForwards m0 = { m0 with maxForwards := oneLess m0.maxForwards } := by
          unfold decForwards oneLess
          split <;> rfl
        unfold sendTo at h ⊢
        cases ht : addTimestamp env.ts (decForwards m0) with
        | ok m1 =>
          rw [ht] at h
          simp only [Option.some.injEq, Prod.mk.injEq] at h
          have g1 := hd ▸ addTimestamp_timed ht
          have hst : m1.status = msg.status := by
            have : m1.status = m0.status := by
              rcases g1 with ⟨_, e⟩ | ⟨_, _, _, _, _, e⟩ <;> rw [e]
            rw [this, ← hm0]; exact k.line.2.2
          have happ : m1.appended = m1 := by
            unfold Msg.appended
            have : m1.isResponse = false := by unfold Msg.isResponse at hr ⊢; rw [hst]; exact hr
            simp [this]
          refine ⟨m, route, u, sent, (host, port), m1, f, k, h1, nextHop_congr k.line.2.1.symm h2, ?_, h.1.symm, happ, ?_⟩
          · rw [← hm0] at g1; exact g1
          · intro hv
            have : (!msg.isResponse && msg.via == []) = false := by simp [hv]
            dsimp only
            rw [this]
            rfl
        | err e => rw [ht] at h; cases h
        | panic => rw [ht] at h; cases h
    | err e => rw [hq] at h; cases h
    | panic => rw [hq] at h; cases h
  | err e => rw [hp] at h; cases h
  | panic => rw [hp] at h; cases h

theorem branch_ok {v : Via} (h : ViaOK v) {b : Bytes} (hb : ∀ c ∈ b, token c) :
    ViaOK { v with param := (b!"branch", b) :: v.param } :=
  ⟨h.protocol, h.version, h.transport, h.host, h.hostc, paramOK_cons (token_of _ (by decide) (by decide)) (.inl hb) h.param⟩

theorem tag_ok {a : Addr} (h : AddrOK (addrSeen a)) {t : Bytes} (ht : ∀ c ∈ t, token c) :
    AddrOK (addrSeen { a with param := (b!"tag", t) :: a.param }) :=
  ⟨h.uri, h.display, paramOK_cons (token_of _ (by decide) (by decide)) (.inl ht) h.param⟩

theorem bare_ok {a : Addr} (h : AddrOK (addrSeen a)) : AddrOK (addrSeen (bare a)) := ⟨h.uri, display_nil, h.param⟩

theorem timed_via {ts : Option Int} {m m' : Msg} (h : Timed ts m m') (hv : ∀ v ∈ m.via, ViaOK v) :
    ∃ l, m' = { m with via := l } ∧ ∀ v ∈ l, ViaOK v := by
  rcases h with ⟨_, rfl⟩ | ⟨t, v, l, _, e, rfl⟩
  · exact ⟨_, rfl, hv⟩
  · refine ⟨_, rfl, ?_⟩
    rw [e] at hv
    intro x hx
    rcases List.mem_cons.1 hx with rfl | hx
    · have k := hv v List.mem_cons_self
      exact ⟨k.protocol, k.version, k.transport, k.host, k.hostc, usi_ok k.param⟩
    · exact hv x (List.mem_cons_of_mem _ hx)

/-- What `Send` makes of a request that can be written can be written. -/
theorem filled_ok {env : SendEnv} {tp : Transport} (hc : Carrier env tp) {msg m : Msg} (hm : Portable env.origin msg)
    (f : FilledFrom env.ids tp.via tp.contact msg m) (k : Keeps msg m) :
    Portable env.origin m ∧ m.addrs .from ≠ [] ∧ m.addrs .to ≠ [] ∧ CallIDText m.callID ∧ IsToken m.cseqMethod ∧ m.via ≠ [] := by
  obtain ⟨u, hu, huo⟩ := hm.request
  have hcon : ∀ a ∈ m.addrs .contact, AddrOK (addrSeen a) := by
    by_cases e : msg.addrs .contact = []
    · rw [f.contact e]; exact hc.contact
    · rw [k.addrs _ (by decide) e]; exact hm.addrs _
  have hto : m.addrs .to ≠ [] ∧ ∀ a ∈ m.addrs .to, AddrOK (addrSeen a) := by
    by_cases e : msg.addrs .to = []
    · rw [f.to e]
      refine ⟨by simp, ?_⟩
      intro a ha
      simp only [List.mem_singleton] at ha
      subst ha
      exact addrOK_mk (u := u) hu huo display_nil param_nil
    · rw [k.addrs _ (by decide) e]; exact ⟨e, hm.addrs _⟩
  have hfrom : m.addrs .from ≠ [] ∧ ∀ a ∈ m.addrs .from, AddrOK (addrSeen a) := by
    cases e : msg.addrs .from with
    | nil =>
      obtain ⟨c, cu, l, p, h1, h2, h3, h4⟩ := f.from' e
      rw [h3]
      refine ⟨by simp, ?_⟩
      rw [h1] at hcon
      have hc0 := hcon c List.mem_cons_self
      intro a ha
      rcases List.mem_cons.1 ha with rfl | ha
      · obtain ⟨u', hu', ho'⟩ := addrSeen_uri hc0
        rw [h2] at hu'; cases hu'
        refine addrOK_mk (u := { cu with param := [] }) rfl ?_ display_nil ?_
        · rw [uriOK_iff] at ho' ⊢
          exact ⟨ho'.1, ho'.2.1, ho'.2.2.1, (fun p hp => nomatch hp), ho'.2.2.2.2⟩
        · rcases h4 with ⟨_, rfl⟩ | ⟨_, rfl⟩
          · exact hc0.param
          · exact paramOK_cons (token_of _ (by decide) (by decide)) (.inl hc.ids.tag) hc0.param
      · obtain ⟨b, hb, rfl⟩ := List.mem_map.1 ha
        exact bare_ok (hcon b (List.mem_cons_of_mem _ hb))
    | cons a l =>
      have ho := hm.addrs .from
      rw [e] at ho
      by_cases hn : NoParam a.param b!"tag"
      · rw [f.tag a l e hn]
        refine ⟨by simp, ?_⟩
        intro x hx
        rcases List.mem_cons.1 hx with rfl | hx
        · exact tag_ok (ho a List.mem_cons_self) hc.ids.tag
        · exact ho x (List.mem_cons_of_mem _ hx)
      · obtain ⟨p, h1, h2⟩ := k.from' a l e
        rcases h2 with rfl | ⟨h2, _⟩
        · rw [h1]; exact ⟨by simp, ho⟩
        · exact absurd h2 hn
  have hvia : m.via ≠ [] ∧ ∀ v ∈ m.via, ViaOK v := by
    obtain ⟨v, l, p, h1, h2, h3⟩ := f.via
    have ho : ∀ x ∈ v :: l, ViaOK x := by
      rw [← h1]; split
      · exact hc.via
      · exact hm.via
    rw [h2]
    refine ⟨by simp, ?_⟩
    intro x hx
    rcases List.mem_cons.1 hx with rfl | hx
    · rcases h3 with ⟨_, rfl⟩ | ⟨_, rfl⟩
      · exact ho v List.mem_cons_self
      · exact branch_ok (ho v List.mem_cons_self) hc.ids.branch
    · exact ho x (List.mem_cons_of_mem _ hx)
  have hcid : CallIDText m.callID := by
    by_cases e : msg.callID = []
    · rw [f.callID e]; exact hc.ids.callID
    · rw [k.callID e]; exact hm.callID.resolve_left e
  have hcs : 0 ≤ m.cseq ∧ m.cseq < 2 ^ 63 := by
    by_cases e : msg.cseq = 0
    · rw [f.cseq e]; exact hc.ids.cseq
    · rw [k.cseq e]; exact hm.cseq
  have hcm : IsToken m.cseqMethod := by
    by_cases e : msg.cseqMethod = []
    · rw [f.cseqMethod e]; exact hm.method
    · rw [k.cseqMethod e]; exact hm.cseqMethod.resolve_left e
  have hmf : 0 ≤ m.maxForwards ∧ m.maxForwards < 2 ^ 63 := by
    by_cases e : msg.maxForwards = 0
    · rw [f.maxForwards e]; decide
    · rw [k.maxForwards e]; exact hm.maxForwards
  obtain ⟨r1, r2, r3, r4, _⟩ := k.rest
  refine ⟨⟨by rw [k.line.2.2]; exact hm.status, by rw [k.line.1]; exact hm.method, by rw [k.line.2.1]; exact hm.request, hmf,
    hvia.2, ?_, .inr hcid, hcs, .inr hcm, by rw [r3]; exact hm.expires, by rw [r4]; exact hm.minExpires, ?_,
    by rw [r2]; exact hm.xheader, by rw [r1]; exact hm.payload⟩, hfrom.1, hto.1, hcid, hcm, hvia.1⟩
  · intro g a ha
    by_cases h1 : g = .contact
    · subst h1; exact hcon a ha
    · by_cases h2 : g = .to
      · subst h2; exact hto.2 a ha
      · by_cases h3 : g = .from
        · subst h3; exact hfrom.2 a ha
        · rw [f.noMore.1 g h1 h2 h3] at ha
          exact hm.addrs g a ha
  · intro g hg
    by_cases h1 : g = .userAgent
    · subst h1
      by_cases e : msg.hdr .userAgent = []
      · rw [f.userAgent e]; exact ua_ok
      · rw [k.hdr _ e]; exact hm.hdr _ hg
    · rw [f.noMore.2.1 g h1]; exact hm.hdr g hg

theorem tag_filled {ids : Ids} {via : List Via} {contact : List Addr} {msg m : Msg} (f : FilledFrom ids via contact msg m)
    (k : Keeps msg m) : ∃ a l t, m.addrs .from = a :: l ∧ ParamIs a.param b!"tag" t := by
  cases e : msg.addrs .from with
  | nil =>
    obtain ⟨c, u, l, p, _, _, h3, ⟨⟨t, h4⟩, rfl⟩ | ⟨_, rfl⟩⟩ := f.from' e
    · exact ⟨_, _, t, h3, h4⟩
    · exact ⟨_, _, ids.tag, h3, [], _, _, rfl, rfl, rfl, by simp⟩
  | cons a l =>
    rcases noParam_or a.param b!"tag" with hn | ⟨t, ht⟩
    · exact ⟨_, _, ids.tag, f.tag a l e hn, [], _, _, rfl, rfl, rfl, by simp⟩
    · obtain ⟨p, h1, rfl | ⟨h2, _⟩⟩ := k.from' a l e
      · exact ⟨_, _, t, h1, ht⟩
      · exact absurd h2 (paramIs_not_noParam ht)

/-- What `Send` hands to the socket is the text of a message that can be written, and the application's message is that
message now. -/
structure SentWell (env : SendEnv) (tp : Transport) (msg : Msg) (t : Bytes) (x : Msg) : Prop where
  left : (tp.send env msg).msg = x
  text : t = (seen env.origin x).text env.origin
  ok : MsgOK env.origin (seen env.origin x)
  line : x.status ≤ 0 ∧ x.method = msg.method
  via : ∃ v l p w, (if msg.via = [] then tp.via else msg.via) = v :: l ∧
    ((∃ b, ParamIs v.param b!"branch" b) ∧ p = v.param ∨ NoParam v.param b!"branch" ∧ p = (b!"branch", env.ids.branch) :: v.param) ∧
    x.via = w :: l ∧ SameHop { v with param := p } w ∧
    ∀ n, NoParam v.param n → ¬ SameName b!"branch" n → ¬ SameName b!"usi" n → NoParam w.param n
  callID : x.callID = if msg.callID = [] then env.ids.callID else msg.callID
  cseq : x.cseq = if msg.cseq = 0 then env.ids.cseq else msg.cseq
  cseqMethod : x.cseqMethod = if msg.cseqMethod = [] then msg.method else msg.cseqMethod
  to : msg.addrs .to ≠ [] → x.addrs .to = msg.addrs .to
  from' : ∀ a l t, msg.addrs .from = a :: l → ParamIs a.param b!"tag" t → x.addrs .from = msg.addrs .from
  payload : x.payload = msg.payload
  kept : msg.via ≠ [] → (tp.send env msg).tp = tp
  again : ∀ gen, (∀ p, msg.payload = some p → PayloadOK gen (bodySeen gen p)) → Portable gen x
  tag : ∃ a l t, x.addrs .from = a :: l ∧ ParamIs a.param b!"tag" t

theorem sent_well {env : SendEnv} {tp : Transport} {msg : Msg} {t dest : Bytes} (hc : Carrier env tp)
    (hm : Portable env.origin msg) (h : (tp.send env msg).wire = some (t, dest)) : ∃ x, SentWell env tp msg t x := by
  have hr : msg.isResponse = false := by
    have := hm.status
    exact decide_eq_false (by omega)
  obtain ⟨m, route, u, sent, hop, x, f, k, h1, h2, h3, h4, h5, h6⟩ := request_sent hr h
  obtain ⟨q, qfrom, qto, qid, qcm, qvia⟩ := filled_ok hc hm f k
  -- what routing leaves
  have hroute : ∀ a ∈ route, AddrOK (addrSeen a) := by
    have ho := hm.addrs .route
    rcases h1 with ⟨_, a, _, _, e⟩ | ⟨_, rfl⟩
    · rw [e] at ho; exact fun b hb => ho b (List.mem_cons_of_mem _ hb)
    · exact ho
  have hnext : (∃ y, u = some y ∧ UriOK y) ∧ ∀ a ∈ sent, AddrOK (addrSeen a) := by
    obtain ⟨y, hy, hyo⟩ := hm.request
    cases h2 with
    | direct e => rw [hy] at e; cases e; exact ⟨⟨_, rfl, hyo⟩, by simp⟩
    | loose _ _ => exact ⟨⟨y, hy, hyo⟩, hroute⟩
    | @strict a v l e _ =>
      obtain ⟨v', hv', ho⟩ := addrSeen_uri (hroute a List.mem_cons_self)
      rw [e] at hv'; cases hv'
      refine ⟨⟨_, rfl, ho⟩, ?_⟩
      intro b hb
      rcases List.mem_append.1 hb with hb | hb
      · obtain ⟨b', hb', rfl⟩ := List.mem_map.1 hb
        exact bare_ok (hroute b' (List.mem_cons_of_mem _ hb'))
      · simp only [List.mem_singleton] at hb
        subst hb
        exact addrOK_mk (u := y) hy hyo display_nil param_nil
  have hless : 0 ≤ oneLess m.maxForwards ∧ oneLess m.maxForwards < 2 ^ 63 := by
    have := q.maxForwards
    unfold oneLess; split <;> omega
  obtain ⟨l, rfl, hl⟩ := timed_via h3 q.via
  have haddrs : ∀ g, ∀ a ∈ setAt m.addrs .route sent g, AddrOK (addrSeen a) := by
    intro g a ha
    by_cases e : g = .route
    · subst e
      rw [show setAt m.addrs .route sent .route = sent from setAt_same ..] at ha
      exact hnext.2 a ha
    · rw [setAt_ne _ _ e] at ha
      exact q.addrs g a ha
  refine ⟨_, h5, ?_, ?_, ⟨q.status, k.line.1⟩, ?_, ?_, ?_, ?_, ?_, ?_, k.rest.1, h6,
    fun gen hg => ⟨q.status, q.method, hnext.1, hless, hl, haddrs, q.callID, q.cseq, q.cseqMethod, q.expires, q.minExpires,
      q.hdr, q.xheader, fun p hp => hg p (k.rest.1 ▸ hp)⟩, ?_⟩
  · rw [text_seen hc.origin]; exact h4
  · refine ⟨.inl ⟨q.status, .inr q.method, ?_, hless⟩, hl, ?_, ?_, ?_, qid, q.cseq, qcm, q.expires, q.minExpires, q.hdr,
      q.xheader, ?_⟩
    · intro z hz
      obtain ⟨y, rfl, hyo⟩ := hnext.1
      have hz : some (withScheme y) = some z := hz
      cases hz
      exact hyo
    · intro g a ha
      obtain ⟨b, hb, rfl⟩ := List.mem_map.1 ha
      exact haddrs g b hb
    · show (setAt m.addrs .route sent .from).map addrSeen ≠ []
      rw [setAt_ne _ _ (by decide)]; simp [qfrom]
    · show (setAt m.addrs .route sent .to).map addrSeen ≠ []
      rw [setAt_ne _ _ (by decide)]; simp [qto]
    · intro p hp
      have hp : m.payload.map (bodySeen env.origin) = some p := hp
      cases e : m.payload with
      | none => rw [e] at hp; cases hp
      | some b =>
        rw [e] at hp
        cases hp
        exact q.payload b e
  · obtain ⟨v, l', p, e1, e2, e3⟩ := f.via
    obtain ⟨w, hw1, hw2, _⟩ := sameHop_timed (v := { v with param := p }) (l := l') h3 e2
    have hw3 : l = w :: l' := congrArg Msg.via hw1
    refine ⟨v, l', p, w, e1, e3, hw3, hw2, ?_⟩
    intro n hn hnb hnu
    have hp : NoParam p n := by
      rcases e3 with ⟨_, rfl⟩ | ⟨_, rfl⟩
      · exact hn
      · exact (noParam_cons_ne hnb).2 hn
    rcases h3 with ⟨_, e⟩ | ⟨_, v2, l2, _, e, e'⟩
    · have e : l = m.via := congrArg Msg.via e
      rw [e2, hw3] at e
      cases e
      exact hp
    · have e' : l = _ := congrArg Msg.via e'
      have e : m.via = v2 :: l2 := e
      rw [e2] at e
      cases e
      rw [hw3] at e'
      cases e'
      exact (noParam_cons_ne hnu).2 hp
  · show m.callID = _
    split
    · exact f.callID (by assumption)
    · exact k.callID (by assumption)
  · show m.cseq = _
    split
    · exact f.cseq (by assumption)
    · exact k.cseq (by assumption)
  · show m.cseqMethod = _
    split
    · exact f.cseqMethod (by assumption)
    · exact k.cseqMethod (by assumption)
  · intro e
    show setAt m.addrs .route sent .to = _
    rw [setAt_ne _ _ (by decide)]
    exact k.addrs _ (by decide) e
  · intro a l0 tg e htg
    show setAt m.addrs .route sent .from = _
    rw [setAt_ne _ _ (by decide)]
    obtain ⟨p, e1, e2⟩ := k.from' a l0 e
    rcases e2 with rfl | ⟨e2, _⟩
    · rw [e1, e]
    · exact absurd e2 (paramIs_not_noParam htg)
  · show ∃ a l0 t, setAt m.addrs .route sent .from = a :: l0 ∧ _
    rw [setAt_ne _ _ (by decide)]
    exact tag_filled f k

/-- **C99** (requests). Whoever gets a request that a transport has sent hears it, with its method and numbers, the parties
and the body. -/
theorem C99_heard (env : SendEnv) (tp : Transport) (msg : Msg) (hc : Carrier env tp) (hm : Portable env.origin msg)
    (t dest : Bytes) (h : (tp.send env msg).wire = some (t, dest)) (hlen : t.length ≤ 2048) (e : Ear) (source : UDPAddr) :
    ∃ got, Hears e t source got ∧ HeardAs env.origin (tp.send env msg).msg got := by
  obtain ⟨x, s⟩ := sent_well hc hm h
  rw [s.left]
  obtain ⟨v, l, p, w, _, _, hv, _⟩ := s.via
  exact heard_of s.ok s.line.1 (by rw [s.line.2]; exact hm.method.1) (by rw [hv]; simp) s.text hlen e source

/-- **C99** (answers). The answer to a request with one Via comes back to its sender, with the status, Contact and body that
were put in; it is known to be the answer exactly if the Via does not name the port 5060. -/
theorem C99_answered (env : SendEnv) (tp : Transport) (msg : Msg) (hc : Carrier env tp) (hm : Portable env.origin msg)
    (hcm : msg.cseqMethod = [] ∨ msg.cseqMethod = msg.method) (v : Via) (hv : OneVia tp msg v)
    (t dest : Bytes) (h : (tp.send env msg).wire = some (t, dest))
    (callee caller : Ear) (tp' : Transport) (env' : SendEnv) (source source' : UDPAddr) (status : Int) (contact : List Addr)
    (body : Option Payload) (t' dest' : Bytes) (hx : Exchange callee tp' env' source status contact body t t' dest') :
    ∃ ans, Hears caller t' source' ans ∧ (Answers (tp.send env msg).msg ans ↔ v.port ≠ 5060) ∧ ans.status = status ∧
      ans.callID = (tp.send env msg).msg.callID ∧ ans.addrs .contact = contact ∧ ans.payload = body ∧
      ans.addrs .from = ((tp.send env msg).msg.addrs .from).map addrSeen ∧
      ans.addrs .to = ((tp.send env msg).msg.addrs .to).map addrSeen ∧ MsgOK env'.origin ans ∧
      ans.cseq = (tp.send env msg).msg.cseq ∧
      (∃ w, ans.via = [w] ∧ w.host = v.host ∧ w.port = if v.port = 5060 then 0 else v.port) ∧
      (NoParam v.param b!"received" → NoParam v.param b!"rport" →
        env'.resolve (joinHostPort source.ip (natDec source.port.toNat)) = .ok dest') := by
  obtain ⟨x, s⟩ := sent_well hc hm h
  rw [s.left]
  obtain ⟨v', l, p, w, e1, e2, e3, e4, e5⟩ := s.via
  rw [show _ = [v] from hv] at e1
  cases e1
  obtain ⟨b, hb⟩ : ∃ b, ParamIs w.param b!"branch" b := by
    rcases e2 with ⟨⟨b, hb⟩, rfl⟩ | ⟨_, rfl⟩
    · exact ⟨b, (e4.branch b).2 hb⟩
    · exact ⟨env.ids.branch, (e4.branch _).2 ⟨[], _, _, rfl, rfl, rfl, by simp⟩⟩
  obtain ⟨got, hgot, hsend⟩ := hx.answered
  have ht := s.text
  subst ht
  obtain ⟨ans, w', h1, h2, h3, h4, h5, h6, h7, h8, h9, h10, h11, h12, h13, h14, h15, h16, _⟩ :=
    reply_arrives (lhost' := caller.host) (lport' := caller.port) (ts' := caller.clock) (addr' := source') s.ok s.line.1
      (v := w) e3 hx.short.1 hx.known hx.good hgot hsend hx.short.2
  refine ⟨ans, h1, ?_, h2, h3, h6, h7, h15, h16, h9, h4, ⟨w', h10, h11.trans e4.host, by rw [h12, e4.port]⟩, ?_⟩
  · have hq : x.cseqMethod = x.method := by
      rw [s.cseqMethod, s.line.2]
      rcases hcm with e | e
      · rw [if_pos e]
      · split
        · rfl
        · exact e
    rw [comes_back (req := x) (v := w) (w := w') e3 hb h10 ⟨h11, h12, h13⟩ (by rw [h2]; have := hx.good.status; omega) h4 h5 hq,
      e4.port]
  · intro n1 n2
    exact h14 (e5 _ n1 (by decide) (by decide)) (.inl (e5 _ n2 (by decide) (by decide)))

/-! ### The requests of a call -/

theorem withScheme_idem (u : URI) : withScheme (withScheme u) = withScheme u := by
  unfold withScheme
  split
  · rfl
  · rfl

theorem addrSeen_idem (a : Addr) : addrSeen (addrSeen a) = addrSeen a := by
  obtain ⟨u, d, p⟩ := a
  cases u with
  | none => rfl
  | some u => simp only [addrSeen, Option.map, withScheme_idem]

theorem seen_idem (l : List Addr) : (l.map addrSeen).map addrSeen = l.map addrSeen := by
  rw [List.map_map]
  exact List.map_congr_left (fun a _ => addrSeen_idem a)

/-- What `NewRequest` makes of good addresses can be written. -/
theorem request_ok {ids : Ids} {tp : Transport} {method : Bytes} {to from' : List Addr} {m : Msg} {gen : Bytes}
    {body : Option Payload} (hi : GoodIds ids) (hv : ∀ v ∈ tp.via, ViaOK v) (hc : ∀ a ∈ tp.contact, AddrOK (addrSeen a))
    (hm : IsToken method) (hto : ∀ a ∈ to, AddrOK (addrSeen a)) (hfrom : ∀ a ∈ from', AddrOK (addrSeen a))
    (hb : ∀ p, body = some p → PayloadOK gen (bodySeen gen p))
    (h : newRequest ids tp.via tp.contact method to from' = .ok m) : Portable gen { m with payload := body } := by
  have b := (C74_new_request ids tp method to from').1 m h
  obtain ⟨a, l, e1, e2⟩ := b.target
  obtain ⟨v, vl, e3, e4⟩ := b.via
  obtain ⟨f, fl, e5, e6⟩ := b.from'
  have hf : ∀ a ∈ f :: fl, AddrOK (addrSeen a) := by
    rw [← e5]; split
    · exact hc
    · exact hfrom
  obtain ⟨b1, b2, b3, b4, b5⟩ := b.only.rest
  obtain ⟨u, hu, huo⟩ := addrSeen_uri (hto a (by rw [e1]; simp))
  refine ⟨by show m.status ≤ 0; rw [b.method.2.2]; decide, by show IsToken m.method; rw [b.method.1]; exact hm,
    ⟨u, e2.trans hu, huo⟩, by show 0 ≤ m.maxForwards ∧ _; rw [b3]; exact zero_ok, ?_, ?_,
    .inr (by show CallIDText m.callID; rw [b.callID]; exact hi.callID),
    by show 0 ≤ m.cseq ∧ m.cseq < _; rw [b.cseq]; exact hi.cseq,
    .inr (by show IsToken m.cseqMethod; rw [b.method.2.1]; exact hm),
    by show 0 ≤ m.expires ∧ m.expires < _; rw [b4]; exact zero_ok,
    by show 0 ≤ m.minExpires ∧ m.minExpires < _; rw [b5]; exact zero_ok, ?_,
    by show ∀ p ∈ m.xheader, _; rw [b2]; exact (fun p hp => nomatch hp), hb⟩
  · show ∀ v ∈ m.via, ViaOK v
    rw [e4]
    rw [e3] at hv
    intro x hx
    rcases List.mem_cons.1 hx with rfl | hx
    · exact branch_ok (hv v List.mem_cons_self) hi.branch
    · exact hv x (List.mem_cons_of_mem _ hx)
  · show ∀ g, ∀ a ∈ m.addrs g, AddrOK (addrSeen a)
    intro g x hx
    have := b.only.addrs g (by intro e; rw [e] at hx; exact nomatch hx)
    simp only [List.mem_cons, List.not_mem_nil, or_false] at this
    rcases this with rfl | rfl
    · rw [e6] at hx
      rcases List.mem_cons.1 hx with rfl | hx
      · exact tag_ok (a := bare f) (bare_ok (hf f List.mem_cons_self)) hi.tag
      · obtain ⟨y, hy, rfl⟩ := List.mem_map.1 hx
        exact bare_ok (hf y (List.mem_cons_of_mem _ hy))
    · rw [b.to] at hx
      obtain ⟨y, hy, rfl⟩ := List.mem_map.1 hx
      exact bare_ok (hto y hy)
  · show ∀ g, g ≠ .acceptContact → TextOK (m.hdr g)
    intro g _
    by_cases e : m.hdr g = []
    · rw [e]; exact textOK_nil
    · have := b.only.hdr g e
      simp only [List.mem_cons, List.not_mem_nil, or_false] at this
      subst this
      rw [b.product]; exact ua_ok

theorem ack_ok {g gen gen' : Bytes} {rsp first ack : Msg} (h : MsgOK g rsp) (hf : MsgOK gen (seen gen first))
    (ha : newAck rsp first = .ok ack) : Portable gen' ack := by
  simp only [newAck, Res.bind_eq, Res.bind_ok_iff] at ha
  obtain ⟨u, hu, v, hv, ha⟩ := ha
  obtain ⟨u, rfl, ho⟩ := heard_uri ⟨g, h⟩ hu
  cases ha
  refine ⟨Int.le_refl _, tok_ack, ⟨u, rfl, ho⟩, zero_ok, ?_, ?_, .inr h.callID, h.cseq, .inr tok_ack, zero_ok, zero_ok, ?_,
    (fun p hp => nomatch hp), (fun p hp => nomatch hp)⟩
  · intro x hx
    cases hm : rsp.via with
    | nil => simp [hm, viaDetach] at hv
    | cons y l =>
      simp only [hm, viaDetach, Res.ok.injEq] at hv
      subst hv
      simp only [List.mem_singleton] at hx
      subst hx
      exact h.via x (by rw [hm]; exact List.mem_cons_self)
  · intro f a ha
    refine addrOK_seen ?_
    cases f <;> first | exact h.addrs _ a ha | exact h.addrs .recordRoute a (reversed_mem ha) | exact nomatch ha
  · intro f _
    cases f <;> first | exact ua_ok | exact textOK_nil | exact hf.hdr _ (by decide)

theorem bye_ok {g gen gen' : Bytes} {rsp first bye : Msg} {n : Int} (h : MsgOK g rsp) (hf : MsgOK gen (seen gen first))
    (hn : first.cseq + 1 < 2 ^ 63) (hb : newBye first rsp none = .ok (bye, n)) : Portable gen' bye ∧ n = first.cseq + 1 := by
  simp only [newBye, Res.bind_eq, Res.bind_ok_iff] at hb
  obtain ⟨u, hu, hb⟩ := hb
  obtain ⟨u, rfl, ho⟩ := heard_uri ⟨g, h⟩ hu
  have hc : 0 ≤ first.cseq ∧ first.cseq < 2 ^ 63 := hf.cseq
  have hn : wrap64 (first.cseq + 1) = first.cseq + 1 := MsgM.wrap64_small (by omega) (by omega)
  simp only [Option.getD, hn] at hb
  cases hb
  refine ⟨⟨Int.le_refl _, tok_bye, ⟨u, rfl, ho⟩, zero_ok, (fun v hv => nomatch hv), ?_, .inr hf.callID, ?_, .inr tok_bye,
    zero_ok, zero_ok, fun f _ => textOK_nil, (fun p hp => nomatch hp), (fun p hp => nomatch hp)⟩, rfl⟩
  · intro f a ha
    cases f <;> first | exact hf.addrs _ _ (List.mem_map.2 ⟨a, ha, rfl⟩) | exact addrOK_seen (h.addrs _ a ha) |
      exact addrOK_seen (h.addrs .recordRoute a (reversed_mem ha)) | exact nomatch ha
  · show 0 ≤ first.cseq + 1 ∧ first.cseq + 1 < 2 ^ 63
    omega

/-- The Via of a request as it is heard. -/
theorem via_heard {gen : Bytes} {x : Msg} {v : Via} (hok : MsgOK gen (seen gen x)) (hs : x.status ≤ 0) (hv : x.via = [v])
    {t : Bytes} (ht : t = (seen gen x).text gen) (hlen : t.length ≤ 2048) {e : Ear} {source : UDPAddr}
    (hip : ∀ c ∈ source.ip, ip6c c) {got : Msg} (h : Hears e t source got) :
    ∃ w, got.via = [w] ∧ w.host = v.host ∧ (w.port = if v.port = 5060 then 0 else v.port) ∧
      ∀ b, ParamIs w.param b!"branch" b ↔ ParamIs v.param b!"branch" b := by
  obtain ⟨m, hm, hr⟩ := (C70_delivered _ _ _ _ _).1 got h
  rw [List.take_of_length_le hlen, ht, C14_read_back gen hok] at hm
  cases hm
  have hrs : (readBack (seen gen x)).status ≤ 0 := by
    show (if x.status > 0 then x.status else 0) ≤ 0
    rw [if_neg (by omega)]; omega
  have hv' : (readBack (seen gen x)).via = [viaRead v] := by
    show x.via.map viaRead = _
    rw [hv]; rfl
  obtain ⟨w, g1, g2, _⟩ := got_facts hr hrs hv' hip
  exact ⟨w, g1, g2.host, g2.port, g2.branch⟩

/-- The second program hears a request of the call. -/
theorem in_call {env : SendEnv} {tp : Transport} {msg first : Msg} {t dest : Bytes} (hc : Carrier env tp)
    (hm : Portable env.origin msg) (h : (tp.send env msg).wire = some (t, dest)) (hlen : t.length ≤ 2048)
    (h1 : msg.cseqMethod = msg.method) (h2 : msg.callID = first.callID) (h3 : msg.callID ≠ []) (h4 : msg.cseq ≠ 0)
    (h5 : (msg.addrs .from).map addrSeen = (first.addrs .from).map addrSeen)
    (h6 : ∃ a l t, msg.addrs .from = a :: l ∧ ParamIs a.param b!"tag" t)
    (h7 : (msg.addrs .to).map addrSeen = (first.addrs .to).map addrSeen) (h8 : msg.addrs .to ≠ []) (e : Ear)
    (source : UDPAddr) : ∃ got, Hears e t source got ∧ SameCall first got msg.method msg.cseq ∧
      ∀ y, msg.via = [y] → (∀ c ∈ source.ip, ip6c c) →
        ∃ w, got.via = [w] ∧ w.host = y.host ∧ (w.port = if y.port = 5060 then 0 else y.port) ∧
          ∀ b, ParamIs y.param b!"branch" b → ParamIs w.param b!"branch" b := by
  obtain ⟨got, g1, g2⟩ := C99_heard env tp msg hc hm t dest h hlen e source
  obtain ⟨x, s⟩ := sent_well hc hm h
  rw [s.left] at g2
  refine ⟨got, g1, ⟨⟨g2.method.trans s.line.2, ?_, g2.request⟩, ?_, ?_, ?_, ?_⟩, ?_⟩
  · rw [g2.cseq.2, s.cseqMethod]; split
    · rfl
    · exact h1
  · rw [g2.callID, s.callID, if_neg h3, h2]
  · rw [g2.cseq.1, s.cseq, if_neg h4]
  · obtain ⟨a, l, t, e1, e2⟩ := h6
    rw [g2.addrs _ (by decide), s.from' a l t e1 e2, h5]
  · rw [g2.addrs _ (by decide), s.to h8, h7]
  · intro y hy hip
    obtain ⟨v, l, p, w, e1, e2, e3, e4, _⟩ := s.via
    rw [if_neg (by rw [hy]; simp), hy] at e1
    cases e1
    obtain ⟨w', k1, k2, k3, k4⟩ := via_heard s.ok s.line.1 e3 s.text hlen hip g1
    refine ⟨w', k1, k2.trans e4.host, by rw [k3, e4.port], ?_⟩
    intro b hb
    rw [k4, e4.branch]
    rcases e2 with ⟨_, rfl⟩ | ⟨e2, _⟩
    · exact hb
    · exact absurd e2 (paramIs_not_noParam hb)

/-- **C99** (a whole call; missing: transports at port 5060, whose requests are heard but whose answers are not known, see
`C99_answered`). A program makes an INVITE with `NewRequest`, puts a body in and sends it with its transport; the other
program answers it with 200. Then the first program hears the answer and knows it; the ACK and the BYE that it makes of
the two are heard by the other program as requests of the call, with the number of the INVITE and the next one; and the
first program knows whatever the other answers to the BYE. The other program can tell that the ACK is one for its answer. -/
theorem C99_call_partial (tp : Transport) (v : Via) (hv : tp.via = [v]) (hport : v.port ≠ 5060)
    (env1 env2 env3 : SendEnv) (hc1 : Carrier env1 tp) (hc2 : Carrier env2 tp) (hc3 : Carrier env3 tp)
    (ids : Ids) (hi : GoodIds ids) (hseq : 0 < ids.cseq ∧ ids.cseq + 1 < 2 ^ 63)
    (to from' : List Addr) (hto : ∀ a ∈ to, AddrOK (addrSeen a)) (hfrom : ∀ a ∈ from', AddrOK (addrSeen a))
    (body : Option Payload) (hb : ∀ p, body = some p → PayloadOK env1.origin (bodySeen env1.origin p))
    (m : Msg) (hm : newRequest ids tp.via tp.contact b!"INVITE" to from' = .ok m)
    (t1 d1 : Bytes) (h1 : (tp.send env1 { m with payload := body }).wire = some (t1, d1))
    (callee caller : Ear) (tp' : Transport) (env' : SendEnv) (source source' : UDPAddr) (contact : List Addr)
    (hct : contact ≠ []) (body' : Option Payload) (t2 d2 : Bytes)
    (hx : Exchange callee tp' env' source 200 contact body' t1 t2 d2) :
    ∃ first ans ack bye, (tp.send env1 { m with payload := body }).msg = first ∧
      (tp.send env1 { m with payload := body }).tp = tp ∧
      Hears caller t2 source' ans ∧ Answers first ans ∧ ans.status = 200 ∧ ans.payload = body' ∧
      newAck ans first = .ok ack ∧ newBye first ans none = .ok (bye, first.cseq + 1) ∧
      (∀ t3 d3, (tp.send env2 ack).wire = some (t3, d3) → t3.length ≤ 2048 → (tp.send env2 ack).tp = tp ∧
        ∀ e s, ∃ got, Hears e t3 s got ∧ SameCall first got b!"ACK" first.cseq ∧
          ∀ asked, Hears callee t1 source asked → (∀ c ∈ s.ip, ip6c c) → AckOf (answerTo asked 200 contact body') got) ∧
      ∀ t4 d4, (tp.send env3 bye).wire = some (t4, d4) → t4.length ≤ 2048 →
        (∀ e s, ∃ got, Hears e t4 s got ∧ SameCall first got b!"BYE" (first.cseq + 1)) ∧
        ∀ tp'' env'' src status c b t5 d5, Exchange callee tp'' env'' src status c b t4 t5 d5 → ∀ s, ∃ ans',
          Hears caller t5 s ans' ∧ Answers (tp.send env3 bye).msg ans' ∧ ans'.status = status := by
  have hp := request_ok (body := body) hi hc1.via hc1.contact (token_of b!"INVITE" (by decide) (by decide)) hto hfrom hb hm
  have bg := (C74_new_request ids tp _ to from').1 m hm
  obtain ⟨first, s⟩ := sent_well hc1 hp h1
  obtain ⟨w, wl, e1, e2⟩ := bg.via
  rw [hv] at e1
  cases e1
  have hone : OneVia tp { m with payload := body } { v with param := (b!"branch", ids.branch) :: v.param } := by
    show (if m.via = [] then _ else m.via) = _
    rw [e2]; rfl
  obtain ⟨ans, a1, a2, a3, a4, a5, a6, a7, a8, a9, a10, a11, _⟩ := C99_answered env1 tp _ hc1 hp
    (.inr (bg.method.2.1.trans bg.method.1.symm)) _ hone t1 d1 h1 callee caller tp' env' source source' 200 contact body' t2 d2 hx
  rw [s.left] at a2 a4 a7 a8 a10
  have hcs : first.cseq = ids.cseq := by
    rw [s.cseq]
    show (if m.cseq = 0 then _ else m.cseq) = _
    rw [bg.cseq, if_neg (by omega)]
  obtain ⟨f, fl, f1, f2⟩ := bg.from'
  have hff : first.addrs .from = { bare f with param := (b!"tag", ids.tag) :: f.param } :: fl.map bare := by
    rw [s.from' _ _ ids.tag f2 ⟨[], _, _, rfl, rfl, rfl, by simp⟩]; exact f2
  have htag : ParamIs ({ bare f with param := (b!"tag", ids.tag) :: f.param } : Addr).param b!"tag" ids.tag :=
    ⟨[], _, _, rfl, rfl, rfl, by simp⟩
  obtain ⟨c, cl, hc⟩ : ∃ c cl, ans.addrs .contact = c :: cl := by
    rw [a5]; exact List.exists_cons_of_ne_nil hct
  obtain ⟨y, hy, hy1, hy2⟩ := a11
  obtain ⟨ack, hack, k1, k2, k3, k4, k5, k6, k7⟩ : ∃ ack, newAck ans first = .ok ack ∧ ack.method = b!"ACK" ∧
      ack.cseqMethod = b!"ACK" ∧ ack.callID = ans.callID ∧ ack.cseq = ans.cseq ∧ ack.addrs .from = ans.addrs .from ∧
      ack.addrs .to = ans.addrs .to ∧ ack.via = [y] := by
    simp only [newAck, hc, hy, headUri, viaDetach, Res.bind_eq, Res.bind, Res.pure_eq]
    exact ⟨_, rfl, rfl, rfl, rfl, rfl, rfl, rfl, rfl⟩
  obtain ⟨bye, n, hbye, l1, l2, l3, l4, l5, l6, l7⟩ : ∃ bye n, newBye first ans none = .ok (bye, n) ∧ bye.method = b!"BYE" ∧
      bye.cseqMethod = b!"BYE" ∧ bye.callID = first.callID ∧ bye.cseq = n ∧ bye.addrs .from = first.addrs .from ∧
      bye.addrs .to = ans.addrs .to ∧ bye.via = [] := by
    simp only [newBye, hc, headUri, Res.bind_eq, Res.bind, Res.pure_eq]
    exact ⟨_, _, rfl, rfl, rfl, rfl, rfl, rfl, rfl, rfl⟩
  have pa := ack_ok (gen' := env2.origin) a9 s.ok hack
  obtain ⟨pb, rfl⟩ := bye_ok (gen' := env3.origin) a9 s.ok (by rw [hcs]; exact hseq.2) hbye
  have hcid : ans.callID ≠ [] := by
    obtain ⟨a, b, h1, h2, h3 | ⟨h3, _⟩⟩ := a9.callID
    · rw [h3]; exact h1
    · rw [h3]; simp
  have hton : ans.addrs .to ≠ [] := a9.to
  have htoq : (ans.addrs .to).map addrSeen = (first.addrs .to).map addrSeen := by rw [a8, seen_idem]
  refine ⟨first, ans, ack, bye, s.left, s.kept (by rw [e2]; simp), a1, a2.2 hport, a3, a6, hack, hbye, ?_, ?_⟩
  · intro t3 d3 h3 hlen
    obtain ⟨_, s3⟩ := sent_well hc2 pa h3
    refine ⟨s3.kept (by rw [k7]; simp), fun e sr => ?_⟩
    have := in_call (first := first) hc2 pa h3 hlen (by rw [k1, k2]) (by rw [k3, a4]) (by rw [k3]; exact hcid)
      (by rw [k4, a10, hcs]; omega) (by rw [k5, a7, seen_idem])
      ⟨addrSeen { bare f with param := (b!"tag", ids.tag) :: f.param }, _, ids.tag, by rw [k5, a7, hff, List.map_cons],
        htag⟩ (by rw [k6, htoq]) (by rw [k6]; exact hton) e sr
    rw [k1, k4, a10] at this
    obtain ⟨got, g1, g2, g3⟩ := this
    refine ⟨got, g1, g2, ?_⟩
    intro asked hasked hip
    obtain ⟨w, w1, w2, w3, _⟩ := g3 y k7 hip
    obtain ⟨v0, l0, p0, w0, q1, _, q3, q4, _⟩ := s.via
    rw [show _ = [_] from hone] at q1
    cases q1
    obtain ⟨z, z1, z2, z3, _⟩ := via_heard s.ok s.line.1 q3 s.text hx.short.1 hx.known hasked
    have hq : asked.cseq = first.cseq := by
      obtain ⟨got', r1, r2⟩ := C99_heard env1 tp _ hc1 hp t1 d1 h1 hx.short.1 callee source
      have : some got' = some asked := Res.ok.inj (r1.symm.trans hasked)
      cases this
      rw [r2.cseq.1, s.left]
    refine ⟨by rw [g2.method.2.2]; decide, g2.method.1, g2.method.2.1, by rw [g2.cseq]; exact hq.symm, [], w, z, [], w1, z1, ?_, ?_⟩
    · rw [w2, hy1, z2, q4.host]
    · rw [w3, hy2, z3, q4.port]
      by_cases hvp : v.port = 5060
      · exact absurd hvp hport
      · simp [hvp]
  · intro t4 d4 h4 hlen
    refine ⟨fun e sr => ?_, ?_⟩
    · have := in_call (first := first) hc3 pb h4 hlen (by rw [l1, l2]) l3 (by rw [l3, ← a4]; exact hcid)
        (by rw [l4, hcs]; omega) (by rw [l5])
        ⟨_, _, ids.tag, by rw [l5, hff], htag⟩ (by rw [l6, htoq]) (by rw [l6]; exact hton) e sr
      rw [l1, l4] at this
      obtain ⟨got, g1, g2, _⟩ := this
      exact ⟨got, g1, g2⟩
    · intro tp'' env'' src status c b t5 d5 hx' sr
      obtain ⟨ans', b1, b2, b3, _⟩ := C99_answered env3 tp bye hc3 pb (.inr (by rw [l1, l2])) v
        (by show (if bye.via = [] then tp.via else bye.via) = [v]; rw [if_pos l7, hv]) t4 d4 h4 callee caller tp'' env'' src sr
        status c b t5 d5 hx'
      exact ⟨ans', b1, b2.2 hport, b3⟩

/-! ### Giving up and trying again -/

/-- A request with the Via, Call-ID, number and parties of one that was sent. -/
structure LikeFirst (first msg : Msg) : Prop where
  via : msg.via = first.via
  callID : msg.callID = first.callID
  cseq : msg.cseq = first.cseq
  cseqMethod : msg.cseqMethod = msg.method
  parties : msg.addrs .from = first.addrs .from ∧ msg.addrs .to = first.addrs .to

theorem like_first {env env' : SendEnv} {tp : Transport} {msg first msg' : Msg} {t t' dest' : Bytes}
    (s : SentWell env tp msg t first) (hl : LikeFirst first msg') (hseq : first.cseq ≠ 0) (hc' : Carrier env' tp)
    (hm' : Portable env'.origin msg') (v : Via) (hv : OneVia tp msg v)
    (h' : (tp.send env' msg').wire = some (t', dest')) (hlen : t'.length ≤ 2048) :
    (tp.send env' msg').tp = tp ∧
    (∀ e source, (∀ c ∈ source.ip, ip6c c) → ∃ got b, Hears e t' source got ∧ SameCall first got msg'.method first.cseq ∧
      HasBranch first b ∧ HasBranch got b) ∧
    ∃ x', (tp.send env' msg').msg = x' ∧ x'.cseq = first.cseq ∧ x'.method = msg'.method ∧ (∀ ans, Answers x' ans →
      ∃ more mine sent older, ans.via = more ++ [mine] ∧ first.via = sent :: older ∧ mine.host = sent.host ∧ mine.port = sent.port ∧
        ∃ branch, ParamIs mine.param b!"branch" branch ∧ ParamIs sent.param b!"branch" branch) ∧
      ∃ y, OneVia tp msg' y ∧ y.port = v.port := by
  obtain ⟨v0, l0, p0, w, e1, e2, e3, e4, _⟩ := s.via
  rw [show _ = [v] from hv] at e1
  cases e1
  obtain ⟨b, hb⟩ : ∃ b, ParamIs w.param b!"branch" b := by
    rcases e2 with ⟨⟨b, hb⟩, rfl⟩ | ⟨_, rfl⟩
    · exact ⟨b, (e4.branch b).2 hb⟩
    · exact ⟨env.ids.branch, (e4.branch _).2 ⟨[], _, _, rfl, rfl, rfl, by simp⟩⟩
  have hvia : msg'.via = [w] := by rw [hl.via, e3]
  obtain ⟨x', s'⟩ := sent_well hc' hm' h'
  have hcid : first.callID ≠ [] := by
    obtain ⟨a, b, h1, h2, h3 | ⟨h3, _⟩⟩ := s.ok.callID
    · rw [show first.callID = _ from h3]; exact h1
    · rw [show first.callID = _ from h3]; simp
  have hto : first.addrs .to ≠ [] := by
    have : (first.addrs .to).map addrSeen ≠ [] := s.ok.to
    intro e; rw [e] at this; exact this rfl
  refine ⟨s'.kept (by rw [hvia]; simp), ?_, x', s'.left, by rw [s'.cseq, hl.cseq, if_neg hseq], s'.line.2, ?_, w, ?_, e4.port⟩
  · intro e source hip
    obtain ⟨a, l, tg, f1, f2⟩ := s.tag
    obtain ⟨got, g1, g2, g3⟩ := in_call (first := first) hc' hm' h' hlen hl.cseqMethod hl.callID (by rw [hl.callID]; exact hcid)
      (by rw [hl.cseq]; exact hseq) (by rw [hl.parties.1]) ⟨a, l, tg, by rw [hl.parties.1, f1], f2⟩ (by rw [hl.parties.2])
      (by rw [hl.parties.2]; exact hto) e source
    rw [hl.cseq] at g2
    obtain ⟨w', k1, _, _, k4⟩ := g3 w hvia hip
    exact ⟨got, b, g1, g2, ⟨w, [], e3, hb⟩, ⟨w', [], k1, k4 b hb⟩⟩
  · rintro ans ⟨_, _, _, more, mine, sent, older, a1, a2, a3, a4, br, a5, a6⟩
    obtain ⟨v1, l1, p1, w1, q1, q2, q3, q4, _⟩ := s'.via
    rw [if_neg (by rw [hvia]; simp), hvia] at q1
    cases q1
    rw [q3] at a2
    cases a2
    refine ⟨more, mine, w, [], a1, e3, a3.trans q4.host, a4.trans q4.port, br, a5, ?_⟩
    have := (q4.branch br).1 a6
    rcases q2 with ⟨_, rfl⟩ | ⟨q2, _⟩
    · exact this
    · exact absurd q2 (paramIs_not_noParam hb)
  · show (if msg'.via = [] then tp.via else msg'.via) = [w]
    rw [hvia]; rfl

theorem cancel_ok {env : SendEnv} {tp : Transport} {msg first : Msg} {t gen : Bytes} (s : SentWell env tp msg t first)
    (hm : Portable env.origin msg) : Portable gen (newCancel first) := by
  have q := s.again env.origin hm.payload
  exact ⟨Int.le_refl _, tok_cancel, q.request, zero_ok, q.via,
    (by intro f a ha; cases f <;> first | exact q.addrs _ a ha | exact nomatch ha),
    q.callID, q.cseq, .inr tok_cancel, zero_ok, zero_ok, fun f _ => textOK_nil, (fun p hp => nomatch hp), (fun p hp => nomatch hp)⟩

/-- **C99** (giving up). The CANCEL that a program makes of a request it has sent and sends is heard as the CANCEL of that
request: same Call-ID, number, parties and branch. The answer to it is known exactly if the Via does not name the port
5060. -/
theorem C99_cancel (env env' : SendEnv) (tp : Transport) (msg : Msg) (hc : Carrier env tp) (hc' : Carrier env' tp)
    (hm : Portable env.origin msg) (v : Via) (hv : OneVia tp msg v) (hseq : (tp.send env msg).msg.cseq ≠ 0)
    (t dest : Bytes) (h : (tp.send env msg).wire = some (t, dest)) (t' dest' : Bytes)
    (h' : (tp.send env' (newCancel (tp.send env msg).msg)).wire = some (t', dest')) (hlen : t'.length ≤ 2048) :
    (∀ e source, (∀ c ∈ source.ip, ip6c c) → ∃ got b, Hears e t' source got ∧
      SameCall (tp.send env msg).msg got b!"CANCEL" (tp.send env msg).msg.cseq ∧ HasBranch (tp.send env msg).msg b ∧ HasBranch got b) ∧
    ∀ callee caller tp'' env'' source source' status contact body t'' dest'',
      Exchange callee tp'' env'' source status contact body t' t'' dest'' → ∃ ans, Hears caller t'' source' ans ∧
        (Answers (tp.send env' (newCancel (tp.send env msg).msg)).msg ans ↔ v.port ≠ 5060) ∧ ans.status = status := by
  obtain ⟨first, s⟩ := sent_well hc hm h
  rw [s.left] at hseq h' ⊢
  have hm' := cancel_ok (gen := env'.origin) s hm
  obtain ⟨_, h2, x', _, _, _, _, y, hy, hp⟩ := like_first (msg' := newCancel first) s ⟨rfl, rfl, rfl, rfl, rfl, rfl⟩ hseq hc' hm' v hv h' hlen
  refine ⟨h2, ?_⟩
  intro callee caller tp'' env'' source source' status contact body t'' dest'' hx
  obtain ⟨ans, a1, a2, a3, _⟩ := C99_answered env' tp _ hc' hm' (.inr rfl) y hy t' dest' h' callee caller tp'' env'' source source'
    status contact body t'' dest'' hx
  exact ⟨ans, a1, by rw [a2, hp], a3⟩

/-- **C99** (trying again). When a request that was sent is sent again, it is heard as the same request: same Call-ID, number,
parties and branch; the transport stays as it is, and what answers the second transmission answers the first. -/
theorem C99_resent (env env' : SendEnv) (tp : Transport) (msg : Msg) (hc : Carrier env tp) (hc' : Carrier env' tp)
    (hm : Portable env.origin msg) (hm' : Portable env'.origin msg) (hcm : msg.cseqMethod = [] ∨ msg.cseqMethod = msg.method)
    (v : Via) (hv : OneVia tp msg v) (hseq : (tp.send env msg).msg.cseq ≠ 0)
    (t dest : Bytes) (h : (tp.send env msg).wire = some (t, dest)) (t' dest' : Bytes)
    (h' : (tp.send env' (tp.send env msg).msg).wire = some (t', dest')) (hlen : t'.length ≤ 2048) :
    (tp.send env' (tp.send env msg).msg).tp = tp ∧
    (∀ e source, (∀ c ∈ source.ip, ip6c c) → ∃ got b, Hears e t' source got ∧
      SameCall (tp.send env msg).msg got msg.method (tp.send env msg).msg.cseq ∧ HasBranch (tp.send env msg).msg b ∧ HasBranch got b) ∧
    ∀ ans, Answers (tp.send env' (tp.send env msg).msg).msg ans → Answers (tp.send env msg).msg ans := by
  obtain ⟨first, s⟩ := sent_well hc hm h
  rw [s.left] at hseq h' ⊢
  have hq : first.cseqMethod = first.method := by
    rw [s.cseqMethod, s.line.2]
    rcases hcm with e | e
    · rw [if_pos e]
    · split
      · rfl
      · exact e
  obtain ⟨h1, h2, x', e, h3, h4, h5, _⟩ := like_first s ⟨rfl, rfl, rfl, hq, rfl, rfl⟩ hseq hc' (s.again _ hm'.payload) v hv h' hlen
  rw [s.line.2] at h2
  refine ⟨h1, h2, ?_⟩
  rw [e]
  intro ans ha
  exact ⟨ha.1, ha.2.1.trans h3, ha.2.2.1.trans h4, h5 ans ha⟩

/-! ### Example: a call of `example/echo2` -/

/-- The transport of the caller, at 10.0.0.1:5070. -/
def lowTp : Transport := ⟨[{ host := b!"10.0.0.1", port := 5070 }], [{ uri := some { host := b!"10.0.0.1", port := 5070 } }]⟩

@[inherit_doc lowTp] def lowIds : Ids := ⟨b!"id", 7, b!"z9hG4bK-1", b!"t"⟩

@[inherit_doc lowTp] def lowEnv : SendEnv := ⟨lowIds, b!"1", none, fun a => .ok a, .ok ()⟩

/-- The INVITE. -/
def lowInvite : Msg :=
  match newRequest lowIds lowTp.via lowTp.contact b!"INVITE" [demoBob] [] with
  | .ok m => m
  | _ => {}

/-- The datagram of the INVITE, and the one that comes back. -/
def lowFirst : Bytes := ((lowTp.send lowEnv lowInvite).wire.getD ([], [])).1

@[inherit_doc lowFirst] def lowBack : Option (Bytes × Bytes) :=
  match receiveOne demoCallee.host demoCallee.port none lowFirst ⟨b!"10.0.0.1", 5070⟩ with
  | .ok (some got) =>
    (Transport.send demoEnv ⟨[{ host := b!"10.0.0.2", port := 5060 }], []⟩ (answerTo got 200 [demoBob] none)).wire
  | _ => none

theorem low_carrier : Carrier lowEnv lowTp := by
  refine ⟨⟨⟨b!"id", [], by decide, by decide +kernel, .inl (by decide)⟩, by decide +kernel, by decide +kernel, by decide⟩,
    by decide, ?_, ?_⟩
  · intro v hv
    simp only [lowTp, List.mem_singleton] at hv
    subst hv
    exact ⟨by simp, by simp, by simp, by decide, by decide +kernel, param_nil⟩
  · intro a ha
    simp only [lowTp, List.mem_singleton] at ha
    subst ha
    exact ⟨⟨_, rfl, (C02_parseURI_grammar _ _).1 (by decide +kernel)⟩, display_nil, param_nil⟩

theorem low_exchange : ∃ t', Exchange demoCallee ⟨[{ host := b!"10.0.0.2", port := 5060 }], []⟩ demoEnv ⟨b!"10.0.0.1", 5070⟩ 200
    [demoBob] none lowFirst t' b!"10.0.0.1:5070" := by
  have hb : lowBack.map (fun x => (x.2, decide (x.1.length ≤ 2048))) = some (b!"10.0.0.1:5070", true) ∧
      lowFirst.length ≤ 2048 := by decide +kernel
  cases hd : lowBack with
  | none => rw [hd] at hb; exact absurd hb.1 (by simp)
  | some x =>
    rw [hd] at hb
    simp only [Option.map_some, Option.some.injEq, Prod.mk.injEq, decide_eq_true_eq] at hb
    refine ⟨x.1, ⟨by decide +kernel, ⟨by decide, ?_, fun p hp => nomatch hp⟩, ?_, hb.2, hb.1.2⟩⟩
    · intro a ha
      simp only [List.mem_singleton] at ha
      subst ha
      exact ⟨⟨_, rfl, (C02_parseURI_grammar _ _).1 (by decide +kernel)⟩, display_nil, param_nil⟩
    · unfold lowBack at hd
      split at hd
      · rename_i got hgot
        exact ⟨got, hgot, by rw [hd, ← hb.1.1]⟩
      · cases hd

/-- The call goes through: answer, ACK and BYE. -/
example : ∃ t2 first ans ack bye, Hears ⟨b!"10.0.0.1", 5070, none⟩ t2 ⟨b!"10.0.0.2", 5060⟩ ans ∧ Answers first ans ∧
    newAck ans first = .ok ack ∧ newBye first ans none = .ok (bye, first.cseq + 1) ∧
    ∀ t4 d4, (lowTp.send lowEnv bye).wire = some (t4, d4) → t4.length ≤ 2048 → ∀ e s, ∃ got, Hears e t4 s got ∧
      SameCall first got b!"BYE" (first.cseq + 1) := by
  obtain ⟨t', h⟩ := low_exchange
  have hbob : ∀ a ∈ [demoBob], AddrOK (addrSeen a) := by
    intro a ha
    simp only [List.mem_singleton] at ha
    subst ha
    exact addrOK_seen ⟨⟨_, rfl, (C02_parseURI_grammar _ _).1 (by decide +kernel)⟩, display_nil, param_nil⟩
  obtain ⟨first, ans, ack, bye, _, _, k3, k4, _, _, k7, k8, _, k10⟩ := C99_call_partial lowTp _ rfl (by decide) lowEnv lowEnv lowEnv
    low_carrier low_carrier low_carrier lowIds low_carrier.ids (by decide) [demoBob] [] hbob (fun a ha => nomatch ha) none
    (fun p hp => nomatch hp) lowInvite rfl lowFirst b!"10.0.0.2:5062" (by decide +kernel) demoCallee ⟨b!"10.0.0.1", 5070, none⟩
    _ _ _ ⟨b!"10.0.0.2", 5060⟩ _ (by simp) _ _ _ h
  exact ⟨t', first, ans, ack, bye, k3, k4, k7, k8, fun t4 d4 h4 hl => (k10 t4 d4 h4 hl).1⟩

/-- The ACK and the BYE of that call are sent. -/
example : (match lowBack with
    | some (t, _) =>
      match receiveOne b!"10.0.0.1" 5070 none t ⟨b!"10.0.0.2", 5060⟩ with
      | .ok (some ans) =>
        let first := (lowTp.send lowEnv lowInvite).msg
        match newAck ans first, newBye first ans none with
        | .ok ack, .ok (bye, _) =>
          ((lowTp.send lowEnv ack).wire.map (fun x => (x.2, decide (x.1.length ≤ 2048))),
           (lowTp.send lowEnv bye).wire.map (fun x => (x.2, decide (x.1.length ≤ 2048))))
        | _, _ => (none, none)
      | _ => (none, none)
    | none => (none, none)) = (some (b!"10.0.0.2:5062", true), some (b!"10.0.0.2:5062", true)) := by
  decide +kernel

theorem low_portable : Portable lowEnv.origin lowInvite := by
  refine request_ok (body := none) (m := lowInvite) low_carrier.ids low_carrier.via low_carrier.contact
    (token_of b!"INVITE" (by decide) (by decide)) (to := [demoBob]) (from' := []) ?_ (fun a ha => nomatch ha) (fun p hp => nomatch hp) rfl
  intro a ha
  simp only [List.mem_singleton] at ha
  subst ha
  exact addrOK_seen ⟨⟨_, rfl, (C02_parseURI_grammar _ _).1 (by decide +kernel)⟩, display_nil, param_nil⟩

/-- The INVITE is sent again, and cancelled. -/
example : ∃ t1 t2, (lowTp.send lowEnv (lowTp.send lowEnv lowInvite).msg).wire = some (t1, b!"10.0.0.2:5062") ∧
    (lowTp.send lowEnv (newCancel (lowTp.send lowEnv lowInvite).msg)).wire = some (t2, b!"10.0.0.2:5062") ∧
    ∀ e source, (∀ c ∈ source.ip, ip6c c) →
      (∃ got b, Hears e t1 source got ∧ SameCall (lowTp.send lowEnv lowInvite).msg got b!"INVITE" (lowTp.send lowEnv lowInvite).msg.cseq ∧
        HasBranch (lowTp.send lowEnv lowInvite).msg b ∧ HasBranch got b) ∧
      ∃ got b, Hears e t2 source got ∧ SameCall (lowTp.send lowEnv lowInvite).msg got b!"CANCEL" (lowTp.send lowEnv lowInvite).msg.cseq ∧
        HasBranch (lowTp.send lowEnv lowInvite).msg b ∧ HasBranch got b := by
  have h0 : ((lowTp.send lowEnv lowInvite).wire.map (fun x => decide (x.1 = lowFirst))) = some true := by decide +kernel
  have h1 : ((lowTp.send lowEnv (lowTp.send lowEnv lowInvite).msg).wire.map (fun x => (x.2, decide (x.1.length ≤ 2048)))) =
      some (b!"10.0.0.2:5062", true) := by decide +kernel
  have h2 : ((lowTp.send lowEnv (newCancel (lowTp.send lowEnv lowInvite).msg)).wire.map (fun x => (x.2, decide (x.1.length ≤ 2048)))) =
      some (b!"10.0.0.2:5062", true) := by decide +kernel
  simp only [Option.map_eq_some_iff, Prod.mk.injEq, decide_eq_true_eq] at h0 h1 h2
  obtain ⟨⟨t0, d0⟩, w0, _⟩ := h0
  obtain ⟨⟨t1, d1⟩, w1, rfl, l1⟩ := h1
  obtain ⟨⟨t2, d2⟩, w2, rfl, l2⟩ := h2
  have hv : OneVia lowTp lowInvite { host := b!"10.0.0.1", port := 5070, param := [(b!"branch", b!"z9hG4bK-1")] } := by
    show (if lowInvite.via = [] then _ else _) = _
    decide +kernel
  have hs : (lowTp.send lowEnv lowInvite).msg.cseq ≠ 0 := by decide +kernel
  have r := C99_resent lowEnv lowEnv lowTp lowInvite low_carrier low_carrier low_portable low_portable (.inr rfl) _ hv hs t0 d0 w0 t1 _ w1 l1
  have c := C99_cancel lowEnv lowEnv lowTp lowInvite low_carrier low_carrier low_portable _ hv hs t0 d0 w0 t2 _ w2 l2
  exact ⟨t1, t2, w1, w2, fun e source hip => ⟨r.2.1 e source hip, c.1 e source hip⟩⟩

end Gosip.Props
