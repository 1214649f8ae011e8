import Verif.Dialog.Readable

/-!
# Lemmas: all that a call sends can be read, through the whole call
-/

namespace Gosip.Dialog
open Sip Spec Props

/-- What is kept by a call: all that was sent can be read, and all that is remembered can be written. -/
structure Fit (w : World) (k : Int) (s : St) : Prop where
  sent : ∀ d m x, .sent d m x ∈ s.outs → Written w m x
  sock : ∀ c, s.sock = some c → Socket w c
  invite : Sound w k s.invite
  other : ∀ m, s.req = .other m → Sound w k m ∧ Whole m
  remote : ∀ m, s.remote = some m → Heard' m
  response : ∀ m, s.response = some m → Wr w m ∧ m.phrase ≠ []
  lseq : 0 ≤ s.lseq ∧ s.lseq + k < 2 ^ 63

/-- The invariant between two events; after the first attempt the INVITE is complete. -/
def Fits (w : World) (k : Int) (r : Run) : Prop := Fit w k r.s ∧ (r.c = .go → Whole r.s.invite)

theorem Fits.andThen {w : World} {k : Int} {r : Run} {f : St → Run} (h : Fits w k r)
    (hf : ∀ t, Fit w k t → Whole t.invite → Fits w k (f t)) : Fits w k (r.andThen f) := by
  obtain ⟨s, c⟩ := r
  cases c
  · exact hf s h.1 (h.2 rfl)
  all_goals exact h

theorem Sound.less {w : World} {k : Int} {m : Msg} (h : Sound w (k + 1) m) : Sound w k m :=
  ⟨h.ok, by have := h.cseq; omega⟩

theorem Fit.less {w : World} {k : Int} {s : St} (h : Fit w (k + 1) s) : Fit w k s :=
  ⟨h.sent, h.sock, h.invite.less, fun m hm => ⟨(h.other m hm).1.less, (h.other m hm).2⟩, h.remote, h.response,
    h.lseq.1, by have := h.lseq.2; omega⟩

theorem Fit.out {w : World} {k : Int} {s : St} (h : Fit w k s) {o : Out} (ho : ∀ d m x, o ≠ .sent d m x) : Fit w k (s.out o) := by
  refine ⟨?_, h.sock, h.invite, h.other, h.remote, h.response, h.lseq⟩
  intro d m x hx
  simp only [St.out, List.mem_append, List.mem_singleton] at hx
  rcases hx with hx | hx
  · exact h.sent d m x hx
  · exact absurd hx.symm (ho d m x)

theorem fits_fail {w : World} {k : Int} {s : St} (h : Fit w k s) (e : DErr) : Fits w k (s.fail e) :=
  ⟨h.out (by simp), fun e => by simp [St.fail] at e⟩

theorem fits_dead {w : World} {k : Int} {s : St} {c : Cont} (h : Fit w k s) (hc : c ≠ .go) : Fits w k ⟨s, c⟩ :=
  ⟨h, fun e => absurd e hc⟩

theorem fit_transition {w : World} {k : Int} {s : St} (h : Fit w k s) (c : CallState) : Fit w k (transition s c) :=
  Fit.out (s := { s with state := c }) ⟨h.sent, h.sock, h.invite, h.other, h.remote, h.response, h.lseq⟩ (by simp)

/-- After sending a message that is not kept. -/
theorem fit_sent {w : World} {k : Int} {s : St} (h : Fit w k s) {m : Msg} {x : Run × Msg} (hx : SentOK w s m x) :
    Fit w k x.1.s := by
  have ho := hx.outs
  obtain ⟨o, t, e⟩ := hx.frame
  rw [e] at ho ⊢
  exact ⟨fun d m' y hy => (ho d m' y hy).elim (h.sent d m' y) id, h.sock, h.invite, h.other, h.remote, h.response, h.lseq⟩

theorem sent_invite {w : World} {s : St} {m : Msg} {x : Run × Msg} (hx : SentOK w s m x) : x.1.s.invite = s.invite := by
  obtain ⟨o, t, e⟩ := hx.frame
  rw [e]

theorem fits_sendNew {w : World} (hw : PlainWorld w) {k : Int} {s : St} (h : Fit w k s) (hf : Whole s.invite) {m : Msg}
    (hm : Wr w m) : Fits w k (sendNew w s m) := by
  have hx := send_fits hw s hm
  exact ⟨fit_sent h hx, fun _ => by rw [show (sendNew w s m).s.invite = s.invite from sent_invite hx]; exact hf⟩

theorem fits_sendRsp {w : World} (hw : PlainWorld w) {k : Int} {s : St} (h : Fit w k s) (hf : Whole s.invite) :
    Fits w k (sendRsp w s) := by
  unfold sendRsp
  split
  · exact fits_dead h (by simp)
  · rename_i m hm
    obtain ⟨hwr, hph⟩ := h.response m hm
    have hx := send_fits hw s hwr
    have hs := fit_sent h hx
    refine ⟨⟨hs.sent, hs.sock, hs.invite, hs.other, hs.remote, ?_, hs.lseq⟩, fun _ => ?_⟩
    · intro m' hm'
      simp only [Option.some.injEq] at hm'
      subst hm'
      obtain ⟨v, f, hv, hff, he⟩ := hx.msg
      have ha : ({ m with via := v, maxForwards := f } : Msg).appended = { m with via := v, maxForwards := f } := by
        unfold Msg.appended
        rw [if_neg (fun hc => hph hc.2)]
      rw [ha, or_self] at he
      rw [he]
      exact ⟨hwr.via hv hff, hph⟩
    · show Whole (send w s m).1.s.invite
      rw [sent_invite hx]; exact hf

theorem Sound.after {w : World} {k : Int} {s : St} {m : Msg} {x : Run × Msg} (h : Sound w k m) (hf : Whole m)
    (hx : SentOK w s m x) : Sound w k x.2 ∧ Whole x.2 := by
  obtain ⟨v, f, hv, hff, he⟩ := hx.msg
  have hr : ¬ m.isResponse = true := by simp [Msg.isResponse, h.ok.status]
  have ha : ({ m with via := v, maxForwards := f } : Msg).appended = { m with via := v, maxForwards := f } := by
    unfold Msg.appended
    rw [if_neg (fun hc => hr hc.1)]
  rw [ha, or_self] at he
  rw [he]
  exact ⟨h.via hv (hff h.ok.maxForwards), hf.via v f⟩

theorem fits_sendCancel {w : World} (hw : PlainWorld w) {k : Int} (hk : 0 ≤ k) {s : St} (h : Fit w k s) (hf : Whole s.invite) :
    Fits w k (sendCancel w s) := by
  have hwr := wr_cancel h.invite hk hf
  have hx := send_fits hw s hwr
  have hs := fit_sent h hx
  have hi := sent_invite hx
  obtain ⟨v, f, hv, hff, he⟩ := hx.msg
  have hvia : (send w s (newCancel s.invite)).2.via = v := by
    rcases he with he | he <;> rw [he]
    unfold Msg.appended; split <;> rfl
  unfold sendCancel
  dsimp only
  rw [hvia, hi]
  refine ⟨⟨hs.sent, hs.sock, ?_, hs.other, hs.remote, hs.response, hs.lseq⟩, fun _ => ?_⟩
  · exact h.invite.via (f := s.invite.maxForwards) hv h.invite.ok.maxForwards
  · exact hf.via v s.invite.maxForwards

theorem fit_setCur {w : World} {k : Int} {s : St} (h : Fit w k s) {m : Msg} (hm : Sound w k m) (hf : Whole m) :
    Fit w k (s.setCur m) := by
  unfold St.setCur
  split
  · exact h
  · exact ⟨h.sent, h.sock, hm, h.other, h.remote, h.response, h.lseq⟩
  · refine ⟨h.sent, h.sock, h.invite, ?_, h.remote, h.response, h.lseq⟩
    intro m' hm'
    cases hm'
    exact ⟨hm, hf⟩

theorem whole_setCur {s : St} {m : Msg} (h : s.req = .invite ∨ Whole s.invite) (hf : Whole m) : Whole (s.setCur m).invite := by
  unfold St.setCur
  split
  · rename_i e; rw [e] at h; exact h.resolve_left (by simp)
  · exact hf
  · rename_i e; rw [e] at h; exact h.resolve_left (by simp)

/-- Sending the current request again. -/
theorem fits_sendCur {w : World} (hw : PlainWorld w) {k : Int} (hk : 0 ≤ k) {s : St} (h : Fit w k s) (hf : Whole s.invite) :
    Fits w k (sendCur w s) := by
  unfold sendCur
  split
  · exact fits_dead h (by simp)
  · rename_i m hm
    have hmm : Sound w k m ∧ Whole m := by
      unfold St.cur at hm
      split at hm
      · cases hm
      · cases hm; exact ⟨h.invite, hf⟩
      · rename_i m' hr; cases hm; exact h.other _ hr
    have hx := send_fits hw s (hmm.1.wr hk hmm.2)
    have ha := hmm.1.after hmm.2 hx
    refine ⟨fit_setCur (fit_sent h hx) ha.1 ha.2, fun _ => whole_setCur (.inr ?_) ha.2⟩
    rw [sent_invite hx]; exact hf

theorem fit_connectLoose {w : World} {k : Int} {s : St} (h : Fit w k s) : Fit w k (connectLoose w s).1 := by
  unfold connectLoose
  split
  · split <;> exact ⟨h.sent, h.sock, h.invite, h.other, h.remote, h.response, h.lseq⟩
  · exact h

theorem fit_connect {w : World} {k : Int} {s : St} (h : Fit w k s) : Fit w k (connect w s).1 := by
  unfold connect
  split
  · exact h
  · have h0 : Fit w k ({ s with sock := none, tick := s.tick + 1 }.out (.dial s.addr)) :=
      Fit.out (s := { s with sock := none, tick := s.tick + 1 })
        ⟨h.sent, (fun c hc => nomatch hc), h.invite, h.other, h.remote, h.response, h.lseq⟩ (by simp)
    dsimp only
    split
    · exact h0
    · rename_i c hc
      refine fit_connectLoose ⟨h0.sent, ?_, h.invite, h.other, h.remote, h.response, h.lseq⟩
      intro c' hc'
      simp only [Option.some.injEq] at hc'
      exact hc' ▸ ⟨_, _, hc⟩

theorem connect_keeps (w : World) (s : St) : (connect w s).1.req = s.req ∧ (connect w s).1.invite = s.invite := by
  unfold connect connectLoose
  split
  · exact ⟨rfl, rfl⟩
  · dsimp only
    split
    · exact ⟨rfl, rfl⟩
    · split
      · split <;> exact ⟨rfl, rfl⟩
      · exact ⟨rfl, rfl⟩

theorem fit_newAttempt {w : World} {k : Int} {s : St} (h : Fit w k s) {m : Msg} (hm : Sound w k m) (hf : Whole m) :
    Fit w k (newAttempt s m) ∧ (newAttempt s m).invite = (s.setCur m).invite ∧
    ((newAttempt s m).req = (s.setCur m).req) := by
  have h1 := fit_setCur h hm hf
  unfold newAttempt
  dsimp only
  split
  · exact ⟨⟨h1.sent, h1.sock, h1.invite, h1.other, (fun m' hm' => nomatch hm'), h1.response, hm.ok.cseq, hm.cseq⟩, rfl, rfl⟩
  · exact ⟨⟨h1.sent, h1.sock, h1.invite, h1.other, h1.remote, h1.response, h1.lseq⟩, rfl, rfl⟩

theorem fits_attempt {w : World} (hw : PlainWorld w) {k : Int} (hk : 0 ≤ k) (hc : ∀ n, (w.ids n).cseq + k < 2 ^ 63) {s : St}
    (h : Fit w k s) (hf : s.req = .invite ∨ Whole s.invite) : Fits w k (attempt w s) := by
  unfold attempt
  split
  · rename_i c m hs hm
    split
    · rename_i m' hp
      have hmm : Sound w k m := by
        unfold St.cur at hm
        split at hm
        · cases hm
        · cases hm; exact h.invite
        · rename_i m' hr; cases hm; exact (h.other _ hr).1
      obtain ⟨h1, h2⟩ := populate_sound hw hc (h.sock c hs) hmm hp
      have h0 : Fit w k { s with tick := s.tick + 1 } := ⟨h.sent, h.sock, h.invite, h.other, h.remote, h.response, h.lseq⟩
      obtain ⟨h3, h4, h5⟩ := fit_newAttempt h0 h1 h2
      refine fits_sendCur hw hk h3 ?_
      rw [h4]
      exact whole_setCur hf h2
    · exact fits_dead h (by simp)
  · exact fits_dead h (by simp)

theorem fits_popRoutes {w : World} (hw : PlainWorld w) {k : Int} (hk : 0 ≤ k) (hc : ∀ n, (w.ids n).cseq + k < 2 ^ 63)
    (l : List Bytes) : ∀ (s : St), Fit w k s → (s.req = .invite ∨ Whole s.invite) → Fits w k (popRoutes w l s) := by
  induction l with
  | nil =>
    intro s h _
    exact fits_fail (s := { s with routes := [] }) ⟨h.sent, h.sock, h.invite, h.other, h.remote, h.response, h.lseq⟩ _
  | cons a rest ih =>
    intro s h hf
    unfold popRoutes
    split
    · exact fits_dead ⟨h.sent, (fun c hc => nomatch hc), h.invite, h.other, h.remote, h.response, h.lseq⟩ (by simp)
    · have h0 : Fit w k { s with addr := a, routes := rest } :=
        ⟨h.sent, h.sock, h.invite, h.other, h.remote, h.response, h.lseq⟩
      have h1 := fit_connect h0
      have h2 : (connect w { s with addr := a, routes := rest }).1.req = .invite ∨
          Whole (connect w { s with addr := a, routes := rest }).1.invite := by
        rw [(connect_keeps w _).1, (connect_keeps w _).2]; exact hf
      dsimp only
      split
      · exact fits_attempt hw hk hc h1 h2
      · exact ih _ h1 h2

theorem fits_sendTowards {w : World} (hw : PlainWorld w) {k : Int} (hk : 0 ≤ k) (hc : ∀ n, (w.ids n).cseq + k < 2 ^ 63)
    {s : St} (h : Fit w k s) {q : Req} (hq : q = .invite ∨ Whole s.invite ∧ ∀ m, q = .other m → Sound w k m ∧ Whole m)
    (hop : Res Err (Bytes × UInt16)) : Fits w k (sendTowards w s q hop) := by
  have h0 : Fit w k { s with tick := s.tick + 1 } := ⟨h.sent, h.sock, h.invite, h.other, h.remote, h.response, h.lseq⟩
  unfold sendTowards
  split
  · exact fits_dead h (by simp)
  · exact fits_fail h _
  · split
    · exact fits_dead h (by simp)
    · exact fits_fail h0 _
    · rename_i rs _
      refine fits_popRoutes hw hk hc _ _ ⟨h.sent, h.sock, h.invite, ?_, h.remote, h.response, h.lseq⟩ ?_
      · intro m hm
        rcases hq with rfl | hq
        · cases hm
        · exact hq.2 m hm
      · exact hq.imp id And.left

theorem fits_sendInvite {w : World} (hw : PlainWorld w) {k : Int} (hk : 0 ≤ k) (hc : ∀ n, (w.ids n).cseq + k < 2 ^ 63)
    {s : St} (h : Fit w k s) : Fits w k (sendInvite w s) := by
  unfold sendInvite
  exact fits_sendTowards hw hk hc (s := { s with invite := (routeMessage none none s.invite).1 })
    ⟨h.sent, h.sock, route_sound h.invite, h.other, h.remote, h.response, h.lseq⟩ (.inl rfl) _

theorem fits_sendOther {w : World} (hw : PlainWorld w) {k : Int} (hk : 0 ≤ k) (hc : ∀ n, (w.ids n).cseq + k < 2 ^ 63)
    {s : St} (h : Fit w k s) (hf : Whole s.invite) {m : Msg} (hm : Sound w k m) (hmf : Whole m) : Fits w k (sendOther w s m) := by
  unfold sendOther
  refine fits_sendTowards hw hk hc h (.inr ⟨hf, ?_⟩) _
  intro m' hm'
  cases hm'
  exact ⟨route_sound hm, route_whole hmf⟩

theorem fits_checkSDP {w : World} {k : Int} {s : St} (h : Fit w k s) (hf : Whole s.invite) (m : Msg) :
    Fits w k (checkSDP s m) := by
  unfold checkSDP
  split
  · split
    · exact ⟨h.out (by simp), fun _ => hf⟩
    · exact fits_dead h (by simp)
  · exact ⟨h, fun _ => hf⟩

theorem fits_ackFinal {w : World} (hw : PlainWorld w) {k : Int} {s : St} (h : Fit w k s) (hf : Whole s.invite) {m cur : Msg}
    (hm : Heard' m) (hc : Writable w cur) : Fits w k (ackFinal w s m cur) := by
  unfold ackFinal
  split
  · split
    · exact fits_fail h _
    · split
      · rename_i ack ha
        exact fits_sendNew hw h hf (wr_ack hm hc ha)
      · exact fits_dead h (by simp)
  · exact ⟨h, fun _ => hf⟩

theorem fits_redirect {w : World} (hw : PlainWorld w) {k : Int} (hk : 0 ≤ k) (hc : ∀ n, (w.ids n).cseq + k < 2 ^ 63)
    {s : St} (h : Fit w k s) {m : Msg} (hm : Heard' m) : Fits w k (redirect w s m) := by
  unfold redirect
  split
  · rename_i u hu
    obtain ⟨v, hv, ho⟩ := heard_uri hm hu
    have hi := h.invite
    refine fits_sendInvite hw hk hc ⟨h.sent, h.sock, ⟨⟨hi.ok.status, hi.ok.method, ⟨v, hv, ho⟩, hi.ok.maxForwards, hi.ok.via, ?_,
      hi.ok.callID, hi.ok.cseq, hi.ok.cseqMethod, hi.ok.expires, hi.ok.minExpires, hi.ok.hdr, hi.ok.xheader, hi.ok.payload⟩,
      hi.cseq⟩, h.other, h.remote, h.response, h.lseq⟩
    intro f a ha
    dsimp only at ha
    by_cases hf : f = .route
    · subst hf
      rw [setAt_same] at ha
      exact nomatch ha
    · rw [setAt_ne _ _ hf] at ha
      exact hi.ok.addrs f a ha
  · exact fits_dead h (by simp)

theorem fits_handleOK {w : World} {k : Int} {s : St} (h : Fit w k s) (hf : Whole s.invite) {m : Msg} (hm : Heard' m) :
    Fits w k (handleOK s m) := by
  unfold handleOK
  split
  · have h1 : Fit w k (if s.remote.isNone then transition s .answered else s) ∧
        (if s.remote.isNone then transition s .answered else s).invite = s.invite := by
      split
      · exact ⟨fit_transition h _, rfl⟩
      · exact ⟨h, rfl⟩
    generalize (if s.remote.isNone then transition s .answered else s) = t at h1 ⊢
    obtain ⟨h1, h2⟩ := h1
    refine ⟨⟨h1.sent, h1.sock, h1.invite, h1.other, ?_, h1.response, h1.lseq⟩, fun _ => ?_⟩
    · intro m' hm'
      simp only [Option.some.injEq] at hm'
      exact hm' ▸ hm
    · show Whole t.invite
      rw [h2]; exact hf
  · split
    · exact fits_dead (fit_transition h _) (by simp)
    · exact ⟨h, fun _ => hf⟩

theorem fits_handleStatus {w : World} (hw : PlainWorld w) {k : Int} (hk : 0 ≤ k) (hc : ∀ n, (w.ids n).cseq + k < 2 ^ 63)
    {s : St} (h : Fit w k s) (hf : Whole s.invite) {m : Msg} (hm : Heard' m) : Fits w k (handleStatus w s m) := by
  unfold handleStatus
  split
  · exact ⟨fit_transition h _, fun _ => hf⟩
  split
  · exact ⟨fit_transition h _, fun _ => hf⟩
  split
  · exact fits_handleOK h hf hm
  split
  · split
    · exact fits_popRoutes hw hk hc _ _ h (.inr hf)
    · exact fits_fail h _
  split
  · exact fits_redirect hw hk hc h hm
  split
  · exact fits_fail h _
  · exact ⟨h, fun _ => hf⟩

theorem fits_settle {w : World} {k : Int} {s : St} (h : Fit w k s) (hf : Whole s.invite) (m : Msg) : Fits w k (settle s m) := by
  have h0 : Fit w k { s with routes := [], requestTimer := false } :=
    ⟨h.sent, h.sock, h.invite, h.other, h.remote, h.response, h.lseq⟩
  unfold settle
  dsimp only
  split
  · exact fits_checkSDP h0 hf m
  · exact ⟨h0, fun _ => hf⟩

theorem fits_handleResponse {w : World} (hw : PlainWorld w) {k : Int} (hk : 0 ≤ k) (hc : ∀ n, (w.ids n).cseq + k < 2 ^ 63)
    {s : St} (h : Fit w k s) (hf : Whole s.invite) {m : Msg} (hm : Heard' m) : Fits w k (handleResponse w s m) := by
  unfold handleResponse
  split
  · exact fits_dead h (by simp)
  · rename_i cur hcur
    have hcw : Writable w cur := by
      unfold St.cur at hcur
      split at hcur
      · cases hcur
      · cases hcur; exact h.invite.ok
      · rename_i m' hr; cases hcur; exact (h.other _ hr).1.ok
    split
    · exact ((fits_ackFinal hw h hf hm hcw).andThen fun t ht htf => fits_settle ht htf m).andThen
        fun t ht htf => fits_handleStatus hw hk hc ht htf hm
    · exact ⟨h, fun _ => hf⟩

theorem fits_handleMethod {w : World} (hw : PlainWorld w) {k : Int} {s : St} (h : Fit w k s) (hf : Whole s.invite) {m : Msg}
    (hm : Heard' m) : Fits w k (handleMethod w s m) := by
  have h200 := wr_response w hm (n := 200) (by decide)
  unfold handleMethod
  split
  · exact (fits_sendNew hw h hf h200).andThen fun t ht htf => fits_dead (fit_transition ht _) (by simp)
  split
  · exact fits_sendNew hw h hf h200
  split
  · refine (fits_checkSDP (s := { s with remote := some m })
      ⟨h.sent, h.sock, h.invite, h.other, ?_, h.response, h.lseq⟩ hf m).andThen fun t ht htf => ?_
    · intro m' hm'
      simp only [Option.some.injEq] at hm'
      exact hm' ▸ hm
    · refine fits_sendRsp hw ⟨ht.sent, ht.sock, ht.invite, ht.other, ht.remote, ?_, ht.lseq⟩ htf
      intro m' hm'
      simp only [Option.some.injEq] at hm'
      subst hm'
      exact ⟨h200, (MsgM.phrase_ok 200).2⟩
  split
  · exact ⟨⟨h.sent, h.sock, h.invite, h.other, h.remote, (fun m' hm' => nomatch hm'), h.lseq⟩, fun _ => hf⟩
  · exact fits_sendNew hw h hf (wr_response w hm (by decide))

theorem fits_handleRequest {w : World} (hw : PlainWorld w) {k : Int} {s : St} (h : Fit w k s) (hf : Whole s.invite) {m : Msg}
    (hm : Heard' m) : Fits w k (handleRequest w s m) := by
  unfold handleRequest
  split
  · exact (fits_sendNew hw h hf (wr_response w hm (by decide))).andThen fun t ht _ => fits_fail ht _
  split
  · exact fits_sendNew hw h hf (wr_response w hm (by decide))
  · exact fits_handleMethod hw (s := { s with rseq := m.cseq })
      ⟨h.sent, h.sock, h.invite, h.other, h.remote, h.response, h.lseq⟩ hf hm

theorem fits_handleMessage {w : World} (hw : PlainWorld w) {k : Int} (hk : 0 ≤ k) (hc : ∀ n, (w.ids n).cseq + k < 2 ^ 63)
    {s : St} (h : Fit w k s) (hf : Whole s.invite) {m : Msg} (hm : Heard' m) : Fits w k (handleMessage w s m) := by
  unfold handleMessage
  split
  · exact fits_dead h (by simp)
  split
  · exact (fits_sendNew hw h hf (wr_response w hm (by decide))).andThen fun t ht _ => fits_fail ht _
  split
  · exact fits_sendNew hw h hf (wr_response w hm (by decide))
  split
  · exact fits_handleResponse hw hk hc h hf hm
  · exact fits_handleRequest hw h hf hm

theorem fits_resendRequest {w : World} (hw : PlainWorld w) {k : Int} (hk : 0 ≤ k) (hc : ∀ n, (w.ids n).cseq + k < 2 ^ 63)
    {s : St} (h : Fit w k s) (hf : Whole s.invite) : Fits w k (resendRequest w s) := by
  unfold resendRequest
  split
  · exact ⟨h, fun _ => hf⟩
  split
  · exact (fits_sendCur hw hk h hf).andThen fun t ht htf =>
      ⟨⟨ht.sent, ht.sock, ht.invite, ht.other, ht.remote, ht.response, ht.lseq⟩, fun _ => htf⟩
  split
  · exact fits_dead h (by simp)
  · exact fits_popRoutes hw hk hc _ _ h (.inr hf)

theorem fits_resendResponse {w : World} (hw : PlainWorld w) {k : Int} (hk : 0 ≤ k) (hc : ∀ n, (w.ids n).cseq + k < 2 ^ 63)
    {s : St} (h : Fit w k s) (hf : Whole s.invite) : Fits w k (resendResponse w s) := by
  unfold resendResponse
  split
  · exact ⟨h, fun _ => hf⟩
  split
  · exact (fits_sendRsp hw h hf).andThen fun t ht htf =>
      ⟨⟨ht.sent, ht.sock, ht.invite, ht.other, ht.remote, ht.response, ht.lseq⟩, fun _ => htf⟩
  split
  · exact fits_dead h (by simp)
  · exact fits_popRoutes hw hk hc _ _ h (.inr hf)

theorem fits_sendHangup {w : World} (hw : PlainWorld w) {k : Int} (hk : 0 ≤ k) (hc : ∀ n, (w.ids n).cseq + k < 2 ^ 63)
    {s : St} (h : Fit w (k + 1) s) (hf : Whole s.invite) : Fits w k (sendHangup w s) := by
  unfold sendHangup
  split
  · exact fits_sendCancel hw hk h.less hf
  · exact fits_sendCancel hw hk h.less hf
  · split
    · exact fits_dead h.less (by simp)
    · rename_i remote hr
      split
      · rename_i m n hb
        obtain ⟨h1, h2, h3⟩ := sound_bye h.invite hf (h.remote _ hr) hk h.lseq hb
        have h0 := h.less
        exact fits_sendOther hw hk hc (s := { s with lseq := n })
          ⟨h0.sent, h0.sock, h0.invite, h0.other, h0.remote, h0.response, h3⟩ hf h1 h2
      · exact fits_dead h.less (by simp)
  · exact fits_dead h.less (by simp)

theorem fits_step {w : World} (hw : PlainWorld w) {k : Int} (hk : 0 ≤ k) (hc : ∀ n, (w.ids n).cseq + k < 2 ^ 63)
    {s : St} (h : Fit w (k + 1) s) (hf : Whole s.invite) {ev : Event} (he : ∀ m, ev = .msg m → Heard' m) :
    Fits w k (step w s ev) := by
  have h0 := h.less
  cases ev with
  | sockErr refused e =>
    simp only [step]
    split
    · exact ⟨h0, fun _ => hf⟩
    · have h1 : Fit w k { s with sock := none } :=
        ⟨h0.sent, (fun c hc => nomatch hc), h0.invite, h0.other, h0.remote, h0.response, h0.lseq⟩
      split
      · exact fits_dead h1 (by simp)
      · exact fits_fail h1 _
  | csockErr e =>
    simp only [step]
    split
    · exact ⟨h0, fun _ => hf⟩
    · exact fits_fail (s := { s with csock := none })
        ⟨h0.sent, h0.sock, h0.invite, h0.other, h0.remote, h0.response, h0.lseq⟩ _
  | requestTimer =>
    simp only [step]
    split
    · exact fits_resendRequest hw hk hc (s := { s with requestTimer := false })
        ⟨h0.sent, h0.sock, h0.invite, h0.other, h0.remote, h0.response, h0.lseq⟩ hf
    · exact ⟨h0, fun _ => hf⟩
  | responseTimer =>
    simp only [step]
    split
    · exact fits_resendResponse hw hk hc (s := { s with responseTimer := false })
        ⟨h0.sent, h0.sock, h0.invite, h0.other, h0.remote, h0.response, h0.lseq⟩ hf
    · exact ⟨h0, fun _ => hf⟩
  | msg m =>
    simp only [step]
    split
    · exact ⟨h0, fun _ => hf⟩
    · exact fits_handleMessage hw hk hc h0 hf (he m rfl)
  | hangup => exact fits_sendHangup hw hk hc h hf

theorem fits_loop {w : World} (hw : PlainWorld w) (evs : List Event) : ∀ (r : Run), Fits w evs.length r →
    (∀ n, (w.ids n).cseq + evs.length < 2 ^ 63) → (∀ m, .msg m ∈ evs → Heard' m) → Fits w 0 (loop w evs r) := by
  induction evs with
  | nil => exact fun r h _ _ => h
  | cons ev evs ih =>
    intro r h hc he
    simp only [List.length_cons] at h hc
    have hc' : ∀ n, (w.ids n).cseq + (evs.length : Int) < 2 ^ 63 := fun n => by have := hc n; omega
    refine ih _ ?_ hc' fun m hm => he m (List.mem_cons_of_mem _ hm)
    obtain ⟨s, c⟩ := r
    cases c
    · exact fits_step hw (by omega) hc' (by simpa using h.1) (h.2 rfl)
        fun m hm => he m (hm ▸ List.mem_cons_self)
    all_goals
      have h1 : Fit w ((evs.length : Int) + 1) s := by simpa using h.1
      exact ⟨h1.less, fun e => nomatch e⟩

end Gosip.Dialog
