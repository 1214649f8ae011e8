import Verif.Dialog.Effects
import Verif.Spec.Local

/-!
# The local socket of a dialog

An invariant of the dialog: its sockets come from the operating system, and the current request names the socket
through which it is sent.
-/

namespace Gosip.Dialog
open Sip Spec

/-- The request names the socket. -/
structure Names (w : World) (c : Conn) (m : Msg) : Prop where
  via : ViaNames c m
  contact : ContactNames w c m
  sdp : Speaks w → m.method = b!"INVITE" → ∀ d, m.payload = some (.sdp d) → SdpComplete d
  full : m.addrs .to ≠ [] ∧ Tagged (m.addrs .from) ∧ (m.method ≠ [] → m.cseqMethod ≠ []) ∧ m.hdr .userAgent ≠ []

/-- What the request says comes from the application or from a socket. -/
structure Kept (w : World) (i0 m : Msg) : Prop where
  via : ∀ h, viaHost m = some h → viaHost i0 = some h ∨ LocalHost w h
  contact : ContactGiven w (i0.addrs .contact) (m.addrs .contact)
  body : m.method = b!"INVITE" → BodyGiven w i0.payload m.payload

theorem viaNames_iff {c : Conn} {m : Msg} : ViaNames c m ↔ ∃ h, sentBy m = some (h, c.lport) := by
  unfold ViaNames sentBy
  cases m.via with
  | nil => simp
  | cons v l => simp

theorem viaHost_eq (m : Msg) : viaHost m = (sentBy m).map (·.1) := by
  unfold viaHost sentBy
  cases m.via with
  | nil => simp
  | cons v l => simp

theorem names_sentAs {w : World} {c : Conn} {m m' : Msg} (k : SentAs m m') (h : Names w c m) : Names w c m' := by
  have hs := k.sentBy
  obtain ⟨v, rfl⟩ := k.only
  refine ⟨?_, h.contact, h.sdp, h.full⟩
  rw [viaNames_iff, hs, ← viaNames_iff]; exact h.via

theorem kept_sentAs {w : World} {i0 m m' : Msg} (k : SentAs m m') (h : Kept w i0 m) : Kept w i0 m' := by
  have hs := k.sentBy
  obtain ⟨v, rfl⟩ := k.only
  refine ⟨?_, h.contact, h.body⟩
  intro x hx
  rw [viaHost_eq, hs, ← viaHost_eq] at hx; exact h.via x hx

theorem kept_via {w : World} {i0 m : Msg} {v : List Via} (hs : sentBy { m with via := v } = sentBy m)
    (h : Kept w i0 m) : Kept w i0 { m with via := v } := by
  refine ⟨?_, h.contact, h.body⟩
  intro x hx
  rw [viaHost_eq, hs, ← viaHost_eq] at hx; exact h.via x hx

theorem names_via {w : World} {c : Conn} {m : Msg} {v : List Via} (hs : sentBy { m with via := v } = sentBy m)
    (h : Names w c m) : Names w c { m with via := v } := by
  refine ⟨?_, h.contact, h.sdp, h.full⟩
  rw [viaNames_iff, hs, ← viaNames_iff]; exact h.via

/-- What holds at all times. -/
structure Tie (w : World) (i0 : Msg) (s : St) : Prop where
  sent : ∀ x ∈ own s.outs, ∃ c, Socket w c ∧ x.1 = c.remote ∧ Names w c x.2 ∧ Kept w i0 x.2
  sock : ∀ c, s.sock = some c → Socket w c
  csock : ∀ p, s.csock = some p → w.loose = true ∧ ∃ n, w.listen n = some p
  invite : Kept w i0 s.invite
  cur : ∀ m, s.req = .other m → Kept w i0 m
  owni : isOwn s.invite = true
  ownc : ∀ m, s.req = .other m → isOwn m = true
  rsp : RspOK s
  both : s.csock = none → s.sock = none ∨ (w.loose = true → ∃ n, w.listen n = none)

/-- What holds between events. -/
def Cur (w : World) (s : St) : Prop := ∀ c m, s.sock = some c → s.cur = some m → Names w c m

/-- The result of a handler: when it ends the dialog, the socket does not matter any more. -/
def Tied (w : World) (i0 : Msg) (r : Run) : Prop :=
  Tie w i0 { r.s with sock := if r.c = .go then r.s.sock else none } ∧ (r.c = .go → Cur w r.s)

theorem Tie.frame {w : World} {i0 : Msg} {s t : St} (h : Tie w i0 s) (h1 : own t.outs = own s.outs)
    (h2 : t.sock = s.sock ∨ t.sock = none) (h3 : t.csock = s.csock ∨ t.csock = none ∧ t.sock = none)
    (h4 : t.invite = s.invite) (h5 : t.req = s.req) (h6 : t.response = s.response ∨ RspOK t) : Tie w i0 t := by
  constructor
  · rw [h1]; exact h.sent
  · rcases h2 with h2 | h2
    · rw [h2]; exact h.sock
    · rw [h2]; simp
  · rcases h3 with h3 | ⟨h3, _⟩
    · rw [h3]; exact h.csock
    · rw [h3]; simp
  · rw [h4]; exact h.invite
  · rw [h5]; exact h.cur
  · rw [h4]; exact h.owni
  · rw [h5]; exact h.ownc
  · rcases h6 with h6 | h6
    · intro m hm; exact h.rsp m (h6 ▸ hm)
    · exact h6
  · intro hc
    rcases h3 with h3 | ⟨_, h3⟩
    · rcases h2 with h2 | h2
      · rw [h2]; exact h.both (h3 ▸ hc)
      · exact .inl h2
    · exact .inl h3

theorem tied {w : World} {i0 : Msg} {r : Run} (h : Tie w i0 r.s) (k : r.c = .go → Cur w r.s) : Tied w i0 r := by
  refine ⟨?_, k⟩
  by_cases hc : r.c = .go
  · rw [if_pos hc]; exact h
  · rw [if_neg hc]; exact h.frame rfl (.inr rfl) (.inl rfl) rfl rfl (.inl rfl)

theorem Tied.go {w : World} {i0 : Msg} {r : Run} (h : Tied w i0 r) (hc : r.c = .go) : Tie w i0 r.s := by
  have := h.1
  rw [if_pos hc] at this; exact this

theorem Cur.frame {w : World} {s t : St} (h : Cur w s) (h2 : t.sock = s.sock) (h4 : t.invite = s.invite)
    (h5 : t.req = s.req) : Cur w t := by
  unfold Cur St.cur at *
  rw [h2, h5, h4]; exact h

theorem tie_cur {w : World} {i0 : Msg} {s : St} (h : Tie w i0 s) {m : Msg} (hm : s.cur = some m) :
    Kept w i0 m ∧ isOwn m = true := by
  unfold St.cur at hm
  cases hq : s.req with
  | none => rw [hq] at hm; cases hm
  | invite => rw [hq] at hm; cases hm; exact ⟨h.invite, h.owni⟩
  | other x => rw [hq] at hm; cases hm; exact ⟨h.cur _ hq, h.ownc _ hq⟩

theorem tied_go {w : World} {i0 : Msg} {s : St} (h : Tie w i0 s) (k : Cur w s) (c : Cont) : Tied w i0 ⟨s, c⟩ :=
  tied h fun _ => k

theorem tied_dead {w : World} {i0 : Msg} {s : St} {c : Cont} (h : Tie w i0 s) (hc : c ≠ .go) : Tied w i0 ⟨s, c⟩ :=
  tied h fun e => absurd e hc

theorem tied_fail {w : World} {i0 : Msg} {s : St} (h : Tie w i0 s) (e : DErr) : Tied w i0 (s.fail e) :=
  tied (h.frame (own_err _ _) (.inl rfl) (.inl rfl) rfl rfl (.inl rfl)) fun e => by simp [St.fail] at e

theorem Tied.andThen {w : World} {i0 : Msg} {r : Run} {f : St → Run} (h : Tied w i0 r)
    (k : ∀ t, Tie w i0 t → Cur w t → Tied w i0 (f t)) : Tied w i0 (r.andThen f) := by
  obtain ⟨s, c⟩ := r
  cases c
  · exact k s (h.go rfl) (h.2 rfl)
  all_goals exact h

theorem own_sent_not {m : Msg} (l : List Out) (d x : Bytes) (h : isOwn m = false) :
    own (l ++ [.sent d m x]) = own l := by
  rw [own_append]; simp [own, sends, h]

/-- Sending a message that is none of the dialog's own requests. -/
theorem send_other (w : World) (s : St) (m : Msg) (ho : isOwn m = false) :
    own (send w s m).1.s.outs = own s.outs ∧ (send w s m).1.s.sock = s.sock ∧ (send w s m).1.s.csock = s.csock ∧
    (send w s m).1.s.invite = s.invite ∧ (send w s m).1.s.req = s.req ∧ (send w s m).1.s.response = s.response := by
  have h := send_res w s m
  have key : ∀ m', addTimestamp (w.clock s.tick) (decForwards m) = .ok m' → isOwn m' = false := by
    intro m' ht
    obtain ⟨v, rfl, _⟩ := addTimestamp_frame ht
    obtain ⟨n, hn⟩ := decForwards_frame m
    rw [isOwn_via, hn, isOwn_mf]; exact ho
  generalize send w s m = x at h ⊢
  cases h with
  | loop => exact ⟨own_err _ _, rfl, rfl, rfl, rfl, rfl⟩
  | crash => exact ⟨rfl, rfl, rfl, rfl, rfl, rfl⟩
  | sent x hs hne ht => exact ⟨own_sent_not _ _ _ (key _ ht), rfl, rfl, rfl, rfl, rfl⟩
  | broken x e hs hne ht => exact ⟨(own_err _ _).trans (own_sent_not _ _ _ (key _ ht)), rfl, rfl, rfl, rfl, rfl⟩

theorem tied_sendNew {w : World} {i0 : Msg} {s : St} (h : Tie w i0 s) (k : Cur w s) (m : Msg) (ho : isOwn m = false) :
    Tied w i0 (sendNew w s m) := by
  obtain ⟨h1, h2, h3, h4, h5, h6⟩ := send_other w s m ho
  exact tied (h.frame h1 (.inl h2) (.inl h3) h4 h5 (.inl h6)) fun _ => k.frame h2 h4 h5

theorem tied_sendRsp {w : World} {i0 : Msg} {s : St} (h : Tie w i0 s) (k : Cur w s) : Tied w i0 (sendRsp w s) := by
  unfold sendRsp
  split
  · exact tied_go h k _
  · rename_i m hm
    obtain ⟨h1, h2, h3, h4, h5, h6⟩ := send_other w s m (by simp [isOwn, h.rsp m hm])
    refine tied (h.frame h1 (.inl h2) (.inl h3) h4 h5 (.inr ?_)) fun _ => k.frame h2 h4 h5
    intro x hx
    cases hx
    rw [send_isResponse]; exact h.rsp m hm

theorem sentBy_send (w : World) (s : St) (m : Msg) (hr : m.isResponse = false) :
    sentBy (send w s m).2 = sentBy m := by
  unfold send
  split
  · rfl
  · have hsd : sentBy (decForwards m) = sentBy m := by unfold decForwards; split <;> rfl
    have hrd : (decForwards m).isResponse = false := by unfold decForwards; split <;> exact hr
    unfold writeMsg
    split
    · rename_i m' c hts hs
      have hb := sentBy_ts hts
      obtain ⟨v, rfl, _⟩ := addTimestamp_frame hts
      dsimp only
      rw [show ({ decForwards m with via := v } : Msg).appended = { decForwards m with via := v } from
        appended_own hrd]
      split <;> exact hb.trans hsd
    · exact hsd

theorem tied_sendCancel {w : World} {i0 : Msg} {s : St} (h : Tie w i0 s) (k : Cur w s) :
    Tied w i0 (sendCancel w s) := by
  obtain ⟨h1, h2, h3, h4, h5, h6⟩ := send_other w s (newCancel s.invite) (own_newCancel _)
  have hv := sentBy_send w s (newCancel s.invite) (by rfl)
  unfold sendCancel
  generalize send w s (newCancel s.invite) = r at *
  have hsb : sentBy { s.invite with via := r.2.via } = sentBy s.invite := hv
  have hki := kept_via hsb h.invite
  refine tied ⟨?_, ?_, ?_, ?_, ?_, ?_, ?_, ?_, ?_⟩ fun _ => ?_
  · show ∀ x ∈ own r.1.s.outs, _
    rw [h1]; exact h.sent
  · show ∀ c, r.1.s.sock = some c → _
    rw [h2]; exact h.sock
  · show ∀ c, r.1.s.csock = some c → _
    rw [h3]; exact h.csock
  · show Kept w i0 { r.1.s.invite with via := _ }
    rw [h4]; exact hki
  · show ∀ m, r.1.s.req = .other m → _
    rw [h5]; exact h.cur
  · show isOwn { r.1.s.invite with via := _ } = true
    rw [h4]; exact h.owni
  · show ∀ m, r.1.s.req = .other m → _
    rw [h5]; exact h.ownc
  · intro m hm; exact h.rsp m (h6 ▸ hm)
  · show r.1.s.csock = none → r.1.s.sock = none ∨ _
    rw [h2, h3]; exact h.both
  · intro c m hs hm
    have hs : s.sock = some c := h2 ▸ hs
    unfold Cur St.cur at k
    unfold St.cur at hm
    simp only [h5, h4] at hm
    have := k c
    cases hq : s.req with
    | none => rw [hq] at hm; cases hm
    | other x => rw [hq] at hm this; exact this m hs hm
    | invite => rw [hq] at hm this; cases hm; exact names_via hsb (this _ hs rfl)

/-! ### The current request -/

theorem setCur_req (s : St) (m : Msg) : (s.setCur m).req = .other m ∨ (s.setCur m).req = s.req := by
  unfold St.setCur; split <;> simp_all

theorem tie_setCur {w : World} {i0 : Msg} {s : St} {m : Msg} (h : Tie w i0 s) (hk : Kept w i0 m) (ho : isOwn m = true) :
    Tie w i0 (s.setCur m) := by
  unfold St.setCur
  split
  · exact h
  · exact ⟨h.sent, h.sock, h.csock, hk, h.cur, ho, h.ownc, h.rsp, h.both⟩
  · exact ⟨h.sent, h.sock, h.csock, h.invite, fun x hx => by cases hx; exact hk, h.owni,
      fun x hx => by cases hx; exact ho, h.rsp, h.both⟩

theorem cur_setCur' {s : St} {m x : Msg} (h : (s.setCur m).cur = some x) : x = m := by
  unfold St.setCur St.cur at h
  cases hq : s.req <;> simp_all

/-- Adding a transmission. -/
theorem Tie.snoc {w : World} {i0 : Msg} {s t : St} {d : Bytes} {m : Msg} {c : Conn} (h : Tie w i0 s)
    (h1 : own t.outs = own s.outs ++ [(d, m)]) (hs : Socket w c) (hd : d = c.remote) (hn : Names w c m)
    (hk : Kept w i0 m) (h2 : t.sock = s.sock) (h3 : t.csock = s.csock) (h4 : t.invite = s.invite) (h5 : t.req = s.req)
    (h6 : t.response = s.response) : Tie w i0 t := by
  constructor
  · rw [h1]
    intro x hx
    rcases List.mem_append.1 hx with hx | hx
    · exact h.sent x hx
    · simp at hx; subst hx; exact ⟨c, hs, hd, hn, hk⟩
  · rw [h2]; exact h.sock
  · rw [h3]; exact h.csock
  · rw [h4]; exact h.invite
  · rw [h5]; exact h.cur
  · rw [h4]; exact h.owni
  · rw [h5]; exact h.ownc
  · intro m hm; exact h.rsp m (h6 ▸ hm)
  · rw [h2, h3]; exact h.both

theorem send_crash (w : World) (s : St) (m : Msg) (h : (send w s m).1.c = .crash) : (send w s m).2 = decForwards m := by
  unfold send at h ⊢
  split
  · rename_i hm; rw [if_pos hm] at h; simp [St.fail] at h
  · rename_i hm
    rw [if_neg hm] at h
    unfold writeMsg at h ⊢
    split
    · rename_i h1 h2
      simp only [h1, h2] at h
      split at h <;> simp [St.fail] at h
    · rfl

theorem tied_sendCur {w : World} {i0 : Msg} {s : St} (h : Tie w i0 s) (k : Cur w s) : Tied w i0 (sendCur w s) := by
  unfold sendCur
  split
  · exact tied_go h k _
  · rename_i m hm
    obtain ⟨hkm, hom⟩ := tie_cur h hm
    have hr := send_res w s m
    have hcr := send_crash w s m
    generalize send w s m = x at hr hcr ⊢
    have key : ∀ m', m.maxForwards ≠ 1 → addTimestamp (w.clock s.tick) (decForwards m) = .ok m' →
        isOwn m' = true ∧ SentAs m m' ∧ m'.appended = m' := by
      intro m' hne ht
      have hb := branchOf_ts ht
      have hsb := sentBy_ts ht
      obtain ⟨v, hv, _, _⟩ := addTimestamp_frame ht
      have hbd : branchOf (decForwards m) = branchOf m := by unfold decForwards; split <;> rfl
      have hsd : sentBy (decForwards m) = sentBy m := by unfold decForwards; split <;> rfl
      have hmf : decForwards m = { m with
          maxForwards := if m.maxForwards > 0 then m.maxForwards - 1 else m.maxForwards } := by
        unfold decForwards; split <;> rfl
      have ho' : isOwn m' = true := by rw [hv, isOwn_via, hmf, isOwn_mf]; exact hom
      have hbh : (decForwards m).via.tail = m.via.tail := by unfold decForwards; split <;> rfl
      refine ⟨ho', ⟨⟨v, by rw [hv, hmf]⟩, hb.trans hbd, hsb.trans hsd, hne, (behind_ts ht).trans hbh⟩, appended_own (isOwn_not_response ho')⟩
    cases hr with
    | loop hl =>
      refine tied_dead (tie_setCur (h.frame (own_err _ _) (.inl rfl) (.inl rfl) rfl rfl (.inl rfl)) ?_ hom)
        (by simp [St.fail])
      exact ⟨hkm.via, hkm.contact, hkm.body⟩
    | crash m' =>
      have hm' : m' = decForwards m := hcr rfl
      obtain ⟨n, hn⟩ := decForwards_frame m
      rw [hm', hn]
      exact tied_dead (tie_setCur h ⟨hkm.via, hkm.contact, hkm.body⟩ hom) (by simp)
    | @sent c m' x hs hne ht =>
      obtain ⟨k1, k2, k6⟩ := key m' hne ht
      have hn := names_sentAs k2 (k c m hs hm)
      have hk := kept_sentAs k2 hkm
      rw [k6]
      refine tied (tie_setCur (h.snoc (own_sent _ _ _ k1) (h.sock c hs) rfl hn hk rfl rfl rfl rfl rfl) hk k1) fun _ => ?_
      intro c' x hs' hx
      rw [(setCur_frame _ _).2.2.2.1] at hs'
      have : c' = c := by
        have : some c' = some c := hs'.symm.trans hs
        cases this; rfl
      rw [cur_setCur' hx, this]; exact hn
    | @broken c m' x e hs hne ht =>
      obtain ⟨k1, k2, k6⟩ := key m' hne ht
      have hn := names_sentAs k2 (k c m hs hm)
      have hk := kept_sentAs k2 hkm
      rw [k6]
      exact tied (tie_setCur (h.snoc ((own_err _ _).trans (own_sent _ _ _ k1)) (h.sock c hs) rfl hn hk rfl rfl rfl rfl rfl)
        hk k1) fun e => by simp [St.fail] at e

/-! ### Connecting and populating -/

theorem tie_connect {w : World} {i0 : Msg} {s : St} (h : Tie w i0 s) : Tie w i0 (connect w s).1 := by
  unfold connect
  split
  · exact h
  · have ho : own (s.outs ++ [.dial s.addr]) = own s.outs := by rw [own_append]; simp [own, sends]
    dsimp only
    split
    · exact h.frame ho (.inr rfl) (.inl rfl) rfl rfl (.inl rfl)
    · rename_i c hc
      have hs : ∀ x ∈ own (s.outs ++ [.dial s.addr]), ∃ c, Socket w c ∧ x.1 = c.remote ∧ Names w c x.2 ∧ Kept w i0 x.2 := by
        rw [ho]; exact h.sent
      have hk : ∀ c', some c = some c' → Socket w c' := by
        intro c' hc'
        cases hc'
        exact ⟨_, _, hc⟩
      unfold connectLoose
      split
      · rename_i hl
        simp only [Bool.and_eq_true] at hl
        split
        · rename_i hp
          exact ⟨hs, hk, h.csock, h.invite, h.cur, h.owni, h.ownc, h.rsp, fun _ => .inr fun _ => ⟨_, hp⟩⟩
        · rename_i p hp
          refine ⟨hs, hk, ?_, h.invite, h.cur, h.owni, h.ownc, h.rsp, fun hc => by cases hc⟩
          intro q hq
          cases hq
          exact ⟨hl.2, _, hp⟩
      · rename_i hl
        refine ⟨hs, hk, h.csock, h.invite, h.cur, h.owni, h.ownc, h.rsp, fun hc => .inr fun hw => ?_⟩
        exact absurd (show _ = true by rw [show s.csock = none from hc, hw]; rfl) hl

theorem populate_frame {ids : Ids} {origin : Bytes} {c : Conn} {cs : Option UInt16} {m m' : Msg}
    (hr : m.isResponse = false) (h : populate ids origin c cs m = .ok m') :
    m'.via = populateVia ids.branch c m.via ∧ populateContact c cs (m.addrs .contact) = .ok (m'.addrs .contact) ∧
    m'.payload = populatePayload origin c m := by
  simp only [populate, Res.bind_eq, Res.bind_ok_iff] at h
  obtain ⟨contact, hct, h⟩ := h
  obtain ⟨v, hv, hb⟩ := populateVia_branch ids.branch c m.via
  rw [hv] at h ⊢
  unfold populateMessage at h
  rw [if_neg (by intro hc; rw [show m.isResponse = true from hc] at hr; simp at hr)] at h
  simp only [Res.bind_eq, Res.bind_ok_iff, reduceCtorEq, if_false] at h
  obtain ⟨fr, h1, via, h2, fr2, h3, h⟩ := h
  have hvia : via = v :: m.via.tail := by
    simp only [ensureBranch] at h2
    rw [if_neg] at h2
    · cases h2; rfl
    · rw [get_isNone]
      exact paramIs_not_noParam (paramVal_eq_some.1 hb)
  cases h
  subst hvia
  refine ⟨rfl, ?_, rfl⟩
  rw [hct]
  have : contact ≠ [] := by
    unfold populateContact at hct
    split at hct
    · cases hct; simp
    · split at hct
      · cases hct
      · cases hct; simp
  simp [setAt, this]

theorem populate_full {ids : Ids} {origin : Bytes} {c : Conn} {cs : Option UInt16} {m m' : Msg}
    (hr : m.isResponse = false) (h : populate ids origin c cs m = .ok m') :
    m'.addrs .to ≠ [] ∧ Tagged (m'.addrs .from) ∧ (m'.method ≠ [] → m'.cseqMethod ≠ []) ∧ m'.hdr .userAgent ≠ [] ∧
    (m.hdr .userAgent ≠ [] → m'.hdr = m.hdr) ∧ m'.xheader = m.xheader := by
  have ht := (populate_spec hr h).tagged
  simp only [populate, Res.bind_eq, Res.bind_ok_iff] at h
  obtain ⟨contact, hct, h⟩ := h
  unfold populateMessage at h
  rw [if_neg (by intro hc; rw [show m.isResponse = true from hc] at hr; simp at hr)] at h
  simp only [Res.bind_eq, Res.bind_ok_iff] at h
  obtain ⟨fr, h1, via, h2, fr2, h3, h⟩ := h
  cases h
  refine ⟨?_, ht, ?_, ?_, ?_, rfl⟩
  · simp only [setAt]
    by_cases hto : m.addrs .to = [] <;> simp [hto]
  · intro hm
    dsimp only at hm ⊢
    split
    · exact hm
    · assumption
  · dsimp only
    split
    · simp [setAt, gosipUA]
    · assumption
  · intro hu
    exact if_neg hu

theorem populateVia_spec (b : Bytes) (c : Conn) (l : List Via) : ∃ v more, populateVia b c l = v :: more ∧
    v.port = c.lport ∧ (l = [] ∧ v.host = c.lhost ∨ ∃ v0 k, l = v0 :: k ∧ v.host = v0.host) := by
  unfold populateVia
  split
  · exact ⟨_, _, rfl, rfl, .inl ⟨rfl, rfl⟩⟩
  · split
    · exact ⟨_, _, rfl, rfl, .inr ⟨_, _, rfl, rfl⟩⟩
    · exact ⟨_, _, rfl, rfl, .inr ⟨_, _, rfl, rfl⟩⟩

theorem populateContactUri_spec (p : UInt16) (u : URI) : (populateContactUri p u).port = p ∧
    (populateContactUri p u).host = u.host ∧ ∃ t, ParamIs (populateContactUri p u).param b!"transport" t := by
  unfold populateContactUri
  split
  · exact ⟨rfl, rfl, _, paramIs_cons rfl⟩
  · rename_i h
    have hs : (u.param.get b!"transport").isSome := by
      cases hg : u.param.get b!"transport" with
      | none => exact absurd (by rw [hg]; rfl) h
      | some x => rfl
    obtain ⟨x, hx⟩ := get_isSome.1 hs
    exact ⟨rfl, rfl, x, hx⟩

theorem populateContact_spec {c : Conn} {cs : Option UInt16} {l l' : List Addr} (h : populateContact c cs l = .ok l') :
    ∃ a more u, l' = a :: more ∧ a.uri = some u ∧ u.port = cs.getD c.lport ∧ (∃ t, ParamIs u.param b!"transport" t) ∧
      (l = [] ∧ u.host = c.lhost ∨ ∃ a0 k u0, l = a0 :: k ∧ a0.uri = some u0 ∧ u.host = u0.host) := by
  unfold populateContact at h
  split at h
  · cases h
    obtain ⟨h1, h2, h3⟩ := populateContactUri_spec (cs.getD c.lport) { scheme := b!"sip", host := c.lhost }
    exact ⟨_, _, _, rfl, rfl, h1, h3, .inl ⟨rfl, h2⟩⟩
  · split at h
    · cases h
    · rename_i u hu
      cases h
      obtain ⟨h1, h2, h3⟩ := populateContactUri_spec (cs.getD c.lport) u
      exact ⟨_, _, _, rfl, rfl, h1, h3, .inr ⟨_, _, _, rfl, hu, h2⟩⟩

theorem given_contact {w : World} {g l l' : List Addr} {c : Conn} {cs : Option UInt16} (hc : Socket w c)
    (h : populateContact c cs l = .ok l') (hg : ContactGiven w g l) : ContactGiven w g l' := by
  unfold populateContact at h
  split at h
  · cases h
    intro a more u e hu
    cases e
    cases hu
    exact .inr ⟨_, ⟨c, hc, rfl⟩, rfl, rfl⟩
  · rename_i a k
    split at h
    · cases h
    · rename_i u hu
      cases h
      intro a' more u' e hu'
      cases e
      cases hu'
      have hcase : populateContactUri (cs.getD c.lport) u = { u with port := cs.getD c.lport } ∨
          (∀ t, ¬ ParamIs u.param b!"transport" t) ∧
          populateContactUri (cs.getD c.lport) u =
            { u with port := cs.getD c.lport, param := (b!"transport", b!"udp") :: u.param } := by
        unfold populateContactUri
        split
        · rename_i hn
          refine .inr ⟨fun t ht => ?_, rfl⟩
          have := get_isSome.2 ⟨t, ht⟩
          cases hx : u.param.get b!"transport" with
          | none => rw [hx] at this; cases this
          | some _ => rw [hx] at hn; cases hn
        · exact .inl rfl
      have hp : (populateContactUri (cs.getD c.lport) u).port = cs.getD c.lport := (populateContactUri_spec _ _).1
      rcases hg a k u rfl hu with ⟨a0, u0, h1, h2, h3, h4⟩ | ⟨x, h1, h2, h3⟩
      · refine .inl ⟨a0, u0, h1, h2, by rw [h3], ?_⟩
        rw [hp]
        rcases h4 with h4 | ⟨h4, h5⟩
        · rcases hcase with e | ⟨e1, e⟩
          · exact .inl (by rw [e, h4])
          · exact .inr ⟨by rw [h4] at e1; exact e1, by rw [e, h4]⟩
        · rcases hcase with e | ⟨e1, e⟩
          · exact .inr ⟨h4, by rw [e, h5]⟩
          · exact absurd (by rw [h5]; exact paramIs_cons rfl) (e1 b!"udp")
      · refine .inr ⟨x, h1, h2, ?_⟩
        rw [hp]
        subst h3
        injection hu with hu
        rcases hcase with e | ⟨e1, e⟩
        · rw [e, ← hu]
        · exact absurd (by rw [← hu]; exact paramIs_cons rfl) (e1 b!"udp")

theorem contactGiven_refl (w : World) (l : List Addr) : ContactGiven w l l :=
  fun a _ u e hu => .inl ⟨a, u, e, hu, by cases a; cases hu; rfl, .inl rfl⟩

theorem contactGiven_host {w : World} {m0 m : Msg} (h : ContactGiven w (m0.addrs .contact) (m.addrs .contact)) :
    ∀ x, contactHost m = some x → contactHost m0 = some x ∨ LocalHost w x := by
  intro x hx
  unfold contactHost at hx ⊢
  cases hl : m.addrs .contact with
  | nil => rw [hl] at hx; cases hx
  | cons a k =>
    rw [hl] at hx
    cases hu : a.uri with
    | none => simp [hu] at hx
    | some u =>
      simp [hu] at hx
      rcases h a k u hl hu with ⟨a0, u0, h1, h2, h3, h4⟩ | ⟨y, h1, h2, h3⟩
      · refine .inl ?_
        rw [h1]
        simp [h2]
        rcases h4 with h4 | ⟨_, h4⟩ <;> rw [h4] at hx <;> exact hx
      · subst h3
        injection hu with hu
        rw [← hu] at hx
        exact .inr (hx ▸ h1)

theorem given_orElse {P : Bytes → Prop} {x y v : Bytes} (h : Given P x y) (hv : P v) : Given P x (orElse y v) := by
  unfold orElse
  split
  · rename_i hy
    rcases h with h | ⟨h, _⟩
    · exact .inr ⟨by rw [← h, hy], hv⟩
    · exact .inr ⟨h, hv⟩
  · exact h

theorem filled_populate {w : World} {d0 d : Sdp.SDP} {c : Conn} (n : Nat) (hc : Socket w c) (h : FilledIn w d0 d) :
    FilledIn w d0 (populateSDP (w.origin n) c d) := by
  refine ⟨?_, given_orElse h.addr ⟨c, hc, rfl⟩, given_orElse h.oaddr ⟨c, hc, rfl⟩, given_orElse h.id ⟨n, rfl⟩⟩
  have := h.only
  unfold populateSDP
  rw [this]

theorem filled_refl (w : World) (d : Sdp.SDP) : FilledIn w d d := ⟨rfl, .inl rfl, .inl rfl, .inl rfl⟩

theorem complete_populate {w : World} (hw : Speaks w) (n : Nat) {c : Conn} (hc : Socket w c) (d : Sdp.SDP) :
    SdpComplete (populateSDP (w.origin n) c d) := by
  have key : ∀ x v : Bytes, v ≠ [] → orElse x v ≠ [] := by
    intro x v hv
    unfold orElse
    split <;> assumption
  exact ⟨key _ _ (hw.1 c hc), key _ _ (hw.1 c hc), key _ _ (hw.2 n)⟩

theorem names_populate {w : World} {i0 : Msg} {n : Nat} {c : Conn} {cs : Option UInt16} {m m' : Msg}
    (hp : populate (w.ids n) (w.origin n) c cs m = .ok m') (hc : Socket w c)
    (hcs : ∀ p, cs = some p → w.loose = true ∧ ∃ n, w.listen n = some p)
    (hcn : cs = none → w.loose = true → ∃ n, w.listen n = none) (ho : isOwn m = true) (hk : Kept w i0 m) :
    Names w c m' ∧ Kept w i0 m' ∧ isOwn m' = true := by
  have hr := isOwn_not_response ho
  have hpop := populate_spec hr hp
  obtain ⟨hv, hct, hpl⟩ := populate_frame hr hp
  obtain ⟨v, vs, hve, hvp, hvh⟩ := populateVia_spec (w.ids n).branch c m.via
  obtain ⟨a, more, u, ha, hu, hup, hut, huh⟩ := populateContact_spec hct
  refine ⟨⟨⟨v, vs, hv.trans hve, hvp⟩, ⟨a, more, u, ha, hu, hut, ?_⟩, ?_, ?_⟩, ⟨?_, ?_, ?_⟩, isOwn_populated hpop ho⟩
  · cases cs with
    | none => exact .inl ⟨hup, hcn rfl⟩
    | some p =>
      obtain ⟨h1, k, h2⟩ := hcs p rfl
      exact .inr ⟨h1, k, by rw [h2, hup]; rfl⟩
  · intro hw hi d hd
    rw [hpl] at hd
    rw [hpop.method] at hi
    unfold populatePayload at hd
    split at hd
    · rw [if_pos hi] at hd
      cases hd
      exact complete_populate hw n hc _
    · rename_i hns
      exact absurd hd (hns d)
  · obtain ⟨f1, f2, f3, f4, _⟩ := populate_full hr hp
    exact ⟨f1, f2, f3, f4⟩
  · intro x hx
    unfold viaHost at hx
    rw [hv, hve] at hx
    simp at hx
    rcases hvh with ⟨_, h⟩ | ⟨v0, k, h1, h2⟩
    · exact .inr ⟨c, hc, h ▸ hx⟩
    · exact hk.via x (by unfold viaHost; rw [h1]; simp; rw [← h2]; exact hx)
  · exact given_contact hc hct hk.contact
  · intro hi
    rw [hpop.method] at hi
    have hb := hk.body hi
    rw [hpl]
    unfold populatePayload
    split
    · rename_i d hd
      rw [if_pos hi]
      rcases hb with hb | ⟨d0, d1, hb1, hb2, hb3⟩
      · exact .inr ⟨d, _, by rw [← hb]; exact hd, rfl, filled_populate n hc (filled_refl w d)⟩
      · rw [hd] at hb2
        cases hb2
        exact .inr ⟨d0, _, hb1, rfl, filled_populate n hc hb3⟩
    · exact hb

theorem tied_attempt {w : World} {i0 : Msg} {t : St} (h : Tie w i0 t) : Tied w i0 (attempt w t) := by
  rcases attempt_spec w t with e | ⟨c, m, m', hs, hm, hp, e⟩
  · rw [e]; exact tied_dead h (by simp)
  · rw [e]
    obtain ⟨hkm, hom⟩ := tie_cur h hm
    obtain ⟨hn, hk, ho⟩ := names_populate hp (h.sock c hs) h.csock
      (fun e => (h.both e).resolve_left (by rw [hs]; simp)) hom hkm
    have h1 : Tie w i0 { t with tick := t.tick + 1 } := h.frame rfl (.inl rfl) (.inl rfl) rfl rfl (.inl rfl)
    have h2 := tie_setCur h1 hk ho
    obtain ⟨f1, f2, f3, f4, f5, f6, f7, f8, f9⟩ := newAttempt_frame { t with tick := t.tick + 1 } m'
    have hcs : (newAttempt { t with tick := t.tick + 1 } m').csock = ({ t with tick := t.tick + 1 }.setCur m').csock := by
      unfold newAttempt; dsimp only; split <;> rfl
    have hrs : (newAttempt { t with tick := t.tick + 1 } m').response =
        ({ t with tick := t.tick + 1 }.setCur m').response := by
      unfold newAttempt; dsimp only; split <;> rfl
    obtain ⟨g1, _, _, g4, _⟩ := setCur_frame { t with tick := t.tick + 1 } m'
    refine tied_sendCur (h2.frame (by rw [f1, g1]) (.inl (f4.trans g4.symm)) (.inl hcs) f7 f8 (.inl hrs)) ?_
    intro c' x hs' hx
    rw [f4] at hs'
    have : c' = c := by
      have : some c' = some c := hs'.symm.trans hs
      cases this; rfl
    rw [f6] at hx
    rw [cur_setCur' hx, this]; exact hn

theorem tied_popRoutes {w : World} {i0 : Msg} (l : List Bytes) (s : St) (h : Tie w i0 s) :
    Tied w i0 (popRoutes w l s) := by
  induction l generalizing s with
  | nil =>
    have h0 : Tie w i0 { s with routes := [] } := h.frame rfl (.inl rfl) (.inl rfl) rfl rfl (.inl rfl)
    exact tied_fail h0 _
  | cons a l ih =>
    have h0 : Tie w i0 { s with addr := a, routes := l } := h.frame rfl (.inl rfl) (.inl rfl) rfl rfl (.inl rfl)
    simp only [popRoutes]
    split
    · exact tied_dead (h.frame rfl (.inr rfl) (.inl rfl) rfl rfl (.inl rfl)) (by simp)
    · split
      · exact tied_attempt (tie_connect h0)
      · exact ih _ (tie_connect h0)

theorem tied_sendTowards {w : World} {i0 : Msg} {s : St} {q : Req} {hop : Res Err (Bytes × UInt16)} (h : Tie w i0 s)
    (k : ∀ m, q = .other m → Kept w i0 m ∧ isOwn m = true) : Tied w i0 (sendTowards w s q hop) := by
  unfold sendTowards
  split
  · exact tied_dead h (by simp)
  · exact tied_fail h _
  · split
    · exact tied_dead h (by simp)
    · have h0 : Tie w i0 { s with tick := s.tick + 1 } := h.frame rfl (.inl rfl) (.inl rfl) rfl rfl (.inl rfl)
      exact tied_fail h0 _
    · refine tied_popRoutes _ _ ⟨h.sent, h.sock, h.csock, h.invite, ?_, h.owni, ?_, h.rsp, h.both⟩
      · intro m hm; exact (k m hm).1
      · intro m hm; exact (k m hm).2

theorem kept_route {w : World} {i0 m : Msg} (h : Kept w i0 m) : Kept w i0 (routeMessage none none m).1 := by
  obtain ⟨u, a, hr, ha⟩ := route_none m
  rw [hr]
  refine ⟨h.via, ?_, h.body⟩
  have hc : a .contact = m.addrs .contact := ha _ (by simp)
  show ContactGiven w _ (a .contact)
  rw [hc]; exact h.contact

theorem tied_sendInvite {w : World} {i0 : Msg} {s : St} (h : Tie w i0 s) : Tied w i0 (sendInvite w s) := by
  unfold sendInvite
  refine tied_sendTowards ⟨h.sent, h.sock, h.csock, kept_route h.invite, h.cur, ?_, h.ownc, h.rsp, h.both⟩ (by simp)
  obtain ⟨u, a, hr, ha⟩ := route_none s.invite
  show isOwn (routeMessage none none s.invite).1 = true
  rw [hr]; exact h.owni

theorem kept_bye {w : World} {i0 invite remote b : Msg} {l : Option Int} {n : Int}
    (h : newBye invite remote l = .ok (b, n)) : Kept w i0 b := by
  simp only [newBye, Res.bind_eq, Res.bind_ok_iff] at h
  obtain ⟨u, _, h⟩ := h
  cases h
  refine ⟨?_, ?_, ?_⟩
  · intro x hx; simp [viaHost] at hx
  · intro a k u e; cases e
  · intro hx; exact absurd (show b!"BYE" = b!"INVITE" from hx) (by decide +kernel)

/-! ### Events -/

theorem tied_checkSDP {w : World} {i0 : Msg} {s : St} (h : Tie w i0 s) (k : Cur w s) (m : Msg) :
    Tied w i0 (checkSDP s m) := by
  unfold checkSDP
  split
  · split
    · rename_i d _ _ a _
      have ho : own (s.outs ++ [.peer d.addr a.port]) = own s.outs := by rw [own_append]; simp [own, sends]
      exact (tied (h.frame ho (.inl rfl) (.inl rfl) rfl rfl (.inl rfl)) fun _ => k.frame rfl rfl rfl)
    · exact tied_go h k _
  · exact tied_go h k _

theorem tied_transition {w : World} {i0 : Msg} {s : St} (h : Tie w i0 s) (k : Cur w s) (c : CallState) (d : Cont) :
    Tied w i0 ⟨transition s c, d⟩ :=
  (tied (h.frame (own_transition s c) (.inl rfl) (.inl rfl) rfl rfl (.inl rfl)) fun _ => k.frame rfl rfl rfl)

theorem tied_ackFinal {w : World} {i0 : Msg} {s : St} (h : Tie w i0 s) (k : Cur w s) (m cur : Msg) :
    Tied w i0 (ackFinal w s m cur) := by
  unfold ackFinal
  split
  · split
    · exact tied_fail h _
    · split
      · rename_i hk; exact tied_sendNew h k _ (own_newAck hk)
      · exact tied_go h k _
  · exact tied_go h k _

theorem tied_settle {w : World} {i0 : Msg} {s : St} (h : Tie w i0 s) (k : Cur w s) (m : Msg) :
    Tied w i0 (settle s m) := by
  have h' : Tie w i0 { s with routes := [], requestTimer := false } := h.frame rfl (.inl rfl) (.inl rfl) rfl rfl (.inl rfl)
  have k' : Cur w { s with routes := [], requestTimer := false } := k.frame rfl rfl rfl
  unfold settle
  dsimp only
  split
  · exact tied_checkSDP h' k' m
  · exact tied_go h' k' _

theorem tied_redirect {w : World} {i0 : Msg} {s : St} (h : Tie w i0 s) (m : Msg) : Tied w i0 (redirect w s m) := by
  unfold redirect
  split
  · refine tied_sendInvite ⟨h.sent, h.sock, h.csock, ⟨h.invite.via, ?_, h.invite.body⟩, h.cur, h.owni, h.ownc, h.rsp, h.both⟩
    exact h.invite.contact
  · exact tied_dead h (by simp)

theorem tied_handleOK {w : World} {i0 : Msg} {s : St} (h : Tie w i0 s) (k : Cur w s) (m : Msg) :
    Tied w i0 (handleOK s m) := by
  unfold handleOK
  split
  · have : Tied w i0 ⟨if s.remote.isNone then transition s .answered else s, .go⟩ := by
      split
      · exact tied_transition h k _ _
      · exact tied_go h k _
    exact (tied ((this.go rfl).frame rfl (.inl rfl) (.inl rfl) rfl rfl (.inl rfl)) fun _ => (this.2 rfl).frame rfl rfl rfl)
  · split
    · exact tied_transition h k _ _
    · exact tied_go h k _

theorem tied_handleStatus {w : World} {i0 : Msg} {s : St} (h : Tie w i0 s) (k : Cur w s) (m : Msg) :
    Tied w i0 (handleStatus w s m) := by
  unfold handleStatus
  split
  · exact tied_transition h k _ _
  split
  · exact tied_transition h k _ _
  split
  · exact tied_handleOK h k m
  split
  · split
    · exact tied_popRoutes _ _ h
    · exact tied_fail h _
  split
  · exact tied_redirect h m
  split
  · exact tied_fail h _
  · exact tied_go h k _

theorem tied_handleResponse {w : World} {i0 : Msg} {s : St} (h : Tie w i0 s) (k : Cur w s) (m : Msg) :
    Tied w i0 (handleResponse w s m) := by
  unfold handleResponse
  split
  · exact tied_go h k _
  · split
    · exact ((tied_ackFinal h k m _).andThen fun t h k => tied_settle h k m).andThen fun t h k =>
        tied_handleStatus h k m
    · exact tied_go h k _

theorem isResponse_new (m : Msg) {n : Int} (hn : 0 < n) : (newResponse m n).isResponse = true := by
  simp [newResponse, Msg.isResponse, hn]

theorem tied_handleMethod {w : World} {i0 : Msg} {s : St} (h : Tie w i0 s) (k : Cur w s) (m : Msg) :
    Tied w i0 (handleMethod w s m) := by
  unfold handleMethod
  split
  · exact (tied_sendNew h k _ (own_newResponse m _ (by decide))).andThen fun t h k => tied_transition h k _ _
  split
  · exact tied_sendNew h k _ (own_newResponse m _ (by decide))
  split
  · have h0 : Tie w i0 { s with remote := some m } := h.frame rfl (.inl rfl) (.inl rfl) rfl rfl (.inl rfl)
    have k0 : Cur w { s with remote := some m } := k.frame rfl rfl rfl
    refine (tied_checkSDP h0 k0 m).andThen fun t h k => ?_
    unfold sendResponse
    refine tied_sendRsp (h.frame rfl (.inl rfl) (.inl rfl) rfl rfl (.inr ?_)) (k.frame rfl rfl rfl)
    intro x hx
    cases hx
    exact isResponse_new m (by decide)
  split
  · refine (tied (h.frame rfl (.inl rfl) (.inl rfl) rfl rfl (.inr ?_)) fun _ => k.frame rfl rfl rfl)
    intro x hx; cases hx
  · exact tied_sendNew h k _ (own_newResponse m _ (by decide))

theorem tied_handleRequest {w : World} {i0 : Msg} {s : St} (h : Tie w i0 s) (k : Cur w s) (m : Msg) :
    Tied w i0 (handleRequest w s m) := by
  unfold handleRequest
  split
  · exact (tied_sendNew h k _ (own_newResponse m _ (by decide))).andThen fun t h k => tied_fail h _
  split
  · exact tied_sendNew h k _ (own_newResponse m _ (by decide))
  · have h0 : Tie w i0 { s with rseq := m.cseq } := h.frame rfl (.inl rfl) (.inl rfl) rfl rfl (.inl rfl)
    exact tied_handleMethod h0 (k.frame rfl rfl rfl) m

theorem tied_handleMessage {w : World} {i0 : Msg} {s : St} (h : Tie w i0 s) (k : Cur w s) (m : Msg) :
    Tied w i0 (handleMessage w s m) := by
  unfold handleMessage
  split
  · exact tied_go h k _
  split
  · exact (tied_sendNew h k _ (own_newResponse m _ (by decide))).andThen fun t h k => tied_fail h _
  split
  · exact tied_sendNew h k _ (own_newResponse m _ (by decide))
  split
  · exact tied_handleResponse h k m
  · exact tied_handleRequest h k m

theorem tied_resendRequest {w : World} {i0 : Msg} {s : St} (h : Tie w i0 s) (k : Cur w s) :
    Tied w i0 (resendRequest w s) := by
  unfold resendRequest
  split
  · exact tied_go h k _
  split
  · exact (tied_sendCur h k).andThen fun t h k =>
      (tied (h.frame rfl (.inl rfl) (.inl rfl) rfl rfl (.inl rfl)) fun _ => k.frame rfl rfl rfl)
  · split
    · exact tied_go h k _
    · exact tied_popRoutes _ _ h

theorem tied_resendResponse {w : World} {i0 : Msg} {s : St} (h : Tie w i0 s) (k : Cur w s) :
    Tied w i0 (resendResponse w s) := by
  unfold resendResponse
  split
  · exact tied_go h k _
  split
  · exact (tied_sendRsp h k).andThen fun t h k =>
      (tied (h.frame rfl (.inl rfl) (.inl rfl) rfl rfl (.inl rfl)) fun _ => k.frame rfl rfl rfl)
  · split
    · exact tied_go h k _
    · exact tied_popRoutes _ _ h

theorem tied_sendHangup {w : World} {i0 : Msg} {s : St} (h : Tie w i0 s) (k : Cur w s) :
    Tied w i0 (sendHangup w s) := by
  unfold sendHangup
  split
  · exact tied_sendCancel h k
  · exact tied_sendCancel h k
  · split
    · exact tied_go h k _
    · split
      · rename_i hb
        refine tied_sendTowards (h.frame rfl (.inl rfl) (.inl rfl) rfl rfl (.inl rfl)) ?_
        intro x hx
        cases hx
        exact ⟨kept_route (kept_bye hb), isOwn_bye hb⟩
      · exact tied_go h k _
  · exact tied_go h k _

theorem tied_step {w : World} {i0 : Msg} {s : St} (h : Tie w i0 s) (k : Cur w s) (e : Event) :
    Tied w i0 (step w s e) := by
  cases e with
  | sockErr r n =>
    simp only [step]
    have h' : Tie w i0 { s with sock := none } := h.frame rfl (.inr rfl) (.inl rfl) rfl rfl (.inl rfl)
    split
    · exact tied_go h k _
    split
    · exact tied_dead h' (by simp)
    · exact tied_fail h' _
  | csockErr n =>
    simp only [step]
    split
    · exact tied_go h k _
    · exact ⟨h.frame (own_err _ _) (.inr rfl) (.inr ⟨rfl, rfl⟩) rfl rfl (.inl rfl), fun e => by simp [St.fail] at e⟩
  | requestTimer =>
    simp only [step]
    split
    · exact tied_resendRequest (h.frame rfl (.inl rfl) (.inl rfl) rfl rfl (.inl rfl)) (k.frame rfl rfl rfl)
    · exact tied_go h k _
  | responseTimer =>
    simp only [step]
    split
    · exact tied_resendResponse (h.frame rfl (.inl rfl) (.inl rfl) rfl rfl (.inl rfl)) (k.frame rfl rfl rfl)
    · exact tied_go h k _
  | msg m =>
    simp only [step]
    split
    · exact tied_go h k _
    · exact tied_handleMessage h k m
  | hangup => exact tied_sendHangup h k

theorem tied_loop {w : World} {i0 : Msg} (evs : List Event) (r : Run) (h : Tied w i0 r) :
    Tied w i0 (loop w evs r) := by
  induction evs generalizing r with
  | nil => exact h
  | cons e evs ih => exact ih _ (h.andThen fun t h k => tied_step h k e)

theorem tied_start (w : World) (i0 : Msg) (ho : isOwn i0 = true) : Tied w i0 (start w i0) := by
  refine tied_sendInvite ⟨?_, ?_, ?_, ⟨fun _ h => .inl h, contactGiven_refl _ _, fun _ => .inl rfl⟩, ?_, ho, ?_, ?_,
    fun _ => .inl rfl⟩
  · intro x hx; simp [own, sends] at hx
  · intro c hc; cases hc
  · intro c hc; cases hc
  · intro m hm; cases hm
  · intro m hm; cases hm
  · intro m hm; cases hm

theorem tied_dialog (w : World) (i0 : Msg) (evs : List Event) (ho : isOwn i0 = true) :
    ∀ x ∈ own (dialog w i0 evs).s.outs, ∃ c, Socket w c ∧ x.1 = c.remote ∧ Names w c x.2 ∧ Kept w i0 x.2 := by
  have h := (tied_loop evs _ (tied_start w i0 ho)).1.sent
  have h : ∀ x ∈ own (loop w evs (start w i0)).s.outs, _ := h
  unfold dialog
  dsimp only
  split
  · unfold cleanup
    split
    · exact h
    split
    · exact h
    · show ∀ x ∈ own (_ ++ [.closed]), _
      rw [own_append]; simpa [own, sends] using h
  · exact h

end Gosip.Dialog
