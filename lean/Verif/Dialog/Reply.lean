import Verif.Dialog.Alive

/-!
# How the dialog answers one message
-/

namespace Gosip.Dialog
open Sip Spec

/-- The message can be stamped: it has a Via, or stamps are turned off. -/
def CanStamp (w : World) (m : Msg) : Prop := m.via ≠ [] ∨ ∀ n, w.clock n = none

theorem stamp_ok {w : World} {m : Msg} (h : CanStamp w m) (n : Nat) :
    ∃ m', addTimestamp (w.clock n) m = .ok m' ∧ Stamped m m' := by
  have : ∃ m', addTimestamp (w.clock n) m = .ok m' := by
    unfold addTimestamp
    split
    · exact ⟨_, rfl⟩
    · split
      · rename_i hv
        rcases h with h | h
        · exact absurd hv h
        · rename_i he _; simp [h] at he
      · exact ⟨_, rfl⟩
  obtain ⟨m', hm⟩ := this
  exact ⟨m', hm, stamped_ts hm⟩

/-- Sending a message that has no Max-Forwards. -/
theorem send_plain {w : World} {s : St} {c : Conn} {m : Msg} (hs : s.sock = some c) (hf : m.maxForwards ≤ 0)
    (hv : CanStamp w m) :
    ∃ m' x, Stamped m m' ∧ (send w s m).2 = m'.appended ∧
      ((send w s m).1 = ⟨{ s with tick := s.tick + 1 }.out (.sent c.remote m' x), .go⟩ ∨
       ∃ e, (send w s m).1 = ({ s with tick := s.tick + 1 }.out (.sent c.remote m' x)).fail (.net e)) := by
  obtain ⟨m', ht, hst⟩ := stamp_ok hv s.tick
  have hd : decForwards m = m := by unfold decForwards; rw [if_neg (by omega)]
  have hne : m.maxForwards ≠ 1 := by omega
  refine ⟨m', m'.text (w.origin s.tick), hst, ?_⟩
  unfold send
  rw [if_neg hne, hd]
  unfold writeMsg
  rw [ht, hs]
  dsimp only
  split
  · exact ⟨rfl, .inl rfl⟩
  · exact ⟨rfl, .inr ⟨_, rfl⟩⟩

theorem sends_sent (l : List Out) (d : Bytes) (m : Msg) (x : Bytes) : sends (l ++ [.sent d m x]) = sends l ++ [(d, m)] := by
  rw [sends_append]; rfl

/-- Only this was sent: `r`, a response to `m` with status `n`, to the address of the socket. -/
def Replied (s : St) (m : Msg) (n : Int) (o : List Out) : Prop :=
  ∃ c r new, s.sock = some c ∧ Stamped (newResponse m n) r ∧ o = s.outs ++ new ∧ sends new = [(c.remote, r)]

theorem Replied.more {s : St} {m : Msg} {n : Int} {o : List Out} (h : Replied s m n o) (l : List Out)
    (hl : sends l = []) : Replied s m n (o ++ l) := by
  obtain ⟨c, r, new, h1, h2, h3, h4⟩ := h
  exact ⟨c, r, new ++ l, h1, h2, by rw [h3, List.append_assoc], by rw [sends_append, h4, hl]; rfl⟩

theorem canStamp_rsp {w : World} {m : Msg} (h : CanStamp w m) (n : Int) : CanStamp w (newResponse m n) := h

theorem reply {w : World} {s : St} {c : Conn} {m : Msg} (n : Int) (hs : s.sock = some c) (hv : CanStamp w m) :
    Replied s m n (sendNew w s (newResponse m n)).s.outs := by
  obtain ⟨m', x, h1, _, h2 | ⟨e, h2⟩⟩ := send_plain hs (m := newResponse m n) (Int.le_refl 0) (canStamp_rsp hv n)
  · unfold sendNew
    rw [h2]
    exact ⟨c, m', [.sent c.remote m' x], hs, h1, rfl, rfl⟩
  · unfold sendNew
    rw [h2]
    exact ⟨c, m', [.sent c.remote m' x, .err (.net e)], hs, h1, by simp [St.out, St.fail], rfl⟩

theorem reply_then {s : St} {m : Msg} {n : Int} {r : Run} {f : St → Run} (h : Replied s m n r.s.outs)
    (hf : ∀ t, ∃ l, (f t).s.outs = t.outs ++ l ∧ sends l = []) : Replied s m n (r.andThen f).s.outs := by
  unfold Run.andThen
  split
  · obtain ⟨l, h1, h2⟩ := hf r.s
    rw [h1]; exact h.more l h2
  · exact h
  · exact h
  · exact h

theorem reply_rsp {w : World} {s : St} {c : Conn} {m : Msg} (n : Int) (hs : s.sock = some c) (hv : CanStamp w m) :
    Replied s m n (sendResponse w s (newResponse m n)).s.outs := by
  obtain ⟨m', x, h1, _, h2 | ⟨e, h2⟩⟩ :=
    send_plain (s := { s with response := some (newResponse m n), responseResends := 0, responseTimer := true })
      hs (m := newResponse m n) (Int.le_refl 0) (canStamp_rsp hv n)
  · unfold sendResponse sendRsp
    simp only
    rw [h2]
    exact ⟨c, m', [.sent c.remote m' x], hs, h1, rfl, rfl⟩
  · unfold sendResponse sendRsp
    simp only
    rw [h2]
    exact ⟨c, m', [.sent c.remote m' x, .err (.net e)], hs, h1, by simp [St.out, St.fail], rfl⟩

theorem Replied.via {s t : St} {m : Msg} {n : Int} {o : List Out} (h : Replied t m n o) (hs : t.sock = s.sock)
    (ho : ∃ l, t.outs = s.outs ++ l ∧ sends l = []) : Replied s m n o := by
  obtain ⟨c, r, new, h1, h2, h3, h4⟩ := h
  obtain ⟨l, ho, hl⟩ := ho
  exact ⟨c, r, l ++ new, hs ▸ h1, h2, by rw [h3, ho, List.append_assoc], by rw [sends_append, hl, h4]; rfl⟩

/-- A session description names an audio stream. -/
def HasAudio (m : Msg) : Prop := ∀ d, m.payload = some (.sdp d) → d.audio ≠ none

theorem checkSDP_ok {s : St} {m : Msg} (h : HasAudio m) :
    checkSDP s m = ⟨s, .go⟩ ∨ ∃ a p, checkSDP s m = ⟨s.out (.peer a p), .go⟩ := by
  unfold checkSDP
  split
  · rename_i d hd
    split
    · exact .inr ⟨_, _, rfl⟩
    · rename_i ha; exact absurd ha (h d hd)
  · exact .inl rfl

/-- What is sent because of a request. -/
theorem answer_request {w : World} {s : St} {c : Conn} {cur m : Msg} (hs : s.sock = some c) (hc : s.cur = some cur)
    (hreq : m.status ≤ 0) (hv : CanStamp w m) (ha : m.method = b!"INVITE" → HasAudio m)
    (hack : m.method = b!"ACK" → m.versionMajor = 2 ∧ m.versionMinor = 0 ∧ m.callID = cur.callID ∧
      0 < m.maxForwards ∧ (s.rseq = 0 ∨ s.rseq ≤ m.cseq)) :
    match answer cur.callID (if s.rseq = 0 then none else some s.rseq) m with
    | some n => Replied s m n (step w s (.msg m)).s.outs
    | none => ∃ new, (step w s (.msg m)).s.outs = s.outs ++ new ∧ sends new = [] := by
  have hstep : step w s (.msg m) = handleMessage w s m := by simp [step, hs]
  have hsq : (if s.rseq = 0 then none else some s.rseq).any (m.cseq < ·) = true ↔ s.rseq ≠ 0 ∧ m.cseq < s.rseq := by
    split <;> simp_all
  have hnr : m.isResponse = false := by simp [Msg.isResponse]; omega
  have herr : ∀ (e : DErr) (t : St), ∃ l, (t.fail e).s.outs = t.outs ++ l ∧ sends l = [] :=
    fun e t => ⟨[.err e], rfl, rfl⟩
  rw [hstep]
  unfold handleMessage answer
  simp only [hc, hsq, hnr, Bool.false_eq_true, if_false]
  by_cases hm : m.method = b!"ACK"
  · obtain ⟨a1, a2, a3, a4, a5⟩ := hack hm
    rw [if_pos hm, if_neg (by simp [a1, a2]), if_neg (by simp [a3])]
    unfold handleRequest
    rw [if_neg (by omega), if_neg (by omega)]
    unfold handleMethod
    rw [if_neg (by rw [hm]; decide), if_neg (by rw [hm]; decide), if_neg (by rw [hm]; decide), if_pos hm]
    exact ⟨[], by simp, rfl⟩
  rw [if_neg hm]
  by_cases hver : m.versionMajor = 2 ∧ m.versionMinor = 0
  · rw [if_neg (not_not_intro hver), if_neg (show ¬ (m.versionMajor ≠ 2 ∨ m.versionMinor ≠ 0) by simp [hver])]
    by_cases hid : m.callID = cur.callID
    · rw [if_neg (not_not_intro hid), if_neg (not_not_intro hid)]
      unfold handleRequest
      by_cases hmf : m.maxForwards ≤ 0
      · rw [if_pos hmf, if_pos hmf]
        exact reply_then (reply 483 hs hv) (herr _)
      · rw [if_neg hmf, if_neg hmf]
        by_cases hq : s.rseq ≠ 0 ∧ m.cseq < s.rseq
        · rw [if_pos hq, if_pos hq]
          exact reply 500 hs hv
        · rw [if_neg hq, if_neg hq]
          unfold handleMethod
          have hvia : ∀ {n o}, Replied { s with rseq := m.cseq } m n o → Replied s m n o :=
            fun h => h.via rfl ⟨[], by simp, rfl⟩
          by_cases hb : m.method = b!"BYE"
          · rw [if_pos (.inl hb), if_pos hb]
            exact hvia (reply_then (reply 200 hs hv) fun t => ⟨[.state .hangup], rfl, rfl⟩)
          by_cases ho : m.method = b!"OPTIONS"
          · rw [if_pos (.inr (.inl ho)), if_neg hb, if_pos ho]
            exact hvia (reply 200 hs hv)
          by_cases hi : m.method = b!"INVITE"
          · rw [if_pos (.inr (.inr hi)), if_neg hb, if_neg ho, if_pos hi]
            rcases checkSDP_ok (s := { s with rseq := m.cseq, remote := some m }) (ha hi) with h | ⟨a, p, h⟩
            · rw [h]
              exact (reply_rsp 200 (s := { s with rseq := m.cseq, remote := some m }) hs hv).via rfl ⟨[], by simp, rfl⟩
            · rw [h]
              have hrep := (reply_rsp 200 (s := { s with rseq := m.cseq, remote := some m }.out (.peer a p)) hs hv).via
                (s := s) rfl ⟨[.peer a p], rfl, rfl⟩
              exact hrep
          · rw [if_neg (by simp [hb, ho, hi]), if_neg hb, if_neg ho, if_neg hi, if_neg hm]
            exact hvia (reply 405 hs hv)
    · rw [if_pos hid, if_pos hid]
      exact reply 481 hs hv
  · rw [if_pos hver, if_pos (by rcases Decidable.not_and_iff_or_not.1 hver with h | h <;> simp [h])]
    exact reply_then (reply 505 hs hv) (herr _)

/-! ### The sequence number of the other side -/

/-- The number is kept, unless the call is not answered yet. -/
def Keeps (s t : St) : Prop := t.rseq = s.rseq ∨ s.state.rank < 2

theorem Net.keeps {s t : St} (h : Net s t) : Keeps s t := by
  rcases h.memory with h | h
  · exact .inl h.2
  · exact .inr h.1

theorem Keeps.after {s t u : St} (h : Net s t) (k : Keeps t u) : Keeps s u := by
  rcases h.keeps with h1 | h1
  · rcases k with k | k
    · exact .inl (k.trans h1)
    · exact .inr (h.state ▸ k)
  · exact .inr h1

theorem keeps_handleStatus (w : World) (s : St) (m : Msg) : Keeps s (handleStatus w s m).s := by
  unfold handleStatus
  split
  · exact .inl rfl
  split
  · exact .inl rfl
  split
  · unfold handleOK
    split
    · refine .inl ?_
      dsimp only
      split <;> rfl
    · split <;> exact .inl rfl
  split
  · split
    · exact (net_nextRoute w s).keeps
    · exact (net_fail _ _).keeps
  split
  · exact (net_redirect w s m).keeps
  split
  · exact (net_fail _ _).keeps
  · exact .inl rfl

theorem keeps_andThen {s : St} {r : Run} {f : St → Run} (h : Net s r.s) (hf : ∀ t, Keeps t (f t).s) :
    Keeps s (r.andThen f).s := by
  unfold Run.andThen
  split
  · exact Keeps.after h (hf _)
  · exact h.keeps
  · exact h.keeps
  · exact h.keeps

/-- Only a request changes the number. -/
theorem keeps_step (w : World) (s : St) (ev : Event) (hev : ∀ m, ev = .msg m → 0 < m.status) :
    Keeps s (step w s ev).s := by
  cases ev with
  | sockErr b e =>
    simp only [step]
    split
    · exact .inl rfl
    split
    · exact .inl rfl
    · exact .inl rfl
  | csockErr e =>
    simp only [step]
    split
    · exact .inl rfl
    · exact .inl rfl
  | requestTimer =>
    simp only [step]
    split
    · exact Keeps.after (t := { s with requestTimer := false }) (Net.of_eq rfl rfl rfl) (net_resendRequest w _).keeps
    · exact .inl rfl
  | responseTimer =>
    simp only [step]
    split
    · exact Keeps.after (t := { s with responseTimer := false }) (Net.of_eq rfl rfl rfl) (net_resendResponse w _).keeps
    · exact .inl rfl
  | hangup => exact (net_sendHangup w s).keeps
  | msg m =>
    have hr : m.isResponse = true := by simpa [Msg.isResponse] using hev m rfl
    simp only [step]
    split
    · exact .inl rfl
    unfold handleMessage
    split
    · exact .inl rfl
    split
    · exact (net_andThen (net_sendNew w s _) fun t ht => ht.trans (net_fail _ _)).keeps
    split
    · exact (net_sendNew w s _).keeps
    unfold handleResponse
    split
    · exact .inl rfl
    split
    · refine keeps_andThen ?_ fun t => keeps_handleStatus w t m
      exact net_andThen (net_ackFinal w s m _) fun t ht => ht.trans (net_settle _ _)
    · exact .inl rfl

/-- The call stays answered, as long as no response says otherwise and it is not over. -/
theorem answered_step (w : World) (s : St) (ev : Event) (h : s.state = .answered)
    (hev : progress ev ≠ some 0 ∧ progress ev ≠ some 1) (hg : (step w s ev).c = .go) :
    (step w s ev).s.state = .answered := by
  cases pub_step w s ev with
  | quiet h1 => exact h1.trans h
  | proceeding _ _ h3 => exact absurd h3 hev.1
  | ringing _ _ h3 => exact absurd h3 hev.2
  | answered _ h2 => exact h2
  | hangup _ _ h3 => rw [hg] at h3; cases h3

theorem Run.andThen_go {r : Run} {f : St → Run} (h : (r.andThen f).c = .go) : r.c = .go ∧ r.andThen f = f r.s := by
  unfold Run.andThen at h ⊢
  cases hc : r.c <;> simp_all

theorem Run.andThen_of_go {r : Run} {f : St → Run} (h : r.c = .go) : r.andThen f = f r.s := by
  unfold Run.andThen; rw [h]

theorem snoc_rec {α : Type} {P : List α → Prop} (h0 : P []) (h1 : ∀ l z, P l → P (l ++ [z])) : ∀ l, P l := by
  intro l
  rw [← List.reverse_reverse l]
  induction l.reverse with
  | nil => exact h0
  | cons a l ih => rw [List.reverse_cons]; exact h1 _ _ ih

/-- In an answered call the number does not become smaller. -/
theorem rises_step (w : World) (s : St) (ev : Event) (k : Int) (hk : 0 < k) (hs : k ≤ s.rseq) (h : s.state = .answered) :
    k ≤ (step w s ev).s.rseq := by
  have two : ¬ s.state.rank < 2 := by rw [h]; decide
  by_cases hev : ∃ m, ev = .msg m ∧ m.status ≤ 0
  · obtain ⟨m, rfl, hm⟩ := hev
    have hr : m.isResponse = false := by simp [Msg.isResponse]; omega
    have net : ∀ t, Net s t → k ≤ t.rseq := by
      intro t ht
      rcases ht.keeps with e | e
      · rw [e]; exact hs
      · exact absurd e two
    simp only [step]
    split
    · exact hs
    unfold handleMessage
    split
    · exact hs
    split
    · exact net _ (net_andThen (net_sendNew w s _) fun t ht => ht.trans (net_fail _ _))
    split
    · exact net _ (net_sendNew w s _)
    rw [hr, if_neg (by simp)]
    unfold handleRequest
    split
    · exact net _ (net_andThen (net_sendNew w s _) fun t ht => ht.trans (net_fail _ _))
    split
    · exact net _ (net_sendNew w s _)
    · have hle : k ≤ m.cseq := by omega
      have net1 : ∀ t, Net { s with rseq := m.cseq } t → k ≤ t.rseq := by
        intro t ht
        rcases ht.keeps with e | e
        · rw [e]; exact hle
        · exact absurd e two
      have net2 : ∀ t, Net { s with rseq := m.cseq, remote := some m } t → k ≤ t.rseq := by
        intro t ht
        rcases ht.keeps with e | e
        · rw [e]; exact hle
        · exact absurd e two
      unfold handleMethod
      split
      · have : ∀ t, k ≤ t.rseq → k ≤ (transition t .hangup).rseq := fun t ht => ht
        unfold Run.andThen
        split
        · exact this _ (net1 _ (net_sendNew w _ _))
        · exact net1 _ (net_sendNew w _ _)
        · exact net1 _ (net_sendNew w _ _)
        · exact net1 _ (net_sendNew w _ _)
      split
      · exact net1 _ (net_sendNew w _ _)
      split
      · exact net2 _ (net_andThen (net_checkSDP _ _) fun t ht => ht.trans (net_sendResponse w _ _))
      split
      · exact hle
      · exact net1 _ (net_sendNew w _ _)
  · rcases keeps_step w s ev (fun m hm => Int.not_le.1 fun h => hev ⟨m, hm, h⟩) with e | e
    · rw [e]; exact hs
    · exact absurd e two

/-- As long as a call stays answered, the number does not become smaller. -/
theorem rises_loop (w : World) (mid : List Event) (r : Run) (hr : r.s.state = .answered) (k : Int) (hk : 0 < k)
    (hs : k ≤ r.s.rseq) (hmid : ∀ ev ∈ mid, progress ev ≠ some 0 ∧ progress ev ≠ some 1) (hg : (loop w mid r).c = .go) :
    k ≤ (loop w mid r).s.rseq ∧ (loop w mid r).s.state = .answered := by
  revert hmid hg
  refine snoc_rec (P := fun mid => (∀ ev ∈ mid, progress ev ≠ some 0 ∧ progress ev ≠ some 1) → (loop w mid r).c = .go →
    k ≤ (loop w mid r).s.rseq ∧ (loop w mid r).s.state = .answered) ?_ ?_ mid
  · intro _ _; exact ⟨hs, hr⟩
  · intro mid ev ih hmid hg
    rw [loop_snoc] at hg ⊢
    obtain ⟨h1, h2⟩ := Run.andThen_go hg
    rw [h2] at hg ⊢
    obtain ⟨i1, i2⟩ := ih (fun e he => hmid e (by simp [he])) h1
    exact ⟨rises_step w _ ev k hk i1 i2, answered_step w _ ev i2 (hmid ev (by simp)) hg⟩

/-- A request in order sets the number. -/
theorem accept_step {w : World} {s : St} {c : Conn} {cur m : Msg} (hs : s.sock = some c) (hc : s.cur = some cur)
    (hreq : m.status ≤ 0) (hver : m.versionMajor = 2 ∧ m.versionMinor = 0) (hid : m.callID = cur.callID)
    (hmf : 0 < m.maxForwards) (hst : s.state = .answered) (hord : s.rseq = 0 ∨ s.rseq ≤ m.cseq)
    (hg : (step w s (.msg m)).c = .go) :
    (step w s (.msg m)).s.rseq = m.cseq ∧ (step w s (.msg m)).s.state = .answered := by
  have hnr : m.isResponse = false := by simp [Msg.isResponse]; omega
  have hstep : step w s (.msg m) = handleMethod w { s with rseq := m.cseq } m := by
    have h0 : step w s (.msg m) = handleMessage w s m := by simp [step, hs]
    rw [h0]
    unfold handleMessage
    simp only [hc, hnr, Bool.false_eq_true, if_false]
    rw [if_neg (show ¬ (m.versionMajor ≠ 2 ∨ m.versionMinor ≠ 0) by simp [hver]), if_neg (not_not_intro hid)]
    unfold handleRequest
    rw [if_neg (by omega), if_neg (by omega)]
  rw [hstep] at hg ⊢
  have key : ∀ t : St, Net { s with rseq := m.cseq } t → t.rseq = m.cseq ∧ t.state = .answered := by
    intro t h
    refine ⟨?_, h.state.trans hst⟩
    rcases h.keeps with k | k
    · exact k
    · rw [show ({ s with rseq := m.cseq } : St).state = .answered from hst] at k; simp [CallState.rank] at k
  have key2 : ∀ t : St, Net { s with rseq := m.cseq, remote := some m } t → t.rseq = m.cseq ∧ t.state = .answered := by
    intro t h
    refine ⟨?_, h.state.trans hst⟩
    rcases h.keeps with k | k
    · exact k
    · rw [show ({ s with rseq := m.cseq, remote := some m } : St).state = .answered from hst] at k
      simp [CallState.rank] at k
  unfold handleMethod at hg ⊢
  split
  · rename_i hb
    rw [if_pos hb] at hg
    obtain ⟨_, h2⟩ := Run.andThen_go hg
    rw [h2] at hg
    simp at hg
  split
  · exact key _ (net_sendNew w _ _)
  split
  · exact key2 _ (net_andThen (net_checkSDP _ _) fun t ht => ht.trans (net_sendResponse w _ _))
  split
  · exact key _ (Net.of_eq rfl rfl rfl)
  · exact key _ (net_sendNew w _ _)

end Gosip.Dialog
