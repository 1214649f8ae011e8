import Verif.Dialog.Budget
import Verif.Dialog.Resend
import Verif.Spec.Reply

/-!
# What the responses of a dialog are made of
-/

namespace Gosip.Dialog
open Sip Spec

/-- What is kept by stamping and by sending. -/
structure KeptBySend (P : Msg → Prop) : Prop where
  stamp : ∀ a b, P a → Stamped a b → P b
  forwards : ∀ a, P a → a.maxForwards = 0
  phrase : ∀ a, P a → a.phrase ≠ []

/-- The responses sent, and the one that may be sent again, are all of this kind. -/
structure Mirror (P : Msg → Prop) (s : St) : Prop where
  sent : ∀ x ∈ sends s.outs, x.2.isResponse = true → P x.2
  kept : ∀ m, s.response = some m → P m

theorem Mirror.mono {P Q : Msg → Prop} {s : St} (h : Mirror P s) (k : ∀ m, P m → Q m) : Mirror Q s :=
  ⟨fun x hx hr => k _ (h.sent x hx hr), fun m hm => k _ (h.kept m hm)⟩

theorem Mirror.frame {P : Msg → Prop} {s t : St} (h : Mirror P s) (h1 : sends t.outs = sends s.outs)
    (h2 : t.response = s.response) : Mirror P t :=
  ⟨by rw [h1]; exact h.sent, by rw [h2]; exact h.kept⟩

theorem Mirror.out {P : Msg → Prop} {s : St} {o : Out} (h : Mirror P s) (ho : sends [o] = []) : Mirror P (s.out o) :=
  h.frame (by show sends (s.outs ++ [o]) = _; rw [sends_append, ho, List.append_nil]) rfl

/-- Where no response is sent. -/
theorem Mirror.hush {P : Msg → Prop} {s : St} {r : Run} (h : Mirror P s) (k : Hush s r) (g : Grows s r.s) :
    Mirror P r.s := by
  obtain ⟨l, hl⟩ := g
  have hc := k.cnt
  rw [hl, rsps_append] at hc
  have h0 : rsps l = 0 := by omega
  refine ⟨fun x hx hr => ?_, by rw [k.rsp]; exact h.kept⟩
  rw [hl, sends_append, List.mem_append] at hx
  rcases hx with hx | hx
  · exact h.sent x hx hr
  · exact absurd hr (List.countP_eq_zero.1 h0 x hx)

theorem Mirror.andThen {P : Msg → Prop} {r : Run} {f : St → Run} (h : Mirror P r.s) (hf : ∀ t, Mirror P t → Mirror P (f t).s) :
    Mirror P (r.andThen f).s := by
  obtain ⟨t, c⟩ := r
  cases c
  · exact hf t h
  all_goals exact h

theorem mirror_send {P : Msg → Prop} (hP : KeptBySend P) (w : World) {s : St} {m : Msg} (h : Mirror P s) (hm : P m) :
    Mirror P (send w s m).1.s ∧ P (send w s m).2 := by
  have hf := hP.forwards m hm
  have hd : decForwards m = m := by unfold decForwards; rw [if_neg (by omega)]
  unfold send
  rw [if_neg (by omega), hd]
  unfold writeMsg
  split
  · rename_i m' c ht hs
    have k1 := hP.stamp _ _ hm (stamped_ts ht)
    have k2 : m'.appended = m' := by
      unfold Msg.appended; rw [if_neg]; rintro ⟨_, h⟩; exact hP.phrase _ k1 h
    have k3 : Mirror P ({ s with tick := s.tick + 1 }.out (.sent c.remote m' (m'.text (w.origin s.tick)))) := by
      refine ⟨fun y hy hr => ?_, h.kept⟩
      have hy : y ∈ sends (s.outs ++ [.sent c.remote m' (m'.text (w.origin s.tick))]) := hy
      rw [sends_append, List.mem_append] at hy
      rcases hy with hy | hy
      · exact h.sent y hy hr
      · simp only [sends, List.filterMap_cons, List.filterMap_nil, List.mem_singleton] at hy
        subst hy; exact k1
    dsimp only
    split
    · exact ⟨k3, by rw [k2]; exact k1⟩
    · exact ⟨k3.out rfl, by rw [k2]; exact k1⟩
  · exact ⟨h, hm⟩

theorem mirror_sendNew {P : Msg → Prop} (hP : KeptBySend P) (w : World) {s : St} {m : Msg} (h : Mirror P s) (hm : P m) :
    Mirror P (sendNew w s m).s := (mirror_send hP w h hm).1

theorem mirror_sendRsp {P : Msg → Prop} (hP : KeptBySend P) (w : World) {s : St} (h : Mirror P s) :
    Mirror P (sendRsp w s).s := by
  unfold sendRsp
  split
  · exact h
  · rename_i m hm
    obtain ⟨h1, h2⟩ := mirror_send hP w h (h.kept m hm)
    exact ⟨h1.sent, fun x hx => (by cases hx; exact h2)⟩

/-- Why a response with this status is sent, in terms of the state of the dialog. -/
inductive Cause (s : St) (m : Msg) : Int → Prop
  | version : ¬ Sip20 m → Cause s m 505
  | stranger (cur) : s.cur = some cur → Sip20 m → m.callID ≠ cur.callID → Cause s m 481
  | forwards (cur) : s.cur = some cur → Sip20 m → m.callID = cur.callID → m.status ≤ 0 → m.maxForwards ≤ 0 → Cause s m 483
  | order (cur) : s.cur = some cur → Proper cur.callID m → s.rseq ≠ 0 → m.cseq < s.rseq → Cause s m 500
  | done (cur) : s.cur = some cur → Proper cur.callID m → m.method ∈ [b!"INVITE", b!"BYE", b!"OPTIONS"] → Cause s m 200
  | method (cur) : s.cur = some cur → Proper cur.callID m → m.method ∉ [b!"INVITE", b!"BYE", b!"OPTIONS", b!"ACK"] →
      Cause s m 405

/-- A message is answered with what the message gives reason for. -/
theorem mirror_handleMessage {P : Msg → Prop} (hP : KeptBySend P) {w : World} {s : St} (h : Mirror P s) (hn : NoRsp s) {m : Msg}
    (hm : ∀ n, Cause s m n → P (newResponse m n)) (hs : (s.sock.isNone && s.csock.isNone) = false) :
    Mirror P (handleMessage w s m).s := by
  have hg : Grows s (handleMessage w s m).s := by
    have := grows_step w s (.msg m)
    simp only [step] at this
    rw [if_neg (by simp [hs])] at this
    exact this
  revert hg
  unfold handleMessage
  split
  · exact fun _ => h
  rename_i cur hcur
  split
  · rename_i hv
    intro _
    refine (mirror_sendNew hP w h (hm _ (.version ?_))).andThen fun t ht => ht.out rfl
    rintro ⟨k1, k2⟩; rcases hv with hv | hv
    · exact hv k1
    · exact hv k2
  rename_i hv
  have hv : Sip20 m := by simpa [Sip20] using hv
  split
  · rename_i hc
    exact fun _ => mirror_sendNew hP w h (hm _ (.stranger cur hcur hv hc))
  rename_i hc
  have hc : m.callID = cur.callID := Classical.not_not.1 hc
  split
  · exact fun hg => h.hush (hush_handleResponse hn m) hg
  · rename_i hr
    intro _
    have hr : m.status ≤ 0 := by
      have : m.isResponse = false := by simpa using hr
      unfold Msg.isResponse at this
      simpa using this
    unfold handleRequest
    split
    · rename_i hf
      exact (mirror_sendNew hP w h (hm _ (.forwards cur hcur hv hc hr hf))).andThen fun t ht => ht.out rfl
    rename_i hf
    have hp : Proper cur.callID m := ⟨hr, hv, hc, by omega⟩
    split
    · rename_i ho
      exact mirror_sendNew hP w h (hm _ (.order cur hcur hp ho.1 ho.2))
    · have h0 : Mirror P { s with rseq := m.cseq } := h.frame rfl rfl
      unfold handleMethod
      split
      · rename_i hb
        exact (mirror_sendNew hP w h0 (hm _ (.done cur hcur hp (by rw [hb]; simp)))).andThen fun t ht =>
          (ht.frame rfl rfl : Mirror P { t with state := .hangup }).out rfl
      split
      · rename_i hb
        exact mirror_sendNew hP w h0 (hm _ (.done cur hcur hp (by rw [hb]; simp)))
      split
      · rename_i hb
        have h1 : Mirror P (checkSDP { s with rseq := m.cseq, remote := some m } m).s := by
          unfold checkSDP
          split
          · split
            · exact (h0.frame rfl rfl : Mirror P { s with rseq := m.cseq, remote := some m }).out rfl
            · exact h0.frame rfl rfl
          · exact h0.frame rfl rfl
        refine h1.andThen fun t ht => mirror_sendRsp hP w ⟨ht.sent, fun x hx => ?_⟩
        cases hx
        exact hm _ (.done cur hcur hp (by rw [hb]; simp))
      split
      · exact ⟨h0.sent, fun x hx => (by cases hx)⟩
      · refine mirror_sendNew hP w h0 (hm _ (.method cur hcur hp ?_))
        simp only [List.mem_cons, List.not_mem_nil, or_false]
        rintro (k | k | k | k) <;> contradiction

theorem mirror_step {P : Msg → Prop} (hP : KeptBySend P) {w : World} {s : St} (h : Mirror P s) (hn : NoRsp s) (ev : Event)
    (hm : ∀ m n, ev = .msg m → Cause s m n → P (newResponse m n)) : Mirror P (step w s ev).s := by
  have hg := grows_step w s ev
  cases ev
  case sockErr r n =>
    have h0 : Hush s ⟨{ s with sock := none }, .go⟩ := ⟨rfl, rfl, rfl, rfl, hn.frame rfl rfl⟩
    refine h.hush (r := step w s (.sockErr r n)) ?_ hg
    simp only [step]
    split
    · exact hush_here hn _
    split
    · exact h0.trans (hush_here h0.own _)
    · exact h0.trans (hush_fail h0.own _)
  case csockErr n =>
    have h0 : Hush s ⟨{ s with csock := none }, .go⟩ := ⟨rfl, rfl, rfl, rfl, hn.frame rfl rfl⟩
    refine h.hush (r := step w s (.csockErr n)) ?_ hg
    simp only [step]
    split
    · exact hush_here hn _
    · exact h0.trans (hush_fail h0.own _)
  case requestTimer =>
    have h0 : Hush s ⟨{ s with requestTimer := false }, .go⟩ := ⟨rfl, rfl, rfl, rfl, hn.frame rfl rfl⟩
    refine h.hush (r := step w s .requestTimer) ?_ hg
    simp only [step]
    split
    · exact h0.trans (hush_resendRequest h0.own)
    · exact hush_here hn _
  case responseTimer =>
    revert hg
    simp only [step]
    split
    · unfold resendResponse
      split
      · exact fun _ => h.frame rfl rfl
      · rename_i m hr
        split
        · intro _
          exact (mirror_sendRsp hP w (h.frame rfl rfl : Mirror P { s with responseTimer := false })).andThen
            fun t ht => ht.frame rfl rfl
        · split
          · exact fun _ => h.frame rfl rfl
          · intro hg
            have hn0 : NoRsp { s with responseTimer := false } := hn.frame rfl rfl
            exact (h.frame rfl rfl : Mirror P { s with responseTimer := false }).hush (hush_popRoutes _ _ hn0) hg
    · exact fun _ => h
  case msg m =>
    simp only [step]
    split
    · exact h
    · rename_i hs
      exact mirror_handleMessage hP h hn (fun n => hm m n rfl) (Bool.not_eq_true _ ▸ hs)
  case hangup => exact h.hush (r := step w s .hangup) (hush_sendHangup hn) hg

/-- Responses of a kind that may depend on the events so far. -/
theorem mirror_loop {w : World} {invite : Msg} {P : List Event → Msg → Prop} (hP : ∀ evs, KeptBySend (P evs))
    (hmono : ∀ evs e m, P evs m → P (evs ++ [e]) m) (evs : List Event)
    (hm : ∀ before m after n, evs = before ++ .msg m :: after → (loop w before (start w invite)).c = .go →
      Cause (loop w before (start w invite)).s m n → P (before ++ [.msg m]) (newResponse m n))
    (hi : invite.isResponse = false) : Mirror (P evs) (loop w evs (start w invite)).s := by
  have h0 : NoRsp { invite := invite } := ⟨hi, fun m hm => by cases hm⟩
  have hh : Hush { invite := invite } (start w invite) := hush_sendInvite h0
  suffices ∀ rest done, evs = done ++ rest → NoRsp (loop w done (start w invite)).s →
      Mirror (P done) (loop w done (start w invite)).s → Mirror (P evs) (loop w evs (start w invite)).s from
    this evs [] rfl hh.own (Mirror.hush (s := { invite := invite })
      ⟨fun x hx => (by cases hx), fun m hm => (by cases hm)⟩ hh ⟨_, rfl⟩)
  intro rest
  induction rest with
  | nil => intro done he _ h; rw [he, List.append_nil]; exact h
  | cons e rest ih =>
    intro done he hn h
    have h1 : Mirror (P (done ++ [e])) (loop w done (start w invite)).s := h.mono (hmono _ _)
    have key : NoRsp (loop w (done ++ [e]) (start w invite)).s ∧
        Mirror (P (done ++ [e])) (loop w (done ++ [e]) (start w invite)).s := by
      rw [loop_append]
      have hs := hm done
      clear ih h
      generalize loop w done (start w invite) = r at *
      show NoRsp (r.andThen fun s => step w s e).s ∧ Mirror _ (r.andThen fun s => step w s e).s
      obtain ⟨t, c⟩ := r
      cases c
      · refine ⟨(spends_step (w := w) hn e).own, mirror_step (hP _) h1 hn e fun m n hme hc => ?_⟩
        subst hme
        exact hs m rest n he rfl hc
      all_goals exact ⟨hn, h1⟩
    exact ih (done ++ [e]) (by rw [he]; simp) key.1 key.2

theorem mirror_dialog {w : World} {invite : Msg} {evs : List Event} {P : Msg → Prop}
    (h2 : Mirror P (loop w evs (start w invite)).s) : Mirror P (dialog w invite evs).s := by
  unfold dialog
  dsimp only
  split
  · unfold cleanup
    split
    · exact h2.frame rfl rfl
    split
    · exact h2.frame rfl rfl
    · exact (h2.frame rfl rfl : Mirror _ { (loop w evs (start w invite)).s with sock := none, csock := none }).out rfl
  · exact h2

end Gosip.Dialog
