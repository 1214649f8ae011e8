import Verif.Dialog.Safe
import Verif.Dialog.Report
import Verif.Dialog.Final
import Verif.Spec.Fatal

/-!
# Which messages bring down a dialog
-/

namespace Gosip.Dialog
open Sip Spec

theorem hasAudio_of {m : Msg} (h : ¬ NoAudio m) : HasAudio m := fun d hd ha => h ⟨d, hd, ha⟩

theorem checkSDP_crash {s : St} {m : Msg} (h : NoAudio m) : (checkSDP s m).c = .crash := by
  obtain ⟨d, h1, h2⟩ := h
  unfold checkSDP
  rw [h1]
  dsimp only
  rw [h2]

/-- A message that is not fatal. -/
theorem safe_notFatal {w : World} {s : St} {m cur : Msg} (h : Safe w s) (hcur : s.cur = some cur)
    (hf : ¬ Fatal cur m) (hu : HasUris m) (hv : CanStamp w m) : SafeRun w (handleMessage w s m) := by
  unfold handleMessage
  rw [hcur]
  dsimp only
  split
  · exact (safe_sendNew h (canStamp_rsp hv 505)).andThen fun t _ => safe_fail w t _
  rename_i hver
  have hver : m.versionMajor = 2 ∧ m.versionMinor = 0 := by
    constructor
    · exact Decidable.by_contra fun k => hver (.inl k)
    · exact Decidable.by_contra fun k => hver (.inr k)
  split
  · exact safe_sendNew h (canStamp_rsp hv 481)
  rename_i hid
  have hid : m.callID = cur.callID := Decidable.by_contra hid
  split
  · unfold handleResponse
    rw [hcur]
    dsimp only
    split
    · rename_i hmt
      have hA := (Props.C36_response_match cur m).1 hmt
      by_cases hno : 200 ≤ m.status ∧ cur.method = b!"INVITE" ∧ m.addrs .contact = []
      · have : ackFinal w s m cur = s.fail .noContact := by
          unfold ackFinal
          rw [if_pos ⟨hno.1, hno.2.1⟩, if_pos hno.2.2]
        rw [this]
        exact safe_fail w s _
      · refine ((safe_ackFinal h (match_via hmt)).andThen fun t ht => ?_).andThen
          fun t ht => safe_handleStatus ht hu ?_
        · unfold settle
          dsimp only
          split
          · rename_i hle
            refine safe_checkSDP ht.of_eq (hasAudio_of fun ha => hf (.answer hid hver hA hle (fun k1 k2 k3 => hno ⟨?_, k2, k3⟩) ha))
            rw [k1]; decide
          · exact ⟨by simp, fun _ => ht.of_eq⟩
        · intro k hn
          by_cases hi : cur.method = b!"INVITE"
          · refine hno ⟨?_, hi, hn⟩
            rcases k with k | k | k
            · rw [k]; decide
            · rw [k]; decide
            · rw [k.1]; decide
          · rcases k with k | k | k
            · exact hf (.nowhere hid hver hA hi (.inl k) hn)
            · exact hf (.nowhere hid hver hA hi (.inr k) hn)
            · exact hi (hA.2.2.1.symm.trans k.2)
    · exact ⟨by simp, fun _ => h⟩
  · rename_i hr
    have hreq : m.status ≤ 0 := by simp [Msg.isResponse] at hr; omega
    unfold handleRequest
    split
    · exact (safe_sendNew h (canStamp_rsp hv 483)).andThen fun t _ => safe_fail w t _
    rename_i hmf
    split
    · exact safe_sendNew h (canStamp_rsp hv 500)
    · by_cases hi : m.method = b!"INVITE"
      · have hno : ¬ (NoAudio m ∨ m.addrs .contact = []) := fun k =>
          hf (.offer hid hver hreq hi (by omega) k)
        refine safe_handleMethod (b := false) h.of_eq ⟨hu, by simp, hasAudio_of fun k => hno (.inl k), fun _ k => hno (.inr k)⟩
          hreq hv
      · unfold handleMethod
        rw [if_neg hi]
        have h' : Safe w { s with rseq := m.cseq } := h.of_eq
        split
        · exact (safe_sendNew h' (canStamp_rsp hv 200)).andThen fun t _ => ⟨by simp, by simp⟩
        split
        · exact safe_sendNew h' (canStamp_rsp hv 200)
        split
        · exact ⟨by simp, fun _ => h'.with_calm ⟨h'.remote, h'.known, by simp, h'.alive⟩⟩
        · exact safe_sendNew h' (canStamp_rsp hv 405)

/-- The current request and the one on the wire are the same to the messages that arrive. -/
theorem fatal_of_core {x cur m : Msg} (h : Core x cur) (hf : Fatal cur m) : Fatal x m := by
  obtain ⟨v, hv⟩ := h.only
  have h1 : cur.callID = x.callID := by rw [hv]
  have h2 : cur.method = x.method := by rw [hv]
  cases hf with
  | offer k1 k2 k3 k4 k5 k6 => exact .offer (k1.trans h1) k2 k3 k4 k5 k6
  | answer k1 k2 k3 k4 k5 k6 =>
    exact .answer (k1.trans h1) k2 (answers_unstamped h.stamped k3) k4 (fun a b => k5 a (h2.trans b)) k6
  | nowhere k1 k2 k3 k4 k5 k6 =>
    exact .nowhere (k1.trans h1) k2 (answers_unstamped h.stamped k3) (fun a => k4 (h2.trans a)) k5 k6

/-- An offer of the other side, in order. -/
theorem offer_step {w : World} {s : St} {c : Conn} {cur m : Msg} (hs : s.sock = some c) (hc : s.cur = some cur)
    (hreq : m.status ≤ 0) (hm : m.method = b!"INVITE") (hver : m.versionMajor = 2 ∧ m.versionMinor = 0)
    (hid : m.callID = cur.callID) (hmf : 0 < m.maxForwards) (hord : s.rseq = 0 ∨ s.rseq ≤ m.cseq) :
    step w s (.msg m) = (checkSDP { s with rseq := m.cseq, remote := some m } m).andThen
      fun s => sendResponse w s (newResponse m 200) := by
  have hnr : m.isResponse = false := by simp [Msg.isResponse]; omega
  have h0 : step w s (.msg m) = handleMessage w s m := by simp [step, hs]
  rw [h0]
  unfold handleMessage
  simp only [hc, hnr, Bool.false_eq_true, if_false]
  rw [if_neg (show ¬ (m.versionMajor ≠ 2 ∨ m.versionMinor ≠ 0) by simp [hver]), if_neg (not_not_intro hid)]
  unfold handleRequest
  rw [if_neg (by omega), if_neg (by omega)]
  unfold handleMethod
  rw [if_neg (by rw [hm]; decide), if_neg (by rw [hm]; decide), if_pos hm]

theorem sendResponse_frame (w : World) (s : St) (m : Msg) :
    (sendResponse w s m).s.state = s.state ∧ (sendResponse w s m).s.remote = s.remote := by
  unfold sendResponse sendRsp
  dsimp only
  have h := send_res w { s with response := some m, responseResends := 0, responseTimer := true } m
  generalize send w _ m = x at h ⊢
  cases h <;> exact ⟨rfl, rfl⟩

/-- What remains of an offer without Contact: the dialog cannot hang up. -/
theorem offer_then_hangup {w : World} {s : St} {c : Conn} {cur m : Msg} (hs : s.sock = some c) (hc : s.cur = some cur)
    (hreq : m.status ≤ 0) (hm : m.method = b!"INVITE") (hver : m.versionMajor = 2 ∧ m.versionMinor = 0)
    (hid : m.callID = cur.callID) (hmf : 0 < m.maxForwards) (hord : s.rseq = 0 ∨ s.rseq ≤ m.cseq)
    (hw : ∀ n, w.write n = .ok ()) (hv : CanStamp w m) (hst : s.state = .answered) (hcon : m.addrs .contact = []) :
    ((step w s (.msg m)).andThen fun s => step w s .hangup).c = .crash := by
  by_cases ha : HasAudio m
  · obtain ⟨r, x, _, hgo, _⟩ := reinvite_eq hw hs hc hreq hver hid hmf hord hm ha hv
    rw [Run.andThen_of_go hgo]
    have hst' : (step w s (.msg m)).s.state = .answered ∧ (step w s (.msg m)).s.remote = some m := by
      rw [offer_step hs hc hreq hm hver hid hmf hord] at hgo ⊢
      rcases checkSDP_ok (s := { s with rseq := m.cseq, remote := some m }) ha with k | ⟨a, p, k⟩
      · rw [k]
        have := sendResponse_frame w { s with rseq := m.cseq, remote := some m } (newResponse m 200)
        exact ⟨this.1.trans hst, this.2⟩
      · rw [k]
        have := sendResponse_frame w (({ s with rseq := m.cseq, remote := some m } : St).out (.peer a p)) (newResponse m 200)
        exact ⟨this.1.trans hst, this.2⟩
    show (sendHangup w _).c = .crash
    unfold sendHangup
    rw [hst'.1]
    dsimp only
    rw [hst'.2]
    dsimp only
    unfold newBye
    rw [hcon]
    rfl
  · have ha : NoAudio m := by
      refine Classical.byContradiction fun k => ha (hasAudio_of k)
    have hcr : (step w s (.msg m)).c = .crash := by
      rw [offer_step hs hc hreq hm hver hid hmf hord]
      have := checkSDP_crash (s := { s with rseq := m.cseq, remote := some m }) ha
      unfold Run.andThen
      rw [this]
      exact this
    unfold Run.andThen
    rw [hcr]
    exact hcr

theorem loop_crash {w : World} (evs : List Event) : ∀ r : Run, r.c = .crash → loop w evs r = r := by
  induction evs with
  | nil => intro r _; rfl
  | cons e evs ih =>
    intro r hr
    unfold loop
    rw [show (r.andThen fun s => step w s e) = r by unfold Run.andThen; rw [hr]]
    exact ih r hr

end Gosip.Dialog
