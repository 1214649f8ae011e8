import Verif.Props.Demo
import Verif.Dialog.Final
import Verif.Dialog.Seq

/-!
# Properties C45–C47, C50–C53, C58: calls

`dialog w invite evs` is the whole life of a dialog: `NewDialog(invite)` in the world `w`, the events `evs`
happening in this order. `loop w evs (start w invite)` is the same without the final clean-up, so that its
state can be asked what it does next; `.c = .go` means that the dialog is running. Both range over all worlds:
all results of random generators, clock, name resolution, dialling, binding and writing.
-/

namespace Gosip.Props
open Sip Spec Dialog

theorem isOwn_invite {m : Msg} (h : IsInvite m) : isOwn m = true := by
  unfold isOwn Msg.isResponse
  rw [h.1, h.2]
  decide

theorem requests_eq (l : List Out) : requests l = own l := by
  unfold requests own
  congr 1
  funext x
  unfold isOwn Msg.isResponse
  congr 2
  by_cases h : x.2.status ≤ 0
  · simp [h]
  · simp [h]; omega

theorem hasBranch_iff {m : Msg} {b : Bytes} : HasBranch m b ↔ branchOf m = some b := by
  unfold HasBranch branchOf
  cases hv : m.via with
  | nil => simp
  | cons v l =>
    simp only [List.head?_cons, Option.bind_some]
    rw [paramVal_eq_some]
    constructor
    · rintro ⟨v', l', h, hb⟩
      cases h
      exact hb
    · exact fun h => ⟨v, l, rfl, h⟩

/-- What the clean-up does. -/
theorem dialog_outs (w : World) (invite : Msg) (evs : List Event) :
    (dialog w invite evs).s.outs = (loop w evs (start w invite)).s.outs ∨
    (dialog w invite evs).s.outs = (loop w evs (start w invite)).s.outs ++ [.closed] := by
  unfold dialog
  dsimp only
  split
  · rcases cleanup_cases w (loop w evs (start w invite)).s with ⟨_, h⟩ | ⟨_, h⟩
    · exact .inl h
    · exact .inr h
  · exact .inl rfl

theorem requests_dialog (w : World) (invite : Msg) (evs : List Event) :
    requests (dialog w invite evs).s.outs = own (loop w evs (start w invite)).s.outs := by
  rw [requests_eq]
  rcases dialog_outs w invite evs with h | h
  · rw [h]
  · rw [h, own_append]; simp [own, sends]

/-! ## C46 -/

/-- **C46** (missing: responses that arrive late, see `C46_late_response`). If no response is overtaken by one
that says less, the states published only move forward: whatever else happens, in whatever order. -/
theorem C46_states_forward_partial (w : World) (invite : Msg) (evs : List Event) (ho : Orderly evs) :
    Forward (published (dialog w invite evs).s.outs) := by
  rw [published_dialog]
  exact (ordered_loop w invite evs ho).forward

/-- **C46.** "Answered" is seen at most once then. -/
theorem C46_answered_once_partial (w : World) (invite : Msg) (evs : List Event) (ho : Orderly evs) :
    ∀ pre post, published (dialog w invite evs).s.outs = pre ++ .answered :: post →
      .answered ∉ pre ∧ ∀ c ∈ post, c = .hangup := by
  intro pre post h
  have hf := C46_states_forward_partial w invite evs ho
  rw [h] at hf
  obtain ⟨_, h2, h3⟩ := List.pairwise_append.1 hf
  refine ⟨fun hm => ?_, fun c hc => ?_⟩
  · have := h3 _ hm .answered (by simp)
    simp [MayFollow] at this
  · exact (List.pairwise_cons.1 h2).1 c hc

/-- **C46.** Unconditionally, "hangup" is the last state, and the dialog ends with it: nothing that happens later
has an effect. -/
theorem C46_hangup_last (w : World) (invite : Msg) (evs : List Event) :
    ∀ pre post, published (dialog w invite evs).s.outs = pre ++ .hangup :: post →
      post = [] ∧ (loop w evs (start w invite)).c = .stop ∧ ∀ more, dialog w invite (evs ++ more) = dialog w invite evs := by
  rw [published_dialog]
  have hc : (loop w evs (start w invite)).c = .stop →
      (loop w evs (start w invite)).c = .stop ∧ ∀ more, dialog w invite (evs ++ more) = dialog w invite evs := by
    intro h
    refine ⟨h, fun more => ?_⟩
    unfold dialog
    rw [loop_append, loop_stop more _ h]
  suffices ∀ pre post, published (loop w evs (start w invite)).s.outs = pre ++ .hangup :: post →
      post = [] ∧ (loop w evs (start w invite)).c = .stop from
    fun pre post h => ⟨(this pre post h).1, hc (this pre post h).2⟩
  refine snoc_rec (P := fun evs => ∀ pre post, published (loop w evs (start w invite)).s.outs = pre ++ .hangup :: post →
      post = [] ∧ (loop w evs (start w invite)).c = .stop) ?_ ?_ evs
  · intro pre post h
    have := (net_sendInvite w { invite := invite }).published
    have h0 : published (start w invite).s.outs = [] := this
    rw [show loop w [] (start w invite) = start w invite from rfl, h0] at h
    simp at h
  · intro evs ev ih pre post h
    rw [loop_snoc] at h ⊢
    unfold Run.andThen at h ⊢
    split at h
    · rename_i hg
      simp only
      have hno : .hangup ∉ published (loop w evs (start w invite)).s.outs := by
        intro hm
        obtain ⟨p, q, hpq⟩ := List.append_of_mem hm
        rw [hg] at ih
        exact absurd (ih p q hpq).2 (by simp)
      have key : ∀ c, published (step w (loop w evs (start w invite)).s ev).s.outs =
          published (loop w evs (start w invite)).s.outs ++ [c] → c ≠ .hangup → False := by
        intro c h1 h2
        rw [h1] at h
        have : CallState.hangup ∈ published (loop w evs (start w invite)).s.outs ++ [c] := by rw [h]; simp
        rcases List.mem_append.1 this with k | k
        · exact hno k
        · simp only [List.mem_singleton] at k; exact h2 k.symm
      cases pub_step w (loop w evs (start w invite)).s ev with
      | quiet _ h1 _ => rw [h1] at h; rw [h] at hno; simp at hno
      | proceeding h1 => exact (key _ h1 (by simp)).elim
      | ringing h1 => exact (key _ h1 (by simp)).elim
      | answered h1 => exact (key _ h1 (by simp)).elim
      | hangup h1 h2 h3 =>
        refine ⟨?_, h3⟩
        rw [h1] at h
        rcases List.append_eq_append_iff.1 h with ⟨l, h4, h5⟩ | ⟨l, h4, h5⟩
        · cases l with
          | nil => simp at h5; exact h5
          | cons x l =>
            simp at h5
        · cases l with
          | nil => simp at h5; exact h5
          | cons x l => exfalso; rw [h4] at hno; simp at h5; rw [← h5.1] at hno; simp at hno
    · rename_i hg
      simp only [hg]
      have := ih pre post h
      exact ⟨this.1, trivial⟩
    · rename_i hg
      have := ih pre post h
      rw [hg] at this
      exact absurd this.2 (by simp)
    · exact ih pre post h

/-- **C46 is false**: a provisional response that arrives after the final one takes the call back from
"answered" to "ringing". -/
theorem C46_late_response :
    published (dialog demoWorld demoInvite [demoRsp [] 200, demoRsp [] 180]).s.outs = [.answered, .ringing] := by
  decide +kernel

example : published (dialog demoWorld demoInvite
    [demoRsp [] 100, demoRsp [] 180, .requestTimer, demoRsp [] 183, demoRsp [] 200, demoReq b!"OPTIONS" 1,
     demoRsp [] 200, demoReq b!"BYE" 2]).s.outs = [.proceeding, .ringing, .ringing, .answered, .hangup] := by
  decide +kernel

/-! ## C47, C58, C45: the requests of a dialog -/

/-- **C47** (first half). The same request (with the same branch) is transmitted at most `maxResends + 1` times.
Every address gets a branch of its own (`C58_dialog_branches`). -/
theorem C47_transmissions_bounded (w : World) (invite : Msg) (evs : List Event) (hi : IsInvite invite)
    (fresh : ∀ a b, (w.ids a).branch = (w.ids b).branch → a = b) (b : Bytes) (l : List (Bytes × Msg))
    (hl : l.Sublist (requests (dialog w invite evs).s.outs)) (hb : ∀ x ∈ l, HasBranch x.2 b) :
    l.length ≤ w.maxResends.toNat + 1 := by
  rw [requests_dialog] at hl
  have h := (branches_loop w invite evs (isOwn_invite hi) fresh).bound (some b)
  refine Nat.le_trans ?_ h
  unfold transmissions
  refine Nat.le_trans ?_ (hl.countP_le)
  refine Nat.le_of_eq (List.countP_eq_length.2 fun x hx => ?_).symm
  rw [hasBranch_iff.1 (hb x hx)]
  simp

/-- **C58** (dialog). Every request of a dialog has a branch, and two with the same branch are transmissions of one
request: same method, same CSeq, same Call-ID. -/
theorem C58_dialog_branches (w : World) (invite : Msg) (evs : List Event) (hi : IsInvite invite)
    (fresh : ∀ a b, (w.ids a).branch = (w.ids b).branch → a = b) :
    (∀ x ∈ requests (dialog w invite evs).s.outs, ∃ b, HasBranch x.2 b) ∧
    ∀ x ∈ requests (dialog w invite evs).s.outs, ∀ y ∈ requests (dialog w invite evs).s.outs, ∀ b,
      HasBranch x.2 b → HasBranch y.2 b →
      x.2.method = y.2.method ∧ x.2.cseq = y.2.cseq ∧ x.2.callID = y.2.callID := by
  rw [requests_dialog]
  have h := branches_loop w invite evs (isOwn_invite hi) fresh
  refine ⟨fun x hx => ?_, fun x hx y hy b h1 h2 => ?_⟩
  · obtain ⟨n, _, hn⟩ := h.known x hx
    exact ⟨_, hasBranch_iff.2 hn⟩
  · exact h.pairs x hx y hy ((hasBranch_iff.1 h1).trans (hasBranch_iff.1 h2).symm)

/-- **C45** (dialog). Every request of a dialog carries a positive Max-Forwards, and each transmission of the INVITE,
and each retransmission of any request, a smaller one than those before. -/
theorem C45_dialog (w : World) (invite : Msg) (evs : List Event) (hi : IsInvite invite) (hf : 0 ≤ invite.maxForwards)
    (fresh : ∀ a b, (w.ids a).branch = (w.ids b).branch → a = b) :
    (∀ x ∈ requests (dialog w invite evs).s.outs, 1 ≤ x.2.maxForwards) ∧
    (requests (dialog w invite evs).s.outs).Pairwise fun x y =>
      ((x.2.method = b!"INVITE" ∧ y.2.method = b!"INVITE") ∨ ∃ b, HasBranch x.2 b ∧ HasBranch y.2 b) →
      y.2.maxForwards < x.2.maxForwards := by
  rw [requests_dialog]
  have h := forwards_loop w invite evs (isOwn_invite hi) (by rw [hi.2]; decide) hf fresh
  rw [hi.2] at h
  refine ⟨h.pos, h.order.imp fun hxy k => hxy ?_⟩
  rcases k with k | ⟨b, k1, k2⟩
  · exact .inl k
  · exact .inr ((hasBranch_iff.1 k1).trans (hasBranch_iff.1 k2).symm)

example : ((requests (dialog demoWorld demoInvite
    [.requestTimer, .requestTimer, demoRsp [] 200, .hangup, .requestTimer]).s.outs).map
      fun x => (x.2.method, x.2.maxForwards, x.2.cseq)) =
    [(b!"INVITE", 69, 7), (b!"INVITE", 68, 7), (b!"INVITE", 67, 7), (b!"BYE", 69, 8), (b!"BYE", 68, 8)] := by
  decide +kernel

/-! ## C50 -/

theorem alive_dialog {w : World} {invite : Msg} {evs : List Event} (hi : IsInvite invite)
    (hid : ∀ n, (w.ids n).callID ≠ []) (hg : (loop w evs (start w invite)).c = .go) :
    Alive (loop w evs (start w invite)).s :=
  (alive_loop w invite evs (isOwn_invite hi) hid hg).1

/-- The CSeq the dialog remembers is that of a proper request received before. -/
theorem seq_loop {w : World} {invite : Msg} {evs : List Event} {callID : Bytes} (hi : IsInvite invite)
    (hid : ∀ n, (w.ids n).callID ≠ []) (hg : (loop w evs (start w invite)).c = .go)
    (hcall : ∃ x ∈ requests (loop w evs (start w invite)).s.outs, x.2.callID = callID)
    (hz : (loop w evs (start w invite)).s.rseq ≠ 0) :
    ∃ m, .msg m ∈ evs ∧ Proper callID m ∧ m.cseq = (loop w evs (start w invite)).s.rseq := by
  have hall : ∀ x ∈ requests (loop w evs (start w invite)).s.outs, x.2.callID = callID := by
    have h := alive_dialog hi hid hg
    obtain ⟨x, hx, rfl⟩ := hcall
    intro y hy
    rw [requests_eq] at hx hy
    rw [h.call x hx, h.call y hy]
  suffices ∀ post pre, evs = pre ++ post → (loop w pre (start w invite)).s.rseq = 0 ∨
      ∃ m, .msg m ∈ pre ∧ Proper callID m ∧ m.cseq = (loop w pre (start w invite)).s.rseq from
    (this [] evs (by simp)).resolve_left hz
  intro post pre
  revert post
  refine snoc_rec (P := fun pre => ∀ post, evs = pre ++ post → (loop w pre (start w invite)).s.rseq = 0 ∨
      ∃ m, .msg m ∈ pre ∧ Proper callID m ∧ m.cseq = (loop w pre (start w invite)).s.rseq) ?_ ?_ pre
  · intro _ _
    left
    rcases (net_sendInvite w { invite := invite }).same with h | h
    · exact h
    · exact h
  · intro pre ev ih post he
    have ih := ih (ev :: post) (by rw [he]; simp)
    rw [loop_snoc]
    have hgo : (loop w pre (start w invite)).c = .go := by
      rw [he, List.append_assoc, loop_append] at hg
      clear ih he
      generalize loop w pre (start w invite) = r at hg
      generalize [ev] ++ post = l at hg
      induction l generalizing r with
      | nil => exact hg
      | cons e l ih => exact (Run.andThen_go (ih _ hg)).1
    rw [Run.andThen_of_go hgo]
    obtain ⟨pre', d, x, cur, h1, h2, h3⟩ := (alive_dialog hi hid hgo).last
    obtain ⟨l, hl⟩ : Grows (loop w pre (start w invite)).s (loop w evs (start w invite)).s := by
      rw [he, List.append_assoc, loop_append]; exact grows_loop w _ _
    have hx : (d, x) ∈ requests (loop w evs (start w invite)).s.outs := by
      rw [hl, requests_eq, own_append, h1]; simp
    have hc : cur.callID = callID := by rw [h3.callID]; exact hall _ hx
    rcases seq_step w (loop w pre (start w invite)).s ev h2 with h | ⟨m, rfl, h4, h5⟩
    · rcases h with h | h
      · rw [h]
        rcases ih with ih | ⟨m, k1, k2, k3⟩
        · exact .inl ih
        · exact .inr ⟨m, by simp [k1], k2, k3⟩
      · exact .inl h
    · simp only [List.mem_cons, List.not_mem_nil, or_false] at h5
      rcases h5 with h5 | h5
      · exact .inr ⟨m, by simp, hc ▸ h4, h5.symm⟩
      · exact .inl h5

theorem seq_newest {w : World} {invite : Msg} {evs : List Event} {callID : Bytes} {m : Msg} (hi : IsInvite invite)
    (hid : ∀ n, (w.ids n).callID ≠ []) (hg : (loop w evs (start w invite)).c = .go)
    (hcall : ∃ x ∈ requests (loop w evs (start w invite)).s.outs, x.2.callID = callID) (hn : Newest callID evs m) :
    (loop w evs (start w invite)).s.rseq = 0 ∨ (loop w evs (start w invite)).s.rseq ≤ m.cseq := by
  by_cases hz : (loop w evs (start w invite)).s.rseq = 0
  · exact .inl hz
  · obtain ⟨m', h1, h2, h3⟩ := seq_loop hi hid hg hcall hz
    exact .inr (h3 ▸ hn m' h1 h2)

/-- **C50** (missing: an ACK that is wrong in some way, see `C50_ack_answered`; a session description without
audio, see `C52_video_only`; a message without Via while time stamps are on, see `C52_no_via`). A request
received by a running dialog is answered with the status demanded by `Spec.answer`, echoing the request, and
nothing else is sent; a proper ACK is not answered. The number `seq` that may be missed is that of an earlier proper
request of the call: which one, is said by `C50_out_of_order`. -/
theorem C50_request_answered_partial (w : World) (invite : Msg) (evs : List Event) (m : Msg) (callID : Bytes)
    (hi : IsInvite invite) (hid : ∀ n, (w.ids n).callID ≠ [])
    (hg : (loop w evs (start w invite)).c = .go)
    (hcall : ∃ x ∈ requests (loop w evs (start w invite)).s.outs, x.2.callID = callID)
    (hreq : m.status ≤ 0) (hv : m.via ≠ [] ∨ ∀ n, w.clock n = none)
    (haudio : m.method = b!"INVITE" → ∀ d, m.payload = some (.sdp d) → d.audio ≠ none)
    (hack : m.method = b!"ACK" → Proper callID m ∧ Newest callID evs m) :
    ∃ seq, (∀ q, seq = some q → ∃ m', .msg m' ∈ evs ∧ Proper callID m' ∧ m'.cseq = q) ∧
    ∃ new, (loop w (evs ++ [.msg m]) (start w invite)).s.outs = (loop w evs (start w invite)).s.outs ++ new ∧
      (∀ n, answer callID seq m = some n → SentReply m n new) ∧ (answer callID seq m = none → sends new = []) := by
  have h := alive_dialog hi hid hg
  obtain ⟨c, hs⟩ := h.sock
  obtain ⟨cur, hc, _, _, hcid⟩ := h.cur
  have hid' : callID = cur.callID := by
    obtain ⟨x, hx, hxc⟩ := hcall
    rw [requests_eq] at hx
    rw [← hxc, hcid, h.call x hx]
  have hack' : m.method = b!"ACK" → m.versionMajor = 2 ∧ m.versionMinor = 0 ∧ m.callID = cur.callID ∧
      0 < m.maxForwards ∧ ((loop w evs (start w invite)).s.rseq = 0 ∨ (loop w evs (start w invite)).s.rseq ≤ m.cseq) := by
    intro hm
    obtain ⟨h1, h2⟩ := hack hm
    exact ⟨h1.version.1, h1.version.2, h1.call.trans hid', h1.forwards, seq_newest hi hid hg hcall h2⟩
  refine ⟨if (loop w evs (start w invite)).s.rseq = 0 then none else some (loop w evs (start w invite)).s.rseq, ?_, ?_⟩
  · intro q hq
    split at hq
    · cases hq
    · rename_i hz
      cases hq
      exact seq_loop hi hid hg hcall hz
  rw [loop_snoc, Run.andThen_of_go hg]
  have ha := answer_request (w := w) hs hc hreq hv haudio hack'
  rw [← hid'] at ha
  generalize answer callID _ m = o at ha ⊢
  cases o with
  | none =>
    obtain ⟨new, h1, h2⟩ := ha
    exact ⟨new, h1, fun n hn => (by cases hn), fun _ => h2⟩
  | some n =>
    obtain ⟨c', r, new, _, h2, h3, h4⟩ := ha
    refine ⟨new, h3, fun n' hn => ?_, fun hn => by cases hn⟩
    cases hn
    exact ⟨c'.remote, newResponse m n, r, h4, C34_response_echoes m n, h2⟩

end Gosip.Props
