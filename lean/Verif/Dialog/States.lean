import Verif.Dialog.MachineLemmas

/-!
# What one event does to the published call state
-/

namespace Gosip.Dialog
open Sip Spec

/-- What one event does to the call state: nothing is published, or one state is. -/
inductive Pub (ev : Event) (s : St) (r : Run) : Prop where
  | quiet : r.s.state = s.state → published r.s.outs = published s.outs →
      (r.s.remote = s.remote ∨ (s.state.rank < 2 ∧ r.s.remote = none) ∨ r.s.remote.isSome) → Pub ev s r
  | proceeding : published r.s.outs = published s.outs ++ [.proceeding] → r.s.state = .proceeding →
      progress ev = some 0 → Pub ev s r
  | ringing : published r.s.outs = published s.outs ++ [.ringing] → r.s.state = .ringing →
      progress ev = some 1 → Pub ev s r
  | answered : published r.s.outs = published s.outs ++ [.answered] → r.s.state = .answered →
      progress ev = some 2 → (s.remote = none ∨ s.state.rank < 2) → r.s.remote.isSome → Pub ev s r
  | hangup : published r.s.outs = published s.outs ++ [.hangup] → r.s.state = .hangup → r.c = .stop →
      Pub ev s r

theorem published_append (a b : List Out) : published (a ++ b) = published a ++ published b := by
  simp [published, List.filterMap_append]

theorem Net.published {s s' : St} (h : Net s s') : published s'.outs = published s.outs := by
  obtain ⟨n, hn, hp⟩ := h.outs
  rw [hn, published_append, hp, List.append_nil]

theorem Pub.of_net {ev : Event} {s : St} {r : Run} (h : Net s r.s) : Pub ev s r :=
  .quiet h.state h.published (by rcases h.remote with h | h <;> simp [h])

/-- Sending and connecting before. -/
theorem Pub.after {ev : Event} {s t : St} {r : Run} (h : Net s t) (k : Pub ev t r) : Pub ev s r := by
  have hp := h.published
  cases k with
  | quiet k1 k2 k3 =>
    refine .quiet (k1.trans h.state) (k2.trans hp) ?_
    rw [h.state] at k3
    rcases k3 with k3 | k3 | k3
    · rw [k3]; rcases h.remote with h | h <;> simp [h]
    · exact .inr (.inl k3)
    · exact .inr (.inr k3)
  | proceeding k1 k2 k3 => exact .proceeding (hp ▸ k1) k2 k3
  | ringing k1 k2 k3 => exact .ringing (hp ▸ k1) k2 k3
  | answered k1 k2 k3 k4 k5 =>
    refine .answered (hp ▸ k1) k2 k3 ?_ k5
    rw [h.state] at k4
    rcases k4 with k4 | k4
    · rcases h.remote with h | h
      · exact .inl (h ▸ k4)
      · exact .inr h.1
    · exact .inr k4
  | hangup k1 k2 k3 => exact .hangup (hp ▸ k1) k2 k3

theorem pub_andThen {ev : Event} {s : St} {r : Run} {f : St → Run} (h : Net s r.s) (hf : ∀ t, Pub ev t (f t)) :
    Pub ev s (r.andThen f) := by
  unfold Run.andThen
  split
  · exact Pub.after h (hf _)
  · exact Pub.of_net h
  · exact Pub.of_net h
  · exact Pub.of_net h

theorem published_transition (s : St) (c : CallState) :
    published (transition s c).outs = published s.outs ++ [c] := by
  simp [transition, St.out, published_append]; rfl

theorem pub_handleStatus (w : World) (s : St) (m : Msg) : Pub (.msg m) s (handleStatus w s m) := by
  unfold handleStatus
  split
  · rename_i h
    exact .proceeding (published_transition _ _) rfl (by simp [progress, h])
  split
  · rename_i h0 h
    exact .ringing (published_transition _ _) rfl (by simp [progress, h0, h])
  split
  · rename_i h0 h1 h
    have hp : progress (.msg m) = some 2 := by simp [progress, h]
    unfold handleOK
    split
    · cases hr : s.remote with
      | none =>
        simp only [Option.isNone_none, if_true]
        exact .answered (published_transition _ _) rfl hp (.inl hr) rfl
      | some x =>
        simp only [Option.isNone_some, Bool.false_eq_true, if_false]
        exact .quiet rfl rfl (.inr (.inr rfl))
    · split
      · exact .hangup (published_transition _ _) rfl rfl
      · exact .of_net (Net.refl s)
  split
  · split
    · exact .of_net (net_nextRoute w s)
    · exact .of_net (net_fail _ _)
  split
  · exact .of_net (net_redirect w s m)
  split
  · exact .of_net (net_fail _ _)
  · exact .of_net (Net.refl s)

theorem pub_handleResponse (w : World) (s : St) (m : Msg) : Pub (.msg m) s (handleResponse w s m) := by
  unfold handleResponse
  split
  · exact .of_net (Net.refl s)
  · split
    · refine pub_andThen ?_ fun t => pub_handleStatus w t m
      exact net_andThen (net_ackFinal w s m _) fun t ht => ht.trans (net_settle _ _)
    · exact .of_net (Net.refl s)

theorem pub_hangup (ev : Event) (t : St) : Pub ev t ⟨transition t .hangup, .stop⟩ :=
  .hangup (published_transition _ _) rfl rfl

/-- A re-INVITE sets the remote message, then sends. -/
theorem pub_remote {ev : Event} {s t : St} {r : Run} (m : Msg) (h1 : t.state = s.state) (h2 : t.outs = s.outs)
    (h3 : t.remote = some m) (h : Net t r.s) : Pub ev s r := by
  refine .quiet (h.state.trans h1) (h.published.trans (by rw [h2])) ?_
  rcases h.remote with k | k
  · right; right; rw [k, h3]; rfl
  · right; left; exact ⟨h1 ▸ k.1, k.2⟩

theorem pub_handleMethod (w : World) (s : St) (m : Msg) (ev : Event) : Pub ev s (handleMethod w s m) := by
  unfold handleMethod
  split
  · exact pub_andThen (net_sendNew w s _) fun t => pub_hangup _ t
  split
  · exact .of_net (net_sendNew w s _)
  split
  · refine pub_remote m (t := { s with remote := some m }) rfl rfl rfl ?_
    exact net_andThen (net_checkSDP _ _) fun t ht => ht.trans (net_sendResponse w _ _)
  split
  · exact .of_net (Net.of_eq rfl rfl rfl)
  · exact .of_net (net_sendNew w s _)

theorem pub_handleRequest (w : World) (s : St) (m : Msg) (ev : Event) : Pub ev s (handleRequest w s m) := by
  unfold handleRequest
  split
  · exact .of_net (net_andThen (net_sendNew w s _) fun t ht => ht.trans (net_fail _ _))
  split
  · exact .of_net (net_sendNew w s _)
  · cases pub_handleMethod w { s with rseq := m.cseq } m ev with
    | quiet a b c => exact .quiet a b c
    | proceeding a b c => exact .proceeding a b c
    | ringing a b c => exact .ringing a b c
    | answered a b c d e => exact .answered a b c d e
    | hangup a b c => exact .hangup a b c

theorem pub_handleMessage (w : World) (s : St) (m : Msg) : Pub (.msg m) s (handleMessage w s m) := by
  unfold handleMessage
  split
  · exact .of_net (Net.refl s)
  split
  · exact .of_net (net_andThen (net_sendNew w s _) fun t ht => ht.trans (net_fail _ _))
  split
  · exact .of_net (net_sendNew w s _)
  split
  · exact pub_handleResponse w s m
  · exact pub_handleRequest w s m _

theorem pub_step (w : World) (s : St) (ev : Event) : Pub ev s (step w s ev) := by
  cases ev with
  | sockErr b e =>
    simp only [step]
    split
    · exact .of_net (Net.refl s)
    split
    · exact .of_net (Net.of_eq rfl rfl rfl)
    · exact .of_net (Net.via (net_fail _ _) rfl rfl rfl)
  | csockErr e =>
    simp only [step]
    split
    · exact .of_net (Net.refl s)
    · exact .of_net (Net.via (net_fail _ _) rfl rfl rfl)
  | requestTimer =>
    simp only [step]
    split
    · exact .of_net (Net.via (net_resendRequest w _) rfl rfl rfl)
    · exact .of_net (Net.refl s)
  | responseTimer =>
    simp only [step]
    split
    · exact .of_net (Net.via (net_resendResponse w _) rfl rfl rfl)
    · exact .of_net (Net.refl s)
  | msg m =>
    simp only [step]
    split
    · exact .of_net (Net.refl s)
    · exact pub_handleMessage w s m
  | hangup => exact .of_net (net_sendHangup w s)

/-- Invariant of every history: the state is the last one published, and "hangup" ends the loop. -/
structure Shown (r : Run) : Prop where
  last : (published r.s.outs).getLast?.getD .proceeding = r.s.state
  alive : r.c = .go → CallState.hangup ∉ published r.s.outs
  ended : ∀ l c, published r.s.outs = l ++ [c] → CallState.hangup ∉ l

theorem shown_start (w : World) (invite : Msg) : Shown (start w invite) := by
  have h := net_sendInvite w { invite := invite }
  have hp : published (start w invite).s.outs = [] := h.published
  refine ⟨?_, ?_, ?_⟩
  · rw [hp]; exact h.state.symm
  · rw [hp]; simp
  · rw [hp]; intro l c hc; simp at hc

theorem shown_step (w : World) {s : St} (ev : Event) (h : Shown ⟨s, .go⟩) : Shown (step w s ev) := by
  have ha := h.alive rfl
  have hl := h.last
  dsimp only at ha hl
  have key : ∀ c, published (step w s ev).s.outs = published s.outs ++ [c] → (step w s ev).s.state = c →
      (c = .hangup → (step w s ev).c = .stop) → Shown (step w s ev) := by
    intro c h1 h2 h3
    refine ⟨by rw [h1, h2]; simp, ?_, ?_⟩
    · intro hc
      rw [h1]
      simp only [List.mem_append, List.mem_singleton, not_or]
      refine ⟨ha, fun hcc => ?_⟩
      rw [h3 hcc.symm] at hc
      simp at hc
    · intro l c' hcc
      rw [h1] at hcc
      rw [← (List.append_inj' hcc rfl).1]
      exact ha
  cases pub_step w s ev with
  | quiet h1 h2 h3 =>
    refine ⟨by rw [h1, h2]; exact hl, fun _ => by rw [h2]; exact ha, ?_⟩
    rw [h2]; exact h.ended
  | proceeding h1 h2 h3 => exact key _ h1 h2 (by simp)
  | ringing h1 h2 h3 => exact key _ h1 h2 (by simp)
  | answered h1 h2 h3 h4 h5 => exact key _ h1 h2 (by simp)
  | hangup h1 h2 h3 => exact key _ h1 h2 fun _ => h3

theorem shown_loop (w : World) (invite : Msg) (evs : List Event) : Shown (loop w evs (start w invite)) := by
  suffices ∀ r, Shown r → Shown (loop w evs r) from this _ (shown_start w invite)
  induction evs with
  | nil => exact fun r h => h
  | cons e evs ih =>
    intro r h
    refine ih _ ?_
    unfold Run.andThen
    split
    · rename_i hc
      refine shown_step w e ?_
      rw [← hc]; exact h
    · exact h
    · exact h
    · exact h

/-- Invariant of orderly histories, `done` being the events so far. -/
structure Ordered (done : List Event) (r : Run) : Prop where
  forward : Forward (published r.s.outs)
  bound : ∀ c ∈ published r.s.outs, c.rank ≤ r.s.state.rank
  ringing : r.s.state = .ringing → ∃ e ∈ done, progress e = some 1
  answered : r.s.state = .answered → ∃ e ∈ done, progress e = some 2
  once : CallState.answered ∈ published r.s.outs → 2 ≤ r.s.state.rank ∧ (r.c = .go → r.s.remote.isSome)

theorem ordered_start (w : World) (invite : Msg) : Ordered [] (start w invite) := by
  have h := net_sendInvite w { invite := invite }
  have hp : published (start w invite).s.outs = [] := h.published
  have hs : (start w invite).s.state = .proceeding := h.state
  constructor <;> simp [hp, hs, Forward]

theorem forward_snoc {l : List CallState} {c : CallState} (h : Forward l) (k : ∀ a ∈ l, MayFollow a c) :
    Forward (l ++ [c]) := by
  unfold Forward at *
  rw [List.pairwise_append]
  refine ⟨h, by simp, fun a ha b hb => ?_⟩
  simp only [List.mem_singleton] at hb
  subst hb; exact k a ha

theorem ordered_step (w : World) {s : St} {done : List Event} (ev : Event)
    (ho : Orderly (done ++ [ev])) (hsh : Shown ⟨s, .go⟩) (h : Ordered done ⟨s, .go⟩) :
    Ordered (done ++ [ev]) (step w s ev) := by
  have ha : CallState.hangup ∉ published s.outs := hsh.alive rfl
  have hb : ∀ c ∈ published s.outs, c.rank ≤ s.state.rank := h.bound
  have hon : CallState.answered ∈ published s.outs → 2 ≤ s.state.rank ∧ s.remote.isSome :=
    fun x => ⟨(h.once x).1, (h.once x).2 rfl⟩
  have hnh : s.state ≠ .hangup := by
    intro hx
    have hl := hsh.last
    dsimp only at hl
    rw [hx] at hl
    cases hg : (published s.outs).getLast? with
    | none => rw [hg] at hl; simp at hl
    | some c =>
      rw [hg] at hl
      simp only [Option.getD_some] at hl
      subst hl
      exact ha (List.mem_of_getLast? hg)
  have hord : ∀ e ∈ done, ∀ x y, progress e = some x → progress ev = some y → x ≤ y := by
    intro e he x y hx hy
    exact (List.pairwise_append.mp ho).2.2 e he ev (by simp) x y hx hy
  have mono : ∀ {P : Event → Prop}, (∃ e ∈ done, P e) → ∃ e ∈ done ++ [ev], P e := by
    rintro P ⟨e, he, hP⟩; exact ⟨e, by simp [he], hP⟩
  have here : ∀ {P : Event → Prop}, P ev → ∃ e ∈ done ++ [ev], P e := fun {P} hP => ⟨ev, by simp, hP⟩
  cases pub_step w s ev with
  | quiet h1 h2 h3 =>
    refine ⟨by rw [h2]; exact h.forward, by rw [h1, h2]; exact hb, fun x => mono (h.ringing (h1 ▸ x)),
      fun x => mono (h.answered (h1 ▸ x)), ?_⟩
    rw [h1, h2]
    intro x
    obtain ⟨x1, x2⟩ := hon x
    refine ⟨x1, fun _ => ?_⟩
    rcases h3 with h3 | h3 | h3
    · rw [h3]; exact x2
    · omega
    · exact h3
  | proceeding h1 h2 h3 =>
    have hs : s.state = .proceeding := by
      cases hc : s.state with
      | proceeding => rfl
      | ringing => obtain ⟨e, he, hp⟩ := h.ringing hc; have := hord e he _ _ hp h3; omega
      | answered => obtain ⟨e, he, hp⟩ := h.answered hc; have := hord e he _ _ hp h3; omega
      | hangup => exact absurd hc hnh
    have hall : ∀ c ∈ published s.outs, c = .proceeding := by
      intro c hc; have := hb c hc; rw [hs] at this; cases c <;> simp [CallState.rank] at this ⊢
    refine ⟨?_, ?_, by rw [h2]; simp, by rw [h2]; simp, ?_⟩
    · rw [h1]; exact forward_snoc h.forward fun a x => by rw [hall a x]; trivial
    · rw [h1, h2]; intro c hc
      simp only [List.mem_append, List.mem_singleton] at hc
      rcases hc with hc | hc
      · rw [hall c hc]; exact Nat.le_refl _
      · rw [hc]; exact Nat.le_refl _
    · rw [h1]; intro hc
      simp only [List.mem_append, List.mem_singleton] at hc
      rcases hc with hc | hc
      · have := hall _ hc; simp at this
      · simp at hc
  | ringing h1 h2 h3 =>
    have hs : s.state.rank ≤ 1 := by
      cases hc : s.state with
      | proceeding => decide
      | ringing => decide
      | answered => obtain ⟨e, he, hp⟩ := h.answered hc; have := hord e he _ _ hp h3; omega
      | hangup => exact absurd hc hnh
    have hall : ∀ c ∈ published s.outs, c.rank ≤ 1 := fun c hc => Nat.le_trans (hb c hc) hs
    refine ⟨?_, ?_, fun _ => here h3, by rw [h2]; simp, ?_⟩
    · rw [h1]; exact forward_snoc h.forward fun a x => by
        have := hall a x
        cases a <;> simp [CallState.rank, MayFollow] at this ⊢
    · rw [h1, h2]; intro c hc
      simp only [List.mem_append, List.mem_singleton] at hc
      rcases hc with hc | hc
      · exact hall c hc
      · rw [hc]; exact Nat.le_refl _
    · rw [h1]; intro hc
      simp only [List.mem_append, List.mem_singleton] at hc
      rcases hc with hc | hc
      · have := hall _ hc; simp [CallState.rank] at this
      · simp at hc
  | answered h1 h2 h3 h4 h5 =>
    have hno : CallState.answered ∉ published s.outs := by
      intro x
      obtain ⟨x1, x2⟩ := hon x
      rcases h4 with h4 | h4
      · rw [h4] at x2; simp at x2
      · omega
    refine ⟨?_, ?_, by rw [h2]; simp, fun _ => here h3, fun _ => ⟨by rw [h2]; decide, fun _ => h5⟩⟩
    · rw [h1]; exact forward_snoc h.forward fun a x => by
        cases a with
        | proceeding => trivial
        | ringing => simp [MayFollow]
        | answered => exact absurd x hno
        | hangup => exact absurd x ha
    · rw [h1, h2]; intro c hc
      simp only [List.mem_append, List.mem_singleton] at hc
      rcases hc with hc | hc
      · cases c with
        | hangup => exact absurd hc ha
        | _ => decide
      · rw [hc]; exact Nat.le_refl _
  | hangup h1 h2 h3 =>
    refine ⟨?_, ?_, by rw [h2]; simp, by rw [h2]; simp, fun _ => ⟨by rw [h2]; decide, by rw [h3]; simp⟩⟩
    · rw [h1]; exact forward_snoc h.forward fun a x => by
        cases a with
        | proceeding => trivial
        | ringing => simp [MayFollow]
        | answered => rfl
        | hangup => exact absurd x ha
    · rw [h2]; intro c _; cases c <;> decide

theorem ordered_loop (w : World) (invite : Msg) (evs : List Event) (ho : Orderly evs) :
    Ordered evs (loop w evs (start w invite)) := by
  suffices ∀ (rest done : List Event) (r : Run), Orderly (done ++ rest) → Shown r → Ordered done r →
      Ordered (done ++ rest) (loop w rest r) from
    this evs [] _ ho (shown_start w invite) (ordered_start w invite)
  intro rest
  induction rest with
  | nil => intro done r _ _ h; simpa [loop] using h
  | cons e rest ih =>
    intro done r ho hs h
    have hassoc : done ++ e :: rest = done ++ [e] ++ rest := by simp
    rw [hassoc] at ho ⊢
    have ho' : Orderly (done ++ [e]) := (List.pairwise_append.mp ho).1
    simp only [loop]
    have weaken : Ordered (done ++ [e]) r := by
      refine ⟨h.forward, h.bound, fun x => ?_, fun x => ?_, h.once⟩
      · obtain ⟨a, ha, hp⟩ := h.ringing x; exact ⟨a, by simp [ha], hp⟩
      · obtain ⟨a, ha, hp⟩ := h.answered x; exact ⟨a, by simp [ha], hp⟩
    refine ih (done ++ [e]) _ ho ?_ ?_
    · unfold Run.andThen
      split
      · rename_i hc; exact shown_step w e (by rw [← hc]; exact hs)
      · exact hs
      · exact hs
      · exact hs
    · unfold Run.andThen
      split
      · rename_i hc
        exact ordered_step w e ho' (by rw [← hc]; exact hs) (by rw [← hc]; exact h)
      · exact weaken
      · exact weaken
      · exact weaken

/-- The cleanup publishes nothing. -/
theorem published_dialog (w : World) (invite : Msg) (evs : List Event) :
    published (dialog w invite evs).s.outs = published (loop w evs (start w invite)).s.outs := by
  unfold dialog
  dsimp only
  split
  · rcases cleanup_cases w (loop w evs (start w invite)).s with ⟨_, h⟩ | ⟨_, h⟩
    · rw [h]
    · rw [h, published_append]; simp [published]
  · rfl

end Gosip.Dialog
