import Verif.Dialog.Fresh
import Verif.Dialog.Moved
import Verif.Dialog.Reply
import Verif.Dialog.Answers
import Verif.Props.Call
import Verif.Props.CallSilent
import Verif.Props.CallAnswers
import Verif.Spec.Timing

/-!
# When requests are sent
-/

namespace Gosip.Props
open Sip Dialog Spec

/-! ### The outputs only grow -/

theorem outs_step (w : World) (s : St) (ev : Event) : ∃ l, (step w s ev).s.outs = s.outs ++ l := by
  have h := moved_step w 0 s.outs { s with outs := [] } ev
  have hs : ({ s with outs := [] } : St).moved 0 s.outs = s := by
    unfold St.moved; simp
  rw [hs] at h
  exact ⟨_, by rw [h]; rfl⟩

theorem outs_andThen (w : World) (r : Run) (ev : Event) :
    ∃ l, (r.andThen fun s => step w s ev).s.outs = r.s.outs ++ l := by
  unfold Run.andThen
  split
  · exact outs_step w r.s ev
  · exact ⟨[], by simp⟩
  · exact ⟨[], by simp⟩
  · exact ⟨[], by simp⟩

theorem calendar_append (w : World) (b : List (Nat × Event)) (a : List (Nat × Event)) : ∀ r : Run,
    calendar w r (a ++ b) = calendar w r a ++ calendar w (loop w (a.map Prod.snd) r) b := by
  induction a with
  | nil => intro r; rfl
  | cons x a ih =>
    intro r
    simp only [List.cons_append, calendar, List.map_cons, loop, ih, List.append_assoc]

/-- The run after timed events. -/
abbrev after (w : World) (invite : Msg) (evs : List (Nat × Event)) : Run :=
  loop w (evs.map Prod.snd) (start w invite)

theorem after_snoc (w : World) (invite : Msg) (evs : List (Nat × Event)) (t : Nat) (e : Event) :
    after w invite (evs ++ [(t, e)]) = (after w invite evs).andThen fun s => step w s e := by
  unfold after
  rw [List.map_append]
  exact loop_snoc w _ _ _

/-- The last event adds outputs with its time. -/
theorem timedOuts_snoc (w : World) (invite : Msg) (t0 : Nat) (evs : List (Nat × Event)) (t : Nat) (e : Event) :
    ∃ l, (after w invite (evs ++ [(t, e)])).s.outs = (after w invite evs).s.outs ++ l ∧
      timedOuts w invite t0 (evs ++ [(t, e)]) = timedOuts w invite t0 evs ++ l.map fun o => (t, o) := by
  obtain ⟨l, hl⟩ := outs_andThen w (after w invite evs) e
  refine ⟨l, by rw [after_snoc]; exact hl, ?_⟩
  unfold timedOuts
  rw [calendar_append]
  simp only [calendar, List.append_nil]
  rw [show loop w (evs.map Prod.snd) (start w invite) = after w invite evs from rfl, hl, List.drop_left,
    List.append_assoc]

theorem requests_append (a b : List Out) : requests (a ++ b) = requests a ++ requests b := by
  rw [requests_eq, requests_eq, requests_eq, own_append]

theorem timedRequests_append (a b : List (Nat × Out)) :
    timedRequests (a ++ b) = timedRequests a ++ timedRequests b := by
  simp [timedRequests, List.flatMap_append]

theorem timedRequests_map (t : Nat) (l : List Out) :
    timedRequests (l.map fun o => (t, o)) = (requests l).map fun q => (t, q) := by
  induction l with
  | nil => rfl
  | cons o l ih =>
    rw [List.map_cons, show ((t, o) :: l.map fun o => (t, o)) = [(t, o)] ++ l.map fun o => (t, o) from rfl,
      timedRequests_append, ih, show o :: l = [o] ++ l from rfl, requests_append, List.map_append]
    simp [timedRequests]

/-- The timed requests without their times are the requests. -/
theorem timed_requests (w : World) (invite : Msg) (t0 : Nat) (evs : List (Nat × Event)) :
    (timedRequests (timedOuts w invite t0 evs)).map Prod.snd = requests (after w invite evs).s.outs := by
  induction evs using snoc_rec with
  | h0 =>
    unfold timedOuts after
    rw [timedRequests_append, timedRequests_map]
    simp [calendar, timedRequests, loop, Function.comp_def]
  | h1 l z ih =>
    obtain ⟨t, e⟩ := z
    obtain ⟨o, ho, ht⟩ := timedOuts_snoc w invite t0 l t e
    rw [ho, ht, requests_append, timedRequests_append, timedRequests_map, List.map_append, ih]
    simp [Function.comp_def]

/-- The new requests of the last event. -/
theorem timedRequests_snoc {w : World} {invite : Msg} {evs : List (Nat × Event)} {t : Nat} {e : Event}
    {l : List (Bytes × Msg)} (t0 : Nat)
    (h : own (after w invite (evs ++ [(t, e)])).s.outs = own (after w invite evs).s.outs ++ l) :
    timedRequests (timedOuts w invite t0 (evs ++ [(t, e)])) =
      timedRequests (timedOuts w invite t0 evs) ++ l.map fun q => (t, q) := by
  obtain ⟨o, ho, ht⟩ := timedOuts_snoc w invite t0 evs t e
  rw [ht, timedRequests_append, timedRequests_map]
  rw [ho, own_append] at h
  rw [requests_eq, List.append_cancel_left h]

/-! ### Clocks -/

theorem clocked_init {n : Nat} {w : World} {invite : Msg} {t0 : Nat} {evs : List (Nat × Event)} {z : Nat × Event}
    (h : Clocked n w invite t0 (evs ++ [z])) : Clocked n w invite t0 evs := by
  refine ⟨?_, fun pre t post he => h.timer pre t (post ++ [z]) (by rw [he]; simp)⟩
  have := h.order
  rw [List.map_append, ← List.cons_append] at this
  exact (List.pairwise_append.1 this).1

/-- Nothing has happened after the last event. -/
theorem timed_le {n : Nat} {w : World} {invite : Msg} {t0 : Nat} {evs : List (Nat × Event)} {z : Nat × Event}
    (h : Clocked n w invite t0 (evs ++ [z])) : ∀ x ∈ timedRequests (timedOuts w invite t0 evs), x.1 ≤ z.1 := by
  have hz : ∀ t ∈ t0 :: evs.map Prod.fst, t ≤ z.1 := by
    have := h.order
    rw [List.map_append, ← List.cons_append] at this
    intro t ht
    exact (List.pairwise_append.1 this).2.2 t ht z.1 (by simp)
  clear h
  induction evs using snoc_rec with
  | h0 =>
    intro x hx
    unfold timedOuts at hx
    rw [timedRequests_append, timedRequests_map] at hx
    simp only [calendar, timedRequests, List.flatMap_nil, List.append_nil, List.mem_map] at hx
    obtain ⟨q, _, rfl⟩ := hx
    exact hz t0 (by simp)
  | h1 l y ih =>
    obtain ⟨t, e⟩ := y
    intro x hx
    obtain ⟨o, ho, ht⟩ := timedOuts_snoc w invite t0 l t e
    rw [ht, timedRequests_append, timedRequests_map] at hx
    rcases List.mem_append.1 hx with hx | hx
    · refine ih (fun t ht => hz t ?_) x hx
      simp only [List.mem_cons, List.map_append, List.mem_append] at ht ⊢
      rcases ht with ht | ht
      · exact .inl ht
      · exact .inr (.inl ht)
    · simp only [List.mem_map] at hx
      obtain ⟨q, _, rfl⟩ := hx
      exact hz t (by simp)

/-- The requests are in the order of their times. -/
theorem timed_sorted {n : Nat} {w : World} {invite : Msg} {t0 : Nat} {evs : List (Nat × Event)}
    (h : Clocked n w invite t0 evs) : (timedRequests (timedOuts w invite t0 evs)).Pairwise fun x y => x.1 ≤ y.1 := by
  induction evs using snoc_rec with
  | h0 =>
    unfold timedOuts
    rw [timedRequests_append, timedRequests_map]
    simp only [calendar, timedRequests, List.flatMap_nil, List.append_nil]
    rw [List.pairwise_map]
    exact List.pairwise_of_forall fun _ _ => Nat.le_refl _
  | h1 l z ih =>
    obtain ⟨t, e⟩ := z
    obtain ⟨o, ho, ht⟩ := timedOuts_snoc w invite t0 l t e
    rw [ht, timedRequests_append, timedRequests_map]
    refine List.pairwise_append.2 ⟨ih (clocked_init h), ?_, fun x hx y hy => ?_⟩
    · rw [List.pairwise_map]
      exact List.pairwise_of_forall fun _ _ => Nat.le_refl _
    · simp only [List.mem_map] at hy
      obtain ⟨q, _, rfl⟩ := hy
      exact timed_le h x hx

/-- When the timer goes off, all requests are older than the interval. -/
theorem timed_old {n : Nat} {w : World} {invite : Msg} {t0 : Nat} {evs : List (Nat × Event)} {t : Nat}
    (h : Clocked n w invite t0 (evs ++ [(t, .requestTimer)])) :
    ∀ x ∈ timedRequests (timedOuts w invite t0 evs), x.1 + n ≤ t := by
  intro x hx
  have hs := timed_sorted (clocked_init h)
  have ht := h.timer evs t [] rfl
  generalize timedRequests (timedOuts w invite t0 evs) = l at hx hs ht
  have hne : l ≠ [] := by intro hc; rw [hc] at hx; cases hx
  have hl := List.getLast?_eq_some_getLast hne
  have := ht _ hl
  rw [← List.dropLast_concat_getLast hne] at hx hs
  rcases List.mem_append.1 hx with hx | hx
  · have := (List.pairwise_append.1 hs).2.2 x hx (l.getLast hne) (by simp)
    omega
  · rw [List.mem_singleton.1 hx]; exact this

/-! ### The property -/

/-- The start as a step that sends new requests only. -/
theorem anew_start (w : World) (inj : ∀ a b, (w.ids a).branch = (w.ids b).branch → a = b) (invite : Msg)
    (hi : isOwn invite = true) : Anew w { invite := invite } (start w invite) := by
  have h0 : Anew w { invite := invite } ⟨{ invite := invite }, .go⟩ :=
    anew_refl w _ _ hi (by simp) (fun m hm => by simp [St.cur] at hm)
  refine anew_acts w inj _ _ h0 ?_
  rw [← once_start]
  exact acts_sendInvite w.once _

/-- What the last event adds, given that the dialog is running. -/
theorem anew_after (w : World) (inj : ∀ a b, (w.ids a).branch = (w.ids b).branch → a = b) (invite : Msg)
    (hi : isOwn invite = true) (evs : List (Nat × Event)) (e : Event) (hg : (after w invite evs).c = .go) :
    Anew w (after w invite evs).s (step w (after w invite evs).s e) ∨
    (e = .requestTimer ∧ (after w invite evs).s.requestTimer = true ∧
      (after w invite evs).s.requestResends < w.maxResends ∧ ∃ x m,
        own (step w (after w invite evs).s e).s.outs = own (after w invite evs).s.outs ++ [x] ∧
        (after w invite evs).s.cur = some m ∧ branchOf x.2 = branchOf m) := by
  have hb := branches_loop w invite (evs.map Prod.snd) hi inj
  obtain ⟨l1, l2, l3⟩ := hb.live hg
  have hrsp : RspOK (after w invite evs).s := rsp_loop w invite _
  exact anew_step w inj _ e hrsp (anew_refl w _ _ l1 l2 fun m hm => (l3 m hm).1)

/-- **C90**. Two transmissions of one request are never closer to each other than the interval. -/
theorem C90_spaced (interval : Nat) (w : World) (invite : Msg) (t0 : Nat) (evs : List (Nat × Event))
    (hi : IsInvite invite) (fresh : ∀ a b, (w.ids a).branch = (w.ids b).branch → a = b)
    (hc : Clocked interval w invite t0 evs) :
    (timedRequests (timedOuts w invite t0 evs)).Pairwise fun x y =>
      ∀ b, HasBranch x.2.2 b → HasBranch y.2.2 b → x.1 + interval ≤ y.1 := by
  have key : ∀ (t : Nat) (l : List (Bytes × Msg)), (l.Pairwise fun x y => branchOf x.2 ≠ branchOf y.2) →
      (l.map fun q => (t, q)).Pairwise fun x y => ∀ b, HasBranch x.2.2 b → HasBranch y.2.2 b → x.1 + interval ≤ y.1 := by
    intro t l hl
    rw [List.pairwise_map]
    refine hl.imp fun {x y} hxy b hx hy => absurd ?_ hxy
    rw [hasBranch_iff.1 hx, hasBranch_iff.1 hy]
  induction evs using snoc_rec with
  | h0 =>
    unfold timedOuts
    rw [timedRequests_append, timedRequests_map]
    simp only [calendar, timedRequests, List.flatMap_nil, List.append_nil]
    obtain ⟨l, hl, _, hp⟩ := (anew_start w fresh invite (isOwn_invite hi)).new
    rw [requests_eq, hl]
    exact key t0 _ (by simpa [own, sends] using hp)
  | h1 l z ih =>
    obtain ⟨t, e⟩ := z
    have ih := ih (clocked_init hc)
    by_cases hg : (after w invite l).c = .go
    · have hst : after w invite (l ++ [(t, e)]) = step w (after w invite l).s e := by
        rw [after_snoc, Run.andThen_of_go hg]
      rcases anew_after w fresh invite (isOwn_invite hi) l e hg with hn | ⟨rfl, _, _, x, m, hx, _, _⟩
      · obtain ⟨new, hl, hb, hp⟩ := hn.new
        rw [timedRequests_snoc t0 (by rw [hst]; exact hl)]
        refine List.pairwise_append.2 ⟨ih, key t _ hp, fun x hx y hy b hxb hyb => ?_⟩
        simp only [List.mem_map] at hy
        obtain ⟨q, hq, rfl⟩ := hy
        obtain ⟨n, n1, n2, n3⟩ := hb q hq
        have hxo : x.2 ∈ own (after w invite l).s.outs := by
          rw [← requests_eq, ← timed_requests w invite t0 l]
          exact List.mem_map_of_mem hx
        obtain ⟨k, k1, k2⟩ := (branches_loop w invite (l.map Prod.snd) (isOwn_invite hi) fresh).known x.2 hxo
        rw [hasBranch_iff.1 hxb] at k2
        rw [show branchOf q.2 = some b from hasBranch_iff.1 hyb, k2] at n3
        have := fresh _ _ (Option.some.inj n3)
        unfold after at n1
        omega
      · rw [timedRequests_snoc t0 (l := [x]) (by rw [hst]; exact hx)]
        refine List.pairwise_append.2 ⟨ih, List.pairwise_singleton _ _, fun x hx y hy b _ _ => ?_⟩
        simp only [List.map_cons, List.map_nil, List.mem_singleton] at hy
        subst hy
        exact timed_old hc x hx
    · have hst : after w invite (l ++ [(t, e)]) = after w invite l := by
        rw [after_snoc]
        unfold Run.andThen
        split
        · rename_i h; exact absurd h hg
        · rfl
        · rfl
        · rfl
      rw [timedRequests_snoc t0 (l := []) (by rw [hst]; simp)]
      simpa using ih

/-- In a row of moments at least `n` apart, all `n` before `t`, the first is long before `t`. -/
theorem spaced_first {α : Type} {n t : Nat} (y : Nat × α) (l : List (Nat × α))
    (h : (y :: l).Pairwise fun x y => x.1 + n ≤ y.1) (ht : ∀ x ∈ y :: l, x.1 + n ≤ t) :
    y.1 + (y :: l).length * n ≤ t := by
  induction l generalizing y with
  | nil => simpa using ht
  | cons z l ih =>
    have h1 := ih z (List.pairwise_cons.1 h).2 fun x hx => ht x (List.mem_cons_of_mem _ hx)
    have h2 := (List.pairwise_cons.1 h).1 z (by simp)
    simp only [List.length_cons, Nat.add_mul] at h1 ⊢
    omega

/-- What sending the request again puts out. -/
theorem resend_outs (w : World) (s : St) (m : Msg) (hm : s.cur = some m) :
    ∃ l, ((sendCur w s).andThen fun s =>
        ⟨{ s with requestResends := s.requestResends + 1, requestTimer := true }, .go⟩).s.outs = s.outs ++ l ∧
      ∀ o ∈ l, (∀ a, o ≠ .dial a) ∧ ∀ d, o ≠ .err (.failed d) := by
  have houts : ((sendCur w s).andThen fun s =>
      ⟨{ s with requestResends := s.requestResends + 1, requestTimer := true }, .go⟩).s.outs = (sendCur w s).s.outs := by
    unfold Run.andThen; split <;> rfl
  rw [houts]
  unfold sendCur
  simp only [hm]
  have h := send_res w s m
  generalize send w s m = x at h ⊢
  rw [(setCur_frame _ _).1]
  cases h with
  | loop => exact ⟨[.err .localLoop], rfl, by simp⟩
  | crash => exact ⟨[], by simp, by simp⟩
  | @sent c m' x => exact ⟨[.sent c.remote m' x], rfl, by simp⟩
  | @broken c m' x e => exact ⟨[.sent c.remote m' x, .err (.net e)], by simp [St.fail, St.out], by simp⟩

/-- **C90**. A request is given up when the timer goes off only if it has been waited for at least `maxResends + 1`
intervals: its first transmission is that old. -/
theorem C90_given_up (interval : Nat) (w : World) (invite : Msg) (t0 : Nat) (evs : List (Nat × Event)) (t : Nat)
    (hi : IsInvite invite) (hid : ∀ n, (w.ids n).callID ≠ [])
    (fresh : ∀ a b, (w.ids a).branch = (w.ids b).branch → a = b)
    (hc : Clocked interval w invite t0 (evs ++ [(t, .requestTimer)]))
    (x : Nat × Bytes × Msg) (hx : (timedRequests (timedOuts w invite t0 evs)).getLast? = some x)
    (new : List (Nat × Out))
    (hnew : timedOuts w invite t0 (evs ++ [(t, .requestTimer)]) = timedOuts w invite t0 evs ++ new)
    (ho : ∃ o ∈ new, Abandons x.2.2 o.2) :
    ∃ y ∈ timedRequests (timedOuts w invite t0 evs), (∃ b, HasBranch y.2.2 b ∧ HasBranch x.2.2 b) ∧
      y.1 + (w.maxResends.toNat + 1) * interval ≤ t := by
  obtain ⟨l, hl, hl'⟩ := timedOuts_snoc w invite t0 evs t .requestTimer
  rw [hnew] at hl'
  have hn := List.append_cancel_left hl'
  subst hn
  obtain ⟨p, hp0, hab⟩ := ho
  obtain ⟨o, hol, rfl⟩ := List.mem_map.1 hp0
  clear hp0
  dsimp only at hab
  clear hl' hnew
  -- the dialog is running
  have hg : (after w invite evs).c = .go := by
    rw [after_snoc] at hl
    unfold Run.andThen at hl
    split at hl
    · assumption
    all_goals
      have : l = [] := by simpa using hl
      subst this; cases hol
  have hal := alive_dialog hi hid hg
  obtain ⟨pre, d, y, m, h1, h2, h3⟩ := hal.last
  have hxy : x.2 = (d, y) := by
    have hm := congrArg List.getLast? (timed_requests w invite t0 evs)
    rw [List.getLast?_map, hx, requests_eq, show own (after w invite evs).s.outs = _ from h1] at hm
    simpa using hm
  have hbx : branchOf x.2.2 = branchOf m := by rw [hxy]; exact h3.branch.symm
  obtain ⟨c1, hc1⟩ := hal.sock
  obtain ⟨m', h2', _, hbne, _⟩ := hal.cur
  rw [h2] at h2'; cases h2'
  -- no retransmission was allowed
  have hmax : ¬ (after w invite evs).s.requestResends < w.maxResends := by
    intro hlt
    rw [after_snoc, Run.andThen_of_go hg] at hl
    have hstep : step w (after w invite evs).s .requestTimer = ⟨(after w invite evs).s, .go⟩ ∨
        step w (after w invite evs).s .requestTimer =
          (sendCur w { (after w invite evs).s with requestTimer := false }).andThen fun s =>
            ⟨{ s with requestResends := s.requestResends + 1, requestTimer := true }, .go⟩ := by
      simp only [step]
      split
      · right
        unfold resendRequest
        rw [show ({ (after w invite evs).s with requestTimer := false } : St).cur = some m from h2]
        dsimp only
        rw [if_pos hlt]
      · exact .inl rfl
    rcases hstep with hs | hs
    · rw [hs] at hl
      have : l = [] := by simpa using hl
      subst this; cases hol
    · obtain ⟨l', k1, k2⟩ := resend_outs w { (after w invite evs).s with requestTimer := false } m h2
      rw [← hs, hl] at k1
      have := List.append_cancel_left k1
      subst this
      rcases hab with ⟨a, rfl⟩ | ⟨a, rfl⟩ | ⟨q, hq, hqb⟩
      · exact (k2 _ hol).1 a rfl
      · exact (k2 _ hol).2 a rfl
      · have hql : q ∈ own l := by
          obtain ⟨u, v, rfl⟩ := List.append_of_mem hol
          rw [own_append, show o :: v = [o] ++ v from rfl, own_append, ← requests_eq [o]]
          simp [hq]
        rcases sendCur_sent w { (after w invite evs).s with requestTimer := false } m h2
          ((counted_loop w invite (evs.map Prod.snd) (isOwn_invite hi) hg).2 m h2).1 with ⟨e1, e2, _⟩ | ⟨m', d', e1, _, e3, _⟩
        all_goals
          have houts : ((sendCur w { (after w invite evs).s with requestTimer := false }).andThen fun s =>
              ⟨{ s with requestResends := s.requestResends + 1, requestTimer := true }, .go⟩).s.outs =
                (sendCur w { (after w invite evs).s with requestTimer := false }).s.outs := by
            unfold Run.andThen; split <;> rfl
          rw [← houts, ← hs, hl, own_append] at e1
        · have : own l = [] := by simpa using e1
          rw [this] at hql; cases hql
        · have := List.append_cancel_left e1
          rw [this] at hql
          rw [List.mem_singleton.1 hql] at hqb
          cases hb : branchOf m with
          | none => exact hbne hb
          | some b =>
            exact hqb b (hasBranch_iff.2 (hbx.trans hb)) (hasBranch_iff.2 (e3.branch.trans hb))
  -- so it was sent often enough
  have hcount := ((counted_loop w invite (evs.map Prod.snd) (isOwn_invite hi) hg).2 m h2).2
  obtain ⟨b, hb⟩ : ∃ b, branchOf m = some b := by
    cases hb : branchOf m with
    | none => exact absurd hb hbne
    | some b => exact ⟨b, rfl⟩
  have hsp := C90_spaced interval w invite t0 evs hi fresh (clocked_init hc)
  have hlen : ((timedRequests (timedOuts w invite t0 evs)).filter fun z => branchOf z.2.2 == some b).length =
      transmissions (some b) (after w invite evs).s.outs := by
    unfold transmissions
    rw [← requests_eq, ← timed_requests w invite t0 evs, List.countP_map, List.countP_eq_length_filter]
    rfl
  have hsp' := (hsp.filter fun z => branchOf z.2.2 == some b)
  have hmem : ∀ z ∈ (timedRequests (timedOuts w invite t0 evs)).filter fun z => branchOf z.2.2 == some b,
      z ∈ timedRequests (timedOuts w invite t0 evs) ∧ HasBranch z.2.2 b := by
    intro z hz
    obtain ⟨z1, z2⟩ := List.mem_filter.1 hz
    exact ⟨z1, hasBranch_iff.2 (by simpa using z2)⟩
  rw [hb] at hcount
  generalize (timedRequests (timedOuts w invite t0 evs)).filter (fun z => branchOf z.2.2 == some b) = L at hlen hsp' hmem
  cases L with
  | nil =>
    have h0 : transmissions (some b) (after w invite evs).s.outs = 0 := by rw [← hlen]; rfl
    have hbr := (branches_loop w invite (evs.map Prod.snd) (isOwn_invite hi) fresh).live hg
    have := hbr.2.1
    unfold after at h0
    omega
  | cons y L =>
    refine ⟨y, (hmem y (by simp)).1, ⟨b, (hmem y (by simp)).2, hasBranch_iff.2 (hbx.trans hb)⟩, ?_⟩
    have hf := spaced_first (n := interval) (t := t) y L
      (hsp'.imp_of_mem fun {u v} hu hv h => h b (hmem u hu).2 (hmem v hv).2)
      (fun u hu => timed_old hc u (hmem u hu).1)
    refine Nat.le_trans (Nat.add_le_add_left (Nat.mul_le_mul_right _ ?_) _) hf
    have hbr := (branches_loop w invite (evs.map Prod.snd) (isOwn_invite hi) fresh).live hg
    have := hbr.2.1
    unfold after at hlen hmax
    omega

theorem mem_errors {e : DErr} {l : List Out} (h : e ∈ errors l) : .err e ∈ l := by
  unfold errors at h
  obtain ⟨o, ho, he⟩ := List.mem_filterMap.1 h
  cases o <;> simp at he
  subst he; exact ho

/-- When only the timer goes off, everything sent is a request. -/
theorem timers_requests (w : World) (invite : Msg) (k : Nat) (hi : IsInvite invite) :
    ∀ x ∈ sends (loop w (List.replicate k .requestTimer) (start w invite)).s.outs, x.2.isResponse = false := by
  intro x hx
  have h := mirror_loop (w := w) (invite := invite) (P := fun _ _ => False)
    (fun _ => ⟨fun _ _ h _ => h, fun _ h => h.elim, fun _ h => h.elim⟩) (fun _ _ _ h => h)
    (List.replicate k .requestTimer) ?_ (notResponse hi)
  · cases hr : x.2.isResponse with
    | false => rfl
    | true => exact (h.sent x hx hr).elim
  · intro before m after n he
    have : Event.msg m ∈ List.replicate k Event.requestTimer := by rw [he]; simp
    cases List.eq_of_mem_replicate this

/-- **C90**. A call to a silent party is reported as failed, and the time of the report lies between the number of
transmissions times the interval and, if the timer is never late by more than `slack`, that number times
`interval + slack`. -/
theorem C90_silent_partial (interval slack : Nat) (w : World) (up : Bytes → Bool) (hw : Network w up) (invite : Msg)
    (hi : Placeable invite) (host : Bytes) (port : UInt16) (addrs : List Bytes)
    (hr : (routeMessage none none invite).2 = .ok (host, port))
    (ha : (routeAddress (w.resolver 0) host port true).2 = .ok addrs) (all : List Bytes)
    (hall : all = (addrs.filter up).flatMap fun a => List.replicate (w.maxResends.toNat + 1) a)
    (hf : (all.length : Int) < if invite.maxForwards = 0 then 70 else invite.maxForwards)
    (hfr : (∀ n, w.frees n = true) ∨ ∃ l a, addrs = l ++ [a] ∧ ∀ b ∈ l, up b = false)
    (t0 : Nat) (ts : List Nat) (hlen : ts.length = all.length)
    (hc : Clocked interval w invite t0 (ts.map fun t => (t, .requestTimer)))
    (hp : Prompt interval slack w invite t0 (ts.map fun t => (t, .requestTimer))) :
    ∃ t, (t, .err (.failed host)) ∈ timedOuts w invite t0 (ts.map fun t => (t, .requestTimer)) ∧
      t0 + all.length * interval ≤ t ∧ t ≤ t0 + all.length * (interval + slack) := by
  have hsil := C47_silent_partial w up hw invite hi host port addrs hr ha all hall hf hfr
  have hafter : ∀ us : List Nat, after w invite (us.map fun t => (t, .requestTimer)) =
      loop w (List.replicate us.length .requestTimer) (start w invite) := by
    intro us
    unfold after
    rw [List.map_map]
    congr 1
    induction us with
    | nil => rfl
    | cons u us ih => rw [List.map_cons, ih]; rfl
  have hcount : ∀ us : List Nat, us.length < all.length →
      (timedRequests (timedOuts w invite t0 (us.map fun t => (t, .requestTimer)))).length = us.length + 1 := by
    intro us hus
    have h1 := congrArg List.length (timed_requests w invite t0 (us.map fun t => (t, .requestTimer)))
    rw [List.length_map] at h1
    rw [h1, hafter]
    obtain ⟨k1, k2, _⟩ := hsil us.length
    have k1 := congrArg List.length k1
    rw [List.length_map, List.length_take] at k1
    have : requests (loop w (List.replicate us.length .requestTimer) (start w invite)).s.outs =
        sends (loop w (List.replicate us.length .requestTimer) (start w invite)).s.outs := by
      rw [requests_eq]
      unfold own
      rw [List.filter_eq_self]
      intro x hx
      have h2 := timers_requests w invite us.length hi.invite x hx
      have h3 := k2 x hx
      unfold isOwn
      rw [h2, h3]
      decide +kernel
    rw [this, k1]
    omega
  -- the last request so far is as old as the timers say
  have hlast : ∀ us vs : List Nat, ts = us ++ vs → us.length < all.length →
      ∃ x, (timedRequests (timedOuts w invite t0 (us.map fun t => (t, .requestTimer)))).getLast? = some x ∧
        t0 + us.length * interval ≤ x.1 ∧ x.1 ≤ t0 + us.length * (interval + slack) := by
    intro us
    induction us using snoc_rec with
    | h0 =>
      intro vs _ hus
      have hct := hcount [] hus
      simp only [List.map_nil] at hct ⊢
      unfold timedOuts at hct ⊢
      rw [timedRequests_append, timedRequests_map] at hct ⊢
      simp only [calendar, timedRequests, List.flatMap_nil, List.append_nil, List.length_map,
        List.length_nil] at hct ⊢
      obtain ⟨q, hq⟩ := List.length_eq_one_iff.1 hct
      exact ⟨(t0, q), by rw [hq]; rfl, by simp, by simp⟩
    | h1 us t ih =>
      intro vs he hus
      rw [List.length_append] at hus
      simp only [List.length_cons, List.length_nil] at hus
      have he' : ts = us ++ t :: vs := by rw [he]; simp
      obtain ⟨x, hx, hx1, hx2⟩ := ih (t :: vs) he' (by omega)
      have hev : (ts.map fun t => ((t, .requestTimer) : Nat × Event)) =
          (us.map fun t => (t, .requestTimer)) ++ (t, .requestTimer) :: vs.map fun t => (t, .requestTimer) := by
        rw [he']; simp
      have hlo := hc.timer _ _ _ hev x hx
      have hhi := hp _ _ _ hev x hx
      have c1 := hcount us (by omega)
      have c2 := hcount (us ++ [t]) (by simpa using hus)
      rw [List.map_append, List.map_cons, List.map_nil] at c2 ⊢
      obtain ⟨o, _, ho⟩ := timedOuts_snoc w invite t0 (us.map fun t => (t, .requestTimer)) t .requestTimer
      rw [ho, timedRequests_append, timedRequests_map] at c2 ⊢
      rw [List.length_append, c1, List.length_map] at c2
      simp only [List.length_append, List.length_cons, List.length_nil] at c2 ⊢
      obtain ⟨q, hq⟩ := List.length_eq_one_iff.1 (show (requests o).length = 1 by omega)
      refine ⟨(t, q), by rw [hq]; simp, ?_, ?_⟩
      · dsimp only
        rw [Nat.zero_add, Nat.add_mul, Nat.one_mul]
        omega
      · dsimp only
        rw [Nat.zero_add, Nat.add_mul us.length, Nat.one_mul]
        omega
  have hend := (hsil all.length).2.2
  rw [if_neg (Nat.lt_irrefl _)] at hend
  obtain ⟨hstop, herr⟩ := hend
  rcases List.eq_nil_or_concat ts with hts | ⟨us, t, hts⟩
  · subst hts
    have h0 : all.length = 0 := hlen.symm
    rw [h0] at herr ⊢
    refine ⟨t0, ?_, by simp, by simp⟩
    have hm : DErr.failed host ∈ errors (start w invite).s.outs := by
      have herr : errors (start w invite).s.outs = _ := herr
      rw [herr]; simp
    unfold timedOuts
    simp only [List.map_nil, calendar, List.append_nil, List.mem_map]
    exact ⟨_, mem_errors hm, rfl⟩
  · rw [List.concat_eq_append] at hts
    subst hts
    rw [List.length_append] at hlen
    simp only [List.length_cons, List.length_nil] at hlen
    obtain ⟨x, hx, hx1, hx2⟩ := hlast us [t] rfl (by omega)
    have hev : ((us ++ [t]).map fun t => ((t, .requestTimer) : Nat × Event)) =
        (us.map fun t => (t, .requestTimer)) ++ (t, .requestTimer) :: [] := by simp
    have hlo := hc.timer _ _ _ hev x hx
    have hhi := hp _ _ _ hev x hx
    refine ⟨t, ?_, ?_, ?_⟩
    · obtain ⟨o, ho1, ho2⟩ := timedOuts_snoc w invite t0 (us.map fun t => (t, .requestTimer)) t .requestTimer
      rw [hev, ho2]
      refine List.mem_append_right _ (List.mem_map.2 ⟨_, mem_errors ?_, rfl⟩)
      have h1 := hafter (us ++ [t])
      rw [hev] at h1
      rw [h1, hafter, List.length_append] at ho1
      have h2 := congrArg errors ho1
      obtain ⟨_, _, h3⟩ := hsil us.length
      rw [if_pos (by omega)] at h3
      rw [show us.length + [t].length = all.length from hlen, herr, Dialog.errors_append, h3.2, List.nil_append] at h2
      rw [← h2]; simp
    · rw [← hlen, Nat.zero_add, Nat.add_mul, Nat.one_mul]
      omega
    · rw [← hlen, Nat.zero_add, Nat.add_mul us.length, Nat.one_mul]
      omega

/-- The default: an interval of 400 milliseconds and two retransmissions. One silent address: the INVITE is sent at 0,
400 and 800 milliseconds, and the call is reported as failed after 1.2 seconds. RFC 3261, 17.1.1.2, has the interval
doubled for every retransmission and the client wait for 64 times the first interval. -/
example :
    (timedRequests (timedOuts demoWorld demoInvite 0
      [(400, .requestTimer), (800, .requestTimer), (1200, .requestTimer)])).map Prod.fst = [0, 400, 800] ∧
    (timedOuts demoWorld demoInvite 0
      [(400, .requestTimer), (800, .requestTimer), (1200, .requestTimer)]).getLast? =
        some (1200, .err (.failed b!"10.0.0.2")) := by
  decide +kernel

/-- These times are those of a timer that is never late, so the theorems speak of this call. -/
example : Clocked 400 demoWorld demoInvite 0 [(400, .requestTimer), (800, .requestTimer), (1200, .requestTimer)] ∧
    Prompt 400 0 demoWorld demoInvite 0 [(400, .requestTimer), (800, .requestTimer), (1200, .requestTimer)] := by
  have key : ∀ pre t post, [((400, .requestTimer) : Nat × Event), (800, .requestTimer), (1200, .requestTimer)] =
      pre ++ (t, .requestTimer) :: post →
      ∀ x, (timedRequests (timedOuts demoWorld demoInvite 0 pre)).getLast? = some x → x.1 + 400 = t := by
    intro pre t post he x hx
    have hfst : ∀ l : List (Nat × Event), (timedRequests (timedOuts demoWorld demoInvite 0 l)).getLast? = some x →
        ((timedRequests (timedOuts demoWorld demoInvite 0 l)).map Prod.fst).getLast? = some x.1 := by
      intro l hl; rw [List.getLast?_map, hl]; rfl
    have hx := hfst _ hx
    match pre, he with
    | [], he =>
      simp only [List.nil_append, List.cons.injEq, Prod.mk.injEq] at he
      have h0 : ((timedRequests (timedOuts demoWorld demoInvite 0 [])).map Prod.fst).getLast? = some 0 := by
        decide +kernel
      rw [h0] at hx
      have := Option.some.inj hx
      omega
    | [a], he =>
      simp only [List.cons_append, List.nil_append, List.cons.injEq, Prod.mk.injEq] at he
      obtain ⟨rfl, ⟨h2, _⟩, _⟩ := he
      have h0 : ((timedRequests (timedOuts demoWorld demoInvite 0 [(400, .requestTimer)])).map Prod.fst).getLast? =
          some 400 := by decide +kernel
      rw [h0] at hx
      have := Option.some.inj hx
      omega
    | [a, b], he =>
      simp only [List.cons_append, List.nil_append, List.cons.injEq, Prod.mk.injEq] at he
      obtain ⟨rfl, rfl, ⟨h2, _⟩, _⟩ := he
      have h0 : ((timedRequests (timedOuts demoWorld demoInvite 0 [(400, .requestTimer), (800, .requestTimer)])).map
          Prod.fst).getLast? = some 800 := by decide +kernel
      rw [h0] at hx
      have := Option.some.inj hx
      omega
    | a :: b :: c :: l, he => simp at he
  refine ⟨⟨by decide, fun pre t post he x hx => Nat.le_of_eq (key pre t post he x hx)⟩, fun pre t post he x hx => ?_⟩
  have := key pre t post he x hx
  omega

end Gosip.Props
