import Verif.Props.CallEnd
import Verif.Dialog.Silent
import Verif.Dialog.Exhausted

/-!
# Property C47: a call that nobody answers
-/

namespace Gosip.Props
open Sip Spec Dialog

theorem start_pop {w : World} {invite : Msg} {host : Bytes} {port : UInt16} {addrs : List Bytes}
    (hr : (routeMessage none none invite).2 = .ok (host, port))
    (ha : (routeAddress (w.resolver 0) host port true).2 = .ok addrs) : start w invite = popRoutes w addrs
      { invite := (routeMessage none none invite).1, req := .invite, routes := addrs, dest := host, tick := 1 } := by
  unfold start sendInvite sendTowards
  dsimp only
  rw [hr]
  dsimp only
  have : (routeAddress (w.resolver 0) host port
    (decide (CallState.proceeding.rank < CallState.answered.rank))).2 = .ok addrs := ha
  rw [this]
  rfl

/-- **C47** (second half; missing: what happens when the receiver of a socket has nothing to deliver when the dialog turns
to another address, see `C47_failover_stuck`; an address that answers "service unavailable", see
`C47_service_unavailable`; INVITEs with few Max-Forwards, see `C47_forwards_used_up`). A call to somebody who does not
answer: `addrs` are the addresses found for the destination, `up` says which can be dialled. The INVITE is sent
`maxResends + 1` times to each address that can be dialled, in order, one transmission per tick of the timer, and nothing
else is sent; when the timer ticks after the last one, the application is told that the call failed, and the dialog ends.
This holds without further condition if no address is left after the first that can be dialled. -/
theorem C47_silent_partial (w : World) (up : Bytes → Bool) (hw : Network w up) (invite : Msg) (hi : Placeable invite)
    (host : Bytes) (port : UInt16) (addrs : List Bytes) (hr : (routeMessage none none invite).2 = .ok (host, port))
    (ha : (routeAddress (w.resolver 0) host port true).2 = .ok addrs) (all : List Bytes)
    (hall : all = (addrs.filter up).flatMap fun a => List.replicate (w.maxResends.toNat + 1) a)
    (hf : (all.length : Int) < if invite.maxForwards = 0 then 70 else invite.maxForwards)
    (hfr : (∀ n, w.frees n = true) ∨ ∃ l a, addrs = l ++ [a] ∧ ∀ b ∈ l, up b = false) (k : Nat) :
    (sends (loop w (List.replicate k .requestTimer) (start w invite)).s.outs).map Prod.fst = all.take (k + 1) ∧
    (∀ x ∈ sends (loop w (List.replicate k .requestTimer) (start w invite)).s.outs, x.2.method = b!"INVITE") ∧
    (if k < all.length
     then (loop w (List.replicate k .requestTimer) (start w invite)).c = .go ∧
       errors (loop w (List.replicate k .requestTimer) (start w invite)).s.outs = []
     else (loop w (List.replicate k .requestTimer) (start w invite)).c = .stop ∧
       errors (loop w (List.replicate k .requestTimer) (start w invite)).s.outs = [.failed host]) := by
  have hro := route_ok hi.routable
  have hst := start_pop hr ha
  obtain ⟨u, a, hre, _⟩ := route_none invite
  have hC : Calling up all.length
      { invite := (routeMessage none none invite).1, req := .invite, routes := addrs, dest := host, tick := 1 } := by
    refine ⟨rfl, hro.1.line, hro.1.contact, ?_, (fun c hc => by cases hc), ?_⟩
    · dsimp only; rw [hre]; exact hf
    · dsimp only; rw [hre]; exact hi.invite.2
  have hp := popRoutes_network hw (n := all.length) addrs (fun hne => by
    cases hfl : addrs.filter up with
    | nil => exact absurd hfl hne
    | cons x l => rw [hall, hfl]; simp [List.replicate_succ]; omega) _ hC (.inr (.inr rfl))
  rw [← hst] at hp
  cases hfl : addrs.filter up with
  | nil =>
    rw [hfl] at hp hall
    obtain ⟨p1, p2, p3⟩ := hp
    have hall : all = [] := hall
    rw [loop_stop _ _ p1, p2, p3, hall]
    exact ⟨by simp [sends], by simp [sends], by simp [p1, errors]⟩
  | cons b more =>
    rw [hfl] at hp hall
    obtain ⟨rest, m, ⟨pre, hpre, hdown⟩, q0, q1, q2, q3, q4, q5⟩ := hp
    have hb : up b = true := (List.mem_filter.1 (show b ∈ addrs.filter up by rw [hfl]; simp)).2
    have hfr' : (∀ n, w.frees n = true) ∨ rest = [] := by
      refine hfr.imp_right ?_
      rintro ⟨l, z, hl, hz⟩
      rw [hpre] at hl
      refine Decidable.by_contra fun hne => ?_
      have h := congrArg List.dropLast hl
      rw [List.dropLast_concat, List.dropLast_append_of_ne_nil (by simp), List.dropLast_cons_of_ne_nil hne] at h
      have := hz b (by rw [← h]; simp)
      rw [hb] at this; cases this
    have hall' : all = b :: (List.replicate w.maxResends.toNat b ++ plan w up rest) := by
      rw [hall]; unfold plan tries; rw [q0]; simp [List.replicate_succ]
    have hlen : (all.length : Int) - 1 = (List.replicate w.maxResends.toNat b ++ plan w up rest).length := by
      rw [hall']; simp only [List.length_cons]; omega
    obtain ⟨i1, i2, i3⟩ := trying_loop hw k (all.length - 1) rest b 0 (start w invite) q1 q2 (by omega) hfr'
      (by rw [Nat.sub_zero, hlen]; exact Int.le_refl _)
    rw [Nat.sub_zero] at i1 i3
    have hs0 : sends (start w invite).s.outs = [(b, m)] := q4
    have he0 : errors (start w invite).s.outs = [] := q5
    refine ⟨?_, ?_, ?_⟩
    · rw [i1, hs0, hall']; simp
    · intro x hx
      rcases i2 x hx with hx | hx
      · rw [hs0] at hx
        simp only [List.mem_singleton] at hx
        subst hx; exact q3
      · exact hx
    · rw [he0] at i3
      by_cases hk : k < all.length
      · rw [if_pos hk]
        rw [hall'] at hk
        rw [if_pos (by simp only [List.length_cons] at hk; omega)] at i3
        exact i3
      · rw [if_neg hk]
        rw [hall'] at hk
        rw [if_neg (by simp only [List.length_cons] at hk; omega)] at i3
        exact i3

/-- **C47 is false**: nobody answers, nothing at all arrives, and after the first address `a` that can be dialled, `b` is
the next one to be tried. Then the INVITE is sent `maxResends + 1` times to `a`, nothing is ever sent to another address, and the
application is never told anything: the dialog waits for ever for the goroutine that receives from `a`. -/
theorem C47_failover_stuck (w : World) (up : Bytes → Bool) (hw : Network w up) (invite : Msg) (hi : Placeable invite)
    (host : Bytes) (port : UInt16) (hr : (routeMessage none none invite).2 = .ok (host, port))
    (pre : List Bytes) (a b : Bytes) (rest : List Bytes) (hpre : ∀ x ∈ pre, up x = false) (hup : up a = true) (hab : b ≠ a)
    (ha : (routeAddress (w.resolver 0) host port true).2 = .ok (pre ++ a :: b :: rest))
    (hf : w.maxResends.toNat + 1 < if invite.maxForwards = 0 then 70 else invite.maxForwards)
    (hfr : ∀ n, w.frees n = false) (k : Nat) :
    (sends (dialog w invite (List.replicate k .requestTimer)).s.outs).map Prod.fst =
      List.replicate (min (k + 1) (w.maxResends.toNat + 1)) a ∧
    errors (dialog w invite (List.replicate k .requestTimer)).s.outs = [] ∧
    (dialog w invite (List.replicate k .requestTimer)).c = if k ≤ w.maxResends.toNat then .go else .stuck := by
  have hro := route_ok hi.routable
  have hst := start_pop hr ha
  obtain ⟨u, ad, hre, _⟩ := route_none invite
  have hC : Calling up (w.maxResends.toNat + 1)
      { invite := (routeMessage none none invite).1, req := .invite, routes := pre ++ a :: b :: rest, dest := host, tick := 1 } := by
    refine ⟨rfl, hro.1.line, hro.1.contact, ?_, (fun c hc => by cases hc), ?_⟩
    · dsimp only; rw [hre]; exact hf
    · dsimp only; rw [hre]; exact hi.invite.2
  have hp := popRoutes_network hw (n := w.maxResends.toNat + 1) (pre ++ a :: b :: rest) (fun _ => by omega) _ hC (.inr (.inr rfl))
  rw [← hst] at hp
  have hfl : (pre ++ a :: b :: rest).filter up = a :: (b :: rest).filter up := by
    rw [List.filter_append, List.filter_eq_nil_iff.2 (by simpa using hpre), List.filter_cons_of_pos hup]; rfl
  rw [hfl] at hp
  obtain ⟨rest', m, ⟨pre', e1, e2⟩, q0, q1, q2, q3, q4, q5⟩ := hp
  have hrest : rest' = b :: rest := by
    rcases List.append_eq_append_iff.1 e1 with ⟨l, h1, h2⟩ | ⟨l, h1, h2⟩
    · cases l with
      | nil => simp at h2; exact h2.symm
      | cons y l =>
        exfalso
        simp only [List.cons_append, List.cons.injEq] at h2
        have := e2 y (by rw [h1]; simp)
        rw [← h2.1, hup] at this; cases this
    · cases l with
      | nil => simp at h2; exact h2
      | cons y l =>
        exfalso
        simp only [List.cons_append, List.cons.injEq] at h2
        have := hpre y (by rw [h1]; simp)
        rw [← h2.1, hup] at this; cases this
  subst hrest
  have hq2 : Trying up (w.maxResends.toNat : Int) (b :: rest) a (0 : Nat) host (start w invite).s := by
    have : (w.maxResends.toNat : Int) = w.maxResends.toNat + 1 - 1 := by omega
    rw [this]; exact q2
  obtain ⟨i1, i2, i3⟩ := trying_stuck hw hfr hab k w.maxResends.toNat 0 (start w invite) q1 hq2 (by omega) (by omega)
  rw [Nat.sub_zero] at i1 i3
  have hd : dialog w invite (List.replicate k .requestTimer) = loop w (List.replicate k .requestTimer) (start w invite) := by
    unfold dialog
    dsimp only
    split
    · rename_i hc
      rw [i3] at hc
      split at hc <;> cases hc
    · rfl
  rw [hd, i1, i2, i3, q4, q5]
  refine ⟨?_, rfl, rfl⟩
  rw [List.take_replicate, show min (k + 1) (w.maxResends.toNat + 1) = min k w.maxResends.toNat + 1 by omega,
    List.replicate_succ]
  rfl

/-- The hypotheses of `C47_silent_partial` can be met: the addresses that can be dialled are tried three times each. -/
example : Network demoWorld3 (fun a => a != b!"b:2") ∧ Placeable demoInvite3 ∧
    (routeMessage none none demoInvite3).2 = .ok (b!"example.com", 0) ∧
    (routeAddress (demoWorld3.resolver 0) b!"example.com" 0 true).2 = .ok [b!"a:1", b!"b:2", b!"c:3"] ∧
    (sends (dialog demoWorld3 demoInvite3 (List.replicate 7 .requestTimer)).s.outs).map Prod.fst =
      [b!"a:1", b!"a:1", b!"a:1", b!"c:3", b!"c:3", b!"c:3"] ∧
    errors (dialog demoWorld3 demoInvite3 (List.replicate 7 .requestTimer)).s.outs = [.failed b!"example.com"] := by
  refine ⟨⟨fun _ => rfl, ?_, ?_, by simp [demoWorld3, demoWorld]⟩, ⟨⟨rfl, rfl⟩, by simp [demoInvite3], ?_⟩, by decide +kernel,
    by decide +kernel, by decide +kernel, by decide +kernel⟩
  · intro n a h
    have h : a ≠ b!"b:2" := by simpa using h
    exact ⟨⟨a, b!"10.0.0.1", 5070⟩, by simp only [demoWorld3]; rw [if_neg h], rfl⟩
  · intro n a h
    have h : a = b!"b:2" := by simpa using h
    simp only [demoWorld3]; rw [if_pos h]
  · intro f; cases f <;> decide +kernel

/-- The hypotheses of `C47_failover_stuck` can be met: the third address is never tried. -/
example : Network demoIdle3 (fun a => a != b!"b:2") ∧
    (routeAddress (demoIdle3.resolver 0) b!"example.com" 0 true).2 = .ok [b!"a:1", b!"b:2", b!"c:3"] ∧
    (sends (dialog demoIdle3 demoInvite3 (List.replicate 7 .requestTimer)).s.outs).map Prod.fst =
      [b!"a:1", b!"a:1", b!"a:1"] ∧
    (dialog demoIdle3 demoInvite3 (List.replicate 7 .requestTimer)).c = .stuck := by
  refine ⟨⟨fun _ => rfl, ?_, ?_, by simp [demoIdle3, demoWorld3, demoWorld]⟩, by decide +kernel, by decide +kernel,
    by decide +kernel⟩
  · intro n a h
    have h : a ≠ b!"b:2" := by simpa using h
    exact ⟨⟨a, b!"10.0.0.1", 5070⟩, by simp only [demoIdle3, demoWorld3]; rw [if_neg h], rfl⟩
  · intro n a h
    have h : a = b!"b:2" := by simpa using h
    simp only [demoIdle3, demoWorld3]; rw [if_pos h]

/-- **C47.** Once somebody has answered provisionally, the request is not repeated and no other address is tried. -/
theorem C47_provisional_stops (w : World) (invite : Msg) (evs : List Event) (m : Msg) (d : Bytes) (x : Msg) (n : Nat)
    (hi : IsInvite invite) (hid : ∀ n, (w.ids n).callID ≠ []) (hg : (loop w evs (start w invite)).c = .go)
    (hx : (requests (loop w evs (start w invite)).s.outs).getLast? = some (d, x))
    (hm : Answers x m) (hst : m.status < 200) (hver : m.versionMajor = 2 ∧ m.versionMinor = 0)
    (hcall : m.callID = x.callID) (haudio : ∀ d, m.payload = some (.sdp d) → d.audio ≠ none) :
    (loop w (evs ++ .msg m :: List.replicate n .requestTimer) (start w invite)).c = .go ∧
    sends (loop w (evs ++ .msg m :: List.replicate n .requestTimer) (start w invite)).s.outs =
      sends (loop w evs (start w invite)).s.outs ∧
    errors (loop w (evs ++ .msg m :: List.replicate n .requestTimer) (start w invite)).s.outs =
      errors (loop w evs (start w invite)).s.outs := by
  have h := alive_dialog hi hid hg
  obtain ⟨c, hs⟩ := h.sock
  obtain ⟨pre, d', x', cur, h1, h2, h3⟩ := h.last
  rw [requests_eq, h1] at hx
  simp only [List.getLast?_append, List.getLast?_singleton, Option.some_or, Option.some.injEq, Prod.mk.injEq] at hx
  obtain ⟨rfl, rfl⟩ := hx
  obtain ⟨v, hv⟩ := h3.only
  have hcc : m.callID = cur.callID := by rw [hcall, hv]
  obtain ⟨k1, k2, k3, k4⟩ := provisional_step (w := w) hs h2 hver hcc (answers_stamped h3.stamped hm) hst haudio
  have hl : loop w (evs ++ .msg m :: List.replicate n .requestTimer) (start w invite) =
      loop w (List.replicate n .requestTimer) (step w (loop w evs (start w invite)).s (.msg m)) := by
    rw [loop_append]
    show loop w _ (Run.andThen _ _) = _
    unfold Run.andThen
    rw [hg]
  rw [hl, off_loop n _ k2]
  exact ⟨k1, k3, k4⟩

/-- **C47 is false** for "service unavailable": the dialog forgets its other addresses before it asks for the next one.
There are two more, and the call fails. -/
theorem C47_service_unavailable :
    errors (dialog demoWorld3 demoInvite3 [demoRsp3 503]).s.outs = [.failed b!"example.com"] ∧
    (sends (dialog demoWorld3 demoInvite3 [demoRsp3 503]).s.outs).map (fun x => (x.1, x.2.method)) =
      [(b!"a:1", b!"INVITE"), (b!"a:1", b!"ACK")] := by
  decide +kernel

/-- **C47 is false** when Max-Forwards is used up, for every call and in every state of it: once the last transmission
carried a Max-Forwards of one, the firing of the timer makes the dialog send nothing to any address, however many are left.
Unless no answer was awaited any more, the call is over, and nothing but a loop or a failure is reported. -/
theorem C47_no_forwards_left (w : World) (invite : Msg) (evs : List Event) (d : Bytes) (x : Msg)
    (hi : IsInvite invite) (hid : ∀ n, (w.ids n).callID ≠ []) (hg : (loop w evs (start w invite)).c = .go)
    (hx : (requests (loop w evs (start w invite)).s.outs).getLast? = some (d, x)) (hf : x.maxForwards = 1) :
    let r := loop w (evs ++ [.requestTimer]) (start w invite)
    sends r.s.outs = sends (loop w evs (start w invite)).s.outs ∧
    (r = loop w evs (start w invite) ∨ r.c ≠ .go ∧
      ∀ e ∈ errors r.s.outs, e ∈ errors (loop w evs (start w invite)).s.outs ∨ e = .localLoop ∨ ∃ h, e = .failed h) := by
  have h := alive_dialog hi hid hg
  obtain ⟨pre, d', x', cur, h1, h2, h3⟩ := h.last
  obtain ⟨cur', k1, k2, _⟩ := h.cur
  rw [k1] at h2
  cases h2
  rw [requests_eq, h1] at hx
  simp only [List.getLast?_append, List.getLast?_singleton, Option.some_or, Option.some.injEq, Prod.mk.injEq] at hx
  obtain ⟨rfl, rfl⟩ := hx
  have hl : loop w (evs ++ [.requestTimer]) (start w invite) = step w (loop w evs (start w invite)).s .requestTimer := by
    rw [loop_append]
    show loop w [] (Run.andThen _ _) = _
    rw [Run.andThen_of_go hg]
    rfl
  dsimp only
  rw [hl]
  rcases gaveUp_timer (w := w) k1 (isOwn_not_response k2) (h3.forwards.trans hf) with e | e
  · rw [e]
    refine ⟨rfl, .inl ?_⟩
    rw [← hg]
  · exact ⟨e.sent, .inr ⟨e.over, e.errs⟩⟩

/-- With few Max-Forwards, retransmissions use them up: the second address is never tried, and the application is told of
a loop. -/
theorem C47_forwards_used_up :
    (sends (dialog demoWorld3 { demoInvite3 with maxForwards := 4 } (List.replicate 7 .requestTimer)).s.outs).map Prod.fst =
      [b!"a:1", b!"a:1", b!"a:1"] ∧
    errors (dialog demoWorld3 { demoInvite3 with maxForwards := 4 } (List.replicate 7 .requestTimer)).s.outs =
      [.localLoop] := by
  decide +kernel

/-- `C47_no_forwards_left` applies to that call after two repetitions, when two addresses are left. -/
example : (loop demoWorld3 (List.replicate 2 .requestTimer) (start demoWorld3 { demoInvite3 with maxForwards := 4 })).c = .go ∧
    ((requests (loop demoWorld3 (List.replicate 2 .requestTimer)
      (start demoWorld3 { demoInvite3 with maxForwards := 4 })).s.outs).getLast?).map (fun x => x.2.maxForwards) = some 1 ∧
    (loop demoWorld3 (List.replicate 2 .requestTimer)
      (start demoWorld3 { demoInvite3 with maxForwards := 4 })).s.routes.length = 2 := by
  decide +kernel

end Gosip.Props
