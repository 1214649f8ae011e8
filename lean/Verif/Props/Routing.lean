import Verif.Dialog.Lemmas
import Verif.Spec.Status

/-!
# Properties C34–C39, C55: building, matching and routing messages
-/

namespace Gosip.Props
open Sip Spec Dialog

/-! ## C34 -/

theorem phraseOf_ne_nil (st : Int) : phraseOf st ≠ [] := by
  have h : ∀ p ∈ phrases, p.2 ≠ [] := by decide
  unfold phraseOf
  cases hl : phrases.lookup st with
  | none => simp
  | some v =>
    have : ∀ l : List (Int × Bytes), (∀ p ∈ l, p.2 ≠ []) → ∀ v, l.lookup st = some v → v ≠ [] := by
      intro l
      induction l with
      | nil => simp
      | cons p l ih =>
        intro hp v hv
        rw [List.lookup_cons] at hv
        split at hv
        · cases hv; exact hp p (by simp)
        · exact ih (fun q hq => hp q (by simp [hq])) v hv
    simpa using this phrases h v hl

/-- **C34.** `NewResponse` echoes the request's transaction and adds nothing but the status, a phrase,
the user agent and the list of methods. -/
theorem C34_response_echoes (req : Msg) (status : Int) : Echoes req status (newResponse req status) := by
  refine ⟨rfl, phraseOf_ne_nil _, rfl, ⟨rfl, rfl⟩, rfl, ⟨rfl, rfl⟩, rfl, ⟨rfl, rfl⟩, ⟨rfl, rfl⟩, ?_, ?_,
    ⟨rfl, rfl, rfl, rfl, rfl⟩, ⟨rfl, rfl⟩⟩
  · intro f; cases f <;> simp [newResponse]
  · intro f; cases f <;> simp [newResponse]

/-- **C34.** The phrase is the one RFC 3261 gives for the status, except for three statuses; a status the library does not
know has the phrase `Unknown Status Code`. -/
theorem C34_phrase (req : Msg) :
    (∀ x ∈ rfcPhrases, x.1 ≠ 484 → x.1 ≠ 500 → x.1 ≠ 504 → (newResponse req x.1).phrase = x.2) ∧
    (newResponse req 484).phrase = b!"Address StatusIncomplete" ∧
    (newResponse req 500).phrase = b!"Internal Server Error" ∧ (newResponse req 504).phrase = b!"Gateway Time-out" ∧
    ∀ st, st ∉ rfcPhrases.map (·.1) → st ∉ furtherCodes → (newResponse req st).phrase = b!"Unknown Status Code" := by
  have key : rfcPhrases.all (fun x => decide (x.1 = 484 ∨ x.1 = 500 ∨ x.1 = 504 ∨ phraseOf x.1 = x.2)) = true := by
    decide +kernel
  refine ⟨?_, show phraseOf 484 = _ by decide +kernel, show phraseOf 500 = _ by decide +kernel,
    show phraseOf 504 = _ by decide +kernel, ?_⟩
  · intro x hx h1 h2 h3
    have := List.all_eq_true.1 key x hx
    simp only [decide_eq_true_eq] at this
    simp only [h1, h2, h3, false_or] at this
    exact this
  · intro st h1 h2
    have none : ∀ l : List (Int × Bytes), st ∉ l.map (·.1) → l.lookup st = none := by
      intro l
      induction l with
      | nil => simp
      | cons p l ih =>
        intro h
        simp only [List.map_cons, List.mem_cons, not_or] at h
        rw [List.lookup_cons, show (st == p.1) = false from by simpa using h.1]
        exact ih h.2
    have sub : (phrases.map (·.1)).all (fun c => rfcPhrases.any (·.1 == c) || furtherCodes.contains c) = true := by
      decide +kernel
    show (phrases.lookup st).getD b!"Unknown Status Code" = _
    rw [none phrases ?_]
    · rfl
    · intro h
      have := List.all_eq_true.1 sub st h
      simp only [Bool.or_eq_true, List.any_eq_true, beq_iff_eq, List.contains_iff_mem] at this
      rcases this with ⟨x, hx, rfl⟩ | h'
      · exact h1 (List.mem_map_of_mem hx)
      · exact h2 h'

/-- **C34.** The response to a request with one Via carrying a branch is recognised as an answer to
it. -/
theorem C34_response_matches (req : Msg) (status : Int) (v : Via) (b : Bytes) (hs : 0 < status)
    (hv : req.via = [v]) (hb : ParamIs v.param b!"branch" b) (hm : req.cseqMethod = req.method) :
    responseMatch req (newResponse req status) = true := by
  rw [← paramVal_eq_some] at hb
  simp [responseMatch, newResponse, Msg.isResponse, hs, hv, hm, viaCompareHostPort, viaCompareBranch, hb]

/-- Behind a proxy (two Vias) the response does not match the request: the last Via is another one. -/
theorem C34_two_vias_do_not_match : ∃ req : Msg, req.cseqMethod = req.method ∧ req.via.length = 2 ∧
    responseMatch req (newResponse req 200) = false :=
  ⟨{ method := b!"BYE", cseqMethod := b!"BYE",
     via := [{ host := b!"p", param := [(b!"branch", b!"z9hG4bK-2")] },
             { host := b!"c", param := [(b!"branch", b!"z9hG4bK-1")] }] }, by decide +kernel⟩

example :
    let req : Msg :=
      { method := b!"BYE", cseq := 3, cseqMethod := b!"BYE",
        via := [{ host := b!"c", param := [(b!"Branch", b!"z9hG4bK-1")] }] }
    responseMatch req (newResponse req 481) = true := by
  decide +kernel

/-! ## C35 -/

/-- **C35.** The ACK of a response; it is built exactly when the response has a Contact and a Via
(otherwise the call panics). -/
theorem C35_ack (rsp invite : Msg) :
    (∀ ack, newAck rsp invite = .ok ack → Acknowledges invite rsp ack) ∧
    (newAck rsp invite = .panic ↔ rsp.addrs .contact = [] ∨ rsp.via = []) ∧
    (∀ e, newAck rsp invite ≠ .err e) := by
  unfold newAck
  cases hc : rsp.addrs .contact with
  | nil => simp [headUri]
  | cons c more =>
    cases hv : rsp.via with
    | nil => simp [headUri, viaDetach]
    | cons v vs =>
      simp only [headUri, viaDetach, Res.bind_eq, Res.bind, Res.pure_eq]
      refine ⟨?_, by simp, by simp⟩
      intro ack h
      cases h
      refine ⟨⟨rfl, rfl, rfl⟩, ⟨c, more, hc, rfl⟩, ⟨v, vs, hv, rfl⟩, ⟨rfl, rfl⟩, rfl, rfl,
        addrReversed_eq _, ⟨rfl, rfl⟩, ?_, ?_, ⟨rfl, rfl, rfl, rfl, rfl⟩, ⟨rfl, rfl⟩⟩
      · intro f; cases f <;> simp
      · intro f; cases f <;> simp

/-- **C35.** The CANCEL of an INVITE. -/
theorem C35_cancel (invite : Msg) : Cancels invite (newCancel invite) := by
  refine ⟨⟨rfl, rfl, rfl⟩, rfl, rfl, ⟨rfl, rfl⟩, rfl, rfl, rfl, ?_, ?_, ⟨rfl, rfl, rfl, rfl, rfl⟩, ⟨rfl, rfl⟩⟩
  · intro f; cases f <;> simp [newCancel]
  · intro f; cases f <;> simp [newCancel]

/-- **C35.** The BYE of a dialog has a sequence number one larger than the last local one, which becomes
the last local one; it is built exactly when the remote message has a Contact. -/
theorem C35_bye (invite remote : Msg) (lseq : Int) (h1 : 0 ≤ lseq) (h2 : lseq < 2 ^ 63 - 1) :
    (∀ bye n, newBye invite remote (some lseq) = .ok (bye, n) →
      n = lseq + 1 ∧ Byes invite remote (lseq + 1) bye) ∧
    (newBye invite remote (some lseq) = .panic ↔ remote.addrs .contact = []) ∧
    (∀ e, newBye invite remote (some lseq) ≠ .err e) := by
  have hw : wrap64 (lseq + 1) = lseq + 1 := by
    unfold wrap64; simp only [Int.bmod]; omega
  unfold newBye
  cases hc : remote.addrs .contact with
  | nil => simp [headUri]
  | cons c more =>
    simp only [headUri, Res.bind_eq, Res.bind, Res.pure_eq, Option.getD_some, hw]
    refine ⟨?_, by simp, by simp⟩
    intro bye n h
    cases h
    refine ⟨rfl, ⟨rfl, rfl, rfl⟩, ⟨c, more, hc, rfl⟩, ⟨rfl, rfl⟩, rfl, rfl, addrReversed_eq _, rfl, ?_, ?_,
      ⟨rfl, rfl, rfl, rfl, rfl⟩, ⟨rfl, rfl⟩⟩
    · intro f; cases f <;> simp
    · intro f; cases f <;> simp

example :
    let rsp : Msg :=
      { status := 200, cseq := 7, callID := b!"x", via := [{ host := b!"a" }, { host := b!"b" }],
        addrs := fun
          | .contact => [{ uri := some { host := b!"c" } }]
          | .recordRoute => [{ display := b!"1" }, { display := b!"2" }]
          | _ => [] }
    ∃ ack, newAck rsp {} = .ok ack ∧
    ack.addrs .route = [{ display := b!"2" }, { display := b!"1" }] ∧ ack.via = [{ host := b!"a" }] :=
  ⟨_, rfl, rfl, rfl⟩

/-! ## C36 -/

/-- **C36.** `ResponseMatch` holds exactly for the responses of the transaction. -/
theorem C36_response_match (req rsp : Msg) : responseMatch req rsp = true ↔ Answers req rsp := by
  unfold responseMatch Answers Msg.isResponse
  simp only [Bool.and_eq_true, beq_iff_eq, decide_eq_true_eq, gt_iff_lt, and_assoc]
  refine and_congr_right fun _ => and_congr_right fun _ => and_congr_right fun _ => ?_
  constructor
  · rintro ⟨h1, h2⟩
    cases hl : rsp.via.getLast? with
    | none => simp [hl, viaCompareHostPort] at h1
    | some mine =>
      cases hr : req.via with
      | nil => simp [hl, hr, viaCompareHostPort] at h1
      | cons sent older =>
        simp only [hl, hr, viaCompareHostPort, viaCompareBranch, List.head?_cons, Bool.and_eq_true,
          beq_iff_eq] at h1 h2
        refine ⟨_, mine, sent, older, snoc_of_getLast? hl, rfl, h1.1, h1.2, ?_⟩
        split at h2
        · rename_i x y hx hy
          simp only [beq_iff_eq] at h2
          subst h2
          exact ⟨x, paramVal_eq_some.1 hx, paramVal_eq_some.1 hy⟩
        · cases h2
  · rintro ⟨more, mine, sent, older, h1, h2, h3, h4, b, h5, h6⟩
    rw [← paramVal_eq_some] at h5 h6
    simp [h1, h2, viaCompareHostPort, viaCompareBranch, h3, h4, h5, h6]

/-- **C36.** `Via.CompareBranch` holds exactly for two Vias with the same branch parameter; a Via that is missing is the
same as none. -/
theorem C36_same_branch (a b : Option Via) : viaCompareBranch a b = true ↔
    ∃ x y branch, a = some x ∧ b = some y ∧ ParamIs x.param b!"branch" branch ∧ ParamIs y.param b!"branch" branch := by
  cases a with
  | none => simp [viaCompareBranch]
  | some x =>
    cases b with
    | none => simp [viaCompareBranch]
    | some y =>
      simp only [viaCompareBranch, Option.some.injEq]
      constructor
      · intro h
        split at h
        · rename_i u v hu hv
          simp only [beq_iff_eq] at h
          subst h
          exact ⟨x, y, u, rfl, rfl, paramVal_eq_some.1 hu, paramVal_eq_some.1 hv⟩
        · cases h
      · rintro ⟨_, _, u, rfl, rfl, h1, h2⟩
        simp [paramVal_eq_some.2 h1, paramVal_eq_some.2 h2]

/-- **C36.** `Via.CompareHostPort` and `Addr.CompareHostPort` never hold of something that is missing;
`Via.CompareHostPort` compares host and port as they are written. -/
theorem C36_same_host_port (a b : Option Via) (x y : Option Addr) :
    (viaCompareHostPort a b = true ↔ ∃ u v, a = some u ∧ b = some v ∧ u.host = v.host ∧ u.port = v.port) ∧
    (addrCompareHostPort x y = true ↔ ∃ u v, x = some u ∧ y = some v ∧ compareHostPort u.uri v.uri = true) := by
  constructor
  · cases a <;> cases b <;> simp [viaCompareHostPort]
  · cases x <;> cases y <;> simp [addrCompareHostPort]

/-- **C36.** `AckMatch` holds exactly for the acknowledgements of a message, whatever branch they have. -/
theorem C36_ack_match (msg ack : Msg) : ackMatch msg ack = true ↔ AckOf msg ack := by
  unfold ackMatch AckOf Msg.isResponse
  simp only [Bool.and_eq_true, beq_iff_eq, Bool.not_eq_true', decide_eq_false_iff_not, gt_iff_lt, Int.not_lt, and_assoc]
  refine and_congr_right fun _ => and_congr_right fun _ => ?_
  constructor
  · rintro ⟨h0, h0', h1⟩
    refine ⟨h0', h0, ?_⟩
    cases hl : ack.via.getLast? with
    | none => simp [hl, viaCompareHostPort] at h1
    | some mine =>
      cases hr : msg.via with
      | nil => simp [hl, hr, viaCompareHostPort] at h1
      | cons sent older =>
        simp only [hl, hr, viaCompareHostPort, List.head?_cons, Bool.and_eq_true, beq_iff_eq] at h1
        exact ⟨_, mine, sent, older, snoc_of_getLast? hl, rfl, h1.1, h1.2⟩
  · rintro ⟨h0, h0', more, mine, sent, older, h1, h2, h3, h4⟩
    exact ⟨h0', h0, by simp [h1, h2, viaCompareHostPort, h3, h4]⟩

/-- The ACK that `NewAck` builds for the response to a request with one Via matches that request; one of another
transaction does not. -/
example :
    let inv : Msg := { method := b!"INVITE", cseq := 4, via := [{ host := b!"a", port := 5 }] }
    let rsp : Msg := { newResponse inv 200 with addrs := fun | .contact => [{ uri := some { host := b!"c" } }] | _ => [] }
    ∃ ack, newAck rsp inv = .ok ack ∧ ackMatch inv ack = true ∧ ackMatch { inv with cseq := 5 } ack = false :=
  ⟨_, rfl, by decide +kernel⟩

/-- The request of the transaction and a response that came back through a proxy; a response with
another branch does not match. -/
example :
    responseMatch { method := b!"INVITE", cseq := 1, via := [{ host := b!"a", port := 5, param := [(b!"branch", b!"x")] }] }
      { status := 180, cseq := 1, cseqMethod := b!"INVITE", via := [{ host := b!"p" },
        { host := b!"a", port := 5, param := [(b!"received", b!"b"), (b!"BRANCH", b!"x")] }] } = true ∧
    responseMatch { method := b!"INVITE", cseq := 1, via := [{ host := b!"a", port := 5, param := [(b!"branch", b!"x")] }] }
      { status := 180, cseq := 1, cseqMethod := b!"INVITE",
        via := [{ host := b!"a", port := 5, param := [(b!"branch", b!"y")] }] } = false := by decide +kernel

/-! ## C37 -/

theorem popRoute_spec (contact : Option Addr) (l : List Addr) :
    ForeignRoute contact l (popRoute contact l) := by
  unfold popRoute ForeignRoute
  cases contact with
  | none => right; exact ⟨by simp, by simp [addrCompareHostPort]⟩
  | some c =>
    cases l with
    | nil => right; exact ⟨by simp, by simp [addrCompareHostPort]⟩
    | cons a l =>
      by_cases h : SameHost c a
      · left
        refine ⟨c, a, rfl, h, ?_⟩
        simp [addrCompareHostPort, (compareHostPort_iff c a).2 h]
      · right
        refine ⟨?_, ?_⟩
        · rintro _ _ _ ⟨⟩ ⟨⟩; exact h
        · have : compareHostPort c.uri a.uri = false := by
            rw [← Bool.not_eq_true, compareHostPort_iff]; exact h
          simp [addrCompareHostPort, this]

/-- **C37.** Routing a request with a request URI and URIs in its route set: with a foreign route set,
REGISTER is refused; otherwise the next hop and the message sent are those of RFC 3261. Nothing but the
request URI and the route set is changed. -/
theorem C37_request_routing (via : Option Via) (contact : Option Addr) (msg : Msg)
    (hreq : msg.isResponse = false) (hr : msg.request ≠ none)
    (hu : ∀ a ∈ msg.addrs .route, a.uri ≠ none) :
    ∃ route, ForeignRoute contact (msg.addrs .route) route ∧
      (if msg.method = b!"REGISTER" ∧ route ≠ [] then
        (routeMessage via contact msg).2 = .err .registerRouted
      else ∃ uri sent hop, NextHop msg route uri sent hop ∧
        routeMessage via contact msg =
          ({ msg with request := uri, addrs := setAt msg.addrs .route sent }, .ok hop)) := by
  have hf := popRoute_spec contact (msg.addrs .route)
  refine ⟨_, hf, ?_⟩
  unfold routeMessage
  simp only [hreq, Bool.false_eq_true, if_false]
  cases hp : popRoute contact (msg.addrs .route) with
  | nil =>
    simp only [ne_eq, not_true_eq_false, and_false, if_false]
    cases hq : msg.request with
    | none => exact absurd hq hr
    | some u => exact ⟨_, _, _, NextHop.direct hq, by simp [uriHop]⟩
  | cons r rest =>
    simp only
    by_cases hm : msg.method = b!"REGISTER"
    · simp [hm]
    · simp only [hm, false_and, if_false]
      have hmem : r ∈ msg.addrs .route := by
        rcases hf with ⟨c, a, _, _, h⟩ | ⟨_, h⟩
        · rw [h, hp]; simp
        · rw [← h, hp]; simp
      cases hru : r.uri with
      | none => exact absurd hru (hu r hmem)
      | some u =>
        simp only
        by_cases hlr : (u.param.get b!"lr").isSome = true
        · simp only [hlr, if_true]
          exact ⟨_, _, _, NextHop.loose hru (get_isSome.1 hlr), rfl⟩
        · simp only [hlr, if_false, Bool.false_eq_true]
          refine ⟨_, _, _, NextHop.strict hru (fun h => hlr (get_isSome.2 h)), ?_⟩
          rw [addrCopy_eq]
          congr 2
          funext x
          by_cases hx : x = .route <;> simp [setAt, hx]

/-- The specification determines the outcome. -/
theorem C37_next_hop_unique {req : Msg} {l : List Addr} {u u' : Option URI} {s s' : List Addr}
    {h h' : Bytes × UInt16} (h1 : NextHop req l u s h) (h2 : NextHop req l u' s' h') :
    u = u' ∧ s = s' ∧ h = h' := by
  cases h1 with
  | direct e1 => cases h2 with | direct e2 => rw [e1] at e2; cases e2; exact ⟨rfl, rfl, rfl⟩
  | loose e1 l1 => cases h2 with
    | loose e2 l2 => rw [e1] at e2; cases e2; exact ⟨rfl, rfl, rfl⟩
    | strict e2 l2 => rw [e1] at e2; cases e2; exact absurd l1 l2
  | strict e1 l1 => cases h2 with
    | loose e2 l2 => rw [e1] at e2; cases e2; exact absurd l2 l1
    | strict e2 l2 => rw [e1] at e2; cases e2; exact ⟨rfl, rfl, rfl⟩

/-- Loose and strict routing, after our own entry is removed. -/
example :
    (routeMessage none (some { uri := some { host := b!"me" } })
      { method := b!"BYE", request := some { host := b!"t" },
        addrs := fun
          | .route => [{ uri := some { host := b!"me", port := 5060 } }, { uri := some { host := b!"p", port := 9, param := [(b!"lr", [])] } }]
          | _ => [] }).2 = .ok (b!"p", 9) ∧
    ((routeMessage none none
      { method := b!"BYE", request := some { host := b!"t" },
        addrs := fun
          | .route => [{ uri := some { host := b!"s" } }, { display := b!"D", uri := some { host := b!"q" } }]
          | _ => [] }).1.addrs .route) = [{ uri := some { host := b!"q" } }, { uri := some { host := b!"t" } }] := by
  decide +kernel

/-- The port used for the route set entry of another scheme is compared with its default. -/
example : SameHost { uri := some { scheme := b!"sips", host := b!"h" } } { uri := some { host := b!"h", port := 5061 } } :=
  ⟨_, _, rfl, rfl, rfl, rfl⟩

/-! ## C38 -/

theorem popVia_spec (via : Option Via) (l : List Via) : ForeignVia via l (popVia via l) := by
  unfold popVia ForeignVia OwnVia
  cases via with
  | none => right; exact ⟨by simp, by simp [viaCompareHostPort]⟩
  | some w =>
    cases l with
    | nil => right; exact ⟨by simp, by simp [viaCompareHostPort]⟩
    | cons v l =>
      by_cases h : w.host = v.host ∧ w.port = v.port
      · left
        exact ⟨v, ⟨w, rfl, h.1, h.2⟩, by simp [viaCompareHostPort, h.1, h.2]⟩
      · right
        refine ⟨?_, ?_⟩
        · rintro _ _ ⟨⟩ ⟨_, ⟨⟩, h1, h2⟩; exact h ⟨h1, h2⟩
        · have : (w.host == v.host && w.port == v.port) = false := by
            rw [← Bool.not_eq_true]; simp; exact fun a b => h ⟨a, b⟩
          simp [viaCompareHostPort, this]

theorem responseHop_ok {v : Via} {l : List Via} {host : Bytes} {port : UInt16}
    (h : responseHop (v :: l) = .ok (host, port)) : ResponseHop v host port := by
  simp only [responseHop, Res.bind_eq] at h
  unfold rportOf at h
  have hrec : ParamOr v.param b!"received" v.host ((paramVal v.param b!"received").getD v.host) := by
    cases hp : paramVal v.param b!"received" with
    | none => exact .inr ⟨paramVal_eq_none.1 hp, rfl⟩
    | some x => exact .inl (paramVal_eq_some.1 hp)
  cases hq : paramVal v.param b!"rport" with
  | none =>
    rw [hq] at h; simp only [Res.bind, Res.pure_eq] at h; cases h
    exact ⟨hrec, .inr ⟨.inl (paramVal_eq_none.1 hq), rfl⟩⟩
  | some s =>
    rw [hq] at h
    simp only at h
    split at h
    · rename_i hs
      simp only [Res.bind, Res.pure_eq] at h; cases h
      subst hs; exact ⟨hrec, .inr ⟨.inr (paramVal_eq_some.1 hq), rfl⟩⟩
    · split at h
      · cases h
      · rename_i i hi
        simp only [Res.bind, Res.pure_eq] at h; cases h
        have := (atoi_iff s i).1 hi
        exact ⟨hrec, .inl ⟨s, i, paramVal_eq_some.1 hq, this.1, this.2.1, this.2.2, rfl⟩⟩

/-- **C38.** Routing a response: our own top Via is removed, nothing else is changed; the next hop comes
from the then top Via; a malformed `rport` is reported; when no Via remains the call panics. -/
theorem C38_response_routing (via : Option Via) (contact : Option Addr) (msg : Msg)
    (hrsp : msg.isResponse = true) :
    ∃ vias, ForeignVia via msg.via vias ∧
      (routeMessage via contact msg).1 = { msg with via := vias } ∧
      match vias with
      | [] => (routeMessage via contact msg).2 = .panic
      | v :: _ =>
        (∃ host port, (routeMessage via contact msg).2 = .ok (host, port) ∧ ResponseHop v host port) ∨
        (∃ s, (routeMessage via contact msg).2 = .err (.badRport s) ∧ ParamIs v.param b!"rport" s ∧ s ≠ [] ∧
          ¬ ∃ i, IntText s i ∧ -2 ^ 63 ≤ i ∧ i < 2 ^ 63) := by
  refine ⟨popVia via msg.via, popVia_spec _ _, by simp [routeMessage, hrsp], ?_⟩
  simp only [routeMessage, hrsp, if_true]
  cases hp : popVia via msg.via with
  | nil => rfl
  | cons v l =>
    simp only
    cases hr : responseHop (v :: l) with
    | ok x => exact .inl ⟨x.1, x.2, rfl, responseHop_ok hr⟩
    | err e =>
      right
      simp only [responseHop, Res.bind_eq] at hr
      unfold rportOf at hr
      split at hr
      · simp [Res.bind] at hr
      · rename_i s hs
        split at hr
        · simp [Res.bind] at hr
        · rename_i hne
          split at hr
          · rename_i ha
            simp only [Res.bind, Res.err.injEq] at hr
            subst hr
            refine ⟨s, rfl, paramVal_eq_some.1 hs, hne, ?_⟩
            rintro ⟨i, hi⟩
            rw [(atoi_iff s i).2 hi] at ha; cases ha
          · simp [Res.bind] at hr
    | panic =>
      exfalso
      simp only [responseHop, Res.bind_eq] at hr
      unfold rportOf at hr
      split at hr
      · simp [Res.bind] at hr
      · split at hr
        · simp [Res.bind] at hr
        · split at hr <;> simp [Res.bind] at hr

/-- The specification determines the next hop. -/
theorem C38_hop_unique {v : Via} {h h' : Bytes} {p p' : UInt16} (h1 : ResponseHop v h p)
    (h2 : ResponseHop v h' p') : h = h' ∧ p = p' := by
  obtain ⟨a1, a2⟩ := h1
  obtain ⟨b1, b2⟩ := h2
  constructor
  · rcases a1 with a | ⟨a, rfl⟩ <;> rcases b1 with b | ⟨b, rfl⟩
    · exact paramIs_unique a b
    · exact absurd b (paramIs_not_noParam a)
    · exact absurd a (paramIs_not_noParam b)
    · rfl
  · have key : ∀ s i, ParamIs v.param b!"rport" s → IntText s i →
        (NoParam v.param b!"rport" ∨ ParamIs v.param b!"rport" []) → False := by
      intro s i hs hi h
      rcases h with h | h
      · exact paramIs_not_noParam hs h
      · have := paramIs_unique hs h; subst this
        generalize hx : ([] : Bytes) = t at hi
        cases hi with
        | plain h => exact h hx.symm
        | plus => simp at hx
        | minus => simp at hx
    rcases a2 with ⟨s, i, a3, a4, a5, a6, rfl⟩ | ⟨a3, rfl⟩ <;>
      rcases b2 with ⟨t, j, b3, b4, b5, b6, rfl⟩ | ⟨b3, rfl⟩
    · have := paramIs_unique a3 b3; subst this
      have e1 := (atoi_iff s i).2 ⟨a4, a5, a6⟩
      have e2 := (atoi_iff s j).2 ⟨b4, b5, b6⟩
      rw [e1] at e2; cases e2; rfl
    · exact (key s i a3 a4 b3).elim
    · exact (key t j b3 b4 a3).elim
    · rfl

/-- Our Via is removed, `received` and `rport` override; an `rport` above 65535 is taken modulo
65536. -/
example :
    routeMessage (some { host := b!"me", port := 1 }) none
      { status := 200, via := [{ host := b!"me", port := 1 }, { host := b!"h", port := 2, param :=
          [(b!"rport", b!"70000"), (b!"received", b!"1.2.3.4")] }] } =
      ({ status := 200, via := [{ host := b!"h", port := 2, param :=
          [(b!"rport", b!"70000"), (b!"received", b!"1.2.3.4")] }] }, .ok (b!"1.2.3.4", 4464)) ∧
    (routeMessage none none { status := 200, via := [{ host := b!"h", param := [(b!"rport", b!"x")] }] }).2 =
      .err (.badRport b!"x") := by
  decide +kernel

/-! ## C39 -/

/-- What a strict router does with a request (RFC 2543): the first route becomes the request URI. -/
def strictForward (m : Msg) : Msg :=
  match m.addrs .route with
  | [] => m
  | a :: l => { m with request := a.uri, addrs := setAt m.addrs .route l }

/-- **C39.** A request whose request URI is ourselves, marked `lr`, with a route set: the last route
becomes the request URI again and is removed; the rest of the route set and everything else is
unchanged. Any other request is left alone. -/
theorem C39_strict_undone (lhost : Bytes) (lport : UInt16) (m : Msg) :
    (∀ u rest last, m.request = some u → LooseRoute u → u.host = lhost → or5060 u.port = lport →
      m.addrs .route = rest ++ [last] →
      fixStrict lhost lport m = { m with request := last.uri, addrs := setAt m.addrs .route rest }) ∧
    ((∀ u, m.request = some u → ¬ (LooseRoute u ∧ u.host = lhost ∧ or5060 u.port = lport)) →
      fixStrict lhost lport m = m) ∧
    (m.addrs .route = [] → fixStrict lhost lport m = m) := by
  refine ⟨?_, ?_, ?_⟩
  · intro u rest last h1 h2 h3 h4 h5
    simp [fixStrict, h1, h5, strictlyHere, get_isSome.2 h2, h3, h4]
  · intro h
    unfold fixStrict
    split
    · rename_i u a hu ha
      split
      · rename_i hs
        simp only [strictlyHere, Bool.and_eq_true, beq_iff_eq] at hs
        exact absurd ⟨get_isSome.1 hs.1.1, hs.1.2, hs.2⟩ (h u hu)
      · rfl
    · rfl
  · intro h; simp [fixStrict, h]

/-- **C39.** End to end: a request with the route set `strict, us, rest…` is sent by this library,
forwarded by the strict router, and received by us: the request URI is the original one and the route
set is `rest` (without display names). We must not also be the next entry, which is removed first. -/
theorem C39_round_trip (via : Option Via) (msg : Msg) (s us : Addr) (rest : List Addr) (su uu orig : URI)
    (lhost : Bytes) (lport : UInt16)
    (hreq : msg.isResponse = false) (hmeth : msg.method ≠ b!"REGISTER") (hr : msg.request = some orig)
    (hroute : msg.addrs .route = s :: us :: rest) (hs : s.uri = some su) (hus : us.uri = some uu)
    (hstrict : ¬ LooseRoute su) (hloose : LooseRoute uu) (hh : uu.host = lhost) (hp : or5060 uu.port = lport)
    (hnext : ∀ a l, rest ++ [{ uri := some orig }] = a :: l → ∀ u, a.uri = some u →
      ¬ (u.host = lhost ∧ or5060 u.port = lport))
    (huris : ∀ a ∈ rest, a.uri ≠ none) :
    let sent := (routeMessage via none msg).1
    let got := (popSelf lhost lport (strictForward sent)).bind fun m => .ok (fixStrict lhost lport m)
    (routeMessage via none msg).2 = .ok (su.host, su.port) ∧
    ∃ m, got = .ok m ∧ m.request = some orig ∧ m.addrs .route = rest.map bare := by
  have hlr : (su.param.get b!"lr").isSome = false := by
    rw [← Bool.not_eq_true, get_isSome]; exact hstrict
  have e1 : routeMessage via none msg =
      ({ msg with
          request := some su,
          addrs := setAt (setAt msg.addrs .route (msg.addrs .route)) .route
            (addrCopy (us :: rest) ++ [{ uri := some orig }]) }, .ok (su.host, su.port)) := by
    simp [routeMessage, hreq, popRoute, addrCompareHostPort, hroute, hmeth, hs, hlr, hr]
  refine ⟨by rw [e1], ?_⟩
  simp only [e1]
  have e2 : strictForward { msg with
        request := some su,
        addrs := setAt (setAt msg.addrs .route (msg.addrs .route)) .route
          (addrCopy (us :: rest) ++ [{ uri := some orig }]) } =
      { msg with
        request := some uu,
        addrs := setAt (setAt (setAt msg.addrs .route (msg.addrs .route)) .route
          (addrCopy (us :: rest) ++ [{ uri := some orig }])) .route
            (rest.map bare ++ [{ uri := some orig }]) } := by
    simp [strictForward, addrCopy_eq, bare, hus]
  rw [e2]
  have e3 : ∀ m : Msg, m.addrs .route = rest.map bare ++ [{ uri := some orig }] →
      popSelf lhost lport m = .ok m := by
    intro m hm
    unfold popSelf
    cases hrest : rest with
    | nil =>
      rw [hm, hrest]
      have := hnext { uri := some orig } [] (by simp [hrest]) orig rfl
      have hb : (orig.host == lhost && or5060 orig.port == lport) = false := by
        rw [← Bool.not_eq_true]; simpa using this
      simp [routeIsSelf, hb, Res.bind]
    | cons a l =>
      rw [hm, hrest]
      cases hau : a.uri with
      | none => exact absurd hau (huris a (by simp [hrest]))
      | some u =>
        have := hnext a (l ++ [{ uri := some orig }]) (by simp [hrest]) u hau
        have hb : (u.host == lhost && or5060 u.port == lport) = false := by
          rw [← Bool.not_eq_true]; simpa using this
        simp [routeIsSelf, bare, hau, hb, Res.bind]
  rw [e3 _ (by simp)]
  simp only [Res.bind]
  refine ⟨_, rfl, ?_⟩
  rw [(C39_strict_undone lhost lport _).1 uu (rest.map bare) { uri := some orig } rfl hloose hh hp (by simp)]
  simp

example : fixStrict b!"1.2.3.4" 5060
    { request := some { host := b!"1.2.3.4", param := [(b!"lr", [])] },
      addrs := fun
        | .route => [{ uri := some { host := b!"p" } }, { uri := some { host := b!"t" } }]
        | _ => [] } =
    { request := some { host := b!"t" },
      addrs := fun
        | .route => [{ uri := some { host := b!"p" } }]
        | _ => [] } := by decide +kernel

/-! ## C55 -/

theorem srvRoutes_eq (l : List (Bytes × UInt16)) (acc : List Bytes) :
    srvRoutes l acc = (l.map fun s => joinHostPort s.1 (portstr s.2)).reverse ++ acc := by
  induction l generalizing acc with
  | nil => rfl
  | cons s l ih => simp [srvRoutes, ih]

/-- **C55.** An IP address is used as it is, with the default port 5060, without any query. A name
without port, when SRV records are wanted and there are some, gives one address per record in the order
of the answer, after that one query. Anything else is resolved directly, with the default port 5060. -/
theorem C55_route_address (r : Resolver) (host : Bytes) (port : UInt16) (wantSRV : Bool) :
    (r.isIP host = true → routeAddress r host port wantSRV =
      ([], .ok [joinHostPort host (natDec (if port = 0 then 5060 else port.toNat))])) ∧
    (∀ records, r.isIP host = false → port = 0 → wantSRV = true → r.srv host = some records → records ≠ [] →
      routeAddress r host port wantSRV =
        ([.srv host], .ok (records.map fun s => joinHostPort s.1 (natDec s.2.toNat)))) ∧
    (r.isIP host = false → ¬ (port = 0 ∧ wantSRV = true ∧ ∃ s l, r.srv host = some (s :: l)) →
      ∃ a, a = joinHostPort host (natDec (if port = 0 then 5060 else port.toNat)) ∧
      (∀ q ∈ (routeAddress r host port wantSRV).1, q = .resolve a ∨ port = 0 ∧ wantSRV = true ∧ q = .srv host) ∧
      (∀ t, r.resolve a = .ok t → (routeAddress r host port wantSRV).2 = .ok [t]) ∧
      (∀ e, r.resolve a = .error e → (routeAddress r host port wantSRV).2 = .err (.net e))) := by
  refine ⟨?_, ?_, ?_⟩
  · intro h
    simp only [routeAddress, h, if_true]
    by_cases hp : port = 0 <;> simp [or5060, portstr, hp]
  · intro records h hp hw hr hne
    cases records with
    | nil => exact absurd rfl hne
    | cons s l =>
      simp only [routeAddress, h, hp, hw, hr, if_true, Bool.false_eq_true, if_false]
      rw [srvRoutes_eq]
      simp [portstr]
  · intro h hn
    refine ⟨_, rfl, ?_⟩
    by_cases hp : port = 0
    · subst hp
      cases hw : wantSRV with
      | false =>
        simp only [routeAddress, h, Bool.false_eq_true, if_false, resolveOne, portstr, if_true]
        simp only [show (5060 : UInt16).toNat = 5060 from rfl]
        refine ⟨by simp, ?_, ?_⟩ <;> intro x hx <;> simp [hx]
      | true =>
        have hs : ∀ s l, r.srv host ≠ some (s :: l) := fun s l hl => hn ⟨rfl, hw, s, l, hl⟩
        have he : routeAddress r host 0 true =
            ((.srv host) :: (resolveOne r host 5060).1, (resolveOne r host 5060).2) := by
          simp only [routeAddress, h, Bool.false_eq_true, if_false, if_true]
        rw [he]
        simp only [resolveOne, portstr, if_true, show (5060 : UInt16).toNat = 5060 from rfl]
        refine ⟨by simp, ?_, ?_⟩ <;> intro x hx <;> simp [hx]
    · simp only [routeAddress, h, Bool.false_eq_true, if_false, resolveOne, portstr, hp]
      refine ⟨by simp, ?_, ?_⟩ <;> intro x hx <;> simp [hx]

/-- Two records, in order; an IPv6 address with the default port. -/
example (resolve : Bytes → Except Nat Bytes) :
    routeAddress ⟨fun _ => false, fun _ => some [(b!"a.", 1), (b!"b.", 2)], resolve⟩ b!"x" 0 true =
      ([.srv b!"x"], .ok [b!"a.:1", b!"b.:2"]) ∧
    routeAddress ⟨fun _ => true, fun _ => none, resolve⟩ b!"::1" 0 true = ([], .ok [b!"[::1]:5060"]) := by
  exact ⟨rfl, rfl⟩

end Gosip.Props
