import Verif.Dialog.From

/-!
# What the requests of a dialog take over from the INVITE given by the application
-/

namespace Gosip.Dialog
open Sip Spec

theorem withTag_refl (l : List Addr) : WithTag l l := .inl rfl

theorem withTag_trans {a b c : List Addr} (h : WithTag a b) (k : WithTag b c) : WithTag a c := by
  rcases h with rfl | ⟨x, l, t, rfl, hx, rfl⟩
  · exact k
  · rcases k with rfl | ⟨y, l', t', he, hy, rfl⟩
    · exact .inr ⟨x, l, t, rfl, hx, rfl⟩
    · cases he
      exact absurd hy (paramIs_not_noParam (paramIs_cons rfl) ·)

theorem carries_refl (i : Msg) : Carries i i :=
  ⟨fun _ => .inl rfl, fun _ => rfl, fun _ => rfl, fun _ => rfl, fun _ => rfl, fun _ _ _ _ _ => rfl, fun _ _ => rfl, rfl⟩

theorem carries_via {i m : Msg} (h : Carries i m) (v : List Via) (n : Int) :
    Carries i { m with maxForwards := n, via := v } := by
  refine ⟨h.caller, h.callee, h.callID, h.cseq, h.cseqMethod, h.addrs, h.hdr, ?_⟩
  have := h.rest
  dsimp only at this ⊢
  rw [this]

theorem carries_sentAs {i m m' : Msg} (h : Carries i m) (k : SentAs m m') : Carries i m' := by
  obtain ⟨v, rfl⟩ := k.only; exact carries_via h v _

theorem carries_core {i m m' : Msg} (h : Carries i m) (k : Core m m') : Carries i m' := by
  obtain ⟨v, rfl⟩ := k.only; exact carries_via h v _

theorem withTag_ne {l l' : List Addr} (h : WithTag l l') (hl : l ≠ []) : l' ≠ [] := by
  rcases h with rfl | ⟨_, _, _, _, _, rfl⟩
  · exact hl
  · simp

theorem carries_populated {ids : Ids} {i m m' : Msg} {u : Option URI} {a : AField → List Addr} (h : Carries i m)
    (ha : ∀ f, f ≠ .route → a f = m.addrs f) (k : Populated ids { m with request := u, addrs := a } m') :
    Carries i m' := by
  constructor
  · intro hf
    have h1 := h.caller hf
    have h2 : a .from = m.addrs .from := ha _ (by decide)
    have h3 := k.given (by show a .from ≠ []; rw [h2]; exact withTag_ne h1 hf)
    change WithTag (a .from) _ at h3
    rw [h2] at h3
    exact withTag_trans h1 h3
  · intro ht
    have h2 : a .to = m.addrs .to := ha _ (by decide)
    have h3 := k.to (by show a .to ≠ []; rw [h2, h.callee ht]; exact ht)
    rw [h3]; show a .to = _; rw [h2, h.callee ht]
  · intro hc
    rw [k.callID]
    show (if m.callID = [] then _ else m.callID) = _
    rw [h.callID hc, if_neg hc]
  · intro hc
    rw [k.cseq]
    show (if m.cseq = 0 then _ else m.cseq) = _
    rw [h.cseq hc, if_neg hc]
  · intro hc
    rw [k.cseqMethod (by show m.cseqMethod ≠ []; rw [h.cseqMethod hc]; exact hc)]
    exact h.cseqMethod hc
  · intro f h1 h2 h3 h4
    rw [k.other f h3 h2 h1]
    show a f = _
    rw [ha f h4, h.addrs f h1 h2 h3 h4]
  · intro f hf
    have e := h.hdr f hf
    rw [k.hdr f (by
      show _ ∨ m.hdr f ≠ []
      rw [e]; exact hf)]
    exact e
  · have e1 := h.rest
    have e2 := k.rest
    dsimp only at e1 e2 ⊢
    rw [e2, e1]

/-- The INVITE of the dialog, and every INVITE sent, carry what was given. -/
structure Carried (i : Msg) (r : Run) : Prop where
  sent : ∀ x ∈ own r.s.outs, x.2.method = b!"INVITE" → Carries i x.2
  live : r.c = .go → Carries i r.s.invite ∧ isOwn r.s.invite = true ∧ ∀ m, r.s.cur = some m → isOwn m = true
  other : r.c = .go → ∀ m, r.s.req = .other m → m.method = b!"INVITE" → Carries i m

theorem carried_act {w : World} {i : Msg} (s : St) (r : Run) (h : Carried i ⟨s, .go⟩) (a : Act w s r) : Carried i r := by
  obtain ⟨c1, l1, l2⟩ := h.live rfl
  have e := effect_act w s r l1 l2 a
  have hlive : r.c = .go → isOwn r.s.invite = true ∧ ∀ m, r.s.cur = some m → isOwn m = true :=
    fun hg => alive_act l1 l2 a hg
  cases e with
  | quiet e1 e2 e3 =>
    refine ⟨by rw [e1]; exact h.sent, fun hg => ⟨carries_core c1 (e3 hg).1, hlive hg⟩, fun hg => ?_⟩
    rw [(e3 hg).2.1]; exact h.other rfl
  | @resend m m' d inv e1 e2 e3 e4 e5 e6 e7 =>
    have hm : m'.method = b!"INVITE" → Carries i m' := by
      intro hm'
      refine carries_sentAs ?_ e3
      rcases e5 with ⟨_, _, rfl⟩ | ⟨_, k⟩
      · exact c1
      · exact h.other rfl m k (by rw [← e3.method]; exact hm')
    refine ⟨?_, fun hg => ⟨?_, hlive hg⟩, fun hg => ?_⟩
    · rw [e1]; intro x hx
      simp only [List.mem_append, List.mem_singleton] at hx
      rcases hx with hx | rfl
      · exact h.sent x hx
      · exact hm
    · obtain ⟨_, _, hk⟩ := e7 hg
      rcases hk with ⟨hi, _, k⟩ | ⟨_, _, k⟩
      · rw [k]
        rcases e5 with ⟨_, _, rfl⟩ | ⟨k2, _⟩
        · exact carries_sentAs c1 e3
        · rw [hi] at k2; cases k2
      · rw [k]; exact c1
    · obtain ⟨_, _, hk⟩ := e7 hg
      rcases hk with ⟨_, k0, k⟩ | ⟨_, k0, k⟩
      · rw [k0]; intro y hy; cases hy
      · rw [k0]; intro y hy; cases hy; exact hm
  | @attempt m0 m2 m' d n l inv e1 e2 e3 e4 e5 e6 e7 e8 =>
    have hinv : inv = true → Carries i m' := by
      intro hi
      refine carries_sentAs ?_ e6
      cases e4 with
      | invite u a ha => exact carries_populated c1 ha e5
      | other => cases hi
      | bye => cases hi
    have hm : m'.method = b!"INVITE" → Carries i m' := by
      intro hm'
      have hm0 : m0.method = b!"INVITE" := by rw [← e5.method, ← e6.method]; exact hm'
      refine carries_sentAs ?_ e6
      cases e4 with
      | invite u a ha => exact carries_populated c1 ha e5
      | other hr => exact carries_populated (u := m0.request) (a := m0.addrs) (h.other rfl _ hr hm0) (fun _ _ => rfl) e5
      | bye _ _ h3 =>
        rename_i remote b _ _
        obtain ⟨u, a, hr, _⟩ := route_none b
        rw [hr] at hm0
        simp only [newBye, Res.bind_eq, Res.bind_ok_iff] at h3
        obtain ⟨u, _, h3⟩ := h3
        cases h3
        exact absurd (show (b!"BYE" : Bytes) = b!"INVITE" from hm0) (by decide)
    refine ⟨?_, fun hg => ⟨?_, hlive hg⟩, fun hg => ?_⟩
    · rw [e1]; intro x hx
      simp only [List.mem_append, List.mem_singleton] at hx
      rcases hx with hx | rfl
      · exact h.sent x hx
      · exact hm
    · obtain ⟨_, _, hk⟩ := e8 hg
      rcases hk with ⟨hi, _, k⟩ | ⟨_, _, k⟩
      · rw [k]; exact hinv hi
      · rw [k]; exact c1
    · obtain ⟨_, _, hk⟩ := e8 hg
      rcases hk with ⟨_, k0, k⟩ | ⟨_, k0, k⟩
      · rw [k0]; intro y hy; cases hy
      · rw [k0]; intro y hy; cases hy; exact hm

/-- Every request names the caller given. -/
structure Caller (l : List Addr) (r : Run) : Prop where
  sent : ∀ x ∈ own r.s.outs, WithTag l (x.2.addrs .from)
  live : r.c = .go → WithTag l (r.s.invite.addrs .from) ∧ isOwn r.s.invite = true ∧ ∀ m, r.s.cur = some m → isOwn m = true
  other : r.c = .go → ∀ m, r.s.req = .other m → WithTag l (m.addrs .from)

theorem caller_act {w : World} {l : List Addr} (hl : l ≠ []) (s : St) (r : Run) (h : Caller l ⟨s, .go⟩) (a : Act w s r) :
    Caller l r := by
  obtain ⟨c1, l1, l2⟩ := h.live rfl
  have e := effect_act w s r l1 l2 a
  have hlive : r.c = .go → isOwn r.s.invite = true ∧ ∀ m, r.s.cur = some m → isOwn m = true :=
    fun hg => alive_act l1 l2 a hg
  cases e with
  | quiet e1 e2 e3 =>
    refine ⟨by rw [e1]; exact h.sent, fun hg => ⟨by rw [(e3 hg).1.addrs]; exact c1, hlive hg⟩, fun hg => ?_⟩
    rw [(e3 hg).2.1]; exact h.other rfl
  | @resend m m' d inv e1 e2 e3 e4 e5 e6 e7 =>
    have hm : WithTag l (m'.addrs .from) := by
      rw [e3.addrs]
      rcases e5 with ⟨_, _, rfl⟩ | ⟨_, k⟩
      · exact c1
      · exact h.other rfl m k
    refine ⟨?_, fun hg => ⟨?_, hlive hg⟩, fun hg => ?_⟩
    · rw [e1]; intro x hx
      simp only [List.mem_append, List.mem_singleton] at hx
      rcases hx with hx | rfl
      · exact h.sent x hx
      · exact hm
    · obtain ⟨_, _, hk⟩ := e7 hg
      rcases hk with ⟨hi, _, k⟩ | ⟨_, _, k⟩
      · rw [k]; exact hm
      · rw [k]; exact c1
    · obtain ⟨_, _, hk⟩ := e7 hg
      rcases hk with ⟨_, k0, k⟩ | ⟨_, k0, k⟩
      · rw [k0]; intro y hy; cases hy
      · rw [k0]; intro y hy; cases hy; exact hm
  | @attempt m0 m2 m' d n l' inv e1 e2 e3 e4 e5 e6 e7 e8 =>
    have hm : WithTag l (m'.addrs .from) := by
      rw [e6.addrs]
      have h0 : WithTag l (m0.addrs .from) := by
        cases e4 with
        | invite u a ha =>
          show WithTag l (a .from)
          rw [ha _ (by decide)]; exact c1
        | other hr => exact h.other rfl _ hr
        | bye _ _ h3 => rw [from_bye h3]; exact c1
      exact withTag_trans h0 (e5.given (withTag_ne h0 hl))
    refine ⟨?_, fun hg => ⟨?_, hlive hg⟩, fun hg => ?_⟩
    · rw [e1]; intro x hx
      simp only [List.mem_append, List.mem_singleton] at hx
      rcases hx with hx | rfl
      · exact h.sent x hx
      · exact hm
    · obtain ⟨_, _, hk⟩ := e8 hg
      rcases hk with ⟨hi, _, k⟩ | ⟨_, _, k⟩
      · rw [k]; exact hm
      · rw [k]; exact c1
    · obtain ⟨_, _, hk⟩ := e8 hg
      rcases hk with ⟨_, k0, k⟩ | ⟨_, k0, k⟩
      · rw [k0]; intro y hy; cases hy
      · rw [k0]; intro y hy; cases hy; exact hm

theorem caller_loop (w : World) (invite : Msg) (evs : List Event) (hi : isOwn invite = true)
    (hf : invite.addrs .from ≠ []) : Caller (invite.addrs .from) (loop w evs (start w invite)) := by
  refine invariant (J := Caller (invite.addrs .from)) invite ?_ (fun s c h => ?_) (caller_act hf) ?_ evs
  · exact ⟨by simp [own, sends], fun _ => ⟨withTag_refl _, hi, fun m hm => by cases hm⟩, fun _ m hm => by cases hm⟩
  · exact ⟨h.sent, fun _ => h.live rfl, fun _ => h.other rfl⟩
  · intro r r' h e
    cases e with
    | same => exact h
    | publish t c x c' hq =>
      have ho := own_transition t c
      refine ⟨?_, fun _ => h.live rfl, fun _ => h.other rfl⟩
      show ∀ x ∈ own (transition t c).outs, _
      rw [ho]; exact h.sent

theorem carried_loop (w : World) (invite : Msg) (evs : List Event) (hi : isOwn invite = true) :
    Carried invite (loop w evs (start w invite)) := by
  refine invariant (J := Carried invite) invite ?_ (fun s c h => ?_) carried_act ?_ evs
  · exact ⟨by simp [own, sends], fun _ => ⟨carries_refl _, hi, fun m hm => by cases hm⟩, fun _ m hm => by cases hm⟩
  · exact ⟨h.sent, fun _ => h.live rfl, fun _ => h.other rfl⟩
  · intro r r' h e
    cases e with
    | same => exact h
    | publish t c x c' hq =>
      have ho := own_transition t c
      refine ⟨?_, fun _ => h.live rfl, fun _ => h.other rfl⟩
      show ∀ x ∈ own (transition t c).outs, _
      rw [ho]; exact h.sent

end Gosip.Dialog
