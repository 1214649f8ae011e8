import Verif.Dialog.Final

/-!
# The From of the requests of a dialog
-/

namespace Gosip.Dialog
open Sip Spec

/-- All requests have one From, with a tag. -/
structure Signed (r : Run) : Prop where
  all : ∀ x ∈ own r.s.outs, Tagged (x.2.addrs .from) ∧ ∀ y ∈ own r.s.outs, y.2.addrs .from = x.2.addrs .from
  same : r.c = .go → ∀ x ∈ own r.s.outs, x.2.addrs .from = r.s.invite.addrs .from
  live : r.c = .go → isOwn r.s.invite = true ∧ ∀ m, r.s.cur = some m → isOwn m = true
  none : r.c = .go → own r.s.outs = [] → r.s.req = .none ∧ r.s.state ≠ .answered
  other : r.c = .go → ∀ m, r.s.req = .other m → m.addrs .from = r.s.invite.addrs .from

theorem SentAs.addrs {a b : Msg} (h : SentAs a b) : b.addrs = a.addrs := by obtain ⟨v, rfl⟩ := h.only; rfl

theorem Core.addrs {a b : Msg} (h : Core a b) : b.addrs = a.addrs := by obtain ⟨v, rfl⟩ := h.only; rfl

theorem from_bye {invite remote b : Msg} {l : Option Int} {n : Int} (h : newBye invite remote l = .ok (b, n)) :
    (routeMessage none none b).1.addrs .from = invite.addrs .from := by
  obtain ⟨u, a, hr, ha⟩ := route_none b
  rw [hr]
  simp only [newBye, Res.bind_eq, Res.bind_ok_iff] at h
  obtain ⟨u, _, h⟩ := h
  cases h
  show a .from = _
  rw [ha .from (by simp)]

/-- One more request with the same From. -/
theorem signed_snoc {s : St} {r : Run} {d : Bytes} {m' : Msg} (h : Signed ⟨s, .go⟩)
    (e1 : own r.s.outs = own s.outs ++ [(d, m')]) (ht : Tagged (m'.addrs .from))
    (hf : own s.outs ≠ [] → m'.addrs .from = s.invite.addrs .from) :
    (∀ x ∈ own r.s.outs, Tagged (x.2.addrs .from) ∧ ∀ y ∈ own r.s.outs, y.2.addrs .from = x.2.addrs .from) ∧
    ∀ x ∈ own r.s.outs, x.2.addrs .from = m'.addrs .from := by
  have h1 : ∀ x ∈ own r.s.outs, x.2.addrs .from = m'.addrs .from := by
    rw [e1]; intro x hx
    simp only [List.mem_append, List.mem_singleton] at hx
    rcases hx with hx | rfl
    · rw [hf (by intro hn; rw [hn] at hx; simp at hx)]
      exact h.same rfl x hx
    · rfl
  refine ⟨fun x hx => ⟨by rw [h1 x hx]; exact ht, fun y hy => by rw [h1 x hx, h1 y hy]⟩, h1⟩

theorem signed_act {w : World} (s : St) (r : Run) (h : Signed ⟨s, .go⟩) (a : Act w s r) : Signed r := by
  obtain ⟨l1, l2⟩ := h.live rfl
  have e := effect_act w s r l1 l2 a
  have hst := (act_shown a).2
  have hlive : r.c = .go → isOwn r.s.invite = true ∧ ∀ m, r.s.cur = some m → isOwn m = true :=
    fun hg => alive_act l1 l2 a hg
  cases e with
  | quiet e1 e2 e3 =>
    refine ⟨by rw [e1]; exact h.all, fun hg => ?_, hlive, fun hg => ?_, fun hg => ?_⟩
    · rw [e1, (e3 hg).1.addrs]; exact h.same rfl
    · rw [e1, (e3 hg).2.1, hst]; exact h.none rfl
    · rw [(e3 hg).2.1, (e3 hg).1.addrs]; exact h.other rfl
  | @resend m m' d inv e1 e2 e3 e4 e5 e6 e7 =>
    have hne : own s.outs ≠ [] := by
      intro hn
      have := (h.none rfl hn).1
      rcases e5 with ⟨_, k, _⟩ | ⟨_, k⟩ <;> rw [show s.req = .none from this] at k <;> cases k
    have hm : m.addrs .from = s.invite.addrs .from := by
      rcases e5 with ⟨_, _, k⟩ | ⟨_, k⟩
      · rw [k]
      · exact h.other rfl m k
    have hm' : m'.addrs .from = s.invite.addrs .from := by rw [e3.addrs]; exact hm
    obtain ⟨x, hx⟩ := List.exists_mem_of_ne_nil _ hne
    have ht : Tagged (m'.addrs .from) := by
      rw [hm', ← h.same rfl x hx]; exact (h.all x hx).1
    obtain ⟨k1, k2⟩ := signed_snoc h e1 ht fun _ => hm'
    refine ⟨k1, fun hg => ?_, hlive, fun hg hn => by rw [e1] at hn; simp at hn, fun hg => ?_⟩
    · obtain ⟨_, _, hk⟩ := e7 hg
      rcases hk with ⟨_, _, k⟩ | ⟨_, _, k⟩
      · rw [k]; exact k2
      · rw [k, ← hm']; exact k2
    · obtain ⟨_, _, hk⟩ := e7 hg
      rcases hk with ⟨_, k0, k⟩ | ⟨_, k0, k⟩
      · rw [k0]; intro y hy; cases hy
      · rw [k0, k]; intro y hy; cases hy; exact hm'
  | @attempt m0 m2 m' d n l inv e1 e2 e3 e4 e5 e6 e7 e8 =>
    have hm0 : m0.addrs .from = s.invite.addrs .from := by
      cases e4 with
      | invite u a ha => exact ha _ (by decide)
      | other hr => exact h.other rfl _ hr
      | bye _ _ h3 => exact from_bye h3
    have ht : Tagged (m'.addrs .from) := by rw [e6.addrs]; exact e5.tagged
    have hm' : own s.outs ≠ [] → m'.addrs .from = s.invite.addrs .from := by
      intro hne
      obtain ⟨x, hx⟩ := List.exists_mem_of_ne_nil _ hne
      rw [e6.addrs, e5.from' ?_, hm0]
      rw [hm0, ← h.same rfl x hx]; exact (h.all x hx).1
    have hinv : inv = false → own s.outs ≠ [] := by
      intro hf hn
      obtain ⟨n1, n2⟩ := h.none rfl hn
      cases e4 with
      | invite => cases hf
      | other hr => rw [show s.req = .none from n1] at hr; cases hr
      | bye h1 _ _ => exact n2 h1
    obtain ⟨k1, k2⟩ := signed_snoc h e1 ht hm'
    refine ⟨k1, fun hg => ?_, hlive, fun hg hn => by rw [e1] at hn; simp at hn, fun hg => ?_⟩
    · obtain ⟨_, _, hk⟩ := e8 hg
      rcases hk with ⟨_, _, k⟩ | ⟨hi, _, k⟩
      · rw [k]; exact k2
      · rw [k, ← hm' (hinv hi)]; exact k2
    · obtain ⟨_, _, hk⟩ := e8 hg
      rcases hk with ⟨_, k0, k⟩ | ⟨hi, k0, k⟩
      · rw [k0]; intro y hy; cases hy
      · rw [k0, k]; intro y hy; cases hy; exact hm' (hinv hi)

theorem signed_loop (w : World) (invite : Msg) (evs : List Event) (hi : isOwn invite = true) :
    Signed (loop w evs (start w invite)) := by
  refine invariant (J := Signed) invite ?_ (fun s c h => ?_) signed_act ?_ evs
  · exact ⟨by simp [own, sends], by simp [own, sends], fun _ => ⟨hi, fun m hm => by cases hm⟩, fun _ _ => ⟨rfl, by simp⟩,
      fun _ m hm => by cases hm⟩
  · exact ⟨h.all, fun _ => h.same rfl, fun _ => h.live rfl, fun _ => h.none rfl, fun _ => h.other rfl⟩
  · intro r r' h e
    cases e with
    | same => exact h
    | publish t c x c' hq =>
      have ho := own_transition t c
      refine ⟨?_, fun _ => ?_, fun _ => h.live rfl, fun _ hn => ?_, fun _ => h.other rfl⟩
      · show ∀ x ∈ own (transition t c).outs, _ ∧ ∀ y ∈ own (transition t c).outs, _
        rw [ho]; exact h.all
      · show ∀ x ∈ own (transition t c).outs, _
        rw [ho]; exact h.same rfl
      · exfalso
        have : own (transition t c).outs = [] := hn
        rw [ho] at this
        exact hq (h.none rfl this).1

/-! ### The method of the INVITE -/

/-- The method of the INVITE. -/
def Named (meth : Bytes) (r : Run) : Prop :=
  r.c = .go → r.s.invite.method = meth ∧ isOwn r.s.invite = true ∧ ∀ m, r.s.cur = some m → isOwn m = true

theorem named_act {w : World} {meth : Bytes} (s : St) (r : Run) (h : Named meth ⟨s, .go⟩) (a : Act w s r) :
    Named meth r := by
  obtain ⟨h1, l1, l2⟩ := h rfl
  intro hg
  refine ⟨?_, alive_act l1 l2 a hg⟩
  have e := effect_act w s r l1 l2 a
  cases e with
  | quiet e1 e2 e3 => rw [(e3 hg).1.method]; exact h1
  | resend e1 e2 e3 e4 e5 e6 e7 =>
    obtain ⟨_, _, ⟨_, _, k⟩ | ⟨_, _, k⟩⟩ := e7 hg
    · rcases e5 with ⟨_, _, rfl⟩ | ⟨k2, _⟩
      · rw [k, e3.method]; exact h1
      · simp_all
    · rw [k]; exact h1
  | attempt e1 e2 e3 e4 e5 e6 e7 e8 =>
    obtain ⟨_, _, ⟨hi, _, k⟩ | ⟨_, _, k⟩⟩ := e8 hg
    · rw [k, e6.method, e5.method]
      cases e4 with
      | invite => exact h1
      | other => cases hi
      | bye => cases hi
    · rw [k]; exact h1

theorem named_loop (w : World) (invite : Msg) (evs : List Event) (hi : isOwn invite = true) :
    Named invite.method (loop w evs (start w invite)) := by
  refine invariant (J := Named invite.method) invite ?_ (fun s c h _ => h rfl) named_act ?_ evs
  · exact fun _ => ⟨rfl, hi, fun m hm => by cases hm⟩
  · intro r r' h e
    cases e with
    | same => exact h
    | publish t c x c' hq => exact fun _ => h rfl

/-! ### The target of a BYE -/

/-- Without Record-Route, a BYE is sent to the Contact. -/
theorem request_bye {invite remote b : Msg} {l : Option Int} {n : Int} (h : newBye invite remote l = .ok (b, n))
    (hr : remote.addrs .recordRoute = []) :
    ∃ a more, remote.addrs .contact = a :: more ∧ (routeMessage none none b).1.request = a.uri := by
  simp only [newBye, Res.bind_eq, Res.bind_ok_iff] at h
  obtain ⟨u, hu, h⟩ := h
  cases h
  cases hc : remote.addrs .contact with
  | nil => rw [hc] at hu; cases hu
  | cons a more =>
    rw [hc] at hu
    cases hu
    refine ⟨a, more, rfl, ?_⟩
    unfold routeMessage
    rw [if_neg (by simp [Msg.isResponse])]
    have : popRoute none (addrReversed (remote.addrs .recordRoute)) = [] := by rw [hr]; rfl
    simp only [this]

/-- What a BYE is made of. -/
theorem bye_fields {invite remote b : Msg} {l n : Int} (h : newBye invite remote (some l) = .ok (b, n))
    (h1 : 0 ≤ l) (h2 : l < 2 ^ 63 - 1) :
    n = l + 1 ∧ (routeMessage none none b).1.cseq = l + 1 ∧ (routeMessage none none b).1.cseqMethod = b!"BYE" ∧
    (routeMessage none none b).1.method = b!"BYE" ∧ (routeMessage none none b).1.status = 0 ∧
    (routeMessage none none b).1.callID = invite.callID ∧
    (routeMessage none none b).1.addrs .from = invite.addrs .from ∧
    (routeMessage none none b).1.addrs .to = remote.addrs .to := by
  have hw : wrap64 (l + 1) = l + 1 := by
    unfold wrap64; simp only [Int.bmod]; omega
  obtain ⟨u, a, hr, ha⟩ := route_none b
  rw [hr]
  simp only [newBye, Res.bind_eq, Res.bind_ok_iff] at h
  obtain ⟨u, _, h⟩ := h
  cases h
  dsimp only [Option.getD_some]
  rw [ha .from (by simp), ha .to (by simp)]
  exact ⟨hw, hw, rfl, rfl, rfl, rfl, rfl, rfl⟩

end Gosip.Dialog
