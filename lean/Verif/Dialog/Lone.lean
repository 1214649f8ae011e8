import Verif.Dialog.Carried

/-!
# The Via and the CSeq of the requests of a dialog

A dialog adds no second Via, and the method in CSeq is that of the request.
-/

namespace Gosip.Dialog
open Sip Spec

/-- At most one Via, and a CSeq without a method or with that of the request. -/
def Lone (m : Msg) : Prop := m.via.tail = [] ∧ (m.cseqMethod = [] ∨ m.cseqMethod = m.method)

/-- One Via, which has a branch, and a CSeq with the method of the request. -/
def LoneSent (m : Msg) : Prop := m.via.tail = [] ∧ m.cseqMethod = m.method ∧ ∃ b, branchOf m = some b

theorem LoneSent.lone {m : Msg} (h : LoneSent m) : Lone m := ⟨h.1, .inr h.2.1⟩

theorem lone_core {m m' : Msg} (h : Lone m) (k : Core m m') : Lone m' := by
  rcases k.stamped with rfl | ⟨v, l, ts, hv, _, rfl⟩
  · exact h
  · refine ⟨?_, h.2⟩
    have := h.1
    rw [hv] at this
    exact this

theorem lone_sentAs {m m' : Msg} (h : Lone m) (k : SentAs m m') : Lone m' := by
  have hb := k.behind
  obtain ⟨v, rfl⟩ := k.only
  exact ⟨hb.trans h.1, h.2⟩

theorem loneSent_sentAs {m m' : Msg} (h : LoneSent m) (k : SentAs m m') : LoneSent m' := by
  have hb := k.behind
  have hr := k.branch
  obtain ⟨v, rfl⟩ := k.only
  exact ⟨hb.trans h.1, h.2.1, by rw [hr]; exact h.2.2⟩

theorem lone_populated {ids : Ids} {m m' : Msg} (h : Lone m) (k : Populated ids m m') : LoneSent m' := by
  refine ⟨k.behind.trans h.1, ?_, _, k.branch⟩
  rw [k.method]
  by_cases hc : m.cseqMethod = []
  · exact k.ofMethod hc
  · rw [k.cseqMethod hc]
    exact h.2.resolve_left hc

/-- After each event. A request that was sent is complete. -/
structure Loners (r : Run) : Prop where
  sent : ∀ x ∈ own r.s.outs, LoneSent x.2
  live : r.c = .go → Lone r.s.invite ∧ isOwn r.s.invite = true ∧ ∀ m, r.s.cur = some m → isOwn m = true
  ready : r.c = .go → r.s.req = .invite → LoneSent r.s.invite
  other : r.c = .go → ∀ m, r.s.req = .other m → LoneSent m

theorem loners_act {w : World} (s : St) (r : Run) (h : Loners ⟨s, .go⟩) (a : Act w s r) : Loners r := by
  obtain ⟨c1, l1, l2⟩ := h.live rfl
  have e := effect_act w s r l1 l2 a
  have hlive : r.c = .go → isOwn r.s.invite = true ∧ ∀ m, r.s.cur = some m → isOwn m = true :=
    fun hg => alive_act l1 l2 a hg
  have snoc : ∀ {d m'}, own r.s.outs = own s.outs ++ [(d, m')] → LoneSent m' → ∀ x ∈ own r.s.outs, LoneSent x.2 := by
    intro d m' e1 hm
    rw [e1]; intro x hx
    simp only [List.mem_append, List.mem_singleton] at hx
    rcases hx with hx | rfl
    · exact h.sent x hx
    · exact hm
  cases e with
  | quiet e1 e2 e3 =>
    refine ⟨by rw [e1]; exact h.sent, fun hg => ⟨lone_core c1 (e3 hg).1, hlive hg⟩, fun hg hq => ?_, fun hg => ?_⟩
    · rw [(e3 hg).2.1] at hq
      have k := h.ready rfl hq
      refine ⟨(lone_core c1 (e3 hg).1).1, ?_, by rw [(e3 hg).1.branch]; exact k.2.2⟩
      obtain ⟨v, hv⟩ := (e3 hg).1.only
      rw [hv]; exact k.2.1
    · rw [(e3 hg).2.1]; exact h.other rfl
  | @resend m m' d inv e1 e2 e3 e4 e5 e6 e7 =>
    have hm : LoneSent m' := by
      refine loneSent_sentAs ?_ e3
      rcases e5 with ⟨_, hq, rfl⟩ | ⟨_, k⟩
      · exact h.ready rfl hq
      · exact h.other rfl m k
    refine ⟨snoc e1 hm, fun hg => ⟨?_, hlive hg⟩, fun hg hq => ?_, fun hg => ?_⟩
    · rcases (e7 hg).2.2 with ⟨_, _, k⟩ | ⟨_, _, k⟩
      · rw [k]; exact hm.lone
      · rw [k]; exact c1
    · rcases (e7 hg).2.2 with ⟨_, _, k⟩ | ⟨_, k0, k⟩
      · rw [k]; exact hm
      · rw [k0] at hq; cases hq
    · rcases (e7 hg).2.2 with ⟨_, k0, _⟩ | ⟨_, k0, _⟩
      · rw [k0]; intro y hy; cases hy
      · rw [k0]; intro y hy; cases hy; exact hm
  | @attempt m0 m2 m' d n l inv e1 e2 e3 e4 e5 e6 e7 e8 =>
    have hm : LoneSent m' := by
      refine loneSent_sentAs (lone_populated ?_ e5) e6
      cases e4 with
      | invite u a ha => exact c1
      | other hr => exact (h.other rfl _ hr).lone
      | bye _ _ h3 =>
        rename_i remote b _ _
        obtain ⟨u, a, hr, _⟩ := route_none b
        rw [hr]
        simp only [newBye, Res.bind_eq, Res.bind_ok_iff] at h3
        obtain ⟨u, _, h3⟩ := h3
        cases h3
        exact ⟨rfl, .inr rfl⟩
    refine ⟨snoc e1 hm, fun hg => ⟨?_, hlive hg⟩, fun hg hq => ?_, fun hg => ?_⟩
    · rcases (e8 hg).2.2 with ⟨_, _, k⟩ | ⟨_, _, k⟩
      · rw [k]; exact hm.lone
      · rw [k]; exact c1
    · rcases (e8 hg).2.2 with ⟨_, _, k⟩ | ⟨_, k0, k⟩
      · rw [k]; exact hm
      · rw [k0] at hq; cases hq
    · rcases (e8 hg).2.2 with ⟨_, k0, _⟩ | ⟨_, k0, _⟩
      · rw [k0]; intro y hy; cases hy
      · rw [k0]; intro y hy; cases hy; exact hm

theorem loners_loop (w : World) (invite : Msg) (evs : List Event) (hi : isOwn invite = true) (hl : Lone invite) :
    Loners (loop w evs (start w invite)) := by
  refine invariant (J := Loners) invite ?_ (fun s c h => ?_) loners_act ?_ evs
  · exact ⟨by simp [own, sends], fun _ => ⟨hl, hi, fun m hm => by cases hm⟩, (fun _ hq => nomatch hq), fun _ m hm => nomatch hm⟩
  · exact ⟨h.sent, fun _ => h.live rfl, fun _ => h.ready rfl, fun _ => h.other rfl⟩
  · intro r r' h e
    cases e with
    | same => exact h
    | publish t c x c' hq =>
      have ho := own_transition t c
      refine ⟨?_, fun _ => h.live rfl, fun _ => h.ready rfl, fun _ => h.other rfl⟩
      show ∀ x ∈ own (transition t c).outs, _
      rw [ho]; exact h.sent

end Gosip.Dialog
