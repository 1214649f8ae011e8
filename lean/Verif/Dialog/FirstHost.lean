import Verif.Dialog.Countdown
import Verif.Dialog.Local

/-!
# The host names in the INVITEs of a call never change

`populate` (`dialog/dialog.go:229-279`) fills in only what is missing, and what it filled in for the first server is
there when the next server is tried.
-/

namespace Gosip.Dialog
open Sip Spec

/-- The session description says everything. -/
def Full (m : Msg) : Prop := ∀ d, m.payload = some (.sdp d) → SdpComplete d

/-- The later message says of the caller what the earlier one said. -/
structure Repeats (a b : Msg) : Prop where
  via : viaHost b = viaHost a
  contact : contactHost b = contactHost a
  body : Full a → b.payload = a.payload

theorem Repeats.refl (a : Msg) : Repeats a a := ⟨rfl, rfl, fun _ => rfl⟩

theorem Repeats.trans {a b c : Msg} (h : Repeats a b) (k : Repeats b c) : Repeats a c := by
  refine ⟨k.via.trans h.via, k.contact.trans h.contact, fun f => ?_⟩
  have e := h.body f
  rw [k.body, e]
  intro d hd
  rw [e] at hd
  exact f d hd

theorem repeats_sent {a b : Msg} (h : SentAs a b) : Repeats a b := by
  have hs := h.sentBy
  obtain ⟨v, rfl⟩ := h.only
  exact ⟨by rw [viaHost_eq, viaHost_eq, hs], rfl, fun _ => rfl⟩

theorem repeats_core {a b : Msg} (h : Core a b) : Repeats a b := by
  have hs := h.sentBy
  obtain ⟨v, rfl⟩ := h.only
  exact ⟨by rw [viaHost_eq, viaHost_eq, hs], rfl, fun _ => rfl⟩

/-- The message has been populated. -/
def Prepared (m : Msg) : Prop := m.via ≠ [] ∧ ∃ a k u, m.addrs .contact = a :: k ∧ a.uri = some u

theorem set_sent {a b : Msg} (h : SentAs a b) (hs : Prepared a) : Prepared b := by
  have h1 := h.sentBy
  obtain ⟨v, rfl⟩ := h.only
  refine ⟨?_, hs.2⟩
  intro e
  have e : v = [] := e
  unfold sentBy at h1
  rw [e] at h1
  cases ha : a.via with
  | nil => exact hs.1 ha
  | cons x l => rw [ha] at h1; simp at h1

theorem set_core {a b : Msg} (h : Core a b) (hs : Prepared a) : Prepared b := by
  have h1 := h.sentBy
  obtain ⟨v, rfl⟩ := h.only
  refine ⟨?_, hs.2⟩
  intro e
  have e : v = [] := e
  unfold sentBy at h1
  rw [e] at h1
  cases ha : a.via with
  | nil => exact hs.1 ha
  | cons x l => rw [ha] at h1; simp at h1

theorem set_populated {ids : Ids} {a b : Msg} (h : Populated ids a b) : Prepared b := ⟨h.via, h.contact⟩

theorem repeats_populated {ids : Ids} {a b : Msg} (h : Populated ids a b) (hs : Prepared a) : Repeats a b := by
  refine ⟨?_, ?_, fun f => h.body f⟩
  · cases ha : a.via with
    | nil => exact absurd ha hs.1
    | cons v k =>
      obtain ⟨v', e1, e2⟩ := h.viaHost v k ha
      simp [viaHost, ha, e1, e2]
  · obtain ⟨x, k, u, e1, e2⟩ := hs.2
    obtain ⟨x', u', f1, f2, f3⟩ := h.contactHost x k u e1 e2
    simp [contactHost, e1, e2, f1, f2, f3]

/-- After each event. -/
structure Repeating (r : Run) : Prop where
  sent : (calls r.s.outs).Pairwise fun a b => Repeats a.2 b.2
  live : r.c = .go → isOwn r.s.invite = true ∧ ∀ m, r.s.cur = some m → isOwn m = true
  method : r.c = .go → r.s.invite.method = b!"INVITE"
  set : r.c = .go → calls r.s.outs ≠ [] → Prepared r.s.invite
  last : r.c = .go → ∀ x ∈ calls r.s.outs, Repeats x.2 r.s.invite
  first : r.c = .go → calls r.s.outs = [] → r.s.req ≠ .invite
  other : r.c = .go → ∀ m, r.s.req = .other m → m.method ≠ b!"INVITE"

theorem repeating_act {w : World} (s : St) (r : Run) (h : Repeating ⟨s, .go⟩) (a : Act w s r) : Repeating r := by
  obtain ⟨l1, l2⟩ := h.live rfl
  have e := effect_act w s r l1 l2 a
  have hlive : r.c = .go → isOwn r.s.invite = true ∧ ∀ m, r.s.cur = some m → isOwn m = true :=
    fun hg => alive_act l1 l2 a hg
  have hmeth := h.method rfl
  have hset := h.set rfl
  have hlast := h.last rfl
  simp only at hmeth hset hlast
  -- a new INVITE made from the old
  have key : ∀ {m' : Msg} {d : Bytes}, calls r.s.outs = calls s.outs ++ [(d, m')] → m'.method = b!"INVITE" →
      Prepared m' → (∀ x ∈ calls s.outs, Repeats x.2 m') →
      (r.c = .go → r.s.req = .invite ∧ r.s.invite = m') → Repeating r := by
    intro m' d hc hm hs hx hk
    refine ⟨?_, hlive, fun hg => ?_, fun hg _ => ?_, fun hg x hxx => ?_, fun hg h0 => ?_, fun hg y hy => ?_⟩
    · rw [hc]
      refine List.pairwise_append.2 ⟨h.sent, List.pairwise_singleton _ _, fun x hx1 y hy => ?_⟩
      rw [List.mem_singleton] at hy
      rw [hy]; exact hx x hx1
    · rw [(hk hg).2]; exact hm
    · rw [(hk hg).2]; exact hs
    · rw [(hk hg).2]
      rw [hc] at hxx
      rcases List.mem_append.1 hxx with hxx | hxx
      · exact hx x hxx
      · rw [List.mem_singleton] at hxx
        rw [hxx]; exact .refl _
    · rw [hc] at h0; simp at h0
    · rw [(hk hg).1] at hy; cases hy
  -- any other request
  have key' : ∀ {m' : Msg}, calls r.s.outs = calls s.outs → m'.method ≠ b!"INVITE" →
      (r.c = .go → r.s.req = .other m' ∧ r.s.invite = s.invite) → Repeating r := by
    intro m' hc hm hk
    refine ⟨by rw [hc]; exact h.sent, hlive, fun hg => by rw [(hk hg).2]; exact hmeth, fun hg h0 => ?_,
      fun hg x hxx => ?_, fun hg h0 => ?_, fun hg y hy => ?_⟩
    · rw [(hk hg).2]; exact hset (by rw [← hc]; exact h0)
    · rw [(hk hg).2]; exact hlast x (by rw [← hc]; exact hxx)
    · rw [(hk hg).1]; exact fun hx => nomatch hx
    · rw [(hk hg).1] at hy; cases hy; exact hm
  cases e with
  | quiet e1 e2 e3 =>
    have hc := calls_of_own e1
    refine ⟨by rw [hc]; exact h.sent, hlive, fun hg => ?_, fun hg h0 => ?_, fun hg x hx => ?_, fun hg h0 => ?_, fun hg => ?_⟩
    · rw [(e3 hg).1.method]; exact hmeth
    · exact set_core (e3 hg).1 (hset (by rw [← hc]; exact h0))
    · exact (hlast x (by rw [← hc]; exact hx)).trans (repeats_core (e3 hg).1)
    · rw [(e3 hg).2.1]; exact h.first rfl (by rw [← hc]; exact h0)
    · rw [(e3 hg).2.1]; exact h.other rfl
  | @resend m m' d inv e1 e2 e3 e4 e5 e6 e7 =>
    rcases e5 with ⟨hi, hq, rfl⟩ | ⟨hi, hq⟩
    · have hm : m'.method = b!"INVITE" := e3.method.trans hmeth
      have hne : calls s.outs ≠ [] := fun h0 => h.first rfl h0 hq
      refine key (calls_invite e1 hm) hm (set_sent e3 (hset hne)) (fun x hx => (hlast x hx).trans (repeats_sent e3)) ?_
      intro hg
      rcases (e7 hg).2.2 with ⟨_, k⟩ | ⟨k, _⟩
      · exact k
      · simp_all
    · have hm : m'.method ≠ b!"INVITE" := by rw [e3.method]; exact h.other rfl m hq
      refine key' (calls_other e1 hm) hm ?_
      intro hg
      rcases (e7 hg).2.2 with ⟨k, _⟩ | ⟨_, k⟩
      · simp_all
      · exact k
  | @attempt m0 m2 m' d n l inv e1 e2 e3 e4 e5 e6 e7 e8 =>
    have hor : (inv = true ∧ m0.method = b!"INVITE" ∧ Repeats s.invite m0 ∧ (Prepared s.invite → Prepared m0)) ∨
        (inv = false ∧ m0.method ≠ b!"INVITE") := by
      cases e4 with
      | invite u a ha =>
        have hac : a .contact = s.invite.addrs .contact := ha _ (by decide)
        refine .inl ⟨rfl, hmeth, ⟨rfl, ?_, fun _ => rfl⟩, fun hs => ⟨hs.1, ?_⟩⟩
        · simp [contactHost, hac]
        · show ∃ x k u, a .contact = x :: k ∧ _
          rw [hac]; exact hs.2
      | other hr => exact .inr ⟨rfl, h.other rfl _ hr⟩
      | bye _ _ h3 => exact .inr ⟨rfl, by rw [(bye_method h3).1]; decide⟩
    rcases hor with ⟨rfl, hm0, hr0, hs0⟩ | ⟨rfl, hm0⟩
    · have hm : m'.method = b!"INVITE" := e6.method.trans (e5.method.trans hm0)
      refine key (calls_invite e1 hm) hm (set_sent e6 (set_populated e5)) (fun x hx => ?_) ?_
      · have hne : calls s.outs ≠ [] := fun h0 => by rw [h0] at hx; cases hx
        exact (((hlast x hx).trans hr0).trans (repeats_populated e5 (hs0 (hset hne)))).trans (repeats_sent e6)
      · intro hg
        rcases (e8 hg).2.2 with ⟨_, k⟩ | ⟨k, _⟩
        · exact k
        · simp_all
    · have hm : m'.method ≠ b!"INVITE" := by rw [e6.method, e5.method]; exact hm0
      refine key' (calls_other e1 hm) hm ?_
      intro hg
      rcases (e8 hg).2.2 with ⟨k, _⟩ | ⟨_, k⟩
      · simp_all
      · exact k

theorem repeating_loop (w : World) (invite : Msg) (evs : List Event) (hi : isOwn invite = true)
    (hm : invite.method = b!"INVITE") : Repeating (loop w evs (start w invite)) := by
  refine invariant (J := Repeating) invite ?_ (fun s c h => ?_) repeating_act ?_ evs
  · exact ⟨by simp [calls, own, sends], fun _ => ⟨hi, fun m hm => by cases hm⟩, fun _ => hm,
      fun _ h0 => absurd (by simp [calls, own, sends]) h0, fun _ x hx => by simp [calls, own, sends] at hx,
      (fun _ _ hx => nomatch hx), (fun _ m hm => nomatch hm)⟩
  · exact ⟨h.sent, fun _ => h.live rfl, fun _ => h.method rfl, fun _ => h.set rfl, fun _ => h.last rfl,
      fun _ => h.first rfl, fun _ => h.other rfl⟩
  · intro r r' h e
    cases e with
    | same => exact h
    | publish t c x c' hq =>
      have ho := calls_of_own (own_transition t c)
      refine ⟨?_, fun _ => h.live rfl, fun _ => h.method rfl, fun _ h0 => h.set rfl ?_, fun _ x hx => h.last rfl x ?_,
        fun _ h0 => h.first rfl ?_, fun _ => h.other rfl⟩
      · show (calls (transition t c).outs).Pairwise _
        rw [ho]; exact h.sent
      · rw [← ho]; exact h0
      · rw [← ho]; exact hx
      · rw [← ho]; exact h0

end Gosip.Dialog
