import Verif.Dialog.Effects

/-!
# Max-Forwards and sequence numbers of the requests of a dialog
-/

namespace Gosip.Dialog
open Sip Spec

/-- Transmissions of the same request: the invite, or requests with the same branch. -/
def SameRequest (meth : Bytes) (a b : Msg) : Prop := (a.method = meth ∧ b.method = meth) ∨ branchOf a = branchOf b

/-- What is known of Max-Forwards; `meth` is the method of the invite. -/
structure Forwards (meth : Bytes) (r : Run) : Prop where
  pos : ∀ x ∈ own r.s.outs, 1 ≤ x.2.maxForwards
  order : (own r.s.outs).Pairwise fun a b => SameRequest meth a.2 b.2 → b.2.maxForwards < a.2.maxForwards
  method : r.c = .go → r.s.invite.method = meth
  stored : r.c = .go → 0 ≤ r.s.invite.maxForwards ∧
    ∀ x ∈ own r.s.outs, x.2.method = meth → 1 ≤ r.s.invite.maxForwards ∧ r.s.invite.maxForwards ≤ x.2.maxForwards
  invite : r.c = .go → r.s.req = .invite → 1 ≤ r.s.invite.maxForwards ∧
    ∀ x ∈ own r.s.outs, branchOf x.2 = branchOf r.s.invite → r.s.invite.maxForwards ≤ x.2.maxForwards
  other : r.c = .go → ∀ m, r.s.req = .other m → m.method ≠ meth ∧ 1 ≤ m.maxForwards ∧
    ∀ x ∈ own r.s.outs, branchOf x.2 = branchOf m → m.maxForwards ≤ x.2.maxForwards

theorem forwards_init (invite : Msg) (h : 0 ≤ invite.maxForwards) : Forwards invite.method ⟨{ invite := invite }, .go⟩ :=
  ⟨by simp [own, sends], by simp [own, sends], fun _ => rfl, fun _ => ⟨h, by simp [own, sends]⟩,
   fun _ h => by simp at h, fun _ m h => by simp at h⟩

theorem bye_method {invite remote b : Msg} {l : Option Int} {n : Int} (h : newBye invite remote l = .ok (b, n)) :
    (routeMessage none none b).1.method = b!"BYE" ∧ (routeMessage none none b).1.maxForwards = 0 ∧
    (routeMessage none none b).1.cseq = n ∧ n = wrap64 (l.getD invite.cseq + 1) := by
  obtain ⟨u, a, hr, _⟩ := route_none b
  rw [hr]
  simp only [newBye, Res.bind_eq, Res.bind_ok_iff] at h
  obtain ⟨u, _, h⟩ := h
  cases h
  exact ⟨rfl, rfl, rfl, rfl⟩

theorem wrap64_in {z : Int} (h1 : -2 ^ 63 ≤ z) (h2 : z < 2 ^ 63) : wrap64 z = z := by
  unfold wrap64
  rw [Int.bmod_eq_of_le] <;> omega

theorem pairwise_snoc {α : Type} {R : α → α → Prop} {l : List α} {x : α} (h : l.Pairwise R) (k : ∀ a ∈ l, R a x) :
    (l ++ [x]).Pairwise R := by
  rw [List.pairwise_append]
  refine ⟨h, by simp, fun a ha b hb => ?_⟩
  simp only [List.mem_singleton] at hb
  subst hb; exact k a ha

theorem forwards_act (w : World) (inj : ∀ a b, (w.ids a).branch = (w.ids b).branch → a = b) {meth : Bytes}
    (hbye : meth ≠ b!"BYE") (s : St) (r : Run) (hb : Branches w ⟨s, .go⟩) (h : Forwards meth ⟨s, .go⟩)
    (a : Act w s r) : Forwards meth r := by
  obtain ⟨l1, l2, l3⟩ := hb.live rfl
  have e := effect_act w s r l1 (fun m hm => (l3 m hm).1) a
  cases e with
  | quiet e1 e2 e3 =>
    refine ⟨by rw [e1]; exact h.pos, by rw [e1]; exact h.order, fun hg => ?_, fun hg => ?_, fun hg => ?_, fun hg => ?_⟩
    · obtain ⟨k, _⟩ := e3 hg
      rw [k.method]; exact h.method rfl
    · obtain ⟨k, _⟩ := e3 hg
      rw [k.forwards, e1]; exact h.stored rfl
    · obtain ⟨k, k2, _⟩ := e3 hg
      rw [k.forwards, k.branch, e1, k2]; exact h.invite rfl
    · obtain ⟨k, k2, _⟩ := e3 hg
      rw [e1, k2]; exact h.other rfl
  | @resend m m' d inv e1 e2 e3 e4 e5 e6 e7 =>
    have hm1 : 1 ≤ m.maxForwards ∧ (∀ x ∈ own s.outs, branchOf x.2 = branchOf m → m.maxForwards ≤ x.2.maxForwards) ∧
        (∀ x ∈ own s.outs, x.2.method = meth → m.method = meth → m.maxForwards ≤ x.2.maxForwards) := by
      rcases e5 with ⟨_, k1, k2⟩ | ⟨_, k1⟩
      · obtain ⟨i1, i2⟩ := h.invite rfl k1
        rw [k2]
        exact ⟨i1, i2, fun x hx hxm _ => ((h.stored rfl).2 x hx hxm).2⟩
      · obtain ⟨i0, i1, i2⟩ := h.other rfl m k1
        exact ⟨i1, i2, fun _ _ _ hc => absurd hc i0⟩
    obtain ⟨m1, m2, m3⟩ := hm1
    have hmf := e3.forwards
    rw [if_pos (by omega)] at hmf
    have hne := e3.allowed
    have hge : ∀ x ∈ own s.outs, SameRequest meth x.2 m' → m'.maxForwards < x.2.maxForwards := by
      intro x hx hs
      rcases hs with ⟨a1, a2⟩ | a1
      · have := m3 x hx a1 (e3.method ▸ a2); omega
      · have := m2 x hx (a1.trans e3.branch); omega
    refine ⟨?_, ?_, fun hg => ?_, fun hg => ?_, fun hg => ?_, fun hg => ?_⟩
    · rw [e1]; intro x hx
      simp only [List.mem_append, List.mem_singleton] at hx
      rcases hx with hx | rfl
      · exact h.pos x hx
      · show 1 ≤ m'.maxForwards; omega
    · rw [e1]; exact pairwise_snoc h.order hge
    · obtain ⟨_, _, ⟨_, _, k⟩ | ⟨_, _, k⟩⟩ := e7 hg
      · rw [k, e3.method]
        rcases e5 with ⟨_, _, k2⟩ | ⟨hi, _⟩
        · rw [k2]; exact h.method rfl
        · simp_all
      · rw [k]; exact h.method rfl
    · rw [e1]
      obtain ⟨_, _, ⟨hi, _, k⟩ | ⟨hi, _, k⟩⟩ := e7 hg
      · rw [k]
        refine ⟨by omega, fun x hx hxm => ?_⟩
        simp only [List.mem_append, List.mem_singleton] at hx
        rcases hx with hx | rfl
        · rcases e5 with ⟨_, _, k2⟩ | ⟨hi2, _⟩
          · have := (h.stored rfl).2 x hx hxm
            rw [k2] at hmf hne
            dsimp only at this
            omega
          · simp_all
        · exact ⟨by omega, Int.le_refl _⟩
      · rw [k]
        refine ⟨(h.stored rfl).1, fun x hx hxm => ?_⟩
        simp only [List.mem_append, List.mem_singleton] at hx
        rcases hx with hx | rfl
        · exact (h.stored rfl).2 x hx hxm
        · rcases e5 with ⟨hi2, _⟩ | ⟨_, k1⟩
          · simp_all
          · exact absurd (e3.method ▸ hxm) (h.other rfl m k1).1
    · intro hq
      rw [e1]
      obtain ⟨_, _, ⟨hi, _, k⟩ | ⟨hi, k0, k⟩⟩ := e7 hg
      · rw [k]
        refine ⟨by omega, fun x hx hxb => ?_⟩
        simp only [List.mem_append, List.mem_singleton] at hx
        rcases hx with hx | rfl
        · have := m2 x hx (hxb.trans e3.branch); omega
        · exact Int.le_refl _
      · rw [k0] at hq; cases hq
    · intro y hq
      rw [e1]
      obtain ⟨_, _, ⟨hi, k0, k⟩ | ⟨hi, k0, k⟩⟩ := e7 hg
      · rw [k0] at hq; cases hq
      · rw [k0] at hq
        cases hq
        rcases e5 with ⟨hi2, _⟩ | ⟨_, k1⟩
        · simp_all
        · refine ⟨by rw [e3.method]; exact (h.other rfl m k1).1, by omega, fun x hx hxb => ?_⟩
          simp only [List.mem_append, List.mem_singleton] at hx
          rcases hx with hx | rfl
          · have := m2 x hx (hxb.trans e3.branch); omega
          · exact Int.le_refl _
  | @attempt m0 m m' d n l inv e1 e2 e3 e4 e5 e6 e7 e8 =>
    have hfresh : ∀ x ∈ own s.outs, branchOf x.2 ≠ branchOf m' := by
      intro x hx hc
      obtain ⟨k, hk, hxb⟩ := hb.known x hx
      rw [hxb, e6.branch, e5.branch] at hc
      have := inj _ _ (Option.some.inj hc)
      dsimp only at hk
      omega
    have hm0 : 0 ≤ m0.maxForwards ∧ ((inv = true ∧ m0.maxForwards = s.invite.maxForwards ∧ m0.method = s.invite.method) ∨
        (inv = false ∧ m0.method ≠ meth)) := by
      cases e4 with
      | invite => exact ⟨(h.stored rfl).1, .inl ⟨rfl, rfl, rfl⟩⟩
      | other hr =>
        obtain ⟨i0, i1, _⟩ := h.other rfl _ hr
        exact ⟨by omega, .inr ⟨rfl, i0⟩⟩
      | bye h1 h2 h3 =>
        obtain ⟨b1, b2, _⟩ := bye_method h3
        exact ⟨by rw [b2]; decide, .inr ⟨rfl, by rw [b1]; exact fun hc => hbye hc.symm⟩⟩
    obtain ⟨p0, hm0⟩ := hm0
    have hmf := e6.forwards
    have hne := e6.allowed
    have hpf := e5.forwards
    have hm' : 1 ≤ m'.maxForwards ∧ m'.maxForwards = m.maxForwards - 1 := by
      split at hpf <;> rw [if_pos (by omega)] at hmf <;> omega
    have hmeth : m'.method = m0.method := e6.method.trans e5.method
    have hlt : ∀ x ∈ own s.outs, x.2.method = meth → m'.method = meth → m'.maxForwards < x.2.maxForwards := by
      intro x hx hxm hm
      rcases hm0 with ⟨_, k, _⟩ | ⟨_, k⟩
      · have := (h.stored rfl).2 x hx hxm
        rw [k] at hpf
        dsimp only at this
        rw [if_neg (by omega)] at hpf
        omega
      · exact absurd (hmeth ▸ hm) k
    have hge : ∀ x ∈ own s.outs, SameRequest meth x.2 m' → m'.maxForwards < x.2.maxForwards := by
      intro x hx hs
      rcases hs with ⟨a1, a2⟩ | a1
      · exact hlt x hx a1 a2
      · exact absurd a1 (hfresh x hx)
    refine ⟨?_, ?_, fun hg => ?_, fun hg => ?_, fun hg => ?_, fun hg => ?_⟩
    · rw [e1]; intro x hx
      simp only [List.mem_append, List.mem_singleton] at hx
      rcases hx with hx | rfl
      · exact h.pos x hx
      · exact hm'.1
    · rw [e1]; exact pairwise_snoc h.order hge
    · obtain ⟨_, _, ⟨hi, _, k⟩ | ⟨hi, _, k⟩⟩ := e8 hg
      · rw [k, hmeth]
        rcases hm0 with ⟨_, _, k⟩ | ⟨hi2, _⟩
        · rw [k]; exact h.method rfl
        · simp_all
      · rw [k]; exact h.method rfl
    · rw [e1]
      obtain ⟨_, _, ⟨hi, _, k⟩ | ⟨hi, _, k⟩⟩ := e8 hg
      · rw [k]
        refine ⟨by omega, fun x hx hxm => ⟨hm'.1, ?_⟩⟩
        simp only [List.mem_append, List.mem_singleton] at hx
        rcases hx with hx | rfl
        · have := hlt x hx hxm (by
            rcases hm0 with ⟨_, _, k0⟩ | ⟨hi2, _⟩
            · rw [hmeth, k0]; exact h.method rfl
            · simp_all)
          omega
        · exact Int.le_refl _
      · rw [k]
        refine ⟨(h.stored rfl).1, fun x hx hxm => ?_⟩
        simp only [List.mem_append, List.mem_singleton] at hx
        rcases hx with hx | rfl
        · exact (h.stored rfl).2 x hx hxm
        · rcases hm0 with ⟨hi2, _⟩ | ⟨_, k0⟩
          · simp_all
          · exact absurd (hmeth ▸ hxm) k0
    · intro hq
      rw [e1]
      obtain ⟨_, _, ⟨hi, _, k⟩ | ⟨hi, k0, k⟩⟩ := e8 hg
      · rw [k]
        refine ⟨hm'.1, fun x hx hxb => ?_⟩
        simp only [List.mem_append, List.mem_singleton] at hx
        rcases hx with hx | rfl
        · exact absurd hxb (hfresh x hx)
        · exact Int.le_refl _
      · rw [k0] at hq; cases hq
    · intro y hq
      rw [e1]
      obtain ⟨_, _, ⟨hi, k0, k⟩ | ⟨hi, k0, k⟩⟩ := e8 hg
      · rw [k0] at hq; cases hq
      · rw [k0] at hq
        cases hq
        rcases hm0 with ⟨hi2, _⟩ | ⟨_, k1⟩
        · simp_all
        · refine ⟨by rw [hmeth]; exact k1, hm'.1, fun x hx hxb => ?_⟩
          simp only [List.mem_append, List.mem_singleton] at hx
          rcases hx with hx | rfl
          · exact absurd hxb (hfresh x hx)
          · exact Int.le_refl _

theorem forwards_ends {meth : Bytes} (r r' : Run) (h : Forwards meth r) (e : Ends r r') : Forwards meth r' := by
  cases e with
  | same => exact h
  | publish t c x c' =>
    have ho := own_transition t c
    refine ⟨?_, ?_, fun _ => h.method rfl, ?_, ?_, ?_⟩
    · show ∀ x ∈ own (transition t c).outs, _
      rw [ho]; exact h.pos
    · show (own (transition t c).outs).Pairwise _
      rw [ho]; exact h.order
    · intro _
      show 0 ≤ t.invite.maxForwards ∧ ∀ x ∈ own (transition t c).outs, _
      rw [ho]; exact h.stored rfl
    · intro _ hq
      show 1 ≤ t.invite.maxForwards ∧ ∀ x ∈ own (transition t c).outs, _
      rw [ho]; exact h.invite rfl hq
    · intro _ m hq
      show m.method ≠ meth ∧ 1 ≤ m.maxForwards ∧ ∀ x ∈ own (transition t c).outs, _
      rw [ho]; exact h.other rfl m hq

theorem forwards_loop (w : World) (invite : Msg) (evs : List Event) (hi : isOwn invite = true)
    (hbye : invite.method ≠ b!"BYE") (h0 : 0 ≤ invite.maxForwards)
    (inj : ∀ a b, (w.ids a).branch = (w.ids b).branch → a = b) :
    Forwards invite.method (loop w evs (start w invite)) := by
  refine (invariant (J := fun r => Branches w r ∧ Forwards invite.method r) invite
    ⟨branches_init w invite hi, forwards_init invite h0⟩
    (fun s c h => ⟨branches_cont w s c h.1, ⟨h.2.pos, h.2.order, fun _ => h.2.method rfl, fun _ => h.2.stored rfl,
      fun _ => h.2.invite rfl, fun _ => h.2.other rfl⟩⟩)
    (fun s r h a => ⟨branches_act w inj s r h.1 a, forwards_act w inj hbye s r h.1 h.2 a⟩)
    (fun r r' h e => ⟨branches_ends w r r' h.1 e, forwards_ends r r' h.2 e⟩) evs).2

/-! ### Sequence numbers -/

/-- What is known of the sequence numbers while the states move forward: `c` is the number of the invite. -/
structure Numbers (meth : Bytes) (c : Int) (r : Run) : Prop where
  sends : ∀ x ∈ own r.s.outs, (x.2.method = meth ∧ x.2.cseq = c) ∨ (x.2.method = b!"BYE" ∧ c < x.2.cseq)
  early : r.s.state.rank < 2 → ∀ x ∈ own r.s.outs, x.2.cseq = c
  invite : r.c = .go → isOwn r.s.invite = true ∧ r.s.invite.method = meth ∧ r.s.invite.cseq = c
  none : r.c = .go → r.s.req = .none → own r.s.outs = [] ∧ r.s.state.rank < 2
  other : r.c = .go → ∀ m, r.s.req = .other m → isOwn m = true ∧ m.method = b!"BYE" ∧ c < m.cseq ∧ m.cseq ≤ r.s.lseq ∧
    2 ≤ r.s.state.rank
  lseq : r.c = .go → r.s.req ≠ .none → c ≤ r.s.lseq ∧ r.s.lseq ≤ c + (own r.s.outs).length ∧
    (∀ x ∈ own r.s.outs, x.2.cseq ≤ r.s.lseq) ∧ ∃ x ∈ own r.s.outs, x.2.cseq = r.s.lseq

/-- As long as the states move forward and the sequence numbers do not overflow. -/
structure Seq (meth : Bytes) (c : Int) (r : Run) : Prop where
  last : (published r.s.outs).getLast?.getD .proceeding = r.s.state
  alive : r.c = .go → isOwn r.s.invite = true ∧ ∀ m, r.s.cur = some m → isOwn m = true
  numbers : Forward (published r.s.outs) → c + (own r.s.outs).length < 2 ^ 63 - 1 → Numbers meth c r

theorem act_shown {w : World} {s : St} {r : Run} (a : Act w s r) :
    published r.s.outs = published s.outs ∧ r.s.state = s.state := by
  cases a with
  | quiet q => exact ⟨q.shown, q.state⟩
  | cancel =>
    have hq := quiet_send w s _ (own_newCancel s.invite)
    exact ⟨hq.shown, hq.state⟩
  | resend h =>
    have h := net_sendCur w s
    unfold Run.andThen
    split <;> exact ⟨h.published, h.state⟩
  | attempt hr =>
    rename_i t
    have h := net_attempt w t
    exact ⟨h.published.trans hr.shown, h.state.trans hr.state⟩

theorem alive_act {w : World} {s : St} {r : Run} (hi : isOwn s.invite = true)
    (hc : ∀ m, s.cur = some m → isOwn m = true) (a : Act w s r) (hg : r.c = .go) :
    isOwn r.s.invite = true ∧ ∀ m, r.s.cur = some m → isOwn m = true := by
  have e := effect_act w s r hi hc a
  have core : ∀ {a b : Msg}, Core a b → isOwn a = true → isOwn b = true := by
    intro a b k h; unfold isOwn Msg.isResponse at *; rw [k.method, k.status]; exact h
  cases e with
  | quiet e1 e2 e3 =>
    obtain ⟨k1, k2, _⟩ := e3 hg
    refine ⟨core k1 hi, fun m hm => ?_⟩
    unfold St.cur at hm hc
    rw [k2] at hm
    cases hq : s.req with
    | none => rw [hq] at hm; simp at hm
    | invite => rw [hq] at hm; cases hm; exact core k1 hi
    | other x => rw [hq] at hm hc; exact hc m hm
  | resend e1 e2 e3 e4 e5 e6 e7 =>
    obtain ⟨_, _, ⟨_, k0, k⟩ | ⟨_, k0, k⟩⟩ := e7 hg
    · refine ⟨by rw [k]; exact e4, fun m hm => ?_⟩
      unfold St.cur at hm
      rw [k0] at hm; cases hm; rw [k]; exact e4
    · refine ⟨by rw [k]; exact hi, fun m hm => ?_⟩
      unfold St.cur at hm
      rw [k0] at hm; cases hm; exact e4
  | attempt e1 e2 e3 e4 e5 e6 e7 e8 =>
    obtain ⟨_, _, ⟨_, k0, k⟩ | ⟨_, k0, k⟩⟩ := e8 hg
    · refine ⟨by rw [k]; exact e7, fun m hm => ?_⟩
      unfold St.cur at hm
      rw [k0] at hm; cases hm; rw [k]; exact e7
    · refine ⟨by rw [k]; exact hi, fun m hm => ?_⟩
      unfold St.cur at hm
      rw [k0] at hm; cases hm; exact e7

theorem isOwn_parts {m : Msg} (h : isOwn m = true) : m.isResponse = false := isOwn_not_response h

theorem seq_act (w : World) {meth : Bytes} {c : Int} (hc0 : 0 < c) (s : St) (r : Run)
    (h : Seq meth c ⟨s, .go⟩) (a : Act w s r) : Seq meth c r := by
  obtain ⟨hpub, hstate⟩ := act_shown a
  obtain ⟨l1, l2⟩ := h.alive rfl
  have e := effect_act w s r l1 l2 a
  refine ⟨by rw [hpub, hstate]; exact h.last, alive_act l1 l2 a, ?_⟩
  rw [hpub]
  intro hf hlen
  have hlen0 : c + (own s.outs).length < 2 ^ 63 - 1 := by
    have : (own s.outs).length ≤ (own r.s.outs).length := by
      cases e with
      | quiet e1 => rw [e1]; exact Nat.le_refl _
      | resend e1 => rw [e1]; simp
      | attempt e1 => rw [e1]; simp
    omega
  have hn : Numbers meth c ⟨s, .go⟩ := h.numbers hf hlen0
  obtain ⟨n1, n2, n3⟩ := hn.invite rfl
  cases e with
  | quiet e1 e2 e3 =>
    refine ⟨by rw [e1]; exact hn.sends, by rw [e1, hstate]; exact hn.early, fun hg => ?_, fun hg => ?_, fun hg => ?_, fun hg => ?_⟩
    · obtain ⟨k, _⟩ := e3 hg
      exact ⟨by unfold isOwn Msg.isResponse; rw [k.method, k.status]; exact n1, by rw [k.method]; exact n2, by rw [k.cseq]; exact n3⟩
    · obtain ⟨_, k2, _, k4⟩ := e3 hg
      rw [k2, hstate, e1]; exact hn.none rfl
    · obtain ⟨_, k2, _, k4⟩ := e3 hg
      rw [k2, k4, hstate]; exact hn.other rfl
    · obtain ⟨_, k2, _, k4⟩ := e3 hg
      rw [k2, k4, e1]; exact hn.lseq rfl
  | @resend m m' d inv e1 e2 e3 e4 e5 e6 e7 =>
    have hreq : s.req ≠ .none := by
      rcases e5 with ⟨_, k, _⟩ | ⟨_, k⟩ <;> rw [k] <;> simp
    obtain ⟨q1, q2, q3, q4⟩ := hn.lseq rfl hreq
    dsimp only at q1 q2 q3 q4
    have hm : (m.method = meth ∧ m.cseq = c) ∨ (m.method = b!"BYE" ∧ c < m.cseq ∧ m.cseq ≤ s.lseq ∧ 2 ≤ s.state.rank) := by
      rcases e5 with ⟨_, _, k⟩ | ⟨_, k⟩
      · rw [k]; exact .inl ⟨n2, n3⟩
      · obtain ⟨_, o1, o2, o3, o4⟩ := hn.other rfl m k
        exact .inr ⟨o1, o2, o3, o4⟩
    have hsends : ∀ x ∈ own r.s.outs, x ∈ own s.outs ∨ x = (d, m') := by
      rw [e1]; intro x hx; simpa using hx
    refine ⟨fun x hx => ?_, fun hr x hx => ?_, fun hg => ?_, fun hg => ?_, fun hg => ?_, fun hg => ?_⟩
    · rcases hsends x hx with hx | rfl
      · exact hn.sends x hx
      · dsimp only; rw [e3.method, e3.cseq]
        rcases hm with hm | hm
        · exact .inl hm
        · exact .inr ⟨hm.1, hm.2.1⟩
    · rw [hstate] at hr
      rcases hsends x hx with hx | rfl
      · exact hn.early hr x hx
      · dsimp only; rw [e3.cseq]
        rcases hm with hm | hm
        · exact hm.2
        · omega
    · obtain ⟨_, _, ⟨hi, _, k⟩ | ⟨hi, _, k⟩⟩ := e7 hg
      · rcases e5 with ⟨_, _, k2⟩ | ⟨hi2, _⟩
        · rw [k]; exact ⟨e4, by rw [e3.method, k2]; exact n2, by rw [e3.cseq, k2]; exact n3⟩
        · simp_all
      · rw [k]; exact ⟨n1, n2, n3⟩
    · intro hq
      obtain ⟨_, _, ⟨_, k, _⟩ | ⟨_, k, _⟩⟩ := e7 hg <;> rw [k] at hq <;> cases hq
    · intro y hy
      obtain ⟨_, kl, ⟨_, k, _⟩ | ⟨hi, k, _⟩⟩ := e7 hg
      · rw [k] at hy; cases hy
      · rw [k] at hy; cases hy
        rcases e5 with ⟨hi2, _⟩ | ⟨_, k1⟩
        · simp_all
        · obtain ⟨_, o1, o2, o3, o4⟩ := hn.other rfl m k1
          rw [hstate, e3.method, e3.cseq, kl]
          exact ⟨e4, o1, o2, o3, o4⟩
    · intro _
      obtain ⟨_, kl, _⟩ := e7 hg
      rw [kl, e1]
      refine ⟨q1, by simp; omega, fun x hx => ?_, ?_⟩
      · rcases hsends x (by rw [e1]; exact hx) with hx | rfl
        · exact q3 x hx
        · dsimp only; rw [e3.cseq]
          rcases hm with hm | hm
          · rw [hm.2]; exact q1
          · exact hm.2.2.1
      · obtain ⟨x, hx, hxl⟩ := q4
        exact ⟨x, by simp [hx], hxl⟩
  | @attempt m0 m m' d n l inv e1 e2 e3 e4 e5 e6 e7 e8 =>
    have hsends : ∀ x ∈ own r.s.outs, x ∈ own s.outs ∨ x = (d, m') := by
      rw [e1]; intro x hx; simpa using hx
    -- the message and the new local sequence number
    have hm : (inv = true ∧ (m0.method = meth ∧ m0.cseq = c) ∧ l = s.lseq) ∨
        (inv = false ∧ isOwn m0 = true ∧ m0.method = b!"BYE" ∧ c < m0.cseq ∧ 2 ≤ s.state.rank ∧ s.lseq ≤ l ∧ c ≤ s.lseq ∧
          m0.cseq ≤ l ∧ l ≤ c + (own r.s.outs).length ∧ (∀ x ∈ own s.outs, x.2.cseq ≤ s.lseq) ∧
          ((l = s.lseq ∧ ∃ x ∈ own s.outs, x.2.cseq = s.lseq) ∨ m0.cseq = l)) := by
      cases e4 with
      | invite => exact .inl ⟨rfl, ⟨n2, n3⟩, rfl⟩
      | other hr =>
        obtain ⟨o0, o1, o2, o3, o4⟩ := hn.other rfl _ hr
        obtain ⟨q1, q2, q3, q4⟩ := hn.lseq rfl (by rw [hr]; simp)
        refine .inr ⟨rfl, o0, o1, o2, o4, Int.le_refl _, q1, o3, ?_, q3, .inl ⟨rfl, q4⟩⟩
        rw [e1]; dsimp only at q2; simp; omega
      | @bye remote b k h1 h2 h3 =>
        obtain ⟨b1, b2, b3, b4⟩ := bye_method h3
        have hreq : s.req ≠ .none := by
          intro hq
          have := (hn.none rfl hq).2
          dsimp only at this
          rw [h1] at this
          exact absurd this (by decide)
        obtain ⟨q1, q2, q3, q4⟩ := hn.lseq rfl hreq
        dsimp only at q1 q2 q3 q4
        have hw : l = s.lseq + 1 := by
          rw [b4]; simp only [Option.getD_some]
          exact wrap64_in (by omega) (by omega)
        refine .inr ⟨rfl, isOwn_bye h3, b1, by omega, by rw [h1]; decide, by omega, q1, by omega, ?_, q3, .inr b3⟩
        rw [e1]; simp; omega
    have hcs : m.cseq = m0.cseq := by
      rw [e5.cseq, if_neg]
      rcases hm with ⟨_, k, _⟩ | ⟨_, _, _, k, _⟩
      · rw [k.2]; omega
      · omega
    have hc' : m'.cseq = m0.cseq := e6.cseq.trans hcs
    have hm' : m'.method = m0.method := e6.method.trans e5.method
    refine ⟨fun x hx => ?_, fun hr x hx => ?_, fun hg => ?_, fun hg => ?_, fun hg => ?_, fun hg => ?_⟩
    · rcases hsends x hx with hx | rfl
      · exact hn.sends x hx
      · dsimp only; rw [hm', hc']
        rcases hm with ⟨_, k, _⟩ | ⟨_, _, k1, k2, _⟩
        · exact .inl k
        · exact .inr ⟨k1, k2⟩
    · rw [hstate] at hr
      rcases hsends x hx with hx | rfl
      · exact hn.early hr x hx
      · dsimp only; rw [hc']
        rcases hm with ⟨_, k, _⟩ | ⟨_, _, _, _, k, _⟩
        · exact k.2
        · omega
    · obtain ⟨_, _, ⟨hi, _, k⟩ | ⟨hi, _, k⟩⟩ := e8 hg
      · rcases hm with ⟨_, k2, _⟩ | ⟨hi2, _⟩
        · rw [k, hm', hc']; exact ⟨e7, k2.1, k2.2⟩
        · simp_all
      · rw [k]; exact ⟨n1, n2, n3⟩
    · intro hq
      obtain ⟨_, _, ⟨_, k, _⟩ | ⟨_, k, _⟩⟩ := e8 hg <;> rw [k] at hq <;> cases hq
    · intro y hy
      obtain ⟨_, kl, ⟨_, k, _⟩ | ⟨hi, k, _⟩⟩ := e8 hg
      · rw [k] at hy; cases hy
      · rw [k] at hy; cases hy
        rcases hm with ⟨hi2, _⟩ | ⟨_, k0, k1, k2, k3, k4, k5, k6, _⟩
        · simp_all
        · rw [if_neg (by omega)] at kl
          rw [hstate, hm', hc', kl]
          exact ⟨e7, k1, k2, k6, k3⟩
    · intro _
      obtain ⟨_, kl, _⟩ := e8 hg
      rw [kl]
      rcases hm with ⟨_, k, kl2⟩ | ⟨_, k0, k1, k2, k3, k4, k5, k6, k7, k8, k9⟩
      · rw [k.2] at hc' hcs
        split
        · rename_i hrank
          rw [hcs]
          refine ⟨Int.le_refl _, by omega, fun x hx => ?_, (d, m'), by rw [e1]; simp, hc'⟩
          rcases hsends x hx with hx | rfl
          · rw [hn.early hrank x hx]; exact Int.le_refl _
          · rw [hc']; exact Int.le_refl _
        · rename_i hrank
          have hreq : s.req ≠ .none := fun hq => hrank (hn.none rfl hq).2
          obtain ⟨q1, q2, q3, q4⟩ := hn.lseq rfl hreq
          dsimp only at q1 q2 q3 q4
          rw [kl2]
          refine ⟨q1, by rw [e1]; simp; omega, fun x hx => ?_, ?_⟩
          · rcases hsends x hx with hx | rfl
            · exact q3 x hx
            · rw [hc']; exact q1
          · obtain ⟨x, hx, hxl⟩ := q4
            exact ⟨x, by rw [e1]; simp [hx], hxl⟩
      · rw [if_neg (by omega)]
        refine ⟨by omega, k7, fun x hx => ?_, ?_⟩
        · rcases hsends x hx with hx | rfl
          · have := k8 x hx; omega
          · dsimp only; rw [hc']; exact k6
        · rcases k9 with ⟨k9, x, hx, hxl⟩ | k9
          · exact ⟨x, by rw [e1]; simp [hx], by rw [hxl, k9]⟩
          · exact ⟨(d, m'), by rw [e1]; simp, by rw [← k9]; exact hc'⟩

theorem seq_init (invite : Msg) (hi : isOwn invite = true) :
    Seq invite.method invite.cseq ⟨{ invite := invite }, .go⟩ := by
  refine ⟨rfl, fun _ => ⟨hi, fun m hm => by simp [St.cur] at hm⟩, fun _ _ => ?_⟩
  refine ⟨by simp [own, sends], by simp [own, sends], fun _ => ⟨hi, rfl, rfl⟩,
    fun _ _ => ⟨by simp [own, sends], Nat.zero_lt_two⟩, fun _ m hm => by simp at hm, fun _ hq => by simp at hq⟩

theorem seq_ends {meth : Bytes} {c : Int} (r r' : Run) (h : Seq meth c r) (e : Ends r r') : Seq meth c r' := by
  cases e with
  | same => exact h
  | publish t k x c' hq =>
    have ho := own_transition t k
    have hp := published_transition t k
    obtain ⟨l1, l2⟩ := h.alive rfl
    refine ⟨?_, fun _ => ⟨l1, l2⟩, ?_⟩
    · show (published (transition t k).outs).getLast?.getD _ = k
      rw [hp]; simp
    · show Forward (published (transition t k).outs) → c + (own (transition t k).outs).length < _ → _
      rw [ho, hp]
      intro hf hlen
      have hf' := List.pairwise_append.mp hf
      have hn := h.numbers hf'.1 hlen
      have hlast : 2 ≤ t.state.rank → k = .hangup := by
        intro hr
        have hl := h.last
        dsimp only at hl
        cases hg : (published t.outs).getLast? with
        | none => rw [hg] at hl; rw [← hl] at hr; exact absurd hr (by decide)
        | some y =>
          rw [hg] at hl
          simp only [Option.getD_some] at hl
          have hmf := hf'.2.2 y (List.mem_of_getLast? hg) k (by simp)
          rw [← hl] at hr
          cases y with
          | proceeding => exact absurd hr (by decide)
          | ringing => exact absurd hr (by decide)
          | answered => exact hmf
          | hangup => exact hmf.elim
      have hrank : t.state.rank < 2 ∨ k.rank = 3 := by
        rcases Nat.lt_or_ge t.state.rank 2 with hr | hr
        · exact .inl hr
        · rw [hlast hr]; exact .inr rfl
      refine ⟨?_, ?_, fun _ => hn.invite rfl, fun _ hq' => absurd hq' hq, ?_, ?_⟩
      · show ∀ x ∈ own (transition t k).outs, _
        rw [ho]; exact hn.sends
      · show k.rank < 2 → ∀ x ∈ own (transition t k).outs, _
        rw [ho]; intro hk
        exact hn.early (show t.state.rank < 2 by omega)
      · intro _ m hm
        obtain ⟨o0, o1, o2, o3, o4⟩ := hn.other rfl m hm
        refine ⟨o0, o1, o2, o3, ?_⟩
        show 2 ≤ k.rank
        dsimp only at o4
        omega
      · intro _ hq'
        show c ≤ t.lseq ∧ t.lseq ≤ c + (own (transition t k).outs).length ∧
          (∀ x ∈ own (transition t k).outs, x.2.cseq ≤ t.lseq) ∧ ∃ x ∈ own (transition t k).outs, x.2.cseq = t.lseq
        rw [ho]; exact hn.lseq rfl hq'

theorem seq_loop (w : World) (invite : Msg) (evs : List Event) (hi : isOwn invite = true)
    (h0 : 0 < invite.cseq) :
    Seq invite.method invite.cseq (loop w evs (start w invite)) := by
  refine invariant (J := Seq invite.method invite.cseq) invite (seq_init invite hi) (fun s c h => ?_)
    (seq_act w h0) seq_ends evs
  refine ⟨h.last, fun _ => h.alive rfl, fun hf hl => ?_⟩
  have hn := h.numbers hf hl
  exact ⟨hn.sends, hn.early, fun _ => hn.invite rfl, fun _ => hn.none rfl, fun _ => hn.other rfl, fun _ => hn.lseq rfl⟩

/-! ### An invite without sequence number -/

/-- No request was sent yet. -/
structure Pre (meth : Bytes) (r : Run) : Prop where
  own : own r.s.outs = []
  shown : published r.s.outs = []
  state : r.s.state = .proceeding
  invite : r.c = .go → isOwn r.s.invite = true ∧ r.s.invite.method = meth ∧ 0 ≤ r.s.invite.cseq ∧ r.s.req = .none

/-- The dialog numbers its requests from the number of the first one, whether the application or
`populate` chose it. -/
def Numbered (meth : Bytes) (r : Run) : Prop := Pre meth r ∨
  ∃ c, 0 < c ∧ Seq meth c r ∧ ∃ x ∈ own r.s.outs, x.2.cseq = c

theorem numbered_act (w : World) (hids : ∀ n, 0 < (w.ids n).cseq) {meth : Bytes} (s : St) (r : Run)
    (h : Numbered meth ⟨s, .go⟩) (a : Act w s r) : Numbered meth r := by
  rcases h with h | ⟨c, hc, h, hx⟩
  · obtain ⟨i1, i2, i3, i4⟩ := h.invite rfl
    dsimp only at i1 i2 i3 i4
    have hcur : ∀ m, s.cur = some m → isOwn m = true := by
      intro m hm; unfold St.cur at hm; rw [i4] at hm; cases hm
    obtain ⟨hpub, hstate⟩ := act_shown a
    have ho : Dialog.own s.outs = [] := h.own
    have hsh : published s.outs = [] := h.shown
    have hst : s.state = .proceeding := h.state
    have e := effect_act w s r i1 hcur a
    cases e with
    | quiet e1 e2 e3 =>
      refine .inl ⟨by rw [e1]; exact ho, by rw [hpub]; exact hsh, by rw [hstate]; exact hst, fun hg => ?_⟩
      obtain ⟨k1, k2, _⟩ := e3 hg
      exact ⟨isOwn_core k1 i1, by rw [k1.method]; exact i2, by rw [k1.cseq]; exact i3, by rw [k2]; exact i4⟩
    | resend e1 e2 e3 e4 e5 e6 e7 =>
      rcases e5 with ⟨_, k, _⟩ | ⟨_, k⟩ <;> rw [i4] at k <;> cases k
    | @attempt m0 m m' d n l inv e1 e2 e3 e4 e5 e6 e7 e8 =>
      have hm0 : m0.method = meth ∧ 0 ≤ m0.cseq ∧ inv = true := by
        cases e4 with
        | invite => exact ⟨i2, i3, rfl⟩
        | other hr => rw [i4] at hr; cases hr
        | bye h1 _ _ => rw [hst] at h1; cases h1
      obtain ⟨m1, m2, hinv⟩ := hm0
      have hcs : 0 < m.cseq := by
        rw [e5.cseq]
        split
        · exact hids n
        · omega
      have hm' : m'.method = meth := e6.method.trans (e5.method.trans m1)
      rw [ho, List.nil_append] at e1
      refine .inr ⟨m.cseq, hcs, ⟨?_, fun hg => ?_, fun _ _ => ⟨?_, ?_, fun hg => ?_, fun hg hq => ?_, fun hg y hy => ?_,
        fun hg _ => ?_⟩⟩, (d, m'), by rw [e1]; simp, e6.cseq⟩
      · rw [hpub, hsh, hstate, hst]; rfl
      · obtain ⟨_, _, ⟨_, k1, k2⟩ | ⟨k, _⟩⟩ := e8 hg
        · refine ⟨by rw [k2]; exact e7, fun y hy => ?_⟩
          rw [cur_of_invite k1] at hy
          cases hy
          rw [k2]; exact e7
        · rw [hinv] at k; cases k
      · rw [e1]; intro x hx
        simp only [List.mem_singleton] at hx
        subst hx
        exact .inl ⟨hm', e6.cseq⟩
      · rw [e1]; intro _ x hx
        simp only [List.mem_singleton] at hx
        subst hx
        exact e6.cseq
      · obtain ⟨_, _, ⟨_, k1, k2⟩ | ⟨k, _⟩⟩ := e8 hg
        · rw [k2]; exact ⟨e7, hm', e6.cseq⟩
        · rw [hinv] at k; cases k
      · obtain ⟨_, _, ⟨_, k1, k2⟩ | ⟨k, _⟩⟩ := e8 hg
        · rw [k1] at hq; cases hq
        · rw [hinv] at k; cases k
      · obtain ⟨_, _, ⟨_, k1, k2⟩ | ⟨k, _⟩⟩ := e8 hg
        · rw [k1] at hy; cases hy
        · rw [hinv] at k; cases k
      · obtain ⟨_, kl, _⟩ := e8 hg
        rw [hst] at kl
        have kl' : r.s.lseq = m.cseq := kl
        rw [kl', e1]
        refine ⟨Int.le_refl _, by simp only [List.length_singleton]; omega, ?_, (d, m'), by simp, e6.cseq⟩
        intro x hx
        simp only [List.mem_singleton] at hx
        subst hx
        rw [e6.cseq]; exact Int.le_refl _
  · refine .inr ⟨c, hc, seq_act w hc s r h a, ?_⟩
    obtain ⟨x, hx, hxc⟩ := hx
    refine ⟨x, ?_, hxc⟩
    cases effect_act w s r (h.alive rfl).1 (h.alive rfl).2 a with
    | quiet e1 => rw [e1]; exact hx
    | resend e1 => rw [e1]; exact List.mem_append_left _ hx
    | attempt e1 => rw [e1]; exact List.mem_append_left _ hx

theorem numbered_loop (w : World) (invite : Msg) (evs : List Event) (hi : isOwn invite = true)
    (h0 : 0 ≤ invite.cseq) (hids : ∀ n, 0 < (w.ids n).cseq) :
    Numbered invite.method (loop w evs (start w invite)) := by
  refine invariant (J := Numbered invite.method) invite ?_ (fun s c h => ?_) (numbered_act w hids) ?_ evs
  · exact .inl ⟨by simp [own, sends], by simp [published], rfl, fun _ => ⟨hi, rfl, h0, rfl⟩⟩
  · rcases h with h | ⟨k, hk, h, hx⟩
    · exact .inl ⟨h.own, h.shown, h.state, fun _ => h.invite rfl⟩
    · refine .inr ⟨k, hk, ⟨h.last, fun _ => h.alive rfl, fun hf hl => ?_⟩, hx⟩
      have hn := h.numbers hf hl
      exact ⟨hn.sends, hn.early, fun _ => hn.invite rfl, fun _ => hn.none rfl, fun _ => hn.other rfl, fun _ => hn.lseq rfl⟩
  · intro r r' h e
    rcases h with h | ⟨k, hk, h, hx⟩
    · cases e with
      | same => exact .inl h
      | publish t c x c' hq => exact absurd (h.invite rfl).2.2.2 hq
    · refine .inr ⟨k, hk, seq_ends r r' h e, ?_⟩
      cases e with
      | same => exact hx
      | publish t c x c' hq =>
        show ∃ x ∈ own (transition t c).outs, _
        rw [own_transition]; exact hx

end Gosip.Dialog
