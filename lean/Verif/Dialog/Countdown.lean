import Verif.Dialog.Order
import Verif.Spec.Prefs

/-!
# Every transmission of the INVITE uses up one of Max-Forwards
-/

namespace Gosip.Dialog
open Sip Spec

/-- The INVITEs among the requests. -/
def calls (l : List Out) : List (Bytes × Msg) := (own l).filter fun x => x.2.method == b!"INVITE"

/-- The `k`-th carries `B - k - 1`, and that is at least one. -/
def Counts (B : Int) (l : List (Bytes × Msg)) : Prop :=
  ∀ (k : Nat) (x : Bytes × Msg), l[k]? = some x → x.2.maxForwards = B - (k + 1) ∧ 1 ≤ x.2.maxForwards

theorem counts_snoc {B : Int} {l : List (Bytes × Msg)} {x : Bytes × Msg} (h : Counts B l)
    (hx : x.2.maxForwards = B - (l.length + 1)) (h1 : 1 ≤ x.2.maxForwards) : Counts B (l ++ [x]) := by
  intro k y hy
  rcases Nat.lt_trichotomy k l.length with hk | rfl | hk
  · rw [List.getElem?_append_left hk] at hy
    exact h k y hy
  · rw [List.getElem?_concat_length] at hy
    cases hy
    exact ⟨hx, h1⟩
  · rw [List.getElem?_eq_none (by simp; omega)] at hy
    cases hy

/-- After each event. -/
structure Counting (mf : Int) (r : Run) : Prop where
  sent : Counts (if mf = 0 then 70 else mf) (calls r.s.outs)
  live : r.c = .go → isOwn r.s.invite = true ∧ ∀ m, r.s.cur = some m → isOwn m = true
  method : r.c = .go → r.s.invite.method = b!"INVITE"
  left : r.c = .go → (calls r.s.outs = [] ∧ r.s.invite.maxForwards = mf ∧ r.s.req ≠ .invite) ∨
    (1 ≤ r.s.invite.maxForwards ∧ r.s.invite.maxForwards = (if mf = 0 then 70 else mf) - (calls r.s.outs).length)
  other : r.c = .go → ∀ m, r.s.req = .other m → m.method ≠ b!"INVITE"

theorem calls_of_own {l l' : List Out} (h : own l = own l') : calls l = calls l' := by unfold calls; rw [h]

theorem calls_invite {l l' : List Out} {d : Bytes} {m : Msg} (h : own l = own l' ++ [(d, m)])
    (hm : m.method = b!"INVITE") : calls l = calls l' ++ [(d, m)] := by
  unfold calls; rw [h, List.filter_append]; simp [hm]

theorem calls_other {l l' : List Out} {d : Bytes} {m : Msg} (h : own l = own l' ++ [(d, m)])
    (hm : m.method ≠ b!"INVITE") : calls l = calls l' := by
  unfold calls; rw [h, List.filter_append]; simp [hm]

theorem counting_act {w : World} {mf : Int} (hmf : 0 ≤ mf) (s : St) (r : Run) (h : Counting mf ⟨s, .go⟩) (a : Act w s r) :
    Counting mf r := by
  obtain ⟨l1, l2⟩ := h.live rfl
  have e := effect_act w s r l1 l2 a
  have hlive : r.c = .go → isOwn r.s.invite = true ∧ ∀ m, r.s.cur = some m → isOwn m = true :=
    fun hg => alive_act l1 l2 a hg
  have hleft := h.left rfl
  have hmeth := h.method rfl
  simp only at hleft hmeth
  cases e with
  | quiet e1 e2 e3 =>
    have hc := calls_of_own e1
    refine ⟨by rw [hc]; exact h.sent, hlive, fun hg => ?_, fun hg => ?_, fun hg => ?_⟩
    · rw [(e3 hg).1.method]; exact hmeth
    · rw [hc, (e3 hg).1.forwards, (e3 hg).2.1]; exact hleft
    · rw [(e3 hg).2.1]; exact h.other rfl
  | @resend m m' d inv e1 e2 e3 e4 e5 e6 e7 =>
    rcases e5 with ⟨hi, hq, rfl⟩ | ⟨hi, hq⟩
    · have hm : m'.method = b!"INVITE" := e3.method.trans hmeth
      rcases hleft with ⟨_, _, hn⟩ | ⟨h1, h2⟩
      · exact absurd hq hn
      have hf := e3.forwards
      rw [if_pos (by omega)] at hf
      have hne := e3.allowed
      have hc := calls_invite e1 hm
      refine ⟨?_, hlive, fun hg => ?_, fun hg => .inr ?_, fun hg y hy => ?_⟩
      · rw [hc]; exact counts_snoc h.sent (by show m'.maxForwards = _; rw [hf, h2]; omega) (by show 1 ≤ m'.maxForwards; omega)
      · rcases (e7 hg).2.2 with ⟨_, _, k⟩ | ⟨k, _⟩
        · rw [k]; exact hm
        · simp_all
      · rcases (e7 hg).2.2 with ⟨_, _, k⟩ | ⟨k, _⟩
        · rw [k, hc, hf, h2]
          simp only [List.length_append, List.length_singleton]
          omega
        · simp_all
      · rcases (e7 hg).2.2 with ⟨_, k, _⟩ | ⟨k, _⟩
        · rw [k] at hy; cases hy
        · simp_all
    · have hm : m'.method ≠ b!"INVITE" := by rw [e3.method]; exact h.other rfl m hq
      have hc := calls_other e1 hm
      have hk : r.c = .go → r.s.req = .other m' ∧ r.s.invite = s.invite := by
        intro hg
        rcases (e7 hg).2.2 with ⟨k, _⟩ | ⟨_, k⟩
        · simp_all
        · exact k
      refine ⟨by rw [hc]; exact h.sent, hlive, fun hg => by rw [(hk hg).2]; exact hmeth, fun hg => ?_, fun hg y hy => ?_⟩
      · rw [hc, (hk hg).2, (hk hg).1]
        rcases hleft with ⟨x1, x2, _⟩ | x
        · exact .inl ⟨x1, x2, (fun hx => nomatch hx)⟩
        · exact .inr x
      · rw [(hk hg).1] at hy; cases hy; exact hm
  | @attempt m0 m2 m' d n l inv e1 e2 e3 e4 e5 e6 e7 e8 =>
    have hor : (inv = true ∧ m0.method = b!"INVITE" ∧ m0.maxForwards = s.invite.maxForwards) ∨
        (inv = false ∧ m0.method ≠ b!"INVITE") := by
      cases e4 with
      | invite u a ha => exact .inl ⟨rfl, hmeth, rfl⟩
      | other hr => exact .inr ⟨rfl, h.other rfl _ hr⟩
      | bye _ _ h3 => exact .inr ⟨rfl, by rw [(bye_method h3).1]; decide⟩
    rcases hor with ⟨rfl, hm0, hf0⟩ | ⟨rfl, hm0⟩
    · have hm : m'.method = b!"INVITE" := e6.method.trans (e5.method.trans hm0)
      have hp := e5.forwards
      rw [hf0] at hp
      have hb : 1 ≤ m2.maxForwards ∧ m2.maxForwards = (if mf = 0 then 70 else mf) - (calls s.outs).length := by
        rcases hleft with ⟨x1, x2, _⟩ | ⟨x1, x2⟩
        · rw [hp, x2, x1]
          by_cases hz : mf = 0
          · simp [hz]
          · simp only [hz, if_false, List.length_nil]; omega
        · rw [hp, if_neg (by omega)]; exact ⟨x1, x2⟩
      have hf := e6.forwards
      rw [if_pos (by omega)] at hf
      have hne := e6.allowed
      have hc := calls_invite e1 hm
      refine ⟨?_, hlive, fun hg => ?_, fun hg => .inr ?_, fun hg y hy => ?_⟩
      · rw [hc]; exact counts_snoc h.sent (by show m'.maxForwards = _; rw [hf, hb.2]; omega) (by show 1 ≤ m'.maxForwards; omega)
      · rcases (e8 hg).2.2 with ⟨_, _, k⟩ | ⟨k, _⟩
        · rw [k]; exact hm
        · simp_all
      · rcases (e8 hg).2.2 with ⟨_, _, k⟩ | ⟨k, _⟩
        · rw [k, hc, hf, hb.2]
          simp only [List.length_append, List.length_singleton]
          omega
        · simp_all
      · rcases (e8 hg).2.2 with ⟨_, k, _⟩ | ⟨k, _⟩
        · rw [k] at hy; cases hy
        · simp_all
    · have hm : m'.method ≠ b!"INVITE" := by rw [e6.method, e5.method]; exact hm0
      have hc := calls_other e1 hm
      have hk : r.c = .go → r.s.req = .other m' ∧ r.s.invite = s.invite := by
        intro hg
        rcases (e8 hg).2.2 with ⟨k, _⟩ | ⟨_, k⟩
        · simp_all
        · exact k
      refine ⟨by rw [hc]; exact h.sent, hlive, fun hg => by rw [(hk hg).2]; exact hmeth, fun hg => ?_, fun hg y hy => ?_⟩
      · rw [hc, (hk hg).2, (hk hg).1]
        rcases hleft with ⟨x1, x2, _⟩ | x
        · exact .inl ⟨x1, x2, (fun hx => nomatch hx)⟩
        · exact .inr x
      · rw [(hk hg).1] at hy; cases hy; exact hm

theorem counting_loop (w : World) (invite : Msg) (evs : List Event) (hi : isOwn invite = true)
    (hm : invite.method = b!"INVITE") (hf : 0 ≤ invite.maxForwards) :
    Counting invite.maxForwards (loop w evs (start w invite)) := by
  refine invariant (J := Counting invite.maxForwards) invite ?_ (fun s c h => ?_) (counting_act hf) ?_ evs
  · exact ⟨fun k x hx => by simp [calls, own, sends] at hx, fun _ => ⟨hi, fun m hm => by cases hm⟩, fun _ => hm,
      fun _ => .inl ⟨by simp [calls, own, sends], rfl, (fun hx => nomatch hx)⟩, fun _ m hm => nomatch hm⟩
  · exact ⟨h.sent, fun _ => h.live rfl, fun _ => h.method rfl, fun _ => h.left rfl, fun _ => h.other rfl⟩
  · intro r r' h e
    cases e with
    | same => exact h
    | publish t c x c' hq =>
      have ho := calls_of_own (own_transition t c)
      refine ⟨?_, fun _ => h.live rfl, fun _ => h.method rfl, fun _ => ?_, fun _ => h.other rfl⟩
      · show Counts _ (calls (transition t c).outs)
        rw [ho]; exact h.sent
      · show (calls (transition t c).outs = [] ∧ _) ∨ (_ ∧ _ = _ - ((calls (transition t c).outs).length : Int))
        rw [ho]; exact h.left rfl

end Gosip.Dialog
