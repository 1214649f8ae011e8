import Verif.Sip.GrQuote
import Verif.Sip.LineValues

/-!
# Parameters, as read by the message machine
-/

namespace Gosip.Sip.MsgM.Gr
open Spec

theorem sws_nil : Sws [] := .blanks fun _ h => nomatch h

/-- White space is followed by what remains without it. -/
theorem skipWs_sws (v : Bytes) : ∃ w, v = w ++ skipWs v ∧ Sws w := by
  obtain ⟨w, hw, e⟩ := blanks_append (v := v)
  unfold skipWs
  split
  · rename_i x r h
    split
    · rename_i hb
      obtain ⟨w', hw', e'⟩ := blanks_append (v := r)
      refine ⟨w ++ CRLF ++ (x :: w'), ?_, .fold hw ?_ (by simp)⟩
      · rw [e, h]
        conv => lhs; rw [e']
        simp [CRLF]
      · exact List.forall_mem_cons.2 ⟨blank_iff'.1 hb, hw'⟩
    · rw [← h]; exact ⟨w, e, .blanks hw⟩
  · exact ⟨w, e, .blanks hw⟩

theorem skipBlanks_all {w r : Bytes} (hw : Blanks w) : skipBlanks (w ++ r) = skipBlanks r := by
  induction w with
  | nil => rfl
  | cons c w ih =>
    rw [List.cons_append, skipBlanks_cons (blank_iff'.2 (hw c List.mem_cons_self))]
    exact ih fun d hd => hw d (List.mem_cons_of_mem _ hd)

/-- White space before something else is skipped. -/
theorem sws_skipWs {w : Bytes} (h : Sws w) {c : UInt8} {t : Bytes} (hc : blank c = false) (h13 : c ≠ 13) :
    skipWs (w ++ c :: t) = c :: t := by
  cases h with
  | blanks hw =>
    unfold skipWs
    rw [skipBlanks_all hw, skipBlanks_stop hc]
    split
    · rename_i h; cases h; exact absurd rfl h13
    · rfl
  | @fold w w' hw hw' hne =>
    cases w' with
    | nil => exact absurd rfl hne
    | cons d w' =>
      unfold skipWs
      have e : w ++ CRLF ++ d :: w' ++ c :: t = w ++ 13 :: 10 :: d :: (w' ++ c :: t) := by simp [CRLF]
      rw [e, skipBlanks_all hw, skipBlanks_stop (by decide)]
      have hd : blank d = true := blank_iff'.2 (hw' d List.mem_cons_self)
      simp only [hd, if_true]
      rw [skipBlanks_all fun x hx => hw' x (List.mem_cons_of_mem _ hx), skipBlanks_stop hc]

/-- White space is skipped, as a relation. -/
theorem skip_rel {k k1 k2 k3 e : Nat} {as : List MAct} (p : SkipPart k k1 k2 k3 e as) {l m : Loc} {E : List Upd}
    (hf : ∀ s c, ∃ l', sacts as c { l with seg := s } = some (l', E) ∧ Agree (live e) l' m)
    (first : ∀ {t b}, Acc e m t b → ∃ c t', t = c :: t' ∧ blank c = false ∧ c ≠ 13) {v : Bytes} {us : List Upd} :
    Acc k l v us ↔ ∃ w r b, v = w ++ r ∧ Sws w ∧ us = E ++ b ∧ Acc e m r b := by
  rw [p.skip hf]
  constructor
  · rintro ⟨b, h1, h2⟩
    obtain ⟨w, e, hw⟩ := skipWs_sws v
    exact ⟨w, _, b, e, hw, h1, h2⟩
  · rintro ⟨w, r, b, rfl, hw, h1, h2⟩
    obtain ⟨c, t, rfl, hc, h13⟩ := first h2
    exact ⟨b, h1, by rw [sws_skipWs hw hc h13]; exact h2⟩

/-! ### Parameters -/

/-- Characters of an unquoted value. -/
def valueB (c : UInt8) : Bool := tokenc c || c == 58 || c == 91 || c == 93

theorem valueB_iff : ∀ c, valueB c = true ↔ valuec c := by decide +kernel

/-- The states of a parameter. -/
structure ParamPart (B k1 : Nat) : Prop where
  s0 : Shape B [⟨tokenc, [.start, .mark], B + 1⟩] none none
  a1 : AfterPart (B + 1) (B + 2) k1 (k1 + 1) (k1 + 2) tokenc [] [.name] [(44, B + 3), (59, B + 7), (61, B + 11)] (some (B + 17))
  w : SwsPart (B + 11) (B + 29) (B + 30) (B + 31) [⟨valueB, [.append], B + 12⟩, ⟨(· == 34), [], B + 18⟩]
  a2 : AfterPart (B + 12) (B + 13) (B + 14) (B + 15) (B + 16) valueB [.append] [] [(44, B + 3), (59, B + 7)] (some (B + 17))
  q : QPart (B + 18)
  a3 : AfterPart (B + 20) (B + 13) (B + 14) (B + 15) (B + 16) (fun _ => false) [] [] [(44, B + 3), (59, B + 7)]
    (some (B + 17))
  l12 : (live (B + 12)).seg = false
  l18 : (live (B + 18)).seg = false

theorem param_68 : ParamPart 68 100 := by
  constructor
  case q => exact qpart_86
  all_goals decide +kernel

theorem param_153 : ParamPart 153 185 := by
  constructor
  case q => exact qpart_171
  all_goals decide +kernel

theorem isToken_cons {c : UInt8} {s : Bytes} (h : tokenc c = true) (g : ∀ d ∈ s, tokenc d = true) : IsToken (c :: s) :=
  ⟨by simp, List.forall_mem_cons.2 ⟨(tokenc_iff c).1 h, fun d hd => (tokenc_iff d).1 (g d hd)⟩⟩

theorem isToken_iff {n : Bytes} : IsToken n ↔ ∃ c s, n = c :: s ∧ tokenc c = true ∧ ∀ d ∈ s, tokenc d = true := by
  constructor
  · rintro ⟨h1, h2⟩
    cases n with
    | nil => exact absurd rfl h1
    | cons c s =>
      exact ⟨c, s, rfl, (tokenc_iff c).2 (h2 c List.mem_cons_self), fun d hd => (tokenc_iff d).2 (h2 d (List.mem_cons_of_mem _ hd))⟩
  · rintro ⟨c, s, rfl, h1, h2⟩; exact isToken_cons h1 h2

theorem token_ne {c : UInt8} (h : tokenc c = true) : c ≠ 13 := by rintro rfl; exact absurd h (by decide)

theorem token_nb : ∀ c : UInt8, tokenc c = true → blank c = false ∧ c ≠ 13 := by decide +kernel

/-- More separators. -/
theorem Tail.mono {seps seps' : List (UInt8 × Nat)} {eol : Option Nat} {l : Loc} {r : Bytes} {us : List Upd}
    (h : Tail seps eol l r us) (hs : ∀ x ∈ seps, x ∈ seps') : Tail seps' eol l r us := by
  rcases h with ⟨w, c, t, x, e, h1, h2, h3⟩ | h
  · exact .inl ⟨w, c, t, x, e, h1, hs _ h2, h3⟩
  · exact .inr h

/-- A state with a single transition. -/
theorem acc_single {k x : Nat} {cls : UInt8 → Bool} {as : List MAct} (h : Shape k [⟨cls, as, x⟩] none none) {l : Loc}
    {v : Bytes} {us : List Upd} : Acc k l v us ↔ ∃ c t, v = c :: t ∧ c ≠ 13 ∧ cls c = true ∧ Go as x l c t us := by
  rw [acc_shape h, out_none]
  constructor
  · rintro ⟨c, t, as, y, e, h1, h2, h3⟩
    rcases entAt_cons.1 h2 with ⟨a1, a2⟩ | ⟨_, a2⟩
    · cases a2; exact ⟨c, t, e, h1, a1, h3⟩
    · cases a2
  · rintro ⟨c, t, e, h1, h2, h3⟩
    exact ⟨c, t, as, x, e, h1, entAt_cons.2 (.inl ⟨h2, rfl⟩), h3⟩

/-- A parameter, and what follows it. -/
theorem ParamPart.acc {B k1 : Nat} (p : ParamPart B k1) {l : Loc} {v : Bytes} {us : List Upd} :
    Acc B l v us ↔ ∃ t x r, v = t ++ r ∧ ParamText t x ∧
      Tail [(44, B + 3), (59, B + 7)] (some (B + 17)) { l with name := x.1, buf := x.2 } r us := by
  rw [acc_single p.s0]
  have go : ∀ c t, Go [.start, .mark] (B + 1) l c t us ↔ Acc (B + 1) { l with buf := [], seg := [c] } t us := by
    intro c t; rw [go_adv' rfl rfl]; simp
  have name : ∀ c t, Acc (B + 1) { l with buf := [], seg := [c] } t us ↔ ∃ s r, t = s ++ r ∧ (∀ d ∈ s, tokenc d = true) ∧
      Tail [(44, B + 3), (59, B + 7), (61, B + 11)] (some (B + 17)) { l with buf := [], seg := [], name := c :: s } r us := by
    intro c t
    exact p.a1.plain (g := fun s => { l with buf := [], seg := c :: s, name := c :: s }) (fun s d => rfl)
  have val : ∀ n t, Acc (B + 11) { l with buf := [], seg := [], name := n } t us ↔ ∃ w y x r, t = w ++ (y ++ r) ∧ Sws w ∧
      ((y = x ∧ x ≠ [] ∧ ∀ c ∈ x, valuec c) ∨ ∃ y', y = 34 :: y' ++ [34] ∧ QText y' x) ∧
      Tail [(44, B + 3), (59, B + 7)] (some (B + 17)) { l with name := n, buf := x } r us := by
    intro n t
    rw [p.w.acc]
    constructor
    · rintro ⟨w, r, rfl, hw, h⟩
      obtain ⟨c, t', as, x, rfl, h1, h2, h3⟩ := out_none.1 h
      rcases entAt_cons.1 h2 with ⟨g1, g2⟩ | ⟨_, h2⟩
      · cases g2
        rw [go_adv' rfl rfl] at h3
        obtain ⟨b, e, h3⟩ := h3
        have e : us = b := e
        subst e
        obtain ⟨s, r, rfl, g3, g4⟩ := p.a2.append.1 h3
        exact ⟨w, c :: s, c :: s, r, rfl, hw, .inl ⟨rfl, by simp, List.forall_mem_cons.2 ⟨(valueB_iff c).1 g1,
          fun d hd => (valueB_iff d).1 (g3 d hd)⟩⟩, g4⟩
      · rcases entAt_cons.1 h2 with ⟨g1, g2⟩ | ⟨_, h2⟩
        · cases g2
          have : c = 34 := by simpa using g1
          subst this
          obtain ⟨y, x, r, rfl, g3, g4⟩ := p.q.acc.1 (go_nil.1 h3)
          obtain ⟨s, r', rfl, g5, g6⟩ := (p.a3.plain (g := fun s => { l with name := n, buf := x, seg := s }) (fun s d => rfl)).1 g4
          have : s = [] := by
            cases s with
            | nil => rfl
            | cons d s => exact absurd (g5 d List.mem_cons_self) (by simp)
          subst this
          exact ⟨w, 34 :: y ++ [34], x, r', by simp, hw, .inr ⟨y, rfl, g3⟩, g6⟩
        · cases h2
    · rintro ⟨w, y, x, r, rfl, hw, hy, ht⟩
      refine ⟨w, y ++ r, rfl, hw, out_none.2 ?_⟩
      rcases hy with ⟨rfl, h1, h2⟩ | ⟨y', rfl, h1⟩
      · cases y with
        | nil => exact absurd rfl h1
        | cons c s =>
          have hc := (valueB_iff c).2 (h2 c List.mem_cons_self)
          refine ⟨c, s ++ r, [.append], B + 12, rfl, ?_, entAt_cons.2 (.inl ⟨hc, rfl⟩), ?_⟩
          · rintro rfl; exact absurd hc (by decide)
          · rw [go_adv' rfl rfl]
            refine ⟨us, rfl, ?_⟩
            refine p.a2.append.2 ⟨s, r, rfl, fun d hd => (valueB_iff d).2 (h2 d (List.mem_cons_of_mem _ hd)), ht⟩
      · refine ⟨34, y' ++ 34 :: r, [], B + 18, by simp, by decide, ?_, go_nil.2 (p.q.acc.2 ⟨y', x, r, rfl, h1, ?_⟩)⟩
        · rw [entAt_cons, entAt_cons]; exact .inr ⟨by show valueB 34 = false; decide, .inl ⟨by simp, rfl⟩⟩
        · exact (p.a3.plain (g := fun s => { l with name := n, buf := x, seg := s }) (fun s d => rfl)).2
            ⟨[], r, rfl, (fun _ h => nomatch h), ht⟩
  constructor
  · rintro ⟨c, t, rfl, h1, h2, h3⟩
    obtain ⟨s, r, rfl, g1, g2⟩ := (name _ _).1 ((go _ _).1 h3)
    have hn := isToken_cons h2 g1
    rcases g2 with ⟨w, d, t, x, rfl, i1, i2, i3⟩ | g2
    · simp only [List.mem_cons, Prod.mk.injEq, List.not_mem_nil, or_false] at i2
      rcases i2 with ⟨rfl, rfl⟩ | ⟨rfl, rfl⟩ | ⟨rfl, rfl⟩
      · exact ⟨c :: s, _, _, rfl, .flag hn, .inl ⟨w, 44, t, _, rfl, i1, by simp, i3⟩⟩
      · exact ⟨c :: s, _, _, rfl, .flag hn, .inl ⟨w, 59, t, _, rfl, i1, by simp, i3⟩⟩
      · obtain ⟨w', y, x, r, rfl, j1, j2, j3⟩ := (val _ _).1 i3
        have hs : Sep 61 (w ++ 61 :: w') := ⟨w, w', rfl, i1, j1⟩
        rcases j2 with ⟨rfl, j4, j5⟩ | ⟨y', rfl, j4⟩
        · exact ⟨c :: s ++ (w ++ 61 :: w') ++ y, (c :: s, y), r, by simp, .plain hn hs j4 j5, j3⟩
        · exact ⟨c :: s ++ (w ++ 61 :: w') ++ (34 :: y' ++ [34]), (c :: s, x), r, by simp, .quoted hn hs j4, j3⟩
    · exact ⟨c :: s, _, _, rfl, .flag hn, .inr g2⟩
  · rintro ⟨t, x, r, rfl, h1, h2⟩
    have fin : ∀ {n w w' y : Bytes} {x : Bytes × Bytes} {r : Bytes}, IsToken n → Sws w → Sws w' → x.1 = n →
        ((y = x.2 ∧ x.2 ≠ [] ∧ ∀ c ∈ x.2, valuec c) ∨ ∃ y', y = 34 :: y' ++ [34] ∧ QText y' x.2) →
        Tail [(44, B + 3), (59, B + 7)] (some (B + 17)) { l with name := x.1, buf := x.2 } r us →
        ∃ c t, n ++ (w ++ 61 :: w') ++ y ++ r = c :: t ∧ c ≠ 13 ∧ tokenc c = true ∧ Go [.start, .mark] (B + 1) l c t us := by
      rintro n w w' y ⟨n', x⟩ r hn hw hw' e hy ht
      obtain ⟨c, s, rfl, g1, g2⟩ := isToken_iff.1 hn
      have e : n' = c :: s := e
      subst e
      refine ⟨c, s ++ (w ++ 61 :: w') ++ y ++ r, by simp, token_ne g1, g1, (go _ _).2 ((name _ _).2 ⟨s, w ++ 61 :: (w' ++ (y ++ r)),
        by simp, g2, .inl ⟨w, 61, w' ++ (y ++ r), B + 11, rfl, hw, by simp, (val _ _).2 ⟨w', y, x, r, rfl, hw', hy, ht⟩⟩⟩)⟩
    cases h1 with
    | flag hn =>
      obtain ⟨c, s, rfl, g1, g2⟩ := isToken_iff.1 hn
      refine ⟨c, s ++ r, rfl, token_ne g1, g1, (go _ _).2 ((name _ _).2 ⟨s, r, rfl, g2, h2.mono ?_⟩)⟩
      intro x hx
      simp only [List.mem_cons, List.not_mem_nil, or_false] at hx ⊢
      rcases hx with rfl | rfl <;> simp
    | plain hn hs h3 h4 =>
      obtain ⟨w, w', rfl, g1, g2⟩ := hs
      exact fin hn g1 g2 rfl (.inl ⟨rfl, h3, h4⟩) h2
    | quoted hn hs h3 =>
      obtain ⟨w, w', rfl, g1, g2⟩ := hs
      exact fin hn g1 g2 rfl (.inr ⟨_, rfl, h3⟩) h2

end Gosip.Sip.MsgM.Gr
