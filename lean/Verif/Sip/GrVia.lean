import Verif.Sip.GrParam

/-!
# Vias, as read by the message machine
-/

namespace Gosip.Sip.MsgM.Gr
open Spec

/-- White space that must be present after a piece. -/
structure LwsPart (k kb k1 k2 k3 : Nat) (cls : UInt8 → Bool) (la a : List MAct) (es : List Ent) : Prop where
  s : Loop k cls la [⟨blank, a, kb⟩] none (some (a, k1))
  b : SwsPart kb k1 k2 k3 es
  adv : moveOf a = .adv

instance {k kb k1 k2 k3 cls la a es} : Decidable (LwsPart k kb k1 k2 k3 cls la a es) :=
  decidable_of_iff (Loop k cls la [⟨blank, a, kb⟩] none (some (a, k1)) ∧ SwsPart kb k1 k2 k3 es ∧ moveOf a = .adv)
    ⟨fun ⟨a, b, c⟩ => ⟨a, b, c⟩, fun ⟨a, b, c⟩ => ⟨a, b, c⟩⟩

theorem sws_cons {c : UInt8} {w : Bytes} (hc : blank c = true) : Sws (c :: w) ↔ Sws w := by
  constructor
  · intro h
    generalize he : c :: w = y at h
    cases h with
    | blanks h => subst he; exact .blanks fun d hd => h d (List.mem_cons_of_mem _ hd)
    | @fold u u' h h4 h5 =>
      cases u with
      | nil => simp [CRLF] at he; rw [he.1] at hc; exact absurd hc (by decide)
      | cons d' u =>
        cases he
        exact .fold (fun c hc => h c (List.mem_cons_of_mem _ hc)) h4 h5
  · intro h
    cases h with
    | blanks h => exact .blanks (List.forall_mem_cons.2 ⟨blank_iff'.1 hc, h⟩)
    | @fold u u' h h4 h5 => exact .fold (w := c :: u) (List.forall_mem_cons.2 ⟨blank_iff'.1 hc, h⟩) h4 h5

/-- White space that begins with something else than a blank is a continuation. -/
theorem sws_crlf {c : UInt8} {w : Bytes} (hc : blank c = false) (h : Sws (c :: w)) :
    ∃ w', c :: w = 13 :: 10 :: w' ∧ Blanks w' ∧ w' ≠ [] := by
  generalize he : c :: w = y at h
  cases h with
  | blanks h => subst he; rw [blank_iff'.2 (h c List.mem_cons_self)] at hc; cases hc
  | @fold u u' h h4 h5 =>
    cases u with
    | nil => exact ⟨u', rfl, h4, h5⟩
    | cons d u => cases he; rw [blank_iff'.2 (h c List.mem_cons_self)] at hc; cases hc

theorem startsWSP_blanks {w r : Bytes} (h : Blanks w) (hne : w ≠ []) : startsWSP (w ++ r) = true := by
  cases w with
  | nil => exact absurd rfl hne
  | cons d w => exact blank_iff'.2 (h d List.mem_cons_self)

theorem LwsPart.out {k kb k1 k2 k3 : Nat} {cls : UInt8 → Bool} {la a : List MAct} {es : List Ent}
    (p : LwsPart k kb k1 k2 k3 cls la a es) {l l' : Loc} (hf : ∀ c, sacts a c l = some (l', [])) {r : Bytes}
    {us : List Upd} :
    Out [⟨blank, a, kb⟩] none (some (a, k1)) l r us ↔
      ∃ w t, r = w ++ t ∧ Lws w ∧ Out es none none { l' with seg := l'.seg ++ w } t us := by
  have go : ∀ {x c t}, Go a x l c t us ↔ Acc x { l' with seg := l'.seg ++ [c] } t us := by
    intro x c t; rw [go_adv' p.adv (hf c)]; simp
  constructor
  · rintro ⟨c, t, as, x, rfl, h1, ⟨h2, h3⟩ | ⟨_, _, h3⟩ | ⟨rfl, h2, h3⟩⟩
    · rcases entAt_cons.1 h3 with ⟨g1, g2⟩ | ⟨_, g2⟩
      · cases g2
        obtain ⟨w, r, rfl, g2, g3⟩ := p.b.acc.1 (go.1 h1)
        exact ⟨c :: w, r, rfl, ⟨(sws_cons g1).2 g2, by simp⟩, by simpa using g3⟩
      · cases g2
    · cases h3
    · cases h3
      obtain ⟨w, r, rfl, g1, g2, g3⟩ := p.b.f.acc.1 (go.1 h1)
      exact ⟨[] ++ CRLF ++ w, r, by simp [CRLF], ⟨.fold (fun _ h => nomatch h) g1 g2, by simp [CRLF]⟩, by simpa [CRLF] using g3⟩
  · rintro ⟨w, t, rfl, ⟨h1, hne⟩, h2⟩
    cases w with
    | nil => exact absurd rfl hne
    | cons d w =>
      by_cases hd : blank d = true
      · refine ⟨d, w ++ t, a, kb, rfl, go.2 (p.b.acc.2 ⟨w, t, rfl, (sws_cons hd).1 h1, by simpa using h2⟩),
          .inl ⟨?_, entAt_cons.2 (.inl ⟨hd, rfl⟩)⟩⟩
        rintro rfl; exact absurd hd (by decide)
      · obtain ⟨w', e, g1, g2⟩ := sws_crlf (Bool.eq_false_iff.2 hd) h1
        cases e
        exact ⟨13, 10 :: w' ++ t, a, k1, rfl, go.2 (p.b.f.acc.2 ⟨w', t, rfl, g1, g2, by simpa using h2⟩),
          .inr (.inr ⟨rfl, startsWSP_blanks g1 g2, rfl⟩)⟩

/-- A token piece that begins after white space. -/
theorem sws_tok {k k1 k2 k3 x : Nat} {cls : UInt8 → Bool} (p : SwsPart k k1 k2 k3 [⟨cls, [.mark], x⟩]) {l : Loc}
    {v : Bytes} {us : List Upd} :
    Acc k l v us ↔ ∃ w c t, v = w ++ c :: t ∧ Sws w ∧ c ≠ 13 ∧ cls c = true ∧ Acc x { l with seg := [c] } t us := by
  rw [p.acc]
  constructor
  · rintro ⟨w, r, rfl, hw, h⟩
    obtain ⟨c, t, as, y, rfl, h1, h2, h3⟩ := out_none.1 h
    rcases entAt_cons.1 h2 with ⟨a1, a2⟩ | ⟨_, a2⟩
    · cases a2
      rw [go_adv' rfl rfl] at h3
      obtain ⟨b, e, h3⟩ := h3
      have e : us = b := e
      subst e
      exact ⟨w, c, t, rfl, hw, h1, a1, h3⟩
    · cases a2
  · rintro ⟨w, c, t, rfl, hw, h1, h2, h3⟩
    refine ⟨w, c :: t, rfl, hw, out_none.2 ⟨c, t, [.mark], x, rfl, h1, entAt_cons.2 (.inl ⟨h2, rfl⟩), ?_⟩⟩
    rw [go_adv' rfl rfl]
    exact ⟨us, rfl, h3⟩

/-! ### The end of a Via -/

/-- The variables in a Via. -/
abbrev V (a : Via) : Loc := { via := some a }

theorem agree_via {k : Nat} (hk : live k = ⟨false, false, false, false, false, true, false, false, false⟩) {l : Loc} {a : Via}
    (h : l.via = some a) : Agree (live k) l (V a) := by
  rw [hk]
  constructor
  case via => intro _; exact h
  all_goals intro e; cases e

theorem acc_via {k : Nat} (hk : live k = ⟨false, false, false, false, false, true, false, false, false⟩) (lt : k < 765)
    {l : Loc} {a : Via} (h : l.via = some a) {v : Bytes} {us : List Upd} : Acc k l v us ↔ Acc k (V a) v us :=
  acc_agree lt (agree_via hk h)

theorem via_lives : live 68 = ⟨false, false, false, false, false, true, false, false, false⟩ ∧
    live 103 = ⟨false, false, false, false, false, true, false, false, false⟩ := by decide +kernel

theorem shape_103 : Shape 103 [⟨tokenc, [.mark], 104⟩] none none := by decide +kernel

theorem cr_shape {k x : Nat} {cls : UInt8 → Bool} {as : List MAct} (h : Shape k [⟨cls, as, x⟩] none none) {m : Loc} {t : Bytes}
    {b : List Upd} : ¬ Acc k m (13 :: t) b := by
  intro g
  obtain ⟨c, t', e, h1, _⟩ := (acc_single h).1 g
  cases e; exact h1 rfl

theorem skip_71 : SkipPart 71 72 73 74 103 [.viaParam, .via, .viaNew, .hold] := by
  constructor
  case cr => exact fun _ => cr_shape shape_103
  all_goals decide +kernel
theorem skip_75 : SkipPart 75 76 77 78 68 [.viaParam, .hold, .start] := by
  constructor
  case cr => exact fun _ => cr_shape param_68.s0
  all_goals decide +kernel
theorem skip_114 : SkipPart 114 115 116 117 103 [.via, .viaNew, .hold] := by
  constructor
  case cr => exact fun _ => cr_shape shape_103
  all_goals decide +kernel
theorem skip_121 : SkipPart 121 122 123 124 68 [.hold, .start] := by
  constructor
  case cr => exact fun _ => cr_shape param_68.s0
  all_goals decide +kernel
theorem skip_736 : SkipPart 736 737 738 739 103 [.viaNew, .hold] := by
  constructor
  case cr => exact fun _ => cr_shape shape_103
  all_goals decide +kernel

theorem first_tok {k x : Nat} {as : List MAct} (h : Shape k [⟨tokenc, as, x⟩] none none) {m : Loc} {t : Bytes} {b : List Upd}
    (g : Acc k m t b) : ∃ c t', t = c :: t' ∧ blank c = false ∧ c ≠ 13 := by
  obtain ⟨c, t', e, h1, h2, _⟩ := (acc_single h).1 g
  exact ⟨c, t', e, (token_nb c h2).1, h1⟩

/-- The end of a Via: the end of the line, or a comma and another Via. -/
def ViaEnd (a : Via) (r : Bytes) (us : List Upd) : Prop :=
  (∃ tl b, r = CRLF ++ tl ∧ us = .via a :: b ∧ Acc 280 Loc.init tl b) ∨
  (∃ s t b, r = s ++ t ∧ Sep 44 s ∧ us = .via a :: b ∧ Acc 103 (V {}) t b)

/-- Behind a part of a Via: its end, or another parameter. -/
def ViaRest (a : Via) (r : Bytes) (us : List Upd) : Prop :=
  ViaEnd a r us ∨ ∃ s t, r = s ++ t ∧ Sep 59 s ∧ Acc 68 (V a) t us

theorem eol_shape {k : Nat} {as : List MAct} (h : Shape k [⟨(· == 10), as, 280⟩] none none) (ha : moveOf as = .adv)
    {l l' : Loc} {E : List Upd} (hf : ∀ c, sacts as c l = some (l', E)) {t : Bytes} {us : List Upd} :
    (startsWSP t.tail = false ∧ Acc k l t us) ↔ ∃ tl b, t = 10 :: tl ∧ us = E ++ b ∧ Acc 280 Loc.init tl b := by
  constructor
  · rintro ⟨_, g⟩
    obtain ⟨c, tl, rfl, _, h2, h3⟩ := (acc_single h).1 g
    have : c = 10 := by simpa using h2
    subst this
    obtain ⟨b, e, h4⟩ := (go_adv' ha (hf 10)).1 h3
    exact ⟨tl, b, rfl, e, (acc_agree (by decide) (agree_280 _ _)).1 h4⟩
  · rintro ⟨tl, b, rfl, rfl, h3⟩
    exact ⟨acc_280_blank h3, (acc_single h).2 ⟨10, tl, rfl, by decide, rfl,
      (go_adv' ha (hf 10)).2 ⟨b, rfl, (acc_agree (by decide) (agree_280 _ _)).1 h3⟩⟩⟩

theorem shape_85 : Shape 85 [⟨(· == 10), [.viaParam, .via], 280⟩] none none := by decide +kernel
theorem shape_128 : Shape 128 [⟨(· == 10), [.via], 280⟩] none none := by decide +kernel

/-- Two separators and the end of the line. -/
theorem tail_two {c1 c2 : UInt8} {k1 k2 e : Nat} {l : Loc} {r : Bytes} {us : List Upd} :
    Tail [(c1, k1), (c2, k2)] (some e) l r us ↔
      (∃ w t, r = w ++ c1 :: t ∧ Sws w ∧ Acc k1 { l with seg := [] } t us) ∨
      (∃ w t, r = w ++ c2 :: t ∧ Sws w ∧ Acc k2 { l with seg := [] } t us) ∨
      (∃ t, r = 13 :: t ∧ startsWSP t.tail = false ∧ Acc e { l with seg := [] } t us) := by
  constructor
  · rintro (⟨w, c, t, x, e, h1, h2, h3⟩ | ⟨e', t, h0, e, h1, h2⟩)
    · simp only [List.mem_cons, Prod.mk.injEq, List.not_mem_nil, or_false] at h2
      rcases h2 with ⟨rfl, rfl⟩ | ⟨rfl, rfl⟩
      · exact .inl ⟨w, t, e, h1, h3⟩
      · exact .inr (.inl ⟨w, t, e, h1, h3⟩)
    · cases h0; exact .inr (.inr ⟨t, e, h1, h2⟩)
  · rintro (⟨w, t, e, h1, h2⟩ | ⟨w, t, e, h1, h2⟩ | ⟨t, e, h1, h2⟩)
    · exact .inl ⟨w, c1, t, k1, e, h1, by simp, h2⟩
    · exact .inl ⟨w, c2, t, k2, e, h1, by simp, h2⟩
    · exact .inr ⟨_, t, rfl, e, h1, h2⟩

/-- A separator followed by white space is a separator in the sense of the grammar. -/
theorem sep_mid {c : UInt8} {P : Bytes → Prop} {r : Bytes} :
    (∃ w t, r = w ++ c :: t ∧ Sws w ∧ ∃ w' t', t = w' ++ t' ∧ Sws w' ∧ P t') ↔ ∃ s t, r = s ++ t ∧ Sep c s ∧ P t := by
  constructor
  · rintro ⟨w, _, rfl, h1, w', t', rfl, h2, h3⟩
    exact ⟨w ++ c :: w', t', by simp, ⟨w, w', rfl, h1, h2⟩, h3⟩
  · rintro ⟨_, t, rfl, ⟨w, w', rfl, h1, h2⟩, h3⟩
    exact ⟨w, w' ++ t, by simp, h1, w', t, rfl, h2, h3⟩

theorem acc_skip71 {l : Loc} {a : Via} {n x : Bytes} (h : l.via = some a) {v : Bytes} {us : List Upd} :
    Acc 71 { l with name := n, buf := x, seg := [] } v us ↔
      ∃ w r, v = w ++ r ∧ Sws w ∧ ∃ b, us = .via { a with param := (n, x) :: a.param } :: b ∧ Acc 103 (V {}) r b := by
  rw [skip_rel skip_71 (m := V {}) (E := [.via { a with param := (n, x) :: a.param }]) (fun s c => by
      simp [sacts, sact, h]; exact agree_via via_lives.2 rfl) (first_tok shape_103)]
  constructor
  · rintro ⟨w, r, b, e, h1, h2, h3⟩; exact ⟨w, r, e, h1, b, h2, h3⟩
  · rintro ⟨w, r, e, h1, b, h2, h3⟩; exact ⟨w, r, b, e, h1, h2, h3⟩

theorem acc_skip75 {l : Loc} {a : Via} {n x : Bytes} (h : l.via = some a) {v : Bytes} {us : List Upd} :
    Acc 75 { l with name := n, buf := x, seg := [] } v us ↔
      ∃ w r, v = w ++ r ∧ Sws w ∧ Acc 68 (V { a with param := (n, x) :: a.param }) r us := by
  rw [skip_rel skip_75 (m := V { a with param := (n, x) :: a.param }) (E := []) (fun s c => by
      simp [sacts, sact, h]; exact agree_via via_lives.1 rfl) (first_tok param_68.s0)]
  constructor
  · rintro ⟨w, r, b, e, h1, h2, h3⟩
    have h2 : us = b := h2
    exact ⟨w, r, e, h1, h2 ▸ h3⟩
  · rintro ⟨w, r, e, h1, h3⟩; exact ⟨w, r, us, e, h1, rfl, h3⟩

theorem param_rest {l : Loc} {a : Via} {n x : Bytes} (h : l.via = some a) {r : Bytes} {us : List Upd} :
    Tail [(44, 71), (59, 75)] (some 85) { l with name := n, buf := x } r us ↔
      ViaRest { a with param := (n, x) :: a.param } r us := by
  rw [tail_two]
  simp only [acc_skip71 h, acc_skip75 h]
  rw [sep_mid, sep_mid]
  have e3 : (∃ t, r = 13 :: t ∧ startsWSP t.tail = false ∧ Acc 85 { l with name := n, buf := x, seg := [] } t us) ↔
      ∃ tl b, r = CRLF ++ tl ∧ us = .via { a with param := (n, x) :: a.param } :: b ∧ Acc 280 Loc.init tl b := by
    have := fun t => eol_shape shape_85 rfl (l := { l with name := n, buf := x, seg := [] })
      (l' := { l with name := n, buf := x, seg := [], via := none }) (E := [.via { a with param := (n, x) :: a.param }])
      (fun c => by simp [sacts, sact, h]) (t := t) (us := us)
    constructor
    · rintro ⟨t, rfl, h⟩
      obtain ⟨tl, b, rfl, h1, h2⟩ := (this t).1 h
      exact ⟨tl, b, rfl, h1, h2⟩
    · rintro ⟨tl, b, rfl, h1, h2⟩
      exact ⟨10 :: tl, rfl, (this _).2 ⟨tl, b, rfl, h1, h2⟩⟩
  rw [e3]
  unfold ViaRest ViaEnd
  constructor
  · rintro (⟨s, t, e, h1, b, h2, h3⟩ | h | h)
    · exact .inl (.inr ⟨s, t, b, e, h1, h2, h3⟩)
    · exact .inr h
    · exact .inl (.inl h)
  · rintro ((h | ⟨s, t, b, e, h1, h2, h3⟩) | h)
    · exact .inr (.inr h)
    · exact .inl ⟨s, t, e, h1, b, h2, h3⟩
    · exact .inr (.inl h)

theorem host_rest {a : Via} {r : Bytes} {us : List Upd} :
    Tail [(44, 114), (59, 121)] (some 128) (V a) r us ↔ ViaRest a r us := by
  rw [tail_two]
  have s1 : ∀ v us, Acc 114 (V a) v us ↔ ∃ w r, v = w ++ r ∧ Sws w ∧ ∃ b, us = .via a :: b ∧ Acc 103 (V {}) r b := by
    intro v us
    rw [skip_rel skip_114 (m := V {}) (E := [.via a]) (fun s c => by
      simp [sacts, sact]; exact agree_via via_lives.2 rfl) (first_tok shape_103)]
    constructor
    · rintro ⟨w, r, b, e, h1, h2, h3⟩; exact ⟨w, r, e, h1, b, h2, h3⟩
    · rintro ⟨w, r, e, h1, b, h2, h3⟩; exact ⟨w, r, b, e, h1, h2, h3⟩
  have s2 : ∀ v us, Acc 121 (V a) v us ↔ ∃ w r, v = w ++ r ∧ Sws w ∧ Acc 68 (V a) r us := by
    intro v us
    rw [skip_rel skip_121 (m := V a) (E := []) (fun s c => by
      simp [sacts, sact]; exact agree_via via_lives.1 rfl) (first_tok param_68.s0)]
    constructor
    · rintro ⟨w, r, b, e, h1, h2, h3⟩
      have h2 : us = b := h2
      exact ⟨w, r, e, h1, h2 ▸ h3⟩
    · rintro ⟨w, r, e, h1, h3⟩; exact ⟨w, r, us, e, h1, rfl, h3⟩
  have e3 : (∃ t, r = 13 :: t ∧ startsWSP t.tail = false ∧ Acc 128 (V a) t us) ↔
      ∃ tl b, r = CRLF ++ tl ∧ us = .via a :: b ∧ Acc 280 Loc.init tl b := by
    have := fun t => eol_shape shape_128 rfl (l := V a) (l' := {}) (E := [.via a])
      (fun c => by simp [sacts, sact]) (t := t) (us := us)
    constructor
    · rintro ⟨t, rfl, h⟩
      obtain ⟨tl, b, rfl, h1, h2⟩ := (this t).1 h
      exact ⟨tl, b, rfl, h1, h2⟩
    · rintro ⟨tl, b, rfl, h1, h2⟩
      exact ⟨10 :: tl, rfl, (this _).2 ⟨tl, b, rfl, h1, h2⟩⟩
  simp only [s1, s2, e3]
  rw [sep_mid, sep_mid]
  unfold ViaRest ViaEnd
  constructor
  · rintro (⟨s, t, e, h1, b, h2, h3⟩ | h | h)
    · exact .inl (.inr ⟨s, t, b, e, h1, h2, h3⟩)
    · exact .inr h
    · exact .inl (.inl h)
  · rintro ((h | ⟨s, t, b, e, h1, h2, h3⟩) | h)
    · exact .inr (.inr h)
    · exact .inl ⟨s, t, e, h1, b, h2, h3⟩
    · exact .inr (.inl h)

theorem sep_pos {c : UInt8} {s : Bytes} (h : Sep c s) : 0 < s.length := by
  obtain ⟨a, b, rfl, _, _⟩ := h
  simp; omega

/-- The parameters of a Via, and its end. -/
theorem via_rest {a : Via} {v : Bytes} {us : List Upd} :
    ViaRest a v us ↔ ∃ ps xs r, v = ps ++ r ∧ ParamList ps xs ∧ ViaEnd { a with param := xs.reverse ++ a.param } r us := by
  constructor
  · generalize hN : v.length = N
    intro h
    induction N using Nat.strongRecOn generalizing v a with
    | ind N ih =>
      rcases h with h | ⟨s, t, rfl, hs, h⟩
      · exact ⟨[], [], v, rfl, .nil, h⟩
      · obtain ⟨p, x, r, rfl, h1, h2⟩ := param_68.acc.1 h
        obtain ⟨ps, xs, r, rfl, g1, g2⟩ := ih _ (by have := sep_pos hs; rw [← hN]; simp; omega) rfl ((param_rest rfl).1 h2)
        exact ⟨s ++ p ++ ps, x :: xs, r, by simp, .cons hs h1 g1, by simpa using g2⟩
  · rintro ⟨ps, xs, r, rfl, h1, h2⟩
    induction h1 generalizing a with
    | nil => exact .inl h2
    | @cons s p t x xs hs hp _ ih =>
      refine .inr ⟨s, p ++ t ++ r, by simp, hs, param_68.acc.2 ⟨p, x, t ++ r, by simp, hp, (param_rest rfl).2 (ih ?_)⟩⟩
      simpa using h2

/-! ### The parts of a Via -/

/-- Characters of a host. -/
def hostB (c : UInt8) : Bool := tokenc c && !(b!"!%*_+`'~".contains c)

theorem hostB_iff : ∀ c, hostB c = true ↔ (alnum c ∨ c ∈ b!"-.") := by decide +kernel

/-- Characters of an IPv6 address. -/
def ip6B (c : UInt8) : Bool := (48 ≤ c && c ≤ 57) || (65 ≤ c && c ≤ 70) || (97 ≤ c && c ≤ 102) || c == 46 || c == 58

theorem ip6B_iff : ∀ c, ip6B c = true ↔ ip6c c := by decide +kernel

/-- Digits. -/
def digB (c : UInt8) : Bool := 48 ≤ c && c ≤ 57

theorem digB_iff : ∀ c, digB c = true ↔ isDig c := by decide +kernel

theorem part_104 : AfterPart 104 105 150 151 152 tokenc [] [.viaProtocol] [(47, 106)] none := by decide +kernel
theorem part_106 : SwsPart 106 147 148 149 [⟨tokenc, [.mark], 107⟩] := by decide +kernel
theorem part_107 : AfterPart 107 108 144 145 146 tokenc [] [.viaVersion] [(47, 109)] none := by decide +kernel
theorem part_109 : SwsPart 109 141 142 143 [⟨tokenc, [.mark], 110⟩] := by decide +kernel
theorem part_110 : LwsPart 110 111 138 139 140 tokenc [] [.viaTransport] [⟨hostB, [.mark], 112⟩, ⟨(· == 91), [], 135⟩] := by
  decide +kernel
theorem part_112 : AfterPart 112 113 132 133 134 hostB [] [.viaHost] [(44, 114), (58, 118), (59, 121)] (some 128) := by
  decide +kernel
theorem shape_135 : Shape 135 [⟨ip6B, [.mark], 136⟩] none none := by decide +kernel
theorem loop_136 : Loop 136 ip6B [] [⟨(· == 93), [.viaHost], 137⟩] none none := by decide +kernel
theorem part_137 : AfterPart 137 113 132 133 134 (fun _ => false) [] [] [(44, 114), (58, 118), (59, 121)] (some 128) := by
  decide +kernel
theorem part_118 : SwsPart 118 129 130 131 [⟨digB, [.viaPort], 119⟩] := by decide +kernel
theorem part_119 : AfterPart 119 120 125 126 127 digB [.viaPort] [] [(44, 114), (59, 121)] (some 128) := by decide +kernel

theorem tail_one {c : UInt8} {k : Nat} {l : Loc} {r : Bytes} {us : List Upd} :
    Tail [(c, k)] none l r us ↔ ∃ w t, r = w ++ c :: t ∧ Sws w ∧ Acc k { l with seg := [] } t us := by
  constructor
  · rintro (⟨w, c, t, x, e, h1, h2, h3⟩ | ⟨e', t, h0, _⟩)
    · simp only [List.mem_cons, Prod.mk.injEq, List.not_mem_nil, or_false] at h2
      obtain ⟨rfl, rfl⟩ := h2
      exact ⟨w, t, e, h1, h3⟩
    · cases h0
  · rintro ⟨w, t, e, h1, h2⟩
    exact .inl ⟨w, c, t, k, e, h1, by simp, h2⟩

/-- The protocol. -/
theorem via_protocol {a : Via} {v : Bytes} {us : List Upd} :
    Acc 103 (V a) v us ↔ ∃ p w r, v = p ++ (w ++ 47 :: r) ∧ IsToken p ∧ Sws w ∧ Acc 106 (V { a with protocol := p }) r us := by
  rw [acc_single shape_103]
  have st : ∀ c t, Go [.mark] 104 (V a) c t us ↔ ∃ s r, t = s ++ r ∧ (∀ d ∈ s, tokenc d = true) ∧
      ∃ w t, r = w ++ 47 :: t ∧ Sws w ∧ Acc 106 (V { a with protocol := c :: s }) t us := by
    intro c t
    rw [go_adv' rfl rfl]
    simp only [List.nil_append, exists_eq_left']
    rw [part_104.plain (g := fun s => { via := some { a with protocol := c :: s }, seg := c :: s }) (fun s d => rfl)]
    simp only [tail_one]
  simp only [st]
  constructor
  · rintro ⟨c, t, rfl, h1, h2, s, r, rfl, h3, w, t, rfl, h4, h5⟩
    exact ⟨c :: s, w, t, rfl, isToken_cons h2 h3, h4, h5⟩
  · rintro ⟨p, w, r, rfl, hp, hw, h⟩
    obtain ⟨c, s, rfl, h1, h2⟩ := isToken_iff.1 hp
    exact ⟨c, _, rfl, token_ne h1, h1, s, _, rfl, h2, w, r, rfl, hw, h⟩

/-- The version. -/
theorem via_version {a : Via} {v : Bytes} {us : List Upd} :
    Acc 106 (V a) v us ↔ ∃ w0 p w r, v = w0 ++ (p ++ (w ++ 47 :: r)) ∧ Sws w0 ∧ IsToken p ∧ Sws w ∧
      Acc 109 (V { a with version := p }) r us := by
  rw [sws_tok part_106]
  have st : ∀ c t, Acc 107 { via := some a, seg := [c] } t us ↔ ∃ s r, t = s ++ r ∧ (∀ d ∈ s, tokenc d = true) ∧
      ∃ w t, r = w ++ 47 :: t ∧ Sws w ∧ Acc 109 (V { a with version := c :: s }) t us := by
    intro c t
    rw [part_107.plain (g := fun s => { via := some { a with version := c :: s }, seg := c :: s }) (fun s d => rfl)]
    simp only [tail_one]
  simp only [st]
  constructor
  · rintro ⟨w0, c, t, rfl, h0, h1, h2, s, r, rfl, h3, w, t, rfl, h4, h5⟩
    exact ⟨w0, c :: s, w, t, rfl, h0, isToken_cons h2 h3, h4, h5⟩
  · rintro ⟨w0, p, w, r, rfl, h0, hp, hw, h⟩
    obtain ⟨c, s, rfl, h1, h2⟩ := isToken_iff.1 hp
    exact ⟨w0, c, _, rfl, h0, token_ne h1, h1, s, _, rfl, h2, w, r, rfl, hw, h⟩

/-- The transport. -/
theorem via_transport {a : Via} {v : Bytes} {us : List Upd} :
    Acc 109 (V a) v us ↔ ∃ w0 p w r, v = w0 ++ (p ++ (w ++ r)) ∧ Sws w0 ∧ IsToken p ∧ Lws w ∧
      ∃ s, Out [⟨hostB, [.mark], 112⟩, ⟨(· == 91), [], 135⟩] none none
        { via := some { a with transport := p }, seg := s } r us := by
  rw [sws_tok part_109]
  have st : ∀ c t, Acc 110 { via := some a, seg := [c] } t us ↔ ∃ s r, t = s ++ r ∧ (∀ d ∈ s, tokenc d = true) ∧
      ∃ w t, r = w ++ t ∧ Lws w ∧ Out [⟨hostB, [.mark], 112⟩, ⟨(· == 91), [], 135⟩] none none
        { via := some { a with transport := c :: s }, seg := c :: s ++ w } t us := by
    intro c t
    rw [loop_plain part_110.s]
    have := fun s r => part_110.out (l := { via := some a, seg := c :: s })
      (l' := { via := some { a with transport := c :: s }, seg := c :: s }) (fun d => rfl) (r := r) (us := us)
    constructor
    · rintro ⟨s, r, e, h1, h2⟩; exact ⟨s, r, e, h1, (this s r).1 h2⟩
    · rintro ⟨s, r, e, h1, h2⟩; exact ⟨s, r, e, h1, (this s r).2 h2⟩
  simp only [st]
  have seg : ∀ s s' b r, Out [⟨hostB, [.mark], 112⟩, ⟨(· == 91), [], 135⟩] none none { via := b, seg := s } r us →
      Out [⟨hostB, [.mark], 112⟩, ⟨(· == 91), [], 135⟩] none none { via := b, seg := s' } r us := by
    intro s s' b r h
    obtain ⟨c, t, as, x, e, h1, h2, h3⟩ := out_none.1 h
    refine out_none.2 ⟨c, t, as, x, e, h1, h2, ?_⟩
    rcases entAt_cons.1 h2 with ⟨g1, g2⟩ | ⟨_, h2⟩
    · cases g2; rw [go_adv' rfl rfl] at h3 ⊢; exact h3
    · rcases entAt_cons.1 h2 with ⟨g1, g2⟩ | ⟨_, h2⟩
      · cases g2
        rw [go_nil] at h3 ⊢
        have hl : (live 135).seg = false := by decide +kernel
        exact (acc_seg (by decide) hl).2 ((acc_seg (by decide) hl).1 h3)
      · cases h2
  constructor
  · rintro ⟨w0, c, t, rfl, h0, h1, h2, s, r, rfl, h3, w, t, rfl, h4, h5⟩
    exact ⟨w0, c :: s, w, t, rfl, h0, isToken_cons h2 h3, h4, _, h5⟩
  · rintro ⟨w0, p, w, r, rfl, h0, hp, hw, s', h⟩
    obtain ⟨c, s, rfl, h1, h2⟩ := isToken_iff.1 hp
    exact ⟨w0, c, _, rfl, h0, token_ne h1, h1, s, _, rfl, h2, w, r, rfl, hw, seg _ _ _ _ h⟩

/-- What follows the host. -/
def HostTail (a : Via) (r : Bytes) (us : List Upd) : Prop :=
  Tail [(44, 114), (58, 118), (59, 121)] (some 128) (V a) r us

/-- The host. -/
theorem via_host {a : Via} {s v : Bytes} {us : List Upd} :
    Out [⟨hostB, [.mark], 112⟩, ⟨(· == 91), [], 135⟩] none none { via := some a, seg := s } v us ↔
      ∃ h host r, v = h ++ r ∧ ViaHost h host ∧ HostTail { a with host := host } r us := by
  rw [out_none]
  have n1 : ∀ c t, Acc 112 { via := some a, seg := [c] } t us ↔ ∃ s r, t = s ++ r ∧ (∀ d ∈ s, hostB d = true) ∧
      HostTail { a with host := c :: s } r us := by
    intro c t
    exact part_112.plain (g := fun s => { via := some { a with host := c :: s }, seg := c :: s }) (fun s d => rfl)
  have n2 : ∀ b s t, Acc 137 { via := some b, seg := s } t us ↔ HostTail b t us := by
    intro b s t
    rw [part_137.plain (g := fun s' => { via := some b, seg := s ++ s' }) (fun s d => rfl)]
    constructor
    · rintro ⟨s', r, rfl, h1, h2⟩
      cases s' with
      | nil => exact h2
      | cons d s' => exact absurd (h1 d List.mem_cons_self) (by simp)
    · intro h; exact ⟨[], t, rfl, (fun _ h => nomatch h), h⟩
  have n3 : ∀ s t, Acc 135 { via := some a, seg := s } t us ↔ ∃ h r, t = h ++ 93 :: r ∧ h ≠ [] ∧ (∀ c ∈ h, ip6c c) ∧
      HostTail { a with host := h } r us := by
    intro s t
    rw [acc_single shape_135]
    have st : ∀ c t, Go [.mark] 136 { via := some a, seg := s } c t us ↔ ∃ h r, t = h ++ 93 :: r ∧ (∀ c ∈ h, ip6B c = true) ∧
        HostTail { a with host := c :: h } r us := by
      intro c t
      rw [go_adv' rfl rfl]
      simp only [List.nil_append, exists_eq_left']
      rw [loop_plain loop_136]
      constructor
      · rintro ⟨h, r, rfl, h1, h2⟩
        obtain ⟨d, t, as, x, rfl, g1, g2, g3⟩ := out_none.1 h2
        rcases entAt_cons.1 g2 with ⟨i1, i2⟩ | ⟨_, i2⟩
        · cases i2
          have : d = 93 := by simpa using i1
          subst this
          rw [go_adv' rfl rfl] at g3
          obtain ⟨b, e, g3⟩ := g3
          have e : us = b := e
          subst e
          exact ⟨h, t, rfl, h1, (n2 _ _ _).1 g3⟩
        · cases i2
      · rintro ⟨h, r, rfl, h1, h2⟩
        refine ⟨h, 93 :: r, rfl, h1, out_none.2 ⟨93, r, [.viaHost], 137, rfl, by decide, rfl, ?_⟩⟩
        rw [go_adv' rfl rfl]
        exact ⟨us, rfl, (n2 _ _ _).2 h2⟩
    simp only [st]
    constructor
    · rintro ⟨c, t, rfl, h1, h2, h, r, rfl, h3, h4⟩
      exact ⟨c :: h, r, rfl, by simp, List.forall_mem_cons.2 ⟨(ip6B_iff c).1 h2, fun d hd => (ip6B_iff d).1 (h3 d hd)⟩, h4⟩
    · rintro ⟨h, r, rfl, h1, h2, h3⟩
      cases h with
      | nil => exact absurd rfl h1
      | cons c h =>
        have hc := (ip6B_iff c).2 (h2 c List.mem_cons_self)
        refine ⟨c, _, rfl, ?_, hc, h, r, rfl, fun d hd => (ip6B_iff d).2 (h2 d (List.mem_cons_of_mem _ hd)), h3⟩
        rintro rfl; exact absurd hc (by decide)
  constructor
  · rintro ⟨c, t, as, x, rfl, h1, h2, h3⟩
    rcases entAt_cons.1 h2 with ⟨g1, g2⟩ | ⟨_, h2⟩
    · cases g2
      rw [go_adv' rfl rfl] at h3
      obtain ⟨b, e, h3⟩ := h3
      have e : us = b := e
      subst e
      obtain ⟨s, r, rfl, h4, h5⟩ := (n1 _ _).1 h3
      exact ⟨c :: s, _, r, rfl, .name (by simp) (List.forall_mem_cons.2 ⟨(hostB_iff c).1 g1,
        fun d hd => (hostB_iff d).1 (h4 d hd)⟩), h5⟩
    · rcases entAt_cons.1 h2 with ⟨g1, g2⟩ | ⟨_, h2⟩
      · cases g2
        have : c = 91 := by simpa using g1
        subst this
        obtain ⟨h, r, rfl, h4, h5, h6⟩ := (n3 _ _).1 (go_nil.1 h3)
        exact ⟨91 :: h ++ [93], h, r, by simp, .ip6 h4 h5, h6⟩
      · cases h2
  · rintro ⟨h, host, r, rfl, h1, h2⟩
    cases h1 with
    | name g1 g2 =>
      cases h with
      | nil => exact absurd rfl g1
      | cons c s =>
        have hc := (hostB_iff c).2 (g2 c List.mem_cons_self)
        refine ⟨c, s ++ r, [.mark], 112, rfl, ?_, entAt_cons.2 (.inl ⟨hc, rfl⟩), ?_⟩
        · rintro rfl; exact absurd hc (by decide)
        · rw [go_adv' rfl rfl]
          exact ⟨us, rfl, (n1 _ _).2 ⟨s, r, rfl, fun d hd => (hostB_iff d).2 (g2 d (List.mem_cons_of_mem _ hd)), h2⟩⟩
    | ip6 g1 g2 =>
      exact ⟨91, host ++ 93 :: r, [], 135, by simp, by decide, rfl, go_nil.2 ((n3 _ _).2 ⟨host, r, rfl, g1, g2, h2⟩)⟩

/-- Appending a digit to a port. -/
def portStep (p : UInt16) (c : UInt8) : UInt16 := p * 10 + (c.toUInt16 - 48)

theorem portStep_nat (n : Nat) {c : UInt8} (hc : isDig c) :
    portStep (UInt16.ofNat n) c = UInt16.ofNat (n * 10 + (c.toNat - 48)) := by
  have h1 := hc.1
  have h2 := hc.2
  have e : c.toUInt16 - 48 = UInt16.ofNat (c.toNat - 48) := by
    apply UInt16.toNat_inj.1
    rw [UInt16.toNat_sub_of_le _ _ (by rw [UInt16.le_iff_toNat_le]; simpa using h1)]
    simp
    omega
  unfold portStep
  rw [e]
  simp

theorem portStep_digits (ds : Bytes) (hd : ∀ c ∈ ds, isDig c) (n : Nat) :
    ds.foldl portStep (UInt16.ofNat n) = UInt16.ofNat (ds.foldl (fun a c => a * 10 + (c.toNat - 48)) n) := by
  induction ds generalizing n with
  | nil => rfl
  | cons c ds ih =>
    rw [List.foldl_cons, portStep_nat n (hd c List.mem_cons_self), ih fun d h => hd d (List.mem_cons_of_mem _ h)]
    rfl

theorem foldl_port (s : Bytes) (a : Via) (sg : Bytes) :
    s.foldl (loopStep fun l c => { l with via := l.via.map fun v => { v with port := portStep v.port c } })
      { via := some a, seg := sg } = { via := some { a with port := s.foldl portStep a.port }, seg := sg ++ s } := by
  induction s generalizing a sg with
  | nil => simp
  | cons c s ih =>
    rw [List.foldl_cons]
    have : loopStep (fun l c => { l with via := l.via.map fun v => { v with port := portStep v.port c } })
        { via := some a, seg := sg } c = { via := some { a with port := portStep a.port c }, seg := sg ++ [c] } := rfl
    rw [this, ih]
    simp

/-- The port. -/
theorem via_port {a : Via} (ha : a.port = 0) {v : Bytes} {us : List Upd} :
    HostTail a v us ↔ ∃ pt port r, v = pt ++ r ∧ ViaPort pt port ∧ ViaRest { a with port := port } r us := by
  have digits : ∀ s c t, Go [.viaPort] 119 { via := some a, seg := s } c t us ↔ ∃ ds r, t = ds ++ r ∧ (∀ d ∈ ds, digB d = true) ∧
      ViaRest { a with port := (c :: ds).foldl portStep 0 } r us := by
    intro s c t
    rw [go_adv' rfl rfl]
    simp only [List.nil_append, exists_eq_left']
    have := loop_acts part_119.s (fun l => l.via ≠ none)
      (fun l c => { l with via := l.via.map fun v => { v with port := portStep v.port c } }) (fun _ => [])
      (by
        intro l c hI _
        cases hv : l.via with
        | none => exact absurd hv hI
        | some w => exact ⟨by simp [sacts, sact, hv, portStep], by simp [loopStep, hv]⟩)
      (l := { via := some { a with port := portStep a.port c }, seg := s ++ [c] }) (by simp) (v := t) (us := us)
    refine this.trans ?_
    simp only [foldl_port]
    have ho := fun b sg r => (part_119.out (l := { via := some b, seg := sg }) (l' := { via := some b, seg := sg }) (fun _ => rfl)
      (r := r) (us := us)).trans (host_rest (a := b))
    rw [ha]
    constructor
    · rintro ⟨ds, r, b, e, h1, h2, h3⟩
      rw [List.flatMap_eq_nil_iff.2 (fun _ _ => rfl)] at h2
      have h2 : us = b := h2
      subst h2
      exact ⟨ds, r, e, h1, (ho _ _ _).1 h3⟩
    · rintro ⟨ds, r, e, h1, h3⟩
      exact ⟨ds, r, us, e, h1, by rw [List.flatMap_eq_nil_iff.2 (fun _ _ => rfl)]; rfl, (ho _ _ _).2 h3⟩
  have port : ∀ t, Acc 118 (V a) t us ↔ ∃ w ds r, t = w ++ (ds ++ r) ∧ Sws w ∧ Digits ds ∧
      ViaRest { a with port := UInt16.ofNat (decVal ds) } r us := by
    intro t
    rw [part_118.acc]
    constructor
    · rintro ⟨w, r, rfl, hw, h⟩
      obtain ⟨c, t, as, x, rfl, h1, h2, h3⟩ := out_none.1 h
      rcases entAt_cons.1 h2 with ⟨g1, g2⟩ | ⟨_, h2⟩
      · cases g2
        obtain ⟨ds, r, rfl, g3, g4⟩ := (digits _ _ _).1 h3
        have hd : ∀ d ∈ c :: ds, isDig d := List.forall_mem_cons.2 ⟨(digB_iff c).1 g1, fun d hd => (digB_iff d).1 (g3 d hd)⟩
        have := portStep_digits (c :: ds) hd 0
        rw [show (UInt16.ofNat 0) = 0 from rfl] at this
        rw [this] at g4
        exact ⟨w, c :: ds, r, rfl, hw, ⟨by simp, hd⟩, g4⟩
      · cases h2
    · rintro ⟨w, ds, r, rfl, hw, ⟨h1, h2⟩, h3⟩
      cases ds with
      | nil => exact absurd rfl h1
      | cons c ds =>
        have hc := (digB_iff c).2 (h2 c List.mem_cons_self)
        have := portStep_digits (c :: ds) h2 0
        rw [show (UInt16.ofNat 0) = 0 from rfl] at this
        refine ⟨w, c :: ds ++ r, rfl, hw, out_none.2 ⟨c, ds ++ r, [.viaPort], 119, rfl, ?_, entAt_cons.2 (.inl ⟨hc, rfl⟩),
          (digits _ _ _).2 ⟨ds, r, rfl, fun d hd => (digB_iff d).2 (h2 d (List.mem_cons_of_mem _ hd)), by rw [this]; exact h3⟩⟩⟩
        rintro rfl; exact absurd hc (by decide)
  have split : HostTail a v us ↔ Tail [(44, 114), (59, 121)] (some 128) (V a) v us ∨
      ∃ w t, v = w ++ 58 :: t ∧ Sws w ∧ Acc 118 (V a) t us := by
    constructor
    · rintro (⟨w, c, t, x, e, h1, h2, h3⟩ | h)
      · simp only [List.mem_cons, Prod.mk.injEq, List.not_mem_nil, or_false] at h2
        rcases h2 with ⟨rfl, rfl⟩ | ⟨rfl, rfl⟩ | ⟨rfl, rfl⟩
        · exact .inl (.inl ⟨w, 44, t, 114, e, h1, by simp, h3⟩)
        · exact .inr ⟨w, t, e, h1, h3⟩
        · exact .inl (.inl ⟨w, 59, t, 121, e, h1, by simp, h3⟩)
      · exact .inl (.inr h)
    · rintro (h | ⟨w, t, e, h1, h2⟩)
      · exact h.mono (by simp)
      · exact .inl ⟨w, 58, t, 118, e, h1, by simp, h2⟩
  rw [split, host_rest]
  simp only [port]
  constructor
  · rintro (h | ⟨w, t, rfl, h1, w', ds, r, rfl, h2, h3, h4⟩)
    · exact ⟨[], 0, v, rfl, .none, by rw [← ha]; exact h⟩
    · exact ⟨w ++ 58 :: w' ++ ds, _, r, by simp, .some ⟨w, w', rfl, h1, h2⟩ h3, h4⟩
  · rintro ⟨pt, port, r, rfl, h1, h2⟩
    cases h1 with
    | none => left; rw [← ha] at h2; exact h2
    | @some s ds hs hd =>
      obtain ⟨w, w', rfl, g1, g2⟩ := hs
      exact .inr ⟨w, w' ++ (ds ++ r), by simp, g1, w', ds, r, rfl, g2, hd, h2⟩

/-- A Via, and its end. -/
theorem via_text {v : Bytes} {us : List Upd} :
    Acc 103 (V {}) v us ↔ ∃ t a r, v = t ++ r ∧ ViaText t a ∧ ViaEnd a r us := by
  rw [via_protocol]
  simp only [via_version, via_transport, via_host]
  constructor
  · rintro ⟨p, w1, _, rfl, hp, hw1, w1', ve, w2, _, rfl, hw1', hv, hw2, w2', tr, w3, _, rfl, hw2', ht, hw3, s, h, host, r, rfl, hh, h⟩
    rw [via_port rfl] at h
    obtain ⟨pt, port, r, rfl, hpt, h⟩ := h
    obtain ⟨ps, xs, r, rfl, hps, h⟩ := via_rest.1 h
    refine ⟨p ++ (w1 ++ 47 :: w1') ++ ve ++ (w2 ++ 47 :: w2') ++ tr ++ w3 ++ _ ++ pt ++ ps, _, r, by simp,
      .mk hp ⟨w1, w1', rfl, hw1, hw1'⟩ hv ⟨w2, w2', rfl, hw2, hw2'⟩ ht hw3 hh hpt hps, by simpa using h⟩
  · rintro ⟨_, _, r, rfl, ⟨hp, ⟨w1, w1', rfl, hw1, hw1'⟩, hv, ⟨w2, w2', rfl, hw2, hw2'⟩, ht, hw3, hh, hpt, hps⟩, h⟩
    rename_i p ve tr w3 h' host pt ps port xs
    refine ⟨p, w1, w1' ++ (ve ++ (w2 ++ 47 :: (w2' ++ (tr ++ (w3 ++ (h' ++ (pt ++ (ps ++ r)))))))), by simp, hp, hw1,
      w1', ve, w2, _, rfl, hw1', hv, hw2, w2', tr, w3, _, rfl, hw2', ht, hw3, [], h', host, _, rfl, hh, ?_⟩
    rw [via_port rfl]
    exact ⟨pt, port, ps ++ r, rfl, hpt, via_rest.2 ⟨ps, xs, r, rfl, hps, by simpa using h⟩⟩

theorem viaText_pos {t : Bytes} {a : Via} (h : ViaText t a) : 0 < t.length := by
  cases h with
  | mk hp => 
    have := List.length_pos_iff.2 hp.1
    simp; omega

/-- A list of Vias up to the end of the line. -/
theorem via_list {v : Bytes} {us : List Upd} :
    Acc 103 (V {}) v us ↔ ∃ t vs tl b, v = t ++ CRLF ++ tl ∧ ViaList t vs ∧ us = vs.map .via ++ b ∧ Acc 280 Loc.init tl b := by
  constructor
  · generalize hN : v.length = N
    intro h
    induction N using Nat.strongRecOn generalizing v us with
    | ind N ih =>
      obtain ⟨t, a, r, rfl, h1, ⟨tl, b, rfl, rfl, h2⟩ | ⟨s, r, b, rfl, hs, rfl, h2⟩⟩ := via_text.1 h
      · exact ⟨t, [a], tl, b, by simp, .one h1, rfl, h2⟩
      · obtain ⟨t', vs, tl, b, rfl, g1, rfl, g2⟩ := ih _ (by have := sep_pos hs; rw [← hN]; simp; omega) rfl h2
        exact ⟨t ++ s ++ t', a :: vs, tl, b, by simp, .cons h1 hs g1, rfl, g2⟩
  · rintro ⟨t, vs, tl, b, rfl, h1, rfl, h2⟩
    induction h1 with
    | one h => exact via_text.2 ⟨_, _, CRLF ++ tl, by simp, h, .inl ⟨tl, b, rfl, rfl, h2⟩⟩
    | @cons t s r a vs h hs _ ih =>
      exact via_text.2 ⟨t, a, s ++ (r ++ CRLF ++ tl), by simp, h, .inr ⟨s, _, _, rfl, hs, rfl, ih⟩⟩

/-- The value of a Via header. -/
theorem line_via {n w v : Bytes} {us : List Upd} (hn : IsName n) (hw : Blanks w) (hv : LogicalLine v)
    (hh : headerOf n = some .via) :
    Line (headerLine n w v) us ↔ ∃ w' t vs, v = w' ++ t ∧ Sws w' ∧ ViaList t vs ∧ us = vs.map .via := by
  rw [line_known hn hw hh]
  show Acc 736 _ _ _ ↔ _
  rw [skip_rel skip_736 (m := V {}) (E := []) (fun s c => by
    simp [sacts, sact]; exact agree_via via_lives.2 rfl) (first_tok shape_103)]
  constructor
  · rintro ⟨w', r, b, e, h1, h2, h3⟩
    have h2 : us = b := h2
    subst h2
    obtain ⟨t, vs, tl, b, rfl, g1, rfl, g2⟩ := via_list.1 h3
    obtain ⟨rfl, rfl, e2⟩ := logical_rest (x := w' ++ t) hv (by rw [e]; simp) g2
    exact ⟨w', t, vs, e2, h1, g1, by simp⟩
  · rintro ⟨w', t, vs, rfl, h1, h2, rfl⟩
    exact ⟨w', t ++ CRLF, _, by simp, h1, rfl, via_list.2 ⟨t, vs, [], [], by simp, h2, by simp, acc_280_nil.2 rfl⟩⟩

end Gosip.Sip.MsgM.Gr
