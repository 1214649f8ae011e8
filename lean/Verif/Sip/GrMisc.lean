import Verif.Sip.GrAddr2

/-!
# Content-Type, Call-ID and CSeq headers, as read by the message machine
-/

namespace Gosip.Sip.MsgM.Gr
open Spec

/-! ### Content-Type -/

theorem acc_dead {k : Nat} (hk : live k = ⟨false, false, false, false, false, false, false, false, false⟩) (lt : k < 765)
    {l : Loc} {v : Bytes} {us : List Upd} : Acc k l v us ↔ Acc k {} v us := by
  refine acc_agree lt ?_
  rw [hk]
  constructor <;> simp

theorem type_lives : live 39 = ⟨false, false, false, false, false, false, false, false, false⟩ ∧
    live 40 = ⟨false, false, false, false, false, false, false, false, false⟩ ∧
    live 42 = ⟨false, false, false, false, false, false, false, false, false⟩ ∧
    live 43 = ⟨false, false, false, false, false, false, false, false, false⟩ ∧
    live 44 = ⟨false, false, false, false, false, false, false, false, false⟩ ∧
    live 48 = ⟨false, false, false, false, false, false, false, false, false⟩ ∧
    live 50 = ⟨false, false, false, false, false, false, false, false, false⟩ := by decide +kernel

theorem shape_34 : Shape 34 [⟨tokenc, [.mark], 35⟩] none none := by decide +kernel
theorem loop_35 : Loop 35 tokenc [] [⟨(· == 47), [], 36⟩] none none := by decide +kernel
theorem shape_36 : Shape 36 [⟨tokenc, [], 37⟩] none none := by decide +kernel
theorem part_37 : AfterPart 37 38 45 46 47 tokenc [] [.contentType] [(59, 39)] (some 44) := by decide +kernel
theorem part_39 : SwsPart 39 65 66 67 [⟨tokenc, [], 40⟩] := by decide +kernel
theorem part_40 : AfterPart 40 41 62 63 64 tokenc [] [] [(61, 42)] none := by decide +kernel
theorem part_42 : SwsPart 42 59 60 61 [⟨tokenc, [], 43⟩, ⟨(· == 34), [], 48⟩] := by decide +kernel
theorem part_43 : AfterPart 43 38 45 46 47 tokenc [] [] [(59, 39)] (some 44) := by decide +kernel
theorem part_50 : AfterPart 50 38 45 46 47 (fun _ => false) [] [] [(59, 39)] (some 44) := by decide +kernel
theorem shape_44 : Shape 44 [⟨(· == 10), [], 280⟩] none none := by decide +kernel

/-- One separator and the end of the line. -/
theorem tail_sep_eol {c : UInt8} {k e : Nat} {l : Loc} {r : Bytes} {us : List Upd} :
    Tail [(c, k)] (some e) l r us ↔
      (∃ w t, r = w ++ c :: t ∧ Sws w ∧ Acc k { l with seg := [] } t us) ∨
      (∃ t, r = 13 :: t ∧ startsWSP t.tail = false ∧ Acc e { l with seg := [] } t us) := by
  constructor
  · rintro (⟨w, c, t, x, e, h1, h2, h3⟩ | ⟨e', t, h0, e, h1, h2⟩)
    · simp only [List.mem_cons, Prod.mk.injEq, List.not_mem_nil, or_false] at h2
      obtain ⟨rfl, rfl⟩ := h2
      exact .inl ⟨w, t, e, h1, h3⟩
    · cases h0; exact .inr ⟨t, e, h1, h2⟩
  · rintro (⟨w, t, e, h1, h2⟩ | ⟨t, e, h1, h2⟩)
    · exact .inl ⟨w, c, t, k, e, h1, by simp, h2⟩
    · exact .inr ⟨_, t, rfl, e, h1, h2⟩

/-- Behind the type or a parameter. -/
def TypeTail (r : Bytes) (us : List Upd) : Prop :=
  (∃ w t, r = w ++ 59 :: t ∧ Sws w ∧ Acc 39 {} t us) ∨ ∃ tl, r = CRLF ++ tl ∧ Acc 280 Loc.init tl us

theorem type_tail {l : Loc} {r : Bytes} {us : List Upd} : Tail [(59, 39)] (some 44) l r us ↔ TypeTail r us := by
  rw [tail_sep_eol, TypeTail]
  simp only [acc_dead type_lives.1 (by decide) (l := { l with seg := [] })]
  refine or_congr Iff.rfl ?_
  have := fun t => eol_shape shape_44 rfl (l := { l with seg := [] }) (l' := { l with seg := [] }) (E := [])
    (fun c => rfl) (t := t) (us := us)
  constructor
  · rintro ⟨t, rfl, h⟩
    obtain ⟨tl, b, rfl, h1, h2⟩ := (this t).1 h
    have h1 : us = b := h1
    exact ⟨tl, rfl, h1 ▸ h2⟩
  · rintro ⟨tl, rfl, h2⟩
    exact ⟨10 :: tl, rfl, (this _).2 ⟨tl, us, rfl, rfl, h2⟩⟩

/-- A token, whose bytes are not kept, and what follows it. -/
theorem type_token {k kb k1 k2 k3 : Nat} {seps : List (UInt8 × Nat)} {eol : Option Nat}
    (p : AfterPart k kb k1 k2 k3 tokenc [] [] seps eol) {l : Loc} {v : Bytes} {us : List Upd} :
    Acc k l v us ↔ ∃ s r, v = s ++ r ∧ (∀ c ∈ s, tokenc c = true) ∧ Tail seps eol { l with seg := l.seg ++ s } r us :=
  p.plain (g := fun s => { l with seg := l.seg ++ s }) (fun _ _ => rfl)

/-- The value of a parameter. -/
theorem type_value {v : Bytes} {us : List Upd} :
    Acc 42 {} v us ↔ ∃ w p r, v = w ++ p ++ r ∧ Sws w ∧ (IsToken p ∨ ∃ t x, p = 34 :: t ++ [34] ∧ QText t x) ∧
      TypeTail r us := by
  rw [part_42.acc]
  constructor
  · rintro ⟨w, r, rfl, hw, h⟩
    obtain ⟨c, t, as, x, rfl, h1, h2, h3⟩ := out_none.1 h
    rcases entAt_cons.1 h2 with ⟨g1, g2⟩ | ⟨_, h2⟩
    · cases g2
      obtain ⟨s, r, rfl, h4, h5⟩ := (type_token part_43).1 (go_nil.1 h3)
      exact ⟨w, c :: s, r, by simp, hw, .inl (isToken_cons g1 h4), type_tail.1 h5⟩
    · rcases entAt_cons.1 h2 with ⟨g1, g2⟩ | ⟨_, h2⟩
      · cases g2
        have : c = 34 := by simpa using g1
        subst this
        obtain ⟨t, x, r, rfl, hq, h4⟩ := qpart_48.acc.1 (go_nil.1 h3)
        obtain ⟨s, r, rfl, h5, h6⟩ := (part_50.plain (g := fun s => { Loc.b _ x with seg := (Loc.b _ x).seg ++ s }) (fun _ _ => rfl)).1 h4
        cases s with
        | nil => exact ⟨w, 34 :: t ++ [34], r, by simp, hw, .inr ⟨t, x, rfl, hq⟩, type_tail.1 h6⟩
        | cons d s => exact absurd (h5 d List.mem_cons_self) (by simp)
      · cases h2
  · rintro ⟨w, p, r, rfl, hw, hp | ⟨t, x, rfl, hq⟩, h⟩
    · obtain ⟨c, s, rfl, h1, h2⟩ := isToken_iff.1 hp
      refine ⟨w, c :: (s ++ r), by simp, hw, out_none.2 ⟨c, s ++ r, [], 43, rfl, token_ne h1, entAt_cons.2 (.inl ⟨h1, rfl⟩),
        go_nil.2 ((type_token part_43).2 ⟨s, r, rfl, h2, type_tail.2 h⟩)⟩⟩
    · refine ⟨w, 34 :: (t ++ 34 :: r), by simp, hw, out_none.2 ⟨34, t ++ 34 :: r, [], 48, rfl, by decide,
        entAt_cons.2 (.inr ⟨by decide, entAt_cons.2 (.inl ⟨rfl, rfl⟩)⟩), go_nil.2 (qpart_48.acc.2 ⟨t, x, r, rfl, hq, ?_⟩)⟩⟩
      exact (part_50.plain (g := fun s => { Loc.b _ x with seg := (Loc.b _ x).seg ++ s }) (fun _ _ => rfl)).2
        ⟨[], r, rfl, (fun _ h => nomatch h), type_tail.2 h⟩

/-- A parameter and what follows it. -/
theorem type_param {v : Bytes} {us : List Upd} :
    Acc 39 {} v us ↔ ∃ w p r, v = w ++ p ++ r ∧ Sws w ∧ TypeParam p ∧ TypeTail r us := by
  rw [part_39.acc]
  constructor
  · rintro ⟨w, r, rfl, hw, h⟩
    obtain ⟨c, t, as, x, rfl, h1, h2, h3⟩ := out_none.1 h
    rcases entAt_cons.1 h2 with ⟨g1, g2⟩ | ⟨_, h2⟩
    · cases g2
      obtain ⟨s, r, rfl, h4, h5⟩ := (type_token part_40).1 (go_nil.1 h3)
      obtain ⟨w1, t, rfl, h6, h7⟩ := tail_one.1 h5
      obtain ⟨w2, p, r, rfl, h8, h9, h10⟩ := type_value.1 ((acc_dead type_lives.2.2.1 (by decide)).1 h7)
      refine ⟨w, c :: s ++ (w1 ++ 61 :: w2) ++ p, r, by simp, hw, ?_, h10⟩
      rcases h9 with hp | ⟨t, x, rfl, hq⟩
      · exact .plain (isToken_cons g1 h4) ⟨w1, w2, rfl, h6, h8⟩ hp
      · exact .quoted (isToken_cons g1 h4) ⟨w1, w2, rfl, h6, h8⟩ hq
    · cases h2
  · rintro ⟨w, p, r, rfl, hw, hp, h⟩
    have key : ∀ n s q, IsToken n → Sep 61 s → (IsToken q ∨ ∃ t x, q = 34 :: t ++ [34] ∧ QText t x) → p = n ++ s ++ q →
        ∃ w_1 r_1, w ++ p ++ r = w_1 ++ r_1 ∧ Sws w_1 ∧ Out [⟨tokenc, [], 40⟩] none none { seg := [] ++ w_1 } r_1 us := by
      rintro n s q hn ⟨w1, w2, rfl, h6, h8⟩ hq rfl
      obtain ⟨c, s, rfl, h1, h2⟩ := isToken_iff.1 hn
      refine ⟨w, c :: (s ++ (w1 ++ 61 :: (w2 ++ q ++ r))), by simp, hw, out_none.2 ⟨c, _, [], 40, rfl, token_ne h1,
        entAt_cons.2 (.inl ⟨h1, rfl⟩), go_nil.2 ((type_token part_40).2 ⟨s, _, rfl, h2, tail_one.2 ⟨w1, _, rfl, h6,
          (acc_dead type_lives.2.2.1 (by decide)).2 (type_value.2 ⟨w2, q, r, rfl, h8, hq, h⟩)⟩⟩)⟩⟩
    cases hp with
    | plain hn hs hv => exact key _ _ _ hn hs (.inl hv) rfl
    | quoted hn hs hq => exact key _ _ _ hn hs (.inr ⟨_, _, rfl, hq⟩) rfl

/-- The parameters up to the end of the line. -/
theorem type_rest {r : Bytes} {us : List Upd} :
    TypeTail r us ↔ ∃ ps tl, r = ps ++ CRLF ++ tl ∧ TypeParams ps ∧ Acc 280 Loc.init tl us := by
  constructor
  · generalize hN : r.length = N
    intro h
    induction N using Nat.strongRecOn generalizing r with
    | ind N ih =>
      rcases h with ⟨w, t, rfl, hw, h⟩ | ⟨tl, rfl, h⟩
      · obtain ⟨w', p, r, rfl, h1, h2, h3⟩ := type_param.1 h
        obtain ⟨ps, tl, rfl, g1, g2⟩ := ih _ (by rw [← hN]; simp; omega) rfl h3
        exact ⟨w ++ 59 :: w' ++ p ++ ps, tl, by simp, .cons ⟨w, w', rfl, hw, h1⟩ h2 g1, g2⟩
      · exact ⟨[], tl, rfl, .nil, h⟩
  · rintro ⟨ps, tl, rfl, h1, h2⟩
    induction h1 with
    | nil => exact .inr ⟨tl, rfl, h2⟩
    | @cons s p t hs hp _ ih =>
      obtain ⟨w, w', rfl, g1, g2⟩ := hs
      exact .inl ⟨w, w' ++ p ++ (t ++ CRLF ++ tl), by simp, g1, type_param.2 ⟨w', p, _, rfl, g2, hp, ih⟩⟩

/-- Behind the type. -/
theorem out_type {l : Loc} {r : Bytes} {us : List Upd} :
    Out (⟨blank, [.contentType], 38⟩ :: sepEnts [.contentType] [(59, 39)]) ((some 44).map (([.contentType] : List MAct), ·))
      (some ([.contentType], 45)) l r us ↔ ∃ b, us = .ctype l.seg :: b ∧ TypeTail r b := by
  have hg : ∀ x c t us, Go [.contentType] x l c t us ↔ ∃ b, us = .ctype l.seg :: b ∧ Go [] x l c t b := by
    intro x c t us
    rw [go_adv' rfl rfl]
    simp only [go_nil]
    rfl
  have ho : ∀ b, TypeTail r b ↔ Out (⟨blank, [], 38⟩ :: sepEnts [] [(59, 39)]) ((some 44).map (([] : List MAct), ·))
      (some ([], 45)) l r b := fun b => ((part_43.out (fun _ => rfl)).trans type_tail).symm
  simp only [ho]
  constructor
  · rintro ⟨c, t, as, x, rfl, h1, ⟨h2, h3⟩ | ⟨rfl, h2, h3⟩ | ⟨rfl, h2, h3⟩⟩
    · rcases entAt_cons.1 h3 with ⟨g1, g2⟩ | ⟨g1, g2⟩
      · cases g2
        obtain ⟨b, e, h⟩ := (hg _ _ _ _).1 h1
        exact ⟨b, e, c, t, [], 38, rfl, h, .inl ⟨h2, entAt_cons.2 (.inl ⟨g1, rfl⟩)⟩⟩
      · rcases entAt_cons.1 g2 with ⟨g3, g4⟩ | ⟨_, g3⟩
        · cases g4
          obtain ⟨b, e, h⟩ := (hg _ _ _ _).1 h1
          exact ⟨b, e, c, t, [], 39, rfl, h, .inl ⟨h2, entAt_cons.2 (.inr ⟨g1, entAt_cons.2 (.inl ⟨g3, rfl⟩)⟩)⟩⟩
        · cases g3
    · cases h3
      obtain ⟨b, e, h⟩ := (hg _ _ _ _).1 h1
      exact ⟨b, e, 13, t, [], 44, rfl, h, .inr (.inl ⟨rfl, h2, rfl⟩)⟩
    · cases h3
      obtain ⟨b, e, h⟩ := (hg _ _ _ _).1 h1
      exact ⟨b, e, 13, t, [], 45, rfl, h, .inr (.inr ⟨rfl, h2, rfl⟩)⟩
  · rintro ⟨b, e, c, t, as, x, rfl, h1, ⟨h2, h3⟩ | ⟨rfl, h2, h3⟩ | ⟨rfl, h2, h3⟩⟩
    · rcases entAt_cons.1 h3 with ⟨g1, g2⟩ | ⟨g1, g2⟩
      · cases g2
        exact ⟨c, t, [.contentType], 38, rfl, (hg _ _ _ _).2 ⟨b, e, h1⟩, .inl ⟨h2, entAt_cons.2 (.inl ⟨g1, rfl⟩)⟩⟩
      · rcases entAt_cons.1 g2 with ⟨g3, g4⟩ | ⟨_, g3⟩
        · cases g4
          exact ⟨c, t, [.contentType], 39, rfl, (hg _ _ _ _).2 ⟨b, e, h1⟩,
            .inl ⟨h2, entAt_cons.2 (.inr ⟨g1, entAt_cons.2 (.inl ⟨g3, rfl⟩)⟩)⟩⟩
        · cases g3
    · cases h3
      exact ⟨13, t, [.contentType], 44, rfl, (hg _ _ _ _).2 ⟨b, e, h1⟩, .inr (.inl ⟨rfl, h2, rfl⟩)⟩
    · cases h3
      exact ⟨13, t, [.contentType], 45, rfl, (hg _ _ _ _).2 ⟨b, e, h1⟩, .inr (.inr ⟨rfl, h2, rfl⟩)⟩

/-- The type and what follows it. -/
theorem type_text {v : Bytes} {us : List Upd} :
    Acc 34 {} v us ↔ ∃ t r b, v = t ++ r ∧ TypeText t ∧ us = .ctype t :: b ∧ TypeTail r b := by
  rw [acc_single shape_34]
  constructor
  · rintro ⟨c, t, rfl, h1, h2, h3⟩
    rw [go_adv' rfl rfl] at h3
    obtain ⟨b, e, h3⟩ := h3
    have e : us = b := e
    subst e
    obtain ⟨s, r, rfl, h4, h5⟩ := (loop_plain loop_35).1 h3
    obtain ⟨t, rfl, h6⟩ := (out_byte (by decide)).1 h5
    obtain ⟨d, t, rfl, h7, h8, h9⟩ := (acc_one shape_36).1 (go_nil.1 h6)
    obtain ⟨s', r, rfl, h10, h11⟩ := (loop_plain part_37.s).1 h9
    obtain ⟨b, e, h12⟩ := out_type.1 h11
    refine ⟨c :: s ++ 47 :: (d :: s'), r, b, by simp, ⟨c :: s, d :: s', rfl, isToken_cons h2 h4, isToken_cons h8 h10⟩, ?_, h12⟩
    rw [e]; simp
  · rintro ⟨t, r, b, rfl, ⟨x, y, rfl, hx, hy⟩, rfl, h⟩
    obtain ⟨c, s, rfl, h1, h2⟩ := isToken_iff.1 hx
    obtain ⟨d, s', rfl, h3, h4⟩ := isToken_iff.1 hy
    refine ⟨c, s ++ 47 :: (d :: (s' ++ r)), by simp, token_ne h1, h1, (go_adv' rfl rfl).2 ⟨_, rfl, ?_⟩⟩
    refine (loop_plain loop_35).2 ⟨s, _, rfl, h2, (out_byte (by decide)).2 ⟨_, rfl, go_nil.2 ((acc_one shape_36).2
      ⟨d, s' ++ r, rfl, token_ne h3, h3, (loop_plain part_37.s).2 ⟨s', r, rfl, h4, out_type.2 ⟨b, by simp, h⟩⟩⟩)⟩⟩

/-- The value of a Content-Type header. -/
theorem line_type {n w v : Bytes} {us : List Upd} (hn : IsName n) (hw : Blanks w) (hv : LogicalLine v)
    (hh : headerOf n = some .contentType) :
    Line (headerLine n w v) us ↔ ∃ w' t ps, v = w' ++ t ++ ps ∧ Sws w' ∧ TypeText t ∧ TypeParams ps ∧ us = [.ctype t] := by
  rw [line_known hn hw hh]
  show Acc 366 _ _ _ ↔ _
  rw [skip_rel skip_366 (m := {}) (E := []) (fun s c => ⟨_, rfl, by rw [live_34]; constructor <;> simp⟩) (first_tok shape_34)]
  simp only [type_text, type_rest]
  constructor
  · rintro ⟨w', _, b, e, h1, h2, t, _, b', rfl, h3, rfl, ps, tl, rfl, h4, h5⟩
    obtain ⟨rfl, rfl, e2⟩ := logical_rest (x := w' ++ t ++ ps) hv (by rw [e]; simp) h5
    exact ⟨w', t, ps, e2, h1, h3, h4, h2⟩
  · rintro ⟨w', t, ps, rfl, h1, h2, h3, rfl⟩
    exact ⟨w', t ++ (ps ++ CRLF ++ []), _, by simp, h1, rfl, t, _, [], rfl, h2, rfl, ps, [], rfl, h3, acc_280_nil.2 rfl⟩

/-! ### Call-ID -/

/-- Characters of a Call-ID. -/
def wordB (c : UInt8) : Bool := decide (wordc c)

theorem wordB_iff (c : UInt8) : wordB c = true ↔ wordc c := by simp [wordB]

theorem wordB_ne : ∀ c : UInt8, wordB c = true → c ≠ 13 ∧ c ≠ 64 := by decide +kernel

theorem part_377 : SwsPart 377 382 383 384 [⟨wordB, [.mark], 378⟩] := by decide +kernel
theorem loop_378 : Loop 378 wordB [] [⟨(· == 64), [], 379⟩] (some ([.callID], 381)) none := by decide +kernel
theorem shape_379 : Shape 379 [⟨wordB, [], 380⟩] none none := by decide +kernel
theorem loop_380 : Loop 380 wordB [] [] (some ([.callID], 381)) none := by decide +kernel

/-- The end of a line after a piece that is then assigned. -/
theorem go_381 {as : List MAct} {l : Loc} {u : Upd} (ha : moveOf as = .adv) (hf : ∀ c, sacts as c l = some (l, [u]))
    {t : Bytes} {us : List Upd} :
    (startsWSP t.tail = false ∧ Go as 381 l 13 t us) ↔ ∃ tl b, t = 10 :: tl ∧ us = u :: b ∧ Acc 280 Loc.init tl b := by
  rw [go_adv' ha (hf 13)]
  simp only [acc_381]
  constructor
  · rintro ⟨_, b, e, tl, rfl, h⟩
    exact ⟨tl, b, rfl, e, h⟩
  · rintro ⟨tl, b, rfl, e, h⟩
    exact ⟨acc_280_blank h, b, e, tl, rfl, h⟩

/-- The value of a Call-ID header. -/
theorem line_callID {n w v : Bytes} {us : List Upd} (hn : IsName n) (hw : Blanks w) (hv : LogicalLine v)
    (hh : headerOf n = some .callID) :
    Line (headerLine n w v) us ↔ ∃ w' t, v = w' ++ t ∧ Sws w' ∧ CallIDText t ∧ us = [.callID t] := by
  rw [line_known hn hw hh]
  show Acc 377 _ _ _ ↔ _
  rw [sws_tok part_377]
  constructor
  · rintro ⟨w', c, t, e, h1, h2, h3, h4⟩
    obtain ⟨s, r, rfl, h5, d, t, as, x, rfl, h6, ⟨h7, h8⟩ | ⟨rfl, h7, h8⟩ | ⟨_, _, h8⟩⟩ := (loop_plain loop_378).1 h4
    · rcases entAt_cons.1 h8 with ⟨g1, g2⟩ | ⟨_, g2⟩
      · cases g2
        have : d = 64 := by simpa using g1
        subst this
        obtain ⟨d, t, rfl, g3, g4, g5⟩ := (acc_one shape_379).1 (go_nil.1 h6)
        obtain ⟨s', r, rfl, g6, d', t, as, x, rfl, g7, ⟨g8, g9⟩ | ⟨rfl, g8, g9⟩ | ⟨_, _, g9⟩⟩ := (loop_plain loop_380).1 g5
        · cases g9
        · cases g9
          obtain ⟨tl, b, rfl, rfl, g10⟩ := (go_381 rfl (fun _ => rfl)).1 ⟨g8, g7⟩
          obtain ⟨rfl, rfl, e2⟩ := logical_rest (x := w' ++ (c :: s ++ 64 :: (d :: s'))) hv (by rw [e]; simp [CRLF]) g10
          refine ⟨w', _, e2, h1, ⟨c :: s, d :: s', by simp, ?_, .inr ⟨rfl, by simp, ?_⟩⟩, by simp⟩
          · exact List.forall_mem_cons.2 ⟨(wordB_iff c).1 h3, fun d hd => (wordB_iff d).1 (h5 d hd)⟩
          · exact List.forall_mem_cons.2 ⟨(wordB_iff d).1 g4, fun d hd => (wordB_iff d).1 (g6 d hd)⟩
        · cases g9
      · cases g2
    · cases h8
      obtain ⟨tl, b, rfl, rfl, g10⟩ := (go_381 rfl (fun _ => rfl)).1 ⟨h7, h6⟩
      obtain ⟨rfl, rfl, e2⟩ := logical_rest (x := w' ++ c :: s) hv (by rw [e]; simp [CRLF]) g10
      refine ⟨w', _, e2, h1, ⟨c :: s, [], by simp, ?_, .inl rfl⟩, by simp⟩
      exact List.forall_mem_cons.2 ⟨(wordB_iff c).1 h3, fun d hd => (wordB_iff d).1 (h5 d hd)⟩
    · cases h8
  · rintro ⟨w', t, rfl, hw', ⟨a, b, ha, hb, h⟩, rfl⟩
    cases a with
    | nil => exact absurd rfl ha
    | cons c s =>
      have hc := (wordB_iff c).2 (hb c List.mem_cons_self)
      have hs : ∀ d ∈ s, wordB d = true := fun d hd => (wordB_iff d).2 (hb d (List.mem_cons_of_mem _ hd))
      rcases h with rfl | ⟨rfl, h1, h2⟩
      · refine ⟨w', c, s ++ CRLF, by simp, hw', (wordB_ne c hc).1, hc, (loop_plain loop_378).2 ⟨s, CRLF, rfl, hs,
          13, [10], [.callID], 381, rfl, ?_, .inr (.inl ⟨rfl, rfl, rfl⟩)⟩⟩
        exact ((go_381 rfl (fun _ => rfl)).2 ⟨[], [], rfl, by simp, acc_280_nil.2 rfl⟩).2
      · cases b with
        | nil => exact absurd rfl h1
        | cons d s' =>
          have hd := (wordB_iff d).2 (h2 d List.mem_cons_self)
          have hs' : ∀ d ∈ s', wordB d = true := fun d hd => (wordB_iff d).2 (h2 d (List.mem_cons_of_mem _ hd))
          refine ⟨w', c, s ++ 64 :: (d :: (s' ++ CRLF)), by simp, hw', (wordB_ne c hc).1, hc, (loop_plain loop_378).2 ⟨s, _, rfl, hs,
            64, _, [], 379, rfl, go_nil.2 ((acc_one shape_379).2 ⟨d, _, rfl, (wordB_ne d hd).1, hd, (loop_plain loop_380).2
              ⟨s', CRLF, rfl, hs', 13, [10], [.callID], 381, rfl, ?_, .inr (.inl ⟨rfl, rfl, rfl⟩)⟩⟩),
            .inl ⟨by decide, entAt_cons.2 (.inl ⟨rfl, rfl⟩)⟩⟩⟩
          exact ((go_381 rfl (fun _ => rfl)).2 ⟨[], [], rfl, by simp, acc_280_nil.2 rfl⟩).2

/-! ### CSeq -/

theorem part_449 : SwsPart 449 456 457 458 [⟨digB, [.cseq], 450⟩] := by decide +kernel
theorem loop_450 : Loop 450 digB [.cseq] [⟨blank, [], 451⟩] none (some ([], 453)) := by decide +kernel
theorem part_450 : LwsPart 450 451 453 454 455 digB [.cseq] [] [⟨tokenc, [.mark], 452⟩] := by decide +kernel
theorem loop_452 : Loop 452 tokenc [] [] (some ([.cseqMethod], 381)) none := by decide +kernel

/-- The method of a CSeq header. -/
theorem cseq_method {l : Loc} {v : Bytes} {us : List Upd} :
    Out [⟨tokenc, [.mark], 452⟩] none none l v us ↔
      ∃ t tl b, v = t ++ CRLF ++ tl ∧ IsToken t ∧ us = .cseqMethod t :: b ∧ Acc 280 Loc.init tl b := by
  rw [out_none]
  constructor
  · rintro ⟨c, t, as, x, rfl, h1, h2, h3⟩
    rcases entAt_cons.1 h2 with ⟨g1, g2⟩ | ⟨_, g2⟩
    · cases g2
      rw [go_adv' rfl rfl] at h3
      obtain ⟨b, e, h3⟩ := h3
      have e : us = b := e
      subst e
      obtain ⟨s, r, rfl, h5, d, t, as, x, rfl, h6, ⟨_, h8⟩ | ⟨rfl, h7, h8⟩ | ⟨_, _, h8⟩⟩ := (loop_plain loop_452).1 h3
      · cases h8
      · cases h8
        obtain ⟨tl, b, rfl, rfl, g10⟩ := (go_381 rfl (fun _ => rfl)).1 ⟨h7, h6⟩
        exact ⟨c :: s, tl, b, by simp [CRLF], isToken_cons g1 h5, by simp, g10⟩
      · cases h8
    · cases g2
  · rintro ⟨t, tl, b, rfl, ht, rfl, h⟩
    obtain ⟨c, s, rfl, h1, h2⟩ := isToken_iff.1 ht
    refine ⟨c, s ++ (13 :: 10 :: tl), [.mark], 452, by simp [CRLF], token_ne h1, entAt_cons.2 (.inl ⟨h1, rfl⟩),
      (go_adv' rfl rfl).2 ⟨_, rfl, (loop_plain loop_452).2 ⟨s, _, rfl, h2, 13, 10 :: tl, [.cseqMethod], 381, rfl, ?_,
        .inr (.inl ⟨rfl, acc_280_blank h, rfl⟩)⟩⟩⟩
    exact ((go_381 rfl (fun _ => rfl)).2 ⟨tl, b, rfl, by simp, h⟩).2

/-- The value of a CSeq header. -/
theorem line_cseq {n w v : Bytes} {us : List Upd} (hn : IsName n) (hw : Blanks w) (hv : LogicalLine v)
    (hh : headerOf n = some .cseq) :
    Line (headerLine n w v) us ↔ ∃ w1 ds w2 t, v = w1 ++ ds ++ w2 ++ t ∧ Sws w1 ∧ Digits ds ∧ Lws w2 ∧ IsToken t ∧
      us = ds.map .cseq ++ [.cseqMethod t] := by
  rw [line_known hn hw hh]
  show Acc 449 _ _ _ ↔ _
  rw [part_449.acc]
  have st : ∀ c t sg us, Go [.cseq] 450 { seg := sg } c t us ↔ ∃ ds r b, t = ds ++ r ∧ (∀ d ∈ ds, digB d = true) ∧
      us = .cseq c :: ds.map .cseq ++ b ∧ ∃ w t, r = w ++ t ∧ Lws w ∧ Out [⟨tokenc, [.mark], 452⟩] none none
        { seg := sg ++ [c] ++ ds ++ w } t b := by
    intro c t sg us
    rw [go_adv' rfl rfl]
    have : ∀ b, Acc 450 { seg := sg ++ [c] } t b ↔ ∃ ds r b', t = ds ++ r ∧ (∀ d ∈ ds, digB d = true) ∧
        b = ds.map .cseq ++ b' ∧ ∃ w t, r = w ++ t ∧ Lws w ∧ Out [⟨tokenc, [.mark], 452⟩] none none
          { seg := sg ++ [c] ++ ds ++ w } t b' := by
      intro b
      rw [loop_acts part_450.s (fun _ => True) (fun l _ => l) (fun c => [.cseq c]) (fun _ _ _ _ => ⟨rfl, trivial⟩) trivial]
      simp only [foldl_seg]
      have hm : ∀ ds : Bytes, ds.flatMap (fun c => [Upd.cseq c]) = ds.map .cseq := fun ds => by
        induction ds with
        | nil => rfl
        | cons c ds ih => simp [ih]
      simp only [hm]
      constructor
      · rintro ⟨s, r, b', e, h1, h2, h3⟩
        exact ⟨s, r, b', e, h1, h2, (part_450.out (fun _ => rfl)).1 h3⟩
      · rintro ⟨s, r, b', e, h1, h2, h3⟩
        exact ⟨s, r, b', e, h1, h2, (part_450.out (fun _ => rfl)).2 h3⟩
    constructor
    · rintro ⟨b, rfl, h⟩
      obtain ⟨ds, r, b', e, h1, rfl, h2⟩ := (this b).1 h
      exact ⟨ds, r, b', e, h1, by simp, h2⟩
    · rintro ⟨ds, r, b', e, h1, rfl, h2⟩
      exact ⟨ds.map .cseq ++ b', by simp, (this _).2 ⟨ds, r, b', e, h1, rfl, h2⟩⟩
  constructor
  · rintro ⟨w1, r, e, h1, h⟩
    obtain ⟨c, t, as, x, rfl, h2, h3, h4⟩ := out_none.1 h
    rcases entAt_cons.1 h3 with ⟨g1, g2⟩ | ⟨_, g2⟩
    · cases g2
      obtain ⟨ds, r, b, rfl, h5, rfl, w2, t, rfl, h6, h7⟩ := (st _ _ _ _).1 h4
      obtain ⟨t, tl, b, rfl, h8, rfl, h9⟩ := cseq_method.1 h7
      obtain ⟨rfl, rfl, e2⟩ := logical_rest (x := w1 ++ (c :: ds) ++ w2 ++ t) hv (by rw [e]; simp) h9
      exact ⟨w1, c :: ds, w2, t, e2, h1, ⟨by simp, List.forall_mem_cons.2 ⟨(digB_iff c).1 g1, fun d hd => (digB_iff d).1 (h5 d hd)⟩⟩,
        h6, h8, by simp⟩
    · cases g2
  · rintro ⟨w1, ds, w2, t, rfl, h1, ⟨h2, h3⟩, h4, h5, rfl⟩
    cases ds with
    | nil => exact absurd rfl h2
    | cons c ds =>
      have hc := (digB_iff c).2 (h3 c List.mem_cons_self)
      refine ⟨w1, c :: (ds ++ (w2 ++ (t ++ CRLF ++ []))), by simp, h1, out_none.2 ⟨c, _, [.cseq], 450, rfl, ?_, entAt_cons.2 (.inl ⟨hc, rfl⟩),
        (st _ _ _ _).2 ⟨ds, _, [.cseqMethod t], rfl, fun d hd => (digB_iff d).2 (h3 d (List.mem_cons_of_mem _ hd)), by simp, w2, _, rfl, h4,
          cseq_method.2 ⟨t, [], [], rfl, h5, rfl, acc_280_nil.2 rfl⟩⟩⟩⟩
      rintro rfl; exact absurd hc (by decide)

end Gosip.Sip.MsgM.Gr
