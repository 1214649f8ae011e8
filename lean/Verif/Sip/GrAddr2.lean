import Verif.Sip.GrAddr

/-!
# Display names and lists of addresses, as read by the message machine
-/

namespace Gosip.Sip.MsgM.Gr
open Spec

/-! ### The words before `<`, read a second time -/

/-- State `k`, with any display name so far, accepts `q` just if `P`. -/
def Claim (f : AField) (us : List Upd) (k : Nat) (s q : Bytes) (P : Prop) : Prop :=
  ∀ y, Acc k { addrp := some f, addr := some { display := y }, seg := s } q us ↔ P

theorem shape_213 : Shape 213 [⟨blank, [], 214⟩, ⟨tokenc, [], 213⟩] none (some ([], 215)) := by decide +kernel
theorem shape_214 : Shape 214 [⟨blank, [.addrUnquotedDisplay], 214⟩, ⟨tokenc, [], 213⟩, ⟨(· == 60), [.addrUnquotedDisplay], 190⟩]
    none (some ([.addrUnquotedDisplay], 215)) := by decide +kernel
theorem shape_215 : Shape 215 [⟨(· == 10), [], 216⟩] none none := by decide +kernel
theorem shape_216 : Shape 216 [⟨blank, [], 217⟩] none none := by decide +kernel
theorem shape_217 : Shape 217 [⟨blank, [.addrUnquotedDisplay], 217⟩, ⟨tokenc, [], 213⟩, ⟨(· == 60), [.addrUnquotedDisplay], 190⟩]
    none (some ([.addrUnquotedDisplay], 210)) := by decide +kernel

theorem blank_ne {c : UInt8} (h : blank c = true) : c ≠ 13 := by rintro rfl; exact absurd h (by decide)

theorem ent_blank {c : UInt8} (h : blank c = true) {as : List MAct} {x : Nat} {es : List Ent} :
    entAt (⟨blank, as, x⟩ :: es) c = some (as, x) := entAt_cons.2 (.inl ⟨h, rfl⟩)

theorem ent_tok {c : UInt8} (h : tokenc c = true) {as bs : List MAct} {x y : Nat} {es : List Ent} :
    entAt (⟨blank, as, x⟩ :: ⟨tokenc, bs, y⟩ :: es) c = some (bs, y) :=
  entAt_cons.2 (.inr ⟨(token_nb c h).1, entAt_cons.2 (.inl ⟨h, rfl⟩)⟩)

section
variable {f : AField} {us : List Upd} {P : Prop}

theorem c213_tok {c : UInt8} {s q : Bytes} (h : tokenc c = true) (g : Claim f us 213 (s ++ [c]) q P) : Claim f us 213 s (c :: q) P := by
  intro y
  rw [acc_at shape_213 (token_ne h) (ent_tok h), go_nil]
  exact g y

theorem c213_ws {c : UInt8} {s q : Bytes} (h : blank c = true) (g : Claim f us 214 (s ++ [c]) q P) : Claim f us 213 s (c :: q) P := by
  intro y
  rw [acc_at shape_213 (blank_ne h) (ent_blank h), go_nil]
  exact g y

theorem c214_ws {c : UInt8} {s q : Bytes} (h : blank c = true) (g : Claim f us 214 (s ++ [c]) q P) : Claim f us 214 s (c :: q) P := by
  intro y
  rw [acc_at shape_214 (blank_ne h) (ent_blank h), go_adv0 rfl rfl]
  exact g _

theorem c217_ws {c : UInt8} {s q : Bytes} (h : blank c = true) (g : Claim f us 217 (s ++ [c]) q P) : Claim f us 217 s (c :: q) P := by
  intro y
  rw [acc_at shape_217 (blank_ne h) (ent_blank h), go_adv0 rfl rfl]
  exact g _

theorem c214_tok {c : UInt8} {s q : Bytes} (h : tokenc c = true) (g : Claim f us 213 (s ++ [c]) q P) : Claim f us 214 s (c :: q) P := by
  intro y
  rw [acc_at shape_214 (token_ne h) (ent_tok h), go_nil]
  exact g y

theorem c217_tok {c : UInt8} {s q : Bytes} (h : tokenc c = true) (g : Claim f us 213 (s ++ [c]) q P) : Claim f us 217 s (c :: q) P := by
  intro y
  rw [acc_at shape_217 (token_ne h) (ent_tok h), go_nil]
  exact g y

theorem c215 {c : UInt8} {s q : Bytes} {l : Loc} (h : blank c = true) (hl : l.addrp = some f) (hd : ∃ y, l.addr = some { display := y })
    (hs : l.seg = s ++ [13]) (hb : l = { addrp := l.addrp, addr := l.addr, seg := l.seg })
    (g : Claim f us 217 (s ++ CRLF ++ [c]) q P) : Acc 215 l (10 :: c :: q) us ↔ P := by
  obtain ⟨y, hd⟩ := hd
  rw [acc_at shape_215 (by decide) rfl, go_nil, acc_at shape_216 (blank_ne h) (ent_blank h), go_nil]
  rw [← g y, hb]
  simp only [hl, hd, hs]
  simp [CRLF]

theorem c213_fold {c : UInt8} {s q : Bytes} (h : blank c = true) (g : Claim f us 217 (s ++ CRLF ++ [c]) q P) :
    Claim f us 213 s (CRLF ++ c :: q) P := by
  intro y
  show Acc _ _ (13 :: 10 :: c :: q) _ ↔ _
  rw [acc_foldstep shape_213 (t := 10 :: c :: q) h, go_nil]
  exact c215 h rfl ⟨y, rfl⟩ rfl rfl g

theorem c214_fold {c : UInt8} {s q : Bytes} (h : blank c = true) (g : Claim f us 217 (s ++ CRLF ++ [c]) q P) :
    Claim f us 214 s (CRLF ++ c :: q) P := by
  intro y
  show Acc _ _ (13 :: 10 :: c :: q) _ ↔ _
  rw [acc_foldstep shape_214 (t := 10 :: c :: q) h, go_adv0 rfl rfl]
  exact c215 h rfl ⟨_, rfl⟩ rfl rfl g

theorem c214_lt {s r : Bytes} : Claim f us 214 s (60 :: r) (Acc 190 (A f { display := trimR s }) r us) := by
  intro y
  rw [acc_at shape_214 (by decide) rfl, go_adv0 rfl rfl]
  exact acc_addr addr_lives.2.1 (by decide) rfl rfl

theorem c217_lt {s r : Bytes} : Claim f us 217 s (60 :: r) (Acc 190 (A f { display := trimR s }) r us) := by
  intro y
  rw [acc_at shape_217 (by decide) rfl, go_adv0 rfl rfl]
  exact acc_addr addr_lives.2.1 (by decide) rfl rfl

theorem c213_toks {a : Bytes} (h : ∀ c ∈ a, tokenc c = true) {s q : Bytes} (g : Claim f us 213 (s ++ a) q P) :
    Claim f us 213 s (a ++ q) P := by
  induction a generalizing s with
  | nil => simpa using g
  | cons c a ih =>
    exact c213_tok (h c List.mem_cons_self) (ih (fun d hd => h d (List.mem_cons_of_mem _ hd)) (by simpa using g))

theorem c214_blanks {a : Bytes} (h : Blanks a) {s q : Bytes} (g : Claim f us 214 (s ++ a) q P) : Claim f us 214 s (a ++ q) P := by
  induction a generalizing s with
  | nil => simpa using g
  | cons c a ih =>
    exact c214_ws (blank_iff'.2 (h c List.mem_cons_self)) (ih (fun d hd => h d (List.mem_cons_of_mem _ hd)) (by simpa using g))

theorem c217_blanks {a : Bytes} (h : Blanks a) {s q : Bytes} (g : Claim f us 217 (s ++ a) q P) : Claim f us 217 s (a ++ q) P := by
  induction a generalizing s with
  | nil => simpa using g
  | cons c a ih =>
    exact c217_ws (blank_iff'.2 (h c List.mem_cons_self)) (ih (fun d hd => h d (List.mem_cons_of_mem _ hd)) (by simpa using g))

theorem c213_lws {w : Bytes} (h : Lws w) {s q : Bytes} (g1 : Claim f us 214 (s ++ w) q P) (g2 : Claim f us 217 (s ++ w) q P) :
    Claim f us 213 s (w ++ q) P := by
  obtain ⟨h, hne⟩ := h
  cases h with
  | blanks h =>
    cases w with
    | nil => exact absurd rfl hne
    | cons c w => exact c213_ws (blank_iff'.2 (h c List.mem_cons_self)) (c214_blanks (fun d hd => h d (List.mem_cons_of_mem _ hd)) (by simpa using g1))
  | @fold u u' h h4 h5 =>
    cases u' with
    | nil => exact absurd rfl h5
    | cons c u' =>
      have hc := blank_iff'.2 (h4 c List.mem_cons_self)
      have hu : Blanks u' := fun d hd => h4 d (List.mem_cons_of_mem _ hd)
      have e : u ++ CRLF ++ c :: u' ++ q = u ++ (CRLF ++ c :: (u' ++ q)) := by simp
      rw [e]
      cases u with
      | nil => exact c213_fold hc (c217_blanks hu (by simpa using g2))
      | cons d u =>
        exact c213_ws (blank_iff'.2 (h d List.mem_cons_self)) (c214_blanks (fun d hd => h d (List.mem_cons_of_mem _ hd))
          (c214_fold hc (c217_blanks hu (by simpa using g2))))

end

/-- What remains of the words before `<` after the first letters of a word. -/
def More (t : Bytes) : Prop :=
  ∃ a w, (∀ c ∈ a, tokenc c = true) ∧ Lws w ∧ (t = a ++ w ∨ ∃ t' d', Words t' d' ∧ t = a ++ w ++ t')

theorem words_more {t d : Bytes} (h : Words t d) : ∃ c t', t = c :: t' ∧ tokenc c = true ∧ More t' := by
  cases h with
  | @one a w ha hw =>
    obtain ⟨c, s, rfl, h1, h2⟩ := isToken_iff.1 ha
    exact ⟨c, s ++ w, rfl, h1, s, w, h2, hw, .inl rfl⟩
  | @cons a w t d ha hw ht =>
    obtain ⟨c, s, rfl, h1, h2⟩ := isToken_iff.1 ha
    exact ⟨c, s ++ w ++ t, rfl, h1, s, w, h2, hw, .inr ⟨t, d, ht, rfl⟩⟩

theorem more_words {c : UInt8} {t : Bytes} (hc : tokenc c = true) (h : More t) : ∃ d, Words (c :: t) d := by
  obtain ⟨a, w, h1, h2, rfl | ⟨t', d', h3, rfl⟩⟩ := h
  · exact ⟨_, .one (isToken_cons hc h1) h2⟩
  · exact ⟨_, .cons (isToken_cons hc h1) h2 h3⟩

theorem claim_more {f : AField} {us : List Upd} {r : Bytes} {N : Nat} : ∀ {t s : Bytes}, t.length ≤ N → More t →
    Claim f us 213 s (t ++ 60 :: r) (Acc 190 (A f { display := trimR (s ++ t) }) r us) := by
  induction N with
  | zero =>
    intro t s hN h
    have : t = [] := List.length_eq_zero_iff.1 (by omega)
    subst this
    obtain ⟨a, w, h1, h2, h3 | ⟨t', d', h3, h4⟩⟩ := h
    · have := h2.2; simp at h3; exact absurd h3.2 this
    · have := h2.2; simp at h4; exact absurd h4.2.1 this
  | succ N ih =>
    intro t s hN h
    obtain ⟨a, w, h1, h2, rfl | ⟨t', d', h3, rfl⟩⟩ := h
    · rw [List.append_assoc]
      refine c213_toks h1 (c213_lws h2 ?_ ?_)
      · simpa using c214_lt (f := f) (us := us) (s := s ++ a ++ w) (r := r)
      · simpa using c217_lt (f := f) (us := us) (s := s ++ a ++ w) (r := r)
    · obtain ⟨c, t, rfl, g1, g2⟩ := words_more h3
      have hw : 0 < w.length := List.length_pos_iff.2 h2.2
      have hi := ih (t := t) (s := s ++ a ++ w ++ [c]) (by simp at hN; omega) g2
      have e : a ++ w ++ c :: t ++ 60 :: r = a ++ (w ++ (c :: (t ++ 60 :: r))) := by simp
      rw [e]
      refine c213_toks h1 (c213_lws h2 (c214_tok g1 ?_) (c217_tok g1 ?_))
      · simpa using hi
      · simpa using hi

theorem lws_ws {w : Bytes} (h : Sws w) : ∀ c ∈ w, whitespacec c = true := by
  have hb : ∀ c : UInt8, blank c = true → whitespacec c = true := by decide +kernel
  cases h with
  | blanks h => exact fun c hc => hb c (blank_iff'.2 (h c hc))
  | fold h1 h2 _ =>
    intro c hc
    rcases List.mem_append.1 hc with hc | hc
    · rcases List.mem_append.1 hc with hc | hc
      · exact hb c (blank_iff'.2 (h1 c hc))
      · simp [CRLF] at hc; rcases hc with rfl | rfl <;> decide
    · exact hb c (blank_iff'.2 (h2 c hc))

theorem trimR_ws {s w : Bytes} (h : ∀ c ∈ w, whitespacec c = true) : trimR (s ++ w) = trimR s := by
  induction w generalizing s with
  | nil => simp
  | cons c w ih =>
    have : s ++ c :: w = s ++ [c] ++ w := by simp
    rw [this, ih fun d hd => h d (List.mem_cons_of_mem _ hd), trimR_snoc_ws (h c List.mem_cons_self)]

/-- A display name ends with a letter. -/
theorem words_trim {t d : Bytes} (h : Words t d) : ∃ w i c, t = d ++ w ∧ (∀ c ∈ w, whitespacec c = true) ∧ d = i ++ [c] ∧ tokenc c = true := by
  have tl : ∀ {a : Bytes}, IsToken a → ∃ i c, a = i ++ [c] ∧ tokenc c = true := by
    intro a ha
    obtain ⟨c, s, rfl, h1, h2⟩ := isToken_iff.1 ha
    refine ⟨(c :: s).dropLast, (c :: s).getLast (by simp), (List.dropLast_concat_getLast _).symm, ?_⟩
    have : ∀ d ∈ c :: s, tokenc d = true := List.forall_mem_cons.2 ⟨h1, h2⟩
    exact this _ (List.getLast_mem _)
  induction h with
  | one ha hw =>
    obtain ⟨i, c, e, hc⟩ := tl ha
    exact ⟨_, i, c, rfl, lws_ws hw.1, e, hc⟩
  | @cons a w t d ha hw _ ih =>
    obtain ⟨w', i, c, rfl, h1, rfl, hc⟩ := ih
    exact ⟨w', a ++ w ++ i, c, by simp, h1, by simp, hc⟩

theorem trimR_display {t d : Bytes} (h : Words t d) : trimR t = d := by
  obtain ⟨w, i, c, rfl, h1, rfl, hc⟩ := words_trim h
  have : ∀ c, tokenc c = true → whitespacec c = false := by decide +kernel
  rw [trimR_ws h1, trimR_snoc (this c hc)]

theorem shape_188 : Shape 188 [⟨blank, [], 189⟩, ⟨tokenc, [.mark], 213⟩, ⟨(· == 34), [.start], 218⟩, ⟨(· == 60), [], 190⟩]
    none (some ([], 210)) := by decide +kernel
theorem part_220 : AfterPart 220 189 210 211 212 (fun _ => false) [] [.addrQuotedDisplay] [(60, 190)] none := by decide +kernel

/-- Words, then `<`. -/
theorem acc_188_words {f : AField} {t d r : Bytes} {us : List Upd} (h : Words t d) :
    Acc 188 (A f {}) (t ++ 60 :: r) us ↔ Acc 190 (A f { display := d }) r us := by
  obtain ⟨c, t', rfl, h1, h2⟩ := words_more h
  rw [List.cons_append, acc_at shape_188 (token_ne h1) (ent_tok h1), go_adv0 rfl rfl]
  have := claim_more (f := f) (us := us) (r := r) (s := [c]) (Nat.le_refl _) h2 []
  rw [show [c] ++ t' = c :: t' from rfl, trimR_display h] at this
  exact this

theorem acc_188_lt {f : AField} {r : Bytes} {us : List Upd} : Acc 188 (A f {}) (60 :: r) us ↔ Acc 190 (A f {}) r us := by
  rw [acc_at shape_188 (by decide) rfl, go_nil]
  exact acc_addr addr_lives.2.1 (by decide) rfl rfl

theorem acc_188_quote {f : AField} {r : Bytes} {us : List Upd} :
    Acc 188 (A f {}) (34 :: r) us ↔ ∃ t x w r', r = t ++ 34 :: (w ++ 60 :: r') ∧ QText t x ∧ Sws w ∧
      Acc 190 (A f { display := x }) r' us := by
  rw [acc_at shape_188 (by decide) rfl, go_adv0 rfl rfl, qpart_218.acc]
  have st : ∀ x r, Acc 220 { addrp := some f, addr := some {}, buf := x } r us ↔ ∃ w r', r = w ++ 60 :: r' ∧ Sws w ∧
      Acc 190 (A f { display := x }) r' us := by
    intro x r
    rw [part_220.plain (g := fun s => { addrp := some f, addr := some { display := x }, buf := x, seg := s }) (fun s d => rfl)]
    simp only [tail_one]
    have ac := fun r' => acc_addr addr_lives.2.1 (by decide) (l := { addrp := some f, addr := some { display := x }, buf := x })
      (f := f) (a := { display := x }) rfl rfl (v := r') (us := us)
    constructor
    · rintro ⟨s, r, rfl, h1, w, t, rfl, h2, h3⟩
      cases s with
      | nil => exact ⟨w, t, rfl, h2, (ac _).1 h3⟩
      | cons d s => exact absurd (h1 d List.mem_cons_self) (by simp)
    · rintro ⟨w, t, rfl, h2, h3⟩
      exact ⟨[], _, rfl, (fun _ h => nomatch h), w, t, rfl, h2, (ac _).2 h3⟩
  constructor
  · rintro ⟨t, x, r, rfl, h1, h2⟩
    obtain ⟨w, r', rfl, h3, h4⟩ := (st _ _).1 h2
    exact ⟨t, x, w, r', rfl, h1, h3, h4⟩
  · rintro ⟨t, x, w, r', rfl, h1, h3, h4⟩
    exact ⟨t, x, _, rfl, h1, (st _ _).2 ⟨w, r', rfl, h3, h4⟩⟩

/-! ### Looking ahead -/

theorem part_257 : LwsPart 257 258 259 260 261 tokenc [] [] [⟨tokenc, [], 257⟩, ⟨(· == 60), [.addrNew, .backtrack], 188⟩] := by
  decide +kernel
theorem shape_257 : Shape 257 [⟨blank, [], 258⟩, ⟨tokenc, [], 257⟩] none (some ([], 259)) := by decide +kernel
theorem shape_262 : Shape 262 [⟨blank, [], 258⟩, ⟨schemeB, [], 262⟩, ⟨tokenc, [], 257⟩, ⟨(· == 58), [.addrNew, .backtrack], 229⟩]
    none (some ([], 259)) := by decide +kernel

theorem go_again {k : Nat} {l : Loc} {c : UInt8} {t : Bytes} {us : List Upd} :
    Go [.addrNew, .backtrack] k l c t us ↔ Acc k { l with addr := some {}, seg := [] } (l.seg ++ c :: t) us := by
  rw [go_back rfl rfl]
  constructor
  · rintro ⟨b, e, h⟩
    have e : us = b := e
    subst e; exact h
  · intro h; exact ⟨us, rfl, h⟩

/-- The look ahead over a display name. -/
theorem acc_257 {l : Loc} {v : Bytes} {us : List Upd} :
    Acc 257 l v us ↔ ∃ t r, v = t ++ 60 :: r ∧ More t ∧ Acc 188 { l with addr := some {}, seg := [] } (l.seg ++ v) us := by
  have step : ∀ l v, Acc 257 l v us ↔ ∃ a w t, v = a ++ (w ++ t) ∧ (∀ c ∈ a, tokenc c = true) ∧ Lws w ∧
      Out [⟨tokenc, [], 257⟩, ⟨(· == 60), [.addrNew, .backtrack], 188⟩] none none { l with seg := l.seg ++ a ++ w } t us := by
    intro l v
    rw [loop_plain part_257.s]
    constructor
    · rintro ⟨a, r, rfl, h1, h2⟩
      obtain ⟨w, t, rfl, h3, h4⟩ := (part_257.out (fun _ => rfl)).1 h2
      exact ⟨a, w, t, rfl, h1, h3, h4⟩
    · rintro ⟨a, w, t, rfl, h1, h3, h4⟩
      exact ⟨a, w ++ t, rfl, h1, (part_257.out (fun _ => rfl)).2 ⟨w, t, rfl, h3, h4⟩⟩
  constructor
  · generalize hN : v.length = N
    intro h
    induction N using Nat.strongRecOn generalizing v l with
    | ind N ih =>
      obtain ⟨a, w, t, rfl, h1, h2, h3⟩ := (step _ _).1 h
      obtain ⟨c, t, as, x, rfl, h4, h5, h6⟩ := out_none.1 h3
      rcases entAt_cons.1 h5 with ⟨g1, g2⟩ | ⟨_, h5⟩
      · cases g2
        obtain ⟨t', r, rfl, g3, g4⟩ := ih _ (by simp at hN; omega) rfl (go_nil.1 h6)
        obtain ⟨d, hd⟩ := more_words g1 g3
        exact ⟨a ++ w ++ (c :: t'), r, by simp, ⟨a, w, h1, h2, .inr ⟨_, d, hd, rfl⟩⟩, by simpa using g4⟩
      rcases entAt_cons.1 h5 with ⟨g1, g2⟩ | ⟨_, h5⟩
      · cases g2
        have : c = 60 := by simpa using g1
        subst this
        exact ⟨a ++ w, t, by simp, ⟨a, w, h1, h2, .inl rfl⟩, by simpa using go_again.1 h6⟩
      · cases h5
  · rintro ⟨t, r, rfl, h1, h2⟩
    generalize hN : t.length = N
    induction N using Nat.strongRecOn generalizing t l with
    | ind N ih =>
      obtain ⟨a, w, g1, g2, rfl | ⟨t', d', g3, rfl⟩⟩ := h1
      · refine (step _ _).2 ⟨a, w, 60 :: r, by simp, g1, g2, out_none.2 ⟨60, r, _, 188, rfl, by decide, rfl, go_again.2 ?_⟩⟩
        simpa using h2
      · obtain ⟨c, t, rfl, i1, i2⟩ := words_more g3
        refine (step _ _).2 ⟨a, w, c :: t ++ 60 :: r, by simp, g1, g2, out_none.2 ⟨c, t ++ 60 :: r, _, 257, rfl, token_ne i1,
          entAt_cons.2 (.inl ⟨i1, rfl⟩), go_nil.2 (ih _ (by simp at hN; omega) t i2 ?_ rfl)⟩⟩
        simpa using h2

theorem ent_262 : ∀ c : UInt8, c ≠ 58 → (schemeB c = true → tokenc c = true) ∧
    (tokenc c = false → blank c = false → schemeB c = false) := by decide +kernel

/-- The look ahead over a scheme or a display name. -/
theorem acc_262 {l : Loc} {v : Bytes} {us : List Upd} :
    Acc 262 l v us ↔ (∃ s r, v = s ++ 58 :: r ∧ (∀ c ∈ s, schemeB c = true) ∧
      Acc 229 { l with addr := some {}, seg := [] } (l.seg ++ v) us) ∨ Acc 257 l v us := by
  induction v generalizing l with
  | nil =>
    constructor
    · intro h; exact absurd h (acc_nil (by decide))
    · rintro (⟨s, r, e, _⟩ | h)
      · simp at e
      · exact absurd h (acc_nil (by decide))
  | cons c v ih =>
    by_cases hc : c = 13
    · subst hc
      have n1 : ¬ ∃ s r, 13 :: v = s ++ 58 :: r ∧ (∀ c ∈ s, schemeB c = true) ∧
          Acc 229 { l with addr := some {}, seg := [] } (l.seg ++ 13 :: v) us := by
        rintro ⟨s, r, e, h, _⟩
        cases s with
        | nil => simp at e
        | cons d s => cases e; exact absurd (h 13 List.mem_cons_self) (by decide)
      simp only [n1, false_or]
      rw [acc_shape shape_262, acc_shape shape_257]
      constructor
      · rintro ⟨c', t, as, x, e, h1, ⟨h2, _⟩ | ⟨_, _, h2⟩ | ⟨h0, h2, h3⟩⟩
        · cases e; exact absurd rfl h2
        · cases h2
        · exact ⟨c', t, as, x, e, h1, .inr (.inr ⟨h0, h2, h3⟩)⟩
      · rintro ⟨c', t, as, x, e, h1, ⟨h2, _⟩ | ⟨_, _, h2⟩ | ⟨h0, h2, h3⟩⟩
        · cases e; exact absurd rfl h2
        · cases h2
        · exact ⟨c', t, as, x, e, h1, .inr (.inr ⟨h0, h2, h3⟩)⟩
    by_cases h58 : c = 58
    · subst h58
      rw [acc_at shape_262 (by decide) rfl, go_again]
      constructor
      · intro h; exact .inl ⟨[], v, rfl, (fun _ h => nomatch h), h⟩
      · rintro (⟨_, _, _, _, h⟩ | h)
        · exact h
        · obtain ⟨c', t, as, x, e, _, ⟨_, h2⟩ | ⟨h2, _⟩ | ⟨h2, _⟩⟩ := (acc_shape shape_257).1 h
          · cases e; rw [show entAt [⟨blank, [], 258⟩, ⟨tokenc, [], 257⟩] 58 = none by decide +kernel] at h2; cases h2
          · cases e; exact absurd h2 (by decide)
          · cases e; exact absurd h2 (by decide)
    by_cases hs : schemeB c = true
    · have ht := (ent_262 c h58).1 hs
      have hb := (token_nb c ht).1
      rw [acc_at shape_262 hc (entAt_cons.2 (.inr ⟨hb, entAt_cons.2 (.inl ⟨hs, rfl⟩)⟩)), go_nil,
        acc_at shape_257 hc (ent_tok ht), go_nil, ih]
      have : (∃ s r, v = s ++ 58 :: r ∧ (∀ c ∈ s, schemeB c = true) ∧
          Acc 229 { l with addr := some {}, seg := [] } (l.seg ++ [c] ++ v) us) ↔
          ∃ s r, c :: v = s ++ 58 :: r ∧ (∀ c ∈ s, schemeB c = true) ∧
          Acc 229 { l with addr := some {}, seg := [] } (l.seg ++ c :: v) us := by
        constructor
        · rintro ⟨s, r, rfl, h1, h2⟩
          exact ⟨c :: s, r, rfl, List.forall_mem_cons.2 ⟨hs, h1⟩, by simpa using h2⟩
        · rintro ⟨s, r, e, h1, h2⟩
          cases s with
          | nil => cases e; exact absurd rfl h58
          | cons d s => cases e; exact ⟨s, r, rfl, fun d hd => h1 d (List.mem_cons_of_mem _ hd), by simpa using h2⟩
      rw [← this]
    · have n1 : ¬ ∃ s r, c :: v = s ++ 58 :: r ∧ (∀ c ∈ s, schemeB c = true) ∧
          Acc 229 { l with addr := some {}, seg := [] } (l.seg ++ c :: v) us := by
        rintro ⟨s, r, e, h, _⟩
        cases s with
        | nil => cases e; exact h58 rfl
        | cons d s => cases e; exact hs (h c List.mem_cons_self)
      simp only [n1, false_or]
      have he : entAt [⟨blank, [], 258⟩, ⟨schemeB, [], 262⟩, ⟨tokenc, [], 257⟩, ⟨(· == 58), [.addrNew, .backtrack], 229⟩] c =
          entAt [⟨blank, [], 258⟩, ⟨tokenc, [], 257⟩] c := by
        simp [entAt, hs, beq_eq_false_iff_ne.2 h58]
      rw [acc_shape shape_262, acc_shape shape_257]
      unfold Out
      constructor
      · rintro ⟨c', t, as, x, e, h1, ⟨h2, h3⟩ | ⟨h2, _⟩ | ⟨h2, _⟩⟩
        · cases e; exact ⟨c, v, as, x, rfl, h1, .inl ⟨h2, he ▸ h3⟩⟩
        · cases e; exact absurd h2 hc
        · cases e; exact absurd h2 hc
      · rintro ⟨c', t, as, x, e, h1, ⟨h2, h3⟩ | ⟨h2, _⟩ | ⟨h2, _⟩⟩
        · cases e; exact ⟨c, v, as, x, rfl, h1, .inl ⟨h2, he ▸ h3⟩⟩
        · cases e; exact absurd h2 hc
        · cases e; exact absurd h2 hc

/-- The beginning of an address. -/
theorem acc_256 {f : AField} {v : Bytes} {us : List Upd} :
    Acc 256 { addrp := some f } v us ↔ Acc 229 (A f {}) v us ∨
      (∃ t d r, v = t ++ 60 :: r ∧ Words t d ∧ Acc 188 (A f {}) v us) ∨
      (∃ c t, v = c :: t ∧ (c = 34 ∨ c = 60) ∧ Acc 188 (A f {}) v us) := by
  have wd : ∀ {c t r}, tokenc c = true → t = c :: r → Acc 257 { addrp := some f, seg := [c] } r us →
      ∃ t' d r', t = t' ++ 60 :: r' ∧ Words t' d ∧ Acc 188 (A f {}) t us := by
    rintro c t r hc rfl h
    obtain ⟨t, r', rfl, h1, h2⟩ := acc_257.1 h
    obtain ⟨d, hd⟩ := more_words hc h1
    exact ⟨c :: t, d, r', rfl, hd, h2⟩
  have al : ∀ c, alphaB c = true → tokenc c = true ∧ c ≠ 13 := by decide +kernel
  constructor
  · intro h
    obtain ⟨c, t, as, x, rfl, h1, h2, h3⟩ := out_none.1 ((acc_shape shape_256).1 h)
    rcases entAt_cons.1 h2 with ⟨g1, g2⟩ | ⟨_, h2⟩
    · cases g2
      rw [go_adv0 rfl rfl] at h3
      rcases acc_262.1 h3 with ⟨s, r, e, _, h4⟩ | h3
      · exact .inl h4
      · exact .inr (.inl (wd (al c g1).1 rfl h3))
    rcases entAt_cons.1 h2 with ⟨g1, g2⟩ | ⟨_, h2⟩
    · cases g2
      rw [go_adv0 rfl rfl] at h3
      exact .inr (.inl (wd g1 rfl h3))
    rcases entAt_cons.1 h2 with ⟨g1, g2⟩ | ⟨_, h2⟩
    · cases g2
      obtain ⟨b, e, h4⟩ := (go_stay rfl rfl).1 h3
      have e : us = b := e
      subst e
      exact .inr (.inr ⟨c, t, rfl, by simpa using g1, h4⟩)
    · cases h2
  · rintro (h | ⟨t, d, r, rfl, h1, h2⟩ | ⟨c, t, rfl, h1, h2⟩)
    · obtain ⟨u, x, r, rfl, h1, h2, h3⟩ := acc_229.1 h
      obtain ⟨c, s, t, rfl, i1, i2, i3, i4⟩ := uri_shape h1
      have hc : alphaB c = true := decide_eq_true i1
      refine (acc_shape shape_256).2 (out_none.2 ⟨c, s ++ 58 :: t ++ r, _, 262, by simp, (al c hc).2, entAt_cons.2 (.inl ⟨hc, rfl⟩), ?_⟩)
      rw [go_adv0 rfl rfl]
      exact acc_262.2 (.inl ⟨s, t ++ r, by simp, fun d hd => decide_eq_true (i2 d hd), by simpa using h⟩)
    · obtain ⟨c, t', rfl, g1, g2⟩ := words_more h1
      have h257 : Acc 257 { addrp := some f, seg := [c] } (t' ++ 60 :: r) us := acc_257.2 ⟨t', r, rfl, g2, h2⟩
      refine (acc_shape shape_256).2 (out_none.2 ?_)
      by_cases ha : alphaB c = true
      · refine ⟨c, t' ++ 60 :: r, _, 262, rfl, token_ne g1, entAt_cons.2 (.inl ⟨ha, rfl⟩), ?_⟩
        rw [go_adv0 rfl rfl]
        exact acc_262.2 (.inr h257)
      · refine ⟨c, t' ++ 60 :: r, _, 257, rfl, token_ne g1, entAt_cons.2 (.inr ⟨Bool.eq_false_iff.2 ha, entAt_cons.2 (.inl ⟨g1, rfl⟩)⟩), ?_⟩
        rw [go_adv0 rfl rfl]
        exact h257
    · have hc : entAt [⟨alphaB, [.mark], 262⟩, ⟨tokenc, [.mark], 257⟩, ⟨fun c => c == 34 || c == 60, [.addrNew, .hold], 188⟩] c =
          some ([.addrNew, .hold], 188) ∧ c ≠ 13 := by
        rcases h1 with rfl | rfl
        · exact ⟨by decide +kernel, by decide⟩
        · exact ⟨by decide +kernel, by decide⟩
      exact (acc_shape shape_256).2 (out_none.2 ⟨c, t, _, 188, rfl, hc.2, hc.1, (go_stay rfl rfl).2 ⟨us, rfl, h2⟩⟩)

/-! ### Addresses -/

/-- An address up to its first parameter. -/
theorem addr_base {f : AField} {v : Bytes} {us : List Upd} :
    Acc 256 { addrp := some f } v us ↔
      (∃ u x r, v = u ++ r ∧ URIText u x ∧ Bare u ∧ AddrRest true f { uri := some x } r us) ∨
      (∃ d n u x w r, v = d ++ 60 :: (u ++ 62 :: (w ++ r)) ∧ DisplayText d n ∧ URIText u x ∧ Sws w ∧
        AddrRest false f { display := n, uri := some x } r us) := by
  have st : ∀ n r, Acc 190 (A f { display := n }) r us ↔ ∃ u x w r', r = u ++ 62 :: (w ++ r') ∧ URIText u x ∧ Sws w ∧
      AddrRest false f { display := n, uri := some x } r' us := by
    intro n r
    rw [acc_190]
    simp only [acc_194, after_angle]
    constructor
    · rintro ⟨u, x, r, rfl, h1, w, r', rfl, h2, h3⟩; exact ⟨u, x, w, r', rfl, h1, h2, h3⟩
    · rintro ⟨u, x, w, r', rfl, h1, h2, h3⟩; exact ⟨u, x, _, rfl, h1, w, r', rfl, h2, h3⟩
  rw [acc_256, acc_229]
  constructor
  · rintro (h | ⟨t, d, r, rfl, h1, h2⟩ | ⟨c, t, rfl, rfl | rfl, h2⟩)
    · exact .inl h
    · obtain ⟨u, x, w, r, rfl, g⟩ := (st _ _).1 ((acc_188_words h1).1 h2)
      exact .inr ⟨t, d, u, x, w, r, rfl, .words h1, g⟩
    · obtain ⟨t, y, w', r', rfl, g1, g2, g3⟩ := acc_188_quote.1 h2
      obtain ⟨u, x, w, r, rfl, g⟩ := (st _ _).1 g3
      exact .inr ⟨34 :: t ++ 34 :: w', y, u, x, w, r, by simp, .quoted g1 g2, g⟩
    · obtain ⟨u, x, w, r, rfl, g⟩ := (st _ _).1 (acc_188_lt.1 h2)
      exact .inr ⟨[], [], u, x, w, r, rfl, .none, g⟩
  · rintro (h | ⟨d, n, u, x, w, r, rfl, h1, g⟩)
    · exact .inl h
    · have g := (st n _).2 ⟨u, x, w, r, rfl, g⟩
      cases h1 with
      | none => exact .inr (.inr ⟨60, _, rfl, .inr rfl, acc_188_lt.2 g⟩)
      | words h => exact .inr (.inl ⟨d, n, _, rfl, h, (acc_188_words h).2 g⟩)
      | @quoted t v' w' h1 h2 =>
        refine .inr (.inr ⟨34, t ++ 34 :: (w' ++ 60 :: (u ++ 62 :: (w ++ r))), by simp, .inl rfl, ?_⟩)
        have := acc_188_quote.2 ⟨t, n, w', _, rfl, h1, h2, g⟩
        simpa using this

theorem sepAfter_pos {e : Bool} {c : UInt8} {s : Bytes} (h : SepAfter e c s) : 0 < s.length := by
  unfold SepAfter at h
  split at h
  · rcases h with rfl | ⟨a, b, rfl, _⟩
    · simp
    · simp; omega
  · exact sep_pos h

/-- An address, and its end. -/
theorem addr_text {f : AField} {v : Bytes} {us : List Upd} :
    Acc 256 { addrp := some f } v us ↔ ∃ t a e r, v = t ++ r ∧ AddrText t a e ∧ AddrEnd e f a r us := by
  have grow : ∀ N (t : Bytes) (a : Addr) e (r : Bytes), r.length = N → AddrText t a e → AddrRest e f a r us →
      ∃ t' a' e' r', t ++ r = t' ++ r' ∧ AddrText t' a' e' ∧ AddrEnd e' f a' r' us := by
    intro N
    induction N using Nat.strongRecOn with
    | ind N ih =>
      rintro t a e r hN ht (h | ⟨s, q, rfl, hs, h⟩)
      · exact ⟨t, a, e, r, rfl, ht, h⟩
      · obtain ⟨p, x, r, rfl, h1, h2⟩ := param_153.acc.1 h
        obtain ⟨t', a', e', r', g, g'⟩ := ih r.length (by have := sepAfter_pos hs; rw [← hN]; simp; omega) (t ++ s ++ p) _ false r rfl
          (.param ht hs h1) (after_param.1 h2)
        exact ⟨t', a', e', r', by simpa using g, g'⟩
  have back : ∀ (t : Bytes) (a : Addr) e, AddrText t a e → ∀ (r : Bytes), AddrRest e f a r us → Acc 256 { addrp := some f } (t ++ r) us := by
    intro t a e ht
    induction ht with
    | bare h1 h2 => intro r h; exact addr_base.2 (.inl ⟨_, _, r, rfl, h1, h2, h⟩)
    | angle h1 h2 h3 => intro r h; exact addr_base.2 (.inr ⟨_, _, _, _, _, r, by simp, h1, h2, h3, h⟩)
    | @param t s p a e x _ hs hp ih =>
      intro r h
      have := ih (s ++ (p ++ r)) (.inr ⟨s, p ++ r, rfl, hs, param_153.acc.2 ⟨p, x, r, rfl, hp, after_param.2 h⟩⟩)
      simpa using this
  constructor
  · intro h
    rcases addr_base.1 h with ⟨u, x, r, rfl, h1, h2, h3⟩ | ⟨d, n, u, x, w, r, rfl, h1, h2, h3, h4⟩
    · exact grow _ _ _ _ _ rfl (.bare h1 h2) h3
    · have := grow _ _ _ _ _ rfl (.angle h1 h2 h3) h4
      simpa using this
  · rintro ⟨t, a, e, r, rfl, h1, h2⟩
    exact back t a e h1 r (.inl h2)

/-- A list of addresses up to the end of the line. -/
theorem addr_list {f : AField} {v : Bytes} {us : List Upd} :
    Acc 256 { addrp := some f } v us ↔ ∃ t as tl b, v = t ++ CRLF ++ tl ∧ AddrList t as ∧ us = as.map (.addr f) ++ b ∧
      Acc 280 Loc.init tl b := by
  constructor
  · generalize hN : v.length = N
    intro h
    induction N using Nat.strongRecOn generalizing v us with
    | ind N ih =>
      obtain ⟨t, a, e, r, rfl, h1, ⟨tl, b, rfl, rfl, h2⟩ | ⟨s, r, b, rfl, hs, rfl, h2⟩⟩ := addr_text.1 h
      · exact ⟨t, [a], tl, b, by simp, .one h1, rfl, h2⟩
      · obtain ⟨t', vs, tl, b, rfl, g1, rfl, g2⟩ := ih _ (by have := sepAfter_pos hs; rw [← hN]; simp; omega) rfl h2
        exact ⟨t ++ s ++ t', a :: vs, tl, b, by simp, .cons h1 hs g1, rfl, g2⟩
  · rintro ⟨t, vs, tl, b, rfl, h1, rfl, h2⟩
    induction h1 with
    | one h => exact addr_text.2 ⟨_, _, _, CRLF ++ tl, by simp, h, .inl ⟨tl, b, rfl, rfl, h2⟩⟩
    | @cons t s r a e vs h hs _ ih =>
      exact addr_text.2 ⟨t, a, e, s ++ (r ++ CRLF ++ tl), by simp, h, .inr ⟨s, _, _, rfl, hs, rfl, ih⟩⟩

/-- The value of an address header. -/
theorem line_address {n w v : Bytes} {f : AField} {us : List Upd} (hn : IsName n) (hw : Blanks w) (hv : LogicalLine v)
    (hh : headerOf n = some (.address f)) :
    Line (headerLine n w v) us ↔ ∃ w' t as, v = w' ++ t ∧ Sws w' ∧ AddrList t as ∧ us = as.map (.addr f) := by
  rw [line_known hn hw hh]
  show Acc 395 _ _ _ ↔ _
  rw [skip_rel skip_395 (m := { addrp := some f }) (E := []) (fun s c => ⟨_, rfl, agree_256 rfl⟩) first_256]
  constructor
  · rintro ⟨w', r, b, e, h1, h2, h3⟩
    have h2 : us = b := h2
    subst h2
    obtain ⟨t, vs, tl, b, rfl, g1, rfl, g2⟩ := addr_list.1 h3
    obtain ⟨rfl, rfl, e2⟩ := logical_rest (x := w' ++ t) hv (by rw [e]; simp) g2
    exact ⟨w', t, vs, e2, h1, g1, by simp⟩
  · rintro ⟨w', t, vs, rfl, h1, h2, rfl⟩
    exact ⟨w', t ++ CRLF, _, by simp, h1, rfl, addr_list.2 ⟨t, vs, [], [], by simp, h2, by simp, acc_280_nil.2 rfl⟩⟩

end Gosip.Sip.MsgM.Gr
