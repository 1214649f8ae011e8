import Verif.Sip.ValueRun

/-!
# Parsing a message given line by line
-/

namespace Gosip.Sip.MsgM
open Spec

/-- The lines are accepted, with these assignments. -/
inductive Reads : List Bytes → List Upd → Prop
  | nil : Reads [] []
  | cons {L : Bytes} {ls : List Bytes} {u us : List Upd} : Line L u → Reads ls us → Reads (L :: ls) (u ++ us)

theorem Reads.append {a b : List Bytes} {u v : List Upd} (h : Reads a u) (g : Reads b v) : Reads (a ++ b) (u ++ v) := by
  induction h with
  | nil => exact g
  | cons h1 _ ih => rw [List.append_assoc]; exact .cons h1 ih

theorem reads_cons {L : Bytes} {ls : List Bytes} {us : List Upd} :
    Reads (L :: ls) us ↔ ∃ u v, us = u ++ v ∧ Line L u ∧ Reads ls v := by
  constructor
  · intro h; cases h with
    | cons h1 h2 => exact ⟨_, _, rfl, h1, h2⟩
  · rintro ⟨u, v, rfl, h1, h2⟩; exact .cons h1 h2

theorem reads_nil {us : List Upd} : Reads [] us ↔ us = [] := by
  constructor
  · intro h; cases h; rfl
  · rintro rfl; exact .nil

theorem reads_append {a b : List Bytes} {us : List Upd} :
    Reads (a ++ b) us ↔ ∃ u v, us = u ++ v ∧ Reads a u ∧ Reads b v := by
  constructor
  · intro h
    induction a generalizing us with
    | nil => exact ⟨[], us, rfl, .nil, h⟩
    | cons L a ih =>
      obtain ⟨u, v, rfl, h1, h2⟩ := reads_cons.1 h
      obtain ⟨x, y, rfl, i1, i2⟩ := ih h2
      exact ⟨u ++ x, y, by simp, .cons h1 i1, i2⟩
  · rintro ⟨u, v, rfl, h1, h2⟩; exact h1.append h2

theorem reads_pairs {Ls : List (Bytes × List Upd)} (h : ∀ p ∈ Ls, Line p.1 p.2) :
    Reads (Ls.map (·.1)) (Ls.flatMap (·.2)) := by
  induction Ls with
  | nil => exact .nil
  | cons p Ls ih =>
    exact .cons (h p List.mem_cons_self) (ih fun q hq => h q (List.mem_cons_of_mem _ hq))

theorem Reads.pairs {ls : List Bytes} {us : List Upd} (h : Reads ls us) :
    ∃ Ls : List (Bytes × List Upd), ls = Ls.map (·.1) ∧ us = Ls.flatMap (·.2) ∧ ∀ p ∈ Ls, Line p.1 p.2 := by
  induction h with
  | nil => exact ⟨[], rfl, rfl, by simp⟩
  | @cons L ls u us h1 _ ih =>
    obtain ⟨Ls, e1, e2, h⟩ := ih
    refine ⟨(L, u) :: Ls, by simp [e1], by simp [e2], ?_⟩
    intro p hp
    rcases List.mem_cons.1 hp with rfl | hp
    · exact h1
    · exact h p hp

/-! ### The lines of a text are determined -/

/-- The first logical line. -/
theorem first_line {L M a b : Bytes} (hL : LogicalLine L) (hM : LogicalLine M) (ha : ¬ Blank a) (hb : ¬ Blank b)
    (e : L ++ CRLF ++ a = M ++ CRLF ++ b) : L = M ∧ a = b := by
  have key : ∀ {L M a b : Bytes}, LogicalLine M → ¬ Blank a → L ++ CRLF ++ a = M ++ CRLF ++ b → M.length ≤ L.length := by
    intro L M a b hM ha e
    refine Nat.le_of_not_lt fun hlt => ?_
    have h1 : (L ++ CRLF) <+: (M ++ CRLF) := by
      refine List.prefix_of_prefix_length_le (l₃ := M ++ CRLF ++ b) (e ▸ List.prefix_append _ _) (List.prefix_append _ _) ?_
      simp; omega
    obtain ⟨y, hy⟩ := h1
    rcases hM L y hy.symm with rfl | hbl
    · have := congrArg List.length hy
      simp at this; omega
    · refine ha ?_
      have : a = y ++ b := by
        rw [← hy, List.append_assoc (L ++ CRLF)] at e
        exact List.append_cancel_left e
      obtain ⟨w, r, rfl, hw⟩ := hbl
      exact ⟨w, r ++ b, by rw [this]; rfl, hw⟩
  have hlen : L.length = M.length := Nat.le_antisymm (key hL hb e.symm) (key hM ha e)
  rw [List.append_assoc, List.append_assoc] at e
  obtain ⟨rfl, e2⟩ := List.append_inj e hlen
  exact ⟨rfl, List.append_cancel_left e2⟩

theorem not_blank_crlf (t : Bytes) : ¬ Blank (CRLF ++ t) := by
  rintro ⟨w, r, e, hw⟩
  simp only [CRLF, List.cons_append, List.cons.injEq] at e
  rw [← e.1] at hw
  rcases hw with hw | hw <;> cases hw

theorem not_blank_lines {ls : List Bytes} (h : ∀ L ∈ ls, HeaderLine L) (t : Bytes) :
    ¬ Blank (ls.flatMap (· ++ CRLF) ++ CRLF ++ t) := by
  cases ls with
  | nil => exact not_blank_crlf t
  | cons L ls =>
    have hL := h L List.mem_cons_self
    rintro ⟨w, r, e, hw⟩
    cases L with
    | nil => exact hL.ne rfl
    | cons c L =>
      simp only [List.flatMap_cons, List.cons_append, List.cons.injEq] at e
      exact hL.start ⟨c, L, rfl, e.1 ▸ hw⟩

theorem header_crlf {L a b : Bytes} (hL : HeaderLine L) (hb : ¬ Blank b) : L ++ CRLF ++ a ≠ CRLF ++ b := by
  intro e
  have hlen : 2 ≤ (L ++ CRLF).length := by simp [CRLF]
  have h1 : CRLF <+: L ++ CRLF :=
    List.prefix_of_prefix_length_le (l₃ := L ++ CRLF ++ a) (e ▸ List.prefix_append _ _) (List.prefix_append _ _) hlen
  obtain ⟨y, hy⟩ := h1
  rcases hL.one [] y (by simpa using hy.symm) with rfl | ⟨w, r, rfl, hw⟩
  · refine hL.ne ?_
    have := congrArg List.length hy
    simp [CRLF] at this
    exact this
  · refine hb ?_
    rw [← hy, List.append_assoc] at e
    have := List.append_cancel_left e
    exact ⟨w, r ++ a, by rw [← this]; rfl, hw⟩

theorem lines_unique {ls ms : List Bytes} {a b : Bytes} (hl : ∀ L ∈ ls, HeaderLine L) (hm : ∀ L ∈ ms, HeaderLine L)
    (ha : ¬ Blank a) (hb : ¬ Blank b)
    (e : ls.flatMap (· ++ CRLF) ++ CRLF ++ a = ms.flatMap (· ++ CRLF) ++ CRLF ++ b) : ls = ms ∧ a = b := by
  induction ls generalizing ms with
  | nil =>
    cases ms with
    | nil => exact ⟨rfl, List.append_cancel_left e⟩
    | cons M ms =>
      refine absurd ?_ (header_crlf (L := M) (a := ms.flatMap (· ++ CRLF) ++ CRLF ++ b) (hm M List.mem_cons_self) ha)
      simpa [List.flatMap_cons] using e.symm
  | cons L ls ih =>
    cases ms with
    | nil =>
      refine absurd ?_ (header_crlf (L := L) (a := ls.flatMap (· ++ CRLF) ++ CRLF ++ a) (hl L List.mem_cons_self) hb)
      simpa [List.flatMap_cons] using e
    | cons M ms =>
      have hl' : ∀ L ∈ ls, HeaderLine L := fun x hx => hl x (List.mem_cons_of_mem _ hx)
      have hm' : ∀ L ∈ ms, HeaderLine L := fun x hx => hm x (List.mem_cons_of_mem _ hx)
      have e : L ++ CRLF ++ (ls.flatMap (· ++ CRLF) ++ CRLF ++ a) = M ++ CRLF ++ (ms.flatMap (· ++ CRLF) ++ CRLF ++ b) := by
        simpa [List.flatMap_cons] using e
      obtain ⟨rfl, e2⟩ := first_line (hl L List.mem_cons_self).one (hm M List.mem_cons_self).one
        (not_blank_lines hl' a) (not_blank_lines hm' b) e
      obtain ⟨rfl, rfl⟩ := ih hl' hm' e2
      exact ⟨rfl, rfl⟩

theorem head_unique {s t : Bytes} {ls ms : List Bytes} {a b : Bytes} (hs : LogicalLine s) (ht : LogicalLine t)
    (hl : ∀ L ∈ ls, HeaderLine L) (hm : ∀ L ∈ ms, HeaderLine L) (ha : ¬ Blank a) (hb : ¬ Blank b)
    (e : headText s ls ++ a = headText t ms ++ b) : s = t ∧ ls = ms ∧ a = b := by
  have e : s ++ CRLF ++ (ls.flatMap (· ++ CRLF) ++ CRLF ++ a) = t ++ CRLF ++ (ms.flatMap (· ++ CRLF) ++ CRLF ++ b) := by
    simpa [headText] using e
  obtain ⟨rfl, e2⟩ := first_line hs ht (not_blank_lines hl a) (not_blank_lines hm b) e
  obtain ⟨rfl, rfl⟩ := lines_unique hl hm ha hb e2
  exact ⟨rfl, rfl, rfl⟩

/-! ### Parsing -/

/-- Every accepted text consists of lines. -/
theorem parse_text {d : Bytes} {m : Msg} (h : parseMsg d = .ok m) :
    ∃ s ls body u0 us, d = headText s ls ++ body ∧ LogicalLine s ∧ (∀ L ∈ ls, HeaderLine L) ∧ ¬ Blank body ∧ Start s u0 ∧
      Reads ls us ∧ sfinish (apps {} (u0 ++ us)) body = .ok m := by
  obtain ⟨us, body, h1, h2⟩ := (parse_stream d m).1 h
  obtain ⟨hb, L0, u0, Ls, e, g1, g2, g3, rfl⟩ := (accepts_lines d us body).1 h1
  refine ⟨L0, Ls.map (·.1), body, u0, _, ?_, g1, ?_, (not_blank_iff _).2 hb, g2, reads_pairs fun p hp => (g3 p hp).2, h2⟩
  · rw [e, headText]
    simp [List.flatMap_map]
  · intro L hL
    obtain ⟨p, hp, rfl⟩ := List.mem_map.1 hL
    exact (g3 p hp).1

theorem eq_nil_or_snoc {α : Type} (l : List α) : l = [] ∨ ∃ l' z, l = l' ++ [z] := by
  cases l with
  | nil => exact .inl rfl
  | cons a l => exact .inr ⟨(a :: l).dropLast, (a :: l).getLast (by simp), (List.dropLast_concat_getLast (by simp)).symm⟩

theorem before_line {L x y T : Bytes} (hL : LogicalLine L) (e : L ++ CRLF ++ T = x ++ CRLF ++ CRLF ++ y) :
    ∃ x', CRLF ++ T = x' ++ CRLF ++ CRLF ++ y := by
  by_cases hlt : x.length < L.length
  · exfalso
    have h1 : (x ++ CRLF) <+: (L ++ CRLF) := by
      refine List.prefix_of_prefix_length_le (l₃ := L ++ CRLF ++ T) ?_ (List.prefix_append _ _) ?_
      · rw [e, List.append_assoc]; exact List.prefix_append _ _
      · simp; omega
    obtain ⟨z, hz⟩ := h1
    have hzl : z ≠ [] := by
      rintro rfl
      have := congrArg List.length hz
      simp at this; omega
    rcases hL x z hz.symm with rfl | ⟨w, r, rfl, hw⟩
    · exact hzl rfl
    · rw [← hz] at e
      have e : x ++ CRLF ++ ((w :: r) ++ T) = x ++ CRLF ++ (CRLF ++ y) := by simpa using e
      have e := List.append_cancel_left e
      simp only [CRLF, List.cons_append, List.cons.injEq] at e
      rw [e.1] at hw
      rcases hw with hw | hw <;> cases hw
  · have h1 : L <+: x := by
      refine List.prefix_of_prefix_length_le (l₃ := L ++ CRLF ++ T) ?_ ?_ (by omega)
      · rw [List.append_assoc]; exact List.prefix_append _ _
      · rw [e, List.append_assoc, List.append_assoc]; exact List.prefix_append _ _
    obtain ⟨x', rfl⟩ := h1
    exact ⟨x', by
      have e : L ++ (CRLF ++ T) = L ++ (x' ++ CRLF ++ CRLF ++ y) := by simpa using e
      exact List.append_cancel_left e⟩

theorem before_lines {ls : List Bytes} {x y body : Bytes} (hl : ∀ L ∈ ls, HeaderLine L)
    (e : CRLF ++ (ls.flatMap (· ++ CRLF) ++ CRLF ++ body) = x ++ CRLF ++ CRLF ++ y) : y.length ≤ body.length := by
  induction ls generalizing x with
  | nil =>
    have := congrArg List.length e
    simp [CRLF] at this
    omega
  | cons L ls ih =>
    have hL := hl L List.mem_cons_self
    match x with
    | [] =>
      exfalso
      have e : CRLF ++ (L ++ (CRLF ++ (ls.flatMap (· ++ CRLF) ++ CRLF ++ body))) = CRLF ++ (CRLF ++ y) := by simpa using e
      have e := List.append_cancel_left e
      cases L with
      | nil => exact hL.ne rfl
      | cons c L =>
        simp only [CRLF, List.cons_append, List.cons.injEq] at e
        exact hL.nocr (by rw [e.1]; rfl)
    | [a] => simp [CRLF] at e
    | a :: b :: x =>
      simp only [CRLF, List.cons_append, List.nil_append, List.cons.injEq] at e
      obtain ⟨x', e'⟩ := before_line (L := L) (T := ls.flatMap (· ++ CRLF) ++ CRLF ++ body) (x := x) (y := y) hL.one (by
        simpa [CRLF] using e.2.2)
      exact ih (fun M hM => hl M (List.mem_cons_of_mem _ hM)) e'

/-- The body of a text given line by line. -/
theorem bodyOf_head {s : Bytes} {ls : List Bytes} (body : Bytes) (hs : LogicalLine s) (hl : ∀ L ∈ ls, HeaderLine L) :
    BodyOf (headText s ls ++ body) body := by
  constructor
  · rcases eq_nil_or_snoc ls with rfl | ⟨ls, L, rfl⟩
    · exact ⟨s, by simp [headText]⟩
    · exact ⟨s ++ CRLF ++ ls.flatMap (· ++ CRLF) ++ L, by simp [headText]⟩
  · intro x y e
    obtain ⟨x', e'⟩ := before_line (T := ls.flatMap (· ++ CRLF) ++ CRLF ++ body) hs (by rw [← e, headText]; simp)
    exact before_lines hl e'

theorem bodyOf_unique {d a b : Bytes} (h : BodyOf d a) (g : BodyOf d b) : a = b := by
  obtain ⟨⟨x, hx⟩, h2⟩ := h
  obtain ⟨⟨y, hy⟩, g2⟩ := g
  have h3 := h2 y b hy
  have h4 := g2 x a hx
  have e : (x ++ CRLF ++ CRLF) ++ a = (y ++ CRLF ++ CRLF) ++ b := by rw [← hx, ← hy]
  exact (List.append_inj' e (by omega)).2

theorem parse_notBlank {s : Bytes} {ls : List Bytes} {body : Bytes} {m : Msg} (hs : LogicalLine s)
    (hl : ∀ L ∈ ls, HeaderLine L) (h : parseMsg (headText s ls ++ body) = .ok m) : ¬ Blank body := by
  obtain ⟨us, b, h1, _⟩ := (parse_stream _ m).1 h
  have := bodyOf_unique (bodyOf_head body hs hl) (accepts_body h1)
  rw [this, not_blank_iff]
  exact ((accepts_lines _ _ _).1 h1).1

/-- The text of given lines is accepted if they are. -/
theorem parse_head {s : Bytes} {ls : List Bytes} {body : Bytes} {m : Msg} (hs : LogicalLine s)
    (hl : ∀ L ∈ ls, HeaderLine L) :
    parseMsg (headText s ls ++ body) = .ok m ↔
      ¬ Blank body ∧ ∃ u0 us, Start s u0 ∧ Reads ls us ∧ sfinish (apps {} (u0 ++ us)) body = .ok m := by
  constructor
  · intro h
    have hb := parse_notBlank hs hl h
    obtain ⟨t, ms, b, u0, us, e, g1, g2, g3, g4, g5, g6⟩ := parse_text h
    obtain ⟨rfl, rfl, rfl⟩ := head_unique hs g1 hl g2 hb g3 e
    exact ⟨hb, u0, us, g4, g5, g6⟩
  · rintro ⟨hb, u0, us, h1, h2, h3⟩
    refine (parse_stream _ m).2 ⟨u0 ++ us, body, ?_, h3⟩
    obtain ⟨Ls, rfl, rfl, h⟩ := h2.pairs
    refine (accepts_lines _ _ _).2 ⟨(not_blank_iff _).1 hb, s, u0, Ls, ?_, hs, h1, ?_, rfl⟩
    · rw [headText]; simp [List.flatMap_map]
    · intro p hp
      exact ⟨hl p.1 (List.mem_map.2 ⟨p, hp, rfl⟩), h p hp⟩

/-! ### Lines with a name -/

theorem logical_append {p v : Bytes} (hp : ∀ c ∈ p, c ≠ 13) : LogicalLine (p ++ v) ↔ LogicalLine v := by
  induction p with
  | nil => rfl
  | cons c p ih =>
    rw [← ih fun d hd => hp d (List.mem_cons_of_mem _ hd)]
    have hc := hp c List.mem_cons_self
    constructor
    · intro h x y e
      exact h (c :: x) y (by simpa using e)
    · intro h x y e
      cases x with
      | nil =>
        simp only [CRLF, List.cons_append, List.nil_append, List.cons.injEq] at e
        exact absurd e.1 hc
      | cons d x =>
        simp only [List.cons_append, List.cons.injEq] at e
        exact h x y (by simpa using e.2)

theorem token_ne13 {c : UInt8} (h : token c) : c ≠ 13 ∧ c ≠ 32 ∧ c ≠ 9 ∧ c ≠ 58 := by
  have hc := (tokenc_iff c).2 h
  refine ⟨?_, ?_, ?_, ?_⟩ <;> (rintro rfl; revert hc; decide)

theorem headerLine_line {n w v : Bytes} (hn : IsName n) (hw : Blanks w) :
    HeaderLine (headerLine n w v) ↔ LogicalLine v := by
  have hp : ∀ c ∈ n ++ w ++ b!":", c ≠ 13 := by
    intro c hc
    simp only [List.mem_append] at hc
    rcases hc with (hc | hc) | hc
    · exact (token_ne13 (hn.2 c hc)).1
    · exact blanks_ne13 hw hc
    · rintro rfl; revert hc; decide
  constructor
  · intro h
    have := h.one
    unfold headerLine at this
    exact (logical_append hp).1 this
  · intro h
    obtain ⟨hne, ht⟩ := hn
    cases n with
    | nil => exact absurd rfl hne
    | cons c n =>
      refine ⟨by simp [headerLine], ?_, ?_, (logical_append hp).2 h⟩
      case refine_2 =>
        simp only [headerLine, List.cons_append, List.head?_cons, ne_eq, Option.some.injEq]
        exact (token_ne13 (ht c List.mem_cons_self)).1
      rintro ⟨x, r, e, hx⟩
      simp only [headerLine, List.cons_append, List.cons.injEq] at e
      have := token_ne13 (ht c List.mem_cons_self)
      rw [e.1] at this
      rcases hx with hx | hx
      · exact this.2.1 hx
      · exact this.2.2.1 hx

/-- Every accepted line has a name. -/
theorem line_shape {L : Bytes} {us : List Upd} (hL : HeaderLine L) (h : Line L us) :
    ∃ n w v, IsName n ∧ Blanks w ∧ L = headerLine n w v := by
  rw [line_acc] at h
  cases L with
  | nil => exact absurd rfl hL.ne
  | cons c t =>
    obtain ⟨n, w, v, h1, h2, e⟩ := acc_shape h
    -- the value is what is left before the end of the line
    have e : (c :: t) ++ CRLF = n ++ w ++ b!":" ++ v := e
    have hv : ∃ v', v = v' ++ CRLF := by
      by_cases hlen : 2 ≤ v.length
      · obtain ⟨v', hv'⟩ := List.suffix_of_suffix_length_le (l₁ := CRLF) (l₂ := v) (l₃ := (c :: t) ++ CRLF)
          (List.suffix_append _ _) (e ▸ List.suffix_append _ _) hlen
        exact ⟨v', hv'.symm⟩
      · have e := congrArg List.reverse e
        match v, hlen with
        | [], _ => simp [CRLF] at e
        | [x], _ => simp [CRLF] at e
        | _ :: _ :: _, h => simp at h
    obtain ⟨v', rfl⟩ := hv
    refine ⟨n, w, v', h1, h2, ?_⟩
    have : (c :: t) ++ CRLF = headerLine n w v' ++ CRLF := by rw [e]; simp [headerLine]
    exact List.append_cancel_right this

end Gosip.Sip.MsgM
