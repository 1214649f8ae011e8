import Verif.Sip.LineSplit
import Verif.Spec.Lines

/-!
# A message is accepted line by line
-/

namespace Gosip.Sip.MsgM
open Spec

theorem blank_iff (t : Bytes) : Blank t ↔ startsWSP t = true := by
  cases t with
  | nil => simp [Blank, startsWSP]
  | cons w r => simp [Blank, startsWSP]

theorem not_blank_iff (t : Bytes) : ¬ Blank t ↔ startsWSP t = false := by
  rw [blank_iff]; simp

/-! ### Cutting off the first line -/

/-- The first logical line and the rest. -/
def cutLine : Bytes → Option (Bytes × Bytes)
  | [] => none
  | c :: t =>
    bif c == 13 && t.head? == some 10 && !startsWSP t.tail then some ([], t.tail)
    else (cutLine t).map fun p => (c :: p.1, p.2)

theorem cutLine_some {t L b : Bytes} (h : cutLine t = some (L, b)) :
    t = L ++ CRLF ++ b ∧ startsWSP b = false := by
  induction t generalizing L with
  | nil => cases h
  | cons c t ih =>
    rw [cutLine] at h
    cases hb : (c == 13 && t.head? == some 10 && !startsWSP t.tail) with
    | true =>
      rw [hb] at h
      simp only [cond_true, Option.some.injEq, Prod.mk.injEq] at h
      simp only [Bool.and_eq_true, beq_iff_eq, Bool.not_eq_true'] at hb
      obtain ⟨⟨rfl, h2⟩, h3⟩ := hb
      cases t with
      | nil => simp at h2
      | cons e t =>
        simp only [List.head?_cons, Option.some.injEq] at h2
        subst h2
        obtain ⟨rfl, rfl⟩ := h
        exact ⟨rfl, h3⟩
    | false =>
      rw [hb] at h
      simp only [cond_false] at h
      cases hc : cutLine t with
      | none => rw [hc] at h; cases h
      | some p =>
        rw [hc] at h
        cases h
        obtain ⟨e1, e2⟩ := ih (L := p.1) (by rw [hc])
        exact ⟨by rw [e1]; rfl, e2⟩

theorem cutLine_first {x y : Bytes} (hy : startsWSP y = false) :
    ∃ L b, cutLine (x ++ CRLF ++ y) = some (L, b) ∧ y.length ≤ b.length := by
  induction x with
  | nil => exact ⟨[], y, by simp [CRLF, cutLine, hy], Nat.le_refl _⟩
  | cons c x ih =>
    obtain ⟨L, b, h1, h2⟩ := ih
    rw [List.cons_append, List.cons_append, cutLine]
    cases hb : (c == 13 && (x ++ CRLF ++ y).head? == some 10 && !startsWSP (x ++ CRLF ++ y).tail) with
    | true =>
      refine ⟨[], (x ++ CRLF ++ y).tail, rfl, ?_⟩
      simp [CRLF]; omega
    | false => exact ⟨c :: L, b, by rw [h1]; rfl, h2⟩

theorem cutLine_one {t L b : Bytes} (h : cutLine t = some (L, b)) : LogicalLine L := by
  intro x y hxy
  obtain ⟨h1, h2⟩ := cutLine_some h
  by_cases hy : y = []
  · exact .inl hy
  · right
    rw [blank_iff]
    cases hw : startsWSP y with
    | true => rfl
    | false =>
      have hw' : startsWSP (y ++ b) = false := by
        cases y with
        | nil => exact absurd rfl hy
        | cons w r => exact hw
      obtain ⟨L', b', g1, g2⟩ := cutLine_first (x := x) hw'
      rw [← List.append_assoc, ← hxy, ← h1, h] at g1
      cases g1
      have := List.length_pos_iff.2 hy
      simp at g2
      omega

/-! ### The beginning of a header line -/

theorem rows280 : ∀ r ∈ rows 280, (r.lo = 269 ∧ r.hi = 269 ∧ r.acts = [] ∧ r.tgt = 764) ∨
    (13 < r.lo ∧ 32 < r.lo ∧ r.hi < 256) := by decide +kernel

theorem wide280 : wide 280 = true := by decide +kernel

theorem rows764 : rows 764 = [⟨10, 10, [], 781⟩] := by decide +kernel

/-- The next line begins with the empty line or with a byte that is not a blank. -/
theorem start280 {l l' : Loc} {inp body : Bytes} {us : List Upd}
    (h : SRun ⟨280, l, inp⟩ us ⟨781, l', body⟩) :
    (inp = CRLF ++ body ∧ us = [] ∧ startsWSP body = false) ∨
    ∃ c t, inp = c :: t ∧ c ≠ 13 ∧ c ≠ 10 ∧ startsWSP inp = false := by
  cases h with
  | @step _ t _ x y h1 h2 =>
    obtain ⟨c, tl, r, l1, e1, e2, e3, e4⟩ := sstep_cases h1
    simp only [] at e1 e2 e3 e4
    subst e1
    obtain ⟨m1, m2, m3⟩ := lookup_mem e2
    rcases rows280 r m1 with ⟨r1, r2, r3, r4⟩ | ⟨r1, r2, r3⟩
    · left
      have hc : c = 13 := by
        rcases ssymbol_bound 280 (c :: tl) c with hsy | ⟨hc, _⟩
        · rw [hsy] at m2 m3
          have := c.toNat_lt
          omega
        · exact hc
      subst hc
      have hlook : lookWSP (13 :: tl) = false := by
        cases hl : lookWSP (13 :: tl) with
        | false => rfl
        | true =>
          rcases ssymbol_bound 280 (13 :: tl) 13 with hsy | ⟨_, _, hsy⟩
          · rw [hsy] at m2 m3
            have := (13 : UInt8).toNat_lt
            omega
          · rw [hsy, hl, cond_true] at m2 m3; omega
      rw [r3] at e3 e4
      rw [r4] at e4
      cases e3
      subst e4
      cases h2 with
      | step g1 g2 =>
        obtain ⟨c2, tl2, q, l2, i1, i2, i3, i4⟩ := sstep_cases g1
        simp only [proceed, moveOf, List.any_nil, cond_false] at i1 i2 i3 i4
        have hq := (lookup_mem i2)
        rw [rows764] at hq
        simp only [List.mem_cons, List.not_mem_nil, or_false] at hq
        obtain ⟨rfl, q2, q3⟩ := hq
        subst i1
        have hc2 : c2 = 10 := by
          rcases ssymbol_bound 764 (c2 :: tl2) c2 with hsy | ⟨_, _, hsy⟩
          · rw [hsy] at q2 q3
            simp only [] at q2 q3
            exact UInt8.toNat_inj.1 (show c2.toNat = (10 : UInt8).toNat by
              rw [show (10 : UInt8).toNat = 10 from rfl]; omega)
          · rw [hsy] at q2 q3
            simp only [] at q2 q3
            cases hl : lookWSP (c2 :: tl2) <;> rw [hl] at q2 q3 <;>
              simp only [cond_true, cond_false] at q2 q3 <;> omega
        subst hc2
        cases i3
        simp only [List.any_nil, cond_false] at i4
        subst i4
        cases g2 with
        | refl =>
          refine ⟨rfl, rfl, ?_⟩
          cases body with
          | nil => rfl
          | cons w r => exact hlook
        | step j1 _ => rw [sstep_781] at j1; cases j1
    · right
      have hc : c.toNat = ssymbol 280 (c :: tl) c := by
        rcases ssymbol_bound 280 (c :: tl) c with hsy | ⟨_, _, hsy⟩
        · exact hsy.symm
        · rw [hsy] at m3
          cases hl : lookWSP (c :: tl) <;> rw [hl] at m3 <;>
            simp only [cond_true, cond_false] at m3 <;> omega
      rw [← hc] at m2 m3
      have hne : ∀ z : UInt8, z.toNat ≤ 32 → c ≠ z := by
        rintro z hz rfl; omega
      refine ⟨c, tl, rfl, hne 13 (by decide), hne 10 (by decide), ?_⟩
      have h32 := hne 32 (by decide)
      have h9 := hne 9 (by decide)
      simp [startsWSP, h32, h9]

/-! ### The summary of a line -/

/-- The assignments made by a header line. -/
def Line (L : Bytes) (us : List Upd) : Prop :=
  ∃ l, LRun [] ⟨280, Loc.init, L ++ CRLF⟩ us ⟨280, l, []⟩

/-- The assignments made by the first line. -/
def Start (L : Bytes) (us : List Upd) : Prop :=
  ∃ l, LRun [] ⟨1, Loc.init, L ++ CRLF⟩ us ⟨280, l, []⟩

theorem LRun.line {k : Nat} {l l1 m : Loc} {L b b' : Bytes} {u : List Upd} (hk : k < 765)
    (h : LRun b ⟨k, l, L ++ CRLF ++ b⟩ u ⟨280, l1, b⟩)
    (hb : startsWSP b = false) (hb' : startsWSP b' = false) (ha : Agree (live k) l m) :
    ∃ l2, LRun b' ⟨k, m, L ++ CRLF ++ b'⟩ u ⟨280, l2, b'⟩ := by
  obtain ⟨a', g1, _, g2⟩ := h.local (b' := b') (by rw [hb, hb']) rfl (.inr ⟨L ++ [13], by simp [CRLF]⟩)
  have ha' : a' = [] := by simpa using g1
  subst ha'
  obtain ⟨l2, i1, _⟩ := g2.agree hk ha
  exact ⟨l2, by simpa using i1⟩

theorem Line.use {L b : Bytes} {us : List Upd} (h : Line L us) (hb : startsWSP b = false) (l : Loc) :
    ∃ l', LRun b ⟨280, l, L ++ CRLF ++ b⟩ us ⟨280, l', b⟩ := by
  obtain ⟨l1, h⟩ := h
  exact LRun.line (b := []) (by decide) (by simpa using h) rfl hb agree_none

theorem Start.use {L b : Bytes} {us : List Upd} (h : Start L us) (hb : startsWSP b = false) (l : Loc) :
    ∃ l', LRun b ⟨1, l, L ++ CRLF ++ b⟩ us ⟨280, l', b⟩ := by
  obtain ⟨l1, h⟩ := h
  exact LRun.line (b := []) (by decide) (by simpa using h) rfl hb agree_start

theorem SRun.det280 {s : Conf} {a b : List Upd} {l l' : Loc} (h : SRun s a ⟨280, l, []⟩)
    (g : SRun s b ⟨280, l', []⟩) : a = b ∧ l = l' := by
  have hn : ∀ l, sstep ⟨280, l, []⟩ = none := fun _ => rfl
  generalize ht : (⟨280, l, []⟩ : Conf) = t at h
  induction h generalizing b with
  | refl s =>
    subst ht
    cases g with
    | refl => simp
    | step h1 _ => rw [hn] at h1; cases h1
  | step h1 _ ih =>
    cases g with
    | refl => rw [hn] at h1; cases h1
    | step g1 g2 =>
      rw [h1] at g1; cases g1
      obtain ⟨rfl, h⟩ := ih g2 ht
      exact ⟨rfl, h⟩

theorem Line.det {L : Bytes} {us vs : List Upd} (h : Line L us) (g : Line L vs) : us = vs := by
  obtain ⟨_, h⟩ := h
  obtain ⟨_, g⟩ := g
  exact (h.run.det280 g.run).1

/-! ### The message -/

/-- Header lines with their assignments, up to the empty line. -/
theorem headers_lines {l l' : Loc} {inp body : Bytes} {us : List Upd}
    (h : SRun ⟨280, l, inp⟩ us ⟨781, l', body⟩) :
    ∃ Ls : List (Bytes × List Upd), inp = Ls.flatMap (·.1 ++ CRLF) ++ CRLF ++ body ∧
      (∀ p ∈ Ls, HeaderLine p.1 ∧ Line p.1 p.2) ∧ us = Ls.flatMap (·.2) ∧ startsWSP body = false := by
  generalize hn : inp.length = n
  induction n using Nat.strongRecOn generalizing l inp us with
  | _ n ih =>
    rcases start280 h with ⟨h1, h2, h3⟩ | ⟨c, t, h1, h2, h3, h4⟩
    · exact ⟨[], by rw [h1]; rfl, (by intro p hp; cases hp), h2, h3⟩
    · rcases headers_blank h with hb | ⟨x, hx⟩
      · rw [h1] at hb; simp at hb; exact absurd hb.1 h2
      · obtain ⟨L, b, hc, hlen⟩ := cutLine_first (x := x) (y := CRLF ++ body) (by rfl)
        have hinp : inp = x ++ CRLF ++ (CRLF ++ body) := by rw [hx]; simp [CRLF]
        rw [← hinp] at hc
        obtain ⟨e1, e2⟩ := cutLine_some hc
        have hL : L ≠ [] := by
          rintro rfl
          rw [h1] at e1
          simp [CRLF] at e1
          exact h2 e1.1
        have hLw : startsWSP L = false := by
          cases L with
          | nil => rfl
          | cons w r => rw [e1] at h4; exact h4
        have hL13 : L.head? ≠ some 13 := by
          cases L with
          | nil => simp
          | cons w r =>
            rw [h1] at e1
            simp only [List.cons_append, List.cons.injEq] at e1
            simp only [List.head?_cons, ne_eq, Option.some.injEq]
            rw [← e1.1]; exact h2
        have hb2 : body.length + 2 ≤ b.length := by
          have := hlen
          simp [CRLF] at this
          omega
        rw [e1] at h
        obtain ⟨k1, l1, u1, u2, g1, g2, g3, g4⟩ := run_line (by decide) h e2 (by omega)
        have hk1 : k1 = 280 := by
          rcases g1 with g1 | g1
          · exact g1
          · subst g1
            cases g3 with
            | refl => omega
            | step j1 _ => rw [sstep_781] at j1; cases j1
        subst hk1
        obtain ⟨l2, i1⟩ := LRun.line (by decide) g2 e2 (b' := []) rfl (m := Loc.init) agree_none
        have hlt : b.length < n := by
          rw [← hn, e1]; simp [CRLF]; omega
        obtain ⟨Ls, j1, j2, j3, j4⟩ := ih b.length hlt g3 rfl
        refine ⟨(L, u1) :: Ls, ?_, ?_, ?_, j4⟩
        · rw [e1, j1]; simp
        · intro p hp
          rcases List.mem_cons.1 hp with rfl | hp
          · exact ⟨⟨hL, (not_blank_iff _).2 hLw, hL13, cutLine_one hc⟩, l2, by simpa using i1⟩
          · exact j2 p hp
        · rw [g4, j3]; rfl

/-- From the header lines to the run. -/
theorem lines_headers {Ls : List (Bytes × List Upd)} {body : Bytes} (hb : startsWSP body = false)
    (h : ∀ p ∈ Ls, HeaderLine p.1 ∧ Line p.1 p.2) (l : Loc) :
    ∃ l', SRun ⟨280, l, Ls.flatMap (·.1 ++ CRLF) ++ CRLF ++ body⟩ (Ls.flatMap (·.2)) ⟨781, l', body⟩ := by
  induction Ls generalizing l with
  | nil =>
    have h1 : sstep ⟨280, l, [13, 10] ++ body⟩ = some (⟨764, { l with seg := l.seg ++ [13] }, [10] ++ body⟩, []) := by
      have hl : lookup (rows 280) 269 = some ⟨269, 269, [], 764⟩ := by decide +kernel
      refine sstep_intro (r := ⟨269, 269, [], 764⟩) (l' := l) ?_ rfl
      rw [← hl]
      congr 1
      have : lookWSP (13 :: (10 :: body)) = false := by
        cases body with
        | nil => rfl
        | cons w r => exact hb
      show ssymbol 280 (13 :: 10 :: body) 13 = 269
      rw [ssymbol, wide280, this]; rfl
    have h2 : ∀ l, sstep ⟨764, l, 10 :: body⟩ = some (⟨781, { l with seg := l.seg ++ [10] }, body⟩, []) := by
      intro l
      refine sstep_intro (r := ⟨10, 10, [], 781⟩) (l' := l) ?_ rfl
      rw [rows764]
      have : ssymbol 764 (10 :: body) 10 = 10 := by
        rcases ssymbol_bound 764 (10 :: body) 10 with h | ⟨h, _⟩
        · exact h
        · cases h
      rw [this]; rfl
    exact ⟨_, .step h1 (.step (h2 _) (.refl _))⟩
  | cons p Ls ih =>
    obtain ⟨hp, hl⟩ := h p List.mem_cons_self
    have hrest : startsWSP (Ls.flatMap (·.1 ++ CRLF) ++ CRLF ++ body) = false := by
      cases Ls with
      | nil => rfl
      | cons q Ls =>
        have hq := (h q (by simp)).1
        rcases hql : q.1 with _ | ⟨w, r⟩
        · exact absurd hql hq.ne
        · have := (not_blank_iff _).1 hq.start
          rw [hql] at this
          simp only [List.flatMap_cons, hql]
          exact this
    obtain ⟨l1, g1⟩ := hl.use hrest l
    obtain ⟨l2, g2⟩ := ih (fun q hq => h q (List.mem_cons_of_mem _ hq)) l1
    refine ⟨l2, ?_⟩
    have := g1.run.trans g2
    simpa using this

/-- A message is accepted exactly if its lines are, one by one, and the body does not begin with a blank. -/
theorem accepts_lines (d : Bytes) (us : List Upd) (body : Bytes) : Accepts d us body ↔
    startsWSP body = false ∧ ∃ (L0 : Bytes) (u0 : List Upd) (Ls : List (Bytes × List Upd)),
      d = L0 ++ CRLF ++ Ls.flatMap (·.1 ++ CRLF) ++ CRLF ++ body ∧ LogicalLine L0 ∧ Start L0 u0 ∧
      (∀ p ∈ Ls, HeaderLine p.1 ∧ Line p.1 p.2) ∧ us = u0 ++ Ls.flatMap (·.2) := by
  constructor
  · intro h
    obtain ⟨x, hx⟩ := accepts_blank h
    obtain ⟨l', h⟩ := h
    obtain ⟨L, b, hc, hlen⟩ := cutLine_first (x := x) (y := CRLF ++ body) (by rfl)
    have hinp : d = x ++ CRLF ++ (CRLF ++ body) := by rw [hx]; simp [CRLF]
    rw [← hinp] at hc
    obtain ⟨e1, e2⟩ := cutLine_some hc
    have hb2 : body.length + 2 ≤ b.length := by
      have := hlen
      simp [CRLF] at this
      omega
    rw [e1] at h
    obtain ⟨k1, l1, u1, u2, g1, g2, g3, g4⟩ := run_line (by decide) h e2 (by omega)
    have hk1 : k1 = 280 := by
      rcases g1 with g1 | g1
      · exact g1
      · subst g1
        cases g3 with
        | refl => omega
        | step j1 _ => rw [sstep_781] at j1; cases j1
    subst hk1
    obtain ⟨l2, i1⟩ := LRun.line (by decide) g2 e2 (b' := []) rfl (m := Loc.init) agree_start
    obtain ⟨Ls, j1, j2, j3, j4⟩ := headers_lines g3
    exact ⟨j4, L, u1, Ls, by rw [e1, j1]; simp, cutLine_one hc, ⟨l2, by simpa using i1⟩, j2, by rw [g4, j3]⟩
  · rintro ⟨hb, L0, u0, Ls, rfl, _, h0, hL, rfl⟩
    have hrest : startsWSP (Ls.flatMap (·.1 ++ CRLF) ++ CRLF ++ body) = false := by
      cases Ls with
      | nil => rfl
      | cons q Ls =>
        have hq := (hL q (by simp)).1
        rcases hql : q.1 with _ | ⟨w, r⟩
        · exact absurd hql hq.ne
        · have := (not_blank_iff _).1 hq.start
          rw [hql] at this
          simp only [List.flatMap_cons, hql]
          exact this
    obtain ⟨l1, g1⟩ := h0.use hrest Loc.init
    obtain ⟨l2, g2⟩ := lines_headers hb hL l1
    refine ⟨l2, ?_⟩
    have := g1.run.trans g2
    simpa using this

/-- The body is what follows the first empty line. -/
theorem accepts_body {d body : Bytes} {us : List Upd} (h : Accepts d us body) : BodyOf d body := by
  refine ⟨?_, ?_⟩
  · obtain ⟨x, hx⟩ := accepts_blank h
    exact ⟨x, by rw [hx]; simp [CRLF]⟩
  · intro x y hxy
    refine Decidable.byContradiction fun hlt => ?_
    obtain ⟨l, h⟩ := h
    have hxy' : d = x ++ [13, 10] ++ (CRLF ++ y) := by rw [hxy]; simp [CRLF]
    rw [hxy'] at h
    have hlen : body.length ≤ (CRLF ++ y).length := by simp; omega
    obtain ⟨k1, l1, u1, u2, g1, g2, g3, g4⟩ := run_line (by decide) h rfl hlen
    rcases g1 with rfl | rfl
    · rcases start280 g3 with ⟨h1, _, _⟩ | ⟨c, t, h1, h2, _⟩
      · have := List.append_cancel_left h1
        subst this; omega
      · simp [CRLF] at h1; exact h2 h1.1.symm
    · cases g3 with
      | refl => simp [CRLF] at hlt; omega
      | step j1 _ => rw [sstep_781] at j1; cases j1

end Gosip.Sip.MsgM
