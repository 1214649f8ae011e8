import Verif.Sip.Digits
import Verif.Sip.Skip

/-!
# States of the message machine by what they do, and what follows a piece of a value
-/

namespace Gosip.Sip.MsgM.Gr
open Spec

/-- What a state does at the bytes of a class. -/
structure Ent where
  on : UInt8 → Bool
  acts : List MAct
  tgt : Nat

/-- What a list of classes says about a byte. -/
def entAt : List Ent → UInt8 → Option (List MAct × Nat)
  | [], _ => none
  | e :: es, c => bif e.on c then some (e.acts, e.tgt) else entAt es c

/-- What a state does at CR, before a continued line or not. -/
def crOf (k : Nat) (w : Bool) : Option (List MAct × Nat) :=
  bif wide k then rowAt k (bif w then 525 else 269) else rowAt k 13

/-- The transitions of state `k`: at the bytes other than CR, at the end of a line, at a continuation. -/
structure Shape (k : Nat) (es : List Ent) (eol fold : Option (List MAct × Nat)) : Prop where
  lt : k < 765
  ne : k ≠ 280
  at' : ∀ c : UInt8, c ≠ 13 → rowAt k c.toNat = entAt es c
  eol : crOf k false = eol
  fold : crOf k true = fold

instance {k es eol fold} : Decidable (Shape k es eol fold) :=
  decidable_of_iff (k < 765 ∧ k ≠ 280 ∧ (∀ c : UInt8, c ≠ 13 → rowAt k c.toNat = entAt es c) ∧
    crOf k false = eol ∧ crOf k true = fold)
    ⟨fun ⟨a, b, c, d, e⟩ => ⟨a, b, c, d, e⟩, fun ⟨a, b, c, d, e⟩ => ⟨a, b, c, d, e⟩⟩

/-- A transition is taken and leads to acceptance. -/
def Go (as : List MAct) (k : Nat) (l : Loc) (c : UInt8) (t : Bytes) (us : List Upd) : Prop :=
  ∃ l' a b, sacts as c l = some (l', a) ∧ us = a ++ b ∧
    Acc k (proceed (moveOf as) k l' (c :: t) t c).l (proceed (moveOf as) k l' (c :: t) t c).inp b

theorem acc_step {k : Nat} {l : Loc} {c : UInt8} {t : Bytes} {us : List Upd} :
    Acc k l (c :: t) us ↔ ∃ as x, rowAt k (ssymbol k (c :: t) c) = some (as, x) ∧ Go as x l c t us := by
  rw [acc_cons]
  constructor
  · rintro ⟨t', a, b, h1, h2, h3⟩
    obtain ⟨c', tl', r, l', e1, e2, e3, e4⟩ := sstep_cases h1
    cases e1
    subst e4
    rw [proceed_k] at h3
    exact ⟨r.acts, r.tgt, by unfold rowAt; rw [e2]; rfl, l', a, b, e3, h2, h3⟩
  · rintro ⟨as, x, h, l', a, b, h1, h2, h3⟩
    exact ⟨_, a, b, step_at h h1, h2, by rw [proceed_k]; exact h3⟩

theorem ssymbol_cr' {k : Nat} {t : Bytes} : rowAt k (ssymbol k (13 :: t) 13) = crOf k (startsWSP t.tail) := by
  unfold crOf
  cases h : wide k with
  | false => rw [ssymbol_narrow h]; rfl
  | true => rw [ssymbol_cr h]; rfl

/-- What remains is read by one of these transitions. -/
def Out (es : List Ent) (eol fold : Option (List MAct × Nat)) (l : Loc) (r : Bytes) (us : List Upd) : Prop :=
  ∃ c t as x, r = c :: t ∧ Go as x l c t us ∧
    ((c ≠ 13 ∧ entAt es c = some (as, x)) ∨ (c = 13 ∧ startsWSP t.tail = false ∧ eol = some (as, x)) ∨
      (c = 13 ∧ startsWSP t.tail = true ∧ fold = some (as, x)))

theorem acc_shape {k : Nat} {es : List Ent} {eol fold : Option (List MAct × Nat)} (h : Shape k es eol fold)
    {l : Loc} {v : Bytes} {us : List Upd} : Acc k l v us ↔ Out es eol fold l v us := by
  cases v with
  | nil => exact ⟨fun g => absurd g (acc_nil h.ne), fun ⟨_, _, _, _, e, _⟩ => by cases e⟩
  | cons c t =>
    rw [acc_step]
    by_cases hc : c = 13
    · subst hc
      rw [ssymbol_cr']
      constructor
      · rintro ⟨as, x, g, h1⟩
        refine ⟨13, t, as, x, rfl, h1, .inr ?_⟩
        cases hw : startsWSP t.tail with
        | false => rw [hw, h.eol] at g; exact .inl ⟨rfl, rfl, g⟩
        | true => rw [hw, h.fold] at g; exact .inr ⟨rfl, rfl, g⟩
      · rintro ⟨c', t', as, x, e, h1, h2⟩
        cases e
        refine ⟨as, x, ?_, h1⟩
        rcases h2 with ⟨h2, _⟩ | ⟨_, h2, h3⟩ | ⟨_, h2, h3⟩
        · exact absurd rfl h2
        · rw [h2, h.eol, h3]
        · rw [h2, h.fold, h3]
    · rw [ssymbol_ne hc, h.at' c hc]
      constructor
      · rintro ⟨as, x, g, h1⟩
        exact ⟨c, t, as, x, rfl, h1, .inl ⟨hc, g⟩⟩
      · rintro ⟨c', t', as, x, e, h1, h2⟩
        cases e
        refine ⟨as, x, ?_, h1⟩
        rcases h2 with ⟨_, h2⟩ | ⟨h2, _⟩ | ⟨h2, _⟩
        · exact h2
        · exact absurd h2 hc
        · exact absurd h2 hc

theorem go_adv {as : List MAct} {k : Nat} {l : Loc} {c : UInt8} {t : Bytes} {us : List Upd} (h : moveOf as = .adv) :
    Go as k l c t us ↔ ∃ l' a b, sacts as c l = some (l', a) ∧ us = a ++ b ∧ Acc k { l' with seg := l'.seg ++ [c] } t b := by
  unfold Go; rw [h]; rfl

theorem go_adv' {as : List MAct} {k : Nat} {l l' : Loc} {c : UInt8} {t : Bytes} {us a : List Upd}
    (h : moveOf as = .adv) (g : sacts as c l = some (l', a)) :
    Go as k l c t us ↔ ∃ b, us = a ++ b ∧ Acc k { l' with seg := l'.seg ++ [c] } t b := by
  rw [go_adv h, g]
  constructor
  · rintro ⟨_, _, b, e, h⟩; cases e; exact ⟨b, h⟩
  · rintro ⟨b, h⟩; exact ⟨_, _, b, rfl, h⟩

theorem go_nil {k : Nat} {l : Loc} {c : UInt8} {t : Bytes} {us : List Upd} :
    Go [] k l c t us ↔ Acc k { l with seg := l.seg ++ [c] } t us := by
  rw [go_adv' rfl rfl]; simp

theorem entAt_cons {e : Ent} {es : List Ent} {c : UInt8} {y : List MAct × Nat} :
    entAt (e :: es) c = some y ↔ (e.on c = true ∧ y = (e.acts, e.tgt)) ∨ (e.on c = false ∧ entAt es c = some y) := by
  cases h : e.on c <;> simp [entAt, h, eq_comm]

theorem entAt_nil {c : UInt8} {y : List MAct × Nat} : entAt [] c = some y ↔ False := by simp [entAt]

/-! ### Loops -/

/-- A state with a loop at the bytes of a class. -/
structure Loop (k : Nat) (cls : UInt8 → Bool) (la : List MAct) (es : List Ent)
    (eol fold : Option (List MAct × Nat)) : Prop where
  shape : Shape k (⟨cls, la, k⟩ :: es) eol fold
  adv : moveOf la = .adv
  disj : ∀ c : UInt8, cls c = true → entAt es c = none ∧ c ≠ 13

instance {k cls la es eol fold} : Decidable (Loop k cls la es eol fold) :=
  decidable_of_iff (Shape k (⟨cls, la, k⟩ :: es) eol fold ∧ moveOf la = .adv ∧
    ∀ c : UInt8, cls c = true → entAt es c = none ∧ c ≠ 13)
    ⟨fun ⟨a, b, c⟩ => ⟨a, b, c⟩, fun ⟨a, b, c⟩ => ⟨a, b, c⟩⟩

/-- One step of a loop. -/
def loopStep (st : Loc → UInt8 → Loc) (l : Loc) (c : UInt8) : Loc :=
  { st l c with seg := (st l c).seg ++ [c] }

theorem loop_acts {k : Nat} {cls : UInt8 → Bool} {la : List MAct} {es : List Ent}
    {eol fold : Option (List MAct × Nat)} (p : Loop k cls la es eol fold) (I : Loc → Prop) (st : Loc → UInt8 → Loc)
    (em : UInt8 → List Upd)
    (hl : ∀ l c, I l → cls c = true → sacts la c l = some (st l c, em c) ∧ I (loopStep st l c))
    {l : Loc} (hI : I l) {v : Bytes} {us : List Upd} :
    Acc k l v us ↔ ∃ s r b, v = s ++ r ∧ (∀ c ∈ s, cls c = true) ∧ us = s.flatMap em ++ b ∧
      Out es eol fold (s.foldl (loopStep st) l) r b := by
  induction v generalizing l us with
  | nil =>
    constructor
    · intro h; exact absurd h (acc_nil p.shape.ne)
    · rintro ⟨s, r, b, e, _, _, c, t, _, _, e', _⟩
      subst e'; simp at e
  | cons c v ih =>
    rw [acc_shape p.shape]
    constructor
    · rintro ⟨c', t, as, x, e, h1, h2⟩
      cases e
      rcases h2 with ⟨g1, g2⟩ | h2
      · rcases entAt_cons.1 g2 with ⟨a1, a2⟩ | ⟨a1, a2⟩
        · cases a2
          obtain ⟨b1, b2⟩ := hl l c hI a1
          obtain ⟨b, rfl, h3⟩ := (go_adv' p.adv b1).1 h1
          obtain ⟨s, r, b', rfl, d1, rfl, d2⟩ := (ih b2).1 h3
          refine ⟨c :: s, r, b', rfl, ?_, by simp, d2⟩
          intro d hd
          rcases List.mem_cons.1 hd with rfl | hd
          · exact a1
          · exact d1 d hd
        · exact ⟨[], c :: v, us, rfl, (fun d hd => nomatch hd), rfl, c, v, as, x, rfl, h1, .inl ⟨g1, a2⟩⟩
      · exact ⟨[], c :: v, us, rfl, (fun d hd => nomatch hd), rfl, c, v, as, x, rfl, h1, .inr h2⟩
    · rintro ⟨s, r, b, e, d1, rfl, d2⟩
      cases s with
      | nil =>
        obtain ⟨c', t, as, x, e', h1, h2⟩ := d2
        rw [e'] at e
        cases e
        refine ⟨c, v, as, x, rfl, h1, ?_⟩
        rcases h2 with ⟨g1, g2⟩ | h2
        · refine .inl ⟨g1, entAt_cons.2 (.inr ⟨?_, g2⟩)⟩
          cases hc : cls c with
          | false => exact hc
          | true => rw [(p.disj c hc).1] at g2; cases g2
        · exact .inr h2
      | cons d s =>
        cases e
        have hc := d1 c List.mem_cons_self
        obtain ⟨b1, b2⟩ := hl l c hI hc
        refine ⟨c, s ++ r, la, k, rfl, (go_adv' p.adv b1).2 ⟨s.flatMap em ++ b, by simp, ?_⟩,
          .inl ⟨(p.disj c hc).2, entAt_cons.2 (.inl ⟨hc, rfl⟩)⟩⟩
        exact (ih b2).2 ⟨s, r, b, rfl, fun d hd => d1 d (List.mem_cons_of_mem _ hd), rfl, d2⟩

theorem foldl_seg (s : Bytes) (l : Loc) :
    s.foldl (loopStep fun l _ => l) l = { l with seg := l.seg ++ s } := by
  induction s generalizing l with
  | nil => simp
  | cons c s ih => simp [ih, loopStep]

/-- A loop without actions. -/
theorem loop_plain {k : Nat} {cls : UInt8 → Bool} {es : List Ent} {eol fold : Option (List MAct × Nat)}
    (p : Loop k cls [] es eol fold) {l : Loc} {v : Bytes} {us : List Upd} :
    Acc k l v us ↔ ∃ s r, v = s ++ r ∧ (∀ c ∈ s, cls c = true) ∧
      Out es eol fold { l with seg := l.seg ++ s } r us := by
  rw [loop_acts p (fun _ => True) (fun l _ => l) (fun _ => []) (fun _ _ _ _ => ⟨rfl, trivial⟩) trivial]
  constructor
  · rintro ⟨s, r, b, e, h1, h2, h3⟩
    rw [foldl_seg] at h3
    have : us = b := by rw [h2]; simp
    exact ⟨s, r, e, h1, this ▸ h3⟩
  · rintro ⟨s, r, e, h1, h3⟩
    exact ⟨s, r, us, e, h1, by simp, by rw [foldl_seg]; exact h3⟩

theorem foldl_append (s : Bytes) (l : Loc) :
    s.foldl (loopStep fun l c => { l with buf := l.buf ++ [c] }) l =
      { l with buf := l.buf ++ s, seg := l.seg ++ s } := by
  induction s generalizing l with
  | nil => simp
  | cons c s ih => simp [ih, loopStep]

/-- A loop that collects the bytes. -/
theorem loop_append {k : Nat} {cls : UInt8 → Bool} {es : List Ent} {eol fold : Option (List MAct × Nat)}
    (p : Loop k cls [.append] es eol fold) {l : Loc} {v : Bytes} {us : List Upd} :
    Acc k l v us ↔ ∃ s r, v = s ++ r ∧ (∀ c ∈ s, cls c = true) ∧
      Out es eol fold { l with buf := l.buf ++ s, seg := l.seg ++ s } r us := by
  rw [loop_acts p (fun _ => True) (fun l c => { l with buf := l.buf ++ [c] }) (fun _ => [])
    (fun _ _ _ _ => ⟨rfl, trivial⟩) trivial]
  constructor
  · rintro ⟨s, r, b, e, h1, h2, h3⟩
    rw [foldl_append] at h3
    have : us = b := by rw [h2]; simp
    exact ⟨s, r, e, h1, this ▸ h3⟩
  · rintro ⟨s, r, e, h1, h3⟩
    exact ⟨s, r, us, e, h1, by simp, by rw [foldl_append]; exact h3⟩

/-! ### White space with at most one continuation -/

theorem startsWSP_blank {c : UInt8} {t : Bytes} : startsWSP (c :: t) = blank c := rfl

/-- The states of a continuation, after its CR. -/
structure FoldPart (k1 k2 k3 : Nat) (es : List Ent) : Prop where
  s1 : Shape k1 [⟨(· == 10), [], k2⟩] none none
  s2 : Shape k2 [⟨blank, [], k3⟩] none none
  s3 : Loop k3 blank [] es none none

instance {k1 k2 k3 es} : Decidable (FoldPart k1 k2 k3 es) :=
  decidable_of_iff (Shape k1 [⟨(· == 10), [], k2⟩] none none ∧ Shape k2 [⟨blank, [], k3⟩] none none ∧
    Loop k3 blank [] es none none)
    ⟨fun ⟨a, b, c⟩ => ⟨a, b, c⟩, fun ⟨a, b, c⟩ => ⟨a, b, c⟩⟩

theorem blanks_iff {w : Bytes} : Blanks w ↔ ∀ c ∈ w, blank c = true :=
  ⟨fun h c hc => blank_iff'.2 (h c hc), fun h c hc => blank_iff'.1 (h c hc)⟩

theorem out_none {es : List Ent} {l : Loc} {r : Bytes} {us : List Upd} :
    Out es none none l r us ↔ ∃ c t as x, r = c :: t ∧ c ≠ 13 ∧ entAt es c = some (as, x) ∧ Go as x l c t us := by
  constructor
  · rintro ⟨c, t, as, x, e, h1, ⟨h2, h3⟩ | ⟨_, _, h⟩ | ⟨_, _, h⟩⟩
    · exact ⟨c, t, as, x, e, h2, h3, h1⟩
    · cases h
    · cases h
  · rintro ⟨c, t, as, x, e, h2, h3, h1⟩
    exact ⟨c, t, as, x, e, h1, .inl ⟨h2, h3⟩⟩

theorem acc_one {k x : Nat} {cls : UInt8 → Bool} (h : Shape k [⟨cls, [], x⟩] none none) {l : Loc} {v : Bytes}
    {us : List Upd} :
    Acc k l v us ↔ ∃ c t, v = c :: t ∧ c ≠ 13 ∧ cls c = true ∧ Acc x { l with seg := l.seg ++ [c] } t us := by
  rw [acc_shape h, out_none]
  constructor
  · rintro ⟨c, t, as, y, e, h1, h2, h3⟩
    rcases entAt_cons.1 h2 with ⟨a1, a2⟩ | ⟨_, a2⟩
    · cases a2; exact ⟨c, t, e, h1, a1, go_nil.1 h3⟩
    · cases a2
  · rintro ⟨c, t, e, h1, h2, h3⟩
    exact ⟨c, t, [], x, e, h1, entAt_cons.2 (.inl ⟨h2, rfl⟩), go_nil.2 h3⟩

theorem FoldPart.acc {k1 k2 k3 : Nat} {es : List Ent} (p : FoldPart k1 k2 k3 es) {l : Loc} {v : Bytes}
    {us : List Upd} :
    Acc k1 l v us ↔ ∃ w r, v = 10 :: w ++ r ∧ Blanks w ∧ w ≠ [] ∧ Out es none none { l with seg := l.seg ++ 10 :: w } r us := by
  rw [acc_one p.s1]
  constructor
  · rintro ⟨c, t, rfl, _, h1, h2⟩
    have : c = 10 := by simpa using h1
    subst this
    obtain ⟨d, t', rfl, _, h3, h4⟩ := (acc_one p.s2).1 h2
    obtain ⟨s, r, rfl, h5, h6⟩ := (loop_plain p.s3).1 h4
    refine ⟨d :: s, r, rfl, blanks_iff.2 ?_, by simp, by simpa using h6⟩
    intro e he
    rcases List.mem_cons.1 he with rfl | he
    · exact h3
    · exact h5 e he
  · rintro ⟨w, r, rfl, h1, h2, h3⟩
    cases w with
    | nil => exact absurd rfl h2
    | cons d s =>
      rw [blanks_iff] at h1
      refine ⟨10, d :: s ++ r, rfl, by decide, rfl, (acc_one p.s2).2 ⟨d, s ++ r, rfl, ?_, h1 d List.mem_cons_self,
        (loop_plain p.s3).2 ⟨s, r, rfl, fun c hc => h1 c (List.mem_cons_of_mem _ hc), by simpa using h3⟩⟩⟩
      rintro rfl
      exact absurd (h1 13 List.mem_cons_self) (by decide)

/-- White space, at most one continuation in it, and then what `es` says. -/
structure SwsPart (k k1 k2 k3 : Nat) (es : List Ent) : Prop where
  s : Loop k blank [] es none (some ([], k1))
  f : FoldPart k1 k2 k3 es

instance {k k1 k2 k3 es} : Decidable (SwsPart k k1 k2 k3 es) :=
  decidable_of_iff (Loop k blank [] es none (some ([], k1)) ∧ FoldPart k1 k2 k3 es)
    ⟨fun ⟨a, b⟩ => ⟨a, b⟩, fun ⟨a, b⟩ => ⟨a, b⟩⟩

theorem SwsPart.acc {k k1 k2 k3 : Nat} {es : List Ent} (p : SwsPart k k1 k2 k3 es) {l : Loc} {v : Bytes}
    {us : List Upd} :
    Acc k l v us ↔ ∃ w r, v = w ++ r ∧ Sws w ∧ Out es none none { l with seg := l.seg ++ w } r us := by
  rw [loop_plain p.s]
  constructor
  · rintro ⟨s, r, rfl, h1, c, t, as, x, rfl, h2, ⟨h3, h4⟩ | ⟨_, _, h⟩ | ⟨rfl, h3, h⟩⟩
    · exact ⟨s, c :: t, rfl, .blanks (blanks_iff.2 h1), c, t, as, x, rfl, h2, .inl ⟨h3, h4⟩⟩
    · cases h
    · cases h
      obtain ⟨w, r, rfl, g1, g2, g3⟩ := p.f.acc.1 (go_nil.1 h2)
      exact ⟨s ++ CRLF ++ w, r, by simp [CRLF], .fold (blanks_iff.2 h1) g1 g2, by simpa [CRLF] using g3⟩
  · rintro ⟨w, r, rfl, h1, h2⟩
    cases h1 with
    | blanks h1 =>
      refine ⟨w, r, rfl, blanks_iff.1 h1, ?_⟩
      obtain ⟨c, t, as, x, e, g1, g2, g3⟩ := out_none.1 h2
      exact ⟨c, t, as, x, e, g3, .inl ⟨g1, g2⟩⟩
    | @fold w w' h1 h3 h4 =>
      refine ⟨w, 13 :: 10 :: w' ++ r, by simp [CRLF], blanks_iff.1 h1, 13, 10 :: w' ++ r, [], k1, rfl, go_nil.2 ?_,
        .inr (.inr ⟨rfl, ?_, rfl⟩)⟩
      · exact p.f.acc.2 ⟨w', r, rfl, h3, h4, by simpa [CRLF] using h2⟩
      · cases w' with
        | nil => exact absurd rfl h4
        | cons d w' => exact blank_iff'.2 (h3 d List.mem_cons_self)

/-! ### What follows a piece: white space and a separator, or the end of the line -/

/-- The transitions at separators. -/
def sepEnts (a : List MAct) (seps : List (UInt8 × Nat)) : List Ent := seps.map fun x => ⟨(· == x.1), a, x.2⟩

theorem sepEnts_at {a : List MAct} {seps : List (UInt8 × Nat)} (hs : (seps.map (·.1)).Nodup) {c : UInt8}
    {y : List MAct × Nat} : entAt (sepEnts a seps) c = some y ↔ ∃ x, (c, x) ∈ seps ∧ y = (a, x) := by
  induction seps with
  | nil => simp [sepEnts, entAt]
  | cons p ps ih =>
    simp only [List.map_cons, List.nodup_cons] at hs
    have : sepEnts a (p :: ps) = ⟨(· == p.1), a, p.2⟩ :: sepEnts a ps := rfl
    rw [this, entAt_cons]
    simp only [ih hs.2, beq_iff_eq, beq_eq_false_iff_ne]
    constructor
    · rintro (⟨rfl, h⟩ | ⟨h1, x, h2, h3⟩)
      · exact ⟨p.2, List.mem_cons_self, h⟩
      · exact ⟨x, List.mem_cons_of_mem _ h2, h3⟩
    · rintro ⟨x, h1, h2⟩
      rcases List.mem_cons.1 h1 with h1 | h1
      · left; rw [← h1]; exact ⟨rfl, h2⟩
      · right
        refine ⟨?_, x, h1, h2⟩
        rintro rfl
        exact hs.1 (List.mem_map.2 ⟨_, h1, rfl⟩)

/-- The end of a piece: state `k` leaves it, with the actions `a`, at white space, a separator or the end of the
line. -/
structure AfterPart (k kb k1 k2 k3 : Nat) (cls : UInt8 → Bool) (la a : List MAct) (seps : List (UInt8 × Nat))
    (eol : Option Nat) : Prop where
  s : Loop k cls la (⟨blank, a, kb⟩ :: sepEnts a seps) (eol.map (a, ·)) (some (a, k1))
  b : SwsPart kb k1 k2 k3 (sepEnts [] seps)
  adv : moveOf a = .adv
  nd : (seps.map (·.1)).Nodup
  nb : ∀ x ∈ seps, blank x.1 = false ∧ x.1 ≠ 13 ∧ x.2 < 765 ∧ (live x.2).seg = false
  ne : ∀ e ∈ eol, e < 765 ∧ (live e).seg = false

instance {k kb k1 k2 k3 cls la a seps eol} : Decidable (AfterPart k kb k1 k2 k3 cls la a seps eol) :=
  decidable_of_iff (Loop k cls la (⟨blank, a, kb⟩ :: sepEnts a seps) (eol.map (a, ·)) (some (a, k1)) ∧
    SwsPart kb k1 k2 k3 (sepEnts [] seps) ∧ moveOf a = .adv ∧ (seps.map (·.1)).Nodup ∧
    (∀ x ∈ seps, blank x.1 = false ∧ x.1 ≠ 13 ∧ x.2 < 765 ∧ (live x.2).seg = false) ∧
    (∀ e ∈ eol, e < 765 ∧ (live e).seg = false))
    ⟨fun ⟨a, b, c, d, e, f⟩ => ⟨a, b, c, d, e, f⟩, fun ⟨a, b, c, d, e, f⟩ => ⟨a, b, c, d, e, f⟩⟩

/-- White space and a separator, or the end of the line. -/
def Tail (seps : List (UInt8 × Nat)) (eol : Option Nat) (l : Loc) (r : Bytes) (us : List Upd) : Prop :=
  (∃ w c t x, r = w ++ c :: t ∧ Sws w ∧ (c, x) ∈ seps ∧ Acc x { l with seg := [] } t us) ∨
  (∃ e t, eol = some e ∧ r = 13 :: t ∧ startsWSP t.tail = false ∧ Acc e { l with seg := [] } t us)

theorem acc_seg {k : Nat} {l : Loc} {s : Bytes} {v : Bytes} {us : List Upd} (hk : k < 765)
    (h : (live k).seg = false) : Acc k { l with seg := s } v us ↔ Acc k { l with seg := [] } v us := by
  refine acc_agree hk ?_
  constructor
  case seg => intro e; rw [h] at e; cases e
  all_goals intro _
  all_goals first | rfl | exact .inl rfl

theorem out_seps {seps : List (UInt8 × Nat)} (nd : (seps.map (·.1)).Nodup)
    (nb : ∀ x ∈ seps, blank x.1 = false ∧ x.1 ≠ 13 ∧ x.2 < 765 ∧ (live x.2).seg = false)
    {l : Loc} {r : Bytes} {us : List Upd} :
    Out (sepEnts [] seps) none none l r us ↔
      ∃ c t x, r = c :: t ∧ (c, x) ∈ seps ∧ Acc x { l with seg := [] } t us := by
  rw [out_none]
  constructor
  · rintro ⟨c, t, as, x, e, h1, h2, h3⟩
    obtain ⟨y, g1, g2⟩ := (sepEnts_at nd).1 h2
    cases g2
    obtain ⟨_, _, a1, a2⟩ := nb _ g1
    exact ⟨c, t, x, e, g1, (acc_seg a1 a2).1 (go_nil.1 h3)⟩
  · rintro ⟨c, t, x, e, h1, h2⟩
    obtain ⟨_, a0, a1, a2⟩ := nb _ h1
    exact ⟨c, t, [], x, e, a0, (sepEnts_at nd).2 ⟨x, h1, rfl⟩, go_nil.2 ((acc_seg a1 a2).2 h2)⟩

theorem AfterPart.out {k kb k1 k2 k3 : Nat} {cls : UInt8 → Bool} {la a : List MAct} {seps : List (UInt8 × Nat)}
    {eol : Option Nat} (p : AfterPart k kb k1 k2 k3 cls la a seps eol) {l l' : Loc}
    (hf : ∀ c, sacts a c l = some (l', [])) {r : Bytes} {us : List Upd} :
    Out (⟨blank, a, kb⟩ :: sepEnts a seps) (eol.map (a, ·)) (some (a, k1)) l r us ↔ Tail seps eol l' r us := by
  have go : ∀ {x c t}, Go a x l c t us ↔ Acc x { l' with seg := l'.seg ++ [c] } t us := by
    intro x c t; rw [go_adv' p.adv (hf c)]; simp
  constructor
  · rintro ⟨c, t, as, x, rfl, h1, ⟨h2, h3⟩ | ⟨rfl, h2, h3⟩ | ⟨rfl, h2, h3⟩⟩
    · rcases entAt_cons.1 h3 with ⟨g1, g2⟩ | ⟨g1, g2⟩
      · cases g2
        obtain ⟨w, r, rfl, g2, g3⟩ := p.b.acc.1 (go.1 h1)
        obtain ⟨d, t, x, rfl, g4, g5⟩ := (out_seps p.nd p.nb).1 g3
        refine .inl ⟨c :: w, d, t, x, rfl, ?_, g4, g5⟩
        cases g2 with
        | blanks g2 => exact .blanks (List.forall_mem_cons.2 ⟨blank_iff'.1 g1, g2⟩)
        | @fold w w' g2 g6 g7 => exact .fold (w := c :: w) (List.forall_mem_cons.2 ⟨blank_iff'.1 g1, g2⟩) g6 g7
      · obtain ⟨y, g3, g4⟩ := (sepEnts_at p.nd).1 g2
        cases g4
        obtain ⟨_, _, a1, a2⟩ := p.nb _ g3
        exact .inl ⟨[], c, t, x, rfl, .blanks (fun _ h => nomatch h), g3, (acc_seg a1 a2).1 (go.1 h1)⟩
    · cases eol with
      | none => cases h3
      | some e =>
        cases h3
        obtain ⟨a1, a2⟩ := p.ne _ rfl
        exact .inr ⟨_, t, rfl, rfl, h2, (acc_seg a1 a2).1 (go.1 h1)⟩
    · cases h3
      obtain ⟨w, r, rfl, g1, g2, g3⟩ := p.b.f.acc.1 (go.1 h1)
      obtain ⟨d, t, x, rfl, g4, g5⟩ := (out_seps p.nd p.nb).1 g3
      exact .inl ⟨[] ++ CRLF ++ w, d, t, x, by simp [CRLF], .fold (fun _ h => nomatch h) g1 g2, g4, g5⟩
  · rintro (⟨w, c, t, x, rfl, h1, h2, h3⟩ | ⟨e, t, rfl, rfl, h1, h2⟩)
    · obtain ⟨a0, a0', a1, a2⟩ := p.nb _ h2
      cases w with
      | nil =>
        exact ⟨c, t, a, x, rfl, go.2 ((acc_seg a1 a2).2 h3), .inl ⟨a0', entAt_cons.2 (.inr ⟨a0, (sepEnts_at p.nd).2 ⟨x, h2, rfl⟩⟩)⟩⟩
      | cons d w =>
        by_cases hd : blank d = true
        · have hw : Sws w := by
            generalize he : d :: w = y at h1
            cases h1 with
            | blanks h1 => subst he; exact .blanks fun c hc => h1 c (List.mem_cons_of_mem _ hc)
            | @fold u u' h1 h4 h5 =>
              cases u with
              | nil => simp [CRLF] at he; rw [he.1] at hd; exact absurd hd (by decide)
              | cons d' u =>
                cases he
                exact .fold (fun c hc => h1 c (List.mem_cons_of_mem _ hc)) h4 h5
          refine ⟨d, w ++ c :: t, a, kb, rfl, go.2 ?_, .inl ⟨?_, entAt_cons.2 (.inl ⟨hd, rfl⟩)⟩⟩
          · exact p.b.acc.2 ⟨w, c :: t, rfl, hw, (out_seps p.nd p.nb).2 ⟨c, t, x, rfl, h2, h3⟩⟩
          · rintro rfl; exact absurd hd (by decide)
        · generalize he : d :: w = y at h1
          cases h1 with
          | blanks h1 => subst he; exact absurd (blank_iff'.2 (h1 d List.mem_cons_self)) hd
          | @fold u u' h1 h4 h5 =>
            cases u with
            | cons d' u => cases he; exact absurd (blank_iff'.2 (h1 d List.mem_cons_self)) hd
            | nil =>
              simp only [CRLF, List.nil_append, List.cons_append, List.cons.injEq] at he
              obtain ⟨rfl, rfl⟩ := he
              refine ⟨13, 10 :: (u' ++ c :: t), a, k1, rfl, go.2 ?_, .inr (.inr ⟨rfl, ?_, rfl⟩)⟩
              · exact p.b.f.acc.2 ⟨u', c :: t, rfl, h4, h5, (out_seps p.nd p.nb).2 ⟨c, t, x, rfl, h2, h3⟩⟩
              · cases u' with
                | nil => exact absurd rfl h5
                | cons d w' => exact blank_iff'.2 (h4 d List.mem_cons_self)
    · obtain ⟨a1, a2⟩ := p.ne _ rfl
      exact ⟨13, t, a, e, rfl, go.2 ((acc_seg a1 a2).2 h2), .inr (.inl ⟨rfl, h1, rfl⟩)⟩

/-- A piece read by a loop without actions, and what follows it. -/
theorem AfterPart.plain {k kb k1 k2 k3 : Nat} {cls : UInt8 → Bool} {a : List MAct} {seps : List (UInt8 × Nat)}
    {eol : Option Nat} (p : AfterPart k kb k1 k2 k3 cls [] a seps eol) {l : Loc} {g : Bytes → Loc}
    (hf : ∀ s c, sacts a c { l with seg := l.seg ++ s } = some (g s, [])) {v : Bytes} {us : List Upd} :
    Acc k l v us ↔ ∃ s r, v = s ++ r ∧ (∀ c ∈ s, cls c = true) ∧ Tail seps eol (g s) r us := by
  rw [loop_plain p.s]
  constructor
  · rintro ⟨s, r, e, h1, h2⟩; exact ⟨s, r, e, h1, (p.out (hf s)).1 h2⟩
  · rintro ⟨s, r, e, h1, h2⟩; exact ⟨s, r, e, h1, (p.out (hf s)).2 h2⟩

/-- A piece collected by a loop, and what follows it. -/
theorem AfterPart.append {k kb k1 k2 k3 : Nat} {cls : UInt8 → Bool} {seps : List (UInt8 × Nat)}
    {eol : Option Nat} (p : AfterPart k kb k1 k2 k3 cls [.append] [] seps eol) {l : Loc} {v : Bytes} {us : List Upd} :
    Acc k l v us ↔ ∃ s r, v = s ++ r ∧ (∀ c ∈ s, cls c = true) ∧ Tail seps eol { l with buf := l.buf ++ s } r us := by
  rw [loop_append p.s]
  constructor
  · rintro ⟨s, r, e, h1, h2⟩
    exact ⟨s, r, e, h1, (p.out (l' := { l with buf := l.buf ++ s, seg := l.seg ++ s }) (fun _ => rfl)).1 h2⟩
  · rintro ⟨s, r, e, h1, h2⟩
    exact ⟨s, r, e, h1, (p.out (l' := { l with buf := l.buf ++ s, seg := l.seg ++ s }) (fun _ => rfl)).2 h2⟩

end Gosip.Sip.MsgM.Gr
