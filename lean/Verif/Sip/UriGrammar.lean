import Verif.Sip.UriSafe
import Verif.Sip.CharsetLemmas
import Verif.Spec.Uri

/-! # The URI machine accepts exactly the grammar `Spec.URIText` -/

namespace Gosip.Sip.Uri
open Gosip.Spec

/-- Successful outcome of the abstract machine. -/
def asucc : Nat → ACtx → Bytes → Option URI
  | k, x, [] => if k < 45 then none else some (aexecs (eofActs k) 0 x).uri
  | k, x, c :: rest =>
    match lookup (rows k) c.toNat with
    | none => none
    | some r => asucc r.tgt (aexecs r.acts c x) rest

theorem arun_ok (data : Bytes) (k : Nat) (x : ACtx) (p : Nat) (rest : Bytes) (u : URI) :
    arun data k x p rest = .ok u ↔ asucc k x rest = some u := by
  induction rest generalizing k x p with
  | nil => simp only [arun, asucc]; split <;> simp
  | cons c rest ih =>
    rw [arun, asucc]
    cases lookup (rows k) c.toNat with
    | none => simp
    | some r => exact ih _ _ _

/-- Actions and target of the transition from `k` on the byte `c`. -/
def next (k : Nat) (c : UInt8) : Option (List UAct × Nat) :=
  (lookup (rows k) c.toNat).map fun r => (r.acts, r.tgt)

theorem asucc_none {k : Nat} {x : ACtx} {c : UInt8} {r : Bytes} (h : next k c = none) :
    asucc k x (c :: r) = none := by
  rw [asucc]; unfold next at h
  cases hl : lookup (rows k) c.toNat <;> simp [hl] at h ⊢

theorem asucc_some {k : Nat} {x : ACtx} {c : UInt8} {r : Bytes} {l : List UAct} {t : Nat}
    (h : next k c = some (l, t)) : asucc k x (c :: r) = asucc t (aexecs l c x) r := by
  rw [asucc]; unfold next at h
  cases hl : lookup (rows k) c.toNat <;> simp [hl] at h ⊢
  rw [h.1, h.2]

theorem asucc_nil {k : Nat} {x : ACtx} : asucc k x [] =
    if k < 45 then none else some (aexecs (eofActs k) 0 x).uri := rfl

/-- `r` does not go on with a byte of the class `P` or an escape. -/
def Stop (P : UInt8 → Prop) (r : Bytes) : Prop := ∀ c r', r = c :: r' → ¬ P c ∧ c ≠ 37

theorem stop_nil (P : UInt8 → Prop) : Stop P [] := by intro c r' h; simp at h
theorem stop_cons {P : UInt8 → Prop} {c : UInt8} {r : Bytes} : Stop P (c :: r) ↔ ¬ P c ∧ c ≠ 37 := by
  constructor
  · intro h; exact h c r rfl
  · intro h c' r' h'; simp at h'; rw [← h'.1]; exact h

theorem unhex_join : ∀ c d : UInt8, ∀ x y, hexVal c = some x → hexVal d = some y →
    unhex c * 16 + unhex d = UInt8.ofNat (x * 16 + y) := by
  have h : ∀ c : UInt8, ∀ x, hexVal c = some x → unhex c = UInt8.ofNat x := by
    intro c x hx
    have : ∀ c : UInt8, hexVal c = none ∨ hexVal c = some (unhex c).toNat := by decide +kernel
    rcases this c with h | h
    · simp [h] at hx
    · rw [h] at hx; simp at hx; rw [← hx]; simp
  intro c d x y hx hy
  rw [h c x hx, h d y hy, UInt8.ofNat_add, UInt8.ofNat_mul]
  rfl

/-- A loop state `k` over the class `P` with escapes through `h1`, `h2`. -/
structure Loop (P : UInt8 → Prop) (k h1 h2 : Nat) : Prop where
  lit : ∀ c, P c → next k c = some ([.append], k)
  pct : next k 37 = some ([], h1)
  npct : ¬ P 37
  hi : ∀ c, next h1 c = if hexVal c = none then none else some ([.hexHi], h2)
  lo : ∀ c, next h2 c = if hexVal c = none then none else some ([.hexLo], k)
  l1 : h1 < 45
  l2 : h2 < 45

theorem Loop.run {P : UInt8 → Prop} [DecidablePred P] {k h1 h2 : Nat} (L : Loop P k h1 h2)
    (Q : ACtx → Bytes → URI → Prop)
    (hQ : ∀ x h d u, Q { x with hex := h } d u ↔ Q x d u) (w : URI) (n : Nat)
    (hexit : ∀ x d u, x.uri = w → d.length ≤ n → Stop P d → (asucc k x d = some u ↔ Q x d u)) :
    ∀ m d, d.length ≤ m → m ≤ n → ∀ x u, x.uri = w → (asucc k x d = some u ↔
      ∃ t s r, d = t ++ r ∧ Unescapes P t s ∧ Stop P r ∧ Q { x with acc := x.acc ++ s } r u) := by
  intro m
  induction m with
  | zero =>
    intro d hd hn x u hw
    have : d = [] := by cases d <;> simp_all
    subst this
    rw [hexit x [] u hw (by simp) (stop_nil P)]
    constructor
    · intro h; exact ⟨[], [], [], rfl, .nil, stop_nil P, by simpa using h⟩
    · rintro ⟨t, s, r, h1, h2, h3, h4⟩
      simp at h1; obtain ⟨rfl, rfl⟩ := h1
      cases h2; simpa using h4
  | succ m ih =>
    intro d hd hn x u hw
    by_cases hs : Stop P d
    · rw [hexit x d u hw (by omega) hs]
      constructor
      · intro h; exact ⟨[], [], d, rfl, .nil, hs, by simpa using h⟩
      · rintro ⟨t, s, r, h1, h2, h3, h4⟩
        cases h2 with
        | nil => simp at h1; subst h1; simpa using h4
        | lit hp _ => subst h1; simp [stop_cons] at hs; exact absurd hp (by simpa using hs.1)
        | esc _ _ _ => subst h1; simp [stop_cons] at hs
    · cases d with
      | nil => exact absurd (stop_nil P) hs
      | cons c d =>
        rw [stop_cons] at hs
        by_cases hp : P c
        · rw [asucc_some (L.lit c hp), ih d (by simpa using hd) (by omega) _ _ (by simpa [aexecs, aexec] using hw)]
          constructor
          · rintro ⟨t, s, r, g1, g2, g3, g4⟩
            exact ⟨c :: t, c :: s, r, by simp [g1], .lit hp g2, g3, by
              simpa [aexecs, aexec] using g4⟩
          · rintro ⟨t, s, r, g1, g2, g3, g4⟩
            cases g2 with
            | nil => simp at g1; subst g1; exact absurd hp (stop_cons.1 g3).1
            | lit hp' g2 =>
              simp at g1; obtain ⟨rfl, rfl⟩ := g1
              exact ⟨_, _, r, rfl, g2, g3, by simpa [aexecs, aexec] using g4⟩
            | esc _ _ _ => simp at g1; rw [g1.1] at hp; exact absurd hp L.npct
        · have hc : c = 37 := Classical.not_not.1 fun h => hs ⟨hp, h⟩
          subst hc
          rw [asucc_some L.pct]
          cases d with
          | nil =>
            rw [asucc_nil, if_pos L.l1]
            simp only [reduceCtorEq, false_iff]
            rintro ⟨t, s, r, g1, g2, g3, g4⟩
            cases g2 with
            | nil => simp at g1; subst g1; simp [stop_cons] at g3
            | lit hp' g2 => simp at g1; rw [← g1.1] at hp'; exact L.npct hp'
            | esc _ _ _ => simp at g1
          | cons a d =>
            cases ha : hexVal a with
            | none =>
              rw [asucc_none (by rw [L.hi, if_pos ha])]
              simp only [reduceCtorEq, false_iff]
              rintro ⟨t, s, r, g1, g2, g3, g4⟩
              cases g2 with
              | nil => simp at g1; subst g1; simp [stop_cons] at g3
              | lit hp' g2 => simp at g1; rw [← g1.1] at hp'; exact L.npct hp'
              | esc e1 _ _ => simp at g1; rw [← g1.1, ha] at e1; simp at e1
            | some av =>
              rw [asucc_some (by rw [L.hi, if_neg (by simp [ha])])]
              cases d with
              | nil =>
                rw [asucc_nil, if_pos L.l2]
                simp only [reduceCtorEq, false_iff]
                rintro ⟨t, s, r, g1, g2, g3, g4⟩
                cases g2 with
                | nil => simp at g1; subst g1; simp [stop_cons] at g3
                | lit hp' g2 => simp at g1; rw [← g1.1] at hp'; exact L.npct hp'
                | esc e1 _ _ => simp at g1
              | cons b d =>
                cases hb : hexVal b with
                | none =>
                  rw [asucc_none (by rw [L.lo, if_pos hb])]
                  simp only [reduceCtorEq, false_iff]
                  rintro ⟨t, s, r, g1, g2, g3, g4⟩
                  cases g2 with
                  | nil => simp at g1; subst g1; simp [stop_cons] at g3
                  | lit hp' g2 => simp at g1; rw [← g1.1] at hp'; exact L.npct hp'
                  | esc _ e1 _ => simp at g1; rw [← g1.2.1, hb] at e1; simp at e1
                | some bv =>
                  rw [asucc_some (by rw [L.lo, if_neg (by simp [hb])])]
                  rw [ih d (by simp at hd; omega) (by omega) _ _ (by simpa [aexecs, aexec] using hw)]
                  have key : ∀ s, ({ aexecs [.hexLo] b (aexecs [.hexHi] a (aexecs [] 37 x)) with
                      acc := (aexecs [.hexLo] b (aexecs [.hexHi] a (aexecs [] 37 x))).acc ++ s } :
                        ACtx) = { ({ x with acc := x.acc ++ UInt8.ofNat (av * 16 + bv) :: s } : ACtx)
                          with hex := unhex a * 16 + unhex b } := by
                    intro s
                    simp [aexecs, aexec, unhex_join a b av bv ha hb]
                  constructor
                  · rintro ⟨t, s, r, g1, g2, g3, g4⟩
                    refine ⟨37 :: a :: b :: t, UInt8.ofNat (av * 16 + bv) :: s, r, by simp [g1],
                      .esc ha hb g2, g3, ?_⟩
                    rw [key, hQ] at g4; exact g4
                  · rintro ⟨t, s, r, g1, g2, g3, g4⟩
                    cases g2 with
                    | nil => simp at g1; subst g1; simp [stop_cons] at g3
                    | lit hp' g2 => simp at g1; rw [← g1.1] at hp'; exact absurd hp' L.npct
                    | esc e1 e2 g2 =>
                      simp at g1
                      obtain ⟨rfl, rfl, rfl⟩ := g1
                      rw [ha] at e1; rw [hb] at e2; simp at e1 e2; subst e1; subst e2
                      refine ⟨_, _, r, rfl, g2, g3, ?_⟩
                      rw [key, hQ]; exact g4

/-- A state `e` which requires one character of the class before the loop `k`; `pre` resets the
accumulator. -/
structure Entry (P : UInt8 → Prop) [DecidablePred P] (e k h1 : Nat) (pre : List UAct) : Prop where
  step : ∀ c, next e c = if P c then some (pre ++ [.append], k) else
    if c = 37 then some (pre, h1) else none
  le : e < 45
  nobyte : ∀ c d x, aexecs pre c x = aexecs pre d x
  resets : ∀ c x, (aexecs pre c x).acc = []
  uri : ∀ c x, (aexecs pre c x).uri = x.uri

theorem aexecs_append (l m : List UAct) (c : UInt8) (x : ACtx) :
    aexecs (l ++ m) c x = aexecs m c (aexecs l c x) := by
  induction l generalizing x with
  | nil => rfl
  | cons a l ih => simp [aexecs, ih]

theorem Entry.run {P : UInt8 → Prop} [DecidablePred P] {e k h1 h2 : Nat} {pre : List UAct}
    (E : Entry P e k h1 pre) (L : Loop P k h1 h2)
    (Q : ACtx → Bytes → URI → Prop)
    (hQ : ∀ x h d u, Q { x with hex := h } d u ↔ Q x d u) (n : Nat)
    (d : Bytes) (hd : d.length ≤ n) (x : ACtx) (u : URI)
    (hexit : ∀ y d u, y.uri = x.uri → d.length < n → Stop P d → (asucc k y d = some u ↔ Q y d u)) :
    asucc e x d = some u ↔
      ∃ t s r, d = t ++ r ∧ Unescapes P t s ∧ s ≠ [] ∧ Stop P r ∧
        Q { aexecs pre 0 x with acc := s } r u := by
  by_cases hs : Stop P d
  · have : asucc e x d = none := by
      cases d with
      | nil => rw [asucc_nil, if_pos E.le]
      | cons c d =>
        rw [stop_cons] at hs
        exact asucc_none (by rw [E.step, if_neg hs.1, if_neg hs.2])
    rw [this]
    simp only [reduceCtorEq, false_iff]
    rintro ⟨t, s, r, g1, g2, g3, g4, g5⟩
    cases g2 with
    | nil => exact g3 rfl
    | lit hp _ => subst g1; simp [stop_cons] at hs; exact absurd hp (by simpa using hs.1)
    | esc _ _ _ => subst g1; simp [stop_cons] at hs
  · -- the first symbol is treated by `e` as by `k` after resetting
    have hk : asucc e x d = asucc k (aexecs pre 0 x) d := by
      cases d with
      | nil => exact absurd (stop_nil P) hs
      | cons c d =>
        by_cases hp : P c
        · rw [asucc_some (by rw [E.step, if_pos hp]), asucc_some (L.lit c hp), aexecs_append,
            E.nobyte c 0]
        · rw [stop_cons] at hs
          have hc : c = 37 := Classical.not_not.1 fun h => hs ⟨hp, h⟩
          subst hc
          rw [asucc_some (by rw [E.step, if_neg hp, if_pos rfl]), asucc_some L.pct,
            E.nobyte 37 0]
          rfl
    rw [hk]
    cases d with
    | nil => exact absurd (stop_nil P) hs
    | cons c d =>
      cases n with
      | zero => simp at hd
      | succ n =>
        simp at hd
        have L' := L.run Q hQ x.uri n (fun x d u h0 h1 h2 => hexit x d u h0 (by omega) h2)
        by_cases hp : P c
        · rw [asucc_some (L.lit c hp), L' d.length d (by simp) hd _ _ (by simp [aexecs, aexec, E.uri])]
          constructor
          · rintro ⟨t, s, r, g1, g2, g3, g4⟩
            refine ⟨c :: t, c :: s, r, by simp [g1], .lit hp g2, by simp, g3, ?_⟩
            simpa [aexecs, aexec, E.resets] using g4
          · rintro ⟨t, s, r, g1, g2, g3, g4, g5⟩
            cases g2 with
            | nil => exact absurd rfl g3
            | lit hp' g2 =>
              simp at g1; obtain ⟨rfl, rfl⟩ := g1
              exact ⟨_, _, r, rfl, g2, g4, by simpa [aexecs, aexec, E.resets] using g5⟩
            | esc _ _ _ => simp at g1; rw [g1.1] at hp; exact absurd hp L.npct
        · rw [stop_cons] at hs
          have hc : c = 37 := Classical.not_not.1 fun h => hs ⟨hp, h⟩
          subst hc
          rw [asucc_some L.pct]
          cases d with
          | nil =>
            rw [asucc_nil, if_pos L.l1]
            simp only [reduceCtorEq, false_iff]
            rintro ⟨t, s, r, g1, g2, g3, g4, g5⟩
            cases g2 with
            | nil => exact g3 rfl
            | lit hp' g2 => simp at g1; rw [← g1.1] at hp'; exact L.npct hp'
            | esc _ _ _ => simp at g1
          | cons a d =>
            cases ha : hexVal a with
            | none =>
              rw [asucc_none (by rw [L.hi, if_pos ha])]
              simp only [reduceCtorEq, false_iff]
              rintro ⟨t, s, r, g1, g2, g3, g4, g5⟩
              cases g2 with
              | nil => exact g3 rfl
              | lit hp' g2 => simp at g1; rw [← g1.1] at hp'; exact L.npct hp'
              | esc e1 _ _ => simp at g1; rw [← g1.1, ha] at e1; simp at e1
            | some av =>
              rw [asucc_some (by rw [L.hi, if_neg (by simp [ha])])]
              cases d with
              | nil =>
                rw [asucc_nil, if_pos L.l2]
                simp only [reduceCtorEq, false_iff]
                rintro ⟨t, s, r, g1, g2, g3, g4, g5⟩
                cases g2 with
                | nil => exact g3 rfl
                | lit hp' g2 => simp at g1; rw [← g1.1] at hp'; exact L.npct hp'
                | esc e1 _ _ => simp at g1
              | cons b d =>
                cases hb : hexVal b with
                | none =>
                  rw [asucc_none (by rw [L.lo, if_pos hb])]
                  simp only [reduceCtorEq, false_iff]
                  rintro ⟨t, s, r, g1, g2, g3, g4, g5⟩
                  cases g2 with
                  | nil => exact g3 rfl
                  | lit hp' g2 => simp at g1; rw [← g1.1] at hp'; exact L.npct hp'
                  | esc _ e1 _ => simp at g1; rw [← g1.2.1, hb] at e1; simp at e1
                | some bv =>
                  rw [asucc_some (by rw [L.lo, if_neg (by simp [hb])])]
                  rw [L' d.length d (by simp) (by simp at hd; omega) _ _ (by simp [aexecs, aexec, E.uri])]
                  have key : ∀ s, ({ aexecs [.hexLo] b (aexecs [.hexHi] a (aexecs [] 37
                      (aexecs pre 0 x))) with
                      acc := (aexecs [.hexLo] b (aexecs [.hexHi] a (aexecs [] 37
                        (aexecs pre 0 x)))).acc ++ s } : ACtx) =
                      { ({ aexecs pre 0 x with acc := UInt8.ofNat (av * 16 + bv) :: s } : ACtx)
                          with hex := unhex a * 16 + unhex b } := by
                    intro s
                    simp [aexecs, aexec, unhex_join a b av bv ha hb, E.resets]
                  constructor
                  · rintro ⟨t, s, r, g1, g2, g3, g4⟩
                    refine ⟨37 :: a :: b :: t, UInt8.ofNat (av * 16 + bv) :: s, r, by simp [g1],
                      .esc ha hb g2, by simp, g3, ?_⟩
                    rw [key, hQ] at g4; exact g4
                  · rintro ⟨t, s, r, g1, g2, g3, g4, g5⟩
                    cases g2 with
                    | nil => exact absurd rfl g3
                    | lit hp' g2 => simp at g1; rw [← g1.1] at hp'; exact absurd hp' L.npct
                    | esc e1 e2 g2 =>
                      simp at g1
                      obtain ⟨rfl, rfl, rfl⟩ := g1
                      rw [ha] at e1; rw [hb] at e2; simp at e1 e2; subst e1; subst e2
                      refine ⟨_, _, r, rfl, g2, g4, ?_⟩
                      rw [key, hQ]; exact g5

/-! ### Loops over a plain class -/

/-- `r` does not go on with a byte of `P`. -/
def StopC (P : UInt8 → Prop) (r : Bytes) : Prop := ∀ c r', r = c :: r' → ¬ P c

theorem class_run {P : UInt8 → Prop} [DecidablePred P] {k : Nat} {a : UAct}
    (hP : ∀ c, P c → next k c = some ([a], k)) (d : Bytes) (x : ACtx) (u : URI) :
    asucc k x d = some u ↔ ∃ t r, d = t ++ r ∧ (∀ c ∈ t, P c) ∧ StopC P r ∧
      asucc k (t.foldl (fun y c => aexec a c y) x) r = some u := by
  induction d generalizing x with
  | nil =>
    constructor
    · intro h; exact ⟨[], [], rfl, by simp, by intro c r' h; simp at h, by simpa using h⟩
    · rintro ⟨t, r, g1, g2, g3, g4⟩
      simp at g1; obtain ⟨rfl, rfl⟩ := g1; simpa using g4
  | cons c d ih =>
    by_cases hp : P c
    · rw [asucc_some (hP c hp), ih]
      constructor
      · rintro ⟨t, r, g1, g2, g3, g4⟩
        exact ⟨c :: t, r, by simp [g1], by simpa [hp] using g2, g3, by simpa [aexecs] using g4⟩
      · rintro ⟨t, r, g1, g2, g3, g4⟩
        cases t with
        | nil => simp at g1; subst g1; exact absurd hp (g3 c d rfl)
        | cons b t =>
          simp at g1; obtain ⟨rfl, rfl⟩ := g1
          exact ⟨t, r, rfl, fun b hb => g2 b (by simp [hb]), g3, by simpa [aexecs] using g4⟩
    · constructor
      · intro h
        refine ⟨[], c :: d, rfl, by simp, ?_, by simpa using h⟩
        intro c' r' h'; simp at h'; rw [← h'.1]; exact hp
      · rintro ⟨t, r, g1, g2, g3, g4⟩
        cases t with
        | nil => simp at g1; subst g1; simpa using g4
        | cons b t => simp at g1; rw [g1.1] at hp; exact absurd (g2 b (by simp)) hp

theorem lowerByte_eq : ∀ c, lowerByte c = lower c := by decide +kernel

theorem foldl_lower (t : Bytes) (x : ACtx) :
    t.foldl (fun y c => aexec .lower c y) x = { x with acc := x.acc ++ t.map lower } := by
  induction t generalizing x with
  | nil => simp
  | cons c t ih => rw [List.foldl_cons, ih]; simp [aexec, lowerByte_eq]

theorem digit_val (c : UInt8) (h : isDig c) : (c - 48).toUInt16 = UInt16.ofNat (c.toNat - 48) := by
  have : ∀ c : UInt8, isDig c → (c - 48).toUInt16 = UInt16.ofNat (c.toNat - 48) := by decide +kernel
  exact this c h

theorem foldl_port (t : Bytes) (x : ACtx) (h : ∀ c ∈ t, isDig c) (v : Nat)
    (hv : x.uri.port = UInt16.ofNat v) :
    t.foldl (fun y c => aexec .port c y) x =
      { x with uri.port := UInt16.ofNat (t.foldl (fun a c => a * 10 + (c.toNat - 48)) v) } := by
  induction t generalizing x v with
  | nil => simp [← hv]
  | cons c t ih =>
    rw [List.foldl_cons, ih _ (fun b hb => h b (by simp [hb])) (v * 10 + (c.toNat - 48))]
    · simp [aexec]
    · simp only [aexec, hv, digit_val c (h c (by simp))]
      rw [UInt16.ofNat_add, UInt16.ofNat_mul]; rfl

/-! ### Pairs `name [= value]` -/

/-- The states reading a pair: entry `e`, name loop `k`, value entry `e2`, value loop `k2`. -/
structure PairStates (P : UInt8 → Prop) [DecidablePred P] (e k h1 h2 e2 k2 h3 h4 : Nat) : Prop where
  E1 : Entry P e k h1 [.start, .b2]
  L1 : Loop P k h1 h2
  E2 : Entry P e2 k2 h3 [.start]
  L2 : Loop P k2 h3 h4
  neq : ¬ P 61

theorem PairStates.run {P : UInt8 → Prop} [DecidablePred P] {e k h1 h2 e2 k2 h3 h4 : Nat}
    (S : PairStates P e k h1 h2 e2 k2 h3 h4)
    (push : Bytes × Bytes → URI → URI) (R : URI → Bytes → URI → Prop) (n : Nat)
    (hk : ∀ x d u, d.length < n → Stop P d → (asucc k x d = some u ↔
      R (push (x.acc, x.b2) x.uri) d u ∨
      ∃ d', d = 61 :: d' ∧ asucc e2 { x with b1 := x.acc, acc := [] } d' = some u))
    (hk2 : ∀ x d u, d.length < n → Stop P d → (asucc k2 x d = some u ↔
      R (push (x.b1, x.acc) x.uri) d u))
    (hR : ∀ w d u, R w d u → Stop P d)
    (d : Bytes) (hd : d.length ≤ n) (x : ACtx) (u : URI) :
    asucc e x d = some u ↔
      ∃ t p r, d = t ++ r ∧ PairText P t p ∧ R (push p x.uri) r u := by
  let Q2 : ACtx → Bytes → URI → Prop := fun x d u => R (push (x.b1, x.acc) x.uri) d u
  let Q1 : ACtx → Bytes → URI → Prop := fun x d u =>
    R (push (x.acc, x.b2) x.uri) d u ∨
      ∃ d', d = 61 :: d' ∧ ∃ t s r, d' = t ++ r ∧ Unescapes P t s ∧ s ≠ [] ∧ Stop P r ∧
        R (push (x.acc, s) x.uri) r u
  have e1 := S.E1.run S.L1 Q1 (fun _ _ _ _ => Iff.rfl) n d hd x u (fun x d u _ h1 h2 => by
    rw [hk x d u h1 h2]
    refine or_congr Iff.rfl (exists_congr fun d' => ?_)
    constructor
    · rintro ⟨rfl, h⟩
      rw [S.E2.run S.L2 Q2 (fun _ _ _ _ => Iff.rfl) n d' (by simp at h1; omega) _ _
        (fun x d u _ => hk2 x d u)] at h
      obtain ⟨t, s, r, g1, g2, g3, g4, g5⟩ := h
      exact ⟨rfl, t, s, r, g1, g2, g3, g4, g5⟩
    · rintro ⟨rfl, t, s, r, g1, g2, g3, g4, g5⟩
      refine ⟨rfl, ?_⟩
      rw [S.E2.run S.L2 Q2 (fun _ _ _ _ => Iff.rfl) n d' (by simp at h1; omega) _ _
        (fun x d u _ => hk2 x d u)]
      exact ⟨t, s, r, g1, g2, g3, g4, g5⟩)
  rw [e1]
  constructor
  · rintro ⟨t, s, r, g1, g2, g3, g4, g5⟩
    rcases g5 with g5 | ⟨d', rfl, t', s', r', f1, f2, f3, f4, f5⟩
    · exact ⟨t, (s, []), r, g1, .name g2 g3, g5⟩
    · exact ⟨t ++ b!"=" ++ t', (s, s'), r', by simp [g1, f1], .value g2 g3 f2 f3, f5⟩
  · rintro ⟨t, p, r, g1, g2, g3⟩
    cases g2 with
    | name a1 a2 => exact ⟨t, _, r, g1, a1, a2, hR _ _ _ g3, .inl g3⟩
    | @value t n w v a1 a2 a3 a4 =>
      exact ⟨t, n, 61 :: (w ++ r), by simp [g1], a1, a2,
        stop_cons.2 ⟨S.neq, by decide⟩, .inr ⟨_, rfl, w, v, r, rfl, a3, a4, hR _ _ _ g3, g3⟩⟩

end Gosip.Sip.Uri
