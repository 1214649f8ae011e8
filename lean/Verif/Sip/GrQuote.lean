import Verif.Sip.Shape
import Verif.Spec.Grammar

/-!
# Quoted strings, as read by the message machine
-/

namespace Gosip.Sip.MsgM.Gr
open Spec

/-- Variables, with the buffer and without the bytes since the mark. -/
def Loc.b (l : Loc) (b : Bytes) : Loc := { l with buf := b, seg := [] }

theorem Loc.b_b (l : Loc) (a b : Bytes) : Loc.b (Loc.b l a) b = Loc.b l b := rfl

theorem acc_segb {k : Nat} {l : Loc} {v : Bytes} {us : List Upd} (hk : k < 765) (h : (live k).seg = false) :
    Acc k l v us ↔ Acc k (Loc.b l l.buf) v us := acc_seg (s := l.seg) hk h

/-- A transition whose only lasting effect is on the buffer. -/
theorem go_buf {as : List MAct} {k : Nat} {l : Loc} {b b' : Bytes} {c : UInt8} {t : Bytes} {us : List Upd}
    (hm : moveOf as = .adv) (ha : sacts as c (Loc.b l b) = some (Loc.b l b', [])) (hk : k < 765)
    (hl : (live k).seg = false) : Go as k (Loc.b l b) c t us ↔ Acc k (Loc.b l b') t us := by
  rw [go_adv' hm ha]
  simp only [List.nil_append, exists_eq_left']
  exact acc_seg (l := Loc.b l b') hk hl

/-- A state with a single transition, which collects a byte. -/
theorem acc_collect {k x : Nat} {cls : UInt8 → Bool} (h : Shape k [⟨cls, [.append], x⟩] none none) (hk : x < 765)
    (hl : (live x).seg = false) {l : Loc} {b v : Bytes} {us : List Upd} :
    Acc k (Loc.b l b) v us ↔ ∃ c t, v = c :: t ∧ c ≠ 13 ∧ cls c = true ∧ Acc x (Loc.b l (b ++ [c])) t us := by
  have go : ∀ c t, Go [.append] x (Loc.b l b) c t us ↔ Acc x (Loc.b l (b ++ [c])) t us :=
    fun c t => go_buf rfl rfl hk hl
  rw [acc_shape h, out_none]
  constructor
  · rintro ⟨c, t, as, y, e, h1, h2, h3⟩
    rcases entAt_cons.1 h2 with ⟨a1, a2⟩ | ⟨_, a2⟩
    · cases a2; exact ⟨c, t, e, h1, a1, (go c t).1 h3⟩
    · cases a2
  · rintro ⟨c, t, e, h1, h2, h3⟩
    exact ⟨c, t, [.append], x, e, h1, entAt_cons.2 (.inl ⟨h2, rfl⟩), (go c t).2 h3⟩

/-! ### UTF-8 sequences -/

/-- A continuation byte. -/
def contB (c : UInt8) : Bool := 128 ≤ c && c ≤ 191

theorem contB_iff : ∀ c, contB c = true ↔ utf8Cont c := by unfold utf8Cont; decide +kernel

/-- The states inside of UTF-8 sequences: `k1`, …, `k5` expect that many continuation bytes, and then comes `k0`. -/
structure Utf8Part (k0 k1 k2 k3 k4 k5 : Nat) : Prop where
  s1 : Shape k1 [⟨contB, [.append], k0⟩] none none
  s2 : Shape k2 [⟨contB, [.append], k1⟩] none none
  s3 : Shape k3 [⟨contB, [.append], k2⟩] none none
  s4 : Shape k4 [⟨contB, [.append], k3⟩] none none
  s5 : Shape k5 [⟨contB, [.append], k4⟩] none none
  lt : k0 < 765
  l0 : (live k0).seg = false
  l1 : (live k1).seg = false
  l2 : (live k2).seg = false
  l3 : (live k3).seg = false
  l4 : (live k4).seg = false

/-- What a state inside of a UTF-8 sequence does. -/
def Conts (k0 : Nat) (n k : Nat) : Prop := ∀ (l : Loc) (b v : Bytes) (us : List Upd),
  Acc k (Loc.b l b) v us ↔ ∃ s r, v = s ++ r ∧ s.length = n ∧ (∀ c ∈ s, utf8Cont c) ∧ Acc k0 (Loc.b l (b ++ s)) r us

theorem conts_step {k0 n k x : Nat} (hx : Conts k0 n x) (h : Shape k [⟨contB, [.append], x⟩] none none) (hk : x < 765)
    (hl : (live x).seg = false) : Conts k0 (n + 1) k := by
  intro l b v us
  rw [acc_collect h hk hl]
  constructor
  · rintro ⟨c, t, rfl, h1, h2, h3⟩
    obtain ⟨s, r, rfl, g1, g2, g3⟩ := (hx _ _ _ _).1 h3
    exact ⟨c :: s, r, rfl, by simp [g1], List.forall_mem_cons.2 ⟨(contB_iff c).1 h2, g2⟩, by simpa using g3⟩
  · rintro ⟨s, r, rfl, g1, g2, g3⟩
    cases s with
    | nil => cases g1
    | cons c s =>
      have hc := g2 c List.mem_cons_self
      refine ⟨c, s ++ r, rfl, ?_, (contB_iff c).2 hc, (hx _ _ _ _).2 ⟨s, r, rfl, by simpa using g1,
        fun d hd => g2 d (List.mem_cons_of_mem _ hd), by simpa using g3⟩⟩
      rintro rfl; exact absurd hc (by unfold utf8Cont; decide)

theorem conts_zero {k0 : Nat} : Conts k0 0 k0 := by
  intro l b v us
  constructor
  · intro h; exact ⟨[], v, rfl, rfl, (fun _ h => nomatch h), by simpa using h⟩
  · rintro ⟨s, r, rfl, g1, _, g3⟩
    have : s = [] := List.eq_nil_of_length_eq_zero g1
    subst this; simpa using g3

theorem Utf8Part.conts {k0 k1 k2 k3 k4 k5 : Nat} (p : Utf8Part k0 k1 k2 k3 k4 k5) :
    Conts k0 1 k1 ∧ Conts k0 2 k2 ∧ Conts k0 3 k3 ∧ Conts k0 4 k4 ∧ Conts k0 5 k5 := by
  have c1 : Conts k0 1 k1 := conts_step conts_zero p.s1 p.lt p.l0
  have c2 : Conts k0 2 k2 := conts_step c1 p.s2 p.s1.lt p.l1
  have c3 : Conts k0 3 k3 := conts_step c2 p.s3 p.s2.lt p.l2
  have c4 : Conts k0 4 k4 := conts_step c3 p.s4 p.s3.lt p.l3
  exact ⟨c1, c2, c3, c4, conts_step c4 p.s5 p.s4.lt p.l4⟩

/-- The first bytes of UTF-8 sequences. -/
def leadB (lo hi : UInt8) (c : UInt8) : Bool := lo ≤ c && c ≤ hi

/-- The transitions at the first byte of a UTF-8 sequence. -/
def utf8Ents (s : List MAct) (k1 k2 k3 k4 k5 : Nat) : List Ent :=
  [⟨leadB 192 223, s ++ [.append], k1⟩, ⟨leadB 224 239, s ++ [.append], k2⟩, ⟨leadB 240 247, s ++ [.append], k3⟩,
   ⟨leadB 248 251, s ++ [.append], k4⟩, ⟨leadB 252 253, s ++ [.append], k5⟩]

/-- The state after a first byte with `n` continuation bytes to come. -/
def utf8State (k1 k2 k3 k4 k5 : Nat) : Nat → Nat
  | 1 => k1 | 2 => k2 | 3 => k3 | 4 => k4 | _ => k5

theorem lead_len : ∀ c : UInt8,
    (if leadB 192 223 c then some 1 else if leadB 224 239 c then some 2 else if leadB 240 247 c then some 3 else
      if leadB 248 251 c then some 4 else if leadB 252 253 c then some 5 else none) = utf8Len c := by decide +kernel

theorem utf8Ents_at {s : List MAct} {k1 k2 k3 k4 k5 : Nat} {c : UInt8} :
    entAt (utf8Ents s k1 k2 k3 k4 k5) c =
      (utf8Len c).map fun n => (s ++ [.append], utf8State k1 k2 k3 k4 k5 n) := by
  rw [← lead_len]
  simp only [utf8Ents, entAt]
  cases leadB 192 223 c
  · cases leadB 224 239 c
    · cases leadB 240 247 c
      · cases leadB 248 251 c
        · cases leadB 252 253 c <;> rfl
        · rfl
      · rfl
    · rfl
  · rfl

theorem utf8Len_le : ∀ c n, utf8Len c = some n → 1 ≤ n ∧ n ≤ 5 := by
  intro c n h
  unfold utf8Len at h
  repeat' split at h
  all_goals first | (cases h; omega) | cases h

theorem Utf8Part.state {k0 k1 k2 k3 k4 k5 : Nat} (p : Utf8Part k0 k1 k2 k3 k4 k5) {n : Nat} (h : 1 ≤ n ∧ n ≤ 5) :
    Conts k0 n (utf8State k1 k2 k3 k4 k5 n) := by
  obtain ⟨c1, c2, c3, c4, c5⟩ := p.conts
  match n, h with
  | 1, _ => exact c1
  | 2, _ => exact c2
  | 3, _ => exact c3
  | 4, _ => exact c4
  | 5, _ => exact c5
  | 0, h => omega
  | n + 6, h => omega

/-! ### Quoted strings -/

/-- Bytes that stand for themselves. -/
def qcharB (c : UInt8) : Bool := blank c || (33 ≤ c && c ≤ 126 && c != 34 && c != 92)

theorem qcharB_iff : ∀ c, qcharB c = true ↔ qchar c := by unfold qchar; decide +kernel

/-- Bytes after a backslash. -/
def quotB (c : UInt8) : Bool := c ≤ 127 && c != 10 && c != 13

theorem quotB_iff : ∀ c, quotB c = true ↔ quotable c := by unfold quotable; decide +kernel

/-- The transitions inside of a quoted string. -/
def qEnts (s : List MAct) (q : Nat) : List Ent :=
  ⟨qcharB, s ++ [.append], q + 1⟩ :: ⟨(· == 34), s, q + 2⟩ :: ⟨(· == 92), s, q + 3⟩ ::
    utf8Ents s (q + 4) (q + 5) (q + 6) (q + 7) (q + 8)

/-- The states of a quoted string, after the opening quote. -/
structure QPart (q : Nat) : Prop where
  s0 : Shape q (qEnts [.start] q) none (some ([.start, .append], q + 9))
  s1 : Shape (q + 1) (qEnts [] q) none (some ([.append], q + 9))
  s3 : Shape (q + 3) [⟨quotB, [.append], q + 1⟩] none none
  u : Utf8Part (q + 1) (q + 4) (q + 5) (q + 6) (q + 7) (q + 8)
  s9 : Shape (q + 9) [⟨(· == 10), [.append], q + 10⟩] none none
  s10 : Shape (q + 10) [⟨blank, [.append], q + 1⟩] none none
  lt : q + 10 < 765
  l2 : (live (q + 2)).seg = false
  l3 : (live (q + 3)).seg = false
  l8 : (live (q + 8)).seg = false
  l9 : (live (q + 9)).seg = false
  l10 : (live (q + 10)).seg = false

theorem qpart_48 : QPart 48 := by constructor <;> first | decide +kernel | (constructor <;> decide +kernel)
theorem qpart_86 : QPart 86 := by constructor <;> first | decide +kernel | (constructor <;> decide +kernel)
theorem qpart_171 : QPart 171 := by constructor <;> first | decide +kernel | (constructor <;> decide +kernel)
theorem qpart_218 : QPart 218 := by constructor <;> first | decide +kernel | (constructor <;> decide +kernel)

theorem QPart.first {q : Nat} (p : QPart q) {l : Loc} {v : Bytes} {us : List Upd} :
    Acc q l v us ↔ Acc (q + 1) (Loc.b l []) v us := by
  have ents : ∀ c, entAt (qEnts [.start] q) c = (entAt (qEnts [] q) c).map fun y => (.start :: y.1, y.2) := by
    intro c
    simp only [qEnts, entAt, utf8Ents_at]
    cases qcharB c
    · cases (c == 34)
      · cases (c == 92)
        · cases utf8Len c <;> rfl
        · rfl
      · rfl
    · rfl
  have go : ∀ {as x c t}, Go (.start :: as) x l c t us ↔ Go as x { l with buf := [] } c t us := by
    intro as x c t
    have h1 : sacts (.start :: as) c l = sacts as c { l with buf := [] } := by
      simp only [sacts, sact, Option.bind_some]
      cases sacts as c _ <;> simp
    have h2 : moveOf (.start :: as) = moveOf as := by simp [moveOf]
    unfold Go
    rw [h1, h2]
  have hseg : (live (q + 1)).seg = false := p.u.l0
  rw [acc_shape p.s0, show Loc.b l [] = Loc.b { l with buf := [] } [] from rfl,
    ← acc_segb (l := { l with buf := [] }) p.s1.lt hseg, acc_shape p.s1]
  constructor
  · rintro ⟨c, t, as, x, e, h1, ⟨h2, h3⟩ | ⟨_, _, h3⟩ | ⟨h2, h3, h4⟩⟩
    · rw [ents] at h3
      cases hy : entAt (qEnts [] q) c with
      | none => rw [hy] at h3; cases h3
      | some y =>
        rw [hy] at h3; cases h3
        exact ⟨c, t, y.1, y.2, e, go.1 h1, .inl ⟨h2, hy⟩⟩
    · cases h3
    · cases h4
      exact ⟨c, t, _, _, e, go.1 h1, .inr (.inr ⟨h2, h3, rfl⟩)⟩
  · rintro ⟨c, t, as, x, e, h1, ⟨h2, h3⟩ | ⟨_, _, h3⟩ | ⟨h2, h3, h4⟩⟩
    · exact ⟨c, t, _, _, e, go.2 h1, .inl ⟨h2, by rw [ents, h3]; rfl⟩⟩
    · cases h3
    · cases h4
      exact ⟨c, t, _, _, e, go.2 h1, .inr (.inr ⟨h2, h3, rfl⟩)⟩

/-- The inside of a quoted string and its closing quote. -/
theorem QPart.inside {q : Nat} (p : QPart q) {l : Loc} {b v : Bytes} {us : List Upd} :
    Acc (q + 1) (Loc.b l b) v us ↔
      ∃ t x r, v = t ++ 34 :: r ∧ QText t x ∧ Acc (q + 2) (Loc.b l (b ++ x)) r us := by
  have ha : ∀ k < 765, (live k).seg = false → ∀ b c t us, Go [.append] k (Loc.b l b) c t us ↔ Acc k (Loc.b l (b ++ [c])) t us :=
    fun k hk hl b c t us => go_buf rfl rfl hk hl
  have hn : ∀ k < 765, (live k).seg = false → ∀ b c t us, Go [] k (Loc.b l b) c t us ↔ Acc k (Loc.b l b) t us :=
    fun k hk hl b c t us => go_buf rfl rfl hk hl
  have lt := p.lt
  have hu : ∀ n, 1 ≤ n ∧ n ≤ 5 → utf8State (q + 4) (q + 5) (q + 6) (q + 7) (q + 8) n < 765 ∧
      (live (utf8State (q + 4) (q + 5) (q + 6) (q + 7) (q + 8) n)).seg = false := by
    intro n h
    match n, h with
    | 1, _ => exact ⟨p.u.s1.lt, p.u.l1⟩
    | 2, _ => exact ⟨p.u.s2.lt, p.u.l2⟩
    | 3, _ => exact ⟨p.u.s3.lt, p.u.l3⟩
    | 4, _ => exact ⟨p.u.s4.lt, p.u.l4⟩
    | 5, _ => exact ⟨p.u.s5.lt, p.l8⟩
    | 0, h => omega
    | n + 6, h => omega
  constructor
  · generalize hN : v.length = N
    intro h
    induction N using Nat.strongRecOn generalizing v b with
    | ind N ih =>
      obtain ⟨c, t, as, x, rfl, h1, ⟨h2, h3⟩ | ⟨_, _, h3⟩ | ⟨rfl, h3, h4⟩⟩ := (acc_shape p.s1).1 h
      · rcases entAt_cons.1 h3 with ⟨g1, g2⟩ | ⟨g1, h3⟩
        · cases g2
          obtain ⟨t', x', r, rfl, i1, i2⟩ := ih _ (by rw [← hN]; simp) rfl ((ha _ p.s1.lt p.u.l0 _ _ _ _).1 h1)
          exact ⟨c :: t', c :: x', r, rfl, .char ((qcharB_iff c).1 g1) i1, by simpa using i2⟩
        rcases entAt_cons.1 h3 with ⟨g1, g2⟩ | ⟨g1, h3⟩
        · cases g2
          have : c = 34 := by simpa using g1
          subst this
          exact ⟨[], [], t, rfl, .nil, by simpa using (hn _ (by omega) p.l2 _ _ _ _).1 h1⟩
        rcases entAt_cons.1 h3 with ⟨g1, g2⟩ | ⟨g1, h3⟩
        · cases g2
          have : c = 92 := by simpa using g1
          subst this
          obtain ⟨d, t', rfl, _, g2, g3⟩ := (acc_collect p.s3 p.s1.lt p.u.l0).1 ((hn _ (by omega) p.l3 _ _ _ _).1 h1)
          obtain ⟨t', x', r, rfl, i1, i2⟩ := ih _ (by rw [← hN]; simp; omega) rfl g3
          exact ⟨92 :: d :: t', d :: x', r, rfl, .pair ((quotB_iff d).1 g2) i1, by simpa using i2⟩
        · rw [utf8Ents_at] at h3
          cases hl : utf8Len c with
          | none => rw [hl] at h3; cases h3
          | some n =>
            rw [hl] at h3; cases h3
            have hle := utf8Len_le c n hl
            obtain ⟨s, r, rfl, g1, g2, g3⟩ := (p.u.state hle _ _ _ _).1 ((ha _ (hu n hle).1 (hu n hle).2 _ _ _ _).1 h1)
            obtain ⟨t', x', r, rfl, i1, i2⟩ := ih _ (by rw [← hN]; simp; omega) rfl g3
            exact ⟨c :: s ++ t', c :: s ++ x', r, by simp, .utf8 (by rw [hl, g1]) g2 i1, by simpa using i2⟩
      · cases h3
      · cases h4
        obtain ⟨d, t', rfl, _, g2, g3⟩ := (acc_collect p.s9 (by omega) p.l10).1 ((ha _ (by omega) p.l9 _ _ _ _).1 h1)
        have : d = 10 := by simpa using g2
        subst this
        obtain ⟨w, t', rfl, _, g2, g3⟩ := (acc_collect p.s10 p.s1.lt p.u.l0).1 g3
        obtain ⟨t', x', r, rfl, i1, i2⟩ := ih _ (by rw [← hN]; simp; omega) rfl g3
        exact ⟨CRLF ++ w :: t', CRLF ++ w :: x', r, by simp [CRLF], .fold g2 i1, by simpa [CRLF] using i2⟩
  · rintro ⟨t, x, r, rfl, h1, h2⟩
    induction h1 generalizing b with
    | nil =>
      refine (acc_shape p.s1).2 ⟨34, r, [], q + 2, rfl, (hn _ (by omega) p.l2 _ _ _ _).2 (by simpa using h2), .inl ⟨by decide, rfl⟩⟩
    | @char c t v hc _ ih =>
      have h13 : c ≠ 13 := by rintro rfl; exact absurd hc (by decide)
      refine (acc_shape p.s1).2 ⟨c, t ++ 34 :: r, [.append], q + 1, rfl, (ha _ p.s1.lt p.u.l0 _ _ _ _).2
        (ih (by simpa using h2)), .inl ⟨h13, ?_⟩⟩
      rw [qEnts, entAt_cons]
      exact .inl ⟨(qcharB_iff c).2 hc, rfl⟩
    | @pair c t v hc _ ih =>
      have h13 : c ≠ 13 := by rintro rfl; exact absurd hc (by unfold quotable; decide)
      refine (acc_shape p.s1).2 ⟨92, c :: (t ++ 34 :: r), [], q + 3, rfl, (hn _ (by omega) p.l3 _ _ _ _).2
        ((acc_collect p.s3 p.s1.lt p.u.l0).2 ⟨c, _, rfl, h13, (quotB_iff c).2 hc, ih (by simpa using h2)⟩), .inl ⟨by decide, rfl⟩⟩
    | @utf8 c s t v hl hs _ ih =>
      have hle := utf8Len_le c _ hl
      have hno : ∀ c n, utf8Len c = some n → qcharB c = false ∧ (c == 34) = false ∧ (c == 92) = false ∧ c ≠ 13 := by
        intro c n h
        have : ∀ c, utf8Len c ≠ none → qcharB c = false ∧ (c == 34) = false ∧ (c == 92) = false ∧ c ≠ 13 := by decide +kernel
        exact this c (by rw [h]; simp)
      obtain ⟨n1, n2, n3, n4⟩ := hno c _ hl
      refine (acc_shape p.s1).2 ⟨c, s ++ t ++ 34 :: r, [.append], _, by simp, (ha _ (hu _ hle).1 (hu _ hle).2 _ _ _ _).2
        ((p.u.state hle _ _ _ _).2 ⟨s, t ++ 34 :: r, by simp, rfl, hs, ih (by simpa using h2)⟩), .inl ⟨n4, ?_⟩⟩
      rw [qEnts, entAt_cons, entAt_cons, entAt_cons, utf8Ents_at, hl]
      exact .inr ⟨n1, .inr ⟨n2, .inr ⟨n3, rfl⟩⟩⟩
    | @fold w t v hw _ ih =>
      refine (acc_shape p.s1).2 ⟨13, 10 :: w :: (t ++ 34 :: r), [.append], q + 9, by simp [CRLF],
        (ha _ (by omega) p.l9 _ _ _ _).2 ((acc_collect p.s9 (by omega) p.l10).2 ⟨10, _, rfl, by decide, rfl,
          (acc_collect p.s10 p.s1.lt p.u.l0).2 ⟨w, _, rfl, ?_, hw, ih (by simpa [CRLF] using h2)⟩⟩), .inr (.inr ⟨rfl, hw, rfl⟩)⟩
      rintro rfl; exact absurd hw (by decide)

/-- A quoted string, after its opening quote. -/
theorem QPart.acc {q : Nat} (p : QPart q) {l : Loc} {v : Bytes} {us : List Upd} :
    Acc q l v us ↔ ∃ t x r, v = t ++ 34 :: r ∧ QText t x ∧ Acc (q + 2) (Loc.b l x) r us := by
  rw [p.first, p.inside]
  simp

end Gosip.Sip.MsgM.Gr
