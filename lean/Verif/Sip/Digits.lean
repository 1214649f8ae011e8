import Verif.Sip.HeaderSplit
import Verif.Spec.Values

/-!
# Header lines whose value is a number
-/

namespace Gosip.Sip.MsgM
open Spec

theorem startsWSP_iff {w : UInt8} {t : Bytes} : startsWSP (w :: t) = true ↔ w = 32 ∨ w = 9 := by
  simp [startsWSP]

/-- A line does not begin with a blank. -/
theorem acc_280_blank {l : Loc} {t : Bytes} {us : List Upd} (h : Acc 280 l t us) : startsWSP t = false := by
  cases t with
  | nil => rfl
  | cons c t =>
    obtain ⟨n, w, v, hn, _, e⟩ := acc_shape h
    have hc : token c := by
      cases n with
      | nil => exact absurd rfl hn.1
      | cons d n =>
        have : c = d := by simp [headerLine] at e; exact e.1
        subst this
        exact hn.2 c List.mem_cons_self
    have hc := (tokenc_iff c).2 hc
    have h1 : c ≠ 32 := by rintro rfl; revert hc; decide
    have h2 : c ≠ 9 := by rintro rfl; revert hc; decide
    simp [startsWSP, h1, h2]

/-- After the end of a single line nothing is left. -/
theorem logical_rest {l : Loc} {L x tl : Bytes} {us : List Upd} (hL : LogicalLine L) (e : L ++ CRLF = x ++ CRLF ++ tl)
    (h : Acc 280 l tl us) : tl = [] ∧ us = [] ∧ L = x := by
  rcases hL x tl e with rfl | hb
  · exact ⟨rfl, acc_280_nil.1 h, by simpa using e⟩
  · rw [blank_iff, acc_280_blank h] at hb; cases hb

theorem rows_381 : rows 381 = [⟨10, 10, [], 280⟩] ∧ wide 381 = false := by decide +kernel

theorem agree_280 (l m : Loc) : Agree (live 280) l m := agree_none

/-- The LF at the end of a line. -/
theorem acc_381 {l : Loc} {v : Bytes} {us : List Upd} :
    Acc 381 l v us ↔ ∃ tl, v = 10 :: tl ∧ Acc 280 Loc.init tl us := by
  cases v with
  | nil => exact ⟨fun h => absurd h (acc_nil (by decide)), fun ⟨_, h, _⟩ => by cases h⟩
  | cons c tl =>
    rw [acc_rows (by decide), rows_381.1, ssymbol_narrow rows_381.2]
    constructor
    · rintro ⟨r, m1, m2, m3, l', a, b, h1, h2, h3⟩
      simp only [List.mem_cons, List.not_mem_nil, or_false] at m1
      subst m1
      cases h1
      have hc : c = 10 := UInt8.toNat_inj.1 (by change c.toNat = 10; simp only [] at m2 m3; omega)
      subst hc
      exact ⟨tl, rfl, by rw [h2]; exact (acc_agree (by decide) agree_none).1 h3⟩
    · rintro ⟨t, e, h⟩
      cases e
      exact ⟨_, List.mem_cons_self, Nat.le_refl _, Nat.le_refl _, l, [], us, rfl, rfl, (acc_agree (by decide) agree_none).1 h⟩

/-- A part of the machine that reads a number: before it, in it, and the states of a continuation. -/
structure DigitPart (k kd k1 k2 k3 : Nat) (a0 a1 : List MAct) : Prop where
  r : rows k = [⟨9, 9, [], k⟩, ⟨32, 32, [], k⟩, ⟨48, 57, a0, kd⟩, ⟨525, 525, [], k1⟩]
  rd : rows kd = [⟨48, 57, a1, kd⟩, ⟨269, 269, [], 381⟩]
  r1 : rows k1 = [⟨10, 10, [], k2⟩]
  r2 : rows k2 = [⟨9, 9, [], k3⟩, ⟨32, 32, [], k3⟩]
  r3 : rows k3 = [⟨9, 9, [], k3⟩, ⟨32, 32, [], k3⟩, ⟨48, 57, a0, kd⟩]
  w : wide k = true
  wd : wide kd = true
  lt : k < 765 ∧ kd < 765 ∧ k1 < 765 ∧ k2 < 765 ∧ k3 < 765
  ne : k ≠ 280 ∧ kd ≠ 280 ∧ k1 ≠ 280 ∧ k2 ≠ 280 ∧ k3 ≠ 280
  wn : wide k1 = false ∧ wide k2 = false ∧ wide k3 = false

/-- Actions that only emit. -/
def Emits (as : List MAct) (e : UInt8 → List Upd) : Prop :=
  moveOf as = .adv ∧ ∀ c l, sacts as c l = some (l, e c)

theorem digit_iff (c : UInt8) : isDigit c = true ↔ 48 ≤ c.toNat ∧ c.toNat ≤ 57 := isDigit_iff c

theorem wide_sym {k : Nat} (c : UInt8) (tl : Bytes) (h : wide k = true) :
    (c ≠ 13 ∧ ssymbol k (c :: tl) c = c.toNat) ∨
    (c = 13 ∧ startsWSP tl.tail = true ∧ ssymbol k (c :: tl) c = 525) ∨
    (c = 13 ∧ startsWSP tl.tail = false ∧ ssymbol k (c :: tl) c = 269) := by
  by_cases hc : c = 13
  · subst hc
    rw [ssymbol_cr h]
    cases hw : startsWSP tl.tail
    · right; right; exact ⟨rfl, rfl, rfl⟩
    · right; left; exact ⟨rfl, rfl, rfl⟩
  · exact .inl ⟨hc, ssymbol_ne hc⟩

section
variable {k kd k1 k2 k3 : Nat} {a0 a1 : List MAct} {e0 e1 : UInt8 → List Upd}

/-- The digits and the end of the line. -/
theorem DigitPart.tail (p : DigitPart k kd k1 k2 k3 a0 a1) (he : Emits a1 e1) {l : Loc} {v : Bytes} {us : List Upd} :
    Acc kd l v us ↔ ∃ ds tl b, v = ds ++ CRLF ++ tl ∧ (∀ c ∈ ds, isDigit c = true) ∧
      us = ds.flatMap e1 ++ b ∧ Acc 280 Loc.init tl b := by
  induction v generalizing l us with
  | nil =>
    refine ⟨fun h => absurd h (acc_nil p.ne.2.1), ?_⟩
    rintro ⟨ds, tl, b, h, _⟩
    simp [CRLF] at h
  | cons c v ih =>
    rw [acc_rows p.lt.2.1, p.rd]
    constructor
    · rintro ⟨r, m1, m2, m3, l', a, b, h1, h2, h3⟩
      simp only [List.mem_cons, List.not_mem_nil, or_false] at m1
      rcases m1 with rfl | rfl
      · simp only [] at m2 m3 h1 h3
        rcases wide_sym (k := kd) c v p.wd with ⟨hc, hs⟩ | ⟨_, _, hs⟩ | ⟨_, _, hs⟩
        · rw [hs] at m2 m3
          rw [he.2] at h1
          cases h1
          rw [he.1] at h3
          obtain ⟨ds, tl, b', rfl, i1, rfl, i2⟩ := ih.1 h3
          refine ⟨c :: ds, tl, b', rfl, ?_, ?_, i2⟩
          · intro d hd
            rcases List.mem_cons.1 hd with rfl | hd
            · exact (digit_iff _).2 ⟨m2, m3⟩
            · exact i1 d hd
          · rw [h2]; simp
        · omega
        · omega
      · simp only [] at m2 m3 h1 h3
        rcases wide_sym (k := kd) c v p.wd with ⟨hc, hs⟩ | ⟨_, _, hs⟩ | ⟨rfl, hw, hs⟩
        · have := c.toNat_lt; omega
        · omega
        · cases h1
          obtain ⟨tl, e, h⟩ := acc_381.1 h3
          have e : v = 10 :: tl := e
          subst e
          exact ⟨[], tl, b, rfl, (by intro d hd; cases hd), by simpa using h2, h⟩
    · rintro ⟨ds, tl, b, e, h1, rfl, h2⟩
      cases ds with
      | nil =>
        simp only [CRLF, List.nil_append, List.cons_append, List.cons.injEq] at e
        obtain ⟨rfl, rfl⟩ := e
        have hs : ssymbol kd (13 :: 10 :: tl) 13 = 269 := by
          rw [ssymbol_cr p.wd, List.tail_cons, acc_280_blank h2]; rfl
        refine ⟨⟨269, 269, [], 381⟩, by simp, by rw [hs]; decide, by rw [hs]; decide, l, [], b, rfl, rfl, ?_⟩
        exact acc_381.2 ⟨tl, rfl, h2⟩
      | cons d ds =>
        simp only [List.cons_append, List.cons.injEq] at e
        obtain ⟨rfl, rfl⟩ := e
        have hd := (digit_iff c).1 (h1 c List.mem_cons_self)
        have hs : ssymbol kd (c :: (ds ++ CRLF ++ tl)) c = c.toNat := ssymbol_ne (by rintro rfl; revert hd; decide)
        refine ⟨⟨48, 57, a1, kd⟩, by simp, by rw [hs]; exact hd.1, by rw [hs]; exact hd.2, l, e1 c, ds.flatMap e1 ++ b, he.2 c l,
          by simp, ?_⟩
        simp only [he.1]
        exact ih.2 ⟨ds, tl, b, rfl, fun x hx => h1 x (List.mem_cons_of_mem _ hx), rfl, h2⟩

/-- The digits from the first one on. -/
def DigitText (e0 e1 : UInt8 → List Upd) (v : Bytes) (us : List Upd) : Prop :=
  ∃ c ds tl b, v = c :: ds ++ CRLF ++ tl ∧ (∀ d ∈ c :: ds, isDigit d = true) ∧
    us = e0 c ++ ds.flatMap e1 ++ b ∧ Acc 280 Loc.init tl b

theorem DigitPart.first3 (p : DigitPart k kd k1 k2 k3 a0 a1) (h0 : Emits a0 e0) (he : Emits a1 e1) {l : Loc}
    {v : Bytes} {us : List Upd} :
    Acc k3 l v us ↔ ∃ w v', v = w ++ v' ∧ Blanks w ∧ DigitText e0 e1 v' us := by
  induction v generalizing l us with
  | nil =>
    refine ⟨fun h => absurd h (acc_nil p.ne.2.2.2.2), ?_⟩
    rintro ⟨w, v', h, _, c, ds, tl, b, e, _⟩
    rw [e] at h; simp [CRLF] at h
  | cons c v ih =>
    rw [acc_rows p.lt.2.2.2.2, p.r3, ssymbol_narrow p.wn.2.2]
    constructor
    · rintro ⟨r, m1, m2, m3, l', a, b, h1, h2, h3⟩
      simp only [List.mem_cons, List.not_mem_nil, or_false] at m1
      have blank : (c = 32 ∨ c = 9) → Acc k3 { l' with seg := l'.seg ++ [c] } v b → a = [] →
          ∃ w v', c :: v = w ++ v' ∧ Blanks w ∧ DigitText e0 e1 v' us := by
        intro hc h3 ha
        rw [h2, ha, List.nil_append]
        obtain ⟨w, v', rfl, i1, i2⟩ := ih.1 h3
        refine ⟨c :: w, v', rfl, ?_, ?_⟩
        · intro d hd
          rcases List.mem_cons.1 hd with rfl | hd
          · exact hc
          · exact i1 d hd
        · exact i2
      rcases m1 with rfl | rfl | rfl
      · simp only [] at m2 m3 h1 h3
        cases h1
        exact blank (.inr (UInt8.toNat_inj.1 (by change c.toNat = 9; omega))) h3 rfl
      · simp only [] at m2 m3 h1 h3
        cases h1
        exact blank (.inl (UInt8.toNat_inj.1 (by change c.toNat = 32; omega))) h3 rfl
      · simp only [] at m2 m3 h1 h3
        rw [h0.2] at h1
        cases h1
        rw [h0.1] at h3
        obtain ⟨ds, tl, b', e, i1, i2, i3⟩ := (p.tail he).1 h3
        have e : v = ds ++ CRLF ++ tl := e
        subst e
        refine ⟨[], c :: (ds ++ CRLF ++ tl), rfl, (by intro d hd; cases hd), c, ds, tl, b', rfl, ?_, by rw [h2, i2, List.append_assoc], i3⟩
        intro d hd
        rcases List.mem_cons.1 hd with rfl | hd
        · exact (digit_iff _).2 ⟨m2, m3⟩
        · exact i1 d hd
    · rintro ⟨w, v', e, hw, hv⟩
      cases w with
      | nil =>
        obtain ⟨d, ds, tl, b, e', i1, i2, i3⟩ := hv
        rw [List.nil_append] at e
        rw [e'] at e
        simp only [List.cons_append, List.cons.injEq] at e
        obtain ⟨rfl, rfl⟩ := e
        have hd := (digit_iff c).1 (i1 c List.mem_cons_self)
        refine ⟨⟨48, 57, a0, kd⟩, by simp, hd.1, hd.2, l, e0 c, ds.flatMap e1 ++ b, h0.2 c l, by rw [i2, List.append_assoc], ?_⟩
        simp only [h0.1]
        exact (p.tail he).2 ⟨ds, tl, b, rfl, fun x hx => i1 x (List.mem_cons_of_mem _ hx), rfl, i3⟩
      | cons d w =>
        simp only [List.cons_append, List.cons.injEq] at e
        obtain ⟨rfl, rfl⟩ := e
        have hw' : Blanks w := fun x hx => hw x (List.mem_cons_of_mem _ hx)
        have h3 : ∀ l, Acc k3 l (w ++ v') us := fun l => ih.2 ⟨w, v', rfl, hw', hv⟩
        rcases hw c List.mem_cons_self with rfl | rfl
        · exact ⟨⟨32, 32, [], k3⟩, by simp, Nat.le_refl _, Nat.le_refl _, l, [], us, rfl, rfl, h3 _⟩
        · exact ⟨⟨9, 9, [], k3⟩, by simp, Nat.le_refl _, Nat.le_refl _, l, [], us, rfl, rfl, h3 _⟩

/-- A numeric header value: optional blanks, digits, end of the line. -/
theorem DigitPart.value (p : DigitPart k kd k1 k2 k3 a0 a1) (h0 : Emits a0 e0) (he : Emits a1 e1) {l : Loc}
    {v : Bytes} {us : List Upd} :
    Acc k l v us ↔ ∃ s v', v = s ++ v' ∧ Sws s ∧ DigitText e0 e1 v' us := by
  induction v generalizing l us with
  | nil =>
    refine ⟨fun h => absurd h (acc_nil p.ne.1), ?_⟩
    rintro ⟨s, v', h, _, c, ds, tl, b, e, _⟩
    rw [e] at h; simp [CRLF] at h
  | cons c v ih =>
    rw [acc_rows p.lt.1, p.r]
    constructor
    · rintro ⟨r, m1, m2, m3, l', a, b, h1, h2, h3⟩
      simp only [List.mem_cons, List.not_mem_nil, or_false] at m1
      have blank : (c = 32 ∨ c = 9) → Acc k { l' with seg := l'.seg ++ [c] } v b → a = [] →
          ∃ s v', c :: v = s ++ v' ∧ Sws s ∧ DigitText e0 e1 v' us := by
        intro hc h3 ha
        obtain ⟨s, v', rfl, i1, i2⟩ := ih.1 h3
        refine ⟨c :: s, v', rfl, ?_, ?_⟩
        · cases i1 with
          | blanks hb =>
            refine .blanks fun d hd => ?_
            rcases List.mem_cons.1 hd with rfl | hd
            · exact hc
            · exact hb d hd
          | @fold w w' hb hb' hne =>
            refine .fold (w := c :: w) (fun d hd => ?_) hb' hne
            rcases List.mem_cons.1 hd with rfl | hd
            · exact hc
            · exact hb d hd
        · rw [h2, ha]; exact i2
      rcases wide_sym (k := k) c v p.w with ⟨hc, hs⟩ | ⟨rfl, hw, hs⟩ | ⟨_, _, hs⟩
      · rw [hs] at m2 m3
        rcases m1 with rfl | rfl | rfl | rfl
        · simp only [] at m2 m3 h1 h3
          cases h1
          exact blank (.inr (UInt8.toNat_inj.1 (by change c.toNat = 9; omega))) h3 rfl
        · simp only [] at m2 m3 h1 h3
          cases h1
          exact blank (.inl (UInt8.toNat_inj.1 (by change c.toNat = 32; omega))) h3 rfl
        · simp only [] at m2 m3 h1 h3
          rw [h0.2] at h1
          cases h1
          rw [h0.1] at h3
          obtain ⟨ds, tl, b', e, i1, i2, i3⟩ := (p.tail he).1 h3
          have e : v = ds ++ CRLF ++ tl := e
          subst e
          refine ⟨[], c :: (ds ++ CRLF ++ tl), rfl, .blanks (by intro d hd; cases hd), c, ds, tl, b', rfl, ?_, by rw [h2, i2, List.append_assoc], i3⟩
          intro d hd
          rcases List.mem_cons.1 hd with rfl | hd
          · exact (digit_iff _).2 ⟨m2, m3⟩
          · exact i1 d hd
        · have := c.toNat_lt
          simp only [] at m2; omega
      · rw [hs] at m2 m3
        rcases m1 with rfl | rfl | rfl | rfl
        · simp only [] at m3; omega
        · simp only [] at m3; omega
        · simp only [] at m3; omega
        · simp only [] at h1 h3
          cases h1
          have h3 : Acc k1 { l with seg := l.seg ++ [13] } v b := h3
          cases v with
          | nil => exact absurd h3 (acc_nil p.ne.2.2.1)
          | cons d v =>
            rw [acc_rows p.lt.2.2.1, p.r1, ssymbol_narrow p.wn.1] at h3
            obtain ⟨r, m1, m2, m3, l', a, b2, h1, h2', h3⟩ := h3
            simp only [List.mem_cons, List.not_mem_nil, or_false] at m1
            subst m1
            simp only [] at m2 m3 h1 h3
            have hd : d = 10 := UInt8.toNat_inj.1 (by change d.toNat = 10; omega)
            subst hd
            cases h1
            generalize (proceed (moveOf []) k2 { l with seg := l.seg ++ [13] } (10 :: v) v 10).l = l2 at h3
            have h3 : Acc k2 l2 v b2 := h3
            cases v with
            | nil => cases hw
            | cons x v =>
              have hx : x = 32 ∨ x = 9 := startsWSP_iff.1 hw
              rw [acc_rows p.lt.2.2.2.1, p.r2, ssymbol_narrow p.wn.2.1] at h3
              obtain ⟨r, m1, m2, m3, l', a, b3, h1, h2'', h3⟩ := h3
              simp only [List.mem_cons, List.not_mem_nil, or_false] at m1
              have h3' : ∃ l3, Acc k3 l3 v b3 ∧ a = [] := by
                rcases m1 with rfl | rfl
                · cases h1; exact ⟨_, h3, rfl⟩
                · cases h1; exact ⟨_, h3, rfl⟩
              obtain ⟨l3, h3, rfl⟩ := h3'
              obtain ⟨w, v', rfl, i1, i2⟩ := (p.first3 h0 he).1 h3
              refine ⟨CRLF ++ (x :: w), v', rfl, .fold (w := []) (by intro d hd; cases hd) ?_ (by simp), ?_⟩
              · intro d hd
                rcases List.mem_cons.1 hd with rfl | hd
                · exact hx
                · exact i1 d hd
              · rw [h2, h2', h2'']; exact i2
      · rw [hs] at m2 m3
        rcases m1 with rfl | rfl | rfl | rfl <;> simp only [] at m2 m3 <;> omega
    · rintro ⟨s, v', e, hs, hv⟩
      rw [← p.r, ← acc_rows p.lt.1]
      have cont : ∀ d s', s = d :: s' → (d = 32 ∨ d = 9) → Sws s' → Acc k l (c :: v) us := by
        intro d s' es hd hs'
        subst es
        simp only [List.cons_append, List.cons.injEq] at e
        obtain ⟨rfl, rfl⟩ := e
        have h3 : ∀ l, Acc k l (s' ++ v') us := fun l => ih.2 ⟨s', v', rfl, hs', hv⟩
        have hsy : ssymbol k (c :: (s' ++ v')) c = c.toNat := ssymbol_ne (by rcases hd with rfl | rfl <;> decide)
        rw [acc_rows p.lt.1, p.r, hsy]
        rcases hd with rfl | rfl
        · exact ⟨⟨32, 32, [], k⟩, by simp, Nat.le_refl _, Nat.le_refl _, l, [], us, rfl, rfl, h3 _⟩
        · exact ⟨⟨9, 9, [], k⟩, by simp, Nat.le_refl _, Nat.le_refl _, l, [], us, rfl, rfl, h3 _⟩
      cases hs with
      | blanks hb =>
        cases s with
        | nil =>
          obtain ⟨d, ds, tl, b, e', i1, i2, i3⟩ := hv
          rw [List.nil_append] at e
          rw [e'] at e
          simp only [List.cons_append, List.cons.injEq] at e
          obtain ⟨rfl, rfl⟩ := e
          have hd := (digit_iff c).1 (i1 c List.mem_cons_self)
          have hsy : ssymbol k (c :: (ds ++ CRLF ++ tl)) c = c.toNat := ssymbol_ne (by rintro rfl; revert hd; decide)
          rw [acc_rows p.lt.1, p.r, hsy]
          refine ⟨⟨48, 57, a0, kd⟩, by simp, hd.1, hd.2, l, e0 c, ds.flatMap e1 ++ b, h0.2 c l, by rw [i2, List.append_assoc], ?_⟩
          simp only [h0.1]
          exact (p.tail he).2 ⟨ds, tl, b, rfl, fun x hx => i1 x (List.mem_cons_of_mem _ hx), rfl, i3⟩
        | cons d s' =>
          exact cont d s' rfl (hb d List.mem_cons_self) (.blanks fun x hx => hb x (List.mem_cons_of_mem _ hx))
      | @fold w w' hb hb' hne =>
        cases w with
        | cons d w =>
          exact cont d (w ++ CRLF ++ w') rfl (hb d List.mem_cons_self) (.fold (fun x hx => hb x (List.mem_cons_of_mem _ hx)) hb' hne)
        | nil =>
          cases w' with
          | nil => exact absurd rfl hne
          | cons x w' =>
            simp only [CRLF, List.nil_append, List.cons_append, List.cons.injEq] at e
            obtain ⟨rfl, rfl⟩ := e
            have hx := hb' x List.mem_cons_self
            have hsy : ssymbol k (13 :: 10 :: x :: (w' ++ v')) 13 = 525 := by
              rw [ssymbol_cr p.w, List.tail_cons, startsWSP_iff.2 hx]; rfl
            rw [acc_rows p.lt.1, p.r, hsy]
            refine ⟨⟨525, 525, [], k1⟩, by simp, Nat.le_refl _, Nat.le_refl _, l, [], us, rfl, rfl, ?_⟩
            change Acc k1 _ (10 :: x :: (w' ++ v')) us
            rw [acc_rows p.lt.2.2.1, p.r1, ssymbol_narrow p.wn.1]
            refine ⟨⟨10, 10, [], k2⟩, by simp, Nat.le_refl _, Nat.le_refl _, _, [], us, rfl, rfl, ?_⟩
            change Acc k2 _ (x :: (w' ++ v')) us
            rw [acc_rows p.lt.2.2.2.1, p.r2, ssymbol_narrow p.wn.2.1]
            have h3 : ∀ l, Acc k3 l (w' ++ v') us := fun l => (p.first3 h0 he).2 ⟨w', v', rfl, fun d hd => hb' d (List.mem_cons_of_mem _ hd), hv⟩
            rcases hx with rfl | rfl
            · exact ⟨⟨32, 32, [], k3⟩, by simp, Nat.le_refl _, Nat.le_refl _, _, [], us, rfl, rfl, h3 _⟩
            · exact ⟨⟨9, 9, [], k3⟩, by simp, Nat.le_refl _, Nat.le_refl _, _, [], us, rfl, rfl, h3 _⟩

end

end Gosip.Sip.MsgM
