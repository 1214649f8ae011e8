import Verif.Sip.Skip

/-!
# Text values of headers
-/

namespace Gosip.Sip.MsgM
open Spec

/-- The assignment made at the end of a text value. -/
def vupd (l : Loc) (t : Bytes) : Upd :=
  match l.value with
  | some f => .hdr f t
  | none => .xheader l.name t

theorem rows_264 : rows 264 = [⟨9, 9, [], 264⟩, ⟨32, 127, [], 264⟩, ⟨192, 223, [], 265⟩, ⟨224, 239, [], 266⟩,
    ⟨240, 247, [], 267⟩, ⟨248, 251, [], 268⟩, ⟨252, 253, [], 269⟩, ⟨269, 269, [], 270⟩, ⟨525, 525, [], 271⟩] ∧
    wide 264 = true := by decide +kernel

theorem rows_263 : rows 263 = (rows 264).map (fun r => { r with acts := [.mark] }) ∧ wide 263 = true := by
  decide +kernel

theorem rows_270 : rows 270 = [⟨10, 10, [.value], 280⟩] ∧ wide 270 = false := by decide +kernel
theorem rows_271 : rows 271 = [⟨10, 10, [], 272⟩] ∧ wide 271 = false := by decide +kernel
theorem rows_272 : rows 272 = [⟨9, 9, [], 264⟩, ⟨32, 32, [], 264⟩] ∧ wide 272 = false := by decide +kernel

theorem rows_cont : ∀ n, n < 5 → rows (265 + n) = [⟨128, 191, [], 264 + n⟩] ∧ wide (265 + n) = false := by
  decide +kernel

/-- The value begins where the mark is set. -/
theorem acc_263 {l : Loc} {v : Bytes} {us : List Upd} : Acc 263 l v us ↔ Acc 264 { l with seg := [] } v us := by
  cases v with
  | nil => exact ⟨fun h => absurd h (acc_nil (by decide)), fun h => absurd h (acc_nil (by decide))⟩
  | cons c v =>
    have hs : ssymbol 263 (c :: v) c = ssymbol 264 (c :: v) c := by unfold ssymbol; rw [rows_263.2, rows_264.2]
    rw [acc_rows (by decide), acc_rows (k := 264) (by decide), rows_263.1, hs]
    have key : ∀ r ∈ rows 264, r.acts = [] := by decide +kernel
    constructor
    · rintro ⟨r, m1, m2, m3, l', a, b, h1, h2, h3⟩
      obtain ⟨q, hq, rfl⟩ := List.mem_map.1 m1
      cases h1
      refine ⟨q, hq, m2, m3, _, [], b, by rw [key q hq]; rfl, h2, ?_⟩
      rw [key q hq]
      exact h3
    · rintro ⟨q, hq, m2, m3, l', a, b, h1, h2, h3⟩
      rw [key q hq] at h1 h3
      cases h1
      exact ⟨_, List.mem_map.2 ⟨q, hq, rfl⟩, m2, m3, _, [], b, rfl, h2, h3⟩

theorem narrow_row {k : Nat} {l : Loc} {c : UInt8} {tl : Bytes} {us : List Upd} {lo hi t : Nat} (hk : k < 765)
    (hr : rows k = [⟨lo, hi, [], t⟩] ∧ wide k = false) :
    Acc k l (c :: tl) us ↔ lo ≤ c.toNat ∧ c.toNat ≤ hi ∧ Acc t { l with seg := l.seg ++ [c] } tl us := by
  rw [acc_rows hk, hr.1, ssymbol_narrow hr.2]
  constructor
  · rintro ⟨r, m1, m2, m3, l', a, b, h1, h2, h3⟩
    rw [List.mem_singleton] at m1
    subst m1
    cases h1
    subst h2
    exact ⟨m2, m3, h3⟩
  · rintro ⟨m2, m3, h3⟩
    exact ⟨_, List.mem_singleton.2 rfl, m2, m3, l, [], us, rfl, rfl, h3⟩

/-- The continuation bytes of a UTF-8 sequence. -/
theorem acc_cont (n : Nat) (hn : n ≤ 5) {l : Loc} {v : Bytes} {us : List Upd} :
    Acc (264 + n) l v us ↔ ∃ s v', v = s ++ v' ∧ s.length = n ∧ (∀ x ∈ s, utf8Cont x) ∧
      Acc 264 { l with seg := l.seg ++ s } v' us := by
  induction n generalizing l v with
  | zero =>
    constructor
    · intro h; exact ⟨[], v, rfl, rfl, by simp, by simpa using h⟩
    · rintro ⟨s, v', rfl, h, _, h'⟩
      rw [List.length_eq_zero_iff] at h
      subst h
      simpa using h'
  | succ n ih =>
    have hr := rows_cont n (by omega)
    have e : 264 + (n + 1) = 265 + n := by omega
    rw [e]
    cases v with
    | nil =>
      refine ⟨fun h => absurd h (acc_nil (by omega)), ?_⟩
      rintro ⟨s, v', h, hl, _⟩
      have := congrArg List.length h
      simp only [List.length_nil, List.length_append] at this
      omega
    | cons c v =>
      rw [narrow_row (by omega) hr, ih (by omega)]
      constructor
      · rintro ⟨m2, m3, s, v', rfl, i1, i2, i3⟩
        refine ⟨c :: s, v', rfl, by simp [i1], ?_, by simpa using i3⟩
        intro x hx
        rcases List.mem_cons.1 hx with rfl | hx
        · exact ⟨m2, m3⟩
        · exact i2 x hx
      · rintro ⟨s, v', e', i1, i2, i3⟩
        cases s with
        | nil => cases i1
        | cons d s =>
          simp only [List.cons_append, List.cons.injEq] at e'
          obtain ⟨rfl, rfl⟩ := e'
          have := i2 c List.mem_cons_self
          exact ⟨this.1, this.2, s, v', rfl, by simpa using i1, fun x hx => i2 x (List.mem_cons_of_mem _ hx), by simpa using i3⟩

theorem acc_270 {l : Loc} {v : Bytes} {us : List Upd} :
    Acc 270 l v us ↔ ∃ tl b, v = 10 :: tl ∧ us = vupd l l.seg.dropLast :: b ∧ Acc 280 Loc.init tl b := by
  cases v with
  | nil => exact ⟨fun h => absurd h (acc_nil (by decide)), fun ⟨_, _, h, _⟩ => by cases h⟩
  | cons c v =>
    rw [acc_rows (by decide), rows_270.1, ssymbol_narrow rows_270.2]
    have hv : sacts [.value] c l = some (l, [vupd l l.seg.dropLast]) := by
      simp only [sacts, sact, vupd]
      cases l.value <;> rfl
    constructor
    · rintro ⟨r, m1, m2, m3, l', a, b, h1, h2, h3⟩
      rw [List.mem_singleton] at m1
      subst m1
      simp only [] at h1 m2 m3
      rw [hv] at h1
      cases h1
      have hc : c = 10 := UInt8.toNat_inj.1 (by change c.toNat = 10; omega)
      subst hc
      exact ⟨v, b, rfl, h2, (acc_agree (by decide) agree_none).1 h3⟩
    · rintro ⟨tl, b, e, h2, h3⟩
      cases e
      exact ⟨_, List.mem_singleton.2 rfl, Nat.le_refl _, Nat.le_refl _, l, _, b, hv, h2, (acc_agree (by decide) agree_none).1 h3⟩

/-- A text value up to the end of the line. -/
theorem acc_264 {l : Loc} {v : Bytes} {us : List Upd} :
    Acc 264 l v us ↔ ∃ t tl b, v = t ++ CRLF ++ tl ∧ ValueText t ∧ us = vupd l (l.seg ++ t) :: b ∧
      Acc 280 Loc.init tl b := by
  constructor
  · generalize hn : v.length = n
    induction n using Nat.strongRecOn generalizing l v us with
    | ind n ih =>
    intro h
    cases v with
    | nil => exact absurd h (acc_nil (by decide))
    | cons c v =>
      -- the rest after some text
      have go : ∀ s v', c :: v = s ++ v' → s ≠ [] → (∀ t, ValueText t → ValueText (s ++ t)) →
          Acc 264 { l with seg := l.seg ++ s } v' us → ∃ t tl b, c :: v = t ++ CRLF ++ tl ∧ ValueText t ∧
            us = vupd l (l.seg ++ t) :: b ∧ Acc 280 Loc.init tl b := by
        intro s v' e hs ht ha
        have hl := congrArg List.length e
        have := List.length_pos_iff.2 hs
        simp only [List.length_append] at hl
        obtain ⟨t, tl, b, e2, i1, i2, i3⟩ := ih v'.length (by omega) rfl ha
        refine ⟨s ++ t, tl, b, by rw [e, e2]; simp, ht t i1, ?_, i3⟩
        rw [i2]
        simp [vupd]
      rw [acc_rows (by decide), rows_264.1] at h
      obtain ⟨r, m1, m2, m3, l', a, b, h1, h2, h3⟩ := h
      have hsym := wide_sym (k := 264) c v rows_264.2
      generalize ssymbol 264 (c :: v) c = x at m2 m3 hsym
      have hc := c.toNat_lt
      simp only [List.mem_cons, List.not_mem_nil, or_false] at m1
      have chr : (c = 9 ∨ (32 ≤ c.toNat ∧ c.toNat ≤ 127)) → Acc 264 { l with seg := l.seg ++ [c] } v us → ∃ t tl b, c :: v = t ++ CRLF ++ tl ∧ ValueText t ∧
            us = vupd l (l.seg ++ t) :: b ∧ Acc 280 Loc.init tl b := fun hx ha =>
        go [c] v rfl (by simp) (fun t ht => .char hx ht) ha
      have utf : ∀ n, n ≤ 5 → utf8Len c = some n → Acc (264 + n) { l with seg := l.seg ++ [c] } v us → ∃ t tl b, c :: v = t ++ CRLF ++ tl ∧ ValueText t ∧
            us = vupd l (l.seg ++ t) :: b ∧ Acc 280 Loc.init tl b := by
        intro n hn hu ha
        obtain ⟨s, v', rfl, i1, i2, i3⟩ := (acc_cont n hn).1 ha
        refine go (c :: s) v' rfl (by simp) (fun t ht => .utf8 (by rw [hu, i1]) i2 ht) ?_
        simpa using i3
      rcases m1 with rfl | rfl | rfl | rfl | rfl | rfl | rfl | rfl | rfl <;> cases h1 <;> simp only [] at m2 m3
      · exact chr (.inl (UInt8.toNat_inj.1 (by change c.toNat = 9; omega))) (by rw [h2]; exact h3)
      · exact chr (.inr (by omega)) (by rw [h2]; exact h3)
      · exact utf 1 (by decide) (by have hx : x = c.toNat := (by rcases hsym with ⟨_, h⟩ | ⟨_, _, h⟩ | ⟨_, _, h⟩ <;> omega); unfold utf8Len; grind) (by rw [h2]; exact h3)
      · exact utf 2 (by decide) (by have hx : x = c.toNat := (by rcases hsym with ⟨_, h⟩ | ⟨_, _, h⟩ | ⟨_, _, h⟩ <;> omega); unfold utf8Len; grind) (by rw [h2]; exact h3)
      · exact utf 3 (by decide) (by have hx : x = c.toNat := (by rcases hsym with ⟨_, h⟩ | ⟨_, _, h⟩ | ⟨_, _, h⟩ <;> omega); unfold utf8Len; grind) (by rw [h2]; exact h3)
      · exact utf 4 (by decide) (by have hx : x = c.toNat := (by rcases hsym with ⟨_, h⟩ | ⟨_, _, h⟩ | ⟨_, _, h⟩ <;> omega); unfold utf8Len; grind) (by rw [h2]; exact h3)
      · exact utf 5 (by decide) (by have hx : x = c.toNat := (by rcases hsym with ⟨_, h⟩ | ⟨_, _, h⟩ | ⟨_, _, h⟩ <;> omega); unfold utf8Len; grind) (by rw [h2]; exact h3)
      · have hc : c = 13 := by rcases hsym with ⟨_, h⟩ | ⟨h, _⟩ | ⟨h, _⟩ <;> first | exact h | omega
        subst hc
        have h3 : Acc 270 { l with seg := l.seg ++ [13] } v b := h3
        obtain ⟨tl, b', rfl, i1, i2⟩ := acc_270.1 h3
        refine ⟨[], tl, b', rfl, .nil, ?_, i2⟩
        rw [h2, i1]
        simp [vupd]
      · have hc : c = 13 ∧ startsWSP v.tail = true := by
          rcases hsym with ⟨_, h⟩ | ⟨h, h', _⟩ | ⟨h, _, h'⟩
          · omega
          · exact ⟨h, h'⟩
          · omega
        obtain ⟨rfl, hw⟩ := hc
        have h3 : Acc 271 { l with seg := l.seg ++ [13] } v b := h3
        cases v with
        | nil => cases hw
        | cons d v =>
          rw [narrow_row (by decide) rows_271] at h3
          obtain ⟨d1, d2, h3⟩ := h3
          have hd : d = 10 := UInt8.toNat_inj.1 (by change d.toNat = 10; omega)
          subst hd
          cases v with
          | nil => cases hw
          | cons w v =>
            have hw : w = 32 ∨ w = 9 := startsWSP_iff.1 hw
            refine go (CRLF ++ [w]) v rfl (by simp [CRLF]) (fun t ht => .fold (blank_iff'.2 hw) ht) ?_
            rw [acc_rows (by decide), rows_272.1, ssymbol_narrow rows_272.2] at h3
            obtain ⟨r, m1, m2, m3, l', a, b', h1, h2', h3⟩ := h3
            simp only [List.mem_cons, List.not_mem_nil, or_false] at m1
            rw [h2, h2']
            rcases m1 with rfl | rfl <;> (cases h1; simpa [CRLF, proceed, moveOf] using h3)
  · rintro ⟨t, tl, b, rfl, ht, rfl, h⟩
    induction ht generalizing l with
    | nil =>
      have hs : ssymbol 264 (13 :: 10 :: tl) 13 = 269 := by
        rw [ssymbol_cr rows_264.2, List.tail_cons, acc_280_blank h]; rfl
      show Acc 264 l (13 :: 10 :: tl) _
      rw [acc_rows (by decide), rows_264.1, hs]
      refine ⟨⟨269, 269, [], 270⟩, by simp, Nat.le_refl _, Nat.le_refl _, l, [], _, rfl, rfl, ?_⟩
      refine acc_270.2 ⟨tl, b, rfl, ?_, h⟩
      simp [vupd, proceed, moveOf]
    | @char c t hc ht ih =>
      have h13 : c ≠ 13 := by rintro rfl; rcases hc with hc | hc <;> revert hc <;> decide
      show Acc 264 l (c :: (t ++ CRLF ++ tl)) _
      have ih : Acc 264 { l with seg := l.seg ++ [c] } (t ++ CRLF ++ tl) (vupd l (l.seg ++ c :: t) :: b) := by
        simpa [vupd] using ih (l := { l with seg := l.seg ++ [c] })
      rw [acc_rows (by decide), rows_264.1, ssymbol_ne h13]
      rcases hc with rfl | hc
      · exact ⟨⟨9, 9, [], 264⟩, by simp, Nat.le_refl _, Nat.le_refl _, l, [], _, rfl, rfl, ih⟩
      · exact ⟨⟨32, 127, [], 264⟩, by simp, hc.1, hc.2, l, [], _, rfl, rfl, ih⟩
    | @utf8 c s t hc hs ht ih =>
      have key : ∃ r ∈ rows 264, r.lo ≤ c.toNat ∧ c.toNat ≤ r.hi ∧ r.tgt = 264 + s.length ∧ r.acts = [] ∧ s.length ≤ 5 ∧ c ≠ 13 := by
        have h13 : c ≠ 13 := by rintro rfl; cases hc
        unfold utf8Len at hc
        rw [rows_264.1]
        by_cases g0 : c.toNat < 192
        · rw [if_pos g0] at hc; cases hc
        rw [if_neg g0] at hc
        by_cases g1 : c.toNat ≤ 223
        · rw [if_pos g1, Option.some.injEq] at hc
          exact ⟨⟨192, 223, [], 265⟩, by simp, by show 192 ≤ c.toNat; omega, g1, by rw [← hc], rfl, by omega, h13⟩
        rw [if_neg g1] at hc
        by_cases g2 : c.toNat ≤ 239
        · rw [if_pos g2, Option.some.injEq] at hc
          exact ⟨⟨224, 239, [], 266⟩, by simp, by show 224 ≤ c.toNat; omega, g2, by rw [← hc], rfl, by omega, h13⟩
        rw [if_neg g2] at hc
        by_cases g3 : c.toNat ≤ 247
        · rw [if_pos g3, Option.some.injEq] at hc
          exact ⟨⟨240, 247, [], 267⟩, by simp, by show 240 ≤ c.toNat; omega, g3, by rw [← hc], rfl, by omega, h13⟩
        rw [if_neg g3] at hc
        by_cases g4 : c.toNat ≤ 251
        · rw [if_pos g4, Option.some.injEq] at hc
          exact ⟨⟨248, 251, [], 268⟩, by simp, by show 248 ≤ c.toNat; omega, g4, by rw [← hc], rfl, by omega, h13⟩
        rw [if_neg g4] at hc
        by_cases g5 : c.toNat ≤ 253
        · rw [if_pos g5, Option.some.injEq] at hc
          exact ⟨⟨252, 253, [], 269⟩, by simp, by show 252 ≤ c.toNat; omega, g5, by rw [← hc], rfl, by omega, h13⟩
        · rw [if_neg g5] at hc; cases hc
      obtain ⟨r, m1, m2, m3, e1, e2, e3, h13⟩ := key
      have ih : Acc 264 { l with seg := l.seg ++ [c] ++ s } (t ++ CRLF ++ tl) (vupd l (l.seg ++ c :: (s ++ t)) :: b) := by
        simpa [vupd] using ih (l := { l with seg := l.seg ++ [c] ++ s })
      show Acc 264 l (c :: (s ++ t ++ CRLF ++ tl)) (vupd l (l.seg ++ c :: (s ++ t)) :: b)
      rw [acc_rows (by decide), ssymbol_ne h13]
      refine ⟨r, m1, m2, m3, l, [], _, by rw [e2]; rfl, rfl, ?_⟩
      rw [e1, e2]
      exact (acc_cont _ e3).2 ⟨s, t ++ CRLF ++ tl, by simp [proceed, moveOf], rfl, hs, ih⟩
    | @fold w t hw ht ih =>
      have hw := blank_iff'.1 hw
      show Acc 264 l (13 :: 10 :: w :: (t ++ CRLF ++ tl)) (vupd l (l.seg ++ 13 :: 10 :: w :: t) :: b)
      have ih : Acc 264 { l with seg := l.seg ++ [13] ++ [10] ++ [w] } (t ++ CRLF ++ tl) (vupd l (l.seg ++ 13 :: 10 :: w :: t) :: b) := by
        simpa [vupd] using ih (l := { l with seg := l.seg ++ [13] ++ [10] ++ [w] })
      have hs : ssymbol 264 (13 :: 10 :: w :: (t ++ CRLF ++ tl)) 13 = 525 := by
        rw [ssymbol_cr rows_264.2, List.tail_cons, startsWSP_iff.2 hw]; rfl
      rw [acc_rows (by decide), rows_264.1, hs]
      refine ⟨⟨525, 525, [], 271⟩, by simp, Nat.le_refl _, Nat.le_refl _, l, [], _, rfl, rfl, ?_⟩
      show Acc 271 { l with seg := l.seg ++ [13] } (10 :: w :: (t ++ CRLF ++ tl)) _
      rw [narrow_row (by decide) rows_271]
      refine ⟨Nat.le_refl _, Nat.le_refl _, ?_⟩
      rw [acc_rows (by decide), rows_272.1, ssymbol_narrow rows_272.2]
      rcases hw with rfl | rfl
      · exact ⟨⟨32, 32, [], 264⟩, by simp, Nat.le_refl _, Nat.le_refl _, _, [], _, rfl, rfl, ih⟩
      · exact ⟨⟨9, 9, [], 264⟩, by simp, Nat.le_refl _, Nat.le_refl _, _, [], _, rfl, rfl, ih⟩

theorem cr_263 {m : Loc} {t : Bytes} {b : List Upd} (h : t.head? ≠ some 10) : ¬ Acc 263 m (13 :: t) b := by
  rw [acc_263, acc_264]
  rintro ⟨x, tl, b', e, hx, _⟩
  have : t.head? = some 10 := by
    cases hx with
    | nil => simp only [CRLF, List.nil_append, List.cons_append, List.cons.injEq] at e; rw [e.2]; rfl
    | char hc _ =>
      simp only [List.cons_append, List.cons.injEq] at e
      rw [← e.1] at hc
      exact absurd hc (by decide)
    | utf8 hc _ _ =>
      simp only [List.cons_append, List.cons.injEq] at e
      rw [← e.1] at hc; cases hc
    | fold _ _ => simp only [CRLF, List.cons_append, List.cons.injEq, List.nil_append] at e; rw [e.2]; rfl
  exact h this

theorem skip_284 : SkipPart 284 285 286 287 263 [.hold] where
  r := by decide +kernel
  r1 := by decide +kernel
  r2 := by decide +kernel
  r3 := by decide +kernel
  w := by decide +kernel
  ne := by decide
  lt := by decide
  stay := by decide
  cr := cr_263

theorem skip_276 : SkipPart 276 277 278 279 263 [.valueNil, .hold] where
  r := by decide +kernel
  r1 := by decide +kernel
  r2 := by decide +kernel
  r3 := by decide +kernel
  w := by decide +kernel
  ne := by decide
  lt := by decide
  stay := by decide
  cr := cr_263

theorem live_263 : live 263 = ⟨false, false, false, false, true, false, false, false, true⟩ := by decide +kernel

/-- The value of a text header. -/
theorem acc_284 {f : SField} {v : Bytes} {us : List Upd} :
    Acc 284 { value := some f } v us ↔ ∃ t tl b, skipWs v = t ++ CRLF ++ tl ∧ ValueText t ∧
      us = .hdr f t :: b ∧ Acc 280 Loc.init tl b := by
  rw [skip_284.skip (l := { value := some f }) (m := { value := some f }) (E := [])]
  · simp only [List.nil_append, exists_eq_left', acc_263, acc_264]
    rfl
  · intro s c
    refine ⟨_, rfl, ?_⟩
    rw [live_263]
    constructor <;> simp

/-- The value of an extension header. -/
theorem acc_276 {n v : Bytes} {us : List Upd} :
    Acc 276 { name := n } v us ↔ ∃ t tl b, skipWs v = t ++ CRLF ++ tl ∧ ValueText t ∧
      us = .xheader n t :: b ∧ Acc 280 Loc.init tl b := by
  rw [skip_276.skip (l := { name := n }) (m := { name := n }) (E := [])]
  · simp only [List.nil_append, exists_eq_left', acc_263, acc_264]
    rfl
  · intro s c
    refine ⟨_, rfl, ?_⟩
    rw [live_263]
    constructor <;> simp

end Gosip.Sip.MsgM
