import Verif.Sip.Regions
import Verif.Spec.Values

/-!
# White space before a value
-/

namespace Gosip.Sip.MsgM
open Spec

/-- States that skip white space and continue in state `e` after the actions `as`. -/
structure SkipPart (k k1 k2 k3 e : Nat) (as : List MAct) : Prop where
  r : rows k = [⟨0, 8, as, e⟩, ⟨9, 9, [], k⟩, ⟨10, 12, as, e⟩, ⟨14, 31, as, e⟩, ⟨32, 32, [], k⟩, ⟨33, 255, as, e⟩,
    ⟨269, 269, as, e⟩, ⟨525, 525, [], k1⟩]
  r1 : rows k1 = [⟨10, 10, [], k2⟩]
  r2 : rows k2 = [⟨9, 9, [], k3⟩, ⟨32, 32, [], k3⟩]
  r3 : rows k3 = [⟨0, 8, as, e⟩, ⟨9, 9, [], k3⟩, ⟨10, 31, as, e⟩, ⟨32, 32, [], k3⟩, ⟨33, 255, as, e⟩]
  w : wide k = true ∧ wide k1 = false ∧ wide k2 = false ∧ wide k3 = false
  ne : k ≠ 280 ∧ k3 ≠ 280 ∧ e ≠ 280
  lt : e < 765
  stay : moveOf as = .stay
  cr : ∀ {m : Loc} {t : Bytes} {b : List Upd}, t.head? ≠ some 10 → ¬ Acc e m (13 :: t) b

theorem blank_iff' {c : UInt8} : blank c = true ↔ c = 32 ∨ c = 9 := by simp [blank]

theorem skipBlanks_cons {c : UInt8} {v : Bytes} (h : blank c = true) : skipBlanks (c :: v) = skipBlanks v := by
  simp [skipBlanks, h]

theorem skipBlanks_stop {c : UInt8} {v : Bytes} (h : blank c = false) : skipBlanks (c :: v) = c :: v := by
  simp [skipBlanks, h]

theorem skipBlanks_head (v : Bytes) : skipBlanks v = [] ∨ ∃ c t, skipBlanks v = c :: t ∧ blank c = false := by
  induction v with
  | nil => exact .inl rfl
  | cons c v ih =>
    cases h : blank c
    · exact .inr ⟨c, v, skipBlanks_stop h, h⟩
    · rw [skipBlanks_cons h]; exact ih

theorem blanks_append {v : Bytes} : ∃ w, Blanks w ∧ v = w ++ skipBlanks v := by
  induction v with
  | nil => exact ⟨[], (by intro c hc; cases hc), rfl⟩
  | cons c v ih =>
    cases h : blank c
    · exact ⟨[], (by intro c hc; cases hc), by rw [skipBlanks_stop h]; rfl⟩
    · obtain ⟨w, hw, e⟩ := ih
      refine ⟨c :: w, ?_, by rw [skipBlanks_cons h, List.cons_append, ← e]⟩
      intro d hd
      rcases List.mem_cons.1 hd with rfl | hd
      · exact blank_iff'.1 h
      · exact hw d hd

/-- The row at a symbol, computed. -/
theorem rowAt_of {k n : Nat} {l : List Row} {x : Option (List MAct × Nat)} (h : rows k = l)
    (g : (lookup l n).map (fun r => (r.acts, r.tgt)) = x) : rowAt k n = x := by
  unfold rowAt; rw [h]; exact g

section
variable {k k1 k2 k3 e : Nat} {as : List MAct}

theorem SkipPart.blank_k (p : SkipPart k k1 k2 k3 e as) {c : UInt8} (h : c = 32 ∨ c = 9) :
    rowAt k c.toNat = some ([], k) ∧ rowAt k3 c.toNat = some ([], k3) := by
  rcases h with rfl | rfl
  · exact ⟨rowAt_of p.r rfl, rowAt_of p.r3 rfl⟩
  · exact ⟨rowAt_of p.r rfl, rowAt_of p.r3 rfl⟩

theorem lookup_of {l : List Row} (hl : disjointRows l = true) {r : Row} {n : Nat} (h : r ∈ l) (h1 : r.lo ≤ n)
    (h2 : n ≤ r.hi) : (lookup l n).map (fun r => (r.acts, r.tgt)) = some (r.acts, r.tgt) := by
  rw [(lookup_iff hl n r).2 ⟨h, h1, h2⟩]; rfl

theorem SkipPart.other_k (p : SkipPart k k1 k2 k3 e as) {c : UInt8} (h : blank c = false) (h' : c ≠ 13) :
    rowAt k c.toNat = some (as, e) := by
  refine rowAt_of p.r ?_
  have h1 : c.toNat ≠ 32 := fun h0 => by rw [UInt8.toNat_inj (b := 32) |>.1 h0] at h; cases h
  have h2 : c.toNat ≠ 9 := fun h0 => by rw [UInt8.toNat_inj (b := 9) |>.1 h0] at h; cases h
  have h3 : c.toNat ≠ 13 := fun h0 => h' (UInt8.toNat_inj (b := 13) |>.1 h0)
  have h4 := c.toNat_lt
  have hd : disjointRows [⟨0, 8, as, e⟩, ⟨9, 9, [], k⟩, ⟨10, 12, as, e⟩, ⟨14, 31, as, e⟩, ⟨32, 32, [], k⟩, ⟨33, 255, as, e⟩,
    ⟨269, 269, as, e⟩, ⟨525, 525, [], k1⟩] = true := rfl
  by_cases g1 : c.toNat ≤ 8
  · exact lookup_of hd (r := ⟨0, 8, as, e⟩) (by simp) (Nat.zero_le _) g1
  by_cases g2 : c.toNat ≤ 12
  · exact lookup_of hd (r := ⟨10, 12, as, e⟩) (by simp) (by show 10 ≤ c.toNat; omega) g2
  by_cases g3 : c.toNat ≤ 31
  · exact lookup_of hd (r := ⟨14, 31, as, e⟩) (by simp) (by show 14 ≤ c.toNat; omega) g3
  · exact lookup_of hd (r := ⟨33, 255, as, e⟩) (by simp) (by show 33 ≤ c.toNat; omega) (by show c.toNat ≤ 255; omega)

theorem SkipPart.other_k3 (p : SkipPart k k1 k2 k3 e as) {c : UInt8} (h : blank c = false) :
    rowAt k3 c.toNat = some (as, e) := by
  refine rowAt_of p.r3 ?_
  have h1 : c.toNat ≠ 32 := fun h0 => by rw [UInt8.toNat_inj (b := 32) |>.1 h0] at h; cases h
  have h2 : c.toNat ≠ 9 := fun h0 => by rw [UInt8.toNat_inj (b := 9) |>.1 h0] at h; cases h
  have h4 := c.toNat_lt
  have hd : disjointRows [⟨0, 8, as, e⟩, ⟨9, 9, [], k3⟩, ⟨10, 31, as, e⟩, ⟨32, 32, [], k3⟩, ⟨33, 255, as, e⟩] = true := rfl
  by_cases g1 : c.toNat ≤ 8
  · exact lookup_of hd (r := ⟨0, 8, as, e⟩) (by simp) (Nat.zero_le _) g1
  by_cases g3 : c.toNat ≤ 31
  · exact lookup_of hd (r := ⟨10, 31, as, e⟩) (by simp) (by show 10 ≤ c.toNat; omega) g3
  · exact lookup_of hd (r := ⟨33, 255, as, e⟩) (by simp) (by show 33 ≤ c.toNat; omega) (by show c.toNat ≤ 255; omega)

theorem blanks_ne13 {w : Bytes} (hw : Blanks w) {c : UInt8} (hc : c ∈ w) : c ≠ 13 := by
  rcases hw c hc with rfl | rfl <;> decide

/-- White space is skipped. -/
theorem SkipPart.skip (p : SkipPart k k1 k2 k3 e as) {l m : Loc} {E : List Upd} {v : Bytes} {us : List Upd}
    (hf : ∀ s c, ∃ l', sacts as c { l with seg := s } = some (l', E) ∧ Agree (live e) l' m) :
    Acc k l v us ↔ ∃ b, us = E ++ b ∧ Acc e m (skipWs v) b := by
  have last : ∀ x s c t, rowAt x (ssymbol x (c :: t) c) = some (as, e) →
      (Acc x { l with seg := s } (c :: t) us ↔ ∃ b, us = E ++ b ∧ Acc e m (c :: t) b) := by
    intro x s c t h
    obtain ⟨l', h1, h2⟩ := hf s c
    have := SRun.one (step_at (l := { l with seg := s }) h h1)
    rw [p.stay] at this
    rw [acc_run this]
    exact ⟨fun ⟨b, e1, e2⟩ => ⟨b, e1, (acc_agree p.lt h2).1 e2⟩, fun ⟨b, e1, e2⟩ => ⟨b, e1, (acc_agree p.lt h2).2 e2⟩⟩
  have empty : ∀ x s, x ≠ 280 → (Acc x { l with seg := s } [] us ↔ ∃ b, us = E ++ b ∧ Acc e m [] b) := by
    intro x s hx
    exact ⟨fun h => absurd h (acc_nil hx), fun ⟨_, _, h⟩ => absurd h (acc_nil p.ne.2.2)⟩
  obtain ⟨w, hw, e1⟩ := blanks_append (v := v)
  have hrun : SRun ⟨k, l, v⟩ [] ⟨k, { l with seg := l.seg ++ w }, skipBlanks v⟩ := by
    have := loop_run (k := k) (l := l) (s := w) (tl := skipBlanks v) fun c hc =>
      ⟨blanks_ne13 hw hc, (p.blank_k (hw c hc)).1⟩
    rw [← e1] at this
    exact this
  rw [acc_run_nil hrun]
  rcases skipBlanks_head v with h | ⟨c, t, h, hb⟩
  · rw [show skipWs v = [] by unfold skipWs; rw [h], h]
    exact empty k _ p.ne.1
  · by_cases hc : c = 13
    · subst hc
      by_cases hfold : ∃ wc r, t = 10 :: wc :: r ∧ blank wc = true
      · obtain ⟨wc, r, rfl, hwc⟩ := hfold
        have hs : skipWs v = skipBlanks r := by unfold skipWs; rw [h]; simp [hwc]
        rw [hs, h]
        obtain ⟨w', hw', e2⟩ := blanks_append (v := r)
        generalize l.seg ++ w = s0
        have s1 : SRun ⟨k, { l with seg := s0 }, 13 :: 10 :: wc :: r⟩ [] ⟨k1, { l with seg := s0 ++ [13] }, 10 :: wc :: r⟩ := by
          refine .one (step_at (as := []) (t := k1) ?_ rfl)
          rw [ssymbol_cr p.w.1, List.tail_cons, startsWSP_iff.2 (blank_iff'.1 hwc)]
          exact rowAt_of p.r rfl
        have s2 : SRun ⟨k1, { l with seg := s0 ++ [13] }, 10 :: wc :: r⟩ [] ⟨k2, { l with seg := s0 ++ [13] ++ [10] }, wc :: r⟩ :=
          plain_step (l := { l with seg := s0 ++ [13] }) (by decide) (rowAt_of p.r1 rfl)
        have s3 : SRun ⟨k2, { l with seg := s0 ++ [13] ++ [10] }, wc :: r⟩ [] ⟨k3, { l with seg := s0 ++ [13] ++ [10] ++ [wc] }, r⟩ := by
          refine plain_step (l := { l with seg := s0 ++ [13] ++ [10] }) (by rcases blank_iff'.1 hwc with rfl | rfl <;> decide) ?_
          rcases blank_iff'.1 hwc with rfl | rfl <;> exact rowAt_of p.r2 rfl
        have s4 := loop_run (k := k3) (l := { l with seg := s0 ++ [13] ++ [10] ++ [wc] }) (s := w') (tl := skipBlanks r)
          fun c hc => ⟨blanks_ne13 hw' hc, (p.blank_k (hw' c hc)).2⟩
        rw [← e2] at s4
        rw [acc_run_nil s1, acc_run_nil s2, acc_run_nil s3, acc_run_nil s4]
        rcases skipBlanks_head r with h | ⟨c, t, h, hb⟩
        · rw [h]; exact empty k3 _ p.ne.2.1
        · rw [h]
          exact last k3 _ c t (by rw [ssymbol_narrow p.w.2.2.2]; exact p.other_k3 hb)
      · have hs : skipWs v = 13 :: t := by
          unfold skipWs
          rw [h]
          split
          · next wc r heq =>
            cases heq
            split
            · next hw2 => exact absurd ⟨_, _, rfl, hw2⟩ hfold
            · rfl
          · rfl
        rw [hs, h]
        by_cases hl : t.head? = some 10
        · refine last k _ 13 t ?_
          have hn : startsWSP t.tail = false := by
            cases t with
            | nil => rfl
            | cons d t =>
              simp only [List.head?_cons, Option.some.injEq] at hl
              subst hl
              cases t with
              | nil => rfl
              | cons x t =>
                rw [List.tail_cons, ← Bool.not_eq_true, startsWSP_iff]
                intro hx
                exact hfold ⟨x, t, rfl, blank_iff'.2 hx⟩
          rw [ssymbol_cr p.w.1, hn]
          exact rowAt_of p.r rfl
        · cases hw2 : startsWSP t.tail with
          | false =>
            exact last k _ 13 t (by rw [ssymbol_cr p.w.1, hw2]; exact rowAt_of p.r rfl)
          | true =>
            refine ⟨fun hx => absurd hx ?_, fun ⟨_, _, hx⟩ => absurd hx (p.cr hl)⟩
            have s1 : SRun ⟨k, { l with seg := l.seg ++ w }, 13 :: t⟩ [] ⟨k1, { l with seg := l.seg ++ w ++ [13] }, t⟩ := by
              refine .one (step_at (as := []) (t := k1) ?_ rfl)
              rw [ssymbol_cr p.w.1, hw2]
              exact rowAt_of p.r rfl
            rw [acc_run_nil s1]
            cases t with
            | nil => cases hw2
            | cons d t =>
              refine stuck_at ?_
              rw [ssymbol_narrow p.w.2.1]
              refine rowAt_of p.r1 ?_
              have hd : d.toNat ≠ 10 := fun h0 => hl (by rw [UInt8.toNat_inj (b := 10) |>.1 h0]; rfl)
              cases hx : lookup [⟨10, 10, [], k2⟩] d.toNat with
              | none => rfl
              | some r =>
                obtain ⟨m1, m2, m3⟩ := lookup_mem hx
                rw [List.mem_singleton] at m1
                subst m1
                simp only [] at m2 m3
                omega
    · have hs : skipWs v = c :: t := by
        unfold skipWs
        rw [h]
        split
        · next heq => cases heq; exact absurd rfl hc
        · rfl
      rw [hs, h]
      exact last k _ c t (by rw [ssymbol_ne hc]; exact p.other_k hb hc)

end

end Gosip.Sip.MsgM
