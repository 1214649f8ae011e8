import Verif.Sip.LineSum

/-!
# What the message machine accepts up to the end of the line
-/

namespace Gosip.Sip.MsgM
open Spec

/-- From state `k` the input is read up to the end of a line, with these assignments. -/
def Acc (k : Nat) (l : Loc) (inp : Bytes) (us : List Upd) : Prop := ∃ l', SRun ⟨k, l, inp⟩ us ⟨280, l', []⟩

theorem line_acc {L : Bytes} {us : List Upd} : Line L us ↔ Acc 280 Loc.init (L ++ CRLF) us :=
  ⟨fun ⟨l, h⟩ => ⟨l, h.run⟩, fun ⟨l, h⟩ => ⟨l, h.toL⟩⟩

theorem start_acc {L : Bytes} {us : List Upd} : Start L us ↔ Acc 1 Loc.init (L ++ CRLF) us :=
  ⟨fun ⟨l, h⟩ => ⟨l, h.run⟩, fun ⟨l, h⟩ => ⟨l, h.toL⟩⟩

theorem Agree.symm {v : LV} {l m : Loc} (h : Agree v l m) : Agree v m l := by
  constructor
  case seg => intro e; exact (h.seg e).symm
  case buf => intro e; exact (h.buf e).symm
  case name => intro e; exact (h.name e).symm
  case hex => intro e; exact (h.hex e).symm
  case value => intro e; exact (h.value e).symm
  case via => intro e; exact (h.via e).symm
  case addrp => intro e; exact (h.addrp e).symm
  case addr => intro e; exact (h.addr e).symm
  case nv =>
    intro e
    rcases h.nv e with g | ⟨g1, g2⟩
    · exact .inl g.symm
    · exact .inr ⟨g1.symm, by rw [← g1]; exact g2⟩

theorem Acc.agree {k : Nat} {l m : Loc} {inp : Bytes} {us : List Upd} (h : Acc k l inp us) (hk : k < 765)
    (ha : Agree (live k) l m) : Acc k m inp us := by
  obtain ⟨l', h⟩ := h
  obtain ⟨m', g, _⟩ := h.toL.agree hk ha
  exact ⟨m', g.run⟩

/-- Variables that have not been set do not matter. -/
theorem acc_agree {k : Nat} {l m : Loc} {inp : Bytes} {us : List Upd} (hk : k < 765)
    (ha : Agree (live k) l m) : Acc k l inp us ↔ Acc k m inp us :=
  ⟨fun h => h.agree hk ha, fun h => h.agree hk ha.symm⟩

theorem acc_nil {k : Nat} {l : Loc} {us : List Upd} (hk : k ≠ 280) : ¬ Acc k l [] us := by
  rintro ⟨l', h⟩
  generalize ht : (⟨280, l', []⟩ : Conf) = t at h
  cases h with
  | refl => cases ht; exact hk rfl
  | step h1 _ => cases h1

theorem acc_280_nil {l : Loc} {us : List Upd} : Acc 280 l [] us ↔ us = [] := by
  constructor
  · rintro ⟨l', h⟩
    cases h with
    | refl => rfl
    | step h1 _ => cases h1
  · rintro rfl; exact ⟨l, .refl _⟩

theorem acc_cons {k : Nat} {l : Loc} {c : UInt8} {tl : Bytes} {us : List Upd} :
    Acc k l (c :: tl) us ↔
      ∃ t a b, sstep ⟨k, l, c :: tl⟩ = some (t, a) ∧ us = a ++ b ∧ Acc t.k t.l t.inp b := by
  constructor
  · rintro ⟨l', h⟩
    cases h with
    | @step _ t _ a b h1 h2 => exact ⟨t, a, b, h1, rfl, l', h2⟩
  · rintro ⟨t, a, b, h1, rfl, l', h2⟩
    exact ⟨l', .step h1 h2⟩

/-- A run can be cut off at its beginning. -/
theorem SRun.cut {s t : Conf} {a us : List Upd} {l : Loc} (h : SRun s a t) (g : SRun s us ⟨280, l, []⟩) :
    ∃ b, us = a ++ b ∧ SRun t b ⟨280, l, []⟩ := by
  induction h generalizing us with
  | refl => exact ⟨us, rfl, g⟩
  | step h1 _ ih =>
    generalize ht : (⟨280, l, []⟩ : Conf) = u at g
    cases g with
    | refl => subst ht; cases h1
    | step g1 g2 =>
      subst ht
      rw [h1] at g1; cases g1
      obtain ⟨b, rfl, h⟩ := ih g2
      exact ⟨b, by rw [List.append_assoc], h⟩

theorem acc_run {k k2 : Nat} {l l2 : Loc} {i i2 : Bytes} {a us : List Upd}
    (h : SRun ⟨k, l, i⟩ a ⟨k2, l2, i2⟩) : Acc k l i us ↔ ∃ b, us = a ++ b ∧ Acc k2 l2 i2 b := by
  constructor
  · rintro ⟨l', g⟩
    obtain ⟨b, e, g⟩ := h.cut g
    exact ⟨b, e, l', g⟩
  · rintro ⟨b, rfl, l', g⟩
    exact ⟨l', h.trans g⟩

theorem acc_run_nil {k k2 : Nat} {l l2 : Loc} {i i2 : Bytes} {us : List Upd}
    (h : SRun ⟨k, l, i⟩ [] ⟨k2, l2, i2⟩) : Acc k l i us ↔ Acc k2 l2 i2 us := by
  rw [acc_run h]; simp

/-- A step with a given row. -/
theorem acc_row {k : Nat} {l l' : Loc} {c : UInt8} {tl : Bytes} {us : List Upd} {r : Row} {a : List Upd}
    (h : lookup (rows k) (ssymbol k (c :: tl) c) = some r) (g : sacts r.acts c l = some (l', a)) :
    Acc k l (c :: tl) us ↔ ∃ b, us = a ++ b ∧ Acc r.tgt (proceed (moveOf r.acts) r.tgt l' (c :: tl) tl c).l
      (proceed (moveOf r.acts) r.tgt l' (c :: tl) tl c).inp b := by
  have h1 := SRun.one (sstep_intro (l := l) h g)
  have h2 := acc_run (us := us) (k2 := r.tgt) (l2 := (proceed (moveOf r.acts) r.tgt l' (c :: tl) tl c).l)
    (i2 := (proceed (moveOf r.acts) r.tgt l' (c :: tl) tl c).inp) (a := a) (k := k) (l := l) (i := c :: tl)
    (by
      have e : proceed (moveOf r.acts) r.tgt l' (c :: tl) tl c =
        ⟨r.tgt, (proceed (moveOf r.acts) r.tgt l' (c :: tl) tl c).l,
          (proceed (moveOf r.acts) r.tgt l' (c :: tl) tl c).inp⟩ := by
        cases moveOf r.acts <;> rfl
      rw [← e]; exact h1)
  exact h2

theorem acc_stuck {k : Nat} {l : Loc} {c : UInt8} {tl : Bytes} {us : List Upd}
    (h : lookup (rows k) (ssymbol k (c :: tl) c) = none) : ¬ Acc k l (c :: tl) us := by
  rw [acc_cons]
  rintro ⟨t, a, b, h1, _⟩
  obtain ⟨c', tl', r, l', e1, e2, _⟩ := sstep_cases h1
  cases e1
  rw [h] at e2; cases e2

/-- The rows of a state do not overlap. -/
def disjointRows : List Row → Bool
  | [] => true
  | r :: l => l.all (fun q => Nat.blt r.hi q.lo || Nat.blt q.hi r.lo) && disjointRows l

theorem disjoint_check : ∀ k, k < 765 → disjointRows (rows k) = true := by decide +kernel

theorem lookup_iff {l : List Row} (h : disjointRows l = true) (x : Nat) (r : Row) :
    lookup l x = some r ↔ r ∈ l ∧ r.lo ≤ x ∧ x ≤ r.hi := by
  refine ⟨fun h => lookup_mem h, ?_⟩
  induction l with
  | nil => rintro ⟨h, _⟩; cases h
  | cons q l ih =>
    rintro ⟨h1, h2, h3⟩
    simp only [disjointRows, Bool.and_eq_true, List.all_eq_true] at h
    rw [lookup]
    cases hb : (Nat.ble q.lo x && Nat.ble x q.hi) with
    | true =>
      simp only [Bool.and_eq_true, Nat.ble_eq] at hb
      rcases List.mem_cons.1 h1 with rfl | h1
      · rfl
      · have := h.1 r h1
        simp only [Bool.or_eq_true, Nat.blt_eq] at this
        omega
    | false =>
      rcases List.mem_cons.1 h1 with rfl | h1
      · rw [Nat.ble_eq_true_of_le h2, Nat.ble_eq_true_of_le h3] at hb; cases hb
      · exact ih h.2 ⟨h1, h2, h3⟩

/-- A step, row by row. -/
theorem acc_rows {k : Nat} {l : Loc} {c : UInt8} {tl : Bytes} {us : List Upd} (hk : k < 765) :
    Acc k l (c :: tl) us ↔ ∃ r ∈ rows k, r.lo ≤ ssymbol k (c :: tl) c ∧ ssymbol k (c :: tl) c ≤ r.hi ∧
      ∃ l' a b, sacts r.acts c l = some (l', a) ∧ us = a ++ b ∧
        Acc r.tgt (proceed (moveOf r.acts) r.tgt l' (c :: tl) tl c).l
          (proceed (moveOf r.acts) r.tgt l' (c :: tl) tl c).inp b := by
  constructor
  · intro h
    obtain ⟨t, a, b, h1, h2, h3⟩ := acc_cons.1 h
    obtain ⟨c', tl', r, l', e1, e2, e3, e4⟩ := sstep_cases h1
    cases e1
    obtain ⟨m1, m2, m3⟩ := lookup_mem e2
    subst e4
    rw [proceed_k] at h3
    exact ⟨r, m1, m2, m3, l', a, b, e3, h2, h3⟩
  · rintro ⟨r, m1, m2, m3, l', a, b, e3, h2, h3⟩
    exact (acc_row ((lookup_iff (disjoint_check k hk) _ _).2 ⟨m1, m2, m3⟩) e3).2 ⟨b, h2, h3⟩

/-- The row taken at a symbol. -/
def rowAt (k n : Nat) : Option (List MAct × Nat) := (lookup (rows k) n).map fun r => (r.acts, r.tgt)

theorem step_at {k t : Nat} {l l' : Loc} {c : UInt8} {tl : Bytes} {as : List MAct} {a : List Upd}
    (h : rowAt k (ssymbol k (c :: tl) c) = some (as, t)) (g : sacts as c l = some (l', a)) :
    sstep ⟨k, l, c :: tl⟩ = some (proceed (moveOf as) t l' (c :: tl) tl c, a) := by
  unfold rowAt at h
  cases hr : lookup (rows k) (ssymbol k (c :: tl) c) with
  | none => rw [hr] at h; cases h
  | some r =>
    rw [hr] at h
    simp only [Option.map_some, Option.some.injEq, Prod.mk.injEq] at h
    obtain ⟨rfl, rfl⟩ := h
    exact sstep_intro hr g

theorem stuck_at {k : Nat} {l : Loc} {c : UInt8} {tl : Bytes} {us : List Upd}
    (h : rowAt k (ssymbol k (c :: tl) c) = none) : ¬ Acc k l (c :: tl) us := by
  refine acc_stuck ?_
  unfold rowAt at h
  cases hr : lookup (rows k) (ssymbol k (c :: tl) c) with
  | none => rfl
  | some r => rw [hr] at h; cases h

theorem ssymbol_ne {k : Nat} {inp : Bytes} {c : UInt8} (h : c ≠ 13) : ssymbol k inp c = c.toNat := by
  unfold ssymbol
  have : (c == 13) = false := by simpa using h
  simp [this]

theorem ssymbol_narrow {k : Nat} {inp : Bytes} {c : UInt8} (h : wide k = false) : ssymbol k inp c = c.toNat := by
  unfold ssymbol; simp [h]

theorem ssymbol_cr {k : Nat} {tl : Bytes} (h : wide k = true) :
    ssymbol k (13 :: tl) 13 = bif startsWSP tl.tail then 525 else 269 := by
  unfold ssymbol
  rw [h]
  match tl with
  | [] => rfl
  | [_] => rfl
  | _ :: _ :: _ => rfl

/-- A transition without action at a byte that is not CR. -/
theorem plain_step {k t : Nat} {l : Loc} {c : UInt8} {tl : Bytes} (hc : c ≠ 13)
    (h : rowAt k c.toNat = some ([], t)) :
    SRun ⟨k, l, c :: tl⟩ [] ⟨t, { l with seg := l.seg ++ [c] }, tl⟩ :=
  .one (step_at (as := []) (l' := l) (by rw [ssymbol_ne hc]; exact h) rfl)

/-- A loop of a state. -/
theorem loop_run {k : Nat} {l : Loc} {s tl : Bytes} (h : ∀ c ∈ s, c ≠ 13 ∧ rowAt k c.toNat = some ([], k)) :
    SRun ⟨k, l, s ++ tl⟩ [] ⟨k, { l with seg := l.seg ++ s }, tl⟩ := by
  induction s generalizing l with
  | nil => simpa using SRun.refl _
  | cons c s ih =>
    obtain ⟨h1, h2⟩ := h c List.mem_cons_self
    have := (plain_step (l := l) (tl := s ++ tl) h1 h2).trans
      (ih (l := { l with seg := l.seg ++ [c] }) fun d hd => h d (List.mem_cons_of_mem _ hd))
    simpa using this

end Gosip.Sip.MsgM
