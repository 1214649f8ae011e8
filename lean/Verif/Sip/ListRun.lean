import Verif.Sip.Skip

/-!
# Elements of lists in header values

An element of a `Via` header or a header with addresses is read in the same way whether the line ends after it
or a comma follows.
-/

namespace Gosip.Sip.MsgM
open Spec

/-- The parts of the machine for lists: addresses and `Via`. -/
def listState (k : Nat) : Bool := Nat.beq (reg k) 3 || Nat.beq (reg k) 4

/-- No transition at CR. -/
def noCr (k : Nat) : Bool := !wide k && (lookup (rows k) 13).isNone

/-- Transitions at LF only. -/
def onlyLf (k : Nat) : Bool := !wide k && (rows k).all fun r => Nat.beq r.lo 10 && Nat.beq r.hi 10

/-- A symbol in the range of a row. -/
def inRow (n : Nat) (r : Row) : Bool := Nat.ble r.lo n && Nat.ble n r.hi

/-- A row that ends an element at the end of the line. -/
def endRow (r : Row) : Bool := inRow 269 r && decide (moveOf r.acts = .adv)

/-- Rows of the parts for lists. -/
def listRow (k : Nat) (r : Row) : Bool :=
  !listState k ||
  ((Nat.beq r.tgt 280 || Nat.beq (reg r.tgt) (reg k)) &&
    (!inRow 525 r || (decide (moveOf r.acts = .adv) && onlyLf r.tgt)) &&
    (!inRow 269 r || (decide (moveOf r.acts = .stay) && noCr r.tgt) || (decide (moveOf r.acts = .adv) && onlyLf r.tgt)) &&
    (!(inRow 13 r && !wide k) || (decide (moveOf r.acts = .stay) && noCr r.tgt)) &&
    (!Nat.beq r.tgt 232 || (decide (moveOf r.acts = .adv) && !inRow 62 r)))

theorem list_check : ∀ k, k < 765 → ∀ r ∈ rows k, listRow k r = true := by decide +kernel

/-- The states for addresses that are reached without `;` and `<`. -/
def plainState (k : Nat) : Bool :=
  ([188, 189, 210, 211, 212, 213, 214, 215, 216, 217, 218, 219, 220, 221, 222, 223, 224, 225, 226, 227, 228, 229, 230,
    231, 232, 233, 234, 235, 236, 237, 242, 243, 244, 245, 246, 247, 248, 249, 255, 256, 257, 258, 259, 260, 261, 262,
    395, 396, 397, 398] : List Nat).contains k

/-- Rows of these states. -/
def plainRow (k : Nat) (r : Row) : Bool :=
  !plainState k || Nat.beq r.tgt 280 || plainState r.tgt || (Nat.beq r.lo r.hi && (Nat.beq r.lo 59 || Nat.beq r.lo 60))

theorem plain_check : ∀ k, k < 765 → ∀ r ∈ rows k, plainRow k r = true := by decide +kernel

theorem inRow_of {n : Nat} {r : Row} (h1 : r.lo ≤ n) (h2 : n ≤ r.hi) : inRow n r = true := by
  simp [inRow, Nat.ble_eq_true_of_le h1, Nat.ble_eq_true_of_le h2]

theorem noCr_stuck {k : Nat} {l : Loc} {tl : Bytes} {us : List Upd} (h : noCr k = true) : ¬ Acc k l (13 :: tl) us := by
  simp only [noCr, Bool.and_eq_true, Bool.not_eq_true', Option.isNone_iff_eq_none] at h
  refine acc_stuck ?_
  rw [ssymbol_narrow h.1]
  exact h.2

theorem onlyLf_stuck {k : Nat} {l : Loc} {c : UInt8} {tl : Bytes} {us : List Upd} (h : onlyLf k = true) (hc : c ≠ 10) :
    ¬ Acc k l (c :: tl) us := by
  simp only [onlyLf, Bool.and_eq_true, Bool.not_eq_true', List.all_eq_true] at h
  refine acc_stuck ?_
  rw [ssymbol_narrow h.1]
  cases hx : lookup (rows k) c.toNat with
  | none => rfl
  | some r =>
    obtain ⟨m1, m2, m3⟩ := lookup_mem hx
    have := h.2 r m1
    have a1 := Nat.eq_of_beq_eq_true this.1
    have a2 := Nat.eq_of_beq_eq_true this.2
    exact absurd (UInt8.toNat_inj.1 (by change c.toNat = 10; omega)) hc

/-- What is left of the line, with something else after it. -/
theorem list_run {s t : Conf} {us : List Upd} {L : Bytes} (h : SRun s us t) (ht : t.k = 280 ∧ t.inp = [])
    (hL : LogicalLine L) (hh : Hist false (L ++ CRLF) s) (hk : s.k < 765) (hg : listState s.k = true) {x : Bytes}
    (hx : s.inp = x ++ CRLF) :
    ∃ k l u1 u2, us = u1 ++ u2 ∧ (∀ y, SRun ⟨s.k, s.l, x ++ y⟩ u1 ⟨k, l, y⟩) ∧ SRun ⟨k, l, CRLF⟩ u2 t ∧ k < 765 ∧
      reg k = reg s.k ∧ wide k = true ∧ (∃ r ∈ rows k, endRow r = true) ∧ (x = [] → k = s.k) ∧
      (k = 232 → x ≠ [] → x.getLast? ≠ some 62) ∧
      (plainState s.k = true → (∀ c ∈ x ++ s.l.seg, c ≠ 59 ∧ c ≠ 60) → plainState k = true) := by
  induction h generalizing x with
  | refl s => rw [ht.2] at hx; simp [CRLF] at hx
  | @step s t v a b h1 h2 ih =>
    obtain ⟨q, pre, hq, hpre, hrd⟩ := id hh
    have hh' := hh.step hk h1
    have hkt : t.k < 765 := by
      refine (sstep_k hk h1).resolve_left fun e => ?_
      cases h2 with
      | refl => rw [e] at ht; cases ht.1
      | step g _ =>
        obtain ⟨tk, tl, ti⟩ := t
        simp only [] at e
        subst e
        rw [sstep_781] at g; cases g
    have hacc : ∀ {k l i}, t = ⟨k, l, i⟩ → Acc k l i b := by
      rintro k l i rfl
      obtain ⟨vk, vl, vi⟩ := v
      obtain ⟨rfl, rfl⟩ := ht
      exact ⟨vl, h2⟩
    have hlr : ∀ {k l i}, t = ⟨k, l, i⟩ → i ≠ [] → k ≠ 280 := by
      rintro k l i ht' hi rfl
      have := hacc ht'
      subst ht'
      obtain ⟨q', pre', hq', _, hrd'⟩ := hh'
      rcases hrd'.1 rfl with ⟨e, _⟩ | ⟨z, rfl⟩
      · cases e
      · exact hi (logical_rest hL hq' this).1
    obtain ⟨k, l, inp⟩ := s
    simp only [] at hx hk hg hq hpre hrd
    obtain ⟨c, tl, r, l', e1, e2, e3, e4⟩ := sstep_cases h1
    simp only [] at e1 e2 e3 e4
    obtain ⟨m1, m2, m3⟩ := lookup_mem e2
    have hc := list_check k hk r m1
    simp only [listRow, hg, Bool.not_true, Bool.false_or, Bool.and_eq_true, Bool.or_eq_true, Bool.not_eq_true',
      decide_eq_true_eq] at hc
    obtain ⟨⟨⟨⟨c1, c2⟩, c3⟩, c4⟩, c5⟩ := hc
    -- continuing
    have htgt : ∀ {l i}, t = ⟨r.tgt, l, i⟩ → i ≠ [] → reg r.tgt = reg k ∧ listState r.tgt = true := by
      intro l i ht' hi
      have := hlr ht' hi
      have hreg : reg r.tgt = reg k := by
        rcases c1 with c1 | c1
        · exact absurd (Nat.eq_of_beq_eq_true c1) this
        · exact Nat.eq_of_beq_eq_true c1
      refine ⟨hreg, ?_⟩
      unfold listState
      rw [hreg]
      exact hg
    have hplain : r.tgt ≠ 280 → plainState k = true → c ≠ 59 ∧ c ≠ 60 → plainState r.tgt = true := by
      intro ht hp hc
      have hp' := plain_check k hk r m1
      simp only [plainRow, hp, Bool.not_true, Bool.false_or, Bool.or_eq_true, Bool.and_eq_true] at hp'
      rcases hp' with (hp' | hp') | ⟨h1, h2⟩
      · exact absurd (Nat.eq_of_beq_eq_true hp') ht
      · exact hp'
      · exfalso
        have h1 := Nat.eq_of_beq_eq_true h1
        rcases ssymbol_bound k inp c with hsy | ⟨_, _, hsy⟩
        · rw [hsy] at m2 m3
          rcases h2 with h2 | h2
          · have h2 := Nat.eq_of_beq_eq_true h2
            exact hc.1 (UInt8.toNat_inj.1 (by change c.toNat = 59; omega))
          · have h2 := Nat.eq_of_beq_eq_true h2
            exact hc.2 (UInt8.toNat_inj.1 (by change c.toNat = 60; omega))
        · rw [hsy] at m2 m3
          have h2 : r.lo = 59 ∨ r.lo = 60 := h2.imp Nat.eq_of_beq_eq_true Nat.eq_of_beq_eq_true
          cases hl : lookWSP inp <;> rw [hl] at m2 m3 <;> simp only [cond_true, cond_false] at m2 m3 <;> omega
    have hseg : ∀ P : UInt8 → Prop, (∀ d ∈ l.seg, P d) → ∀ d ∈ l'.seg, P d := by
      intro P hP d hd
      rcases sacts_seg e3 with e | e
      · exact hP d (e ▸ hd)
      · rw [e] at hd; cases hd
    have adv : moveOf r.acts = .adv → ∀ x', x = c :: x' →
        (∀ y, lookup (rows k) (ssymbol k (c :: (x' ++ y)) c) = some r) →
        ∃ k1 l1 u1 u2, a ++ b = u1 ++ u2 ∧ (∀ y, SRun ⟨k, l, x ++ y⟩ u1 ⟨k1, l1, y⟩) ∧ SRun ⟨k1, l1, CRLF⟩ u2 v ∧
          k1 < 765 ∧ reg k1 = reg k ∧ wide k1 = true ∧ (∃ r ∈ rows k1, endRow r = true) ∧ (x = [] → k1 = k) ∧
          (k1 = 232 → x ≠ [] → x.getLast? ≠ some 62) ∧
          (plainState k = true → (∀ c ∈ x ++ l.seg, c ≠ 59 ∧ c ≠ 60) → plainState k1 = true) := by
      rintro hm x' rfl hlook
      have htl : tl = x' ++ CRLF := by
        rw [e1] at hx
        simpa using hx
      have ht' : t = ⟨r.tgt, { l' with seg := l'.seg ++ [c] }, x' ++ CRLF⟩ := by rw [e4, hm, htl]; rfl
      obtain ⟨hreg, hls⟩ := htgt ht' (by simp [CRLF])
      have h280 := hlr ht' (by simp [CRLF])
      subst ht'
      obtain ⟨k1, l1, u1, u2, j1, j2, j3, j4, j5, j6, j7, j8, j9, j10⟩ := ih ht hh' hkt hls rfl
      refine ⟨k1, l1, a ++ u1, u2, by rw [j1, List.append_assoc], ?_, j3, j4, j5.trans hreg, j6, j7,
        (fun e => by cases e), ?_, ?_⟩
      · intro y
        refine SRun.step (t := ⟨r.tgt, { l' with seg := l'.seg ++ [c] }, x' ++ y⟩) ?_ (j2 y)
        have := sstep_intro (l := l) (hlook y) e3
        rw [hm] at this
        exact this
      · intro e _
        cases x' with
        | cons d x' =>
          rw [List.getLast?_cons_cons]
          exact j9 e (by simp)
        | nil =>
          have e' := (j8 rfl).symm.trans e
          rcases c5 with c5 | c5
          · rw [show r.tgt = 232 from e'] at c5; cases c5
          · intro e62
            simp only [List.getLast?_singleton, Option.some.injEq] at e62
            subst e62
            have hsy : ssymbol k inp 62 = 62 := ssymbol_ne (by decide)
            rw [hsy] at m2 m3
            rw [inRow_of m2 m3] at c5
            cases c5.2
      · intro hp hb
        refine j10 (hplain h280 hp (hb c (by simp))) fun d hd => ?_
        simp only [List.mem_append, List.mem_singleton] at hd
        rcases hd with hd | hd | rfl
        · exact hb d (by simp [hd])
        · exact hseg (fun d => d ≠ 59 ∧ d ≠ 60) (fun d hd => hb d (List.mem_append_right _ hd)) d hd
        · exact hb d (by simp)
    have stay : moveOf r.acts = .stay → x ≠ [] →
        (∀ y, ∃ x', x = c :: x' ∧ lookup (rows k) (ssymbol k (c :: (x' ++ y)) c) = some r) →
        ∃ k1 l1 u1 u2, a ++ b = u1 ++ u2 ∧ (∀ y, SRun ⟨k, l, x ++ y⟩ u1 ⟨k1, l1, y⟩) ∧ SRun ⟨k1, l1, CRLF⟩ u2 v ∧
          k1 < 765 ∧ reg k1 = reg k ∧ wide k1 = true ∧ (∃ r ∈ rows k1, endRow r = true) ∧ (x = [] → k1 = k) ∧
          (k1 = 232 → x ≠ [] → x.getLast? ≠ some 62) ∧
          (plainState k = true → (∀ c ∈ x ++ l.seg, c ≠ 59 ∧ c ≠ 60) → plainState k1 = true) := by
      intro hm hne hlook
      have ht' : t = ⟨r.tgt, l', x ++ CRLF⟩ := by rw [e4, hm, hx]; rfl
      obtain ⟨hreg, hls⟩ := htgt ht' (by simp [CRLF])
      have h280 := hlr ht' (by simp [CRLF])
      subst ht'
      obtain ⟨k1, l1, u1, u2, j1, j2, j3, j4, j5, j6, j7, j8, j9, j10⟩ := ih ht hh' hkt hls rfl
      refine ⟨k1, l1, a ++ u1, u2, by rw [j1, List.append_assoc], ?_, j3, j4, j5.trans hreg, j6, j7,
        fun e => absurd e hne, j9, ?_⟩
      rotate_left
      · intro hp hb
        obtain ⟨x', rfl, -⟩ := hlook []
        refine j10 (hplain h280 hp (hb c (by simp))) fun d hd => ?_
        rcases List.mem_append.1 hd with hd | hd
        · exact hb d (List.mem_append_left _ hd)
        · exact hseg (fun d => d ≠ 59 ∧ d ≠ 60) (fun d hd => hb d (List.mem_append_right _ hd)) d hd
      intro y
      obtain ⟨x', rfl, hl⟩ := hlook y
      refine SRun.step (t := ⟨r.tgt, l', c :: x' ++ y⟩) ?_ (j2 y)
      have := sstep_intro (l := l) hl e3
      rw [hm] at this
      exact this
    have back : moveOf r.acts = .back → x ≠ [] →
        (∀ y, ∃ x', x = c :: x' ∧ lookup (rows k) (ssymbol k (c :: (x' ++ y)) c) = some r) →
        ∃ k1 l1 u1 u2, a ++ b = u1 ++ u2 ∧ (∀ y, SRun ⟨k, l, x ++ y⟩ u1 ⟨k1, l1, y⟩) ∧ SRun ⟨k1, l1, CRLF⟩ u2 v ∧
          k1 < 765 ∧ reg k1 = reg k ∧ wide k1 = true ∧ (∃ r ∈ rows k1, endRow r = true) ∧ (x = [] → k1 = k) ∧
          (k1 = 232 → x ≠ [] → x.getLast? ≠ some 62) ∧
          (plainState k = true → (∀ c ∈ x ++ l.seg, c ≠ 59 ∧ c ≠ 60) → plainState k1 = true) := by
      intro hm hne hlook
      have ht' : t = ⟨r.tgt, { l' with seg := [] }, (l'.seg ++ x) ++ CRLF⟩ := by
        rw [e4, hm, hx]; simp [proceed]
      obtain ⟨hreg, hls⟩ := htgt ht' (by simp [CRLF])
      have h280 := hlr ht' (by simp [CRLF])
      subst ht'
      obtain ⟨k1, l1, u1, u2, j1, j2, j3, j4, j5, j6, j7, j8, j9, j10⟩ := ih ht hh' hkt hls rfl
      refine ⟨k1, l1, a ++ u1, u2, by rw [j1, List.append_assoc], ?_, j3, j4, j5.trans hreg, j6, j7,
        fun e => absurd e hne, ?_, ?_⟩
      · intro y
        obtain ⟨x', rfl, hl⟩ := hlook y
        refine SRun.step (t := ⟨r.tgt, { l' with seg := [] }, (l'.seg ++ (c :: x')) ++ y⟩) ?_ (j2 y)
        have := sstep_intro (l := l) hl e3
        rw [hm] at this
        simpa [proceed] using this
      · intro e hn
        have := j9 e (by simp [hn])
        intro e2; apply this; rw [List.getLast?_append, e2]; rfl
      · intro hp hb
        obtain ⟨x', rfl, -⟩ := hlook []
        refine j10 (hplain h280 hp (hb c (by simp))) fun d hd => ?_
        simp only [List.append_nil] at hd
        rcases List.mem_append.1 hd with hd | hd
        · exact hseg (fun d => d ≠ 59 ∧ d ≠ 60) (fun d hd => hb d (List.mem_append_right _ hd)) d hd
        · exact hb d (List.mem_append_left _ hd)
    -- at CR only the continuation of the line is read
    have crstop : ∀ tl', t = ⟨r.tgt, l', 13 :: tl'⟩ → noCr r.tgt = true → False := fun tl' e hn => noCr_stuck hn (hacc e)
    cases x with
    | nil =>
      have hx' : inp = 13 :: [10] := hx
      rw [hx'] at e1
      cases e1
      subst hx'
      cases hw : wide k with
      | false =>
        rw [ssymbol_narrow hw] at m2 m3
        rcases c4 with c4 | c4
        · rw [show inRow 13 r = true from inRow_of m2 m3, hw] at c4; cases c4
        · exact absurd c4.2 (fun hn => crstop [10] (by rw [e4, c4.1]; rfl) hn)
      | true =>
        rw [ssymbol_cr hw] at m2 m3
        have hin : inRow 269 r = true := inRow_of m2 m3
        rcases c3 with (c3 | c3) | c3
        · rw [hin] at c3; cases c3
        · exact absurd c3.2 (fun hn => crstop [10] (by rw [e4, c3.1]; rfl) hn)
        · refine ⟨k, l, [], a ++ b, rfl, fun y => .refl _, .step h1 h2, hk, rfl, hw, ⟨r, m1, ?_⟩, fun _ => rfl,
            fun _ h => absurd rfl h, fun h _ => h⟩
          simp [endRow, hin, c3.1]
    | cons d x =>
      have hd : d = c ∧ tl = x ++ CRLF := by
        rw [e1] at hx
        simp only [List.cons_append, List.cons.injEq] at hx
        exact ⟨hx.1.symm, hx.2⟩
      obtain ⟨rfl, htl⟩ := hd
      subst htl
      by_cases hs : d ≠ 13 ∨ wide k = false
      · have hlook : ∀ y, lookup (rows k) (ssymbol k (d :: (x ++ y)) d) = some r := by
          intro y
          rw [← e2]
          rcases hs with hs | hs
          · rw [ssymbol_ne hs, ssymbol_ne hs]
          · rw [ssymbol_narrow hs, ssymbol_narrow hs]
        cases hm : moveOf r.acts with
        | adv => exact adv hm x rfl hlook
        | stay => exact stay hm (by simp) fun y => ⟨x, rfl, hlook y⟩
        | back => exact back hm (by simp) fun y => ⟨x, rfl, hlook y⟩
      · have hd : d = 13 := Classical.byContradiction fun h => hs (.inl h)
        have hw : wide k = true := by
          cases hw : wide k
          · exact absurd (.inr hw) hs
          · rfl
        subst hd
        by_cases hfold : ∃ w z, x = 10 :: w :: z ∧ (w = 32 ∨ w = 9)
        · obtain ⟨w, z, rfl, hb⟩ := hfold
          have hsy : ∀ y, ssymbol k (13 :: (10 :: w :: z ++ y)) 13 = 525 := by
            intro y
            rw [ssymbol_cr hw]
            simp only [List.cons_append, List.tail_cons]
            rw [startsWSP_iff.2 hb]
            rfl
          have hm : moveOf r.acts = .adv := by
            subst e1
            rw [hsy] at m2 m3
            rcases c2 with c2 | c2
            · rw [inRow_of m2 m3] at c2; cases c2
            · exact c2.1
          refine adv hm _ rfl fun y => ?_
          rw [hsy]
          rw [← e2, e1, hsy]
        · exfalso
          subst e1
          -- what follows is not LF
          have hne : ∀ w z, x ++ CRLF = w :: z → w ≠ 10 := by
            rintro w z e rfl
            cases x with
            | nil => cases e
            | cons w x =>
              simp only [List.cons_append, List.cons.injEq] at e
              obtain ⟨rfl, rfl⟩ := e
              have := hL q (x ++ CRLF) (by rw [hq]; simp [CRLF])
              rcases this with e | ⟨w, z, e, hb⟩
              · simp [CRLF] at e
              · cases x with
                | nil => cases e; rcases hb with hb | hb <;> cases hb
                | cons w' x =>
                  simp only [List.cons_append, List.cons.injEq] at e
                  exact hfold ⟨w', x, rfl, by rw [e.1]; exact hb⟩
          have lf : moveOf r.acts = .adv → onlyLf r.tgt = true → False := by
            intro hm ho
            have ht' : t = ⟨r.tgt, { l' with seg := l'.seg ++ [13] }, x ++ CRLF⟩ := by rw [e4, hm]; rfl
            have := hacc ht'
            cases hxx : x ++ CRLF with
            | nil => simp [CRLF] at hxx
            | cons w z =>
              rw [hxx] at this
              exact onlyLf_stuck ho (hne w z hxx) this
          rw [ssymbol_cr hw] at m2 m3
          cases hb : startsWSP (x ++ CRLF).tail with
          | true =>
            rw [hb] at m2 m3
            rcases c2 with c2 | c2
            · rw [show inRow 525 r = true from inRow_of m2 m3] at c2; cases c2
            · exact lf c2.1 c2.2
          | false =>
            rw [hb] at m2 m3
            rcases c3 with (c3 | c3) | c3
            · rw [show inRow 269 r = true from inRow_of m2 m3] at c3; cases c3
            · exact crstop (x ++ CRLF) (by rw [e4, c3.1]; rfl) c3.2
            · exact lf c3.1 c3.2

end Gosip.Sip.MsgM
