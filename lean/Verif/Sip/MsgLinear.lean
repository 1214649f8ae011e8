import Verif.Sip.MsgSafe

/-!
# The message machine: the number of passes is linear

The only transitions that move back to the mark end the look-ahead for `<` or `:` at the beginning of an
address. After one, the states in `again` read the bytes seen by the look-ahead a second time, and none of
them leads to another look-ahead before the `<` or `:`. So every byte is read at most once by a look-ahead.
-/

namespace Gosip.Sip.MsgM

/-- The bytes that end the look-ahead. -/
def isEnd (c : UInt8) : Bool := c == 60 || c == 58

/-- The number of bytes from position `p` to the next `<` or `:`, or to the end. -/
def ahead (d : Bytes) (p : Nat) : Nat := ((d.drop p).takeWhile fun c => !isEnd c).length

theorem ahead_le (d : Bytes) (p : Nat) : ahead d p ≤ d.length - p := by
  unfold ahead
  have := (List.takeWhile_sublist (fun c => !isEnd c) (l := d.drop p)).length_le
  rw [List.length_drop] at this
  exact this

theorem ahead_end {d : Bytes} {p : Nat} {c : UInt8} (h : d[p]? = some c) (hc : isEnd c = true) : ahead d p = 0 := by
  obtain ⟨hp, rfl⟩ := List.getElem?_eq_some_iff.1 h
  unfold ahead
  rw [List.drop_eq_getElem_cons hp, List.takeWhile_cons]
  simp [hc]

theorem ahead_more {d : Bytes} {p : Nat} {c : UInt8} (h : d[p]? = some c) (hc : isEnd c = false) :
    ahead d p = ahead d (p + 1) + 1 := by
  obtain ⟨hp, rfl⟩ := List.getElem?_eq_some_iff.1 h
  unfold ahead
  rw [List.drop_eq_getElem_cons hp, List.takeWhile_cons]
  simp [hc]

/-- The states that read what the look-ahead has seen, up to the `<` or `:`. -/
def again (k : Nat) : Bool :=
  Nat.beq k 188 || Nat.beq k 189 || (Nat.ble 210 k && Nat.ble k 230)

/-- The potential: an upper bound for the number of passes to come. -/
def potential (d : Bytes) (k : Nat) (x : Ctx) : Nat :=
  if looking k then 10 * (d.length - x.mark) + 5 + ahead d x.p - 2 * ahead d x.mark
  else if again k then 10 * (d.length - x.p) + rank k - 2 * ahead d x.p
  else 10 * (d.length - x.p) + rank k

/-- What the look-ahead knows: the bytes from the mark on contain no `<` and no `:`. -/
def Looked (d : Bytes) (k : Nat) (x : Ctx) : Prop :=
  looking k = true → x.mark ≤ x.p ∧ x.mark ≤ d.length ∧ ahead d x.mark = x.p - x.mark + ahead d x.p

/-- A symbol that stands for a byte other than `<` and `:`. -/
def noEnd (r : Row) : Bool := !(Nat.ble r.lo 58 && Nat.ble 58 r.hi) && !(Nat.ble r.lo 60 && Nat.ble 60 r.hi)

/-- The shape of the rows with respect to the potential. -/
def checkLook (k : Nat) (r : Row) : Bool :=
  Nat.beq r.tgt 781 ||
  ((!looking r.tgt || noEnd r) && (!looking k || looking r.tgt || again r.tgt) &&
   (!again k || (r.acts.all (fun a => !isBack a) && Nat.beq (holds r.acts) 0 && !looking r.tgt)) &&
   (!again k || again r.tgt || (Nat.beq r.lo 60 && Nat.beq r.hi 60) || (Nat.beq r.lo 58 && Nat.beq r.hi 58)))

theorem look_all : ∀ k, k < 765 → ∀ r ∈ rows k, checkLook k r = true := by decide +kernel

theorem symbol_end {d : Bytes} {k p : Nat} {c : UInt8} (h : isEnd c = true) : symbol d k p c = c.toNat := by
  unfold symbol
  have : (c == 13) = false := by
    simp only [isEnd, Bool.or_eq_true, beq_iff_eq] at h
    rcases h with rfl | rfl <;> rfl
  rw [this, Bool.and_false, cond_false]

theorem symbol_small {d : Bytes} {k p n : Nat} {c : UInt8} (h : symbol d k p c = n) (hn : n < 256) : c.toNat = n := by
  unfold symbol at h
  cases hb : wide k && c == 13 <;> rw [hb] at h
  · exact h
  · cases hl : lookAheadWSP d p <;> rw [hl] at h <;> simp only [cond_true, cond_false] at h <;> omega

theorem not_end {r : Row} {d : Bytes} {k p : Nat} {c : UInt8} (h : noEnd r = true) (h1 : r.lo ≤ symbol d k p c)
    (h2 : symbol d k p c ≤ r.hi) : isEnd c = false := by
  cases hb : isEnd c
  · rfl
  · rw [symbol_end hb] at h1 h2
    simp only [isEnd, Bool.or_eq_true, beq_iff_eq] at hb
    simp only [noEnd, Bool.and_eq_true, Bool.not_eq_true', Bool.and_eq_false_iff] at h
    have nle : ∀ {a b : Nat}, Nat.ble a b = false → ¬ a ≤ b := fun h h' => by
      rw [Nat.ble_eq_true_of_le h'] at h; cases h
    rcases hb with rfl | rfl
    · rcases h.2 with h | h
      · exact absurd h1 (nle h)
      · exact absurd h2 (nle h)
    · rcases h.1 with h | h
      · exact absurd h1 (nle h)
      · exact absurd h2 (nle h)

theorem is_end {r : Row} {d : Bytes} {k p : Nat} {c : UInt8}
    (h : (Nat.beq r.lo 60 && Nat.beq r.hi 60) = true ∨ (Nat.beq r.lo 58 && Nat.beq r.hi 58) = true)
    (h1 : r.lo ≤ symbol d k p c) (h2 : symbol d k p c ≤ r.hi) : isEnd c = true := by
  simp only [Bool.and_eq_true, Nat.beq_eq] at h
  simp only [isEnd, Bool.or_eq_true, beq_iff_eq]
  rcases h with ⟨e1, e2⟩ | ⟨e1, e2⟩
  · exact .inl (UInt8.toNat_inj.1 (symbol_small (d := d) (k := k) (p := p) (n := 60) (by omega) (by omega)))
  · exact .inr (UInt8.toNat_inj.1 (symbol_small (d := d) (k := k) (p := p) (n := 58) (by omega) (by omega)))

/-- Every pass that does not end the loop lowers the potential and keeps what the look-ahead knows. -/
theorem potential_lt {d : Bytes} {k k' : Nat} {x x' : Ctx} (h : Inv d k x) (hL : Looked d k x)
    (hs : step d k x = .cont k' x') : Looked d k' x' ∧ potential d k' x' < potential d k x := by
  rcases step_cases (d := d) (k := k) (x := x) with ⟨_, h1⟩ | ⟨c, hc, _, h1⟩ | ⟨c, r, hc, hl, h1⟩
  · rw [h1] at hs; cases hs
  · rw [h1] at hs; cases hs
  · rw [h1] at hs
    have hp : x.p < d.length := by
      rw [List.getElem?_eq_some_iff] at hc; exact hc.1
    obtain ⟨hmem, hlo, hhi⟩ := lookup_mem hl
    have hr := move_all k h.state r hmem
    have hq := look_all k h.state r hmem
    cases he : execs d r.acts x with
    | panic => simp [he, after] at hs
    | err e => simp [he, after] at hs
    | ok y =>
      rw [he] at hs
      simp only [after] at hs
      split at hs
      · cases hs
      · rename_i ht
        cases hs
        have ht' : Nat.beq r.tgt 781 = false := by
          cases hb : Nat.beq r.tgt 781
          · rfl
          · exact absurd (Nat.eq_of_beq_eq_true hb) ht
        simp only [checkMove, ht', Bool.false_or, Bool.and_eq_true, Nat.ble_eq] at hr
        obtain ⟨⟨hr, hk6⟩, ht6⟩ := hr
        simp only [checkLook, ht', Bool.false_or, Bool.and_eq_true] at hq
        obtain ⟨⟨⟨q1, q2⟩, q3⟩, q4⟩ := hq
        have a0 := ahead_le d x.p
        have a1 := ahead_le d (x.p + 1)
        unfold potential Looked
        cases hlk : looking k <;> cases hlt : looking r.tgt <;> rw [hlk, hlt] at hr <;>
          simp only [Bool.and_eq_true, Bool.or_eq_true, beq_iff_eq, Nat.beq_eq, Nat.ble_eq, Nat.blt_eq] at hr
        · -- ordinary
          have hpy := execs_p he hr.1
          refine ⟨fun e => (by cases e), ?_⟩
          simp only [Bool.false_eq_true, if_false]
          cases hak : again k
          · simp only [Bool.false_eq_true, if_false]
            rcases hr.2 with h0 | ⟨h1', h2'⟩
            · have hy : y.p = x.p := by omega
              rw [hy]
              split <;> omega
            · have hy : y.p + 1 = x.p := by omega
              rw [hy]
              split <;> omega
          · rw [hak] at q3 q4
            simp only [Bool.not_true, Bool.false_or, Bool.and_eq_true, Nat.beq_eq, if_true] at q3 q4 ⊢
            have hy : y.p = x.p := by omega
            rw [hy]
            cases hat : again r.tgt
            · rw [hat] at q4
              simp only [Bool.false_or, Bool.or_eq_true] at q4
              have := ahead_end hc (is_end q4 hlo hhi)
              simp only [Bool.false_eq_true, if_false]
              omega
            · simp only [if_true]
              cases hce : isEnd c
              · have := ahead_more hc hce
                omega
              · have := ahead_end hc hce
                omega
        · -- start of the look-ahead
          rw [hlt] at q1
          have hce := ahead_more hc (not_end (by simpa using q1) hlo hhi)
          have hak : again k = false := by
            cases ha : again k
            · rfl
            · rw [ha, hlt] at q3; simp at q3
          rw [hr.1] at he
          simp only [execs, exec, Res.bind_eq, Res.bind] at he
          cases he
          simp only [if_true, Bool.false_eq_true, if_false, hak]
          exact ⟨fun _ => ⟨by omega, by omega, by omega⟩, by omega⟩
        · -- backtrack
          have hy := execs_ok he
          have hm : x.mark ≠ 0 := by
            intro h0
            rw [hr.1] at he
            simp [execs, exec, h0, Res.bind_eq, Res.bind] at he
          rw [hr.1] at hy
          have hyp : y.p = x.mark - 1 := by rw [hy]; rfl
          have hat : again r.tgt = true := by rw [hlk, hlt] at q2; simpa using q2
          have a2 := ahead_le d x.mark
          refine ⟨fun e => (by cases e), ?_⟩
          simp only [if_true, Bool.false_eq_true, if_false, hat]
          rw [hyp, show x.mark - 1 + 1 = x.mark by omega]
          obtain ⟨l1, l2, l3⟩ := hL hlk
          omega
        · -- inside the look-ahead
          rw [hlt] at q1
          have hce := ahead_more hc (not_end (by simpa using q1) hlo hhi)
          rw [hr] at he
          cases he
          obtain ⟨l1, l2, l3⟩ := hL hlk
          simp only [if_true]
          have a2 := ahead_le d x.mark
          exact ⟨fun _ => ⟨by omega, l2, by omega⟩, by omega⟩

/-- With more passes than the potential the loop ends. -/
theorem run_ends_linear {d : Bytes} {n k : Nat} {x : Ctx} (h : Inv d k x) (hL : Looked d k x) (hm : potential d k x < n) :
    run d n k x ≠ .outOfFuel := by
  induction n generalizing k x with
  | zero => omega
  | succ n ih =>
    unfold run
    have hg := step_good h
    cases hs : step d k x with
    | cont k' x' =>
      rw [hs] at hg
      obtain ⟨h1, h2⟩ := potential_lt h hL hs
      exact ih hg h1 (by omega)
    | brk x' => simp
    | stop e => simp
    | panic => simp

/-- The loop ends within `10 n + 1` passes. -/
theorem run_linear {d : Bytes} {n : Nat} (hn : 10 * d.length + 1 ≤ n) : run d n 1 (initCtx d) ≠ .outOfFuel :=
  run_ends_linear (inv_init d) (fun e => by cases e) (by
    have : rank 1 = 0 := by decide
    simp only [potential, looking, again, this, initCtx]
    simp
    omega)

end Gosip.Sip.MsgM
