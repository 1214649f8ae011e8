import Verif.Sip.WorkLemmas

/-!
# A message that takes `ParseMsg` long to read
-/

namespace Gosip.Sip.MsgM

/-- Several passes. -/
def steps (d : Bytes) : Nat → Nat → Ctx → Option (Nat × Ctx)
  | 0, k, x => some (k, x)
  | n + 1, k, x => match step d k x with
    | .cont k' x' => steps d n k' x'
    | _ => none

theorem runWork_steps {d : Bytes} {j m k k' : Nat} {x x' : Ctx} (h : steps d j k x = some (k', x')) :
    runWork d m k' x' ≤ runWork d (j + m) k x := by
  induction j generalizing k x with
  | zero => cases h; rw [Nat.zero_add]; exact Nat.le_refl _
  | succ j ih =>
    rw [show j + 1 + m = (j + m) + 1 by omega]
    unfold steps at h
    rw [runWork]
    cases hs : step d k x with
    | cont k1 x1 => simp only [hs] at h ⊢; have := ih h; omega
    | brk x1 => simp [hs] at h
    | stop e => simp [hs] at h
    | panic => simp [hs] at h

theorem steps_one {d : Bytes} {k k' : Nat} {x x' : Ctx} (h : step d k x = .cont k' x') : steps d 1 k x = some (k', x') := by
  simp only [steps, h]

theorem steps_add {d : Bytes} {i j k : Nat} {x : Ctx} {y z : Nat × Ctx} (h : steps d i k x = some y) (h' : steps d j y.1 y.2 = some z) :
    steps d (i + j) k x = some z := by
  induction i generalizing k x with
  | zero => cases h; rw [Nat.zero_add]; exact h'
  | succ i ih =>
    rw [show i + 1 + j = (i + j) + 1 by omega]
    unfold steps at h ⊢
    cases hs : step d k x with
    | cont k1 x1 => simp only [hs] at h ⊢; exact ih h
    | brk x1 => simp [hs] at h
    | stop e => simp [hs] at h
    | panic => simp [hs] at h

/-- A request with the display name `a`, `n` blanks after it. -/
def slow (n : Nat) : Bytes := b!"A sip:a SIP/2.0\r\nTo:a" ++ (List.replicate n 32 ++ b!"<sip:a>\r\n\r\n")

theorem slow_length (n : Nat) : (slow n).length = n + 32 := by
  simp [slow]

theorem slow_a (n : Nat) : (slow n)[20]? = some 97 := rfl

theorem slow_blank {n p : Nat} (h : 21 ≤ p) (h' : p < 21 + n) : (slow n)[p]? = some 32 := by
  obtain ⟨i, rfl⟩ : ∃ i, p = 21 + i := ⟨p - 21, by omega⟩
  unfold slow
  rw [List.getElem?_append_right (by simp), List.getElem?_append_left (by simp; omega), List.getElem?_replicate,
    if_pos (by simp; omega)]

theorem slow_lt (n : Nat) : (slow n)[21 + n]? = some 60 := by
  unfold slow
  rw [List.getElem?_append_right (by simp), List.getElem?_append_right (by simp)]
  simp

theorem slow_start (n : Nat) : (steps (slow n) 22 1 (initCtx (slow n))).map (fun y => (y.1, y.2.p)) = some (256, 20) := by rfl

section
variable {d : Bytes} {x : Ctx}

theorem step256 (h : d[x.p]? = some 97) : step d 256 x = .cont 262 { x with mark := x.p, p := x.p + 1 } := by
  simp only [step, h]; rfl

theorem step262 (h : d[x.p]? = some 32) : step d 262 x = .cont 258 { x with p := x.p + 1 } := by
  simp only [step, h]; rfl

theorem step258 (h : d[x.p]? = some 32) : step d 258 x = .cont 258 { x with p := x.p + 1 } := by
  simp only [step, h]; rfl

theorem step258b {m : Nat} (h : d[x.p]? = some 60) (hm : x.mark = m + 1) :
    step d 258 x = .cont 188 { x with addr := some {}, p := x.mark } := by
  simp only [step, h]
  have : lookup (rows 258) (symbol d 258 x.p 60) = some { lo := 60, hi := 60, acts := [.addrNew, .backtrack], tgt := 188 } := rfl
  rw [this]
  simp [execs, exec, hm, after, Res.bind_eq, Res.bind]

theorem step188 (h : d[x.p]? = some 97) : step d 188 x = .cont 213 { x with mark := x.p, p := x.p + 1 } := by
  simp only [step, h]; rfl

theorem step213 (h : d[x.p]? = some 32) : step d 213 x = .cont 214 { x with p := x.p + 1 } := by
  simp only [step, h]; rfl

theorem row214 (p : Nat) : (lookup (rows 214) (symbol d 214 p 32)).map (fun r => (r.acts, r.tgt)) =
    some ([.addrUnquotedDisplay], 214) := rfl

theorem row214b (p : Nat) : (lookup (rows 214) (symbol d 214 p 60)).map (fun r => (r.acts, r.tgt)) =
    some ([.addrUnquotedDisplay], 190) := rfl

theorem steps258 {j : Nat} (h : ∀ i, i < j → d[x.p + i]? = some 32) : steps d j 258 x = some (258, { x with p := x.p + j }) := by
  induction j generalizing x with
  | zero => rfl
  | succ j ih =>
    unfold steps
    rw [step258 (h 0 (by omega))]
    simp only []
    rw [ih (x := { x with p := x.p + 1 }) (fun i hi => by
      have := h (i + 1) (by omega)
      rwa [show x.p + (i + 1) = x.p + 1 + i by omega] at this)]
    simp only [Option.some.injEq, Prod.mk.injEq, true_and, Ctx.mk.injEq, and_true]
    omega

end

theorem trimSteps_slow {n i : Nat} (h : i ≤ n) : trimSteps (slow n) 20 (21 + i) = i := by
  induction i with
  | zero =>
    show trimSteps (slow n) 20 (20 + 1) = 0
    simp only [trimSteps, slow_a]; rfl
  | succ i ih =>
    show trimSteps (slow n) 20 ((21 + i) + 1) = i + 1
    unfold trimSteps
    rw [if_pos (by omega), slow_blank (by omega) (by omega)]
    simp only [ih (by omega)]
    rfl

theorem trimEnd_slow {n i : Nat} (h : i ≤ n) : trimEnd (slow n) 20 (21 + i) = .ok 21 := by
  induction i with
  | zero =>
    show trimEnd (slow n) 20 (20 + 1) = .ok 21
    simp only [trimEnd, cur, slow_a]; rfl
  | succ i ih =>
    show trimEnd (slow n) 20 ((21 + i) + 1) = .ok 21
    unfold trimEnd
    rw [if_pos (by omega), cur, slow_blank (by omega) (by omega)]
    simp only [Res.bind_eq, Res.bind]
    rw [if_pos (by decide), ih (by omega)]

theorem display_slow {n i : Nat} {x : Ctx} {a : Addr} (h : i ≤ n) (hm : x.mark = 20) (hp : x.p = 21 + i) (ha : x.addr = some a) :
    exec (slow n) .addrUnquotedDisplay x = .ok { x with addr := some { a with display := b!"a" } } := by
  simp only [exec, hm, hp, trimEnd_slow h, Res.bind_eq, Res.bind, slice, slow_length, ha, deref]
  rw [if_pos (by omega)]
  rfl

theorem pass214 {n i : Nat} {x : Ctx} {c : UInt8} {t : Nat} (h : i ≤ n) (hm : x.mark = 20) (hp : x.p = 21 + i)
    (hd : (slow n)[x.p]? = some c)
    (hrow : (lookup (rows 214) (symbol (slow n) 214 x.p c)).map (fun r => (r.acts, r.tgt)) = some ([.addrUnquotedDisplay], t)) :
    i ≤ passWork (slow n) 214 x := by
  obtain ⟨r, hr1, hr2⟩ := Option.map_eq_some_iff.1 hrow
  simp only [Prod.mk.injEq] at hr2
  have ht : trimSteps (slow n) x.mark x.p = i := by rw [hm, hp, trimSteps_slow h]
  simp only [passWork, hd, hr1, hr2.1, actsWork, actWork, ht]
  refine Nat.le_trans (Nat.le_trans ?_ (Nat.le_add_right _ _)) (Nat.le_add_left _ _)
  omega

theorem triangle (i : Nat) : (i + 1) * (i + 1 + 1) = i * (i + 1) + 2 * (i + 1) := by
  have e1 := Nat.succ_mul i (i + 1)
  have e2 := Nat.mul_succ (i + 1) (i + 1)
  simp only [Nat.succ_eq_add_one] at e1 e2
  omega

/-- The blanks in state 214: one more is dropped at each of them. -/
theorem blanks_work {n r i m : Nat} {x : Ctx} {a : Addr} (hn : i + 1 + r = n) (hm : x.mark = 20) (hp : x.p = 21 + (i + 1))
    (ha : x.addr = some a) (hr : r + 1 ≤ m) :
    n * (n + 1) ≤ 2 * runWork (slow n) m 214 x + i * (i + 1) := by
  induction r generalizing i m x a with
  | zero =>
    obtain ⟨m, rfl⟩ : ∃ m', m = m' + 1 := ⟨m - 1, by omega⟩
    have hw := pass214 (n := n) (by omega) hm hp (by rw [hp, show i + 1 = n by omega]; exact slow_lt n) (row214b x.p)
    rw [runWork]
    obtain rfl : n = i + 1 := by omega
    have := triangle i
    omega
  | succ r ih =>
    obtain ⟨m, rfl⟩ : ∃ m', m = m' + 1 := ⟨m - 1, by omega⟩
    have hd : (slow n)[x.p]? = some 32 := by rw [hp]; exact slow_blank (by omega) (by omega)
    have hw := pass214 (n := n) (by omega) hm hp hd (row214 x.p)
    have hs : step (slow n) 214 x = .cont 214 { x with addr := some { a with display := b!"a" }, p := x.p + 1 } := by
      obtain ⟨r, hr1, hr2⟩ := Option.map_eq_some_iff.1 (row214 (d := slow n) x.p)
      simp only [Prod.mk.injEq] at hr2
      simp only [step, hd, hr1, hr2.1, execs, display_slow (n := n) (by omega) hm hp ha, Res.bind_eq, Res.bind, after, hr2.2]
      rfl
    have hi := ih (i := i + 1) (m := m) (x := { x with addr := some { a with display := b!"a" }, p := x.p + 1 })
      (by omega) hm (by simp only [hp]; omega) rfl (by omega)
    rw [runWork, hs]
    simp only []
    have := triangle i
    omega

/-- The whole message. -/
theorem slow_work {n m : Nat} (h : 2 * n + 27 ≤ m) : n * (n + 1) ≤ 2 * parseWork m (slow n) := by
  cases n with
  | zero => simp
  | succ n =>
  obtain ⟨⟨k, x⟩, h0, h1⟩ := Option.map_eq_some_iff.1 (slow_start (n + 1))
  simp only [Prod.mk.injEq] at h1
  obtain ⟨rfl, hp⟩ := h1
  have a1 := steps_add h0 (steps_one (step256 (by rw [hp]; exact slow_a _)))
  have a2 := steps_add a1 (steps_one (step262 (by simp only [hp]; exact slow_blank (by omega) (by omega))))
  have a3 := steps_add a2 (steps258 (j := n) (fun i hi => by simp only [hp]; exact slow_blank (by omega) (by omega)))
  have a4 := steps_add a3 (steps_one (step258b (m := 19) (by
    simp only [hp]; rw [show 20 + 1 + 1 + n = 21 + (n + 1) by omega]; exact slow_lt _) hp))
  have a5 := steps_add a4 (steps_one (step188 (by simp only [hp]; exact slow_a _)))
  have a6 := steps_add a5 (steps_one (step213 (by simp only [hp]; exact slow_blank (by omega) (by omega))))
  have key : ∀ y : Ctx, steps (slow (n + 1)) (22 + 1 + 1 + n + 1 + 1 + 1) 1 (initCtx (slow (n + 1))) = some (214, y) →
      y.mark = 20 → y.p = 22 → y.addr = some {} → (n + 1) * (n + 1 + 1) ≤ 2 * parseWork m (slow (n + 1)) := by
    intro y hy h1 h2 h3
    have hb := blanks_work (n := n + 1) (r := n) (i := 0) (m := m - (n + 27)) (by omega) h1 h2 h3 (by omega)
    have := runWork_steps (m := m - (n + 27)) hy
    unfold parseWork
    rw [show 22 + 1 + 1 + n + 1 + 1 + 1 + (m - (n + 27)) = m by omega] at this
    omega
  exact key _ a6 hp (by simp only [hp]) rfl

end Gosip.Sip.MsgM
