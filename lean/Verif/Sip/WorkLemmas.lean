import Verif.Sip.Work
import Verif.Sip.MsgLinear

/-!
# Bounds for the work of `ParseMsg`
-/

namespace Gosip.Sip.MsgM

theorem trimSteps_le (d : Bytes) (m n : Nat) : trimSteps d m n ≤ n := by
  induction n with
  | zero => exact Nat.le_refl _
  | succ n ih =>
    unfold trimSteps
    repeat' split
    all_goals omega

/-- No address list is longer than `L`. -/
def Short (L : Nat) (x : Ctx) : Prop := ∀ f, (x.msg.addrs f).length ≤ L

def isAddr : MAct → Bool
  | .addr => true
  | _ => false

theorem short_exec {d : Bytes} {a : MAct} {x y : Ctx} {L : Nat} (h : Short L x) (he : exec d a x = .ok y) :
    Short (L + if isAddr a then 1 else 0) y := by
  rw [exec_ok he]
  cases a
  case addr =>
    intro f
    simp only [exec, Res.bind_eq] at he
    obtain ⟨g, hg, he⟩ := Res.bind_ok_iff.1 he
    have hg : x.addrp = some g := by
      cases hx : x.addrp <;> rw [hx] at hg <;> cases hg; rfl
    obtain ⟨a, ha, _⟩ := Res.bind_ok_iff.1 he
    have ha : x.addr = some a := by
      cases hx : x.addr <;> rw [hx] at ha <;> cases ha; rfl
    simp only [eff, hg, ha, isAddr, if_true]
    have := h f
    have := h g
    simp only [setAt]
    split <;> simp <;> omega
  case value =>
    intro f
    have := h f
    simp only [eff, isAddr]
    cases x.value <;> simpa using this
  all_goals (intro f; have := h f; simpa [eff, isAddr] using this)

/-- At most one address is added by a transition, and it has at most eight actions. -/
theorem acts_all : ∀ k, k < 765 → ∀ r ∈ rows k, Nat.ble r.acts.length 8 = true ∧ Nat.ble (r.acts.countP isAddr) 1 = true := by
  decide +kernel

theorem actWork_le {d : Bytes} {a : MAct} {x : Ctx} {L : Nat} {v : AV} (h : Sat d v x) (hp : x.p ≤ d.length)
    (hs : Short L x) : actWork d a x ≤ d.length + L + 2 := by
  have h1 := h.amt
  have h2 := trimSteps_le d x.mark x.p
  cases a
  case lastAddr f => have := hs f; simp only [actWork]; omega
  all_goals (simp only [actWork]; omega)

theorem actsWork_le {d : Bytes} {l : List MAct} {v v' : AV} {x : Ctx} {L : Nat} (hx : Sat d v x) (hp : x.p < d.length)
    (ha : aexecs l v = some v') (hs : Short L x) :
    actsWork d l x ≤ l.length * (d.length + L + l.countP isAddr + 2) := by
  induction l generalizing v x L with
  | nil => exact Nat.zero_le _
  | cons a l ih =>
    simp only [aexecs] at ha
    cases hv : aexec a v with
    | none => simp [hv] at ha
    | some w =>
      rw [hv] at ha
      have h1 := exec_good hx hp hv
      have h2 := actWork_le (a := a) hx (Nat.le_of_lt hp) hs
      simp only [actsWork, List.length_cons, List.countP_cons]
      have hmul : (l.length + 1) * (d.length + L + (l.countP isAddr + if isAddr a = true then 1 else 0) + 2) =
          l.length * (d.length + L + (l.countP isAddr + if isAddr a = true then 1 else 0) + 2) +
            (d.length + L + (l.countP isAddr + if isAddr a = true then 1 else 0) + 2) := by
        rw [Nat.add_mul, Nat.one_mul]
      rw [hmul]
      cases he : exec d a x with
      | panic => simp only []; omega
      | err e => simp only []; omega
      | ok y =>
        rw [he] at h1
        have h3 := ih h1.1 (by have := h1.2; omega) ha (short_exec hs he)
        simp only []
        have : l.length * (d.length + (L + if isAddr a = true then 1 else 0) + l.countP isAddr + 2) =
            l.length * (d.length + L + (l.countP isAddr + if isAddr a = true then 1 else 0) + 2) := by
          congr 1
          omega
        omega

theorem short_execs {d : Bytes} {l : List MAct} {x y : Ctx} {L : Nat} (h : Short L x) (he : execs d l x = .ok y) :
    Short (L + l.countP isAddr) y := by
  induction l generalizing x L with
  | nil => cases he; simpa using h
  | cons a l ih =>
    simp only [execs, Res.bind_eq] at he
    obtain ⟨z, hz, he⟩ := Res.bind_ok_iff.1 he
    have := ih (short_exec h hz) he
    rw [List.countP_cons]
    intro f
    have := this f
    omega

/-- One pass: its work, and one address more at most. -/
theorem passWork_le {d : Bytes} {k : Nat} {x : Ctx} {L : Nat} (h : Inv d k x) (hs : Short L x) :
    passWork d k x ≤ 8 * (d.length + L + 3) + 1 ∧ ∀ k' x', step d k x = .cont k' x' → Short (L + 1) x' := by
  rcases step_cases (d := d) (k := k) (x := x) with ⟨h0, h1⟩ | ⟨c, hc, hn, h1⟩ | ⟨c, r, hc, hl, h1⟩
  · have : d[x.p]? = none := by simpa using h0
    refine ⟨by simp only [passWork, this]; omega, fun k' x' e => ?_⟩
    rw [h1] at e; cases e
  · refine ⟨by simp only [passWork, hc, hn]; omega, fun k' x' e => ?_⟩
    rw [h1] at e; cases e
  · have hp : x.p < d.length := by
      rw [List.getElem?_eq_some_iff] at hc; exact hc.1
    have hmem := (lookup_mem hl).1
    obtain ⟨hlen, hcnt⟩ := acts_all k h.state r hmem
    rw [Nat.ble_eq] at hlen hcnt
    have hr := check_all k h.state r hmem
    unfold checkRow at hr
    cases ha : aexecs r.acts (inv k) with
    | none => simp [ha] at hr
    | some v =>
      constructor
      · simp only [passWork, hc, hl]
        have h2 := actsWork_le h.sat hp ha hs
        have h3 : r.acts.length * (d.length + L + r.acts.countP isAddr + 2) ≤ 8 * (d.length + L + 3) :=
          Nat.mul_le_mul hlen (by omega)
        omega
      · intro k' x' e
        rw [h1] at e
        cases he : execs d r.acts x with
        | panic => simp [he, after] at e
        | err e' => simp [he, after] at e
        | ok y =>
          rw [he] at e
          simp only [after] at e
          split at e
          · cases e
          · cases e
            intro f
            have := short_execs hs he f
            simp only []
            omega

/-- `n` passes. -/
theorem runWork_le {d : Bytes} {n k : Nat} {x : Ctx} {L : Nat} (h : Inv d k x) (hs : Short L x) :
    runWork d n k x ≤ n * (8 * (d.length + L + n + 3) + 1) := by
  induction n generalizing k x L with
  | zero => exact Nat.zero_le _
  | succ n ih =>
    obtain ⟨h1, h2⟩ := passWork_le h hs
    have hg := step_good h
    unfold runWork
    rw [Nat.add_mul, Nat.one_mul]
    cases he : step d k x with
    | cont k' x' =>
      rw [he] at hg
      have h3 := ih hg (h2 k' x' he)
      have h4 : n * (8 * (d.length + (L + 1) + n + 3) + 1) ≤ n * (8 * (d.length + L + (n + 1) + 3) + 1) :=
        Nat.mul_le_mul_left _ (by omega)
      simp only []
      omega
    | brk x' => simp only []; omega
    | stop e => simp only []; omega
    | panic => simp only []; omega

/-- Once the loop has ended there is no more work. -/
theorem runWork_end {d : Bytes} {n m k : Nat} {x : Ctx} (h : run d n k x ≠ .outOfFuel) (hm : n ≤ m) :
    runWork d m k x = runWork d n k x := by
  induction n generalizing k x m with
  | zero => exact absurd rfl h
  | succ n ih =>
    obtain ⟨m, rfl⟩ : ∃ m', m = m' + 1 := ⟨m - 1, by omega⟩
    unfold run at h
    unfold runWork
    cases hs : step d k x with
    | cont k' x' =>
      simp only [hs] at h ⊢
      rw [ih h (by omega)]
    | brk x' => simp
    | stop e => simp
    | panic => simp

/-- The work of the first `n` passes is at most that of more passes. -/
theorem runWork_mono {d : Bytes} {n m k : Nat} {x : Ctx} (hm : n ≤ m) : runWork d n k x ≤ runWork d m k x := by
  induction n generalizing k x m with
  | zero => exact Nat.zero_le _
  | succ n ih =>
    obtain ⟨m, rfl⟩ : ∃ m', m = m' + 1 := ⟨m - 1, by omega⟩
    unfold runWork
    cases hs : step d k x with
    | cont k' x' => simp only []; have := ih (k := k') (x := x') (m := m) (by omega); omega
    | brk x' => simp
    | stop e => simp
    | panic => simp

end Gosip.Sip.MsgM
