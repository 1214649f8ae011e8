import Verif.Dsp.Awgn
import Mathlib.Algebra.Order.Field.Rat
import Mathlib.Algebra.Order.AbsoluteValue.Basic

/-!
# The samples of the noise generator (`dsp/awgn.go:85-105, 121-131`)

A `float64` is a rational number, or `none` where it would be a NaN or infinite. Each operation is the exact one,
followed by a rounding of which only the precision is known, so that what is proved holds for every rounding mode. The
range of exponents is not limited: all numbers that occur before the volume is applied lie between `2^-80` and `2^80`.
-/

namespace Gosip.Dsp

/-- The arithmetic of the machine: what is computed for a number, its logarithm and its square root. -/
structure Arith where
  rd : ℚ → ℚ
  log : ℚ → ℚ
  sqrt : ℚ → ℚ
  /-- A `float64` has 53 significant bits. -/
  near : ∀ x, |rd x - x| ≤ |x| / 2 ^ 53
  /-- `math.Log` is not positive for a number below 1. -/
  log_neg : ∀ x, 0 < x → x < 1 → log x ≤ 0

/-- `(float64(ix1) + float64(ix2)*rm2) * rm1` (`dsp/awgn.go:78`, `dsp/awgn.go:117`). The constants `rm1` and `rm2` are
rounded when they are used. -/
def Arith.unit (A : Arith) (p : Int × Int) : ℚ :=
  A.rd (A.rd (p.1 + A.rd (p.2 * A.rd (1 / m2))) * A.rd (1 / m1))

/-- `2.0*s.ran1() - 1.0` (`dsp/awgn.go:89-90`); `none` is the fallback `-1` of `ran1` (`dsp/awgn.go:113-115`). -/
def Arith.polar (A : Arith) (p : Option (Int × Int)) : ℚ :=
  A.rd (A.rd (2 * (match p with | some p => A.unit p | none => -1)) - 1)

/-- `v1*v1 + v2*v2` (`dsp/awgn.go:91`). -/
def Arith.radius (A : Arith) (v1 v2 : ℚ) : ℚ := A.rd (A.rd (v1 * v1) + A.rd (v2 * v2))

/-- The loop of `Get` (`dsp/awgn.go:88-95`), when it is left within `n` turns: `v1`, `v2`, `r`. -/
def Arith.tries (A : Arith) : Nat → Awgn → Option ((ℚ × ℚ × ℚ) × Awgn)
  | 0, _ => none
  | n + 1, s =>
    let a := ran1 s
    let b := ran1 a.2
    let v1 := A.polar a.1
    let v2 := A.polar b.1
    let r := A.radius v1 v2
    if r < 1 then some ((v1, v2, r), b.2) else A.tries n b.2

/-- `math.Sqrt(-2.0 * math.Log(r) / r)` (`dsp/awgn.go:96`). -/
def Arith.factor (A : Arith) (r : ℚ) : Option ℚ :=
  if r ≤ 0 then none
  else
    let x := A.rd (A.rd (-2 * A.log r) / r)
    if x < 0 then none else some (A.sqrt x)

/-- `fsaturate` (`dsp/awgn.go:122-131`): a conversion to `int16` drops the fraction. What a NaN is converted to, the
language does not say. -/
def fsaturate : Option ℚ → Option Int
  | none => none
  | some x => some (if x > 32767 then 32767 else if x < -32768 then -32768 else Int.tdiv x.num x.den)

/-- `AWGN` (`dsp/awgn.go:42-50`): the generators, `rms`, and `gset` when `iset` is 1. -/
structure Noise where
  gen : Awgn
  rms : ℚ
  kept : Option (Option ℚ) := none

/-- `NewAWGN_DBOV` (`dsp/awgn.go:63-83`); `rms` is what `math.Pow` makes of the level. -/
def newNoise (idum : Int) (rms : ℚ) : Noise := { gen := newAwgn idum, rms := rms }

/-- `Get` (`dsp/awgn.go:85-105`), when its loop is left within `n` turns. -/
def Arith.get (A : Arith) (n : Nat) (s : Noise) : Option (Option Int × Noise) :=
  match s.kept with
  | some g => some (fsaturate (g.map fun g => A.rd (g * s.rms)), { s with kept := none })
  | none =>
    match A.tries n s.gen with
    | none => none
    | some ((v1, v2, r), gen) =>
      let fac := A.factor r
      some (fsaturate (fac.map fun f => A.rd (A.rd (v2 * f) * s.rms)),
        { s with gen := gen, kept := some (fac.map fun f => A.rd (v1 * f)) })

/-- The generator after `k` calls of `Get`, when all of them return. -/
def Arith.after (A : Arith) (n : Nat) : Nat → Noise → Option Noise
  | 0, s => some s
  | k + 1, s =>
    match A.get n s with
    | some (_, s') => A.after n k s'
    | none => none

end Gosip.Dsp
