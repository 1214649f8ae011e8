import Verif.Basic

/-!
# The noise generator's shuffled congruential generators (`dsp/awgn.go`)

Floating point is not modelled. A table entry `(float64(ix1) + float64(ix2)*rm2) * rm1` is
represented by the pair `(ix1, ix2)` it is computed from; `Get` is modelled in `Dsp/Noise.lean`.
-/

namespace Gosip.Dsp

/-- `dsp/awgn.go:26-39`: constants. -/
def m1 : Int := 259200
@[inherit_doc m1] def ia1 : Int := 7141
@[inherit_doc m1] def ic1 : Int := 54773
@[inherit_doc m1] def m2 : Int := 134456
@[inherit_doc m1] def ia2 : Int := 8121
@[inherit_doc m1] def ic2 : Int := 28411
@[inherit_doc m1] def m3 : Int := 243000
@[inherit_doc m1] def ia3 : Int := 4561
@[inherit_doc m1] def ic3 : Int := 51349

/-- `dsp/awgn.go:42-50`: the integer part of `AWGN`; `r` has indices 0..97. -/
structure Awgn where
  ix1 : Int
  ix2 : Int
  ix3 : Int
  r : Int → Int × Int

/-- `(ia*x + ic) % m` in 64-bit arithmetic; Go's `%` truncates (sign of the dividend). -/
def lcg (ia ic m x : Int) : Int := Int.tmod (wrap64 (wrap64 (ia * x) + ic)) m

/-- `dsp/awgn.go:75-79`: the table-filling loop, from `j` on, `n` more entries. -/
def fill : Nat → Int → Awgn → Awgn
  | 0, _, s => s
  | n + 1, j, s =>
    let ix1 := lcg ia1 ic1 m1 s.ix1
    let ix2 := lcg ia2 ic2 m2 s.ix2
    fill n (j + 1) { s with ix1 := ix1, ix2 := ix2, r := fun k => if k = j then (ix1, ix2) else s.r k }

/-- `dsp/awgn.go:63-83`: `NewAWGN_DBOV` without the volume. -/
def newAwgn (idum : Int) : Awgn :=
  let idum := if idum < 0 then wrap64 (-idum) else idum
  let ix1 := Int.tmod (wrap64 (ic1 + idum)) m1
  let ix1 := lcg ia1 ic1 m1 ix1
  let ix2 := Int.tmod ix1 m2
  let ix1 := lcg ia1 ic1 m1 ix1
  let ix3 := Int.tmod ix1 m3
  fill 97 1 { ix1 := ix1, ix2 := ix2, ix3 := ix3, r := fun _ => (0, 0) }

/-- `dsp/awgn.go:112`: the table index drawn after `ix3` has been advanced. -/
def drawIndex (ix3 : Int) : Int := 1 + Int.tdiv (97 * ix3) m3

/-- `dsp/awgn.go:107-119`: `ran1`; `none` is the fallback `-1`. -/
def ran1 (s : Awgn) : Option (Int × Int) × Awgn :=
  let ix1 := lcg ia1 ic1 m1 s.ix1
  let ix2 := lcg ia2 ic2 m2 s.ix2
  let ix3 := lcg ia3 ic3 m3 s.ix3
  let j := drawIndex ix3
  if j > 97 ∨ j < 1 then (none, { s with ix1 := ix1, ix2 := ix2, ix3 := ix3 })
  else (some (s.r j), { ix1 := ix1, ix2 := ix2, ix3 := ix3,
                        r := fun k => if k = j then (ix1, ix2) else s.r k })

/-- The generator after `n` draws. -/
def draws : Nat → Awgn → Awgn
  | 0, s => s
  | n + 1, s => draws n (ran1 s).2

end Gosip.Dsp
