import Verif.Basic

/-!
# G.711 μ-law, saturating mixer (`dsp/dsp_amd64.s`)

The assembly is modelled instruction by instruction on 64-bit registers. Trusted: the meaning of
the instructions (two's complement `ADDQ`/`SUBQ`, `BSRQ` = index of the highest set bit, `JS` and
`JGE` signed, `SARQ`/`SHLQ` by a count below 64).
-/

namespace Gosip.Dsp

/-- A 64-bit register. -/
abbrev Reg := BitVec 64

/-- `BSRQ src, dst`: index of the most significant set bit; only used on a non-zero source. -/
def bsr (x : Reg) : Reg := BitVec.ofNat 64 (Nat.log2 x.toNat)

/-- `dsp/dsp_amd64.s:45-62` from label `endIf`: `ax` is the biased magnitude, `r13` the mask. -/
def ulawTail (ax r13 : Reg) : Reg :=
  let dx := ax ||| 0xFF
  let bx := bsr dx
  let bx := bx - 7
  if (8 : Int) ≤ bx.toInt then r13 ^^^ 0x7F
  else
    let cx := bx + 3
    let ax := ax.sshiftRight cx.toNat
    let ax := ax &&& 0xF
    let bx := bx <<< 4
    let ax := ax ||| bx
    ax ^^^ r13

/-- `dsp/dsp_amd64.s:33-62`: `LinearToUlaw`. -/
def linearToUlaw (linear : Reg) : Reg :=
  if linear.msb then ulawTail (0x84 - linear) 0x7F else ulawTail (linear + 0x84) 0xFF

/-- `dsp/dsp_amd64.s:64-85`: `UlawToLinear`. -/
def ulawToLinear (ulaw : Reg) : Reg :=
  let ax := ~~~ulaw
  let cx := ax
  let dx := ax
  let ax := ax &&& 0x0F
  let ax := ax <<< 3
  let ax := ax + 0x84
  let cx := cx &&& 0x70
  let cx := cx.sshiftRight 4
  let ax := ax <<< cx.toNat
  let dx := dx &&& 0x80
  if dx = 0 then ax - 0x84 else 0x84 - ax

/-- Saturation of `PADDSW` to 16 bits. -/
def sat16 (x : Int) : Int := if x < -32768 then -32768 else if 32767 < x then 32767 else x

/-- Memory as 16-bit cells; a `*int16` is a cell index (byte address divided by two). -/
abbrev Mem := Nat → Int16

/-- `PADDSW` on lane `i`. -/
def addSat (a b : Int16) : Int16 := Int16.ofInt (sat16 (a.toInt + b.toInt))

/-- One execution of the body at `dsp/dsp_amd64.s:23-25`: both operands are read before the eight
lanes are stored. `none` is the alignment fault of `MOVO` (movdqa) and of the memory operand of
`PADDSW`, which need 16-byte alignment, i.e. cell index a multiple of 8. -/
def mixBlock (m : Mem) (ax bx : Nat) : Option Mem :=
  if ax % 8 = 0 ∧ bx % 8 = 0 then
    some fun a => if ax ≤ a ∧ a < ax + 8 then addSat (m (bx + (a - ax))) (m a) else m a
  else none

/-- `dsp/dsp_amd64.s:23-30`: the loop with `CX = cx`; `DECQ CX; CMPQ CX,$0; JGE moar` goes on as
long as the decremented counter is not negative. -/
def mixLoop : Nat → Mem → Nat → Nat → Option Mem
  | 0, m, ax, bx => mixBlock m ax bx
  | cx + 1, m, ax, bx =>
    match mixBlock m ax bx with
    | some m' => mixLoop cx m' (ax + 8) (bx + 8)
    | none => none

/-- `dsp/dsp_amd64.s:19-31`: `L16MixSat160`. -/
def l16MixSat160 (m : Mem) (dst src : Nat) : Option Mem := mixLoop 19 m dst src

end Gosip.Dsp
