import Verif.Sip.MsgActions

/-!
# Per-state invariants and ranks of the message machine

Generated by `tools/absint.py`; checked in `Verif.Sip.MsgSafe`.
-/

namespace Gosip.Sip.MsgM

/-- What is known when a state is entered at position `p`:
`amt + a ≤ p + 1`; `mkd = 0` or `mark + (mkd - 1) ≤ p + 1`; `am`: `amt ≤ mark`; `pos`: `1 ≤ p`;
`mp`: `1 ≤ mark`; `via`, `addr`, `addrp` are not nil; `adu`: `addr` has a URI. -/
structure AV where
  a : Nat
  mkd : Nat
  am : Bool
  pos : Bool
  mp : Bool
  via : Bool
  addr : Bool
  adu : Bool
  addrp : Bool
  deriving DecidableEq

/-- The invariant of state `k`. -/
def inv (k : Nat) : AV :=
  bif Nat.blt k 171 then
    bif Nat.blt k 79 then
      bif Nat.blt k 14 then
        bif Nat.blt k 2 then
          bif Nat.blt k 1 then
            ⟨0, 0, false, false, false, false, false, false, false⟩
          else
            ⟨1, 2, true, false, false, false, false, false, false⟩
        else
          bif Nat.blt k 4 then
            ⟨1, 3, true, true, false, false, false, false, false⟩
          else
            bif Nat.blt k 13 then
              ⟨1, 3, true, true, true, false, false, false, false⟩
            else
              ⟨1, 3, false, true, false, false, false, false, false⟩
      else
        bif Nat.blt k 38 then
          bif Nat.blt k 26 then
            ⟨1, 3, true, true, false, false, false, false, false⟩
          else
            bif Nat.blt k 34 then
              ⟨1, 3, false, true, false, false, false, false, false⟩
            else
              ⟨1, 3, true, true, true, false, false, false, false⟩
        else
          bif Nat.blt k 68 then
            ⟨1, 3, false, true, true, false, false, false, false⟩
          else
            bif Nat.blt k 71 then
              ⟨1, 3, true, true, true, true, false, false, false⟩
            else
              ⟨1, 3, false, true, true, true, false, false, false⟩
    else
      bif Nat.blt k 104 then
        bif Nat.blt k 87 then
          bif Nat.blt k 80 then
            ⟨1, 3, true, true, true, true, false, false, false⟩
          else
            bif Nat.blt k 86 then
              ⟨1, 3, false, true, true, true, false, false, false⟩
            else
              ⟨1, 3, true, true, true, true, false, false, false⟩
        else
          bif Nat.blt k 97 then
            ⟨1, 3, false, true, true, true, false, false, false⟩
          else
            bif Nat.blt k 103 then
              ⟨1, 3, true, true, true, true, false, false, false⟩
            else
              ⟨1, 3, false, true, true, true, false, false, false⟩
      else
        bif Nat.blt k 156 then
          bif Nat.blt k 153 then
            ⟨1, 3, true, true, true, true, false, false, false⟩
          else
            bif Nat.blt k 154 then
              ⟨1, 3, false, true, true, false, true, true, true⟩
            else
              ⟨1, 3, true, true, true, false, true, true, true⟩
        else
          bif Nat.blt k 164 then
            ⟨1, 3, false, true, true, false, true, true, true⟩
          else
            bif Nat.blt k 165 then
              ⟨1, 3, true, true, true, false, true, true, true⟩
            else
              ⟨1, 3, false, true, true, false, true, true, true⟩
  else
    bif Nat.blt k 233 then
      bif Nat.blt k 194 then
        bif Nat.blt k 188 then
          bif Nat.blt k 172 then
            ⟨1, 3, true, true, true, false, true, true, true⟩
          else
            bif Nat.blt k 182 then
              ⟨1, 3, false, true, true, false, true, true, true⟩
            else
              ⟨1, 3, true, true, true, false, true, true, true⟩
        else
          bif Nat.blt k 189 then
            ⟨1, 2, false, true, true, false, true, false, true⟩
          else
            bif Nat.blt k 191 then
              ⟨1, 3, false, true, true, false, true, false, true⟩
            else
              ⟨1, 3, true, true, true, false, true, false, true⟩
      else
        bif Nat.blt k 219 then
          bif Nat.blt k 210 then
            ⟨1, 3, true, true, true, false, true, true, true⟩
          else
            bif Nat.blt k 213 then
              ⟨1, 3, false, true, true, false, true, false, true⟩
            else
              ⟨1, 3, true, true, true, false, true, false, true⟩
        else
          bif Nat.blt k 229 then
            ⟨1, 3, false, true, true, false, true, false, true⟩
          else
            bif Nat.blt k 230 then
              ⟨1, 2, true, true, true, false, true, false, true⟩
            else
              ⟨1, 3, true, true, true, false, true, false, true⟩
    else
      bif Nat.blt k 280 then
        bif Nat.blt k 263 then
          bif Nat.blt k 256 then
            ⟨1, 3, true, true, true, false, true, true, true⟩
          else
            bif Nat.blt k 257 then
              ⟨1, 3, false, true, true, false, false, false, true⟩
            else
              ⟨1, 3, true, true, true, false, false, false, true⟩
        else
          bif Nat.blt k 273 then
            ⟨1, 3, true, true, true, false, false, false, false⟩
          else
            bif Nat.blt k 274 then
              ⟨1, 2, true, true, true, false, false, false, false⟩
            else
              ⟨1, 3, true, true, true, false, false, false, false⟩
      else
        bif Nat.blt k 394 then
          bif Nat.blt k 281 then
            ⟨1, 3, false, true, false, false, false, false, false⟩
          else
            bif Nat.blt k 282 then
              ⟨1, 2, true, true, true, false, false, false, false⟩
            else
              ⟨1, 3, true, true, true, false, false, false, false⟩
        else
          bif Nat.blt k 399 then
            ⟨1, 3, true, true, true, false, false, false, true⟩
          else
            bif Nat.blt k 764 then
              ⟨1, 3, true, true, true, false, false, false, false⟩
            else
              ⟨1, 3, false, true, false, false, false, false, false⟩

/-- The rank of state `k`: a transition that does not advance `p` goes to a smaller rank. -/
def rank (k : Nat) : Nat :=
  bif Nat.blt k 254 then
    bif Nat.blt k 163 then
      bif Nat.blt k 118 then
        bif Nat.blt k 78 then
          bif Nat.blt k 72 then
            bif Nat.blt k 71 then
              0
            else
              1
          else
            bif Nat.blt k 74 then
              0
            else
              bif Nat.blt k 76 then
                1
              else
                0
        else
          bif Nat.blt k 114 then
            bif Nat.blt k 79 then
              1
            else
              0
          else
            bif Nat.blt k 115 then
              1
            else
              bif Nat.blt k 117 then
                0
              else
                1
      else
        bif Nat.blt k 156 then
          bif Nat.blt k 122 then
            bif Nat.blt k 121 then
              0
            else
              1
          else
            bif Nat.blt k 124 then
              0
            else
              bif Nat.blt k 125 then
                1
              else
                0
        else
          bif Nat.blt k 159 then
            bif Nat.blt k 157 then
              6
            else
              0
          else
            bif Nat.blt k 160 then
              6
            else
              bif Nat.blt k 161 then
                1
              else
                0
    else
      bif Nat.blt k 235 then
        bif Nat.blt k 199 then
          bif Nat.blt k 195 then
            bif Nat.blt k 164 then
              1
            else
              0
          else
            bif Nat.blt k 196 then
              6
            else
              bif Nat.blt k 198 then
                0
              else
                6
        else
          bif Nat.blt k 202 then
            bif Nat.blt k 200 then
              1
            else
              0
          else
            bif Nat.blt k 203 then
              1
            else
              bif Nat.blt k 234 then
                0
              else
                6
      else
        bif Nat.blt k 242 then
          bif Nat.blt k 238 then
            bif Nat.blt k 237 then
              0
            else
              6
          else
            bif Nat.blt k 239 then
              1
            else
              bif Nat.blt k 241 then
                0
              else
                1
        else
          bif Nat.blt k 249 then
            bif Nat.blt k 245 then
              0
            else
              bif Nat.blt k 247 then
                6
              else
                0
          else
            bif Nat.blt k 250 then
              6
            else
              bif Nat.blt k 252 then
                1
              else
                0
  else
    bif Nat.blt k 395 then
      bif Nat.blt k 284 then
        bif Nat.blt k 277 then
          bif Nat.blt k 256 then
            bif Nat.blt k 255 then
              1
            else
              0
          else
            bif Nat.blt k 257 then
              5
            else
              bif Nat.blt k 276 then
                0
              else
                1
        else
          bif Nat.blt k 280 then
            bif Nat.blt k 279 then
              0
            else
              1
          else
            bif Nat.blt k 281 then
              2
            else
              bif Nat.blt k 283 then
                1
              else
                0
      else
        bif Nat.blt k 367 then
          bif Nat.blt k 287 then
            bif Nat.blt k 285 then
              1
            else
              0
          else
            bif Nat.blt k 365 then
              1
            else
              bif Nat.blt k 366 then
                0
              else
                1
        else
          bif Nat.blt k 376 then
            bif Nat.blt k 369 then
              0
            else
              1
          else
            bif Nat.blt k 385 then
              0
            else
              bif Nat.blt k 394 then
                1
              else
                0
    else
      bif Nat.blt k 506 then
        bif Nat.blt k 441 then
          bif Nat.blt k 398 then
            bif Nat.blt k 396 then
              6
            else
              0
          else
            bif Nat.blt k 399 then
              6
            else
              bif Nat.blt k 435 then
                1
              else
                0
        else
          bif Nat.blt k 459 then
            bif Nat.blt k 448 then
              1
            else
              0
          else
            bif Nat.blt k 483 then
              1
            else
              bif Nat.blt k 489 then
                0
              else
                1
      else
        bif Nat.blt k 556 then
          bif Nat.blt k 524 then
            bif Nat.blt k 512 then
              0
            else
              1
          else
            bif Nat.blt k 530 then
              0
            else
              bif Nat.blt k 550 then
                1
              else
                0
        else
          bif Nat.blt k 737 then
            bif Nat.blt k 735 then
              1
            else
              bif Nat.blt k 736 then
                0
              else
                1
          else
            bif Nat.blt k 739 then
              0
            else
              bif Nat.blt k 764 then
                1
              else
                0

end Gosip.Sip.MsgM
