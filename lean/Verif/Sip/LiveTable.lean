import Verif.Sip.MsgActions

/-!
# Variables of the message machine whose values matter

Generated by `tools/absint3.py`; checked in `Verif.Sip.Lines`.
-/

namespace Gosip.Sip.MsgM

/-- Which of the variables of `Loc` matter; `nv`: `name` matters if `value` is nil. -/
structure LV where
  seg : Bool
  buf : Bool
  name : Bool
  hex : Bool
  value : Bool
  via : Bool
  addrp : Bool
  addr : Bool
  nv : Bool
  deriving DecidableEq

/-- The variables whose values matter in state `k`. -/
def live (k : Nat) : LV :=
  bif Nat.blt k 218 then
    bif Nat.blt k 87 then
      bif Nat.blt k 34 then
        bif Nat.blt k 14 then
          bif Nat.blt k 3 then
            bif Nat.blt k 2 then
              ⟨false, false, false, false, false, false, false, false, false⟩
            else
              ⟨true, false, false, false, false, false, false, false, false⟩
          else
            bif Nat.blt k 4 then
              ⟨false, false, false, false, false, false, false, false, false⟩
            else
              bif Nat.blt k 5 then
                ⟨true, false, false, false, false, false, false, false, false⟩
              else
                ⟨false, false, false, false, false, false, false, false, false⟩
        else
          bif Nat.blt k 26 then
            bif Nat.blt k 17 then
              ⟨true, false, false, false, false, false, false, false, false⟩
            else
              ⟨false, false, false, false, false, false, false, false, false⟩
          else
            bif Nat.blt k 28 then
              ⟨false, true, false, false, false, false, false, false, false⟩
            else
              bif Nat.blt k 29 then
                ⟨false, true, false, true, false, false, false, false, false⟩
              else
                ⟨false, true, false, false, false, false, false, false, false⟩
      else
        bif Nat.blt k 51 then
          bif Nat.blt k 38 then
            bif Nat.blt k 35 then
              ⟨false, false, false, false, false, false, false, false, false⟩
            else
              ⟨true, false, false, false, false, false, false, false, false⟩
          else
            bif Nat.blt k 49 then
              ⟨false, false, false, false, false, false, false, false, false⟩
            else
              bif Nat.blt k 50 then
                ⟨false, true, false, false, false, false, false, false, false⟩
              else
                ⟨false, false, false, false, false, false, false, false, false⟩
        else
          bif Nat.blt k 69 then
            bif Nat.blt k 59 then
              ⟨false, true, false, false, false, false, false, false, false⟩
            else
              bif Nat.blt k 68 then
                ⟨false, false, false, false, false, false, false, false, false⟩
              else
                ⟨false, false, false, false, false, true, false, false, false⟩
          else
            bif Nat.blt k 70 then
              ⟨true, true, false, false, false, true, false, false, false⟩
            else
              bif Nat.blt k 86 then
                ⟨false, true, true, false, false, true, false, false, false⟩
              else
                ⟨false, false, true, false, false, true, false, false, false⟩
    else
      bif Nat.blt k 136 then
        bif Nat.blt k 108 then
          bif Nat.blt k 104 then
            bif Nat.blt k 103 then
              ⟨false, true, true, false, false, true, false, false, false⟩
            else
              ⟨false, false, false, false, false, true, false, false, false⟩
          else
            bif Nat.blt k 105 then
              ⟨true, false, false, false, false, true, false, false, false⟩
            else
              bif Nat.blt k 107 then
                ⟨false, false, false, false, false, true, false, false, false⟩
              else
                ⟨true, false, false, false, false, true, false, false, false⟩
        else
          bif Nat.blt k 111 then
            bif Nat.blt k 110 then
              ⟨false, false, false, false, false, true, false, false, false⟩
            else
              ⟨true, false, false, false, false, true, false, false, false⟩
          else
            bif Nat.blt k 112 then
              ⟨false, false, false, false, false, true, false, false, false⟩
            else
              bif Nat.blt k 113 then
                ⟨true, false, false, false, false, true, false, false, false⟩
              else
                ⟨false, false, false, false, false, true, false, false, false⟩
      else
        bif Nat.blt k 171 then
          bif Nat.blt k 153 then
            bif Nat.blt k 137 then
              ⟨true, false, false, false, false, true, false, false, false⟩
            else
              ⟨false, false, false, false, false, true, false, false, false⟩
          else
            bif Nat.blt k 154 then
              ⟨false, false, false, false, false, false, true, true, false⟩
            else
              bif Nat.blt k 155 then
                ⟨true, true, false, false, false, false, true, true, false⟩
              else
                ⟨false, true, true, false, false, false, true, true, false⟩
        else
          bif Nat.blt k 191 then
            bif Nat.blt k 172 then
              ⟨false, false, true, false, false, false, true, true, false⟩
            else
              bif Nat.blt k 188 then
                ⟨false, true, true, false, false, false, true, true, false⟩
              else
                ⟨false, false, false, false, false, false, true, true, false⟩
          else
            bif Nat.blt k 194 then
              ⟨true, false, false, false, false, false, true, true, false⟩
            else
              bif Nat.blt k 213 then
                ⟨false, false, false, false, false, false, true, true, false⟩
              else
                ⟨true, false, false, false, false, false, true, true, false⟩
  else
    bif Nat.blt k 378 then
      bif Nat.blt k 263 then
        bif Nat.blt k 246 then
          bif Nat.blt k 229 then
            bif Nat.blt k 219 then
              ⟨false, false, false, false, false, false, true, true, false⟩
            else
              ⟨false, true, false, false, false, false, true, true, false⟩
          else
            bif Nat.blt k 233 then
              ⟨true, false, false, false, false, false, true, true, false⟩
            else
              bif Nat.blt k 245 then
                ⟨false, false, false, false, false, false, true, true, false⟩
              else
                ⟨true, false, false, false, false, false, true, true, false⟩
        else
          bif Nat.blt k 251 then
            bif Nat.blt k 250 then
              ⟨false, false, false, false, false, false, true, true, false⟩
            else
              ⟨true, false, false, false, false, false, true, true, false⟩
          else
            bif Nat.blt k 256 then
              ⟨false, false, false, false, false, false, true, true, false⟩
            else
              bif Nat.blt k 257 then
                ⟨false, false, false, false, false, false, true, false, false⟩
              else
                ⟨true, false, false, false, false, false, true, false, false⟩
      else
        bif Nat.blt k 281 then
          bif Nat.blt k 273 then
            bif Nat.blt k 264 then
              ⟨false, false, false, false, true, false, false, false, true⟩
            else
              ⟨true, false, false, false, true, false, false, false, true⟩
          else
            bif Nat.blt k 275 then
              ⟨true, false, false, false, false, false, false, false, false⟩
            else
              bif Nat.blt k 280 then
                ⟨false, false, true, false, false, false, false, false, false⟩
              else
                ⟨false, false, false, false, false, false, false, false, false⟩
        else
          bif Nat.blt k 365 then
            bif Nat.blt k 283 then
              ⟨true, false, false, false, false, false, false, false, false⟩
            else
              bif Nat.blt k 288 then
                ⟨false, false, false, false, true, false, false, false, true⟩
              else
                ⟨true, false, false, false, false, false, false, false, false⟩
          else
            bif Nat.blt k 370 then
              ⟨false, false, false, false, false, false, false, false, false⟩
            else
              bif Nat.blt k 376 then
                ⟨true, false, false, false, false, false, false, false, false⟩
              else
                ⟨false, false, false, false, false, false, false, false, false⟩
    else
      bif Nat.blt k 483 then
        bif Nat.blt k 435 then
          bif Nat.blt k 385 then
            bif Nat.blt k 381 then
              ⟨true, false, false, false, false, false, false, false, false⟩
            else
              ⟨false, false, false, false, false, false, false, false, false⟩
          else
            bif Nat.blt k 394 then
              ⟨true, false, false, false, false, false, false, false, false⟩
            else
              bif Nat.blt k 399 then
                ⟨false, false, false, false, false, false, true, false, false⟩
              else
                ⟨true, false, false, false, false, false, false, false, false⟩
        else
          bif Nat.blt k 452 then
            bif Nat.blt k 441 then
              ⟨false, false, false, false, false, false, false, false, false⟩
            else
              bif Nat.blt k 448 then
                ⟨true, false, false, false, false, false, false, false, false⟩
              else
                ⟨false, false, false, false, false, false, false, false, false⟩
          else
            bif Nat.blt k 453 then
              ⟨true, false, false, false, false, false, false, false, false⟩
            else
              bif Nat.blt k 459 then
                ⟨false, false, false, false, false, false, false, false, false⟩
              else
                ⟨true, false, false, false, false, false, false, false, false⟩
      else
        bif Nat.blt k 530 then
          bif Nat.blt k 506 then
            bif Nat.blt k 489 then
              ⟨false, false, false, false, false, false, false, false, false⟩
            else
              ⟨true, false, false, false, false, false, false, false, false⟩
          else
            bif Nat.blt k 512 then
              ⟨false, false, false, false, false, false, false, false, false⟩
            else
              bif Nat.blt k 524 then
                ⟨true, false, false, false, false, false, false, false, false⟩
              else
                ⟨false, false, false, false, false, false, false, false, false⟩
        else
          bif Nat.blt k 735 then
            bif Nat.blt k 550 then
              ⟨true, false, false, false, false, false, false, false, false⟩
            else
              bif Nat.blt k 556 then
                ⟨false, false, false, false, false, false, false, false, false⟩
              else
                ⟨true, false, false, false, false, false, false, false, false⟩
          else
            bif Nat.blt k 740 then
              ⟨false, false, false, false, false, false, false, false, false⟩
            else
              bif Nat.blt k 764 then
                ⟨true, false, false, false, false, false, false, false, false⟩
              else
                ⟨false, false, false, false, false, false, false, false, false⟩

end Gosip.Sip.MsgM
