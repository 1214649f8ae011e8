import Verif.Basic

/-!
# Parts of the message machine

Generated by `tools/regions.py`; checked in `Verif.Sip.Regions`.
-/

namespace Gosip.Sip.MsgM

/-- The part of the machine a state belongs to: 1 text values, 2 extension headers before the value, 3
addresses, 4 Via, 5 Call-ID, 6 CSeq, 7 Content-Type, 8 Content-Length, 9 Expires, 10 Max-Forwards, 11
Min-Expires, 12 the header `l`, 13 Content-Type after the media type, 14 the start line; 0 for the other states. -/
def reg (k : Nat) : Nat :=
  bif Nat.blt k 385 then
    bif Nat.blt k 276 then
      bif Nat.blt k 68 then
        bif Nat.blt k 34 then
          bif Nat.blt k 1 then
            0
          else
            14
        else
          bif Nat.blt k 38 then
            7
          else
            13
      else
        bif Nat.blt k 263 then
          bif Nat.blt k 153 then
            4
          else
            3
        else
          bif Nat.blt k 273 then
            1
          else
            0
    else
      bif Nat.blt k 366 then
        bif Nat.blt k 284 then
          bif Nat.blt k 280 then
            2
          else
            0
        else
          bif Nat.blt k 288 then
            1
          else
            0
      else
        bif Nat.blt k 377 then
          bif Nat.blt k 370 then
            7
          else
            0
        else
          bif Nat.blt k 381 then
            5
          else
            bif Nat.blt k 382 then
              0
            else
              5
  else
    bif Nat.blt k 489 then
      bif Nat.blt k 441 then
        bif Nat.blt k 399 then
          bif Nat.blt k 395 then
            0
          else
            3
        else
          bif Nat.blt k 436 then
            0
          else
            8
      else
        bif Nat.blt k 459 then
          bif Nat.blt k 449 then
            0
          else
            6
        else
          bif Nat.blt k 484 then
            0
          else
            9
    else
      bif Nat.blt k 530 then
        bif Nat.blt k 512 then
          bif Nat.blt k 507 then
            0
          else
            12
        else
          bif Nat.blt k 525 then
            0
          else
            10
      else
        bif Nat.blt k 556 then
          bif Nat.blt k 551 then
            0
          else
            11
        else
          bif Nat.blt k 736 then
            0
          else
            bif Nat.blt k 740 then
              4
            else
              0

end Gosip.Sip.MsgM
