import Verif.Sip.MsgActions

/-!
# Text classes and start-line shape per state of the message machine

Generated by `tools/absint2.py`; checked in `Verif.Sip.MsgText`.
-/

namespace Gosip.Sip.MsgM

/-- Class of `data[mark:p]` in state `k`. -/
def segCls (k : Nat) : Nat :=
  bif Nat.blt k 201 then
    bif Nat.blt k 116 then
      bif Nat.blt k 74 then
        bif Nat.blt k 58 then
          bif Nat.blt k 35 then
            bif Nat.blt k 4 then
              bif Nat.blt k 1 then
                5
              else
                bif Nat.blt k 3 then
                  0
                else
                  1
            else
              bif Nat.blt k 17 then
                bif Nat.blt k 14 then
                  5
                else
                  0
              else
                bif Nat.blt k 34 then
                  1
                else
                  2
          else
            bif Nat.blt k 44 then
              bif Nat.blt k 36 then
                0
              else
                bif Nat.blt k 38 then
                  1
                else
                  2
            else
              bif Nat.blt k 47 then
                bif Nat.blt k 46 then
                  3
                else
                  4
              else
                bif Nat.blt k 57 then
                  2
                else
                  3
        else
          bif Nat.blt k 65 then
            bif Nat.blt k 61 then
              bif Nat.blt k 59 then
                4
              else
                bif Nat.blt k 60 then
                  3
                else
                  4
            else
              bif Nat.blt k 63 then
                bif Nat.blt k 62 then
                  2
                else
                  3
              else
                bif Nat.blt k 64 then
                  4
                else
                  2
          else
            bif Nat.blt k 70 then
              bif Nat.blt k 67 then
                bif Nat.blt k 66 then
                  3
                else
                  4
              else
                bif Nat.blt k 69 then
                  2
                else
                  0
            else
              bif Nat.blt k 72 then
                bif Nat.blt k 71 then
                  1
                else
                  2
              else
                bif Nat.blt k 73 then
                  3
                else
                  4
      else
        bif Nat.blt k 100 then
          bif Nat.blt k 85 then
            bif Nat.blt k 78 then
              bif Nat.blt k 76 then
                2
              else
                bif Nat.blt k 77 then
                  3
                else
                  4
            else
              bif Nat.blt k 83 then
                bif Nat.blt k 82 then
                  2
                else
                  3
              else
                bif Nat.blt k 84 then
                  4
                else
                  2
          else
            bif Nat.blt k 96 then
              bif Nat.blt k 86 then
                3
              else
                bif Nat.blt k 95 then
                  2
                else
                  3
            else
              bif Nat.blt k 98 then
                bif Nat.blt k 97 then
                  4
                else
                  3
              else
                bif Nat.blt k 99 then
                  4
                else
                  2
        else
          bif Nat.blt k 108 then
            bif Nat.blt k 104 then
              bif Nat.blt k 101 then
                3
              else
                bif Nat.blt k 102 then
                  4
                else
                  2
            else
              bif Nat.blt k 106 then
                bif Nat.blt k 105 then
                  0
                else
                  1
              else
                bif Nat.blt k 107 then
                  2
                else
                  0
          else
            bif Nat.blt k 112 then
              bif Nat.blt k 110 then
                bif Nat.blt k 109 then
                  1
                else
                  2
              else
                bif Nat.blt k 111 then
                  0
                else
                  1
            else
              bif Nat.blt k 114 then
                bif Nat.blt k 113 then
                  0
                else
                  1
              else
                bif Nat.blt k 115 then
                  2
                else
                  3
    else
      bif Nat.blt k 152 then
        bif Nat.blt k 136 then
          bif Nat.blt k 127 then
            bif Nat.blt k 123 then
              bif Nat.blt k 117 then
                4
              else
                bif Nat.blt k 122 then
                  2
                else
                  3
            else
              bif Nat.blt k 125 then
                bif Nat.blt k 124 then
                  4
                else
                  2
              else
                bif Nat.blt k 126 then
                  3
                else
                  4
          else
            bif Nat.blt k 131 then
              bif Nat.blt k 128 then
                2
              else
                bif Nat.blt k 130 then
                  3
                else
                  4
            else
              bif Nat.blt k 133 then
                bif Nat.blt k 132 then
                  2
                else
                  3
              else
                bif Nat.blt k 134 then
                  4
                else
                  2
        else
          bif Nat.blt k 144 then
            bif Nat.blt k 140 then
              bif Nat.blt k 138 then
                1
              else
                bif Nat.blt k 139 then
                  3
                else
                  4
            else
              bif Nat.blt k 142 then
                bif Nat.blt k 141 then
                  2
                else
                  3
              else
                bif Nat.blt k 143 then
                  4
                else
                  2
          else
            bif Nat.blt k 148 then
              bif Nat.blt k 146 then
                bif Nat.blt k 145 then
                  3
                else
                  4
              else
                bif Nat.blt k 147 then
                  2
                else
                  3
            else
              bif Nat.blt k 150 then
                bif Nat.blt k 149 then
                  4
                else
                  2
              else
                bif Nat.blt k 151 then
                  3
                else
                  4
      else
        bif Nat.blt k 180 then
          bif Nat.blt k 161 then
            bif Nat.blt k 156 then
              bif Nat.blt k 154 then
                2
              else
                bif Nat.blt k 155 then
                  0
                else
                  1
            else
              bif Nat.blt k 158 then
                bif Nat.blt k 157 then
                  2
                else
                  3
              else
                bif Nat.blt k 159 then
                  4
                else
                  2
          else
            bif Nat.blt k 168 then
              bif Nat.blt k 163 then
                bif Nat.blt k 162 then
                  3
                else
                  4
              else
                bif Nat.blt k 167 then
                  2
                else
                  3
            else
              bif Nat.blt k 170 then
                bif Nat.blt k 169 then
                  4
                else
                  2
              else
                bif Nat.blt k 171 then
                  3
                else
                  2
        else
          bif Nat.blt k 187 then
            bif Nat.blt k 183 then
              bif Nat.blt k 181 then
                3
              else
                bif Nat.blt k 182 then
                  4
                else
                  3
            else
              bif Nat.blt k 185 then
                bif Nat.blt k 184 then
                  4
                else
                  2
              else
                bif Nat.blt k 186 then
                  3
                else
                  4
          else
            bif Nat.blt k 196 then
              bif Nat.blt k 192 then
                bif Nat.blt k 191 then
                  2
                else
                  0
              else
                bif Nat.blt k 195 then
                  1
                else
                  2
            else
              bif Nat.blt k 198 then
                bif Nat.blt k 197 then
                  3
                else
                  4
              else
                bif Nat.blt k 200 then
                  2
                else
                  3
  else
    bif Nat.blt k 368 then
      bif Nat.blt k 247 then
        bif Nat.blt k 227 then
          bif Nat.blt k 209 then
            bif Nat.blt k 205 then
              bif Nat.blt k 202 then
                4
              else
                bif Nat.blt k 203 then
                  2
                else
                  3
            else
              bif Nat.blt k 207 then
                bif Nat.blt k 206 then
                  4
                else
                  2
              else
                bif Nat.blt k 208 then
                  3
                else
                  4
          else
            bif Nat.blt k 212 then
              bif Nat.blt k 210 then
                2
              else
                bif Nat.blt k 211 then
                  3
                else
                  4
            else
              bif Nat.blt k 216 then
                bif Nat.blt k 215 then
                  2
                else
                  3
              else
                bif Nat.blt k 217 then
                  4
                else
                  2
        else
          bif Nat.blt k 237 then
            bif Nat.blt k 231 then
              bif Nat.blt k 228 then
                3
              else
                bif Nat.blt k 229 then
                  4
                else
                  0
            else
              bif Nat.blt k 235 then
                bif Nat.blt k 234 then
                  1
                else
                  2
              else
                bif Nat.blt k 236 then
                  3
                else
                  4
          else
            bif Nat.blt k 242 then
              bif Nat.blt k 240 then
                bif Nat.blt k 239 then
                  2
                else
                  3
              else
                bif Nat.blt k 241 then
                  4
                else
                  2
            else
              bif Nat.blt k 244 then
                bif Nat.blt k 243 then
                  3
                else
                  4
              else
                bif Nat.blt k 245 then
                  2
                else
                  1
      else
        bif Nat.blt k 272 then
          bif Nat.blt k 255 then
            bif Nat.blt k 250 then
              bif Nat.blt k 248 then
                3
              else
                bif Nat.blt k 249 then
                  4
                else
                  2
            else
              bif Nat.blt k 253 then
                bif Nat.blt k 252 then
                  1
                else
                  3
              else
                bif Nat.blt k 254 then
                  4
                else
                  2
          else
            bif Nat.blt k 261 then
              bif Nat.blt k 259 then
                bif Nat.blt k 256 then
                  3
                else
                  2
              else
                bif Nat.blt k 260 then
                  3
                else
                  4
            else
              bif Nat.blt k 263 then
                bif Nat.blt k 262 then
                  2
                else
                  0
              else
                bif Nat.blt k 270 then
                  2
                else
                  3
        else
          bif Nat.blt k 281 then
            bif Nat.blt k 277 then
              bif Nat.blt k 273 then
                4
              else
                bif Nat.blt k 275 then
                  0
                else
                  1
            else
              bif Nat.blt k 279 then
                bif Nat.blt k 278 then
                  3
                else
                  4
              else
                bif Nat.blt k 280 then
                  2
                else
                  5
          else
            bif Nat.blt k 287 then
              bif Nat.blt k 285 then
                bif Nat.blt k 283 then
                  0
                else
                  1
              else
                bif Nat.blt k 286 then
                  3
                else
                  4
            else
              bif Nat.blt k 365 then
                bif Nat.blt k 288 then
                  2
                else
                  0
              else
                bif Nat.blt k 367 then
                  1
                else
                  3
    else
      bif Nat.blt k 483 then
        bif Nat.blt k 437 then
          bif Nat.blt k 385 then
            bif Nat.blt k 376 then
              bif Nat.blt k 369 then
                4
              else
                bif Nat.blt k 370 then
                  2
                else
                  0
            else
              bif Nat.blt k 383 then
                bif Nat.blt k 381 then
                  1
                else
                  3
              else
                bif Nat.blt k 384 then
                  4
                else
                  2
          else
            bif Nat.blt k 397 then
              bif Nat.blt k 394 then
                0
              else
                bif Nat.blt k 396 then
                  1
                else
                  3
            else
              bif Nat.blt k 399 then
                bif Nat.blt k 398 then
                  4
                else
                  2
              else
                bif Nat.blt k 435 then
                  0
                else
                  1
        else
          bif Nat.blt k 452 then
            bif Nat.blt k 440 then
              bif Nat.blt k 438 then
                2
              else
                bif Nat.blt k 439 then
                  3
                else
                  4
            else
              bif Nat.blt k 448 then
                bif Nat.blt k 441 then
                  2
                else
                  0
              else
                bif Nat.blt k 450 then
                  1
                else
                  2
          else
            bif Nat.blt k 456 then
              bif Nat.blt k 454 then
                bif Nat.blt k 453 then
                  0
                else
                  3
              else
                bif Nat.blt k 455 then
                  4
                else
                  2
            else
              bif Nat.blt k 458 then
                bif Nat.blt k 457 then
                  3
                else
                  4
              else
                bif Nat.blt k 459 then
                  2
                else
                  0
      else
        bif Nat.blt k 528 then
          bif Nat.blt k 508 then
            bif Nat.blt k 487 then
              bif Nat.blt k 485 then
                1
              else
                bif Nat.blt k 486 then
                  2
                else
                  3
            else
              bif Nat.blt k 489 then
                bif Nat.blt k 488 then
                  4
                else
                  2
              else
                bif Nat.blt k 506 then
                  0
                else
                  1
          else
            bif Nat.blt k 512 then
              bif Nat.blt k 510 then
                bif Nat.blt k 509 then
                  2
                else
                  3
              else
                bif Nat.blt k 511 then
                  4
                else
                  2
            else
              bif Nat.blt k 526 then
                bif Nat.blt k 524 then
                  0
                else
                  1
              else
                bif Nat.blt k 527 then
                  2
                else
                  3
        else
          bif Nat.blt k 555 then
            bif Nat.blt k 550 then
              bif Nat.blt k 529 then
                4
              else
                bif Nat.blt k 530 then
                  2
                else
                  0
            else
              bif Nat.blt k 553 then
                bif Nat.blt k 552 then
                  1
                else
                  2
              else
                bif Nat.blt k 554 then
                  3
                else
                  4
          else
            bif Nat.blt k 738 then
              bif Nat.blt k 735 then
                bif Nat.blt k 556 then
                  2
                else
                  0
              else
                bif Nat.blt k 737 then
                  1
                else
                  3
            else
              bif Nat.blt k 740 then
                bif Nat.blt k 739 then
                  4
                else
                  2
              else
                bif Nat.blt k 764 then
                  0
                else
                  5

/-- Class of `buf[0:amt]` in state `k`. -/
def bufCls (k : Nat) : Nat :=
  bif Nat.blt k 97 then
    bif Nat.blt k 68 then
      bif Nat.blt k 26 then
        bif Nat.blt k 13 then
          bif Nat.blt k 1 then
            5
          else
            0
        else
          bif Nat.blt k 14 then
            5
          else
            0
      else
        bif Nat.blt k 57 then
          bif Nat.blt k 49 then
            5
          else
            2
        else
          bif Nat.blt k 58 then
            3
          else
            bif Nat.blt k 59 then
              4
            else
              5
    else
      bif Nat.blt k 81 then
        bif Nat.blt k 79 then
          bif Nat.blt k 71 then
            0
          else
            2
        else
          bif Nat.blt k 80 then
            0
          else
            1
      else
        bif Nat.blt k 87 then
          bif Nat.blt k 86 then
            2
          else
            0
        else
          bif Nat.blt k 95 then
            2
          else
            bif Nat.blt k 96 then
              3
            else
              4
  else
    bif Nat.blt k 180 then
      bif Nat.blt k 164 then
        bif Nat.blt k 154 then
          bif Nat.blt k 103 then
            0
          else
            5
        else
          bif Nat.blt k 156 then
            0
          else
            2
      else
        bif Nat.blt k 166 then
          bif Nat.blt k 165 then
            0
          else
            1
        else
          bif Nat.blt k 171 then
            2
          else
            bif Nat.blt k 172 then
              0
            else
              2
    else
      bif Nat.blt k 218 then
        bif Nat.blt k 182 then
          bif Nat.blt k 181 then
            3
          else
            4
        else
          bif Nat.blt k 188 then
            0
          else
            5
      else
        bif Nat.blt k 227 then
          bif Nat.blt k 219 then
            0
          else
            2
        else
          bif Nat.blt k 228 then
            3
          else
            bif Nat.blt k 229 then
              4
            else
              5

/-- What of the start line has been read in state `k`. -/
def shape (k : Nat) : Nat :=
  bif Nat.blt k 14 then
    bif Nat.blt k 3 then
      bif Nat.blt k 1 then
        6
      else
        0
    else
      bif Nat.blt k 5 then
        1
      else
        bif Nat.blt k 13 then
          2
        else
          6
  else
    bif Nat.blt k 23 then
      bif Nat.blt k 22 then
        0
      else
        3
    else
      bif Nat.blt k 24 then
        4
      else
        bif Nat.blt k 34 then
          5
        else
          6

end Gosip.Sip.MsgM
