#!/usr/bin/env python3
"""Writes lean/Verif/Sip/RegionTable.lean: the part of the message machine each state belongs to. The Lean
kernel re-checks the result in lean/Verif/Sip/Regions.lean; nothing here is trusted."""
import os
from absint import load, tree, groups, ROOT

ENTRY = {1: 14, 38: 13, 39: 13, 44: 13, 45: 13, 284: 1, 395: 3, 736: 4, 377: 5, 449: 6, 366: 7, 436: 8, 484: 9, 525: 10, 551: 11, 507: 12, 276: 2}

if __name__ == '__main__':
    rows = load()
    reg = {}
    for e, g in ENTRY.items():
        work = [e]
        while work:
            k = work.pop()
            if k in (280, 381, 781): continue
            if g == 2 and 263 <= k <= 272: continue
            if g == 7 and reg.get(k) == 13: continue
            assert reg.get(k, g) == g, (k, g, reg[k])
            if k in reg: continue
            reg[k] = g
            for lo, hi, acts, t in rows[k]: work.append(t)
    vals = groups(lambda k: reg.get(k, 0), 782)
    print(len(vals))
    with open(os.path.join(ROOT, 'lean/Verif/Sip/RegionTable.lean'), 'w') as f:
        f.write('''import Verif.Basic

/-!
# Parts of the message machine

Generated by `tools/regions.py`; checked in `Verif.Sip.Regions`.
-/

namespace Gosip.Sip.MsgM

/-- The part of the machine a state belongs to: 1 text values, 2 extension headers before the value, 3
addresses, 4 Via, 5 Call-ID, 6 CSeq, 7 Content-Type, 8 Content-Length, 9 Expires, 10 Max-Forwards, 11
Min-Expires, 12 the header `l`, 13 Content-Type after the media type, 14 the start line; 0 for the other states. -/
def reg (k : Nat) : Nat :=
''' + tree(vals, str) + '''
end Gosip.Sip.MsgM
''')
