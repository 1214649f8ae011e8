#!/usr/bin/env python3
"""Writes lean/Verif/Sip/NameTable.lean: for each state of the header name trie of the message machine the
texts (in lower case) that lead to it. The Lean kernel re-checks the result in lean/Verif/Sip/Names.lean;
nothing here is trusted."""
import os
from absint import load, tree, groups, ROOT

def look(rows, k, c):
    for r in rows[k]:
        if r[0] <= c <= r[1]: return r

if __name__ == '__main__':
    rows = load()
    pre = {281: ['']}
    work = [(281, '')]
    while work:
        k, s = work.pop()
        for c in range(33, 127):
            ch = chr(c)
            if not (ch.isalnum() or ch in "-.!%*_+`'~") or ch.isupper(): continue
            lo, hi, acts, t = look(rows, k, c)
            if acts: continue
            pre.setdefault(t, [])
            if s + ch not in pre[t]:
                pre[t].append(s + ch)
                work.append((t, s + ch))
    vals = groups(lambda k: pre.get(k, []), 781)
    show = lambda v: '[' + ', '.join('b!"%s"' % x for x in v) + ']'
    with open(os.path.join(ROOT, 'lean/Verif/Sip/NameTable.lean'), 'w') as f:
        f.write('''import Verif.Basic

/-!
# The header name trie of the message machine

Generated by `tools/names.py`; checked in `Verif.Sip.Names`.
-/

namespace Gosip.Sip.MsgM

/-- The beginnings of known header names, in lower case, that lead to state `k`; `[]` outside the trie. -/
def pre (k : Nat) : List Bytes :=
''' + tree(vals, show) + '''
end Gosip.Sip.MsgM
''')
