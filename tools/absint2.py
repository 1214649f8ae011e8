#!/usr/bin/env python3
"""Second abstract interpretation of the message machine: what the bytes between the mark and the
position, and the bytes in the scratch buffer, look like; and the shape of the start line. Writes
lean/Verif/Sip/MsgTextTable.lean; checked by Lean in Verif.Sip.MsgText."""
import os, sys
sys.path.insert(0, os.path.dirname(os.path.abspath(__file__)))
from absint import load, tree, groups, ROOT
import absint

# classes: 0 token text, 1 text without CR/LF, 2 text with complete folds, 3 = 2 + CR, 4 = 2 + CR LF, 5 anything
TOK = set(b"ABCDEFGHIJKLMNOPQRSTUVWXYZabcdefghijklmnopqrstuvwxyz0123456789-.!%*_+`'~")
def byts(lo, hi): return {13 if s >= 256 else s for s in range(lo, hi + 1)}
def adv(c, B):
    if c == 5: return 5
    if c == 3: return 4 if B == {10} else 5
    if c == 4: return 2 if B <= {32, 9} else 5
    if B & {13, 10}: return 3 if B == {13} else 5
    if c == 0: return 0 if B <= TOK else 1
    return c
def pre(c): return c if c <= 1 else 5      # class of a proper prefix
def join(a, b):
    if a == b: return a
    if max(a, b) <= 2: return max(a, b)
    return 5
NEED = dict(method=0, cseqMethod=0, name=0, viaProtocol=0, viaVersion=0, viaTransport=0,
            callID=1, viaHost=1, contentType=1, addrUnquotedDisplay=2)
BUF = dict(viaParam=2, addrParam=2, addrQuotedDisplay=2)
def step(acts, B, v):
    seg, buf, sh = v
    moved = 0
    for a in acts:
        n = a.split()[0]
        if n in NEED: assert seg <= NEED[n]
        if n in BUF: assert buf <= BUF[n]
        if n == 'value': assert seg == 3
        if n == 'hold': moved = 1
        elif n == 'mark': assert not moved; seg = 0
        elif n == 'backtrack': seg = 0; moved = 1
        elif n == 'start': buf = 0
        elif n == 'append': buf = adv(buf, B)
        elif n == 'hexLo': buf = 5
        elif n == 'method': assert sh == 0; sh = 1
        elif n == 'requestURI': assert sh == 1; sh = 2
        elif n == 'statusCode': assert sh in (0, 3, 4); sh = {0: 3, 3: 4, 4: 5}[sh]
    if not moved: seg = adv(seg, B)
    return (seg, buf, sh)
def joinsh(a, b):
    if a == b: return a
    assert {a, b} <= {2, 5, 6}, (a, b)
    return 6
def meet(v, w):
    return (join(v[0], w[0]), join(v[1], w[1]), joinsh(v[2], w[2]))

rows = load()
tab = {1: (0, 0, 0)}
work = [1]
while work:
    k = work.pop()
    for lo, hi, acts, t in rows[k]:
        v = step(acts, byts(lo, hi), tab[k])
        if t == 781: print('final', k, v); continue
        w = v if t not in tab else meet(tab[t], v)
        if t not in tab or w != tab[t]: tab[t] = w; work.append(t)
if __name__ == '__main__':
    W = ['import Verif.Sip.MsgActions\n',
         '/-!\n# Text classes and start-line shape per state of the message machine\n\nGenerated by `tools/absint2.py`; '
         'checked in `Verif.Sip.MsgText`.\n-/\n',
         'namespace Gosip.Sip.MsgM\n']
    for nm, i, doc in (('segCls', 0, 'Class of `data[mark:p]` in state `k`.'),
                       ('bufCls', 1, 'Class of `buf[0:amt]` in state `k`.'),
                       ('shape', 2, 'What of the start line has been read in state `k`.')):
        dflt = 6 if i == 2 else 5
        g = groups(lambda k: tab[k][i] if k in tab else dflt, 765)
        print(nm, len(g))
        W.append('/-- %s -/\ndef %s (k : Nat) : Nat :=\n' % (doc, nm) + tree(g, str))
    W.append('end Gosip.Sip.MsgM\n')
    open(os.path.join(ROOT, 'lean/Verif/Sip/MsgTextTable.lean'), 'w').write('\n'.join(W))
