#!/usr/bin/env python3
"""Computes which local variables of the message machine are live in each state. The Lean kernel
re-checks the result in lean/Verif/Sip/Lines.lean; nothing here is trusted."""
import os
from absint import load, tree, groups, ROOT

V = ['seg', 'buf', 'name', 'hex', 'value', 'via', 'addrp', 'addr']
def rw(a):
    n = a.split()[0]
    R, W = set(), set()
    if n in ('method', 'requestURI', 'callID', 'contentType', 'cseqMethod'): R = {'seg'}
    elif n == 'mark': W = {'seg'}
    elif n == 'backtrack': R = {'seg'}
    elif n == 'start': W = {'buf'}
    elif n == 'append': R = {'buf'}; W = {'buf'}
    elif n == 'hexHi': W = {'hex'}
    elif n == 'hexLo': R = {'buf', 'hex'}; W = {'buf', 'hex'}
    elif n == 'reasonPhrase': R = {'buf'}
    elif n == 'viaNew': W = {'via'}
    elif n in ('viaProtocol', 'viaVersion', 'viaTransport', 'viaHost'): R = {'seg', 'via'}
    elif n in ('via', 'viaPort'): R = {'via'}
    elif n == 'viaParam': R = {'name', 'buf', 'via'}
    elif n == 'name': R = {'seg'}; W = {'name'}
    elif n == 'value': R = {'seg', 'name', 'value'}
    elif n == 'addrNew': W = {'addr'}
    elif n == 'addrQuotedDisplay': R = {'buf', 'addr'}
    elif n in ('addrUnquotedDisplay', 'addrUri'): R = {'seg', 'addr'}
    elif n == 'addrParam': R = {'name', 'buf', 'addr'}
    elif n == 'addr': R = {'addrp', 'addr'}
    elif n == 'valueNil' or n == 'setValue': W = {'value'}
    elif n == 'lastAddr': W = {'addrp'}
    return R, W


V2 = V + ['nv']

def bwd(acts, L):
    """variables needed before the actions if L are needed after them"""
    L = set(L)
    for a in reversed(acts):
        n = a.split()[0]
        R, W = rw(a)
        if n == 'value': R = {'seg', 'value', 'nv'}
        if n == 'valueNil' and 'nv' in L: L.discard('nv'); L.add('name')
        if n in ('setValue', 'name'): L.discard('nv')
        L = (L - (W - R)) | R
    return L

if __name__ == '__main__':
    rows = load()
    live = {k: set() for k in range(782)}
    changed = True
    while changed:
        changed = False
        for k in rows:
            for lo, hi, acts, t in rows[k]:
                w = live[k] | bwd(acts, live[t])
                if w != live[k]: live[k] = w; changed = True
    f = lambda k: tuple(v in live[k] for v in V2)
    show = lambda v: '⟨' + ', '.join('true' if x else 'false' for x in v) + '⟩'
    g = groups(f, 782)
    print(len(g), live[1], live[280])
    W = ['import Verif.Sip.MsgActions\n',
         '/-!\n# Variables of the message machine whose values matter\n\nGenerated by '
         '`tools/absint3.py`; checked in `Verif.Sip.Lines`.\n-/\n',
         'namespace Gosip.Sip.MsgM\n',
         '/-- Which of the variables of `Loc` matter; `nv`: `name` matters if `value` is nil. -/\nstructure LV where\n'
         + ''.join('  %s : Bool\n' % v for v in V2) + '  deriving DecidableEq\n',
         '/-- The variables whose values matter in state `k`. -/\ndef live (k : Nat) : LV :=\n' + tree(g, show),
         'end Gosip.Sip.MsgM\n']
    open(os.path.join(ROOT, 'lean/Verif/Sip/LiveTable.lean'), 'w').write('\n'.join(W))
