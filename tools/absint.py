#!/usr/bin/env python3
"""Computes, by fixpoint iteration over the transition table of the message machine, the per-state
abstract values used as invariants in lean/Verif/Sip/MsgSafe.lean, and the ranks of the termination
measure. The Lean kernel re-checks the result; nothing here is trusted."""
import os, re, sys
sys.path.insert(0, os.path.dirname(os.path.abspath(__file__)))
ROOT = os.path.dirname(os.path.dirname(os.path.abspath(__file__)))

def load():
    src = open(os.path.join(ROOT, 'lean/Verif/Sip/MsgTable.lean')).read()
    acts = {}
    for n, l in re.findall(r'^def (a\d+) : List MAct := \[(.*)\]$', src, re.M):
        acts[n] = [x.strip()[1:] for x in l.split(',')] if l.strip() else []
    rows = {}
    for k, body in re.findall(r'^def s(\d+) : List Row :=\n  \[(.*?)\]\n', src, re.M | re.S):
        rows[int(k)] = [(int(a), int(b), acts[c], int(t)) for a, b, c, t in
                        re.findall(r'⟨(\d+), (\d+), (a\d+), (\d+)⟩', body)]
    return rows

def tree(vals, show, ind=1):
    """vals: list of (start, value) with increasing start"""
    pad = '  ' * ind
    if len(vals) == 1:
        return pad + show(vals[0][1]) + '\n'
    mid = len(vals) // 2
    return (pad + 'bif Nat.blt k %d then\n' % vals[mid][0] + tree(vals[:mid], show, ind + 1)
            + pad + 'else\n' + tree(vals[mid:], show, ind + 1))

def groups(tab, n):
    out = []
    for k in range(n):
        v = tab(k)
        if not out or out[-1][1] != v:
            out.append((k, v))
    return out

F = ['a', 'mk', 'am', 'pos', 'mp', 'via', 'addr', 'adu', 'addrp']
SL = {'method', 'requestURI', 'viaProtocol', 'viaVersion', 'viaTransport', 'viaHost', 'name',
      'addrUnquotedDisplay', 'addrUri', 'callID', 'contentType', 'cseqMethod'}
VIA = {'viaProtocol', 'viaVersion', 'viaTransport', 'viaHost', 'viaPort', 'viaParam', 'via'}
ADR = {'addrQuotedDisplay', 'addrUnquotedDisplay', 'addrUri', 'addrParam', 'addr'}

def aexec(a, v):
    v = dict(v)
    n = a.split()[0]
    if n in SL: assert v['mk'] >= 2, (a, v)
    if n in VIA: assert v['via'], (a, v)
    if n in ADR: assert v['addr'], (a, v)
    if n == 'hold':
        assert v['pos'] and v['a'] >= 1, (a, v)
        v['a'] -= 1; v['mk'] = max(v['mk'] - 1, 0); v['pos'] = False
    elif n == 'mark': v['mk'] = 2; v['am'] = v['a'] >= 1; v['mp'] = v['pos']
    elif n == 'backtrack':
        assert v['mk'] >= 1 and v['am'] and v['mp'], (a, v)
        v['a'] = 0; v['mk'] = 1; v['pos'] = False
    elif n == 'start': v['a'] = 1; v['am'] = True
    elif n in ('append', 'hexLo'):
        assert v['a'] >= 1, (a, v)
        v['a'] -= 1; v['am'] = False
    elif n == 'value': assert v['mk'] >= 3, (a, v)
    elif n == 'viaNew': v['via'] = True
    elif n == 'via': v['via'] = False
    elif n == 'addrNew': v['addr'] = True; v['adu'] = False
    elif n == 'addrUri': v['adu'] = True
    elif n == 'addr':
        assert v['adu'] and v['addrp'], (a, v)
        v['addr'] = False; v['adu'] = False
    elif n == 'lastAddr': v['addrp'] = True
    return v

def advance(v):
    v = dict(v)
    v['a'] = min(v['a'] + 1, 1)
    v['mk'] = min(v['mk'] + 1, 3) if v['mk'] else 0
    v['pos'] = True
    return v

def meet(v, w): return {f: min(v[f], w[f]) for f in F}

def run(rows):
    tab = {1: dict(a=1, mk=2, am=True, pos=False, mp=False, via=False, addr=False, adu=False, addrp=False)}
    work = [1]
    import copy
    # first pass without assertions would be needed if the meet were not monotone; asserts are on values
    # that only go down, so a failure here is final
    while work:
        k = work.pop()
        for lo, hi, acts, t in rows[k]:
            v = tab[k]
            for a in acts: v = aexec(a, v)
            v = advance(v)
            if t == 781: continue
            w = v if t not in tab else meet(tab[t], v)
            if t not in tab or w != tab[t]:
                tab[t] = w; work.append(t)
    return tab

def ranks(rows, L):
    """hold edges (p unchanged) between states outside L; longest path"""
    edges = {}
    for k, rs in rows.items():
        for lo, hi, acts, t in rs:
            if 'hold' in acts or 'backtrack' in acts:
                edges.setdefault(k, set()).add((t, 'backtrack' in acts))
    return edges

if __name__ == '__main__':
    rows = load()
    tab = run(rows)
    unreached = [k for k in rows if k not in tab]
    print('unreached', unreached)
    e = ranks(rows, set(range(257, 263)))
    for k in sorted(e): 
        if k < 281 : print(k, sorted(e[k]))
    print(len(set(tuple(v.values()) for v in tab.values())), 'values', len(groups(lambda k: tuple(tab[k].values()) if k in tab else None, 765)), 'groups')
    hold = {}
    for k, rs in rows.items():
        for lo, hi, acts, t in rs:
            if 'hold' in acts:
                assert acts.count('hold') == 1 and 'backtrack' not in acts
                hold.setdefault(k, set()).add(t)
            if 'backtrack' in acts:
                assert 257 <= k <= 262 and t in (188, 229), k
    def rk(k):
        if k == 256: return 5
        r = 0
        for t in hold.get(k, ()):
            r = max(r, rk(t) + 1)
        return r
    n = 765
    W = ['import Verif.Sip.MsgActions\n',
         '/-!\n# Per-state invariants and ranks of the message machine\n\nGenerated by `tools/absint.py`; '
         'checked in `Verif.Sip.MsgSafe`.\n-/\n',
         'namespace Gosip.Sip.MsgM\n',
         '''/-- What is known when a state is entered at position `p`:
`amt + a ≤ p + 1`; `mkd = 0` or `mark + (mkd - 1) ≤ p + 1`; `am`: `amt ≤ mark`; `pos`: `1 ≤ p`;
`mp`: `1 ≤ mark`; `via`, `addr`, `addrp` are not nil; `adu`: `addr` has a URI. -/
structure AV where
  a : Nat
  mkd : Nat
  am : Bool
  pos : Bool
  mp : Bool
  via : Bool
  addr : Bool
  adu : Bool
  addrp : Bool
  deriving DecidableEq
''']
    b = lambda x: 'true' if x else 'false'
    show = lambda v: '⟨%d, %d, %s⟩' % (v[0], v[1], ', '.join(b(x) for x in v[2:])) if v else '⟨0, 0, false, false, false, false, false, false, false⟩'
    g = groups(lambda k: tuple(tab[k].values()) if k in tab else None, n)
    W.append('/-- The invariant of state `k`. -/\ndef inv (k : Nat) : AV :=\n' + tree(g, show))
    g = groups(rk, n)
    W.append('/-- The rank of state `k`: a transition that does not advance `p` goes to a smaller rank. -/\n'
             'def rank (k : Nat) : Nat :=\n' + tree(g, str))
    W.append('end Gosip.Sip.MsgM\n')
    open(os.path.join(ROOT, 'lean/Verif/Sip/MsgInvTable.lean'), 'w').write('\n'.join(W))
    print('ranks', sorted(set(rk(k) for k in rows)), len(g))
