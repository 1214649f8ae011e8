#!/usr/bin/env python3
"""Mechanically reads the Ragel -G2 goto code in /repo/sip/{uri,msg}_parse.go.

For every state K it evaluates the decision code found under `st_case_K:` on each
input symbol (the 256 bytes; for the states that test the look-ahead condition the
byte 13 is split in 269 = "CR, lookAheadWSP false" and 525 = "CR, lookAheadWSP true"),
and resolves the label it jumps to: either a plain `stJ`, or `trN`, whose body is
a list of action chunks followed by a `goto stJ`.
Nothing is built or run: the Go file is only read as text.
"""
import re, sys, json
from collections import OrderedDict

def load(path):
    return open(path, encoding='utf-8').read().split('\n')

class M: pass

def parse(path):
    L = load(path)
    # body range: from the first 'st_case_1:' after the cs switch to 'st_out:'
    i0 = next(i for i, l in enumerate(L) if l.strip() == 'goto st_out') + 1
    i1 = next(i for i, l in enumerate(L) if l.strip() == 'st_out:')
    blocks = OrderedDict()  # label -> (lineno, [lines])
    cur = None
    for i in range(i0, i1):
        l = L[i]
        m = re.match(r'^\s*(tr\d+|st\d+|st_case_\d+):$', l)
        if m:
            cur = m.group(1)
            assert cur not in blocks, cur
            blocks[cur] = (i + 1, [])
        else:
            blocks[cur][1].append((i + 1, l))
    m = M(); m.L = L; m.blocks = blocks; m.i1 = i1
    # eof actions
    e0 = next(i for i, l in enumerate(L) if l.strip() == 'if p == eof {')
    e1 = next(i for i, l in enumerate(L) if l.strip() == '_out: {}')
    m.eof = {}
    cases = None; chunk = None
    for i in range(e0 + 2, e1):
        l = L[i]
        mm = re.match(r'^\t\tcase ([\d, ]+):$', l)
        if mm:
            cases = [int(x) for x in mm.group(1).split(',')]
            for c in cases: m.eof[c] = []
            continue
        mm = re.match(r'^//line (\w+\.rl):(\d+)$', l)
        if mm:
            for c in cases: m.eof[c].append([mm.group(1) + ':' + mm.group(2), []])
            continue
        if re.match(r'^//line \w+\.go:\d+$', l):
            break
        if l.strip() and cases and m.eof[cases[0]]:
            for c in cases: m.eof[c][-1][1].append(l.strip())
    return m

def trans_block(m, label):
    """-> (chunks, target) ; chunks = [(rl:line, [lines])]"""
    ln, body = m.blocks[label]
    chunks = []; target = None
    for (n, l) in body:
        mm = re.match(r'^//line (\w+\.rl):(\d+)$', l)
        if mm:
            chunks.append((mm.group(1) + ':' + mm.group(2), [])); continue
        if l.startswith('//line '): continue
        s = l.strip()
        if not s: continue
        mm = re.match(r'^goto (st\d+)$', s)
        if mm and l == '\tgoto ' + mm.group(1):
            assert target is None
            target = int(mm.group(1)[2:]); continue
        chunks[-1][1].append(s)
    assert target is not None, label
    return chunks, target

def toks_cond(c):
    return c.replace('&&', ' and ').replace('||', ' or ').replace('data[p]', 'x').replace('_widec', 'w')

def decide(m, k):
    """Evaluate st_case_k for each symbol -> dict sym -> label"""
    ln, body = m.blocks['st_case_%d' % k]
    lines = [l.strip() for (_, l) in body if l.strip() and not l.startswith('//line')]
    wide = any('_widec' in l for l in lines)
    syms = list(range(256))
    if wide:
        syms = [x for x in syms if x != 13] + [269, 525]
    out = {}
    for s in syms:
        out[s] = run(lines, s)
    return out, wide, ln

def run(lines, sym):
    """tiny interpreter of the decision code"""
    if sym >= 256:
        x = 13; look = (sym == 525)
    else:
        x = sym; look = None
    env = {'x': x, 'w': None}
    # build tree on the fly with an index
    pos = 0
    def skip_block(i):
        """i: index of first line inside a block; returns the index of its closing line"""
        d = 1
        while True:
            l = lines[i]
            if l == '}': d -= 1
            elif l.endswith('{') and not l.startswith('}'): d += 1
            if d == 0: return i
            i += 1
    def stmts(i, end):
        """run statements lines[i:end]; returns label or None"""
        while i < end:
            l = lines[i]
            if l.startswith('goto '):
                return l[5:]
            if l.startswith('switch'):
                close = skip_block(i + 1)
                lab = switch(l, i + 1, close)
                if lab is not None: return lab
                i = close + 1; continue
            mm = re.match(r'^if (.*) \{$', l)
            if mm:
                close = skip_block(i + 1)
                c = mm.group(1).strip()
                if c == 'lookAheadWSP(data, p, pe)':
                    assert look is not None
                    v = look
                else:
                    v = eval(toks_cond(c), {}, env)
                if v:
                    lab = stmts(i + 1, close)
                    if lab is not None: return lab
                i = close + 1; continue
            if l == '_widec = int16(data[p])': env['w'] = env['x']; i += 1; continue
            if l == '_widec = 256 + (int16(data[p]) - 0)': env['w'] = 256 + env['x']; i += 1; continue
            if l == '_widec += 256': env['w'] += 256; i += 1; continue
            raise Exception('stmt? ' + l)
        return None
    def switch(head, i, close):
        subj = head[len('switch'):].strip().rstrip('{').strip()
        # collect the cases at depth 0
        cases = []
        j = i
        while j < close:
            l = lines[j]
            mm = re.match(r'^(case (.*)|default):$', l)
            assert mm, l
            k = j + 1; d = 0
            while k < close:
                t = lines[k]
                if d == 0 and re.match(r'^(case .*|default):$', t): break
                if t == '}': d -= 1
                elif t.endswith('{'): d += 1
                k += 1
            cases.append((mm.group(2), j + 1, k))
            j = k
        dflt = None
        for (c, a, b) in cases:
            if c is None: dflt = (a, b); continue
            if subj:
                v = eval(toks_cond(subj), {}, env) in [int(z) for z in c.split(',')]
            else:
                v = eval(toks_cond(c), {}, env)
            if v: return stmts(a, b)
        if dflt: return stmts(*dflt)
        return None
    r = stmts(0, len(lines))
    assert r is not None, lines
    return r

if __name__ == '__main__':
    m = parse(sys.argv[1])
    acts = {}
    states = sorted(int(l[8:]) for l in m.blocks if l.startswith('st_case_'))
    print('states', len(states), states[-1])
    ntr = 0; tot = 0
    seqs = set()
    for l in m.blocks:
        if l.startswith('tr'):
            ch, t = trans_block(m, l); ntr += 1
            for (k, b) in ch: acts.setdefault(k, set()).add('\n'.join(b))
            seqs.add(tuple(k for k, _ in ch))
    for k in m.eof:
        for (n, b) in m.eof[k]: acts.setdefault(n, set()).add('\n'.join(b))
    print('trs', ntr, 'seqs', len(seqs))
    for k in sorted(acts, key=lambda s: int(s.split(':')[1])): print(k, acts[k])
    wides = 0
    for s in states:
        if s == 0: continue
        o, w, ln = decide(m, s); wides += w
        syms = sorted(o)
        rng = 0; prev = None
        for x in syms:
            if o[x] != prev: rng += 1; prev = o[x]
        tot += rng
    print('wide', wides, 'ranges', tot)
    for q in sorted(seqs): print(q)
    print({k: [x[0] for x in v] for k, v in m.eof.items()})
