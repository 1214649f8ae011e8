#!/usr/bin/env python3
"""Writes lean/Verif/Sip/UriTable.lean and lean/Verif/Sip/MsgTable.lean from the generated Go
parsers /repo/sip/{uri,msg}_parse.go. Each action chunk must have exactly the Go text below,
otherwise the script stops."""
import os, sys
sys.path.insert(0, os.path.dirname(os.path.abspath(__file__)))
import extract as E
ROOT = os.path.dirname(os.path.dirname(os.path.abspath(__file__)))

URI_ACTS = {
 43: ('start', 'amt = 0'),
 47: ('append', 'buf[amt] = data[p]\namt++'),
 52: ('hexHi', 'hex = unhex(data[p]) * 16'),
 56: ('hexLo', 'hex += unhex(data[p])\nbuf[amt] = hex\namt++'),
 70: ('scheme', 'uri.Scheme = string(buf[0:amt])'),
 74: ('user', 'uri.User = string(buf[0:amt])'),
 78: ('pass', 'uri.Pass = string(buf[0:amt])'),
 82: ('host', 'uri.Host = string(buf[0:amt])'),
 86: ('port', 'uri.Port = uri.Port * 10 + uint16(data[p] - 0x30)'),
 90: ('b1', 'b1 = string(buf[0:amt])\namt = 0'),
 95: ('b2', 'b2 = string(buf[0:amt])\namt = 0'),
 100: ('lower', "if 'A' <= data[p] && data[p] <= 'Z' {\nbuf[amt] = data[p] + 0x20\n} else {\nbuf[amt] = data[p]\n}\namt++"),
 109: ('param', 'uri.Param = &URIParam{b1, b2, uri.Param}'),
 113: ('header', 'uri.Header = &URIHeader{b1, b2, uri.Header}'),
}
NS = {'Uri': 'Uri', 'Msg': 'MsgM'}
ADDRF = {437: 'Contact', 438: 'From', 439: 'PAssertedIdentity', 440: 'RecordRoute',
         441: 'RemotePartyID', 442: 'Route', 443: 'To'}
VALF = {450: 'Accept', 451: 'AcceptContact', 452: 'AcceptEncoding', 453: 'AcceptLanguage', 454: 'Allow',
 455: 'AllowEvents', 456: 'AlertInfo', 457: 'AuthenticationInfo', 458: 'Authorization',
 459: 'ContentDisposition', 460: 'ContentLanguage', 461: 'ContentEncoding', 462: 'CallInfo', 463: 'Date',
 464: 'ErrorInfo', 465: 'Event', 466: 'InReplyTo', 467: 'ReplyTo', 468: 'MIMEVersion', 469: 'Organization',
 470: 'Priority', 471: 'ProxyAuthenticate', 472: 'ProxyAuthorization', 473: 'ProxyRequire', 474: 'ReferTo',
 475: 'ReferredBy', 476: 'Require', 477: 'RetryAfter', 478: 'Server', 479: 'Subject', 480: 'Supported',
 481: 'Timestamp', 482: 'Unsupported', 483: 'UserAgent', 484: 'Warning', 485: 'WWWAuthenticate'}
def lc(s):
    return {'MIMEVersion': 'mimeVersion', 'WWWAuthenticate': 'wwwAuthenticate',
            'PAssertedIdentity': 'pAssertedIdentity'}.get(s, s[0].lower() + s[1:])
MSG_ACTS = {
 72: ('hold', 'p--'),
 76: ('brk', '{p++; cs = 781; goto _out }'),
 80: ('mark', 'mark = p'),
 84: ('backtrack', 'p = ( mark) - 1'),
 88: ('start', 'amt = 0'),
 92: ('append', 'buf[amt] = data[p]\namt++'),
 102: ('hexHi', 'hex = unhex(data[p]) * 16'),
 106: ('hexLo', 'hex += unhex(data[p])\nbuf[amt] = hex\namt++'),
 112: ('method', 'msg.Method = string(data[mark:p])'),
 116: ('versionMajor', 'msg.VersionMajor = msg.VersionMajor * 10 + (data[p] - 0x30)'),
 120: ('versionMinor', 'msg.VersionMinor = msg.VersionMinor * 10 + (data[p] - 0x30)'),
 124: ('requestURI', 'msg.Request, err = ParseURI(data[mark:p])\nif err != nil { return nil, err }'),
 129: ('statusCode', 'msg.Status = msg.Status * 10 + (int(data[p]) - 0x30)'),
 133: ('reasonPhrase', 'msg.Phrase = string(buf[0:amt])'),
 137: ('viaNew', 'via = new(Via)'),
 141: ('via', '*viap = via\nviap = &via.Next\nvia = nil'),
 147: ('viaProtocol', 'via.Protocol = string(data[mark:p])'),
 151: ('viaVersion', 'via.Version = string(data[mark:p])'),
 155: ('viaTransport', 'via.Transport = string(data[mark:p])'),
 159: ('viaHost', 'via.Host = string(data[mark:p])'),
 163: ('viaPort', 'via.Port = via.Port * 10 + (uint16(data[p]) - 0x30)'),
 167: ('viaParam', 'via.Param = &Param{name, string(buf[0:amt]), via.Param}'),
 171: ('gxh', 'p--\n{goto st273 }'),
 176: ('name', 'name = string(data[mark:p])'),
 180: ('value', '{\nb := data[mark:p - 1]\nif value != nil {\n*value = string(b)\n} else {\nmsg.XHeader = &XHeader{name, b, msg.XHeader}\n}\n}'),
 189: ('addrNew', 'addr = new(Addr)'),
 193: ('addrQuotedDisplay', 'addr.Display = string(buf[0:amt])'),
 197: ('addrUnquotedDisplay', '{\nend := p\nfor end > mark && whitespacec(data[end - 1]) {\nend--\n}\naddr.Display = string(data[mark:end])\n}'),
 205: ('addrUri', 'addr.Uri, err = ParseURI(data[mark:p])\nif err != nil { return nil, err }'),
 210: ('addrParam', 'addr.Param = &Param{name, string(buf[0:amt]), addr.Param}'),
 214: ('addr', '*addrp = addr\naddrp = &addr.Next\naddr = nil'),
 220: ('callID', 'msg.CallID = string(data[mark:p])'),
 224: ('contentLength', 'clen = clen * 10 + (int(data[p]) - 0x30)'),
 228: ('contentType', 'ctype = string(data[mark:p])'),
 232: ('cseq', 'msg.CSeq = msg.CSeq * 10 + (int(data[p]) - 0x30)'),
 236: ('cseqMethod', 'msg.CSeqMethod = string(data[mark:p])'),
 240: ('expires', 'msg.Expires = msg.Expires * 10 + (int(data[p]) - 0x30)'),
 244: ('maxForwards', 'msg.MaxForwards = msg.MaxForwards * 10 + (int(data[p]) - 0x30)'),
 248: ('minExpires', 'msg.MinExpires = msg.MinExpires * 10 + (int(data[p]) - 0x30)'),
 252: ('goto 256', '{goto st256 }'), 253: ('goto 188', '{goto st188 }'), 254: ('goto 153', '{goto st153 }'),
 255: ('goto 229', '{goto st229 }'), 256: ('goto 34', '{goto st34 }'), 257: ('goto 280', '{goto st280 }'),
 258: ('goto 263', '{goto st263 }'), 259: ('goto 103', '{goto st103 }'), 260: ('goto 68', '{goto st68 }'),
 493: ('clen0', 'clen=0'), 495: ('expires0', 'msg.Expires=0'), 496: ('maxForwards0', 'msg.MaxForwards=0'),
 497: ('minExpires0', 'msg.MinExpires=0'), 532: ('valueNil', 'value=nil'), 534: ('valueNil', 'value=nil'),
}
for k, f in ADDRF.items():
    MSG_ACTS[k] = ('lastAddr .%s' % lc(f), 'addrp=lastAddr(&msg.%s)' % f)
for k, f in VALF.items():
    MSG_ACTS[k] = ('setValue .%s' % lc(f), 'value=&msg.%s' % f)

def acts_of(chunks, table):
    out = []
    for (k, body) in chunks:
        n = int(k.split(':')[1])
        name, text = table[n]
        if '\n'.join(body) != text:
            raise SystemExit('action %s: unexpected text %r' % (k, body))
        out.append('.' + name if ' ' not in name else '.%s' % name)
    return '[' + ', '.join(out) + ']'

def cut(chunks, tgt, table):
    """A chunk ending in `{goto stN }` (fgoto, gxh) or in `{p++; cs = 781; goto _out }` (fbreak) leaves
    the transition: what follows it is dead. Returns the executed actions and the real target."""
    out = []
    for i, c in enumerate(chunks):
        n = int(c[0].split(':')[1])
        acts_of([c], table)
        name = table[n][0]
        if name.startswith('goto '):
            return acts_of(out, table), int(name[5:])
        if name == 'brk':
            return acts_of(out, table), 781
        if name == 'gxh':
            return acts_of(out + [('sip.rl:72', ['p--'])], table), 273
        out.append(c)
    assert tgt < 765, chunks
    return acts_of(out, table), tgt

def tree(states, leaf, ind=1):
    """binary decision tree on the variable k"""
    pad = '  ' * ind
    if len(states) == 1:
        return pad + leaf(states[0]) + '\n'
    mid = len(states) // 2
    return (pad + 'bif Nat.blt k %d then\n' % states[mid] + tree(states[:mid], leaf, ind + 1)
            + pad + 'else\n' + tree(states[mid:], leaf, ind + 1))

def gen(name, go, table, act):
    m = E.parse(go)
    states = sorted(int(l[8:]) for l in m.blocks if l.startswith('st_case_'))
    assert states == list(range(len(states)))
    if name == 'Msg':
        # no transition leads to a final state other than 781 (asserted below), which is left by fbreak
        states = states[:765]
    base = os.path.basename(go)
    W = []
    W.append('import Verif.Sip.%sActions\n' % name)
    W.append('/-!\n# Transition table of `sip/%s`\n\nGenerated by `tools/gentables.py`; do not edit.\n' % base)
    W.append('One definition per state: for each range of symbols `lo..hi`, the actions executed and the next\n'
             'state, as found under the label `st_case_K` at the cited line. Symbols not listed lead to the error\n'
             'state 0 without any action.\n-/\n')
    W.append('namespace Gosip.Sip.%s\n' % NS[name])
    seqs = {}; wides = []
    body = []
    for k in states:
        if k == 0: continue
        o, wide, ln = E.decide(m, k)
        if wide: wides.append(k)
        rows = []
        for x in sorted(o):
            lab = o[x]
            if lab.startswith('tr'):
                ch, t = E.trans_block(m, lab)
                a = acts_of(ch, table)
            else:
                a, t = '[]', int(lab[2:])
            if lab.startswith('tr') and name == 'Msg':
                a, t = cut(ch, t, table)
            if t == 0:
                assert a == '[]', (k, x)
                continue
            assert name != 'Msg' or t < 765 or t == 781, (k, x)
            if a not in seqs: seqs[a] = 'a%d' % len(seqs)
            a = seqs[a]
            if rows and rows[-1][1] == x - 1 and rows[-1][2:] == [a, t]:
                rows[-1][1] = x
            else:
                rows.append([x, x, a, t])
        body.append('/-- `sip/%s:%d` (`st_case_%d`). -/\ndef s%d : List Row :=\n  [%s]\n' %
                    (base, ln, k, k, ',\n   '.join('⟨%d, %d, %s, %d⟩' % tuple(r) for r in rows)))
    for a, n in seqs.items():
        W.append('/-- Action sequence of the transitions below. -/\ndef %s : List %s := %s\n' % (n, act, a))
    W += body
    W.append('/-- Rows of state `k` (0 for the error state, which has no transition). -/\ndef rows (k : Nat) : List Row :=\n' +
             tree(states + [len(states)], lambda s: 's%d' % s if 0 < s < len(states) else '[]'))
    if name == 'Msg':
        # at the end of the input the only action is gxh: p-- and a jump to st273, where p++ gives p == pe
        # again: the machine stops in state 273 instead of k, both below msg_first_final = 765
        assert all([c[0] for c in v] == ['sip.rl:171'] for v in m.eof.values())
    else:
      W.append('/-- Actions executed when the input ends in state `k` (`switch cs` after `_test_eof`). -/\ndef eofActs (k : Nat) : List %s :=\n' % act)
    groups = {}
    for k in sorted(m.eof) if name != 'Msg' else []:
        groups.setdefault(acts_of(m.eof[k], table), []).append(k)
    s = ''
    for a, ks in groups.items():
        rs = []
        for k in ks:
            if rs and rs[-1][1] == k - 1: rs[-1][1] = k
            else: rs.append([k, k])
        cond = ' || '.join('k == %d' % x if x == y else '(Nat.ble %d k && Nat.ble k %d)' % (x, y) for x, y in rs)
        s += '  bif %s then %s else\n' % (cond, a)
    if name != 'Msg': W[-1] += s + '  []\n'
    if name == 'Msg':
        rs = []
        for k in wides:
            if rs and rs[-1][1] == k - 1: rs[-1][1] = k
            else: rs.append([k, k])
        W.append('/-- States whose code tests `lookAheadWSP` on CR: there CR is the symbol 269 when the test is\n'
                 'false and 525 when it is true. -/\ndef wide (k : Nat) : Bool :=\n')
        t = []
        for x, y in rs: t.append('k == %d' % x if x == y else '(Nat.ble %d k && Nat.ble k %d)' % (x, y))
        W[-1] += '  ' + ' ||\n  '.join(t) + '\n'
    W.append('end Gosip.Sip.%s\n' % NS[name])
    out = os.path.join(ROOT, 'lean', 'Verif', 'Sip', name + 'Table.lean')
    open(out, 'w').write('\n'.join(W))
    print(name, len(states), 'states', len(seqs), 'action sequences', len(wides), 'wide')

if __name__ == '__main__':
    gen('Uri', '/repo/sip/uri_parse.go', URI_ACTS, 'UAct')
    if len(sys.argv) > 1:
        gen('Msg', '/repo/sip/msg_parse.go', MSG_ACTS, 'MAct')
