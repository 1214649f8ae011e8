#!/usr/bin/env python3
"""Edit the definitions of the model mechanically, one small change at a time, and see whether anything fails.

usage: automutate.py SCRATCH FILE[:definition,...] ...

For each file under lean/Verif and each definition in it, changes of one token (a number, a comparison, a connective, a
condition, a dropped field of an update, a dropped list element) are tried: the edited project is rebuilt until the first
error. Edits that do not typecheck are ignored; those that nothing notices are printed as SURVIVED, to be judged by hand: they
are either without effect on what the program does, or show a theorem that says too little.
"""
import os, re, signal, subprocess, sys

ROOT = os.path.dirname(os.path.dirname(os.path.abspath(__file__)))
LEAN = os.path.join(ROOT, "lean")
SCRATCH = sys.argv[1]

START = re.compile(r"(?:@\[[^\]]*\]\s*)?(?:private |protected |noncomputable )?(theorem|lemma|def|instance|example|structure|inductive|abbrev|namespace|end|open|section|variable|/-|deriving)")


def defs(text):
    """(name, start, end) of each def"""
    out, pos, cur = [], 0, None
    for l in text.split("\n"):
        m = START.match(l)
        if m:
            if cur:
                out.append((cur[0], cur[1], pos)); cur = None
            k = re.match(r"(?:@\[[^\]]*\]\s*)?def (\S+)", l)
            if k:
                cur = (k.group(1), pos)
        pos += len(l) + 1
    if cur:
        out.append((cur[0], cur[1], pos))
    return out


RULES = [
    (r"(?<![\w.\"!#])(\d+)(?![\w.\"])", lambda m: str(int(m[1]) + 1), "number"),
    (r"\btrue\b", lambda m: "false", "true"),
    (r"\bfalse\b", lambda m: "true", "false"),
    (r"\bif (.*?) then\b", lambda m: "if ¬ (%s) then" % m[1], "condition"),
    (r" < ", lambda m: " ≤ ", "<"),
    (r" ≤ ", lambda m: " < ", "≤"),
    (r" > ", lambda m: " ≥ ", ">"),
    (r" ∧ ", lambda m: " ∨ ", "∧"),
    (r" ∨ ", lambda m: " ∧ ", "∨"),
    (r" && ", lambda m: " || ", "&&"),
    (r" \|\| ", lambda m: " && ", "||"),
    (r" == ", lambda m: " != ", "=="),
    (r" != ", lambda m: " == ", "!="),
    (r" \+ ", lambda m: " - ", "+"),
    (r" - ", lambda m: " + ", "-"),
    (r" \+\+ \[[^\[\]]*\]", lambda m: "", "element"),
    (r"\[[^\[\],]+\] \+\+ ", lambda m: "", "element"),
    (r", [\w.]+ := [^,{}\n]+(?=[,}\n])", lambda m: "", "field"),
    (r"\{ ([\w.]+) with [\w.]+ := [^,{}\n]+ \}", lambda m: m[1], "update"),
    (r"\bsome ([\w.]+|\([^()]*\))", lambda m: "none", "some"),
    (r'b!"([^"\\])', lambda m: 'b!"' + chr(ord(m[1]) ^ 1) if chr(ord(m[1]) ^ 1) not in '"\\' else m[0], "text"),
]


def mutants(text, only):
    for name, a, b in defs(text):
        if only and name not in only:
            continue
        body = text[a:b]
        k = body.find(":=")
        k2 = body.find("\n  |")
        k = min(x for x in (k, k2) if x >= 0) if max(k, k2) >= 0 else 0
        for rx, f, what in RULES:
            for m in re.finditer(rx, body):
                if m.start() < k:
                    continue
                new = f(m)
                if new == m[0]:
                    continue
                line = body[body.rfind("\n", 0, m.start()) + 1: (body.find("\n", m.end()) + 1 or len(body)) - 1]
                if line.lstrip().startswith("--"):
                    continue
                yield name, what, line.strip(), m[0], new, text[:a] + body[:m.start()] + new + body[m.end():] + text[b:]


def build(targets):
    p = subprocess.Popen(["nice", "-n", "5", "lake", "build"] + targets, cwd=SCRATCH, stdout=subprocess.PIPE, stderr=subprocess.STDOUT,
                         text=True, start_new_session=True)
    err = None
    for l in p.stdout:
        m = re.match(r"error: (?:\./)*(Verif/[\w/]+\.lean):(\d+):\d+: (.*)", l)
        if m:
            err = (m[1], int(m[2]), m[3])
            break
        if l.startswith("error") and not err:
            err = (l.strip(), 0, "")
            break
    if err:
        try:
            os.killpg(p.pid, signal.SIGKILL)
        except ProcessLookupError:
            pass
    p.wait()
    return err


def decl_at(text, line):
    name = None
    for n, l in enumerate(text.split("\n"), 1):
        if n > line:
            break
        m = re.match(r"(?:@\[[^\]]*\]\s*)?(?:private |protected )?(theorem|lemma|def|instance|example|abbrev)\b\s*(\S*)", l)
        if m:
            name = m[1] + " " + m[2]
    return name


def main():
    for arg in sys.argv[2:]:
        f, _, only = arg.partition(":")
        only = set(only.split(",")) if only else None
        subprocess.run("rm -rf %s && cp -a %s %s" % (SCRATCH, LEAN, SCRATCH), shell=True)
        path = os.path.join(SCRATCH, "Verif", f)
        src = open(path).read()
        try:
            for n, (name, what, line, old, new, text) in enumerate(mutants(src, only)):
                with open(path, "w") as h:
                    h.write(text)
                mod = "Verif." + f[:-5].replace("/", ".")
                err = build([mod])
                if err and err[0] == "Verif/" + f and (decl_at(text, err[1]) or "").startswith("def "):
                    verdict = "invalid"
                else:
                    err = err or build([])
                    if not err:
                        verdict = "SURVIVED"
                    else:
                        try:
                            d = decl_at(open(os.path.join(SCRATCH, err[0])).read(), err[1])
                        except OSError:
                            d = ""
                        verdict = "killed by %s %s" % (err[0], d)
                if verdict != "invalid":
                    print("%s %s | %s | %s -> %s | %s" % (f, name, line[:110], old.strip(), new.strip(), verdict), flush=True)
        finally:
            with open(path, "w") as h:
                h.write(src)


main()
