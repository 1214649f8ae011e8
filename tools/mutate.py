#!/usr/bin/env python3
"""Test the theorems against wrong programs.

usage: mutate.py BATCH.py [scratch-dir]

BATCH.py defines MUTATIONS, a list of dicts:
  id      unique name
  file    file under lean/Verif to edit
  defn    definition edited
  old/new text replaced (old must occur exactly once unless "count" is given)
  edit    the edit in words
  claim   the English claim that is false of the edited program
  refute  optional Lean text, checked against the edited *model* only: a proof that the statement of
          the theorem fails for the edited model, so that no proof of it can exist
  theorem, imports, prelude, proof
          instead of refute: the statement of the theorem is copied from Verif/Props, and the proof must show
          that it is false of the edited model; imports are model and specification modules only
The lean project is copied to the scratch directory, edited, rebuilt with `lake build`, and restored.
One JSON line per mutation is appended to seeded/LOG.jsonl.
"""
import json, os, re, runpy, subprocess, sys, shutil

ROOT = os.path.dirname(os.path.dirname(os.path.abspath(__file__)))
LEAN = os.path.join(ROOT, "lean")
SCRATCH = sys.argv[2] if len(sys.argv) > 2 else "/tmp/mut"
LOG = os.path.join(ROOT, "seeded", "LOG.jsonl")


def sh(cmd, cwd, timeout=3600):
    try:
        p = subprocess.run(cmd, cwd=cwd, capture_output=True, text=True, timeout=timeout)
        return p.returncode, p.stdout + p.stderr
    except subprocess.TimeoutExpired as e:
        return 124, (e.stdout or b"").decode() if isinstance(e.stdout, bytes) else (e.stdout or "")


def decl_at(path, line):
    """name of the declaration containing a line"""
    name = None
    with open(path) as f:
        for n, l in enumerate(f, 1):
            if n > line:
                break
            m = re.match(r"(?:@\[[^\]]*\]\s*)?(?:private |protected |noncomputable )?(theorem|lemma|def|instance|example|structure|inductive|abbrev)\b\s*(\S*)", l)
            if m:
                name = m.group(2) if m.group(1) != "example" else "example"
                if m.group(1) == "example":
                    name = "example@%d" % n
    return name


def modules_of(text, what):
    return re.findall(what + r" (Verif[\w.]*)", text)


def statement(name):
    """(open lines, statement) of a theorem in Verif/Props, as a closed proposition"""
    base = os.path.join(LEAN, "Verif", "Props")
    for fn in sorted(os.listdir(base)):
        t = open(os.path.join(base, fn)).read()
        k = re.search(r"^theorem %s\b" % re.escape(name), t, re.M)
        if not k:
            continue
        i, depth, colon = k.end(), 0, None
        while True:
            c = t[i]
            if c in "([{⟨":
                depth += 1
            elif c in ")]}⟩":
                depth -= 1
            elif depth == 0 and t.startswith(":=", i) and not re.search(r"\b(?:let|have) [^;\n]*$", t[k.start():i]):
                break
            elif depth == 0 and c == ":" and colon is None:
                colon = i
            i += 1
        binders, concl = t[k.end():colon].strip(), t[colon + 1:i].strip()
        opens = "\n".join(re.findall(r"^open .*$", t, re.M))
        return opens, ("∀ %s, %s" % (binders, concl)) if binders else concl
    raise SystemExit("no theorem " + name)


def refutation(m):
    if "refute" in m:
        return m["refute"]
    if "theorem" not in m:
        return None
    opens, st = statement(m["theorem"])
    return "%s\nnamespace Gosip.Props\n%s\n%s\ndef Statement : Prop := %s\n\ntheorem refuted : ¬ Statement := by\n%s\n\nend Gosip.Props\n" % (
        "\n".join("import " + x for x in m["imports"]), opens, m.get("prelude", ""), st,
        "\n".join("  " + l for l in m["proof"].strip("\n").split("\n")))


def errors(out):
    return "\n".join(x for x in re.split(r"\n(?=/tmp/)", out) if "error" in x or "sorry" in x)[:3000]


def run(m):
    path = os.path.join(SCRATCH, "Verif", m["file"])
    src = open(path).read()
    want = m.get("count", 1)
    if src.count(m["old"]) != want:
        print(m["id"], "pattern occurs", src.count(m["old"]), "times"); return
    with open(path, "w") as f:
        f.write(src.replace(m["old"], m["new"]))
    refuted = None
    try:
        if os.environ.get("QUICK"):  # only try the refutation
            text = refutation(m)
            sh(["lake", "build"] + re.findall(r"^import (Verif\S*)", text, re.M), SCRATCH)
            with open("/tmp/refute_%s.lean" % m["id"], "w") as f:
                f.write(text)
            rc2, out2 = sh(["lake", "env", "lean", "/tmp/refute_%s.lean" % m["id"]], SCRATCH, 900)
            print(m["id"], "refuted" if rc2 == 0 and "sorry" not in out2 else errors(out2), flush=True)
            return
        targets = m.get("targets", [])  # empty: everything
        if os.environ.get("AUTO") and not targets and "theorem" in m:  # the module of the theorem
            targets = ["Verif.Props." + f[:-5] for f in sorted(os.listdir(os.path.join(LEAN, "Verif", "Props")))
                       if re.search(r"^theorem %s\b" % m["theorem"], open(os.path.join(LEAN, "Verif", "Props", f)).read(), re.M)]
        rc, out = sh(["nice", "lake", "build"] + targets, SCRATCH)
        failed = []
        for mm in re.finditer(r"^error: (?:\./)*(Verif/[\w/]+\.lean):(\d+):\d+", out, re.M):
            d = decl_at(os.path.join(SCRATCH, mm.group(1)), int(mm.group(2)))
            mod = mm.group(1)
            if (mod, d) not in failed:
                failed.append((mod, d))
        # property theorems whose module did not build
        bad = set(re.findall(r"^- (Verif[\w.]*)", out, re.M))
        deps = {}
        for d, _, fs in os.walk(os.path.join(SCRATCH, "Verif")):
            for f in fs:
                if f.endswith(".lean"):
                    p = os.path.join(d, f)
                    mod = os.path.relpath(p, SCRATCH)[:-5].replace("/", ".")
                    deps[mod] = re.findall(r"^import (Verif[\w.]*)", open(p).read(), re.M)
        badm = {x[0][:-5].replace("/", ".") for x in failed} | bad
        changed = True
        while changed:
            changed = False
            for mod, ds in deps.items():
                if mod not in badm and any(d in badm for d in ds):
                    badm.add(mod); changed = True
        direct = [d for mod, d in failed if d and re.match(r"C\d\d+_", d)]
        blocked = []
        for mod in sorted(badm):
            if mod.startswith("Verif.Props."):
                t = open(os.path.join(SCRATCH, mod.replace(".", "/") + ".lean")).read()
                for th in re.findall(r"^theorem (C\d\d+_\S+)", t, re.M):
                    if th not in direct and not any(x[0][:-5].replace("/", ".") == mod for x in failed):
                        blocked.append(th)
        text = refutation(m)
        if text:
            with open("/tmp/refute_%s.lean" % m["id"], "w") as f:
                f.write(text)
            rc2, out2 = sh(["lake", "env", "lean", "/tmp/refute_%s.lean" % m["id"]], SCRATCH, 900)
            refuted = rc2 == 0 and "sorry" not in out2
            if not refuted:
                print(m["id"], "REFUTE FAILED", errors(out2)[:600])
        rec = {"definition": m["defn"], "file": "lean/Verif/" + m["file"], "edit": m["edit"],
               "claim_broken": m["claim"], "killed": rc != 0,
               "theorems_failed": direct, "lemmas_failed": [d for mod, d in failed if d and d not in direct],
               "property_theorems_no_longer_reached": blocked}
        if refuted is not None:
            rec["statement_refuted_on_edited_model"] = m.get("theorem", True) if refuted else False
        rec["theorems_tightened"] = m.get("tightened", [])
        if targets:
            rec["rebuilt"] = targets
        if "note" in m:
            rec["note"] = m["note"]
        print(m["id"], "KILLED" if rc else "SURVIVED", direct, rec["lemmas_failed"][:6], refuted, flush=True)
        with open(LOG, "a") as f:
            f.write(json.dumps(rec) + "\n")
    finally:
        with open(path, "w") as f:
            f.write(src)


def main():
    muts = runpy.run_path(sys.argv[1])["MUTATIONS"]
    only = set(os.environ.get("ONLY", "").split()) 
    os.makedirs(SCRATCH, exist_ok=True)
    subprocess.run(["rsync", "-a", "--delete", LEAN + "/", SCRATCH + "/"]) if shutil.which("rsync") else \
        subprocess.run("rm -rf %s && cp -a %s %s" % (SCRATCH, LEAN, SCRATCH), shell=True)
    os.makedirs(os.path.dirname(LOG), exist_ok=True)
    for m in muts:
        if not only or m["id"] in only:
            run(m)


main()
