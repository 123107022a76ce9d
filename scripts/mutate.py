#!/usr/bin/env python3
"""Seeded-bug runs: apply edits to a scratch copy of the model and record what breaks.

usage: mutate.py SPEC.json   (a list of {"file","definition","old","new","edit","claim"})

Each edit is applied alone to /tmp/mut/lean, the project is rebuilt there, and one line is
appended to /verif/seeded/LOG.jsonl with the declarations whose proofs failed.  A run in which
nothing fails is reported loudly: the claim's theorem is then too weak (or the edit harmless).
"""
import json, os, re, subprocess, sys

SRC, DST = "/verif/lean", os.environ.get("MUT", "/tmp/mut/lean")
DECL = re.compile(r"^\s*(?:private |protected |noncomputable |@\[[^\]]*\] )*(theorem|lemma|def|example|instance|abbrev)\s*(\S*)")

def enclosing(path, line):
    name = "?"
    with open(path) as f:
        for i, l in enumerate(f, 1):
            if i > line:
                break
            m = DECL.match(l)
            if m:
                name = m.group(2) if m.group(1) != "example" else "example@%s:%d" % (os.path.basename(path), i)
    return name

def sync():
    subprocess.run(["rm", "-rf", DST], check=True)
    os.makedirs(os.path.dirname(DST), exist_ok=True)
    subprocess.run(["cp", "-a", SRC, DST], check=True)

def run(m):
    p = os.path.join(DST, m["file"])
    s = open(p).read()
    n = s.count(m["old"])
    if n != 1 and not m.get("all"):
        print("SKIP (%d occurrences): %s" % (n, m["edit"])); return
    open(p, "w").write(s.replace(m["old"], m["new"]))
    r = subprocess.run(["lake", "build"], cwd=DST, capture_output=True, text=True)
    out = r.stdout + r.stderr
    failed, files = [], []
    for em in re.finditer(r"^error: (\S+?\.lean):(\d+):\d+:", out, re.M):
        f = em.group(1)
        d = enclosing(os.path.join(DST, f), int(em.group(2)))
        if d not in failed:
            failed.append(d)
        if f not in files:
            files.append(f)
    rec = {"definition": m["definition"], "edit": m["edit"], "claim": m["claim"],
           "failed": failed, "failed_in": files, "tightened": m.get("tightened", [])}
    if m.get("note"):
        rec["note"] = m["note"]
    print(("OK   " if r.returncode else "SURVIVED ") + m["definition"] + ": " + m["edit"] + " -> " + ", ".join(failed[:6]), flush=True)
    if r.returncode or m.get("log_survivor"):
        with open("/verif/seeded/LOG.jsonl", "a") as f:
            f.write(json.dumps(rec) + "\n")
    open(p, "w").write(s)

if __name__ == "__main__":
    sync()
    for m in json.load(open(sys.argv[1])):
        run(m)
