#!/usr/bin/env python3
"""Quick seeded-bug runs for the proofs about single command classes (C78).

usage: mutate_overlay.py SPEC.json   (a list of {"file","proofs","definition","old","new","edit","claim"})

The body of the command file with the edit and the body of the file with the proofs are put one after the other into a
scratch file outside /verif, in a namespace of their own, so that the proofs are about the wrong class.  One line is appended
to /verif/seeded/LOG.jsonl with the declarations whose proofs failed.  With "ns" given, the file is of that namespace and is imported
by nothing else than the proofs: its import is dropped and the two bodies are put into this namespace.  "proofs" may be a list of files, each importing those before it.
"""
import json, os, re, subprocess, sys
from mutate import enclosing

L = "/verif/lean"

def body(path, ns):
    s = open(os.path.join(L, path)).read()
    imports = re.findall(r"^import .*$", s, re.M)
    a = s.index("namespace " + ns) + len("namespace " + ns)
    return imports, s[a:s.rindex("end " + ns)]

def run(m, check=False):
    own, cls = body(m["file"], m.get("ns", "Ks.Cmd"))
    files = m["proofs"] if isinstance(m["proofs"], list) else [m["proofs"]]
    imports, proofs = [], ""
    for p in files:
        i, b = body(p, "Ks")
        imports += [x for x in i if x not in ["import " + q[:-5].replace("/", ".") for q in files]]
        proofs += b.replace("\nopen Cmd\n", "\n") if "ns" not in m else b
    if cls.count(m["old"]) != 1 and not m.get("all"):
        print("SKIP (%d occurrences): %s" % (cls.count(m["old"]), m["edit"])); return
    if not check:
        cls = cls.replace(m["old"], m["new"])
    ns, opened = "Ks.Mut", "open Cmd\n"
    if "ns" in m:
        ns, opened = m["ns"], ""
        name = "import " + m["file"][:-5].replace("/", ".")
        imports = [i for i in dict.fromkeys(own + imports) if i != name]
    imports = list(dict.fromkeys(imports))
    scratch = "/tmp/overlay.lean"
    with open(scratch, "w") as f:
        f.write("\n".join(imports) + "\nnamespace " + ns + "\n" + opened + cls + proofs + "\nend " + ns + "\n")
    r = subprocess.run(["lake", "env", "lean", "-j1", "-M", "8000", scratch], cwd=L, capture_output=True, text=True)
    failed = []
    for em in re.finditer(r"^\S+?\.lean:(\d+):\d+: error", r.stdout, re.M):
        d = enclosing(scratch, int(em.group(1)))
        if d not in failed:
            failed.append(d)
    if check:
        print("UNCHANGED ", m["proofs"], failed); return
    print(("OK   " if failed else "SURVIVED ") + m["definition"] + ": " + m["edit"] + " -> " + ", ".join(failed[:6]), flush=True)
    if failed or m.get("log_survivor"):
        rec = {"definition": m["definition"], "edit": m["edit"], "claim": m["claim"], "failed": failed, "failed_in": files, "tightened": m.get("tightened", [])}
        if m.get("note"):
            rec["note"] = m["note"]
        with open("/verif/seeded/LOG.jsonl", "a") as f:
            f.write(json.dumps(rec) + "\n")

if __name__ == "__main__":
    spec = json.load(open(sys.argv[1]))
    for p in {(m["file"], str(m["proofs"])) for m in spec}:
        run(next(m for m in spec if (m["file"], str(m["proofs"])) == p), check=True)
    for m in spec:
        run(m)
