#!/usr/bin/env python3
"""Write the axioms of every theorem in MANIFEST.json into DESIGN.md (between the markers)."""
import json, os, re, subprocess, collections
root = os.path.join(os.path.dirname(os.path.abspath(__file__)), "..")
names = []
for c in json.load(open(os.path.join(root, "MANIFEST.json")))["claims"]:
    for t in c["theorems"]:
        if t not in names: names.append(t)
f = "/tmp/axioms_check.lean"
open(f, "w").write("import Verif\n" + "".join("#print axioms %s\n" % n for n in names))
out = subprocess.run(["lake", "env", "lean", f], cwd=os.path.join(root, "lean"), capture_output=True, text=True).stdout
out = re.sub(r"\n\s+", " ", out)
groups = collections.OrderedDict()
for m in re.finditer(r"'([^']+)' (?:depends on axioms: \[([^\]]*)\]|does not depend on any axioms)", out):
    groups.setdefault(m.group(2) or "none", []).append(m.group(1))
seen = sum(len(v) for v in groups.values())
assert seen == len(names), (seen, len(names), out[-2000:])
allowed = {"propext", "Classical.choice", "Quot.sound"}
txt = ""
for k in sorted(groups):
    ax = set() if k == "none" else {x.strip() for x in k.split(",")}
    assert ax <= allowed, (k, groups[k])
    txt += "* %s: %s\n" % (k if k == "none" else ", ".join("`%s`" % a for a in sorted(ax)), ", ".join("`%s`" % n.removeprefix("Ks.") for n in sorted(groups[k])))
p = os.path.join(root, "DESIGN.md")
s = open(p).read()
a, b = "<!-- axioms begin -->\n", "<!-- axioms end -->"
i, j = s.index(a) + len(a), s.index(b)
open(p, "w").write(s[:i] + txt + s[j:])
print(seen, "theorems", {k: len(v) for k, v in groups.items()})
