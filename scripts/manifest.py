"""Generate MANIFEST.json from the theorem names C<nn>_* in lean/Verif/Props/*.lean.

STATUS/NOTES below give the status of properties that are not simply "proved"."""
import glob, json, os, re
root = os.path.dirname(os.path.dirname(os.path.abspath(__file__)))
exec(open(os.path.join(root, "scripts", "status.py")).read())   # PARTIAL, NA, NOTES
thms = {}
for f in sorted(glob.glob(root + "/lean/Verif/Props/**/*.lean", recursive=True)):
    ns = []
    for line in open(f):
        m = re.match(r"namespace (\S+)", line)
        if m: ns.append(m.group(1)); continue
        m = re.match(r"end (\S+)", line)
        if m and ns and ns[-1] == m.group(1): ns.pop(); continue
        m = re.match(r"theorem (C(\d+)_\S+)", line)
        if m: thms.setdefault("C" + m.group(2), []).append(".".join(ns + [m.group(1)]))
claims = []
for l in open(root + "/properties.jsonl"):
    pid = json.loads(l)["id"]
    if pid in thms:
        st = "partial" if pid in PARTIAL else "proved"
        claims.append({"property": pid, "status": st, "theorems": thms[pid], "note": (PARTIAL.get(pid) or NOTES.get(pid, ""))})
    elif pid in NA:
        claims.append({"property": pid, "status": "not_applicable", "theorems": [], "note": NA[pid]})
    else:
        print("no theorem yet:", pid)
extra = set(thms) - {c["property"] for c in claims}
if extra: print("theorems without property:", extra)
json.dump({"claims": claims}, open(root + "/MANIFEST.json", "w"), indent=1)
print(len(claims), "claims,", sum(len(c["theorems"]) for c in claims), "theorems")
