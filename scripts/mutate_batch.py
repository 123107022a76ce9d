#!/usr/bin/env python3
"""Seeded-bug runs on the command classes, many at a time.

usage: mutate_batch.py SEED [OPERATOR ...]

One random edit is made in every module of lean/Verif/Commands that defines command classes, in a scratch copy, and the
project is built there once.  The edits concern different commands, and the theorems about the classes name them, so a
failed declaration belongs to the edits of the modules whose classes its text names.  One line for each edit that made a
declaration fail is appended to seeded/LOG.jsonl; the other edits are printed.
"""
import glob, json, os, random, re, subprocess, sys
from mutate import DECL

SRC, DST = "/verif/lean", os.environ.get("MUT", "/tmp/mutb/lean")
C = os.path.join(DST, "Verif/Commands")


def other(rng, s, pat, cur):
    xs = sorted(set(re.findall(pat, s)) - {cur})
    return rng.choice(xs) if xs else None


def ops(s, rng):
    """All edits of a module: (operator, position, old, new, what, claim)."""
    out = []
    def add(op, m, new, what, claim):
        out.append((op, m.start(), m.group(0), new, what, claim))
    for m in re.finditer(r"^    \|>\.add \{ names := \[([^\]]*)\].*\n", s, re.M):
        if "c!\"--" in m.group(1):
            add("drop option", m, "", "the option %s is not added" % m.group(1), "C65 (the option exists and sets its attribute)")
    for m in re.finditer(r"dest := some c!\"(\w+)\"", s):
        n = other(rng, s, r"dest := some c!\"(\w+)\"", m.group(1))
        if n:
            add("wrong dest", m, 'dest := some c!"%s"' % n, "an option for %s stores to %s" % (m.group(1), n), "C65 (the option sets its attribute)")
    for m in re.finditer(r"const := \.bool (true|false)", s):
        add("wrong const", m, "const := .bool " + ("false" if m.group(1) == "true" else "true"), "the flag stores the other truth value", "C65 (the flag sets its value)")
    for m in re.finditer(r"const := \.int (\(?-?\d+\)?)", s):
        add("wrong const", m, "const := .int 77", "the flag stores 77 instead of " + m.group(1), "C65 (the flag sets its value)")
    for m in re.finditer(r", ty := \.(int|comma)\b", s):
        add("drop type", m, "", "the value of the option is not converted (%s)" % m.group(1), "C65 (the option sets the converted value)")
    for m in re.finditer(r", required := true", s):
        add("not required", m, "", "the option is not required", "C60, C64 or C65 (lines without the option are refused)")
    for m in re.finditer(r"\.lit c!\"( ?--[\w-]+)", s):
        add("wrong text", m, '.lit c!"%sx' % m.group(1), "the text names the option %sx" % m.group(1), "C61, C62 or C66 (the text of the command)")
    for m in re.finditer(r"\.fld c!\"(\w+)\"", s):
        n = other(rng, s, r"\.fld c!\"(\w+)\"", m.group(1))
        if n:
            add("wrong field", m, '.fld c!"%s"' % n, "the text shows %s instead of %s" % (n, m.group(1)), "C61, C62 or C66 (the text of the command)")
    for m in re.finditer(r"\(\.tru c!\"(\w+)\", \[\.lit c!\" --", s):
        add("negated condition", m, '(.not (.tru c!"%s"), [.lit c!" --' % m.group(1), "the option is written when %s is not set" % m.group(1), "C61, C62 or C66 (the text of the command)")
    for m in re.finditer(r"^  M\.failIf .*\n", s, re.M):
        add("drop check", m, "", "dropped: " + m.group(0).strip(), "C56, C60, C64 or C65 (the line is refused)")
    for m in re.finditer(r"^  M\.set c!\"(\w+)\" .*\n", s, re.M):
        add("drop update", m, "", "dropped: " + m.group(0).strip(), "C65 (the attributes after the line)")
    for m in re.finditer(r"\(c!\"(\w+)\", \.bool (true|false)\)", s):
        add("wrong default", m, '(c!"%s", .bool %s)' % (m.group(1), "false" if m.group(2) == "true" else "true"), "the other default for " + m.group(1), "C63 or C65 (the defaults)")
    for m in re.finditer(r"\(c!\"(\w+)\", \.str \[\]\)", s):
        add("wrong default", m, '(c!"%s", .str c!"x")' % m.group(1), "the default of %s is x" % m.group(1), "C63 or C65 (the defaults)")
    for m in re.finditer(r"\(c!\"(\w+)\", \.int (\d+)\)", s):
        add("wrong default", m, '(c!"%s", .int %d)' % (m.group(1), int(m.group(2)) + 1), "the default of %s is one more" % m.group(1), "C63 or C65 (the defaults)")
    for m in re.finditer(r"decide \(([^()\n]*) (<|>) (\d+)\)", s):
        add("wrong boundary", m, "decide (%s %s %s)" % (m.group(1), {"<": "≤", ">": "≥"}[m.group(2)], m.group(3)), "boundary of " + m.group(0), "C60, C64 or C65 (the line is refused)")
    for m in re.finditer(r"names := \[c!\"(--[\w-]+)\", c!\"(--[\w-]+)\"\]", s):
        add("drop alias", m, 'names := [c!"%s"]' % m.group(1), "the option has no second name %s" % m.group(2), "C65 (the option exists)")
    return out


def enclosing(s, pos):
    name = "?"
    for m in re.finditer(DECL.pattern, s[:pos].rsplit("\n", 1)[0] + "\n", re.M):
        name = m.group(2)
    for l in s[:pos + 1].split("\n"):
        m = DECL.match(l)
        if m:
            name = m.group(2)
    return name


def build(targets=()):
    r = subprocess.run(["lake", "build", *targets], cwd=DST, capture_output=True, text=True)
    return r.stdout + r.stderr


def main():
    rng = random.Random(int(sys.argv[1]))
    only = set(sys.argv[2:])
    subprocess.run(["rm", "-rf", DST], check=True)
    os.makedirs(os.path.dirname(DST), exist_ok=True)
    subprocess.run(["cp", "-a", SRC, DST], check=True)
    edits = {}
    for f in sorted(glob.glob(C + "/*.lean")):
        s = open(f).read()
        if not re.search(r"^def \w+\.cls\b", s, re.M) or "Written by `scripts/gen_commands.py`" not in s and "commands/" not in s[:300]:
            continue
        cands = [o for o in ops(s, rng) if not only or o[0] in only]
        kinds = sorted({o[0] for o in cands})
        if not kinds:
            continue
        k = rng.choice(kinds)
        op, pos, old, new, what, claim = rng.choice([o for o in cands if o[0] == k])
        open(f, "w").write(s[:pos] + new + s[pos + len(old):])
        edits[os.path.relpath(f, DST)] = dict(src=s, definition=enclosing(s, pos), op=op, edit=what, claim=claim,
            classes=sorted(set(re.findall(r"^def (\w+)\.cls\b", s, re.M))), failed=[], failed_in=[])
    print(len(edits), "edits", flush=True)
    while True:
        out = build(["Verif.Commands.Maps"])
        bad = set(re.findall(r"^error: (\S+?\.lean):\d+:\d+:", out, re.M))
        if not bad:
            break
        for b in bad:
            print("not a program:", b, edits[b]["edit"], flush=True)
            open(os.path.join(DST, b), "w").write(edits.pop(b)["src"])
    out = build()
    open(os.environ.get("OUT", "/tmp/mutate_batch.out"), "w").write(out)
    seen = set()
    lost = []
    for em in re.finditer(r"^error: (\S+?\.lean):(\d+):\d+:", out, re.M):
        f, ln = em.group(1), int(em.group(2))
        lines = open(os.path.join(DST, f)).read().split("\n")
        i = ln - 1
        while i > 0 and not DECL.match(lines[i]):
            i -= 1
        if (f, i) in seen:
            continue
        seen.add((f, i))
        j = i + 1
        while j < len(lines) and not DECL.match(lines[j]):
            j += 1
        text = "\n".join(lines[i:j])
        m = DECL.match(lines[i])
        name = (m.group(2) if m and m.group(1) != "example" else "example@%s:%d" % (os.path.basename(f), i + 1))
        hit = [k for k, e in edits.items() if any(re.search(r"\b%s(?:Data)?\b" % c, text) or re.search(r"%s(?:_|\b)" % c, name) for c in e["classes"])]
        if not hit or len(hit) > 2:
            lost.append((f, name, len(hit)))
        for k in hit[:2] if len(hit) <= 2 else []:
            if name not in edits[k]["failed"]:
                edits[k]["failed"].append(name)
            if f not in edits[k]["failed_in"]:
                edits[k]["failed_in"].append(f)
    n = 0
    for k, e in edits.items():
        if e["failed"]:
            n += 1
            print("OK  ", e["definition"], "|", e["edit"], "->", ", ".join(e["failed"][:3]), len(e["failed"]))
            with open("/verif/seeded/LOG.jsonl", "a") as g:
                g.write(json.dumps({"definition": e["definition"], "edit": e["edit"], "claim": e["claim"], "failed": e["failed"][:12],
                                    "failed_in": e["failed_in"], "tightened": []}) + "\n")
        else:
            print("SURVIVED", k, e["definition"], "|", e["op"], "|", e["edit"])
    print(n, "of", len(edits), "found")
    print("not attributed:", lost)


if __name__ == "__main__":
    main()
