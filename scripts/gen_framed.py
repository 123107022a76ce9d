#!/usr/bin/env python3
"""Write lean/Verif/Commands/Framed.lean from the tables in Commands/Normal*.lean."""
import os, re
D = os.path.join(os.path.dirname(os.path.abspath(__file__)), "..", "lean", "Verif", "Commands")
src = "".join(open(os.path.join(D, "Normal%s.lean" % f)).read() for f in ["Part", "Logvol", "Network", "Others"])
out = ["""import Verif.Commands.FramedLogic
import Verif.Commands.NormalClasses
/-!
# The text of a data list is a comment and a line for every object, class by class

Written by `scripts/gen_framed.py`.
-/
set_option linter.unusedTactic false
set_option linter.unreachableTactic false

namespace Ks.Cmd
"""]
seen = {}
for n, c, o in re.findall(r"theorem same_(\w+) : (.*)\.SameText := list_same \(o := (.*)\) \(fun _ => rfl\)", src):
    n = re.sub("_lost$", "", n)
    if n in seen:
        assert seen[n] == (c, o)
        continue
    seen[n] = (c, o)
    out.append("theorem framed_%s : %s.Framed := list_framed (o := %s) (fun _ => rfl) (by first | exact .inl rfl | exact .inr ⟨_, by decide, rfl⟩) (by decide +kernel)\n" % (n, c, o))
cmds = []
for m in re.finditer(r"theorem normal_([a-z]+) : (∀ y ∈ commandMaps.*= true →)\n.*:= by\n((?:  .*\n)*)", src):
    body = re.sub(r"exact ⟨_, rfl, normal_\w+, same_(\w+?)(_lost)?⟩", r"exact framed_\1", m.group(3))
    out.append("theorem framed_%s : %s c.Framed := by\n%s" % (m.group(1), m.group(2), body))
    cmds.append(m.group(1))
out.append("theorem framed_all : ∀ n ∈ [%s],\n    ∀ y ∈ commandMaps, ∀ c, y.2.lookup n = some c → c.hasList { attrs := {} } = true → c.Framed :=" % ", ".join('c!"%s"' % c for c in cmds))
out.append("  %s(List.forall_mem_nil _)%s\n" % ("".join("all_cons framed_%s (" % c for c in cmds), ")" * len(cmds)))
out.append("end Ks.Cmd")
open(os.path.join(D, "Framed.lean"), "w").write("\n".join(out) + "\n")
print(len(seen), cmds)
