#!/usr/bin/env python3
"""Write lean/Verif/Commands/Stages.lean: in every version, the classes of the deprecated and of the
removed commands are such classes (the lists of names are in StageLogic.lean)."""
import glob, os, re
import gen_safe

LEAN = gen_safe.LEAN


def main():
    cls = {}
    for f in sorted(glob.glob(os.path.join(LEAN, 'Verif/Commands/*.lean'))):
        s = open(f).read()
        for m in re.finditer(r'^def (\w+)\.cls( \(dc : DataCls\))? : Command :=\s+(\w+)', s, re.M):
            cls[m.group(1)] = m.group(3)
    spec = open(os.path.join(LEAN, 'Verif/Commands/StageLogic.lean')).read()
    maps = open(os.path.join(LEAN, 'Verif/Commands/Maps.lean')).read()
    entries = {}
    for m in re.finditer(r'^def commandMap(\w+) : .*?:= \[\n(.*?)\]\n', maps, re.M | re.S):
        if m.group(1) != 's':
            entries[m.group(1)] = re.findall(r'\(c!"(\w+)", (\w+)\.cls(?: (\w+)\.cls)?\)', m.group(2))
    out = ['import Verif.Commands.StageLogic', 'import Verif.Commands.Maps', '/-!',
           '# The deprecated and the removed commands of the versions', '',
           'Written by `scripts/gen_stages.py`.', '-/',
           'namespace Ks.Cmd', '']
    for kind, table in (('Deprecated', 'deprecatedIn'), ('Removed', 'removedIn')):
        body = re.search(r'^def %s : .*?:=\n(.*?)\n\n' % table, spec, re.M | re.S).group(1)
        rows = re.findall(r'\(Version\.(\w+), \[(.*?)\]\)', body)
        for v, names in rows:
            l = [n for n, _, _ in entries[v]]
            pf = []
            for n in re.findall(r'c!"(\w+)"', names):
                i = l.index(n)
                c = entries[v][i][1]
                assert cls[c] == kind.lower() + 'Cmd', (v, n, c)
                pf.append('(all_cons ⟨%s.cls, List.mem_of_getElem? (i := %d) rfl, _, _, rfl⟩' % (c, i))
            out.append('theorem %s%s : ∀ n ∈ [%s], ∃ c, (n, c) ∈ commandMap%s ∧ Command.Is%s c := \n  %s (List.forall_mem_nil _)%s\n' % (
                kind.lower(), v, names, v, kind, '\n    '.join(pf), ')' * len(pf)))
        out.append('theorem %s_table : ∀ p ∈ %s, ∀ n ∈ p.2, ∃ c, (n, c) ∈ commandMap p.1 ∧ Command.Is%s c :=\n  %s (List.forall_mem_nil _)%s\n' % (
            kind.lower(), table, kind, '\n    '.join('(all_cons %s%s' % (kind.lower(), v) for v, _ in rows), ')' * len(rows)))
    out.append('end Ks.Cmd')
    open(os.path.join(LEAN, 'Verif/Commands/Stages.lean'), 'w').write('\n'.join(out) + '\n')


if __name__ == '__main__':
    main()
