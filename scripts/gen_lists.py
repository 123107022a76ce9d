#!/usr/bin/env python3
"""Write lean/Verif/Commands/Lists.lean: the `parse` functions of the commands with data lists return
an object that carries the number of the line; what every class in a command map does with its list."""
import glob, os, re
import gen_safe

LEAN = gen_safe.LEAN


def main():
    defs, cls = {}, {}
    for f in sorted(glob.glob(os.path.join(LEAN, 'Verif/Commands/*.lean'))):
        s = open(f).read()
        for m in re.finditer(r'^def (\w+)\.parse ((?:\(\w+ : [^()]*\) ?)*) ?: M Ns := (.*?)(?=^/--|^def|^end)', s, re.M | re.S):
            defs[m.group(1)] = (m.group(2), m.group(3))
        for m in re.finditer(r'^def (\w+)\.cls( \(dc : DataCls\))? : Command :=\s+(.*)$', s, re.M):
            cls[m.group(1)] = m.group(3)
    out = ['import Verif.Commands.ListLogic', 'import Verif.Commands.Maps', '/-!',
           '# The data lists of the command classes', '',
           'Written by `scripts/gen_lists.py`.', '-/',
           'namespace Ks.Cmd', '']
    done = set()

    def emit(n):
        if n in done:
            return
        done.add(n)
        params, body = defs[n]
        callees = [c for c in dict.fromkeys(re.findall(r'\b(\w+)\.parse k args', body)) if c != n]
        for c in callees:
            emit(c)
        args = ' '.join(re.findall(r'\((\w+) :', params))
        app = ''.join('(with_reducible apply %s.parse_lineno) | ' % c for c in callees)
        out.append("theorem %s.parse_lineno %s (n : Nat) :\n    M.Post n (%s.parse %s) (Numbered n) := by\n  unfold %s.parse\n  repeat' (first | numbered | %spost_step | (intro _) | extract_lets | split)\n" % (
            n, params, n, args, n, app))

    for n in defs:
        if n != 'FC6_MultiPath':
            emit(n)
    maps = open(os.path.join(LEAN, 'Verif/Commands/Maps.lean')).read()
    order = re.findall(r'^  \(Version\.\w+, commandMap(\w+)\)', maps, re.M)
    used, entries = {}, {}
    for m in re.finditer(r'^def commandMap(\w+) : .*?:= \[\n(.*?)\]\n', maps, re.M | re.S):
        if m.group(1) == 's':
            continue
        l = re.findall(r'\(c!"(\w+)", (\w+)\.cls(?: (\w+)\.cls)?\)', m.group(2))
        entries[m.group(1)] = l
        for n, c, d in l:
            used[(c, d)] = n

    def proof(c, d):
        body = cls[c]
        if not body.startswith('listCmd'):
            return {'d': 'deprecated_lists', 'r': 'removed_lists'}.get(body[0], 'plain_lists')
        if c == 'FC6_MultiPath':
            return 'multipath_lists'
        m = re.search(r'\((\w+)\.parse[ )]', body)
        return 'list_lists fun args n => %s.parse_lineno _ args n' % m.group(1)
    for c, d in used:
        out.append('theorem lists_%s : Command.Lists (%s) :=\n  %s\n' % (c + ('_' + d if d else ''), c + '.cls' + (' ' + d + '.cls' if d else ''), proof(c, d)))
    for v, l in entries.items():
        out.append("theorem commandMap%s_lists : ∀ x ∈ commandMap%s, Command.Lists x.2 := by\n  unfold commandMap%s\n  exact %s (List.forall_mem_nil _)%s\n" % (
            v, v, v, '\n    '.join("(all_cons lists_%s" % (c + ('_' + d if d else '')) for _, c, d in l), ')' * len(l)))
    out.append("theorem commandMaps_lists : ∀ y ∈ commandMaps, ∀ x ∈ y.2, Command.Lists x.2 := by\n  unfold commandMaps\n  exact %s (List.forall_mem_nil _)%s\n" % (
        ' '.join("(all_cons commandMap%s_lists" % v for v in order), ')' * len(order)))
    out.append('end Ks.Cmd')
    open(os.path.join(LEAN, 'Verif/Commands/Lists.lean'), 'w').write('\n'.join(out) + '\n')


if __name__ == '__main__':
    main()
