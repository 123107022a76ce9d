#!/usr/bin/env python3
"""Write lean/Verif/Commands/Rules.lean: what the data objects of every class that a command map gives a
name satisfy."""
import os, re
import gen_safe

LEAN = gen_safe.LEAN

# rule, names, whether it depends on the version, side conditions of the theorem about `parse`
RULES = [
    ('Logvol', ['logvol'], True, 0), ('Part', ['part', 'partition'], True, 0), ('Raid', ['raid'], True, 5), ('Volgroup', ['volgroup'], True, 4),
    ('Mount', ['mount'], False, 0), ('Nvdimm', ['nvdimm'], False, 0), ('Btrfs', ['btrfs'], True, 0), ('Snapshot', ['snapshot'], False, 0),
    ('Network', ['network'], True, 0), ('Repo', ['repo'], True, None), ('Timesource', ['timesource'], False, 3), ('Driverdisk', ['driverdisk'], True, None)]


def main():
    cls, at = {}, {}
    d = os.path.join(LEAN, 'Verif/Commands')
    for f in sorted(os.listdir(d)):
        s = open(os.path.join(d, f)).read()
        for m in re.finditer(r'^def (\w+)\.cls( \(dc : DataCls\))? : Command :=\s+(.*)$', s, re.M):
            cls[m.group(1)] = m.group(3)
    for f in ('RuleLogic', 'RuleLogic2'):
        s = open(os.path.join(d, f + '.lean')).read()
        for m in re.finditer(r'^theorem (\w+)\.rules(.*?):= by', s, re.M | re.S):
            w = re.search(r'Rules Version\.(\w+)\)\s*$', m.group(2))
            at[m.group(1)] = (w.group(1) if w else None, m.group(2).count('(h') + m.group(2).count('(i') and
                              len(re.findall(r'\((?:h|i)\w* :', m.group(2))))
    maps = open(os.path.join(d, 'Maps.lean')).read()
    order = re.findall(r'^  \(Version\.\w+, commandMap(\w+)\)', maps, re.M)
    entries = {}
    for m in re.finditer(r'^def commandMap(\w+) : .*?:= \[\n(.*?)\]\n', maps, re.M | re.S):
        if m.group(1) != 's':
            entries[m.group(1)] = {n: (c, dd) for n, c, dd in re.findall(r'\(c!"(\w+)", (\w+)\.cls(?: (\w+)\.cls)?\)', m.group(2))}
    out = ['import Verif.Commands.RuleLogic2', 'import Verif.Commands.Maps', '/-!',
           '# The rules for the data objects of the command classes', '',
           'Written by `scripts/gen_rules.py`.', '-/',
           'namespace Ks.Cmd', '']
    for rule, names, dep, _ in RULES:
        done = {}
        for v in order:
            if names[0] not in entries[v]:
                continue
            c, dd = entries[v][names[0]]
            full = c + '.cls' + (' ' + dd + '.cls' if dd else '')
            body = cls[c]
            if body.startswith('deprecatedCmd'):
                done[(c, dd)] = ('deprecated', None)
                continue
            p = re.search(r'\((\w+)\.parse[ )]', body).group(1)
            w, sides = at[p]
            side = ' (by decide +kernel)' * sides
            if rule == 'Repo':
                key = (c, dd, v)
                out.append('theorem rules_repo_%s : Command.Data (%s) (RepoRules Version.%s) :=\n  list_data fun args n => FC6_Repo.rules Version.%s _ args n%s\n' % (
                    v, full, v, v, side))
                continue
            if (c, dd) in done:
                continue
            done[(c, dd)] = (c + '_' + dd, w)
            first = 'dc' if False else '_'
            r = '(%sRules%s)' % (rule, ' Version.' + w if dep else '')
            out.append('theorem rules_%s_%s : Command.Data (%s) %s :=\n  list_data fun args n => %s.rules %s args n%s\n' % (
                c, dd, full, r, p, first, side))
        for n in names:
            items = []
            for v in order:
                if n not in entries[v]:
                    items.append('(all_cons (fun c h => by cases h)')
                    continue
                if rule == 'Repo':
                    items.append('(all_cons (fun c h => by cases h; exact rules_repo_%s)' % v)
                    continue
                name, w = done[entries[v][n]]
                if name == 'deprecated':
                    items.append('(all_cons (fun c h => by cases h; exact deprecated_data)')
                elif dep:
                    items.append('(all_cons (fun c h => by cases h; exact rules_%s.weaken fun _ h => h.mono Version.%s (by decide))' % (name, w))
                else:
                    items.append('(all_cons (fun c h => by cases h; exact rules_%s)' % name)
            out.append('theorem commandMaps_%s : ∀ y ∈ commandMaps, ∀ c, y.2.lookup c!"%s" = some c → Command.Data c %s := by\n  unfold commandMaps\n  exact %s (List.forall_mem_nil _)%s\n' % (
                n, n, '(%sRules y.1)' % rule if dep else rule + 'Rules', '\n    '.join(items), ')' * len(items)))
    out.append('end Ks.Cmd')
    open(os.path.join(d, 'Rules.lean'), 'w').write('\n'.join(out) + '\n')


if __name__ == '__main__':
    main()
