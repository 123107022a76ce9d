#!/usr/bin/env python3
"""Write lean/Verif/Commands/OwnRules.lean: the classes that the command maps give to the commands of
`ownRules` and `firstRules` keep these rules."""
import os, re
import gen_safe

LEAN = gen_safe.LEAN

D = '(by decide)'
# for every rule: what the theorem about the function `parse` of the class proves, or a part of it
OWN = [
    ('noArgs _ args n', None), ('on _ args n', None),
    ('fs _ (by decide) args n', 'h.1'), ('fs _ (by decide) args n', 'h.2'), ('pbkdf _ args n', None), ('noBtrfs _ (by decide) args n', None),
    ('oneDrive _ args n', None), ('noArgs _ args n', None), ('noArgs _ args n', None), ('agreed _ args n', None), ('one _ args n', None),
    ('one _ args n', None), ('one _ args n', None), ('host _ args n', None), ('url _ args n', 'h.1'), ('url _ args n', 'h.2'), ('on _ args n', None),
    ('given _ args n', None), ('given _ args n', None), ('given _ args n', None), ('ntp _ args n', 'h.1'), ('ntp _ args n', 'h.2'),
    ('root _ args n', None), ('given _ (by decide) args n', None)]
FIRST = [
    ('one _ _ (by decide) (by decide) args n', None), ('keys _ _ (by decide) args n', None),
    ('one _ %s _ (by decide) (by decide) (by decide) args n', None)]


def versions():
    s = open(os.path.join(LEAN, 'Verif/Version.lean')).read()
    return {m.group(1): int(m.group(2)) for m in re.finditer(r'def (\w+) : Nat := (\d+)', s)}


def rules(name):
    s = open(os.path.join(LEAN, 'Verif/Commands/OwnRuleSpec.lean')).read()
    s = s[s.index('def %s ' % name):]
    s = s[:s.index('}]') + 2]
    out = []
    for m in re.finditer(r'\{ cmd := c!"(\w+)", versions := fun (?:v|_) => (.*?),\s*holds', s, re.S):
        e = m.group(2).replace('true', 'True').replace('≤', '<=').replace('&&', ' and ').replace('||', ' or ').replace('decide', '')
        out.append((m.group(1), e))
    return out


class V:
    pass


def main():
    d = os.path.join(LEAN, 'Verif/Commands')
    ver = versions()
    for k, x in ver.items():
        setattr(V, k, x)
    cls = {}
    for f in sorted(os.listdir(d)):
        s = open(os.path.join(d, f)).read()
        for m in re.finditer(r'^def (\w+)\.cls( \(dc : DataCls\))? : Command :=\s+(.*)$', s, re.M):
            cls[m.group(1)] = m.group(3)
    maps = open(os.path.join(d, 'Maps.lean')).read()
    order = re.findall(r'^  \(Version\.\w+, commandMap(\w+)\)', maps, re.M)
    entries = {}
    for m in re.finditer(r'^def commandMap(\w+) : .*?:= \[\n(.*?)\]\n', maps, re.M | re.S):
        if m.group(1) != 's':
            entries[m.group(1)] = dict(re.findall(r'\(c!"(\w+)", (\w+)\.cls', m.group(2)))
    out = ['import Verif.Commands.OwnRuleLogic', 'import Verif.Commands.Maps', 'import Verif.Commands.ListLogic', '/-!',
           '# The rules for the classes of the command maps', '', 'Written by `scripts/gen_ownrules.py`.', '-/', 'namespace Ks', '', 'open Cmd', '',
           '/-- The command of the rule keeps it, in every version that has it. -/',
           'def OwnRule.Kept (r : OwnRule) : Prop := ∀ y ∈ commandMaps, r.versions y.1 = true → ∀ c, y.2.lookup r.cmd = some c → Command.Ruled c r.holds', '',
           '/-- The command of the rule keeps it in its first line. -/',
           'def OwnRule.KeptFirst (r : OwnRule) : Prop := ∀ y ∈ commandMaps, r.versions y.1 = true → ∀ c, y.2.lookup r.cmd = some c → Command.FirstRuled c r.holds', '']
    for thm, kept, lemma, table in (('ownRules', 'Kept', 'plain_ruled', OWN), ('firstRules', 'KeptFirst', 'plain_first', FIRST)):
        rs = rules(thm)
        assert len(rs) == len(table), (len(rs), len(table))
        for i, ((n, cond), (app, part)) in enumerate(zip(rs, table)):
            items, done = [], {}
            for v in order:
                if not eval(cond, {'v': ver[v], 'Version': V}):
                    items.append('fun hv => absurd hv (by decide)')
                elif n not in entries[v]:
                    items.append('fun _ c h => by cases h')
                else:
                    c = entries[v][n]
                    p = re.search(r'\((\w+)\.parse[ )]', cls[c]).group(1)
                    a = app
                    if '%s' in a:
                        a = a % ('(.inl ⟨rfl, by decide +kernel⟩)' if c == 'F18_Url' else '(.inr rfl)')
                    t = '%s.%s' % (p, a)
                    if part and p not in ('F18_Timezone', 'F23_Timezone'):
                        t = 'own_weaken (%s) fun _ _ h => %s' % (t, part)
                    if c not in done:
                        done[c] = '%s_%d_%s' % (thm, i, c)
                        out.append("theorem %s : Command.%s %s.cls (%s[%d]'(by decide)).holds :=\n  %s fun args n => %s\n" % (
                            done[c], 'Ruled' if thm == 'ownRules' else 'FirstRuled', c, thm, i, lemma, t))
                    items.append('fun _ c h => by cases h; exact %s' % done[c])
            out.append("theorem %s_%d : (%s[%d]'(by decide)).%s := by\n  unfold OwnRule.%s commandMaps\n  exact %s (List.forall_mem_nil _)%s\n" % (
                thm, i, thm, i, kept, kept, '\n    '.join('(all_cons (%s)' % x for x in items), ')' * len(items)))
        out.append('theorem %s_kept : ∀ r ∈ %s, r.%s :=\n  %s (List.forall_mem_nil _)%s\n' % (
            thm, thm, kept, ' '.join('(all_cons %s_%d' % (thm, i) for i in range(len(rs))), ')' * len(rs)))
    out.append('end Ks')
    open(os.path.join(d, 'OwnRules.lean'), 'w').write('\n'.join(out) + '\n')


if __name__ == '__main__':
    main()
