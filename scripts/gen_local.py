#!/usr/bin/env python3
"""Write lean/Verif/Commands/Local.lean: for every `parse` function and every class in a command map,
which other commands it looks at."""
import glob, os, re
import gen_safe

LEAN = gen_safe.LEAN
PARTS = ['Partition', 'Raid', 'VolGroup', 'LogVol', 'ReqPart']
PS = '[c!"autopart", c!"mount"]'
SETS = {p: PS for p in PARTS}
SETS['AutoPart'] = '[c!"partition", c!"raid", c!"volgroup", c!"logvol", c!"reqpart", c!"mount"]'
SETS['Mount'] = '[c!"autopart", c!"partition", c!"raid", c!"volgroup", c!"logvol", c!"reqpart"]'


def sset(cls):
    return SETS.get(cls.split('_', 1)[1], '[]')


def main():
    defs, cls = {}, {}
    for f in sorted(glob.glob(os.path.join(LEAN, 'Verif/Commands/*.lean'))):
        if os.path.basename(f) in ('Base.lean', 'Logic.lean', 'Maps.lean', 'Safe.lean', 'Local.lean', 'LocalLogic.lean'):
            continue
        s = open(f).read()
        for m in re.finditer(r'^def (\w+)\.parse (.*?) : M (\w+) := (.*?)(?=^/--|^def|^end)', s, re.M | re.S):
            defs[m.group(1)] = (m.group(2), m.group(4))
        for m in re.finditer(r'^def (\w+)\.cls( \(dc : DataCls\))? : Command :=\s+(.*)$', s, re.M):
            cls[m.group(1)] = m.group(3)
    out = ['import Verif.Commands.LocalLogic', 'import Verif.Commands.Maps', '/-!',
           '# Which other commands the command classes look at', '',
           'Written by `scripts/gen_local.py`.', '-/',
           'namespace Ks.Cmd', '',
           '''theorem FC6_MultiPath.findParent_local (device mpdev : Val) (l : List Ns) (x : Nat) (parent : Option Nat) :
    M.Local [] (FC6_MultiPath.findParent device mpdev l x parent) := by
  induction l generalizing x parent with
  | nil => exact local_pure
  | cons a t ih =>
    unfold FC6_MultiPath.findParent
    cases ha : a.get c!"paths" with
    | none => exact local_bind local_throw fun _ => local_bind local_failIf fun _ => ih _ _
    | some p => exact local_bind local_pure fun _ => local_bind local_failIf fun _ => ih _ _
''']
    done = set()

    def emit(n):
        if n in done:
            return
        done.add(n)
        params, body = defs[n]
        callees = [c for c in dict.fromkeys(re.findall(r'\b(\w+)\.parse k args', body)) if c != n]
        for c in callees:
            emit(c)
        args = ' '.join(re.findall(r'\((\w+) :', params))
        app = ''.join('(with_reducible apply %s.parse_local) | ' % c for c in callees)
        unf = n + '.parse'
        if n == 'F19_Realm':
            unf += ' F19_Realm.parseArguments F19_Realm.parseJoin'
        if n == 'FC6_MultiPath':
            app += '(with_reducible apply FC6_MultiPath.findParent_local) | '
        out.append("theorem %s.parse_local %s :\n    M.Local %s (%s.parse %s) := by\n  unfold %s\n  repeat' (first | %slocal_step)\n" % (
            n, params, sset(n), n, args, unf, app))

    for n in defs:
        emit(n)
    maps = open(os.path.join(LEAN, 'Verif/Commands/Maps.lean')).read()
    order = re.findall(r'^  \(Version\.\w+, commandMap(\w+)\)', maps, re.M)
    used, entries = {}, {}
    for m in re.finditer(r'^def commandMap(\w+) : .*?:= \[\n(.*?)\]\n', maps, re.M | re.S):
        if m.group(1) == 's':
            continue
        l = re.findall(r'\(c!"(\w+)", (\w+)\.cls(?: (\w+)\.cls)?\)', m.group(2))
        entries[m.group(1)] = l
        for n, c, d in l:
            used[(c, d)] = n
    for (c, d) in used:
        body = cls[c]
        e = c + '.cls' + (' ' + d + '.cls' if d else '')
        th = 'local_' + c + ('_' + d if d else '')
        m = re.search(r'\((\w+)\.parse[ )]', body)
        if body.startswith('deprecatedCmd'):
            pf = 'deprecated_local'
        elif body.startswith('removedCmd'):
            pf = 'removed_local'
        elif 'M.throw .type' in body:
            pf = 'plain_local fun _ => local_throw'
        elif c == 'F19_Realm':
            pf = 'plain_local fun args => F19_Realm.parse_local args'
        else:
            pf = '%s fun args => %s.parse_local _ args' % ('list_local' if body.startswith('listCmd') else 'plain_local', m.group(1))
        out.append('theorem %s : Command.Local (%s) (looksAt c!"%s") :=\n  %s\n' % (th, e, c.split('_', 1)[1].lower(), pf))
    for v, l in entries.items():
        out.append("theorem commandMap%s_local : ∀ x ∈ commandMap%s, ∃ a, attrName x.2.name = a ∧ Command.Local x.2 (looksAt a) := by\n  unfold commandMap%s\n  exact %s (List.forall_mem_nil _)%s\n" % (
            v, v, v, '\n    '.join("(local_cons ⟨_, by decide +kernel, local_%s⟩" % (c + ('_' + d if d else '')) for _, c, d in l), ')' * len(l)))
    out.append("theorem commandMaps_local : ∀ y ∈ commandMaps, ∀ x ∈ y.2, ∃ a, attrName x.2.name = a ∧ Command.Local x.2 (looksAt a) := by\n  unfold commandMaps\n  exact %s (List.forall_mem_nil _)%s\n" % (
        ' '.join("(local_cons commandMap%s_local" % v for v in order), ')' * len(order)))
    out.append('end Ks.Cmd')
    s = '\n'.join(out) + '\n'
    s = s.replace('theorem FC6_MultiPath.findParent_local', '''theorem local_cons {α : Type} {p : α → Prop} {a : α} {l : List α} (h : p a) (ht : ∀ x ∈ l, p x) : ∀ x ∈ a :: l, p x :=
  List.forall_mem_cons.2 ⟨h, ht⟩

theorem FC6_MultiPath.findParent_local''', 1)
    open(os.path.join(LEAN, 'Verif/Commands/Local.lean'), 'w').write(s)


if __name__ == '__main__':
    main()
