#!/usr/bin/env python3
"""Write lean/Verif/Commands/OpTable.lean: what `tools/ksverdiff.py` and the completion of `tools/ksshell.py` look at
(`hasattr(cmd, "op")`, `isinstance(cmd, DeprecatedCommand)`, `isinstance(cmd, RemovedCommand)`) for every command class,
and lean/Verif/Commands/OpBuilt.lean: the parsers are built with add_argument and remove_argument."""
import ast
import glob
import os
import re

REPO = '/repo/pykickstart'
LEAN = os.path.join(os.path.dirname(os.path.abspath(__file__)), '../lean/Verif/Commands')

# parsers that depend on two lists of choices
TWO = ('F27_Network.opWith', 'RHEL7_Network.opWith', 'F28_Nvdimm.opWith')
CLASSES = {}
for f in sorted(glob.glob(REPO + '/commands/*.py')) + [REPO + '/base.py']:
    for n in ast.parse(open(f).read()).body:
        if isinstance(n, ast.ClassDef):
            CLASSES[n.name] = ([b.id if isinstance(b, ast.Name) else b.attr for b in n.bases], n)


def mro(c):
    if c not in CLASSES:
        return [c]
    seqs = [mro(b) for b in CLASSES[c][0]] + [list(CLASSES[c][0])]
    out = [c]
    while any(seqs):
        h = next(s[0] for s in seqs if s and not any(s[0] in t[1:] for t in seqs))
        out.append(h)
        seqs = [s for s in ([x for x in s if x != h] for s in seqs) if s]
    return out


def method(classes, name):
    for k in classes:
        for x in CLASSES[k][1].body if k in CLASSES else []:
            if isinstance(x, ast.FunctionDef) and x.name == name:
                return k, x
    return None, None


def sets_op(owner, fn, c):
    """Does this __init__, called for an object of class c, assign self.op?"""
    for x in ast.walk(fn) if fn else []:
        if isinstance(x, ast.Assign) and any(ast.unparse(t) == 'self.op' for t in x.targets):
            return True
        if isinstance(x, ast.Call) and isinstance(x.func, ast.Attribute) and x.func.attr == '__init__':
            v = x.func.value
            m = mro(v.id) if isinstance(v, ast.Name) else mro(c)[mro(c).index(owner) + 1:]
            if sets_op(*method(m, '__init__'), c):
                return True
    return False


def main():
    ops, infos, steps = {}, {}, {}
    order = []
    files = sorted(glob.glob(LEAN + '/*.lean'))
    mods = set()
    for f in files:
        s = open(f).read()
        for m in re.finditer(r'^def (\w+\.op(?:With)?)(?: \([^\n]*\))? : OptParser :=(.*?)(?=^/--|^def |^end)', s, re.M | re.S):
            ops[m[1]] = re.match(r'\s*\(?([\w.]+)', m[2])[1]
            order.append(m[1])
            steps[m[1]] = re.findall(r'\|>\.(add|remove)\b', m[2])[::-1]
        for m in re.finditer(r'^def (\w+)\.info( \(dc : DataCls\))? : Info := .*?op := (\w+\.op(?:With)?)', s, re.M):
            infos[m[1]] = m[3]
    maps = open(LEAN + '/Maps.lean').read()
    used = {}
    for c, dc in re.findall(r'", (\w+)\.cls(?: (\w+)\.cls)?\)', maps):
        used.setdefault(c, set()).add(dc)
    out = ['import Verif.Commands.Maps', '/-!', '# What the tools see of the command classes', '',
           'Written by `scripts/gen_optable.py` from the text of the classes.', '-/', 'namespace Ks.Cmd', '',
           '/-- `hasattr(cmd, "op")` and `cmd.op` after `__init__`, and `isinstance` with the two classes of `base.py:191,223`.  `method` has no `op` of its own. -/',
           'structure ClassInfo where', '  op : Option OptParser := none', '  deprecated : Bool := false', '  removed : Bool := false', '',
           '/-- `commands/*.py`: every class of the command maps, by its name. -/', 'def classOps : List (Str × ClassInfo) := [']
    rows, kinds = [], []
    used_ops = set()
    for c in sorted(used):
        m = mro(c)
        d, r = 'DeprecatedCommand' in m, 'RemovedCommand' in m
        fields = []
        if sets_op(*method(m, '__init__'), c):
            dc = sorted(used[c])[0]
            fields.append('op := some (%s.info%s).op' % (c, ' %s.cls' % dc if dc else ''))
            used_ops.add(infos[c])
        if d:
            fields.append('deprecated := true')
        if r:
            fields.append('removed := true')
        body = '{ %s }' % ', '.join(fields) if fields else '{}'
        rows.append('  (c!"%s", %s)' % (c, body))
    out += [',\n'.join(rows) + ']', '',
            '/-- What the table says of the class is so: a removed class refuses every line, a deprecated one ignores it. -/',
            'structure Listed (c : Command) : Prop where',
            '  found : (classOps.lookup c.name).isSome = true',
            '  removed : ((classOps.lookup c.name).getD {}).removed = true → c = removedCmd c.name c.init.attrs',
            '  deprecated : ((classOps.lookup c.name).getD {}).removed = false → ((classOps.lookup c.name).getD {}).deprecated = true → c = deprecatedCmd c.name c.init.attrs', '',
            'theorem Listed.other {c : Command} (h : (classOps.lookup c.name).map (fun i => (i.removed, i.deprecated)) = some (false, false)) : Listed c := by',
            '  cases e : classOps.lookup c.name with',
            '  | none => rw [e] at h; cases h',
            '  | some i =>',
            '    rw [e] at h',
            '    simp only [Option.map_some, Option.some.injEq, Prod.mk.injEq] at h',
            '    exact ⟨by rw [e]; rfl, fun x => (by rw [e, Option.getD_some, h.1] at x; cases x), fun _ x => (by rw [e, Option.getD_some, h.2] at x; cases x)⟩', '',
            'theorem Listed.gone {c : Command} (h : (classOps.lookup c.name).map (·.removed) = some true) (hc : c = removedCmd c.name c.init.attrs) : Listed c := by',
            '  cases e : classOps.lookup c.name with',
            '  | none => rw [e] at h; cases h',
            '  | some i =>',
            '    rw [e] at h',
            '    simp only [Option.map_some, Option.some.injEq] at h',
            '    exact ⟨by rw [e]; rfl, fun _ => hc, fun x => (by rw [e, Option.getD_some, h] at x; cases x)⟩', '',
            'theorem Listed.idle {c : Command} (h : (classOps.lookup c.name).map (·.removed) = some false) (hc : c = deprecatedCmd c.name c.init.attrs) : Listed c := by',
            '  cases e : classOps.lookup c.name with',
            '  | none => rw [e] at h; cases h',
            '  | some i =>',
            '    rw [e] at h',
            '    simp only [Option.map_some, Option.some.injEq] at h',
            '    exact ⟨by rw [e]; rfl, fun x => (by rw [e, Option.getD_some, h] at x; cases x), fun _ _ => hc⟩', '']
    for c in sorted(used):
        m = mro(c)
        for dc in sorted(used[c]):
            t = 'listed_' + c + ('_' + dc if dc else '')
            term = '%s.cls%s' % (c, ' %s.cls' % dc if dc else '')
            how = '.gone (by decide +kernel) rfl' if 'RemovedCommand' in m else '.idle (by decide +kernel) rfl' if 'DeprecatedCommand' in m else '.other (by decide +kernel)'
            out.append('theorem %s : Listed (%s) := %s' % (t, term, how))
    out.append('')
    names = []
    for m in re.finditer(r'^def commandMap(\w+) : .*?:= \[\n(.*?)\]\n', maps, re.M | re.S):
        if m[1] == 's':
            continue
        ent = re.findall(r'\(c!"\w+", (\w+)\.cls(?: (\w+)\.cls)?\)', m[2])
        out += ['theorem commandMap%s_listed : ∀ x ∈ commandMap%s, Listed x.2 := by' % (m[1], m[1]), '  unfold commandMap%s' % m[1],
                '  simp only [List.forall_mem_cons]',
                '  exact ⟨' + ', '.join('listed_' + c + ('_' + dc if dc else '') for c, dc in ent) + ', List.forall_mem_nil _⟩', '']
    vs = re.findall(r'^  \(Version\.\w+, commandMap(\w+)\)', maps, re.M)
    out += ['theorem commandMaps_listed : ∀ y ∈ commandMaps, ∀ x ∈ y.2, Listed x.2 := by', '  unfold commandMaps', '  simp only [List.forall_mem_cons]',
            '  exact ⟨' + ', '.join('commandMap%s_listed' % v for v in vs) + ', List.forall_mem_nil _⟩', '', 'end Ks.Cmd', '']
    open(LEAN + '/OpTable.lean', 'w').write('\n'.join(out))

    need, todo = set(), list(used_ops)
    while todo:
        c = todo.pop()
        if c in need:
            continue
        need.add(c)
        if ops[c] in ops:
            todo.append(ops[c])
    out = ['import Verif.Commands.OpTable', 'import Verif.ArgparseLemmas', '/-!', '# The parsers of the command classes are built with `add_argument` and `remove_argument`', '',
           'Written by `scripts/gen_optable.py`.', '-/', 'namespace Ks.Cmd', '',
           'def namesOk (l : List Str) : Bool := decide (({ names := l } : Arg).Ok)', '',
           'theorem ok_names {a : Arg} (h : namesOk a.names = true) : a.Ok := (of_decide_eq_true h : ({ names := a.names } : Arg).Ok)', '']
    done = set()

    def thm(c):
        return 'built_' + c.replace('.', '_')

    def emit(c):
        if c in done:
            return
        done.add(c)
        base = ops[c]
        if base in ops:
            emit(base)
            end = 'exact %s%s' % (thm(base), ' _' if base.endswith('With') else '')
        else:
            end = 'exact .empty'
        two = c in TWO
        if c.endswith('With'):
            head = 'theorem %s %s: (%s %s).Built' % (thm(c), '(a) (b) ' if two else '(a) ', c, 'a b' if two else 'a')
        else:
            head = 'theorem %s : %s.Built' % (thm(c), c)
        out.append('%s := by\n  unfold %s%s\n  %s' % (head, c, ''.join('\n  refine .add ?_ (ok_names (by dsimp only; decide +kernel))' if x == 'add' else '\n  refine .remove _ ?_' for x in steps[c]), end))
    for c in order:
        if c in need:
            emit(c)
    for c in sorted(used):
        if sets_op(*method(mro(c), '__init__'), c):
            dc = sorted(used[c])[0]
            out.append('theorem built_info_%s : (%s.info%s).op.Built := by unfold %s.info; dsimp only; exact %s' % (
                c, c, ' %s.cls' % dc if dc else '', c, thm(infos[c]) + (' _ _' if infos[c] in TWO else ' _' if infos[c].endswith('With') else '')))
    out += ['', 'theorem of_op {q p : OptParser} (h : q.Built) (e : some q = some p) : p.Built := by cases e; exact h', '',
            'theorem of_none {p : OptParser} (e : (none : Option OptParser) = some p) : p.Built := by cases e']
    out += ['', 'set_option maxRecDepth 8000 in', 'theorem classOps_built : ∀ x ∈ classOps, ∀ p, x.2.op = some p → p.Built := by', '  unfold classOps', '  simp only [List.forall_mem_cons]',
            '  exact ⟨']
    pr = []
    for c in sorted(used):
        if sets_op(*method(mro(c), '__init__'), c):
            pr.append('    fun _ => of_op built_info_%s' % c)
        else:
            pr.append('    fun _ => of_none')
    out[-1] += '\n' + ',\n'.join(pr) + ',\n    List.forall_mem_nil _⟩'
    out += ['', 'end Ks.Cmd', '']
    open(LEAN + '/OpBuilt.lean', 'w').write('\n'.join(out))


if __name__ == '__main__':
    main()
