#!/usr/bin/env python3
"""Write lean/Verif/Commands/ReadBack{Part,Logvol,Network,Others}.lean: the commands with sheets read back the text of their
objects, class by class."""
import os, re
from entries import entries, load
import gen_safe

LEAN = gen_safe.LEAN
COMMANDS = ['part', 'partition', 'logvol', 'network', 'repo', 'driverdisk', 'sshpw', 'sshkey', 'device', 'user', 'group', 'fcoe',
            'iscsi', 'zfcp', 'module', 'timesource']
SHEET = {'partition': 'part'}


def number(v):
    return int(re.search(r'def %s : Nat := (\d+)' % v, open(os.path.join(LEAN, 'Verif/Version.lean')).read())[1])


def variant(n, v):
    if n in ('part', 'logvol'):
        return 'Of true' if number('F9') <= number(v) < number('F14') else 'Of false'
    if n == 'network':
        return 'Of true' if number('F24') <= number(v) else 'Of false'
    return ' 0'


def template(s):
    s = s.strip()
    if s.startswith('('):
        s = s[1:]
    return re.sub(r'\)?\.render\)?$', '', s)


def main():
    data, plain, lists, pairs, used = entries()
    src = load()
    form = {l[1]: l[3] for l in lists}
    plainform = {l[1] for l in plain}
    bodies, mods = {}, {}
    for mod, t in src.items():
        for m in re.finditer(r'^def (\w+)\.parse ([^\n]*):=(.*?)(?=^\S|\Z)', t, re.M | re.S):
            bodies[m[1]] = m[3]
    maps = src['Maps']
    order = re.findall(r'^  \(Version\.\w+, commandMap(\w+)\)', maps, re.M)
    ent = {}
    for m in re.finditer(r'^def commandMap(\w+) : .*?:= \[\n(.*?)\]\n', maps, re.M | re.S):
        if m.group(1) != 's':
            ent[m.group(1)] = {n: (c, d) for n, c, d in re.findall(r'\(c!"(\w+)", (\w+)\.cls(?: (\w+)\.cls)?\)', m.group(2))}
    cls = {}
    for mod, t in src.items():
        for m in re.finditer(r'^def (\w+)\.cls( \(dc : DataCls\))? : Command :=\s+(.*)$', t, re.M):
            cls[m.group(1)] = m.group(3)
    out = []
    head = ['import Verif.Commands.Sheets', 'import Verif.Commands.RuleLogic2', 'import Verif.Commands.Maps', '/-!',
           '# Commands with data lists read their text back', '', 'Written by `scripts/gen_readback.py`.', '-/',
           'namespace Ks.Cmd', '', 'set_option linter.unusedVariables false', '']
    done, parsed, outs = {}, {}, {}

    def touched(p):
        b = bodies[p]
        m = re.search(r'← (\w+)\.parse k args', b)
        ks = set(re.findall(r'\.set c!"(\w+)"', b))
        return ks | (touched(m[1]) if m else set())

    def parse_lemma(p):
        if p in parsed:
            return
        b = bodies[p]
        m = re.search(r'← (\w+)\.parse k args', b)
        if m:
            parse_lemma(m[1])
        parsed[p] = sorted(touched(p))
        skip = '[%s]' % ', '.join('c!"%s"' % k for k in parsed[p])
        out.append('theorem %s.parsed (k : Info) (args : List Str) (n : Nat) : M.Post n (%s.parse k args) (ParsedBy k.op k.dc.init %s n args) := by' % (p, p, skip))
        out.append('  unfold %s.parse' % p)
        if 'match' in b:
            out.append('  repeat\' (first | rule_when | (with_reducible apply post_pure) | split | (with_reducible apply %s.parsed) | post_step | (intro _))' % m[1])
        elif m:
            out.append('  repeat\' (first | rule_when | (with_reducible apply %s.parsed) | (with_reducible apply post_condT) | (with_reducible apply post_pure) | post_step | (intro _) | extract_lets)' % m[1])
        else:
            out.append('  parsed_steps')
        out.append('  all_goals parsed_close\n')

    groups = [('Part', ['part', 'partition']), ('Logvol', ['logvol']), ('Network', ['network']),
              ('Others', [n for n in COMMANDS if n not in ('part', 'partition', 'logvol', 'network')])]
    for n in COMMANDS:
        for g, l in groups:
            if n == l[0]:
                out = outs[g] = []
        items = []
        sheet = SHEET.get(n, n) + 'Sheet'
        for v in order:
            if n not in ent[v]:
                items.append('(all_cons (fun c h hl => by cases h)')
                continue
            c, d = ent[v][n]
            if cls[c].startswith(('deprecatedCmd', 'removedCmd')):
                items.append('(all_cons (fun c h hl => by cases h; exact absurd hl (by decide))')
                continue
            if c in plainform:
                items.append('(all_cons (fun c h hl => by cases h; exact absurd hl (by decide))')
                continue
            p = re.search(r'\((\w+)\.parse[ )]', form[c])[1]
            parse_lemma(p)
            arg = variant(SHEET.get(n, n), v)
            key = (c, d, sheet, arg)
            nm = '%s_%s%s' % (c, d, '_lost' if arg == 'Of true' else '')
            sh = '(%s%s)' % (sheet, arg)
            if key not in done:
                done[key] = v
                dinit, s = data[d]
                t = template(s)
                st = '.inr ⟨_, by decide, rfl⟩' if 'headedListStr' in form[c] else '.inl rfl'
                out.append('theorem readsBack_%s : (%s.cls %s.cls).ReadsBack %s (setToObj (%s.info %s.cls).op.defaults %s) :=\n'
                           '  list_readsBack (o := %s) %s (fun args n => post_weaken (%s.parsed _ args n) fun _ h => h.mono (by decide)) (fun _ => rfl) (%s) (by decide +kernel)\n' % (
                               nm, c, d, sh, c, d, dinit, t, sh, p, st))
            items.append('(all_cons (fun c h hl => by cases h; exact ⟨_, readsBack_%s⟩)' % nm)
        out.append('theorem readsBack_%s : ∀ y ∈ commandMaps, ∀ c, y.2.lookup c!"%s" = some c → c.hasList { attrs := {} } = true → ∃ base, c.ReadsBack (%s y.1) base := by\n  unfold commandMaps\n  exact %s (List.forall_mem_nil _)%s\n' % (
            n, n, sheet, '\n    '.join(items), ')' * len(items)))
    for g, out in outs.items():
        open(os.path.join(LEAN, 'Verif/Commands/ReadBack%s.lean' % g), 'w').write('\n'.join(head + out + ['end Ks.Cmd']) + '\n')


if __name__ == '__main__':
    main()
