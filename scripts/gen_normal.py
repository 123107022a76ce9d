#!/usr/bin/env python3
"""Write lean/Verif/Commands/Normal{Part,Logvol,Network,Others}.lean: the text of an object of a command with a sheet is
accepted and gives the same object, class by class."""
import os, re
from entries import entries, load
import gen_safe
from gen_readback import variant, template, SHEET

LEAN = gen_safe.LEAN
COMMANDS = ['part', 'partition', 'logvol', 'network', 'repo', 'device', 'user', 'group', 'fcoe', 'iscsi', 'zfcp', 'module', 'timesource']
HEAD = ['import Verif.Commands.NormalClasses', 'import Verif.Commands.NormalSpec', '/-!',
        '# The text of an object is read again, class by class', '', 'Written by `scripts/gen_normal.py`.', '-/',
        'namespace Ks.Cmd', '', 'set_option linter.unusedVariables false', '']


def main():
    data, plain, lists, pairs, used = entries()
    src = load()
    form = {l[1]: l[3] for l in lists}
    plainform = {l[1] for l in plain}
    maps = src['Maps']
    order = re.findall(r'^  \(Version\.(\w+), commandMap(\w+)\)', maps, re.M)
    ent = {}
    for m in re.finditer(r'^def commandMap(\w+) : .*?:= \[\n(.*?)\]\n', maps, re.M | re.S):
        if m.group(1) != 's':
            ent[m.group(1)] = {n: (c, d) for n, c, d in re.findall(r'\(c!"(\w+)", (\w+)\.cls(?: (\w+)\.cls)?\)', m.group(2))}
    cls = {}
    for mod, t in src.items():
        for m in re.finditer(r'^def (\w+)\.cls( \(dc : DataCls\))? : Command :=\s+(.*)$', t, re.M):
            cls[m.group(1)] = m.group(3)
    groups = [('Part', ['part', 'partition']), ('Logvol', ['logvol']), ('Network', ['network']),
              ('Others', [n for n in COMMANDS if n not in ('part', 'partition', 'logvol', 'network')])]
    done, outs = {}, {}
    for n in COMMANDS:
        for g, l in groups:
            if n == l[0]:
                out = outs[g] = []
        items, bases = [], []
        sheet = SHEET.get(n, n) + 'Sheet'
        for ver, v in order:
            if n not in ent[v]:
                items.append('(all_cons (fun c h hl => by cases h)')
                continue
            c, d = ent[v][n]
            if cls[c].startswith(('deprecatedCmd', 'removedCmd')) or c in plainform:
                items.append('(all_cons (fun c h hl => by cases h; exact absurd hl (by decide))')
                continue
            p = re.search(r'\((\w+)\.parse[ )]', form[c])[1]
            arg = variant(SHEET.get(n, n), v)
            nm = '%s_%s%s' % (c, d, '_lost' if arg == 'Of true' else '')
            sh = '(%s%s)' % (sheet, arg)
            key = (c, d, sh)
            dinit, s = data[d]
            base = '(setToObj (%s.info %s.cls).op.defaults %s)' % (c, d, dinit)
            bases.append('(Version.%s, %s)' % (ver, base[1:-1]))
            if key not in done:
                done[key] = v
                o = template(s)
                st = '.inr ⟨_, by decide, rfl⟩' if 'headedListStr' in form[c] else '.inl rfl'
                need = 'needs c!"%s" Version.%s' % (SHEET.get(n, n), ver)
                fixed = 'unread c!"%s"' % SHEET.get(n, n)
                parsed = '(fun args n => post_weaken (%s.parsed _ args n) fun _ h => h.mono (by decide))' % p
                post = lambda w: '(%s.%s _)' % (p, w)
                ck = '(by decide +kernel)'
                common = '(fun _ => rfl) (%s)' % st
                if n in ('part', 'partition'):
                    pf = 'mount_normal (o := %s) (T := [c!"lineno", c!"mountpoint"]) %s %s (fun args n => %s.mountOf _ args n) %s (fun a b => %s.sim _ a b (by decide +kernel)) (by decide) %s %s' % (
                        o, sh, parsed, p, common, p, ck, ck)
                elif n == 'logvol':
                    pf = 'logvol_normal (o := %s) (T := [c!"lineno", c!"mountpoint", c!"preexist"]) %s %s (fun args n => %s.mountOf _ args n) (fun args n => %s.exists _ args n) %s (fun a b => %s.sim _ a b (by decide +kernel)) (by decide) (by decide) (by decide) %s %s %s' % (
                        o, sh, parsed, p, p, common, p, ck, ck, ck)
                elif n == 'network' and arg == 'Of true':
                    pf = 'proto_normal (o := %s) (T := [c!"lineno", c!"bootProto"]) %s %s (fun args n => %s.noProto _ args n) %s (fun a b X hX h => %s.sim _ a b X hX h) (by decide) (by decide) (by decide) %s %s %s' % (
                        o, sh, parsed, p, common, p, ck, ck, ck)
                elif n == 'device':
                    pf = 'word_normal (o := %s) (T := [c!"lineno", c!"moduleName"]) %s _ %s (fun args n => %s.word _ args n) %s (fun a b => %s.sim _ a b) (by decide) %s %s' % (
                        o, sh, parsed, p, common, p, ck, ck)
                else:
                    extra = {'FC6_Repo': ' (by decide +kernel)', 'F33_Timesource': ' (by decide +kernel)', 'FC3_Network': ' []', 'F22_Network': ' [] (by decide)'}.get(p, '')
                    pf = 'opts_normal (o := %s) (T := [c!"lineno"]) %s %s %s (fun a b => %s.sim _ a b%s) (by decide) %s %s' % (
                        o, sh, parsed, common, p, extra, ck, ck)
                out.append('theorem normal_%s : (%s.cls %s.cls).Normal %s (%s) (%s) %s :=\n  %s\n' % (nm, c, d, sh, need, fixed, base, pf))
                out.append('theorem same_%s : (%s.cls %s.cls).SameText := list_same (o := %s) (fun _ => rfl) (by decide +kernel)\n' % (nm, c, d, o))
            items.append('(all_cons (fun c h hl => by cases h; exact ⟨_, rfl, normal_%s, same_%s⟩)' % (nm, nm))
        out.append('/-- The values of an object of `%s` without options. -/\ndef %sBases : List (Nat × Ns) :=\n  [%s]\n' % (n, n, ',\n   '.join(bases)))
        out.append('theorem normal_%s : ∀ y ∈ commandMaps, ∀ c, y.2.lookup c!"%s" = some c → c.hasList { attrs := {} } = true →\n    ∃ base, %sBases.lookup y.1 = some base ∧ c.Normal (%s y.1) (needs c!"%s" y.1) (unread c!"%s") base ∧ c.SameText := by\n  unfold commandMaps\n  exact %s (List.forall_mem_nil _)%s\n' % (
            n, n, n, sheet, n, n, '\n    '.join(items), ')' * len(items)))
    for g, out in outs.items():
        open(os.path.join(LEAN, 'Verif/Commands/Normal%s.lean' % g), 'w').write('\n'.join(HEAD + out + ['end Ks.Cmd']) + '\n')


if __name__ == '__main__':
    main()
