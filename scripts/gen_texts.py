#!/usr/bin/env python3
"""Write lean/Verif/Commands/TextTable.lean (what the commands write after a first line, from texts.json) and
lean/Verif/Commands/FirstTexts*.lean (the classes of the command maps do this)."""
import os, re, json, sys
from draft_lines import classes, LEAN
import gen_ownrules
from gen_lines import ident, words

HERE = os.path.dirname(os.path.abspath(__file__))
d = os.path.join(LEAN, 'Verif/Commands')
NAMED = {'cmdline', 'graphical', 'text', 'install', 'upgrade', 'lilo'}
LIT = json.load(open(os.path.join(HERE, 'texts_literal.json')))
PARTS = 2
# commands that look at other commands
LOOK = {'raid', 'volgroup', 'btrfs', 'mount'}
SKIP = re.compile(r'--level=(RAID[156]|[0156]|raid6)$|--level=RAID1 raid.1 raid.2 --level=10|raid.3 --level|--data=\d|--metadata=\d|--spares=2|raid.2 --(passphrase|escrowcert|cipher|luks|pbkdf)|--namespace=n --(mode|sectorsize)')


def lit(s):
    return 'c!"%s"' % s


def main():
    rows = json.load(open(os.path.join(HERE, 'texts.json')))
    kinds = {(a, b): x for a, b, x in json.load(open(os.path.join(HERE, 'lines.json')))['kinds']}
    cls, order, entries = classes()
    ver = gen_ownrules.versions()
    names = {}
    for k, x in ver.items():
        names.setdefault(x, k)
    maps = {ver[a]: entries[m] for a, m in order}
    vnums = sorted(maps)

    def ranges(vs):
        out, cur = [], None
        for v in vnums:
            if v in vs:
                cur = [v, v] if cur is None else [cur[0], v]
            elif cur:
                out.append(cur); cur = None
        if cur:
            out.append(cur)
        return '[' + ', '.join('(%s, %s)' % (names[a], names[b]) for a, b in out) + ']'

    cmds = []
    by = {}
    for r in rows:
        if r['text'] is None or SKIP.search(r['line']):
            continue
        if r['cmd'] not in cmds:
            cmds.append(r['cmd'])
        by.setdefault(r['cmd'], {}).setdefault(r['line'], []).append(r)
    cmds.sort()
    table, proofs = [], []
    checks = 0
    for cmd in cmds:
        idt = re.sub(r'_(\w)', lambda m: m.group(1).upper(), cmd) + 'Texts'
        specs = []
        use = {}
        for line, rs in by[cmd].items():
            cl = {v: r for r in rs for v in r['vs']}
            vs = sorted(cl)
            if cmd == 'raid':
                keep = {cl[v]['cls'] for i, v in enumerate(vs) if i == 0 or cl[vs[i - 1]]['text'] != cl[v]['text'] or i == len(vs) - 1}
            else:
                keep = {r['cls'] for r in rs}
            groups = {}
            for r in rs:
                if r['cls'] in keep:
                    groups.setdefault(r['text'], []).append(r)
            tok = [t for t in line.split() if 'QX' in t]
            sym = len(tok) == 1 and tok[0].endswith('=QX') and kinds.get((cmd, tok[0])) == 'str' and line not in LIT.get(cmd, [])
            for t, gs in groups.items():
                rg = ranges({v for r in gs for v in r['vs']})
                if sym:
                    a = '[' + ', '.join('c!"%s=" ++ x' % w[:-3] if w.endswith('=QX') else lit(w) for w in line.split()) + ']'
                else:
                    a = words(line)
                n = t.count('QX')
                if sym and n == 1:
                    b, c = t.split('QX')
                    tx = 'fun x => %s ++ x ++ %s' % (lit(b), lit(c))
                    how = 'refine Eq.trans (b := some (%s ++ (a :: x) ++ %s)) ?_ (by kernel_rfl); text_rfl' % (lit(b), lit(c))
                    specs.append('⟨%s, fun x => %s, %s⟩' % (rg, a, tx))
                elif sym and n == 0:
                    how = 'kernel_rfl'
                    specs.append('⟨%s, fun x => %s, fun _ => %s⟩' % (rg, a, lit(t) if t else '[]'))
                else:
                    how = None
                    specs.append('⟨%s, fun _ => %s, fun _ => %s⟩' % (rg, a, lit(t) if t else '[]'))
                for r in gs:
                    use.setdefault(r['cls'], []).append((len(specs) - 1, how))
        table.append('/-- What `%s` writes. -/\ndef %s : CommandTexts where\n  cmd := c!"%s"\n  texts := [\n    %s]\n' % (cmd, idt, cmd, ',\n    '.join(specs)))
        body = []
        nm = 'c!"%s"' % cmd if cmd in NAMED else 'n'
        q = '' if cmd in NAMED else '(n : Str) '
        byv = {}
        for k, (c, idx) in enumerate(use.items()):
            thm = 'writes_%s_%d' % (idt, k)
            vs = sorted(v for v in vnums if maps[v].get(cmd) == c)
            for v in vs:
                byv[v] = thm
            checks += len(idx)
            pre = 'rcases hb with rfl | rfl <;> rcases hb\' with rfl | rfl <;> ' if cmd in LOOK else ''
            pr = ''
            for i, how in reversed(idx):
                if how:
                    p = '(by\n      intro b b\' hb hb\' x hx line l\n      cases x with\n      | nil => exact absurd rfl hx\n      | cons a x => %s(%s))' % (pre, how)
                else:
                    p = '(by intro b b\' hb hb\' x hx line l; %skernel_rfl)' % pre
                pr = '(all_cons %s\n    %s)' % (p, pr or '(List.forall_mem_nil _)')
            il = ', '.join(str(i) for i, _ in idx)
            cn = '(%s)' % c
            body.append('theorem %s_texts %s: ∀ i ∈ [%s], Command.FirstText %s %s (%s.texts.getD i noText) :=\n  %s\n' % (thm, q, il, cn, nm, idt, pr))
            body.append('theorem %s : ∀ v, [%s].contains v = true → Command.Writes %s %s v :=\n  writes_of [%s] (%s_texts%s) (by decide +kernel)\n' % (
                thm, ', '.join('Version.' + names[v] for v in vs), cn, idt, il, thm, '' if cmd in NAMED else ' _'))
        chain = '(List.forall_mem_nil _)'
        for a, m in reversed(order):
            v = ver[a]
            if v in byv:
                chain = '(all_cons (fun c h => by cases h; exact %s _ rfl)\n    %s)' % (byv[v], chain)
            elif cmd in maps[v]:
                chain = '(all_cons (fun c h => by cases h; exact writes_none (by decide +kernel))\n    %s)' % chain
            else:
                chain = '(all_cons (fun c h => by cases h)\n    %s)' % chain
        body.append('theorem writes_%s : %s.Written := by\n  unfold CommandTexts.Written commandMaps\n  exact %s\n' % (idt, idt, chain))
        proofs.append((idt, sum(len(x) for x in use.values()), body))
    o = ['import Verif.Commands.TextSpec', 'import Verif.Version', '/-!', '# What the commands write after their first lines', '',
         'Commands whose texts the read-back theorems (C61, C62) say nothing about.', 'Written by `scripts/gen_texts.py` from `scripts/texts.json`.', '-/', 'namespace Ks', '', 'open Version', '']
    o += table
    o.append('/-- The tables of the commands. -/\ndef commandTexts : List CommandTexts := [%s]\n' % ',\n  '.join(p[0] for p in proofs))
    o.append('end Ks')
    open(os.path.join(d, 'TextTable.lean'), 'w').write('\n'.join(o) + '\n')
    parts = [[] for _ in range(PARTS)]
    load = [0] * PARTS
    for p in sorted(proofs, key=lambda p: -p[1]):
        i = load.index(min(load))
        parts[i].append(p); load[i] += p[1]
    for i, ps in enumerate(parts):
        o = ['import Verif.Commands.TextLogic', 'import Verif.Commands.TextTable', '/-!', '# The classes of the command maps write what the table says', '', 'Written by `scripts/gen_texts.py`.', '-/',
             'namespace Ks.Cmd', '', 'set_option linter.unusedVariables false', '']
        for p in ps:
            o += p[2]
        o.append('end Ks.Cmd')
        open(os.path.join(d, 'FirstTexts%d.lean' % (i + 1)), 'w').write('\n'.join(o) + '\n')
    o = ['import Verif.Commands.FirstTexts%d' % (i + 1) for i in range(PARTS)]
    o += ['/-!', '# The classes of the command maps write what the table says', '', 'Written by `scripts/gen_texts.py`.', '-/', 'namespace Ks', '', 'open Cmd', '',
          'theorem commandTexts_written : ∀ e ∈ commandTexts, e.Written :=', '  ' + ''.join('(all_cons writes_%s\n  ' % p[0] for p in proofs) + '(List.forall_mem_nil _)' + ')' * len(proofs), '', 'end Ks']
    open(os.path.join(d, 'FirstTexts.lean'), 'w').write('\n'.join(o) + '\n')
    print(len(proofs), 'commands', sum(t.count('⟨') for t in table), 'texts', checks, 'checks', load)


if __name__ == '__main__':
    main()
