#!/usr/bin/env python3
"""Write lean/Verif/Commands/LineTable*.lean (what the first lines of the commands do, from lines.json) and
lean/Verif/Commands/Lines*.lean (the classes of the command maps do this)."""
import os, re, json, sys
from draft_lines import classes, LEAN
import gen_ownrules

HERE = os.path.dirname(os.path.abspath(__file__))
d = os.path.join(LEAN, 'Verif/Commands')
# the name of the command matters
NAMED = {'cmdline', 'graphical', 'text', 'install', 'upgrade', 'bootloader', 'lilo', 'halt', 'poweroff', 'reboot', 'shutdown'}
ALIAS = {'partition': 'part'}
# options whose value is looked at
LIT = json.load(open(os.path.join(HERE, 'lines_literal.json')))
PARTS = 8
# commands with many classes: an option is checked where it appears or changes, and in the last version
HEAVY = {'network', 'part', 'partition', 'logvol', 'bootloader', 'autopart', 'repo', 'raid'}


def kept(cmd, es, a):
    """The classes for which a row is written: refused lines only next to a version that accepts them."""
    cl = {v: e for e in es for v in e['vs']}
    vs = sorted(cl)
    out = set()
    for i, v in enumerate(vs):
        x = cl[v]['rows'][a]
        near = [vs[j] for j in (i - 1, i + 1) if 0 <= j < len(vs)]
        if x == 'REFUSED':
            if any(cl[w]['rows'][a] != 'REFUSED' for w in near) or all(cl[w]['rows'][a] == 'REFUSED' for w in vs):
                out.add(cl[v]['cls'])
        elif cmd not in HEAVY or i == 0 or cl[vs[i - 1]]['rows'][a] != x or i == len(vs) - 1:
            out.add(cl[v]['cls'])
    return out


def ident(cmd, bi):
    p = re.sub(r'_(\w)', lambda m: m.group(1).upper(), cmd)
    return p + 'Lines' + (str(bi + 1) if bi else '')


def words(l):
    return '[' + ', '.join('c!"%s"' % w for w in l.split()) + ']'


def main():
    data = json.load(open(os.path.join(HERE, 'lines.json')))
    kinds = {(a, b): x for a, b, x in data['kinds']}
    # the data list of multipath is not only appended to (C58)
    meta = [e for e in data['meta'].values() if e['cmd'] != 'multipath']
    cls, order, entries = classes()
    ver = gen_ownrules.versions()
    names = {}
    for k, x in ver.items():
        names.setdefault(x, k)
    maps = {ver[a]: entries[m] for a, m in order}
    vnums = sorted(maps)

    def usesLooks(c, seen=None):
        return 'usedCmd' in parseText(c, set())

    bodies = {}
    for f in sorted(os.listdir(d)):
        s = open(os.path.join(d, f)).read()
        for m in re.finditer(r'^def (\w+)\.parse .*?(?=^/--|^end )', s, re.M | re.S):
            bodies[m.group(1)] = m.group(0)

    def parseText(p, seen):
        if p in seen or p not in bodies:
            return ''
        seen.add(p)
        t = bodies[p]
        for q in re.findall(r'(\w+)\.parse', t):
            t += parseText(q, seen)
        return t

    def ranges(cmd, vs):
        cand = vnums
        out, cur = [], None
        for v in cand:
            if v in vs:
                cur = [v, v] if cur is None else [cur[0], v]
            elif cur:
                out.append(cur); cur = None
        if cur:
            out.append(cur)
        return '[' + ', '.join('(%s, %s)' % (names[a], names[b]) for a, b in out) + ']'

    keys = []
    for e in meta:
        k = (e['cmd'], e['bi'])
        if k not in keys and any(x.get('ok') for x in meta if (x['cmd'], x['bi']) == k):
            keys.append(k)
    keys.sort()
    table, proofs, tops = [], [], []
    nrows = nchecks = 0
    for cmd, bi in keys:
        es = [e for e in meta if (e['cmd'], e['bi']) == (cmd, bi) and e.get('ok')]
        base = es[0]['base']
        idn = ident(cmd, bi)
        # start
        starts = []
        for e in es:
            if e['kind'] == 'P':
                s = e['bsets']
            else:
                ps = re.findall(r'\(c!"(\w+)", (\.(?:str c!"[^"]*"|int -?\d+|bool \w+|none|list \[[^\]]*\]|pairs \[[^\]]*\]))\)', e['d'])
                s = '[' + ', '.join('(c!"%s", %s)' % p for p in ps if p[0] != 'lineno' and p[1] not in ('.none', '.str c!""', '.bool false', '.int 0', '.list []')) + ']'
            for x in starts:
                if x[0] == s:
                    x[1].extend(e['vs']); break
            else:
                starts.append([s, list(e['vs'])])
            e['start'] = [i for i, x in enumerate(starts) if x[0] == s]
        rows = []
        for a in es[0]['lines']:
            groups = []
            keep = kept(cmd, es, a)
            for e in es:
                if e['cls'] not in keep:
                    continue
                s = e['rows'][a]
                for x in groups:
                    if x[0] == s:
                        x[1].extend(e['vs']); x[2].append(e); break
                else:
                    groups.append([s, list(e['vs']), [e]])
            kind = kinds.get((cmd, a), 'lit')
            sym = a.endswith('=QX') and kind in ('str', 'comma') and a not in LIT.get(cmd, []) and ' ' not in a
            for s, vs, ee in groups:
                rg = ranges(cmd, vs)
                opt = a[:-3] if sym else None
                if s == 'REFUSED':
                    t = 'wrong %s %s' % (rg, words(a))
                else:
                    one = re.fullmatch(r'\[\(c!"(\w+)", (.*)\)\]', s)
                    one = one if one and s.count('(c!') == 1 else None
                    if sym:
                        if one and one.group(2) == '.str c!"QX"':
                            t = 'text %s c!"%s" c!"%s"' % (rg, opt, one.group(1))
                        elif one and one.group(2) == '.list [c!"QX"]' and kind == 'comma':
                            t = 'items %s c!"%s" c!"%s"' % (rg, opt, one.group(1))
                        else:
                            t = '⟨%s, fun x => [c!"%s=" ++ x], some fun x => %s⟩' % (rg, opt, s.replace('c!"QX"', 'x') if kind == 'str' else s.replace('[c!"QX"]', '(commaSplit x)'))
                    elif one and a.startswith('--') and '=' not in a and ' ' not in a:
                        t = 'flag %s c!"%s" c!"%s" (%s)' % (rg, a, one.group(1), one.group(2))
                    else:
                        t = 'fixed %s %s %s' % (rg, words(a), s)
                for e in ee:
                    e.setdefault('idx', []).append((len(rows), sym))
                rows.append(t)
        alias = ALIAS.get(cmd)
        if alias:
            table.append(('', 'def %s : CommandLines := { %s with cmd := c!"%s" }\n' % (idn, ident(alias, bi), cmd)))
        else:
            nrows += len(rows)
            table.append((cmd, '/-- `%s %s` -/\ndef %s : CommandLines where\n  cmd := c!"%s"\n  base := %s\n  start := [%s]\n  lines := [%s]\n' % (
                cmd, base, idn, cmd, words(base), ',\n    '.join('(%s, %s)' % (ranges(cmd, vs), s) for s, vs in starts), ('\n    ' + ',\n    '.join(rows)) if rows else '')))
        # classes
        top, byv = [], {}
        for j, e in enumerate(es):
            src = ident(alias, bi) if alias else idn
            thm = 'obeys_%s_%d' % (idn, j)
            cn = e['cls'].split('.cls')[0]
            C = '(%s)' % e['cls']
            if not alias:
                nchecks += len(e.get('idx', []))
                look = usesLooks(re.search(r'\((\w+)\.parse[ )]', cls[cn]).group(1))
                nm = 'c!"%s"' % cmd if cmd in NAMED else 'n'
                pre = 'rcases hb with rfl | rfl <;> rcases hb\' with rfl | rfl' if look else 'skip'
                D = re.sub(r'\(c!"lineno", \.int 7\)', '(c!"lineno", .int l)', e['d'])
                lv = 'l' if '.int l)' in D else '_'
                body = ['def %s_object (%s : Nat) : Ns := %s\n' % (thm, lv, D)]
                q = '' if cmd in NAMED else '(n : Str) '
                body.append('theorem %s_base %s: Command.FirstBase %s %s %s %s_object := by\n  intro b b\' hb hb\' line l; %s%s' % (
                    thm, q, C, nm, words(base), thm, pre.replace('skip', ''), (' <;> ' if look else '') + 'kernel_rfl\n'))
                st = e['start'][0]
                if e['kind'] == 'P':
                    pf = '.inr ⟨fun _ => rfl, by kernel_rfl⟩'
                else:
                    k = starts[st][0].count('(c!"') - starts[st][0].count('.pairs [(c!')
                    ps = re.findall(r'\(c!"(\w+)", (\.(?:str c!"[^"]*"|int -?\d+|bool \w+|none|list \[[^\]]*\]|pairs \[[^\]]*\]))\)', starts[st][0])
                    pf = '.inl ⟨fun _ => rfl, %s(List.forall_mem_nil _)%s⟩' % ('(all_cons (by kernel_rfl) ' * len(ps), ')' * len(ps))
                body.append('theorem %s_start : Command.FirstStart %s %s_object (%s.start.getD %d ([], [])).2 := fun _ => %s\n' % (thm, C, thm, src, st, pf))
                one = lambda sym: 'intro b b\' hb hb\' x hx line l; ' + ('(cases x with | nil => exact absurd rfl hx | cons a x => %skernel_rfl)' % ((pre + ' <;> ') if look else '') if sym else (pre + ' <;> ' if look else '') + 'kernel_rfl')
                idx = e.get('idx', [])
                body.append('theorem %s_lines %s: ∀ i ∈ [%s], Command.FirstLine %s %s %s %s_object (%s.lines.getD i noLine) :=\n  %s(List.forall_mem_nil _)%s\n' % (
                    thm, q, ', '.join(str(i) for i, _ in idx), C, nm, words(base), thm, src,
                    ''.join('(all_cons (by %s)\n    ' % one(s) for _, s in idx), ')' * len(idx)))
                e['thm'] = thm
                e['isx'] = [i for i, _ in idx]
            else:
                o = [x for x in meta if x['cmd'] == alias and x['bi'] == bi and x['cls'] == e['cls']][0]
                body = []
                e['thm'] = o['thm']; e['isx'] = o['isx']; e['start'] = o['start']
            qn = '' if cmd in NAMED else ' _'
            body.append('theorem %s : ∀ v, [%s].contains v = true → Command.Obeys %s %s v :=\n  obeys_of %s_object [%d] [%s] (%s_base%s) (all_cons %s_start (List.forall_mem_nil _)) (%s_lines%s) (by decide +kernel)\n' % (
                thm, ', '.join('Version.' + names[v] for v in sorted(e['vs'])), C, idn, e['thm'], e['start'][0], ', '.join(map(str, e['isx'])), e['thm'], qn, e['thm'], e['thm'], qn))
            proofs.append((cmd, '\n'.join(body), len(e.get('idx', [])) if not alias else 0))
            for v in e['vs']:
                byv[v] = thm
        items = []
        for a, m in order:
            v = ver[a]
            if v in byv:
                items.append('fun _ c h => by cases h; exact %s _ rfl' % byv[v])
            else:
                items.append('fun hv => absurd hv (by decide)')
        proofs.append((cmd, 'theorem obeys_%s : %s.Obeyed := by\n  unfold CommandLines.Obeyed commandMaps\n  exact %s (List.forall_mem_nil _)%s\n' % (
            idn, idn, '\n    '.join('(all_cons (%s)' % x for x in items), ')' * len(items)), 4))
        tops.append(idn)
    table = [(a, re.sub(r'\.int (-\d+)', r'.int (\1)', t)) for a, t in table]
    proofs = [(a, re.sub(r'\.int (-\d+)', r'.int (\1)', t), w) for a, t, w in proofs]
    # table
    out = ['import Verif.Commands.LineSpec', 'import Verif.Version', '/-!', '# What the first lines of the commands do', '',
           'The lines of every command that keeps settings, in the versions in which it is neither deprecated nor removed.',
           'Written by `scripts/gen_lines.py` from `scripts/lines.json`.', '-/', 'namespace Ks', '', 'open Version', '']
    out += [t for _, t in table]
    out.append('/-- All lines. -/\ndef commandLines : List CommandLines := [%s]\n' % ',\n  '.join(tops))
    out.append('end Ks')
    open(os.path.join(d, 'LineTable.lean'), 'w').write('\n'.join(out) + '\n')
    # proofs
    groups, tot = {}, {}
    for cmd, t, w in proofs:
        groups.setdefault(ALIAS.get(cmd, cmd), []).append(t)
        tot[ALIAS.get(cmd, cmd)] = tot.get(ALIAS.get(cmd, cmd), 0) + w + 3
    bins = [[0, []] for _ in range(PARTS)]
    for c in sorted(groups, key=lambda c: -tot[c]):
        b = min(bins, key=lambda b: b[0])
        b[0] += tot[c]; b[1].append(c)
    for i, b in enumerate(bins):
        o = ['import Verif.Commands.LineLogic', 'import Verif.Commands.LineTable', '/-!', '# The classes of the command maps do what the table of first lines says', '',
             'Written by `scripts/gen_lines.py`.', '-/', 'namespace Ks.Cmd', '', 'set_option linter.unusedVariables false', '']
        for c in sorted(b[1]):
            o += groups[c]
        o.append('end Ks.Cmd')
        open(os.path.join(d, 'FirstLines%d.lean' % (i + 1)), 'w').write('\n'.join(o) + '\n')
    o = ['import Verif.Commands.FirstLines%d' % (i + 1) for i in range(PARTS)]
    o += ['/-!', '# All lines of the table', '', 'Written by `scripts/gen_lines.py`.', '-/', 'namespace Ks', '', 'open Cmd', '',
          'theorem commandLines_obeyed : ∀ e ∈ commandLines, e.Obeyed :=\n  %s(List.forall_mem_nil _)%s\n' % (''.join('(all_cons obeys_%s ' % t for t in tops), ')' * len(tops)), 'end Ks']
    open(os.path.join(d, 'FirstLines.lean'), 'w').write('\n'.join(o) + '\n')
    print(len(tops), 'entries', nrows, 'rows', nchecks, 'checks', [b[0] for b in bins])


if __name__ == '__main__':
    main()
