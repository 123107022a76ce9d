#!/usr/bin/env python3
"""Write lean/Verif/Commands/SelfBack{1,2,3}.lean: the commands of `selfSheets` read back their own text, class by class."""
import os, re, sys
from entries import entries, load
import gen_safe
from gen_readback import number

LEAN = gen_safe.LEAN
V = number
# command -> (first version, version -> variant of the sheet)
COMMANDS = {
    'autopart': ('F9', None), 'autostep': (None, None),
    'bootloader': (None, lambda v: v >= V('F15') or v == V('RHEL6')),
    'clearpart': (None, lambda v: v >= V('F17')), 'eula': (None, None),
    'harddrive': (None, lambda v: v < V('F33')), 'ignoredisk': (None, None), 'lang': ('F19', None),
    'liveimg': (None, None), 'logging': (None, lambda v: v < V('F34')),
    'monitor': (None, None), 'mouse': (None, None), 'nfs': (None, lambda v: v >= V('FC6')),
    'ostreesetup': (None, None), 'reboot': ('FC6', lambda v: v >= V('F18')), 'reqpart': (None, None),
    'rescue': (None, None), 'selinux': (None, None), 'services': (None, None),
    'timezone': (None, lambda v: v < V('F18') and v != V('RHEL7') and 'o' or V('F18') <= v < V('F23') and 'd'), 'url': (None, lambda v: v < V('F18')),
    'urlMirror': ('F18', None), 'urlMeta': ('F27', None),
    'vnc': (None, lambda v: v < V('FC6')), 'xconfig': (None, lambda v: V('FC6') <= v < V('F9')), 'zipl': (None, None)}
GROUPS = {'1': ['autopart', 'autostep', 'clearpart', 'eula', 'harddrive', 'ignoredisk', 'lang', 'liveimg', 'logging', 'monitor', 'mouse'],
          '2': ['bootloader'],
          '3': ['nfs', 'ostreesetup', 'reboot', 'reqpart', 'rescue', 'selinux', 'services', 'timezone', 'url', 'urlMirror', 'urlMeta', 'vnc', 'xconfig', 'zipl']}
NAME = {'urlMirror': 'url', 'urlMeta': 'url'}
BY = {'url': ('url', 'Url', '.tru'), 'urlMirror': ('mirrorlist', 'Mirror'), 'urlMeta': ('metalink', 'Meta')}
ON = {'AutoPart': 'apOn', 'ClearPart': '.not (.eq c!"type" .none)', 'Lang': '.tru c!"lang"', 'NFS': '.tru c!"seen"', 'Url': '.tru c!"seen"'}


def template(s):
    s = s.strip()
    return re.sub(r'\.render$', '', s[1:-1] if s.startswith('(') else s)


def main():
    data, plain, lists, pairs, used = entries()
    src = load()
    form = {l[1]: (l[2], l[3]) for l in plain}
    bodies = {}
    for mod, t in src.items():
        for m in re.finditer(r'^def (\w+)\.parse ([^\n]*):=(.*?)(?=^\S|\Z)', t, re.M | re.S):
            bodies[m[1]] = m[3]
    maps = src['Maps']
    order = re.findall(r'^  \(Version\.(\w+), commandMap\w+\)', maps, re.M)
    names = dict(re.findall(r'^  \(Version\.(\w+), commandMap(\w+)\)', maps, re.M))
    ent = {}
    for m in re.finditer(r'^def commandMap(\w+) : .*?:= \[\n(.*?)\]\n', maps, re.M | re.S):
        if m.group(1) != 's':
            ent[m.group(1)] = {n: c for n, c, d in re.findall(r'\(c!"(\w+)", (\w+)\.cls(?: (\w+)\.cls)?\)', m.group(2))}
    cls = {}
    for mod, t in src.items():
        for m in re.finditer(r'^def (\w+)\.cls( \(dc : DataCls\))? : Command :=\s+(.*)$', t, re.M):
            cls[m.group(1)] = m.group(3)
    head = ['import Verif.Commands.SelfLogic', 'import Verif.Commands.SelfSheets', 'import Verif.Commands.SelfIgnore', 'import Verif.Commands.StripTexts', 'import Verif.Commands.StageLogic', '/-!',
            '# Commands without data lists read their text back', '', 'Written by `scripts/gen_selfback.py`.', '-/',
            'namespace Ks.Cmd', '', 'set_option linter.unusedVariables false', '']
    debug = len(sys.argv) > 1
    parsed = {}

    def calls(p):
        return re.findall(r'^  (?:let \w+ ← )?(\w+)\.parse k args', bodies[p], re.M)

    def touched(p):
        b = bodies[p]
        ks = set(re.findall(r'\.set c!"(\w+)"', b)) | set(re.findall(r'M\.del c!"(\w+)"', b)) | set(sum([re.findall(r'c!"(\w+)"', x) for x in re.findall(r'\.without [^\n\[]*\[(.*?)\]', b)], []))
        if p == 'F17_AutoPart':
            ks -= {'lvm'}
        if p == 'RHEL6_IgnoreDisk':
            return set()
        for q in calls(p):
            ks |= touched(q)
        return ks

    def parse_lemma(out, p):
        if p in parsed or p == 'RHEL6_IgnoreDisk':
            return
        for q in calls(p):
            parse_lemma(out, q)
        parsed[p] = sorted(touched(p))
        hyp = same = ''
        if 'F17_AutoPart' in [p] + chain(p):
            hyp = ' (hn : k.op.never c!"lvm" = true) (hl : init.get c!"lvm" = some (.bool true))'
            same = ' hn hl' if p != 'F17_AutoPart' else ''
        skip = '[%s]' % ', '.join('c!"%s"' % k for k in parsed[p])
        out.append('theorem %s.selfed (k : Info) (init : Ns) (args : List Str) (n : Nat) (skip : List Str) (hs : ∀ k ∈ (%s : List Str), k ∈ skip)%s :\n'
                   '    M.Self n (Before init skip) (%s.parse k args) fun _ => %s := by\n  unfold %s.parse' % (
                       p, skip, hyp, p, 'Before init skip' if p == 'FC3_Reboot' else 'ParsedBy k.op init skip n args', p))
        if p == 'F17_AutoPart':
            out.append('  exact self_call (F9_AutoPart.selfed k init args n skip (by intro x hx; exact hs x (by revert x; decide))) fun _ => self_set_same hn hl\n')
            return
        for q in calls(p):
            ex = same if 'F17_AutoPart' in [q] + chain(q) else ''
            out.append('  refine self_call (%s.selfed k init args n skip (fun x hx => hs x (by revert x; decide))%s) fun _ => ?_' % (q, ex))
        if len(bodies[p].strip().split('\n')) == 2 and bodies[p].strip().startswith('do') and calls(p):
            out[-1] = out[-1].replace('refine self_call (', 'exact ').replace(') fun _ => ?_', '') + '\n'
            return
        out.append('  repeat\' (first | self_step%s)\n' % (' | extract_lets' if re.search(r'let \w+ :=', bodies[p]) else ''))

    def chain(p):
        r = []
        for q in calls(p):
            r += [q] + chain(q)
        return r

    dbg = []
    for g, cmds in GROUPS.items():
        out, done = [], {}
        parsed.clear()
        for n in cmds:
            first, var = COMMANDS[n]
            items = []
            for v in order:
                e = ent[names[v]]
                if first and V(v) < V(first):
                    items.append('(all_cons (fun c h hv hd hr => absurd hv (by decide))')
                    continue
                cmd = NAME.get(n, n)
                if cmd not in e:
                    items.append('(all_cons (fun c h hv hd hr => by cases h)')
                    continue
                c = e[cmd]
                if cls[c].startswith('deprecatedCmd'):
                    items.append('(all_cons (fun c h hv hd hr => by cases h; exact absurd ⟨_, _, rfl⟩ hd)' )
                    continue
                if cls[c].startswith('removedCmd'):
                    items.append('(all_cons (fun c h hv hd hr => by cases h; exact absurd ⟨_, _, rfl⟩ hr)')
                    continue
                init, rest = form[c]
                p = re.search(r'\((\w+)\.parse', rest)[1]
                key = (n, c, var(V(v)) if var else None)
                nm = 'selfBack_%s%s%s' % (c, '_' + n if n in NAME else '', '_t' if key[2] else '')
                if key not in done:
                    done[key] = v
                    sh = '(%sSheet Version.%s)' % (n, v)
                    i = init or c + '.init'
                    base = c.split('_')[1]
                    text = rest[rest.rindex('info)') + 5:].strip()
                    if cmd == 'url' and V(v) >= V('F18'):
                        s = re.match(r'\(?(\w+)\.str', text)[1]
                        k, b = BY[n][:2]
                        o = 'urlBy c!"%s" (%s.drop %d)' % (k, s + ('.out' if s == 'F30_Url' else '.strOut'), 3 if s == 'F18_Url' else 4)
                        hstr = 'fun d hp => %s.by%s d %s' % (s, b, ' '.join('(hp.2.2.2 _ (.%shead _))' % ('tail _ (.' * i) + ')' * i for i in range({'Url': 1, 'Mirror': 2, 'Meta': 3}[b])))
                    elif 'strText' in text:
                        s = re.match(r'\(?(\w+)\.strText', text)[1]
                        t = s + ('.T' if 'thinp' in text and s in ('F17_AutoPart', 'F18_AutoPart') else '')
                        o = '%s.out ++ [(%s, [.lit c!"\\n"])]' % (t, ON[base])
                        hstr = 'fun d hp => %s.lined.render ⟨hp.2.2.1, hp.1.present⟩' % t
                    else:
                        o, hstr = template(text), 'fun _ _ => rfl'
                    if debug:
                        dbg.append('#eval dbg "%s" %s %s.info.op %s (%s)' % (nm, sh, c, i, o))
                    else:
                        parse_lemma(out, p)
                        ex = ' (by decide +kernel) (by decide +kernel)' if 'F17_AutoPart' in [p] + chain(p) else ''
                        if p == 'RHEL6_IgnoreDisk':
                            ex = ' (by decide +kernel) (by decide +kernel) (by decide)'
                        out.append('theorem %s : %s.cls.SelfReadsBack %s (setToObj %s.info.op.defaults %s) :=\n'
                                   '  plain_readsBack (o := %s) %s (fun args n => %s.selfed _ _ args n _ (by decide)%s) (by decide) (%s) (by decide +kernel)\n' % (
                                       nm, c, sh, c, i, o, sh, p, ex, hstr))
                items.append('(all_cons (fun c h hv hd hr => by cases h; exact ⟨_, %s⟩)' % nm)
            first = 'Version.' + first if first else '0'
            out.append('theorem selfBack_%s : ∀ y ∈ commandMaps, ∀ c, y.2.lookup c!"%s" = some c → %s ≤ y.1 → ¬ Command.IsDeprecated c → ¬ Command.IsRemoved c → ∃ base, c.SelfReadsBack (%sSheet y.1) base := by\n  unfold commandMaps\n  exact %s (List.forall_mem_nil _)%s\n' % (
                n, NAME.get(n, n), first, n, '\n    '.join(items), ')' * len(items)))
        if not debug:
            open(os.path.join(LEAN, 'Verif/Commands/SelfBack%s.lean' % g), 'w').write('\n'.join(head + out + ['end Ks.Cmd']) + '\n')
    if debug:
        print('\n'.join(dbg))


if __name__ == '__main__':
    main()
