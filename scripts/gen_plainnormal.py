#!/usr/bin/env python3
"""Write lean/Verif/Commands/PlainNormal{1,2,3}.lean: commands without data lists accept the text they write, class by class."""
import os, re, sys
from entries import entries, load
import gen_safe
from gen_readback import number
from gen_selfback import COMMANDS as SELF, NAME as SNAME, BY, ON, template

LEAN = gen_safe.LEAN
V = number
K = '(by decide +kernel)'
# variant -> (command, first version, last version, sheet, variant of the sheet by version)
VARIANTS = {
    'autopart': ('autopart', 'F9', None, 'autopartSheet', None),
    'autostep': ('autostep', None, None, 'autostepSheet', None),
    'bootloader': ('bootloader', 'FC4', None, 'keepBootloaderSheet', lambda v: v >= V('F15') or v == V('RHEL6')),
    'clearpart': ('clearpart', None, 'F16', 'clearpartSheet', None),
    'eula': ('eula', None, None, 'eulaSheet', None),
    'harddrive': ('harddrive', 'F33', None, 'harddriveSheet', None),
    'ignoredisk': ('ignoredisk', None, None, 'keepIgnorediskSheet', None),
    'liveimg': ('liveimg', None, None, 'liveimgSheet', None),
    'logging': ('logging', None, None, 'loggingSheet', lambda v: v < V('F34')),
    'monitor': ('monitor', None, None, 'monitorSheet', None),
    'nfs': ('nfs', None, None, 'nfsSheet', lambda v: v >= V('FC6')),
    'reqpart': ('reqpart', None, None, 'reqpartSheet', None),
    'rescue': ('rescue', None, None, 'rescueSheet', None),
    'selinux': ('selinux', None, None, 'keepSelinuxSheet', None),
    'services': ('services', None, None, 'servicesSheet', None),
    'url': ('url', None, None, 'urlSheet', lambda v: v < V('F18')),
    'urlMirror': ('url', 'F18', None, 'urlMirrorSheet', None),
    'urlMeta': ('url', 'F27', None, 'urlMetaSheet', None),
    'xconfig': ('xconfig', None, None, 'xconfigSheet', lambda v: V('FC6') <= v < V('F9')),
    'zipl': ('zipl', None, None, 'ziplSheet', None),
}
GROUPS = {'1': ['autopart', 'autostep', 'clearpart', 'eula', 'harddrive', 'ignoredisk', 'liveimg', 'logging', 'monitor'],
          '2': ['bootloader'],
          '3': ['nfs', 'reqpart', 'rescue', 'selinux', 'services', 'url', 'urlMirror', 'urlMeta', 'xconfig', 'zipl']}
# what the runs of `parse` need to know
SAME = {'F15_Bootloader': K, 'F17_Bootloader': K, 'RHEL6_Bootloader': K, 'F10_Rescue': K + ' ' + K, 'F18_Url': K}
LOCKED = ('F15_Bootloader', 'F17_Bootloader', 'RHEL6_Bootloader')


def main():
    data, plain, lists, pairs, used = entries()
    src = load()
    form = {l[1]: (l[2], l[3]) for l in plain}
    bodies = {}
    for mod, t in src.items():
        for m in re.finditer(r'^def (\w+)\.parse ([^\n]*):=(.*?)(?=^\S|\Z)', t, re.M | re.S):
            bodies[m[1]] = m[3]
    maps = src['Maps']
    order = re.findall(r'^  \(Version\.(\w+), commandMap(\w+)\)', maps, re.M)
    ent = {}
    for m in re.finditer(r'^def commandMap(\w+) : .*?:= \[\n(.*?)\]\n', maps, re.M | re.S):
        if m.group(1) != 's':
            ent[m.group(1)] = {n: c for n, c, d in re.findall(r'\(c!"(\w+)", (\w+)\.cls(?: (\w+)\.cls)?\)', m.group(2))}
    cls = {}
    for mod, t in src.items():
        for m in re.finditer(r'^def (\w+)\.cls( \(dc : DataCls\))? : Command :=\s+(.*)$', t, re.M):
            cls[m.group(1)] = m.group(3)

    def calls(p):
        return re.findall(r'^  (?:let \w+ ← )?(\w+)\.parse k args', bodies[p], re.M)

    def chain(p):
        return sum([[q] + chain(q) for q in calls(p)], [])

    def touched(p):
        b = bodies[p]
        ks = set(re.findall(r'\.set c!"(\w+)"', b)) | set(re.findall(r'M\.del c!"(\w+)"', b)) | set(sum([re.findall(r'c!"(\w+)"', x) for x in re.findall(r'\.without [^\n\[]*\[(.*?)\]', b)], []))
        if p == 'F17_AutoPart':
            ks -= {'lvm'}
        if p == 'RHEL6_IgnoreDisk':
            return set()
        for q in calls(p):
            ks |= touched(q)
        return ks

    debug = len(sys.argv) > 1
    dbg = []
    for g, names in GROUPS.items():
        out, done = [], {}
        for n in names:
            cmd, first, last, sheet, var = VARIANTS[n]
            items, bases = [], []
            for v, mp in order:
                e = ent[mp]
                if first and V(v) < V(first):
                    items.append('(all_cons (fun c h hv hw hd hr => absurd hv (by decide))')
                    continue
                if last and V(v) > V(last):
                    items.append('(all_cons (fun c h hv hw hd hr => absurd hw (by decide))')
                    continue
                if cmd not in e:
                    items.append('(all_cons (fun c h hv hw hd hr => by cases h)')
                    continue
                c = e[cmd]
                if cls[c].startswith('deprecatedCmd'):
                    items.append('(all_cons (fun c h hv hw hd hr => by cases h; exact absurd ⟨_, _, rfl⟩ hd)')
                    continue
                if cls[c].startswith('removedCmd'):
                    items.append('(all_cons (fun c h hv hw hd hr => by cases h; exact absurd ⟨_, _, rfl⟩ hr)')
                    continue
                init, rest = form[c]
                p = re.search(r'\((\w+)\.parse', rest)[1]
                variant = var(V(v)) if var else None
                key = (n, c, variant)
                nm = 'keeps_%s%s%s' % (c, '_' + n if n in SNAME else '', '_t' if variant else '')
                i = init or c + '.init'
                base = 'setToObj %s.info.op.defaults %s' % (c, i)
                bases.append('(Version.%s, %s)' % (v, base))
                if key not in done:
                    done[key] = v
                    sh = '(%s Version.%s)' % (sheet, v)
                    text = rest[rest.rindex('info)') + 5:].strip()
                    if cmd == 'url' and V(v) >= V('F18'):
                        s = re.match(r'\(?(\w+)\.str', text)[1]
                        k, b = BY[n][:2]
                        o = 'urlBy c!"%s" (%s.drop %d)' % (k, s + ('.out' if s == 'F30_Url' else '.strOut'), 3 if s == 'F18_Url' else 4)
                        hstr = 'fun d hp => %s.by%s d %s' % (s, b, ' '.join('(hp.2.2 _ (.%shead _))' % ('tail _ (.' * i) + ')' * i for i in range({'Url': 1, 'Mirror': 2, 'Meta': 3}[b])))
                    elif 'strText' in text:
                        s = re.match(r'\(?(\w+)\.strText', text)[1]
                        t = s + ('.T' if 'thinp' in text and s in ('F17_AutoPart', 'F18_AutoPart') else '')
                        o = '%s.out ++ [(%s, [.lit c!"\\n"])]' % (t, ON[c.split('_')[1]])
                        hstr = 'fun d hp => %s.lined.render ⟨hp.2.1, hp.1⟩' % t
                    else:
                        o, hstr = template(text), 'fun _ _ => rfl'
                    if p in LOCKED:
                        o, hstr = 'unMd5 (%s)' % o, 'fun d hp => unMd5_render (hp.2.2 _ (.head _))'
                    need, fixed = '(keepNeeds c!"%s" Version.%s)' % (cmd, v), '(keepFixed c!"%s" Version.%s)' % (cmd, v)
                    if debug:
                        dbg.append('#eval dbg "%s" %s %s %s %s.info.op %s (%s)' % (nm, sh, need, fixed, c, i, o))
                    else:
                        T = '[%s]' % ', '.join('c!"%s"' % k for k in sorted(touched(p)) + ['seen'])
                        ex = ' (by decide +kernel) (by decide +kernel)' if 'F17_AutoPart' in [p] + chain(p) else ''
                        if p == 'RHEL6_IgnoreDisk':
                            ex = ' (by decide +kernel) (by decide +kernel) (by decide)'
                        same = ' ' + SAME[p] if p in SAME else ''
                        if p in LOCKED:
                            pf = 'plain_locked (o := %s) %s (fun args n => %s.unlocked _ _ args n) (fun d hL => keep_unlocked %s hL) (%s) (fun a b h => %s.same h%s) %s %s %s' % (o, sh, p, K, hstr, p, same, K, K, K)
                        else:
                            pf = 'plain_opts (o := %s) (T := %s) %s (fun args n => %s.selfed _ _ args n _ (by decide)%s) (%s) (fun a b h => %s.same h%s) (by decide) (by decide) %s %s' % (
                                o, T, sh, p, ex, hstr, p, same, K, K)
                        out.append('theorem %s : %s.cls.SelfNormal %s %s %s (%s) :=\n  %s\n' % (nm, c, sh, need, fixed, base, pf))
                items.append('(all_cons (fun c h hv hw hd hr => by cases h; exact ⟨_, rfl, %s⟩)' % nm)
            out.append('/-- The values of `%s` after a line without options. -/\ndef %sKeepBases : List (Nat × Ns) :=\n  [%s]\n' % (cmd, n, ',\n   '.join(bases)))
            out.append('theorem keeps_%s : ∀ y ∈ commandMaps, ∀ c, y.2.lookup c!"%s" = some c → %s ≤ y.1 → y.1 ≤ %s → ¬ Command.IsDeprecated c → ¬ Command.IsRemoved c →\n    ∃ base, %sKeepBases.lookup y.1 = some base ∧ c.SelfNormal (%s y.1) (keepNeeds c!"%s" y.1) (keepFixed c!"%s" y.1) base := by\n  unfold commandMaps\n  exact %s (List.forall_mem_nil _)%s\n' % (
                n, cmd, 'Version.' + first if first else '0', 'Version.' + last if last else '1000000', n, sheet, cmd, cmd, '\n    '.join(items), ')' * len(items)))
        head = ['import Verif.Commands.PlainNormalLock', 'import Verif.Commands.SelfBack%s' % g, '/-!', '# Commands without data lists accept their text, class by class', '',
                'Written by `scripts/gen_plainnormal.py`.', '-/', 'namespace Ks.Cmd', '', 'set_option linter.unusedVariables false', '']
        if not debug:
            open(os.path.join(LEAN, 'Verif/Commands/PlainNormal%s.lean' % g), 'w').write('\n'.join(head + out + ['end Ks.Cmd']) + '\n')
    if debug:
        print('\n'.join(dbg))


if __name__ == '__main__':
    main()
