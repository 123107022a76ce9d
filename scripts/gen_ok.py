#!/usr/bin/env python3
"""Write lean/Verif/Commands/Classes.lean (for every class in a command map: which exceptions it raises)
and lean/Verif/Commands/MapsOk.lean (the same for every command map)."""
import glob, os, re
import gen_safe

LEAN = gen_safe.LEAN


def lits(l):
    return '[%s]' % ', '.join('c!"%s"' % x for x in l)


def read_hyps():
    """The hypotheses of the theorems in Safe.lean."""
    s = open(os.path.join(LEAN, 'Verif/Commands/Safe.lean')).read()
    res = {}
    for m in re.finditer(r'^theorem (\w+)\.parse_good (.*?) :\n    M\.Good (\S+) ', s, re.M):
        res[m.group(1)] = (re.findall(r'\((h\d) : (.*?)\)(?= \(h|$)', m.group(2)), m.group(3))
    return res


def main():
    hyps = read_hyps()
    cls = {}
    for f in sorted(glob.glob(os.path.join(LEAN, 'Verif/Commands/*.lean'))):
        s = open(f).read()
        for m in re.finditer(r'^def (\w+)\.cls( \(dc : DataCls\))? : Command :=\s+(.*)$', s, re.M):
            cls[m.group(1)] = m.group(3)
    maps = open(os.path.join(LEAN, 'Verif/Commands/Maps.lean')).read()
    used, entries = {}, {}
    order = re.findall(r'^  \(Version\.\w+, commandMap(\w+)\)', maps, re.M)
    for m in re.finditer(r'^def commandMap(\w+) : .*?:= \[\n(.*?)\]\n', maps, re.M | re.S):
        if m.group(1) == 's':
            continue
        l = re.findall(r'\(c!"(\w+)", (\w+)\.cls(?: (\w+)\.cls)?\)', m.group(2))
        assert len(l) == m.group(2).count('c!"'), m.group(1)
        entries[m.group(1)] = l
        for n, c, d in l:
            used[(c, d)] = n
    head = ['/-!', '', 'Written by `scripts/gen_ok.py`.', '-/', 'namespace Ks.Cmd', '']
    out = ['import Verif.Commands.Ok', '/-!', '# Which exceptions each command class raises'] + head[1:]
    kind = {}
    for (c, d) in used:
        body = cls[c]
        e = c + '.cls' + (' ' + d + '.cls' if d else '')
        th = 'ok_' + c + ('_' + d if d else '')
        inv, err = 'anyNs', 'fun _ => ParseErr'
        m = re.search(r'\((\w+)\.parse (?:\((\w+)\.info dc\)|(\w+)\.info)\)', body)
        if body.startswith('deprecatedCmd'):
            pf = 'deprecated_ok'
        elif body.startswith('removedCmd'):
            pf = 'removed_ok'
        elif 'M.throw .type' in body:
            pf, err = 'method_ok', 'fun _ => ParseErrOr (· = .type)'
        elif c == 'F19_Realm':
            pf, err = 'F19_Realm.ok', 'fun _ => ParseErrOr fun e => ∃ s, e = .shlex s'
        elif c == 'FC6_MultiPath':
            pf, err = 'FC6_MultiPath.ok _', 'fun _ => ParseErrOr (· = .attribute)'
        elif m and m.group(1) in ('FC6_Vnc',):
            pf, inv = 'vnc_ok (by decide +kernel) (Or.inl rfl)', 'vncInv'
        else:
            p, k = m.group(1), (m.group(2) or m.group(3))
            info = '(%s.info %s.cls)' % (k, d) if m.group(2) else k + '.info'
            hs, E = hyps[p]
            args = []
            for name, st in hs:
                if 'getDevice' in st:
                    if re.search(r'getDevice := FC3', open(os.path.join(LEAN, 'Verif/Commands/Raid.lean')).read().split('def %s.info' % k)[1].split('\n')[0]):
                        args.append('FC3_Raid.device_err')
                        E = 'raid'
                    else:
                        args.append('(fun _ _ _ h => by cases h)')
                        E = 'ParseErr'
                elif '"--"' in st:
                    args.append('(fun h _ => .inr ⟨h, rfl⟩)')
                else:
                    args.append('(by decide +kernel)')
            comb = 'list_ok' if body.startswith('listCmd') else 'plain_ok'
            pf = '%s fun args => %s.parse_good %s args %s' % (comb, p, info, ' '.join(args))
            if E == "ParseErr'":
                err = "fun _ => ParseErr'"
            elif E == 'raid':
                err = 'fun _ => ParseErrOr (· = .value)'
            elif E == 'E':
                assert 'Mount' in p
                err = 'fun args => ParseErrOr fun e => c!"--" ∈ args ∧ e = .index'
        kind[(c, d)] = err
        out.append('theorem %s : Command.Ok (%s) %s (%s) :=\n  %s\n' % (th, e, inv, err, pf))
    out.append('end Ks.Cmd')
    open(os.path.join(LEAN, 'Verif/Commands/Classes.lean'), 'w').write('\n'.join(out) + '\n')

    out = ['import Verif.Commands.Classes', '/-!', '# Which exceptions the commands of each version raise'] + head[1:]
    for v, l in entries.items():
        t = []
        for n, c, d in l:
            th = 'ok_' + c + ('_' + d if d else '')
            err = kind[(c, d)]
            if err == 'fun _ => ParseErr':
                pf = 'allow_parse ' + th
            elif '.value' in err:
                pf = 'allow_raid (by decide) ' + th
            elif '.type' in err:
                pf = 'allow_method (by decide) ' + th
            elif 'shlex' in err:
                pf = 'allow_realm ' + th
            elif '.attribute' in err:
                pf = 'allow_multipath (by decide) ' + th
            elif '"--"' in err:
                pf = 'allow_mount ' + th
            else:
                pf = 'allow_nvdimm ' + th
            t.append('⟨_, %s⟩' % pf)
        out.append('theorem commandMap%s_ok : ∀ x ∈ commandMap%s, ∃ I, x.2.Ok I (Allowed Version.%s x.1) := by\n  unfold commandMap%s\n  simp only [List.forall_mem_cons]\n  exact ⟨%s,\n    List.forall_mem_nil _⟩\n' % (
            v, v, v, v, ',\n    '.join(t)))
        cs = list(dict.fromkeys((c, d) for _, c, d in l))
        out.append('def classes%s : List Command := [%s]\n' % (v, ', '.join(c + '.cls' + (' ' + d + '.cls' if d else '') for c, d in cs)))
        out.append('theorem commandMap%s_mapOk : MapOk Version.%s commandMap%s where\n  dict := nodup_codes (by decide +kernel)\n  classes := ⟨classes%s, %s, %s, rfl, by decide +kernel, nodup_codes (by decide +kernel), nodup_codes (by decide +kernel), by\n    unfold commandMap%s\n    exact %s (List.forall_mem_nil _)%s⟩\n  storage := by decide +kernel\n  ok := commandMap%s_ok\n' % (
            v, v, v, v, lits(c for c, d in cs), lits(c.split('_', 1)[1].lower() for c, d in cs), v, ' '.join("(forall_mem_cons' (mem_at %d rfl)" % cs.index((c, d)) for _, c, d in l), ')' * len(l), v))
    out.append('theorem commandMaps_ok : ∀ x ∈ commandMaps, MapOk x.1 x.2 := by\n  unfold commandMaps\n  exact %s (List.forall_mem_nil _)%s\n' % (
        ' '.join("(forall_mem_cons' commandMap%s_mapOk" % v for v in order), ')' * len(order)))
    out.append('end Ks.Cmd')
    open(os.path.join(LEAN, 'Verif/Commands/MapsOk.lean'), 'w').write('\n'.join(out) + '\n')
    print(len(used), 'classes', len(entries), 'maps')


if __name__ == '__main__':
    main()
