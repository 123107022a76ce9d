#!/usr/bin/env python3
"""Write lean/Verif/Commands/FixedTexts.lean: the commands whose text is one of a few, class by class."""
import os, re
from entries import entries, load
import gen_safe
from gen_readback import number

LEAN = gen_safe.LEAN
def rb(acts, opts):
    return ['# %s after installation\\n%s%s\\n' % (a.capitalize(), a, o) for a in acts for o in opts]
TEXTS = {
    'FC3_AutoStep': ['autostep\\n', 'autostep --autoscreenshot\\n'],
    'FC3_Cdrom': ['# Use CDROM installation media\\ncdrom\\n'],
    'FC3_DisplayMode': ['cmdline\\n', '# Use graphical install\\ngraphical\\n', '# Use text mode install\\ntext\\n'],
    'F20_Eula': ['# License agreement\\neula --agreed\\n'],
    'FC3_Firstboot': ['firstboot --disable\\n', '# Run the Setup Agent on first boot\\nfirstboot --enable\\n', '# Run the Setup Agent on first boot\\nfirstboot --reconfig\\n'],
    'RHEL7_Hmc': ['# Use installation media via SE/HMC\\nhmc\\n'],
    'FC3_Interactive': ['# Use interactive kickstart installation method\\ninteractive\\n'],
    'FC3_LiloCheck': ['lilocheck\\n'],
    'FC4_MediaCheck': ['mediacheck\\n'],
    'FC3_Reboot': rb(['reboot', 'shutdown'], ['']),
    'FC6_Reboot': rb(['reboot', 'shutdown'], ['', ' --eject']),
    'F18_Reboot': rb(['reboot', 'shutdown', 'halt'], ['', ' --eject']),
    'F23_Reboot': rb(['reboot', 'shutdown', 'halt'], ['', ' --eject', ' --kexec', ' --eject --kexec']),
    'FC3_SkipX': ['# Do not configure the X Window System\\nskipx\\n'],
    'RHEL6_UnsupportedHardware': ['unsupported_hardware\\n'],
    'FC3_Upgrade': ['# Upgrade existing installation\\nupgrade\\n', '# Install OS instead of upgrade\\ninstall\\n'],
    'FC3_ZeroMbr': ['# Clear the Master Boot Record\\nzerombr\\n'],
}
SAME = {'F28_Hmc': 'RHEL7_Hmc', 'F9_ZeroMbr': 'FC3_ZeroMbr'}
A = lambda k: '.tru c!"%s"' % k
EQ = lambda k, vs: ['.eq c!"%s" %s' % (k, v) for v in vs]
ATOMS = {
    'FC3_AutoStep': [A('autostep'), A('autoscreenshot')],
    'FC3_Cdrom': [A('seen')],
    'FC3_DisplayMode': EQ('displayMode', ['.none', '(.int 0)', '(.int 1)', '(.int 2)']),
    'F20_Eula': [A('agreed')],
    'FC3_Firstboot': EQ('firstboot', ['.none', '(.int 0)', '(.int 1)', '(.int 2)']),
    'RHEL7_Hmc': [A('seen')], 'F28_Hmc': [A('seen')],
    'FC3_Interactive': [A('interactive')],
    'FC3_LiloCheck': [A('check')],
    'FC4_MediaCheck': [A('mediacheck')],
    'FC3_Reboot': EQ('action', ['(.int 1)', '(.int 2)']),
    'FC6_Reboot': EQ('action', ['(.int 1)', '(.int 2)']) + [A('eject')],
    'F18_Reboot': EQ('action', ['(.int 1)', '(.int 2)', '(.int 0)', '(.int 3)']) + [A('eject')],
    'F23_Reboot': EQ('action', ['(.int 1)', '(.int 2)', '(.int 0)', '(.int 3)']) + [A('eject'), A('kexec')],
    'FC3_SkipX': [A('skipx')],
    'RHEL6_UnsupportedHardware': [A('unsupported_hardware')],
    'FC3_Upgrade': ['.eq c!"upgrade" .none', A('upgrade')],
    'FC3_ZeroMbr': [A('zerombr')], 'F9_ZeroMbr': [A('zerombr')],
}
NAMES = ['autostep', 'cdrom', 'cmdline', 'graphical', 'text', 'eula', 'firstboot', 'hmc', 'interactive', 'lilocheck', 'mediacheck', 'reboot', 'halt', 'poweroff', 'shutdown',
         'skipx', 'unsupported_hardware', 'install', 'upgrade', 'zerombr']


def main():
    src = load()
    _, plain, _, _, _ = entries()
    form = {l[1]: l[3] for l in plain}
    maps = src['Maps']
    order = re.findall(r'^  \(Version\.(\w+), commandMap(\w+)\)', maps, re.M)
    order.sort(key=lambda x: number(x[0]))
    listed = re.findall(r'^  \(Version\.(\w+), commandMap(\w+)\)', maps, re.M)
    ent = {}
    for m in re.finditer(r'^def commandMap(\w+) : .*?:= \[\n(.*?)\]\n', maps, re.M | re.S):
        if m.group(1) != 's':
            ent[m.group(1)] = {n: c for n, c, d in re.findall(r'\(c!"(\w+)", (\w+)\.cls(?: (\w+)\.cls)?\)', m.group(2))}
    texts = lambda c: TEXTS.get(SAME.get(c, c))
    rows, used = {}, []
    for n in NAMES:
        cur = None
        for v, mp in order:
            c = ent[mp].get(n)
            t = texts(c) if c else None
            if t is None:
                cur = None
                continue
            if c not in used:
                used.append(c)
            k = SAME.get(c, c)
            if cur and cur[0] == k:
                cur[1][1] = v
            else:
                cur = (k, [v, v])
                rows.setdefault((n, k), []).append(cur[1])
    by = {}
    for (n, k), rs in rows.items():
        key = (k, tuple(map(tuple, rs)))
        by.setdefault(key, []).append(n)
    spec = []
    for (k, rs), ns in by.items():
        spec.append('   { names := [%s], versions := [%s],\n     texts := %s.texts }' % (
            ', '.join('c!"%s"' % n for n in ns), ', '.join('(Version.%s, Version.%s)' % r for r in rs), k))
    out = []
    for k in TEXTS:
        out.append('/-- What `%s` writes. -/\ndef %s.texts : List Str :=\n  [[], %s]\n' % (k, k, ',\n   '.join('c!"%s"' % t for t in TEXTS[k])))
    out.append('/-- The commands whose text is always one of a few. -/\ndef fixedTexts : List FixedText :=\n  [%s]\n' % ',\n'.join(spec).lstrip())
    out.append('/-- The texts of a command in a version. -/\ndef fixedTextsOf (v : Nat) (n : Str) : Option (List Str) :=\n  (fixedTexts.find? fun x => x.names.contains n && x.versions.has v).map (·.texts)\n')
    for c in used:
        rest = form[c]
        o = rest[rest.rindex('info)') + 5:].strip()
        assert o.endswith('.render)'), (c, o)
        o = o[1:-8]
        atoms = ATOMS.get(c)
        out.append('theorem writes_%s : %s.cls.WritesAmong %s.texts :=\n  fun _ => Out.gives_sound (o := %s) (as := [%s]) (by decide +kernel) _\n' % (c, c, SAME.get(c, c), o, ', '.join(atoms or [])))
    for n in NAMES:
        items = []
        for v, mp in listed:
            c = ent[mp].get(n)
            if c is None:
                items.append('(all_cons (fun c h ts ht => by cases h)')
            elif texts(c) is None:
                items.append('(all_cons (fun c h ts ht => absurd ht (by rw [show fixedTextsOf _ _ = none from by decide +kernel]; simp))')
            else:
                items.append('(all_cons (fun c h ts ht => by rw [show fixedTextsOf _ _ = some %s.texts from by decide +kernel] at ht; cases h; cases ht; exact writes_%s)' % (SAME.get(c, c), c))
        out.append('theorem writes_%s : ∀ y ∈ commandMaps, ∀ c, y.2.lookup c!"%s" = some c → ∀ ts, fixedTextsOf y.1 c!"%s" = some ts → c.WritesAmong ts := by\n  unfold commandMaps\n  exact %s (List.forall_mem_nil _)%s\n' % (
            n, n, n, '\n    '.join(items), ')' * len(items)))
    out.append('theorem writes_all : ∀ n ∈ [%s], ∀ y ∈ commandMaps, ∀ c, y.2.lookup n = some c → ∀ ts, fixedTextsOf y.1 n = some ts → c.WritesAmong ts :=\n  %s(List.forall_mem_nil _)%s\n' % (
        ', '.join('c!"%s"' % n for n in NAMES), ''.join('all_cons writes_%s (' % n for n in NAMES), ')' * len(NAMES)))
    head = ['import Verif.Commands.FixedLogic', 'import Verif.Commands.ListLogic', 'import Verif.Commands.LineSpec', 'import Verif.Commands.Maps', '/-!', '# Commands whose text is always one of a few', '', 'Written by `scripts/gen_fixed.py`.', '-/',
            'namespace Ks.Cmd', '', 'set_option linter.unusedVariables false', '', '/-- Commands, the versions in which they write one of the texts, and the texts. -/',
            'structure FixedText where', '  names : List Str', '  versions : Versions', '  texts : List Str', '']
    open(os.path.join(LEAN, 'Verif/Commands/FixedTexts.lean'), 'w').write('\n'.join(head + out + ['end Ks.Cmd']) + '\n')
    print(len(used), len(spec))


if __name__ == '__main__':
    main()
