#!/usr/bin/env python3
"""Write lean/Verif/Commands/ConflictMaps.lean: which storage commands of each version refuse which others."""
import os, re
import gen_safe

LEAN = gen_safe.LEAN
PARTS = [('part', 'partition'), ('partition', 'partition'), ('raid', 'raid'), ('volgroup', 'volgroup'), ('logvol', 'logvol')]
VERS = ['RHEL6', 'F20', 'F21', 'RHEL7', 'F22', 'F23', 'F24', 'F25', 'F26', 'F27', 'F28', 'RHEL8', 'F29', 'F30', 'F31', 'F32', 'F33', 'F34']
REQ = VERS[VERS.index('F23'):] + ['RHEL7']
MNT = VERS[VERS.index('F27'):]


def main():
    maps = open(os.path.join(LEAN, 'Verif/Commands/Maps.lean')).read()
    order = re.findall(r'^  \(Version\.(\w+), commandMap(\w+)\)', maps, re.M)
    body = {}
    import glob
    for f in glob.glob(os.path.join(LEAN, 'Verif/Commands/*.lean')):
        for m in re.finditer(r'^def (\w+)\.cls( \(dc : DataCls\))? : Command :=\s+(.*)$', open(f).read(), re.M):
            body[m.group(1)] = m.group(3)
    entries = {}
    for m in re.finditer(r'^def commandMap(\w+) : .*?:= \[\n(.*?)\]\n', maps, re.M | re.S):
        entries[m.group(1)] = re.findall(r'\(c!"(\w+)", (\w+)\.cls(?: (\w+)\.cls)?\)', m.group(2))
    out = ['import Verif.Commands.Conflicts', '/-!', '# Which storage commands of each version refuse which others', '',
           'Written by `scripts/gen_conflicts.py`.', '-/', 'namespace Ks.Cmd', '']
    for v in VERS:
        l = entries[v]
        idx = {n: (i, c) for i, (n, c, d) in enumerate(l)}
        req, mnt = v in REQ, v in MNT
        rules = [(n, a, ['autopart'] + ['mount'] * mnt) for n, a in PARTS]
        rules.append(('autopart', 'autopart', ['partition', 'raid', 'volgroup', 'logvol'] + ['reqpart'] * req + ['mount'] * mnt))
        if req:
            rules.append(('reqpart', 'reqpart', ['autopart'] + ['mount'] * mnt))
        if mnt:
            rules.append(('mount', 'mount', ['autopart', 'partition', 'raid', 'volgroup', 'logvol', 'reqpart']))
        t = []
        for n, a, bs in rules:
            i, c = idx[n]
            p = re.search(r'\((\w+)\.parse ', body[c]).group(1)
            comb = 'list_rejects' if body[c].startswith('listCmd') else 'plain_rejects'
            t.append("⟨_, mem_at %d rfl, by decide +kernel, %s (List.forall_mem_nil _)%s⟩" % (
                i, ' '.join("(forall_mem_cons' (%s (%s.fails_%s _))" % (comb, p, b) for b in bs), ')' * len(bs)))
        out.append("theorem commandMap%s_refusals : ∀ x ∈ refusals %s %s, Refuses commandMap%s x.1 x.2.1 x.2.2 :=\n  %s (List.forall_mem_nil _)%s\n" % (
            v, str(req).lower(), str(mnt).lower(), v, '\n  '.join("(forall_mem_cons' " + x for x in t), ')' * len(t)))
    out.append('''/-- The versions for which the storage commands refuse each other. -/
theorem commandMaps_refusals : ∀ x ∈ commandMaps, (x.1 = Version.RHEL6 ∨ Version.F20 ≤ x.1) →
    ∀ y ∈ refusals (decide (x.1 = Version.RHEL7 ∨ Version.F23 ≤ x.1)) (decide (Version.F27 ≤ x.1)), Refuses x.2 y.1 y.2.1 y.2.2 := by
  unfold commandMaps
  exact %s (List.forall_mem_nil _)%s
''' % ('\n    '.join("(forall_mem_cons' %s" % ('(fun _ => commandMap%s_refusals)' % w if v in VERS else '(fun h => absurd h (by decide))') for v, w in order), ')' * len(order)))
    out.append('end Ks.Cmd')
    open(os.path.join(LEAN, 'Verif/Commands/ConflictMaps.lean'), 'w').write('\n'.join(out) + '\n')


if __name__ == '__main__':
    main()
