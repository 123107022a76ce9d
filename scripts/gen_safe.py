#!/usr/bin/env python3
"""Write lean/Verif/Commands/Safe.lean: for every `parse` function of the command models a theorem
that says which exceptions it can raise.  Most proofs are the same few rules applied repeatedly."""
import glob, os, re

LEAN = os.path.join(os.path.dirname(os.path.abspath(__file__)), '..', 'lean')

# what a parse function needs to know about its class (and arguments)
HYP = {
    'FC6_IscsiName.parse': ['(h1 : k.op.OneFirst c!"iqn")'],
    'FC3_Lang.parse': ['(h1 : k.op.OneFirst c!"lang")'],
    'FC3_LogVol.parse': ['(h1 : k.op.OneFirst c!"mntpoint")'],
    'FC3_Partition.parse': ['(h1 : k.op.OneFirst c!"mntpoint")'],
    'FC3_Raid.parse': ['(h1 : k.op.OneFirst c!"mntpoint")', '(h2 : k.op.ReqStr c!"device")', '(h3 : ∀ s n e, k.getDevice (.str s) = .error e → E n e)'],
    'F22_SshKey.parse': ['(h1 : k.op.OneFirst c!"sshkey")'],
    'FC3_Timezone.parse': ['(h1 : k.op.OneFirst c!"timezone")'],
    'F28_Nvdimm.parse': ['(h1 : k.op.OneFirst c!"action")'],
    'F27_Mount.parse': ['(h1 : k.op.OneFirst c!"device")', '(h2 : k.op.OnePos c!"mntpoint")', '(h3 : c!"--" ∈ args → ∀ n, E n .index)'],
    'FC3_Keyboard.parse': ['(h1 : k.op.StarPos c!"kbd")'],
    'F18_Keyboard.parse': ['(h1 : k.op.StarPos c!"kbd")'],
    'RHEL7_Timezone.parse': ['(h1 : k.op.StarPos c!"timezone")'],
    'F25_Timezone.parse': ['(h1 : k.op.StarPos c!"timezone")'],
    'F7_Updates.parse': ['(h1 : k.op.StarPos c!"updates")'],
    'FC3_VolGroup.parse': ['(h1 : k.op.StarPos c!"name")'],
    'FC6_DmRaid.parse': ['(h1 : k.op.StrDest c!"name")', '(h2 : (k.dc.init.getD c!"name").isStr = true)'],
}
ERR = {'F28_Nvdimm.parse': "ParseErr'", 'FC3_Raid.parse': 'E', 'F27_Mount.parse': 'E'}
# functions treated by hand in SafeProps.lean
SKIP = {'FC6_MultiPath.parse', 'F19_Realm.parse', 'FC6_Vnc.parse', 'F9_Vnc.parse'}
EXTRA = {
    'FC3_Raid.parse': '(with_reducible apply good_liftE; (intro n e he; obtain ⟨s, hs⟩ := raid_device h2 (by assumption) _ _ _ _ _; rw [hs] at he; exact h3 s n e he)) | ',
    'F27_Mount.parse': '(with_reducible apply good_liftE; exact mount_index h2 (by assumption) h3) | ',
    'FC3_VolGroup.parse': '(with_reducible apply good_liftT; exact index_of_truthy (vg_name _ _ _ _ _ _ _ _ (OptParser.StarPos.get h1 (by assumption))) (by assumption)) | ',
}
CLOSE = {
    'FC6_DmRaid.parse': """  rename_i ns hns
  have h : ((setToObj ns k.dc.init).getD c!"name").isStr = true := by
    obtain ⟨l, hl⟩ := hns
    have hs := h1.getArgs ⟨l, hl⟩
    unfold Ns.getD at hs h2 ⊢
    rw [C16_set_to_obj ns k.dc.init (C16_namespace_keys _ _ _ _ hl)]
    cases hg : ns.get c!"name" with
    | none => exact h2
    | some v =>
      rw [hg] at hs
      rcases hs with hs | hs
      · have hs : v = .none := hs
        subst hs; exact h2
      · cases v with
        | str s => rfl
        | none => exact h2
        | _ => cases hs
  exact (Val.StrOrNone.split_ok h _).1.last (Val.StrOrNone.split_ok h _).2
""",
    'FC3_Raid.parse': """  all_goals
    have h := OptParser.OneFirst.get h1 (by assumption)
    first
    | (simp only [Ns.getD_set]; exact decide_eq_true h.len)
    | (simp only [Ns.getD_set]; exact h.index)
""",
}


def main():
    defs = {}
    for f in sorted(glob.glob(os.path.join(LEAN, 'Verif/Commands/*.lean'))):
        if os.path.basename(f) in ('Base.lean', 'Logic.lean', 'Maps.lean', 'Safe.lean'):
            continue
        s = open(f).read()
        for m in re.finditer(r'^def (\w+\.parse) (.*?) : M (\w+) := (.*?)(?=^/--|^def|^end)', s, re.M | re.S):
            defs[m.group(1)] = (m.group(2), m.group(4))
    out = ['import Verif.Commands.Logic', 'import Verif.Commands.Maps', '/-!',
           '# Which exceptions the `parse` methods raise', '',
           'Written by `scripts/gen_safe.py`.', '-/',
           'set_option linter.unusedTactic false', 'set_option linter.unreachableTactic false', 'namespace Ks.Cmd', '']
    done, hyps = set(), {}

    def emit(n):
        if n in done or n in SKIP:
            return
        done.add(n)
        params, body = defs[n]
        callees = [c for c in dict.fromkeys(re.findall(r'\b(\w+\.parse) k args', body)) if c != n]
        for c in callees:
            emit(c)
        hy = list(HYP.get(n, []))
        for c in callees:
            for x in hyps.get(c, []):
                if x not in hy:
                    hy.append(x)
        hyps[n] = hy
        for c in callees:
            if c in ERR:
                ERR[n] = ERR[c]
        err = ERR.get(n, 'ParseErr')
        if err == 'E':
            params = '{E : Nat → Exc → Prop} [ErrSet E] ' + params
        args = ' '.join(re.findall(r'\((\w+) :', defs[n][0]))
        app = ''.join('(with_reducible apply %s_good <;> assumption) | ' % c for c in callees)
        app += EXTRA.get(n, '')
        out.append('theorem %s_good %s%s :\n    M.Good %s (%s %s) fun _ => True := by\n  unfold %s\n  repeat\' (first | %sgood_step | good_fact)\n%s' % (
            n, params, ''.join(' ' + x for x in hy), err, n, args, n, app, CLOSE.get(n, '')))

    for n in defs:
        emit(n)
    out.append('end Ks.Cmd')
    open(os.path.join(LEAN, 'Verif/Commands/Safe.lean'), 'w').write('\n'.join(out) + '\n')


if __name__ == '__main__':
    main()
