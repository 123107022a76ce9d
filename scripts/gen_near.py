#!/usr/bin/env python3
"""Write lean/Verif/Commands/Near1.lean and Near.lean: no `parse` function and no class in a command map uses the line
number for anything but the `lineno` of its data objects and exceptions."""
import glob, os, re
import gen_safe

LEAN = gen_safe.LEAN
MULTI = '''theorem FC6_MultiPath.findParent_rel (device mpdev : Val) (l l' : List Ns) (h : NearL l l') (x : Nat) (parent : Option Nat) :
    M.Rel Eq (FC6_MultiPath.findParent device mpdev l x parent) (FC6_MultiPath.findParent device mpdev l' x parent) := by
  induction l generalizing l' x parent with
  | nil =>
    cases l' with
    | nil => exact rel_pure rfl
    | cons _ _ => simp [NearL] at h
  | cons a t ih =>
    obtain ⟨a', t', rfl, ha, ht⟩ := nearL_cons h
    unfold FC6_MultiPath.findParent
    rw [ha.get (k := c!"paths") (by decide), ha.getD (k := c!"name") (by decide)]
    cases a'.get c!"paths" with
    | none => exact rel_bind_same same_throw fun _ => rel_bind (rel_failIf rfl) fun _ _ _ => ih _ ht _ _
    | some p => exact rel_bind_same same_pure fun _ => rel_bind (rel_failIf rfl) fun _ _ _ => ih _ ht _ _

theorem FC6_MultiPath.parse_rel (k : Info) (_hd : k.dc.Blind) (args : List Str) :
    M.Rel Near (FC6_MultiPath.parse k args) (FC6_MultiPath.parse k args) := by
  unfold FC6_MultiPath.parse
  refine rel_bind_same same_parseArgs fun ns => ?_
  extract_lets dd
  refine rel_bind_lineno fun n n' => ?_
  extract_lets d1 d1'
  have h1 : Near d1 d1' := near_set_lineno (Near.refl dd)
  refine rel_bind_lift (by rw [h1.getD (k := c!"name") (by decide)]) fun mpdev => ?_
  extract_lets d2 new d2' new'
  have h2 : Near d2 d2' := near_set h1 rfl
  refine rel_bind_dataList fun l l' hl => ?_
  rw [h2.getD (k := c!"device") (by decide)]
  refine rel_bind (FC6_MultiPath.findParent_rel _ _ _ _ hl _ _) fun parent _ e => ?_
  subst e
  have hn : new = new' := by
    show ((d2.getD c!"device").fmt, (d2.getD c!"rule").fmt) = _
    rw [h2.getD (k := c!"device") (by decide), h2.getD (k := c!"rule") (by decide)]
  rw [h2.getD (k := c!"name") (by decide), hn]
  cases parent.filter (· ≠ 0) with
  | none => exact rel_pure (Near.refl _)
  | some x =>
    refine rel_bind_unit (rel_setData (nearL_modify hl (fun d d' hd => near_set hd ?_) x)) (rel_pure h2)
    rw [hd.getD (k := c!"paths") (by decide)]
'''
STRS = '''theorem FC6_MultiPathData.cls_blind : FC6_MultiPathData.cls.Blind where
  eq _ _ _ _ _ _ := rfl
  str a a' h := by
    show FC6_MultiPathData.strText a = FC6_MultiPathData.strText a'
    unfold FC6_MultiPathData.strText
    simp (decide := true) only [h.get, h.getD]
    rw [Out.render_near h (by decide)]

theorem F33_TimesourceData.eq_near (a a' b b' : Ns) (ha : Near a a') (hb : Near b b') : F33_TimesourceData.eq a b = F33_TimesourceData.eq a' b' := by
  unfold F33_TimesourceData.eq
  rw [ha.getD (k := c!"ntp_server") (by decide), ha.getD (k := c!"ntp_pool") (by decide), sameAttrs_near (by decide) a a' b b' ha hb,
    sameAttrs_near (by decide) a a' b b' ha hb]
''' + ''.join('''
theorem %s.strText_near {args : Out} (ho : args.blind = true) {a a' : Ns} (h : Near a a') :
    %s.strText args a = %s.strText args a' := by
  unfold %s.strText
  simp (decide := true) [h.getD, Cond.eval_near h, Frag.render_near h, Out.render_near h, ho]
''' % (n, n, n, n) for n in ('FC3_RaidData', 'FC3_VolGroupData', 'F28_NvdimmData', 'F26_SnapshotData'))


def main():
    defs, cls, dcs = {}, {}, {}
    for f in sorted(glob.glob(os.path.join(LEAN, 'Verif/Commands/*.lean'))):
        if os.path.basename(f) in ('Base.lean', 'Logic.lean', 'Maps.lean', 'Safe.lean', 'Local.lean', 'LocalLogic.lean'):
            continue
        s = open(f).read()
        for m in re.finditer(r'^def (\w+)\.parse (.*?) : M (\w+) := (.*?)(?=^/--|^def|^end)', s, re.M | re.S):
            defs[m.group(1)] = (m.group(2), m.group(3), m.group(4))
        for m in re.finditer(r'^def (\w+)\.cls( \(dc : DataCls\))? : Command :=\s+(.*)$', s, re.M):
            cls[m.group(1)] = m.group(3)
        for m in re.finditer(r'^def (\w+)\.cls : DataCls := (.*)$', s, re.M):
            dcs[m.group(1)] = m.group(2)
    out1 = ['import Verif.Commands.NearLogic', 'import Verif.Commands.Maps', '/-!',
            '# What the `parse` functions do with the line number', '',
            'Written by `scripts/gen_near.py`.', '-/', 'namespace Ks.Cmd', '', MULTI]
    done = {'FC6_MultiPath'}

    def emit(n):
        if n in done:
            return
        done.add(n)
        params, ty, body = defs[n]
        callees = [c for c in dict.fromkeys(re.findall(r'\b(\w+)\.parse k args', body)) if c != n]
        for c in callees:
            emit(c)
        args = re.findall(r'\((\w+) :', params)
        unf = n + '.parse'
        if n == 'F19_Realm':
            unf += ' F19_Realm.parseArguments F19_Realm.parseJoin'
        if ty == 'Unit':
            app = ''.join('(with_reducible apply %s.parse_same) | ' % c for c in callees)
            out1.append("theorem %s.parse_same %s :\n    M.Same (%s.parse %s) := by\n  unfold %s\n  repeat' (first | %ssame_step)\n" % (
                n, params, n, ' '.join(args), unf, app))
        else:
            k = args[0]
            assert ty == 'Ns' and k.endswith('k'), (n, ty, args)
            if 'match validateInterfaceName' in body:
                out1.append(("theorem %s.parse_rel (%s : Info) (_hd : %s.dc.Blind) (%s : List Str) :\n    M.Rel Near (%s.parse %s) (%s.parse %s) := by\n"
                             "  unfold %s\n  refine rel_bind_near (%s.parse_rel _ _hd _) fun d d' h => ?_\n"
                             "  rw [h.getD (k := c!\"interfacename\") (by decide)]\n"
                             "  cases validateInterfaceName (d'.getD c!\"interfacename\").fmt <;> dsimp only <;> repeat' rel_step\n") % (
                    n, k, k, args[1], n, ' '.join(args), n, ' '.join(args), unf, callees[0]))
                return
            app = ''.join('(with_reducible apply rel_bind_near (%s.parse_rel _ _hd _); intro _ _ _) | ' % c for c in callees)
            out1.append(("theorem %s.parse_rel (%s : Info) (_hd : %s.dc.Blind) (%s : List Str) :\n    M.Rel Near (%s.parse %s) (%s.parse %s) := by\n"
                         "  unfold %s\n  dsimp -failIfUnchanged only\n  repeat' (first | %srel_step)\n") % (
                n, k, k, args[1], n, ' '.join(args), n, ' '.join(args), unf, app))

    for n in defs:
        emit(n)
    out1.append('end Ks.Cmd')
    open(os.path.join(LEAN, 'Verif/Commands/Near1.lean'), 'w').write('\n'.join(out1) + '\n')

    out = ['import Verif.Commands.Near1', '/-!',
           '# What the command classes do with the line number', '',
           'Written by `scripts/gen_near.py`.', '-/', 'namespace Ks.Cmd', '',
           '''theorem blind_cons {α : Type} {p : α → Prop} {a : α} {l : List α} (h : p a) (ht : ∀ x ∈ l, p x) : ∀ x ∈ a :: l, p x :=
  List.forall_mem_cons.2 ⟨h, ht⟩
''', STRS]
    maps = open(os.path.join(LEAN, 'Verif/Commands/Maps.lean')).read()
    order = re.findall(r'^  \(Version\.\w+, commandMap(\w+)\)', maps, re.M)
    used, entries = {}, {}
    for m in re.finditer(r'^def commandMap(\w+) : .*?:= \[\n(.*?)\]\n', maps, re.M | re.S):
        if m.group(1) == 's':
            continue
        l = re.findall(r'\(c!"(\w+)", (\w+)\.cls(?: (\w+)\.cls)?\)', m.group(2))
        entries[m.group(1)] = l
        for n, c, d in l:
            used[(c, d)] = n
    for d in dict.fromkeys(d for _, d in used if d):
        if d == 'FC6_MultiPathData':
            continue
        body = dcs[d]
        eq = re.search(r'eq := (\w+)\.eq', body)
        st = re.search(r'str := (.*?), eq', body).group(1)
        pe = 'sameAttrs_near (by decide)' if d != 'F33_TimesourceData' else 'F33_TimesourceData.eq_near'
        if 'fun _ _ => false' in body:
            pe = 'fun _ _ _ _ _ _ => rfl'
        elif not eq:
            raise SystemExit(body)
        if st.endswith('.render'):
            ps = 'fun a a\' h => Out.render_near h (by decide +kernel)'
        else:
            m = re.match(r'(\w+)\.strText (\w+)\.args', st)
            ps = 'fun a a\' h => %s.strText_near (by decide +kernel) h' % m.group(1)
        out.append('theorem %s.cls_blind : %s.cls.Blind := ⟨%s, %s⟩\n' % (d, d, pe, ps))
    for (c, d) in used:
        body = cls[c]
        e = c + '.cls' + (' ' + d + '.cls' if d else '')
        th = 'blind_' + c + ('_' + d if d else '')
        m = re.search(r'\((\w+)\.parse[ )]', body)
        if c == 'FC6_MultiPath':
            pf = 'list_blind FC6_MultiPathData.cls_blind fun args => FC6_MultiPath.parse_rel _ FC6_MultiPathData.cls_blind args'
        elif body.startswith('deprecatedCmd'):
            pf = 'deprecated_blind'
        elif body.startswith('removedCmd'):
            pf = 'removed_blind'
        elif 'M.throw .type' in body:
            pf = 'plain_blind fun _ => same_throw'
        elif c == 'F19_Realm':
            pf = 'plain_blind fun args => F19_Realm.parse_same args'
        elif body.startswith('listCmd'):
            pf = 'list_blind %s.cls_blind fun args => %s.parse_rel _ %s.cls_blind args' % (d, m.group(1), d)
        else:
            pf = 'plain_blind fun args => %s.parse_same _ args' % m.group(1)
        out.append('theorem %s : Command.Blind (%s) :=\n  %s\n' % (th, e, pf))
    for v, l in entries.items():
        out.append("theorem commandMap%s_blind : ∀ x ∈ commandMap%s, Command.Blind x.2 := by\n  unfold commandMap%s\n  exact %s (List.forall_mem_nil _)%s\n" % (
            v, v, v, '\n    '.join("(blind_cons blind_%s" % (c + ('_' + d if d else '')) for _, c, d in l), ')' * len(l)))
    out.append("theorem commandMaps_blind : ∀ y ∈ commandMaps, ∀ x ∈ y.2, Command.Blind x.2 := by\n  unfold commandMaps\n  exact %s (List.forall_mem_nil _)%s\n" % (
        ' '.join("(blind_cons commandMap%s_blind" % v for v in order), ')' * len(order)))
    out.append('end Ks.Cmd')
    open(os.path.join(LEAN, 'Verif/Commands/Near.lean'), 'w').write('\n'.join(out) + '\n')


if __name__ == '__main__':
    main()
