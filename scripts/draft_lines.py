#!/usr/bin/env python3
"""Print, for every class of the command maps and every option, what a first line with the option does
(a draft for the tables of `LineSpec`)."""
import os, re, sys, subprocess
import gen_safe
LEAN = gen_safe.LEAN
d = os.path.join(LEAN, 'Verif/Commands')

BASE = {
 'part': '/x --size=1', 'partition': '/x --size=1', 'logvol': '/x --name=n --vgname=g --size=1', 'volgroup': 'g pv.1', 'raid': '/x --device=1 --level=RAID1 raid.1 raid.2', 'btrfs': '/x a',
 'repo': '--name=r --baseurl=b', 'user': '--name=u', 'group': '--name=g', 'sshkey': '--username=u k', 'sshpw': '--username=u p', 'iscsi': '--ipaddr=i',
 'fcoe': '--nic=n', 'zfcp': '--devnum=d --wwpn=w --fcplun=f', 'nvdimm': 'use --namespace=n', 'mount': 'a /x', 'snapshot': 'a/b --name=s --when=pre-install', 'driverdisk': 'd',
 'device': 'e100', 'module': '--name=m', 'dasd': '', 'network': '', 'multipath': '--name=n --device=d --rule=r', 'dmraid': '--name=n --dev=d', 'realm': 'join h',
 'timezone': 'T', 'lang': 'L', 'keyboard': 'K', 'rootpw': 'P', 'url': '--url=U', 'nfs': '--server=s --dir=d', 'harddrive': '--dir=d --partition=p', 'liveimg': '--url=u',
 'ostreesetup': '--osname=o --url=http://u --ref=r', 'services': '', 'iscsiname': 'I', 'key': 'K', 'updates': '', 'rhsm': '--organization=o --activation-key=k', 'timesource': '',
 'hmc': '', 'method': '', 'bootloader': '', 'langsupport': '', 'mouse': '', 'eula': '--agreed', 'autopart': '', 'snapshot': 'a/b --name=s --when=post-install',
}


def classes():
    cls = {}
    for f in sorted(os.listdir(d)):
        s = open(os.path.join(d, f)).read()
        for m in re.finditer(r'^def (\w+)\.cls( \(dc : DataCls\))? : Command :=\s+(.*)$', s, re.M):
            cls[m.group(1)] = m.group(3)
    maps = open(os.path.join(d, 'Maps.lean')).read()
    order = re.findall(r'^  \(Version\.(\w+), commandMap(\w+)\)', maps, re.M)
    entries = {}
    for m in re.finditer(r'^def commandMap(\w+) : .*?:= \[\n(.*?)\]\n', maps, re.M | re.S):
        if m.group(1) != 's':
            entries[m.group(1)] = dict(re.findall(r'\(c!"(\w+)", (\w+\.cls(?: [^)\n]*)?)\)', m.group(2)))
    return cls, order, entries


if __name__ == '__main__':
    cls, order, entries = classes()
    only = sys.argv[1:]
    done = {}
    for vname, m in order:
        for n, c in entries[m].items():
            done.setdefault((n, c), []).append(vname)
    out = ['import Verif.Commands.Maps', 'open Ks Ks.Cmd', '''
def showS (s : Str) : String := "\\"" ++ String.ofList s ++ "\\""
def showV : Val → String
  | .none => ".none" | .bool b => s!".bool {b}" | .int n => s!".int {n}" | .str s => s!".str c!" ++ showS s
  | .list l => ".list [" ++ ", ".intercalate (l.map fun s => "c!" ++ showS s) ++ "]"
  | .pairs l => ".pairs [" ++ ", ".intercalate (l.map fun s => s!"(c!{showS s.1}, c!{showS s.2})") ++ "]"
def showNs (n : Ns) : String := "[" ++ ", ".intercalate (n.map fun x => s!"(c!{showS x.1}, {showV x.2})") ++ "]"
def diff (a b : Ns) : Ns := a.filter fun x => b.get x.1 ≠ some x.2
def cands (k : Str) (a : Action) : List (List Str) :=
  if a.nargs = .n 0 then [[k]] else
  match a.choices with
  | some l => l.map fun c => [k ++ c!"=" ++ c]
  | none => match a.ty with
    | .int => [[k ++ c!"=42"]]
    | .bool => [[k ++ c!"=yes"], [k ++ c!"=off"]]
    | .mount => [[k ++ c!"=/QX"]]
    | .table _ t => t.map fun x => [k ++ c!"=" ++ x.1]
    | .team => [[k ++ c!"=QX"]]
    | .port => [[k ++ c!"=QX:tcp"]]
    | _ => [[k ++ c!"=QX"]]
def run (c : Command) (n : Str) (args : List Str) : Sum String (Ns × Option Ns) :=
  let i : Inst CState := { currentCmd := n, lineno := 7, seen := true, attrs := c.init }
  match c.parse (fun _ => some false) args i with
  | (_, .error _) => .inl "ERR"
  | (j, .ok x) => .inr (diff j.attrs.attrs c.init.attrs, x)
def showR (c : Command) (n : Str) (base : List Str) (args : List Str) : String :=
  match run c n (base ++ args), run c n base with
  | .inr (a, some x), .inr (_, some y) => "L " ++ showNs (diff x y)
  | .inr (a, some x), _ => "B " ++ showNs x
  | .inr (a, none), _ => "P " ++ showNs a
  | .inl e, _ => e
def drafts (c : Command) (id : String) (n : Str) (base : List Str) (op : OptParser) : IO Unit := do
  IO.println s!"{id}\\t\\t{match run c n base with | .inr (a, none) => "P " ++ showNs a | .inr (_, some x) => "B " ++ showNs x | .inl e => e}"
  for (k, a) in op.strings do
    for args in cands k a do
      IO.println s!"{id}\\t{" ".intercalate (args.map String.ofList)}\\t{showR c n base args}\\t{if a.ty = .str then "str" else if a.ty = .comma then "comma" else "lit"}"
''']
    for (n, c), vs in done.items():
        cn = c.split('.cls')[0]
        body = cls[cn]
        if only and n not in only:
            continue
        if body.startswith('deprecatedCmd') or body.startswith('removedCmd'):
            continue
        base = BASE.get(n, '').split()
        m = re.search(r'\((\w+\.info)( dc)?\)|(\w+\.info)( dc)?', body)
        if not m:
            print("no info", cn, body[:200]); continue
        info = (m.group(1) or m.group(3))
        if ' dc' in m.group(0):
            arg = c.split('.cls', 1)[1].strip()
            info = '(%s %s)' % (info, arg)
        out.append('#eval drafts (%s) "%s" c!"%s" [%s] %s.op' % (c, n + '\\t' + cn + '\\t' + ','.join(vs), n, ', '.join('c!"%s"' % b for b in base), info))
    open('/tmp/dr/Draft.lean', 'w').write('\n'.join(out) + '\n')
