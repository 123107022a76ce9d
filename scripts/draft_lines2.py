#!/usr/bin/env python3
"""Evaluate the candidate lines of `draft_lines.py` in every class, and write the groups found to
/tmp/dr/rows.json (input of gen_lines.py, which writes the table)."""
import os, re, sys, json, subprocess
from draft_lines import classes, LEAN, BASE
import gen_ownrules

ALL = None
BASES = {c: [(b, ALL)] for c, b in BASE.items()}
BASES.update({
 'services': [('--enabled=a', ['--disabled=QX']), ('--disabled=a', ['--enabled=QX'])],
 'zfcp': [('--devnum=d --wwpn=w --fcplun=f --scsiid=s --scsilun=l', ['--devnum=QX', '--wwpn=QX', '--fcplun=QX', '--scsiid=QX', '--scsilun=QX']),
          ('--devnum=d --wwpn=w --fcplun=f', ['--devnum=QX', '--wwpn=QX', '--fcplun=QX']), ('--devnum=d', ['--wwpn=QX', '--fcplun=QX'])],
 'url': [('--url=U', ALL), ('--mirrorlist=M', ['--proxy=QX', '--metalink=QX', '--url=QX']), ('--metalink=M', ['--mirrorlist=QX'])],
 'repo': [('--name=r --baseurl=b', ALL), ('--name=r --mirrorlist=m', ['--baseurl=QX', '--metalink=QX']), ('--name=r --metalink=m', ['--mirrorlist=QX'])],
 'raid': [('/x --device=1 --level=RAID1 raid.1 raid.2', ALL), ('/x --device=1 --noformat', ['--fstype=ext4', '--label=QX']), ('/x --device=1 --useexisting', ['--fstype=ext4', '--label=QX']),
          ('/x --device=1 --level=RAID1 raid.1 raid.2 raid.3', ['--device=md7', '--device=data', '--level=0', '--level=RAID5', '--level=raid6', '--level=10', '--level=linear', '--spares=1', '--spares=2'])],
 'volgroup': [('g pv.1', ALL), ('g --noformat', []), ('g --useexisting', ['--noformat'])],
 'logvol': [('/x --name=n --vgname=g --size=1', ALL), ('/x --name=n --vgname=g --useexisting', ['--size=42', '--resize', '--noformat', '--fstype=ext4']),
            ('/x --name=n --vgname=g', ['--percent=42', '--useexisting', '--noformat']), ('/x --name=n --vgname=g --size=1 --poolname=p', ['--thin', '--thinpool', '--label=QX']),
            ('none --name=n --vgname=g --size=1 --thinpool', ['--chunksize=42', '--metadatasize=42', '--profile=QX', '--grow']),
            ('/x --name=n --vgname=g --size=1 --cachepvs=a --cachesize=5', ['--cachemode=writeback', '--cachemode=writethrough'])],
 'part': [('/x --size=1', ALL), ('/x --onpart=sda1 --size=1', ['--resize', '--noformat'])],
 'partition': [('/x --size=1', ALL), ('/x --onpart=sda1 --size=1', ['--resize', '--noformat'])],
 'btrfs': [('/x a', ALL), ('/x --subvol --name=s LABEL=l', ['--parent=QX']), ('/x --noformat LABEL=l', ['--useexisting'])],
 'device': [('e100', ALL), ('scsi e100', ['--opts=QX'])],
 'driverdisk': [('d', ALL), ('--source=s', []), ('--biospart=b', [])],
 'harddrive': [('--dir=d --partition=p', ALL), ('--dir=d --biospart=b', ['--partition=QX', '--dir=QX'])],
 'ignoredisk': [('--drives=a', ALL), ('--only-use=a', ['--drives=QX', '--only-use=QX']), ('--interactive', ['--only-use=QX'])],
 'logging': [('', ALL), ('--host=h', ['--port=QX', '--level=debug'])],
 'mount': [('a /x', ALL), ('a /x --reformat=ext4', ['--mkfsoptions=QX'])],
 'mouse': [('generic', ALL)],
 'network': [('', ALL), ('--device=b --bridgeslaves=e', ['--bridgeopts=stp=6', '--bridgeopts=stp', '--bridgeslaves=a,b']), ('--bootproto=static --ip=i', ['--netmask=QX', '--gateway=QX']),
             ('--device=t', ['--teamslaves=a', '--bondslaves=a,b', '--vlanid=5'])],
 'nvdimm': [('use --namespace=n', ALL), ('use --blockdevs=a,b', ['--namespace=QX']), ('reconfigure --namespace=n --mode=sector', ['--sectorsize=512', '--blockdevs=QX'])],
 'ostreesetup': [('--osname=o --url=http://u --ref=r', ALL)],
 'timesource': [('--ntp-server=s', ['--nts']), ('--ntp-pool=p', ['--nts', '--ntp-server=QX']), ('--ntp-disable', ['--nts', '--ntp-pool=QX'])],
 'updates': [('', ALL), ('U', [])],
 'rootpw': [('P', ALL), ('--lock', ['--iscrypted', '--plaintext'])],
 'firewall': [('', ALL)],
 'clearpart': [('', ALL), ('--all', ['--initlabel', '--drives=QX', '--linux'])],
 'keyboard': [('K', ALL), ('--vckeymap=v', ['--xlayouts=QX', '--switch=QX'])],
 'selinux': [('', ALL)],
 'timezone': [('T', ALL), ('--utc T', ['--ntpservers=QX', '--nontp'])],
 'lang': [('L', ALL)],
 'upgrade': [('', ALL)],
 'key': [('K', ALL), ('--skip', [])],
 'cdrom': [('', ['x', '--x'])], 'hmc': [('', ['x', '--x'])],
 'snapshot': [('a/b --name=s --when=pre-install', ALL)],
 'sshpw': [('--username=u p', ALL)],
 'autostep': [('', ALL)], 'skipx': [('', ['x', '--x'])],
 'mediacheck': [('', ['x'])], 'lilocheck': [('', ['x'])], 'interactive': [('', ['x'])], 'unsupported_hardware': [('', ['x'])], 'zerombr': [('', ['x', 'yes'])],
 'eula': [('--agreed', ['--accepted', '--accept', '--agree'])],
 'syspurpose': [('', ALL), ('--role=a', ['--sla=QX', '--usage=QX', '--addon=QX'])],
 'rhsm': [('--organization=o --activation-key=k', ALL)],
})

if __name__ == '__main__':
    cls, order, entries = classes()
    ver = gen_ownrules.versions()
    cand = {}
    kinds = {}
    for l in open('/tmp/dr/out.txt'):
        f = l.rstrip('\n').split('\t')
        if len(f) >= 6 and f[3]:
            c = cand.setdefault(f[0], [])
            if f[3] not in c:
                c.append(f[3])
            kinds.setdefault((f[0], f[3]), f[5])
    src = open('/tmp/dr/Draft.lean').read()
    head = src[src.index('import'):src.index('#eval')]
    head += '''
def outc (c : Command) (n : Str) (args : List Str) : Option (Bool × Ns) :=
  let i : Inst CState := { currentCmd := n, lineno := 7, seen := true, attrs := c.init }
  match c.parse (fun _ => some false) args i with
  | (_, .error _) => none
  | (j, .ok none) => some (false, j.attrs.attrs)
  | (_, .ok (some d)) => some (true, d)
def rowsOf (c : Command) (id : String) (n : Str) (base : List Str) (lines : List (List Str)) : IO Unit := do
  match outc c n base with
  | none => IO.println s!"{id}\\tNOBASE"
  | some (b, d) =>
    IO.println s!"{id}\\tBASE\\t{if b then "L" else "P"}\\t{showNs d}\\t{if b then showNs [] else showNs (diff d c.init.attrs)}"
    for a in lines do
      match outc c n (base ++ a) with
      | none => IO.println s!"{id}\\tROW\\t{" ".intercalate (a.map String.ofList)}\\tREFUSED"
      | some (_, e) => IO.println s!"{id}\\tROW\\t{" ".intercalate (a.map String.ofList)}\\t{showNs (diff e d)}"
'''
    done = {}
    for vname, m in order:
        for n, c in entries[m].items():
            done.setdefault((n, c), []).append(ver[vname])
    out = [head]
    meta = {}
    k = 0
    for (n, c), vs in done.items():
        cn = c.split('.cls')[0]
        body = cls[cn]
        if body.startswith('deprecatedCmd') or body.startswith('removedCmd') or n in ('method', 'realm', 'auth', 'authconfig', 'authselect', 'deviceprobe'):
            continue
        for bi, (base, lines) in enumerate(BASES.get(n, [('', ALL)])):
            ls = cand.get(n, []) if lines is None else lines
            meta[str(k)] = dict(cmd=n, cls=c, vs=vs, base=base, bi=bi, lines=ls)
            out.append('#eval rowsOf (%s) "%d" c!"%s" [%s] [%s]' % (c, k, n, ', '.join('c!"%s"' % b for b in base.split()),
                ', '.join('[' + ', '.join('c!"%s"' % w for w in l.split()) + ']' for l in ls)))
            k += 1
    open('/tmp/dr/Rows.lean', 'w').write('\n'.join(out) + '\n')
    r = subprocess.run('lake env lean /tmp/dr/Rows.lean', shell=True, cwd=LEAN, capture_output=True, text=True)
    for l in r.stdout.split('\n'):
        f = l.split('\t')
        if len(f) < 2:
            if l.strip(): print('??', l[:200])
            continue
        e = meta[f[0]]
        if f[1] == 'NOBASE':
            e['ok'] = False
        elif f[1] == 'BASE':
            e['ok'] = True; e['kind'] = f[2]; e['d'] = f[3]; e['bsets'] = f[4]; e['rows'] = {}
        else:
            e['rows'][f[2]] = f[3]
    json.dump(dict(meta=meta, kinds=[[a, b, x] for (a, b), x in kinds.items()]), open('/tmp/dr/rows.json', 'w'))
    print(len(meta), sum(len(e.get('rows', {})) for e in meta.values()))
