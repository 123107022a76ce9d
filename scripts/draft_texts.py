#!/usr/bin/env python3
"""Evaluate what the commands write after the lines of lines.json (and some more), and write it to texts.json (input of
gen_texts.py)."""
import os, re, sys, json, subprocess
from draft_lines import classes, LEAN
import gen_ownrules

HERE = os.path.dirname(os.path.abspath(__file__))
# commands whose texts are not covered by the read-back theorems (C61, C62)
CMDS = '''btrfs cdrom cmdline graphical text dmraid firewall firstboot hmc install upgrade interactive iscsiname key keyboard langsupport lilo
lilocheck mediacheck mount multipath nvdimm raid rhsm rootpw skipx snapshot syspurpose unsupported_hardware updates volgroup zerombr'''.split()
MORE = json.load(open(os.path.join(HERE, 'texts_more.json')))

if __name__ == '__main__':
    data = json.load(open(os.path.join(HERE, 'lines.json')))
    src = open('/tmp/dr/Draft.lean').read()
    out = [src[src.index('import'):src.index('#eval')] + '''
def esc (s : Str) : String := String.ofList (s.flatMap fun c => if c = '\\n' then ['\\\\', 'n'] else if c = '"' then ['\\\\', '"'] else if c = '\\\\' then ['\\\\', '\\\\'] else if c = '\\t' then ['\\\\', 't'] else [c])
def textRow (c : Command) (id : String) (n : Str) (a : List Str) : IO Unit := do
  let i : Inst CState := { currentCmd := n, lineno := 7, seen := true, attrs := c.init }
  let p := c.parse (fun _ => some false) a i
  match p.2 with
  | .error _ => IO.println s!"{id}\\tREFUSED"
  | .ok none => IO.println s!"{id}\\tTEXT\\t{esc (c.str p.1)}"
  | .ok (some d) => IO.println s!"{id}\\tTEXT\\t{esc (c.str (c.addData d p.1))}"
''']
    rows = []
    seen = set()
    for e in data['meta'].values():
        if e['cmd'] not in CMDS:
            continue
        lines = [(e['base'] + ' ' + a).strip() for a in [''] + e['lines']] if e.get('ok') else []
        if e['bi'] == 0:
            lines += MORE.get(e['cmd'], [])
        for l in lines:
            if (e['cmd'], e['cls'], l) in seen:
                continue
            seen.add((e['cmd'], e['cls'], l))
            out.append('#eval textRow (%s) "%d" c!"%s" [%s]' % (e['cls'], len(rows), e['cmd'], ', '.join('c!"%s"' % w for w in l.split())))
            rows.append(dict(cmd=e['cmd'], cls=e['cls'], vs=e['vs'], line=l))
    open('/tmp/dr/Texts.lean', 'w').write('\n'.join(out) + '\n')
    r = subprocess.run('lake env lean /tmp/dr/Texts.lean', shell=True, cwd=LEAN, capture_output=True, text=True)
    for l in r.stdout.split('\n'):
        f = l.split('\t')
        if len(f) < 2:
            if l.strip(): print('??', l[:200])
            continue
        rows[int(f[0])]['text'] = f[2] if f[1] == 'TEXT' else None
    json.dump(rows, open(os.path.join(HERE, 'texts.json'), 'w'), indent=0)
    print(len(rows))
