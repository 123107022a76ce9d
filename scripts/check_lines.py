#!/usr/bin/env python3
"""Compare lines.json, which is drafted with the model, with the option parsers in the text of /repo: which options a
class has, and which attribute an option sets.  Prints the rows that differ."""
import ast, glob, json, os, re

REPO = os.environ.get('REPO', '/repo')
HERE = os.path.dirname(os.path.abspath(__file__))


def load():
    classes = {}
    for f in glob.glob(REPO + '/pykickstart/commands/*.py'):
        for n in ast.parse(open(f).read()).body:
            if isinstance(n, ast.ClassDef):
                classes[n.name] = n
    maps = {}
    ver = {}
    for n in ast.parse(open(REPO + '/pykickstart/version.py').read()).body:
        if isinstance(n, ast.Assign) and isinstance(n.value, ast.Constant) and isinstance(n.value.value, int):
            ver[n.targets[0].id] = n.value.value
    for f in glob.glob(REPO + '/pykickstart/handlers/*.py'):
        for n in ast.parse(open(f).read()).body:
            if not isinstance(n, ast.ClassDef):
                continue
            v = m = None
            for a in n.body:
                if isinstance(a, ast.Assign) and a.targets[0].id == 'version':
                    v = ver[a.value.id]
                if isinstance(a, ast.Assign) and a.targets[0].id == 'commandMap':
                    m = {k.value: c.attr for k, c in zip(a.value.keys, a.value.values)}
            maps[v] = m
    return classes, maps


def bases(classes, c):
    return [getattr(b, 'id', getattr(b, 'attr', '')) for b in classes[c].bases]


def parser(classes, c):
    """The options of a class: option -> keywords."""
    if c not in classes:
        return {}
    fn = [n for n in classes[c].body if isinstance(n, ast.FunctionDef) and n.name == '_getParser']
    if not fn:
        for b in bases(classes, c):
            if b in classes:
                return parser(classes, b)
        return {}
    out = {}
    for n in ast.walk(fn[0]):
        if isinstance(n, ast.Call) and isinstance(n.func, ast.Attribute) and n.func.attr == '_getParser':
            v = n.func.value
            if isinstance(v, ast.Name):
                out = dict(parser(classes, v.id))
            else:
                out = dict(parser(classes, bases(classes, c)[0]))
            break
    calls = [n for n in ast.walk(fn[0]) if isinstance(n, ast.Call) and isinstance(n.func, ast.Attribute)]
    for n in sorted(calls, key=lambda n: (n.lineno, n.col_offset)):
        if n.func.attr == 'add_argument':
            names = [a.value for a in n.args if isinstance(a, ast.Constant)]
            kw = {k.arg: (k.value.value if isinstance(k.value, ast.Constant) else ast.unparse(k.value)) for k in n.keywords}
            longs = [x for x in names if x.startswith('--')]
            dest = kw.get('dest') or (longs or names)[0].lstrip('-').replace('-', '_')
            kw['dest'] = dest
            for x in names:
                out[x] = kw
        if n.func.attr == 'remove_argument':
            out.pop(n.args[0].value, None)
    return out


def main():
    classes, maps = load()
    data = json.load(open(os.path.join(HERE, 'lines.json')))
    kinds = {(a, b): x for a, b, x in data['kinds']}
    count = bad = 0
    for e in data['meta'].values():
        if 'rows' not in e:
            continue
        for v in e['vs']:
            c = maps[v].get(e['cmd'])
            ps = parser(classes, c)
            for a, s in e['rows'].items():
                if ' ' in a or not a.startswith('--'):
                    continue
                opt, _, val = a.partition('=')
                kw = ps.get(opt)
                count += 1
                why = None
                if kw is None:
                    if s != 'REFUSED':
                        why = 'no such option'
                elif s == 'REFUSED':
                    why = 'option exists'
                else:
                    act = kw.get('action', 'store')
                    want = {'store_true': '.bool true', 'store_false': '.bool false'}.get(act)
                    if act == 'store' and 'type' not in kw:
                        want = '.str c!"%s"' % val
                    if act == 'store_const' and isinstance(kw['const'], int):
                        want = '.int %d' % kw['const']
                    if act == 'append' and 'type' not in kw:
                        want = '.list [c!"%s"]' % val
                    if act == 'store' and kw.get('type') == 'commaSplit' or kw.get('type') == 'int':
                        want = '.list [c!"QX"]' if kw['type'] != 'int' else '.int ' + val
                    if want is None:
                        why = 'action %s type %s const %s' % (act, kw.get('type'), kw.get('const'))
                    elif '(c!"%s", %s)' % (kw['dest'], want) not in s and not (s == '[]' and '(c!"%s", %s)' % (kw['dest'], want) in str(e['d'])):
                        why = 'want %s = %s' % (kw['dest'], want)
                if why:
                    bad += 1
                    print(v, e['cmd'], c, repr(e['base']), a, '|', s, '|', why)
    print(count, 'rows', bad, 'to look at')


if __name__ == '__main__':
    main()
