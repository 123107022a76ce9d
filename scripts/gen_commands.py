#!/usr/bin/env python3
"""Write the Lean models of the command classes from the text of /repo/pykickstart/commands.

The Python files are parsed as text (`ast`); nothing of /repo is imported or run.  Every class gives

  X.init      the attributes after __init__ without arguments
  X.op        the option parser (_getParser)
  X.args      what _getArgsAsStr appends (data: `Out`)
  X.str...    what __str__ returns
  X.parse     the parse method
  X.cls       the command class (a record of the above)

Methods outside the small language understood here are written by hand in OVERRIDES.
Usage: gen_commands.py [output directory]
"""
import ast
import glob
import os
import re
import sys

REPO = '/repo/pykickstart'
OUT = sys.argv[1] if len(sys.argv) > 1 else os.path.join(os.path.dirname(__file__), '../lean/Verif/Commands')

SKIP_MODULES = {'realm', 'multipath'}
# attributes that hold class constants or data lists and not values
CONST_ATTRS = {'bootprotoList', 'bind_to_choices', 'validActions', 'validModes', 'levelMap', 'typeMap', 'whenMap',
               'exclusive_required_options', 'op'}
TEXT_STR = set()


class Fail(Exception):
    pass


class Cls:
    def __init__(self, name, bases, node, module, path):
        self.name, self.bases, self.node, self.module, self.path = name, bases, node, module, path
        self.methods, self.consts, self.props = {}, {}, set()
        self.setters = set()
        for s in node.body:
            if isinstance(s, ast.FunctionDef):
                decs = [ast.unparse(d) for d in s.decorator_list]
                if any(d.endswith('.setter') for d in decs):
                    self.setters.add(s.name)
                    continue
                self.methods[s.name] = s
                if 'property' in decs:
                    self.props.add(s.name)
            elif isinstance(s, ast.Assign):
                self.consts[s.targets[0].id] = s.value


def const_table():
    t = ast.parse(open(REPO + '/constants.py').read())
    return {s.targets[0].id: ast.literal_eval(s.value) for s in t.body if isinstance(s, ast.Assign)}


CONSTS = const_table()
CLASSES = {}
ORDER = []
MODULES = []


def load():
    t = ast.parse(open(REPO + '/ko.py').read())
    for n in t.body + ast.parse(open(REPO + '/base.py').read()).body:
        if isinstance(n, ast.ClassDef) and n.name in ('KickstartObject', 'KickstartCommand', 'DeprecatedCommand', 'RemovedCommand', 'BaseData'):
            CLASSES[n.name] = Cls(n.name, [ast.unparse(b) for b in n.bases if ast.unparse(b) != 'object'], n, 'base', 'ko.py' if n.name == 'KickstartObject' else 'base.py')
    for f in sorted(glob.glob(REPO + '/commands/*.py')):
        m = os.path.basename(f)[:-3]
        if m == '__init__':
            continue
        MODULES.append(m)
        for n in ast.parse(open(f).read()).body:
            if isinstance(n, ast.ClassDef):
                assert n.name not in CLASSES, n.name
                CLASSES[n.name] = Cls(n.name, [ast.unparse(b) for b in n.bases], n, m, 'commands/%s.py' % m)
                ORDER.append(n.name)


MRO_CACHE = {}


def mro(name):
    if not MRO_CACHE:
        made = {}

        def make(n):
            if n not in made:
                made[n] = type(n, tuple(make(b) for b in CLASSES[n].bases) or (object,), {})
            return made[n]
        for n in CLASSES:
            make(n)
        for n in CLASSES:
            MRO_CACHE[n] = [c.__name__ for c in made[n].__mro__ if c is not object]
    return MRO_CACHE[name]


def find(name, meth, after=None):
    """The class in the MRO of `name` (after `after`) that defines `meth`."""
    l = mro(name)
    if after:
        l = l[l.index(after) + 1:]
    for c in l:
        if meth in CLASSES[c].methods:
            return c
    return None


def is_command(n):
    return 'KickstartCommand' in mro(n)


def is_data(n):
    return 'BaseData' in mro(n)


def cite(c, meth=None):
    k = CLASSES[c]
    n = k.methods[meth] if meth else k.node
    return '`%s:%d-%d`' % (k.path, n.lineno, n.end_lineno)


# ---------------------------------------------------------------------------------------- __init__

UNSET = object()


class InitEval:
    """Evaluates __init__ with no keyword arguments; values are Python values."""

    def __init__(self, cls):
        self.cls = cls
        self.attrs = {}
        self.prio = None

    def const(self, c, name):
        for k in mro(c):
            if name in CLASSES[k].consts:
                return self.expr(CLASSES[k].consts[name], {})
        raise Fail('no class attribute %s in %s' % (name, c))

    def expr(self, e, env):
        if isinstance(e, ast.Constant):
            return e.value
        if isinstance(e, ast.List):
            return [self.expr(x, env) for x in e.elts]
        if isinstance(e, ast.Tuple):
            return tuple(self.expr(x, env) for x in e.elts)
        if isinstance(e, ast.Dict):
            return {self.expr(k, env): self.expr(v, env) for k, v in zip(e.keys, e.values)}
        if isinstance(e, ast.UnaryOp) and isinstance(e.op, ast.USub):
            return -self.expr(e.operand, env)
        if isinstance(e, ast.Name):
            if e.id in env:
                return env[e.id]
            if e.id in CONSTS:
                return CONSTS[e.id]
        if isinstance(e, ast.Attribute) and isinstance(e.value, ast.Name):
            if e.value.id == 'self':
                return self.attrs[e.attr]
            if e.value.id in CLASSES:
                return self.const(e.value.id, e.attr)
        if isinstance(e, ast.BoolOp) and isinstance(e.op, ast.Or):
            for x in e.values:
                v = self.expr(x, env)
                if v:
                    return v
            return v
        if isinstance(e, ast.BinOp) and isinstance(e.op, ast.Add):
            return self.expr(e.left, env) + self.expr(e.right, env)
        if isinstance(e, ast.Call):
            u = ast.unparse(e.func)
            if u == 'kwargs.get':
                return self.expr(e.args[1], env) if len(e.args) > 1 else None
            if u in ('list', 'set') and not e.args:
                return []
            if u == 'bool':
                return bool(self.expr(e.args[0], env))
        raise Fail('init expression %s' % ast.unparse(e))

    def run(self, c, prio):
        """Run the __init__ defined in class c; prio: the writePriority passed or UNSET."""
        k = CLASSES[c]
        f = k.methods['__init__']
        if c in ('KickstartCommand',):
            self.prio = 0 if prio is UNSET else prio
            return
        if c == 'BaseData':
            self.attrs['lineno'] = 0
            return
        env = {}
        names = [a.arg for a in f.args.args]
        defs = dict(zip(names[len(names) - len(f.args.defaults):], f.args.defaults))
        if 'writePriority' in names:
            env['writePriority'] = self.expr(defs['writePriority'], {}) if prio is UNSET else prio
        for s in f.body:
            self.stmt(c, s, env)

    def stmt(self, c, s, env):
        u = ast.unparse(s)
        if isinstance(s, ast.Expr) and isinstance(s.value, ast.Constant):
            return
        if isinstance(s, ast.Expr) and isinstance(s.value, ast.Call):
            call = s.value
            fn = ast.unparse(call.func)
            m = re.match(r'(\w+)\.__init__$', fn)
            sup = re.match(r'super\((\w*)(, self)?\)\.__init__$', fn)
            if m or sup:
                if m:
                    base = m.group(1)
                    base = find(base, '__init__')
                    args = call.args[1:]
                else:
                    base = find(self.cls, '__init__', after=c)
                    args = call.args
                p = UNSET
                pos = [a for a in args if not isinstance(a, ast.Starred)]
                if pos:
                    p = self.expr(pos[0], env)
                for kw in call.keywords:
                    if kw.arg == 'writePriority':
                        p = self.expr(kw.value, env)
                self.run(base, p)
                return
            if fn == 'self.deleteRemovedAttrs':
                for a in self.const(self.cls, 'removedAttrs'):
                    self.attrs.pop(a, None)
                return
            if fn.endswith('.append'):
                self.expr(call.func.value, env).append(self.expr(call.args[0], env))
                return
            if fn.endswith('.update'):
                self.expr(call.func.value, env).update(self.expr(call.args[0], env))
                return
        if isinstance(s, ast.Assign):
            t = s.targets[0]
            if isinstance(t, ast.Attribute):
                if t.attr == 'op':
                    return
                v = self.expr(s.value, env)
                if t.attr in CLASSES[self.cls].setters or any(t.attr in CLASSES[b].setters for b in mro(self.cls)):
                    self.attrs['_' + t.attr] = v      # the property of keyboard.py:179-190
                else:
                    self.attrs[t.attr] = v
                return
            if isinstance(t, ast.Subscript):
                self.expr(t.value, env)[self.expr(t.slice, env)] = self.expr(s.value, env)
                return
        if isinstance(s, ast.If) and u.startswith('if not self._level_provided'):
            if not self.attrs['_level_provided']:
                for x in s.body:
                    self.stmt(c, x, env)
            return
        if isinstance(s, ast.If) and 'self.__class__ is' in u:
            return
        raise Fail('init statement in %s: %s' % (c, u))


INIT = {}


def init_of(c):
    if c not in INIT:
        ev = InitEval(c)
        ev.run(find(c, '__init__'), UNSET)
        INIT[c] = (ev.attrs, ev.prio)
    return INIT[c]


def lstr(s):
    out = ''
    for ch in s:
        if ch == '"':
            out += '\\"'
        elif ch == '\\':
            out += '\\\\'
        elif ch == '\n':
            out += '\\n'
        elif ch == '\t':
            out += '\\t'
        else:
            out += ch
    return 'c!"%s"' % out


def lval(v):
    if v is None:
        return '.none'
    if v is True or v is False:
        return '.bool %s' % str(v).lower()
    if isinstance(v, int):
        return '.int %d' % v if v >= 0 else '.int (%d)' % v
    if isinstance(v, str):
        return '.str []' if v == '' else '.str %s' % lstr(v)
    if isinstance(v, (list, tuple)):
        if all(isinstance(x, str) for x in v):
            return '.list [%s]' % ', '.join(lstr(x) for x in v)
    raise Fail('value %r' % (v,))


def lval_p(v):
    s = lval(v)
    return s if ' ' not in s else '(%s)' % s


def data_list_attr(c):
    """The attribute returned by dataList()."""
    d = find(c, 'dataList')
    if d in (None, 'KickstartCommand', 'DeprecatedCommand', 'RemovedCommand'):
        return None
    for s in CLASSES[d].methods['dataList'].body:
        if isinstance(s, ast.Return):
            return s.value.attr
    return None


def attrs_of(c):
    attrs, _ = init_of(c)
    dl = None
    for b in mro(c):
        if 'dataList' in CLASSES[b].methods and b not in ('KickstartCommand', 'DeprecatedCommand', 'RemovedCommand'):
            for s in CLASSES[b].methods['dataList'].body:
                if isinstance(s, ast.Return):
                    dl = s.value.attr
    return {k: v for k, v in attrs.items() if k not in CONST_ATTRS and k != dl}


def emit_init(c):
    me = attrs_of(c)
    d = find(c, '__init__')
    lines = []
    base = CLASSES[c].bases[-1] if len(CLASSES[c].bases) == 1 else None
    src = cite(d, '__init__')
    if d in ('KickstartCommand', 'BaseData', 'DeprecatedCommand', 'RemovedCommand'):
        src = cite(d, '__init__')
    if base and base in emitted and (is_command(base) or is_data(base)):
        b = attrs_of(base)
        if d != c and me == b:
            lines.append('/-- %s: `__init__` is inherited. -/' % cite(c))
            lines.append('def %s.init : Ns := %s.init' % (c, base))
            return lines
        new = [(k, v) for k, v in me.items() if k not in b or b[k] != v or type(b[k]) != type(v)]
        gone = [k for k in b if k not in me]
        lines.append('/-- %s `__init__` -/' % src)
        e = '%s.init' % base
        if new:
            e += '.setAll [%s]' % ', '.join('(%s, %s)' % (lstr(k), lval(v)) for k, v in new)
            e = 'Ns.updated %s.init [%s]' % (base, ', '.join('(%s, %s)' % (lstr(k), lval(v)) for k, v in new))
        if gone:
            e = 'Ns.without (%s) [%s]' % (e, ', '.join(lstr(k) for k in gone))
        lines.append('def %s.init : Ns := %s' % (c, e))
        return lines
    lines.append('/-- %s `__init__` -/' % src)
    lines.append('def %s.init : Ns := [%s]' % (c, ', '.join('(%s, %s)' % (lstr(k), lval(v)) for k, v in me.items())))
    return lines


# -------------------------------------------------------------------------------------- _getParser

TYPES = {'int': '.int', 'commaSplit': '.comma', 'ksboolean': '.bool', 'mountpoint': '.mount', 'part_cb': '.part',
         'device_cb': '.md', 'firewall_port_cb': '.port', 'teamslaves_cb': '.team'}


def lean_arg(call, self_params, c):
    names = [a.value for a in call.args]
    kw = {k.arg: k.value for k in call.keywords}
    parts = ['names := [%s]' % ', '.join(lstr(n) for n in names)]
    if 'dest' in kw:
        parts.append('dest := some %s' % lstr(kw['dest'].value))
    action = 'store'
    if 'action' in kw:
        a = kw['action']
        action = a.value if isinstance(a, ast.Constant) else a.id
    ev = InitEval(c)

    def cv(e):
        return ev.expr(e, {})
    nargs = kw.get('nargs')
    nv = None if nargs is None else cv(nargs)
    default = kw.get('default')
    if action in ('store_true', 'store_false'):
        parts.append('kind := .storeConst, nargs := .n 0, const := .bool %s' % ('true' if action == 'store_true' else 'false'))
        d = cv(default) if default is not None else (action == 'store_false')
        parts.append('default := some %s' % lval_p(d))
    elif action == 'store_const':
        parts.append('kind := .storeConst, nargs := .n 0, const := %s' % lval(cv(kw['const'])))
        if default is not None:
            parts.append('default := some %s' % lval_p(cv(default)))
    else:
        kind = {'store': None, 'append': '.append', 'append_const': '.appendConst', 'ExtendAction': '.extend', 'ExtendConstAction': '.extendConst'}[action]
        if kind:
            parts.append('kind := ' + kind)
        if action == 'append_const':
            assert nargs is None
            parts.append('nargs := .n 0')
        elif nargs is not None:
            parts.append('nargs := ' + {'*': '.star', '?': '.opt'}.get(nv, '.n %s' % nv))
        if 'const' in kw:
            parts.append('const := %s' % lval(cv(kw['const'])))
        if default is not None:
            parts.append('default := some %s' % lval_p(cv(default)))
        elif nv == '*' and not names[0].startswith('-'):
            pass
    if 'type' in kw:
        t = kw['type']
        if isinstance(t, ast.Name) and t.id in TYPES:
            parts.append('ty := ' + TYPES[t.id])
        elif isinstance(t, ast.Name) and t.id == 'level_cb':
            self_params.add('levelMap')
            parts.append('ty := .table %s levelMap' % ('true' if CLASSES[c].module == 'raid' else 'false'))
        elif ast.unparse(t) == 'self._type_cb':
            self_params.add('typeMap')
            parts.append('ty := .table false typeMap')
        elif ast.unparse(t) == 'self._when_cb':
            self_params.add('whenMap')
            parts.append('ty := .table false whenMap')
        elif isinstance(t, ast.Name) and t.id == 'str':
            pass
        else:
            raise Fail('type %s' % ast.unparse(t))
    if 'choices' in kw:
        ch = kw['choices']
        if isinstance(ch, ast.Attribute) and ch.value.id == 'self':
            self_params.add(ch.attr)
            parts.append('choices := some %s' % ch.attr)
        else:
            parts.append('choices := some [%s]' % ', '.join(lstr(x) for x in cv(ch)))
    if 'required' in kw and cv(kw['required']):
        parts.append('required := true')
    if 'deprecated' in kw:
        parts.append('deprecated := true')
    known = {'dest', 'action', 'nargs', 'default', 'type', 'choices', 'required', 'deprecated', 'const', 'version', 'help', 'metavar', 'notest', 'introduced'}
    assert set(kw) <= known, (c, set(kw) - known)
    return '{ ' + ', '.join(parts) + ' }'


def getparser(c):
    """(base class or None, list of Lean steps, parameters used here)."""
    f = CLASSES[c].methods['_getParser']
    base, steps, params = 'none', [], set()
    for s in f.body:
        u = ast.unparse(s)
        if isinstance(s, ast.FunctionDef) or (isinstance(s, ast.Expr) and isinstance(s.value, ast.Constant)):
            continue
        if isinstance(s, ast.Return):
            if isinstance(s.value, ast.Call):
                n = s.value
                fn = ast.unparse(n.func)
                if fn == 'KSOptionParser':
                    base = None
                    continue
                base = base_parser(c, fn)
                continue
            continue
        if isinstance(s, ast.Assign) and isinstance(s.targets[0], ast.Name) and isinstance(s.value, ast.Call):
            fn = ast.unparse(s.value.func)
            if s.targets[0].id == 'op':
                if fn == 'KSOptionParser':
                    base = None
                else:
                    base = base_parser(c, fn)
                continue
            if fn == 'op.add_argument':
                steps.append('.add ' + lean_arg(s.value, params, c))
                continue
        if isinstance(s, ast.Assign) and isinstance(s.targets[0], ast.Name) and s.targets[0].id in ('meta_msg',):
            continue
        if isinstance(s, ast.Expr) and isinstance(s.value, ast.Call):
            fn = ast.unparse(s.value.func)
            if fn == 'op.add_argument':
                steps.append('.add ' + lean_arg(s.value, params, c))
                continue
            if fn == 'op.remove_argument':
                steps.append('.remove ' + lstr(s.value.args[0].value))
                continue
        if isinstance(s, (ast.Assign, ast.AugAssign)):
            t = s.targets[0] if isinstance(s, ast.Assign) else s.target
            if isinstance(t, ast.Attribute) and t.attr in ('help', 'description', 'prog', 'epilog', 'metavar', 'version'):
                continue
            if isinstance(t, ast.Attribute) and ast.unparse(t) == 'url_action.nargs':
                raise Fail('nargs')
        if isinstance(s, ast.For) or isinstance(s, ast.If):
            if all('help' in ast.unparse(x) for x in s.body):
                continue
        raise Fail('parser statement in %s: %s' % (c, u))
    assert base != 'none', c
    return base, steps, params


def base_parser(c, fn):
    m = re.match(r'(\w+)\._getParser$', fn)
    if m and m.group(1) != 'self':
        return find(m.group(1), '_getParser')
    if fn.startswith('super('):
        return find(c, '_getParser', after=c)
    raise Fail('base parser ' + fn)


PARSER = {}


def parser_params(c):
    """All parameters the parser of class c (defined there) needs."""
    if c not in PARSER:
        PARSER[c] = getparser(c)
    base, _, params = PARSER[c]
    return set(params) | (parser_params(base) if base else set())


PTY = {'bootprotoList': 'List Str', 'bind_to_choices': 'List Str', 'validActions': 'List Str', 'validModes': 'List Str',
       'levelMap': 'List (Str × Val)', 'typeMap': 'List (Str × Val)', 'whenMap': 'List (Str × Val)'}


def lean_const(c, name):
    v = init_of(c)[0][name]
    if isinstance(v, dict):
        return '[%s]' % ', '.join('(%s, %s)' % (lstr(k), lval(x)) for k, x in v.items())
    if v and isinstance(v[0], tuple):
        return '[%s]' % ', '.join('(%s, %s)' % (lstr(a), lstr(b)) for a, b in v)
    return '[%s]' % ', '.join(lstr(x) for x in v)


def emit_op(c):
    """The parser defined in class c."""
    base, steps, _ = PARSER.get(c) or PARSER.setdefault(c, getparser(c))
    params = sorted(parser_params(c))
    ps = ''.join(' (%s : %s)' % (p, PTY[p]) for p in params)
    if base is None:
        b = 'OptParser.empty'
    else:
        bp = sorted(parser_params(base))
        b = '%s.%s' % (base, 'opWith ' + ' '.join(bp) if bp else 'op')
    lines = ['/-- %s `_getParser` -/' % cite(c, '_getParser')]
    name = 'opWith' if params else 'op'
    if not steps:
        lines.append('def %s.%s%s : OptParser := %s' % (c, name, ps, b))
    else:
        lines.append('def %s.%s%s : OptParser :=' % (c, name, ps))
        lines.append('  %s' % (b if ' ' not in b else '(%s)' % b))
        adds = [s for s in steps]
        for s in adds:
            lines.append('    |>%s' % s)
    return lines


def op_expr(c):
    d = find(c, '_getParser')
    if d is None or d == 'KickstartCommand':
        return None
    params = sorted(parser_params(d))
    if not params:
        return '%s.op' % d
    return '%s.opWith %s' % (d, ' '.join(lean_const(c, p) for p in params))


# ------------------------------------------------------------------------------------------ __str__

TT = ('tt',)


def c_and(a, b):
    if a == TT:
        return b
    if b == TT:
        return a
    if a == b:
        return a
    return ('and', a, b)


def c_not(a):
    if a[0] == 'not':
        return a[1]
    return ('not', a)


def lean_cond(c):
    k = c[0]
    if k == 'tt':
        return '.tt'
    if k == 'anyargs':
        return 'Out.anyCond args'
    if k in ('tru', 'has', 'shown'):
        return '.%s %s' % (k, lstr(c[1]))
    if k == 'eq':
        return '.eq %s %s' % (lstr(c[1]), lval_p(c[2]))
    if k == 'gt':
        return '.gt %s %s' % (lstr(c[1]), c[2])
    if k == 'contains':
        return ".contains %s '%s'" % (lstr(c[1]), c[2])
    if k == 'not':
        return '.not (%s)' % lean_cond(c[1])
    return '.%s (%s) (%s)' % (k, lean_cond(c[1]), lean_cond(c[2]))


# an Out value is a list of ('p', cond, frags) | ('args', cond) | ('base', class, cond)

def guard(c, out):
    if c == TT:
        return list(out)
    r = []
    for x in out:
        if x[0] == 'p':
            r.append(('p', c_and(c, x[1]), x[2]))
        elif x[0] == 'args':
            r.append(('args', c_and(c, x[1])))
        else:
            r.append((x[0], x[1], c_and(c, x[2])))
    return r


def lit(s):
    return [('p', TT, [('lit', s)])] if s else []


def conjuncts(c):
    return conjuncts(c[1]) | conjuncts(c[2]) if c[0] == 'and' else {c}


class StrTr:
    """Symbolic execution of a __str__ or _getArgsAsStr method into an Out value."""

    def __init__(self, cls, meth):
        self.cls, self.meth = cls, meth
        self.vars = {}
        self.live = TT
        self.result = []
        self.done = False

    def selfattr(self, e):
        return isinstance(e, ast.Attribute) and isinstance(e.value, ast.Name) and e.value.id == 'self'

    def cond(self, e):
        if self.selfattr(e):
            return ('tru', e.attr)
        if isinstance(e, ast.UnaryOp) and isinstance(e.op, ast.Not):
            return c_not(self.cond(e.operand))
        if isinstance(e, ast.BoolOp):
            vals = list(e.values)
            # isinstance(x, bytes): never (Python 3 strings)
            if any('six.binary_type' in ast.unparse(v) for v in vals):
                if ast.unparse(vals[0]).startswith('isinstance'):
                    return None
                vals = vals[1:]
            cs = [self.cond(v) for v in vals]
            r = cs[-1]
            for x in reversed(cs[:-1]):
                if isinstance(e.op, ast.And):
                    r = c_and(x, r)
                else:
                    r = ('or', x, r)
            return r
        if isinstance(e, ast.Compare) and len(e.ops) == 1:
            op, right = e.ops[0], e.comparators[0]
            if isinstance(op, ast.In) and isinstance(e.left, ast.Constant) and self.selfattr(right):
                return ('contains', right.attr, e.left.value)
            if isinstance(e.left, ast.Call) and ast.unparse(e.left.func) == 'len':
                assert isinstance(op, ast.Gt) and right.value == 0
                return ('tru', e.left.args[0].attr)
            if self.selfattr(e.left):
                v = InitEval(self.cls).expr(right, {})
                if isinstance(op, (ast.Eq, ast.Is)):
                    return ('eq', e.left.attr, v)
                if isinstance(op, (ast.NotEq, ast.IsNot)):
                    return ('not', ('eq', e.left.attr, v))
                if isinstance(op, ast.Gt):
                    return ('gt', e.left.attr, v)
        if isinstance(e, ast.Call):
            u = ast.unparse(e.func)
            if u == 'hasattr':
                return ('has', e.args[1].value)
            if u == 'any':
                cs = [self.cond(v) for v in e.args[0].elts]
                r = cs[-1]
                for x in reversed(cs[:-1]):
                    r = ('or', x, r)
                return r
            if u == 'str':
                return ('shown', e.args[0].attr)
        if isinstance(e, ast.Name) and e.id in self.vars:
            return self.nonempty(self.vars[e.id])
        raise Fail('condition %s' % ast.unparse(e))

    def expand(self, out):
        """Replace the calls of base methods by what they append."""
        r = []
        for x in out:
            if x[0] == 'base':
                t = StrTr(x[1], self.meth)
                t.run()
                r += guard(x[2], t.expand(t.result))
            else:
                r.append(x)
        return r

    def nonempty(self, out):
        """The condition that the text is not empty: some piece with literal text is there; the other
        pieces must be there only together with one of those."""
        if out == [('args', TT)]:
            return ('anyargs',)
        out = self.expand(out)
        cs, rest = [], []
        for x in out:
            if x[0] == 'p' and any(f[0] == 'lit' and f[1] for f in x[2]):
                if x[1] == TT:
                    return TT
                if x[1] not in cs:
                    cs.append(x[1])
            else:
                rest.append(x[1])
        for c in rest:
            if not any(conjuncts(d) <= conjuncts(c) for d in cs):
                raise Fail('emptiness')
        if not cs:
            return ('not', TT)
        r = cs[-1]
        for x in reversed(cs[:-1]):
            r = ('or', x, r)
        return r

    def text(self, e):
        """An expression of type str as an Out value."""
        if isinstance(e, ast.Constant) and isinstance(e.value, str):
            return lit(e.value)
        if isinstance(e, ast.Name):
            if e.id in self.vars:
                return list(self.vars[e.id])
            if e.id in CONSTS:
                return lit(str(CONSTS[e.id]))
        if self.selfattr(e):
            return [('p', TT, [('fld', e.attr)])]
        if isinstance(e, ast.BinOp) and isinstance(e.op, ast.Add):
            return self.text(e.left) + self.text(e.right)
        if isinstance(e, ast.BoolOp) and isinstance(e.op, ast.Or):
            t = self.text(e.values[0])
            self.nonempty(t)
            return t
        if isinstance(e, ast.BinOp) and isinstance(e.op, ast.Mod):
            fmt = e.left.value
            args = list(e.right.elts) if isinstance(e.right, ast.Tuple) else [e.right]
            r = []
            pos = 0
            for m in re.finditer(r'%[sd]', fmt):
                r += lit(fmt[pos:m.start()])
                r += self.text(args.pop(0))
                pos = m.end()
            r += lit(fmt[pos:])
            assert not args and '%' not in re.sub(r'%[sd]', '', fmt), fmt
            return r
        if isinstance(e, ast.Call):
            u = ast.unparse(e.func)
            if u in ("','.join", "' '.join") and self.selfattr(e.args[0]):
                return [('p', TT, [('join', u[1], e.args[0].attr)])]
            m = re.match(r'self\.(\w+)\.(lower|upper)$', u)
            if m:
                return [('p', TT, [('low' if m.group(2) == 'lower' else 'up', m.group(1))])]
            if u == 'self._getArgsAsStr':
                return [('args', TT)]
            m = re.match(r'(\w+)\.(__str__|_getArgsAsStr)$', u)
            if m and m.group(1) in CLASSES:
                return self.base(find(m.group(1), m.group(2)), m.group(2))
            m = re.match(r'super\(.*\)\.(__str__|_getArgsAsStr)$', u)
            if m:
                return self.base(find(self.cls, m.group(1), after=self.cls), m.group(1))
        raise Fail('text %s' % ast.unparse(e))

    def base(self, c, meth):
        assert meth == self.meth
        if c in ('KickstartCommand', 'KickstartObject', 'BaseData', None):
            return []
        if (c, meth) in TEXT_STR:
            raise Fail('base method of %s is not an Out' % c)
        return [('base', c, TT)]

    def assign(self, v, out, path):
        old = self.vars.get(v, [])
        if path == TT:
            self.vars[v] = out
            return
        n = len(old)
        for i in range(len(out) - n + 1):
            if n and out[i:i + n] == old:
                self.vars[v] = guard(path, out[:i]) + old + guard(path, out[i + n:])
                return
        self.vars[v] = guard(c_not(path), old) + guard(path, out)

    def stmts(self, l, path):
        for s in l:
            if isinstance(s, ast.Expr) and isinstance(s.value, ast.Constant):
                continue
            if isinstance(s, ast.Assign) and isinstance(s.targets[0], ast.Name):
                self.assign(s.targets[0].id, self.text(s.value), path)
            elif isinstance(s, ast.AugAssign) and isinstance(s.target, ast.Name):
                self.vars[s.target.id] = self.vars[s.target.id] + guard(path, self.text(s.value))
            elif isinstance(s, ast.Return):
                self.result += guard(c_and(self.live, path), self.text(s.value))
                self.live = c_and(self.live, c_not(path)) if path != TT else ('not', TT)
                if path == TT:
                    self.done = True
            elif isinstance(s, ast.If):
                self.branch(s, path)
            elif isinstance(s, ast.For) and self.selfattr(s.iter) and len(s.body) == 1 and isinstance(s.body[0], ast.AugAssign):
                b = s.body[0]
                fmt = b.value
                assert isinstance(fmt, ast.BinOp) and fmt.right.id == s.target.id
                pre, post = fmt.left.value.split('%s')
                v = b.target.id
                self.vars[v] = self.vars[v] + guard(path, [('p', TT, [('each', pre, s.iter.attr, post)])])
            else:
                raise Fail('statement %s' % ast.unparse(s))

    def branch(self, s, path):
        c = self.cond(s.test)
        if c is None:                       # never true
            self.stmts(s.orelse, path)
            return
        if c[0] == 'not' and c[1] == TT:    # statically false
            self.stmts(s.orelse, path)
            return
        self.stmts(s.body, c_and(path, c))
        self.stmts(s.orelse, c_and(path, c_not(c)))

    def run(self):
        self.stmts(CLASSES[self.cls].methods[self.meth].body, TT)
        return self.merge(self.result)

    def merge(self, out):
        r = []
        for x in out:
            if x[0] == 'p' and x[2] == []:
                continue
            if r and x[0] == 'p' and r[-1][0] == 'p' and r[-1][1] == x[1]:
                r[-1] = ('p', x[1], join_frags(r[-1][2] + x[2]))
            else:
                r.append(x)
        return r


def join_frags(fs):
    r = []
    for f in fs:
        if f[0] == 'lit' and r and r[-1][0] == 'lit':
            r[-1] = ('lit', r[-1][1] + f[1])
        else:
            r.append(f)
    return r


def lean_frag(f):
    if f[0] == 'lit':
        return '.lit %s' % lstr(f[1])
    if f[0] in ('fld', 'low', 'up'):
        return '.%s %s' % (f[0], lstr(f[1]))
    return '.%s %s' % (f[0], ' '.join('[]' if x == '' else lstr(x) for x in f[1:]))


def uses_args(c, meth='__str__'):
    """Does the __str__ of class c call self._getArgsAsStr (directly or by a base method)?"""
    f = CLASSES[c].methods[meth]
    u = ast.unparse(f)
    if 'self._getArgsAsStr()' in u:
        return True
    for m in re.finditer(r'(\w+)\.__str__\(self\)', u):
        if m.group(1) in CLASSES and m.group(1) not in ('KickstartCommand', 'BaseData'):
            if uses_args(find(m.group(1), '__str__')):
                return True
    if re.search(r'super\(.*\)\.__str__\(\)', u):
        b = find(c, '__str__', after=c)
        if b and b not in ('KickstartCommand', 'BaseData') and uses_args(b):
            return True
    return False


def lean_out(out, base_suffix, args='args'):
    groups, cur = [], []
    for x in out:
        if x[0] == 'p':
            cur.append('(%s, [%s])' % (lean_cond(x[1]), ', '.join(lean_frag(f) for f in x[2])))
            continue
        if cur:
            groups.append(('[' + ',\n    '.join(cur) + ']'))
            cur = []
        if x[0] == 'args':
            groups.append(args if x[1] == TT else 'Out.guard (%s) %s' % (lean_cond(x[1]), args))
        else:
            b = base_suffix(x[1])
            groups.append(b if x[2] == TT else 'Out.guard (%s) (%s)' % (lean_cond(x[2]), b))
    if cur:
        groups.append('[' + ',\n    '.join(cur) + ']')
    return ' ++\n    '.join(groups) if groups else '[]'


# ------------------------------------------------------------------------------- overrides (by hand)

from gen_overrides import OVERRIDES, TEXT_OVERRIDES, ARGS_OVERRIDES, EXTRA_DEFS, EQ_OVERRIDES, EXTRA_MODULES  # noqa: E402


def emit_args(c):
    """_getArgsAsStr defined in class c."""
    lines = ['/-- %s `_getArgsAsStr` -/' % cite(c, '_getArgsAsStr')]
    if c in ARGS_OVERRIDES:
        lines.append('def %s.args : Out :=\n  %s' % (c, ARGS_OVERRIDES[c]))
        return lines
    out = StrTr(c, '_getArgsAsStr').run()
    lines.append('def %s.args : Out :=\n  %s' % (c, lean_out(out, lambda b: '%s.args' % b)))
    return lines


class TextTr(StrTr):
    """A __str__ method as a shallow Lean function of the attributes."""

    def __init__(self, cls):
        StrTr.__init__(self, cls, '__str__')
        self.known = set()

    def t(self, e):
        if isinstance(e, ast.Name) and e.id in self.known:
            return e.id
        if isinstance(e, ast.BinOp) and isinstance(e.op, ast.Add):
            return '%s ++ %s' % (self.t(e.left), self.t(e.right))
        if isinstance(e, ast.BinOp) and isinstance(e.op, ast.Mod):
            fmt = e.left.value
            args = list(e.right.elts) if isinstance(e.right, ast.Tuple) else [e.right]
            r = []
            pos = 0
            for m in re.finditer(r'%[sd]', fmt):
                if fmt[pos:m.start()]:
                    r.append(lstr(fmt[pos:m.start()]))
                r.append(self.t(args.pop(0)))
                pos = m.end()
            if fmt[pos:]:
                r.append(lstr(fmt[pos:]))
            return ' ++ '.join(r)
        if isinstance(e, ast.Call):
            u = ast.unparse(e.func)
            m = re.match(r'(\w+)\.(strip|rstrip)$', u)
            if m and m.group(1) in self.known:
                return '%s %s' % (m.group(2), m.group(1))
            if u == 'self._getArgsAsStr':
                return 'args.render self'
            m = re.match(r'(\w+)\.__str__$', u)
            b = None
            if m and m.group(1) in CLASSES:
                b = find(m.group(1), '__str__')
            elif re.match(r'super\(.*\)\.__str__$', u):
                b = find(self.cls, '__str__', after=self.cls)
            if b:
                if b in ('KickstartCommand', 'KickstartObject', 'BaseData'):
                    return '([] : Str)'
                a = (' typeMap' if uses_typemap(b) else '') + (' args' if uses_args(b) else '')
                if (b, '__str__') in TEXT_STR:
                    return '%s.strText%s self' % (b, a)
                return '(%s.strOut%s).render self' % (b, a)
            if u == "','.join" or u == "' '.join":
                return '(Frag.join %s %s).render self' % (lstr(u[1]), lstr(e.args[0].attr))
        if isinstance(e, ast.Subscript) and ast.unparse(e.slice) == ':-1':
            return '%s.dropLast' % self.t(e.value)
        if self.selfattr(e):
            return '(self.getD %s).fmt' % lstr(e.attr)
        if isinstance(e, ast.Constant) and isinstance(e.value, str):
            return lstr(e.value) if e.value else '([] : Str)'
        raise Fail('text expression %s' % ast.unparse(e))

    def c(self, e):
        if isinstance(e, ast.BoolOp):
            op = ' && ' if isinstance(e.op, ast.And) else ' || '
            return op.join(self.c(v) for v in e.values)
        if isinstance(e, ast.UnaryOp) and isinstance(e.op, ast.Not) and isinstance(e.operand, ast.Name):
            return '%s.isEmpty' % e.operand.id
        if isinstance(e, ast.Name) and e.id == 'ty':
            return 'ty.isSome'
        if isinstance(e, ast.Name) and e.id in self.known:
            return '!%s.isEmpty' % e.id
        return '(%s).eval self' % lean_cond(self.cond(e)).replace('.', 'Cond.', 1)

    def block(self, l, ind, result=None):
        """Lean lines for the statements l; `result`: the variable to return at the end."""
        pad = '  ' * ind
        out = []
        for i, s in enumerate(l):
            if isinstance(s, ast.Expr):
                continue
            if isinstance(s, ast.Return):
                out.append(pad + self.t(s.value))
                return out
            if isinstance(s, ast.Assign):
                v = s.targets[0].id
                if ast.unparse(s.value) == 'self._typeAsStr()':
                    out.append(pad + 'let ty := typeAsStr typeMap (self.getD c!"type")')
                    continue
                out.append(pad + 'let %s := %s' % (v, self.t(s.value)))
                self.known.add(v)
            elif isinstance(s, ast.AugAssign):
                v = s.target.id
                e = self.t(s.value) if not ast.unparse(s.value).endswith(' % ty') else None
                if e is None:
                    fmt = s.value.left.value
                    pre, post = fmt.split('%s')
                    e = '%s ++ ty.getD [] ++ %s' % (lstr(pre), lstr(post))
                out.append(pad + 'let %s := %s ++ %s' % (v, v, e))
            elif isinstance(s, ast.If):
                rets = any(isinstance(x, ast.Return) for x in s.body)
                if rets:
                    out.append(pad + 'if %s then' % self.c(s.test))
                    out += self.block(s.body, ind + 1)
                    out.append(pad + 'else')
                    rest = self.block(list(s.orelse) + list(l[i + 1:]), ind + 1, result)
                    return out + rest
                vs = set()
                for x in s.body:
                    for y in ast.walk(x):
                        if isinstance(y, ast.Assign):
                            vs.add(y.targets[0].id)
                        if isinstance(y, ast.AugAssign):
                            vs.add(y.target.id)
                if len(vs) != 1 or s.orelse:
                    raise Fail('if in text mode: %s' % ast.unparse(s))
                v = vs.pop()
                out.append(pad + 'let %s :=' % v)
                out.append(pad + '  if %s then' % self.c(s.test))
                out += self.block(s.body, ind + 2, v)
                out.append(pad + '  else %s' % v)
            else:
                raise Fail('text statement %s' % ast.unparse(s))
        out.append(pad + result)
        return out

    def run(self):
        return '\n'.join(self.block(CLASSES[self.cls].methods['__str__'].body, 1))


def uses_typemap(c):
    f = CLASSES[c].methods['__str__']
    u = ast.unparse(f)
    if 'self._typeAsStr()' in u:
        return True
    for m in re.finditer(r'(\w+)\.__str__\(self\)', u):
        if m.group(1) in CLASSES and m.group(1) not in ('KickstartCommand', 'BaseData'):
            if uses_typemap(find(m.group(1), '__str__')):
                return True
    return False


def emit_str(c):
    """__str__ defined in class c (not of commands with a data list)."""
    ua = uses_args(c)
    par = ' (args : Out)' if ua else ''
    if uses_typemap(c):
        par = ' (typeMap : List (Str × Val))' + par
    lines = ['/-- %s `__str__` -/' % cite(c, '__str__')]
    if c in TEXT_OVERRIDES:
        TEXT_STR.add((c, '__str__'))
        lines.append('def %s.strText%s (self : Ns) : Str :=\n  %s' % (c, par, TEXT_OVERRIDES[c].strip()))
        return lines
    try:
        out = StrTr(c, '__str__').run()
    except Fail as first:
        try:
            body = TextTr(c).run()
        except Fail as second:
            raise Fail('%s / %s' % (first, second))
        TEXT_STR.add((c, '__str__'))
        lines.append('def %s.strText%s (self : Ns) : Str :=\n%s' % (c, par, body))
        return lines

    def suffix(b):
        return '%s.strOut%s' % (b, ' args' if uses_args(b) else '')
    lines.append('def %s.strOut%s : Out :=\n  %s' % (c, par, lean_out(out, suffix)))
    return lines


def str_expr(c):
    """The function Ns → Str of class c."""
    d = find(c, '__str__')
    if d in (None, 'KickstartCommand', 'KickstartObject', 'BaseData'):
        return 'fun _ => []'
    a = ''
    if uses_args(d):
        a = ' %s.args' % find(c, '_getArgsAsStr')
    if uses_typemap(d):
        a = ' %s%s' % (lean_const(c, 'typeMap'), a)
    if (d, '__str__') in TEXT_STR:
        return '%s.strText%s' % (d, a)
    return '(%s.strOut%s).render' % (d, a) if a else '%s.strOut.render' % d


LISTSTR = {}


def list_str(c):
    """The __str__ of a command with a data list, as a function of the texts of its objects."""
    d = find(c, '__str__')
    u = ast.unparse(CLASSES[d].methods['__str__'])
    hdr = re.search(r"'(# [^']*)' \+ retval( \+ '(.*)')?", u)
    if not hdr:
        return 'listStr'
    h = hdr.group(1).encode().decode('unicode_escape')
    if hdr.group(2):
        return 'wrappedListStr %s' % lstr(h)
    return 'headedListStr %s' % lstr(h)


# --------------------------------------------------------------------------------------------- parse

class ParseTr:
    def __init__(self, cls, data):
        self.cls, self.data = cls, data
        self.msgs = {}
        self.fresh = False
        self.alias = {'self'}
        self.types = {'args': 'strs'}
        self.n = 0
        self.pre = []
        self.nonempty = set()       # expressions known to be true

    def template(self, e):
        """The text of a message: its format string."""
        if isinstance(e, ast.Constant):
            return e.value
        if isinstance(e, ast.Call) and ast.unparse(e.func) == '_':
            return self.template(e.args[0])
        if isinstance(e, ast.BinOp) and isinstance(e.op, ast.Mod):
            return self.template(e.left)
        if isinstance(e, ast.Name) and e.id in self.msgs:
            return self.msgs[e.id]
        raise Fail('message %s' % ast.unparse(e))

    def tmp(self):
        self.n += 1
        return 'x%d' % self.n

    def need_self(self):
        if not self.fresh:
            self.pre.append('let self ← M.self')
            self.fresh = True

    def attr(self, e):
        """obj.attr as Lean `Val`."""
        if isinstance(e.value, ast.Name):
            b = e.value.id
            if b in self.alias:
                if e.attr == 'currentCmd':
                    v = self.tmp()
                    self.pre.append('let %s ← M.currentCmd' % v)
                    return v, 'str'
                if e.attr == 'currentLine':
                    v = self.tmp()
                    self.pre.append('let %s ← M.currentLine' % v)
                    return v, 'str'
                if e.attr == 'lineno':
                    v = self.tmp()
                    self.pre.append('let %s ← M.lineno' % v)
                    return 'Val.int %s' % v, 'val'
                if e.attr == 'urlRequired':
                    return 'k.urlRequired', 'bool'
                self.need_self()
                return 'self.getD %s' % lstr(e.attr), 'val'
            if self.types.get(b) == 'ns':
                return '%s.getD %s' % (b, lstr(e.attr)), 'val'
        raise Fail('attribute %s' % ast.unparse(e))

    def ex(self, e):
        """(Lean text, type)"""
        if isinstance(e, ast.Constant):
            v = e.value
            return 'Val%s' % (lval(v) if v is not None else '.none'), 'val'
        if isinstance(e, ast.Name):
            if e.id in self.types:
                return e.id, self.types[e.id]
            if e.id in CONSTS:
                return 'Val%s' % lval(CONSTS[e.id]), 'val'
        if isinstance(e, ast.List) and not e.elts:
            return 'Val.list []', 'val'
        if isinstance(e, ast.List) and len(e.elts) == 1 and isinstance(e.elts[0], ast.Subscript) and ast.unparse(e.elts[0].slice) == '0':
            # [x[0]], where x is known not to be empty
            x, t = self.ex(e.elts[0].value)
            return 'Val.list ((%s).items.take 1)' % x, 'val'
        if isinstance(e, ast.List) and len(e.elts) == 1:
            x, t = self.ex(e.elts[0])
            if t == 'val':
                return 'Val.list [(%s).fmt]' % x, 'val'
        if isinstance(e, ast.Attribute):
            return self.attr(e)
        if isinstance(e, ast.Subscript):
            if isinstance(e.slice, ast.Slice):
                x, t = self.ex(e.value)
                if ast.unparse(e) == 'self.currentLine[len(self.currentCmd):]':
                    cmd, _ = self.attr(ast.parse('self.currentCmd', mode='eval').body)
                    return '%s.drop %s.length' % (x, cmd), 'str'
                k = e.slice.lower.value
                assert e.slice.upper is None
                if t == 'strs':
                    return '%s.drop %d' % (x, k), 'strs'
                return 'Val.list ((%s).items.drop %d)' % (x, k), 'val'
            x, t = self.ex(e.value)
            i = InitEval(self.cls).expr(e.slice, {})
            if i == 0 and ast.unparse(e.value) in self.nonempty:
                return '(%s).head' % x, 'val'
            v = self.tmp()
            if t == 'strs':
                x = 'Val.list %s' % x
            if i == -1:
                self.pre.append('let %s ← M.lift (%s)' % (v, 'Val.last (%s)' % x))
            else:
                self.pre.append('let %s ← M.lift ((%s).index %d)' % (v, x, i))
            return v, 'val'
        if isinstance(e, ast.Call):
            u = ast.unparse(e.func)
            if u == 'getattr' and len(e.args) == 3:
                x, t = self.attr(ast.Attribute(value=e.args[0], attr=e.args[1].value))
                return x, t
            if u == "' '.join":
                x, t = self.ex(e.args[0])
                return 'Val.str (joinWith c!" " %s)' % (x if t == 'strs' else '(%s).items' % x), 'val'
            if u == 'mountpoint':
                x, t = self.ex(e.args[0])
                return '(%s).mapStr mountpoint' % x, 'val'
            if u.endswith('.strip') and not e.args:
                x, t = self.ex(e.func.value)
                assert t == 'str'
                return 'strip (%s)' % x, 'str'
            if u.endswith('.lower') and not e.args:
                x, t = self.ex(e.func.value)
                return '(%s).mapStr lower' % x, 'val'
            if u.endswith('.split'):
                x, t = self.ex(e.func.value)
                return "(%s).split '%s'" % (x, e.args[0].value), 'val'
            if u == 'self._getDevice':
                x, t = self.ex(e.args[0])
                v = self.tmp()
                self.pre.append('let %s ← M.lift (k.getDevice (%s))' % (v, x))
                return v, 'val'
            if u == 'self._typeAsStr':
                self.need_self()
                return 'Val.ofOption (typeAsStr k.typeMap (self.getD c!"type"))', 'val'
            if ast.unparse(e) in ('len(groups[0])', 'len(groups[1])'):
                # snapshot.py:137: evaluated for a list of two only
                return '((groups.items)[%s]?.getD []).length' % ast.unparse(e)[11], 'nat'
            if u == 'len':
                x, t = self.ex(e.args[0])
                return ('%s.length' % x if t == 'strs' else '(%s).len' % x), 'nat'
            if u == 'list' and ast.unparse(e.args[0].func) == 'set':
                x, t = self.ex(e.args[0].args[0])
                return 'Val.list (dedup (%s).items)' % x, 'val'
        raise Fail('expression %s' % ast.unparse(e))

    def val(self, e):
        x, t = self.ex(e)
        if t == 'val':
            return x
        if t == 'str':
            return 'Val.str (%s)' % x
        if t == 'strs':
            return 'Val.list (%s)' % x
        raise Fail('value %s' % ast.unparse(e))

    def b(self, e):
        """A condition: Lean Bool (pure), or ('m', Lean M Bool)."""
        if isinstance(e, ast.UnaryOp) and isinstance(e.op, ast.Not):
            x = self.b(e.operand)
            if isinstance(x, tuple):
                raise Fail('not of a monadic condition')
            return '!%s' % x if re.match(r'^[\w.]+$', x) else '!(%s)' % x
        if isinstance(e, ast.BoolOp):
            u = ast.unparse(e)
            m = re.match(r"hasattr\(self\.handler, '(\w+)'\) and self\.handler\.(\w+)\.seen$", u)
            if m and m.group(1) == m.group(2):
                return ('m', 'M.usedCmd %s' % lstr(m.group(1)))
            xs = [self.b(e.values[0])]
            n = len(self.pre)
            xs += [self.b(v) for v in e.values[1:]]
            if any(isinstance(x, tuple) for x in xs) or any('M.lift' in x for x in self.pre[n:]):
                raise Fail('monadic condition in %s' % u)
            op = ' && ' if isinstance(e.op, ast.And) else ' || '
            return op.join('(%s)' % x if (' && ' in x or ' || ' in x) else x for x in xs)
        if isinstance(e, ast.Attribute):
            m = re.match(r'self\.handler\.(\w+)\.seen$', ast.unparse(e))
            if m:
                return ('m', 'M.seenCmd %s' % lstr(m.group(1)))
        if isinstance(e, ast.Compare):
            u = ast.unparse(e)
            if len(e.ops) == 2:
                lo, x, hi = e.left, e.comparators[0], e.comparators[1]
                v = self.val(x)
                return 'decide (%s < (%s).num) && decide ((%s).num < %s)' % (lo.value, v, v, hi.value)
            op, right = e.ops[0], e.comparators[0]
            if ast.unparse(right) == 'self.dataList()':
                x, t = self.ex(e.left)
                assert t == 'ns' and isinstance(op, ast.In)
                v = self.tmp()
                self.pre.append('let %s ← M.dataList' % v)
                return '%s.any (fun d => k.dc.eq d %s)' % (v, x)
            if isinstance(op, (ast.In, ast.NotIn)):
                neg = '!' if isinstance(op, ast.NotIn) else ''
                if isinstance(right, (ast.List, ast.Tuple)):
                    x, t = self.ex(e.left)
                    if t == 'str':
                        r = '[%s].contains %s' % (', '.join(lstr(v.value) for v in right.elts), x)
                    else:
                        r = '[%s].any (Val.pyEq (%s))' % (', '.join('Val%s' % lval(v.value) for v in right.elts), x)
                    return '!(%s)' % r if neg else r
                if ast.unparse(right) == 'self.whenMap.values()':
                    x, t = self.ex(e.left)
                    r = 'k.typeMap.any (fun p => p.2.pyEq (%s))' % x
                    return '!(%s)' % r if neg else r
                if isinstance(right, ast.ListComp) and ast.unparse(right).startswith('[snap.name for snap in self.dataList()'):
                    x, t = self.ex(e.left)
                    v = self.tmp()
                    self.pre.append('let %s ← M.dataList' % v)
                    return '%s.any (fun d => (d.getD c!"name").pyEq (%s))' % (v, x)
                x, t = self.ex(right)
                if isinstance(e.left, ast.Constant):
                    if t == 'strs':
                        return '%s%s.contains %s' % (neg, x, lstr(e.left.value))
                    assert len(e.left.value) == 1
                    return "%s(%s).hasChar '%s'" % (neg, x, e.left.value)
                raise Fail('in: %s' % u)
            l, lt = self.ex(e.left)
            if lt == 'nat':
                sym = {ast.Eq: '=', ast.NotEq: '≠', ast.Gt: '>', ast.Lt: '<'}[type(op)]
                return 'decide (%s %s %s)' % (l, sym, right.value)
            if lt == 'str':
                assert isinstance(op, ast.Eq)
                return 'decide (%s = %s)' % (l, lstr(right.value))
            if isinstance(op, (ast.Is, ast.IsNot)):
                neg = '!' if isinstance(op, ast.IsNot) else ''
                r = 'decide (%s = %s)' % (l, self.val(right))
                return '!%s' % r if neg else r
            if isinstance(op, (ast.Eq, ast.NotEq)):
                r = '(%s).pyEq %s' % (l, '(%s)' % self.val(right))
                return '!(%s)' % r if isinstance(op, ast.NotEq) else r
            sym = {ast.Gt: '>', ast.Lt: '<'}[type(op)]
            return 'decide ((%s).num %s %s)' % (l, sym, right.value)
        if isinstance(e, ast.Call):
            u = ast.unparse(e)
            if u == "any((arg for arg in extra if arg.startswith('-')))":
                return 'extra.any (fun arg => startsWith arg c!"-")'
            if isinstance(e.func, ast.Name) and e.func.id == 'any' and isinstance(e.args[0], ast.List):
                xs = [self.b(v) for v in e.args[0].elts]
                return ' || '.join(xs)
            if isinstance(e.func, ast.Attribute) and e.func.attr == 'startswith':
                x, t = self.ex(e.func.value)
                a = e.args[0]
                if isinstance(a, ast.Tuple):
                    return '[%s].any (Val.startsWith (%s))' % (', '.join(lstr(v.value) for v in a.elts), x)
                return '(%s).startsWith %s' % (x, lstr(a.value))
        if isinstance(e, ast.Name) and e.id in self.types and self.types[e.id] == 'strs':
            return '!%s.isEmpty' % e.id
        x, t = self.ex(e)
        if t == 'val':
            return '(%s).truthy' % x
        if t == 'strs':
            return '!(%s).isEmpty' % x
        if t == 'str':
            return '!(%s).isEmpty' % x
        if t == 'bool':
            return x
        raise Fail('condition %s' % ast.unparse(e))

    def flush(self, lines):
        lines += self.pre
        self.pre = []

    # -- statements

    def is_raise(self, body):
        return isinstance(body[-1], ast.Raise) and all(self.is_msg(s) for s in body[:-1])

    def is_msg(self, s):
        return isinstance(s, ast.Assign) and isinstance(s.targets[0], ast.Name) and s.targets[0].id in ('msg', 'err', 'errorMsg', 'mapping', 'message', 'error_message')

    def note_msg(self, s):
        if s.targets[0].id != 'mapping':
            self.msgs[s.targets[0].id] = self.template(s.value)

    def raise_parts(self, body):
        for s in body[:-1]:
            self.note_msg(s)
        call = body[-1].exc
        assert ast.unparse(call.func) == 'KickstartParseError', ast.unparse(call)
        msg = self.template(call.args[0])
        has = any(k.arg == 'lineno' for k in call.keywords)
        return msg, has

    def pure_local(self, body):
        for s in body:
            if isinstance(s, ast.Assign) and len(s.targets) == 1:
                t = s.targets[0]
                if isinstance(t, ast.Name):
                    continue
                if isinstance(t, ast.Attribute) and isinstance(t.value, ast.Name) and t.value.id not in self.alias:
                    continue
                return False
            elif isinstance(s, ast.AugAssign) and isinstance(s.target, ast.Name):
                continue
            elif isinstance(s, ast.Delete) and isinstance(s.targets[0], ast.Attribute) and s.targets[0].value.id not in self.alias:
                continue
            elif isinstance(s, ast.If):
                if not (self.pure_local(s.body) and self.pure_local(s.orelse)):
                    return False
            else:
                return False
        return True

    def targets(self, body):
        r = []
        for s in body:
            if isinstance(s, ast.If):
                r += self.targets(s.body) + self.targets(s.orelse)
            else:
                t = s.targets[0] if isinstance(s, (ast.Assign, ast.Delete)) else s.target
                r.append(t.id if isinstance(t, ast.Name) else t.value.id)
        return list(dict.fromkeys(r))

    def local_value(self, v, body):
        """The value of local v after a pure block, as a Lean expression (monadic reads not allowed)."""
        e = v
        for s in body:
            if isinstance(s, ast.If):
                if v in self.targets([s]):
                    c = self.b(s.test)
                    if isinstance(c, tuple):
                        raise Fail('monadic')
                    old = self.nonempty
                    self.nonempty = old | {ast.unparse(s.test)}
                    e1 = self.local_value(v, s.body)
                    self.nonempty = old
                    e2 = self.local_value(v, s.orelse)
                    e = 'if %s then %s else %s' % (c, e1, e2)
                continue
            if isinstance(s, ast.Delete):
                t = s.targets[0]
                if t.value.id == v:
                    e = 'Ns.without (%s) [%s]' % (e, lstr(t.attr))
                continue
            t = s.targets[0] if isinstance(s, ast.Assign) else s.target
            if isinstance(t, ast.Name) and t.id == v:
                if isinstance(s, ast.AugAssign):
                    e = '%s + %s' % (v, s.value.value)
                else:
                    x, ty = self.ex(s.value)
                    if self.types.get(v) == 'str' and ty == 'val':
                        assert isinstance(s.value, ast.Constant)
                        x = lstr(s.value.value)
                    if self.types.get(v) == 'strs' and x == 'Val.list []':
                        x = '[]'
                    e = x
            elif isinstance(t, ast.Attribute) and t.value.id == v:
                x = self.val(s.value)
                e = '(%s).set %s (%s)' % (e, lstr(t.attr), x) if ' ' in e else '%s.set %s (%s)' % (e, lstr(t.attr), x)
        return e

    def monadic_chain(self, v, s):
        """if/elif chain on handler.x.seen assigning the string local v."""
        c = self.b(s.test)
        if not isinstance(c, tuple):
            raise Fail('chain')
        assert len(s.body) == 1 and s.body[0].targets[0].id == v
        one = 'pure %s' % lstr(s.body[0].value.value)
        if not s.orelse:
            other = 'pure %s' % v
        else:
            assert len(s.orelse) == 1
            other = self.monadic_chain(v, s.orelse[0])
        return 'M.cond (%s) (%s) (%s)' % (c[1], one, other)

    def stmts(self, body, tail):
        """Lean do-lines for the statements; `tail`: this is the end of the method."""
        lines = []
        for i, s in enumerate(body):
            last = tail and i == len(body) - 1
            self.stmt(s, lines, last)
            self.flush(lines)
        return lines

    def warn(self, call):
        cat = ast.unparse(call.args[1])
        k = '.deprecation' if cat == 'KickstartDeprecationWarning' else '.parse'
        return 'M.warn (%s %s)' % (k, lstr(self.template(call.args[0])))

    def base_parse(self, e):
        u = ast.unparse(e.func)
        m = re.match(r'(\w+)\.parse$', u)
        if m and m.group(1) in CLASSES:
            b = find(m.group(1), 'parse')
        elif u.startswith('super('):
            b = find(self.cls, 'parse', after=self.cls)
        else:
            raise Fail('call %s' % u)
        return '%s.parse k args' % b

    def stmt(self, s, lines, last):
        u = ast.unparse(s)
        if isinstance(s, ast.Expr) and isinstance(s.value, ast.Constant):
            return
        if self.is_msg(s):
            self.note_msg(s)
            return
        if isinstance(s, ast.Assert):
            c = self.b(s.test)
            self.flush(lines)
            lines.append('M.assert (%s)' % c)
            return
        if isinstance(s, ast.Return):
            v = s.value
            if isinstance(v, ast.Name) and v.id in self.alias:
                if not lines or not last:
                    pass
                lines.append('return ()')
                return
            if isinstance(v, ast.Call):
                lines.append(self.base_parse(v))
                return
            lines.append('return %s' % v.id)
            return
        if isinstance(s, ast.Raise):
            msg, has = self.raise_parts([s])
            lines.append('M.err %s' % lstr(msg) if has else 'M.throw (.parse %s none)' % lstr(msg))
            return
        if isinstance(s, ast.Expr) and isinstance(s.value, ast.Call):
            call = s.value
            fn = ast.unparse(call.func)
            if fn == 'warnings.warn':
                lines.append(self.warn(call))
                return
            if fn == 'self.op.parse_args':
                lines.append('let _ ← M.parseArgs k.op args')
                return
            if fn == 'self.set_to_self':
                lines.append('M.setToSelf %s' % call.args[0].id)
                self.fresh = False
                return
            if fn == 'self.set_to_obj':
                a, o = call.args[0].id, call.args[1].id
                lines.append('let %s := setToObj %s %s' % (o, a, o))
                return
            lines.append(self.base_parse(call))
            self.fresh = False
            return
        if isinstance(s, ast.Assign):
            t, v = s.targets[0], s.value
            if isinstance(t, ast.Tuple) and ast.unparse(v.func) == 'self.op.parse_known_args':
                lines.append('let r ← M.parseKnown k.op args')
                a, b = [x.id for x in t.elts]
                lines.append('let %s := r.1' % a)
                lines.append('let %s := r.2' % b)
                self.types[a], self.types[b] = 'ns', 'strs'
                return
            if isinstance(t, ast.Name):
                n = t.id
                vu = ast.unparse(v)
                if vu.startswith('self.op.parse_args('):
                    lines.append('let %s ← M.parseArgs k.op args' % n)
                    self.types[n] = 'ns'
                    return
                if vu.startswith('self.op.parse_known_args(') and vu.endswith('[1]'):
                    lines.append('let r ← M.parseKnown k.op args')
                    lines.append('let %s := r.2' % n)
                    self.types[n] = 'strs'
                    return
                if vu == 'self.dataClass()':
                    lines.append('let %s := k.dc.init' % n)
                    self.types[n] = 'ns'
                    return
                if vu == '[opt for attr, opt in self.exclusive_required_options if getattr(ns, attr, None)]':
                    lines.append('let %s := (k.exclusive.filter (fun o => (ns.getD o.1).truthy)).map (·.2)' % n)
                    self.types[n] = 'strs'
                    return
                if isinstance(v, ast.Call) and (ast.unparse(v.func).endswith('.parse')):
                    b = self.base_parse(v)
                    if self.data:
                        lines.append('let %s ← %s' % (n, b))
                        self.types[n] = 'ns'
                    else:
                        lines.append(b)
                        self.alias.add(n)
                    self.fresh = False
                    return
                if n == 'conflicting_command':
                    lines.append('let conflicting_command : Str := []')
                    self.types[n] = 'str'
                    return
                if isinstance(v, ast.Constant) and v.value == 0:
                    lines.append('let %s : Nat := 0' % n)
                    self.types[n] = 'nat'
                    return
                x, ty = self.ex(v)
                self.flush(lines)
                lines.append('let %s := %s' % (n, x))
                self.types[n] = ty
                return
            if isinstance(t, ast.Attribute) and isinstance(t.value, ast.Name):
                o = t.value.id
                x = self.val(v)
                self.flush(lines)
                if o in self.alias:
                    lines.append('M.set %s (%s)' % (lstr(t.attr), x))
                    self.fresh = False
                else:
                    lines.append('let %s := %s.set %s (%s)' % (o, o, lstr(t.attr), x))
                return
        if isinstance(s, ast.Delete):
            t = s.targets[0]
            if t.value.id in self.alias:
                lines.append('M.del %s' % lstr(t.attr))
                self.fresh = False
            else:
                lines.append('let %s := Ns.without %s [%s]' % (t.value.id, t.value.id, lstr(t.attr)))
            return
        if isinstance(s, ast.If):
            self.if_stmt(s, lines)
            return
        raise Fail('statement %s' % u)

    def if_stmt(self, s, lines):
        # a chain on the seen flags of other commands
        if self.pure_local([s]):
            vs = self.targets([s])
            if vs == ['conflicting_command']:
                lines.append('let conflicting_command ← %s' % self.monadic_chain(vs[0], s))
                return
            if len(vs) == 1:
                self.b(s.test)
                n = len(self.pre)
                e = self.local_value(vs[0], [s])
                if any('M.lift' in x for x in self.pre[n:]):
                    raise Fail('partial operation in a branch: %s' % ast.unparse(s))
                self.flush(lines)
                lines.append('let %s := %s' % (vs[0], e))
                return
            # several variables: later values must not read earlier ones of the same statement
            c = self.b(s.test)
            self.flush(lines)
            out = []
            for v in vs:
                e = self.local_value(v, [s])
                out.append('let %s\' := %s' % (v, e))
            if any('M.lift' in x for x in self.pre):
                raise Fail('partial operation in a branch: %s' % ast.unparse(s))
            self.flush(lines)
            lines += out
            lines += ['let %s := %s\'' % (v, v) for v in vs]
            return
        c = self.b(s.test)
        self.flush(lines)
        if self.is_raise(s.body):
            msg, has = self.raise_parts(s.body)
            if isinstance(c, tuple):
                assert has
                lines.append('M.failIfM (%s) %s' % (c[1], lstr(msg)))
            elif has:
                lines.append('M.failIf (%s) %s' % (c, lstr(msg)))
            else:
                lines.append('M.failIfNoLine (%s) %s' % (c, lstr(msg)))
            for x in s.orelse:
                self.stmt(x, lines, False)
                self.flush(lines)
            return
        assert not isinstance(c, tuple), c
        f = self.fresh
        b1 = self.sub(s.body)
        f1 = self.fresh
        self.fresh = f
        b2 = self.sub(s.orelse) if s.orelse else None
        self.fresh = f1 and self.fresh
        if b2 is None:
            lines.append('M.when (%s) (do' % c)
            lines += ['  ' + x for x in b1]
            lines[-1] += ')'
        else:
            lines.append('if %s then do' % c)
            lines += ['  ' + x for x in b1]
            lines.append('else do')
            lines += ['  ' + x for x in b2]

    def sub(self, body):
        lines = []
        for x in body:
            self.stmt(x, lines, False)
            self.flush(lines)
        return lines

    def run(self):
        f = CLASSES[self.cls].methods['parse']
        lines = []
        body = f.body
        for i, s in enumerate(body):
            self.stmt(s, lines, i == len(body) - 1)
            self.flush(lines)
        # `x.parse k args; return ()` at the end
        if len(lines) > 1 and lines[-1] == 'return ()' and not lines[-2].startswith((' ', 'let', 'else')):
            lines.pop()
        return lines


def returns_data(c):
    """Does the parse defined in class c return a data object?"""
    f = CLASSES[c].methods['parse']
    for n in ast.walk(f):
        if isinstance(n, ast.Call) and ast.unparse(n.func) == 'self.dataClass':
            return True
    for n in ast.walk(f):
        if isinstance(n, ast.Call) and ast.unparse(n.func).endswith('.parse'):
            u = ast.unparse(n.func)
            m = re.match(r'(\w+)\.parse$', u)
            b = find(m.group(1), 'parse') if m and m.group(1) in CLASSES else find(c, 'parse', after=c)
            return returns_data(b)
    return False


def emit_parse(c):
    data = returns_data(c)
    lines = ['/-- %s `parse` -/' % cite(c, 'parse')]
    ty = 'Ns' if data else 'Unit'
    if c in OVERRIDES:
        body = OVERRIDES[c].strip('\n').split('\n')
    else:
        body = ParseTr(c, data).run()
    lines.append('def %s.parse (k : Info) (args : List Str) : M %s := do' % (c, ty))
    used = '\n'.join(body)
    if 'args' not in used:
        lines[-1] = lines[-1].replace('(args :', '(_args :')
    if not re.search(r'\bk\b', used):
        lines[-1] = lines[-1].replace('(k :', '(_k :')
    lines += ['  ' + x for x in body]
    return lines


# ---------------------------------------------------------------------------------------------- eq

def eq_keys(c):
    d = find(c, '__eq__')
    if d is None:
        return None
    f = CLASSES[d].methods['__eq__']
    u = ast.unparse(f)
    keys = re.findall(r'(?:self|x)\.(\w+) == (?:y|other)\.\1', u)
    return d, keys, u


def emit_eq(c):
    d = find(c, '__eq__')
    if d is None or d != c:
        return []
    lines = ['/-- %s `__eq__` -/' % cite(c, '__eq__')]
    if c in EQ_OVERRIDES:
        lines.append('def %s.eq : Ns → Ns → Bool := %s' % (c, EQ_OVERRIDES[c]))
        return lines
    _, keys, u = eq_keys(c)
    if not keys:
        raise Fail('eq of %s: %s' % (c, u))
    lines.append('def %s.eq : Ns → Ns → Bool := sameAttrs [%s]' % (c, ', '.join(lstr(k) for k in keys)))
    return lines


emitted = set()


def dep_kind(c):
    for b in mro(c):
        if b == 'DeprecatedCommand':
            return 'deprecated'
        if b == 'RemovedCommand':
            return 'removed'
        if b not in ('DeprecatedCommand', 'RemovedCommand') and 'parse' in CLASSES[b].methods and b != 'KickstartCommand':
            return None
    return None


def emit_data_class(c):
    L = []
    L += emit_init(c)
    if '_getArgsAsStr' in CLASSES[c].methods:
        L += emit_args(c)
    if '__str__' in CLASSES[c].methods:
        L += emit_str(c)
    L += emit_eq(c)
    d = find(c, '__eq__')
    L.append('/-- %s -/' % cite(c))
    L.append('def %s.cls : DataCls := { init := %s.init, str := %s, eq := %s }' % (c, c, str_expr(c), '%s.eq' % d if d else 'fun _ _ => false'))
    return L


def data_name(c):
    d = find(c, 'dataClass')
    if d in (None, 'KickstartCommand', 'DeprecatedCommand', 'RemovedCommand'):
        return None
    for s in CLASSES[d].methods['dataClass'].body:
        if isinstance(s, ast.Return):
            return s.value.attr
    return None


def lint(n):
    return 'none' if n is None else ('some %d' % n if n >= 0 else 'some (%d)' % n)


def emit_command_class(c):
    L = []
    L += emit_init(c)
    has_list = data_name(c) is not None
    own = CLASSES[c].methods
    if '_getParser' in own and CLASSES[c].module != 'method':
        L += emit_op(c)
    if '_getArgsAsStr' in own:
        L += emit_args(c)
    dk = dep_kind(c)
    if '__str__' in own and not has_list and dk is None:
        L += emit_str(c)
    if 'parse' in own:
        L += emit_parse(c)
    prio = init_of(c)[1]
    L.append('/-- %s -/' % cite(c))
    if dk:
        L.append('def %s.cls : Command := %sCmd %s %s.init' % (c, dk, lstr(c), c))
        return L
    if CLASSES[c].module == 'method':
        L.append('def %s.cls : Command := plainCmd %s (%s) %s.init (fun _ => M.throw .type) (fun _ => [])' % (c, lstr(c), lint(prio), c))
        return L
    p = find(c, 'parse')
    info = []
    op = op_expr(c)
    if op:
        info.append('op := %s' % op)
    a = init_of(c)[0]
    if 'exclusive_required_options' in a:
        info.append('exclusive := %s' % lean_const(c, 'exclusive_required_options'))
    for m in ('typeMap', 'whenMap'):
        if m in a:
            info.append('typeMap := %s' % lean_const(c, m))
    u = None
    for b in mro(c):
        if 'urlRequired' in CLASSES[b].consts:
            u = CLASSES[b].consts['urlRequired'].value
            break
    if u is False:
        info.append('urlRequired := false')
    g = find(c, '_getDevice')
    if g:
        info.append('getDevice := %s.getDevice' % g)
    if has_list:
        L.append('def %s.info (dc : DataCls) : Info := { %s }' % (c, ', '.join(['dc := dc'] + info)))
        L.append('/-- %s -/' % cite(c))
        L.append('def %s.cls (dc : DataCls) : Command := listCmd %s (%s) %s.init dc (%s.parse (%s.info dc)) (%s)' % (c, lstr(c), lint(prio), c, p, c, list_str(c)))
    else:
        L.append('def %s.info : Info := { %s }' % (c, ', '.join(info)))
        L.append('/-- %s -/' % cite(c))
        L.append('def %s.cls : Command := plainCmd %s (%s) %s.init (%s.parse %s.info) (%s)' % (c, lstr(c), lint(prio), c, p, c, str_expr(c)))
    return L


def lean_module(m):
    return ''.join(x.capitalize() for x in m.split('_'))


def wrap(s):
    return s


def deps(m):
    r = set()
    for c in ORDER:
        if CLASSES[c].module == m:
            for b in mro(c):
                if CLASSES[b].module not in (m, 'base'):
                    r.add(CLASSES[b].module)
    return sorted(r)


def emit_module(m):
    names = [c for c in ORDER if CLASSES[c].module == m]
    L = []
    for d in deps(m) or []:
        L.append('import Verif.Commands.%s' % lean_module(d))
    if not deps(m):
        L.append('import Verif.Commands.Base')
    L += ['/-!', '# `/repo/pykickstart/commands/%s.py`' % m, '',
          'Written by `scripts/gen_commands.py` from the text of that file; see there and', '`Verif/Commands/Base.lean` for how a class is represented.', '-/', 'namespace Ks.Cmd', '']
    if m in EXTRA_DEFS:
        L += [EXTRA_DEFS[m].strip('\n'), '']
    errs = []
    done = []
    todo = list(names)
    # base classes first
    order = []
    while todo:
        for c in todo:
            if all(b not in todo for b in mro(c)[1:]):
                order.append(c)
                todo.remove(c)
                break
    for c in order:
        try:
            L += emit_data_class(c) if is_data(c) else emit_command_class(c)
            L.append('')
            emitted.add(c)
            done.append(c)
        except (Fail, AssertionError, KeyError, AttributeError, ValueError) as e:
            errs.append('%s: %s: %s' % (c, type(e).__name__, e))
            if os.environ.get('TRACE'):
                import traceback
                traceback.print_exc()
    L += ['end Ks.Cmd', '']
    text = '\n'.join(L)
    return text, errs


def handlers():
    """version name -> (command map, data map), in the order of the files' dictionaries."""
    r = {}
    for f in sorted(glob.glob(REPO + '/handlers/*.py')):
        n = os.path.basename(f)[:-3]
        if n in ('__init__', 'control'):
            continue
        t = ast.parse(open(f).read())
        cls = [x for x in t.body if isinstance(x, ast.ClassDef)][0]
        cm, dm, ver = {}, {}, None
        span = {}
        for s in cls.body:
            if isinstance(s, ast.Assign):
                k = s.targets[0].id
                if k == 'version':
                    ver = s.value.id
                elif k in ('commandMap', 'dataMap'):
                    d = {a.value: b.attr for a, b in zip(s.value.keys, s.value.values)}
                    span[k] = (s.lineno, s.end_lineno)
                    if k == 'commandMap':
                        cm = d
                    else:
                        dm = d
        r[ver] = (n, cm, dm, span)
    return r


def emit_handlers():
    mods = sorted(set(CLASSES[c].module for c in ORDER) - SKIP_MODULES) + []
    L = ['import Verif.Commands.%s' % lean_module(m) for m in mods]
    L += ['import Verif.Commands.%s' % x for x in EXTRA_MODULES]
    L += ['import Verif.Version', '/-!', '# The command maps of `/repo/pykickstart/handlers`', '',
          'Written by `scripts/gen_commands.py`.  A command class with a data list is given the data class',
          'that the same handler registers under the name its `dataClass` property asks for.', '-/', 'namespace Ks.Cmd', '']
    H = handlers()
    for ver, (n, cm, dm, span) in H.items():
        L.append('/-- `handlers/%s.py:%d-%d` -/' % (n, span['commandMap'][0], span['commandMap'][1]))
        L.append('def commandMap%s : List (Str × Command) := [' % ver)
        ent = []
        for name, c in cm.items():
            dn = None if dep_kind(c) else data_name(c)
            if dn:
                ent.append('  (%s, %s.cls %s.cls)' % (lstr(name), c, dm[dn]))
            else:
                ent.append('  (%s, %s.cls)' % (lstr(name), c))
        L.append(',\n'.join(ent) + ']')
        L.append('')
    L.append('/-- `handlers/control.py:26-50`: the command map of every version. -/')
    L.append('def commandMaps : List (Nat × List (Str × Command)) := [')
    L.append(',\n'.join('  (Version.%s, commandMap%s)' % (v, v) for v in H) + ']')
    L.append('')
    L.append('/-- `handlers/control.py:26-50` `commandMap[version]`; empty when there is none. -/')
    L.append('def commandMap (v : Nat) : List (Str × Command) := (commandMaps.lookup v).getD []')
    L += ['', 'end Ks.Cmd', '']
    return '\n'.join(L)


def main():
    load()
    nerr = 0
    os.makedirs(OUT, exist_ok=True)
    done = set()
    mods = [m for m in MODULES if m not in SKIP_MODULES]
    # modules whose bases are elsewhere come later
    order = []
    while mods:
        for m in mods:
            if all(d in order for d in deps(m)):
                order.append(m)
                mods.remove(m)
                break
        else:
            raise SystemExit('cycle')
    for m in order:
        text, errs = emit_module(m)
        if not any(CLASSES[c].module == m for c in ORDER):
            continue
        with open(os.path.join(OUT, lean_module(m) + '.lean'), 'w') as f:
            f.write(text)
        for e in errs:
            nerr += 1
            print('%s: %s' % (m, e))
    with open(os.path.join(OUT, 'Maps.lean'), 'w') as f:
        f.write(emit_handlers())
    print('%d classes, %d problems' % (len(ORDER), nerr))


if __name__ == '__main__':
    main()
