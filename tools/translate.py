#!/usr/bin/env python3
"""Write the abstract syntax of melodia's source files as Lean terms (lean/Verif/Source).

The files are parsed with the `ast` module; nothing is imported or executed.
Usage: translate.py /repo lean/Verif/Source
"""
import ast
import sys
from fractions import Fraction

BIN = {ast.Add: 'add', ast.Sub: 'sub', ast.Mult: 'mul', ast.Div: 'div', ast.FloorDiv: 'floorDiv', ast.Mod: 'mod',
       ast.Pow: 'pow', ast.BitAnd: 'band', ast.BitOr: 'bor', ast.LShift: 'shl', ast.RShift: 'shr'}
CMP = {ast.Eq: 'eq', ast.NotEq: 'ne', ast.Lt: 'lt', ast.LtE: 'le', ast.Gt: 'gt', ast.GtE: 'ge', ast.Is: 'is',
       ast.IsNot: 'isNot', ast.In: 'isIn', ast.NotIn: 'notIn'}
PACKAGES = ['melodia', 'melodia.core', 'melodia.io', 'melodia.music', 'melodia.processing']
UN = {ast.USub: 'neg', ast.UAdd: 'pos', ast.Not: 'not'}


def string(s):
    out = '"'
    for c in s:
        if c in '"\\':
            out += '\\' + c
        elif c == '\n':
            out += '\\n'
        else:
            assert 32 <= ord(c) < 127, c
            out += c
    return out + '"'


def lst(items):
    return '[' + ', '.join(items) + ']'


def strip(s):
    return s[1:-1] if s.startswith('(') and balanced(s[1:-1]) else s


def balanced(s):
    depth = 0
    quoted = False
    i = 0
    while i < len(s):
        c = s[i]
        if quoted:
            if c == '\\':
                i += 1
            elif c == '"':
                quoted = False
        elif c == '"':
            quoted = True
        elif c in '([':
            depth += 1
        elif c in ')]':
            depth -= 1
            if depth < 0:
                return False
        i += 1
    return depth == 0


def expr(e):
    """A parenthesised Lean term of type Expr."""
    if isinstance(e, ast.Constant):
        v = e.value
        if v is None:
            return '.none'
        if v is True or v is False:
            return f'(.bool {str(v).lower()})'
        if isinstance(v, int):
            return f'(.int {v})'
        if isinstance(v, float):
            q = Fraction(v)
            return f'(.float {q.numerator} {q.denominator})'
        if isinstance(v, str):
            return f'(.str {string(v)})'
        if isinstance(v, bytes):
            return f'(.bytes {lst([str(b) for b in v])})'
        raise NotImplementedError(v)
    if isinstance(e, ast.Name):
        return f'(.name "{e.id}")'
    if isinstance(e, ast.Attribute):
        return f'(.attr {expr(e.value)} "{e.attr}")'
    if isinstance(e, ast.Subscript):
        if isinstance(e.slice, ast.Slice):
            assert e.slice.step is None
            lo = expr(e.slice.lower) if e.slice.lower else '.none'
            hi = expr(e.slice.upper) if e.slice.upper else '.none'
            return f'(.slice {expr(e.value)} {lo} {hi})'
        return f'(.index {expr(e.value)} {expr(e.slice)})'
    if isinstance(e, ast.Call):
        args = [expr(a) for a in e.args] + [expr(k.value) for k in e.keywords]
        kws = ['"' + k.arg + '"' for k in e.keywords]
        return f'(.call {expr(e.func)} {lst([strip(a) for a in args])} {lst(kws)})'
    if isinstance(e, ast.Starred):
        return f'(.star {expr(e.value)})'
    if isinstance(e, ast.BinOp):
        return f'(.bin .{BIN[type(e.op)]} {expr(e.left)} {expr(e.right)})'
    if isinstance(e, ast.UnaryOp):
        return f'(.un .{UN[type(e.op)]} {expr(e.operand)})'
    if isinstance(e, ast.BoolOp):
        op = 'and' if isinstance(e.op, ast.And) else 'or'
        r = expr(e.values[-1])
        for v in reversed(e.values[:-1]):
            r = f'(.{op} {expr(v)} {r})'
        return r
    if isinstance(e, ast.Compare):
        ops = lst(['.' + CMP[type(o)] for o in e.ops])
        return f'(.cmp {expr(e.left)} {ops} {lst([strip(expr(c)) for c in e.comparators])})'
    if isinstance(e, ast.IfExp):
        return f'(.cond {expr(e.test)} {expr(e.body)} {expr(e.orelse)})'
    if isinstance(e, ast.Tuple):
        return f'(.tuple {lst([strip(expr(x)) for x in e.elts])})'
    if isinstance(e, ast.List):
        return f'(.list {lst([strip(expr(x)) for x in e.elts])})'
    if isinstance(e, ast.Dict):
        return f'(.dict {lst([strip(expr(x)) for x in e.keys])} {lst([strip(expr(x)) for x in e.values])})'
    if isinstance(e, ast.JoinedStr):
        return f'(.fstr {lst([strip(expr(x)) for x in e.values])})'
    if isinstance(e, ast.FormattedValue):
        assert e.conversion == -1
        spec = ''
        if e.format_spec is not None:
            assert len(e.format_spec.values) == 1
            spec = e.format_spec.values[0].value
        return f'(.field {expr(e.value)} {string(spec)})'
    if isinstance(e, (ast.GeneratorExp, ast.ListComp)):
        assert len(e.generators) == 1 and not e.generators[0].ifs
        g = e.generators[0]
        kind = 'comp' if isinstance(e, ast.ListComp) else 'genExp'
        return f'(.{kind} {expr(e.elt)} {pat(g.target)} {expr(g.iter)})'
    if isinstance(e, ast.DictComp):
        assert len(e.generators) == 1 and not e.generators[0].ifs
        g = e.generators[0]
        return f'(.dictComp {expr(e.key)} {expr(e.value)} {pat(g.target)} {expr(g.iter)})'
    raise NotImplementedError(ast.dump(e))


def pat(t):
    if isinstance(t, ast.Name):
        return f'(.name "{t.id}")'
    if isinstance(t, ast.Tuple):
        return f'(.tuple {lst([strip(pat(x)) for x in t.elts])})'
    raise NotImplementedError(ast.dump(t))


def target(t):
    if isinstance(t, ast.Name):
        return f'(.name "{t.id}")'
    if isinstance(t, ast.Attribute):
        return f'(.attr {expr(t.value)} "{t.attr}")'
    if isinstance(t, ast.Subscript):
        return f'(.index {expr(t.value)} {expr(t.slice)})'
    if isinstance(t, ast.Tuple):
        return f'(.tuple {lst([chr(34) + x.id + chr(34) for x in t.elts])})'
    raise NotImplementedError(ast.dump(t))


def block(body, ind):
    """A Lean list of statements."""
    items = []
    for s in body:
        r = stmt(s, ind + 2)
        if r is not None:
            items.append(r)
    if not items:
        return '[]'
    pad = '\n' + ' ' * (ind + 2)
    return '[' + pad + (',' + pad).join(items) + ']'


def stmt(s, ind):
    if isinstance(s, ast.Expr):
        if isinstance(s.value, ast.Constant) and isinstance(s.value.value, str):
            return None
        if isinstance(s.value, ast.Yield):
            return f'.yield {expr(s.value.value)}'
        return f'.expr {expr(s.value)}'
    if isinstance(s, ast.Assign):
        assert len(s.targets) == 1
        return f'.assign {target(s.targets[0])} {expr(s.value)}'
    if isinstance(s, ast.AnnAssign):
        return None if s.value is None else f'.assign {target(s.target)} {expr(s.value)}'
    if isinstance(s, ast.AugAssign):
        return f'.aug {target(s.target)} .{BIN[type(s.op)]} {expr(s.value)}'
    if isinstance(s, ast.Return):
        return '.ret ' + ('.none' if s.value is None else expr(s.value))
    if isinstance(s, ast.If):
        return f'.ite {expr(s.test)} {block(s.body, ind)} {block(s.orelse, ind)}'
    if isinstance(s, ast.While):
        assert not s.orelse
        return f'.while {expr(s.test)} {block(s.body, ind)}'
    if isinstance(s, ast.For):
        assert not s.orelse
        return f'.for {pat(s.target)} {expr(s.iter)} {block(s.body, ind)}'
    if isinstance(s, ast.Raise):
        assert s.cause is None
        return f'.raise {expr(s.exc)}'
    if isinstance(s, ast.Assert):
        assert s.msg is None or isinstance(s.msg, ast.Constant)
        return f'.assert {expr(s.test)}'
    if isinstance(s, ast.Delete):
        assert len(s.targets) == 1
        return f'.del {target(s.targets[0])}'
    if isinstance(s, ast.With):
        assert len(s.items) == 1
        i = s.items[0]
        return f'.withAs {expr(i.context_expr)} "{i.optional_vars.id}" {block(s.body, ind)}'
    if isinstance(s, ast.FunctionDef):
        nonlocals = [n for x in s.body if isinstance(x, ast.Nonlocal) for n in x.names]
        ps = params(s)
        assert all(d is not None for _, d in ps)
        ps = lst([f'("{n}", {strip(d)})' for n, d in ps])
        return f'.defn "{s.name}" {ps} {lst([chr(34) + n + chr(34) for n in nonlocals])} {block(s.body, ind)}'
    if isinstance(s, ast.Nonlocal):
        return None
    if isinstance(s, ast.Pass):
        return '.pass'
    if isinstance(s, ast.Break):
        return '.break'
    if isinstance(s, ast.Continue):
        return '.continue'
    raise NotImplementedError(ast.dump(s))


def params(f):
    a = f.args
    assert not a.posonlyargs and not a.kwonlyargs and a.vararg is None and a.kwarg is None
    names = [x.arg for x in a.args]
    defaults = [None] * (len(names) - len(a.defaults)) + [expr(d) for d in a.defaults]
    return list(zip(names, defaults))


def deco(f):
    names = [d.id for d in f.decorator_list]
    assert len(names) <= 1
    return names[0] if names else 'plain'


def has_yield(f):
    return any(isinstance(x, ast.Yield) for x in ast.walk(f))


def assigns_attr(f):
    for x in ast.walk(f):
        ts = x.targets if isinstance(x, ast.Assign) else [x.target] if isinstance(x, (ast.AugAssign, ast.AnnAssign)) else []
        if any(isinstance(t, ast.Attribute) for t in ts):
            return True
    return False


def lean_name(n):
    """Lean name of a function: `__lt__` becomes `dunder_lt`."""
    return 'dunder_' + n[2:-2] if n.startswith('__') and n.endswith('__') else n


def fundef(f, mod, lean, path, out):
    first = min([f.lineno] + [d.lineno for d in f.decorator_list])
    ps = lst([f'("{n}", ' + ('.none' if d is None else f'some {d}') + ')' for n, d in params(f)])
    out.append(f'/-- `{f.name}` ({path}:{first}-{f.end_lineno}). -/')
    out.append(f'def {lean} : FunDef where')
    out.append(f'  name := "{f.name}"')
    out.append(f'  mod := "{mod}"')
    out.append(f'  params := {ps}')
    out.append(f'  body := {block(f.body, 2)}')
    d = deco(f)
    if d != 'plain':
        out.append(f'  deco := .{d}')
    if has_yield(f):
        out.append('  gen := true')
    out.append('')


def module(root, mod, name, title, target_dir, folder='src'):
    package = mod in PACKAGES
    file = mod.replace('.', '/') + ('/__init__.py' if package else '.py')
    path = folder + '/' + file
    text = open(root + '/' + path).read()
    tree = ast.parse(text)
    out = ['/-', f'Abstract syntax of {path}, written by tools/translate.py.', '-/', 'import Verif.Python.Syntax', '',
           'set_option autoImplicit false', '', 'namespace Melodia.Source', '', 'open Melodia.Python', '']
    names = []
    init = []
    classes = []
    for s in tree.body:
        if isinstance(s, ast.Import):
            for a in s.names:
                assert a.asname is None
                names.append((a.name, f'.module "{a.name}"'))
        elif isinstance(s, ast.ImportFrom):
            assert s.level == 0 or package and s.level == 1
            for a in s.names:
                assert a.asname is None
                if s.module is None:
                    names.append((a.name, f'.module "{mod}.{a.name}"'))
                else:
                    origin = s.module if s.level == 0 else f'{mod}.{s.module}'
                    names.append((a.name, f'.imported "{origin}" "{a.name}"'))
        elif isinstance(s, ast.FunctionDef):
            fundef(s, mod, f'{name}.{lean_name(s.name)}', path, out)
            names.append((s.name, f'.func {name}.{lean_name(s.name)}'))
        elif isinstance(s, ast.ClassDef):
            assert all(ast.unparse(d) == 'dataclass(frozen=True)' for d in s.decorator_list)
            methods = []
            fields = []
            slots = None
            mutable = False
            for x in s.body:
                if isinstance(x, ast.FunctionDef):
                    fundef(x, mod, f'{s.name}.{lean_name(x.name)}', path, out)
                    methods.append(f'{s.name}.{lean_name(x.name)}')
                    if x.name != '__init__' and assigns_attr(x):
                        mutable = True
                elif isinstance(x, ast.AnnAssign):
                    assert s.decorator_list and x.value is None
                    fields.append(x.target.id)
                elif isinstance(x, ast.Expr) or isinstance(x, ast.Pass):
                    pass
                else:
                    assert isinstance(x, ast.Assign) and x.targets[0].id == '__slots__' and slots is None
                    slots = list(ast.literal_eval(x.value))
            first = min([s.lineno] + [d.lineno for d in s.decorator_list])
            out.append(f'/-- Class `{s.name}` ({path}:{first}-{s.end_lineno}). -/')
            out.append(f'def {s.name}.classDef : ClassDef where')
            out.append(f'  name := "{s.name}"')
            out.append(f'  mod := "{mod}"')
            if s.bases:
                out.append(f'  bases := {lst([chr(34) + b.id + chr(34) for b in s.bases])}')
            if methods:
                out.append('  methods := [' + ',\n    '.join(methods) + ']')
            if fields:
                out.append(f'  fields := {lst([chr(34) + x + chr(34) for x in fields])}')
            if slots is not None:
                out.append(f'  slots := some {lst([chr(34) + x + chr(34) for x in slots])}')
            if mutable:
                out.append('  mutable := true')
            out.append('')
            classes.append(f'{s.name}.classDef')
            names.append((s.name, f'.cls "{s.name}"'))
        else:
            init.append(s)
    out.append(f'/-- Module `{mod}` ({path}). -/')
    out.append(f'def {title} : Module where')
    out.append(f'  name := "{mod}"')
    out.append('  names := [' + ',\n    '.join(f'("{n}", {g})' for n, g in names) + ']')
    if init:
        out.append(f'  init := {block(init, 2)}')
    out.append('')
    out.append('end Melodia.Source')
    open(f'{target_dir}/{title[0].upper() + title[1:]}.lean', 'w').write('\n'.join(out) + '\n')
    return title, classes


def main():
    root, target_dir = sys.argv[1:]
    mods = [('melodia.core.signature', 'signature', 'signatureModule'), ('melodia.core.tone', 'tone', 'toneModule'),
            ('melodia.core.note', 'note', 'noteModule'), ('melodia.core.track', 'track', 'trackModule'),
            ('melodia.processing.track', 'processing', 'processingModule'), ('melodia.io.midi', 'midi', 'midiModule'),
            ('melodia.music.chord', 'chord', 'chordModule'), ('melodia.core', 'core', 'coreModule'),
            ('melodia.io', 'ioPackage', 'ioPackageModule'), ('melodia.music', 'musicPackage', 'musicPackageModule'),
            ('melodia.processing', 'processingPackage', 'processingPackageModule'),
            ('melodia', 'melodiaPackage', 'melodiaPackageModule')]
    done = [module(root, m, n, t, target_dir) for m, n, t in mods]
    module(root, 'generate_chords', 'generateChords', 'generateChordsModule', target_dir, 'scripts')
    out = ['/-', 'The whole program, written by tools/translate.py.', '-/']
    out += [f'import Verif.Source.{t[0].upper() + t[1:]}' for t, _ in done]
    out += ['', 'set_option autoImplicit false', '', 'namespace Melodia.Source', '', 'open Melodia.Python', '']
    out.append('/-- All modules and classes. -/')
    out.append('def program : Program where')
    out.append('  modules := [' + ', '.join(t for t, _ in done) + ']')
    out.append('  classes := [' + ',\n    '.join(c for _, cs in done for c in cs) + ']')
    out += ['', 'end Melodia.Source']
    open(f'{target_dir}/Program.lean', 'w').write('\n'.join(out) + '\n')


main()
