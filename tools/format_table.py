"""Prints lean/Verif/Model/FormatTable.lean: the defaults of the fields in the formats of all entity classes and mixins, read from the text of /repo."""
import ast, glob
R = '/repo/draftsman/'
FILES = sorted(glob.glob(R + 'classes/entity.py') + glob.glob(R + 'classes/mixins/*.py') + glob.glob(R + 'prototypes/*.py'))
cls, fmt = {}, {}
for f in FILES:
    if f.endswith('filter_inserter.py'): continue   # never imported
    for c in ast.parse(open(f).read()).body:
        if isinstance(c, ast.ClassDef) and not c.name.startswith('_'):
            cls[c.name] = (c, f)
            for m in c.body:
                if isinstance(m, ast.ClassDef) and m.name == 'Format': fmt[c.name] = (m, f)
def merge(ls):
    r = []
    while True:
        ls = [l for l in ls if l]
        if not ls: return r
        h = next(l[0] for l in ls if not any(l[0] in m[1:] for m in ls))
        r.append(h)
        for m in ls:
            if m[0] == h: m.pop(0)
def mro(n, table, bases):
    if n not in table: return []
    b = [x for x in bases(n) if x in table]
    return [n] + merge([mro(x, table, bases) for x in b] + [list(b)])
cbases = lambda n: [ast.unparse(b) for b in cls[n][0].bases]
fbases = lambda n: [ast.unparse(b).removesuffix('.Format') for b in fmt[n][0].bases]
def default(v):
    """the text of the default, or None if there is none"""
    if v is None: return None
    if isinstance(v, ast.Call) and ast.unparse(v.func) == 'Field':
        if v.args:
            return None if ast.unparse(v.args[0]) == '...' else ast.unparse(v.args[0])
        for k in v.keywords:
            if k.arg == 'default': return ast.unparse(k.value)
            assert k.arg != 'default_factory', ast.unparse(v)
        return None
    return ast.unparse(v)
def rows(n):
    r = []
    for m in fmt[n][0].body:
        if isinstance(m, ast.AnnAssign) and not m.target.id.startswith('_'):
            d = default(m.value)
            r.append('("%s", %s)' % (m.target.id, 'none' if d is None else 'some "' + d.replace('"', "'") + '"'))
    return r
def wrap(items, indent='  '):
    out, line = [], ''
    for i, x in enumerate(items):
        x += ', ' if i + 1 < len(items) else ''
        if len(line) + len(x) > 145: out.append(line.rstrip()); line = ''
        line += x
    return ('\n' + indent).join(out + [line])
low = lambda n: n[0].lower() + n[1:]
print('''/-
The defaults that the formats of entities declare for their fields.  Written by `tools/format_table.py` from the text of `/repo`; each row cites
the format it was read from.  A default is the text in the source; `none` is a field without one.
-/
namespace Draftsman
namespace Ctor
''')
for n in sorted(fmt):
    m, f = fmt[n]
    print(f'/-- `{f}:{m.lineno}-{m.end_lineno}`. -/')
    print(f'def {low(n)}Format : List (String × Option String) := [{wrap(rows(n))}]\n')
protos = [n for n in sorted(cls) if 'prototypes' in cls[n][1] and 'Entity' in mro(n, cls, cbases) and n != 'Entity']
print('/-- The formats that make up the one of a class, the most special first: the bases of its `Format`, e.g. `/repo/draftsman/prototypes/lamp.py:27-33`. -/')
print('def formatLayers : List (String × List (List (String × Option String))) := [')
for i, n in enumerate(protos):
    k = next(k for k in mro(n, cls, cbases) if k in fmt)
    print(f'  ("{n}", [' + ', '.join(low(x) + 'Format' for x in mro(k, fmt, fbases)) + '])' + (',' if i + 1 < len(protos) else ']'))
print('''
end Ctor
end Draftsman''')
