"""Prints lean/Verif/Model/CtorTable.lean: the constructors of all entity classes and mixins, read from the text of /repo.

Every statement of a constructor is matched against the shapes below; one of another shape stops the script unless it is listed in
INTERNAL (caches and geometry, modelled elsewhere), so that no row rests on a guess.
"""
import ast, glob, re
R = '/repo/draftsman/'
FILES = sorted(glob.glob(R + 'classes/entity.py') + glob.glob(R + 'classes/mixins/*.py') + glob.glob(R + 'prototypes/*.py'))
cls = {}
for f in FILES:
    if f.endswith('filter_inserter.py'): continue   # never imported
    for c in ast.parse(open(f).read()).body:
        if isinstance(c, ast.ClassDef) and not c.name.startswith('_'): cls[c.name] = (c, f)
def init(n):
    for m in cls[n][0].body:
        if isinstance(m, ast.FunctionDef) and m.name == '__init__': return m
INTERNAL = [r'_valid_input_ingredients', r'_valid_fuel_items', r'self\._overwritten_collision_set', r'self\._collision_set\b', r'self\._collision_set_rotation',
            r'self\._disable_collision_set_rotation', r'self\._static_tile_', r'self\._instruments', r'original = entities\.collision_sets',
            r'if original is not None', r"if not hasattr\(self, '_overwritten_collision_set'\)"]
def const(e):
    """a default value"""
    u = ast.unparse(e)
    if u == 'None': return '.none'
    if u in ('{}', '[]'): return None
    return '.const "' + u.replace('"', "'") + '"'
def layer(n):
    m = init(n); c, f = cls[n]
    a = m.args
    assert a.kwarg and a.kwarg.arg == 'kwargs'
    ds = [None] * (len(a.args) - len(a.defaults)) + a.defaults
    params = []
    for x, d in zip(a.args, ds):
        if x.arg in ('self', 'similar_entities'): continue
        if d is None: params.append((x.arg, '.none'))
        else: params.append((x.arg, const(d) or f'.shared "{n}" "{x.arg}" "{ast.unparse(d)}"'))
    names = [p for p, _ in params]
    def expr(e):
        u = ast.unparse(e)
        if u in names: return f'.par "{u}"'
        k = re.fullmatch(r'\{\} if (\w+) is None else \1', u)
        if k and k[1] in names: return f'.orNew "{k[1]}"'
        k = re.fullmatch(r"kwargs\.get\('(\w+)', (.+)\)", u)
        if k:
            d = ast.parse(k[2], mode='eval').body
            if k[2] == 'self.Format.InventoryFilters()': return f'.kwarg "{k[1]}" (.new "InventoryFilters()")'
            cc = const(d)
            return f'.kwarg "{k[1]}" ' + (f'(.new "{k[2]}")' if cc is None else '(.obj (' + cc + '))')
        if isinstance(e, ast.Constant): return f'.obj ({const(e)})'
        raise SystemExit(f'{n}: expression {u}')
    pas, post, seen, typed = [], [], False, False
    for s in m.body:
        u = re.sub(r'\s+', ' ', ast.unparse(s))
        if isinstance(s, ast.Expr) and isinstance(s.value, ast.Constant): continue
        if isinstance(s, ast.AnnAssign): continue
        if any(re.search(r, u) for r in INTERNAL): continue
        if u == "if 'position' in kwargs and kwargs['position'] is None: del kwargs['position']": continue   # part of `place`
        if u == "if 'type' in kwargs and io_type == 'input': io_type = kwargs['type']": typed = True; continue
        if isinstance(s, ast.Expr) and isinstance(s.value, ast.Call) and re.fullmatch(r'super\((\w+, self)?\)\.__init__', ast.unparse(s.value.func)):
            assert not seen; seen = True
            v = s.value
            pos = [ast.unparse(x) for x in v.args]
            kws = [(k.arg, k.value) for k in v.keywords]
            assert kws[-1][0] is None and ast.unparse(kws[-1][1]) == 'kwargs', n
            kws = kws[:-1]
            assert (pos and pos[0] == 'name') or ('name' in dict(kws)), n
            pas.append(('name', '.par "name"'))
            for k, e in kws:
                if k in ('name', 'similar_entities'): continue
                x = expr(e)
                if typed and k == 'io_type': x = '.typeOr "io_type"'
                pas.append((k, x))
            continue
        if u == 'self.validate_assignment = validate_assignment': post.append('.mode'); continue
        if u == "if 'position' in kwargs: self.position = kwargs['position'] else: self.tile_position = tile_position":
            post.append('.place'); continue
        if u == "if 'type' in kwargs: self.io_type = kwargs['type'] else: self.io_type = kwargs['io_type']":
            post.append('.ioType'); continue
        k = re.fullmatch(r'if (\w+) is None: self\.\1 = self\.(default_\1) else: self\.\1 = \1', u)
        if k: post.append(f'.set "{k[1]}" (.orOwn "{k[1]}" "{k[2]}")'); continue
        k = re.fullmatch(r'self\._root\.(\w+) = (.+)', u)
        if k: post.append(f'.setField "{k[1]}" ({expr(s.value)})'); continue
        k = re.fullmatch(r'self\.(\w+) = (.+)', u)
        if k: post.append(f'.set "{k[1]}" ({expr(s.value)})'); continue
        raise SystemExit(f'{n}: {u}')
    assert seen, n
    return params, pas, post, f, m.lineno, m.end_lineno
def wrap(s, ind, width=138):
    out, cur = [], ''
    for tok in re.split(r'(?<=\),) (?=\()|(?<=,) (?=\.)', s):
        if cur and len(cur) + len(tok) + 1 + ind > width: out.append(cur); cur = tok
        else: cur = cur + ' ' + tok if cur else tok
    out.append(cur)
    return ('\n' + ' ' * ind).join(out)
def lname(n): return n[0].lower() + n[1:] + 'Init'
o = ['''import Verif.Model.Ctor
/-
The constructors of all entity classes and mixins.  Written by `tools/ctor_table.py` from the text of `/repo`; each row cites the constructor it
was read from.  Left out: the class `FilterInserter`, which is never imported, and the caches and collision sets filled on the way.
-/
namespace Draftsman
namespace Ctor
open Attr
''']
def ev(name, l):
    params, pas, post, f, a, b = l
    o.append(f'/-- `/repo/draftsman/{f[len(R):]}:{a}-{b}`. -/')
    o.append(f'def {lname(name)} : Layer where')
    o.append(f'  cls := "{name}"')
    o.append('  params := ' + wrap('[' + ', '.join(f'("{p}", {d})' for p, d in params) + ']', 4))
    o.append('  pass := ' + wrap('[' + ', '.join(f'("{p}", {d})' for p, d in pas) + ']', 4))
    o.append('  post := ' + wrap('[' + ', '.join(post) + ']', 4))
    o.append('')
mix = [n for n, (c, f) in cls.items() if '/mixins/' in f and init(n)]
for n in mix: ev(n, layer(n))
protos = [n for n, (c, f) in cls.items() if '/prototypes/' in f and init(n) and any(x.arg == 'validate_assignment' for x in init(n).args.args)]
good, bad = [], []
for n in protos:
    c, f = cls[n]
    ev(n, layer(n))
    bases = [ast.unparse(b) for b in c.bases]
    for b in bases[:-1]: assert not cls[b][0].bases or [ast.unparse(x) for x in cls[b][0].bases] == ['object'], b
    low = n[0].lower() + n[1:]
    if not bases: bad.append(n)
    else:
        assert bases[-1] == 'Entity'
        good.append((n, f'⟨Attr.{low}, {"true" if "DirectionalMixin" in bases or "EightWayDirectionalMixin" in bases else "false"}, '
          f'{"true" if "OrientationMixin" in bases else "false"}, [' + ', '.join([lname(n)] + [lname(b) for b in bases[:-1] if b in mix]) + ']⟩', f, c.lineno))
for n, t, f, l in good:
    o.append(f'/-- `/repo/draftsman/{f[len(R):]}:{l}`: the class with the constructors in the order of method resolution. -/')
    o.append(f'def {n[0].lower() + n[1:]} : Kind :=\n  {wrap(t, 4)}\n')
o.append('/-- The classes derived from `Entity`, imported by `/repo/draftsman/entity.py`. -/')
o.append('def kinds : List Kind := ' + '[' + ',\n  '.join(', '.join(n[0].lower() + n[1:] for n, *_ in good[i:i + 8]) for i in range(0, len(good), 8)) + ']')
o.append('\n/-- Those that are not: `/repo/draftsman/prototypes/' + '`, `/repo/draftsman/prototypes/'.join(f'{cls[n][1].split("/")[-1]}:{cls[n][0].lineno}' for n in bad) + '`. -/')
o.append('def orphans : List Layer := [' + ', '.join(lname(n) for n in bad) + ']')
o.append('\nend Ctor\nend Draftsman')
print('\n'.join(o))
