"""Prints lean/Verif/Model/AttrTable.lean: the settable attributes and the declared fields of every entity class, read from the text of /repo.

Getter and setter bodies are matched literally against the handful of shapes below; a body of another shape stops the script unless
the attribute is in SKIP, so that no row rests on a guess.
"""
import ast, glob, re, sys

R = '/repo/draftsman/'
FILES = sorted(glob.glob(R + 'classes/entity.py') + glob.glob(R + 'classes/mixins/*.py') + glob.glob(R + 'prototypes/*.py'))
# attributes modelled elsewhere (geometry, names, identifiers, speaker names, operands) or no attributes of entities
SKIP = {('Entity', a) for a in ('name', 'id', 'position', 'tile_position')} | {
    ('DirectionalMixin', 'direction'), ('EightWayDirectionalMixin', 'direction'), ('OrientationMixin', 'orientation'),
    ('ProgrammableSpeaker', 'instrument_name'), ('ProgrammableSpeaker', 'note_name')} | {
    ('ArithmeticCombinator', a) for a in ('first_operand', 'operation', 'second_operand', 'output_signal')}
# sub-objects that the constructors leave in another shape than the declared default: the line that does it
FRESH = {('CargoLandingPad', 'request_filters'): ('.none', 'classes/mixins/request_filters.py:72'),
         ('SpacePlatformHub', 'request_filters'): ('.none', 'classes/mixins/request_filters.py:72'),
         ('SpiderVehicle', 'automatic_targeting_parameters'): ('.atom 0', 'prototypes/spider_vehicle.py:119 with :147, a plain dict')}

cls, nested = {}, {}
def collect(prefix, node, f):
    for m in node.body:
        if isinstance(m, ast.ClassDef):
            nested[prefix + '.' + m.name] = (m, f)
            collect(prefix + '.' + m.name, m, f)
for f in FILES:
    if f.endswith('filter_inserter.py'): continue   # never imported
    for c in ast.parse(open(f).read()).body:
        if isinstance(c, ast.ClassDef) and not c.name.startswith('_'):
            cls[c.name] = (c, f); collect(c.name, c, f)

def path(expr):
    """`self._root.a.b`, `self.a['b']`, `self.a.get('b', None)` as a list of names below the root."""
    e = ast.parse(expr, mode='eval').body
    out = []
    while True:
        if isinstance(e, ast.Attribute): out.append(e.attr); e = e.value
        elif isinstance(e, ast.Subscript): out.append(e.slice.value); e = e.value
        elif isinstance(e, ast.Call) and isinstance(e.func, ast.Attribute) and e.func.attr == 'get':
            assert ast.unparse(e.args[1]) == 'None'
            out.append(e.args[0].value); e = e.func.value
        else:
            assert isinstance(e, ast.Name) and e.id == 'self', expr
            break
    out.reverse()
    return out[1:] if out[0] == '_root' else out

AT = r"attempt_and_reissue\(self, [\w.()]+, (?P<t>[\w.]+), '(?P<n>\w+)', value\)"
L = r"(?P<l>[\w.\[\]']+)"
SHAPES = [
    ('checked', rf"if self\.validate_assignment(?: is not ValidationMode\.NONE)?: (?:result|value) = {AT} {L} = (?:result|value) else: (?P<l2>[\w.\[\]']+) = value"),
    ('always', r"test_replace_me\(self, [\w.()]+, (?P<t>[\w.]+), '(?P<n>\w+)', value, self\.validate_assignment\)"),
    ('always', rf"result = {AT} {L} = result"),
    ('early', rf"if self\.validate_assignment: (?P<l3>[\w.]+) = value result = {AT} {L} = result else: (?P<l2>[\w.]+) = value"),
    ('early', rf"(?P<l3>[\w.]+) = value if self\.validate_assignment: result = {AT} {L} = result else: (?P<l2>[\w.]+) = value"),
    ('restored', rf"if self\.validate_assignment: try: original_items = (?P<l3>[\w.]+) (?P<l4>[\w.]+) = value value = {AT} except DataFormatError as e: (?P<l5>[\w.]+) = original_items raise e if value is None: (?P<l2>[\w.]+) = \[\] else: {L} = value"),
    ('orZero', rf"if self\.validate_assignment: value = {AT} if value is None: (?P<l2>[\w.]+) = 0 else: {L} = value"),
    ('raw', rf"(?P<l>[\w.]+) = value"),
]
def doc(m):
    b = m.body
    return b[1:] if b and isinstance(b[0], ast.Expr) and isinstance(b[0].value, ast.Constant) else b
def attrs(name):
    c, f = cls[name]
    g, s = {}, {}
    for m in c.body:
        if isinstance(m, ast.FunctionDef):
            for d in m.decorator_list:
                u = ast.unparse(d)
                if u == 'property': g[m.name] = m
                elif u.endswith('.setter'): s[m.name] = m
    rows = []
    for a, m in s.items():
        if (name, a) in SKIP: continue
        gb = doc(g[a])
        assert len(gb) == 1 and isinstance(gb[0], ast.Return), (name, a)
        get = path(ast.unparse(gb[0].value))
        txt = re.sub(r'\s+', ' ', ' '.join(ast.unparse(x) for x in doc(m)))
        for style, rx in SHAPES:
            k = re.fullmatch(rx, txt)
            if k: break
        else:
            raise SystemExit(f'{name}.{a}: {txt}')
        d = k.groupdict()
        if 't' in d:
            st = path(d['t'] + '.' + d['n']) if d['t'] != 'self._root' else [d['n']]
        else:
            st = path(d['l'])
        for q in ('l', 'l2', 'l3', 'l4', 'l5'):
            if d.get(q): assert path(d[q]) == st, (name, a, q, d[q], st)
        after = name == 'InfinityPipe' and st[:1] == ['infinity_settings'] and len(st) == 2
        rows.append((a, get, st, 'late' if after else style, f[16:], g[a].lineno, m.end_lineno))
    return rows
def fields(q):
    if q not in nested: return {}
    n, f = nested[q]; r = {}
    for b in reversed(n.bases): r.update(fields(ast.unparse(b)))
    for m in n.body:
        if isinstance(m, ast.AnnAssign): r[m.target.id] = (ast.unparse(m.annotation), ast.unparse(m.value) if m.value else None, q)
    return r
def lookup(owner, t):
    """the nested model class named in an annotation, looked up from the scope of `owner` outwards, then in signatures.py"""
    parts = owner.split('.')
    for i in range(len(parts), 0, -1):
        if '.'.join(parts[:i] + [t]) in nested: return '.'.join(parts[:i] + [t])
    for b in list(nested):
        if b.split('.')[-1] == t and not b.startswith('Sig'): pass
    return 'sig.' + t if 'sig.' + t in nested else None
for c in ast.parse(open(R + 'signatures.py').read()).body:
    if isinstance(c, ast.ClassDef): nested['sig.' + c.name] = (c, R + 'signatures.py')
def shape(q, want, ind, key=None):
    """the fields of a new instance; only sub-objects through which some attribute passes are opened"""
    out = []
    for k, (ann, val, owner) in fields(q).items():
        if k.startswith('_'): continue
        v = '.atom 0'
        sub = {w[1:] for w in want if len(w) > 1 and w[0] == k}
        if sub:
            if (key, k) in FRESH: v = FRESH[key, k][0]
            else:
                m = re.search(r'(\w+)\(\)', val or '') or re.search(r'(\w+)\(\)', '')
                assert m, (q, k, val)
                t = lookup(owner, m[1]); assert t, (q, k, m[1])
                v = shape(t, sub, ind + 2)
        out.append((k, v))
    lines, cur = [], ''
    items = [f'("{k}", {v})' for k, v in out]
    return '.model [' + ', '.join(items) + ']'
def wrap(s, ind, width=138):
    out, cur = [], ''
    for tok in re.split(r'(?<=,) ', s):
        if cur and len(cur) + len(tok) + 1 + ind > width:
            out.append(cur); cur = tok
        else: cur = cur + ' ' + tok if cur else tok
    out.append(cur)
    return ('\n' + ' ' * ind).join(out)

owners = [n for n in cls if attrs(n)]
protos = [n for n, (c, f) in cls.items() if '/prototypes/' in f and c.bases and ast.unparse(c.bases[-1]) == 'Entity']
def lname(n): return n[0].lower() + n[1:] + 'Attrs'
o = []
o.append('''import Verif.Model.Attr
/-
The settable attributes of every entity class and the fields of a new entity.
Written by `tools/attr_table.py` from the text of `/repo`; each row cites the getter and setter it was read from.
Left out: `name`, `id`, `position`, `tile_position`, `direction`, `orientation` (modelled with the geometry), the names of instruments and
notes, the operands of arithmetic combinators, and the class `FilterInserter`, which is never imported.
-/
namespace Draftsman
namespace Attr
''')
for n in owners:
    c, f = cls[n]; rows = attrs(n)
    o.append(f'/-- Settable attributes defined in `{n}`, `/repo/draftsman/{f[16:]}:{rows[0][5]}-{rows[-1][6]}`. -/')
    o.append(f'def {lname(n)} : List Attr := [')
    for i, (a, g, s, st, ff, l1, l2) in enumerate(rows):
        q = lambda p: '[' + ', '.join(f'"{x}"' for x in p) + ']'
        o.append(f'  ⟨"{a}", {q(g)}, {q(s)}, .{st}⟩{"," if i + 1 < len(rows) else "]"}  -- lines {l1}-{l2}')
    o.append('')
for n in protos:
    c, f = cls[n]
    bases = [ast.unparse(b) for b in c.bases]
    assert bases[-1] == 'Entity', n
    mro = [n] + bases
    av = [lname(k) for k in mro if k in owners]
    want = {tuple(p) for k in mro if k in owners for r in attrs(k) for p in (r[1], r[2])}
    F = n + '.Format'
    nn, _ = nested[F]
    s = shape(F, want, 4, n)
    note = ''.join(f'  Not the declared default: `{k[1]}`, set by `{v[1]}`.' for k, v in FRESH.items() if k[0] == n)
    o.append(f'/-- `/repo/draftsman/{f[16:]}:{c.lineno}` with its mixins, fields declared at lines {nn.lineno}-{nn.end_lineno} and in the formats of the mixins.{note} -/')
    o.append(f'def {n[0].lower() + n[1:]} : Cls where')
    o.append(f'  name := "{n}"')
    o.append('  layers := ' + wrap('[' + ', '.join(av) + ']', 4))
    o.append('  fresh := ' + wrap(s, 4))
    o.append('')
o.append('/-- All entity classes, `/repo/draftsman/entity.py` imports them. -/')
o.append('def classes : List Cls := ' + wrap('[' + ', '.join(n[0].lower() + n[1:] for n in protos) + ']', 2))
o.append('\nend Attr\nend Draftsman')
print('\n'.join(o))
