"""Prints lean/Verif/Model/MergeTable.lean: what every entity class merges and compares, read from the text of /repo.

The bodies of `merge`, `mergable_with`, `__eq__` and `__hash__` are matched against the shapes below; any other shape stops the script.
"""
import ast, glob, re

R = '/repo/draftsman/'
FILES = sorted(glob.glob(R + 'classes/entity.py') + glob.glob(R + 'classes/mixins/*.py') + glob.glob(R + 'prototypes/*.py'))
cls = {}
for f in FILES:
    if f.endswith('filter_inserter.py'): continue   # never imported
    for c in ast.parse(open(f).read()).body:
        if isinstance(c, ast.ClassDef) and not c.name.startswith('_'): cls[c.name] = (c, f)

def linear(ls):
    out = []
    while any(ls):
        ls = [l for l in ls if l]
        h = next(l[0] for l in ls if not any(l[0] in m[1:] for m in ls))
        out.append(h)
        ls = [[x for x in l if x != h] for l in ls]
    return out
def mro(n):
    if n not in cls: return [n]
    b = [ast.unparse(x) for x in cls[n][0].bases]
    return [n] + linear([mro(x) for x in b] + [b])

def part(n):
    """The contribution of one class: (lines, before, after, compared, same, hash), or None."""
    c, f = cls[n]
    meth = {m.name: m for m in c.body if isinstance(m, ast.FunctionDef)}
    pre, post, cmp, same, hsh, lines = [], [], [], [], None, []
    sup = {f'super().{{}}(other)', f'super({n}, self).{{}}(other)'}
    if 'merge' in meth:
        m = meth['merge']; lines.append(m)
        seen = n == 'Entity'
        for s in m.body:
            if ast.unparse(s) in {x.format('merge') for x in sup}:
                assert n != 'Entity' and not seen; seen = True
            elif n == 'CircuitConnectableMixin':   # the wires of the other, `Model/Merge.lean`
                assert ast.unparse(s).startswith('if other.parent is not None:')
            else:
                k = re.fullmatch(r'self\.(\w+) = (?:(?:copy\.)?deepcopy\()?other\.(\w+)\)?', ast.unparse(s))
                assert k and k[1] == k[2], (n, ast.unparse(s))
                (post if seen else pre).append(k[1])
        assert seen
    if '__eq__' in meth:
        m = meth['__eq__']; lines.append(m)
        assert len(m.body) == 1
        v = [ast.unparse(x) for x in m.body[0].value.values]
        head = v.pop(0)
        assert head in ({x.format('__eq__') for x in sup} if n != 'Entity' else {'type(self) == type(other)'}), (n, head)
        for x in v:
            k = re.fullmatch(r'self\.(\w+) == other\.(\w+)', x)
            assert k and k[1] == k[2], x
            cmp.append(k[1])
        hsh = 'null'
    if 'mergable_with' in meth:
        m = meth['mergable_with']; lines.append(m)
        t = ' '.join(ast.unparse(x) for x in m.body)
        if n == 'Entity':
            assert t == 'return type(self) == type(other) and self.name == other.name and (self.global_position == other.global_position) and (self.id == other.id)', t
        else:
            k = re.fullmatch(r'base_mergable = super\(\)\.mergable_with\(other\) return base_mergable and self\.(\w+) == other\.(\w+)', t)
            assert k and k[1] == k[2], t
            same.append(k[1])
    if '__hash__' in meth:
        assert n == 'Entity' and ast.unparse(meth['__hash__'].body[0]) == 'return id(self) >> 4'
        hsh = 'ident'; lines.append(meth['__hash__'])
    for m in c.body:
        if isinstance(m, ast.Assign) and ast.unparse(m.targets[0]) == '__hash__':
            assert ast.unparse(m.value) == 'Entity.__hash__'
            hsh = 'ident'; lines.append(m)
    if not lines: return None
    return lines, pre, post, cmp, same, hsh

low = lambda s: s[0].lower() + s[1:]
def spans(ms): return ', '.join(f'{m.lineno}-{m.end_lineno}' if m.lineno != m.end_lineno else str(m.lineno) for m in sorted(ms, key=lambda m: m.lineno))
def strs(l): return '[' + ', '.join(f'"{x}"' for x in l) + ']'

ents = [n for n in cls if 'Entity' in mro(n) and n != 'Entity' and '/prototypes/' in cls[n][1]]
used = {k for n in ents for k in mro(n) if k in cls}
parts = {n: part(n) for n in used}
bare = {n for n, p in parts.items() if p and not (p[1] or p[2] or p[3] or p[4]) and p[5] == 'ident'}
empty = {n for n, p in parts.items() if p and not (p[1] or p[2] or p[3] or p[4]) and p[5] is None}   # merge only calls super
out = ['''import Verif.Model.MergeAttr
import Verif.Model.AttrTable
/-
What every entity class merges, compares and hashes.  Written by `tools/merge_table.py` from the text of `/repo`; each part cites the
methods it was read from.  `CargoBay`, `FusionReactor`, `HalfDiagonalRail` and `RailSupport` do not derive from `Entity` and are left out,
as is `FilterInserter`, which is never imported.
-/
namespace Draftsman
namespace MergeAttr
open Attr
''']
for n in sorted(parts, key=lambda n: (n != 'Entity', cls[n][1], n)):
    p = parts[n]
    if not p or n in bare or n in empty: continue
    h = {None: 'none', 'null': 'some .null', 'ident': 'some .ident'}[p[5]]
    out.append(f'/-- `{n}`, `{cls[n][1]}:{spans(p[0])}`. -/\ndef {low(n)}Part : Part := ⟨{strs(p[1])}, {strs(p[2])}, {strs(p[3])}, {strs(p[4])}, {h}⟩\n')
out.append('''/-- A prototype class that defines nothing of the kind but `__hash__ = Entity.__hash__`, e.g. `/repo/draftsman/prototypes/pipe.py:50`; the rows of `table` have
the line for each. -/
def hashPart : Part := ⟨[], [], [], [], some .ident⟩
''')
out.append('''/-- The classes with the parts of their bases in the order of method resolution, bases without any part left out; each row cites the
class statement and, for `hashPart`, the line of the hash.  `class X(Mixin, …, Entity)` in `/repo/draftsman/prototypes`. -/
def table : List (Cls × List Part) := [''')
rows = []
for n in sorted(ents):
    ks = [k for k in mro(n) if k in cls and parts[k] and k not in empty]
    names = ['hashPart' if k in bare else low(k) + 'Part' for k in ks]
    c, f = cls[n]
    cite = f'{f[len(R):]}:{c.lineno}' + (f', {spans(parts[n][0])}' if n in bare else '')
    rows.append((f'  ({low(n)}, [{", ".join(names)}])', cite))
for i, (r, c) in enumerate(rows):
    out.append(r + (',' if i + 1 < len(rows) else ']') + f'  -- {c}')
out.append('\nend MergeAttr\nend Draftsman')
print('\n'.join(out))
