"""Regenerate MANIFEST.json and lean/Verif/Audit.lean from the property theorems in lean/Verif/Props.

A property is `proved` when it has theorems and is not listed in tools/status.json;
status.json holds {"Cxx": {"status": ..., "note": ...}} for the rest and for notes."""
import json, re, pathlib
root = pathlib.Path(__file__).resolve().parent.parent
status = json.loads((root / "tools/status.json").read_text())
props = [json.loads(l) for l in (root / "properties.jsonl").read_text().splitlines() if l.strip()]
ids = [p["id"] for p in props]
found = {i: [] for i in ids}
mods = []
for f in sorted((root / "lean/Verif/Props").glob("*.lean")):
    mods.append(f.stem)
    ns = []
    depth = 0
    for line in f.read_text().splitlines():
        if m := re.match(r"namespace (\S+)", line): ns.append(m[1])
        elif m := re.match(r"end (\S+)", line):
            if ns and ns[-1] == m[1]: ns.pop()
        elif m := re.match(r"(?:@\[[^\]]*\] )?theorem (C\d+)(_\S+)", line):
            found[m[1]].append(".".join(ns + [m[1] + m[2]]))
claims = []
for i in ids:
    s = status.get(i, {})
    st = s.get("status", "proved" if found[i] else None)
    if st is None: continue
    claims.append({"property": i, "status": st, "theorems": found[i], "note": s.get("note", "")})
(root / "MANIFEST.json").write_text('{"claims": [\n' + ",\n".join(json.dumps(c, ensure_ascii=False) for c in claims) + "\n]}\n")
aud = "".join(f"import Verif.Props.{m}\n" for m in mods)
aud += "/-\nAxioms used by every property theorem (generated by tools/manifest.py).\n-/\n"
aud += "\n".join(f"#print axioms {t}" for i in ids for t in found[i]) + "\n"
(root / "lean/Verif/Audit.lean").write_text(aud)
(root / "lean/Verif.lean").write_text("".join(f"import Verif.Props.{m}\n" for m in mods) + "import Verif.Audit\n")
miss = [i for i in ids if not found[i] and i not in status]
print("claims", len(claims), "missing", miss)

# DESIGN.md: the list of disagreements, from the comments of the `_refuted` theorems
rows = {}
for f in sorted((root / "lean/Verif/Props").glob("*.lean")):
    t = f.read_text()
    for m in re.finditer(r"/--((?:(?!-/).)*)-/\s*(?:@\[[^\]]*\]\s*)?theorem (C\d+)(_\S*_refuted|_refuted)", t, re.S):
        rows.setdefault(m[2], []).append((m[2] + m[3], re.sub(r"\s+", " ", m[1]).strip()))
d = (root / "DESIGN.md").read_text()
k = d.index("## Disagreements between claim and code")
d = d[:k] + "## Disagreements between claim and code\n\nGenerated by `tools/manifest.py` from the theorems whose names end in `_refuted`: each is a proof, with a concrete witness, that the code as modelled does not meet a part of the claim.\n\n"
for i in ids:
    for n, t in rows.get(i, []):
        d += f"* `{n}`: {t}\n"
(root / "DESIGN.md").write_text(d)
