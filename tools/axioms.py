"""Write AXIOMS.md: the axioms of every property theorem, as printed by lean/Verif/Audit.lean (run after `lake build`)."""
import subprocess, re, pathlib
root = pathlib.Path(__file__).resolve().parent.parent
out = subprocess.run(["lake", "env", "lean", "Verif/Audit.lean"], cwd=root / "lean", capture_output=True, text=True).stdout
out = re.sub(r"\n\s+", " ", out)
groups = {}
for m in re.finditer(r"'(\S+)' (?:depends on axioms: \[([^\]]*)\]|does not depend on any axioms)", out):
    groups.setdefault(m[2] or "none", []).append(m[1].removeprefix("Draftsman."))
t = "# Axioms of the property theorems\n\nGenerated by `tools/axioms.py` from `#print axioms` (`lean/Verif/Audit.lean`). Names without the prefix `Draftsman.`\n"
for k in sorted(groups):
    t += f"\n## {k} ({len(groups[k])})\n\n" + ", ".join(groups[k]) + "\n"
(root / "AXIOMS.md").write_text(t)
print({k: len(v) for k, v in groups.items()})
