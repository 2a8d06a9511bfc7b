#!/usr/bin/env python3
"""Write AXIOMS.md: the axioms each theorem of MANIFEST.json depends on, as reported by
`#print axioms`.  Run after `lake build`."""
import json, os, re, subprocess, tempfile
root = os.path.dirname(os.path.dirname(os.path.abspath(__file__)))
claims = json.load(open(f"{root}/MANIFEST.json"))["claims"]
names = [t for c in claims for t in c["theorems"]]
with tempfile.TemporaryDirectory() as d:
    f = os.path.join(d, "Axioms.lean")
    open(f, "w").write("import Verif\n" + "".join(f"#print axioms {n}\n" for n in names))
    out = subprocess.run(["lake", "env", "lean", f], cwd=f"{root}/lean", capture_output=True, text=True)
out = re.sub(r"\n\s+", " ", out.stdout)
found = {}
for m in re.finditer(r"'([^']+)' depends on axioms: \[([^\]]*)\]", out):
    found[m[1]] = ", ".join(sorted(m[2].replace(" ", "").split(",")))
for m in re.finditer(r"'([^']+)' does not depend on any axioms", out):
    found[m[1]] = "none"
missing = [n for n in names if n not in found]
assert not missing, missing
groups = {}
for n in names:
    groups.setdefault(found[n], []).append(n.removeprefix("Popsynth."))
with open(f"{root}/AXIOMS.md", "w") as f:
    f.write("# Axioms of the theorems\n\nGenerated by `tools/gen_axioms.py` from `#print axioms`.\n")
    for g in sorted(groups, key=len):
        f.write(f"\n## {g} ({len(groups[g])} theorems)\n\n" + ", ".join(f"`{n}`" for n in groups[g]) + "\n")
print({g: len(v) for g, v in groups.items()})
