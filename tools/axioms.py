#!/usr/bin/env python3
"""Write AXIOMS.md: the axioms each theorem of MANIFEST.json depends on (run after `lake build`)."""
import json, os, re, subprocess, tempfile
root = os.path.dirname(os.path.dirname(os.path.abspath(__file__)))
claims = json.load(open(f"{root}/MANIFEST.json"))["claims"]
names = [(c["property"], t) for c in claims for t in c["theorems"]]
with tempfile.NamedTemporaryFile("w", suffix=".lean", dir="/tmp", delete=False) as f:
    f.write("import Verif\n" + "".join(f"#print axioms {t}\n" for _, t in names))
out = subprocess.run(["lake", "env", "lean", f.name], cwd=f"{root}/lean", capture_output=True, text=True).stdout
os.unlink(f.name)
ax = {}
for m in re.finditer(r"'([^']+)' (?:depends on axioms: \[([^\]]*)\]|does not depend on any axioms)", out):
    ax[m.group(1)] = ", ".join(sorted(x.strip() for x in (m.group(2) or "").split(",") if x.strip())) or "none"
with open(f"{root}/AXIOMS.md", "w") as f:
    f.write("# Axioms the theorems depend on\n\nGenerated by `tools/axioms.py` with `#print axioms`.\n\n| property | theorem | axioms |\n|---|---|---|\n")
    for p, t in names:
        f.write(f"| {p} | `{t}` | {ax[t]} |\n")
print(len(names), sorted(set(ax.values())))
