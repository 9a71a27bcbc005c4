#!/usr/bin/env python3
"""Write AXIOMS.md: the axioms every theorem named in MANIFEST.json depends on, as Lean reports them."""
import json, os, re, subprocess

ROOT = os.path.dirname(os.path.dirname(os.path.abspath(__file__)))
claims = json.load(open(ROOT + "/MANIFEST.json"))["claims"]
names = [t for c in claims for t in c["theorems"]]
with open("/tmp/axioms.lean", "w") as f:
    f.write("import Verif\n" + "".join("#print axioms %s\n" % n for n in names))
out = subprocess.run(["lake", "env", "lean", "/tmp/axioms.lean"], cwd=ROOT + "/lean", capture_output=True, text=True).stdout
ax = {}
for m in re.finditer(r"'([^']+(?:'*))' (?:depends on axioms: \[([^\]]*)\]|does not depend on any axioms)", out):
    ax[m.group(1)] = sorted(x.strip() for x in (m.group(2) or "").split(",") if x.strip())
missing = [n for n in names if n not in ax]
assert not missing, missing
allowed = {"propext", "Classical.choice", "Quot.sound"}
assert all(set(v) <= allowed for v in ax.values())
with open(ROOT + "/AXIOMS.md", "w") as f:
    f.write("# Axioms of the theorems in MANIFEST.json\n\nGenerated by `tools/gen_axioms.py` from `#print axioms`.\n\n| property | theorem | axioms |\n|---|---|---|\n")
    for c in claims:
        for t in c["theorems"]:
            f.write("| %s | `%s` | %s |\n" % (c["property"], t, ", ".join(ax[t]) or "none"))
print(len(names), "theorems")
