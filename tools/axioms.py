#!/usr/bin/env python3
"""Lists the axioms of every theorem named in MANIFEST.json (writes AXIOMS.md); run after `lake build`."""
import json, re, subprocess, tempfile, os
root = os.path.dirname(os.path.dirname(os.path.abspath(__file__)))
claims = json.load(open(root + "/MANIFEST.json"))["claims"]
names = [(c["property"], t) for c in claims for t in c["theorems"]]
src = "import Verif\n" + "".join(f"#print axioms {t}\n" for _, t in names)
with tempfile.NamedTemporaryFile("w", suffix=".lean", delete=False) as f:
    f.write(src)
out = subprocess.run(["lake", "env", "lean", f.name], cwd=root + "/lean", capture_output=True, text=True).stdout
out = re.sub(r"\n\s+", " ", out)
found = {}
for m in re.finditer(r"'([^']+(?:'[^' ]*)*)' (?:depends on axioms: \[([^\]]*)\]|does not depend on any axioms)", out):
    found[m.group(1)] = m.group(2) or "none"
allowed = {"propext", "Classical.choice", "Quot.sound", "none"}
bad = [t for _, t in names if t not in found or not set(found[t].split(", ")) <= allowed]
with open(root + "/AXIOMS.md", "w") as f:
    f.write("# Axioms of the property theorems\n\nWritten by `tools/axioms.py` from `#print axioms`.\n\n| property | theorem | axioms |\n|---|---|---|\n")
    for p, t in names:
        f.write(f"| {p} | `{t}` | {found.get(t, 'NOT FOUND')} |\n")
print(len(names), "theorems;", "unexpected:", bad)
