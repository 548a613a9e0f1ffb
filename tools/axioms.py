#!/usr/bin/env python3
"""List the axioms of every theorem in MANIFEST.json; writes AXIOMS.txt."""
import json, os, re, subprocess, tempfile

root = os.path.dirname(os.path.dirname(os.path.abspath(__file__)))
claims = json.load(open(os.path.join(root, "MANIFEST.json")))["claims"]
names = [t for c in claims for t in c["theorems"]]
src = "import Verif\n" + "".join(f"#print axioms {t}\n" for t in names)
with tempfile.NamedTemporaryFile("w", suffix=".lean", delete=False) as f:
    f.write(src)
out = subprocess.run(["lake", "env", "lean", f.name], cwd=os.path.join(root, "lean"),
                     capture_output=True, text=True).stdout
out = re.sub(r",\s+", ", ", out)
rows = []
for m in re.finditer(r"'([^']+)' (?:depends on axioms: \[([^\]]*)\]|does not depend on any axioms)", out):
    rows.append((m.group(1), m.group(2) or "none"))
allowed = {"propext", "Classical.choice", "Quot.sound", "none"}
bad = [r for r in rows if not set(r[1].split(", ")) <= allowed]
with open(os.path.join(root, "AXIOMS.txt"), "w") as g:
    for r in rows:
        g.write(f"{r[0]}: {r[1]}\n")
print(len(names), "theorems,", len(rows), "reported, unexpected:", bad)
