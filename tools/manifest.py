#!/usr/bin/env python3
"""Rewrite MANIFEST.json from the theorem names in lean/Verif/Props and the notes below."""
import glob, json, os, re

root = os.path.dirname(os.path.dirname(os.path.abspath(__file__)))
notes = json.load(open(os.path.join(root, "tools", "notes.json")))
names = {}
for f in sorted(glob.glob(os.path.join(root, "lean/Verif/Props/*.lean"))):
    for m in re.finditer(r"^(?:protected )?theorem (C\d+)_(\S+)", open(f).read(), re.M):
        names.setdefault(m.group(1), []).append("KMedoids." + m.group(1) + "_" + m.group(2))
claims = []
for line in open(os.path.join(root, "properties.jsonl")):
    p = json.loads(line)["id"]
    n = notes.get(p)
    if p in names:
        status, note = n if n else ("proved", "")
        claims.append({"property": p, "status": status, "theorems": names[p], "note": note})
    elif n:
        claims.append({"property": p, "status": n[0], "theorems": [], "note": n[1]})
json.dump({"claims": claims}, open(os.path.join(root, "MANIFEST.json"), "w"), indent=1, ensure_ascii=False)
for c in claims:
    print(c["property"], c["status"], len(c["theorems"]))
