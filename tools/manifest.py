#!/usr/bin/env python3
"""Regenerates MANIFEST.json and lean/Verif/Audit.lean from the theorem names in lean/Verif/Props.

A theorem belongs to property Cnn if its name starts with `Cnn_`.  Status and notes are in
STATUS below; the default status is "proved" once there is a theorem.
"""
import json, os, re
root = os.path.dirname(os.path.dirname(os.path.abspath(__file__)))
STATUS = json.load(open(os.path.join(root, "tools", "status.json")))
props = [json.loads(l)["id"] for l in open(os.path.join(root, "properties.jsonl")) if l.strip()]
pdir = os.path.join(root, "lean", "Verif", "Props")
thms, mods = {}, []
for f in sorted(os.listdir(pdir)):
    if not f.endswith(".lean"): continue
    mods.append("Verif.Props." + f[:-5])
    for m in re.finditer(r"^theorem ((C\d+)_\w*)", open(os.path.join(pdir, f)).read(), re.M):
        thms.setdefault(m.group(2), []).append("Verif.Props." + m.group(1))
claims = []
for p in props:
    st, note = STATUS.get(p, ["proved", ""])
    ts = thms.get(p, [])
    if not ts:
        continue
    claims.append({"property": p, "status": st, "theorems": ts, "note": note})
json.dump({"claims": claims}, open(os.path.join(root, "MANIFEST.json"), "w"), indent=1)
with open(os.path.join(root, "lean", "Verif", "Audit.lean"), "w") as o:
    o.write("".join("import %s\n" % m for m in mods))
    o.write("\n/-! Axioms of every property theorem (generated by tools/manifest.py). -/\n\n")
    for c in claims:
        for t in c["theorems"]:
            o.write("#print axioms %s\n" % t)
with open(os.path.join(root, "lean", "Verif.lean"), "w") as o:
    o.write("".join("import %s\n" % m for m in mods))
    o.write("import Verif.Audit\n")
missing = [p for p in props if p not in thms]
print("claims", len(claims), "theorems", sum(len(c["theorems"]) for c in claims), "missing", missing)
