#!/usr/bin/env python3
"""Generate /verif/MANIFEST.json from the property theorems in lean/Verif/Props.  Run: python3 tools/manifest.py

A property is `partial` if one of its theorems carries the suffix `_partial` and `NOTES` does not say otherwise."""
import glob, json, os, re
root = os.path.dirname(os.path.dirname(os.path.abspath(__file__)))
ids = [json.loads(l)["id"] for l in open(os.path.join(root, "properties.jsonl"))]
notes = json.load(open(os.path.join(root, "tools", "notes.json")))
thms = {i: [] for i in ids}
for f in sorted(glob.glob(os.path.join(root, "lean/Verif/Props/**/*.lean"), recursive=True)):
    for m in re.finditer(r"^theorem (C\d+_\w+)", open(f).read(), re.M):
        i = m.group(1).split("_")[0]
        thms[i].append("Ripple." + m.group(1))
claims = []
for i in ids:
    if not thms[i]:
        continue
    st = "partial" if any(t.endswith("_partial") for t in thms[i]) or i in notes["_partial"] else "proved"
    claims.append({"property": i, "status": st, "theorems": thms[i], "note": notes.get(i, "")})
json.dump({"claims": claims}, open(os.path.join(root, "MANIFEST.json"), "w"), indent=1)
print(len(claims), "claims; missing:", [i for i in ids if not thms[i]])
