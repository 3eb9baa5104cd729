#!/usr/bin/env python3
"""Writes /verif/MANIFEST.json from the theorem names in lean/Verif/Props and the notes below."""
import json, re, glob, os
root = os.path.dirname(os.path.dirname(os.path.abspath(__file__)))
thms = {}
for f in sorted(glob.glob(root + "/lean/Verif/Props/*.lean")):
    for m in re.finditer(r"^theorem (C(\d+)_\w+)", open(f).read(), re.M):
        thms.setdefault("C" + m.group(2), []).append("Verif.Props." + m.group(1))
notes = {}
exec(open(root + "/tools/notes.py").read())
claims = []
for line in open(root + "/properties.jsonl"):
    i = json.loads(line)["id"]
    ts = thms.get(i, []) 
    ts = ts + [t for t in also.get(i, [])]
    part = any(t.endswith(("_partial", "_refuted")) for t in ts)
    if not ts: continue
    claims.append(dict(property=i, status="partial" if part else "proved", theorems=ts,
                       note=notes.get(i, "")))
json.dump({"claims": claims}, open(root + "/MANIFEST.json", "w"), indent=1)
print(len(claims), "claims;", sum(len(c["theorems"]) for c in claims), "theorems; partial:",
      [c["property"] for c in claims if c["status"] == "partial"])
