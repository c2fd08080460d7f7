#!/usr/bin/env python3
"""Writes /verif/MANIFEST.json from the theorem names in lean/Verif/Props and tools/status.json."""
import json, os, re, glob
root = os.path.join(os.path.dirname(os.path.abspath(__file__)), "..")
names = {}
for f in sorted(glob.glob(root + "/lean/Verif/Props/*.lean")):
    ns = "Verif.Props"
    for line in open(f):
        m = re.match(r"theorem (C(\d\d+)_\w+)", line)
        if m:
            names.setdefault("C" + m.group(2), []).append(ns + "." + m.group(1))
status = json.load(open(root + "/tools/status.json"))
claims = []
for line in open(root + "/properties.jsonl"):
    i = json.loads(line)["id"]
    st = status.get(i, {})
    th = names.get(i, [])
    if not th and not st:
        continue
    default = "proved" if th and not any(t.endswith("_partial") for t in th) else "partial"
    claims.append({"property": i, "status": st.get("status", default), "theorems": th,
                   "note": st.get("note", "" if th else "not yet proved")})
json.dump({"claims": claims}, open(root + "/MANIFEST.json", "w"), indent=1, ensure_ascii=False)
print(sum(len(c["theorems"]) for c in claims), "theorems;", sum(1 for c in claims if c["theorems"]), "properties of", len(claims))
