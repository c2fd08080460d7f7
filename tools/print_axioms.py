#!/usr/bin/env python3
"""Runs `#print axioms` on every theorem of MANIFEST.json and writes tools/axioms.txt.
Needs a finished `lake build` in lean/."""
import json, os, re, subprocess, tempfile, collections
root = os.path.abspath(os.path.join(os.path.dirname(os.path.abspath(__file__)), ".."))
names = [t for c in json.load(open(root + "/MANIFEST.json"))["claims"] for t in c["theorems"]]
src = "import Verif\n" + "".join("#print axioms %s\n" % n for n in names)
with tempfile.NamedTemporaryFile("w", suffix=".lean", delete=False) as f:
    f.write(src)
out = subprocess.run(["lake", "env", "lean", f.name], cwd=root + "/lean", capture_output=True, text=True).stdout
os.unlink(f.name)
out = re.sub(r"\s+", " ", out)
res = dict((m.group(1), m.group(2)) for m in re.finditer(r"'([\w.]+)' depends on axioms: \[([^\]]*)\]", out))
res.update((m.group(1), "none") for m in re.finditer(r"'([\w.]+)' does not depend on any axioms", out))
ok = {"propext", "Classical.choice", "Quot.sound"}
cnt = collections.Counter(); bad = []
with open(root + "/tools/axioms.txt", "w") as g:
    for n in names:
        a = res.get(n, "MISSING"); cnt[a] += 1
        if a != "none" and not set(a.split(", ")) <= ok: bad.append((n, a))
        g.write("%s: %s\n" % (n, a))
print(len(names), dict(cnt)); print("BAD:", bad)
