#!/usr/bin/env python3
"""Tests the theorems against wrong programs.

usage: mutate.py MUTANTS.json [first-id ...]

Each mutant is {"id", "def", "file", "old", "new", "claim", "props"}. The model file is edited in a
scratch copy of lean/ and everything is rebuilt. A theorem whose proof no longer goes through is
replaced by `sorry` there, and so on until the copy builds; the theorems that then depend on `sorryAx`
are the ones that failed. Results are appended to seeded/LOG.jsonl. With QUICK=1 the build is stopped at the first
proof that fails, and only that one is recorded.
"""
import json, os, re, subprocess, sys, shutil, collections, signal
ROOT = os.path.abspath(os.path.join(os.path.dirname(os.path.abspath(__file__)), ".."))
W = os.environ.get("MUT", "/tmp/mut")
BASE = os.environ.get("MUTBASE", ROOT)   # tree to copy lean/ from (a frozen snapshot while work goes on)
DECL = re.compile(r"^(?:@\[[^\]]*\]\s*)?(?:private |protected |noncomputable )*(theorem|lemma|example|def|instance|structure|abbrev|inductive)\b\s*([\w.'?]*)")
BOUND = re.compile(r"^(?:/--|/-!|@\[|theorem|lemma|example|def|noncomputable|instance|structure|abbrev|inductive|private|section|end|namespace|variable|open|omit|set_option|protected|attribute|scoped|local)\b|^/--|^/-!|^@\[|^end\b")

def sh(cmd, cwd=W + "/lean"):
    return subprocess.run(cmd, shell=True, cwd=cwd, capture_output=True, text=True)

def decl_at(lines, ln):
    """(start, end, kind, name) of the declaration containing line index ln"""
    s = ln
    while s >= 0 and not DECL.match(lines[s]):
        s -= 1
    e = s + 1
    while e < len(lines) and not BOUND.match(lines[e]):
        e += 1
    m = DECL.match(lines[s])
    return s, e, m.group(1), m.group(2)

def sorry_out(path, linenos, doneset):
    lines = open(path).read().split("\n")
    todo = {}
    for n in linenos:
        s, e, k, nm = decl_at(lines, n - 1)
        todo[s] = (e, k, nm)
    names = []
    for s in sorted(todo, reverse=True):
        e, k, nm = todo[s]
        if k in ("def", "instance", "structure", "abbrev", "inductive"):
            raise RuntimeError("error in %s %s of %s" % (k, nm, path))
        body = "\n".join(lines[s:e])
        key = (path, nm or body[:80])
        if key in doneset or k == "example":   # statement itself broken, or example: drop
            new = "example : True := trivial\n" if k == "example" else None
            if new is None:
                raise RuntimeError("statement of %s does not elaborate" % nm)
        else:
            depth = 0; pos = None
            for i, c in enumerate(body):
                if c in "([{⟨": depth += 1
                elif c in ")]}⟩": depth -= 1
                elif body.startswith(" where\n", i) and depth == 0:
                    pos = i; break
                elif c == ":" and body[i:i+2] == ":=" and depth == 0:
                    if re.match(r"\s*let\b", body[body.rfind("\n", 0, i) + 1:i]): continue
                    pos = i; break
            if pos is None:
                mm = re.search(r"\n  \| ", body)
                pos = mm.start()
            new = body[:pos] + " := by sorry\n"
        doneset.add(key)
        names.append(nm or "example@%s:%d" % (os.path.basename(path), s + 1))
        lines[s:e] = new.split("\n")
    open(path, "w").write("\n".join(lines))
    return names

def quick(m):
    pr = subprocess.Popen(["lake", "build"], cwd=W + "/lean", stdout=subprocess.PIPE, stderr=subprocess.STDOUT, text=True,
                          start_new_session=True)
    first = None
    for l in pr.stdout:
        e = re.match(r"error: (?:\./)?(Verif/[\w/]+\.lean):(\d+)", l)
        if e: first = (e.group(1), int(e.group(2))); break
    try: os.killpg(pr.pid, signal.SIGKILL)
    except ProcessLookupError: pass
    pr.wait()
    if first is None: return [], []
    if first[0] == "Verif/" + m["file"]: raise RuntimeError("invalid edit")
    s, e, k, nm = decl_at(open(W + "/lean/" + first[0]).read().split("\n"), first[1] - 1)
    nm = nm or "%s@%s:%d" % (k, os.path.basename(first[0]), s + 1)
    return [nm], [nm]

def run(m):
    shutil.rmtree(W + "/lean", ignore_errors=True)
    os.makedirs(W, exist_ok=True)
    subprocess.run(["cp", "-a", BASE + "/lean", W + "/lean"], check=True)
    p = W + "/lean/Verif/" + m["file"]
    s = open(p).read()
    edits = m["edits"] if "edits" in m else [[m["old"], m["new"]]]
    for o, n in edits:
        if s.count(o) < 1: raise RuntimeError("pattern not found: " + o)
        if s.count(o) > 1 and not m.get("all"): raise RuntimeError("pattern not unique: " + o)
        s = s.replace(o, n)
    open(p, "w").write(s)
    if os.environ.get("QUICK"): return quick(m)
    broken = []; done = set()
    for it in range(25):
        r = sh("lake build 2>&1")
        errs = re.findall(r"^error: (?:\./)?(Verif/[\w/]+\.lean):(\d+):", r.stdout, re.M)
        if not errs:
            if r.returncode != 0:
                raise RuntimeError("build failed: " + r.stdout[-2000:])
            break
        byf = collections.defaultdict(set)
        for f, l in errs: byf[f].add(int(l))
        for f, ls in byf.items():
            broken += sorry_out(W + "/lean/" + f, ls, done)
    else:
        raise RuntimeError("no fixpoint")
    names = [t for c in json.load(open(BASE + "/MANIFEST.json"))["claims"] for t in c["theorems"]]
    open(W + "/ax.lean", "w").write("import Verif\n" + "".join("#print axioms %s\n" % n for n in names))
    out = re.sub(r"\s+", " ", sh("lake env lean ../ax.lean").stdout)
    res = dict((a, b) for a, b in re.findall(r"'([\w.]+)' depends on axioms: \[([^\]]*)\]", out))
    failed = [n.split(".")[-1] for n in names if "sorryAx" in res.get(n, "")]
    return broken, failed

if __name__ == "__main__":
    ms = json.load(open(sys.argv[1]))
    want = set(sys.argv[2:])
    for m in ms:
        if want and m["id"] not in want: continue
        try:
            broken, failed = run(m)
        except Exception as ex:
            print("!!", m["id"], "ERROR", str(ex)[:1500], flush=True); continue
        hit = sorted({f.split("_")[0] for f in failed})
        missed = [p for p in m["props"] if p not in hit]
        if os.environ.get("QUICK"): missed = [] if failed else m["props"]
        rec = {"id": m["id"], "definition": m["def"], "file": m["file"],
               "edit": m.get("desc") or "%s  =>  %s" % (m["old"], m["new"]), "claim_broken": m["claim"],
               "properties_expected": m["props"], "theorems_failed": failed,
               "broken_proofs": broken, "survived": bool(missed),
               "theorems_tightened": m.get("tightened", [])}
        with open(os.environ.get("MUTLOG", ROOT + "/seeded/LOG.jsonl"), "a") as f:
            f.write(json.dumps(rec, ensure_ascii=False) + "\n")
        print(("SURVIVED " + str(missed)) if missed else "killed", m["id"], hit, len(failed), flush=True)
