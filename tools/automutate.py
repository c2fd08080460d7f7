#!/usr/bin/env python3
"""Screens the model for edits that no theorem notices.

usage: automutate.py list            print the number of mutants per file
       automutate.py run N SEED      try N of them, chosen at random

Each mutant changes one operator, comparison, constant, error or branch of a definition under lean/Verif/Model.
The build of a scratch copy is stopped at the first proof that fails; mutants for which everything builds are printed
as SURVIVED and must be looked at (some do not change the function). Results go to the file named by OUT.
"""
import os, re, sys, random, subprocess, shutil, signal, json, glob
BASE = os.environ["MUTBASE"]
W = os.environ.get("MUT", "/tmp/am")
OUT = os.environ.get("OUT", "/tmp/am.jsonl")

OPS = [
    (r"<ᶠ", "≤ᶠ"), (r"≤ᶠ", "<ᶠ"), (r"\+ᶠ", "-ᶠ"), (r"-ᶠ", "+ᶠ"), (r"\*ᶠ", "/ᶠ"), (r"/ᶠ", "*ᶠ"),
    (r"(?<=\s)<(?=\s)", "≤"), (r"(?<=\s)≤(?=\s)", "<"), (r"(?<=\s)\+(?=\s)", "-"), (r"(?<=\s)-(?=\s)", "+"),
    (r"(?<=\s)\*(?=\s)", "+"), (r"&&", "||"), (r"\|\|", "&&"), (r"∧", "∨"), (r"∨", "∧"), (r" ≠ ", " = "),
    (r"\btrue\b", "false"), (r"\bfalse\b", "true"), (r"\bmin\b", "max"), (r"\bmax\b", "min"),
    (r"\bnpMinimum\b", "npMaximum"), (r"\bnpMaximum\b", "npMinimum"),
    (r"(?<![\w.])(\d+)(?![\w.])", lambda m: str(int(m.group(1)) + 1)),
    (r"(?<![\w.])([1-9]\d*)(?![\w.])", lambda m: str(int(m.group(1)) - 1)),
    (r"\.valueError\b", ".typeError"), (r"\.indexError\b", ".valueError"), (r"\.keyError\b", ".valueError"),
    (r"\.typeError\b", ".valueError"), (r"\.assertionError\b", ".valueError"), (r"\.attributeError\b", ".valueError"),
    (r"\bsin\b", "cos"), (r"\bcos\b", "sin"), (r"!\(", "("), (r"\.1\b", ".2"), (r"\.2\b", ".1"), (r"PyFloat\.nan\b", "(PyFloat.ofInt 0)"),
    (r"\.take\b", ".drop"), (r"\.drop\b", ".take"), (r"\.head\?", ".getLast?"), (r"\.getLast\?", ".head?"),
]
DEF = re.compile(r"^(?:@\[[^\]]*\]\s*)?(?:private |protected |noncomputable )*(def|abbrev)\s+([\w.'?]+)")

def code_lines(path):
    """(line number, text, def name) of the lines of definitions, comments blanked"""
    src = open(path).read()
    out = re.sub(r"/-.*?-/", lambda m: re.sub(r"[^\n]", " ", m.group(0)), src, flags=re.S)
    name = None
    for n, l in enumerate(out.split("\n")):
        l = re.sub(r'--.*', lambda m: " " * len(m.group(0)), l)
        m = DEF.match(l)
        if m: name = m.group(2)
        elif l and not l[0].isspace() and not l.startswith("|"): name = None
        if name: yield n, l, name

def mutants():
    for path in sorted(glob.glob(BASE + "/lean/Verif/Model/*.lean")):
        if os.path.basename(path) == "ItuTables.lean": continue
        for n, l, name in code_lines(path):
            start = l.find(":=") if DEF.match(l) and ":=" in l else (len(l) if DEF.match(l) else 0)
            seen = set()
            for pat, rep in OPS:
                for m in re.finditer(pat, l):
                    if m.start() < start: continue
                    if '"' in l[:m.start()] and l[:m.start()].count('"') % 2: continue
                    new = l[:m.start()] + (rep(m) if callable(rep) else rep) + l[m.end():]
                    if new in seen: continue
                    seen.add(new)
                    yield os.path.relpath(path, BASE + "/lean"), n, m.start(), m.end(), (rep(m) if callable(rep) else rep), name, l.strip(), new.strip()

def run(mu):
    rel, n, a, b, rep, name, old, new = mu
    shutil.rmtree(W + "/lean", ignore_errors=True)
    os.makedirs(W, exist_ok=True)
    subprocess.run(["cp", "-a", BASE + "/lean", W + "/lean"], check=True)
    p = W + "/lean/" + rel
    lines = open(p).read().split("\n")
    lines[n] = lines[n][:a] + rep + lines[n][b:]
    open(p, "w").write("\n".join(lines))
    pr = subprocess.Popen(["lake", "build"], cwd=W + "/lean", stdout=subprocess.PIPE, stderr=subprocess.STDOUT, text=True, start_new_session=True)
    first = None
    for l in pr.stdout:
        m = re.match(r"error: (Verif/[\w/]+\.lean):(\d+)", l)
        if m:
            first = (m.group(1), int(m.group(2))); break
    try: os.killpg(pr.pid, signal.SIGKILL)
    except ProcessLookupError: pass
    pr.wait()
    if first is None: return "SURVIVED", None
    if first[0] == rel: return "invalid", None
    ls = open(W + "/lean/" + first[0]).read().split("\n")
    k = first[1] - 1
    d = None
    while k >= 0:
        m = re.match(r"^(?:@\[[^\]]*\]\s*)?(?:private |protected |noncomputable )*(theorem|lemma|example|def|instance|abbrev|structure)\b\s*([\w.'?]*)", ls[k])
        if m: d = m.group(1) + " " + m.group(2); break
        k -= 1
    return "killed", "%s:%s" % (first[0], d)

if __name__ == "__main__":
    ms = list(mutants())
    if sys.argv[1] == "list":
        import collections
        c = collections.Counter(m[0] for m in ms)
        for k, v in sorted(c.items()): print(v, k)
        print(len(ms))
        sys.exit()
    done = set()
    if os.path.exists(OUT):
        for l in open(OUT):
            d = json.loads(l); done.add((d["file"], d["line"], d["new"]))
    random.seed(int(sys.argv[3]))
    random.shuffle(ms)
    k = 0
    for m in ms:
        if k >= int(sys.argv[2]): break
        if (m[0], m[1] + 1, m[7]) in done: continue
        k += 1
        r, by = run(m)
        with open(OUT, "a") as f:
            f.write(json.dumps({"file": m[0], "line": m[1] + 1, "definition": m[5], "old": m[6], "new": m[7], "result": r, "by": by}, ensure_ascii=False) + "\n")
        print(r, m[0], m[5], "|", m[6], "=>", m[7], "|", by, flush=True)
