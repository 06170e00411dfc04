#!/usr/bin/env python3
"""Apply wrong-program edits to scratch copies of the model and report which theorems fail.

usage: mutate.py EDITS.json [-j N]     (EDITS: list of {file, def, old, new, claim, props})
Each edit is applied alone in a scratch copy under /tmp; the copy is rebuilt, the declarations with
errors are listed, and the property theorems that use them (transitively, by name).  One JSON line
per edit goes to seeded/LOG.jsonl."""
import json, os, re, shutil, subprocess, sys
from concurrent.futures import ThreadPoolExecutor
from queue import Queue
ROOT = os.path.dirname(os.path.dirname(os.path.abspath(__file__)))
SRC = os.path.join(ROOT, "lean")
DECL = re.compile(r"^(?:@\[[^\]]*\]\s*)?(?:private |protected |noncomputable )*(theorem|lemma|def|abbrev|instance|example|structure)\b\s*([\w.'«»]*)")

def prepare(dst):
    shutil.rmtree(dst, ignore_errors=True)
    subprocess.run(["cp", "-a", SRC, dst], check=True)

def strip(s):                         # the examples beside the definitions are not theorems
    return re.sub(r"^example\b.*?(?=\n\n|\nexample\b|\nend )", "", s, flags=re.M | re.S)

def decls(path):
    out = []
    for i, l in enumerate(open(path), 1):
        m = DECL.match(l)
        if m:
            out.append((i, m.group(2) or "example@%d" % i))
    return out

def closure(dst, failed):
    bodies = {}
    for d, _, fs in os.walk(os.path.join(dst, "Verif")):
        for f in fs:
            if not f.endswith(".lean") or "/Model" in d: continue
            ls = open(os.path.join(d, f)).read().split("\n")
            ds = decls(os.path.join(d, f))
            for k, (i, n) in enumerate(ds):
                e = ds[k + 1][0] - 1 if k + 1 < len(ds) else len(ls)
                bodies.setdefault(n, set()).update(re.findall(r"[\w'.]+", "\n".join(ls[i - 1:e])))
    toks = {n: {x.split(".")[-1] for x in b} | b for n, b in bodies.items()}
    bad = set(failed); seen = set()
    work = list(bad)
    while work:
        x = work.pop()
        short = x.split(".")[-1]
        for n, t in toks.items():
            if n not in bad and short in t and len(short) > 2:
                bad.add(n); work.append(n)
    return sorted(n for n in bad if re.match(r"C\d\d+_", n))

def run(dst, e):
    p = os.path.join(dst, "Verif", e["file"])
    was = open(p).read()
    orig = strip(was) if "/Model/" in p else was
    if orig.count(e["old"]) < 1:
        return dict(e, error="pattern not found")
    n = e.get("nth", 0)
    parts = orig.split(e["old"])
    open(p, "w").write(e["old"].join(parts[:n + 1]) + e["new"] + e["old"].join(parts[n + 1:]))
    try:
        r = subprocess.run(["lake", "build", "--no-ansi"], cwd=dst, capture_output=True, text=True, timeout=1500)
        out = r.stdout + r.stderr
    except subprocess.TimeoutExpired:
        out = "TIMEOUT"
    open(p, "w").write(was)
    failed = {}
    for m in re.finditer(r"^error: (?:\./+)?(Verif/[\w/]+\.lean):(\d+):\d+", out, re.M):
        f, l = m.group(1), int(m.group(2))
        name = "?"
        for i, nm in decls(os.path.join(dst, f)):
            if i <= l: name = nm
        failed.setdefault(f, [])
        if name not in failed[f]: failed[f].append(name)
    names = [n for v in failed.values() for n in v]
    aff = closure(dst, names) if names else []
    in_model = any("/Model/" in f for f in failed)
    hit = [t for t in aff if t.split("_")[0] in e["props"]]
    return {"definition": e["def"], "file": "lean/Verif/" + e["file"], "edit": "%s  =>  %s" % (e["old"], e["new"]),
            "claim": e["claim"], "failed_directly": names, "theorems_failed": aff,
            "verdict": ("model does not build" if in_model else "caught" if hit else "timeout" if out == "TIMEOUT"
                        else "survived" if not names else "caught elsewhere"),
            "tightened": []}

def main():
    edits = json.load(open(sys.argv[1]))
    j = int(sys.argv[3]) if len(sys.argv) > 3 else 3
    q = Queue()
    for k in range(j):
        d = "/tmp/mut%d" % k
        prepare(d); q.put(d)
    def one(e):
        d = q.get()
        try:
            r = run(d, e)
        finally:
            q.put(d)
        print(r.get("verdict", r.get("error")), "|", e["def"], "|", e["old"][:50].replace("\n", " "), "=>", e["new"][:50].replace("\n", " "), "|", r.get("failed_directly", [])[:4], flush=True)
        return r
    with ThreadPoolExecutor(j) as ex:
        rs = list(ex.map(one, edits))
    with open(os.path.join(ROOT, "seeded", "LOG.jsonl"), "a") as f:
        for r in rs:
            if "error" not in r and r["verdict"] != "model does not build":
                f.write(json.dumps(r) + "\n")
main()
