#!/usr/bin/env python3
"""tighten.py DEF EDIT-SUBSTRING NOTE THEOREM...: record what was done about a surviving edit in seeded/LOG.jsonl."""
import json, sys, os
p = os.path.join(os.path.dirname(os.path.dirname(os.path.abspath(__file__))), "seeded", "LOG.jsonl")
ls = [json.loads(l) for l in open(p)]
n = 0
for r in ls:
    if r["definition"] == sys.argv[1] and sys.argv[2] in r["edit"] and r["verdict"] != "caught":
        r["tightened"] = sys.argv[4:]
        r["note"] = sys.argv[3]; n += 1
open(p, "w").write("".join(json.dumps(r) + "\n" for r in ls))
print(n, "entries")
