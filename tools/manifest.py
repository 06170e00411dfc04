#!/usr/bin/env python3
"""Write MANIFEST.json from the theorems named Cxx_... under lean/Verif/Props.

A property is "partial" when one of its theorems carries the suffix _partial, "proved" when it
has theorems and none does.  notes.json gives the note of each property."""
import json, os, re, sys
root = os.path.dirname(os.path.dirname(os.path.abspath(__file__)))
notes = json.load(open(os.path.join(root, "tools", "notes.json")))
thms = {}
for d, _, fs in os.walk(os.path.join(root, "lean", "Verif", "Props")):
    for f in sorted(fs):
        for line in open(os.path.join(d, f)):
            m = re.match(r"theorem (C\d\d+)_(\w+)", line)
            if m:
                thms.setdefault(m.group(1), []).append("Fwknop.Props.%s_%s" % (m.group(1), m.group(2)))
claims = []
for line in open(os.path.join(root, "properties.jsonl")):
    p = json.loads(line)
    i = p["id"]
    if i in thms:
        st = "partial" if any(t.endswith("_partial") for t in thms[i]) else "proved"
        claims.append({"property": i, "status": st, "theorems": thms[i], "note": notes.get(i, "")})
    else:
        print("no theorem:", i, file=sys.stderr)
json.dump({"claims": claims}, open(os.path.join(root, "MANIFEST.json"), "w"), indent=1)
