#!/usr/bin/env python3
"""Write AXIOMS.md: the axioms each theorem named in MANIFEST.json depends on (`#print axioms`)."""
import json, os, re, subprocess
root = os.path.dirname(os.path.dirname(os.path.abspath(__file__)))
claims = json.load(open(os.path.join(root, 'MANIFEST.json')))['claims']
names = [t for c in claims for t in c.get('theorems', [])]
src = 'import Verif\n' + ''.join(f'#print axioms {n}\n' for n in names)
open('/tmp/axioms.lean', 'w').write(src)
out = subprocess.run(['lake', 'env', 'lean', '/tmp/axioms.lean'], cwd=os.path.join(root, 'lean'),
                     capture_output=True, text=True).stdout
out = re.sub(r'\s+', ' ', out)
rows = []
for m in re.finditer(r"'([^']+)' (does not depend on any axioms|depends on axioms: \[([^\]]*)\])", out):
    rows.append((m.group(1), m.group(3) or 'none'))
rest = set(names) - {r[0] for r in rows}
assert not rest, rest
with open(os.path.join(root, 'AXIOMS.md'), 'w') as f:
    f.write('# Axioms of the theorems\n\nGenerated by tools/axioms.py from `#print axioms`.\n\n')
    f.write('| theorem | axioms |\n|---|---|\n')
    for n, a in rows:
        f.write(f'| {n.replace("Fwknop.Props.", "")} | {a} |\n')
print(sorted({x.strip() for _, a in rows for x in a.split(',')}))
