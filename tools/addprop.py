#!/usr/bin/env python3
"""Append properties: reads a JSON list on stdin; each item has the fields of properties.jsonl and
"design" (the line for DESIGN.md) and optionally "note" (for MANIFEST.json)."""
import json, os, sys
root = os.path.dirname(os.path.dirname(os.path.abspath(__file__)))
items = json.load(sys.stdin)
props = os.path.join(root, 'properties.jsonl')
have = {json.loads(l)['id'] for l in open(props) if l.strip()}
notes_path = os.path.join(root, 'tools', 'notes.json')
notes = json.load(open(notes_path))
design_path = os.path.join(root, 'DESIGN.md')
design = open(design_path).read()
with open(props, 'a') as f:
    for it in items:
        if it['id'] not in have:
            f.write(json.dumps({k: it[k] for k in ('id', 'title', 'statement', 'quantifier', 'why_tests_cant', 'anchors')}) + '\n')
            line = f"* **{it['id']} {it['title']}** — {it['design']}\n"
            lines = design.split('\n')
            idx = max(i for i, l in enumerate(lines) if l.startswith('* **C'))
            lines.insert(idx + 1, line.rstrip('\n'))
            design = '\n'.join(lines)
        if it.get('note'):
            notes[it['id']] = it['note']
open(design_path, 'w').write(design)
with open(notes_path, 'w') as f:
    f.write('{\n' + ',\n'.join(json.dumps(k) + ': ' + json.dumps(notes[k]) for k in sorted(notes)) + '\n}\n')
