"""Adds one property: row of DESIGN.md, optional disagreement, properties.jsonl, status.json, import in Verif.lean.

Reads a JSON object from the file given: {id, title, statement, quantifier, why_tests_cant, anchors, design,
disagreement (optional), status (optional object), imports (list)}."""
import json, sys
for p in json.load(open(sys.argv[1])):
    with open('/verif/properties.jsonl', 'a') as f:
        f.write(json.dumps({k: p[k] for k in ('id', 'title', 'statement', 'quantifier', 'why_tests_cant', 'anchors')}) + '\n')
    d = open('/verif/DESIGN.md').read().split('\n')
    rows = [n for n, l in enumerate(d) if l.startswith('| C')]
    first_end = next(n for n in rows if n + 1 not in rows and not d[n + 1].strip().startswith('|') and d[n + 1].strip() == '')
    d.insert(first_end + 1, f"| {p['id']} | {p['title']} | {p['design']} |")
    if p.get('disagreement'):
        last = max(n for n, l in enumerate(d) if l.startswith('| C'))
        d.insert(last + 1, f"| {p['id']} | {p['disagreement']} |")
    open('/verif/DESIGN.md', 'w').write('\n'.join(d))
    if p.get('status'):
        s = json.load(open('/verif/tools/status.json')); s[p['id']] = p['status']
        json.dump(s, open('/verif/tools/status.json', 'w'), indent=1)
    v = open('/verif/lean/Verif.lean').read()
    for i in p['imports']:
        if f'import {i}\n' not in v: v = v.rstrip('\n') + f'\nimport {i}\n'
    open('/verif/lean/Verif.lean', 'w').write(v)
