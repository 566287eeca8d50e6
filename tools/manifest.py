#!/usr/bin/env python3
"""Regenerates MANIFEST.json from the theorem names in lean/Verif/Props and tools/notes.json."""
import json, re, glob, os
root = os.path.dirname(os.path.dirname(os.path.abspath(__file__)))
names = {}
for f in sorted(glob.glob(root + '/lean/Verif/Props/**/*.lean', recursive=True)):
    for m in re.finditer(r'^theorem (C\d\d\w*)', open(f).read(), re.M):
        names.setdefault(m.group(1)[:3], []).append('Radius.' + m.group(1))
notes = json.load(open(root + '/tools/notes.json'))
claims = []
for line in open(root + '/properties.jsonl'):
    d = json.loads(line)
    i = d['id']
    if i not in names:
        continue
    n = notes.get(i, {})
    claims.append({'property': i, 'status': n.get('status', 'proved'), 'theorems': names[i],
                   'note': n.get('note', '')})
json.dump({'claims': claims}, open(root + '/MANIFEST.json', 'w'), indent=1, ensure_ascii=False)
print(len(claims), 'claims; without theorem:',
      [json.loads(l)['id'] for l in open(root + '/properties.jsonl') if json.loads(l)['id'] not in names])
