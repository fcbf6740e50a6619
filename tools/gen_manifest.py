#!/usr/bin/env python3
"""Writes MANIFEST.json: the theorems of every property are those named Cnn_... in lean/Verif."""
import json
import os
import re

ROOT = os.path.dirname(os.path.dirname(os.path.abspath(__file__)))
NOTES = json.load(open(os.path.join(ROOT, 'tools', 'notes.json')))

names = {}
for d, _, fs in os.walk(os.path.join(ROOT, 'lean', 'Verif')):
    for f in sorted(fs):
        if not f.endswith('.lean'):
            continue
        text = open(os.path.join(d, f)).read()
        for m in re.finditer(r'^theorem ((C\d\d)_\S+)', text, re.M):
            names.setdefault(m.group(2), []).append('Query.' + m.group(1))

claims = []
for line in open(os.path.join(ROOT, 'properties.jsonl')):
    pid = json.loads(line)['id']
    ths = sorted(set(names.get(pid, [])))
    if not ths:
        continue
    partial = any(t.endswith('_partial') or t.endswith('_false') for t in ths)
    note = NOTES.get(pid, '')
    claims.append({'property': pid, 'status': 'partial' if partial else 'proved', 'theorems': ths, 'note': note})

with open(os.path.join(ROOT, 'MANIFEST.json'), 'w') as out:
    json.dump({'claims': claims}, out, indent=1, ensure_ascii=False)
    out.write('\n')
print(len(claims), 'claims')
missing = [json.loads(l)['id'] for l in open(os.path.join(ROOT, 'properties.jsonl')) if json.loads(l)['id'] not in names]
print('missing:', missing)
print('no note:', [c['property'] for c in claims if c['status'] == 'partial' and not c['note']])
