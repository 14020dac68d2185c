#!/usr/bin/env python3
"""Write MANIFEST.json: collects the theorems Cnn_* from lean/Verif/Props and adds the notes below."""
import json, re, glob, os
root = os.path.dirname(os.path.dirname(os.path.abspath(__file__)))
names = []
for f in sorted(glob.glob(root + '/lean/Verif/Props/*.lean')):
    ns = None
    for line in open(f, encoding='utf-8'):
        m = re.match(r'namespace (\S+)', line)
        if m and ns is None: ns = m.group(1)
        m = re.match(r'theorem (C\d\d\w*)', line)
        if m: names.append((m.group(1), ns))
notes = json.load(open(root + '/tools/manifest_notes.json', encoding='utf-8'))
props = [json.loads(l)['id'] for l in open(root + '/properties.jsonl', encoding='utf-8')]
claims = []
for p in props:
    ts = [ns + '.' + n for n, ns in names if n.startswith(p + '_')]
    if not ts: continue
    status = 'partial' if any(t.endswith('_partial') for t in ts) else 'proved'
    claims.append({'property': p, 'status': status, 'theorems': ts, 'note': notes.get(p, '')})
json.dump({'claims': claims}, open(root + '/MANIFEST.json', 'w', encoding='utf-8'), ensure_ascii=False, indent=1)
print(len(claims), 'claims', sum(len(c['theorems']) for c in claims), 'theorems')
missing = [p for p in props if not any(c['property'] == p for c in claims)]
print('without theorem:', missing, 'partial:', [c['property'] for c in claims if c['status'] == 'partial'])
print('partial without note:', [c['property'] for c in claims if c['status'] == 'partial' and not c['note']])
