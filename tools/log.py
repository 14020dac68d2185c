#!/usr/bin/env python3
"""usage: log.py RESULTS... : write seeded/LOG.jsonl from the output of mutate.py and automutate.py (later lines replace
earlier ones)."""
import json, os, sys
root = os.path.dirname(os.path.dirname(os.path.abspath(__file__)))
sys.path.insert(0, root + '/tools')
import mutants
claims = {}
for l in open(root + '/properties.jsonl', encoding='utf8'):
    p = json.loads(l); claims[p['id']] = p['title']
tightened = json.load(open(root + '/tools/tightened.json', encoding='utf8'))
res = {}
for f in sys.argv[1:]:
    for l in open(f, encoding='utf8'):
        if l.startswith('{'):
            r = json.loads(l); res[r['id']] = r
with open(root + '/seeded/LOG.jsonl', 'w', encoding='utf8') as out:
    n = 0
    for m in mutants.M:
        r = res.get(m['id'])
        if not r or 'error' in r: continue
        n += 1
        out.write(json.dumps({
            'id': m['id'], 'definition': m['definition'], 'edit': m['edit'],
            'change': [{'file': 'lean/Verif/' + f, 'old': a, 'new': b} for f, a, b in m['edits']],
            'claim_broken': [p + ': ' + claims[p] for p in m['breaks']] or m.get('note', 'none: the edited program behaves the same'),
            'failed': [t for t in r['failed'] if not t.endswith('(missing)')], 'survived': [p for p in r['survived'] if p in m['breaks']],
            'tightened': tightened.get(m['id'], [])}, ensure_ascii=False) + '\n')
    same = tightened.get('same behaviour', {})
    for k in sorted(k for k in res if k.startswith('auto')):
        r = res[k]
        if r['result'] in ('does not compile', 'error'): continue
        n += 1
        hit = sorted({t.split('.')[-1].split('_')[0] for t in r['failed'] if t.split('.')[-1][:1] == 'C'})
        out.write(json.dumps({
            'id': k, 'definition': r['definition'], 'edit': r['edit'],
            'change': [{'file': 'lean/Verif/Model/%s.lean' % r['file'], 'old': r['old'], 'new': r['new']}],
            'claim_broken': [p + ': ' + claims[p] for p in hit] or same.get(k, 'none: the edited program behaves the same'),
            'note': 'edit made by tools/automutate.py; claim_broken is read off the failed theorems, which are those that use the '
                    'first broken lemmas (so an edit that keeps the behaviour but breaks a proof is listed as well)',
            'failed': ['WanaKana.' + t for t in r['failed']], 'first_failure': r['broken'], 'survived': [],
            'tightened': tightened.get(k, [])}, ensure_ascii=False) + '\n')
print(n, 'attempts;', 'errors:', [k for k, r in res.items() if 'error' in r], 'survivors:', {k: r['survived'] for k, r in res.items() if r.get('survived')})
