#!/usr/bin/env python3
"""Write AXIOMS.md: the axioms every theorem of MANIFEST.json depends on, as reported by Lean."""
import json, os, re, subprocess
root = os.path.dirname(os.path.dirname(os.path.abspath(__file__)))
claims = json.load(open(root + '/MANIFEST.json', encoding='utf8'))['claims']
names = [t for c in claims for t in c['theorems']]
f = '/tmp/PrintAxioms.lean'
open(f, 'w').write('import Verif\n' + ''.join(f'#print axioms {n}\n' for n in names))
out = subprocess.run(['lake', 'env', 'lean', f], cwd=root + '/lean', capture_output=True, text=True).stdout
ax = {}
for m in re.finditer(r"'(\S+)' (?:depends on axioms: \[([^\]]*)\]|does not depend on any axioms)", out):
    ax[m.group(1)] = ' '.join((m.group(2) or 'none').replace(',', ' ').split())
with open(root + '/AXIOMS.md', 'w', encoding='utf8') as g:
    g.write('# Axioms per theorem\n\nGenerated by `tools/gen_axioms.py` from `#print axioms`.\n\n| theorem | axioms |\n|---|---|\n')
    for n in names: g.write(f'| {n} | {ax[n]} |\n')
print(len(names), sorted(set(ax.values())))
