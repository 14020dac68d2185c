#!/usr/bin/env python3
"""strip_examples.py DIR: removes the `example`s and the tests from a copy of the Lean project, so that in a run
against wrong programs a failing example does not keep the theorems of later modules from being checked."""
import glob, re, sys
root = sys.argv[1]
n = 0
for f in glob.glob(root + '/Verif/**/*.lean', recursive=True):
    if '/Tests/' in f: continue
    lines = open(f, encoding='utf8').read().split('\n')
    out, skip = [], False
    for i, l in enumerate(lines):
        if re.match(r'example\b', l): skip = True; n += 1
        elif skip and re.match(r'(theorem|def|structure|inductive|abbrev|instance|/-|end|namespace|open|variable|section|@\[|private|set_option|#)', l): skip = False
        if not skip: out.append(l)
    # a doc comment that belonged to a removed example
    t = '\n'.join(out)
    t = re.sub(r'/--(?:(?!-/).)*-/\s*(?=(/-|end\b|namespace\b|open\b|section\b|$))', '', t, flags=re.S)
    open(f, 'w', encoding='utf8').write(t)
p = root + '/Verif.lean'
t = [l for l in open(p, encoding='utf8').read().split('\n') if not l.startswith('import Verif.Tests')]
open(p, 'w', encoding='utf8').write('\n'.join(t))
print(n, 'examples removed')
