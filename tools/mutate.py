#!/usr/bin/env python3
"""Test the theorems against wrong programs.

usage: mutate.py MUTANTS.json WORKDIR [first [last]]

Every mutant (an edit of a model definition) is applied to a copy of the Lean project in WORKDIR and
the project is rebuilt.  Where a proof no longer goes through it is replaced by `sorry` (in the copy),
so that the build reaches every theorem; the theorems that then depend on `sorryAx` are the ones the
mutant kills.  Results are printed as JSON lines.  Nothing in the original project is changed."""
import json, os, re, subprocess, sys, shutil

ROOT = os.path.dirname(os.path.dirname(os.path.abspath(__file__)))
SRC = os.environ.get('SRC', ROOT + '/lean')  # the project to copy

def sync(work):
    if os.path.exists(work): shutil.rmtree(work)
    shutil.copytree(SRC, work)

DECL = re.compile(r'^(?:@\[[^\]]*\]\s*)?(?:private |protected |noncomputable )*(theorem|lemma|example|def|instance|abbrev|inductive|structure)\b\s*(\S*)')

def find_decl(lines, ln):
    """the declaration enclosing line ln (1-based): (start, end, kind, name)"""
    i = ln - 1
    while i >= 0 and not DECL.match(lines[i]): i -= 1
    if i < 0: return None
    m = DECL.match(lines[i])
    j = i + 1
    while j < len(lines) and not (lines[j] and not lines[j][0].isspace() and not lines[j].startswith('|')): j += 1
    return i, j, m.group(1), m.group(2)

def strip_proof(text):
    """text of a theorem -> the same with proof `sorry`"""
    depth = 0
    i = 0
    while i < len(text):
        c = text[i]
        if c == '"':
            i += 1
            while text[i] != '"':
                if text[i] == '\\': i += 1
                i += 1
        elif c == "'" and i + 2 < len(text) and text[i+2] == "'": i += 2
        elif c in '([{⟨': depth += 1
        elif c in ')]}⟩': depth -= 1
        elif depth == 0 and text.startswith(':=', i): return text[:i] + ':= sorry\n'
        elif depth == 0 and text.startswith('\n  |', i): return text[:i] + ' := sorry\n'
        i += 1
    return None

def build(work):
    r = subprocess.run(['lake', 'build'], cwd=work, capture_output=True, text=True)
    out = r.stdout + r.stderr
    errs = re.findall(r'^error: (Verif/\S+?\.lean):(\d+):\d+:', out, re.M)
    return r.returncode == 0, errs, out

def axioms(work, names):
    f = work + '/Ax.lean'
    open(f, 'w').write('import Verif\n' + ''.join(f'#print axioms {n}\n' for n in names))
    r = subprocess.run(['lake', 'env', 'lean', 'Ax.lean'], cwd=work, capture_output=True, text=True)
    os.remove(f)
    dead = []
    for n in names:
        m = re.search(r"'%s' depends on axioms: \[([^\]]*)\]" % re.escape(n), r.stdout)
        if m and 'sorryAx' in m.group(1): dead.append(n)
        elif not m and ("'%s' does not depend" % n) not in r.stdout: dead.append(n + ' (missing)')
    return dead

def run(mut, work, names):
    sync(work)
    for f, old, new in mut['edits']:
        p = work + '/Verif/' + f
        s = open(p, encoding='utf8').read()
        if s.count(old) != 1: return {'id': mut['id'], 'error': f'{s.count(old)} occurrences of the text in {f}'}
        open(p, 'w', encoding='utf8').write(s.replace(old, new))
    patched, stuck = set(), []
    for _ in range(60):
        ok, errs, out = build(work)
        if ok: break
        if not errs: return {'id': mut['id'], 'error': out[-2000:]}
        todo = {}
        for f, l in errs: todo.setdefault(f, set()).add(int(l))
        progress = False
        for f, ls in todo.items():
            p = work + '/' + f
            lines = open(p, encoding='utf8').read().split('\n')
            decls = sorted({find_decl(lines, l) for l in ls} - {None}, reverse=True)
            for i, j, kind, name in decls:
                key = (f, name or i, kind)
                if kind not in ('theorem', 'lemma', 'example') or (name and key in patched):
                    stuck.append(f'{f}:{kind} {name}')
                    continue
                t = strip_proof('\n'.join(lines[i:j]) + '\n')
                if t is None: stuck.append(f'{f}:{name}'); continue
                if kind == 'example': t = 'example : True := trivial\n'
                else: patched.add(key)
                lines[i:j] = t.split('\n')
                progress = True
            open(p, 'w', encoding='utf8').write('\n'.join(lines))
        if not progress: return {'id': mut['id'], 'error': 'stuck at ' + ', '.join(stuck) + out[-1500:]}
    else: return {'id': mut['id'], 'error': 'too many rounds'}
    dead = [n.replace('WanaKana.', '') for n in axioms(work, names)]
    alive = sorted({p for p in mut.get('breaks', []) if not any(d.startswith(p + '_') for d in dead)})
    return {'id': mut['id'], 'helpers': sorted(k[1] for k in patched if k[1]), 'failed': dead, 'survived': alive}

if __name__ == '__main__':
    muts = json.load(open(sys.argv[1], encoding='utf8'))
    lo = int(sys.argv[3]) if len(sys.argv) > 3 else 0
    hi = int(sys.argv[4]) if len(sys.argv) > 4 else len(muts)
    names = [t for c in json.load(open(ROOT + '/MANIFEST.json', encoding='utf8'))['claims'] for t in c['theorems']]
    for mut in muts[lo:hi]:
        print(json.dumps(run(mut, sys.argv[2], names), ensure_ascii=False), flush=True)
