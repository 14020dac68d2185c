#!/usr/bin/env python3
"""Test the theorems against wrong programs, one pass per program.

usage: fastmut.py SNAPSHOT WORKDIR OUT [-j N] [--auto] [--first] [--per-definition N] MUTANTS.json ...

SNAPSHOT is a built copy of the Lean project without examples and tests (strip_examples.py).  Every mutant (an edit of a
model definition) is applied to a copy; the modules with a constant that depends on an edited definition are elaborated
again, and written even where a proof fails (Lean then takes the theorem as `sorry`).  The theorems of MANIFEST.json that
depend on `sorryAx` at the end are the ones the mutant kills.  With --auto the mutants are those of automutate.py.
With --first a run stops at the first broken lemma that a theorem of MANIFEST.json uses (`failed` are then the theorems that
use this lemma), and N mutants run at a time.  --per-definition limits the number of mutants of a definition.
Cheap mutants come first.  A file /tmp/pause holds the run between two mutants.  Results are appended to OUT; ids found there are skipped."""
import json, os, queue, re, subprocess, sys, shutil, threading, time, concurrent.futures as cf
ROOT = os.path.dirname(os.path.dirname(os.path.abspath(__file__)))
sys.path.insert(0, ROOT + '/tools')
from mutate import find_decl

FRONT = '''import Lean
open Lean Elab
unsafe def main (args : List String) : IO UInt32 := do
  match args with
  | [file, mod, olean] =>
    initSearchPath (← findSysroot)
    enableInitializersExecution
    let input ← IO.FS.readFile file
    let ctx := Parser.mkInputContext input file
    let (header, ps, msgs) ← Parser.parseHeader ctx
    let opts : Options := {}
    let (env, msgs) ← processHeader header opts msgs ctx (mainModule := mod.toName) (trustLevel := 1024)
    let s ← IO.processCommands ctx ps (Command.mkState env msgs opts)
    let mut n := 0
    for m in s.commandState.messages.toList do
      if m.severity == .error then
        n := n + 1
        IO.println s!"ERR {m.pos.line}"
    writeModule s.commandState.env olean
    return if n > 0 then 3 else 0
  | _ => return 2
'''
DEPS = '''import Lean
open Lean
def main (_ : List String) : IO Unit := do
  initSearchPath (← findSysroot)
  let env ← importModules #[{module := `Verif}] {} (trustLevel := 1024)
  let isV (n : Name) : Bool := match env.getModuleIdxFor? n with
    | some i => (`Verif).isPrefixOf env.header.moduleNames[i.toNat]!
    | none => false
  let mut i := 0
  for md in env.header.moduleData do
    let mn := env.header.moduleNames[i]!
    i := i + 1
    if (`Verif).isPrefixOf mn then
      for ci in md.constants do
        let us := ci.type.getUsedConstants ++ (match ci.value? (allowOpaque := true) with | some v => v.getUsedConstants | none => #[])
        let us := us.filter fun n => n == ``sorryAx || isV n
        IO.println s!"{mn}\\t{ci.name}\\t{String.intercalate " " (us.toList.map toString)}"
'''

def deps(lib, prog):
    r = subprocess.run(['lean', '--run', prog], env={**os.environ, 'LEAN_PATH': lib}, capture_output=True, text=True)
    mod, use = {}, {}
    for l in r.stdout.split('\n'):
        w = l.split('\t')
        if len(w) == 3: mod[w[1]] = w[0]; use[w[1]] = w[2].split(' ') if w[2] else []
    return mod, use, r.stderr

def closure(use, seeds):
    """the constants that depend on a seed"""
    rev = {}
    for c, us in use.items():
        for u in us: rev.setdefault(u, []).append(c)
    seen, todo = set(seeds), list(seeds)
    while todo:
        for c in rev.get(todo.pop(), []):
            if c not in seen: seen.add(c); todo.append(c)
    return seen

class Snap:
    def __init__(self, path, tmp):
        self.path = path
        os.makedirs(tmp, exist_ok=True)
        self.front, self.dep = tmp + '/Front.lean', tmp + '/Deps.lean'
        open(self.front, 'w').write(FRONT); open(self.dep, 'w').write(DEPS)
        self.lib = path + '/.lake/build/lib/lean'
        self.mod, self.use, e = deps(self.lib, self.dep)
        assert self.mod, e
        self.imports, self.file = {}, {}
        for d, _, fs in os.walk(path + '/Verif'):
            for f in fs:
                if f.endswith('.lean'):
                    p = d + '/' + f
                    m = os.path.relpath(p, path)[:-5].replace('/', '.')
                    self.file[m] = p
                    self.imports[m] = re.findall(r'^import (Verif\.\S+)', open(p, encoding='utf8').read(), re.M)

def plan(s, edits):
    """edits: [(file, function text -> text)]; gives the new sources and the modules to elaborate, or an error"""
    src, seeds = {}, set()
    for rel, fn in edits:
        m = 'Verif.' + rel[:-5].replace('/', '.')
        old = src.get(m) or open(s.path + '/Verif/' + rel, encoding='utf8').read()
        new = fn(old)
        if new is None: return 'the text to replace was not found once in ' + rel, None
        src[m] = new
        a, b = old.split('\n'), new.split('\n')
        i = 0
        while i < min(len(a), len(b)) and a[i] == b[i]: i += 1
        j = 0
        while j < min(len(a), len(b)) - i and a[-1 - j] == b[-1 - j]: j += 1
        for l in range(i + 1, max(i + 1, len(a) - j) + 1):
            d = find_decl(a, l)
            if d: seeds |= {c for c in s.mod if s.mod[c] == m and d[3].rstrip(':').split('.')[-1] in c.split('.')}
    return src, {s.mod[c] for c in closure(s.use, seeds)} | set(src)

def run(s, work, src, todo, names, jobs, first=False):
    if todo is None: return {'error': src}
    if os.path.exists(work): shutil.rmtree(work)
    shutil.copytree(s.lib, work + '/lib', copy_function=os.link)
    errs, n_mod = {}, len(todo)
    for m, t in src.items():
        p = work + '/src/' + m.replace('.', '/') + '.lean'
        os.makedirs(os.path.dirname(p), exist_ok=True)
        open(p, 'w', encoding='utf8').write(t)
    def one(m):
        p = work + '/src/' + m.replace('.', '/') + '.lean' if m in src else s.file[m]
        o = work + '/lib/' + m.replace('.', '/') + '.olean'
        if os.path.exists(o): os.remove(o)
        try:
            r = subprocess.run(['lean', '--run', s.front, p, m, o], env={**os.environ, 'LEAN_PATH': work + '/lib'}, capture_output=True,
                               text=True, timeout=1500)
        except subprocess.TimeoutExpired: return m, 124, ''
        return m, r.returncode, r.stdout + r.stderr
    done, running, todo = set(), {}, set(todo)
    trans = {}
    def tr(m):
        if m not in trans:
            trans[m] = set()
            for i in s.imports.get(m, []): trans[m] |= {i} | tr(i)
        return trans[m]
    with cf.ThreadPoolExecutor(jobs) as ex:
        pend = set(todo)
        while pend or running:
            for m in sorted(pend, key=lambda m: (os.path.getsize(s.file[m]), m) if first else m):
                if len(running) < jobs and not (tr(m) & (pend | set(running.values()))):
                    pend.remove(m)
                    running[ex.submit(one, m)] = m
            fin, _ = cf.wait(running, return_when=cf.FIRST_COMPLETED)
            for f in fin:
                m = running.pop(f)
                _, code, out = f.result()
                if code == 3: errs[m] = [int(x) for x in re.findall(r'^ERR (\d+)', out, re.M)]
                elif code != 0:
                    pend.clear()
                    if code in (124, -9, 137): return_error = f'{m}: stopped ({code})'
                    else: return_error = f'{m}: exit {code} {out[-400:]}'
                    cf.wait(running); return {'error': return_error}
                if first and m in errs and not m.startswith('Verif.Model.'):
                    lines = open(s.file[m], encoding='utf8').read().split('\n')
                    hs = {d[3].rstrip(':') for l in errs[m] for d in [find_decl(lines, l)] if d}
                    dead = closure(s.use, [c for c in s.mod if s.mod[c] == m and c.split('.')[-1] in {h.split('.')[-1] for h in hs}])
                    failed = [n.replace('WanaKana.', '') for n in names if n in dead]
                    if failed: pend.clear(); cf.wait(running); return {'failed': failed, 'helpers': sorted(hs), 'modules': n_mod}
                if m.startswith('Verif.Model.') and m in errs: pend.clear(); cf.wait(running); return {'error': 'does not compile', 'where': m}
    mod, use, e = deps(work + '/lib', s.dep)
    if not mod: return {'error': 'deps: ' + e[-500:]}
    dead = closure(use, ['sorryAx'])
    helpers = []
    for m, ls in errs.items():
        lines = open(s.file[m], encoding='utf8').read().split('\n')
        for l in ls:
            d = find_decl(lines, l)
            if d and d[3] not in helpers: helpers.append(d[3].rstrip(':'))
    return {'failed': [n.replace('WanaKana.', '') for n in names if n in dead or n not in mod], 'helpers': helpers, 'modules': n_mod}

if __name__ == '__main__':
    a = sys.argv[1:]
    jobs = 3
    if '-j' in a: i = a.index('-j'); jobs = int(a[i + 1]); del a[i:i + 2]
    auto = '--auto' in a
    if auto: a.remove('--auto')
    first = '--first' in a
    if first: a.remove('--first')
    per = 0
    if '--per-definition' in a: i = a.index('--per-definition'); per = int(a[i + 1]); del a[i:i + 2]
    snap, work, out = a[:3]
    names = [t for c in json.load(open(ROOT + '/MANIFEST.json', encoding='utf8'))['claims'] for t in c['theorems']]
    s = Snap(snap, work + '.tmp')
    if auto:
        import automutate
        def repl(m):
            def fn(t):
                ls = t.split('\n')
                at = [i for i, l in enumerate(ls) if l == m['old']]
                near = [i for i in at if find_decl(ls, i + 1) and find_decl(ls, i + 1)[3] == m['definition']]
                if not near: return None
                k = min(near, key=lambda i: abs(i + 1 - m['line']))
                ls[k] = m['new']
                return '\n'.join(ls)
            return fn
        muts = [dict(m, todo=[('Model/' + m['file'] + '.lean', repl(m))]) for m in automutate.mutants()]
    else:
        muts = []
        for f in a[3:]:
            for m in json.load(open(f, encoding='utf8')):
                muts.append(dict(m, todo=[(f2, (lambda o, n: lambda t: t.replace(o, n) if t.count(o) == 1 else None)(o, n)) for f2, o, n in m['edits']]))
    for m in muts: m['src'], m['mods'] = plan(s, m.pop('todo'))
    muts.sort(key=lambda m: sum(os.path.getsize(s.file[x]) for x in m['mods'] or []))
    if per:
        n, keep = {}, []
        for m in sorted(muts, key=lambda m: m['id']):
            k = (m.get('file'), m['definition'])
            n[k] = n.get(k, 0) + 1
            if n[k] <= per: keep.append(m)
        muts = [m for m in muts if any(m is x for x in keep)]
    lock = threading.Lock()
    def test(m, work, jobs):
        with lock:
            done = {json.loads(l)['id'] for l in open(out, encoding='utf8')} if os.path.exists(out) else set()
        if m['id'] in done: return
        while os.path.exists('/tmp/pause'): time.sleep(5)
        t0 = time.time()
        r = run(s, work, m['src'], m['mods'], names, jobs, first)
        d = {k: v for k, v in m.items() if k not in ('src', 'mods')} if auto else {'id': m['id']}
        d.update(r)
        if 'failed' in r:
            if auto:
                d['result'] = 'killed' if r['failed'] else 'survived'; d['broken'] = r['helpers']; d['other'] = []
            elif not first: d['survived'] = sorted({p for p in m.get('breaks', []) if not any(x.split('.')[-1].startswith(p + '_') for x in r['failed'])})
        elif auto: d['result'] = 'does not compile' if r['error'] == 'does not compile' else 'error'
        d['seconds'] = round(time.time() - t0)
        with lock:
            with open(out, 'a', encoding='utf8') as f: f.write(json.dumps(d, ensure_ascii=False) + '\n')
    if first:
        free = queue.Queue()
        for i in range(jobs): free.put(f'{work}{i}')
        def one(m):
            w = free.get()
            try: test(m, w, 1)
            finally: free.put(w)
        with cf.ThreadPoolExecutor(jobs) as ex: list(ex.map(one, muts))
    else:
        for m in muts: test(m, work, jobs)
