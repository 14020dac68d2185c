#!/usr/bin/env python3
"""Systematic wrong programs: every small edit of a line of the model.

usage: automutate.py list                     print the mutants
       automutate.py run SNAPSHOT WORKDIR DEPS OUT [part/of]

SNAPSHOT is a built copy of the Lean project, DEPS lists for every theorem of MANIFEST.json the theorems it
uses.  A mutant is killed if the proof of a theorem (not an example, not a test) no longer goes through; the build is
stopped at the first such module.  `failed` are the theorems of MANIFEST.json that use a failing theorem."""
import json, os, re, subprocess, sys, shutil, random
ROOT = os.path.dirname(os.path.dirname(os.path.abspath(__file__)))
sys.path.insert(0, ROOT + '/tools')
from mutate import find_decl
FILES = ['Constants', 'CharPreds', 'StrPreds', 'Convert', 'Tokenize', 'Trim', 'GetChunk', 'Cli', 'KanaNode', 'RomajiNode', 'Trees', 'Std',
         'Traits', 'Upstream']
FILES3 = ['Stdio', 'DebugPrint', 'Cost', 'CostTrim']
FILES2 = ['Utf8', 'Utf8Trim', 'Utf8Convert', 'Utf8Cli', 'Lazy', 'GroupBy', 'StrSearcher']
PREDS = ['is_char_hiragana', 'is_char_katakana', 'is_char_kana', 'is_char_kanji', 'is_char_romaji', 'is_char_japanese',
         'is_char_long_dash', 'is_char_slash_dot', 'is_char_english_punctuation', 'is_char_japanese_punctuation',
         'is_char_latin_number', 'is_char_japanese_number']

def edits(line):
    """(start, end, new text, description)"""
    for m in re.finditer(r'0x[0-9A-Fa-f]+', line):
        v = int(m.group(), 16)
        yield m.start(), m.end(), hex(v + 1), m.group() + ' + 1'
        if v: yield m.start(), m.end(), hex(v - 1), m.group() + ' - 1'
    for m in re.finditer(r"(?<![\w'.])\d+(?![\w'x])", line):
        v = int(m.group())
        yield m.start(), m.end(), str(v + 1), m.group() + ' + 1'
        if v: yield m.start(), m.end(), str(v - 1), m.group() + ' - 1'
    for a, b in [('&&', '||'), ('||', '&&'), (' == ', ' != '), (' != ', ' == '), (' ≤ ', ' < '), (' < ', ' ≤ '), (' ≠ ', ' = '),
                 ('.head?', '.getLast?'), ('.getLast?', '.head?'), ('.all ', '.any '), ('.any ', '.all '), ('<+:', '<:+'), ('<:+', '<+:'),
                 ('isSome', 'isNone'), ('isNone', 'isSome'), (' + ', ' - '), (' - ', ' + '), ('.take ', '.drop '), ('.drop ', '.take '), (' ∧ ', ' ∨ ')]:
        for m in re.finditer(re.escape(a), line): yield m.start(), m.end(), b, a.strip() + ' -> ' + b.strip()
    for m in re.finditer(r'!(?=[\w(])', line): yield m.start(), m.end(), '', 'negation removed'
    for m in re.finditer(r'\btrue\b', line): yield m.start(), m.end(), 'false', 'true -> false'
    for m in re.finditer(r'\bfalse\b', line): yield m.start(), m.end(), 'true', 'false -> true'
    for m in re.finditer(r"'([^'\\])'", line): yield m.start(1), m.end(1), chr(ord(m.group(1)) + 1), m.group() + ' -> ' + chr(ord(m.group(1)) + 1)
    for p in PREDS:
        for m in re.finditer(r'\b%s\b' % p, line):
            q = PREDS[(PREDS.index(p) + 1) % len(PREDS)]
            yield m.start(), m.end(), q, p + ' -> ' + q
    m = re.match(r'\s*\| .*=> some ', line)
    if m: yield m.end() - 5, len(line), 'none', 'entry removed'
    for m in re.finditer(r'\((\w+) \+\+ (\[\w+\]|\w+)\)', line):
        yield m.start(), m.end(), '(' + m.group(2) + ' ++ ' + m.group(1) + ')', 'appended in front'
        yield m.start(), m.end(), m.group(1), 'nothing appended'

def mutants():
    return mutants_of(FILES, 'auto-%03d') + mutants_of(FILES2, 'auto2-%03d') + mutants_of(FILES3, 'auto3-%03d')

def mutants_of(files, name):
    out = []
    for f in files:
        p = ROOT + '/lean/Verif/Model/' + f + '.lean'
        lines = open(p, encoding='utf8').read().split('\n')
        comment = False
        for i, l in enumerate(lines):
            if comment or '/-' in l:
                comment = '-/' not in l
                if '-/' in l and not l.strip().endswith('-/'): pass
                else: continue
            if not l.strip() or re.match(r'\s*(--|import|namespace|end|open|deriving|theorem|instance)', l): continue
            d = find_decl(lines, i + 1)
            if not d or d[2] != 'def': continue
            skip = len(re.match(r'(?:(?:private )?def \S+.*?:=)?', l).group()) if l.startswith('def') and ':=' in l else (len(l) if l.startswith('def') else 0)
            for a, b, new, desc in edits(l):
                if a < skip: continue
                out.append(dict(file=f, line=i + 1, definition=d[3], edit=desc, old=l, new=l[:a] + new + l[b:]))
    random.Random(7).shuffle(out)
    for k, m in enumerate(out): m['id'] = name % k
    return out

def run(m, snap, work, deps):
    if os.path.exists(work): shutil.rmtree(work)
    shutil.copytree(snap, work)
    p = work + '/Verif/Model/' + m['file'] + '.lean'
    lines = open(p, encoding='utf8').read().split('\n')
    assert lines[m['line'] - 1] == m['old']
    lines[m['line'] - 1] = m['new']
    open(p, 'w', encoding='utf8').write('\n'.join(lines))
    bad, other, invalid, failed_mod = set(), set(), False, False
    pr = subprocess.Popen(['lake', 'build'], cwd=work, stdout=subprocess.PIPE, stderr=subprocess.STDOUT, text=True, start_new_session=True)
    for l in pr.stdout:
        e = re.match(r'error: (Verif/\S+?\.lean):(\d+):\d+:', l)
        if e:
            f = e.group(1)
            src = open(work + '/' + f, encoding='utf8').read().split('\n')
            d = find_decl(src, int(e.group(2)))
            if f.startswith('Verif/Model/'): invalid = True; break
            if d and d[2] in ('theorem', 'lemma') and not f.startswith('Verif/Tests'): bad.add(d[3].rstrip(':'))
            else: other.add(f + ':' + (d[3] if d else '?'))
        elif bad and re.match(r'(error: Lean exited|[✔✖⚠ℹ] \[)', l): break
    if pr.poll() is None:
        import signal
        try: os.killpg(pr.pid, signal.SIGKILL)
        except ProcessLookupError: pass
    pr.wait()
    r = dict(m)
    if invalid: r['result'] = 'does not compile'; return r
    failed = sorted(t for t, ds in deps.items() if any(d.split('.')[-1] in {b.split('.')[-1] for b in bad} for d in ds))
    r.update(result='killed' if bad else 'survived', broken=sorted(bad), other=sorted(other), failed=failed)
    return r

if __name__ == '__main__':
    ms = mutants()
    if sys.argv[1] == 'list':
        for m in ms: print(m['id'], m['file'], m['line'], m['edit'], '|', m['new'].strip())
        print(len(ms))
    else:
        snap, work, depf, outf = sys.argv[2:6]
        a, n = map(int, sys.argv[6].split('/')) if len(sys.argv) > 6 else (0, 1)
        deps = {}
        for l in open(depf):
            w = l.split()
            if w: deps[w[0].replace('WanaKana.', '')] = [x.replace('WanaKana.', '') for x in w]
        done = {json.loads(l)['id'] for l in open(outf, encoding='utf8')} if os.path.exists(outf) else set()
        for k, m in enumerate(ms):
            if k % n != a or m['id'] in done: continue
            r = run(m, snap, work, deps)
            with open(outf, 'a', encoding='utf8') as f: f.write(json.dumps(r, ensure_ascii=False) + '\n')
