#!/usr/bin/env python3
"""Translate the assertions of /repo (unit tests, doc tests, integration tests, README) into Lean examples about
the model: lean/Verif/Tests/Repo1.lean ... Repo4.lean.  The examples check the model against the expectations the authors of the
crate wrote down; they are tests of the model, not proofs of any property."""
import re, sys, os, glob

ROOT = os.path.dirname(os.path.dirname(os.path.abspath(__file__)))
REPO = sys.argv[1] if len(sys.argv) > 1 else '/repo'

class Bad(Exception): pass

TOK = re.compile(r'''\s+|(?P<raw>r"[^"]*")|(?P<str>"(?:\\.|[^"\\])*")|(?P<char>'(?:\\.|[^'\\])')|(?P<num>\d+)|(?P<id>[A-Za-z_]\w*(?:::\w+)*)|(?P<op>\.\.|[!&()\[\]{}.,:|])''')

def lex(s):
    out, i = [], 0
    while i < len(s):
        m = TOK.match(s, i)
        if not m: raise Bad('lex ' + s[i:i+10])
        if m.lastgroup: out.append((m.lastgroup, m.group(m.lastgroup)))
        i = m.end()
    return out

def unescape(t): return re.sub(r'\\(.)', lambda m: {'n': '\n', 't': '\t'}.get(m.group(1), m.group(1)), t)
def lchar(c): return "'" + {'\n': '\\n', '\t': '\\t'}.get(c, '\\' + c if c in "'\\" else c) + "'"
def lstr(t): return '[' + ', '.join(map(lchar, t)) + ']'

# Lean functions: name -> (argument kinds, result kind, needs std)
CONV = {f: (['s'], 'R', True) for f in ['to_kana', 'to_hiragana', 'to_katakana', 'to_romaji', 'katakana_to_hiragana']}
CONV |= {f + '_with_opt': (['s', 'o'], 'R', True) for f in ['to_kana', 'to_hiragana', 'to_katakana', 'to_romaji']}
CONV |= {'hiragana_to_katakana': (['s'], 'R', False), 'get_chunk': (['s', 'n', 'n'], 'R', False),
         'katakana_to_hiragana_with_opt': (['s', 'b'], 'R', True)}
PRED = {f: (['s'], 'b', False) for f in ['is_hiragana', 'is_katakana', 'is_kana', 'is_kanji', 'is_romaji', 'is_japanese', 'is_mixed', 'contains_kanji']}
PRED |= {'is_mixed_pass_kanji': (['s', 'b'], 'b', False), 'is_japanese_with_whitelist': (['s', 'r'], 'b', False),
         'is_romaji_with_whitelist': (['s', 'r'], 'b', False)}
CHARS = {f: (['c'], 'b', False) for f in '''is_char_hiragana is_char_katakana is_char_kana is_char_kanji is_char_japanese is_char_romaji
 is_char_long_dash is_char_slash_dot is_char_upper_case is_char_vowel is_char_english_punctuation is_char_japanese_punctuation
 is_char_punctuation is_char_japanese_number is_char_latin_number'''.split()}
CHARS |= {f: (['c', 'b'], 'b', False) for f in ['is_char_vowel_opt', 'is_char_consonant']}
CHARS |= {'is_char_in_range': (['c', 'n', 'n'], 'b', False)}
TOKS = {'tokenize': (['s'], 'l', False), 'tokenize_with_opt': (['s', 'b'], 'l', False), 'tokenize_detailed': (['s', 'b'], 'd', False),
        'trim_okurigana': (['s'], 'R', False), 'trim_okurigana_with_opt': (['s', 'b', 'ms'], 'R', False)}
FUN = CONV | PRED | CHARS | TOKS
CHARMETHODS = ['is_hiragana', 'is_katakana', 'is_kana', 'is_kanji', 'is_japanese', 'is_japanese_number', 'is_japanese_punctuation']

class P:
    def __init__(self, toks): self.t, self.i = toks, 0
    def peek(self): return self.t[self.i][1] if self.i < len(self.t) else None
    def kind(self): return self.t[self.i][0] if self.i < len(self.t) else None
    def next(self): self.i += 1; return self.t[self.i - 1][1]
    def eat(self, x):
        if self.peek() != x: raise Bad(f'expected {x} got {self.peek()}')
        self.i += 1
    def args(self, close):
        out = []
        while self.peek() != close:
            out.append(self.expr())
            if self.peek() == ',': self.next()
            elif self.peek() != close: raise Bad('args')
        self.next()
        return out
    def expr(self):
        if self.peek() == '!':
            self.next(); k, e = self.expr()
            if k != 'b': raise Bad('!')
            return 'b', f'(!{e})'
        if self.peek() == '&': self.next(); return self.expr()
        e = self.atom()
        while self.peek() == '.':
            self.next(); m = self.next()
            self.eat('('); a = self.args(')')
            e = self.method(e, m, a)
        return e
    def atom(self):
        k, t = self.kind(), self.peek()
        if k == 'str': self.next(); return 's', lstr(unescape(t[1:-1]))
        if k == 'raw': self.next(); return 'raw', t[2:-1]
        if k == 'char':
            self.next(); c = unescape(t[1:-1])
            return 'c', lchar(c)
        if k == 'num': self.next(); return 'n', t
        if t == '(':
            self.next(); a = self.args(')')
            return a[0] if len(a) == 1 else ('t', a)
        if k != 'id': raise Bad('atom ' + str(t))
        self.next()
        if t in ('true', 'false'): return 'b', t
        if t == 'None': return 'none', 'none'
        if t in ('HIRAGANA_START', 'HIRAGANA_END'): return 'n', t
        if t == 'vec' and self.peek() == '!':
            self.next(); self.eat('[')
            return 'v', self.args(']')
        if t == 'Options' and self.peek() == '{':
            self.next(); fs = []
            while self.peek() != '}':
                if self.peek() == '..':
                    self.next(); self.next(); self.eat('('); self.eat(')')
                else:
                    f = self.next(); self.eat(':'); v = self.expr(); fs.append(f'{f} := {v[1]}')
                if self.peek() == ',': self.next()
            self.next()
            return 'o', '{ ' + ', '.join(fs) + ' }'
        if t.startswith('TokenType::'): return 'tt', '.' + t.split('::')[1]
        if self.peek() == '(':
            self.next(); a = self.args(')')
            if t == 'Some': return 'some', a[0]
            if t == 'with_obsolete_kana': return 'o', '{ use_obsolete_kana := true }'
            if t == 'with_ime_mode': return 'o', '{ imemode := true }'
            if t == 'Regex::new': return 'regex', a[0][1]
            if t == 'Options::default': return 'o', '{}'
            return self.call(t, a)
        raise Bad('ident ' + t)
    def method(self, e, m, a):
        if m in ('unwrap', 'as_str', 'to_string', 'to_owned', 'as_ref') and not a: return e
        if e[0] == 's' and (m in PRED or m in CONV): return self.call(m, [e] + a)
        if e[0] == 'c' and m in CHARMETHODS and not a: return 'b', f'IsJapaneseChar.{m} {e[1]}'
        raise Bad('method ' + m)
    def call(self, f, a):
        if f not in FUN: raise Bad('function ' + f)
        kinds, res, std = FUN[f]
        if len(kinds) != len(a): raise Bad('arity ' + f)
        return res, ' '.join([f] + ['modernStd'] * std + [self.arg(k, x) for k, x in zip(kinds, a)])
    def arg(self, k, x):
        if k == 'ms' and x[0] == 'none': return 'none'
        if k == 'ms' and x[0] == 'some' and x[1][0] == 's': return f'(some {x[1][1]})'
        if k == 'r' and x[0] == 'none': return 'none'
        if k == 'r' and x[0] == 'some' and x[1][0] == 'regex':
            m = re.fullmatch(r'\[([^\]\\^-]*)\]', x[1][1])
            if not m: raise Bad('regex ' + x[1][1])
            return '(some ⟨fun s => s.any fun c => [' + ', '.join(f"'{c}'" for c in m.group(1)) + '].contains c⟩)'
        if x[0] != k: raise Bad(f'argument kind {x[0]} for {k}')
        return x[1]

def val(e, other):
    """the Lean term of e, given the kind it is compared with"""
    k, t = e
    if k == 's' and other == 'R': return '.ok ' + t
    if k == 'v' and other == 'l': return '[' + ', '.join(val(x, None) for x in t) + ']'
    if k == 'v' and other == 'd': return '[' + ', '.join('(' + ', '.join(val(y, None) for y in x[1]) + ')' for x in t) + ']'
    if k in ('v', 't', 'some', 'none', 'raw', 'regex'): raise Bad('value ' + k)
    return t

def balanced(s, i):
    depth, j = 0, i
    while j < len(s):
        c = s[j]
        if c == '"':
            j += 1
            while s[j] != '"': j += 2 if s[j] == '\\' else 1
        elif c == "'" and j + 2 < len(s) and s[j+2] == "'": j += 2
        elif c in '([{': depth += 1
        elif c in ')]}':
            depth -= 1
            if depth == 0: return s[i+1:j]
        j += 1
    raise Bad('unbalanced')

files = ['README.md'] + sorted(os.path.relpath(f, REPO) for f in glob.glob(REPO + '/src/**/*.rs', recursive=True) + glob.glob(REPO + '/tests/*.rs'))
out, done, skipped = [], 0, []
for f in files:
    text = open(f'{REPO}/{f}', encoding='utf8').read()
    lines = text.split('\n')
    # doc comments become code, other comments go
    code = '\n'.join(re.sub(r'^(\s*)//[/!] ?', r'\1', l) if re.match(r'\s*//[/!]', l) else re.sub(r'(^|\s)//.*$', '', l) for l in lines)
    rows = []
    for m in re.finditer(r'\b(assert|assert_eq|assert_ne)!\(', code):
        ln = code.count('\n', 0, m.start()) + 1
        try:
            p = P(lex(balanced(code, m.end() - 1)))
            a = []
            while p.i < len(p.t):
                a.append(p.expr())
                if p.peek() == ',': p.next()
            if m.group(1) == 'assert':
                if len(a) != 1 or a[0][0] != 'b': raise Bad('assert')
                prop = f'{a[0][1]} = true'
            else:
                if len(a) != 2: raise Bad('two arguments')
                x, y = a
                prop = val(x, y[0]) + (' = ' if m.group(1) == 'assert_eq' else ' ≠ ') + val(y, x[0])
            rows.append((ln, prop)); done += 1
        except (Bad, IndexError) as e: skipped.append((f, ln, str(e)))
    out += [(f'-- {f}:{ln}', f'example : {p} := by decide +kernel') for ln, p in rows]
N = 4
for n in range(N):
    part = out[len(out) * n // N:len(out) * (n + 1) // N]
    hdr = f'''import Verif.Model.Traits
import Verif.Model.Tokenize
import Verif.Model.Trim
import Verif.Model.GetChunk
import Verif.Model.StdConcrete
/-! Generated by tools/gen_repo_tests.py ({n + 1} of {N}).  {len(part)} assertions from the tests and the documentation of
the crate, evaluated in the model.  They test that the model does what the authors of the code expect; no property
rests on them. -/

namespace WanaKana

'''
    open(f'{ROOT}/lean/Verif/Tests/Repo{n + 1}.lean', 'w', encoding='utf8').write(
        hdr + '\n'.join(a + '\n' + b for a, b in part) + '\n\nend WanaKana\n')
print(done, 'translated;', len(skipped), 'skipped')
for s in skipped: print('  ', *s)
