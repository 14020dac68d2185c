#!/usr/bin/env python3
"""Translates the `json!` literals of upstream_conversions/src/bin/to_kana_tree.rs (lines
16-1899) and to_romaji_tree.rs (lines 16-1124) into Lean terms, in source order.
One Lean definition per root entry, plus the list of all of them.
Usage: gen_upstream.py [repo] ; writes lean/Verif/Model/Upstream{Kana,Romaji}Data.lean"""
import json, os, re, sys
sys.path.insert(0, os.path.dirname(os.path.abspath(__file__)))
repo = sys.argv[1] if len(sys.argv) > 1 else '/repo'
outdir = os.path.join(os.path.dirname(os.path.abspath(__file__)), '../lean/Verif/Model')

def lch(c):
    if c == "'": return "'\\''"
    if c == '"': return "'\"'"
    if c == '\\': return "'\\\\'"
    if c == '　': return "'\\u3000'"
    return "'" + c + "'"
def lstr(s): return '[' + ', '.join(lch(c) for c in s) + ']'
def val(v):
    if isinstance(v, str): return f'.str {lstr(v)}'
    return f"object [{', '.join(f'({lstr(k)}, {val(x)})' for k, x in v)}]"

def wrap(s, width=98):
    out, line = [], '  '
    for piece in re.split(r"(?<=,) ", s):
        if len(line) + len(piece) + 1 > width and line.strip():
            out.append(line.rstrip()); line = '    '
        line += piece + ' '
    out.append(line.rstrip())
    return '\n'.join(out)

def emit(kind, name, last, listname):
    src = f'upstream_conversions/src/bin/{name}.rs'
    lines = open(f'{repo}/{src}', encoding='utf8').read().split('\n')
    body = lines[16:last - 1]
    top = json.loads('{' + '\n'.join(body) + '}', object_pairs_hook=lambda p: p)
    at = [i for i, l in enumerate(lines[:last], 1) if re.match(r'^      "', l)]
    assert len(at) == len(top), (len(at), len(top))
    L = ['import Verif.Model.Upstream', f'/-! # Data of {src} (generated by tools/gen_upstream.py) -/', '',
         'namespace WanaKana', 'namespace Upstream', '']
    names = []
    for i, (k, v) in enumerate(top):
        nm = f'{kind}Entry{i:03d}'
        names.append(nm)
        key = repr(k) if '　' not in k else 'U+3000'
        L += [f'/-- {src}:{at[i]}: root entry {key} -/', f'def {nm} : Str × Json :=',
              wrap(f'({lstr(k)}, {val(v)})'), '']
    L += [f'/-- {src}:16-{last}: `val` -/', f'def {listname} : Json :=',
          '  object [' + ',\n    '.join(', '.join(names[j:j+6]) for j in range(0, len(names), 6)) + ']', '',
          'end Upstream', 'end WanaKana', '']
    open(os.path.join(outdir, f'Upstream{kind.capitalize()}Data.lean'), 'w', encoding='utf8').write('\n'.join(L))

emit('kana', 'to_kana_tree', 1899, 'kanaVal')
emit('romaji', 'to_romaji_tree', 1124, 'romajiVal')
