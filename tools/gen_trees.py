#!/usr/bin/env python3
"""Translates the `vec![...]` literals of src/to_kana_node_tree.rs (lines 53-4811) and
src/to_romaji_node_tree.rs (lines 44-2674) into Lean constructor terms.
One Lean definition per root transition, in source order, plus the list of all of them.
Usage: gen_trees.py [repo] ; writes lean/Verif/Model/{Kana,Romaji}TreeData.lean"""
import os, re, sys
sys.path.insert(0, os.path.dirname(os.path.abspath(__file__)))
import parse_trees
repo = sys.argv[1] if len(sys.argv) > 1 else '/repo'
outdir = os.path.join(os.path.dirname(os.path.abspath(__file__)), '../lean/Verif/Model')

def lch(c):
    if c == "'": return "'\\''"
    if c == '　': return "'\\u3000'"
    return "'" + c + "'"
def unesc(s):
    assert '\\' not in s.replace("\\'", ''), s
    return s.replace("\\'", "'")
def lstr(s): return '[' + ', '.join(lch(c) for c in unesc(s)) + ']'
def knode(n):
    t, o = n
    return f".mk [{', '.join(kt(x) for x in t)}] " + ('none' if o is None else f'(some {lstr(o)})')
def kt(x): return f"({lch(x[0])}, {knode(x[1])})"
def rnode(n):
    t, o = n
    return '.mk ' + ('none' if t is None else f"(some [{', '.join(rt(x) for x in t)}])") + ' ' + lstr(o)
def rt(x): return f"({lch(x[0])}, {rnode(x[1])})"

def wrap(s, width=98):
    """break at ', ' boundaries"""
    out, line = [], '  '
    for piece in re.split(r"(?<=,) ", s):
        if len(line) + len(piece) + 1 > width and line.strip():
            out.append(line.rstrip()); line = '    '
        line += piece + ' '
    out.append(line.rstrip())
    return '\n'.join(out)

def root_lines(path):
    """source line of every root key (16 spaces of indentation)"""
    r = []
    for i, l in enumerate(open(path, encoding='utf8').read().split('\n'), 1):
        if re.match(r" {16}'.*',$", l): r.append(i)
    return r

def emit(kind, src, ty, tname, fn, listname, doc):
    path = f'{repo}/src/{src}'
    t = parse_trees.load(path)
    lines = root_lines(path)
    assert len(lines) == len(t), (len(lines), len(t))
    L = [f'import Verif.Model.{tname}', f'/-! # Data of src/{src} (generated by tools/gen_trees.py) -/', '',
         'namespace WanaKana', '']
    names = []
    for i, x in enumerate(t):
        nm = f'{kind}Root{i:03d}'
        names.append(nm)
        L.append(f'/-- src/{src}:{lines[i]}: root transition {x[0]!r} -/' if x[0] != '　' else f'/-- src/{src}:{lines[i]}: root transition U+3000 -/')
        L.append(f'def {nm} : Char × {ty} :=')
        L.append(wrap(fn(x)))
        L.append('')
    L.append(f'/-- {doc} -/')
    L.append(f'def {listname} : List (Char × {ty}) :=')
    L.append(wrap('[' + ', '.join(names) + ']'))
    L += ['', 'end WanaKana', '']
    open(f'{outdir}/{tname.replace("Node","TreeData")}.lean', 'w', encoding='utf8').write('\n'.join(L))
emit('kana', 'to_kana_node_tree.rs', 'KNode', 'KanaNode', kt, 'kanaTransitions',
     'src/to_kana_node_tree.rs:53-4811: the literal `transitions` of the root, in source order')
emit('romaji', 'to_romaji_node_tree.rs', 'RNode', 'RomajiNode', rt, 'romajiTransitions',
     'src/to_romaji_node_tree.rs:44-2674: the literal `transitions` of the root, in source order')
