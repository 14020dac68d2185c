#!/usr/bin/env python3
"""Copies the lines of the tree literals, src/to_kana_node_tree.rs:53-4811 and
src/to_romaji_node_tree.rs:44-2674, verbatim into Lean string literals: one list of lines per
root transition, and the first and last line.
Usage: gen_source_text.py [repo]        writes lean/Verif/Model/{Kana,Romaji}TreeText.lean
                                and lean/Verif/Props/Source{Kana,Romaji}Roots.lean
       gen_source_text.py --check [repo]  compares the strings in these files with the source"""
import os, re, sys
args = [a for a in sys.argv[1:] if a != '--check']
check = '--check' in sys.argv
repo = args[0] if args else '/repo'
outdir = os.path.join(os.path.dirname(os.path.abspath(__file__)), '../lean/Verif/Model')

def quote(l): return '"' + l.replace('\\', '\\\\').replace('"', '\\"') + '"'
def unquote(l): return re.sub(r'\\(.)', r'\1', l)

def roots(kind, n):
    """the theorems that the texts of the root transitions read as the translated terms"""
    K = kind.capitalize(); k = kind[0]
    L = ['import Verif.Props.SourceRead', f'import Verif.Model.{K}TreeText', f'import Verif.Model.{K}TreeData',
         f'/-! # C120: the root transitions of the {kind} tree, one by one (generated by tools/gen_source_text.py) -/', '',
         'namespace WanaKana.C120', 'open WanaKana Spec C119', '', 'set_option maxRecDepth 100000', '']
    for i in range(n):
        L += [f'theorem {kind}_root{i:03d} : rootTokens {kind}Text{i:03d} =',
              f'    some ({k}PairSource {kind}Root{i:03d}.1 {kind}Root{i:03d}.2) := by read_root {kind}Text{i:03d}']
    L += ['', f'theorem {kind}_roots : {kind}Texts.map rootTokens = ({k}Source {kind}Transitions).map some := by',
          f'  rw [{k}Source_map]', f'  simp only [{kind}Texts, {kind}Transitions, List.map_cons, List.map_nil,']
    for i in range(0, n, 6):
        L.append('    ' + ', '.join(f'{kind}_root{j:03d}' for j in range(i, min(n, i + 6))) + (']' if i + 6 >= n else ','))
    L += ['', 'end WanaKana.C120']
    open(f'{outdir}/../Props/Source{K}Roots.lean', 'w', encoding='utf8').write('\n'.join(L) + '\n')

def emit(kind, src, first, last):
    out = f'{outdir}/{kind.capitalize()}TreeText.lean'
    lines = open(f'{repo}/src/{src}', encoding='utf8').read().split('\n')[first - 1:last]
    if check:
        got = [unquote(m.group(1)) for m in re.finditer(r'^  (?:\[|, )"((?:[^"\\]|\\.)*)"\]?$',
                                                        open(out, encoding='utf8').read(), re.M)]
        assert got == lines, src
        print(src, len(got), 'lines agree')
        return
    starts = [i for i, l in enumerate(lines) if l == ' ' * 12 + '('] + [len(lines) - 1]
    assert starts[0] == 1
    L = ['import Verif.Model.Std',
         f'/-! # The text of src/{src}:{first}-{last}, line by line (copied by tools/gen_source_text.py) -/', '',
         'namespace WanaKana', '']
    def block(name, a, b):
        L.append(f'/-- src/{src}:{first + a}-{first + b - 1} -/' if b > a + 1 else f'/-- src/{src}:{first + a} -/')
        L.append(f'def {name} : List String :=')
        for i in range(a, b):
            L.append(('  [' if i == a else '  , ') + quote(lines[i]) + (']' if i == b - 1 else ''))
        L.append('')
    block(f'{kind}TextFirst', 0, 1)
    names = []
    for i, (a, b) in enumerate(zip(starts, starts[1:])):
        names.append(f'{kind}Text{i:03d}')
        block(names[-1], a, b)
    block(f'{kind}TextLast', len(lines) - 1, len(lines))
    L.append(f'/-- src/{src}:{first + 1}-{last - 1}, one element per root transition -/')
    L.append(f'def {kind}Texts : List (List String) :=')
    for i in range(0, len(names), 6):
        L.append('  ' + ('[' if i == 0 else ' ') + ', '.join(names[i:i + 6]) + (']' if i + 6 >= len(names) else ','))
    L += ['', 'end WanaKana']
    open(out, 'w', encoding='utf8').write('\n'.join(L) + '\n')
    roots(kind, len(names))
    print(out, len(lines), 'lines')

emit('kana', 'to_kana_node_tree.rs', 53, 4811)
emit('romaji', 'to_romaji_node_tree.rs', 44, 2674)

def emit_json(kind, src, first, last):
    out = f'{outdir}/{kind.capitalize()}JsonText.lean'
    lines = open(f'{repo}/upstream_conversions/src/bin/{src}', encoding='utf8').read().split('\n')[first - 1:last]
    if check:
        got = [unquote(m.group(1)) for m in re.finditer(r'^  (?:\[|, )"((?:[^"\\]|\\.)*)"\]?$',
                                                        open(out, encoding='utf8').read(), re.M)]
        assert got == lines, src
        print(src, len(got), 'lines agree')
        return
    L = ['import Verif.Model.Std',
         f'/-! # The text of upstream_conversions/src/bin/{src}:{first}-{last}, line by line',
         '(copied by tools/gen_source_text.py) -/', '', 'namespace WanaKana', '']
    names = []
    for a in range(0, len(lines), 250):
        b = min(len(lines), a + 250)
        names.append(f'{kind}Json{a // 250}')
        L.append(f'/-- upstream_conversions/src/bin/{src}:{first + a}-{first + b - 1} -/')
        L.append(f'def {names[-1]} : List String :=')
        for i in range(a, b):
            L.append(('  [' if i == a else '  , ') + quote(lines[i]) + (']' if i == b - 1 else ''))
        L.append('')
    L.append(f'/-- upstream_conversions/src/bin/{src}:{first}-{last} -/')
    L.append(f'def {kind}JsonText : List String :=')
    L.append('  ' + ' ++ '.join(names))
    L += ['', 'end WanaKana']
    open(out, 'w', encoding='utf8').write('\n'.join(L) + '\n')
    print(out, len(lines), 'lines')

emit_json('kana', 'to_kana_tree.rs', 16, 1899)
emit_json('romaji', 'to_romaji_tree.rs', 16, 1124)
