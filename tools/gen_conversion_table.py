#!/usr/bin/env python3
"""Translate the published conversion tables of /repo/tests/conversion_tables.rs to Lean."""
import re
src = open('/repo/tests/conversion_tables.rs', encoding='utf8').read()

def rows(name):
    i = src.index('const ' + name)
    line = src[:i].count('\n') + 1
    body = src[src.index('= [', i) + 3:]
    body = body[:body.index('];')]
    end = line + src[i:src.index('];', i)].count('\n')
    body = re.sub(r'//[^\n]*', '', body)
    out = re.findall(r'\[\s*"((?:[^"\\]|\\.)*)",\s*"((?:[^"\\]|\\.)*)",\s*"((?:[^"\\]|\\.)*)",?\s*\]', body)
    n = int(re.search(r'; (\d+)\] =', src[i:]).group(1))
    assert len(out) == n, (len(out), n)
    return line, end, out

def lean(name, lname, doc):
    line, end, rs = rows(name)
    s = f'/-- tests/conversion_tables.rs:{line}-{end} `{name}`: {doc} -/\n'
    s += f'def {lname} : List (String × String × String) :=\n  [\n'
    s += ',\n'.join(f'    ("{a}", "{b}", "{c}")' for a, b, c in rs)
    return s + '\n  ]\n'

print('/-! # The published conversion tables (generated by tools/gen_conversion_table.py) -/\n')
print('namespace Spec\n')
print(lean('ROMA_TO_HIRA_KATA', 'romaToHiraKata', 'romaji, hiragana, katakana'))
print(lean('HIRA_KATA_TO_ROMA', 'hiraKataToRoma', 'hiragana, katakana, romaji'))
print('end Spec')
