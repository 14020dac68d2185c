#!/usr/bin/env python3
"""Write lean/Verif/Model/UnicodeData.lean: the case mappings and properties of the Unicode character database,
as known to the installed perl (Unicode 15.0)."""
import os, subprocess
root = os.path.dirname(os.path.dirname(os.path.abspath(__file__)))
PERL = r'''
use feature 'unicode_strings'; use Unicode::UCD;
print "V ", Unicode::UCD::UnicodeVersion(), "\n";
for my $c (0..0xD7FF, 0xE000..0x10FFFF) {
  my $x = chr($c);
  my $l = lc($x); my $u = uc($x);
  print "L $c ", join(",", map { ord } split //, $l), "\n" if $l ne $x;
  print "U $c ", join(",", map { ord } split //, $u), "\n" if $u ne $x;
  print "P $c\n" if $x =~ /\p{Uppercase}/;
  print "I $c\n" if $x =~ /\p{Case_Ignorable}/;
  print "C $c\n" if $x =~ /\p{Cased}/;
}
'''
out = subprocess.run(['perl', '-e', PERL], capture_output=True, text=True, check=True).stdout
L, U, S, V = [], [], {'P': [], 'I': [], 'C': []}, ''
for line in out.splitlines():
    f = line.split(' ')
    if f[0] == 'V': V = f[1]
    elif f[0] in 'LU': (L if f[0] == 'L' else U).append((int(f[1]), [int(x) for x in f[2].split(',')]))
    else: S[f[0]].append(int(f[1]))

def ranges(xs):
    r = []
    for x in xs:
        if r and r[-1][1] == x - 1: r[-1][1] = x
        else: r.append([x, x])
    return r

def wrap(items):
    lines, cur = [], '  ['
    for i, t in enumerate(items):
        t += ',' if i < len(items) - 1 else ']'
        if len(cur) + len(t) > 115: lines.append(cur.rstrip()); cur = '   '
        cur += t + ' '
    lines.append(cur.rstrip())
    return '\n'.join(lines)

def table(name, doc, t, size=100):
    parts, s = [], ''
    for i in range(0, len(t), size):
        n = f'{name}{i // size}'
        parts.append(n)
        s += f'/-- part of `{name}` -/\ndef {n} : List (Nat × List Nat) :=\n' + \
            wrap([f'(0x{a:X}, [' + ', '.join(f'0x{x:X}' for x in b) + '])' for a, b in t[i:i + size]]) + '\n\n'
    lst = wrap([f'(0x{t[i * size][0]:X}, 0x{t[min(len(t), i * size + size) - 1][0]:X}, {n})' for i, n in enumerate(parts)])
    return s + f'/-- the parts of `{name}` with their first and last code point -/\n' \
        f'def {name}Parts : List (Nat × Nat × List (Nat × List Nat)) :=\n{lst}\n\n' \
        f'/-- {doc} -/\ndef {name} : List (Nat × List Nat) := {name}Parts.flatMap fun p => p.2.2\n\n'

def rng(name, doc, r, size=150):
    parts, s = [], ''
    for i in range(0, len(r), size):
        n = f'{name}{i // size}'
        parts.append(n)
        s += f'/-- part of `{name}` -/\ndef {n} : List (Nat × Nat) :=\n' + \
            wrap([f'(0x{a:X}, 0x{b:X})' for a, b in r[i:i + size]]) + '\n\n'
    return s + f'/-- {doc} -/\ndef {name} : List (Nat × Nat) :=\n  ' + ' ++ '.join(parts) + '\n\n'

with open(root + '/lean/Verif/Model/UnicodeData.lean', 'w', encoding='utf8') as g:
    g.write(f'/-! # Case mappings and properties of the Unicode character database, version {V}\n\n'
            'Generated by `tools/gen_unicode.py`. -/\n\nnamespace WanaKana.Unicode\n\n')
    g.write(table('lowerTable', 'full lowercase mapping of the characters that are not their own lowercase', L))
    g.write(table('upperTable', 'full uppercase mapping of the characters that are not their own uppercase', U))
    g.write(rng('uppercaseRanges', 'characters with the property Uppercase', ranges(S['P'])))
    g.write(rng('ignorableRanges', 'characters with the property Case_Ignorable', ranges(S['I'])))
    g.write(rng('casedRanges', 'characters with the property Cased', ranges(S['C'])))
    g.write('end WanaKana.Unicode\n')
print(V, len(L), len(U), {k: len(ranges(v)) for k, v in S.items()})
