import Verif.Model.RomajiNode
/-! # Data of src/to_romaji_node_tree.rs (generated by tools/gen_trees.py) -/

namespace WanaKana

/-- src/to_romaji_node_tree.rs:46: root transition 'ヷ' -/
def romajiRoot000 : Char × RNode :=
  ('ヷ', .mk none ['v', 'a'])

/-- src/to_romaji_node_tree.rs:53: root transition U+3000 -/
def romajiRoot001 : Char × RNode :=
  ('\u3000', .mk none [' '])

/-- src/to_romaji_node_tree.rs:60: root transition '、' -/
def romajiRoot002 : Char × RNode :=
  ('、', .mk none [','])

/-- src/to_romaji_node_tree.rs:67: root transition '。' -/
def romajiRoot003 : Char × RNode :=
  ('。', .mk none ['.'])

/-- src/to_romaji_node_tree.rs:74: root transition '「' -/
def romajiRoot004 : Char × RNode :=
  ('「', .mk none ['‘'])

/-- src/to_romaji_node_tree.rs:81: root transition '」' -/
def romajiRoot005 : Char × RNode :=
  ('」', .mk none ['’'])

/-- src/to_romaji_node_tree.rs:88: root transition '『' -/
def romajiRoot006 : Char × RNode :=
  ('『', .mk none ['“'])

/-- src/to_romaji_node_tree.rs:95: root transition '』' -/
def romajiRoot007 : Char × RNode :=
  ('』', .mk none ['”'])

/-- src/to_romaji_node_tree.rs:102: root transition '〜' -/
def romajiRoot008 : Char × RNode :=
  ('〜', .mk none ['~'])

/-- src/to_romaji_node_tree.rs:109: root transition 'ぁ' -/
def romajiRoot009 : Char × RNode :=
  ('ぁ', .mk none ['a'])

/-- src/to_romaji_node_tree.rs:116: root transition 'あ' -/
def romajiRoot010 : Char × RNode :=
  ('あ', .mk none ['a'])

/-- src/to_romaji_node_tree.rs:123: root transition 'ぃ' -/
def romajiRoot011 : Char × RNode :=
  ('ぃ', .mk none ['i'])

/-- src/to_romaji_node_tree.rs:130: root transition 'い' -/
def romajiRoot012 : Char × RNode :=
  ('い', .mk none ['i'])

/-- src/to_romaji_node_tree.rs:137: root transition 'ぅ' -/
def romajiRoot013 : Char × RNode :=
  ('ぅ', .mk none ['u'])

/-- src/to_romaji_node_tree.rs:144: root transition 'う' -/
def romajiRoot014 : Char × RNode :=
  ('う', .mk none ['u'])

/-- src/to_romaji_node_tree.rs:151: root transition 'ぇ' -/
def romajiRoot015 : Char × RNode :=
  ('ぇ', .mk none ['e'])

/-- src/to_romaji_node_tree.rs:158: root transition 'え' -/
def romajiRoot016 : Char × RNode :=
  ('え', .mk none ['e'])

/-- src/to_romaji_node_tree.rs:165: root transition 'ぉ' -/
def romajiRoot017 : Char × RNode :=
  ('ぉ', .mk none ['o'])

/-- src/to_romaji_node_tree.rs:172: root transition 'お' -/
def romajiRoot018 : Char × RNode :=
  ('お', .mk none ['o'])

/-- src/to_romaji_node_tree.rs:179: root transition 'か' -/
def romajiRoot019 : Char × RNode :=
  ('か', .mk none ['k', 'a'])

/-- src/to_romaji_node_tree.rs:186: root transition 'が' -/
def romajiRoot020 : Char × RNode :=
  ('が', .mk none ['g', 'a'])

/-- src/to_romaji_node_tree.rs:193: root transition 'き' -/
def romajiRoot021 : Char × RNode :=
  ('き', .mk (some [('ぃ', .mk none ['k', 'y', 'i']), ('ぇ', .mk none ['k', 'y', 'e']), ('ゃ',
    .mk none ['k', 'y', 'a']), ('ゅ', .mk none ['k', 'y', 'u']), ('ょ', .mk none ['k', 'y',
    'o'])]) ['k', 'i'])

/-- src/to_romaji_node_tree.rs:236: root transition 'ぎ' -/
def romajiRoot022 : Char × RNode :=
  ('ぎ', .mk (some [('ぃ', .mk none ['g', 'y', 'i']), ('ぇ', .mk none ['g', 'y', 'e']), ('ゃ',
    .mk none ['g', 'y', 'a']), ('ゅ', .mk none ['g', 'y', 'u']), ('ょ', .mk none ['g', 'y',
    'o'])]) ['g', 'i'])

/-- src/to_romaji_node_tree.rs:279: root transition 'く' -/
def romajiRoot023 : Char × RNode :=
  ('く', .mk (some [('ぃ', .mk none ['k', 'y', 'i']), ('ぇ', .mk none ['k', 'y', 'e']), ('ゃ',
    .mk none ['k', 'y', 'a']), ('ゅ', .mk none ['k', 'y', 'u']), ('ょ', .mk none ['k', 'y',
    'o'])]) ['k', 'u'])

/-- src/to_romaji_node_tree.rs:322: root transition 'ぐ' -/
def romajiRoot024 : Char × RNode :=
  ('ぐ', .mk none ['g', 'u'])

/-- src/to_romaji_node_tree.rs:329: root transition 'け' -/
def romajiRoot025 : Char × RNode :=
  ('け', .mk none ['k', 'e'])

/-- src/to_romaji_node_tree.rs:336: root transition 'げ' -/
def romajiRoot026 : Char × RNode :=
  ('げ', .mk none ['g', 'e'])

/-- src/to_romaji_node_tree.rs:343: root transition 'こ' -/
def romajiRoot027 : Char × RNode :=
  ('こ', .mk none ['k', 'o'])

/-- src/to_romaji_node_tree.rs:350: root transition 'ご' -/
def romajiRoot028 : Char × RNode :=
  ('ご', .mk none ['g', 'o'])

/-- src/to_romaji_node_tree.rs:357: root transition 'さ' -/
def romajiRoot029 : Char × RNode :=
  ('さ', .mk none ['s', 'a'])

/-- src/to_romaji_node_tree.rs:364: root transition 'ざ' -/
def romajiRoot030 : Char × RNode :=
  ('ざ', .mk none ['z', 'a'])

/-- src/to_romaji_node_tree.rs:371: root transition 'し' -/
def romajiRoot031 : Char × RNode :=
  ('し', .mk (some [('ぃ', .mk none ['s', 'h', 'y', 'i']), ('ぇ', .mk none ['s', 'h', 'e']), ('ゃ',
    .mk none ['s', 'h', 'a']), ('ゅ', .mk none ['s', 'h', 'u']), ('ょ', .mk none ['s', 'h',
    'o'])]) ['s', 'h', 'i'])

/-- src/to_romaji_node_tree.rs:414: root transition 'じ' -/
def romajiRoot032 : Char × RNode :=
  ('じ', .mk (some [('ぃ', .mk none ['j', 'y', 'i']), ('ぇ', .mk none ['j', 'e']), ('ゃ',
    .mk none ['j', 'a']), ('ゅ', .mk none ['j', 'u']), ('ょ', .mk none ['j', 'o'])]) ['j', 'i'])

/-- src/to_romaji_node_tree.rs:457: root transition 'す' -/
def romajiRoot033 : Char × RNode :=
  ('す', .mk none ['s', 'u'])

/-- src/to_romaji_node_tree.rs:464: root transition 'ず' -/
def romajiRoot034 : Char × RNode :=
  ('ず', .mk none ['z', 'u'])

/-- src/to_romaji_node_tree.rs:471: root transition 'せ' -/
def romajiRoot035 : Char × RNode :=
  ('せ', .mk none ['s', 'e'])

/-- src/to_romaji_node_tree.rs:478: root transition 'ぜ' -/
def romajiRoot036 : Char × RNode :=
  ('ぜ', .mk none ['z', 'e'])

/-- src/to_romaji_node_tree.rs:485: root transition 'そ' -/
def romajiRoot037 : Char × RNode :=
  ('そ', .mk none ['s', 'o'])

/-- src/to_romaji_node_tree.rs:492: root transition 'ぞ' -/
def romajiRoot038 : Char × RNode :=
  ('ぞ', .mk none ['z', 'o'])

/-- src/to_romaji_node_tree.rs:499: root transition 'た' -/
def romajiRoot039 : Char × RNode :=
  ('た', .mk none ['t', 'a'])

/-- src/to_romaji_node_tree.rs:506: root transition 'だ' -/
def romajiRoot040 : Char × RNode :=
  ('だ', .mk none ['d', 'a'])

/-- src/to_romaji_node_tree.rs:513: root transition 'ち' -/
def romajiRoot041 : Char × RNode :=
  ('ち', .mk (some [('ぃ', .mk none ['c', 'h', 'y', 'i']), ('ぇ', .mk none ['c', 'h', 'e']), ('ゃ',
    .mk none ['c', 'h', 'a']), ('ゅ', .mk none ['c', 'h', 'u']), ('ょ', .mk none ['c', 'h',
    'o'])]) ['c', 'h', 'i'])

/-- src/to_romaji_node_tree.rs:556: root transition 'ぢ' -/
def romajiRoot042 : Char × RNode :=
  ('ぢ', .mk (some [('ぃ', .mk none ['j', 'y', 'i']), ('ぇ', .mk none ['j', 'e']), ('ゃ',
    .mk none ['j', 'a']), ('ゅ', .mk none ['j', 'u']), ('ょ', .mk none ['j', 'o'])]) ['j', 'i'])

/-- src/to_romaji_node_tree.rs:599: root transition 'っ' -/
def romajiRoot043 : Char × RNode :=
  ('っ', .mk (some [('\u3000', .mk none [' ']), ('、', .mk none [',']), ('。', .mk none ['.']),
    ('「', .mk none ['‘']), ('」', .mk none ['’']), ('『', .mk none ['“']), ('』', .mk none ['”']),
    ('〜', .mk none ['~']), ('ぁ', .mk none ['a']), ('あ', .mk none ['a']), ('ぃ', .mk none ['i']),
    ('い', .mk none ['i']), ('ぅ', .mk none ['u']), ('う', .mk none ['u']), ('ぇ', .mk none ['e']),
    ('え', .mk none ['e']), ('ぉ', .mk none ['o']), ('お', .mk none ['o']), ('か', .mk none ['k',
    'k', 'a']), ('が', .mk none ['g', 'g', 'a']), ('き', .mk (some [('ぃ', .mk none ['k', 'k', 'y',
    'i']), ('ぇ', .mk none ['k', 'k', 'y', 'e']), ('ゃ', .mk none ['k', 'k', 'y', 'a']), ('ゅ',
    .mk none ['k', 'k', 'y', 'u']), ('ょ', .mk none ['k', 'k', 'y', 'o'])]) ['k', 'k', 'i']),
    ('ぎ', .mk (some [('ぃ', .mk none ['g', 'g', 'y', 'i']), ('ぇ', .mk none ['g', 'g', 'y', 'e']),
    ('ゃ', .mk none ['g', 'g', 'y', 'a']), ('ゅ', .mk none ['g', 'g', 'y', 'u']), ('ょ',
    .mk none ['g', 'g', 'y', 'o'])]) ['g', 'g', 'i']), ('く', .mk (some [('ぃ', .mk none ['k', 'k',
    'y', 'i']), ('ぇ', .mk none ['k', 'k', 'y', 'e']), ('ゃ', .mk none ['k', 'k', 'y', 'a']), ('ゅ',
    .mk none ['k', 'k', 'y', 'u']), ('ょ', .mk none ['k', 'k', 'y', 'o'])]) ['k', 'k', 'u']),
    ('ぐ', .mk none ['g', 'g', 'u']), ('け', .mk none ['k', 'k', 'e']), ('げ', .mk none ['g', 'g',
    'e']), ('こ', .mk none ['k', 'k', 'o']), ('ご', .mk none ['g', 'g', 'o']), ('さ', .mk none ['s',
    's', 'a']), ('ざ', .mk none ['z', 'z', 'a']), ('し', .mk (some [('ぃ', .mk none ['s', 's', 'h',
    'y', 'i']), ('ぇ', .mk none ['s', 's', 'h', 'e']), ('ゃ', .mk none ['s', 's', 'h', 'a']), ('ゅ',
    .mk none ['s', 's', 'h', 'u']), ('ょ', .mk none ['s', 's', 'h', 'o'])]) ['s', 's', 'h', 'i']),
    ('じ', .mk (some [('ぃ', .mk none ['j', 'j', 'y', 'i']), ('ぇ', .mk none ['j', 'j', 'e']), ('ゃ',
    .mk none ['j', 'j', 'a']), ('ゅ', .mk none ['j', 'j', 'u']), ('ょ', .mk none ['j', 'j',
    'o'])]) ['j', 'j', 'i']), ('す', .mk none ['s', 's', 'u']), ('ず', .mk none ['z', 'z', 'u']),
    ('せ', .mk none ['s', 's', 'e']), ('ぜ', .mk none ['z', 'z', 'e']), ('そ', .mk none ['s', 's',
    'o']), ('ぞ', .mk none ['z', 'z', 'o']), ('た', .mk none ['t', 't', 'a']), ('だ', .mk none ['d',
    'd', 'a']), ('ち', .mk (some [('ぃ', .mk none ['t', 'c', 'h', 'y', 'i']), ('ぇ', .mk none ['t',
    'c', 'h', 'e']), ('ゃ', .mk none ['t', 'c', 'h', 'a']), ('ゅ', .mk none ['t', 'c', 'h', 'u']),
    ('ょ', .mk none ['t', 'c', 'h', 'o'])]) ['t', 'c', 'h', 'i']), ('ぢ', .mk (some [('ぃ',
    .mk none ['j', 'j', 'y', 'i']), ('ぇ', .mk none ['j', 'j', 'e']), ('ゃ', .mk none ['j', 'j',
    'a']), ('ゅ', .mk none ['j', 'j', 'u']), ('ょ', .mk none ['j', 'j', 'o'])]) ['j', 'j', 'i']),
    ('つ', .mk none ['t', 't', 's', 'u']), ('づ', .mk none ['z', 'z', 'u']), ('て', .mk none ['t',
    't', 'e']), ('で', .mk none ['d', 'd', 'e']), ('と', .mk none ['t', 't', 'o']), ('ど',
    .mk none ['d', 'd', 'o']), ('な', .mk none ['n', 'a']), ('に', .mk (some [('ぃ', .mk none ['n',
    'y', 'i']), ('ぇ', .mk none ['n', 'y', 'e']), ('ゃ', .mk none ['n', 'y', 'a']), ('ゅ',
    .mk none ['n', 'y', 'u']), ('ょ', .mk none ['n', 'y', 'o'])]) ['n', 'i']), ('ぬ',
    .mk none ['n', 'u']), ('ね', .mk none ['n', 'e']), ('の', .mk none ['n', 'o']), ('は',
    .mk none ['h', 'h', 'a']), ('ば', .mk none ['b', 'b', 'a']), ('ぱ', .mk none ['p', 'p', 'a']),
    ('ひ', .mk (some [('ぃ', .mk none ['h', 'h', 'y', 'i']), ('ぇ', .mk none ['h', 'h', 'y', 'e']),
    ('ゃ', .mk none ['h', 'h', 'y', 'a']), ('ゅ', .mk none ['h', 'h', 'y', 'u']), ('ょ',
    .mk none ['h', 'h', 'y', 'o'])]) ['h', 'h', 'i']), ('び', .mk (some [('ぃ', .mk none ['b', 'b',
    'y', 'i']), ('ぇ', .mk none ['b', 'b', 'y', 'e']), ('ゃ', .mk none ['b', 'b', 'y', 'a']), ('ゅ',
    .mk none ['b', 'b', 'y', 'u']), ('ょ', .mk none ['b', 'b', 'y', 'o'])]) ['b', 'b', 'i']),
    ('ぴ', .mk (some [('ぃ', .mk none ['p', 'p', 'y', 'i']), ('ぇ', .mk none ['p', 'p', 'y', 'e']),
    ('ゃ', .mk none ['p', 'p', 'y', 'a']), ('ゅ', .mk none ['p', 'p', 'y', 'u']), ('ょ',
    .mk none ['p', 'p', 'y', 'o'])]) ['p', 'p', 'i']), ('ふ', .mk (some [('ぃ', .mk none ['f', 'f',
    'y', 'i']), ('ぇ', .mk none ['f', 'f', 'y', 'e']), ('ゃ', .mk none ['f', 'f', 'y', 'a']), ('ゅ',
    .mk none ['f', 'f', 'y', 'u']), ('ょ', .mk none ['f', 'f', 'y', 'o'])]) ['f', 'f', 'u']),
    ('ぶ', .mk none ['b', 'b', 'u']), ('ぷ', .mk none ['p', 'p', 'u']), ('へ', .mk none ['h', 'h',
    'e']), ('べ', .mk none ['b', 'b', 'e']), ('ぺ', .mk none ['p', 'p', 'e']), ('ほ', .mk none ['h',
    'h', 'o']), ('ぼ', .mk none ['b', 'b', 'o']), ('ぽ', .mk none ['p', 'p', 'o']), ('ま',
    .mk none ['m', 'm', 'a']), ('み', .mk (some [('ぃ', .mk none ['m', 'm', 'y', 'i']), ('ぇ',
    .mk none ['m', 'm', 'y', 'e']), ('ゃ', .mk none ['m', 'm', 'y', 'a']), ('ゅ', .mk none ['m',
    'm', 'y', 'u']), ('ょ', .mk none ['m', 'm', 'y', 'o'])]) ['m', 'm', 'i']), ('む',
    .mk none ['m', 'm', 'u']), ('め', .mk none ['m', 'm', 'e']), ('も', .mk none ['m', 'm', 'o']),
    ('ゃ', .mk none ['y', 'a']), ('や', .mk none ['y', 'a']), ('ゅ', .mk none ['y', 'u']), ('ゆ',
    .mk none ['y', 'u']), ('ょ', .mk none ['y', 'o']), ('よ', .mk none ['y', 'o']), ('ら',
    .mk none ['r', 'r', 'a']), ('り', .mk (some [('ぃ', .mk none ['r', 'r', 'y', 'i']), ('ぇ',
    .mk none ['r', 'r', 'y', 'e']), ('ゃ', .mk none ['r', 'r', 'y', 'a']), ('ゅ', .mk none ['r',
    'r', 'y', 'u']), ('ょ', .mk none ['r', 'r', 'y', 'o'])]) ['r', 'r', 'i']), ('る',
    .mk none ['r', 'r', 'u']), ('れ', .mk none ['r', 'r', 'e']), ('ろ', .mk none ['r', 'r', 'o']),
    ('わ', .mk none ['w', 'w', 'a']), ('ゐ', .mk none ['w', 'w', 'i']), ('ゑ', .mk none ['w', 'w',
    'e']), ('を', .mk none ['w', 'w', 'o']), ('ん', .mk none ['n']), ('ゔ', .mk (some [('ぃ',
    .mk none ['v', 'v', 'y', 'i']), ('ぇ', .mk none ['v', 'v', 'y', 'e']), ('ゃ', .mk none ['v',
    'v', 'y', 'a']), ('ゅ', .mk none ['v', 'v', 'y', 'u']), ('ょ', .mk none ['v', 'v', 'y',
    'o'])]) ['v', 'v', 'u']), ('ゔ', .mk none ['v', 'v', 'a']), ('ゔ', .mk none ['v', 'v', 'i']),
    ('ゔ', .mk none ['v', 'v', 'e']), ('ゔ', .mk none ['v', 'v', 'o']), ('・', .mk none ['/']),
    ('ー', .mk none ['-']), ('！', .mk none ['!']), ('（', .mk none ['(']), ('）', .mk none [')']),
    ('：', .mk none [':']), ('？', .mk none ['?']), ('［', .mk none ['[']), ('］', .mk none [']']),
    ('｛', .mk none ['{']), ('｝', .mk none ['}'])]) [])

/-- src/to_romaji_node_tree.rs:1882: root transition 'つ' -/
def romajiRoot044 : Char × RNode :=
  ('つ', .mk none ['t', 's', 'u'])

/-- src/to_romaji_node_tree.rs:1889: root transition 'づ' -/
def romajiRoot045 : Char × RNode :=
  ('づ', .mk none ['z', 'u'])

/-- src/to_romaji_node_tree.rs:1896: root transition 'て' -/
def romajiRoot046 : Char × RNode :=
  ('て', .mk none ['t', 'e'])

/-- src/to_romaji_node_tree.rs:1903: root transition 'で' -/
def romajiRoot047 : Char × RNode :=
  ('で', .mk none ['d', 'e'])

/-- src/to_romaji_node_tree.rs:1910: root transition 'と' -/
def romajiRoot048 : Char × RNode :=
  ('と', .mk none ['t', 'o'])

/-- src/to_romaji_node_tree.rs:1917: root transition 'ど' -/
def romajiRoot049 : Char × RNode :=
  ('ど', .mk none ['d', 'o'])

/-- src/to_romaji_node_tree.rs:1924: root transition 'な' -/
def romajiRoot050 : Char × RNode :=
  ('な', .mk none ['n', 'a'])

/-- src/to_romaji_node_tree.rs:1931: root transition 'に' -/
def romajiRoot051 : Char × RNode :=
  ('に', .mk (some [('ぃ', .mk none ['n', 'y', 'i']), ('ぇ', .mk none ['n', 'y', 'e']), ('ゃ',
    .mk none ['n', 'y', 'a']), ('ゅ', .mk none ['n', 'y', 'u']), ('ょ', .mk none ['n', 'y',
    'o'])]) ['n', 'i'])

/-- src/to_romaji_node_tree.rs:1974: root transition 'ぬ' -/
def romajiRoot052 : Char × RNode :=
  ('ぬ', .mk none ['n', 'u'])

/-- src/to_romaji_node_tree.rs:1981: root transition 'ね' -/
def romajiRoot053 : Char × RNode :=
  ('ね', .mk none ['n', 'e'])

/-- src/to_romaji_node_tree.rs:1988: root transition 'の' -/
def romajiRoot054 : Char × RNode :=
  ('の', .mk none ['n', 'o'])

/-- src/to_romaji_node_tree.rs:1995: root transition 'は' -/
def romajiRoot055 : Char × RNode :=
  ('は', .mk none ['h', 'a'])

/-- src/to_romaji_node_tree.rs:2002: root transition 'ば' -/
def romajiRoot056 : Char × RNode :=
  ('ば', .mk none ['b', 'a'])

/-- src/to_romaji_node_tree.rs:2009: root transition 'ぱ' -/
def romajiRoot057 : Char × RNode :=
  ('ぱ', .mk none ['p', 'a'])

/-- src/to_romaji_node_tree.rs:2016: root transition 'ひ' -/
def romajiRoot058 : Char × RNode :=
  ('ひ', .mk (some [('ぃ', .mk none ['h', 'y', 'i']), ('ぇ', .mk none ['h', 'y', 'e']), ('ゃ',
    .mk none ['h', 'y', 'a']), ('ゅ', .mk none ['h', 'y', 'u']), ('ょ', .mk none ['h', 'y',
    'o'])]) ['h', 'i'])

/-- src/to_romaji_node_tree.rs:2059: root transition 'び' -/
def romajiRoot059 : Char × RNode :=
  ('び', .mk (some [('ぃ', .mk none ['b', 'y', 'i']), ('ぇ', .mk none ['b', 'y', 'e']), ('ゃ',
    .mk none ['b', 'y', 'a']), ('ゅ', .mk none ['b', 'y', 'u']), ('ょ', .mk none ['b', 'y',
    'o'])]) ['b', 'i'])

/-- src/to_romaji_node_tree.rs:2102: root transition 'ぴ' -/
def romajiRoot060 : Char × RNode :=
  ('ぴ', .mk (some [('ぃ', .mk none ['p', 'y', 'i']), ('ぇ', .mk none ['p', 'y', 'e']), ('ゃ',
    .mk none ['p', 'y', 'a']), ('ゅ', .mk none ['p', 'y', 'u']), ('ょ', .mk none ['p', 'y',
    'o'])]) ['p', 'i'])

/-- src/to_romaji_node_tree.rs:2145: root transition 'ふ' -/
def romajiRoot061 : Char × RNode :=
  ('ふ', .mk (some [('ぃ', .mk none ['f', 'y', 'i']), ('ぇ', .mk none ['f', 'y', 'e']), ('ゃ',
    .mk none ['f', 'y', 'a']), ('ゅ', .mk none ['f', 'y', 'u']), ('ょ', .mk none ['f', 'y',
    'o'])]) ['f', 'u'])

/-- src/to_romaji_node_tree.rs:2188: root transition 'ぶ' -/
def romajiRoot062 : Char × RNode :=
  ('ぶ', .mk none ['b', 'u'])

/-- src/to_romaji_node_tree.rs:2195: root transition 'ぷ' -/
def romajiRoot063 : Char × RNode :=
  ('ぷ', .mk none ['p', 'u'])

/-- src/to_romaji_node_tree.rs:2202: root transition 'へ' -/
def romajiRoot064 : Char × RNode :=
  ('へ', .mk none ['h', 'e'])

/-- src/to_romaji_node_tree.rs:2209: root transition 'べ' -/
def romajiRoot065 : Char × RNode :=
  ('べ', .mk none ['b', 'e'])

/-- src/to_romaji_node_tree.rs:2216: root transition 'ぺ' -/
def romajiRoot066 : Char × RNode :=
  ('ぺ', .mk none ['p', 'e'])

/-- src/to_romaji_node_tree.rs:2223: root transition 'ほ' -/
def romajiRoot067 : Char × RNode :=
  ('ほ', .mk none ['h', 'o'])

/-- src/to_romaji_node_tree.rs:2230: root transition 'ぼ' -/
def romajiRoot068 : Char × RNode :=
  ('ぼ', .mk none ['b', 'o'])

/-- src/to_romaji_node_tree.rs:2237: root transition 'ぽ' -/
def romajiRoot069 : Char × RNode :=
  ('ぽ', .mk none ['p', 'o'])

/-- src/to_romaji_node_tree.rs:2244: root transition 'ま' -/
def romajiRoot070 : Char × RNode :=
  ('ま', .mk none ['m', 'a'])

/-- src/to_romaji_node_tree.rs:2251: root transition 'み' -/
def romajiRoot071 : Char × RNode :=
  ('み', .mk (some [('ぃ', .mk none ['m', 'y', 'i']), ('ぇ', .mk none ['m', 'y', 'e']), ('ゃ',
    .mk none ['m', 'y', 'a']), ('ゅ', .mk none ['m', 'y', 'u']), ('ょ', .mk none ['m', 'y',
    'o'])]) ['m', 'i'])

/-- src/to_romaji_node_tree.rs:2294: root transition 'む' -/
def romajiRoot072 : Char × RNode :=
  ('む', .mk none ['m', 'u'])

/-- src/to_romaji_node_tree.rs:2301: root transition 'め' -/
def romajiRoot073 : Char × RNode :=
  ('め', .mk none ['m', 'e'])

/-- src/to_romaji_node_tree.rs:2308: root transition 'も' -/
def romajiRoot074 : Char × RNode :=
  ('も', .mk none ['m', 'o'])

/-- src/to_romaji_node_tree.rs:2315: root transition 'ゃ' -/
def romajiRoot075 : Char × RNode :=
  ('ゃ', .mk none ['y', 'a'])

/-- src/to_romaji_node_tree.rs:2322: root transition 'や' -/
def romajiRoot076 : Char × RNode :=
  ('や', .mk none ['y', 'a'])

/-- src/to_romaji_node_tree.rs:2329: root transition 'ゅ' -/
def romajiRoot077 : Char × RNode :=
  ('ゅ', .mk none ['y', 'u'])

/-- src/to_romaji_node_tree.rs:2336: root transition 'ゆ' -/
def romajiRoot078 : Char × RNode :=
  ('ゆ', .mk none ['y', 'u'])

/-- src/to_romaji_node_tree.rs:2343: root transition 'ょ' -/
def romajiRoot079 : Char × RNode :=
  ('ょ', .mk none ['y', 'o'])

/-- src/to_romaji_node_tree.rs:2350: root transition 'よ' -/
def romajiRoot080 : Char × RNode :=
  ('よ', .mk none ['y', 'o'])

/-- src/to_romaji_node_tree.rs:2357: root transition 'ら' -/
def romajiRoot081 : Char × RNode :=
  ('ら', .mk none ['r', 'a'])

/-- src/to_romaji_node_tree.rs:2364: root transition 'り' -/
def romajiRoot082 : Char × RNode :=
  ('り', .mk (some [('ぃ', .mk none ['r', 'y', 'i']), ('ぇ', .mk none ['r', 'y', 'e']), ('ゃ',
    .mk none ['r', 'y', 'a']), ('ゅ', .mk none ['r', 'y', 'u']), ('ょ', .mk none ['r', 'y',
    'o'])]) ['r', 'i'])

/-- src/to_romaji_node_tree.rs:2407: root transition 'る' -/
def romajiRoot083 : Char × RNode :=
  ('る', .mk none ['r', 'u'])

/-- src/to_romaji_node_tree.rs:2414: root transition 'れ' -/
def romajiRoot084 : Char × RNode :=
  ('れ', .mk none ['r', 'e'])

/-- src/to_romaji_node_tree.rs:2421: root transition 'ろ' -/
def romajiRoot085 : Char × RNode :=
  ('ろ', .mk none ['r', 'o'])

/-- src/to_romaji_node_tree.rs:2428: root transition 'ゎ' -/
def romajiRoot086 : Char × RNode :=
  ('ゎ', .mk none ['w', 'a'])

/-- src/to_romaji_node_tree.rs:2435: root transition 'わ' -/
def romajiRoot087 : Char × RNode :=
  ('わ', .mk none ['w', 'a'])

/-- src/to_romaji_node_tree.rs:2442: root transition 'ゐ' -/
def romajiRoot088 : Char × RNode :=
  ('ゐ', .mk none ['w', 'i'])

/-- src/to_romaji_node_tree.rs:2449: root transition 'ゑ' -/
def romajiRoot089 : Char × RNode :=
  ('ゑ', .mk none ['w', 'e'])

/-- src/to_romaji_node_tree.rs:2456: root transition 'を' -/
def romajiRoot090 : Char × RNode :=
  ('を', .mk none ['w', 'o'])

/-- src/to_romaji_node_tree.rs:2463: root transition 'ん' -/
def romajiRoot091 : Char × RNode :=
  ('ん', .mk (some [('あ', .mk none ['n', '\'', 'a']), ('い', .mk none ['n', '\'', 'i']), ('う',
    .mk none ['n', '\'', 'u']), ('え', .mk none ['n', '\'', 'e']), ('お', .mk none ['n', '\'',
    'o']), ('や', .mk none ['n', '\'', 'y', 'a']), ('ゆ', .mk none ['n', '\'', 'y', 'u']), ('よ',
    .mk none ['n', '\'', 'y', 'o'])]) ['n'])

/-- src/to_romaji_node_tree.rs:2527: root transition 'ゔ' -/
def romajiRoot092 : Char × RNode :=
  ('ゔ', .mk (some [('ぃ', .mk none ['v', 'y', 'i']), ('ぇ', .mk none ['v', 'y', 'e']), ('ゃ',
    .mk none ['v', 'y', 'a']), ('ゅ', .mk none ['v', 'y', 'u']), ('ょ', .mk none ['v', 'y',
    'o'])]) ['v', 'u'])

/-- src/to_romaji_node_tree.rs:2570: root transition 'ゔ' -/
def romajiRoot093 : Char × RNode :=
  ('ゔ', .mk none ['v', 'a'])

/-- src/to_romaji_node_tree.rs:2577: root transition 'ゔ' -/
def romajiRoot094 : Char × RNode :=
  ('ゔ', .mk none ['v', 'i'])

/-- src/to_romaji_node_tree.rs:2584: root transition 'ゔ' -/
def romajiRoot095 : Char × RNode :=
  ('ゔ', .mk none ['v', 'e'])

/-- src/to_romaji_node_tree.rs:2591: root transition 'ゔ' -/
def romajiRoot096 : Char × RNode :=
  ('ゔ', .mk none ['v', 'o'])

/-- src/to_romaji_node_tree.rs:2598: root transition '・' -/
def romajiRoot097 : Char × RNode :=
  ('・', .mk none ['/'])

/-- src/to_romaji_node_tree.rs:2605: root transition 'ー' -/
def romajiRoot098 : Char × RNode :=
  ('ー', .mk none ['-'])

/-- src/to_romaji_node_tree.rs:2612: root transition '！' -/
def romajiRoot099 : Char × RNode :=
  ('！', .mk none ['!'])

/-- src/to_romaji_node_tree.rs:2619: root transition '（' -/
def romajiRoot100 : Char × RNode :=
  ('（', .mk none ['('])

/-- src/to_romaji_node_tree.rs:2626: root transition '）' -/
def romajiRoot101 : Char × RNode :=
  ('）', .mk none [')'])

/-- src/to_romaji_node_tree.rs:2633: root transition '：' -/
def romajiRoot102 : Char × RNode :=
  ('：', .mk none [':'])

/-- src/to_romaji_node_tree.rs:2640: root transition '？' -/
def romajiRoot103 : Char × RNode :=
  ('？', .mk none ['?'])

/-- src/to_romaji_node_tree.rs:2647: root transition '［' -/
def romajiRoot104 : Char × RNode :=
  ('［', .mk none ['['])

/-- src/to_romaji_node_tree.rs:2654: root transition '］' -/
def romajiRoot105 : Char × RNode :=
  ('］', .mk none [']'])

/-- src/to_romaji_node_tree.rs:2661: root transition '｛' -/
def romajiRoot106 : Char × RNode :=
  ('｛', .mk none ['{'])

/-- src/to_romaji_node_tree.rs:2668: root transition '｝' -/
def romajiRoot107 : Char × RNode :=
  ('｝', .mk none ['}'])

/-- src/to_romaji_node_tree.rs:44-2674: the literal `transitions` of the root, in source order -/
def romajiTransitions : List (Char × RNode) :=
  [romajiRoot000, romajiRoot001, romajiRoot002, romajiRoot003, romajiRoot004, romajiRoot005,
    romajiRoot006, romajiRoot007, romajiRoot008, romajiRoot009, romajiRoot010, romajiRoot011,
    romajiRoot012, romajiRoot013, romajiRoot014, romajiRoot015, romajiRoot016, romajiRoot017,
    romajiRoot018, romajiRoot019, romajiRoot020, romajiRoot021, romajiRoot022, romajiRoot023,
    romajiRoot024, romajiRoot025, romajiRoot026, romajiRoot027, romajiRoot028, romajiRoot029,
    romajiRoot030, romajiRoot031, romajiRoot032, romajiRoot033, romajiRoot034, romajiRoot035,
    romajiRoot036, romajiRoot037, romajiRoot038, romajiRoot039, romajiRoot040, romajiRoot041,
    romajiRoot042, romajiRoot043, romajiRoot044, romajiRoot045, romajiRoot046, romajiRoot047,
    romajiRoot048, romajiRoot049, romajiRoot050, romajiRoot051, romajiRoot052, romajiRoot053,
    romajiRoot054, romajiRoot055, romajiRoot056, romajiRoot057, romajiRoot058, romajiRoot059,
    romajiRoot060, romajiRoot061, romajiRoot062, romajiRoot063, romajiRoot064, romajiRoot065,
    romajiRoot066, romajiRoot067, romajiRoot068, romajiRoot069, romajiRoot070, romajiRoot071,
    romajiRoot072, romajiRoot073, romajiRoot074, romajiRoot075, romajiRoot076, romajiRoot077,
    romajiRoot078, romajiRoot079, romajiRoot080, romajiRoot081, romajiRoot082, romajiRoot083,
    romajiRoot084, romajiRoot085, romajiRoot086, romajiRoot087, romajiRoot088, romajiRoot089,
    romajiRoot090, romajiRoot091, romajiRoot092, romajiRoot093, romajiRoot094, romajiRoot095,
    romajiRoot096, romajiRoot097, romajiRoot098, romajiRoot099, romajiRoot100, romajiRoot101,
    romajiRoot102, romajiRoot103, romajiRoot104, romajiRoot105, romajiRoot106, romajiRoot107]

end WanaKana
