import Verif.Model.KanaNode
/-! # Data of src/to_kana_node_tree.rs (generated by tools/gen_trees.py) -/

namespace WanaKana

/-- src/to_kana_node_tree.rs:55: root transition '!' -/
def kanaRoot000 : Char × KNode :=
  ('!', .mk [] (some ['！']))

/-- src/to_kana_node_tree.rs:62: root transition '(' -/
def kanaRoot001 : Char × KNode :=
  ('(', .mk [] (some ['（']))

/-- src/to_kana_node_tree.rs:69: root transition ')' -/
def kanaRoot002 : Char × KNode :=
  (')', .mk [] (some ['）']))

/-- src/to_kana_node_tree.rs:76: root transition ',' -/
def kanaRoot003 : Char × KNode :=
  (',', .mk [] (some ['、']))

/-- src/to_kana_node_tree.rs:83: root transition '-' -/
def kanaRoot004 : Char × KNode :=
  ('-', .mk [] (some ['ー']))

/-- src/to_kana_node_tree.rs:90: root transition '.' -/
def kanaRoot005 : Char × KNode :=
  ('.', .mk [] (some ['。']))

/-- src/to_kana_node_tree.rs:97: root transition '/' -/
def kanaRoot006 : Char × KNode :=
  ('/', .mk [] (some ['・']))

/-- src/to_kana_node_tree.rs:104: root transition ':' -/
def kanaRoot007 : Char × KNode :=
  (':', .mk [] (some ['：']))

/-- src/to_kana_node_tree.rs:111: root transition '?' -/
def kanaRoot008 : Char × KNode :=
  ('?', .mk [] (some ['？']))

/-- src/to_kana_node_tree.rs:118: root transition '[' -/
def kanaRoot009 : Char × KNode :=
  ('[', .mk [] (some ['［']))

/-- src/to_kana_node_tree.rs:125: root transition ']' -/
def kanaRoot010 : Char × KNode :=
  (']', .mk [] (some ['］']))

/-- src/to_kana_node_tree.rs:132: root transition 'a' -/
def kanaRoot011 : Char × KNode :=
  ('a', .mk [] (some ['あ']))

/-- src/to_kana_node_tree.rs:139: root transition 'b' -/
def kanaRoot012 : Char × KNode :=
  ('b', .mk [('a', .mk [] (some ['ば'])), ('b', .mk [('a', .mk [] (some ['っ', 'ば'])), ('e',
    .mk [] (some ['っ', 'べ'])), ('i', .mk [] (some ['っ', 'び'])), ('o', .mk [] (some ['っ', 'ぼ'])),
    ('u', .mk [] (some ['っ', 'ぶ'])), ('y', .mk [('a', .mk [] (some ['っ', 'び', 'ゃ'])), ('e',
    .mk [] (some ['っ', 'び', 'ぇ'])), ('i', .mk [] (some ['っ', 'び', 'ぃ'])), ('o',
    .mk [] (some ['っ', 'び', 'ょ'])), ('u', .mk [] (some ['っ', 'び', 'ゅ']))] none)] none), ('e',
    .mk [] (some ['べ'])), ('i', .mk [] (some ['び'])), ('o', .mk [] (some ['ぼ'])), ('u',
    .mk [] (some ['ぶ'])), ('y', .mk [('a', .mk [] (some ['び', 'ゃ'])), ('e', .mk [] (some ['び',
    'ぇ'])), ('i', .mk [] (some ['び', 'ぃ'])), ('o', .mk [] (some ['び', 'ょ'])), ('u',
    .mk [] (some ['び', 'ゅ']))] none)] none)

/-- src/to_kana_node_tree.rs:311: root transition 'c' -/
def kanaRoot013 : Char × KNode :=
  ('c', .mk [('a', .mk [] (some ['か'])), ('c', .mk [('a', .mk [] (some ['っ', 'か'])), ('e',
    .mk [] (some ['っ', 'け'])), ('h', .mk [('a', .mk [] (some ['っ', 'ち', 'ゃ'])), ('e',
    .mk [] (some ['っ', 'ち', 'ぇ'])), ('i', .mk [] (some ['っ', 'ち'])), ('o', .mk [] (some ['っ',
    'ち', 'ょ'])), ('u', .mk [] (some ['っ', 'ち', 'ゅ'])), ('y', .mk [('a', .mk [] (some ['っ', 'ち',
    'ゃ'])), ('e', .mk [] (some ['っ', 'ち', 'ぇ'])), ('i', .mk [] (some ['っ', 'ち', 'ぃ'])), ('o',
    .mk [] (some ['っ', 'ち', 'ょ'])), ('u', .mk [] (some ['っ', 'ち', 'ゅ']))] none)] none), ('i',
    .mk [] (some ['っ', 'き'])), ('o', .mk [] (some ['っ', 'こ'])), ('u', .mk [] (some ['っ', 'く'])),
    ('y', .mk [('a', .mk [] (some ['っ', 'ち', 'ゃ'])), ('e', .mk [] (some ['っ', 'ち', 'ぇ'])), ('i',
    .mk [] (some ['っ', 'ち', 'ぃ'])), ('o', .mk [] (some ['っ', 'ち', 'ょ'])), ('u',
    .mk [] (some ['っ', 'ち', 'ゅ']))] none)] none), ('e', .mk [] (some ['け'])), ('h', .mk [('a',
    .mk [] (some ['ち', 'ゃ'])), ('e', .mk [] (some ['ち', 'ぇ'])), ('i', .mk [] (some ['ち'])), ('o',
    .mk [] (some ['ち', 'ょ'])), ('u', .mk [] (some ['ち', 'ゅ'])), ('y', .mk [('a',
    .mk [] (some ['ち', 'ゃ'])), ('e', .mk [] (some ['ち', 'ぇ'])), ('i', .mk [] (some ['ち', 'ぃ'])),
    ('o', .mk [] (some ['ち', 'ょ'])), ('u', .mk [] (some ['ち', 'ゅ']))] none)] none), ('i',
    .mk [] (some ['き'])), ('o', .mk [] (some ['こ'])), ('u', .mk [] (some ['く'])), ('y',
    .mk [('a', .mk [] (some ['ち', 'ゃ'])), ('e', .mk [] (some ['ち', 'ぇ'])), ('i',
    .mk [] (some ['ち', 'ぃ'])), ('o', .mk [] (some ['ち', 'ょ'])), ('u', .mk [] (some ['ち',
    'ゅ']))] none)] none)

/-- src/to_kana_node_tree.rs:655: root transition 'd' -/
def kanaRoot014 : Char × KNode :=
  ('d', .mk [('a', .mk [] (some ['だ'])), ('d', .mk [('a', .mk [] (some ['っ', 'だ'])), ('e',
    .mk [] (some ['っ', 'で'])), ('h', .mk [('a', .mk [] (some ['っ', 'で', 'ゃ'])), ('e',
    .mk [] (some ['っ', 'で', 'ぇ'])), ('i', .mk [] (some ['っ', 'で', 'ぃ'])), ('o',
    .mk [] (some ['っ', 'で', 'ょ'])), ('u', .mk [] (some ['っ', 'で', 'ゅ']))] none), ('i',
    .mk [] (some ['っ', 'ぢ'])), ('o', .mk [] (some ['っ', 'ど'])), ('u', .mk [] (some ['っ', 'づ'])),
    ('w', .mk [('a', .mk [] (some ['っ', 'ど', 'ぁ'])), ('e', .mk [] (some ['っ', 'ど', 'ぇ'])), ('i',
    .mk [] (some ['っ', 'ど', 'ぃ'])), ('o', .mk [] (some ['っ', 'ど', 'ぉ'])), ('u',
    .mk [] (some ['っ', 'ど', 'ぅ']))] none), ('y', .mk [('a', .mk [] (some ['っ', 'ぢ', 'ゃ'])), ('e',
    .mk [] (some ['っ', 'ぢ', 'ぇ'])), ('i', .mk [] (some ['っ', 'ぢ', 'ぃ'])), ('o',
    .mk [] (some ['っ', 'ぢ', 'ょ'])), ('u', .mk [] (some ['っ', 'ぢ', 'ゅ']))] none)] none), ('e',
    .mk [] (some ['で'])), ('h', .mk [('a', .mk [] (some ['で', 'ゃ'])), ('e', .mk [] (some ['で',
    'ぇ'])), ('i', .mk [] (some ['で', 'ぃ'])), ('o', .mk [] (some ['で', 'ょ'])), ('u',
    .mk [] (some ['で', 'ゅ']))] none), ('i', .mk [] (some ['ぢ'])), ('o', .mk [] (some ['ど'])),
    ('u', .mk [] (some ['づ'])), ('w', .mk [('a', .mk [] (some ['ど', 'ぁ'])), ('e',
    .mk [] (some ['ど', 'ぇ'])), ('i', .mk [] (some ['ど', 'ぃ'])), ('o', .mk [] (some ['ど', 'ぉ'])),
    ('u', .mk [] (some ['ど', 'ぅ']))] none), ('y', .mk [('a', .mk [] (some ['ぢ', 'ゃ'])), ('e',
    .mk [] (some ['ぢ', 'ぇ'])), ('i', .mk [] (some ['ぢ', 'ぃ'])), ('o', .mk [] (some ['ぢ', 'ょ'])),
    ('u', .mk [] (some ['ぢ', 'ゅ']))] none)] none)

/-- src/to_kana_node_tree.rs:999: root transition 'e' -/
def kanaRoot015 : Char × KNode :=
  ('e', .mk [] (some ['え']))

/-- src/to_kana_node_tree.rs:1006: root transition 'f' -/
def kanaRoot016 : Char × KNode :=
  ('f', .mk [('a', .mk [] (some ['ふ', 'ぁ'])), ('e', .mk [] (some ['ふ', 'ぇ'])), ('f', .mk [('a',
    .mk [] (some ['っ', 'ふ', 'ぁ'])), ('e', .mk [] (some ['っ', 'ふ', 'ぇ'])), ('i',
    .mk [] (some ['っ', 'ふ', 'ぃ'])), ('o', .mk [] (some ['っ', 'ふ', 'ぉ'])), ('u',
    .mk [] (some ['っ', 'ふ'])), ('w', .mk [('a', .mk [] (some ['っ', 'ふ', 'ぁ'])), ('e',
    .mk [] (some ['っ', 'ふ', 'ぇ'])), ('i', .mk [] (some ['っ', 'ふ', 'ぃ'])), ('o',
    .mk [] (some ['っ', 'ふ', 'ぉ'])), ('u', .mk [] (some ['っ', 'ふ', 'ぅ']))] none), ('y', .mk [('a',
    .mk [] (some ['っ', 'ふ', 'ゃ'])), ('e', .mk [] (some ['っ', 'ふ', 'ぇ'])), ('i',
    .mk [] (some ['っ', 'ふ', 'ぃ'])), ('o', .mk [] (some ['っ', 'ふ', 'ょ'])), ('u',
    .mk [] (some ['っ', 'ふ', 'ゅ']))] none)] none), ('i', .mk [] (some ['ふ', 'ぃ'])), ('o',
    .mk [] (some ['ふ', 'ぉ'])), ('u', .mk [] (some ['ふ'])), ('w', .mk [('a', .mk [] (some ['ふ',
    'ぁ'])), ('e', .mk [] (some ['ふ', 'ぇ'])), ('i', .mk [] (some ['ふ', 'ぃ'])), ('o',
    .mk [] (some ['ふ', 'ぉ'])), ('u', .mk [] (some ['ふ', 'ぅ']))] none), ('y', .mk [('a',
    .mk [] (some ['ふ', 'ゃ'])), ('e', .mk [] (some ['ふ', 'ぇ'])), ('i', .mk [] (some ['ふ', 'ぃ'])),
    ('o', .mk [] (some ['ふ', 'ょ'])), ('u', .mk [] (some ['ふ', 'ゅ']))] none)] none)

/-- src/to_kana_node_tree.rs:1264: root transition 'g' -/
def kanaRoot017 : Char × KNode :=
  ('g', .mk [('a', .mk [] (some ['が'])), ('e', .mk [] (some ['げ'])), ('g', .mk [('a',
    .mk [] (some ['っ', 'が'])), ('e', .mk [] (some ['っ', 'げ'])), ('i', .mk [] (some ['っ', 'ぎ'])),
    ('o', .mk [] (some ['っ', 'ご'])), ('u', .mk [] (some ['っ', 'ぐ'])), ('w', .mk [('a',
    .mk [] (some ['っ', 'ぐ', 'ぁ'])), ('e', .mk [] (some ['っ', 'ぐ', 'ぇ'])), ('i',
    .mk [] (some ['っ', 'ぐ', 'ぃ'])), ('o', .mk [] (some ['っ', 'ぐ', 'ぉ'])), ('u',
    .mk [] (some ['っ', 'ぐ', 'ぅ']))] none), ('y', .mk [('a', .mk [] (some ['っ', 'ぎ', 'ゃ'])), ('e',
    .mk [] (some ['っ', 'ぎ', 'ぇ'])), ('i', .mk [] (some ['っ', 'ぎ', 'ぃ'])), ('o',
    .mk [] (some ['っ', 'ぎ', 'ょ'])), ('u', .mk [] (some ['っ', 'ぎ', 'ゅ']))] none)] none), ('i',
    .mk [] (some ['ぎ'])), ('o', .mk [] (some ['ご'])), ('u', .mk [] (some ['ぐ'])), ('w',
    .mk [('a', .mk [] (some ['ぐ', 'ぁ'])), ('e', .mk [] (some ['ぐ', 'ぇ'])), ('i',
    .mk [] (some ['ぐ', 'ぃ'])), ('o', .mk [] (some ['ぐ', 'ぉ'])), ('u', .mk [] (some ['ぐ',
    'ぅ']))] none), ('y', .mk [('a', .mk [] (some ['ぎ', 'ゃ'])), ('e', .mk [] (some ['ぎ', 'ぇ'])),
    ('i', .mk [] (some ['ぎ', 'ぃ'])), ('o', .mk [] (some ['ぎ', 'ょ'])), ('u', .mk [] (some ['ぎ',
    'ゅ']))] none)] none)

/-- src/to_kana_node_tree.rs:1522: root transition 'h' -/
def kanaRoot018 : Char × KNode :=
  ('h', .mk [('a', .mk [] (some ['は'])), ('e', .mk [] (some ['へ'])), ('h', .mk [('a',
    .mk [] (some ['っ', 'は'])), ('e', .mk [] (some ['っ', 'へ'])), ('i', .mk [] (some ['っ', 'ひ'])),
    ('o', .mk [] (some ['っ', 'ほ'])), ('u', .mk [] (some ['っ', 'ふ'])), ('y', .mk [('a',
    .mk [] (some ['っ', 'ひ', 'ゃ'])), ('e', .mk [] (some ['っ', 'ひ', 'ぇ'])), ('i',
    .mk [] (some ['っ', 'ひ', 'ぃ'])), ('o', .mk [] (some ['っ', 'ひ', 'ょ'])), ('u',
    .mk [] (some ['っ', 'ひ', 'ゅ']))] none)] none), ('i', .mk [] (some ['ひ'])), ('o',
    .mk [] (some ['ほ'])), ('u', .mk [] (some ['ふ'])), ('y', .mk [('a', .mk [] (some ['ひ', 'ゃ'])),
    ('e', .mk [] (some ['ひ', 'ぇ'])), ('i', .mk [] (some ['ひ', 'ぃ'])), ('o', .mk [] (some ['ひ',
    'ょ'])), ('u', .mk [] (some ['ひ', 'ゅ']))] none)] none)

/-- src/to_kana_node_tree.rs:1694: root transition 'i' -/
def kanaRoot019 : Char × KNode :=
  ('i', .mk [] (some ['い']))

/-- src/to_kana_node_tree.rs:1701: root transition 'j' -/
def kanaRoot020 : Char × KNode :=
  ('j', .mk [('a', .mk [] (some ['じ', 'ゃ'])), ('e', .mk [] (some ['じ', 'ぇ'])), ('i',
    .mk [] (some ['じ'])), ('j', .mk [('a', .mk [] (some ['っ', 'じ', 'ゃ'])), ('e',
    .mk [] (some ['っ', 'じ', 'ぇ'])), ('i', .mk [] (some ['っ', 'じ'])), ('o', .mk [] (some ['っ',
    'じ', 'ょ'])), ('u', .mk [] (some ['っ', 'じ', 'ゅ'])), ('y', .mk [('a', .mk [] (some ['っ', 'じ',
    'ゃ'])), ('e', .mk [] (some ['っ', 'じ', 'ぇ'])), ('i', .mk [] (some ['っ', 'じ', 'ぃ'])), ('o',
    .mk [] (some ['っ', 'じ', 'ょ'])), ('u', .mk [] (some ['っ', 'じ', 'ゅ']))] none)] none), ('o',
    .mk [] (some ['じ', 'ょ'])), ('u', .mk [] (some ['じ', 'ゅ'])), ('y', .mk [('a',
    .mk [] (some ['じ', 'ゃ'])), ('e', .mk [] (some ['じ', 'ぇ'])), ('i', .mk [] (some ['じ', 'ぃ'])),
    ('o', .mk [] (some ['じ', 'ょ'])), ('u', .mk [] (some ['じ', 'ゅ']))] none)] none)

/-- src/to_kana_node_tree.rs:1873: root transition 'k' -/
def kanaRoot021 : Char × KNode :=
  ('k', .mk [('a', .mk [] (some ['か'])), ('e', .mk [] (some ['け'])), ('i', .mk [] (some ['き'])),
    ('k', .mk [('a', .mk [] (some ['っ', 'か'])), ('e', .mk [] (some ['っ', 'け'])), ('i',
    .mk [] (some ['っ', 'き'])), ('o', .mk [] (some ['っ', 'こ'])), ('u', .mk [] (some ['っ', 'く'])),
    ('w', .mk [('a', .mk [] (some ['っ', 'く', 'ぁ']))] none), ('y', .mk [('a', .mk [] (some ['っ',
    'き', 'ゃ'])), ('e', .mk [] (some ['っ', 'き', 'ぇ'])), ('i', .mk [] (some ['っ', 'き', 'ぃ'])),
    ('o', .mk [] (some ['っ', 'き', 'ょ'])), ('u', .mk [] (some ['っ', 'き', 'ゅ']))] none)] none),
    ('o', .mk [] (some ['こ'])), ('u', .mk [] (some ['く'])), ('w', .mk [('a', .mk [] (some ['く',
    'ぁ']))] none), ('y', .mk [('a', .mk [] (some ['き', 'ゃ'])), ('e', .mk [] (some ['き', 'ぇ'])),
    ('i', .mk [] (some ['き', 'ぃ'])), ('o', .mk [] (some ['き', 'ょ'])), ('u', .mk [] (some ['き',
    'ゅ']))] none)] none)

/-- src/to_kana_node_tree.rs:2071: root transition 'l' -/
def kanaRoot022 : Char × KNode :=
  ('l', .mk [('a', .mk [] (some ['ぁ'])), ('c', .mk [('a', .mk [] (some ['ヵ'])), ('e',
    .mk [] (some ['ヶ']))] none), ('e', .mk [] (some ['ぇ'])), ('i', .mk [] (some ['ぃ'])), ('k',
    .mk [('a', .mk [] (some ['ヵ'])), ('e', .mk [] (some ['ヶ']))] none), ('o',
    .mk [] (some ['ぉ'])), ('t', .mk [('s', .mk [('u', .mk [] (some ['っ']))] none), ('u',
    .mk [] (some ['っ']))] none), ('u', .mk [] (some ['ぅ'])), ('w', .mk [('a',
    .mk [] (some ['ゎ']))] none), ('y', .mk [('a', .mk [] (some ['ゃ'])), ('e',
    .mk [] (some ['ぇ'])), ('i', .mk [] (some ['ぃ'])), ('o', .mk [] (some ['ょ'])), ('u',
    .mk [] (some ['ゅ']))] none)] none)

/-- src/to_kana_node_tree.rs:2242: root transition 'm' -/
def kanaRoot023 : Char × KNode :=
  ('m', .mk [('a', .mk [] (some ['ま'])), ('e', .mk [] (some ['め'])), ('i', .mk [] (some ['み'])),
    ('m', .mk [('a', .mk [] (some ['っ', 'ま'])), ('e', .mk [] (some ['っ', 'め'])), ('i',
    .mk [] (some ['っ', 'み'])), ('o', .mk [] (some ['っ', 'も'])), ('u', .mk [] (some ['っ', 'む'])),
    ('y', .mk [('a', .mk [] (some ['っ', 'み', 'ゃ'])), ('e', .mk [] (some ['っ', 'み', 'ぇ'])), ('i',
    .mk [] (some ['っ', 'み', 'ぃ'])), ('o', .mk [] (some ['っ', 'み', 'ょ'])), ('u',
    .mk [] (some ['っ', 'み', 'ゅ']))] none)] none), ('o', .mk [] (some ['も'])), ('u',
    .mk [] (some ['む'])), ('y', .mk [('a', .mk [] (some ['み', 'ゃ'])), ('e', .mk [] (some ['み',
    'ぇ'])), ('i', .mk [] (some ['み', 'ぃ'])), ('o', .mk [] (some ['み', 'ょ'])), ('u',
    .mk [] (some ['み', 'ゅ']))] none)] none)

/-- src/to_kana_node_tree.rs:2414: root transition 'n' -/
def kanaRoot024 : Char × KNode :=
  ('n', .mk [('\'', .mk [] (some ['ん'])), ('a', .mk [] (some ['な'])), ('e', .mk [] (some ['ね'])),
    ('i', .mk [] (some ['に'])), ('o', .mk [] (some ['の'])), ('u', .mk [] (some ['ぬ'])), ('y',
    .mk [('a', .mk [] (some ['に', 'ゃ'])), ('e', .mk [] (some ['に', 'ぇ'])), ('i',
    .mk [] (some ['に', 'ぃ'])), ('o', .mk [] (some ['に', 'ょ'])), ('u', .mk [] (some ['に',
    'ゅ']))] none)] (some ['ん']))

/-- src/to_kana_node_tree.rs:2507: root transition 'o' -/
def kanaRoot025 : Char × KNode :=
  ('o', .mk [] (some ['お']))

/-- src/to_kana_node_tree.rs:2514: root transition 'p' -/
def kanaRoot026 : Char × KNode :=
  ('p', .mk [('a', .mk [] (some ['ぱ'])), ('e', .mk [] (some ['ぺ'])), ('i', .mk [] (some ['ぴ'])),
    ('o', .mk [] (some ['ぽ'])), ('p', .mk [('a', .mk [] (some ['っ', 'ぱ'])), ('e',
    .mk [] (some ['っ', 'ぺ'])), ('i', .mk [] (some ['っ', 'ぴ'])), ('o', .mk [] (some ['っ', 'ぽ'])),
    ('u', .mk [] (some ['っ', 'ぷ'])), ('y', .mk [('a', .mk [] (some ['っ', 'ぴ', 'ゃ'])), ('e',
    .mk [] (some ['っ', 'ぴ', 'ぇ'])), ('i', .mk [] (some ['っ', 'ぴ', 'ぃ'])), ('o',
    .mk [] (some ['っ', 'ぴ', 'ょ'])), ('u', .mk [] (some ['っ', 'ぴ', 'ゅ']))] none)] none), ('u',
    .mk [] (some ['ぷ'])), ('y', .mk [('a', .mk [] (some ['ぴ', 'ゃ'])), ('e', .mk [] (some ['ぴ',
    'ぇ'])), ('i', .mk [] (some ['ぴ', 'ぃ'])), ('o', .mk [] (some ['ぴ', 'ょ'])), ('u',
    .mk [] (some ['ぴ', 'ゅ']))] none)] none)

/-- src/to_kana_node_tree.rs:2686: root transition 'q' -/
def kanaRoot027 : Char × KNode :=
  ('q', .mk [('a', .mk [] (some ['く', 'ぁ'])), ('e', .mk [] (some ['く', 'ぇ'])), ('i',
    .mk [] (some ['く', 'ぃ'])), ('o', .mk [] (some ['く', 'ぉ'])), ('q', .mk [('a',
    .mk [] (some ['っ', 'く', 'ぁ'])), ('e', .mk [] (some ['っ', 'く', 'ぇ'])), ('i',
    .mk [] (some ['っ', 'く', 'ぃ'])), ('o', .mk [] (some ['っ', 'く', 'ぉ'])), ('u',
    .mk [] (some ['っ', 'く', 'ぅ'])), ('w', .mk [('a', .mk [] (some ['っ', 'く', 'ぁ'])), ('e',
    .mk [] (some ['っ', 'く', 'ぇ'])), ('i', .mk [] (some ['っ', 'く', 'ぃ'])), ('o',
    .mk [] (some ['っ', 'く', 'ぉ'])), ('u', .mk [] (some ['っ', 'く', 'ぅ']))] none), ('y', .mk [('a',
    .mk [] (some ['っ', 'く', 'ゃ'])), ('e', .mk [] (some ['っ', 'く', 'ぇ'])), ('i',
    .mk [] (some ['っ', 'く', 'ぃ'])), ('o', .mk [] (some ['っ', 'く', 'ょ'])), ('u',
    .mk [] (some ['っ', 'く', 'ゅ']))] none)] none), ('u', .mk [] (some ['く', 'ぅ'])), ('w',
    .mk [('a', .mk [] (some ['く', 'ぁ'])), ('e', .mk [] (some ['く', 'ぇ'])), ('i',
    .mk [] (some ['く', 'ぃ'])), ('o', .mk [] (some ['く', 'ぉ'])), ('u', .mk [] (some ['く',
    'ぅ']))] none), ('y', .mk [('a', .mk [] (some ['く', 'ゃ'])), ('e', .mk [] (some ['く', 'ぇ'])),
    ('i', .mk [] (some ['く', 'ぃ'])), ('o', .mk [] (some ['く', 'ょ'])), ('u', .mk [] (some ['く',
    'ゅ']))] none)] none)

/-- src/to_kana_node_tree.rs:2944: root transition 'r' -/
def kanaRoot028 : Char × KNode :=
  ('r', .mk [('a', .mk [] (some ['ら'])), ('e', .mk [] (some ['れ'])), ('i', .mk [] (some ['り'])),
    ('o', .mk [] (some ['ろ'])), ('r', .mk [('a', .mk [] (some ['っ', 'ら'])), ('e',
    .mk [] (some ['っ', 'れ'])), ('i', .mk [] (some ['っ', 'り'])), ('o', .mk [] (some ['っ', 'ろ'])),
    ('u', .mk [] (some ['っ', 'る'])), ('y', .mk [('a', .mk [] (some ['っ', 'り', 'ゃ'])), ('e',
    .mk [] (some ['っ', 'り', 'ぇ'])), ('i', .mk [] (some ['っ', 'り', 'ぃ'])), ('o',
    .mk [] (some ['っ', 'り', 'ょ'])), ('u', .mk [] (some ['っ', 'り', 'ゅ']))] none)] none), ('u',
    .mk [] (some ['る'])), ('y', .mk [('a', .mk [] (some ['り', 'ゃ'])), ('e', .mk [] (some ['り',
    'ぇ'])), ('i', .mk [] (some ['り', 'ぃ'])), ('o', .mk [] (some ['り', 'ょ'])), ('u',
    .mk [] (some ['り', 'ゅ']))] none)] none)

/-- src/to_kana_node_tree.rs:3116: root transition 's' -/
def kanaRoot029 : Char × KNode :=
  ('s', .mk [('a', .mk [] (some ['さ'])), ('e', .mk [] (some ['せ'])), ('h', .mk [('a',
    .mk [] (some ['し', 'ゃ'])), ('e', .mk [] (some ['し', 'ぇ'])), ('i', .mk [] (some ['し'])), ('o',
    .mk [] (some ['し', 'ょ'])), ('u', .mk [] (some ['し', 'ゅ'])), ('y', .mk [('a',
    .mk [] (some ['し', 'ゃ'])), ('e', .mk [] (some ['し', 'ぇ'])), ('i', .mk [] (some ['し', 'ぃ'])),
    ('o', .mk [] (some ['し', 'ょ'])), ('u', .mk [] (some ['し', 'ゅ']))] none)] none), ('i',
    .mk [] (some ['し'])), ('o', .mk [] (some ['そ'])), ('s', .mk [('a', .mk [] (some ['っ', 'さ'])),
    ('e', .mk [] (some ['っ', 'せ'])), ('h', .mk [('a', .mk [] (some ['っ', 'し', 'ゃ'])), ('e',
    .mk [] (some ['っ', 'し', 'ぇ'])), ('i', .mk [] (some ['っ', 'し'])), ('o', .mk [] (some ['っ',
    'し', 'ょ'])), ('u', .mk [] (some ['っ', 'し', 'ゅ'])), ('y', .mk [('a', .mk [] (some ['っ', 'し',
    'ゃ'])), ('e', .mk [] (some ['っ', 'し', 'ぇ'])), ('i', .mk [] (some ['っ', 'し', 'ぃ'])), ('o',
    .mk [] (some ['っ', 'し', 'ょ'])), ('u', .mk [] (some ['っ', 'し', 'ゅ']))] none)] none), ('i',
    .mk [] (some ['っ', 'し'])), ('o', .mk [] (some ['っ', 'そ'])), ('u', .mk [] (some ['っ', 'す'])),
    ('w', .mk [('a', .mk [] (some ['っ', 'す', 'ぁ'])), ('e', .mk [] (some ['っ', 'す', 'ぇ'])), ('i',
    .mk [] (some ['っ', 'す', 'ぃ'])), ('o', .mk [] (some ['っ', 'す', 'ぉ'])), ('u',
    .mk [] (some ['っ', 'す', 'ぅ']))] none), ('y', .mk [('a', .mk [] (some ['っ', 'し', 'ゃ'])), ('e',
    .mk [] (some ['っ', 'し', 'ぇ'])), ('i', .mk [] (some ['っ', 'し', 'ぃ'])), ('o',
    .mk [] (some ['っ', 'し', 'ょ'])), ('u', .mk [] (some ['っ', 'し', 'ゅ']))] none)] none), ('u',
    .mk [] (some ['す'])), ('w', .mk [('a', .mk [] (some ['す', 'ぁ'])), ('e', .mk [] (some ['す',
    'ぇ'])), ('i', .mk [] (some ['す', 'ぃ'])), ('o', .mk [] (some ['す', 'ぉ'])), ('u',
    .mk [] (some ['す', 'ぅ']))] none), ('y', .mk [('a', .mk [] (some ['し', 'ゃ'])), ('e',
    .mk [] (some ['し', 'ぇ'])), ('i', .mk [] (some ['し', 'ぃ'])), ('o', .mk [] (some ['し', 'ょ'])),
    ('u', .mk [] (some ['し', 'ゅ']))] none)] none)

/-- src/to_kana_node_tree.rs:3546: root transition 't' -/
def kanaRoot030 : Char × KNode :=
  ('t', .mk [('a', .mk [] (some ['た'])), ('e', .mk [] (some ['て'])), ('h', .mk [('a',
    .mk [] (some ['て', 'ゃ'])), ('e', .mk [] (some ['て', 'ぇ'])), ('i', .mk [] (some ['て', 'ぃ'])),
    ('o', .mk [] (some ['て', 'ょ'])), ('u', .mk [] (some ['て', 'ゅ']))] none), ('i',
    .mk [] (some ['ち'])), ('o', .mk [] (some ['と'])), ('s', .mk [('a', .mk [] (some ['つ', 'ぁ'])),
    ('e', .mk [] (some ['つ', 'ぇ'])), ('i', .mk [] (some ['つ', 'ぃ'])), ('o', .mk [] (some ['つ',
    'ぉ'])), ('u', .mk [] (some ['つ']))] none), ('t', .mk [('a', .mk [] (some ['っ', 'た'])), ('e',
    .mk [] (some ['っ', 'て'])), ('h', .mk [('a', .mk [] (some ['っ', 'て', 'ゃ'])), ('e',
    .mk [] (some ['っ', 'て', 'ぇ'])), ('i', .mk [] (some ['っ', 'て', 'ぃ'])), ('o',
    .mk [] (some ['っ', 'て', 'ょ'])), ('u', .mk [] (some ['っ', 'て', 'ゅ']))] none), ('i',
    .mk [] (some ['っ', 'ち'])), ('o', .mk [] (some ['っ', 'と'])), ('s', .mk [('a',
    .mk [] (some ['っ', 'つ', 'ぁ'])), ('e', .mk [] (some ['っ', 'つ', 'ぇ'])), ('i',
    .mk [] (some ['っ', 'つ', 'ぃ'])), ('o', .mk [] (some ['っ', 'つ', 'ぉ'])), ('u',
    .mk [] (some ['っ', 'つ']))] none), ('u', .mk [] (some ['っ', 'つ'])), ('w', .mk [('a',
    .mk [] (some ['っ', 'と', 'ぁ'])), ('e', .mk [] (some ['っ', 'と', 'ぇ'])), ('i',
    .mk [] (some ['っ', 'と', 'ぃ'])), ('o', .mk [] (some ['っ', 'と', 'ぉ'])), ('u',
    .mk [] (some ['っ', 'と', 'ぅ']))] none), ('y', .mk [('a', .mk [] (some ['っ', 'ち', 'ゃ'])), ('e',
    .mk [] (some ['っ', 'ち', 'ぇ'])), ('i', .mk [] (some ['っ', 'ち', 'ぃ'])), ('o',
    .mk [] (some ['っ', 'ち', 'ょ'])), ('u', .mk [] (some ['っ', 'ち', 'ゅ']))] none)] none), ('u',
    .mk [] (some ['つ'])), ('w', .mk [('a', .mk [] (some ['と', 'ぁ'])), ('e', .mk [] (some ['と',
    'ぇ'])), ('i', .mk [] (some ['と', 'ぃ'])), ('o', .mk [] (some ['と', 'ぉ'])), ('u',
    .mk [] (some ['と', 'ぅ']))] none), ('y', .mk [('a', .mk [] (some ['ち', 'ゃ'])), ('e',
    .mk [] (some ['ち', 'ぇ'])), ('i', .mk [] (some ['ち', 'ぃ'])), ('o', .mk [] (some ['ち', 'ょ'])),
    ('u', .mk [] (some ['ち', 'ゅ']))] none)] none)

/-- src/to_kana_node_tree.rs:3976: root transition 'u' -/
def kanaRoot031 : Char × KNode :=
  ('u', .mk [] (some ['う']))

/-- src/to_kana_node_tree.rs:3983: root transition 'v' -/
def kanaRoot032 : Char × KNode :=
  ('v', .mk [('a', .mk [] (some ['ゔ', 'ぁ'])), ('e', .mk [] (some ['ゔ', 'ぇ'])), ('i',
    .mk [] (some ['ゔ', 'ぃ'])), ('o', .mk [] (some ['ゔ', 'ぉ'])), ('u', .mk [] (some ['ゔ'])), ('v',
    .mk [('a', .mk [] (some ['っ', 'ゔ', 'ぁ'])), ('e', .mk [] (some ['っ', 'ゔ', 'ぇ'])), ('i',
    .mk [] (some ['っ', 'ゔ', 'ぃ'])), ('o', .mk [] (some ['っ', 'ゔ', 'ぉ'])), ('u',
    .mk [] (some ['っ', 'ゔ'])), ('y', .mk [('a', .mk [] (some ['っ', 'ゔ', 'ゃ'])), ('e',
    .mk [] (some ['っ', 'ゔ', 'ぇ'])), ('i', .mk [] (some ['っ', 'ゔ', 'ぃ'])), ('o',
    .mk [] (some ['っ', 'ゔ', 'ょ'])), ('u', .mk [] (some ['っ', 'ゔ', 'ゅ']))] none)] none), ('y',
    .mk [('a', .mk [] (some ['ゔ', 'ゃ'])), ('e', .mk [] (some ['ゔ', 'ぇ'])), ('i',
    .mk [] (some ['ゔ', 'ぃ'])), ('o', .mk [] (some ['ゔ', 'ょ'])), ('u', .mk [] (some ['ゔ',
    'ゅ']))] none)] none)

/-- src/to_kana_node_tree.rs:4155: root transition 'w' -/
def kanaRoot033 : Char × KNode :=
  ('w', .mk [('a', .mk [] (some ['わ'])), ('e', .mk [] (some ['う', 'ぇ'])), ('h', .mk [('a',
    .mk [] (some ['う', 'ぁ'])), ('e', .mk [] (some ['う', 'ぇ'])), ('i', .mk [] (some ['う', 'ぃ'])),
    ('o', .mk [] (some ['う', 'ぉ'])), ('u', .mk [] (some ['う']))] none), ('i', .mk [] (some ['う',
    'ぃ'])), ('o', .mk [] (some ['を'])), ('u', .mk [] (some ['う'])), ('w', .mk [('a',
    .mk [] (some ['っ', 'わ'])), ('e', .mk [] (some ['っ', 'う', 'ぇ'])), ('h', .mk [('a',
    .mk [] (some ['っ', 'う', 'ぁ'])), ('e', .mk [] (some ['っ', 'う', 'ぇ'])), ('i',
    .mk [] (some ['っ', 'う', 'ぃ'])), ('o', .mk [] (some ['っ', 'う', 'ぉ'])), ('u',
    .mk [] (some ['っ', 'う']))] none), ('i', .mk [] (some ['っ', 'う', 'ぃ'])), ('o',
    .mk [] (some ['っ', 'を'])), ('u', .mk [] (some ['っ', 'う']))] none)] none)

/-- src/to_kana_node_tree.rs:4327: root transition 'x' -/
def kanaRoot034 : Char × KNode :=
  ('x', .mk [('a', .mk [] (some ['ぁ'])), ('c', .mk [('a', .mk [] (some ['ヵ'])), ('e',
    .mk [] (some ['ヶ']))] none), ('e', .mk [] (some ['ぇ'])), ('i', .mk [] (some ['ぃ'])), ('k',
    .mk [('a', .mk [] (some ['ヵ'])), ('e', .mk [] (some ['ヶ']))] none), ('n',
    .mk [] (some ['ん'])), ('o', .mk [] (some ['ぉ'])), ('t', .mk [('s', .mk [('u',
    .mk [] (some ['っ']))] none), ('u', .mk [] (some ['っ']))] none), ('u', .mk [] (some ['ぅ'])),
    ('w', .mk [('a', .mk [] (some ['ゎ']))] none), ('y', .mk [('a', .mk [] (some ['ゃ'])), ('e',
    .mk [] (some ['ぇ'])), ('i', .mk [] (some ['ぃ'])), ('o', .mk [] (some ['ょ'])), ('u',
    .mk [] (some ['ゅ']))] none)] none)

/-- src/to_kana_node_tree.rs:4505: root transition 'y' -/
def kanaRoot035 : Char × KNode :=
  ('y', .mk [('a', .mk [] (some ['や'])), ('e', .mk [] (some ['い', 'ぇ'])), ('i',
    .mk [] (some ['い'])), ('o', .mk [] (some ['よ'])), ('u', .mk [] (some ['ゆ'])), ('y',
    .mk [('a', .mk [] (some ['っ', 'や'])), ('e', .mk [] (some ['っ', 'い', 'ぇ'])), ('i',
    .mk [] (some ['っ', 'い'])), ('o', .mk [] (some ['っ', 'よ'])), ('u', .mk [] (some ['っ',
    'ゆ']))] none)] none)

/-- src/to_kana_node_tree.rs:4591: root transition 'z' -/
def kanaRoot036 : Char × KNode :=
  ('z', .mk [('a', .mk [] (some ['ざ'])), ('e', .mk [] (some ['ぜ'])), ('i', .mk [] (some ['じ'])),
    ('o', .mk [] (some ['ぞ'])), ('u', .mk [] (some ['ず'])), ('y', .mk [('a', .mk [] (some ['じ',
    'ゃ'])), ('e', .mk [] (some ['じ', 'ぇ'])), ('i', .mk [] (some ['じ', 'ぃ'])), ('o',
    .mk [] (some ['じ', 'ょ'])), ('u', .mk [] (some ['じ', 'ゅ']))] none), ('z', .mk [('a',
    .mk [] (some ['っ', 'ざ'])), ('e', .mk [] (some ['っ', 'ぜ'])), ('i', .mk [] (some ['っ', 'じ'])),
    ('o', .mk [] (some ['っ', 'ぞ'])), ('u', .mk [] (some ['っ', 'ず'])), ('y', .mk [('a',
    .mk [] (some ['っ', 'じ', 'ゃ'])), ('e', .mk [] (some ['っ', 'じ', 'ぇ'])), ('i',
    .mk [] (some ['っ', 'じ', 'ぃ'])), ('o', .mk [] (some ['っ', 'じ', 'ょ'])), ('u',
    .mk [] (some ['っ', 'じ', 'ゅ']))] none)] none)] none)

/-- src/to_kana_node_tree.rs:4763: root transition '{' -/
def kanaRoot037 : Char × KNode :=
  ('{', .mk [] (some ['｛']))

/-- src/to_kana_node_tree.rs:4770: root transition '}' -/
def kanaRoot038 : Char × KNode :=
  ('}', .mk [] (some ['｝']))

/-- src/to_kana_node_tree.rs:4777: root transition '~' -/
def kanaRoot039 : Char × KNode :=
  ('~', .mk [] (some ['〜']))

/-- src/to_kana_node_tree.rs:4784: root transition '‘' -/
def kanaRoot040 : Char × KNode :=
  ('‘', .mk [] (some ['「']))

/-- src/to_kana_node_tree.rs:4791: root transition '’' -/
def kanaRoot041 : Char × KNode :=
  ('’', .mk [] (some ['」']))

/-- src/to_kana_node_tree.rs:4798: root transition '“' -/
def kanaRoot042 : Char × KNode :=
  ('“', .mk [] (some ['『']))

/-- src/to_kana_node_tree.rs:4805: root transition '”' -/
def kanaRoot043 : Char × KNode :=
  ('”', .mk [] (some ['』']))

/-- src/to_kana_node_tree.rs:53-4811: the literal `transitions` of the root, in source order -/
def kanaTransitions : List (Char × KNode) :=
  [kanaRoot000, kanaRoot001, kanaRoot002, kanaRoot003, kanaRoot004, kanaRoot005, kanaRoot006,
    kanaRoot007, kanaRoot008, kanaRoot009, kanaRoot010, kanaRoot011, kanaRoot012, kanaRoot013,
    kanaRoot014, kanaRoot015, kanaRoot016, kanaRoot017, kanaRoot018, kanaRoot019, kanaRoot020,
    kanaRoot021, kanaRoot022, kanaRoot023, kanaRoot024, kanaRoot025, kanaRoot026, kanaRoot027,
    kanaRoot028, kanaRoot029, kanaRoot030, kanaRoot031, kanaRoot032, kanaRoot033, kanaRoot034,
    kanaRoot035, kanaRoot036, kanaRoot037, kanaRoot038, kanaRoot039, kanaRoot040, kanaRoot041,
    kanaRoot042, kanaRoot043]

end WanaKana
