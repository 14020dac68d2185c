import Verif.Model.Upstream
/-! # Data of upstream_conversions/src/bin/to_kana_tree.rs (generated by tools/gen_upstream.py) -/

namespace WanaKana
namespace Upstream

/-- upstream_conversions/src/bin/to_kana_tree.rs:17: root entry 'a' -/
def kanaEntry000 : Str × Json :=
  (['a'], object [([], .str ['あ'])])

/-- upstream_conversions/src/bin/to_kana_tree.rs:20: root entry 'i' -/
def kanaEntry001 : Str × Json :=
  (['i'], object [([], .str ['い'])])

/-- upstream_conversions/src/bin/to_kana_tree.rs:23: root entry 'u' -/
def kanaEntry002 : Str × Json :=
  (['u'], object [([], .str ['う'])])

/-- upstream_conversions/src/bin/to_kana_tree.rs:26: root entry 'e' -/
def kanaEntry003 : Str × Json :=
  (['e'], object [([], .str ['え'])])

/-- upstream_conversions/src/bin/to_kana_tree.rs:29: root entry 'o' -/
def kanaEntry004 : Str × Json :=
  (['o'], object [([], .str ['お'])])

/-- upstream_conversions/src/bin/to_kana_tree.rs:32: root entry 'k' -/
def kanaEntry005 : Str × Json :=
  (['k'], object [(['a'], object [([], .str ['か'])]), (['i'], object [([], .str ['き'])]), (['u'],
    object [([], .str ['く'])]), (['e'], object [([], .str ['け'])]), (['o'], object [([],
    .str ['こ'])]), (['y'], object [(['a'], object [([], .str ['き', 'ゃ'])]), (['i'], object [([],
    .str ['き', 'ぃ'])]), (['u'], object [([], .str ['き', 'ゅ'])]), (['e'], object [([], .str ['き',
    'ぇ'])]), (['o'], object [([], .str ['き', 'ょ'])])]), (['w'], object [(['a'], object [([],
    .str ['く', 'ぁ'])])]), (['k'], object [(['a'], object [([], .str ['っ', 'か'])]), (['i'],
    object [([], .str ['っ', 'き'])]), (['u'], object [([], .str ['っ', 'く'])]), (['e'],
    object [([], .str ['っ', 'け'])]), (['o'], object [([], .str ['っ', 'こ'])]), (['y'],
    object [(['a'], object [([], .str ['っ', 'き', 'ゃ'])]), (['i'], object [([], .str ['っ', 'き',
    'ぃ'])]), (['u'], object [([], .str ['っ', 'き', 'ゅ'])]), (['e'], object [([], .str ['っ', 'き',
    'ぇ'])]), (['o'], object [([], .str ['っ', 'き', 'ょ'])])]), (['w'], object [(['a'], object [([],
    .str ['っ', 'く', 'ぁ'])])])])])

/-- upstream_conversions/src/bin/to_kana_tree.rs:110: root entry 's' -/
def kanaEntry006 : Str × Json :=
  (['s'], object [(['a'], object [([], .str ['さ'])]), (['i'], object [([], .str ['し'])]), (['u'],
    object [([], .str ['す'])]), (['e'], object [([], .str ['せ'])]), (['o'], object [([],
    .str ['そ'])]), (['y'], object [(['a'], object [([], .str ['し', 'ゃ'])]), (['i'], object [([],
    .str ['し', 'ぃ'])]), (['u'], object [([], .str ['し', 'ゅ'])]), (['e'], object [([], .str ['し',
    'ぇ'])]), (['o'], object [([], .str ['し', 'ょ'])])]), (['w'], object [(['a'], object [([],
    .str ['す', 'ぁ'])]), (['i'], object [([], .str ['す', 'ぃ'])]), (['u'], object [([], .str ['す',
    'ぅ'])]), (['e'], object [([], .str ['す', 'ぇ'])]), (['o'], object [([], .str ['す', 'ぉ'])])]),
    (['h'], object [(['a'], object [([], .str ['し', 'ゃ'])]), (['i'], object [([], .str ['し'])]),
    (['u'], object [([], .str ['し', 'ゅ'])]), (['e'], object [([], .str ['し', 'ぇ'])]), (['o'],
    object [([], .str ['し', 'ょ'])]), (['y'], object [(['a'], object [([], .str ['し', 'ゃ'])]),
    (['i'], object [([], .str ['し', 'ぃ'])]), (['u'], object [([], .str ['し', 'ゅ'])]), (['e'],
    object [([], .str ['し', 'ぇ'])]), (['o'], object [([], .str ['し', 'ょ'])])])]), (['s'],
    object [(['a'], object [([], .str ['っ', 'さ'])]), (['i'], object [([], .str ['っ', 'し'])]),
    (['u'], object [([], .str ['っ', 'す'])]), (['e'], object [([], .str ['っ', 'せ'])]), (['o'],
    object [([], .str ['っ', 'そ'])]), (['y'], object [(['a'], object [([], .str ['っ', 'し',
    'ゃ'])]), (['i'], object [([], .str ['っ', 'し', 'ぃ'])]), (['u'], object [([], .str ['っ', 'し',
    'ゅ'])]), (['e'], object [([], .str ['っ', 'し', 'ぇ'])]), (['o'], object [([], .str ['っ', 'し',
    'ょ'])])]), (['w'], object [(['a'], object [([], .str ['っ', 'す', 'ぁ'])]), (['i'], object [([],
    .str ['っ', 'す', 'ぃ'])]), (['u'], object [([], .str ['っ', 'す', 'ぅ'])]), (['e'], object [([],
    .str ['っ', 'す', 'ぇ'])]), (['o'], object [([], .str ['っ', 'す', 'ぉ'])])]), (['h'],
    object [(['a'], object [([], .str ['っ', 'し', 'ゃ'])]), (['i'], object [([], .str ['っ',
    'し'])]), (['u'], object [([], .str ['っ', 'し', 'ゅ'])]), (['e'], object [([], .str ['っ', 'し',
    'ぇ'])]), (['o'], object [([], .str ['っ', 'し', 'ょ'])]), (['y'], object [(['a'], object [([],
    .str ['っ', 'し', 'ゃ'])]), (['i'], object [([], .str ['っ', 'し', 'ぃ'])]), (['u'], object [([],
    .str ['っ', 'し', 'ゅ'])]), (['e'], object [([], .str ['っ', 'し', 'ぇ'])]), (['o'], object [([],
    .str ['っ', 'し', 'ょ'])])])])])])

/-- upstream_conversions/src/bin/to_kana_tree.rs:280: root entry 't' -/
def kanaEntry007 : Str × Json :=
  (['t'], object [(['a'], object [([], .str ['た'])]), (['i'], object [([], .str ['ち'])]), (['u'],
    object [([], .str ['つ'])]), (['e'], object [([], .str ['て'])]), (['o'], object [([],
    .str ['と'])]), (['y'], object [(['a'], object [([], .str ['ち', 'ゃ'])]), (['i'], object [([],
    .str ['ち', 'ぃ'])]), (['u'], object [([], .str ['ち', 'ゅ'])]), (['e'], object [([], .str ['ち',
    'ぇ'])]), (['o'], object [([], .str ['ち', 'ょ'])])]), (['s'], object [(['a'], object [([],
    .str ['つ', 'ぁ'])]), (['i'], object [([], .str ['つ', 'ぃ'])]), (['u'], object [([],
    .str ['つ'])]), (['e'], object [([], .str ['つ', 'ぇ'])]), (['o'], object [([], .str ['つ',
    'ぉ'])])]), (['h'], object [(['a'], object [([], .str ['て', 'ゃ'])]), (['i'], object [([],
    .str ['て', 'ぃ'])]), (['u'], object [([], .str ['て', 'ゅ'])]), (['e'], object [([], .str ['て',
    'ぇ'])]), (['o'], object [([], .str ['て', 'ょ'])])]), (['w'], object [(['a'], object [([],
    .str ['と', 'ぁ'])]), (['i'], object [([], .str ['と', 'ぃ'])]), (['u'], object [([], .str ['と',
    'ぅ'])]), (['e'], object [([], .str ['と', 'ぇ'])]), (['o'], object [([], .str ['と', 'ぉ'])])]),
    (['t'], object [(['a'], object [([], .str ['っ', 'た'])]), (['i'], object [([], .str ['っ',
    'ち'])]), (['u'], object [([], .str ['っ', 'つ'])]), (['e'], object [([], .str ['っ', 'て'])]),
    (['o'], object [([], .str ['っ', 'と'])]), (['y'], object [(['a'], object [([], .str ['っ', 'ち',
    'ゃ'])]), (['i'], object [([], .str ['っ', 'ち', 'ぃ'])]), (['u'], object [([], .str ['っ', 'ち',
    'ゅ'])]), (['e'], object [([], .str ['っ', 'ち', 'ぇ'])]), (['o'], object [([], .str ['っ', 'ち',
    'ょ'])])]), (['s'], object [(['a'], object [([], .str ['っ', 'つ', 'ぁ'])]), (['i'], object [([],
    .str ['っ', 'つ', 'ぃ'])]), (['u'], object [([], .str ['っ', 'つ'])]), (['e'], object [([],
    .str ['っ', 'つ', 'ぇ'])]), (['o'], object [([], .str ['っ', 'つ', 'ぉ'])])]), (['h'],
    object [(['a'], object [([], .str ['っ', 'て', 'ゃ'])]), (['i'], object [([], .str ['っ', 'て',
    'ぃ'])]), (['u'], object [([], .str ['っ', 'て', 'ゅ'])]), (['e'], object [([], .str ['っ', 'て',
    'ぇ'])]), (['o'], object [([], .str ['っ', 'て', 'ょ'])])]), (['w'], object [(['a'], object [([],
    .str ['っ', 'と', 'ぁ'])]), (['i'], object [([], .str ['っ', 'と', 'ぃ'])]), (['u'], object [([],
    .str ['っ', 'と', 'ぅ'])]), (['e'], object [([], .str ['っ', 'と', 'ぇ'])]), (['o'], object [([],
    .str ['っ', 'と', 'ぉ'])])])])])

/-- upstream_conversions/src/bin/to_kana_tree.rs:450: root entry 'n' -/
def kanaEntry008 : Str × Json :=
  (['n'], object [(['a'], object [([], .str ['な'])]), (['i'], object [([], .str ['に'])]), (['u'],
    object [([], .str ['ぬ'])]), (['e'], object [([], .str ['ね'])]), (['o'], object [([],
    .str ['の'])]), (['y'], object [(['a'], object [([], .str ['に', 'ゃ'])]), (['i'], object [([],
    .str ['に', 'ぃ'])]), (['u'], object [([], .str ['に', 'ゅ'])]), (['e'], object [([], .str ['に',
    'ぇ'])]), (['o'], object [([], .str ['に', 'ょ'])])]), ([], .str ['ん']), (['\''], object [([],
    .str ['ん'])])])

/-- upstream_conversions/src/bin/to_kana_tree.rs:488: root entry 'h' -/
def kanaEntry009 : Str × Json :=
  (['h'], object [(['a'], object [([], .str ['は'])]), (['i'], object [([], .str ['ひ'])]), (['u'],
    object [([], .str ['ふ'])]), (['e'], object [([], .str ['へ'])]), (['o'], object [([],
    .str ['ほ'])]), (['y'], object [(['a'], object [([], .str ['ひ', 'ゃ'])]), (['i'], object [([],
    .str ['ひ', 'ぃ'])]), (['u'], object [([], .str ['ひ', 'ゅ'])]), (['e'], object [([], .str ['ひ',
    'ぇ'])]), (['o'], object [([], .str ['ひ', 'ょ'])])]), (['h'], object [(['a'], object [([],
    .str ['っ', 'は'])]), (['i'], object [([], .str ['っ', 'ひ'])]), (['u'], object [([], .str ['っ',
    'ふ'])]), (['e'], object [([], .str ['っ', 'へ'])]), (['o'], object [([], .str ['っ', 'ほ'])]),
    (['y'], object [(['a'], object [([], .str ['っ', 'ひ', 'ゃ'])]), (['i'], object [([], .str ['っ',
    'ひ', 'ぃ'])]), (['u'], object [([], .str ['っ', 'ひ', 'ゅ'])]), (['e'], object [([], .str ['っ',
    'ひ', 'ぇ'])]), (['o'], object [([], .str ['っ', 'ひ', 'ょ'])])])])])

/-- upstream_conversions/src/bin/to_kana_tree.rs:556: root entry 'm' -/
def kanaEntry010 : Str × Json :=
  (['m'], object [(['a'], object [([], .str ['ま'])]), (['i'], object [([], .str ['み'])]), (['u'],
    object [([], .str ['む'])]), (['e'], object [([], .str ['め'])]), (['o'], object [([],
    .str ['も'])]), (['y'], object [(['a'], object [([], .str ['み', 'ゃ'])]), (['i'], object [([],
    .str ['み', 'ぃ'])]), (['u'], object [([], .str ['み', 'ゅ'])]), (['e'], object [([], .str ['み',
    'ぇ'])]), (['o'], object [([], .str ['み', 'ょ'])])]), (['m'], object [(['a'], object [([],
    .str ['っ', 'ま'])]), (['i'], object [([], .str ['っ', 'み'])]), (['u'], object [([], .str ['っ',
    'む'])]), (['e'], object [([], .str ['っ', 'め'])]), (['o'], object [([], .str ['っ', 'も'])]),
    (['y'], object [(['a'], object [([], .str ['っ', 'み', 'ゃ'])]), (['i'], object [([], .str ['っ',
    'み', 'ぃ'])]), (['u'], object [([], .str ['っ', 'み', 'ゅ'])]), (['e'], object [([], .str ['っ',
    'み', 'ぇ'])]), (['o'], object [([], .str ['っ', 'み', 'ょ'])])])])])

/-- upstream_conversions/src/bin/to_kana_tree.rs:624: root entry 'y' -/
def kanaEntry011 : Str × Json :=
  (['y'], object [(['a'], object [([], .str ['や'])]), (['u'], object [([], .str ['ゆ'])]), (['o'],
    object [([], .str ['よ'])]), (['i'], object [([], .str ['い'])]), (['e'], object [([],
    .str ['い', 'ぇ'])]), (['y'], object [(['a'], object [([], .str ['っ', 'や'])]), (['u'],
    object [([], .str ['っ', 'ゆ'])]), (['o'], object [([], .str ['っ', 'よ'])]), (['i'],
    object [([], .str ['っ', 'い'])]), (['e'], object [([], .str ['っ', 'い', 'ぇ'])])])])

/-- upstream_conversions/src/bin/to_kana_tree.rs:658: root entry 'r' -/
def kanaEntry012 : Str × Json :=
  (['r'], object [(['a'], object [([], .str ['ら'])]), (['i'], object [([], .str ['り'])]), (['u'],
    object [([], .str ['る'])]), (['e'], object [([], .str ['れ'])]), (['o'], object [([],
    .str ['ろ'])]), (['y'], object [(['a'], object [([], .str ['り', 'ゃ'])]), (['i'], object [([],
    .str ['り', 'ぃ'])]), (['u'], object [([], .str ['り', 'ゅ'])]), (['e'], object [([], .str ['り',
    'ぇ'])]), (['o'], object [([], .str ['り', 'ょ'])])]), (['r'], object [(['a'], object [([],
    .str ['っ', 'ら'])]), (['i'], object [([], .str ['っ', 'り'])]), (['u'], object [([], .str ['っ',
    'る'])]), (['e'], object [([], .str ['っ', 'れ'])]), (['o'], object [([], .str ['っ', 'ろ'])]),
    (['y'], object [(['a'], object [([], .str ['っ', 'り', 'ゃ'])]), (['i'], object [([], .str ['っ',
    'り', 'ぃ'])]), (['u'], object [([], .str ['っ', 'り', 'ゅ'])]), (['e'], object [([], .str ['っ',
    'り', 'ぇ'])]), (['o'], object [([], .str ['っ', 'り', 'ょ'])])])])])

/-- upstream_conversions/src/bin/to_kana_tree.rs:726: root entry 'w' -/
def kanaEntry013 : Str × Json :=
  (['w'], object [(['a'], object [([], .str ['わ'])]), (['i'], object [([], .str ['う', 'ぃ'])]),
    (['e'], object [([], .str ['う', 'ぇ'])]), (['o'], object [([], .str ['を'])]), (['h'],
    object [(['a'], object [([], .str ['う', 'ぁ'])]), (['i'], object [([], .str ['う', 'ぃ'])]),
    (['u'], object [([], .str ['う'])]), (['e'], object [([], .str ['う', 'ぇ'])]), (['o'],
    object [([], .str ['う', 'ぉ'])])]), (['u'], object [([], .str ['う'])]), (['w'],
    object [(['a'], object [([], .str ['っ', 'わ'])]), (['i'], object [([], .str ['っ', 'う',
    'ぃ'])]), (['e'], object [([], .str ['っ', 'う', 'ぇ'])]), (['o'], object [([], .str ['っ',
    'を'])]), (['h'], object [(['a'], object [([], .str ['っ', 'う', 'ぁ'])]), (['i'], object [([],
    .str ['っ', 'う', 'ぃ'])]), (['u'], object [([], .str ['っ', 'う'])]), (['e'], object [([],
    .str ['っ', 'う', 'ぇ'])]), (['o'], object [([], .str ['っ', 'う', 'ぉ'])])]), (['u'], object [([],
    .str ['っ', 'う'])])])])

/-- upstream_conversions/src/bin/to_kana_tree.rs:794: root entry 'g' -/
def kanaEntry014 : Str × Json :=
  (['g'], object [(['a'], object [([], .str ['が'])]), (['i'], object [([], .str ['ぎ'])]), (['u'],
    object [([], .str ['ぐ'])]), (['e'], object [([], .str ['げ'])]), (['o'], object [([],
    .str ['ご'])]), (['y'], object [(['a'], object [([], .str ['ぎ', 'ゃ'])]), (['i'], object [([],
    .str ['ぎ', 'ぃ'])]), (['u'], object [([], .str ['ぎ', 'ゅ'])]), (['e'], object [([], .str ['ぎ',
    'ぇ'])]), (['o'], object [([], .str ['ぎ', 'ょ'])])]), (['w'], object [(['a'], object [([],
    .str ['ぐ', 'ぁ'])]), (['i'], object [([], .str ['ぐ', 'ぃ'])]), (['u'], object [([], .str ['ぐ',
    'ぅ'])]), (['e'], object [([], .str ['ぐ', 'ぇ'])]), (['o'], object [([], .str ['ぐ', 'ぉ'])])]),
    (['g'], object [(['a'], object [([], .str ['っ', 'が'])]), (['i'], object [([], .str ['っ',
    'ぎ'])]), (['u'], object [([], .str ['っ', 'ぐ'])]), (['e'], object [([], .str ['っ', 'げ'])]),
    (['o'], object [([], .str ['っ', 'ご'])]), (['y'], object [(['a'], object [([], .str ['っ', 'ぎ',
    'ゃ'])]), (['i'], object [([], .str ['っ', 'ぎ', 'ぃ'])]), (['u'], object [([], .str ['っ', 'ぎ',
    'ゅ'])]), (['e'], object [([], .str ['っ', 'ぎ', 'ぇ'])]), (['o'], object [([], .str ['っ', 'ぎ',
    'ょ'])])]), (['w'], object [(['a'], object [([], .str ['っ', 'ぐ', 'ぁ'])]), (['i'], object [([],
    .str ['っ', 'ぐ', 'ぃ'])]), (['u'], object [([], .str ['っ', 'ぐ', 'ぅ'])]), (['e'], object [([],
    .str ['っ', 'ぐ', 'ぇ'])]), (['o'], object [([], .str ['っ', 'ぐ', 'ぉ'])])])])])

/-- upstream_conversions/src/bin/to_kana_tree.rs:896: root entry 'z' -/
def kanaEntry015 : Str × Json :=
  (['z'], object [(['a'], object [([], .str ['ざ'])]), (['i'], object [([], .str ['じ'])]), (['u'],
    object [([], .str ['ず'])]), (['e'], object [([], .str ['ぜ'])]), (['o'], object [([],
    .str ['ぞ'])]), (['y'], object [(['a'], object [([], .str ['じ', 'ゃ'])]), (['i'], object [([],
    .str ['じ', 'ぃ'])]), (['u'], object [([], .str ['じ', 'ゅ'])]), (['e'], object [([], .str ['じ',
    'ぇ'])]), (['o'], object [([], .str ['じ', 'ょ'])])]), (['z'], object [(['a'], object [([],
    .str ['っ', 'ざ'])]), (['i'], object [([], .str ['っ', 'じ'])]), (['u'], object [([], .str ['っ',
    'ず'])]), (['e'], object [([], .str ['っ', 'ぜ'])]), (['o'], object [([], .str ['っ', 'ぞ'])]),
    (['y'], object [(['a'], object [([], .str ['っ', 'じ', 'ゃ'])]), (['i'], object [([], .str ['っ',
    'じ', 'ぃ'])]), (['u'], object [([], .str ['っ', 'じ', 'ゅ'])]), (['e'], object [([], .str ['っ',
    'じ', 'ぇ'])]), (['o'], object [([], .str ['っ', 'じ', 'ょ'])])])])])

/-- upstream_conversions/src/bin/to_kana_tree.rs:964: root entry 'd' -/
def kanaEntry016 : Str × Json :=
  (['d'], object [(['a'], object [([], .str ['だ'])]), (['i'], object [([], .str ['ぢ'])]), (['u'],
    object [([], .str ['づ'])]), (['e'], object [([], .str ['で'])]), (['o'], object [([],
    .str ['ど'])]), (['y'], object [(['a'], object [([], .str ['ぢ', 'ゃ'])]), (['i'], object [([],
    .str ['ぢ', 'ぃ'])]), (['u'], object [([], .str ['ぢ', 'ゅ'])]), (['e'], object [([], .str ['ぢ',
    'ぇ'])]), (['o'], object [([], .str ['ぢ', 'ょ'])])]), (['h'], object [(['a'], object [([],
    .str ['で', 'ゃ'])]), (['i'], object [([], .str ['で', 'ぃ'])]), (['u'], object [([], .str ['で',
    'ゅ'])]), (['e'], object [([], .str ['で', 'ぇ'])]), (['o'], object [([], .str ['で', 'ょ'])])]),
    (['w'], object [(['a'], object [([], .str ['ど', 'ぁ'])]), (['i'], object [([], .str ['ど',
    'ぃ'])]), (['u'], object [([], .str ['ど', 'ぅ'])]), (['e'], object [([], .str ['ど', 'ぇ'])]),
    (['o'], object [([], .str ['ど', 'ぉ'])])]), (['d'], object [(['a'], object [([], .str ['っ',
    'だ'])]), (['i'], object [([], .str ['っ', 'ぢ'])]), (['u'], object [([], .str ['っ', 'づ'])]),
    (['e'], object [([], .str ['っ', 'で'])]), (['o'], object [([], .str ['っ', 'ど'])]), (['y'],
    object [(['a'], object [([], .str ['っ', 'ぢ', 'ゃ'])]), (['i'], object [([], .str ['っ', 'ぢ',
    'ぃ'])]), (['u'], object [([], .str ['っ', 'ぢ', 'ゅ'])]), (['e'], object [([], .str ['っ', 'ぢ',
    'ぇ'])]), (['o'], object [([], .str ['っ', 'ぢ', 'ょ'])])]), (['h'], object [(['a'], object [([],
    .str ['っ', 'で', 'ゃ'])]), (['i'], object [([], .str ['っ', 'で', 'ぃ'])]), (['u'], object [([],
    .str ['っ', 'で', 'ゅ'])]), (['e'], object [([], .str ['っ', 'で', 'ぇ'])]), (['o'], object [([],
    .str ['っ', 'で', 'ょ'])])]), (['w'], object [(['a'], object [([], .str ['っ', 'ど', 'ぁ'])]),
    (['i'], object [([], .str ['っ', 'ど', 'ぃ'])]), (['u'], object [([], .str ['っ', 'ど', 'ぅ'])]),
    (['e'], object [([], .str ['っ', 'ど', 'ぇ'])]), (['o'], object [([], .str ['っ', 'ど',
    'ぉ'])])])])])

/-- upstream_conversions/src/bin/to_kana_tree.rs:1100: root entry 'b' -/
def kanaEntry017 : Str × Json :=
  (['b'], object [(['a'], object [([], .str ['ば'])]), (['i'], object [([], .str ['び'])]), (['u'],
    object [([], .str ['ぶ'])]), (['e'], object [([], .str ['べ'])]), (['o'], object [([],
    .str ['ぼ'])]), (['y'], object [(['a'], object [([], .str ['び', 'ゃ'])]), (['i'], object [([],
    .str ['び', 'ぃ'])]), (['u'], object [([], .str ['び', 'ゅ'])]), (['e'], object [([], .str ['び',
    'ぇ'])]), (['o'], object [([], .str ['び', 'ょ'])])]), (['b'], object [(['a'], object [([],
    .str ['っ', 'ば'])]), (['i'], object [([], .str ['っ', 'び'])]), (['u'], object [([], .str ['っ',
    'ぶ'])]), (['e'], object [([], .str ['っ', 'べ'])]), (['o'], object [([], .str ['っ', 'ぼ'])]),
    (['y'], object [(['a'], object [([], .str ['っ', 'び', 'ゃ'])]), (['i'], object [([], .str ['っ',
    'び', 'ぃ'])]), (['u'], object [([], .str ['っ', 'び', 'ゅ'])]), (['e'], object [([], .str ['っ',
    'び', 'ぇ'])]), (['o'], object [([], .str ['っ', 'び', 'ょ'])])])])])

/-- upstream_conversions/src/bin/to_kana_tree.rs:1168: root entry 'p' -/
def kanaEntry018 : Str × Json :=
  (['p'], object [(['a'], object [([], .str ['ぱ'])]), (['i'], object [([], .str ['ぴ'])]), (['u'],
    object [([], .str ['ぷ'])]), (['e'], object [([], .str ['ぺ'])]), (['o'], object [([],
    .str ['ぽ'])]), (['y'], object [(['a'], object [([], .str ['ぴ', 'ゃ'])]), (['i'], object [([],
    .str ['ぴ', 'ぃ'])]), (['u'], object [([], .str ['ぴ', 'ゅ'])]), (['e'], object [([], .str ['ぴ',
    'ぇ'])]), (['o'], object [([], .str ['ぴ', 'ょ'])])]), (['p'], object [(['a'], object [([],
    .str ['っ', 'ぱ'])]), (['i'], object [([], .str ['っ', 'ぴ'])]), (['u'], object [([], .str ['っ',
    'ぷ'])]), (['e'], object [([], .str ['っ', 'ぺ'])]), (['o'], object [([], .str ['っ', 'ぽ'])]),
    (['y'], object [(['a'], object [([], .str ['っ', 'ぴ', 'ゃ'])]), (['i'], object [([], .str ['っ',
    'ぴ', 'ぃ'])]), (['u'], object [([], .str ['っ', 'ぴ', 'ゅ'])]), (['e'], object [([], .str ['っ',
    'ぴ', 'ぇ'])]), (['o'], object [([], .str ['っ', 'ぴ', 'ょ'])])])])])

/-- upstream_conversions/src/bin/to_kana_tree.rs:1236: root entry 'v' -/
def kanaEntry019 : Str × Json :=
  (['v'], object [(['a'], object [([], .str ['ゔ', 'ぁ'])]), (['i'], object [([], .str ['ゔ',
    'ぃ'])]), (['u'], object [([], .str ['ゔ'])]), (['e'], object [([], .str ['ゔ', 'ぇ'])]), (['o'],
    object [([], .str ['ゔ', 'ぉ'])]), (['y'], object [(['a'], object [([], .str ['ゔ', 'ゃ'])]),
    (['i'], object [([], .str ['ゔ', 'ぃ'])]), (['u'], object [([], .str ['ゔ', 'ゅ'])]), (['e'],
    object [([], .str ['ゔ', 'ぇ'])]), (['o'], object [([], .str ['ゔ', 'ょ'])])]), (['v'],
    object [(['a'], object [([], .str ['っ', 'ゔ', 'ぁ'])]), (['i'], object [([], .str ['っ', 'ゔ',
    'ぃ'])]), (['u'], object [([], .str ['っ', 'ゔ'])]), (['e'], object [([], .str ['っ', 'ゔ',
    'ぇ'])]), (['o'], object [([], .str ['っ', 'ゔ', 'ぉ'])]), (['y'], object [(['a'], object [([],
    .str ['っ', 'ゔ', 'ゃ'])]), (['i'], object [([], .str ['っ', 'ゔ', 'ぃ'])]), (['u'], object [([],
    .str ['っ', 'ゔ', 'ゅ'])]), (['e'], object [([], .str ['っ', 'ゔ', 'ぇ'])]), (['o'], object [([],
    .str ['っ', 'ゔ', 'ょ'])])])])])

/-- upstream_conversions/src/bin/to_kana_tree.rs:1304: root entry 'q' -/
def kanaEntry020 : Str × Json :=
  (['q'], object [(['y'], object [(['a'], object [([], .str ['く', 'ゃ'])]), (['i'], object [([],
    .str ['く', 'ぃ'])]), (['u'], object [([], .str ['く', 'ゅ'])]), (['e'], object [([], .str ['く',
    'ぇ'])]), (['o'], object [([], .str ['く', 'ょ'])])]), (['w'], object [(['a'], object [([],
    .str ['く', 'ぁ'])]), (['i'], object [([], .str ['く', 'ぃ'])]), (['u'], object [([], .str ['く',
    'ぅ'])]), (['e'], object [([], .str ['く', 'ぇ'])]), (['o'], object [([], .str ['く', 'ぉ'])])]),
    (['a'], object [([], .str ['く', 'ぁ'])]), (['i'], object [([], .str ['く', 'ぃ'])]), (['u'],
    object [([], .str ['く', 'ぅ'])]), (['e'], object [([], .str ['く', 'ぇ'])]), (['o'],
    object [([], .str ['く', 'ぉ'])]), (['q'], object [(['y'], object [(['a'], object [([],
    .str ['っ', 'く', 'ゃ'])]), (['i'], object [([], .str ['っ', 'く', 'ぃ'])]), (['u'], object [([],
    .str ['っ', 'く', 'ゅ'])]), (['e'], object [([], .str ['っ', 'く', 'ぇ'])]), (['o'], object [([],
    .str ['っ', 'く', 'ょ'])])]), (['w'], object [(['a'], object [([], .str ['っ', 'く', 'ぁ'])]),
    (['i'], object [([], .str ['っ', 'く', 'ぃ'])]), (['u'], object [([], .str ['っ', 'く', 'ぅ'])]),
    (['e'], object [([], .str ['っ', 'く', 'ぇ'])]), (['o'], object [([], .str ['っ', 'く', 'ぉ'])])]),
    (['a'], object [([], .str ['っ', 'く', 'ぁ'])]), (['i'], object [([], .str ['っ', 'く', 'ぃ'])]),
    (['u'], object [([], .str ['っ', 'く', 'ぅ'])]), (['e'], object [([], .str ['っ', 'く', 'ぇ'])]),
    (['o'], object [([], .str ['っ', 'く', 'ぉ'])])])])

/-- upstream_conversions/src/bin/to_kana_tree.rs:1406: root entry 'f' -/
def kanaEntry021 : Str × Json :=
  (['f'], object [(['y'], object [(['a'], object [([], .str ['ふ', 'ゃ'])]), (['i'], object [([],
    .str ['ふ', 'ぃ'])]), (['u'], object [([], .str ['ふ', 'ゅ'])]), (['e'], object [([], .str ['ふ',
    'ぇ'])]), (['o'], object [([], .str ['ふ', 'ょ'])])]), (['w'], object [(['a'], object [([],
    .str ['ふ', 'ぁ'])]), (['i'], object [([], .str ['ふ', 'ぃ'])]), (['u'], object [([], .str ['ふ',
    'ぅ'])]), (['e'], object [([], .str ['ふ', 'ぇ'])]), (['o'], object [([], .str ['ふ', 'ぉ'])])]),
    (['a'], object [([], .str ['ふ', 'ぁ'])]), (['i'], object [([], .str ['ふ', 'ぃ'])]), (['u'],
    object [([], .str ['ふ'])]), (['e'], object [([], .str ['ふ', 'ぇ'])]), (['o'], object [([],
    .str ['ふ', 'ぉ'])]), (['f'], object [(['y'], object [(['a'], object [([], .str ['っ', 'ふ',
    'ゃ'])]), (['i'], object [([], .str ['っ', 'ふ', 'ぃ'])]), (['u'], object [([], .str ['っ', 'ふ',
    'ゅ'])]), (['e'], object [([], .str ['っ', 'ふ', 'ぇ'])]), (['o'], object [([], .str ['っ', 'ふ',
    'ょ'])])]), (['w'], object [(['a'], object [([], .str ['っ', 'ふ', 'ぁ'])]), (['i'], object [([],
    .str ['っ', 'ふ', 'ぃ'])]), (['u'], object [([], .str ['っ', 'ふ', 'ぅ'])]), (['e'], object [([],
    .str ['っ', 'ふ', 'ぇ'])]), (['o'], object [([], .str ['っ', 'ふ', 'ぉ'])])]), (['a'], object [([],
    .str ['っ', 'ふ', 'ぁ'])]), (['i'], object [([], .str ['っ', 'ふ', 'ぃ'])]), (['u'], object [([],
    .str ['っ', 'ふ'])]), (['e'], object [([], .str ['っ', 'ふ', 'ぇ'])]), (['o'], object [([],
    .str ['っ', 'ふ', 'ぉ'])])])])

/-- upstream_conversions/src/bin/to_kana_tree.rs:1508: root entry '.' -/
def kanaEntry022 : Str × Json :=
  (['.'], object [([], .str ['。'])])

/-- upstream_conversions/src/bin/to_kana_tree.rs:1511: root entry ',' -/
def kanaEntry023 : Str × Json :=
  ([','], object [([], .str ['、'])])

/-- upstream_conversions/src/bin/to_kana_tree.rs:1514: root entry ':' -/
def kanaEntry024 : Str × Json :=
  ([':'], object [([], .str ['：'])])

/-- upstream_conversions/src/bin/to_kana_tree.rs:1517: root entry '/' -/
def kanaEntry025 : Str × Json :=
  (['/'], object [([], .str ['・'])])

/-- upstream_conversions/src/bin/to_kana_tree.rs:1520: root entry '!' -/
def kanaEntry026 : Str × Json :=
  (['!'], object [([], .str ['！'])])

/-- upstream_conversions/src/bin/to_kana_tree.rs:1523: root entry '?' -/
def kanaEntry027 : Str × Json :=
  (['?'], object [([], .str ['？'])])

/-- upstream_conversions/src/bin/to_kana_tree.rs:1526: root entry '~' -/
def kanaEntry028 : Str × Json :=
  (['~'], object [([], .str ['〜'])])

/-- upstream_conversions/src/bin/to_kana_tree.rs:1529: root entry '-' -/
def kanaEntry029 : Str × Json :=
  (['-'], object [([], .str ['ー'])])

/-- upstream_conversions/src/bin/to_kana_tree.rs:1532: root entry '‘' -/
def kanaEntry030 : Str × Json :=
  (['‘'], object [([], .str ['「'])])

/-- upstream_conversions/src/bin/to_kana_tree.rs:1535: root entry '’' -/
def kanaEntry031 : Str × Json :=
  (['’'], object [([], .str ['」'])])

/-- upstream_conversions/src/bin/to_kana_tree.rs:1538: root entry '“' -/
def kanaEntry032 : Str × Json :=
  (['“'], object [([], .str ['『'])])

/-- upstream_conversions/src/bin/to_kana_tree.rs:1541: root entry '”' -/
def kanaEntry033 : Str × Json :=
  (['”'], object [([], .str ['』'])])

/-- upstream_conversions/src/bin/to_kana_tree.rs:1544: root entry '[' -/
def kanaEntry034 : Str × Json :=
  (['['], object [([], .str ['［'])])

/-- upstream_conversions/src/bin/to_kana_tree.rs:1547: root entry ']' -/
def kanaEntry035 : Str × Json :=
  ([']'], object [([], .str ['］'])])

/-- upstream_conversions/src/bin/to_kana_tree.rs:1550: root entry '(' -/
def kanaEntry036 : Str × Json :=
  (['('], object [([], .str ['（'])])

/-- upstream_conversions/src/bin/to_kana_tree.rs:1553: root entry ')' -/
def kanaEntry037 : Str × Json :=
  ([')'], object [([], .str ['）'])])

/-- upstream_conversions/src/bin/to_kana_tree.rs:1556: root entry '{' -/
def kanaEntry038 : Str × Json :=
  (['{'], object [([], .str ['｛'])])

/-- upstream_conversions/src/bin/to_kana_tree.rs:1559: root entry '}' -/
def kanaEntry039 : Str × Json :=
  (['}'], object [([], .str ['｝'])])

/-- upstream_conversions/src/bin/to_kana_tree.rs:1562: root entry 'x' -/
def kanaEntry040 : Str × Json :=
  (['x'], object [(['n'], object [([], .str ['ん'])]), (['t'], object [(['u'], object [([],
    .str ['っ'])]), (['s'], object [(['u'], object [([], .str ['っ'])])])]), (['w'],
    object [(['a'], object [([], .str ['ゎ'])])]), (['k'], object [(['a'], object [([],
    .str ['ヵ'])]), (['e'], object [([], .str ['ヶ'])])]), (['c'], object [(['a'], object [([],
    .str ['ヵ'])]), (['e'], object [([], .str ['ヶ'])])]), (['a'], object [([], .str ['ぁ'])]),
    (['i'], object [([], .str ['ぃ'])]), (['u'], object [([], .str ['ぅ'])]), (['e'], object [([],
    .str ['ぇ'])]), (['o'], object [([], .str ['ぉ'])]), (['y'], object [(['a'], object [([],
    .str ['ゃ'])]), (['i'], object [([], .str ['ぃ'])]), (['u'], object [([], .str ['ゅ'])]),
    (['e'], object [([], .str ['ぇ'])]), (['o'], object [([], .str ['ょ'])])])])

/-- upstream_conversions/src/bin/to_kana_tree.rs:1630: root entry 'c' -/
def kanaEntry041 : Str × Json :=
  (['c'], object [(['a'], object [([], .str ['か'])]), (['i'], object [([], .str ['き'])]), (['u'],
    object [([], .str ['く'])]), (['e'], object [([], .str ['け'])]), (['o'], object [([],
    .str ['こ'])]), (['y'], object [(['a'], object [([], .str ['ち', 'ゃ'])]), (['i'], object [([],
    .str ['ち', 'ぃ'])]), (['u'], object [([], .str ['ち', 'ゅ'])]), (['e'], object [([], .str ['ち',
    'ぇ'])]), (['o'], object [([], .str ['ち', 'ょ'])])]), (['h'], object [(['a'], object [([],
    .str ['ち', 'ゃ'])]), (['i'], object [([], .str ['ち'])]), (['u'], object [([], .str ['ち',
    'ゅ'])]), (['e'], object [([], .str ['ち', 'ぇ'])]), (['o'], object [([], .str ['ち', 'ょ'])]),
    (['y'], object [(['a'], object [([], .str ['ち', 'ゃ'])]), (['i'], object [([], .str ['ち',
    'ぃ'])]), (['u'], object [([], .str ['ち', 'ゅ'])]), (['e'], object [([], .str ['ち', 'ぇ'])]),
    (['o'], object [([], .str ['ち', 'ょ'])])])]), (['c'], object [(['a'], object [([], .str ['っ',
    'か'])]), (['i'], object [([], .str ['っ', 'き'])]), (['u'], object [([], .str ['っ', 'く'])]),
    (['e'], object [([], .str ['っ', 'け'])]), (['o'], object [([], .str ['っ', 'こ'])]), (['y'],
    object [(['a'], object [([], .str ['っ', 'ち', 'ゃ'])]), (['i'], object [([], .str ['っ', 'ち',
    'ぃ'])]), (['u'], object [([], .str ['っ', 'ち', 'ゅ'])]), (['e'], object [([], .str ['っ', 'ち',
    'ぇ'])]), (['o'], object [([], .str ['っ', 'ち', 'ょ'])])]), (['h'], object [(['a'], object [([],
    .str ['っ', 'ち', 'ゃ'])]), (['i'], object [([], .str ['っ', 'ち'])]), (['u'], object [([],
    .str ['っ', 'ち', 'ゅ'])]), (['e'], object [([], .str ['っ', 'ち', 'ぇ'])]), (['o'], object [([],
    .str ['っ', 'ち', 'ょ'])]), (['y'], object [(['a'], object [([], .str ['っ', 'ち', 'ゃ'])]),
    (['i'], object [([], .str ['っ', 'ち', 'ぃ'])]), (['u'], object [([], .str ['っ', 'ち', 'ゅ'])]),
    (['e'], object [([], .str ['っ', 'ち', 'ぇ'])]), (['o'], object [([], .str ['っ', 'ち',
    'ょ'])])])])])])

/-- upstream_conversions/src/bin/to_kana_tree.rs:1766: root entry 'j' -/
def kanaEntry042 : Str × Json :=
  (['j'], object [(['a'], object [([], .str ['じ', 'ゃ'])]), (['i'], object [([], .str ['じ'])]),
    (['u'], object [([], .str ['じ', 'ゅ'])]), (['e'], object [([], .str ['じ', 'ぇ'])]), (['o'],
    object [([], .str ['じ', 'ょ'])]), (['y'], object [(['a'], object [([], .str ['じ', 'ゃ'])]),
    (['i'], object [([], .str ['じ', 'ぃ'])]), (['u'], object [([], .str ['じ', 'ゅ'])]), (['e'],
    object [([], .str ['じ', 'ぇ'])]), (['o'], object [([], .str ['じ', 'ょ'])])]), (['j'],
    object [(['a'], object [([], .str ['っ', 'じ', 'ゃ'])]), (['i'], object [([], .str ['っ',
    'じ'])]), (['u'], object [([], .str ['っ', 'じ', 'ゅ'])]), (['e'], object [([], .str ['っ', 'じ',
    'ぇ'])]), (['o'], object [([], .str ['っ', 'じ', 'ょ'])]), (['y'], object [(['a'], object [([],
    .str ['っ', 'じ', 'ゃ'])]), (['i'], object [([], .str ['っ', 'じ', 'ぃ'])]), (['u'], object [([],
    .str ['っ', 'じ', 'ゅ'])]), (['e'], object [([], .str ['っ', 'じ', 'ぇ'])]), (['o'], object [([],
    .str ['っ', 'じ', 'ょ'])])])])])

/-- upstream_conversions/src/bin/to_kana_tree.rs:1834: root entry 'l' -/
def kanaEntry043 : Str × Json :=
  (['l'], object [(['t'], object [(['u'], object [([], .str ['っ'])]), (['s'], object [(['u'],
    object [([], .str ['っ'])])])]), (['w'], object [(['a'], object [([], .str ['ゎ'])])]), (['k'],
    object [(['a'], object [([], .str ['ヵ'])]), (['e'], object [([], .str ['ヶ'])])]), (['c'],
    object [(['a'], object [([], .str ['ヵ'])]), (['e'], object [([], .str ['ヶ'])])]), (['a'],
    object [([], .str ['ぁ'])]), (['i'], object [([], .str ['ぃ'])]), (['u'], object [([],
    .str ['ぅ'])]), (['e'], object [([], .str ['ぇ'])]), (['o'], object [([], .str ['ぉ'])]),
    (['y'], object [(['a'], object [([], .str ['ゃ'])]), (['i'], object [([], .str ['ぃ'])]),
    (['u'], object [([], .str ['ゅ'])]), (['e'], object [([], .str ['ぇ'])]), (['o'], object [([],
    .str ['ょ'])])])])

/-- upstream_conversions/src/bin/to_kana_tree.rs:16-1899: `val` -/
def kanaVal : Json :=
  object [kanaEntry000, kanaEntry001, kanaEntry002, kanaEntry003, kanaEntry004, kanaEntry005,
    kanaEntry006, kanaEntry007, kanaEntry008, kanaEntry009, kanaEntry010, kanaEntry011,
    kanaEntry012, kanaEntry013, kanaEntry014, kanaEntry015, kanaEntry016, kanaEntry017,
    kanaEntry018, kanaEntry019, kanaEntry020, kanaEntry021, kanaEntry022, kanaEntry023,
    kanaEntry024, kanaEntry025, kanaEntry026, kanaEntry027, kanaEntry028, kanaEntry029,
    kanaEntry030, kanaEntry031, kanaEntry032, kanaEntry033, kanaEntry034, kanaEntry035,
    kanaEntry036, kanaEntry037, kanaEntry038, kanaEntry039, kanaEntry040, kanaEntry041,
    kanaEntry042, kanaEntry043]

end Upstream
end WanaKana
