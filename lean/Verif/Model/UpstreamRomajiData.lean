import Verif.Model.Upstream
/-! # Data of upstream_conversions/src/bin/to_romaji_tree.rs (generated by tools/gen_upstream.py) -/

namespace WanaKana
namespace Upstream

/-- upstream_conversions/src/bin/to_romaji_tree.rs:17: root entry 'あ' -/
def romajiEntry000 : Str × Json :=
  (['あ'], object [([], .str ['a'])])

/-- upstream_conversions/src/bin/to_romaji_tree.rs:20: root entry 'い' -/
def romajiEntry001 : Str × Json :=
  (['い'], object [([], .str ['i'])])

/-- upstream_conversions/src/bin/to_romaji_tree.rs:23: root entry 'う' -/
def romajiEntry002 : Str × Json :=
  (['う'], object [([], .str ['u'])])

/-- upstream_conversions/src/bin/to_romaji_tree.rs:26: root entry 'え' -/
def romajiEntry003 : Str × Json :=
  (['え'], object [([], .str ['e'])])

/-- upstream_conversions/src/bin/to_romaji_tree.rs:29: root entry 'お' -/
def romajiEntry004 : Str × Json :=
  (['お'], object [([], .str ['o'])])

/-- upstream_conversions/src/bin/to_romaji_tree.rs:32: root entry 'か' -/
def romajiEntry005 : Str × Json :=
  (['か'], object [([], .str ['k', 'a'])])

/-- upstream_conversions/src/bin/to_romaji_tree.rs:35: root entry 'き' -/
def romajiEntry006 : Str × Json :=
  (['き'], object [([], .str ['k', 'i']), (['ゃ'], object [([], .str ['k', 'y', 'a'])]), (['ゅ'],
    object [([], .str ['k', 'y', 'u'])]), (['ょ'], object [([], .str ['k', 'y', 'o'])]), (['ぃ'],
    object [([], .str ['k', 'y', 'i'])]), (['ぇ'], object [([], .str ['k', 'y', 'e'])])])

/-- upstream_conversions/src/bin/to_romaji_tree.rs:53: root entry 'く' -/
def romajiEntry007 : Str × Json :=
  (['く'], object [([], .str ['k', 'u']), (['ゃ'], object [([], .str ['k', 'y', 'a'])]), (['ゅ'],
    object [([], .str ['k', 'y', 'u'])]), (['ょ'], object [([], .str ['k', 'y', 'o'])]), (['ぃ'],
    object [([], .str ['k', 'y', 'i'])]), (['ぇ'], object [([], .str ['k', 'y', 'e'])])])

/-- upstream_conversions/src/bin/to_romaji_tree.rs:71: root entry 'け' -/
def romajiEntry008 : Str × Json :=
  (['け'], object [([], .str ['k', 'e'])])

/-- upstream_conversions/src/bin/to_romaji_tree.rs:74: root entry 'こ' -/
def romajiEntry009 : Str × Json :=
  (['こ'], object [([], .str ['k', 'o'])])

/-- upstream_conversions/src/bin/to_romaji_tree.rs:77: root entry 'さ' -/
def romajiEntry010 : Str × Json :=
  (['さ'], object [([], .str ['s', 'a'])])

/-- upstream_conversions/src/bin/to_romaji_tree.rs:80: root entry 'し' -/
def romajiEntry011 : Str × Json :=
  (['し'], object [([], .str ['s', 'h', 'i']), (['ゃ'], object [([], .str ['s', 'h', 'a'])]),
    (['ゅ'], object [([], .str ['s', 'h', 'u'])]), (['ょ'], object [([], .str ['s', 'h', 'o'])]),
    (['ぃ'], object [([], .str ['s', 'h', 'y', 'i'])]), (['ぇ'], object [([], .str ['s', 'h',
    'e'])])])

/-- upstream_conversions/src/bin/to_romaji_tree.rs:98: root entry 'す' -/
def romajiEntry012 : Str × Json :=
  (['す'], object [([], .str ['s', 'u'])])

/-- upstream_conversions/src/bin/to_romaji_tree.rs:101: root entry 'せ' -/
def romajiEntry013 : Str × Json :=
  (['せ'], object [([], .str ['s', 'e'])])

/-- upstream_conversions/src/bin/to_romaji_tree.rs:104: root entry 'そ' -/
def romajiEntry014 : Str × Json :=
  (['そ'], object [([], .str ['s', 'o'])])

/-- upstream_conversions/src/bin/to_romaji_tree.rs:107: root entry 'た' -/
def romajiEntry015 : Str × Json :=
  (['た'], object [([], .str ['t', 'a'])])

/-- upstream_conversions/src/bin/to_romaji_tree.rs:110: root entry 'ち' -/
def romajiEntry016 : Str × Json :=
  (['ち'], object [([], .str ['c', 'h', 'i']), (['ゃ'], object [([], .str ['c', 'h', 'a'])]),
    (['ゅ'], object [([], .str ['c', 'h', 'u'])]), (['ょ'], object [([], .str ['c', 'h', 'o'])]),
    (['ぃ'], object [([], .str ['c', 'h', 'y', 'i'])]), (['ぇ'], object [([], .str ['c', 'h',
    'e'])])])

/-- upstream_conversions/src/bin/to_romaji_tree.rs:128: root entry 'つ' -/
def romajiEntry017 : Str × Json :=
  (['つ'], object [([], .str ['t', 's', 'u'])])

/-- upstream_conversions/src/bin/to_romaji_tree.rs:131: root entry 'て' -/
def romajiEntry018 : Str × Json :=
  (['て'], object [([], .str ['t', 'e'])])

/-- upstream_conversions/src/bin/to_romaji_tree.rs:134: root entry 'と' -/
def romajiEntry019 : Str × Json :=
  (['と'], object [([], .str ['t', 'o'])])

/-- upstream_conversions/src/bin/to_romaji_tree.rs:137: root entry 'な' -/
def romajiEntry020 : Str × Json :=
  (['な'], object [([], .str ['n', 'a'])])

/-- upstream_conversions/src/bin/to_romaji_tree.rs:140: root entry 'に' -/
def romajiEntry021 : Str × Json :=
  (['に'], object [([], .str ['n', 'i']), (['ゃ'], object [([], .str ['n', 'y', 'a'])]), (['ゅ'],
    object [([], .str ['n', 'y', 'u'])]), (['ょ'], object [([], .str ['n', 'y', 'o'])]), (['ぃ'],
    object [([], .str ['n', 'y', 'i'])]), (['ぇ'], object [([], .str ['n', 'y', 'e'])])])

/-- upstream_conversions/src/bin/to_romaji_tree.rs:158: root entry 'ぬ' -/
def romajiEntry022 : Str × Json :=
  (['ぬ'], object [([], .str ['n', 'u'])])

/-- upstream_conversions/src/bin/to_romaji_tree.rs:161: root entry 'ね' -/
def romajiEntry023 : Str × Json :=
  (['ね'], object [([], .str ['n', 'e'])])

/-- upstream_conversions/src/bin/to_romaji_tree.rs:164: root entry 'の' -/
def romajiEntry024 : Str × Json :=
  (['の'], object [([], .str ['n', 'o'])])

/-- upstream_conversions/src/bin/to_romaji_tree.rs:167: root entry 'は' -/
def romajiEntry025 : Str × Json :=
  (['は'], object [([], .str ['h', 'a'])])

/-- upstream_conversions/src/bin/to_romaji_tree.rs:170: root entry 'ひ' -/
def romajiEntry026 : Str × Json :=
  (['ひ'], object [([], .str ['h', 'i']), (['ゃ'], object [([], .str ['h', 'y', 'a'])]), (['ゅ'],
    object [([], .str ['h', 'y', 'u'])]), (['ょ'], object [([], .str ['h', 'y', 'o'])]), (['ぃ'],
    object [([], .str ['h', 'y', 'i'])]), (['ぇ'], object [([], .str ['h', 'y', 'e'])])])

/-- upstream_conversions/src/bin/to_romaji_tree.rs:188: root entry 'ふ' -/
def romajiEntry027 : Str × Json :=
  (['ふ'], object [([], .str ['f', 'u']), (['ゃ'], object [([], .str ['f', 'y', 'a'])]), (['ゅ'],
    object [([], .str ['f', 'y', 'u'])]), (['ょ'], object [([], .str ['f', 'y', 'o'])]), (['ぃ'],
    object [([], .str ['f', 'y', 'i'])]), (['ぇ'], object [([], .str ['f', 'y', 'e'])])])

/-- upstream_conversions/src/bin/to_romaji_tree.rs:206: root entry 'へ' -/
def romajiEntry028 : Str × Json :=
  (['へ'], object [([], .str ['h', 'e'])])

/-- upstream_conversions/src/bin/to_romaji_tree.rs:209: root entry 'ほ' -/
def romajiEntry029 : Str × Json :=
  (['ほ'], object [([], .str ['h', 'o'])])

/-- upstream_conversions/src/bin/to_romaji_tree.rs:212: root entry 'ま' -/
def romajiEntry030 : Str × Json :=
  (['ま'], object [([], .str ['m', 'a'])])

/-- upstream_conversions/src/bin/to_romaji_tree.rs:215: root entry 'み' -/
def romajiEntry031 : Str × Json :=
  (['み'], object [([], .str ['m', 'i']), (['ゃ'], object [([], .str ['m', 'y', 'a'])]), (['ゅ'],
    object [([], .str ['m', 'y', 'u'])]), (['ょ'], object [([], .str ['m', 'y', 'o'])]), (['ぃ'],
    object [([], .str ['m', 'y', 'i'])]), (['ぇ'], object [([], .str ['m', 'y', 'e'])])])

/-- upstream_conversions/src/bin/to_romaji_tree.rs:233: root entry 'む' -/
def romajiEntry032 : Str × Json :=
  (['む'], object [([], .str ['m', 'u'])])

/-- upstream_conversions/src/bin/to_romaji_tree.rs:236: root entry 'め' -/
def romajiEntry033 : Str × Json :=
  (['め'], object [([], .str ['m', 'e'])])

/-- upstream_conversions/src/bin/to_romaji_tree.rs:239: root entry 'も' -/
def romajiEntry034 : Str × Json :=
  (['も'], object [([], .str ['m', 'o'])])

/-- upstream_conversions/src/bin/to_romaji_tree.rs:242: root entry 'ら' -/
def romajiEntry035 : Str × Json :=
  (['ら'], object [([], .str ['r', 'a'])])

/-- upstream_conversions/src/bin/to_romaji_tree.rs:245: root entry 'り' -/
def romajiEntry036 : Str × Json :=
  (['り'], object [([], .str ['r', 'i']), (['ゃ'], object [([], .str ['r', 'y', 'a'])]), (['ゅ'],
    object [([], .str ['r', 'y', 'u'])]), (['ょ'], object [([], .str ['r', 'y', 'o'])]), (['ぃ'],
    object [([], .str ['r', 'y', 'i'])]), (['ぇ'], object [([], .str ['r', 'y', 'e'])])])

/-- upstream_conversions/src/bin/to_romaji_tree.rs:263: root entry 'る' -/
def romajiEntry037 : Str × Json :=
  (['る'], object [([], .str ['r', 'u'])])

/-- upstream_conversions/src/bin/to_romaji_tree.rs:266: root entry 'れ' -/
def romajiEntry038 : Str × Json :=
  (['れ'], object [([], .str ['r', 'e'])])

/-- upstream_conversions/src/bin/to_romaji_tree.rs:269: root entry 'ろ' -/
def romajiEntry039 : Str × Json :=
  (['ろ'], object [([], .str ['r', 'o'])])

/-- upstream_conversions/src/bin/to_romaji_tree.rs:272: root entry 'や' -/
def romajiEntry040 : Str × Json :=
  (['や'], object [([], .str ['y', 'a'])])

/-- upstream_conversions/src/bin/to_romaji_tree.rs:275: root entry 'ゆ' -/
def romajiEntry041 : Str × Json :=
  (['ゆ'], object [([], .str ['y', 'u'])])

/-- upstream_conversions/src/bin/to_romaji_tree.rs:278: root entry 'よ' -/
def romajiEntry042 : Str × Json :=
  (['よ'], object [([], .str ['y', 'o'])])

/-- upstream_conversions/src/bin/to_romaji_tree.rs:281: root entry 'わ' -/
def romajiEntry043 : Str × Json :=
  (['わ'], object [([], .str ['w', 'a'])])

/-- upstream_conversions/src/bin/to_romaji_tree.rs:284: root entry 'ゐ' -/
def romajiEntry044 : Str × Json :=
  (['ゐ'], object [([], .str ['w', 'i'])])

/-- upstream_conversions/src/bin/to_romaji_tree.rs:287: root entry 'ゑ' -/
def romajiEntry045 : Str × Json :=
  (['ゑ'], object [([], .str ['w', 'e'])])

/-- upstream_conversions/src/bin/to_romaji_tree.rs:290: root entry 'を' -/
def romajiEntry046 : Str × Json :=
  (['を'], object [([], .str ['w', 'o'])])

/-- upstream_conversions/src/bin/to_romaji_tree.rs:293: root entry 'ん' -/
def romajiEntry047 : Str × Json :=
  (['ん'], object [([], .str ['n']), (['あ'], object [([], .str ['n', '\'', 'a'])]), (['い'],
    object [([], .str ['n', '\'', 'i'])]), (['う'], object [([], .str ['n', '\'', 'u'])]), (['え'],
    object [([], .str ['n', '\'', 'e'])]), (['お'], object [([], .str ['n', '\'', 'o'])]), (['や'],
    object [([], .str ['n', '\'', 'y', 'a'])]), (['ゆ'], object [([], .str ['n', '\'', 'y',
    'u'])]), (['よ'], object [([], .str ['n', '\'', 'y', 'o'])])])

/-- upstream_conversions/src/bin/to_romaji_tree.rs:320: root entry 'が' -/
def romajiEntry048 : Str × Json :=
  (['が'], object [([], .str ['g', 'a'])])

/-- upstream_conversions/src/bin/to_romaji_tree.rs:323: root entry 'ぎ' -/
def romajiEntry049 : Str × Json :=
  (['ぎ'], object [([], .str ['g', 'i']), (['ゃ'], object [([], .str ['g', 'y', 'a'])]), (['ゅ'],
    object [([], .str ['g', 'y', 'u'])]), (['ょ'], object [([], .str ['g', 'y', 'o'])]), (['ぃ'],
    object [([], .str ['g', 'y', 'i'])]), (['ぇ'], object [([], .str ['g', 'y', 'e'])])])

/-- upstream_conversions/src/bin/to_romaji_tree.rs:341: root entry 'ぐ' -/
def romajiEntry050 : Str × Json :=
  (['ぐ'], object [([], .str ['g', 'u'])])

/-- upstream_conversions/src/bin/to_romaji_tree.rs:344: root entry 'げ' -/
def romajiEntry051 : Str × Json :=
  (['げ'], object [([], .str ['g', 'e'])])

/-- upstream_conversions/src/bin/to_romaji_tree.rs:347: root entry 'ご' -/
def romajiEntry052 : Str × Json :=
  (['ご'], object [([], .str ['g', 'o'])])

/-- upstream_conversions/src/bin/to_romaji_tree.rs:350: root entry 'ざ' -/
def romajiEntry053 : Str × Json :=
  (['ざ'], object [([], .str ['z', 'a'])])

/-- upstream_conversions/src/bin/to_romaji_tree.rs:353: root entry 'じ' -/
def romajiEntry054 : Str × Json :=
  (['じ'], object [([], .str ['j', 'i']), (['ゃ'], object [([], .str ['j', 'a'])]), (['ゅ'],
    object [([], .str ['j', 'u'])]), (['ょ'], object [([], .str ['j', 'o'])]), (['ぃ'],
    object [([], .str ['j', 'y', 'i'])]), (['ぇ'], object [([], .str ['j', 'e'])])])

/-- upstream_conversions/src/bin/to_romaji_tree.rs:371: root entry 'ず' -/
def romajiEntry055 : Str × Json :=
  (['ず'], object [([], .str ['z', 'u'])])

/-- upstream_conversions/src/bin/to_romaji_tree.rs:374: root entry 'ぜ' -/
def romajiEntry056 : Str × Json :=
  (['ぜ'], object [([], .str ['z', 'e'])])

/-- upstream_conversions/src/bin/to_romaji_tree.rs:377: root entry 'ぞ' -/
def romajiEntry057 : Str × Json :=
  (['ぞ'], object [([], .str ['z', 'o'])])

/-- upstream_conversions/src/bin/to_romaji_tree.rs:380: root entry 'だ' -/
def romajiEntry058 : Str × Json :=
  (['だ'], object [([], .str ['d', 'a'])])

/-- upstream_conversions/src/bin/to_romaji_tree.rs:383: root entry 'ぢ' -/
def romajiEntry059 : Str × Json :=
  (['ぢ'], object [([], .str ['j', 'i']), (['ゃ'], object [([], .str ['j', 'a'])]), (['ゅ'],
    object [([], .str ['j', 'u'])]), (['ょ'], object [([], .str ['j', 'o'])]), (['ぃ'],
    object [([], .str ['j', 'y', 'i'])]), (['ぇ'], object [([], .str ['j', 'e'])])])

/-- upstream_conversions/src/bin/to_romaji_tree.rs:401: root entry 'づ' -/
def romajiEntry060 : Str × Json :=
  (['づ'], object [([], .str ['z', 'u'])])

/-- upstream_conversions/src/bin/to_romaji_tree.rs:404: root entry 'で' -/
def romajiEntry061 : Str × Json :=
  (['で'], object [([], .str ['d', 'e'])])

/-- upstream_conversions/src/bin/to_romaji_tree.rs:407: root entry 'ど' -/
def romajiEntry062 : Str × Json :=
  (['ど'], object [([], .str ['d', 'o'])])

/-- upstream_conversions/src/bin/to_romaji_tree.rs:410: root entry 'ば' -/
def romajiEntry063 : Str × Json :=
  (['ば'], object [([], .str ['b', 'a'])])

/-- upstream_conversions/src/bin/to_romaji_tree.rs:413: root entry 'び' -/
def romajiEntry064 : Str × Json :=
  (['び'], object [([], .str ['b', 'i']), (['ゃ'], object [([], .str ['b', 'y', 'a'])]), (['ゅ'],
    object [([], .str ['b', 'y', 'u'])]), (['ょ'], object [([], .str ['b', 'y', 'o'])]), (['ぃ'],
    object [([], .str ['b', 'y', 'i'])]), (['ぇ'], object [([], .str ['b', 'y', 'e'])])])

/-- upstream_conversions/src/bin/to_romaji_tree.rs:431: root entry 'ぶ' -/
def romajiEntry065 : Str × Json :=
  (['ぶ'], object [([], .str ['b', 'u'])])

/-- upstream_conversions/src/bin/to_romaji_tree.rs:434: root entry 'べ' -/
def romajiEntry066 : Str × Json :=
  (['べ'], object [([], .str ['b', 'e'])])

/-- upstream_conversions/src/bin/to_romaji_tree.rs:437: root entry 'ぼ' -/
def romajiEntry067 : Str × Json :=
  (['ぼ'], object [([], .str ['b', 'o'])])

/-- upstream_conversions/src/bin/to_romaji_tree.rs:440: root entry 'ぱ' -/
def romajiEntry068 : Str × Json :=
  (['ぱ'], object [([], .str ['p', 'a'])])

/-- upstream_conversions/src/bin/to_romaji_tree.rs:443: root entry 'ぴ' -/
def romajiEntry069 : Str × Json :=
  (['ぴ'], object [([], .str ['p', 'i']), (['ゃ'], object [([], .str ['p', 'y', 'a'])]), (['ゅ'],
    object [([], .str ['p', 'y', 'u'])]), (['ょ'], object [([], .str ['p', 'y', 'o'])]), (['ぃ'],
    object [([], .str ['p', 'y', 'i'])]), (['ぇ'], object [([], .str ['p', 'y', 'e'])])])

/-- upstream_conversions/src/bin/to_romaji_tree.rs:461: root entry 'ぷ' -/
def romajiEntry070 : Str × Json :=
  (['ぷ'], object [([], .str ['p', 'u'])])

/-- upstream_conversions/src/bin/to_romaji_tree.rs:464: root entry 'ぺ' -/
def romajiEntry071 : Str × Json :=
  (['ぺ'], object [([], .str ['p', 'e'])])

/-- upstream_conversions/src/bin/to_romaji_tree.rs:467: root entry 'ぽ' -/
def romajiEntry072 : Str × Json :=
  (['ぽ'], object [([], .str ['p', 'o'])])

/-- upstream_conversions/src/bin/to_romaji_tree.rs:470: root entry 'ゔぁ' -/
def romajiEntry073 : Str × Json :=
  (['ゔ', 'ぁ'], object [([], .str ['v', 'a'])])

/-- upstream_conversions/src/bin/to_romaji_tree.rs:473: root entry 'ゔぃ' -/
def romajiEntry074 : Str × Json :=
  (['ゔ', 'ぃ'], object [([], .str ['v', 'i'])])

/-- upstream_conversions/src/bin/to_romaji_tree.rs:476: root entry 'ゔ' -/
def romajiEntry075 : Str × Json :=
  (['ゔ'], object [([], .str ['v', 'u']), (['ゃ'], object [([], .str ['v', 'y', 'a'])]), (['ゅ'],
    object [([], .str ['v', 'y', 'u'])]), (['ょ'], object [([], .str ['v', 'y', 'o'])]), (['ぃ'],
    object [([], .str ['v', 'y', 'i'])]), (['ぇ'], object [([], .str ['v', 'y', 'e'])])])

/-- upstream_conversions/src/bin/to_romaji_tree.rs:494: root entry 'ゔぇ' -/
def romajiEntry076 : Str × Json :=
  (['ゔ', 'ぇ'], object [([], .str ['v', 'e'])])

/-- upstream_conversions/src/bin/to_romaji_tree.rs:497: root entry 'ゔぉ' -/
def romajiEntry077 : Str × Json :=
  (['ゔ', 'ぉ'], object [([], .str ['v', 'o'])])

/-- upstream_conversions/src/bin/to_romaji_tree.rs:500: root entry '。' -/
def romajiEntry078 : Str × Json :=
  (['。'], object [([], .str ['.'])])

/-- upstream_conversions/src/bin/to_romaji_tree.rs:503: root entry '、' -/
def romajiEntry079 : Str × Json :=
  (['、'], object [([], .str [','])])

/-- upstream_conversions/src/bin/to_romaji_tree.rs:506: root entry '：' -/
def romajiEntry080 : Str × Json :=
  (['：'], object [([], .str [':'])])

/-- upstream_conversions/src/bin/to_romaji_tree.rs:509: root entry '・' -/
def romajiEntry081 : Str × Json :=
  (['・'], object [([], .str ['/'])])

/-- upstream_conversions/src/bin/to_romaji_tree.rs:512: root entry '！' -/
def romajiEntry082 : Str × Json :=
  (['！'], object [([], .str ['!'])])

/-- upstream_conversions/src/bin/to_romaji_tree.rs:515: root entry '？' -/
def romajiEntry083 : Str × Json :=
  (['？'], object [([], .str ['?'])])

/-- upstream_conversions/src/bin/to_romaji_tree.rs:518: root entry '〜' -/
def romajiEntry084 : Str × Json :=
  (['〜'], object [([], .str ['~'])])

/-- upstream_conversions/src/bin/to_romaji_tree.rs:521: root entry 'ー' -/
def romajiEntry085 : Str × Json :=
  (['ー'], object [([], .str ['-'])])

/-- upstream_conversions/src/bin/to_romaji_tree.rs:524: root entry '「' -/
def romajiEntry086 : Str × Json :=
  (['「'], object [([], .str ['‘'])])

/-- upstream_conversions/src/bin/to_romaji_tree.rs:527: root entry '」' -/
def romajiEntry087 : Str × Json :=
  (['」'], object [([], .str ['’'])])

/-- upstream_conversions/src/bin/to_romaji_tree.rs:530: root entry '『' -/
def romajiEntry088 : Str × Json :=
  (['『'], object [([], .str ['“'])])

/-- upstream_conversions/src/bin/to_romaji_tree.rs:533: root entry '』' -/
def romajiEntry089 : Str × Json :=
  (['』'], object [([], .str ['”'])])

/-- upstream_conversions/src/bin/to_romaji_tree.rs:536: root entry '［' -/
def romajiEntry090 : Str × Json :=
  (['［'], object [([], .str ['['])])

/-- upstream_conversions/src/bin/to_romaji_tree.rs:539: root entry '］' -/
def romajiEntry091 : Str × Json :=
  (['］'], object [([], .str [']'])])

/-- upstream_conversions/src/bin/to_romaji_tree.rs:542: root entry '（' -/
def romajiEntry092 : Str × Json :=
  (['（'], object [([], .str ['('])])

/-- upstream_conversions/src/bin/to_romaji_tree.rs:545: root entry '）' -/
def romajiEntry093 : Str × Json :=
  (['）'], object [([], .str [')'])])

/-- upstream_conversions/src/bin/to_romaji_tree.rs:548: root entry '｛' -/
def romajiEntry094 : Str × Json :=
  (['｛'], object [([], .str ['{'])])

/-- upstream_conversions/src/bin/to_romaji_tree.rs:551: root entry '｝' -/
def romajiEntry095 : Str × Json :=
  (['｝'], object [([], .str ['}'])])

/-- upstream_conversions/src/bin/to_romaji_tree.rs:554: root entry U+3000 -/
def romajiEntry096 : Str × Json :=
  (['\u3000'], object [([], .str [' '])])

/-- upstream_conversions/src/bin/to_romaji_tree.rs:557: root entry 'ゃ' -/
def romajiEntry097 : Str × Json :=
  (['ゃ'], object [([], .str ['y', 'a'])])

/-- upstream_conversions/src/bin/to_romaji_tree.rs:560: root entry 'ゅ' -/
def romajiEntry098 : Str × Json :=
  (['ゅ'], object [([], .str ['y', 'u'])])

/-- upstream_conversions/src/bin/to_romaji_tree.rs:563: root entry 'ょ' -/
def romajiEntry099 : Str × Json :=
  (['ょ'], object [([], .str ['y', 'o'])])

/-- upstream_conversions/src/bin/to_romaji_tree.rs:566: root entry 'ぁ' -/
def romajiEntry100 : Str × Json :=
  (['ぁ'], object [([], .str ['a'])])

/-- upstream_conversions/src/bin/to_romaji_tree.rs:569: root entry 'ぃ' -/
def romajiEntry101 : Str × Json :=
  (['ぃ'], object [([], .str ['i'])])

/-- upstream_conversions/src/bin/to_romaji_tree.rs:572: root entry 'ぅ' -/
def romajiEntry102 : Str × Json :=
  (['ぅ'], object [([], .str ['u'])])

/-- upstream_conversions/src/bin/to_romaji_tree.rs:575: root entry 'ぇ' -/
def romajiEntry103 : Str × Json :=
  (['ぇ'], object [([], .str ['e'])])

/-- upstream_conversions/src/bin/to_romaji_tree.rs:578: root entry 'ぉ' -/
def romajiEntry104 : Str × Json :=
  (['ぉ'], object [([], .str ['o'])])

/-- upstream_conversions/src/bin/to_romaji_tree.rs:581: root entry 'っ' -/
def romajiEntry105 : Str × Json :=
  (['っ'], object [(['あ'], object [([], .str ['a'])]), (['い'], object [([], .str ['i'])]), (['う'],
    object [([], .str ['u'])]), (['え'], object [([], .str ['e'])]), (['お'], object [([],
    .str ['o'])]), (['か'], object [([], .str ['k', 'k', 'a'])]), (['き'], object [([], .str ['k',
    'k', 'i']), (['ゃ'], object [([], .str ['k', 'k', 'y', 'a'])]), (['ゅ'], object [([],
    .str ['k', 'k', 'y', 'u'])]), (['ょ'], object [([], .str ['k', 'k', 'y', 'o'])]), (['ぃ'],
    object [([], .str ['k', 'k', 'y', 'i'])]), (['ぇ'], object [([], .str ['k', 'k', 'y',
    'e'])])]), (['く'], object [([], .str ['k', 'k', 'u']), (['ゃ'], object [([], .str ['k', 'k',
    'y', 'a'])]), (['ゅ'], object [([], .str ['k', 'k', 'y', 'u'])]), (['ょ'], object [([],
    .str ['k', 'k', 'y', 'o'])]), (['ぃ'], object [([], .str ['k', 'k', 'y', 'i'])]), (['ぇ'],
    object [([], .str ['k', 'k', 'y', 'e'])])]), (['け'], object [([], .str ['k', 'k', 'e'])]),
    (['こ'], object [([], .str ['k', 'k', 'o'])]), (['さ'], object [([], .str ['s', 's', 'a'])]),
    (['し'], object [([], .str ['s', 's', 'h', 'i']), (['ゃ'], object [([], .str ['s', 's', 'h',
    'a'])]), (['ゅ'], object [([], .str ['s', 's', 'h', 'u'])]), (['ょ'], object [([], .str ['s',
    's', 'h', 'o'])]), (['ぃ'], object [([], .str ['s', 's', 'h', 'y', 'i'])]), (['ぇ'],
    object [([], .str ['s', 's', 'h', 'e'])])]), (['す'], object [([], .str ['s', 's', 'u'])]),
    (['せ'], object [([], .str ['s', 's', 'e'])]), (['そ'], object [([], .str ['s', 's', 'o'])]),
    (['た'], object [([], .str ['t', 't', 'a'])]), (['ち'], object [([], .str ['t', 'c', 'h',
    'i']), (['ゃ'], object [([], .str ['t', 'c', 'h', 'a'])]), (['ゅ'], object [([], .str ['t',
    'c', 'h', 'u'])]), (['ょ'], object [([], .str ['t', 'c', 'h', 'o'])]), (['ぃ'], object [([],
    .str ['t', 'c', 'h', 'y', 'i'])]), (['ぇ'], object [([], .str ['t', 'c', 'h', 'e'])])]),
    (['つ'], object [([], .str ['t', 't', 's', 'u'])]), (['て'], object [([], .str ['t', 't',
    'e'])]), (['と'], object [([], .str ['t', 't', 'o'])]), (['な'], object [([], .str ['n',
    'a'])]), (['に'], object [([], .str ['n', 'i']), (['ゃ'], object [([], .str ['n', 'y', 'a'])]),
    (['ゅ'], object [([], .str ['n', 'y', 'u'])]), (['ょ'], object [([], .str ['n', 'y', 'o'])]),
    (['ぃ'], object [([], .str ['n', 'y', 'i'])]), (['ぇ'], object [([], .str ['n', 'y', 'e'])])]),
    (['ぬ'], object [([], .str ['n', 'u'])]), (['ね'], object [([], .str ['n', 'e'])]), (['の'],
    object [([], .str ['n', 'o'])]), (['は'], object [([], .str ['h', 'h', 'a'])]), (['ひ'],
    object [([], .str ['h', 'h', 'i']), (['ゃ'], object [([], .str ['h', 'h', 'y', 'a'])]),
    (['ゅ'], object [([], .str ['h', 'h', 'y', 'u'])]), (['ょ'], object [([], .str ['h', 'h', 'y',
    'o'])]), (['ぃ'], object [([], .str ['h', 'h', 'y', 'i'])]), (['ぇ'], object [([], .str ['h',
    'h', 'y', 'e'])])]), (['ふ'], object [([], .str ['f', 'f', 'u']), (['ゃ'], object [([],
    .str ['f', 'f', 'y', 'a'])]), (['ゅ'], object [([], .str ['f', 'f', 'y', 'u'])]), (['ょ'],
    object [([], .str ['f', 'f', 'y', 'o'])]), (['ぃ'], object [([], .str ['f', 'f', 'y', 'i'])]),
    (['ぇ'], object [([], .str ['f', 'f', 'y', 'e'])])]), (['へ'], object [([], .str ['h', 'h',
    'e'])]), (['ほ'], object [([], .str ['h', 'h', 'o'])]), (['ま'], object [([], .str ['m', 'm',
    'a'])]), (['み'], object [([], .str ['m', 'm', 'i']), (['ゃ'], object [([], .str ['m', 'm',
    'y', 'a'])]), (['ゅ'], object [([], .str ['m', 'm', 'y', 'u'])]), (['ょ'], object [([],
    .str ['m', 'm', 'y', 'o'])]), (['ぃ'], object [([], .str ['m', 'm', 'y', 'i'])]), (['ぇ'],
    object [([], .str ['m', 'm', 'y', 'e'])])]), (['む'], object [([], .str ['m', 'm', 'u'])]),
    (['め'], object [([], .str ['m', 'm', 'e'])]), (['も'], object [([], .str ['m', 'm', 'o'])]),
    (['ら'], object [([], .str ['r', 'r', 'a'])]), (['り'], object [([], .str ['r', 'r', 'i']),
    (['ゃ'], object [([], .str ['r', 'r', 'y', 'a'])]), (['ゅ'], object [([], .str ['r', 'r', 'y',
    'u'])]), (['ょ'], object [([], .str ['r', 'r', 'y', 'o'])]), (['ぃ'], object [([], .str ['r',
    'r', 'y', 'i'])]), (['ぇ'], object [([], .str ['r', 'r', 'y', 'e'])])]), (['る'], object [([],
    .str ['r', 'r', 'u'])]), (['れ'], object [([], .str ['r', 'r', 'e'])]), (['ろ'], object [([],
    .str ['r', 'r', 'o'])]), (['や'], object [([], .str ['y', 'a'])]), (['ゆ'], object [([],
    .str ['y', 'u'])]), (['よ'], object [([], .str ['y', 'o'])]), (['わ'], object [([], .str ['w',
    'w', 'a'])]), (['ゐ'], object [([], .str ['w', 'w', 'i'])]), (['ゑ'], object [([], .str ['w',
    'w', 'e'])]), (['を'], object [([], .str ['w', 'w', 'o'])]), (['ん'], object [([],
    .str ['n'])]), (['が'], object [([], .str ['g', 'g', 'a'])]), (['ぎ'], object [([], .str ['g',
    'g', 'i']), (['ゃ'], object [([], .str ['g', 'g', 'y', 'a'])]), (['ゅ'], object [([],
    .str ['g', 'g', 'y', 'u'])]), (['ょ'], object [([], .str ['g', 'g', 'y', 'o'])]), (['ぃ'],
    object [([], .str ['g', 'g', 'y', 'i'])]), (['ぇ'], object [([], .str ['g', 'g', 'y',
    'e'])])]), (['ぐ'], object [([], .str ['g', 'g', 'u'])]), (['げ'], object [([], .str ['g', 'g',
    'e'])]), (['ご'], object [([], .str ['g', 'g', 'o'])]), (['ざ'], object [([], .str ['z', 'z',
    'a'])]), (['じ'], object [([], .str ['j', 'j', 'i']), (['ゃ'], object [([], .str ['j', 'j',
    'a'])]), (['ゅ'], object [([], .str ['j', 'j', 'u'])]), (['ょ'], object [([], .str ['j', 'j',
    'o'])]), (['ぃ'], object [([], .str ['j', 'j', 'y', 'i'])]), (['ぇ'], object [([], .str ['j',
    'j', 'e'])])]), (['ず'], object [([], .str ['z', 'z', 'u'])]), (['ぜ'], object [([], .str ['z',
    'z', 'e'])]), (['ぞ'], object [([], .str ['z', 'z', 'o'])]), (['だ'], object [([], .str ['d',
    'd', 'a'])]), (['ぢ'], object [([], .str ['j', 'j', 'i']), (['ゃ'], object [([], .str ['j',
    'j', 'a'])]), (['ゅ'], object [([], .str ['j', 'j', 'u'])]), (['ょ'], object [([], .str ['j',
    'j', 'o'])]), (['ぃ'], object [([], .str ['j', 'j', 'y', 'i'])]), (['ぇ'], object [([],
    .str ['j', 'j', 'e'])])]), (['づ'], object [([], .str ['z', 'z', 'u'])]), (['で'], object [([],
    .str ['d', 'd', 'e'])]), (['ど'], object [([], .str ['d', 'd', 'o'])]), (['ば'], object [([],
    .str ['b', 'b', 'a'])]), (['び'], object [([], .str ['b', 'b', 'i']), (['ゃ'], object [([],
    .str ['b', 'b', 'y', 'a'])]), (['ゅ'], object [([], .str ['b', 'b', 'y', 'u'])]), (['ょ'],
    object [([], .str ['b', 'b', 'y', 'o'])]), (['ぃ'], object [([], .str ['b', 'b', 'y', 'i'])]),
    (['ぇ'], object [([], .str ['b', 'b', 'y', 'e'])])]), (['ぶ'], object [([], .str ['b', 'b',
    'u'])]), (['べ'], object [([], .str ['b', 'b', 'e'])]), (['ぼ'], object [([], .str ['b', 'b',
    'o'])]), (['ぱ'], object [([], .str ['p', 'p', 'a'])]), (['ぴ'], object [([], .str ['p', 'p',
    'i']), (['ゃ'], object [([], .str ['p', 'p', 'y', 'a'])]), (['ゅ'], object [([], .str ['p',
    'p', 'y', 'u'])]), (['ょ'], object [([], .str ['p', 'p', 'y', 'o'])]), (['ぃ'], object [([],
    .str ['p', 'p', 'y', 'i'])]), (['ぇ'], object [([], .str ['p', 'p', 'y', 'e'])])]), (['ぷ'],
    object [([], .str ['p', 'p', 'u'])]), (['ぺ'], object [([], .str ['p', 'p', 'e'])]), (['ぽ'],
    object [([], .str ['p', 'p', 'o'])]), (['ゔ', 'ぁ'], object [([], .str ['v', 'v', 'a'])]),
    (['ゔ', 'ぃ'], object [([], .str ['v', 'v', 'i'])]), (['ゔ'], object [([], .str ['v', 'v',
    'u']), (['ゃ'], object [([], .str ['v', 'v', 'y', 'a'])]), (['ゅ'], object [([], .str ['v',
    'v', 'y', 'u'])]), (['ょ'], object [([], .str ['v', 'v', 'y', 'o'])]), (['ぃ'], object [([],
    .str ['v', 'v', 'y', 'i'])]), (['ぇ'], object [([], .str ['v', 'v', 'y', 'e'])])]), (['ゔ',
    'ぇ'], object [([], .str ['v', 'v', 'e'])]), (['ゔ', 'ぉ'], object [([], .str ['v', 'v',
    'o'])]), (['。'], object [([], .str ['.'])]), (['、'], object [([], .str [','])]), (['：'],
    object [([], .str [':'])]), (['・'], object [([], .str ['/'])]), (['！'], object [([],
    .str ['!'])]), (['？'], object [([], .str ['?'])]), (['〜'], object [([], .str ['~'])]),
    (['ー'], object [([], .str ['-'])]), (['「'], object [([], .str ['‘'])]), (['」'], object [([],
    .str ['’'])]), (['『'], object [([], .str ['“'])]), (['』'], object [([], .str ['”'])]),
    (['［'], object [([], .str ['['])]), (['］'], object [([], .str [']'])]), (['（'], object [([],
    .str ['('])]), (['）'], object [([], .str [')'])]), (['｛'], object [([], .str ['{'])]),
    (['｝'], object [([], .str ['}'])]), (['\u3000'], object [([], .str [' '])]), (['ゃ'],
    object [([], .str ['y', 'a'])]), (['ゅ'], object [([], .str ['y', 'u'])]), (['ょ'],
    object [([], .str ['y', 'o'])]), (['ぁ'], object [([], .str ['a'])]), (['ぃ'], object [([],
    .str ['i'])]), (['ぅ'], object [([], .str ['u'])]), (['ぇ'], object [([], .str ['e'])]),
    (['ぉ'], object [([], .str ['o'])]), ([], .str [])])

/-- upstream_conversions/src/bin/to_romaji_tree.rs:16-1124: `val` -/
def romajiVal : Json :=
  object [romajiEntry000, romajiEntry001, romajiEntry002, romajiEntry003, romajiEntry004, romajiEntry005,
    romajiEntry006, romajiEntry007, romajiEntry008, romajiEntry009, romajiEntry010, romajiEntry011,
    romajiEntry012, romajiEntry013, romajiEntry014, romajiEntry015, romajiEntry016, romajiEntry017,
    romajiEntry018, romajiEntry019, romajiEntry020, romajiEntry021, romajiEntry022, romajiEntry023,
    romajiEntry024, romajiEntry025, romajiEntry026, romajiEntry027, romajiEntry028, romajiEntry029,
    romajiEntry030, romajiEntry031, romajiEntry032, romajiEntry033, romajiEntry034, romajiEntry035,
    romajiEntry036, romajiEntry037, romajiEntry038, romajiEntry039, romajiEntry040, romajiEntry041,
    romajiEntry042, romajiEntry043, romajiEntry044, romajiEntry045, romajiEntry046, romajiEntry047,
    romajiEntry048, romajiEntry049, romajiEntry050, romajiEntry051, romajiEntry052, romajiEntry053,
    romajiEntry054, romajiEntry055, romajiEntry056, romajiEntry057, romajiEntry058, romajiEntry059,
    romajiEntry060, romajiEntry061, romajiEntry062, romajiEntry063, romajiEntry064, romajiEntry065,
    romajiEntry066, romajiEntry067, romajiEntry068, romajiEntry069, romajiEntry070, romajiEntry071,
    romajiEntry072, romajiEntry073, romajiEntry074, romajiEntry075, romajiEntry076, romajiEntry077,
    romajiEntry078, romajiEntry079, romajiEntry080, romajiEntry081, romajiEntry082, romajiEntry083,
    romajiEntry084, romajiEntry085, romajiEntry086, romajiEntry087, romajiEntry088, romajiEntry089,
    romajiEntry090, romajiEntry091, romajiEntry092, romajiEntry093, romajiEntry094, romajiEntry095,
    romajiEntry096, romajiEntry097, romajiEntry098, romajiEntry099, romajiEntry100, romajiEntry101,
    romajiEntry102, romajiEntry103, romajiEntry104, romajiEntry105]

end Upstream
end WanaKana
