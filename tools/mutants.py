#!/usr/bin/env python3
"""The wrong programs used by mutate.py: writes a JSON list to stdout.
m(id, file, old, new, what the edit is, properties whose English claim becomes false)"""
import json, os
M = []
def m(id, f, old, new, edit, breaks, defn):
    M.append(dict(id=id, edits=[['Model/' + f, old, new]], edit=edit, breaks=breaks.split(), definition=defn))

# characters
m('char-range-excl', 'CharPreds.lean', 'decide (c.toNat ≤ stop)', 'decide (c.toNat < stop)', 'ranges exclude their last code point', 'C01 C08 C14 C22 C23 C47', 'is_char_in_range')
m('kanji-end', 'CharPreds.lean', 'def KANJI_END : Nat := 0x9FAF', 'def KANJI_END : Nat := 0x9FFF', 'kanji range extended to 9FFF', 'C01 C47', 'KANJI_END')
m('hira-no-dash', 'CharPreds.lean', 'if is_char_long_dash c then true else is_char_in_range c HIRAGANA_START HIRAGANA_END', 'is_char_in_range c HIRAGANA_START HIRAGANA_END', 'ー no longer hiragana', 'C01 C02', 'is_char_hiragana')
m('kana-and', 'CharPreds.lean', 'is_char_hiragana c || is_char_katakana c', 'is_char_hiragana c && is_char_katakana c', 'kana = hiragana and katakana', 'C01 C02', 'is_char_kana')
m('hira-end', 'Constants.lean', 'def HIRAGANA_END : Nat := 0x3096', 'def HIRAGANA_END : Nat := 0x309F', 'hiragana range to 309F', 'C01 C22 C65', 'HIRAGANA_END')
m('kata-start', 'Constants.lean', 'def KATAKANA_START : Nat := 0x30A1', 'def KATAKANA_START : Nat := 0x30A0', 'katakana range from 30A0', 'C01 C22 C25 C65', 'KATAKANA_START')
m('kata-end', 'Constants.lean', 'def KATAKANA_END : Nat := 0x30FC', 'def KATAKANA_END : Nat := 0x30FF', 'katakana range to 30FF', 'C01 C23', 'KATAKANA_END')
m('jp-drop-rare', 'Constants.lean', 'COMMON_CJK, RARE_CJK]', 'COMMON_CJK]', 'rare CJK missing from Japanese', 'C01', 'JAPANESE_RANGES')
m('jp-drop-punct', 'Constants.lean', '    ++ KANA_RANGES ++ JA_PUNCTUATION_RANGES', '    ++ KANA_RANGES', 'punctuation missing from Japanese', 'C01 C03', 'JAPANESE_RANGES')
m('romaji-no-macron', 'Constants.lean', '[MODERN_ENGLISH] ++ HEPBURN_MACRON_RANGES', '[MODERN_ENGLISH]', 'macron vowels not romaji', 'C01 C04', 'ROMAJI_RANGES')
m('enpunct-digit', 'Constants.lean', '[(0x20, 0x2F), (0x3A, 0x3F)', '[(0x20, 0x3F)', 'digits are English punctuation', 'C08 C47', 'EN_PUNCTUATION_RANGES')
m('vowel-y', 'CharPreds.lean', "  | 'y' => include_y\n  | _ => false\n\n/-- src/utils/is_char_vowel.rs:2-4 -/", "  | 'y' => !include_y\n  | _ => false\n\n/-- src/utils/is_char_vowel.rs:2-4 -/", 'y inverted in vowel', 'C07 C64', 'is_char_vowel_opt')
m('cons-l', 'CharPreds.lean', "'j' | 'k' | 'l' | 'm'", "'j' | 'k' | 'm'", 'l not a consonant', 'C07 C64', 'is_char_consonant')
m('punct-or', 'CharPreds.lean', 'is_char_english_punctuation c || is_char_japanese_punctuation c', 'is_char_english_punctuation c', 'punctuation only English', 'C08', 'is_char_punctuation')
m('upper-range', 'Constants.lean', 'def UPPERCASE_END : Nat := 0x5A', 'def UPPERCASE_END : Nat := 0x5B', 'is_char_upper_case accepts [', 'C64', 'UPPERCASE_END')
# strings
m('empty-true', 'StrPreds.lean', "def is_romaji (input : Str) : Bool :=\n  if input.isEmpty then false", "def is_romaji (input : Str) : Bool :=\n  if input.isEmpty then true", 'is_romaji("") = true', 'C01', 'is_romaji')
m('any-all', 'StrPreds.lean', "else input.any is_char_kanji", "else input.all is_char_kanji", 'contains_kanji tests all', 'C01', 'contains_kanji')
m('all-any', 'StrPreds.lean', "else input.all is_char_japanese", "else input.any is_char_japanese", 'is_japanese tests any', 'C01 C05', 'is_japanese')
m('mixed-kanji', 'StrPreds.lean', "is_mixed_pass_kanji input true", "is_mixed_pass_kanji input false", 'is_mixed excludes kanji', 'C04', 'is_mixed')
m('mixed-flag', 'StrPreds.lean', "if !pass_kanji then input.any", "if pass_kanji then input.any", 'pass_kanji inverted', 'C04', 'is_mixed_pass_kanji')
m('wl-nojap', 'StrPreds.lean', "/-- src/is_japanese.rs:16-29 (feature `enable_regex`) -/\ndef is_japanese_with_whitelist (input : Str) (allowed : Option Regex) : Bool :=\n  if input.isEmpty then false\n  else input.all fun char =>\n    let is_jap := is_char_japanese char\n    if !is_jap then\n      match allowed with\n      | some allowed => allowed.is_match input\n      | none => is_jap", "/-- src/is_japanese.rs:16-29 (feature `enable_regex`) -/\ndef is_japanese_with_whitelist (input : Str) (allowed : Option Regex) : Bool :=\n  if input.isEmpty then false\n  else input.all fun char =>\n    let is_jap := is_char_japanese char\n    if !is_jap then\n      match allowed with\n      | some allowed => allowed.is_match input\n      | none => true", 'without regex everything is accepted', 'C06', 'is_japanese_with_whitelist')
# kana shift
m('h2k-off', 'Convert.lean', '(char.toNat : Int) + ((KATAKANA_START : Int) - (HIRAGANA_START : Int))', '(char.toNat : Int) + ((KATAKANA_START : Int) - (HIRAGANA_START : Int)) + 1', 'shift off by one', 'C22 C25 C65', 'h2kChar')
m('h2k-dot', 'Convert.lean', 'if is_char_long_dash char || is_char_slash_dot char then .ok char', 'if is_char_slash_dot char then .ok char', 'ー is shifted', 'C22', 'h2kChar')
m('k2h-o', 'Convert.lean', "| 'o' => some 'う'", "| 'o' => some 'お'", 'long o written お', 'C24', 'LONG_VOWELS')
m('k2h-prev', 'Convert.lean', "          next none (hira ++ [input_char])", "          next previous_kana (hira ++ [input_char])", 'previous kana not reset', 'C24 C41', 'k2hLoop')
m('k2h-wi', 'Convert.lean', "| 'ヸ' => 'ゐ'", "| 'ヸ' => 'ゑ'", 'ヸ to ゑ', 'C24', 'k2hChar')
m('k2h-dest', 'Convert.lean', "romaji_opt == some 'o' && is_destination_romaji", "romaji_opt == some 'o'", 'destination ignored', 'C24', 'k2hLoop')
m('k2h-swallow', 'Convert.lean', "            | none => next previous_kana hira", "            | none => next previous_kana (hira ++ [input_char])", 'ー after ン kept', 'C23 C24 C26', 'k2hLoop')
m('k2h-symbol', 'Convert.lean', "'ヶ' == char || 'ヵ' == char", "'ヶ' == char", 'ヵ not kept', 'C23', 'is_kana_as_symbol')
m('k2h-initial', 'Convert.lean', "is_char_long_dash char && index == 0", "is_char_long_dash char && index == 1", 'initial dash test off by one', 'C24', 'is_char_initial_long_dash')
m('k2h-flag', 'Convert.lean', "katakana_to_hiragana_with_opt std input false", "katakana_to_hiragana_with_opt std input true", 'wrong destination flag', 'C24', 'katakana_to_hiragana')
# to_kana
m('tk-copy', 'Convert.lean', "      if result.2 == 0 || result.1.isNone then do", "      if result.2 == 0 then do", 'missing output not checked', '', 'toKanaLoop')
m('tk-order', 'Convert.lean', "  if options.use_obsolete_kana then do\n    let tree ← TO_KANA_NODE_TREE_OBSOLETE\n    .ok (tree.get chars)\n  else if options.imemode then do\n    let tree ← TO_KANA_NODE_TREE_IMEMODE\n    .ok (tree.get chars)", "  if options.imemode then do\n    let tree ← TO_KANA_NODE_TREE_IMEMODE\n    .ok (tree.get chars)\n  else if options.use_obsolete_kana then do\n    let tree ← TO_KANA_NODE_TREE_OBSOLETE\n    .ok (tree.get chars)", 'imemode wins over obsolete', 'C17', 'toKanaLookup')
m('tk-any', 'Convert.lean', "if consumed.all std.isUppercase then do", "if consumed.any std.isUppercase then do", 'katakana if any uppercase', 'C10 C14', 'toKanaLoop')
m('tk-first', 'Convert.lean', "        let consumed ← slice chars curr_pos (curr_pos + result.2)\n        let out ← unwrap result.1", "        let consumed ← slice chars curr_pos (curr_pos + 1)\n        let out ← unwrap result.1", 'only first character decides the script', 'C10 C14', 'toKanaLoop')
m('tk-skip', 'Convert.lean', "(curr_pos + result.2) (ouput ++ kata)", "(curr_pos + 1) (ouput ++ kata)", 'katakana branch advances by one', 'C10 C15 C21 C66', 'toKanaLoop')
m('tk-case', 'KanaNode.lean', "curr_node.find_transition_node (toAsciiLowercase c)", "curr_node.find_transition_node c", 'lookup case sensitive', 'C10 C13 C21', 'KNode.getLoop')
m('tk-ime', 'Trees.lean', "[(' ', .mk [] (some ['ん']))]) none", "[(' ', .mk [] (some ['ん']))]) w.output", 'IME n keeps its output', 'C19 C18', 'imeEdit')
m('tk-ime-space', 'Trees.lean', " ++ [(' ', .mk [] (some ['ん']))]) none", ") none", 'IME: n + space missing', 'C19', 'imeEdit')
m('tk-obs', 'Trees.lean', "[('e', .mk [] (some ['ゑ']))]", "[('e', .mk [] (some ['ゐ']))]", 'we to ゐ', 'C10', 'obsoleteEdit')
m('tk-obs-filter', 'Trees.lean', "(fun x => x.1 != 'i' && x.1 != 'e')", "(fun x => x.1 != 'i')", 'old we kept first', 'C10', 'obsoleteEdit')
m('tk-partial', 'KanaNode.lean', "if r.1.output.isSome then (r.1.output, r.2) else (none, 0)", "(r.1.output, r.2)", 'get returns position without output', '', 'KNode.get')
# to_romaji
m('tr-dest', 'Convert.lean', "let kana ← katakana_to_hiragana_with_opt std orig true", "let kana ← katakana_to_hiragana_with_opt std orig false", 'wrong destination flag', 'C56', 'to_romaji_with_opt')
m('tr-any', 'Convert.lean', "if consumed.all is_char_katakana then options.upcase_katakana else false", "if consumed.any is_char_katakana then options.upcase_katakana else false", 'any katakana uppercases', 'C32 C56', 'toRomajiLoop')
m('tr-kana', 'Convert.lean', "        let consumed ← slice orig_chars curr_pos", "        let consumed ← slice chars curr_pos", 'case decided by converted text', 'C31 C56', 'toRomajiLoop')
m('tr-upper', 'Convert.lean', "if consumed.all is_char_katakana then options.upcase_katakana else false", "consumed.all is_char_katakana", 'option ignored', 'C31', 'toRomajiLoop')
m('tr-lower', 'Convert.lean', "if convert_romaji_to_uppercase then std.toUppercase result.1 else result.1", "result.1", 'never uppercase', 'C31 C56', 'toRomajiLoop')
# to_hiragana, to_katakana
m('th-pass', 'Convert.lean', "  if config.pass_romaji then katakana_to_hiragana std input\n", "  if config.pass_romaji then .ok input\n", 'pass_romaji does nothing', 'C39', 'to_hiragana_with_opt')
m('th-mixed', 'Convert.lean', "    romaji_to_hiragana std romaji config\n", "    .ok romaji\n", 'mixed: romaji not converted', 'C60', 'to_hiragana_with_opt')
m('th-mixed2', 'Convert.lean', "    let romaji ← katakana_to_hiragana std input\n    romaji_to_hiragana std romaji config", "    romaji_to_hiragana std input config", 'mixed: katakana not converted', 'C43 C60 C67', 'to_hiragana_with_opt')
m('th-punct', 'Convert.lean', "  else if is_romaji input || ((input.head?).map is_char_english_punctuation).getD false then", "  else if is_romaji input then", 'leading punctuation not tested', 'C43 C59', 'to_hiragana_with_opt')
m('th-opts', 'Convert.lean', "to_kana_with_opt std (std.toLowercase input) options", "to_kana_with_opt std (std.toLowercase input) {}", 'options dropped', 'C59 C60', 'romaji_to_hiragana')
m('th-lower', 'Convert.lean', "to_kana_with_opt std (std.toLowercase input) options", "to_kana_with_opt std input options", 'no lowercasing', 'C40 C43', 'romaji_to_hiragana')
m('tkt-mixed', 'Convert.lean', "  else if is_romaji input || is_mixed input then do", "  else if is_romaji input then do", 'mixed text not converted', 'C60', 'to_katakana_with_opt')
m('tkt-shift', 'Convert.lean', "    let romaji ← romaji_to_hiragana std input config\n    hiragana_to_katakana romaji", "    romaji_to_hiragana std input config", 'result left in hiragana', 'C40 C42 C59 C60', 'to_katakana_with_opt')
# tokenize
m('tok-space', 'Tokenize.lean', "    if input = ' ' then .Space\n    else if input = '　' then .Space", "    if input = ' ' then .Space", 'ideographic space not Space', 'C47 C49 C68', 'get_type')
m('tok-order', 'Tokenize.lean', "    else if is_char_hiragana input then .Hiragana\n    else if is_char_katakana input then .Katakana", "    else if is_char_katakana input then .Katakana\n    else if is_char_hiragana input then .Hiragana", 'order of kana tests swapped', '', 'get_type')
m('tok-compact', 'Tokenize.lean', "        || is_char_english_punctuation input || is_char_japanese_punctuation input then .Other", "        || is_char_japanese_punctuation input then .Other", 'compact: English punctuation is En', 'C47', 'get_type')
m('tok-last', 'Tokenize.lean', "  | [] => [(k, g)]\n", "  | [] => []\n", 'last group dropped', 'C45 C46 C68', 'groupLoop')
m('tok-key', 'Tokenize.lean', "else (k, g) :: groupLoop key (key c) [c] cs", "else (k, g) :: groupLoop key k [c] cs", 'key not updated', 'C46 C68', 'groupLoop')
m('tok-rev', 'Tokenize.lean', "groupLoop key k (g ++ [c]) cs", "groupLoop key k ([c] ++ g) cs", 'token reversed', 'C45', 'groupLoop')
m('tok-detail', 'Tokenize.lean', "def tokenize (input : Str) : List Str := tokenize_with_opt input false", "def tokenize (input : Str) : List Str := tokenize_with_opt input true", 'tokenize uses compact', 'C45', 'tokenize')
# trim
m('trim-end', 'Trim.lean', "      let t ← unwrap tokens.getLast?\n", "      let t ← unwrap tokens.head?\n", 'end trimming uses first token', 'C52 C61 C62', 'trim_okurigana_with_opt')
m('trim-swap', 'Trim.lean', "      .ok (trim_start_matches input t)", "      .ok (trim_end_matches input t)", 'start trimming trims the end', 'C50 C52 C61 C62', 'trim_okurigana_with_opt')
m('trim-matcher', 'Trim.lean', "  | some match_kanji => match_kanji.all is_char_kanji\n  | none", "  | some match_kanji => !match_kanji.all is_char_kanji\n  | none", 'matcher test inverted', 'C51', 'is_invalid_matcher')
m('trim-jap', 'Trim.lean', "  if !is_japanese input then .ok true", "  if is_japanese input then .ok true", 'guard inverted', 'C51 C52', 'trimGuard')
m('trim-kana', 'Trim.lean', "    let c ← unwrap input.getLast?\n    .ok (!is_char_kana c)", "    let c ← unwrap input.getLast?\n    .ok (is_char_kana c)", 'final kana test inverted', 'C51 C52', 'is_trailing_without_final_kana')
m('trim-tokens', 'Trim.lean', "  | some match_kanji => tokenize match_kanji\n", "  | some match_kanji => [match_kanji]\n", 'matcher not tokenized', 'C61', 'trimTokens')
m('trim-default', 'Trim.lean', "trim_okurigana_with_opt input false none", "trim_okurigana_with_opt input true none", 'default trims the start', 'C61', 'trim_okurigana')
# get_chunk
m('gc-start', 'GetChunk.lean', "let start := (((char_indices text)[start]?).map fun el => el.1).getD 0", "let start := (((char_indices text)[start]?).map fun el => el.1).getD (byteLen text)", 'start past the end gives the end', 'C54', 'get_chunk')
m('gc-bytes', 'GetChunk.lean', "let stop := (((char_indices text)[stop]?).map fun el => el.1).getD (byteLen text)", "let stop := (((char_indices text)[stop]?).map fun el => el.1).getD text.length", 'end in characters', 'C54', 'get_chunk')
m('gc-off', 'GetChunk.lean', "(off, c) :: charIndicesFrom (off + lenUtf8 c) cs", "(off, c) :: charIndicesFrom (off + 1) cs", 'indices not in bytes', 'C54', 'char_indices')
# cli
m('cli-skip', 'Cli.lean', "joinSpace (args.drop 1)", "joinSpace args", 'program name not skipped', 'C55', 'cliMain')
m('cli-nl', 'Cli.lean', ".ok (out ++ ['\\n'])", ".ok out", 'no newline', 'C55', 'cliMain')
m('cli-join', 'Cli.lean', "a ++ [' '] ++ joinSpace (b :: rest)", "a ++ joinSpace (b :: rest)", 'no space between arguments', 'C55', 'joinSpace')
m('cli-fn', 'Cli.lean', "cliMain (to_romaji std)", "cliMain (to_kana std)", 'wrong conversion', 'C55', 'toRomajiMain')
# node trees
m('rn-none', 'RomajiNode.lean', "  .ok (r.1.output, r.2)", "  .ok (r.1.output, r.2 - 1)", 'consumes one less', 'C56', 'RNode.get')
m('sort-rev', 'Std.lean', "if x.1.toNat ≤ y.1.toNat then x :: y :: ys", "if y.1.toNat ≤ x.1.toNat then x :: y :: ys", 'sorted in descending order', 'C56', 'insertByKey')
m('low-z', 'Std.lean', "if 65 ≤ c.toNat ∧ c.toNat ≤ 90 then Char.ofNat (c.toNat + 32) else c", "if 65 ≤ c.toNat ∧ c.toNat < 90 then Char.ofNat (c.toNat + 32) else c", 'Z not lowercased', 'C10 C13 C21', 'toAsciiLowercase')
def m2(id, edits, edit, breaks, defn):
    M.append(dict(id=id, edits=[['Model/' + f, old, new] for f, old, new in edits], edit=edit, breaks=breaks.split(), definition=defn))
m2('tk-unwrap', [('Convert.lean', "      if result.2 == 0 || result.1.isNone then do", "      if result.2 == 0 then do"), ('KanaNode.lean', "if r.1.output.isSome then (r.1.output, r.2) else (none, 0)", "(r.1.output, r.2)")], 'output of an unfinished key is unwrapped', 'C09 C10', 'toKanaLoop, KNode.get')
# traits
m('trait-hira', 'Traits.lean', "WanaKana.to_hiragana std self", "WanaKana.to_katakana std self", 'method to_hiragana calls to_katakana', 'C63', 'ConvertJapanese.to_hiragana')
m('trait-opt', 'Traits.lean', "  WanaKana.to_kana_with_opt std self options", "  WanaKana.to_kana_with_opt std self {}", 'method to_kana_with_opt drops the options', 'C63', 'ConvertJapanese.to_kana_with_opt')
m('trait-opt2', 'Traits.lean', "  WanaKana.to_romaji_with_opt std self options", "  WanaKana.to_romaji std self", 'method to_romaji_with_opt drops the options', 'C63', 'ConvertJapanese.to_romaji_with_opt')
m('trait-opt3', 'Traits.lean', "  WanaKana.to_katakana_with_opt std self options", "  WanaKana.to_katakana std self", 'method to_katakana_with_opt drops the options', 'C63', 'ConvertJapanese.to_katakana_with_opt')
m('trait-kana', 'Traits.lean', "Bool := WanaKana.is_kana self", "Bool := WanaKana.is_hiragana self", 'method is_kana tests hiragana', 'C63', 'IsJapaneseStr.is_kana')
m('trait-wl', 'Traits.lean', "  WanaKana.is_romaji_with_whitelist self allowed", "  WanaKana.is_japanese_with_whitelist self allowed", 'romaji whitelist tests Japanese', 'C63', 'IsJapaneseStr.is_romaji_with_whitelist')
m('trait-mixed', 'Traits.lean', "  WanaKana.is_mixed_pass_kanji self pass_kanji", "  WanaKana.is_mixed_pass_kanji self (!pass_kanji)", 'flag of is_mixed_pass_kanji inverted', 'C63', 'IsJapaneseStr.is_mixed_pass_kanji')
m('trait-char', 'Traits.lean', "Bool := is_char_japanese_number self", "Bool := is_char_latin_number self", 'char method is_japanese_number tests Latin digits', 'C63', 'IsJapaneseChar.is_japanese_number')
# tree data
m('tree-chu', 'KanaTreeData.lean', "(some ['け'])), ('h', .mk [('a',\n    .mk [] (some ['ち', 'ゃ']))", "(some ['け'])), ('h', .mk [('a',\n    .mk [] (some ['ち', 'や']))", 'cha gives ちや', 'C10', 'tree data, root c')
m('tree-comma', 'KanaTreeData.lean', "(',', .mk [] (some ['、']))", "(',', .mk [] (some ['，']))", 'comma becomes the full width comma', 'C10', 'tree data, root ,')
m('tree-dash', 'KanaTreeData.lean', "('-', .mk [] (some ['ー']))", "('-', .mk [] none)", 'dash not converted', 'C10', 'tree data, root -')
m('tree-latin', 'KanaTreeData.lean', "('!', .mk [] (some ['！']))", "('!', .mk [] (some ['!']))", 'exclamation mark stays ASCII', 'C10', 'tree data, root !')
m('tree-extra', 'KanaTreeData.lean', "(':', .mk [] (some ['：']))", "(':', .mk [(':', .mk [] (some ['：']))] (some ['：']))", ':: collapses to one mark', 'C10 C12', 'tree data, root :')
m('rtree-a', 'RomajiTreeData.lean', "romajiRoot009 : Char × RNode :=\n  ('ぁ', .mk none ['a'])", "romajiRoot009 : Char × RNode :=\n  ('ぁ', .mk none ['x', 'a'])", 'small a gives xa', 'C56', 'romaji tree data, root ぁ')
m('rtree-comma', 'RomajiTreeData.lean', "romajiRoot002 : Char × RNode :=\n  ('、', .mk none [','])", "romajiRoot002 : Char × RNode :=\n  ('、', .mk none [';'])", 'comma becomes a semicolon', 'C56', 'romaji tree data, root 、')
m('rtree-space', 'RomajiTreeData.lean', "romajiRoot001 : Char × RNode :=\n  ('\\u3000', .mk none [' '])", "romajiRoot001 : Char × RNode :=\n  ('\\u3000', .mk none [])", 'ideographic space deleted', 'C56', 'romaji tree data, root U+3000')
# generators
m('up-skip', 'Upstream.lean', "    if k = [] then kanaGetLoop rest\n    else do\n      let t ← kanaGet v", "    if k = [] then .ok []\n    else do\n      let t ← kanaGet v", 'kana generator stops at the result entry instead of skipping it', 'C70 C72', 'kanaGetLoop')
m('up-parent', 'Upstream.lean', "      .ok ((char, .mk t output) :: transitions)\nend\n\n/-- `if transitions", "      .ok ((char, .mk t (some k)) :: transitions)\nend\n\n/-- `if transitions", 'kana generator stores the key instead of the result', 'C70 C72', 'kanaGetLoop')
m('up-last', 'Upstream.lean', "      let output ← romajiOutput v\n      let char ← unwrap k.head?", "      let output ← romajiOutput v\n      let char ← unwrap k.getLast?", 'romaji generator takes the last letter of a key', 'C71 C73', 'romajiGetLoop')
m('up-empty', 'Upstream.lean', "  | [] => none\n  | a :: l => some (a :: l)", "  | [] => some []\n  | a :: l => some (a :: l)", 'leaves get an empty list of transitions', 'C73', 'noneIfEmpty')
m('up-insert', 'Upstream.lean', "    if k = k' then (k', v) :: rest\n", "    if k = k' then (k', v') :: rest\n", 'insert keeps the old value', 'C70', 'mapInsert')
m('up-order', 'Upstream.lean', "    else if strLt k k' then (k, v) :: (k', v') :: rest", "    else if strLt k' k then (k, v) :: (k', v') :: rest", 'map in descending order', 'C70', 'mapInsert')
m('up-strlt', 'Upstream.lean', "decide (a.toNat < b.toNat) || (a == b && strLt as bs)", "decide (a.toNat ≤ b.toNat) || (a == b && strLt as bs)", 'order of keys compares only first letters', 'C70', 'strLt')
m('up-optional', 'Upstream.lean', "  | none => .ok none\n\n/-- `v.as_object().unwrap().get(\"\").unwrap()", "  | none => .error .panic\n\n/-- `v.as_object().unwrap().get(\"\").unwrap()", 'kana generator requires a result everywhere', 'C70 C72', 'kanaOutput')
m('up-data', 'UpstreamKanaData.lean', ".str ['き', 'ゃ']", ".str ['き', 'や']", 'kya is きや in the table', 'C72', 'kanaVal')
m('sort-unstable', 'Std.lean', "if x.1.toNat ≤ y.1.toNat then x :: y :: ys", "if x.1.toNat < y.1.toNat then x :: y :: ys", 'sort not stable', 'C69', 'insertByKey')
m('sort-shallow', 'KanaNode.lean', "(c, sort n) :: sortChildren rest", "(c, n) :: sortChildren rest", 'only the root is sorted', 'C69', 'KNode.sort')
m('sort-drop', 'RomajiNode.lean', "mk (some (sortByKey (sortChildren t))) o", "mk (some ((sortByKey (sortChildren t)).drop 1)) o", 'sort loses the first transition', 'C69', 'RNode.sort')
# C74 to C80, table data
m('kt-xn', 'KanaTreeData.lean', "('n',\n    .mk [] (some ['ん'])), ('o', .mk [] (some ['ぉ'])), ('t'", "('o', .mk [] (some ['ぉ'])), ('t'", 'key xn missing', 'C10 C72 C79', 'tree data, root x')
m('kt-o', 'KanaTreeData.lean', "  ('o', .mk [] (some ['お']))\n", "  ('o', .mk [] none)\n", 'o not converted', 'C10 C72 C78 C79 C80', 'tree data, root o')
m('kt-ny', 'KanaTreeData.lean', "(some ['に',\n    'ゅ']))] none)] (some ['ん']))", "(some ['に',\n    'ゅ']))] (some ['ん', 'い']))] (some ['ん']))", 'ny alone converted to んい', 'C10 C72', 'tree data, root n')
m('kt-nn', 'KanaTreeData.lean', "('i', .mk [] (some ['に'])), ('o', .mk [] (some ['の']))", "('i', .mk [] (some ['に'])), ('n', .mk [] (some ['ん'])), ('o', .mk [] (some ['の']))", 'nn is one ん without IME mode', 'C10 C72 C77', 'tree data, root n')
m('kt-ai', 'KanaTreeData.lean', "  ('a', .mk [] (some ['あ']))\n", "  ('a', .mk [('i', .mk [] (some ['あ', 'い']))] (some ['あ']))\n", 'ai read as one key', 'C72 C77', 'tree data, root a')
m('kt-naked', 'KanaTreeData.lean', "(some ['に',\n    'ゅ']))] none)] (some ['ん']))", "(some ['に',\n    'ゅ']))] none)] none)", 'single n not converted without IME mode', 'C10 C72 C78', 'tree data, root n')
m('rt-ou', 'RomajiTreeData.lean', "  ('お', .mk none ['o'])\n", "  ('お', .mk (some [('う', .mk none ['ō'])]) ['o'])\n", 'おう is ō', 'C36 C56 C74 C75', 'romaji tree data, root お')
m('rt-na', 'RomajiTreeData.lean', "  ('ん', .mk (some [('あ', .mk none ['n', '\\'', 'a'])", "  ('ん', .mk (some [('あ', .mk none ['n', 'a'])", 'んあ without apostrophe', 'C36 C56 C58 C76', 'romaji tree data, root ん')
m('rt-wo', 'RomajiTreeData.lean', "  ('を', .mk none ['w', 'o'])", "  ('を', .mk none ['o'])", 'を is o', 'C36 C56 C75', 'romaji tree data, root を')
m('rt-tsu', 'RomajiTreeData.lean', "('｝', .mk none ['}'])]) [])", "('｝', .mk none ['}'])]) ['x', 't', 's', 'u'])", 'a lone っ is xtsu', 'C56', 'romaji tree data, root っ')
m('rt-tsu-a', 'RomajiTreeData.lean', "('〜', .mk none ['~']), ('ぁ', .mk none ['a']), ('あ', .mk none ['a']), ('ぃ', .mk none ['i']),\n    ('い', .mk none ['i']), ('ぅ', .mk none ['u']), ('う', .mk none ['u']), ('ぇ', .mk none ['e'])", "('〜', .mk none ['~']), ('ぁ', .mk none ['a']), ('あ', .mk none ['a', 'a']), ('ぃ', .mk none ['i']),\n    ('い', .mk none ['i']), ('ぅ', .mk none ['u']), ('う', .mk none ['u']), ('ぇ', .mk none ['e'])", 'っ doubles a vowel', 'C56', 'romaji tree data, root っ')
vu = "'ゔ', .mk (some [('ぃ', .mk none ['v', 'y', 'i']), ('ぇ', .mk none ['v', 'y', 'e']), ('ゃ',\n    .mk none ['v', 'y', 'a']), ('ゅ', .mk none ['v', 'y', 'u']), ('ょ', .mk none ['v', 'y',\n    'o'])]) ['v', 'u'])"
m2('rt-vu', [('RomajiTreeData.lean', "  ('ゔ', .mk none ['v', '%s'])\n" % v, "  (" + vu + "\n") for v in 'aieo'], 'the five ゔ rows agree', 'C33 C73', 'romaji tree data, roots ゔ')
# case mappings
m('low-sigma', 'Std.lean', "if std.finalSigma pre cs then ['ς'] else ['σ']", "if std.finalSigma pre cs then ['σ'] else ['ς']", 'final sigma inverted', '', 'Std.lowerFrom')
m('low-drop', 'Std.lean', "++ std.lowerFrom (pre ++ [c]) cs", "++ (if c = 'Σ' then [] else std.lowerFrom (pre ++ [c]) cs)", 'text after Σ is lost', 'C40 C43', 'Std.lowerFrom')
m('up-drop', 'Std.lean', "s.flatMap std.upperChar", "(s.take 2).flatMap std.upperChar", 'only two characters are uppercased', 'C31 C56', 'Std.toUppercase')
m('uni-range', 'StdUnicode.lean', "Nat.ble x.1 n && Nat.ble n x.2 ||", "Nat.ble x.1 n && Nat.blt n x.2 ||", 'Unicode ranges exclude their last code point', '', 'uniIn')
M[-1]['note'] = 'none of the properties: rustStd_lawful'
# C81 to C97
m('rt-n4', 'RomajiTreeData.lean', ".mk none ['n', '\\'', 'y', 'o'])]) ['n'])", ".mk none ['n', '\\'', 'y', 'o'])]) ['n', 'n', 'n', 'n'])", 'ん is nnnn', 'C56 C82 C92', 'romaji tree data, root ん')
m('kt-apos', 'KanaTreeData.lean', "  ('k', .mk [('a', .mk [] (some ['か']))", "  ('k', .mk [('\\'', .mk [] (some ['っ'])), ('a', .mk [] (some ['か']))", "key k' added", 'C10 C72 C90 C95 C96', 'tree data, root k')
m('ime-dash', 'Trees.lean', "[(' ', .mk [] (some ['ん']))]) none", "[(' ', .mk [] (some ['ん']))] ++ [('-', .mk [] (some ['ん']))]) none", 'n- is ん in IME mode', 'C19 C95 C96 C97', 'imeEdit')
m('ime-keep', 'Trees.lean', "[(' ', .mk [] (some ['ん']))]) none", "[(' ', .mk [] (some ['ん']))]) (some ['ん'])", 'a pending n is converted in IME mode', 'C19 C95', 'imeEdit')
m('ime-space2', 'Trees.lean', "[(' ', .mk [] (some ['ん']))]) none", "[(' ', .mk [] (some ['ん', ' ']))]) none", 'the space after n is kept in IME mode', 'C19', 'imeEdit')
m('ime-nn', 'Trees.lean', "[('n', .mk [] (some ['ん']))]", "[('n', .mk [] (some ['ん', 'ん']))]", 'nn is two ん in IME mode', 'C19', 'imeEdit')
m('obs-swap', 'Trees.lean', "[('i', .mk [] (some ['ゐ']))] ++ [('e', .mk [] (some ['ゑ']))]", "[('e', .mk [] (some ['ゐ']))] ++ [('i', .mk [] (some ['ゑ']))]", 'wi and we exchanged', 'C10', 'obsoleteEdit')
m('obs-only', 'Trees.lean', "(w.transitions.filter (fun x => x.1 != 'i' && x.1 != 'e')", "(w.transitions.filter (fun x => x.1 != 'i')", 'the old row we is kept', 'C10 C80', 'obsoleteEdit')
m('obs-all', 'Trees.lean', "(w.transitions.filter (fun x => x.1 != 'i' && x.1 != 'e')", "(w.transitions.filter (fun x => x.1 == 'a')", 'wo is lost with obsolete kana', 'C10 C17 C80', 'obsoleteEdit')
m('th-anypunct', 'Convert.lean', "((input.head?).map is_char_english_punctuation).getD false", "input.any is_char_english_punctuation", 'to_hiragana tests for any English punctuation', 'C59 C88 C95', 'to_hiragana_with_opt')
m('rt-di', 'RomajiTreeData.lean', "  ('ぢ', .mk (some [('ぃ', .mk none ['j', 'y', 'i']), ('ぇ', .mk none ['j', 'e']), ('ゃ',\n    .mk none ['j', 'a']), ('ゅ', .mk none ['j', 'u']), ('ょ', .mk none ['j', 'o'])]) ['j', 'i'])", "  ('ぢ', .mk (some [('ぃ', .mk none ['j', 'y', 'i']), ('ぇ', .mk none ['j', 'e']), ('ゃ',\n    .mk none ['j', 'a']), ('ゅ', .mk none ['j', 'u']), ('ょ', .mk none ['j', 'o'])]) ['d', 'i'])", 'ぢ is di', 'C56 C73 C82', 'romaji tree data, root ぢ')
m('gt-janum', 'Tokenize.lean', "    else if is_char_japanese_number input || is_char_latin_number input\n", "    else if is_char_latin_number input\n", 'compact mode reports Japanese digits as Ja', 'C47', 'get_type')
m('gt-space', 'Tokenize.lean', "    if input = ' ' then .En\n    else if input = '　' then .Ja\n", "    if input = ' ' then .En\n    else if input = '　' then .En\n", 'compact mode: ideographic space is En', 'C47 C68', 'get_type')
m('r2h-ascii', 'Convert.lean', "to_kana_with_opt std (std.toLowercase input) options", "to_kana_with_opt std (input.map toAsciiLowercase) options", 'romaji_to_hiragana lowercases ASCII only', 'C59 C95', 'romaji_to_hiragana')
m('r2h-opt', 'Convert.lean', "to_kana_with_opt std (std.toLowercase input) options", "to_kana_with_opt std (std.toLowercase input) {}", 'romaji_to_hiragana drops the options', 'C59', 'romaji_to_hiragana')
m('kt-ji', 'KanaTreeData.lean', "('k', .mk [('a', .mk [] (some ['か'])), ('e', .mk [] (some ['け'])), ('i', .mk [] (some ['き']))", "('k', .mk [('a', .mk [] (some ['か'])), ('e', .mk [] (some ['け'])), ('i', .mk [] (some ['ぎ']))", 'ki is ぎ', 'C10 C72 C82', 'tree data, root k')
m('kt-long', 'KanaTreeData.lean', "(some ['っ', 'く', 'ぁ']))] none), ('y', .mk [('a', .mk [] (some ['っ',\n    'き', 'ゃ']))", "(some ['っ', 'く', 'ぁ']))] none), ('y', .mk [('a', .mk [] (some ['っ',\n    'き', 'ゃ', 'っ', 'き', 'ゃ']))", 'kkya gives its kana twice', 'C10 C72 C79', 'tree data, root k')
m('k2h-wa', 'Convert.lean', "  | 'ヷ' => 'わ'\n", "  | 'ヷ' => 'ヷ'\n", 'ヷ stays katakana', 'C23 C95', 'k2hChar')
m('k2h-wo', 'Convert.lean', "  | 'ヺ' => 'を'\n", "", 'ヺ has no hiragana of its own', 'C23', 'k2hChar')
m('tk-all', 'Convert.lean', "if consumed.all std.isUppercase then do", "if consumed.any std.isUppercase then do", 'one capital is enough for katakana', 'C13 C79', 'toKanaLoop')
for i in '23456':
    M += json.load(open(os.path.dirname(os.path.abspath(__file__)) + '/mutants%s.json' % i, encoding='utf8'))
M = list({x['id']: x for x in M}.values())
if __name__ == '__main__': print(json.dumps(M, ensure_ascii=False, indent=1))
