[
 {
  "id": "vowel-default",
  "edits": [
   [
    "Model/CharPreds.lean",
    "is_char_vowel_opt c true",
    "is_char_vowel_opt c false"
   ]
  ],
  "edit": "y is no vowel by default",
  "breaks": [
   "C07"
  ],
  "definition": "is_char_vowel"
 },
 {
  "id": "range-open",
  "edits": [
   [
    "Model/CharPreds.lean",
    "decide (start ≤ c.toNat) && decide (c.toNat ≤ stop)",
    "decide (start ≤ c.toNat) && decide (c.toNat < stop)"
   ]
  ],
  "edit": "the upper bound of a range is left out",
  "breaks": [
   "C01",
   "C64"
  ],
  "definition": "is_char_in_range"
 },
 {
  "id": "vowel-e",
  "edits": [
   [
    "Model/CharPreds.lean",
    "| 'a' | 'e' | 'i' | 'o' | 'u' => true",
    "| 'a' | 'i' | 'o' | 'u' => true"
   ]
  ],
  "edit": "e is forgotten among the vowels",
  "breaks": [
   "C07",
   "C64"
  ],
  "definition": "is_char_vowel_opt"
 },
 {
  "id": "len-utf8-80",
  "edits": [
   [
    "Model/GetChunk.lean",
    "if c.toNat < 0x80 then 1",
    "if c.toNat ≤ 0x80 then 1"
   ]
  ],
  "edit": "U+0080 counted as one byte",
  "breaks": [
   "C100"
  ],
  "definition": "lenUtf8"
 },
 {
  "id": "k2h-cost",
  "edits": [
   [
    "Model/Cost.lean",
    "let steps := steps + 2 + (i + 1)",
    "let steps := steps + 2"
   ]
  ],
  "edit": "the lookup of the previous character is free of charge",
  "breaks": [
   "C86"
  ],
  "definition": "k2hLoopC"
 },
 {
  "id": "json-kana",
  "edits": [
   [
    "Model/KanaJsonText.lean",
    "  , \"      \\\"i\\\": {\"\n  , \"        \\\"\\\": \\\"い\\\"\"",
    "  , \"      \\\"i\\\": {\"\n  , \"        \\\"\\\": \\\"ぃ\\\"\""
   ]
  ],
  "edit": "a row of the source file is misread",
  "breaks": [
   "C120"
  ],
  "definition": "kanaJson0"
 },
 {
  "id": "json-romaji",
  "edits": [
   [
    "Model/RomajiJsonText.lean",
    "  , \"      \\\"い\\\": {\"\n  , \"        \\\"\\\": \\\"i\\\"\"",
    "  , \"      \\\"い\\\": {\"\n  , \"        \\\"\\\": \\\"j\\\"\""
   ]
  ],
  "edit": "a row of the source file is misread",
  "breaks": [
   "C120"
  ],
  "definition": "romajiJson0"
 },
 {
  "id": "k2h-prev",
  "edits": [
   [
    "Model/Convert.lean",
    "        else\n          next none (hira ++ [input_char])",
    "        else\n          next previous_kana (hira ++ [input_char])"
   ]
  ],
  "edit": "a character that is not katakana does not end the prolongation",
  "breaks": [
   "C24"
  ],
  "definition": "k2hLoop"
 },
 {
  "id": "k2h-lost",
  "edits": [
   [
    "Model/Convert.lean",
    "            | none => next previous_kana hira",
    "            | none => next previous_kana (hira ++ [input_char])"
   ]
  ],
  "edit": "a mark that prolongs no vowel is kept",
  "breaks": [
   "C24"
  ],
  "definition": "k2hLoop"
 },
 {
  "id": "obs-first",
  "edits": [
   [
    "Model/Convert.lean",
    "  if options.use_obsolete_kana then do\n    let tree ← TO_KANA_NODE_TREE_OBSOLETE\n    .ok (tree.get chars)\n  else if options.imemode then do\n    let tree ← TO_KANA_NODE_TREE_IMEMODE\n    .ok (tree.get chars)",
    "  if options.imemode then do\n    let tree ← TO_KANA_NODE_TREE_IMEMODE\n    .ok (tree.get chars)\n  else if options.use_obsolete_kana then do\n    let tree ← TO_KANA_NODE_TREE_OBSOLETE\n    .ok (tree.get chars)"
   ]
  ],
  "edit": "IME mode goes before obsolete kana",
  "breaks": [
   "C10",
   "C19"
  ],
  "definition": "toKanaLookup"
 },
 {
  "id": "tok-last",
  "edits": [
   [
    "Model/Tokenize.lean",
    "  | [] => [(k, g)]\n",
    "  | [] => []\n"
   ]
  ],
  "edit": "last group dropped",
  "breaks": [
   "C45",
   "C46",
   "C68"
  ],
  "definition": "groupLoop"
 },
 {
  "id": "tok-rev",
  "edits": [
   [
    "Model/Tokenize.lean",
    "groupLoop key k (g ++ [c]) cs",
    "groupLoop key k ([c] ++ g) cs"
   ]
  ],
  "edit": "token reversed",
  "breaks": [
   "C45"
  ],
  "definition": "groupLoop"
 },
 {
  "id": "tok-detail",
  "edits": [
   [
    "Model/Tokenize.lean",
    "def tokenize (input : Str) : List Str := tokenize_with_opt input false",
    "def tokenize (input : Str) : List Str := tokenize_with_opt input true"
   ]
  ],
  "edit": "tokenize uses compact",
  "breaks": [
   "C45"
  ],
  "definition": "tokenize"
 },
 {
  "id": "tok-key",
  "edits": [
   [
    "Model/Tokenize.lean",
    "else (k, g) :: groupLoop key (key c) [c] cs",
    "else (k, g) :: groupLoop key k [c] cs"
   ]
  ],
  "edit": "key not updated",
  "breaks": [
   "C46",
   "C68"
  ],
  "definition": "groupLoop"
 },
 {
  "id": "tok-space",
  "edits": [
   [
    "Model/Tokenize.lean",
    "    if input = ' ' then .Space\n    else if input = '　' then .Space",
    "    if input = ' ' then .Space"
   ]
  ],
  "edit": "ideographic space not Space",
  "breaks": [
   "C47",
   "C49",
   "C68"
  ],
  "definition": "get_type"
 },
 {
  "id": "tok-order",
  "edits": [
   [
    "Model/Tokenize.lean",
    "    else if is_char_hiragana input then .Hiragana\n    else if is_char_katakana input then .Katakana",
    "    else if is_char_katakana input then .Katakana\n    else if is_char_hiragana input then .Hiragana"
   ]
  ],
  "edit": "order of kana tests swapped",
  "breaks": [],
  "definition": "get_type"
 },
 {
  "id": "tok-compact",
  "edits": [
   [
    "Model/Tokenize.lean",
    "        || is_char_english_punctuation input || is_char_japanese_punctuation input then .Other",
    "        || is_char_japanese_punctuation input then .Other"
   ]
  ],
  "edit": "compact: English punctuation is En",
  "breaks": [
   "C47"
  ],
  "definition": "get_type"
 },
 {
  "id": "trim-matcher",
  "edits": [
   [
    "Model/Trim.lean",
    "  | some match_kanji => match_kanji.all is_char_kanji\n  | none",
    "  | some match_kanji => !match_kanji.all is_char_kanji\n  | none"
   ]
  ],
  "edit": "matcher test inverted",
  "breaks": [
   "C51"
  ],
  "definition": "is_invalid_matcher"
 },
 {
  "id": "trim-kana",
  "edits": [
   [
    "Model/Trim.lean",
    "    let c ← unwrap input.getLast?\n    .ok (!is_char_kana c)",
    "    let c ← unwrap input.getLast?\n    .ok (is_char_kana c)"
   ]
  ],
  "edit": "final kana test inverted",
  "breaks": [
   "C51",
   "C52"
  ],
  "definition": "is_trailing_without_final_kana"
 },
 {
  "id": "ime-nn",
  "edits": [
   [
    "Model/Trees.lean",
    "[('n', .mk [] (some ['ん']))]",
    "[('n', .mk [] (some ['ん', 'ん']))]"
   ]
  ],
  "edit": "nn is two ん in IME mode",
  "breaks": [
   "C19"
  ],
  "definition": "imeEdit"
 },
 {
  "id": "tk-ime",
  "edits": [
   [
    "Model/Trees.lean",
    "[(' ', .mk [] (some ['ん']))]) none",
    "[(' ', .mk [] (some ['ん']))]) w.output"
   ]
  ],
  "edit": "IME n keeps its output",
  "breaks": [
   "C19",
   "C18"
  ],
  "definition": "imeEdit"
 },
 {
  "id": "th-lower",
  "edits": [
   [
    "Model/Convert.lean",
    "to_kana_with_opt std (std.toLowercase input) options",
    "to_kana_with_opt std input options"
   ]
  ],
  "edit": "no lowercasing",
  "breaks": [
   "C40",
   "C43"
  ],
  "definition": "romaji_to_hiragana"
 },
 {
  "id": "th-pass",
  "edits": [
   [
    "Model/Convert.lean",
    "  if config.pass_romaji then katakana_to_hiragana std input\n",
    "  if config.pass_romaji then .ok input\n"
   ]
  ],
  "edit": "pass_romaji does nothing",
  "breaks": [
   "C39"
  ],
  "definition": "to_hiragana_with_opt"
 },
 {
  "id": "tkt-mixed",
  "edits": [
   [
    "Model/Convert.lean",
    "  else if is_romaji input || is_mixed input then do",
    "  else if is_romaji input then do"
   ]
  ],
  "edit": "mixed text not converted",
  "breaks": [
   "C60"
  ],
  "definition": "to_katakana_with_opt"
 },
 {
  "id": "tr-dest",
  "edits": [
   [
    "Model/Convert.lean",
    "let kana ← katakana_to_hiragana_with_opt std orig true",
    "let kana ← katakana_to_hiragana_with_opt std orig false"
   ]
  ],
  "edit": "wrong destination flag",
  "breaks": [
   "C56"
  ],
  "definition": "to_romaji_with_opt"
 },
 {
  "id": "k2h-wa",
  "edits": [
   [
    "Model/Convert.lean",
    "  | 'ヷ' => 'わ'\n",
    "  | 'ヷ' => 'ヷ'\n"
   ]
  ],
  "edit": "ヷ stays katakana",
  "breaks": [
   "C23",
   "C95"
  ],
  "definition": "k2hChar"
 },
 {
  "id": "kt-nn",
  "edits": [
   [
    "Model/KanaTreeData.lean",
    "('i', .mk [] (some ['に'])), ('o', .mk [] (some ['の']))",
    "('i', .mk [] (some ['に'])), ('n', .mk [] (some ['ん'])), ('o', .mk [] (some ['の']))"
   ]
  ],
  "edit": "nn is one ん without IME mode",
  "breaks": [
   "C10",
   "C72",
   "C77"
  ],
  "definition": "tree data, root n"
 },
 {
  "id": "rt-na",
  "edits": [
   [
    "Model/RomajiTreeData.lean",
    "  ('ん', .mk (some [('あ', .mk none ['n', '\\'', 'a'])",
    "  ('ん', .mk (some [('あ', .mk none ['n', 'a'])"
   ]
  ],
  "edit": "んあ without apostrophe",
  "breaks": [
   "C36",
   "C56",
   "C58",
   "C76"
  ],
  "definition": "romaji tree data, root ん"
 },
 {
  "id": "tk-case",
  "edits": [
   [
    "Model/KanaNode.lean",
    "curr_node.find_transition_node (toAsciiLowercase c)",
    "curr_node.find_transition_node c"
   ]
  ],
  "edit": "lookup case sensitive",
  "breaks": [
   "C10",
   "C13",
   "C21"
  ],
  "definition": "KNode.getLoop"
 },
 {
  "id": "th-mixed",
  "edits": [
   [
    "Model/Convert.lean",
    "    romaji_to_hiragana std romaji config\n",
    "    .ok romaji\n"
   ]
  ],
  "edit": "mixed: romaji not converted",
  "breaks": [
   "C60"
  ],
  "definition": "to_hiragana_with_opt"
 },
 {
  "id": "th-mixed2",
  "edits": [
   [
    "Model/Convert.lean",
    "    let romaji ← katakana_to_hiragana std input\n    romaji_to_hiragana std romaji config",
    "    romaji_to_hiragana std input config"
   ]
  ],
  "edit": "mixed: katakana not converted",
  "breaks": [
   "C43",
   "C60",
   "C67"
  ],
  "definition": "to_hiragana_with_opt"
 },
 {
  "id": "tr-any",
  "edits": [
   [
    "Model/Convert.lean",
    "if consumed.all is_char_katakana then options.upcase_katakana else false",
    "if consumed.any is_char_katakana then options.upcase_katakana else false"
   ]
  ],
  "edit": "any katakana uppercases",
  "breaks": [
   "C32",
   "C56"
  ],
  "definition": "toRomajiLoop"
 },
 {
  "id": "tr-upper",
  "edits": [
   [
    "Model/Convert.lean",
    "if consumed.all is_char_katakana then options.upcase_katakana else false",
    "consumed.all is_char_katakana"
   ]
  ],
  "edit": "option ignored",
  "breaks": [
   "C31"
  ],
  "definition": "toRomajiLoop"
 },
 {
  "id": "tkt-shift",
  "edits": [
   [
    "Model/Convert.lean",
    "    let romaji ← romaji_to_hiragana std input config\n    hiragana_to_katakana romaji",
    "    romaji_to_hiragana std input config"
   ]
  ],
  "edit": "result left in hiragana",
  "breaks": [
   "C40",
   "C42",
   "C59",
   "C60"
  ],
  "definition": "to_katakana_with_opt"
 },
 {
  "id": "low-drop",
  "edits": [
   [
    "Model/Std.lean",
    "++ std.lowerFrom (pre ++ [c]) cs",
    "++ (if c = 'Σ' then [] else std.lowerFrom (pre ++ [c]) cs)"
   ]
  ],
  "edit": "text after Σ is lost",
  "breaks": [
   "C40",
   "C43"
  ],
  "definition": "Std.lowerFrom"
 },
 {
  "id": "rt-ou",
  "edits": [
   [
    "Model/RomajiTreeData.lean",
    "  ('お', .mk none ['o'])\n",
    "  ('お', .mk (some [('う', .mk none ['ō'])]) ['o'])\n"
   ]
  ],
  "edit": "おう is ō",
  "breaks": [
   "C36",
   "C56",
   "C74",
   "C75"
  ],
  "definition": "romaji tree data, root お"
 },
 {
  "id": "obs-all",
  "edits": [
   [
    "Model/Trees.lean",
    "(w.transitions.filter (fun x => x.1 != 'i' && x.1 != 'e')",
    "(w.transitions.filter (fun x => x.1 == 'a')"
   ]
  ],
  "edit": "wo is lost with obsolete kana",
  "breaks": [
   "C10",
   "C17",
   "C80"
  ],
  "definition": "obsoleteEdit"
 }
]