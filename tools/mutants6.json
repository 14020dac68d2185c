[
 {
  "id": "fs-any",
  "edits": [
   [
    "Model/StdUnicode.lean",
    "finalSigma pre post := ignorableThenCased pre.reverse &&",
    "finalSigma pre post := pre.any (fun c => uniIn c.toNat casedRanges) &&"
   ]
  ],
  "edit": "any cased letter earlier in the text, not only in the same word, makes a sigma final",
  "breaks": [
   "C114",
   "C138"
  ],
  "definition": "unicodeStd"
 },
 {
  "id": "fs-kana",
  "edits": [
   [
    "Model/StdUnicode.lean",
    "| c :: _ => uniIn c.toNat casedRanges",
    "| c :: _ => uniIn c.toNat casedRanges || (decide (0x30A1 ≤ c.toNat) && decide (c.toNat ≤ 0x30F6))"
   ]
  ],
  "edit": "katakana count as cased letters",
  "breaks": [
   "C138"
  ],
  "definition": "ignorableThenCased"
 },
 {
  "id": "i-dot",
  "edits": [
   [
    "Model/UnicodeData.lean",
    "(0x130, [0x69, 0x307])",
    "(0x130, [0x69])"
   ]
  ],
  "edit": "the simple lower case of U+0130 instead of the full one",
  "breaks": [
   "C93"
  ],
  "definition": "lowerTable0"
 },
 {
  "id": "tk-pass",
  "edits": [
   [
    "Model/Convert.lean",
    "  toKanaLoop std options input input.length (input.length + 1) 0 []",
    "  if options.pass_romaji then .ok input else toKanaLoop std options input input.length (input.length + 1) 0 []"
   ]
  ],
  "edit": "to_kana with pass_romaji leaves the text alone",
  "breaks": [
   "C17"
  ],
  "definition": "to_kana_with_opt"
 },
 {
  "id": "th-nolower",
  "edits": [
   [
    "Model/Convert.lean",
    "    let romaji ← katakana_to_hiragana std input\n    romaji_to_hiragana std romaji config",
    "    let romaji ← katakana_to_hiragana std (std.toLowercase input)\n    to_kana_with_opt std romaji config"
   ]
  ],
  "edit": "to_hiragana lower-cases a mixed text before its katakana are converted, not after",
  "breaks": [],
  "definition": "to_hiragana_with_opt"
 },
 {
  "id": "th-sigma",
  "edits": [
   [
    "Model/Convert.lean",
    "  to_kana_with_opt std (std.toLowercase input) options",
    "  to_kana_with_opt std (input.flatMap std.lowerChar) options"
   ]
  ],
  "edit": "lower-casing character by character, so that a final sigma is not noticed",
  "breaks": [
   "C137"
  ],
  "definition": "romaji_to_hiragana"
 },
 {
  "id": "th-punct-last",
  "edits": [
   [
    "Model/Convert.lean",
    "((input.head?).map is_char_english_punctuation)",
    "((input.getLast?).map is_char_english_punctuation)"
   ]
  ],
  "edit": "to_hiragana looks at the last character for English punctuation",
  "breaks": [
   "C139",
   "C140"
  ],
  "definition": "to_hiragana_with_opt"
 },
 {
  "id": "th-punct-any",
  "edits": [
   [
    "Model/Convert.lean",
    "((input.head?).map is_char_english_punctuation).getD false",
    "input.any is_char_english_punctuation"
   ]
  ],
  "edit": "to_hiragana looks for English punctuation anywhere in the text",
  "breaks": [
   "C139"
  ],
  "definition": "to_hiragana_with_opt"
 },
 {
  "id": "tkt-punct",
  "edits": [
   [
    "Model/Convert.lean",
    "  else if is_romaji input || is_mixed input then do\n    let romaji ← romaji_to_hiragana",
    "  else if is_romaji input || is_mixed input || ((input.head?).map is_char_english_punctuation).getD false then do\n    let romaji ← romaji_to_hiragana"
   ]
  ],
  "edit": "to_katakana treats texts beginning with English punctuation as romaji, as to_hiragana does",
  "breaks": [
   "C140"
  ],
  "definition": "to_katakana_with_opt"
 },
 {
  "id": "th-romaji-rest",
  "edits": [
   [
    "Model/Convert.lean",
    "  else katakana_to_hiragana std input\n\n/-- src/to_hiragana.rs:10-12",
    "  else katakana_to_hiragana std (std.toLowercase input)\n\n/-- src/to_hiragana.rs:10-12"
   ]
  ],
  "edit": "to_hiragana lower-cases texts without romaji too",
  "breaks": [
   "C94"
  ],
  "definition": "to_hiragana_with_opt"
 }
]