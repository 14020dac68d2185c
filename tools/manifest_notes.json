{
 "C06": "The code uses the regex on the whole string/char in a way that differs from the documentation: C06_*_false give concrete counterexamples to the documented claim; the _partial theorems state exactly what holds. C63_whitelist describes the whitelist variants exactly.",
 "C16": "False as stated (C16_false: nyya). Proved for every text without nyy, and for every text in IME mode. C66 describes the second conversion exactly for every text.",
 "C24": "C24_exact is the closed form for every text, C24_exact_modern fixes the vowel of ヴ for current Rust.",
 "C25": "False for ゕ ゖ and for ヷ ヸ ヹ ヺ (C25_*_false); proved for every other text. C65 gives the exact set of texts that survive.",
 "C32": "False as stated (C32_false): after a swallowed ー the flags are misaligned. Proved for every text without swallowed ー as a segmentation theorem; C56 describes the result of every text exactly, including the misaligned flags.",
 "C33": "False as stated (C33_false): the tree lists ゔ five times and two conforming binary searches disagree on っゔ. Proved for every text without ゔ/ヴ; C33_exact: these are exactly the texts on which all conforming searches agree; C33_only_vu shows that ゔ and っゔ are the only source of freedom. C101, C102 and C110 describe texts with ゔ for the libraries in use.",
 "C49": "False as stated (C49_false). The _partial theorems cover texts without the ideographic space; C68 gives the exact condition.",
 "C53": "False as stated (C53_*_false); the _partial theorems give conditions under which it holds, C62 the exact ones.",
 "C54": "False as stated (C54_false, C54_panics, C54_past_end); proved when the start lies inside the text (start < length).",
 "C43": "False as stated (C43_false: ‘カ). C43_exact gives the exact set of texts for which it holds; C43_no_katakana_partial is the sufficient direction.",
 "C44": "False as stated (C44_*_false: nyya, and ‘カ for to_hiragana). Proved for every text whose lowercase form has no nyy (every text in IME mode or with pass_romaji) and, for to_hiragana, that meets the exact condition of C43. C67 describes the second conversion exactly."
}