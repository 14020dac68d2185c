{"id": "C01", "title": "String checks mean: non-empty and every character qualifies", "statement": "For every string s, is_hiragana / is_katakana / is_kana / is_kanji / is_romaji / is_japanese return true exactly when s is non-empty and every character lies in the documented Unicode blocks of that script; contains_kanji is true exactly when some character is kanji.", "quantifier": "every string, every one of the 7 checks", "why_tests_cant": "Strings are unbounded; a test suite or proptest only samples them. The boundary code points of each block are also rarely hit.", "anchors": ["src/is_hiragana.rs:is_hiragana", "src/is_katakana.rs:is_katakana", "src/is_kana.rs:is_kana", "src/is_kanji.rs:is_kanji", "src/is_kanji.rs:contains_kanji", "src/is_romaji.rs:is_romaji", "src/is_japanese.rs:is_japanese", "src/constants.rs"]}
{"id": "C02", "title": "Kana is exactly hiragana or katakana, and the two scripts share only the long-vowel mark", "statement": "For every char c: is_kana(c) iff is_hiragana(c) or is_katakana(c); and c is both hiragana and katakana iff c is U+30FC.", "quantifier": "every Unicode scalar value", "why_tests_cant": "1.1 million characters; the unit tests check about five.", "anchors": ["src/utils/is_char_kana.rs", "src/utils/is_char_hiragana.rs", "src/utils/is_char_katakana.rs", "src/traits.rs:IsJapaneseChar"]}
{"id": "C03", "title": "Japanese and romaji are mutually exclusive, and every Japanese sub-script is Japanese", "statement": "No character is both Japanese and romaji, hence no string satisfies both is_japanese and is_romaji; every kana, kanji, zenkaku digit and Japanese punctuation character is Japanese, hence is_kana(s) or is_kanji(s) implies is_japanese(s).", "quantifier": "every character and every string", "why_tests_cant": "Strings are unbounded; a test suite or proptest only samples them.", "anchors": ["src/utils/is_char_japanese.rs", "src/utils/is_char_romaji.rs", "src/constants.rs:JAPANESE_RANGES", "src/constants.rs:ROMAJI_RANGES"]}
{"id": "C04", "title": "is_mixed is exactly 'some kana and some romaji', independent of order", "statement": "is_mixed(s) iff s contains a kana character and a romaji character; is_mixed_pass_kanji(s,false) additionally requires that s contains no kanji. The answer depends only on the set of characters (any permutation gives the same answer), adding text never makes a mixed string un-mixed (with pass_kanji), and a mixed string is neither is_romaji nor is_japanese nor is_kana nor is_kanji.", "quantifier": "every string, both flag values", "why_tests_cant": "Strings are unbounded; a test suite or proptest only samples them.", "anchors": ["src/is_mixed.rs:is_mixed", "src/is_mixed.rs:is_mixed_pass_kanji"]}
{"id": "C05", "title": "String checks are compatible with concatenation and slicing", "statement": "For non-empty a and b and each all-characters check P: P(a+b) iff P(a) and P(b). Every non-empty substring of a string satisfying P satisfies P. Permuting characters does not change P.", "quantifier": "every pair of strings", "why_tests_cant": "Strings are unbounded; a test suite or proptest only samples them.", "anchors": ["src/is_hiragana.rs", "src/is_katakana.rs", "src/is_kana.rs", "src/is_kanji.rs", "src/is_romaji.rs", "src/is_japanese.rs"]}
{"id": "C06", "title": "Whitelist checks: every character is Japanese/romaji or matches the regex", "statement": "Documented: is_japanese_with_whitelist(s, r) / is_romaji_with_whitelist(s, r) is true iff s is non-empty and every character is in the script or matches the provided regex. With no regex they equal the plain check.", "quantifier": "every string and every regex (an arbitrary predicate on strings)", "why_tests_cant": "Both the strings and the regexes are unbounded.", "anchors": ["src/is_japanese.rs:is_japanese_with_whitelist", "src/is_romaji.rs:is_romaji_with_whitelist"]}
{"id": "C07", "title": "English vowels and consonants partition the lowercase alphabet", "statement": "For every character c, exactly one of vowel(c, include_y = b) and consonant(c, include_y = not b) holds if c is in a..z, and none otherwise.", "quantifier": "every character, both flag values", "why_tests_cant": "Exhaustive over all scalar values.", "anchors": ["src/utils/is_char_vowel.rs", "src/utils/is_char_consonant.rs"]}
{"id": "C08", "title": "Number and punctuation classes are disjoint", "statement": "No character belongs to two of: Latin digit, zenkaku digit, English punctuation, Japanese punctuation. Punctuation is the union of English and Japanese punctuation. No Japanese punctuation or zenkaku digit is romaji; no English punctuation is Japanese.", "quantifier": "every character", "why_tests_cant": "Exhaustive over all scalar values; unit tests use 18 literals.", "anchors": ["src/utils/is_char_english_punctuation.rs", "src/utils/is_char_japanese_punctuation.rs", "src/utils/is_char_punctuation.rs", "src/utils/is_char_latin_number.rs", "src/utils/is_char_japanese_number.rs"]}
{"id": "C09", "title": "to_kana never panics and always terminates", "statement": "For every string and every Options value to_kana_with_opt returns: no slice or index is out of range, no unwrap fails, and the loop makes at most one iteration per input character.", "quantifier": "every string, all 16 option combinations, every Unicode case-mapping table", "why_tests_cant": "Strings are unbounded; a test suite or proptest only samples them.", "anchors": ["src/to_kana.rs:to_kana_with_opt", "src/to_kana_node_tree.rs:Node::get"]}
{"id": "C10", "title": "to_kana is greedy table transliteration", "statement": "to_kana(s) is obtained by scanning from the left: take the longest prefix of the (ASCII-lowercased) rest that is a prefix of some table key; if it is itself a key emit its kana (in katakana iff every consumed character is uppercase) and skip it, otherwise copy one character unchanged. The table is the flat romaji->kana list of the selected mode.", "quantifier": "every string, every option value", "why_tests_cant": "Strings are unbounded; a test suite or proptest only samples them. Interactions between adjacent syllables are combinatorial.", "anchors": ["src/to_kana.rs:to_kana_with_opt", "src/to_kana_node_tree.rs"]}
{"id": "C11", "title": "to_kana leaves text without romaji untouched", "statement": "If no character of s can start a table entry (e.g. s consists of kana, kanji, digits, spaces, Japanese punctuation), to_kana(s) = s under every option.", "quantifier": "every string over those characters, every option", "why_tests_cant": "Strings are unbounded; a test suite or proptest only samples them.", "anchors": ["src/to_kana.rs:to_kana_with_opt"]}
{"id": "C12", "title": "to_kana converts word by word", "statement": "If b is empty or starts with a character that is neither an ASCII letter nor an apostrophe (nor, in IME mode, a space), then to_kana(a+b) = to_kana(a)+to_kana(b). So text can be converted in chunks cut before whitespace, punctuation, digits or Japanese text.", "quantifier": "every pair of strings with such a boundary, every option", "why_tests_cant": "Strings are unbounded; a test suite or proptest only samples them.", "anchors": ["src/to_kana.rs:to_kana_with_opt"]}
{"id": "C13", "title": "Letter case only chooses the script", "statement": "For every s, changing the case of ASCII letters in s changes to_kana(s) only by hiragana/katakana choice and by the case of letters passed through: folding both to one script and lowercasing gives the same text as converting the lowercased input.", "quantifier": "every string, every option", "why_tests_cant": "Strings are unbounded; a test suite or proptest only samples them.", "anchors": ["src/to_kana.rs:to_kana_with_opt", "src/utils/hiragana_to_katakana.rs"]}
{"id": "C14", "title": "Lowercase input yields hiragana, uppercase input yields katakana", "statement": "If s has no uppercase ASCII letters, every katakana letter in to_kana(s) (other than the table symbols) already occurs in s. If every ASCII letter of s is uppercase and s contains no N' (and, in IME mode, no N followed by a space), then every hiragana letter in to_kana(s) already occurs in s.", "quantifier": "every string, every option", "why_tests_cant": "Strings are unbounded; a test suite or proptest only samples them.", "anchors": ["src/to_kana.rs:to_kana_with_opt"]}
{"id": "C15", "title": "to_kana never lengthens text", "statement": "The number of characters of to_kana(s) is at most the number of characters of s.", "quantifier": "every string, every option", "why_tests_cant": "Strings are unbounded; a test suite or proptest only samples them.", "anchors": ["src/to_kana.rs:to_kana_with_opt"]}
{"id": "C16", "title": "to_kana is idempotent", "statement": "to_kana(to_kana(s)) = to_kana(s) for every s.", "quantifier": "every string, every option", "why_tests_cant": "Strings are unbounded; a test suite or proptest only samples them.", "anchors": ["src/to_kana.rs:to_kana_with_opt"]}
{"id": "C17", "title": "Options affect only what they document", "statement": "pass_romaji and upcase_katakana never change to_kana; outside imemode use_obsolete_kana changes the result only if s contains w followed by i or e (any case); when use_obsolete_kana is set imemode is ignored; imemode changes the result only if s contains n or N.", "quantifier": "every string, every pair of option values", "why_tests_cant": "Strings are unbounded; a test suite or proptest only samples them.", "anchors": ["src/to_kana.rs:to_kana_with_opt", "src/to_kana_node_tree.rs:TO_KANA_NODE_TREE_OBSOLETE", "src/to_kana_node_tree.rs:TO_KANA_NODE_TREE_IMEMODE", "src/options.rs"]}
{"id": "C18", "title": "IME mode is incremental", "statement": "In imemode, converting what has been typed so far and then typing more gives the same text as converting everything at once: to_kana_ime(to_kana_ime(a)+b) = to_kana_ime(a+b).", "quantifier": "every way of cutting every keystroke history", "why_tests_cant": "Keystroke histories and cut points are unbounded.", "anchors": ["src/to_kana.rs:to_kana_with_opt", "src/to_kana_node_tree.rs:TO_KANA_NODE_TREE_IMEMODE"]}
{"id": "C19", "title": "IME mode keeps a pending n", "statement": "In imemode a trailing n (after text ending at a syllable boundary) stays a Latin n until it is followed by another n, an apostrophe or a space (which produce exactly one ん and are consumed), or by a vowel/y that forms a na-row syllable.", "quantifier": "every context around the n", "why_tests_cant": "Strings are unbounded; a test suite or proptest only samples them.", "anchors": ["src/to_kana_node_tree.rs:TO_KANA_NODE_TREE_IMEMODE"]}
{"id": "C20", "title": "Doubling a consonant prefixes a small tsu", "statement": "For every romaji syllable r of the table beginning with a consonant other than n, l, x, and every continuation t: to_kana(c+r+t) = っ + to_kana(r+t) where c is the first letter of r (except r beginning with an already doubled consonant, and wi, we with use_obsolete_kana). In capitals the prefix is ッ.", "quantifier": "every syllable, every continuation string", "why_tests_cant": "Strings are unbounded; a test suite or proptest only samples them.", "anchors": ["src/to_kana_node_tree.rs"]}
{"id": "C21", "title": "Every row of the published conversion table holds in every context", "statement": "For each row (romaji, hiragana, katakana) of the project's conversion table and every text t starting at a word boundary: to_kana(romaji+t) = hiragana+to_kana(t), and the uppercase form gives katakana+to_kana(t).", "quantifier": "every row and every following text", "why_tests_cant": "Strings are unbounded; a test suite or proptest only samples them.", "anchors": ["tests/conversion_tables.rs:ROMA_TO_HIRA_KATA", "src/to_kana_node_tree.rs"]}
{"id": "C22", "title": "hiragana_to_katakana is a total, per-character, length-preserving shift", "statement": "For every s it returns without panicking; the i-th output char is the katakana counterpart of the i-th input char if that is ぁ..ゖ and the same char otherwise; it is idempotent, distributes over concatenation and leaves no hiragana letter in the output.", "quantifier": "every string", "why_tests_cant": "Strings are unbounded; a test suite or proptest only samples them.", "anchors": ["src/utils/hiragana_to_katakana.rs"]}
{"id": "C23", "title": "katakana_to_hiragana removes katakana and nothing else", "statement": "For every s it returns without panicking; the output contains no katakana except ー ・ ヵ ヶ; text without katakana is returned unchanged; it is idempotent.", "quantifier": "every string, every correct binary search", "why_tests_cant": "Strings are unbounded; a test suite or proptest only samples them.", "anchors": ["src/utils/katakana_to_hiragana.rs"]}
{"id": "C24", "title": "Long vowel mark expansion", "statement": "A ー directly following a run katakana-letter, ー... is replaced by the vowel of that letter (a->あ i->い u->う e->え o->う, or お on the way to romaji); at the start of the text or after any other non-katakana text it is kept. After ヴ, whose node is listed five times in the tree with different vowels, it is one fixed vowel of あいうえお, the same in every text (お/う with current Rust).", "quantifier": "every context around the mark", "why_tests_cant": "Strings are unbounded; a test suite or proptest only samples them.", "anchors": ["src/utils/katakana_to_hiragana.rs:katakana_to_hiragana_with_opt"]}
{"id": "C25", "title": "Kana scripts convert back and forth losslessly", "statement": "katakana_to_hiragana(hiragana_to_katakana(s)) = s for every hiragana text without ー, and hiragana_to_katakana(katakana_to_hiragana(s)) = s for every katakana text without ー.", "quantifier": "every kana string", "why_tests_cant": "Strings are unbounded; a test suite or proptest only samples them.", "anchors": ["src/utils/katakana_to_hiragana.rs", "src/utils/hiragana_to_katakana.rs"]}
{"id": "C26", "title": "katakana_to_hiragana never lengthens text, and shortens only at a swallowed ー", "statement": "The output has at most as many characters as the input, and exactly as many when no ー follows ン or ッ (possibly through further ー, ・, ヵ, ヶ).", "quantifier": "every string", "why_tests_cant": "Strings are unbounded; a test suite or proptest only samples them.", "anchors": ["src/utils/katakana_to_hiragana.rs"]}
{"id": "C27", "title": "to_romaji never panics and always terminates", "statement": "For every string and every option, and whichever of several equal keys the standard library's binary search returns, to_romaji_with_opt returns: slicing the original text with positions of the converted text stays in range.", "quantifier": "every string, every option, every behaviour allowed by slice::binary_search_by_key", "why_tests_cant": "Strings are unbounded; a test suite or proptest only samples them. Two earlier panics (issue 13, proptest1) slipped past tests.", "anchors": ["src/to_romaji.rs:to_romaji_with_opt", "src/to_romaji_node_tree.rs:Node::get"]}
{"id": "C28", "title": "to_romaji leaves text without kana or Japanese punctuation untouched", "statement": "If s has no kana and none of the convertible Japanese punctuation marks then to_romaji(s) = s.", "quantifier": "every such string, every option", "why_tests_cant": "Strings are unbounded; a test suite or proptest only samples them.", "anchors": ["src/to_romaji.rs"]}
{"id": "C29", "title": "Kana becomes pure romaji", "statement": "If s is kana and contains none of the symbols ヵ ヶ ゕ ゖ then every character of to_romaji(s) is ASCII, so the result is empty or is_romaji.", "quantifier": "every kana string, every option", "why_tests_cant": "Strings are unbounded; a test suite or proptest only samples them.", "anchors": ["src/to_romaji.rs", "src/to_romaji_node_tree.rs"]}
{"id": "C30", "title": "Romaji does not depend on the kana script", "statement": "For hiragana text s without ー, ゕ, ゖ: to_romaji(hiragana_to_katakana(s)) = to_romaji(s).", "quantifier": "every hiragana string", "why_tests_cant": "Strings are unbounded; a test suite or proptest only samples them.", "anchors": ["src/to_romaji.rs", "src/utils/katakana_to_hiragana.rs"]}
{"id": "C31", "title": "upcase_katakana changes only letter case", "statement": "to_romaji with upcase_katakana equals to_romaji without it up to ASCII letter case; if s has no katakana the option has no effect; if every character of s is katakana the result is exactly the uppercase of the plain result.", "quantifier": "every string", "why_tests_cant": "Strings are unbounded; a test suite or proptest only samples them.", "anchors": ["src/to_romaji.rs:to_romaji_with_opt"]}
{"id": "C32", "title": "upcase_katakana uppercases only katakana", "statement": "With upcase_katakana, romaji letters produced from hiragana stay lowercase.", "quantifier": "every string", "why_tests_cant": "Strings are unbounded; a test suite or proptest only samples them.", "anchors": ["src/to_romaji.rs:to_romaji_with_opt"]}
{"id": "C33", "title": "to_romaji is determined by its input", "statement": "The result does not depend on which of several equal elements the standard library's binary search happens to return (its documentation leaves that unspecified).", "quantifier": "every string, every pair of conforming binary searches", "why_tests_cant": "A test runs against one std version only.", "anchors": ["src/to_romaji_node_tree.rs:find_transition_node", "src/to_romaji_node_tree.rs:TO_ROMAJI_NODE_TREE"]}
{"id": "C34", "title": "to_romaji converts chunk by chunk", "statement": "If b is empty or starts with a character that is not kana and not convertible Japanese punctuation, then to_romaji(a+b) = to_romaji(a)+to_romaji(b), provided upcase_katakana is off or no ー of a is swallowed after ン or ッ.", "quantifier": "every pair of strings with such a boundary, every option", "why_tests_cant": "Strings are unbounded; a test suite or proptest only samples them.", "anchors": ["src/to_romaji.rs", "src/utils/katakana_to_hiragana.rs"]}
{"id": "C35", "title": "to_romaji is idempotent", "statement": "to_romaji(to_romaji(s)) = to_romaji(s) for every s.", "quantifier": "every string, every option", "why_tests_cant": "Strings are unbounded; a test suite or proptest only samples them.", "anchors": ["src/to_romaji.rs"]}
{"id": "C36", "title": "Hiragana survives a trip through romaji", "statement": "to_kana(to_romaji(s)) = s for every text s composed of regular hiragana syllables (single kana except small kana, ぢ, づ and - unless obsolete kana are on - ゐ, ゑ; contractions like きゃ; っ before any of these except ち, vowels, the na- and ya-row), Japanese marks other than the wide space, and characters neither function converts (kanji, digits, spaces); for every option of to_romaji, and outside IME mode of to_kana. The list is complete: a row of the kana->romaji table converts back exactly if it is one of these syllables or marks or ん before a vowel or ya-row kana.", "quantifier": "every hiragana text (sequence of syllables), every option", "why_tests_cant": "Strings are unbounded; a test suite or proptest only samples them. Syllable interactions (ん before vowels, っ before consonants) are context dependent.", "anchors": ["src/to_romaji.rs", "src/to_kana.rs", "src/to_romaji_node_tree.rs", "src/to_kana_node_tree.rs"]}
{"id": "C37", "title": "to_romaji grows text by at most a factor of three", "statement": "The number of characters of to_romaji(s) is at most 3 times that of s.", "quantifier": "every string, every option", "why_tests_cant": "Strings are unbounded; a test suite or proptest only samples them.", "anchors": ["src/to_romaji.rs"]}
{"id": "C38", "title": "to_hiragana and to_katakana never panic", "statement": "For every string and option both functions return.", "quantifier": "every string, every option, every Unicode case-mapping table, every conforming binary search", "why_tests_cant": "Strings are unbounded; a test suite or proptest only samples them.", "anchors": ["src/to_hiragana.rs", "src/to_katakana.rs", "src/utils/romaji_to_hiragana.rs"]}
{"id": "C39", "title": "Kana-only input is converted by the kana shift alone", "statement": "If s is non-empty kana then to_hiragana(s) = katakana_to_hiragana(s) and to_katakana(s) = hiragana_to_katakana(s), whatever the options.", "quantifier": "every kana string, every option", "why_tests_cant": "Strings are unbounded; a test suite or proptest only samples them.", "anchors": ["src/to_hiragana.rs", "src/to_katakana.rs"]}
{"id": "C40", "title": "On romaji, to_katakana is to_hiragana followed by the katakana shift, and both ignore case", "statement": "If is_romaji(s): to_katakana(s) = hiragana_to_katakana(to_hiragana(s)); to_hiragana and to_katakana give the same result for s and for s with the case of ASCII letters changed.", "quantifier": "every romaji string, every option without pass_romaji", "why_tests_cant": "Strings are unbounded; a test suite or proptest only samples them.", "anchors": ["src/to_hiragana.rs", "src/to_katakana.rs"]}
{"id": "C41", "title": "pass_romaji leaves everything but kana untouched", "statement": "With pass_romaji, to_katakana changes only hiragana letters, and to_hiragana changes only katakana: in particular the sequence of non-kana characters of the output is exactly that of the input.", "quantifier": "every string", "why_tests_cant": "Strings are unbounded; a test suite or proptest only samples them.", "anchors": ["src/to_hiragana.rs", "src/to_katakana.rs"]}
{"id": "C42", "title": "to_katakana leaves no hiragana", "statement": "No hiragana letter (ぁ..ゖ) occurs in to_katakana(s).", "quantifier": "every string, every option", "why_tests_cant": "Strings are unbounded; a test suite or proptest only samples them.", "anchors": ["src/to_katakana.rs"]}
{"id": "C43", "title": "to_hiragana leaves no katakana", "statement": "No katakana other than ー ・ ヵ ヶ occurs in to_hiragana(s).", "quantifier": "every string, every option", "why_tests_cant": "Strings are unbounded; a test suite or proptest only samples them.", "anchors": ["src/to_hiragana.rs"]}
{"id": "C44", "title": "to_katakana and to_hiragana are idempotent", "statement": "Applying to_katakana (to_hiragana) twice is the same as applying it once.", "quantifier": "every string, every option", "why_tests_cant": "Strings are unbounded; a test suite or proptest only samples them.", "anchors": ["src/to_hiragana.rs", "src/to_katakana.rs"]}
{"id": "C45", "title": "Tokenizing loses nothing", "statement": "Concatenating the tokens of tokenize / tokenize_with_opt / tokenize_detailed gives back the input; no token is empty; tokenize equals the strings of tokenize_detailed(_, false).", "quantifier": "every string, both modes", "why_tests_cant": "Strings are unbounded; a test suite or proptest only samples them.", "anchors": ["src/tokenize.rs"]}
{"id": "C46", "title": "Tokens are maximal homogeneous runs, uniquely", "statement": "Every character of a token has the reported type and adjacent tokens have different types; tokenize_detailed returns the only list of typed non-empty strings with these properties that concatenates to the input.", "quantifier": "every string, both modes", "why_tests_cant": "Strings are unbounded; a test suite or proptest only samples them.", "anchors": ["src/tokenize.rs"]}
{"id": "C47", "title": "Token types mean what they say", "statement": "Each detailed type is assigned to exactly the characters described: Space for the two spaces, JaNum/EnNum digits, EnPunc/JaPunc punctuation, Kanji, Hiragana, Katakana letters, Ja other Japanese, En other romaji, Other everything else; compact mode reports only En, Ja and Other.", "quantifier": "every character, both modes", "why_tests_cant": "Exhaustive over all scalar values.", "anchors": ["src/tokenize.rs:get_type"]}
{"id": "C48", "title": "Tokenizing splits at type changes only", "statement": "tokenize(a+b) = tokenize(a)+tokenize(b) exactly when a or b is empty or the last character of a and the first of b have different types.", "quantifier": "every pair of strings, both modes", "why_tests_cant": "Strings are unbounded; a test suite or proptest only samples them.", "anchors": ["src/tokenize.rs"]}
{"id": "C49", "title": "Compact tokens combine detailed tokens", "statement": "Every compact token is a concatenation of consecutive detailed tokens (so compact mode never produces more tokens).", "quantifier": "every string", "why_tests_cant": "Strings are unbounded; a test suite or proptest only samples them.", "anchors": ["src/tokenize.rs"]}
{"id": "C50", "title": "trim_okurigana only removes from the chosen end", "statement": "trim_okurigana_with_opt never panics and returns a prefix of the input when trimming the end and a suffix when trimming the start; the removed part is a number of repetitions of one token.", "quantifier": "every input, every flag, every matcher", "why_tests_cant": "Strings are unbounded; a test suite or proptest only samples them.", "anchors": ["src/trim_okurigana.rs"]}
{"id": "C51", "title": "trim_okurigana leaves unsuitable input alone", "statement": "The input is returned unchanged if it is empty, not entirely Japanese, does not end (start, when trimming the start) in kana, consists only of kana and no matcher is given, or the matcher is empty or only kanji.", "quantifier": "every input, every flag, every matcher", "why_tests_cant": "Strings are unbounded; a test suite or proptest only samples them.", "anchors": ["src/trim_okurigana.rs"]}
{"id": "C52", "title": "Otherwise trim_okurigana removes exactly the last (first) token", "statement": "Without a matcher, on any other input, the result is the input minus exactly its last token (minus its first token when trimming the start).", "quantifier": "every such input", "why_tests_cant": "Strings are unbounded; a test suite or proptest only samples them.", "anchors": ["src/trim_okurigana.rs", "src/tokenize.rs"]}
{"id": "C53", "title": "trim_okurigana is idempotent and never empties a word", "statement": "Trimming twice is the same as trimming once, and a non-empty input never becomes empty.", "quantifier": "every input", "why_tests_cant": "Strings are unbounded; a test suite or proptest only samples them.", "anchors": ["src/trim_okurigana.rs"]}
{"id": "C54", "title": "get_chunk returns the characters start..end", "statement": "get_chunk(text, start, end) returns exactly the characters with positions start <= i < end of the text for every start <= end, on character boundaries, without panicking.", "quantifier": "every text and every pair of positions", "why_tests_cant": "Strings are unbounded; a test suite or proptest only samples them.", "anchors": ["src/utils/get_chunk.rs"]}
{"id": "C55", "title": "CLI tools print the conversion of arguments or stdin", "statement": "With arguments, to_kana/to_romaji print the conversion of the arguments joined by single spaces followed by a newline; with none (or a single empty one) they print the conversion of standard input with nothing added; they never fail on valid UTF-8.", "quantifier": "every argument list and every stdin content", "why_tests_cant": "Strings are unbounded; a test suite or proptest only samples them.", "anchors": ["src/bin/to_kana.rs", "src/bin/to_romaji.rs"]}
{"id": "C56", "title": "to_romaji is greedy transliteration of the hiragana form with the Hepburn table", "statement": "For every s, to_romaji(s) is obtained by converting katakana to hiragana (long vowels written out) and scanning from the left: take the longest prefix of the rest that is a key of the flat kana->romaji table (single kana, contractions, っ + kana with doubled consonant, ん before vowels with an apostrophe, punctuation; for ゔ and っゔ, which the tree lists five times, v and vv with one vowel that is the same for all texts - o with current Rust), emit its romaji and skip it; copy characters without entry. With upcase_katakana the romaji is in capitals iff all flags of the consumed characters (katakana-ness of the original characters at the same positions) are set. The rules determine the result uniquely.", "quantifier": "every string, every option, every conforming binary search", "why_tests_cant": "Strings are unbounded; a test suite or proptest only samples them. Adjacent kana interact (ん, っ, small kana).", "anchors": ["src/to_romaji.rs:to_romaji_with_opt", "src/to_romaji_node_tree.rs"]}
{"id": "C57", "title": "Text in both scripts survives a trip through romaji with upcase_katakana", "statement": "With upcase_katakana, to_kana(to_romaji(s)) = s also for text mixing regular hiragana and katakana syllables, provided ン does not stand before a vowel or ya-row kana, ん before such a kana is followed by hiragana, and no long vowel mark follows katakana.", "quantifier": "every text of regular syllables in both scripts", "why_tests_cant": "Strings are unbounded; a test suite or proptest only samples them. Casing is decided per syllable, so script changes interact with ん, っ and ー.", "anchors": ["src/to_romaji.rs", "src/to_kana.rs", "src/options.rs:upcase_katakana"]}
{"id": "C58", "title": "Romaji of kana can be turned back into either script", "statement": "If s is kana whose hiragana form is a sequence of regular syllables (in any mixture of scripts), to_hiragana(to_romaji(s)) is that hiragana and to_katakana(to_romaji(s)) its katakana, whatever the options of to_romaji.", "quantifier": "every text of regular syllables, every option of to_romaji, every non-IME option of to_hiragana/to_katakana without pass_romaji", "why_tests_cant": "Strings are unbounded; a test suite or proptest only samples them.", "anchors": ["src/to_romaji.rs", "src/to_hiragana.rs", "src/to_katakana.rs"]}
{"id": "C59", "title": "The scripts present decide what to_hiragana and to_katakana do", "statement": "Without pass_romaji: text of romaji only becomes to_kana(lowercase(s)) with the same options (to_katakana: shifted to katakana). Text without kana containing anything that is not romaji (e.g. kanji next to Latin letters) is returned unchanged, except that to_hiragana converts it like romaji when it starts with English punctuation. Text without romaji undergoes only the kana shift, except that to_hiragana hands it to to_kana when it starts with a curly quote.", "quantifier": "every string outside the mixed case of C60, every option", "why_tests_cant": "Strings are unbounded; a test suite or proptest only samples them.", "anchors": ["src/to_hiragana.rs", "src/to_katakana.rs", "src/utils/romaji_to_hiragana.rs"]}
{"id": "C60", "title": "Mixed text is converted run by run", "statement": "If s has both kana and romaji (and no capital sigma, whose lowercase form depends on context), cut it into maximal runs of kana and of other characters: to_hiragana(s) is the concatenation of katakana_to_hiragana(run) for the kana runs and to_kana(lowercase(run)) for the others; to_katakana(s) likewise with hiragana_to_katakana.", "quantifier": "every mixed string without capital sigma, every option without pass_romaji", "why_tests_cant": "Strings are unbounded; a test suite or proptest only samples them.", "anchors": ["src/to_hiragana.rs", "src/to_katakana.rs"]}
{"id": "C61", "title": "With a matcher, trim_okurigana removes every final copy of the matcher's last token", "statement": "For Japanese input ending in kana and a matcher that is not only kanji, the result r is the one text with input = r + t repeated n times and r not ending in t, where t is the last token of the matcher; trimming the start works the same way with the first token. trim_okurigana(s) is the variant that trims the end without a matcher.", "quantifier": "every such input and every matcher", "why_tests_cant": "Strings are unbounded; a test suite or proptest only samples them.", "anchors": ["src/trim_okurigana.rs", "src/tokenize.rs"]}
{"id": "C62", "title": "When trimming changes a text, changes it twice, or empties it", "statement": "Without a matcher, trimming the end (start) changes a text exactly if it is Japanese, ends (starts) in kana and is not all kana; trimming again changes the result exactly if the result again ends in kana without being all kana; the result is empty exactly for the empty text and for Japanese punctuation (no full width space) ending (starting) in a long vowel mark or middle dot with some other punctuation. With a matcher it is empty exactly if the input is a repetition of the removed token.", "quantifier": "every text, both directions", "why_tests_cant": "Strings are unbounded; a test suite or proptest only samples them.", "anchors": ["src/trim_okurigana.rs"]}
{"id": "C63", "title": "The exported trait methods are the documented checks and conversions", "statement": "Each method of IsJapaneseChar accepts exactly its script; each method of IsJapaneseStr holds iff the text is non-empty and all characters pass the char method of the same name (contains_kanji: some character); is_mixed, the whitelist variants and the option-less conversions relate to the others as documented; to_kana/to_romaji are the greedy table transliterations and to_hiragana/to_katakana are the kana converters on kana and to_kana of the lowercased text on romaji.", "quantifier": "every character, every text, every option", "why_tests_cant": "Strings are unbounded; a test suite or proptest only samples them.", "anchors": ["src/traits.rs", "src/lib.rs", "src/options.rs"]}
{"id": "C64", "title": "The small character checks have their documented extent", "statement": "is_char_upper_case accepts exactly A-Z, is_char_long_dash exactly the long vowel mark, is_char_slash_dot exactly the middle dot, is_char_romaji exactly ASCII and the macron vowels, is_char_in_range(c, lo, hi) exactly lo <= c <= hi inclusive; vowels are aeiou and consonants the other lowercase letters, y counting as either on request.", "quantifier": "every character", "why_tests_cant": "Strings are unbounded; a test suite or proptest only samples them.", "anchors": ["src/utils/is_char_upper_case.rs", "src/utils/is_char_long_dash.rs", "src/utils/is_char_slash_dot.rs", "src/utils/is_char_romaji.rs", "src/utils/is_char_in_range.rs", "src/utils/is_char_vowel.rs", "src/utils/is_char_consonant.rs"]}
{"id": "C65", "title": "Exactly which texts survive a round trip between the kana scripts", "statement": "Hiragana to katakana and back returns s exactly if s has no katakana letter other than the counters ヵ ヶ, no ゕ ゖ, and no long vowel mark whose governing character (the last one before it that is not ー ・ ヵ ヶ) is a hiragana letter. Katakana to hiragana and back returns s exactly if s has no hiragana letter, no ヷ ヸ ヹ ヺ and no long vowel mark governed by a katakana letter.", "quantifier": "every text, both flavours of long vowel handling", "why_tests_cant": "Strings are unbounded; a test suite or proptest only samples them.", "anchors": ["src/utils/hiragana_to_katakana.rs", "src/utils/katakana_to_hiragana.rs"]}
{"id": "C66", "title": "Exactly what a second to_kana changes", "statement": "Outside IME mode, to_kana applied to a result r of to_kana replaces each n (N) standing directly before a small っ or ッ by ん (ン) and changes nothing else; hence r is stable exactly if it has no such n. A third application never changes anything.", "quantifier": "every text, every option", "why_tests_cant": "Strings are unbounded; a test suite or proptest only samples them.", "anchors": ["src/to_kana.rs", "src/to_kana_node_tree.rs"]}
{"id": "C67", "title": "Exactly what a second to_katakana or to_hiragana changes", "statement": "Outside IME mode and without pass_romaji: to_katakana applied to its own result only turns each n directly before ッ into ン; to_hiragana applied to its own result shifts the katakana that is left (only possible for text without romaji starting with a curly quote) and turns each n directly before っ into ん. to_katakana is stable on a result exactly if that has no n before ッ, always in IME mode and with pass_romaji; to_hiragana is stable on a result exactly if that has no katakana besides ー ・ ヵ ヶ and (outside IME mode and without pass_romaji) no n before っ.", "quantifier": "every text, every option", "why_tests_cant": "Strings are unbounded; a test suite or proptest only samples them.", "anchors": ["src/to_hiragana.rs", "src/to_katakana.rs", "src/to_kana.rs"]}
{"id": "C68", "title": "Exactly when compact tokens combine detailed tokens; tokens are stable", "statement": "Every token of the compact tokenization is a concatenation of consecutive tokens of the detailed one exactly if no ASCII space stands directly next to an ideographic space; then there are at most as many compact tokens. Tokenizing any stretch of whole tokens gives these tokens back.", "quantifier": "every text, both modes", "why_tests_cant": "Strings are unbounded; a test suite or proptest only samples them.", "anchors": ["src/tokenize.rs"]}
{"id": "C69", "title": "Sorting a tree never changes what is found in it", "statement": "Node::sort keeps lookups: in the kana tree a sorted tree returns for every text exactly what the unsorted one returns; in the romaji tree (binary search) a sorted tree without repeated keys returns exactly what reading the unsorted tree character by character returns, whatever the binary search does among its documented freedoms; with repeated keys the result still lies on a path spelled by the text. sort_by_key is a stable sort, and its result is unique.", "quantifier": "every tree, every text, every conforming binary search", "why_tests_cant": "Strings are unbounded; a test suite or proptest only samples them.", "anchors": ["src/to_kana_node_tree.rs:37-42", "src/to_romaji_node_tree.rs:8-39"]}
{"id": "C70", "title": "The kana generator turns a table into a tree that is read the same way", "statement": "upstream_conversions to_kana_tree: get_transitions succeeds exactly on nested objects whose results are strings and panics otherwise; if the keys are single letters, looking up a text in the generated tree gives the result stored in the table where reading the lowercased text stops; the generated tree is already sorted; keys of several letters are cut to their first letter.", "quantifier": "every JSON value, every text", "why_tests_cant": "Strings are unbounded; a test suite or proptest only samples them.", "anchors": ["upstream_conversions/src/bin/to_kana_tree.rs:1907-1928"]}
{"id": "C71", "title": "The romaji generator turns a table into a tree that is read the same way", "statement": "upstream_conversions to_romaji_tree: get_transitions succeeds exactly on nested objects that all store a string result (the outermost excepted) and panics otherwise; for texts whose letters begin only single-letter keys, looking up the text in the generated tree gives the result stored in the table, whatever the binary search; the generated tree is already sorted; keys of several letters are cut to their first letter.", "quantifier": "every JSON value, every text, every conforming binary search", "why_tests_cant": "Strings are unbounded; a test suite or proptest only samples them.", "anchors": ["upstream_conversions/src/bin/to_romaji_tree.rs:1132-1163"]}
{"id": "C72", "title": "to_kana is greedy transliteration with the upstream table", "statement": "The tree in src/to_kana_node_tree.rs is exactly what the generator produces from the WanaKana table in upstream_conversions, and to_kana with default options reads that table: at every position the longest readable prefix is replaced by the stored result (katakana if it is all capitals), or, if none is stored, one character is copied.", "quantifier": "every text", "why_tests_cant": "Strings are unbounded; a test suite or proptest only samples them.", "anchors": ["src/to_kana_node_tree.rs", "src/to_kana.rs", "upstream_conversions/src/bin/to_kana_tree.rs"]}
{"id": "C73", "title": "The romaji tree is the upstream table with two rows added and eight rows damaged", "statement": "The tree used by to_romaji is what the generator produces from the upstream table plus the rows ゎ -> wa and ヷ -> va. Every lookup of a text without ゔ is a lookup in that table. The eight upstream rows with two-letter keys (ゔぁ va, ゔぃ vi, ゔぇ ve, ゔぉ vo and the same after っ) are unreachable: no lookup returns their result for their letters.", "quantifier": "every text, every conforming binary search", "why_tests_cant": "Strings are unbounded; a test suite or proptest only samples them.", "anchors": ["src/to_romaji_node_tree.rs", "upstream_conversions/src/bin/to_romaji_tree.rs"]}
{"id": "C74", "title": "Text can be romanized piece by piece if it is cut between syllables", "statement": "to_romaji(a+b) = to_romaji(a)+to_romaji(b) whenever the last kana of a is not a small っ in front of a convertible character, not ん in front of a vowel or y-kana, b does not start with one of the small kana ぃ ぇ ゃ ゅ ょ, and no long vowel mark at the start of b prolongs a katakana letter of a (with upcase_katakana also: a has no long vowel mark after ン or ッ); each of these conditions is needed. Hence a text of many such pieces is the concatenation of its romanized pieces.", "quantifier": "every text, every cut of that kind, every option", "why_tests_cant": "Strings are unbounded; a test suite or proptest only samples them.", "anchors": ["src/to_romaji.rs", "src/utils/katakana_to_hiragana.rs"]}
{"id": "C75", "title": "Every row of the published kana to romaji table holds inside any text", "statement": "Each hiragana and each katakana entry of the conversion table HIRA_KATA_TO_ROMA is romanized as listed wherever it stands between pieces of text it is cut from between syllables (C74); with upcase_katakana the katakana entry comes out in capitals and the hiragana entry unchanged.", "quantifier": "every row, every text before and after it, every option", "why_tests_cant": "Strings are unbounded; a test suite or proptest only samples them.", "anchors": ["tests/conversion_tables.rs", "src/to_romaji.rs", "src/to_romaji_node_tree.rs"]}
{"id": "C76", "title": "Romaji made by to_romaji is stable under a trip through kana", "statement": "If a text has no ASCII letter, no apostrophe, no ゔ or ヴ, and (unless obsolete kana are used and the text has no っ) no ゐ or ゑ, then converting it to romaji, that to kana and that to romaji again gives the first romaji back.", "quantifier": "every such text, every option without upcase_katakana (with IME mode: obsolete kana on)", "why_tests_cant": "Strings are unbounded; a test suite or proptest only samples them.", "anchors": ["src/to_romaji.rs", "src/to_kana.rs", "src/to_romaji_node_tree.rs", "src/to_kana_node_tree.rs"]}
{"id": "C77", "title": "Exactly where romaji may be cut", "statement": "to_kana(a+b) = to_kana(a)+to_kana(b) whenever the last character of a and the first of b do not stand side by side (in lower case) in any key of the table, in particular whenever a ends in a vowel, digit, mark or Japanese character; for characters that do stand side by side in a key some text cannot be cut there.", "quantifier": "every pair of texts, every pair of characters, every option", "why_tests_cant": "Strings are unbounded; a test suite or proptest only samples them.", "anchors": ["src/to_kana.rs", "src/to_kana_node_tree.rs"]}
{"id": "C78", "title": "What romaji to_kana can leave unconverted", "statement": "The result of to_kana contains no Latin vowel in either case; outside IME mode it contains n or N only directly before y, Y, っ or ッ. to_hiragana and to_katakana (without pass_romaji) leave no Latin vowel in romaji and mixed text.", "quantifier": "every text, every option", "why_tests_cant": "Strings are unbounded; a test suite or proptest only samples them.", "anchors": ["src/to_kana.rs", "src/to_kana_node_tree.rs", "src/to_hiragana.rs", "src/to_katakana.rs"]}
{"id": "C79", "title": "Text typed key by key is converted key by key", "statement": "If a text is a sequence of table keys (typed in any case) and no lone n is followed by a key beginning with a vowel, y or apostrophe, to_kana gives the sequence of their kana (katakana for keys typed in capitals). In IME mode this needs no condition, and the keys are determined by the text. In general such a text is read as some sequence of keys, nothing is left over, unless it contains nyy.", "quantifier": "every sequence of keys, every option", "why_tests_cant": "Strings are unbounded; a test suite or proptest only samples them.", "anchors": ["src/to_kana.rs", "src/to_kana_node_tree.rs"]}
{"id": "C80", "title": "Which kana can be typed in ASCII", "statement": "A kana text is the result of to_kana for some ASCII text exactly if it consists of ぁ to ゔ, ァ to ヴ (ゐ ゑ ヰ ヱ only with use_obsolete_kana) and ー ・ ヵ ヶ.", "quantifier": "every kana text, every option", "why_tests_cant": "Strings are unbounded; a test suite or proptest only samples them.", "anchors": ["src/to_kana.rs", "src/to_kana_node_tree.rs"]}
{"id": "C81", "title": "Exactly which neighbouring characters are romanized together", "statement": "to_romaji(a+b) = to_romaji(a)+to_romaji(b) for all texts a ending in x and b beginning with y exactly if none of these holds: y is one of ー ・ ヵ ヶ and x is one of them or a katakana letter; x is っ, ッ or ー and y a kana that っ changes (its consonant is doubled) or ん; x is ん, ン or ー and y a vowel or y-kana; x is a kana that contracts (き, し, …) and y one of the small ぃ ぇ ゃ ゅ ょ.", "quantifier": "every pair of characters (for the converse: other than ゔ and ヴ), all texts, every option without upcase_katakana", "why_tests_cant": "Strings are unbounded; a test suite or proptest only samples them.", "anchors": ["src/to_romaji.rs", "src/utils/katakana_to_hiragana.rs", "src/to_romaji_node_tree.rs"]}
{"id": "C82", "title": "Exactly which texts survive kana to romaji to kana", "statement": "to_kana(to_romaji(s)) = s exactly if s consists of regular hiragana syllables (no small kana alone, no ぢ づ, っ only where romaji doubles the consonant and not before ち), Japanese marks, and characters that neither function converts.", "quantifier": "every text without Latin letters, apostrophe and ゔ ヴ; every option without upcase_katakana and every mode of to_kana other than IME", "why_tests_cant": "Strings are unbounded; a test suite or proptest only samples them.", "anchors": ["src/to_romaji.rs", "src/to_kana.rs", "src/to_kana_node_tree.rs", "src/to_romaji_node_tree.rs"]}
{"id": "C83", "title": "Results do not depend on the version of the standard library", "statement": "to_kana gives the same result on every text whatever the unspecified behaviour of binary_search and of the Unicode tables; to_katakana, to_hiragana and to_romaji do on ordinary text (ASCII, Japanese, macron vowels) without ゔ ヴ.", "quantifier": "every text and option, every two conforming standard libraries", "why_tests_cant": "The behaviour of other Rust versions and search orders cannot be tested from one build.", "anchors": ["src/to_kana.rs", "src/to_katakana.rs", "src/to_hiragana.rs", "src/to_romaji.rs", "src/utils/romaji_to_hiragana.rs"]}
{"id": "C84", "title": "Exactly which romaji are canonical", "statement": "to_romaji(to_kana(r)) = r for every concatenation of romaji from the kana to romaji table, in any order, and of characters that are not converted; and, if to_kana leaves no Latin letter or apostrophe, only for those.", "quantifier": "every sequence of table romaji; every text r (for the converse: whose kana have no Latin letter, apostrophe, ゔ, nor っ together with ゐ ゑ)", "why_tests_cant": "Strings are unbounded; a test suite or proptest only samples them.", "anchors": ["src/to_romaji.rs", "src/to_kana.rs", "src/to_kana_node_tree.rs", "src/to_romaji_node_tree.rs"]}
{"id": "C85", "title": "Exactly which mixed texts survive with upcase_katakana", "statement": "to_kana(to_romaji(s)) = s with upcase_katakana exactly if s consists of regular syllables, each wholly hiragana or wholly katakana, Japanese marks and characters neither function converts, ん before a vowel or y-kana and that kana are hiragana, and no ー follows katakana.", "quantifier": "every text without Latin letters, apostrophe and ゔ ヴ; every option with upcase_katakana and every mode of to_kana other than IME", "why_tests_cant": "Strings are unbounded; a test suite or proptest only samples them.", "anchors": ["src/to_romaji.rs", "src/to_kana.rs", "src/to_kana_node_tree.rs", "src/to_romaji_node_tree.rs", "src/utils/katakana_to_hiragana.rs"]}
{"id": "C86", "title": "Conversions take linear time, except at long vowel marks", "statement": "to_kana and to_katakana take at most a fixed number of steps per character. to_romaji and to_hiragana do so too, plus for every ー as many steps as the text has characters; on カ followed by n ー they really take n²/2 steps.", "quantifier": "every text, every option; every n for the lower bound", "why_tests_cant": "A running time on sample texts says nothing about its growth.", "anchors": ["src/to_kana.rs", "src/to_romaji.rs", "src/to_hiragana.rs", "src/to_katakana.rs", "src/utils/katakana_to_hiragana.rs:68"]}
{"id": "C87", "title": "Typing outside IME mode: exactly when the intermediate conversion does harm", "statement": "With ra = to_kana(a), to_kana(ra+b) = to_kana(a+b) exactly if ra has no n directly before っ or ッ and a does not end in an n (other than in xn) that b continues with a vowel, y or an apostrophe. Typing key by key and converting after each key gives the conversion of the whole text exactly if no n (other than in xn) is followed by a vowel, y or an apostrophe.", "quantifier": "every pair of texts, every typed text, every option outside IME mode", "why_tests_cant": "Strings are unbounded; a test suite or proptest only samples them.", "anchors": ["src/to_kana.rs", "src/to_kana_node_tree.rs"]}
{"id": "C88", "title": "Typing with to_hiragana and to_katakana in IME mode", "statement": "For romaji a and b, converting a first and then the result with b appended gives the conversion of a+b exactly if b is empty, the result for a has a kana, is still romaji, starts with English punctuation (to_hiragana only), or b would stay as it is anyway. (A buffer such as ！ blocks: the rest of the line is not converted.)", "quantifier": "every pair of romaji texts, every IME option without pass_romaji", "why_tests_cant": "Strings are unbounded; a test suite or proptest only samples them.", "anchors": ["src/to_hiragana.rs", "src/to_katakana.rs", "src/to_kana.rs"]}
{"id": "C89", "title": "How much of a result can still change when the text goes on", "statement": "to_kana: of any text at most the last four characters have to be kept back, the conversion of the rest is final (four are needed). katakana_to_hiragana never revises its output. to_romaji revises at most the last letter, with upcase_katakana at most the last four (both are reached). tokenize keeps all tokens but the last, which keeps its type and can only grow. to_hiragana and to_katakana have no such bound: one kana at the end can change the conversion of everything before it.", "quantifier": "every text and continuation, every option; every length for the lack of a bound", "why_tests_cant": "Concerns all continuations of all texts.", "anchors": ["src/to_kana.rs", "src/to_romaji.rs", "src/utils/katakana_to_hiragana.rs", "src/tokenize.rs", "src/to_hiragana.rs", "src/to_katakana.rs"]}
{"id": "C90", "title": "Exactly when to_kana converts everything", "statement": "to_kana leaves no ASCII character exactly if the text is made of table keys (in any case) and characters outside ASCII and, outside IME mode, nyy occurs only as part of xnyy.", "quantifier": "every text, every option", "why_tests_cant": "Strings are unbounded; a test suite or proptest only samples them.", "anchors": ["src/to_kana.rs", "src/to_kana_node_tree.rs"]}
{"id": "C91", "title": "Texts with the same romaji", "statement": "Two texts have the same romaji exactly if the kana read back from their romaji are the same, so these kana are a canonical spelling; two texts made of regular syllables, Japanese marks and characters neither function converts never share their romaji.", "quantifier": "every pair of texts without Latin letters, apostrophe and ゔ ヴ (ゐ ゑ only with use_obsolete_kana and without っ, first part); every option without upcase_katakana and every mode of to_kana other than IME", "why_tests_cant": "Strings are unbounded; a test suite or proptest only samples them.", "anchors": ["src/to_romaji.rs", "src/to_kana.rs", "src/to_kana_node_tree.rs", "src/to_romaji_node_tree.rs"]}
{"id": "C92", "title": "How many bytes the results take", "statement": "In UTF-8, the result of to_romaji or katakana_to_hiragana never takes more bytes than the text, that of hiragana_to_katakana takes as many, and those of to_kana, to_hiragana and to_katakana take at most three times as many; the bounds for to_romaji and to_kana are attained by texts of every length.", "quantifier": "every text, every option (to_hiragana and to_katakana: lower-casing as in Unicode)", "why_tests_cant": "Strings are unbounded; a test suite or proptest only samples them.", "anchors": ["src/to_romaji.rs", "src/to_kana.rs", "src/to_hiragana.rs", "src/to_katakana.rs", "src/utils/katakana_to_hiragana.rs", "src/utils/hiragana_to_katakana.rs"]}
{"id": "C93", "title": "Exactly which results pass the checks", "statement": "is_kana(to_kana(s)) holds exactly if s is non-empty, is made of kana and of ASCII that has kana, and splits into table rows and other characters with no nyy outside xn·y·y; without pass_romaji, is_katakana(to_katakana(s)) = is_kana(to_kana(s)), and is_hiragana(to_hiragana(s)) holds exactly if moreover the kana contain none of ・ヵヶ; to_romaji(s) is empty exactly if s is made of っ and of ッ with long vowel marks after it, and otherwise is romaji exactly if every character is romaji or converted and none is a bracket 「」『』.", "quantifier": "every text, every option (to_hiragana and to_katakana: lower-casing maps no other character of the text to ASCII alone; in Unicode only the Kelvin sign is)", "why_tests_cant": "Strings are unbounded; a test suite or proptest only samples them.", "anchors": ["src/to_kana.rs", "src/to_hiragana.rs", "src/to_katakana.rs", "src/to_romaji.rs", "src/is_kana.rs", "src/is_katakana.rs", "src/is_hiragana.rs", "src/is_romaji.rs"]}
{"id": "C94", "title": "Exactly when the way through the other script loses nothing", "statement": "to_katakana(to_hiragana(s)) = to_katakana(s) exactly if no long vowel mark of s is governed by a katakana letter, s has none of ヷ ヸ ヹ ヺ and (outside IME mode and without pass_romaji) to_hiragana(s) has no n left before っ. to_hiragana(to_katakana(s)) = to_hiragana(s) exactly if to_hiragana(s) has no ゕ ゖ, no long vowel mark governed by a hiragana letter and no such n.", "quantifier": "every option; every text that has no capital sigma if it has both romaji and kana and that, if it begins with English punctuation, is romaji or has both romaji and kana (with pass_romaji: every text)", "why_tests_cant": "Strings are unbounded; a test suite or proptest only samples them.", "anchors": ["src/to_hiragana.rs", "src/to_katakana.rs", "src/utils/katakana_to_hiragana.rs", "src/utils/hiragana_to_katakana.rs", "src/utils/romaji_to_hiragana.rs"]}
{"id": "C95", "title": "Exactly which texts are left alone", "statement": "to_kana(s) = s exactly if s has no Latin vowel, none of . , : / ! ? ~ - ‘ ’ “ ” and brackets, no xn, and (outside IME mode) every n is directly before y, or (in IME mode) no n is directly before n, an apostrophe or a space. katakana_to_hiragana(s) = s exactly if the only katakana in s are ー ・ ヵ ヶ; hiragana_to_katakana(s) = s exactly if s has no hiragana letter. to_hiragana and to_katakana leave s alone exactly if the respective shift does and, where they convert romaji at all, s is in lower case and to_kana leaves it alone.", "quantifier": "every text, every option", "why_tests_cant": "Strings are unbounded; a test suite or proptest only samples them.", "anchors": ["src/to_kana.rs", "src/to_hiragana.rs", "src/to_katakana.rs", "src/utils/katakana_to_hiragana.rs", "src/utils/hiragana_to_katakana.rs"]}
{"id": "C96", "title": "Converting token by token", "statement": "Converting the tokens of a text one by one with to_kana and joining the results gives to_kana of the text exactly if no open n stands directly before an apostrophe or, in IME mode with detailed tokens, before a space. An n is open unless it follows x directly or, in IME mode, is the second of a pair nn.", "quantifier": "every text, every option, detailed and compact tokens", "why_tests_cant": "Strings are unbounded; a test suite or proptest only samples them.", "anchors": ["src/tokenize.rs", "src/to_kana.rs"]}
{"id": "C97", "title": "Exactly which texts are results", "statement": "A text is the result of to_kana for some text exactly if it has no Latin vowel, none of the marks and brackets of the table, no xn, and (outside IME mode) every n is directly before y, or before っ followed by や い ゆ よ, or before ッ followed by ヤ イ ユ ヨ, or (in IME mode) no n is directly before n, an apostrophe or a space. The results of to_romaji are exactly the texts without a convertible character, those of katakana_to_hiragana the texts whose only katakana are ー ・ ヵ ヶ, those of hiragana_to_katakana the texts without hiragana letters.", "quantifier": "every text, every option", "why_tests_cant": "Strings are unbounded; a test suite or proptest only samples them.", "anchors": ["src/to_kana.rs", "src/to_romaji.rs", "src/utils/katakana_to_hiragana.rs", "src/utils/hiragana_to_katakana.rs"]}
{"id": "C98", "title": "Exactly when a text can be converted to romaji piece by piece", "statement": "Convert the pieces of a text to romaji one after the other (words, tokens of tokenize, lines, chunks of a stream; upcase_katakana off) and put the results together: this is the romaji of the whole text exactly if no piece merges with the text in front of it. A piece merges if one of its first long vowel marks (looked up through ー ・ ヵ ヶ only) has a katakana letter in front of the cut, or if in the hiragana reading of both the last kana before the cut and the first kana after it are romanized together: っ before a kana whose consonant it doubles (before ん only if a vowel or y kana follows), ん (not right after っ) before a vowel or y kana, or a contractible kana before a small ぃぇゃゅょ. The only case left out is ゔ/ヴ before a small kana, which the compact tokens never separate.", "quantifier": "for every list of texts, for every text and its tokens in both tokenize modes, with upcase_katakana off, up to ゔ before a small kana", "why_tests_cant": "Strings are unbounded; a test suite or proptest only samples them.", "anchors": ["src/to_romaji.rs", "src/tokenize.rs", "src/utils/katakana_to_hiragana.rs"]}
{"id": "C99", "title": "Exactly when upcase_katakana puts the right syllables in capitals", "statement": "to_romaji with upcase_katakana reads the script of a syllable off the original text at the position of the syllable in the hiragana form; after a ー that is lost behind ン or ッ this is the wrong position. Let the right romaji be the greedy transliteration in which every hiragana has the script of the character it comes from. The result is the right romaji exactly if no syllable whose romaji has letters is entirely katakana by one reading and not by the other. In particular it is right if a ー is lost only in a stretch of katakana that ends the text.", "quantifier": "every text, every conforming standard library", "why_tests_cant": "Strings are unbounded; a test suite or proptest only samples them.", "anchors": ["src/to_romaji.rs", "src/utils/katakana_to_hiragana.rs"]}
{"id": "C100", "title": "Characters and bytes: get_chunk works on UTF-8", "statement": "A Rust string is bytes in UTF-8. Decoding the bytes of a text with the standard library's char_indices gives exactly its characters at the expected offsets (so a text is determined by its bytes), a byte offset is a character boundary exactly if it is the byte length of an initial part of the text, and get_chunk on the bytes returns the bytes of the characters described by C54 and panics in exactly the same cases; it never cuts a character in two. The byte counts of C92 are the lengths of these encodings.", "quantifier": "every text, every start and end", "why_tests_cant": "Strings are unbounded; a test suite or proptest only samples them.", "anchors": ["src/utils/get_chunk.rs"]}
{"id": "C101", "title": "Exactly when a text with ゔ can be converted to romaji piece by piece", "statement": "The romaji table lists ゔ five times; ゔ is always written v and one of the vowels, っゔ vv and one of the vowels, but which one depends on the entry the binary search of the standard library finds. Given these two vowels (observable by converting ゔ and っゔ), the criterion of C98 is exact for every text without exception: ゔ merges with a following small ぃぇゃゅょ exactly if its vowel (the one after っ, if っ stands in front) is u. With the searches of Rust 1.52 to 1.81 and since 1.82 the vowel is never u, so ゔ and a small kana may always be separated; with a search that finds the first of equal keys they may not.", "quantifier": "every list of texts, every text and its tokens in both modes, every conforming standard library, upcase_katakana off", "why_tests_cant": "Strings are unbounded; a test suite or proptest only samples them.", "anchors": ["src/to_romaji.rs", "src/to_romaji_node_tree.rs", "src/utils/katakana_to_hiragana.rs"]}
{"id": "C102", "title": "Exactly which texts have the same hiragana with every standard library", "statement": "katakana_to_hiragana and to_hiragana give the same result with all conforming standard libraries (that lower-case alike) exactly if no long vowel mark of the text prolongs ヴ (directly or through ー ・ ヵ ヶ); the only other texts are, for to_hiragana without pass_romaji, those that begin with one of ‘ ’ “ ” and contain no ASCII and no macron vowel, whose kana are left alone.", "quantifier": "every text, every option set, all pairs of conforming standard libraries", "why_tests_cant": "Strings are unbounded; a test suite or proptest only samples them.", "anchors": ["src/to_hiragana.rs", "src/utils/katakana_to_hiragana.rs"]}
{"id": "C103", "title": "Characters and bytes: trim_okurigana and the order of texts", "statement": "trim_okurigana takes slices of the UTF-8 bytes of its text where they equal the bytes of a token. A text begins (ends) with another exactly if its bytes begin (end) with the bytes of the other, so tokenizing, collecting and trimming on bytes give the bytes of what they give on characters, with the same panics; no character is ever cut. Comparing texts by their bytes, as the maps of the generators do, is comparing them by their code points.", "quantifier": "every text, matcher and end; every pair of texts", "why_tests_cant": "Strings are unbounded; a test suite or proptest only samples them.", "anchors": ["src/trim_okurigana.rs", "src/tokenize.rs", "upstream_conversions/src/bin/to_kana_tree.rs"]}
{"id": "C104", "title": "Characters and bytes: the checks and conversions", "statement": "On the UTF-8 bytes of a text, with chars() decoding, push, push_str and collect encoding and the standard library's to_lowercase and to_uppercase working on bytes (ASCII chunks first, whatever their size, then character by character, with slices around a capital sigma that never panic), every check gives what it gives on characters and to_kana, to_romaji, to_hiragana, to_katakana and the two kana shifts give the bytes of the texts they give on characters, with the same panics (there are none). So every other property, stated for texts as sequences of characters, holds for Rust strings. Decoding from the end, as chars().last() does, finds the last character.", "quantifier": "every text, every option set, every chunk size, every conforming standard library", "why_tests_cant": "Strings are unbounded; a test suite or proptest only samples them.", "anchors": ["src/is_mixed.rs", "src/to_kana.rs", "src/to_romaji.rs", "src/to_hiragana.rs", "src/to_katakana.rs", "src/utils/katakana_to_hiragana.rs", "src/utils/hiragana_to_katakana.rs", "src/utils/romaji_to_hiragana.rs", "src/trim_okurigana.rs"]}
{"id": "C105", "title": "Characters and bytes: the command line tools", "statement": "The standard library's UTF-8 check accepts a sequence of bytes exactly if it is the encoding of a text. The programs to_kana and to_romaji panic exactly if an argument (the program name included) is not UTF-8, or there are no arguments (or a single empty one) and standard input cannot be read or is not UTF-8. Otherwise they write the UTF-8 bytes of the conversion of the arguments joined by spaces and a newline, or of the conversion of standard input and nothing else.", "quantifier": "every sequence of bytes, every list of byte strings as arguments, every content of standard input, every conforming standard library", "why_tests_cant": "Strings are unbounded; a test suite or proptest only samples them.", "anchors": ["src/bin/to_kana.rs", "src/bin/to_romaji.rs"]}
{"id": "C106", "title": "Threads may use the crate for the first time at the same time", "statement": "The tables of the crate are created at first use (lazy_static). Whatever functions any number of threads call, and however their steps interleave: every thread gets the results it would get if the tables were constants, no initialiser is started twice, no table is read before its value is stored, no table is poisoned, the threads never wait for each other in a circle (the initialisers of two tables themselves use a third), and all threads together come to their end within 34 steps more than they use tables.", "quantifier": "all numbers of threads, all programs that use the tables in any way (in particular all sequences of calls of is_romaji, is_japanese, is_mixed_pass_kanji, to_kana_with_opt, to_romaji_with_opt, to_hiragana_with_opt, to_katakana_with_opt, tokenize_detailed, trim_okurigana_with_opt), all interleavings", "why_tests_cant": "Strings are unbounded; a test suite or proptest only samples them.", "anchors": ["src/to_kana_node_tree.rs:51-4860", "src/to_romaji_node_tree.rs:42-2682", "src/constants.rs:66-87", "src/utils/katakana_to_hiragana.rs:33-41", "src/utils/hashmap_macro.rs:1-17"]}
{"id": "C107", "title": "Tokens are maximal runs also with the group_by that itertools implements", "statement": "itertools' group_by does not compute the runs at once: the iterator over the groups and the iterators over their elements advance a shared state in turn, with a buffer for groups asked for late. The loops of tokenize_with_opt and tokenize_detailed over it never panic, always end, and collect exactly the maximal runs of characters with equal keys, for every key function; so both functions have the results that the other claims describe.", "quantifier": "all strings, both values of compact; group_by for all key functions into all types with equality", "why_tests_cant": "Strings are unbounded; a test suite or proptest only samples them.", "anchors": ["src/tokenize.rs:114-120", "src/tokenize.rs:145-151"]}
{"id": "C108", "title": "Trimming is right with the string matcher of the standard library", "statement": "trim_okurigana strips a token with str::trim_start_matches / trim_end_matches, which the standard library implements with its general string matcher (StrSearcher: the Two-Way algorithm with a critical factorisation, a period, a set of bytes and a memory, on bytes). For every text and every pattern, empty ones included, preparing the matcher and asking it for the first piece that does not match ends without reading outside of the text, underflow or cutting a character, and the slice that is returned is the text without the copies of the pattern at that side: all of them and nothing else. Hence trim_okurigana with this matcher has the results of the other claims.", "quantifier": "all texts, all patterns, both sides, all arguments of trim_okurigana", "why_tests_cant": "Strings are unbounded; a test suite or proptest only samples them.", "anchors": ["src/trim_okurigana.rs:66-95"]}
{"id": "C109", "title": "Tokenizing and trimming take linear time", "statement": "tokenize takes at most 13 steps per character and 4 more. str::trim_start_matches and trim_end_matches, as the standard library implements them, take at most 6 steps per byte of the text and 11 per byte of the pattern, and 7 more, whatever the pattern is and however often it occurs. trim_okurigana takes at most 7 steps per byte of the text, 27 per byte of the text that is tokenized, and 12 more. Counting changes no result.", "quantifier": "every text, pattern, direction, kanji text and compact flag", "why_tests_cant": "Strings are unbounded; a test suite or proptest only samples them.", "anchors": ["src/tokenize.rs:114-151", "src/trim_okurigana.rs:66-95"]}
{"id": "C110", "title": "A text with ゔ never survives kana to romaji to kana", "statement": "If the standard library makes to_romaji write ゔ and っゔ with a vowel other than u (observable by converting the two; true of Rust 1.52 and later), then to_kana(to_romaji(s)) = s exactly if s consists of regular hiragana syllables, Japanese marks and characters that neither function converts. So C82 holds for texts with ゔ too, and a text with ゔ or ヴ anywhere in it never comes back.", "quantifier": "every text without Latin letters and apostrophe; every option without upcase_katakana, every mode of to_kana other than IME; every conforming standard library with these vowels, in particular those of Rust 1.52 to 1.81 and since 1.82", "why_tests_cant": "Strings are unbounded; a test suite or proptest only samples them.", "anchors": ["src/to_romaji.rs", "src/to_kana.rs", "src/to_kana_node_tree.rs", "src/to_romaji_node_tree.rs"]}
{"id": "C111", "title": "Which texts to_hiragana and to_katakana bring back from their romaji", "statement": "Let r = to_romaji(s). to_hiragana(r) converts r only if r is romaji, mixed, or starts with English punctuation and pass_romaji is off; then it equals to_kana of r in lower case, and otherwise it is r itself. So to_hiragana(r) = s exactly if r is converted and s consists of regular hiragana syllables, Japanese marks and unconverted characters, or r is not converted and s has nothing to convert (a text with kanji and kana, such as 漢字かな, does not come back). to_katakana(r) = s exactly if s has no hiragana letter and either r is converted (romaji or mixed, pass_romaji off), s has no ヷヸヹヺ, no long vowel mark follows a katakana letter, and the hiragana form of s consists of regular pieces; or r is not converted and s has nothing to convert.", "quantifier": "every text without Latin letters, apostrophes and upper case; every option of to_romaji without upcase_katakana, every option of the second function other than IME mode without obsolete kana; every conforming standard library that writes ゔ and っゔ with a vowel other than u, in particular that of Rust 1.52 and later", "why_tests_cant": "Strings are unbounded; a test suite or proptest only samples them.", "anchors": ["src/to_hiragana.rs:16-35", "src/to_katakana.rs:8-23", "src/to_romaji.rs", "src/utils/romaji_to_hiragana.rs", "src/utils/katakana_to_hiragana.rs", "src/utils/hiragana_to_katakana.rs"]}
{"id": "C112", "title": "Which texts with Latin letters survive kana to romaji to kana", "statement": "If the standard library makes to_romaji write ゔ and っゔ with a vowel other than u (true of Rust 1.52 and later), then to_kana(to_romaji(s)) = s exactly if (1) s consists of regular hiragana syllables, Japanese marks, characters that neither function converts, Latin letters and apostrophes; (2) no ん stands directly before y, Y or an apostrophe; (3) for every Latin letter c of s, with t the romaji of the text after it, no key of to_kana's table begins the lower case form of c followed by t, except that n may stand before y. This settles the texts C82 and C110 leave out; for example tち and nyか come back, kか does not. A text with a Latin vowel never comes back.", "quantifier": "every text, with no restriction on its characters; every option of to_romaji without upcase_katakana, every mode of to_kana other than IME; every conforming standard library with these vowels, in particular those of Rust 1.52 to 1.81 and since 1.82", "why_tests_cant": "Strings are unbounded; a test suite or proptest only samples them.", "anchors": ["src/to_romaji.rs", "src/to_kana.rs", "src/to_kana_node_tree.rs", "src/to_romaji_node_tree.rs"]}
{"id": "C113", "title": "The command line tools never write anything wrong, and say so if output is lost but for an unfinished last line", "statement": "The operating system may hand over standard input in any pieces, take the output in any pieces, interrupt calls and fail. Whatever it does, what to_kana and to_romaji have written at any time is a beginning of the bytes of the conversion (with a newline when converting arguments). If a program ends with status 0, everything is written except perhaps an unfinished last line of less than 1024 bytes, and that only if a call of write failed; with arguments nothing can be missing. Status 101 means the input was unusable or a call of write failed. If no call fails and output is taken often enough, the program ends with status 0 and everything written. Whenever the conversion of standard input ends with an unfinished line of less than 1024 bytes the system can refuse that line and the program still ends with status 0. With standard output closed nothing is written and the status is 0. Without usable text nothing is written.", "quantifier": "all arguments, all sequences of answers of the operating system to read and write (finite, of any length, so all moments of all executions), standard input and output open or closed, every conforming standard library", "why_tests_cant": "Strings are unbounded; a test suite or proptest only samples them.", "anchors": ["src/bin/to_kana.rs:6-17", "src/bin/to_romaji.rs:6-17"]}
{"id": "C114", "title": "Exactly when a text can be converted line by line", "statement": "to_kana and (without upcase_katakana) to_romaji always give the same whether a text is converted as a whole or line by line. to_katakana and to_hiragana look at the whole text to decide whether romaji are converted, and a line feed counts as romaji: a text of several lines has its romaji converted if some line has a kana or all characters are romaji (for to_hiragana also if it starts with English punctuation). to_katakana gives the same line by line exactly if every line for which this decision is different when taken for the line alone is in lower case and has nothing to_kana would convert. to_hiragana gives the same exactly if, where the text is converted, every line is converted by itself, or it does not start with a curly quote and its hiragana form is in lower case and has nothing to convert, and no line starting with a curly quote has katakana but no romaji; and, where the text is not converted, lines converted by themselves have nothing to convert. With pass_romaji both always give the same.", "quantifier": "all texts of any number of lines, all options, every conforming standard library whose lower case does not depend on other lines (shown of Rust's)", "why_tests_cant": "Strings are unbounded; a test suite or proptest only samples them.", "anchors": ["src/to_hiragana.rs", "src/to_katakana.rs", "src/to_kana.rs", "src/to_romaji.rs", "src/is_mixed.rs"]}
{"id": "C115", "title": "Exactly which romaji are canonical, with Latin letters, apostrophes and ゔ", "statement": "If the standard library makes to_romaji write ゔ and っゔ with a vowel other than u (true of Rust 1.52 and later), then to_romaji(to_kana(r)) = r exactly if r can be read from the left as: romaji of the kana to romaji table and characters that are not converted; an n not followed by a vowel, y or an apostrophe (in either case); apostrophes; and Latin letters at which no key of to_kana's table begins (n may stand before y). This settles the romaji C84 leaves out; for example tchi and nyka are canonical, n'ka and vu are not. That such romaji come back needs no assumption on ゔ.", "quantifier": "every text, with no restriction on its characters; every option of to_romaji without upcase_katakana, every mode of to_kana other than IME; every conforming standard library with these vowels, in particular those of Rust 1.52 to 1.81 and since 1.82", "why_tests_cant": "Strings are unbounded; a test suite or proptest only samples them.", "anchors": ["src/to_romaji.rs", "src/to_kana.rs", "src/to_kana_node_tree.rs", "src/to_romaji_node_tree.rs"]}
{"id": "C116", "title": "Which texts with Latin letters to_hiragana and to_katakana bring back from their romaji", "statement": "Let r = to_romaji(s), for a standard library that makes to_romaji write ゔ and っゔ with a vowel other than u (Rust 1.52 and later). to_hiragana(r) = s exactly if either r is converted (pass_romaji off and r romaji, mixed or starting with English punctuation), s is in lower case and meets the conditions of C112 (regular hiragana syllables, marks, unconverted characters, Latin letters that are not read together with the romaji after them, no ん before y or an apostrophe); or r is not converted and s has nothing to convert. to_katakana(r) = s exactly if s has no hiragana letter and either r is converted (pass_romaji off and r romaji or mixed), s is in lower case, has no ヷヸヹヺ, no long vowel mark follows a katakana letter, and the hiragana form of s meets the conditions of C112; or r is not converted and s has nothing to convert. This is C111 without its restriction to texts without Latin letters, apostrophes and upper case.", "quantifier": "every text, with no restriction on its characters; every option of to_romaji without upcase_katakana, every option of the second function other than IME mode without obsolete kana; every conforming standard library with these vowels, in particular that of Rust 1.52 and later", "why_tests_cant": "Strings are unbounded; a test suite or proptest only samples them.", "anchors": ["src/to_hiragana.rs", "src/to_katakana.rs", "src/to_romaji.rs", "src/to_kana.rs"]}
{"id": "C117", "title": "Which texts in both scripts, Latin letters included, survive with upcase_katakana", "statement": "If the standard library makes to_romaji write ゔ and っゔ with a vowel other than u (true of Rust 1.52 and later), then with upcase_katakana on, to_kana(to_romaji(s)) = s exactly if (1) s consists of regular syllables each wholly in hiragana or wholly in katakana, Japanese marks, characters that neither function converts, Latin letters and apostrophes; (2) where ん or ン stands before a vowel or y-kana, both are hiragana; (3) no long vowel mark prolongs a katakana letter; (4) no ん or ン stands directly before y, Y or an apostrophe; (5) for every Latin letter c of s, with t the romaji of the text after it, no key of to_kana's table begins the lower case form of c followed by t, except that n may stand before y. This settles the texts C85 leaves out: tチTち comes back, kカ and everything with ゔ or ヴ do not.", "quantifier": "every text, with no restriction on its characters; every option of to_romaji with upcase_katakana, every mode of to_kana other than IME; every conforming standard library with these vowels, in particular those of Rust 1.52 to 1.81 and since 1.82", "why_tests_cant": "Strings are unbounded; a test suite or proptest only samples them.", "anchors": ["src/to_romaji.rs", "src/to_kana.rs", "src/to_kana_node_tree.rs", "src/to_romaji_node_tree.rs"]}
{"id": "C118", "title": "Exactly which texts are results of to_katakana and to_hiragana", "statement": "With pass_romaji, the results of to_katakana are the texts without hiragana letters, those of to_hiragana the texts whose only katakana are ー ・ ヵ ヶ. Without it, such a text t is a result exactly if it would not be converted itself (to_katakana: neither romaji nor mixed; to_hiragana: nor starting with English punctuation), or it is in lower case, could be a result of to_kana (C97), and outside IME mode one of these holds: some kana of t is neither directly behind n nor behind n and a small tsu; every character of t is romaji, kana or a mark to_kana writes for keyboard punctuation; or, for to_hiragana, t begins with English punctuation or a mark that stands for it. So 漢nッヤ is no result of to_katakana, 。nッヤ is. Texts with other katakana are results of to_hiragana only if they begin with 「 」 『 or 』; with the case mappings of current Rust they are results exactly if moreover they are in lower case and contain no curly quote and no romaji but k (to which the Kelvin sign is lower-cased).", "quantifier": "every text, every option; every conforming standard library (texts with other katakana next to romaji: the case mappings of current Rust)", "why_tests_cant": "Strings are unbounded; a test suite or proptest only samples them.", "anchors": ["src/to_hiragana.rs", "src/to_katakana.rs", "src/to_kana.rs", "src/utils/is_char_english_punctuation.rs"]}
{"id": "C119", "title": "What the generators print is the tree they built", "statement": "The trees of the crate were made by printing a tree with println!(\"{:#?}\", ..) and pasting the text into the source. Reading the printed text as Rust tokens gives exactly the tokens that write down the tree: brackets, field names and None/Some in the right places, and character and string literals whose escapes stand for the original characters. The generator prints if and only if it can build a tree, so two tables with the same printed text gave the same tree, whichever characters the standard library considers printable.", "quantifier": "all JSON tables, all trees, all choices of unprintable characters", "why_tests_cant": "Strings are unbounded; a test suite or proptest only samples them.", "anchors": ["upstream_conversions/src/bin/to_kana_tree.rs:8", "upstream_conversions/src/bin/to_kana_tree.rs:1903", "upstream_conversions/src/bin/to_romaji_tree.rs:8", "upstream_conversions/src/bin/to_romaji_tree.rs:1128"]}
{"id": "C120", "title": "The trees and tables of the model are the ones in the source", "statement": "Everything proved about conversions is about the trees in src/to_kana_node_tree.rs and src/to_romaji_node_tree.rs. The text of these literals, read as Rust tokens (commas before closing brackets taken out), says exactly: let transitions = vec![..] with the transitions of the modelled tree, in order, and no other tree is written like that. The same holds for the json! tables of the generators: read as JSON, their text is the modelled table.", "quantifier": "the whole text of the four literals (4759 + 2631 + 1884 + 1109 lines); all trees for uniqueness", "why_tests_cant": "Strings are unbounded; a test suite or proptest only samples them.", "anchors": ["src/to_kana_node_tree.rs:53", "src/to_kana_node_tree.rs:4811", "src/to_romaji_node_tree.rs:44", "src/to_romaji_node_tree.rs:2674", "upstream_conversions/src/bin/to_kana_tree.rs:16", "upstream_conversions/src/bin/to_romaji_tree.rs:16"]}
{"id": "C121", "title": "Exactly when a text can be converted to romaji piece by piece, with katakana in capitals", "statement": "With upcase_katakana, and if no ー is lost behind ン or ッ in a piece other than the last, the romaji of the pieces of a text put together are the romaji of the whole text exactly if no piece merges with the text in front of it in the sense of C101 (a long vowel mark, っ, ん or a small kana reaching across the cut) and, in addition, no hiragana っ in front of a piece spoils the capitals of its first syllable: っ before a vowel, y or n syllable is lost in romaji, but it counts as a part of that syllable, so that a katakana syllable after a hiragana っ is written in small letters (っア is a, though ア is A).", "quantifier": "every list of texts no piece of which but the last loses a ー, in particular the tokens of a text in both modes; every conforming standard library", "why_tests_cant": "Strings are unbounded; a test suite or proptest only samples them.", "anchors": ["src/to_romaji.rs", "src/tokenize.rs", "src/utils/katakana_to_hiragana.rs"]}
{"id": "C122", "title": "Converting to kana and back again and again comes to rest, or the text grows without end", "statement": "A user who converts a text to kana and back to romaji repeatedly (an editor that normalises on every save) reaches, after at most three trips per character of the text and one more, canonical romaji (C115) that no further trip changes, unless ゔ or ヴ turns up among the kana on the way; from then on the romaji have more than n characters after n further trips, so they exceed every length. Texts without v, V, ゔ and ヴ always come to rest. No fixed number of trips does for all texts: n times l followed by a needs exactly n trips.", "quantifier": "every text, all options but upcase_katakana and except IME mode without obsolete kana; every conforming standard library that writes ゔ and っゔ with a vowel other than u (all Rust versions from 1.52 on do)", "why_tests_cant": "Strings are unbounded; a test suite or proptest only samples them.", "anchors": ["src/to_kana.rs", "src/to_romaji.rs", "src/to_kana_node_tree.rs", "src/to_romaji_node_tree.rs"]}
{"id": "C123", "title": "Exactly which texts survive kana to romaji to kana in IME mode", "statement": "If the standard library makes to_romaji write ゔ and っゔ with a vowel other than u (true of Rust 1.52 and later), then in IME mode without obsolete kana to_kana(to_romaji(s)) = s exactly if (1) s consists of regular hiragana syllables, Japanese marks, characters that neither function converts, Latin letters and apostrophes; (2) every ん of s stands directly before あ い う え お や ゆ or よ; (3) for every Latin letter c of s, with t the romaji of the text after it, no key of the IME table begins the lower case form of c followed by t. So ほんや comes back in IME mode, ほん and ほんか do not (the n is left waiting), while nか comes back here and not in the other modes. This settles the mode C112 leaves out.", "quantifier": "every text, with no restriction on its characters; every option of to_romaji without upcase_katakana; to_kana in IME mode without obsolete kana; every conforming standard library with these vowels, in particular those of Rust 1.52 to 1.81 and since 1.82", "why_tests_cant": "Strings are unbounded; a test suite or proptest only samples them.", "anchors": ["src/to_romaji.rs", "src/to_kana.rs", "src/to_kana_node_tree.rs", "src/to_romaji_node_tree.rs"]}
{"id": "C124", "title": "Exactly which romaji are canonical in IME mode", "statement": "If the standard library makes to_romaji write ゔ and っゔ with a vowel other than u (true of Rust 1.52 and later), then with to_kana in IME mode without obsolete kana to_romaji(to_kana(r)) = r exactly if r can be read from the left as: romaji of the kana to romaji table other than n and characters that are not converted; apostrophes; and Latin letters at which no key of the IME table begins. So the half-typed hon, honda and sh are canonical; honn and n followed by a space are not, for they give ん, which is written n. That such romaji come back needs no assumption on ゔ. This settles the mode C115 leaves out.", "quantifier": "every text, with no restriction on its characters; every option of to_romaji without upcase_katakana; to_kana in IME mode without obsolete kana; every conforming standard library with these vowels, in particular those of Rust 1.52 to 1.81 and since 1.82", "why_tests_cant": "Strings are unbounded; a test suite or proptest only samples them.", "anchors": ["src/to_romaji.rs", "src/to_kana.rs", "src/to_kana_node_tree.rs", "src/to_romaji_node_tree.rs"]}
{"id": "C125", "title": "Converting back and forth in IME mode comes to rest, or the text grows without end", "statement": "With to_kana in IME mode, converting a text to kana and back to romaji repeatedly reaches, after at most three trips per character of the text and one more, romaji canonical in IME mode (C124) that no further trip changes, unless ゔ or ヴ turns up among the kana on the way; from then on the romaji have more than n characters after n further trips. Texts without v, V, ゔ and ヴ always come to rest. Exactly the texts come to rest that never have ゔ or ヴ among their kana on the way. For example nnnnn becomes nnn, nn, n and stays.", "quantifier": "every text, all options of to_romaji but upcase_katakana, to_kana in IME mode without obsolete kana; every conforming standard library that writes ゔ and っゔ with a vowel other than u (all Rust versions from 1.52 on do)", "why_tests_cant": "Strings are unbounded; a test suite or proptest only samples them.", "anchors": ["src/to_kana.rs", "src/to_romaji.rs", "src/to_kana_node_tree.rs", "src/to_romaji_node_tree.rs"]}
{"id": "C126", "title": "Which texts to_hiragana and to_katakana in IME mode bring back from their romaji", "statement": "Let r = to_romaji(s), for a standard library that makes to_romaji write ゔ and っゔ with a vowel other than u (Rust 1.52 and later), and let to_hiragana and to_katakana run in IME mode without obsolete kana. to_hiragana(r) = s exactly if either r is converted (pass_romaji off and r romaji, mixed or starting with English punctuation), s is in lower case and meets the conditions of C123 (regular hiragana syllables, marks, unconverted characters, Latin letters at which no key of the IME table begins together with the romaji after them, every ん directly before a vowel or や ゆ よ); or r is not converted and s has nothing to convert. to_katakana(r) = s exactly if s has no hiragana letter and either r is converted (pass_romaji off and r romaji or mixed), s is in lower case, has no ヷヸヹヺ, no long vowel mark follows a katakana letter, and the hiragana form of s meets the conditions of C123; or r is not converted and s has nothing to convert. So ホンヤ comes back, ホン does not (its n is left waiting). This settles the mode C116 leaves out.", "quantifier": "every text, with no restriction on its characters; every option of to_romaji without upcase_katakana, the second function in IME mode without obsolete kana; every conforming standard library with these vowels, in particular that of Rust 1.52 and later", "why_tests_cant": "Strings are unbounded; a test suite or proptest only samples them.", "anchors": ["src/to_hiragana.rs", "src/to_katakana.rs", "src/to_romaji.rs", "src/to_kana.rs"]}
{"id": "C127", "title": "Exactly where IME mode changes what to_kana writes", "statement": "to_kana gives the same result with and without imemode exactly if use_obsolete_kana is set, or every n of the text (in either case) is directly followed by a vowel, y or an apostrophe, or directly follows an x. So any text with a final n, a double n, or an n before another consonant, a space or a kana is changed: nowhere does what the two modes do differently cancel out later in the text. What IME mode writes is never longer than what the normal mode writes. This sharpens C17, which covers texts without n only.", "quantifier": "every text, every combination of the other options, every conforming standard library", "why_tests_cant": "Strings are unbounded; a test suite or proptest only samples them.", "anchors": ["src/to_kana.rs", "src/to_kana_node_tree.rs"]}
{"id": "C128", "title": "Which texts in both scripts survive the trip to romaji and back in IME mode", "statement": "Let to_romaji run with upcase_katakana, and to_kana in IME mode without obsolete kana, for a standard library that makes to_romaji write ゔ and っゔ with a vowel other than u (Rust 1.52 and later). to_kana(to_romaji(s)) = s exactly if s is made of regular syllables (each wholly in hiragana or wholly in katakana), Japanese marks, characters that are not converted, Latin letters and apostrophes; s has no ン, and every ん is directly followed by a vowel or や ゆ よ in hiragana; no long vowel mark follows a katakana letter; and at no Latin letter does a key of the IME table begin, together with the romaji of what follows the letter. So ほんやノ comes back, ホン and ホンヤ do not. This settles the mode C117 leaves out.", "quantifier": "every text, with no restriction on its characters; every option of to_romaji with upcase_katakana, to_kana in IME mode without obsolete kana; every conforming standard library with these vowels, in particular that of Rust 1.52 and later", "why_tests_cant": "Strings are unbounded; a test suite or proptest only samples them.", "anchors": ["src/to_romaji.rs", "src/to_kana.rs", "src/to_romaji_node_tree.rs", "src/to_kana_node_tree.rs"]}
{"id": "C129", "title": "Exactly where IME mode changes what to_hiragana and to_katakana write", "statement": "Call a text settled if every n in it is directly followed by a vowel, y or an apostrophe, or directly follows an x. to_hiragana gives the same result with and without imemode exactly if pass_romaji or use_obsolete_kana is set, or the text it hands to to_kana is settled or it hands over none: for mixed text that is the lower-case form of its katakana_to_hiragana, for romaji and for other text that starts with English punctuation its own lower-case form. to_katakana gives the same result exactly if pass_romaji or use_obsolete_kana is set, or the text is neither romaji nor mixed, or its lower-case form is settled. So the change of script afterwards never hides what IME mode does.", "quantifier": "every text, every combination of the other options, every conforming standard library", "why_tests_cant": "Strings are unbounded; a test suite or proptest only samples them.", "anchors": ["src/to_hiragana.rs", "src/to_katakana.rs", "src/to_kana.rs", "src/utils/romaji_to_hiragana.rs"]}
{"id": "C130", "title": "Exactly where use_obsolete_kana changes the result", "statement": "Call a text joined if every w directly followed by i or e in it directly follows one of d, f, g, q, s, t, w (as in twi); and settled if every n in it is directly followed by a vowel, y or an apostrophe, or directly follows an x. Setting use_obsolete_kana changes nothing in the result of to_kana exactly if the text, with its ASCII letters in lower case, is joined and, when imemode is set, also settled (the option turns IME mode off). So without imemode it matters exactly for texts with a wi or we that is not part of a longer key, such as kwi and lwi but not twi. to_hiragana and to_katakana give the same result with and without the option exactly if pass_romaji is set, or the text they hand to to_kana, in lower case, meets the same condition, or they hand over none.", "quantifier": "every text, every combination of the other options, every conforming standard library", "why_tests_cant": "Strings are unbounded; a test suite or proptest only samples them.", "anchors": ["src/to_kana.rs", "src/to_kana_node_tree.rs", "src/to_hiragana.rs", "src/to_katakana.rs"]}
{"id": "C131", "title": "Exactly where pass_romaji changes the result", "statement": "Call a text inert if it is its own lower-case form and to_kana leaves it alone: with its ASCII letters in lower case it has no vowel and no mark that to_kana converts, no xn, and every n stands directly before y (in IME mode: none before n, an apostrophe or a space). to_katakana gives the same result with and without pass_romaji exactly if the text is neither romaji nor mixed, or it is inert. to_hiragana gives the same result exactly if, for mixed text, its katakana_to_hiragana is inert, and, for romaji and for other text that starts with English punctuation, the text itself is inert. In particular a capital letter in such a text is always changed without the option, even where no kana comes of it.", "quantifier": "every text, every combination of the other options, every conforming standard library", "why_tests_cant": "Strings are unbounded; a test suite or proptest only samples them.", "anchors": ["src/to_hiragana.rs", "src/to_katakana.rs", "src/to_kana.rs", "src/utils/romaji_to_hiragana.rs"]}
{"id": "C132", "title": "Which romaji are canonical with katakana in capitals", "statement": "Let upcase_katakana be on for to_romaji, and use_obsolete_kana on for to_kana if IME mode is. With every conforming standard library a text comes back unchanged from to_kana followed by to_romaji if it is made of these parts, read from the left: a romaji of the kana table (with the romaji of ゐ and ゑ only for use_obsolete_kana and not after っ), in lower case, or wholly in capitals if it consists of letters only; a character that is not converted; n or N that is not followed by a vowel, y or an apostrophe; an apostrophe; a Latin letter to_kana does not read in its place; and a dash only where the kana before it (looking past - / ヵ ヶ) is not katakana. If moreover the standard library makes to_romaji write ゔ and っゔ with a vowel other than u, as in Rust 1.52 and later, no other text comes back.", "quantifier": "every text; every option set with upcase_katakana on in one direction, and use_obsolete_kana on if imemode is in the other", "why_tests_cant": "Strings are unbounded; a test suite or proptest only samples them.", "anchors": ["src/to_kana.rs", "src/to_romaji.rs", "src/to_kana_node_tree.rs", "src/to_romaji_node_tree.rs"]}
{"id": "C133", "title": "Exactly when the script of the kana does not matter for the romaji", "statement": "Without upcase_katakana, to_romaji gives the same result for a text and for its katakana_to_hiragana exactly if no long vowel mark (ー) prolongs a katakana letter ending in o, where ヴ counts as ending in o if to_romaji writes ゔ as vo; such a mark is o in the romaji of the katakana but u in that of the hiragana (コーヒー: koohii and kouhii). It gives the same result for a text and for its hiragana_to_katakana exactly if the text has no ゕ, no ゖ and no long vowel mark that prolongs a hiragana letter; such a mark is a hyphen in the romaji of the hiragana and a vowel in that of the katakana (すーぱー: su-pa-). The letter a mark prolongs is the last character before it other than ー ・ ヵ ヶ.", "quantifier": "every text, every option set without upcase_katakana, every conforming standard library", "why_tests_cant": "Strings are unbounded; a test suite or proptest only samples them.", "anchors": ["src/to_romaji.rs", "src/utils/katakana_to_hiragana.rs", "src/utils/hiragana_to_katakana.rs", "src/to_romaji_node_tree.rs"]}
{"id": "C134", "title": "Which romaji are canonical with katakana in capitals in IME mode", "statement": "Let upcase_katakana be on for to_romaji, and IME mode on and use_obsolete_kana off for to_kana. With every conforming standard library a text comes back unchanged from to_kana followed by to_romaji if it is made of these parts, read from the left: a romaji of the kana table other than n (and than those of ゐ and ゑ), in lower case, or wholly in capitals if it consists of letters only; a character that is not converted; an apostrophe; a Latin letter, n and N included, at which no key of the IME table begins in either case; and a dash only where the kana before it (looking past - / ヵ ヶ) is not katakana. If moreover the standard library makes to_romaji write ゔ and っゔ with a vowel other than u, as in Rust 1.52 and later, no other text comes back.", "quantifier": "every text; every option set with upcase_katakana on in one direction, and imemode on and use_obsolete_kana off in the other", "why_tests_cant": "Strings are unbounded; a test suite or proptest only samples them.", "anchors": ["src/to_kana.rs", "src/to_romaji.rs", "src/to_kana_node_tree.rs", "src/to_romaji_node_tree.rs"]}
{"id": "C135", "title": "Exactly where upcase_katakana changes the result", "statement": "There are vowels x and y, given by the standard library, such that to_romaji with upcase_katakana differs from to_romaji without it exactly if the text has a syllable (the hiragana form read from the left by longest match in the kana table, in which ゔ is vx and っゔ vvy) that is written with at least one letter and is entirely katakana, where the script of each hiragana is that of the character at the same position in the text. So きャ, っカ, んア, ー and ・ are not changed.", "quantifier": "every text, every two option sets that differ in upcase_katakana, every conforming standard library", "why_tests_cant": "Strings are unbounded; a test suite or proptest only samples them.", "anchors": ["src/to_romaji.rs", "src/to_romaji_node_tree.rs"]}
{"id": "C136", "title": "Exactly when any text can be converted to romaji piece by piece, with katakana in capitals", "statement": "With upcase_katakana the romaji of the pieces of a text put together are the romaji of the whole text exactly if no piece merges with the text in front of it in the sense of C101, and no syllable written with letters has one case in the whole text and another in its piece: in both the syllable is in capitals if all its hiragana are marked as katakana, where the mark of a hiragana is the script of the character at the same position (in the whole text, or in the piece), and a っ that ends the hiragana of a piece counts as katakana. Unlike C121 this needs no condition about lost long vowel marks: behind a lost ー (ンー) the marks in the whole text are those of earlier characters.", "quantifier": "every list of texts, every two texts, the tokens of every text in both modes; every conforming standard library", "why_tests_cant": "Strings are unbounded; a test suite or proptest only samples them.", "anchors": ["src/to_romaji.rs", "src/to_romaji_node_tree.rs", "src/tokenize.rs"]}
{"id": "C137", "title": "Mixed text with capital sigma is converted run by run too", "statement": "If s has both kana and romaji, cut it into maximal runs of kana and of other characters and replace each capital sigma by one of its two small forms, namely the one that lower-casing puts there (lower-casing s for to_katakana, s with its katakana made hiragana for to_hiragana). Then to_hiragana(s) is the concatenation of katakana_to_hiragana(run) for the kana runs and to_kana(lowercase(run)) for the others; to_katakana(s) is likewise, with hiragana_to_katakana. So capital sigma is the only character through which one run can affect another (compare C60).", "quantifier": "every mixed string, every option without pass_romaji", "why_tests_cant": "Strings are unbounded; a test suite or proptest only samples them.", "anchors": ["src/to_hiragana.rs", "src/to_katakana.rs"]}
{"id": "C138", "title": "Capital sigma makes no difference between the ways of converting", "statement": "With the case mappings of Unicode (the Rust standard library), a text s with kana and romaji is converted by to_hiragana and by to_katakana exactly like one and the same text t: s with each capital sigma replaced by the small sigma that lower-casing s puts there. Hence what C94 says about converting by way of the other script holds for texts with capital sigma too.", "quantifier": "every text with kana and romaji, every option without pass_romaji; for the way through the other script every option and every text that, if it begins with English punctuation, is romaji or has both romaji and kana (with pass_romaji: every text)", "why_tests_cant": "Strings are unbounded; a test suite or proptest only samples them.", "anchors": ["src/to_hiragana.rs", "src/to_katakana.rs", "src/utils/katakana_to_hiragana.rs"]}
{"id": "C139", "title": "The way through the other script for texts beginning with English punctuation", "statement": "If s begins with English punctuation but neither is romaji nor has both romaji and kana (the texts C94 and C138 leave out), then to_katakana(to_hiragana(s)) = to_katakana(s) exactly if to_hiragana(s) = s, and, with the case mappings of Unicode, to_hiragana(to_katakana(s)) = to_hiragana(s) exactly if to_katakana(s) = s. (C95 says which texts are left alone.)", "quantifier": "every such text, every option without pass_romaji", "why_tests_cant": "Strings are unbounded; a test suite or proptest only samples them.", "anchors": ["src/to_hiragana.rs", "src/to_katakana.rs"]}
{"id": "C140", "title": "Typing on after a text that already has kana or kanji", "statement": "In IME mode (without pass_romaji and use_obsolete_kana): converting a text a first, then appending b and converting again, gives the conversion of a+b in one go, provided neither has a capital sigma, b is empty or has some romaji (it may have kana and kanji too), and: for to_katakana, a has a character that is not romaji; for to_hiragana, b does not begin with a kana, and a has both kana and romaji, or a has a character that is not romaji and does not begin with English punctuation. If a does begin with English punctuation (and, should this be one of ‘ ’ “ ”, has no kana), romaji b is converted as in one go exactly if b is empty, the result for a has a kana, is all romaji, begins with English punctuation, or b would stay as it is anyway.", "quantifier": "every text a as described, every text b as described, every standard library as described", "why_tests_cant": "Strings are unbounded; a test suite or proptest only samples them.", "anchors": ["src/to_hiragana.rs", "src/to_katakana.rs", "src/to_kana.rs", "src/utils/katakana_to_hiragana.rs"]}
{"id": "C141", "title": "Tokens and trimming in the other script", "statement": "The tokens of the katakana form of a text are the katakana forms of its tokens exactly if no hiragana letter stands next to a katakana letter; compact tokens always carry over. trim_okurigana without a matcher and hiragana_to_katakana may change places, at either end, exactly if the script does not change from one kana letter to the other right where the text is cut.", "quantifier": "every text", "why_tests_cant": "Strings are unbounded; a test suite or proptest only samples them.", "anchors": ["src/tokenize.rs", "src/trim_okurigana.rs", "src/utils/hiragana_to_katakana.rs"]}
{"id": "C142", "title": "Going on after a romanized beginning", "statement": "If the beginning of a text has been romanized already (with whatever options), to_romaji keeps it and romanizes the rest as if it stood alone; a romanized end is kept likewise and leaves what stands before it alone. So romanizing the beginning first makes no difference exactly if beginning and rest do not merge where they meet in the sense of C101 and, with upcase_katakana, no syllable gets a different case in the sense of C136.", "quantifier": "every beginning and rest, every option, every conforming standard library", "why_tests_cant": "Strings are unbounded; a test suite or proptest only samples them.", "anchors": ["src/to_romaji.rs", "src/utils/katakana_to_hiragana.rs"]}
{"id": "C143", "title": "Exactly when katakana can be converted to hiragana piece by piece", "statement": "The results of katakana_to_hiragana for the pieces of a text put together are the result for the whole text exactly if no ー among the first characters (ー ・ ヵ ヶ) of a piece stands, across at most such characters, behind a katakana letter in the text before it. After a beginning already converted the rest is converted as if it stood alone, so converting the beginning first makes no difference exactly under this condition too.", "quantifier": "every list of texts, every two texts, the tokens of every text in both modes; both settings of the flag for romaji, every conforming standard library", "why_tests_cant": "Strings are unbounded; a test suite or proptest only samples them.", "anchors": ["src/utils/katakana_to_hiragana.rs", "src/tokenize.rs"]}
