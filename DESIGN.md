# Formal model of wana_kana (Rust) in Lean 4 — design

## 1. Approach

`/verif/lean/Verif/Model/*` is a function-by-function transcription of `/repo/src`
(definitions cite file and lines).  `/verif/lean/Verif/Spec/*` holds small specifications
written without reference to the model's helpers.  `/verif/lean/Verif/Proofs/*` holds helper
lemmas, `/verif/lean/Verif/Props/*` the property theorems (one section per property C01…)
with, beside each, an `example` showing a concrete non-trivial case satisfying its hypotheses.

* A Rust `&str` / `String` is a `List Char` (`Str`): Lean's `Char` is exactly a Unicode scalar
  value, like Rust's `char`.  Byte offsets appear only in `get_chunk`, where they are modelled
  by UTF-8 widths; all functions are also modelled on the bytes themselves and shown to
  agree with the model on characters (C100, C103, C104, C105).
* A Rust function that can panic returns `Res α = Except Fault α` with `Fault.panic`
  (failed index / slice / `unwrap` / arithmetic underflow) and `Fault.diverge` (loop fuel
  exhausted).  `while curr_pos != len` loops are modelled by index, as in the code, with fuel
  `len + 1`; totality theorems show neither fault is reachable, which is both panic-freedom
  and termination.
* The two 4861/2683-line node trees are data: `tools/gen_trees.py` translates the `vec![…]`
  literals to Lean constructor terms (`Model/KanaTreeData.lean`, `Model/RomajiTreeData.lean`).
  Sorting (`sort_by_key`), cloning, `retain`, `push`, `find_transition_mut(..).unwrap()`
  which build the three kana trees are modelled as functions and executed by the kernel.
* The generators of these trees (`upstream_conversions/src/bin/*.rs`) are modelled in
  `Model/Upstream.lean`; their `json!` tables are translated by `tools/gen_upstream.py`.
* External behaviour is a parameter `std : Std` with an explicit decidable-style contract
  `Std.Lawful` and every theorem that needs it quantifies over **all** lawful `std`:
  - `char::is_uppercase`, `str::to_lowercase` (incl. the context-sensitive Σ rule),
    `str::to_uppercase`: facts assumed only on ASCII, the macron vowels, smart quotes and
    the uncased CJK blocks (`isUppercase_*`, `lowerChar_ascii`, `_uncased`, `_macron`,
    `upperChar_*`), plus three general facts about lower-casing: it never produces a character
    of the uncased blocks from another one (`lowerChar_target`), lower-cased characters stay as
    they are and are never Σ (`lowerChar_idem`), σ and ς are lowercase (`lowerChar_sigma`).
  - `slice::binary_search_by_key`: only what its documentation promises: on a sorted slice it
    returns the index of *some* equal element if there is one and `Err` otherwise.
  Two concrete instances are proved lawful (`modernStd_lawful`, `legacyStd_lawful`): the
  binary search of std ≥ 1.82 and the older one.  They witness that the contract is
  satisfiable, and that it really leaves the choice between equal keys open.
  `rustStd_lawful` (`Proofs/StdUnicode.lean`) shows that the contract is met by the full case
  mappings of the Unicode character database (version 15.0, `Model/UnicodeData.lean`, generated
  by `tools/gen_unicode.py`) with std's rule for the final sigma, so it assumes nothing that
  Unicode does not provide.
* `itertools::group_by` is modelled as grouping of maximal runs of equal keys (C107 justifies this by a model of its
  implementation; the source of itertools is not part of `/repo`);
  `regex::Regex::is_match` is an arbitrary predicate on strings;
  `str::trim_{start,end}_matches(&String)` is "strip while prefix/suffix" with the std rule for
  the empty pattern (C108 justifies this by a model of the matcher of the standard library).

## 2. Plan per property

| id | modelled | how proved |
|---|---|---|
| C01–C05 | all `is_*` and `constants.rs` | unfold to code point intervals; spec lists the intervals in hex independently; list lemmas |
| C06 | whitelist checks, regex = arbitrary predicate | exact characterisation; the documented statement is **false** (regex is run on the whole input) — negation with witness + `_partial` |
| C07, C08 | utils predicates | interval arithmetic (`omega`) |
| C09 | index-level loop with panics/fuel | loop invariant `pos ≤ len`, `get` returns `n ≤ rest` and `n>0` |
| C10 | loop vs. flat table | refinement: trie walk = longest prefix among keys of a flat table (Spec) |
| C11, C12, C15 | to_kana | induction on the pure layer + finite facts about all 665 trie nodes (`decide +kernel` over the whole table, lifted) |
| C13, C14 | to_kana | walk depends only on lowercased text; outputs are fixed by script fold |
| C16 | to_kana | **false** in default mode (`nyya`): negation + `_partial` (no `ny`), full in IME mode |
| C17 | option handling | comparison of the three trees along walks |
| C18, C19 | IME tree | prefix-code argument: inner nodes have no output, leaves no children, no code word inside an unfinished path |
| C20, C21 | table rows in context | finite table facts lifted by C12-style lemma |
| C22–C26 | kana shift functions | induction over the text with the (previous_kana) state |
| C27 | to_romaji loop | `|kana| ≤ |orig|` + loop invariant |
| C28–C31, C34, C35, C37 | to_romaji | induction + finite facts about all 371 trie nodes |
| C32 | upcase misalignment | **false** (`ンーあ`): negation + `_partial` (no swallowed ー) |
| C33 | duplicate ゔ keys | **false** (`ゔ`): two lawful searches disagree; `_partial` for text without ゔ/ヴ; `C33_exact`: these are exactly the texts with a determined result |
| C36 | round trip | induction over syllable lists; regular syllables; irregular ones (っち, ぢ, づ, …) listed as counterexamples |
| C38–C42 | to_hiragana/to_katakana | composition of the above |
| C43 | | **false** for text starting with a smart quote and without ASCII (`‘カ`): negation + `_partial` |
| C44 | | **false** (`nyya`): negation + `_partial` |
| C45–C48 | tokenize | induction on run grouping; uniqueness theorem |
| C49 | | **false** for `" 　"`: negation + `_partial` (no U+3000) |
| C50–C52 | trim_okurigana | via tokenize theorems |
| C53 | | **false** (`食ベた`, `。ー`): negations + `_partial` |
| C54 | get_chunk with byte offsets | **false** past the end / start>end panics; exact characterisation + `_partial` |
| C55 | CLI mains as functions of args and stdin | refinement to a two-line spec |
| C56 | to_romaji with upcase and misaligned flags | refinement of the loop to a scan over (character, flag) pairs; the trie equals a flat table written in `Spec/RomajiTable`, ゔ apart (`kanaTableV x y`, x and y the vowels the search picks) |
| C57, C58 | to_kana ∘ to_romaji | syllable by syllable, with the scan boundaries of both directions (`Spec/RoundTrip`) |
| C59 | script dispatch of to_hiragana / to_katakana | case analysis on the scripts present |
| C60 | mixed text | both conversions commute with cutting into maximal kana runs |
| C61, C62 | trim_okurigana with a matcher; when it changes, repeats, empties | token theorems, repetition argument for `trim_matches` |
| C63 | `traits.rs` | delegation + the theorems about the functions |
| C64 | small character checks | interval arithmetic |
| C65 | kana round trips | pieces of `katakana_to_hiragana` have length ≤ 1, so equality is pointwise; exact set of texts |
| C66 | to_kana twice | a passed `n` is reconsidered exactly where the following `y` was converted to っ…; exact description, replaces the false C16 |
| C67 | to_katakana / to_hiragana twice | C66 lifted through lower-casing and the kana shift; exact description for every text and option, replaces the false C44 |
| C68 | tokens | coarsening of run grouping iff the finer key determines the coarser one on neighbours; exact condition for C49 |
| C69 | `Node::sort`, `find_transition_node`, `get` of both trees | the model of `sort_by_key` is the unique sorted stable permutation; lookups commute with sorting by induction on the text |
| C70, C71 | `get_transitions` of the two generators, `json!`, `BTreeMap::insert` | mutual induction over JSON values; lookup by induction on the text |
| C72, C73 | the JSON tables, both trees | the kernel runs the generator on the table and compares with the tree (a closed statement about all of the data); lookups and `to_kana` follow from C70/C71 |
| C74 | to_romaji of a concatenation | neighbouring keys on every path of the romaji trie are known (finite fact, lifted), so no walk crosses a syllable boundary; the kana shift crosses it only by ー |
| C75 | table `HIRA_KATA_TO_ROMA` | kernel evaluation of each row, put in context by C74 |
| C76 | `to_romaji`, `to_kana`, `to_romaji` in turn | `C76_normal`: the romaji is cut into the outputs of table rows, each pair of neighbouring rows is checked in the kernel, then induction; `C76_needed` shows each condition is needed |
| C77 | cutting romaji | a walk over the cut would put the two characters side by side in a key; conversely the two halves of such a key are not converted alike (only `n` has an output and goes on) |
| C78 | what is left of romaji | vowels are leaves with an output below the root of each tree; paths from `n` without output |
| C79 | texts made of keys | keys other than `n` are leaves, so they are read as typed; `n` joins a vowel or y-key; IME keys are a prefix code |
| C80 | kana that can be typed | one key for each kana (finite), appended by the leaf lemma; conversely all outputs are of that kind |
| C81 | pairs of characters `to_romaji` reads together | the tree continues only over listed pairs, っ is lost before what it does not change (equal subtrees); conversely a witness for each joined pair (finite, evaluated), carried to every standard library by C33 |
| C82 | `to_kana` after `to_romaji`, exactly | the text is cut into the rows read; each irregular row differs from its back-conversion within their common length (finite, evaluated), except a lost っ, for which the induction carries the number of lost っ |
| C83 | both unspecified parts of `std` | `to_kana` reads only ASCII and quotes; the others reduce to lower-casing and to the choice among the equal keys of ゔ; `C83_needed` shows the conditions are needed |
| C84 | `to_romaji` after `to_kana` | ← the block induction of C76 for arbitrary sequences of table romaji; → the romaji of the kana is such a sequence |
| C85 | `to_kana` after `to_romaji` with `upcase_katakana`, exactly | a ー after katakana is replaced by a vowel, so counting ー excludes it; then the text is cut into the rows read, each row compared with its back-conversion in the canonical script (finite, evaluated) and mixed scripts handled by a lemma on differing positions |
| C86 | the conversions with a step counter (`Model/Cost.lean`), shown to return the same results | induction on the loops; the work of a lookup is bounded by a weight of the tree (evaluated); the lower bound by induction on the number of ー |
| C87 | repeated `to_kana` outside IME mode | the first result settles (C66) except for an open `n`; the tree below `n` is evaluated; key by key by induction on what was typed |
| C88 | repeated `to_hiragana`, `to_katakana` in IME mode | the branches taken for the buffer; C18 for the conversion itself |
| C89 | all conversions and `tokenize` on a text and its continuation | no path of the kana trees is longer than five and those are leaves (evaluated), induction on the lookups; outputs along a path of the romaji tree differ in the last letter (evaluated); induction on the group loop |
| C90 | texts without ASCII left over | → the pieces read are keys or copied; an `n` before `yy` is reached only through `x` (evaluated) or read as `ny`, which is no key; ← induction on the pieces as in C79 |
| C91 | the texts `to_romaji` identifies | from C76 and C82 |
| C92 | sizes in UTF-8 | the inductions of C15, C26, C37 with bytes for characters; sizes of all table rows and of all case mappings are evaluated |
| C93 | when `is_kana`, `is_hiragana`, `is_katakana`, `is_romaji` accept the results | C90 and the scripts of the outputs of all rows, evaluated; induction on the text |
| C94 | compositions of `to_hiragana` and `to_katakana` | a shift to hiragana before a shift to katakana and back changes nothing (induction with the governing kana as state), lifted to runs of kana; C65 and C67 |
| C95 | `to_kana`, the two shifts, `to_hiragana`, `to_katakana`, compared with a condition on neighbouring letters (`Spec.LeftAlone`) | outputs are above U+2100 and key characters below, so a fixed text misses everywhere; facts about all tree paths for the vowel-less keys; results are in lower case |
| C96 | `tokenize_with_opt`, `to_kana_with_opt` on each token, compared with an automaton of three states (`Spec.openAt`) | induction over the reading of the text up to a mark; keys join characters of different type only at `n'` and `n␠`; number of apostrophes and spaces in both results |
| C97 | images of `to_kana`, `to_romaji` and the two shifts | condition at every place of the result by induction over the reading; conversely a preimage is built by typing `nyya` … at the first `n` before っ; facts about all tree paths beginning with `y` and `ny` |
| C98 | lists of pieces, tokens | `Spec.Merged`: for the if direction the tree walk never crosses a cut that is not merged; for the converse every merge changes the output for good: a prolonged ー loses a dash (the dashes of the output count the marks), a doubled or contracted consonant and an apostrophe differ within the first letters after the cut and so cannot be repaired by what follows |
| C99 | the flag lookup of to_romaji | `Spec.ownFrom` against `Spec.markedV`: both transliterations take the same syllables and a syllable has the same length in either case, so the results agree exactly if they agree syllable by syllable |
| C100 | `next_code_point`, `char_indices`, `is_char_boundary` and string slices on bytes (Model/Utf8.lean) | against the UTF-8 encoding of Lean's own library: the decoder inverts it form by form (1 to 4 bytes), boundaries by induction on the text; refinement of the model on characters |
| C101 | as C98, with the two vowels of ゔ as parameters | `Spec.MergedV`: only the ゔ entry with u has transitions (checked on the tree), so with another vowel the walk stops there, and with u a following small kana changes a letter already written |
| C102 | katakana_to_hiragana, to_hiragana | by C24 the hiragana are a function of the text and of the vowel of ヴ; at the first prolonged ヴ two concrete lawful searches (modernStd and secondStd) write different vowels, and the conversion of romaji cannot repair that since hiragana are inert in it |
| C103 | `str::chars`, `String::from_iter`, `trim_start_matches`, `trim_end_matches` and the order of `str` on bytes (Model/Utf8Trim.lean) | refinement by induction: a byte that begins a character never occurs inside one (C100), so matches of whole texts lie on character boundaries; the order by comparing the digits of the code points in base 64 |
| C104 | all checks and conversions on UTF-8 bytes, str::to_lowercase, to_uppercase, decoding backwards | the loops run in step with those of the model (output = encoding of the model's output); ASCII bytes at the front are ASCII characters |
| C105 | both programs from argument bytes to output bytes, run_utf8_validation | case analysis over the four forms of an encoded character, both ways; then C55, C104 and totality |
| C106 | `Lazy::get` over `Once` (states, cell, frames of initialisers in progress), the eight statics with their initialisers, threads as programs that dereference statics, every function of the crate written with the dereferences where the code has them | invariant of every execution (each thread, with the initialisers it is inside of, does what its program does alone; a static is running exactly when one thread is inside its initialiser); rank of statics against circles; a measure that every step decreases; induction over the loops for the functions |
| C107 | `GroupInner` of itertools 0.10.5 (`step`, `step_current`, `step_buffering`, `lookup_buffer`, `group_key`, `drop_group`) with the two loops over it | simulation: invariants for "inside group i" and "before group i" (buffer empty, indices behind), induction on the rest of the text |
| C108 | `StrSearcher` and `TwoWaySearcher` of core::str::pattern, forward and backward, with `next_reject` / `next_reject_back` (Model/StrSearcher.lean; the library is not part of /repo, its code is modelled from its published source) | invariant of the maximal suffix loops (the suffix has the period, by induction; a lexicographic measure for termination), hence the set of bytes has every byte of the pattern; every mismatch moves the position, so the next answer is a reject; induction on the matches; cuts are at character boundaries by C103 |
| C109 | `itertools::group_by`, the Two-Way matcher and `trim_okurigana` with a step counter (`Model/CostTrim.lean`) | the states of C107 and C108 carried along with the counter; left+right+offset grows in every round of the maximal suffix search (`Props/CostTokens.lean`, `Props/CostTrim.lean`) |
| C110 | as C82, with pieces for ゔ | a ゔ piece comes back with a small vowel after it; a text would have to be the kana of its own romaji with that vowel in front, which induction on its pieces refutes (each step leaves the rest in the same situation) |
| C111 | to_romaji then to_hiragana or to_katakana, all branches | the romaji are settled in lower case and hold nothing convertible (C35), so the branch of to_hiragana is decided by the classifiers; the converted branch is the trip of C110; for to_katakana the long vowel marks are counted along the trip: kana, romaji and kana again never make more marks, and a mark after katakana is lost, so the hiragana form is the shift of every character and C110 applies to it |
| C112 | to_romaji then to_kana on every text | all characters but vowel and y kana are weighed; one more character in front of romaji adds at most one to the weight of its kana (table check of each key and its tail, induction), so no piece gains weight on the trip and a piece that loses weight, such as a lost っ or an apostrophe eaten by n, cannot be made up for later; the remaining pieces come back one by one; conversely, induction on the letters, C36 for the words between them |
| C113 | src/bin/to_kana.rs, src/bin/to_romaji.rs with read_to_end, LineWriter, BufWriter, StdoutRaw and rt::cleanup of std (Model/Stdio) | each operation on standard output keeps: taken ++ buffered is a beginning of what was to be written, all of it when done; induction over the answers of the system for the loop of write, composed along ?; the buffer never keeps a line feed, which bounds the loss; a run that loses the last line is constructed for every such text |
| C114 | to_kana, to_romaji, to_hiragana, to_katakana | every stage (lowercasing, the kana shift, the transliterations) commutes with joining lines since a line feed is inert in all of them, and no stage creates a line feed, so the joined results agree exactly if all lines do; a line converted in one mode only is compared by C95 |
| C115 | inductive description of canonical texts | if: the invariant of C84 (kana read back, no merging at the seams) extended to letters and apostrophes; only if: the pieces of C112 with the weight argument |
| C116 | the conditions of C112 as a structure of their own | a result is in lower case, so the text and with it its romaji must be; then the second function is to_kana (and the shift), to which C112 applies |
| C117 | both functions in full; condition set Spec.ReadBackBoth | the two romaji (with and without capitals) differ in case only, so their kana have the same hiragana form and the pieces of C112 are read back one by one; the text is cut at letters, C85 settles the parts |
| C118 | `to_katakana_with_opt`, `to_hiragana_with_opt` with every option; Unicode lower-case table for the last part | Necessity: a kana of a converted text stays where it is, and by C97 the converted part before it cannot end in `n` or `nっ`; romaji only gives romaji, kana and keyboard marks. Sufficiency: a preimage is built by induction, typing the doubled y-syllables behind `n` in small letters and, where needed, the marks by their keys |
| C119 | `main` of both generators, `#[derive(Debug)]`, `{:#?}` (PadAdapter, DebugStruct, DebugTuple, DebugList, escapes) | a reader of Rust tokens is run over the printed text at every indentation, by mutual induction on the tree; tokens determine the tree |
| C120 | the lines of the four literals, copied verbatim; a reader of Rust tokens and of JSON | the kernel runs the reader over the text of each root transition; that the pieces add up and that tokens determine the tree is proved by induction |
| C121 | to_romaji with upcase_katakana over the model of C27 | Apart from the case the capitals make no difference (lower-casing commutes with the scan), so C101 settles the merging; the capitals of a syllable are followed through the cut on hiragana marked with their script |
| C122 | `to_kana_with_opt`, `to_romaji_with_opt`, iterated | a weight of the kana (heavy characters plus loose letters, t and っ counting less, n not at all) never rises in a trip, and if it stays the same the romaji are canonical: induction over the pieces of C115 with table checks; growth: the run of vowels behind v gets one longer per trip (v cannot be inside a key except in vv, a small vowel behind ゔ is its own piece) |
| C123 | to_romaji then to_kana in IME mode on every text | the weights of C112 counted again for the IME tree (table check of each key and its tail, induction), so only pieces that come back one by one are possible, and a single n never does; conversely C36 in normal mode, whose pieces other than ん by itself are read the same in IME mode (table check) |
| C124 | inductive description of texts canonical in IME mode | if: the invariant of C84 with the IME table checked again; only if: the pieces of C123 |
| C125 | `to_kana_with_opt` in IME mode, `to_romaji_with_opt`, iterated | as C122 with weights in which n and ん count as well: a key nn, n and space or n and apostrophe makes the kana lighter unless the romaji behind it are not canonical (table check of all romaji that begin with n) |
| C126 | to_romaji, to_hiragana and to_katakana in IME mode | the proof of C116 holds for any description of what to_kana brings back; applied to C123 |
| C127 | to_kana in both modes | the two trees differ in three paths only (kernel check); where the text begins otherwise both read the same characters; an n they read differently leaves a result of another length or with another first character, by induction on the text |
| C128 | to_romaji with upcase_katakana and to_kana in IME mode | the pieces of C123 up to case; between the letters every n goes on a syllable, so IME mode and the normal mode agree there (C127) and C85 applies |
| C129 | to_hiragana and to_katakana in both modes | C127 also up to the script of the results, for the text these functions hand to to_kana |
| C130 | use_obsolete_kana set and not set in to_kana, to_hiragana and to_katakana | the trees for normal and obsolete mode read the same pieces and differ in two outputs, strong induction; counting the characters ゐ ゑ ヰ ヱ carries it over to IME mode, which C127 compares with normal mode |
| C131 | to_hiragana and to_katakana with and without pass_romaji | where the two results agree every character is settled, so nothing was put in lower case, and nothing below U+2100 was converted; the exact fixed points of to_kana (C95) do the rest |
| C132 | to_kana and to_romaji with the standard library as a parameter | soundness by induction over the canonical parts with a finite check of every row in both cases; completeness from the pieces of C117 by induction, with the script of the kana before a dash as state |
| C133 | C30's model | `Verif.Props.ScriptRomaji`: before the first mark in question both hiragana forms agree and the romaji can be cut there; おX starts with o and うX does not. For katakana: ゕ ゖ are copied, and the hyphens in the romaji count the marks that stay |
| C134 | to_kana in IME mode and to_romaji with upcase_katakana, with the standard library as a parameter | as C132 with the rows checked again for the IME tree; completeness from the pieces of C128 |
| C135 | to_romaji with upcase_katakana on and off, on the Romanized relation of C56 | both results are romanizations of the same marked text; induction on it in both directions |
| C136 | to_romaji with upcase_katakana, all texts | the pieces with their final っ marked as katakana are romanized independently (C121 for marked hiragana), so the whole differs only in case; C99 compares two markings. Merging texts differ also in lower case (C101) |
| C137 | to_hiragana and to_katakana on mixed texts | lower-casing a text is replacing its capital sigmas and then lower-casing each character, so the replaced text has the same runs and the same result, and C60 applies to it |
| C138 | to_hiragana, to_katakana with the case data of Unicode | kana are not cased and a long vowel mark that is replaced follows a letter that is not case-ignorable, so the choice of sigma commutes with katakana_to_hiragana; then C94 for t |
| C139 | to_hiragana, to_katakana | such a text has its romaji read by to_hiragana only; without kana everything comes back only if nothing was converted, and curly quotes never come back; for the other way the kana runs are aligned (C60, C138) |
| C140 | repeated `to_hiragana`, `to_katakana` in IME mode on buffers that are not only romaji | the branch taken for the buffer and for the text typed on; kana stay kana through lower-casing and conversion, so the branch is the same; C18 for the conversion itself |
| C141 | `tokenize`, `trim_okurigana` after `hiragana_to_katakana` | the shift changes only the type Hiragana, to Katakana; induction along the grouping; C48 and C52 for trimming |
| C142 | `to_romaji` of a text whose beginning is a result of `to_romaji` | a result has nothing convertible (C35), and what is not convertible has no influence on what follows it; C101 and C136 for the criterion |
| C143 | `katakana_to_hiragana` of a text and of its pieces | the loop remembers exactly the katakana letter a ー would prolong; counting the ー that are kept |

## 3. Trusted base

* Lean 4.33 kernel; axioms at most `propext`, `Classical.choice`, `Quot.sound`
  (`AXIOMS.md` lists them for every theorem; no `sorry`, no own axioms, no
  `native_decide`/`bv_decide`).
* Our reading of the Rust source.  The big data, the tree literals and the `json!` tables, are translated by
  `tools/gen_trees.py` and `tools/gen_upstream.py`, but these scripts need not be trusted: C120 reads the text of the
  source in Lean and gets the same data.  What is trusted instead is that the text was copied
  (`tools/gen_source_text.py --check` compares it with `/repo` line by line).  (`Model/UnicodeData.lean` is only
  used to show that the contract below is met, no theorem about the crate depends on it.)
* The contract `Std.Lawful` for the std functions listed above, and that the models of `itertools::group_by` and of the
  string matcher (C107, C108) and of the buffered output (C113) follow the sources of these libraries.

## 4. Findings

Claims of the documentation, or claims a user would expect, that the model shows to be false
(each has a theorem `Cnn_*false*` and an exact description nearby):

* whitelist checks run the regex on the whole input, not on the offending character (C06);
* `to_kana("nyya")` = `nっや`, converting again gives `んっや` (C16, exact in C66);
* `to_romaji` reads the uppercase flag at a wrong position after a swallowed ー (C32, exact in C56 and C99);
* the romaji tree lists ゔ five times; which row wins is up to `binary_search` (C33).  With the
  current std ヴァイオリン becomes `voaiorin`;
  The cause is in the generator: it cuts the two-letter keys ゔぁ … of the upstream table to ゔ,
  which makes eight rows unreachable (C71, C73).  As ゔ alone is written vo and read back as ゔぉ, a text with ゔ gets
  longer each time it is converted to kana and back, without end (C122);
* in IME mode ん written as romaji comes back only before a vowel or や ゆ よ: ほん becomes ほn (C123);
* `to_hiragana("‘カ")` leaves カ (C43), and is not idempotent there (C44, exact in C67);
* `" 　"` is one detailed token but two compact ones (C49, exact in C68);
* `trim_okurigana` can trim twice (`食べタ`) and can return the empty string (`。ー`) (C53, exact in C62);
* `get_chunk` panics for start > end and returns the whole text for start past the end (C54);
* `katakana_to_hiragana` looks at the previous character with `chars().nth(index - 1)`, so a run of ー takes quadratic
  time (C86);
* in IME mode a buffer of punctuation such as ！ (typed as `!`) keeps `to_hiragana` and `to_katakana` from converting
  whatever romaji follows (C88);
* the programs end with status 0 though an unfinished last line could not be written (`printf ka | to_kana > /dev/full`,
  C113);
* っち → `tchi` is not converted back; ン before a vowel is not restored with upcase (C36, C57).

## 5. Testing the theorems

`tools/mutants.py` lists wrong programs (edits of model definitions), `tools/mutate.py` applies
each to a copy of the project, rebuilds, and reports the theorems that no longer prove;
`tools/log.py` writes the results to `seeded/LOG.jsonl`.  A claim that is false for the wrong
program but whose theorems all survive is a weak theorem and is tightened.
`tools/automutate.py` derives further wrong programs from the model systematically (a comparison, a constant, a branch, an
operand changed at every place in turn).  `tools/fastmut.py` runs either list faster: it re-elaborates only the modules with
a constant that depends on the edited definition, goes on after a failed proof, and reports the claimed theorems that
depend on a failed one; it works on a copy without the examples (`tools/strip_examples.py`), so that only theorems count.

The model itself is tested against the repository: `tools/gen_repo_tests.py` translates 440 of the 457
assertions in `/repo`'s unit tests, integration tests and doc comments to Lean examples
(`Tests/Repo1.lean` … `Repo4.lean`), which the kernel evaluates in the model; all hold.  The other 17 loop
over whole tables; these are C21 and C75.

## 6. Not modelled

Memory/capacity (`with_capacity`), the atomic operations and memory orderings inside `std::sync::Once` (C106 takes the
steps of `call_once` to be interleaved, as its documentation promises), hashing (`FnvHashMap` is a lookup function),
running time beyond the step counts of C86 and C109, the bench crates, the wasm/node bindings (they call `wana_kana::to_kana::to_kana` etc.,
modules that are private in this version of the crate (src/lib.rs:69-74), so they cannot be compiled
against it), pasting the generated trees into the source, signals that end the programs,
arguments on systems where they are not bytes (Windows), regular expressions on bytes.
