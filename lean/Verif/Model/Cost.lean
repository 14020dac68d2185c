import Verif.Model.Convert
/-! # The work done by the conversions

The programs of `Model/Convert.lean` with a counter `steps`: one step for every character an iterator yields (`chars()`,
`nth`, `iter()`), every transition compared by a linear search, every binary search, and every character written.
`C86_same` shows that the counter is the only difference.

Simplifications: a binary search in a fixed table counts as one step, a call of `to_lowercase`/`to_uppercase` as one
step per character read or written, an early exit of `all`/`any` is not credited. -/

namespace WanaKana

/-- the number of elements `iter().find(p)` looks at. Used in src/to_kana_node_tree.rs:28. -/
def scanned {α : Type} (p : α → Bool) : List α → Nat
  | [] => 0
  | x :: xs => if p x then 1 else 1 + scanned p xs

/-- src/to_kana_node_tree.rs:11-18 with the linear search of line 28 -/
def KNode.getLoopC (curr_node : KNode) (i steps : Nat) : Str → (KNode × Nat) × Nat
  | [] => ((curr_node, i), steps)
  | c :: cs =>
    let steps := steps + 1 + scanned (fun t => t.1 == toAsciiLowercase c) curr_node.transitions
    match curr_node.find_transition_node (toAsciiLowercase c) with
    | some trans_node => getLoopC trans_node (i + 1) steps cs
    | none => ((curr_node, i), steps)

/-- src/to_kana_node_tree.rs:8-25 -/
def KNode.getC (n : KNode) (steps : Nat) (chars : Str) : (Option Str × Nat) × Nat :=
  let r := getLoopC n 0 steps chars
  (if r.1.1.output.isSome then (r.1.1.output, r.1.2) else (none, 0), r.2)

/-- src/to_romaji_node_tree.rs:11-18 with the binary search of line 24 -/
def RNode.getLoopC (std : Std) (curr_node : RNode) (i steps : Nat) : Str → Res ((RNode × Nat) × Nat)
  | [] => .ok ((curr_node, i), steps)
  | c :: cs => do
    match ← curr_node.find_transition_node std c with
    | some trans_node => getLoopC std trans_node (i + 1) (steps + 2) cs
    | none => .ok ((curr_node, i), steps + 2)

/-- src/to_romaji_node_tree.rs:8-20 -/
def RNode.getC (std : Std) (n : RNode) (steps : Nat) (chars : Str) : Res ((Str × Nat) × Nat) := do
  let r ← getLoopC std n 0 steps chars
  .ok ((r.1.1.output, r.1.2), r.2)

/-- src/utils/hiragana_to_katakana.rs:21-39: every character is read and written once -/
def hiragana_to_katakanaC (input : Str) (steps : Nat) : Res (Str × Nat) := do
  let r ← hiragana_to_katakana input
  .ok (r, steps + input.length + r.length)

/-- src/utils/katakana_to_hiragana.rs:50-101.  `input.chars().nth(index - 1)` (line 68) decodes the text from its start:
`index` characters. -/
def k2hLoopC (std : Std) (input : Str) (is_destination_romaji : Bool) :
    Str → Nat → Option Char → Str → Nat → Res (Str × Nat)
  | [], _, _, hira, steps => .ok (hira, steps)
  | input_char :: rest, index, previous_kana, hira, steps =>
    let next := k2hLoopC std input is_destination_romaji rest (index + 1)
    if is_char_slash_dot input_char || is_char_initial_long_dash input_char index
        || is_kana_as_symbol input_char then
      next previous_kana (hira ++ [input_char]) (steps + 2)
    else
      match previous_kana, is_char_inner_long_dash input_char index with
      | some prev, true => do
        match ← TO_ROMAJI_NODE_TREE.find_transition_node std prev with
        | none => next previous_kana (hira ++ [input_char]) (steps + 3)
        | some node =>
          let romaji_opt := node.output.getLast?
          let i ← usizeSub index 1
          let steps := steps + 2 + (i + 1)
          if (match input[i]? with
              | some prev_char =>
                is_char_katakana prev_char && romaji_opt == some 'o' && is_destination_romaji
              | none => false) then
            next previous_kana (hira ++ ['お']) (steps + 1)
          else
            match romaji_opt.bind LONG_VOWELS with
            | some hit => next previous_kana (hira ++ [hit]) (steps + 1)
            | none => next previous_kana hira steps
      | _, _ =>
        if !is_char_long_dash input_char && is_char_katakana input_char then
          let hira_char := k2hChar input_char
          next (some hira_char) (hira ++ [hira_char]) (steps + 2)
        else
          next none (hira ++ [input_char]) (steps + 2)

/-- src/utils/katakana_to_hiragana.rs:47-103: counting the characters (line 48), the loop, and `collect` (line 102) -/
def katakana_to_hiragana_with_optC (std : Std) (input : Str) (is_destination_romaji : Bool) (steps : Nat) :
    Res (Str × Nat) := do
  let r ← k2hLoopC std input is_destination_romaji input 0 none [] (steps + input.length)
  .ok (r.1, r.2 + r.1.length)

/-- src/to_kana.rs:23-29 -/
def toKanaLookupC (options : Options) (steps : Nat) (chars : Str) : Res ((Option Str × Nat) × Nat) :=
  if options.use_obsolete_kana then do
    let tree ← TO_KANA_NODE_TREE_OBSOLETE
    .ok (tree.getC steps chars)
  else if options.imemode then do
    let tree ← TO_KANA_NODE_TREE_IMEMODE
    .ok (tree.getC steps chars)
  else .ok (TO_KANA_NODE_TREE.getC steps chars)

/-- src/to_kana.rs:22-46 -/
def toKanaLoopC (std : Std) (options : Options) (chars : Str) (len : Nat) :
    (fuel : Nat) → (curr_pos : Nat) → (ouput : Str) → (steps : Nat) → Res (Str × Nat)
  | 0, _, _, _ => .error .diverge
  | fuel + 1, curr_pos, ouput, steps =>
    if curr_pos ≠ len then do
      let rest ← sliceFrom chars curr_pos
      let r ← toKanaLookupC options steps rest
      let result := r.1
      let steps := r.2
      if result.2 == 0 || result.1.isNone then do
        let c ← index chars curr_pos
        toKanaLoopC std options chars len fuel (curr_pos + 1) (ouput ++ [c]) (steps + 1)
      else do
        let consumed ← slice chars curr_pos (curr_pos + result.2)
        let out ← unwrap result.1
        let steps := steps + consumed.length
        if consumed.all std.isUppercase then do
          let kata ← hiragana_to_katakanaC out steps
          toKanaLoopC std options chars len fuel (curr_pos + result.2) (ouput ++ kata.1) (kata.2 + kata.1.length)
        else
          toKanaLoopC std options chars len fuel (curr_pos + result.2) (ouput ++ out) (steps + out.length)
    else .ok (ouput, steps)

/-- src/to_kana.rs:14-49: collecting the characters (line 15) and the loop -/
def to_kana_with_optC (std : Std) (input : Str) (options : Options) (steps : Nat) : Res (Str × Nat) :=
  toKanaLoopC std options input input.length (input.length + 1) 0 [] (steps + input.length)

/-- src/to_romaji.rs:21-46 -/
def toRomajiLoopC (std : Std) (options : Options) (orig_chars chars : Str) (len : Nat) :
    (fuel : Nat) → (curr_pos : Nat) → (ouput : Str) → (steps : Nat) → Res (Str × Nat)
  | 0, _, _, _ => .error .diverge
  | fuel + 1, curr_pos, ouput, steps =>
    if curr_pos ≠ len then do
      let rest ← sliceFrom chars curr_pos
      let r ← TO_ROMAJI_NODE_TREE.getC std steps rest
      let result := r.1
      let steps := r.2
      if result.2 == 0 then do
        let c ← index chars curr_pos
        toRomajiLoopC std options orig_chars chars len fuel (curr_pos + 1) (ouput ++ [c]) (steps + 1)
      else do
        let consumed ← slice orig_chars curr_pos (curr_pos + result.2)
        let convert_romaji_to_uppercase :=
          if consumed.all is_char_katakana then options.upcase_katakana else false
        let out := if convert_romaji_to_uppercase then std.toUppercase result.1 else result.1
        toRomajiLoopC std options orig_chars chars len fuel (curr_pos + result.2) (ouput ++ out)
          (steps + consumed.length + result.1.length + 2 * out.length)
    else .ok (ouput, steps)

/-- src/to_romaji.rs:12-49: the shift to hiragana (line 13), collecting both texts (lines 14, 15), and the loop -/
def to_romaji_with_optC (std : Std) (orig : Str) (options : Options) (steps : Nat) : Res (Str × Nat) := do
  let kana ← katakana_to_hiragana_with_optC std orig true steps
  toRomajiLoopC std options orig kana.1 kana.1.length (kana.1.length + 1) 0 []
    (kana.2 + orig.length + kana.1.length)

/-- src/utils/romaji_to_hiragana.rs:8-11 -/
def romaji_to_hiraganaC (std : Std) (input : Str) (options : Options) (steps : Nat) : Res (Str × Nat) :=
  to_kana_with_optC std (std.toLowercase input) options (steps + input.length + (std.toLowercase input).length)

/-- src/to_hiragana.rs:15-35; `is_mixed` goes through the text at most three times (hiragana, katakana, romaji; src/is_mixed.rs:20-21),
`is_romaji` once -/
def to_hiragana_with_optC (std : Std) (input : Str) (config : Options) (steps : Nat) : Res (Str × Nat) :=
  if config.pass_romaji then katakana_to_hiragana_with_optC std input false steps
  else if is_mixed input then do
    let romaji ← katakana_to_hiragana_with_optC std input false (steps + 3 * input.length)
    romaji_to_hiraganaC std romaji.1 config romaji.2
  else if is_romaji input || ((input.head?).map is_char_english_punctuation).getD false then
    romaji_to_hiraganaC std input config (steps + 4 * input.length + 1)
  else katakana_to_hiragana_with_optC std input false (steps + 4 * input.length + 1)

/-- src/to_katakana.rs:12-22 -/
def to_katakana_with_optC (std : Std) (input : Str) (config : Options) (steps : Nat) : Res (Str × Nat) :=
  if config.pass_romaji then hiragana_to_katakanaC input steps
  else if is_romaji input || is_mixed input then do
    let romaji ← romaji_to_hiraganaC std input config (steps + 4 * input.length)
    hiragana_to_katakanaC romaji.1 romaji.2
  else hiragana_to_katakanaC input (steps + 4 * input.length)

end WanaKana
