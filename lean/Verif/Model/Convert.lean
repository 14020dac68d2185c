import Verif.Model.Trees
import Verif.Model.StrPreds
/-! # Conversions: src/to_*.rs, src/options.rs, src/utils/{hiragana_to_katakana,
katakana_to_hiragana,romaji_to_hiragana}.rs -/

namespace WanaKana

/-- src/options.rs:1-18; `Default` sets every flag to `false`. -/
structure Options where
  use_obsolete_kana : Bool := false
  pass_romaji : Bool := false
  upcase_katakana : Bool := false
  imemode : Bool := false
deriving DecidableEq, Repr

/-- the loop body of src/utils/hiragana_to_katakana.rs:23-37 -/
def h2kChar (char : Char) : Res Char :=
  if is_char_long_dash char || is_char_slash_dot char then .ok char
  else if is_char_hiragana char then
    let code : Int := (char.toNat : Int) + ((KATAKANA_START : Int) - (HIRAGANA_START : Int))
    unwrap (charFromU32 (i32AsU32 code))
  else .ok char

/-- src/utils/hiragana_to_katakana.rs:21-39 -/
def hiragana_to_katakana : Str → Res Str
  | [] => .ok []
  | char :: rest => do
    let k ← h2kChar char
    let kata ← hiragana_to_katakana rest
    .ok (k :: kata)

/-- src/utils/katakana_to_hiragana.rs:23-25 -/
def is_char_initial_long_dash (char : Char) (index : Nat) : Bool :=
  is_char_long_dash char && index == 0

/-- src/utils/katakana_to_hiragana.rs:26-28 -/
def is_char_inner_long_dash (char : Char) (index : Nat) : Bool :=
  is_char_long_dash char && index != 0

/-- src/utils/katakana_to_hiragana.rs:29-31 -/
def is_kana_as_symbol (char : Char) : Bool := 'ヶ' == char || 'ヵ' == char

/-- src/utils/katakana_to_hiragana.rs:33-41: the hash map, as a lookup function -/
def LONG_VOWELS : Char → Option Char
  | 'a' => some 'あ'
  | 'i' => some 'い'
  | 'u' => some 'う'
  | 'e' => some 'え'
  | 'o' => some 'う'
  | _ => none

/-- src/utils/katakana_to_hiragana.rs:80-92: a katakana letter to hiragana -/
def k2hChar (input_char : Char) : Char :=
  match input_char with
  | 'ヷ' => 'わ'
  | 'ヸ' => 'ゐ'
  | 'ヹ' => 'ゑ'
  | 'ヺ' => 'を'
  | _ =>
    let code : Int := (input_char.toNat : Int) + ((HIRAGANA_START : Int) - (KATAKANA_START : Int))
    (charFromU32 (i32AsU32 code)).getD input_char

/-- The loop of src/utils/katakana_to_hiragana.rs:50-101: remaining characters, `index`,
`previous_kana` and the output so far. -/
def k2hLoop (std : Std) (input : Str) (is_destination_romaji : Bool) :
    Str → Nat → Option Char → Str → Res Str
  | [], _, _, hira => .ok hira
  | input_char :: rest, index, previous_kana, hira =>
    let next := k2hLoop std input is_destination_romaji rest (index + 1)
    if is_char_slash_dot input_char || is_char_initial_long_dash input_char index
        || is_kana_as_symbol input_char then
      next previous_kana (hira ++ [input_char])
    else
      match previous_kana, is_char_inner_long_dash input_char index with
      | some prev, true => do
        match ← TO_ROMAJI_NODE_TREE.find_transition_node std prev with
        | none => next previous_kana (hira ++ [input_char])
        | some node =>
          let romaji_opt := node.output.getLast?
          let i ← usizeSub index 1
          if (match input[i]? with
              | some prev_char =>
                is_char_katakana prev_char && romaji_opt == some 'o' && is_destination_romaji
              | none => false) then
            next previous_kana (hira ++ ['お'])
          else
            match romaji_opt.bind LONG_VOWELS with
            | some hit => next previous_kana (hira ++ [hit])
            | none => next previous_kana hira
      | _, _ =>
        if !is_char_long_dash input_char && is_char_katakana input_char then
          let hira_char := k2hChar input_char
          next (some hira_char) (hira ++ [hira_char])
        else
          next none (hira ++ [input_char])

/-- src/utils/katakana_to_hiragana.rs:47-103 -/
def katakana_to_hiragana_with_opt (std : Std) (input : Str) (is_destination_romaji : Bool) :
    Res Str :=
  k2hLoop std input is_destination_romaji input 0 none []

/-- src/utils/katakana_to_hiragana.rs:43-45 -/
def katakana_to_hiragana (std : Std) (input : Str) : Res Str :=
  katakana_to_hiragana_with_opt std input false

/-- src/to_kana.rs:23-29: the lookup in the tree chosen by the options -/
def toKanaLookup (options : Options) (chars : Str) : Res (Option Str × Nat) :=
  if options.use_obsolete_kana then do
    let tree ← TO_KANA_NODE_TREE_OBSOLETE
    .ok (tree.get chars)
  else if options.imemode then do
    let tree ← TO_KANA_NODE_TREE_IMEMODE
    .ok (tree.get chars)
  else .ok (TO_KANA_NODE_TREE.get chars)

/-- src/to_kana.rs:22-46: `while curr_pos != len`; `fuel` bounds the number of iterations -/
def toKanaLoop (std : Std) (options : Options) (chars : Str) (len : Nat) :
    (fuel : Nat) → (curr_pos : Nat) → (ouput : Str) → Res Str
  | 0, _, _ => .error .diverge
  | fuel + 1, curr_pos, ouput =>
    if curr_pos ≠ len then do
      let rest ← sliceFrom chars curr_pos
      let result ← toKanaLookup options rest
      if result.2 == 0 || result.1.isNone then do
        let c ← index chars curr_pos
        toKanaLoop std options chars len fuel (curr_pos + 1) (ouput ++ [c])
      else do
        let consumed ← slice chars curr_pos (curr_pos + result.2)
        let out ← unwrap result.1
        if consumed.all std.isUppercase then do
          let kata ← hiragana_to_katakana out
          toKanaLoop std options chars len fuel (curr_pos + result.2) (ouput ++ kata)
        else
          toKanaLoop std options chars len fuel (curr_pos + result.2) (ouput ++ out)
    else .ok ouput

/-- src/to_kana.rs:14-49.  Fuel: one more than the number of characters. -/
def to_kana_with_opt (std : Std) (input : Str) (options : Options) : Res Str :=
  toKanaLoop std options input input.length (input.length + 1) 0 []

/-- src/to_kana.rs:9-11 -/
def to_kana (std : Std) (input : Str) : Res Str := to_kana_with_opt std input {}

/-- src/to_romaji.rs:21-46: `while curr_pos != len`; `fuel` bounds the number of iterations -/
def toRomajiLoop (std : Std) (options : Options) (orig_chars chars : Str) (len : Nat) :
    (fuel : Nat) → (curr_pos : Nat) → (ouput : Str) → Res Str
  | 0, _, _ => .error .diverge
  | fuel + 1, curr_pos, ouput =>
    if curr_pos ≠ len then do
      let rest ← sliceFrom chars curr_pos
      let result ← TO_ROMAJI_NODE_TREE.get std rest
      if result.2 == 0 then do
        let c ← index chars curr_pos
        toRomajiLoop std options orig_chars chars len fuel (curr_pos + 1) (ouput ++ [c])
      else do
        let consumed ← slice orig_chars curr_pos (curr_pos + result.2)
        let convert_romaji_to_uppercase :=
          if consumed.all is_char_katakana then options.upcase_katakana else false
        toRomajiLoop std options orig_chars chars len fuel (curr_pos + result.2)
          (ouput ++ if convert_romaji_to_uppercase then std.toUppercase result.1 else result.1)
    else .ok ouput

/-- src/to_romaji.rs:12-49.  Fuel: one more than the number of characters. -/
def to_romaji_with_opt (std : Std) (orig : Str) (options : Options) : Res Str := do
  let kana ← katakana_to_hiragana_with_opt std orig true
  toRomajiLoop std options orig kana kana.length (kana.length + 1) 0 []

/-- src/to_romaji.rs:7-9 -/
def to_romaji (std : Std) (input : Str) : Res Str := to_romaji_with_opt std input {}

/-- src/utils/romaji_to_hiragana.rs:8-11 -/
def romaji_to_hiragana (std : Std) (input : Str) (options : Options) : Res Str :=
  to_kana_with_opt std (std.toLowercase input) options

/-- src/to_hiragana.rs:15-35 -/
def to_hiragana_with_opt (std : Std) (input : Str) (config : Options) : Res Str :=
  if config.pass_romaji then katakana_to_hiragana std input
  else if is_mixed input then do
    let romaji ← katakana_to_hiragana std input
    romaji_to_hiragana std romaji config
  else if is_romaji input || ((input.head?).map is_char_english_punctuation).getD false then
    romaji_to_hiragana std input config
  else katakana_to_hiragana std input

/-- src/to_hiragana.rs:10-12 -/
def to_hiragana (std : Std) (input : Str) : Res Str := to_hiragana_with_opt std input {}

/-- src/to_katakana.rs:12-22 -/
def to_katakana_with_opt (std : Std) (input : Str) (config : Options) : Res Str :=
  if config.pass_romaji then hiragana_to_katakana input
  else if is_romaji input || is_mixed input then do
    let romaji ← romaji_to_hiragana std input config
    hiragana_to_katakana romaji
  else hiragana_to_katakana input

/-- src/to_katakana.rs:8-10 -/
def to_katakana (std : Std) (input : Str) : Res Str := to_katakana_with_opt std input {}

end WanaKana
