import Verif.Model.StrPreds
/-! # src/tokenize.rs -/

namespace WanaKana

/-- src/tokenize.rs:33-56 -/
inductive TokenType where
  | En | Ja | EnNum | JaNum | EnPunc | JaPunc | Kanji | Hiragana | Katakana | Space | Other
deriving DecidableEq, Repr

/-- src/tokenize.rs:58-91 (`match` arms in order) -/
def get_type (input : Char) (compact : Bool) : TokenType :=
  if compact then
    if input = ' ' then .En
    else if input = '　' then .Ja
    else if is_char_japanese_number input || is_char_latin_number input
        || is_char_english_punctuation input || is_char_japanese_punctuation input then .Other
    else if is_char_japanese input then .Ja
    else if is_char_romaji input then .En
    else .Other
  else
    if input = ' ' then .Space
    else if input = '　' then .Space
    else if is_char_japanese_number input then .JaNum
    else if is_char_latin_number input then .EnNum
    else if is_char_english_punctuation input then .EnPunc
    else if is_char_japanese_punctuation input then .JaPunc
    else if is_char_kanji input then .Kanji
    else if is_char_hiragana input then .Hiragana
    else if is_char_katakana input then .Katakana
    else if is_char_japanese input then .Ja
    else if is_char_romaji input then .En
    else .Other

/-- `itertools::group_by`, the state machine: current key, current group, remaining input.
Used in src/tokenize.rs:116,147. -/
def groupLoop {κ : Type} [DecidableEq κ] (key : Char → κ) (k : κ) (g : Str) :
    Str → List (κ × Str)
  | [] => [(k, g)]
  | c :: cs =>
    if key c = k then groupLoop key k (g ++ [c]) cs
    else (k, g) :: groupLoop key (key c) [c] cs

/-- `itertools::Itertools::group_by` followed by collecting every group in order:
maximal runs of consecutive elements with equal key. Used in src/tokenize.rs:116,147. -/
def group_by {κ : Type} [DecidableEq κ] (key : Char → κ) : Str → List (κ × Str)
  | [] => []
  | c :: cs => groupLoop key (key c) [c] cs

/-- src/tokenize.rs:114-120 -/
def tokenize_with_opt (input : Str) (compact : Bool) : List Str :=
  (group_by (fun elt => get_type elt compact) input).map fun p => p.2

/-- src/tokenize.rs:105-107 -/
def tokenize (input : Str) : List Str := tokenize_with_opt input false

/-- src/tokenize.rs:145-151 -/
def tokenize_detailed (input : Str) (compact : Bool) : List (TokenType × Str) :=
  group_by (fun elt => get_type elt compact) input

end WanaKana
