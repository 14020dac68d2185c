import Verif.Model.Tokenize
/-! # src/trim_okurigana.rs -/

namespace WanaKana

/-- `str::trim_start_matches(pattern)` for a string pattern: strip the pattern as long as the
text starts with it.  An empty pattern removes nothing.  `fuel` bounds the repetitions.
Used in src/trim_okurigana.rs:91. -/
def trimStartLoop (pat : Str) : (fuel : Nat) → Str → Str
  | 0, s => s
  | fuel + 1, s =>
    if pat ≠ [] ∧ pat <+: s then trimStartLoop pat fuel (s.drop pat.length) else s

/-- `str::trim_start_matches`; more than `s.length` repetitions are impossible. Used in src/trim_okurigana.rs:91. -/
def trim_start_matches (s pat : Str) : Str := trimStartLoop pat s.length s

/-- `str::trim_end_matches` for a string pattern, see `trimStartLoop`. Used in src/trim_okurigana.rs:93. -/
def trimEndLoop (pat : Str) : (fuel : Nat) → Str → Str
  | 0, s => s
  | fuel + 1, s =>
    if pat ≠ [] ∧ pat <:+ s then trimEndLoop pat fuel (s.take (s.length - pat.length)) else s

/-- `str::trim_end_matches`; more than `s.length` repetitions are impossible. Used in src/trim_okurigana.rs:93. -/
def trim_end_matches (s pat : Str) : Str := trimEndLoop pat s.length s

/-- src/trim_okurigana.rs:25-30 -/
def is_leading_without_initial_kana (input : Str) (trim_from_start : Bool) : Res Bool :=
  if input.isEmpty then .ok false
  else if trim_from_start then do
    let c ← unwrap input.head?
    .ok (!is_char_kana c)
  else .ok false

/-- src/trim_okurigana.rs:33-38 -/
def is_trailing_without_final_kana (input : Str) (trim_from_start : Bool) : Res Bool :=
  if input.isEmpty then .ok false
  else if !trim_from_start then do
    let c ← unwrap input.getLast?
    .ok (!is_char_kana c)
  else .ok false

/-- src/trim_okurigana.rs:40-46 -/
def is_invalid_matcher (input : Str) (match_kanji : Option Str) : Bool :=
  match match_kanji with
  | some match_kanji => match_kanji.all is_char_kanji
  | none => is_kana input

/-- src/trim_okurigana.rs:71-76: the condition, with short-circuit `||` -/
def trimGuard (input : Str) (trim_from_start : Bool) (match_kanji : Option Str) : Res Bool :=
  if !is_japanese input then .ok true
  else do
    let leading ← is_leading_without_initial_kana input trim_from_start
    if leading then .ok true
    else do
      let trailing ← is_trailing_without_final_kana input trim_from_start
      if trailing then .ok true else .ok (is_invalid_matcher input match_kanji)

/-- src/trim_okurigana.rs:81-85 -/
def trimTokens (input : Str) (match_kanji : Option Str) : List Str :=
  match match_kanji with
  | some match_kanji => tokenize match_kanji
  | none => tokenize input

/-- src/trim_okurigana.rs:66-95 -/
def trim_okurigana_with_opt (input : Str) (trim_from_start : Bool) (match_kanji : Option Str) :
    Res Str := do
  let unsuitable ← trimGuard input trim_from_start match_kanji
  if unsuitable then .ok input
  else
    let tokens := trimTokens input match_kanji
    if tokens.isEmpty then .ok input
    else if trim_from_start then do
      let t ← index tokens 0
      .ok (trim_start_matches input t)
    else do
      let t ← unwrap tokens.getLast?
      .ok (trim_end_matches input t)

/-- src/trim_okurigana.rs:21-23 -/
def trim_okurigana (input : Str) : Res Str := trim_okurigana_with_opt input false none

end WanaKana
