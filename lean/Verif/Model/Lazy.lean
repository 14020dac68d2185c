import Verif.Model.Convert
import Verif.Model.Trim
/-! # `lazy_static!` and threads

The tables of the crate are created at first use, by whichever thread comes first.  This file models

* the eight `lazy_static!` items of the crate and their initialisers,
* `lazy_static::Lazy::get` (lazy_static 1.4, inline_lazy.rs) over `std::sync::Once` (library/std/src/sync/once.rs): a cell
  for the value and a state that is `INCOMPLETE`, `RUNNING`, `POISONED` or `COMPLETE`,
* any number of threads that run one step at a time in any order (`Once` synchronises the threads, so interleaving their
  steps is all that can be observed).

A computation that uses the statics is a `Prog`: it returns, fails, or dereferences a static and goes on with its value. -/

namespace WanaKana.Lazy

/-- the `static ref`s of src/to_kana_node_tree.rs:52, 4819, 4840, src/to_romaji_node_tree.rs:43,
src/utils/katakana_to_hiragana.rs:34 and src/constants.rs:69, 78, 83 -/
inductive Static where
  | TO_KANA_NODE_TREE | TO_KANA_NODE_TREE_OBSOLETE | TO_KANA_NODE_TREE_IMEMODE | TO_ROMAJI_NODE_TREE | LONG_VOWELS
  | JAPANESE_RANGES | ROMAJI_RANGES | EN_PUNCTUATION_RANGES
deriving DecidableEq, Repr

/-- values of statics, and results of the functions of the crate (src/to_kana_node_tree.rs:52,
src/to_romaji_node_tree.rs:43, src/utils/katakana_to_hiragana.rs:34, src/constants.rs:69) -/
inductive Val where
  | kana (t : KNode)
  | romaji (t : RNode)
  | vowels (f : Char → Option Char)
  | ranges (r : List Range)
  | text (s : Str)
  | bool (b : Bool)
  | tokens (l : List (TokenType × Str))
  | list (l : List Val)

/-- a computation that dereferences statics (all of src/*.rs) -/
inductive Prog (α : Type) where
  | ret (a : α)
  | fault (e : Fault)
  | deref (s : Static) (k : Val → Prog α)

namespace Prog

/-- one computation after the other (all of src/*.rs) -/
def bind {α β : Type} (p : Prog α) (f : α → Prog β) : Prog β :=
  match p with
  | ret a => f a
  | fault e => fault e
  | deref s k => deref s fun v => (k v).bind f

instance : Monad Prog where
  pure := ret
  bind := bind

/-- a computation that does not use statics (all of src/*.rs) -/
def lift {α : Type} : Res α → Prog α
  | .ok a => ret a
  | .error e => fault e

/-- `*TO_KANA_NODE_TREE` etc.: a static of type `Node` of src/to_kana_node_tree.rs:52, 4819, 4840.  (The other case
cannot occur in a typed program.) -/
def kana (s : Static) : Prog KNode := .deref s fun
  | .kana t => .ret t
  | _ => .fault .panic

/-- `*TO_ROMAJI_NODE_TREE`, src/to_romaji_node_tree.rs:43 -/
def romaji : Prog RNode := .deref .TO_ROMAJI_NODE_TREE fun
  | .romaji t => .ret t
  | _ => .fault .panic

/-- `*LONG_VOWELS`, src/utils/katakana_to_hiragana.rs:34 -/
def vowels : Prog (Char → Option Char) := .deref .LONG_VOWELS fun
  | .vowels f => .ret f
  | _ => .fault .panic

/-- `*JAPANESE_RANGES` etc., src/constants.rs:69, 78, 83 -/
def ranges (s : Static) : Prog (List Range) := .deref s fun
  | .ranges r => .ret r
  | _ => .fault .panic

end Prog

/-- `FnvHashMap::insert`, on maps as lookup functions (src/utils/hashmap_macro.rs:12) -/
def insert (m : Char → Option Char) (key value : Char) : Char → Option Char :=
  fun c => if c = key then some value else m c

/-- `hashmap! { key => value, … }`: src/utils/hashmap_macro.rs:6-16, the entries inserted in order into an empty map -/
def hashmap (entries : List (Char × Char)) : Char → Option Char :=
  entries.foldl (fun m e => insert m e.1 e.2) fun _ => none

/-- the initialisers of the statics: src/to_kana_node_tree.rs:52-4818, 4819-4839 (line 4820 dereferences
`TO_KANA_NODE_TREE`), 4840-4860 (line 4841 does), src/to_romaji_node_tree.rs:43-2682,
src/utils/katakana_to_hiragana.rs:34-40, src/constants.rs:69-87 -/
def staticInit : Static → Prog Val
  | .TO_KANA_NODE_TREE => .ret (.kana (KNode.mk kanaTransitions none).sort)
  | .TO_KANA_NODE_TREE_OBSOLETE => do
    let tree ← Prog.kana .TO_KANA_NODE_TREE
    let t ← Prog.lift (KNode.modifyTransition 'w' obsoleteEdit tree.transitions)
    .ret (.kana (KNode.mk t tree.output).sort)
  | .TO_KANA_NODE_TREE_IMEMODE => do
    let tree ← Prog.kana .TO_KANA_NODE_TREE
    let t ← Prog.lift (KNode.modifyTransition 'n' imeEdit tree.transitions)
    .ret (.kana (KNode.mk t tree.output).sort)
  | .TO_ROMAJI_NODE_TREE => .ret (.romaji (RNode.mk (some romajiTransitions) []).sort)
  | .LONG_VOWELS => .ret (.vowels (hashmap [('a', 'あ'), ('i', 'い'), ('u', 'う'), ('e', 'え'), ('o', 'う')]))
  | .JAPANESE_RANGES => .ret (.ranges JAPANESE_RANGES)
  | .ROMAJI_RANGES => .ret (.ranges ROMAJI_RANGES)
  | .EN_PUNCTUATION_RANGES => .ret (.ranges EN_PUNCTUATION_RANGES)

/-- the states of a `std::sync::Once` (one in every `static ref` of src/*.rs) -/
inductive Once where
  | incomplete | running | poisoned | complete
deriving DecidableEq, Repr

/-- a call of `Once::call_once` in progress: the static that is being initialised, whether its value is stored in the
cell yet, and what to do with the value (every `static ref` of src/*.rs) -/
structure Frame where
  static : Static
  stored : Bool
  k : Val → Prog Val

/-- a thread: what it runs, and the initialisations it is inside of, innermost first (no thread is created in src/*.rs;
these are the threads of the program that uses the crate) -/
structure Thread where
  cur : Prog Val
  stack : List Frame

/-- the memory shared by the threads: state and cell of every static (src/*.rs) -/
structure Shared where
  once : Static → Once
  cell : Static → Option Val

/-- change the state of one static (src/*.rs) -/
def Shared.setOnce (m : Shared) (s : Static) (o : Once) : Shared :=
  { m with once := fun s' => if s' = s then o else m.once s' }

/-- store a value in the cell of one static (src/*.rs) -/
def Shared.setCell (m : Shared) (s : Static) (v : Val) : Shared :=
  { m with cell := fun s' => if s' = s then some v else m.cell s' }

/-- The next step of a thread.  `none`: it is finished, or has to wait for another thread (or for itself).  The first
component is the static whose initialiser is started by this step.

`Lazy::get` is `self.1.call_once(|| self.0.set(Some(f())))` and then reading the cell; `call_once` returns at once in
state `COMPLETE`, panics in state `POISONED`, waits in state `RUNNING` and otherwise changes the state to `RUNNING`, runs
the closure and changes the state to `COMPLETE`, or to `POISONED` if the closure panics. (Used by every `static ref` of
src/*.rs.) -/
def stepThread (m : Shared) (t : Thread) : Option (Option Static × Shared × Thread) :=
  match t.cur, t.stack with
  | .deref s k, st =>
    match m.once s with
    | .complete =>
      match m.cell s with
      | some v => some (none, m, ⟨k v, st⟩)
      | none => some (none, m, ⟨.fault .panic, st⟩)
    | .poisoned => some (none, m, ⟨.fault .panic, st⟩)
    | .running => none
    | .incomplete => some (some s, m.setOnce s .running, ⟨staticInit s, ⟨s, false, k⟩ :: st⟩)
  | .ret v, f :: st =>
    if f.stored then some (none, m.setOnce f.static .complete, ⟨.deref f.static f.k, st⟩)
    else some (none, m.setCell f.static v, ⟨.ret v, ⟨f.static, true, f.k⟩ :: st⟩)
  | .fault .panic, f :: st => some (none, m.setOnce f.static .poisoned, ⟨.fault .panic, st⟩)
  | _, _ => none

/-- a program in execution (src/*.rs) -/
structure State where
  shared : Shared
  threads : List Thread

/-- one thread makes a step (src/*.rs) -/
def Step (σ : State) (started : Option Static) (σ' : State) : Prop :=
  ∃ i t m' t', σ.threads[i]? = some t ∧ stepThread σ.shared t = some (started, m', t') ∧
    σ' = ⟨m', σ.threads.set i t'⟩

/-- no static is initialised yet and every thread is at the beginning of its program (src/*.rs) -/
def start (ps : List (Prog Val)) : State :=
  ⟨⟨fun _ => .incomplete, fun _ => none⟩, ps.map fun p => ⟨p, []⟩⟩

/-- the threads, running the programs `ps`, have made some steps in some order; the initialisers started are noted
(src/*.rs) -/
inductive Run (ps : List (Prog Val)) : List (Option Static) → State → Prop where
  | start : Run ps [] (start ps)
  | step {log σ s σ'} : Run ps log σ → Step σ s σ' → Run ps (log ++ [s]) σ'

/-! ## The functions of the crate, dereferencing the statics where the code does -/

/-- src/utils/is_char_japanese.rs:6-10 -/
def is_char_japanese (c : Char) : Prog Bool := do
  let r ← Prog.ranges .JAPANESE_RANGES
  .ret (anyRange r c)

/-- src/utils/is_char_romaji.rs:5-9 -/
def is_char_romaji (c : Char) : Prog Bool := do
  let r ← Prog.ranges .ROMAJI_RANGES
  .ret (anyRange r c)

/-- src/utils/is_char_english_punctuation.rs:7-11 -/
def is_char_english_punctuation (c : Char) : Prog Bool := do
  let r ← Prog.ranges .EN_PUNCTUATION_RANGES
  .ret (anyRange r c)

/-- `chars().all(..)` (src/is_romaji.rs:11, src/is_japanese.rs:11) -/
def allChars (p : Char → Prog Bool) : Str → Prog Bool
  | [] => .ret true
  | c :: cs => do
    let b ← p c
    if b then allChars p cs else .ret false

/-- `chars().any(..)` (src/is_mixed.rs:21) -/
def anyChars (p : Char → Prog Bool) : Str → Prog Bool
  | [] => .ret false
  | c :: cs => do
    let b ← p c
    if b then .ret true else anyChars p cs

/-- src/is_romaji.rs:7-12 -/
def is_romaji (input : Str) : Prog Bool := if input.isEmpty then .ret false else allChars is_char_romaji input

/-- src/is_japanese.rs:7-12 -/
def is_japanese (input : Str) : Prog Bool := if input.isEmpty then .ret false else allChars is_char_japanese input

/-- src/is_mixed.rs:15-23, with short-circuit `&&` -/
def is_mixed_pass_kanji (input : Str) (pass_kanji : Bool) : Prog Bool :=
  let has_kanji := if !pass_kanji then input.any is_char_kanji else false
  if input.any is_char_hiragana || input.any is_char_katakana then do
    let r ← anyChars is_char_romaji input
    .ret (r && !has_kanji)
  else .ret false

/-- the loop of src/utils/katakana_to_hiragana.rs:50-101 -/
def k2hLoop (std : Std) (input : Str) (is_destination_romaji : Bool) :
    Str → Nat → Option Char → Str → Prog Str
  | [], _, _, hira => .ret hira
  | input_char :: rest, index, previous_kana, hira =>
    let next := k2hLoop std input is_destination_romaji rest (index + 1)
    if is_char_slash_dot input_char || is_char_initial_long_dash input_char index
        || is_kana_as_symbol input_char then
      next previous_kana (hira ++ [input_char])
    else
      match previous_kana, is_char_inner_long_dash input_char index with
      | some prev, true => do
        let tree ← Prog.romaji
        let node ← Prog.lift (tree.find_transition_node std prev)
        match node with
        | none => next previous_kana (hira ++ [input_char])
        | some node => do
          let romaji_opt := node.output.getLast?
          let i ← Prog.lift (usizeSub index 1)
          if (match input[i]? with
              | some prev_char =>
                is_char_katakana prev_char && romaji_opt == some 'o' && is_destination_romaji
              | none => false) then
            next previous_kana (hira ++ ['お'])
          else
            match romaji_opt with
            | none => next previous_kana hira
            | some romaji => do
              let long_vowels ← Prog.vowels
              match long_vowels romaji with
              | some hit => next previous_kana (hira ++ [hit])
              | none => next previous_kana hira
      | _, _ =>
        if !is_char_long_dash input_char && is_char_katakana input_char then
          let hira_char := k2hChar input_char
          next (some hira_char) (hira ++ [hira_char])
        else
          next none (hira ++ [input_char])

/-- src/utils/katakana_to_hiragana.rs:47-103 -/
def katakana_to_hiragana_with_opt (std : Std) (input : Str) (is_destination_romaji : Bool) : Prog Str :=
  k2hLoop std input is_destination_romaji input 0 none []

/-- src/to_kana.rs:23-29: every iteration dereferences one of the trees -/
def toKanaLookup (options : Options) (chars : Str) : Prog (Option Str × Nat) := do
  let tree ←
    if options.use_obsolete_kana then Prog.kana .TO_KANA_NODE_TREE_OBSOLETE
    else if options.imemode then Prog.kana .TO_KANA_NODE_TREE_IMEMODE
    else Prog.kana .TO_KANA_NODE_TREE
  .ret (tree.get chars)

/-- src/to_kana.rs:22-46 -/
def toKanaLoop (std : Std) (options : Options) (chars : Str) (len : Nat) :
    (fuel : Nat) → (curr_pos : Nat) → (ouput : Str) → Prog Str
  | 0, _, _ => .fault .diverge
  | fuel + 1, curr_pos, ouput =>
    if curr_pos ≠ len then do
      let rest ← Prog.lift (sliceFrom chars curr_pos)
      let result ← toKanaLookup options rest
      if result.2 == 0 || result.1.isNone then do
        let c ← Prog.lift (index chars curr_pos)
        toKanaLoop std options chars len fuel (curr_pos + 1) (ouput ++ [c])
      else do
        let consumed ← Prog.lift (slice chars curr_pos (curr_pos + result.2))
        let out ← Prog.lift (unwrap result.1)
        if consumed.all std.isUppercase then do
          let kata ← Prog.lift (hiragana_to_katakana out)
          toKanaLoop std options chars len fuel (curr_pos + result.2) (ouput ++ kata)
        else
          toKanaLoop std options chars len fuel (curr_pos + result.2) (ouput ++ out)
    else .ret ouput

/-- src/to_kana.rs:14-49 -/
def to_kana_with_opt (std : Std) (input : Str) (options : Options) : Prog Str :=
  toKanaLoop std options input input.length (input.length + 1) 0 []

/-- src/to_romaji.rs:21-46 -/
def toRomajiLoop (std : Std) (options : Options) (orig_chars chars : Str) (len : Nat) :
    (fuel : Nat) → (curr_pos : Nat) → (ouput : Str) → Prog Str
  | 0, _, _ => .fault .diverge
  | fuel + 1, curr_pos, ouput =>
    if curr_pos ≠ len then do
      let rest ← Prog.lift (sliceFrom chars curr_pos)
      let tree ← Prog.romaji
      let result ← Prog.lift (tree.get std rest)
      if result.2 == 0 then do
        let c ← Prog.lift (index chars curr_pos)
        toRomajiLoop std options orig_chars chars len fuel (curr_pos + 1) (ouput ++ [c])
      else do
        let consumed ← Prog.lift (slice orig_chars curr_pos (curr_pos + result.2))
        let convert_romaji_to_uppercase :=
          if consumed.all is_char_katakana then options.upcase_katakana else false
        toRomajiLoop std options orig_chars chars len fuel (curr_pos + result.2)
          (ouput ++ if convert_romaji_to_uppercase then std.toUppercase result.1 else result.1)
    else .ret ouput

/-- src/to_romaji.rs:12-49 -/
def to_romaji_with_opt (std : Std) (orig : Str) (options : Options) : Prog Str := do
  let kana ← katakana_to_hiragana_with_opt std orig true
  toRomajiLoop std options orig kana kana.length (kana.length + 1) 0 []

/-- src/utils/romaji_to_hiragana.rs:8-11 -/
def romaji_to_hiragana (std : Std) (input : Str) (options : Options) : Prog Str :=
  to_kana_with_opt std (std.toLowercase input) options

/-- src/to_hiragana.rs:22-27, the condition with short-circuit `||` -/
def romajiOrPunctuation (input : Str) : Prog Bool := do
  let r ← is_romaji input
  if r then .ret true
  else match input.head? with
    | some c => is_char_english_punctuation c
    | none => .ret false

/-- src/to_hiragana.rs:15-35 -/
def to_hiragana_with_opt (std : Std) (input : Str) (config : Options) : Prog Str :=
  if config.pass_romaji then katakana_to_hiragana_with_opt std input false
  else do
    let mixed ← is_mixed_pass_kanji input true
    if mixed then do
      let romaji ← katakana_to_hiragana_with_opt std input false
      romaji_to_hiragana std romaji config
    else do
      let b ← romajiOrPunctuation input
      if b then romaji_to_hiragana std input config
      else katakana_to_hiragana_with_opt std input false

/-- src/to_katakana.rs:16, the condition with short-circuit `||` -/
def romajiOrMixed (input : Str) : Prog Bool := do
  let r ← is_romaji input
  if r then .ret true else is_mixed_pass_kanji input true

/-- src/to_katakana.rs:12-22 -/
def to_katakana_with_opt (std : Std) (input : Str) (config : Options) : Prog Str :=
  if config.pass_romaji then Prog.lift (hiragana_to_katakana input)
  else do
    let b ← romajiOrMixed input
    if b then do
      let romaji ← romaji_to_hiragana std input config
      Prog.lift (hiragana_to_katakana romaji)
    else Prog.lift (hiragana_to_katakana input)

/-- src/tokenize.rs:64-67, with short-circuit `||` -/
def numberOrPunctuation (input : Char) : Prog Bool :=
  if is_char_japanese_number input || is_char_latin_number input then .ret true
  else do
    let p ← is_char_english_punctuation input
    .ret (p || is_char_japanese_punctuation input)

/-- src/tokenize.rs:69-71, 86-88: the last arms of both `match`es -/
def japaneseOrRomaji (input : Char) : Prog TokenType := do
  let j ← is_char_japanese input
  if j then .ret .Ja
  else do
    let r ← is_char_romaji input
    if r then .ret .En else .ret .Other

/-- src/tokenize.rs:58-91, `match` arms in order -/
def get_type (input : Char) (compact : Bool) : Prog TokenType :=
  if compact then
    if input = ' ' then .ret .En
    else if input = '　' then .ret .Ja
    else do
      let other ← numberOrPunctuation input
      if other then .ret .Other else japaneseOrRomaji input
  else
    if input = ' ' then .ret .Space
    else if input = '　' then .ret .Space
    else if is_char_japanese_number input then .ret .JaNum
    else if is_char_latin_number input then .ret .EnNum
    else do
      let p ← is_char_english_punctuation input
      if p then .ret .EnPunc
      else if is_char_japanese_punctuation input then .ret .JaPunc
      else if is_char_kanji input then .ret .Kanji
      else if is_char_hiragana input then .ret .Hiragana
      else if is_char_katakana input then .ret .Katakana
      else japaneseOrRomaji input

/-- `itertools::group_by` with a key function that uses statics (src/tokenize.rs:116,147) -/
def groupLoop (compact : Bool) (k : TokenType) (g : Str) : Str → Prog (List (TokenType × Str))
  | [] => .ret [(k, g)]
  | c :: cs => do
    let k' ← get_type c compact
    if k' = k then groupLoop compact k (g ++ [c]) cs
    else do
      let r ← groupLoop compact k' [c] cs
      .ret ((k, g) :: r)

/-- src/tokenize.rs:145-151 -/
def tokenize_detailed (input : Str) (compact : Bool) : Prog (List (TokenType × Str)) :=
  match input with
  | [] => .ret []
  | c :: cs => do
    let k ← get_type c compact
    groupLoop compact k [c] cs

/-- src/tokenize.rs:114-120 -/
def tokenize_with_opt (input : Str) (compact : Bool) : Prog (List Str) := do
  let r ← tokenize_detailed input compact
  .ret (r.map fun p => p.2)

/-- src/trim_okurigana.rs:71-76, the condition with short-circuit `||` -/
def trimGuard (input : Str) (trim_from_start : Bool) (match_kanji : Option Str) : Prog Bool := do
  let j ← is_japanese input
  if !j then .ret true
  else do
    let leading ← Prog.lift (is_leading_without_initial_kana input trim_from_start)
    if leading then .ret true
    else do
      let trailing ← Prog.lift (is_trailing_without_final_kana input trim_from_start)
      if trailing then .ret true else .ret (is_invalid_matcher input match_kanji)

/-- src/trim_okurigana.rs:81-85 -/
def trimTokens (input : Str) (match_kanji : Option Str) : Prog (List Str) :=
  match match_kanji with
  | some match_kanji => tokenize_with_opt match_kanji false
  | none => tokenize_with_opt input false

/-- src/trim_okurigana.rs:66-95 -/
def trim_okurigana_with_opt (input : Str) (trim_from_start : Bool) (match_kanji : Option Str) : Prog Str := do
  let unsuitable ← trimGuard input trim_from_start match_kanji
  if unsuitable then .ret input
  else do
    let tokens ← trimTokens input match_kanji
    if tokens.isEmpty then .ret input
    else if trim_from_start then do
      let t ← Prog.lift (index tokens 0)
      .ret (trim_start_matches input t)
    else do
      let t ← Prog.lift (unwrap tokens.getLast?)
      .ret (trim_end_matches input t)

end WanaKana.Lazy
