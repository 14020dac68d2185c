import Verif.Model.Lazy
/-! # What a thread should see: the tables as if they were constants -/

namespace Spec
open WanaKana WanaKana.Lazy

/-- the value every use of a static should see -/
def staticVal : Static → Val
  | .TO_KANA_NODE_TREE => .kana WanaKana.TO_KANA_NODE_TREE
  | .TO_KANA_NODE_TREE_OBSOLETE => match WanaKana.TO_KANA_NODE_TREE_OBSOLETE with
    | .ok t => .kana t
    | .error _ => .list []
  | .TO_KANA_NODE_TREE_IMEMODE => match WanaKana.TO_KANA_NODE_TREE_IMEMODE with
    | .ok t => .kana t
    | .error _ => .list []
  | .TO_ROMAJI_NODE_TREE => .romaji WanaKana.TO_ROMAJI_NODE_TREE
  | .LONG_VOWELS => .vowels WanaKana.LONG_VOWELS
  | .JAPANESE_RANGES => .ranges WanaKana.JAPANESE_RANGES
  | .ROMAJI_RANGES => .ranges WanaKana.ROMAJI_RANGES
  | .EN_PUNCTUATION_RANGES => .ranges WanaKana.EN_PUNCTUATION_RANGES

/-- the result of a program run alone, with constants for the statics -/
def alone {α : Type} : Prog α → Res α
  | .ret a => .ok a
  | .fault e => .error e
  | .deref s k => alone (k (staticVal s))

/-- how often a program, run alone, uses a static -/
def uses {α : Type} : Prog α → Nat
  | .deref s k => uses (k (staticVal s)) + 1
  | _ => 0

/-- the thread has come to the end of its program, with this result -/
def Finished (t : Thread) (r : Res Val) : Prop :=
  t.stack = [] ∧ ((∃ v, t.cur = .ret v ∧ r = .ok v) ∨ (∃ e, t.cur = .fault e ∧ r = .error e))

/-- a call of a function of the crate -/
inductive ApiCall where
  | is_romaji (s : Str)
  | is_japanese (s : Str)
  | is_mixed_pass_kanji (s : Str) (pass_kanji : Bool)
  | to_kana_with_opt (s : Str) (o : Options)
  | to_romaji_with_opt (s : Str) (o : Options)
  | to_hiragana_with_opt (s : Str) (o : Options)
  | to_katakana_with_opt (s : Str) (o : Options)
  | tokenize_detailed (s : Str) (compact : Bool)
  | trim_okurigana_with_opt (s : Str) (trim_from_start : Bool) (match_kanji : Option Str)

/-- the call, on the tables that are created at first use -/
def ApiCall.prog (std : Std) : ApiCall → Prog Val
  | is_romaji s => do return .bool (← Lazy.is_romaji s)
  | is_japanese s => do return .bool (← Lazy.is_japanese s)
  | is_mixed_pass_kanji s b => do return .bool (← Lazy.is_mixed_pass_kanji s b)
  | to_kana_with_opt s o => do return .text (← Lazy.to_kana_with_opt std s o)
  | to_romaji_with_opt s o => do return .text (← Lazy.to_romaji_with_opt std s o)
  | to_hiragana_with_opt s o => do return .text (← Lazy.to_hiragana_with_opt std s o)
  | to_katakana_with_opt s o => do return .text (← Lazy.to_katakana_with_opt std s o)
  | tokenize_detailed s b => do return .tokens (← Lazy.tokenize_detailed s b)
  | trim_okurigana_with_opt s b m => do return .text (← Lazy.trim_okurigana_with_opt s b m)

/-- the result of the call in the model where the tables are constants -/
def ApiCall.result (std : Std) : ApiCall → Res Val
  | is_romaji s => .ok (.bool (WanaKana.is_romaji s))
  | is_japanese s => .ok (.bool (WanaKana.is_japanese s))
  | is_mixed_pass_kanji s b => .ok (.bool (WanaKana.is_mixed_pass_kanji s b))
  | to_kana_with_opt s o => do return .text (← WanaKana.to_kana_with_opt std s o)
  | to_romaji_with_opt s o => do return .text (← WanaKana.to_romaji_with_opt std s o)
  | to_hiragana_with_opt s o => do return .text (← WanaKana.to_hiragana_with_opt std s o)
  | to_katakana_with_opt s o => do return .text (← WanaKana.to_katakana_with_opt std s o)
  | tokenize_detailed s b => .ok (.tokens (WanaKana.tokenize_detailed s b))
  | trim_okurigana_with_opt s b m => do return .text (← WanaKana.trim_okurigana_with_opt s b m)

/-- a thread that makes some calls, one after the other, and keeps the results -/
def session (std : Std) : List ApiCall → Prog (List Val)
  | [] => .ret []
  | c :: cs => do
    let v ← c.prog std
    let vs ← session std cs
    .ret (v :: vs)

/-- the program of such a thread -/
def client (std : Std) (cs : List ApiCall) : Prog Val := do return .list (← session std cs)

end Spec
