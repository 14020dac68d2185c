import Verif.Spec.RoundTrip
import Verif.Props.ToRomaji2
import Verif.Props.ToKana3

/-! # Table facts for the trip kana → romaji → kana -/

namespace WanaKana
open KNode
open Spec (toHira toKata asciiUpper kanaTable)

def obsOf (m : Mode) : Bool := decide (m = .obsolete)

/-- pieces with a table entry, in hiragana -/
def tablePieces (m : Mode) : List Str :=
  Spec.regularSyllables (obsOf m) ++ Spec.reversibleMarks.map fun c => [c]

/-- what has to hold for the romaji `x` (in capitals or not) of the piece `h` when it is written `w` -/
def outCheck (m : Mode) (h w x : Str) : Bool :=
  if h = ['ん'] then decide (x = ['n'] ∧ w = ['ん'] ∨ x = ['N'] ∧ w = ['ン']) else
  isKey m (low x) h && decide (styled x h = w) &&
  (match x.head? with
    | some c => decide (h.head? ∈ Spec.vowelOrY.map some) || !(['a', 'i', 'u', 'e', 'o', 'y', '\''].contains (toAsciiLowercase c))
    | none => false)

def pieceCheck (m : Mode) (h : Str) : Bool :=
  match TO_ROMAJI_NODE_TREE.mwalk h with
  | none => false
  | some n => outCheck m h h n.output && outCheck m h (h.map toKata) (n.output.map asciiUpper) &&
      decide ((h.map toKata).map toHira = h) && decide (h.map toHira = h) && !h.contains 'ゔ' && !h.contains 'ヷ' &&
      decide (h.map toKata = h ∨ ((∀ c ∈ h.map toKata, Spec.Katakana c) ∧ ¬ ∀ c ∈ h, Spec.Katakana c)) &&
      (match h with
        | c :: r => decide (c ∉ Spec.vowelOrY ∨ r = [])
        | [] => false)

theorem pieceCheck_all (m : Mode) (hm : m ≠ .ime) : (tablePieces m).all (pieceCheck m) = true := by
  cases m with
  | normal => decide +kernel
  | obsolete => decide +kernel
  | ime => exact absurd rfl hm

/-- first characters of pieces -/
def pieceHeads : List Char :=
  ['あ', 'い', 'う', 'え', 'お', 'か', 'き', 'く', 'け', 'こ', 'が', 'ぎ', 'ぐ', 'げ', 'ご', 'さ', 'し',
    'す', 'せ', 'そ', 'ざ', 'じ', 'ず', 'ぜ', 'ぞ', 'た', 'ち', 'つ', 'て', 'と', 'だ', 'で', 'ど', 'な',
    'に', 'ぬ', 'ね', 'の', 'は', 'ひ', 'ふ', 'へ', 'ほ', 'ば', 'び', 'ぶ', 'べ', 'ぼ', 'ぱ', 'ぴ', 'ぷ',
    'ぺ', 'ぽ', 'ま', 'み', 'む', 'め', 'も', 'や', 'ゆ', 'よ', 'ら', 'り', 'る', 'れ', 'ろ', 'わ', 'を',
    'ん', 'ゐ', 'ゑ', 'っ', '、', '。', '「', '」', '『', '』', '〜', '・', 'ー', '！', '（', '）', '：',
    '？', '［', '］', '｛', '｝']

theorem pieceHeads_all (m : Mode) : ((tablePieces m).all fun h => match h with
    | c :: r => decide (c ∈ pieceHeads) && decide (c ≠ 'っ' ∨ r ≠ [])
    | [] => false) = true := by
  cases m <;> decide +kernel

/-- no table key continues a piece with the beginning of another piece, except ん + vowel -/
theorem keyCheck_all : (kanaTable.all fun k => k.1.all (fun c => decide (Spec.Convertible c)) && match k.1 with
    | [a, b] => decide (b ∉ pieceHeads ∨ a = 'っ' ∨ (a = 'ん' ∧ b ∈ Spec.vowelOrY))
    | [a, _, c] => decide (a = 'っ' ∧ c ∉ pieceHeads)
    | [_] => true
    | _ => false) = true := by decide +kernel

/-- ん before a vowel or y -/
theorem nasalCheck_all (m : Mode) (hm : m ≠ .ime) : (Spec.vowelOrY.all fun y =>
    match TO_ROMAJI_NODE_TREE.mwalk ['ん', y] with
    | some n => (match n.output with
      | 'n' :: '\'' :: x => isKey m ['n', '\''] ['ん'] && isKey m x [y] && decide (styled x [y] = [y]) && decide (low x = x)
      | _ => false)
    | none => false) = true := by
  cases m with
  | normal => decide +kernel
  | obsolete => decide +kernel
  | ime => exact absurd rfl hm

/-- in the normal tree `n` is followed only by vowels, y and the apostrophe -/
theorem n_node (m : Mode) (hm : m ≠ .ime) : (match (tree m).walk ['n'] with
    | some n => decide (n.output = some ['ん']) && n.transitions.all fun t => "aiueoy'".toList.contains t.1
    | none => false) = true := by
  cases m with
  | normal => decide +kernel
  | obsolete => decide +kernel
  | ime => exact absurd rfl hm

end WanaKana
