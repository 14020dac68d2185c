import Verif.Spec.RustTokens
/-! # The tree literals of the source

What `let transitions = vec![..];` in src/to_kana_node_tree.rs and
`let transitions = Some(vec![..]);` in src/to_romaji_node_tree.rs say, as tokens.  A comma
before a closing bracket means nothing in Rust (except after the only element of a tuple, and
there are only pairs here), so such commas are taken out before comparing. -/

namespace Spec
open WanaKana

def isClosing : Tok → Bool
  | .punct ')' => true
  | .punct ']' => true
  | .punct '}' => true
  | _ => false

/-- take out the commas before closing brackets -/
def withoutTrailing : List Tok → List Tok
  | [] => []
  | [t] => [t]
  | t :: t' :: rest =>
    if t = .punct ',' && isClosing t' then withoutTrailing (t' :: rest)
    else t :: withoutTrailing (t' :: rest)

/-- `a, b, .., z` -/
def commaSeparated : List (List Tok) → List Tok
  | [] => []
  | [a] => a
  | a :: b :: rest => a ++ .punct ',' :: commaSeparated (b :: rest)

/-- `vec![a, b, .., z]` -/
def vecTokens (l : List (List Tok)) : List Tok :=
  [.word "vec".toList, .punct '!', .punct '['] ++ commaSeparated l ++ [.punct ']']

/-- `Some(..)` -/
def someTokens (l : List Tok) : List Tok :=
  [.word "Some".toList, .punct '('] ++ l ++ [.punct ')']

/-- `('c', Node { transitions: .., output: .. })` -/
def pairSource (c : Char) (transitions output : List Tok) : List Tok :=
  [.punct '(', .char [c], .punct ',', .word "Node".toList, .punct '{',
      .word "transitions".toList, .punct ':'] ++ transitions ++
    [.punct ',', .word "output".toList, .punct ':'] ++ output ++ [.punct '}', .punct ')']

/-- `None` or `Some("..")` -/
def outSource : Option Str → List Tok
  | none => [.word "None".toList]
  | some s => someTokens [.string s]

mutual
/-- one transition of the kana tree: an empty list is written `vec![]` -/
def kPairSource : Char → KNode → List Tok
  | c, .mk t o => pairSource c (vecTokens (kSource t))
      (outSource o)
def kSource : List (Char × KNode) → List (List Tok)
  | [] => []
  | (c, n) :: rest => kPairSource c n :: kSource rest
end

mutual
/-- one transition of the romaji tree -/
def rPairSource : Char → RNode → List Tok
  | c, .mk none o => pairSource c [.word "None".toList] [.string o]
  | c, .mk (some t) o => pairSource c (someTokens (vecTokens (rSource t))) [.string o]
def rSource : List (Char × RNode) → List (List Tok)
  | [] => []
  | (c, n) :: rest => rPairSource c n :: rSource rest
end

/-- `let transitions = ..;` -/
def letTokens (l : List Tok) : List Tok :=
  [.word "let".toList, .word "transitions".toList, .punct '='] ++ l ++ [.punct ';']

/-- lines of a file -/
def linesText (l : List String) : Str := l.flatMap fun s => s.toList ++ ['\n']

end Spec
