import Verif.Spec.SourceTrees
import Verif.Model.Upstream
/-! # The `json!` tables of the generators' source -/

namespace Spec
open WanaKana
open WanaKana.Upstream (Json object)

mutual
/-- read a JSON value made of objects and strings: the value and the tokens behind it.  The
number bounds the nesting; the number of tokens is always enough. -/
def readJson : Nat → List Tok → Option (Json × List Tok)
  | 0, _ => none
  | _ + 1, .string s :: rest => some (.str s, rest)
  | _ + 1, .punct '{' :: .punct '}' :: rest => some (object [], rest)
  | n + 1, .punct '{' :: rest => (readFields n rest).map fun r => (object r.1, r.2)
  | _ + 1, _ => none
/-- read the entries of an object up to its closing brace -/
def readFields : Nat → List Tok → Option (List (Str × Json) × List Tok)
  | 0, _ => none
  | n + 1, .string k :: .punct ':' :: rest =>
    match readJson n rest with
    | some (v, .punct ',' :: rest') => (readFields n rest').map fun r => ((k, v) :: r.1, r.2)
    | some (v, .punct '}' :: rest') => some ([(k, v)], rest')
    | _ => none
  | _ + 1, _ => none
end

/-- read `let val = json!(..);` -/
def readLetJson : List Tok → Option Json
  | .word w :: .word v :: .punct '=' :: .word j :: .punct '!' :: .punct '(' :: rest =>
    if w = "let".toList ∧ v = "val".toList ∧ j = "json".toList then
      match readJson rest.length rest with
      | some (v, [.punct ')', .punct ';']) => some v
      | _ => none
    else none
  | _ => none

end Spec
