import Verif.Props.SourceRead
import Verif.Spec.SourceJson
import Verif.Model.UpstreamKanaData
import Verif.Model.UpstreamRomajiData
import Verif.Model.KanaJsonText
import Verif.Model.RomajiJsonText
/-! # C120: the tables of the generators are the ones written in the source -/

namespace WanaKana.C120
open WanaKana Spec C119
open WanaKana.Upstream (Json object)

mutual
def jsonEq : Json → Json → Bool
  | .obj a, .obj b => fieldsEq a b
  | .str s, .str t => s == t
  | .other, .other => true
  | _, _ => false
def fieldsEq : List (Str × Json) → List (Str × Json) → Bool
  | [], [] => true
  | (k, v) :: a, (k', v') :: b => k == k' && jsonEq v v' && fieldsEq a b
  | _, _ => false
end

mutual
theorem jsonEq_sound : ∀ a b : Json, jsonEq a b = true → a = b
  | .obj a, .obj b, h => by rw [jsonEq] at h; rw [fieldsEq_sound a b h]
  | .str s, .str t, h => by rw [jsonEq] at h; rw [eq_of_beq h]
  | .other, .other, _ => rfl
  | .obj _, .str _, h => by simp [jsonEq] at h
  | .obj _, .other, h => by simp [jsonEq] at h
  | .str _, .obj _, h => by simp [jsonEq] at h
  | .str _, .other, h => by simp [jsonEq] at h
  | .other, .obj _, h => by simp [jsonEq] at h
  | .other, .str _, h => by simp [jsonEq] at h
theorem fieldsEq_sound : ∀ a b : List (Str × Json), fieldsEq a b = true → a = b
  | [], [], _ => rfl
  | (k, v) :: a, (k', v') :: b, h => by
    rw [fieldsEq, Bool.and_eq_true, Bool.and_eq_true] at h
    rw [eq_of_beq h.1.1, jsonEq_sound v v' h.1.2, fieldsEq_sound a b h.2]
  | [], _ :: _, h => by simp [fieldsEq] at h
  | _ :: _, [], h => by simp [fieldsEq] at h
end

/-- the check -/
def isTable (l : List Str) (v : Json) : Bool :=
  match allStr l with
  | some t =>
    match readLetJson (withoutTrailing t) with
    | some w => jsonEq w v
    | none => false
  | none => false

theorem table_of {l : List String} {cs : List Str} (h : LinesAre l cs) {v : Json} (ht : isTable cs v = true) :
    (readTokens (linesText l)).bind (fun t => readLetJson (withoutTrailing t)) = some v := by
  rw [← h.eq] at ht
  unfold isTable at ht
  split at ht
  next t e =>
    split at ht
    next w e2 =>
      rw [← allTokens_eq] at e
      have := reads_lines e []
      rw [List.append_nil] at this
      rw [readTokens, this]
      simp only [readFrom, Option.map_some, Option.bind_some, List.append_nil]
      rw [e2, jsonEq_sound _ _ ht]
    next => cases ht
  next => cases ht

set_option maxRecDepth 100000

/-- C120: the text of upstream_conversions/src/bin/to_kana_tree.rs:16-1899, read as
`let val = json!(..);`, is the table of the model. -/
theorem C120_kana_table :
    (readTokens (linesText kanaJsonText)).bind (fun t => readLetJson (withoutTrailing t)) =
      some Upstream.kanaVal := by
  apply table_of
  · dsimp only [kanaJsonText, kanaJson0, kanaJson1, kanaJson2, kanaJson3, kanaJson4, kanaJson5, kanaJson6,
      kanaJson7, List.cons_append, List.nil_append]
    repeat (first | exact LinesAre.nil | apply LinesAre.cons)
  · decide +kernel

/-- C120: the text of upstream_conversions/src/bin/to_romaji_tree.rs:16-1124, read as
`let val = json!(..);`, is the table of the model. -/
theorem C120_romaji_table :
    (readTokens (linesText romajiJsonText)).bind (fun t => readLetJson (withoutTrailing t)) =
      some Upstream.romajiVal := by
  apply table_of
  · dsimp only [romajiJsonText, romajiJson0, romajiJson1, romajiJson2, romajiJson3, romajiJson4, List.cons_append,
      List.nil_append]
    repeat (first | exact LinesAre.nil | apply LinesAre.cons)
  · decide +kernel

end WanaKana.C120
