import Verif.Spec.RoundTrip
import Verif.Spec.RomajiTable
/-! # Specification: canonical romaji -/

namespace Spec

/-- canonical romaji: a romaji of the kana → romaji table (with ゐ and ゑ only for obsolete kana and not after っ), or a
character that is not converted -/
def CanonicalPiece (obsolete : Bool) (u : List Char) : Prop :=
  (∃ k, (k, u) ∈ kanaTable ∧ (('ゐ' ∉ k ∧ 'ゑ' ∉ k) ∨ (obsolete = true ∧ 'っ' ∉ k))) ∨ ∃ c, Neutral c ∧ u = [c]

end Spec
