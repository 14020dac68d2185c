import Verif.Spec.RomajiUp
/-! # When a text can be converted to romaji piece by piece with katakana in capitals, also where a ー is lost (C136) -/

namespace Spec

/-- the marked hiragana of a piece, where a final っ does not count for the case of the syllable after it -/
def openEnd : Marked → Marked
  | [] => []
  | [p] => [if p.1 = 'っ' then ('っ', true) else p]
  | p :: q :: z => p :: openEnd (q :: z)

end Spec
