/-! # Specification of the scripts

Unicode code point blocks as documented (https://www.unicode.org/charts/), written down
independently of `constants.rs`. -/

namespace Spec

/-- code point of `c` lies in `lo..=hi` -/
def In (lo hi : Nat) (c : Char) : Prop := lo ≤ c.toNat ∧ c.toNat ≤ hi

instance (lo hi : Nat) (c : Char) : Decidable (In lo hi c) := inferInstanceAs (Decidable (_ ∧ _))

/-- the hiragana letters ぁ (U+3041) … ゖ (U+3096) -/
def HiraganaLetter (c : Char) : Prop := In 0x3041 0x3096 c
/-- the katakana letters ァ (U+30A1) … ヺ (U+30FA) -/
def KatakanaLetter (c : Char) : Prop := In 0x30A1 0x30FA c
/-- the long vowel mark ー -/
def LongMark (c : Char) : Prop := c = 'ー'
/-- the katakana middle dot ・ -/
def MiddleDot (c : Char) : Prop := c = '・'

/-- hiragana: letters and the long vowel mark -/
def Hiragana (c : Char) : Prop := HiraganaLetter c ∨ LongMark c
/-- katakana: letters, middle dot and the long vowel mark -/
def Katakana (c : Char) : Prop := KatakanaLetter c ∨ MiddleDot c ∨ LongMark c
/-- kana -/
def Kana (c : Char) : Prop := HiraganaLetter c ∨ KatakanaLetter c ∨ MiddleDot c ∨ LongMark c
/-- common CJK ideographs U+4E00 … U+9FAF -/
def Kanji (c : Char) : Prop := In 0x4E00 0x9FAF c
/-- ASCII -/
def Ascii (c : Char) : Prop := c.toNat < 0x80
/-- Ā ā Ē ē Ī ī Ō ō Ū ū -/
def Macron (c : Char) : Prop := c ∈ ['Ā', 'ā', 'Ē', 'ē', 'Ī', 'ī', 'Ō', 'ō', 'Ū', 'ū']
/-- romaji: ASCII and Hepburn macron vowels -/
def Romaji (c : Char) : Prop := Ascii c ∨ Macron c
/-- ０ … ９ -/
def ZenkakuDigit (c : Char) : Prop := In 0xFF10 0xFF19 c
/-- 0 … 9 -/
def LatinDigit (c : Char) : Prop := In 0x30 0x39 c
/-- ASCII punctuation and symbols (with the space), and ‘ ’ “ ” -/
def EnglishPunct (c : Char) : Prop :=
  In 0x20 0x2F c ∨ In 0x3A 0x3F c ∨ In 0x5B 0x60 c ∨ In 0x7B 0x7E c ∨ c ∈ ['‘', '’', '“', '”']
/-- CJK symbols and punctuation, ・ ー, full width ASCII punctuation, half width CJK
punctuation, full width symbols -/
def JapanesePunct (c : Char) : Prop :=
  In 0x3000 0x303F c ∨ c = '・' ∨ c = 'ー' ∨ In 0xFF01 0xFF0F c ∨ In 0xFF1A 0xFF1F c
    ∨ In 0xFF3B 0xFF3F c ∨ In 0xFF5B 0xFF65 c ∨ In 0xFFE0 0xFFEE c
/-- Japanese: the CJK symbols, hiragana and katakana blocks, CJK ideographs (common and rare),
full width letters, digits and punctuation, half width katakana and punctuation -/
def Japanese (c : Char) : Prop :=
  In 0x3000 0x30FF c ∨ In 0x3400 0x4DBF c ∨ In 0x4E00 0x9FFF c
    ∨ In 0xFF01 0xFF1F c ∨ In 0xFF21 0xFF3F c ∨ In 0xFF41 0xFF9F c ∨ In 0xFFE0 0xFFEE c

instance (c : Char) : Decidable (HiraganaLetter c) := by unfold HiraganaLetter; infer_instance
instance (c : Char) : Decidable (KatakanaLetter c) := by unfold KatakanaLetter; infer_instance
instance (c : Char) : Decidable (LongMark c) := by unfold LongMark; infer_instance
instance (c : Char) : Decidable (MiddleDot c) := by unfold MiddleDot; infer_instance
instance (c : Char) : Decidable (Hiragana c) := by unfold Hiragana; infer_instance
instance (c : Char) : Decidable (Katakana c) := by unfold Katakana; infer_instance
instance (c : Char) : Decidable (Kana c) := by unfold Kana; infer_instance
instance (c : Char) : Decidable (Kanji c) := by unfold Kanji; infer_instance
instance (c : Char) : Decidable (Ascii c) := by unfold Ascii; infer_instance
instance (c : Char) : Decidable (Macron c) := by unfold Macron; infer_instance
instance (c : Char) : Decidable (Romaji c) := by unfold Romaji; infer_instance
instance (c : Char) : Decidable (ZenkakuDigit c) := by unfold ZenkakuDigit; infer_instance
instance (c : Char) : Decidable (LatinDigit c) := by unfold LatinDigit; infer_instance
instance (c : Char) : Decidable (EnglishPunct c) := by unfold EnglishPunct; infer_instance
instance (c : Char) : Decidable (JapanesePunct c) := by unfold JapanesePunct; infer_instance
instance (c : Char) : Decidable (Japanese c) := by unfold Japanese; infer_instance

end Spec
