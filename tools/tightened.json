{
 "upper-range": [
  "no theorem noticed the edit; C64_chars added"
 ],
 "k2h-flag": [
  "C24 did not notice the edit; C24_public added"
 ],
 "same behaviour": {
  "auto-006": "none: the definition is the hypothesis about the standard library, not the program; the proofs that real libraries meet it and that it is decidable notice the edit",
  "auto-018": "none: the definition is the hypothesis about the standard library, not the program; the proofs that real libraries meet it and that it is decidable notice the edit",
  "auto-022": "none: the definition is the hypothesis about the standard library, not the program; the proofs that real libraries meet it and that it is decidable notice the edit",
  "auto-036": "none: the definition is the hypothesis about the standard library, not the program; the proofs that real libraries meet it and that it is decidable notice the edit",
  "auto-038": "none: the definition is the hypothesis about the standard library, not the program; the proofs that real libraries meet it and that it is decidable notice the edit",
  "auto-059": "none: the definition is the hypothesis about the standard library, not the program; the proofs that real libraries meet it and that it is decidable notice the edit",
  "auto-068": "none: the definition is the hypothesis about the standard library, not the program; the proofs that real libraries meet it and that it is decidable notice the edit",
  "auto-048": [
   "C100: Characters and bytes: get_chunk works on UTF-8"
  ],
  "auto-054": [
   "C61: With a matcher, trim_okurigana removes every final copy of the matcher's last token"
  ],
  "auto-032": "none: U+FF3B is accepted as punctuation by the same unions of ranges, so the edited program behaves the same",
  "auto-057": "none: one more unit of fuel is never used, so the edited program behaves the same",
  "auto-071": "none: U+303F is in the range of CJK symbols, which is in every union that has this range, so the edited program behaves the same"
 },
 "auto-048": [
  "no theorem noticed the edit; C100_bytes and the other theorems of C100 added (see len-utf8-80)"
 ],
 "auto-054": [
  "only examples noticed the edit; C61_default added (see trim-default)"
 ]
}