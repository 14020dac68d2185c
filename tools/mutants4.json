[
 {
  "id": "dp-esc-bs",
  "edits": [
   [
    "Model/DebugPrint.lean",
    "  else if c = '\\\\' then \"\\\\\\\\\".toList\n",
    ""
   ]
  ],
  "edit": "a backslash is printed without escaping it",
  "breaks": [
   "C119"
  ],
  "definition": "escapeDebug"
 },
 {
  "id": "dp-esc-q",
  "edits": [
   [
    "Model/DebugPrint.lean",
    "  else if c = q then ['\\\\', q]\n",
    ""
   ]
  ],
  "edit": "quotes inside literals are not escaped",
  "breaks": [
   "C119"
  ],
  "definition": "escapeDebug"
 },
 {
  "id": "dp-esc-dq",
  "edits": [
   [
    "Model/DebugPrint.lean",
    "else if c = q then",
    "else if c = '\"' then"
   ]
  ],
  "edit": "only double quotes are escaped, also in character literals",
  "breaks": [
   "C119"
  ],
  "definition": "escapeDebug"
 },
 {
  "id": "dp-nl",
  "edits": [
   [
    "Model/DebugPrint.lean",
    "\"\\\\n\".toList",
    "\"\\\\r\".toList"
   ]
  ],
  "edit": "a line break is printed as a carriage return",
  "breaks": [
   "C119"
  ],
  "definition": "escapeDebug"
 },
 {
  "id": "dp-hex10",
  "edits": [
   [
    "Model/DebugPrint.lean",
    "hexDigits (n / 16) ++ [hexDigit (n % 16)]",
    "hexDigits (n / 16) ++ [hexDigit (n % 10)]"
   ]
  ],
  "edit": "wrong digit in \\u{..}",
  "breaks": [
   "C119"
  ],
  "definition": "hexDigits"
 },
 {
  "id": "dp-hexrev",
  "edits": [
   [
    "Model/DebugPrint.lean",
    "hexDigits (n / 16) ++ [hexDigit (n % 16)]",
    "[hexDigit (n % 16)] ++ hexDigits (n / 16)"
   ]
  ],
  "edit": "digits of \\u{..} in the wrong order",
  "breaks": [
   "C119"
  ],
  "definition": "hexDigits"
 },
 {
  "id": "dp-hexa",
  "edits": [
   [
    "Model/DebugPrint.lean",
    "Char.ofNat ('a'.toNat + (d - 10))",
    "Char.ofNat ('a'.toNat + (d - 9))"
   ]
  ],
  "edit": "hexadecimal digits a to f off by one",
  "breaks": [
   "C119"
  ],
  "definition": "hexDigit"
 },
 {
  "id": "dp-brace",
  "edits": [
   [
    "Model/DebugPrint.lean",
    "++ hexDigits c.toNat ++ \"}\".toList",
    "++ hexDigits c.toNat"
   ]
  ],
  "edit": "closing brace of \\u{..} missing",
  "breaks": [
   "C119"
  ],
  "definition": "escapeDebug"
 },
 {
  "id": "dp-pad",
  "edits": [
   [
    "Model/DebugPrint.lean",
    "pad (c == '\\n') cs",
    "pad (c != '\\n') cs"
   ]
  ],
  "edit": "four spaces behind every character instead of every line break",
  "breaks": [
   "C119"
  ],
  "definition": "pad"
 },
 {
  "id": "dp-field",
  "edits": [
   [
    "Model/DebugPrint.lean",
    "debugField f₁ v₁ ++ debugField f₂ v₂",
    "debugField f₁ v₂ ++ debugField f₂ v₁"
   ]
  ],
  "edit": "the two fields are exchanged",
  "breaks": [
   "C119"
  ],
  "definition": "debugStruct2"
 },
 {
  "id": "dp-comma",
  "edits": [
   [
    "Model/DebugPrint.lean",
    "pad true (value ++ \",\\n\".toList)",
    "pad true (value ++ \"\\n\".toList)"
   ]
  ],
  "edit": "no comma between the entries",
  "breaks": [
   "C119"
  ],
  "definition": "debugEntry"
 },
 {
  "id": "dp-none",
  "edits": [
   [
    "Model/DebugPrint.lean",
    "  | none => \"None\".toList\n  | some s",
    "  | none => debugSome (debugStr unprintable [])\n  | some s"
   ]
  ],
  "edit": "a missing output is printed as the empty text",
  "breaks": [
   "C119"
  ],
  "definition": "debugOptStr"
 },
 {
  "id": "dp-emptylist",
  "edits": [
   [
    "Model/DebugPrint.lean",
    "  | none => \"None\".toList\n  | some t",
    "  | none => debugSome (debugList true [])\n  | some t"
   ]
  ],
  "edit": "no transitions are printed as an empty list",
  "breaks": [
   "C119"
  ],
  "definition": "debugROpt"
 },
 {
  "id": "dp-order",
  "edits": [
   [
    "Model/DebugPrint.lean",
    "debugEntry (debugPair (debugChar u c) (debugKNode u n)) ++ debugKEntries u rest",
    "debugKEntries u rest ++ debugEntry (debugPair (debugChar u c) (debugKNode u n))"
   ]
  ],
  "edit": "the transitions are printed backwards",
  "breaks": [
   "C119"
  ],
  "definition": "debugKEntries"
 },
 {
  "id": "dp-out",
  "edits": [
   [
    "Model/DebugPrint.lean",
    "(debugROpt u t)\n      \"output\".toList (debugStr u o)",
    "(debugROpt u t)\n      \"output\".toList (debugStr u (o.take 1))"
   ]
  ],
  "edit": "only the first letter of an output is printed",
  "breaks": [
   "C119"
  ],
  "definition": "debugRNode"
 },
 {
  "id": "dp-str",
  "edits": [
   [
    "Model/DebugPrint.lean",
    "'\"' :: s.flatMap (escapeDebug unprintable '\"') ++ ['\"']",
    "'\"' :: s.flatMap (escapeDebug unprintable '\\'') ++ ['\"']"
   ]
  ],
  "edit": "strings are escaped like characters",
  "breaks": [
   "C119"
  ],
  "definition": "debugStr"
 },
 {
  "id": "dp-main",
  "edits": [
   [
    "Model/DebugPrint.lean",
    "  let t ← kanaGet val\n  .ok (debugList t",
    "  let t ← kanaGet val\n  let t := t.drop 1\n  .ok (debugList t"
   ]
  ],
  "edit": "the first root transition is not printed",
  "breaks": [
   "C119"
  ],
  "definition": "kanaMain"
 },
 {
  "id": "dp-text",
  "edits": [
   [
    "Model/KanaTreeText.lean",
    "output: Some(\\\"！\\\"),",
    "output: Some(\\\"!\\\"),"
   ]
  ],
  "edit": "the source says something else than the modelled tree",
  "breaks": [
   "C120"
  ],
  "definition": "kanaText000"
 },
 {
  "id": "dp-root",
  "edits": [
   [
    "Model/RomajiTreeData.lean",
    "romajiRoot001 : Char × RNode :=",
    "romajiRoot001 : Char × RNode := romajiRoot000\n/-- x -/\ndef romajiRoot001' : Char × RNode :="
   ]
  ],
  "edit": "a root transition of the model differs from the source",
  "breaks": [
   "C120"
  ],
  "definition": "romajiRoot001"
 },
 {
  "id": "dp-json",
  "edits": [
   [
    "Model/UpstreamKanaData.lean",
    "def kanaEntry001 : Str × Json :=\n  (['i'], object [([], .str ['い'])])",
    "def kanaEntry001 : Str × Json :=\n  (['i'], object [([], .str ['り'])])"
   ]
  ],
  "edit": "a table entry of the model differs from the source",
  "breaks": [
   "C120"
  ],
  "definition": "kanaEntry001"
 }
]