[
 {
  "id": "u8-mask3",
  "edits": [
   [
    "Model/Utf8.lean",
    "some (x.toNat % 32 * 4096",
    "some (x.toNat % 16 * 64"
   ]
  ],
  "edit": "three byte characters put together with the wrong shift",
  "breaks": [
   "C100"
  ],
  "definition": "nextCodePoint"
 },
 {
  "id": "u8-width",
  "edits": [
   [
    "Model/Utf8.lean",
    "if x.toNat < 0xF0 then",
    "if x.toNat < 0xF8 then"
   ]
  ],
  "edit": "four byte characters read as three bytes",
  "breaks": [
   "C100"
  ],
  "definition": "nextCodePoint"
 },
 {
  "id": "u8-bound",
  "edits": [
   [
    "Model/Utf8.lean",
    "(b.toNat < 128 ∨ 192 ≤ b.toNat)",
    "(b.toNat < 128 ∨ 128 < b.toNat)"
   ]
  ],
  "edit": "continuation bytes count as boundaries",
  "breaks": [
   "C100"
  ],
  "definition": "isCharBoundary"
 },
 {
  "id": "u8-bound-end",
  "edits": [
   [
    "Model/Utf8.lean",
    "| none => i == bs.length",
    "| none => false"
   ]
  ],
  "edit": "the end is no boundary",
  "breaks": [
   "C100"
  ],
  "definition": "isCharBoundary"
 },
 {
  "id": "u8-chunk",
  "edits": [
   [
    "Model/Utf8.lean",
    ".map fun el => el.1).getD text.length",
    ".map fun el => el.1).getD 0"
   ]
  ],
  "edit": "end of the chunk 0 by default",
  "breaks": [
   "C100"
  ],
  "definition": "get_chunk_bytes"
 },
 {
  "id": "u8-idx",
  "edits": [
   [
    "Model/Utf8.lean",
    "(off + (bs.length - rest.length))",
    "(off + 1)"
   ]
  ],
  "edit": "char_indices counts characters",
  "breaks": [
   "C100"
  ],
  "definition": "charIndicesBytes"
 },
 {
  "id": "u8-enc2",
  "edits": [
   [
    "Model/Utf8Trim.lean",
    "else if code < 0x800 then",
    "else if code < 0x1000 then"
   ]
  ],
  "edit": "three byte characters written with two bytes",
  "breaks": [
   "C103",
   "C104"
  ],
  "definition": "strCollect"
 },
 {
  "id": "u8-trim-once",
  "edits": [
   [
    "Model/Utf8Trim.lean",
    "pat ≠ [] ∧ s.take pat.length = pat then trimStartBytesLoop pat fuel (s.drop pat.length)",
    "pat ≠ [] ∧ s.take pat.length = pat then (s.drop pat.length)"
   ]
  ],
  "edit": "strips the pattern once only",
  "breaks": [
   "C103"
  ],
  "definition": "trimStartBytesLoop"
 },
 {
  "id": "u8-trim-end",
  "edits": [
   [
    "Model/Utf8Trim.lean",
    "s.drop (s.length - pat.length) = pat then",
    "(s.drop (s.length - pat.length)).getLast? = pat.getLast? then"
   ]
  ],
  "edit": "compares the last byte only",
  "breaks": [
   "C103"
  ],
  "definition": "trimEndBytesLoop"
 },
 {
  "id": "u8-lt",
  "edits": [
   [
    "Model/Utf8Trim.lean",
    "decide (a < b) || (a == b && bytesLt as bs)",
    "decide (a ≤ b) || (a == b && bytesLt as bs)"
   ]
  ],
  "edit": "the order takes equal first bytes as less",
  "breaks": [
   "C103"
  ],
  "definition": "bytesLt"
 },
 {
  "id": "u8-tok",
  "edits": [
   [
    "Model/Utf8Trim.lean",
    "(group_by (fun elt => get_type elt compact) (strChars input)).map fun g => strCollect g.2",
    "(group_by (fun elt => get_type elt false) (strChars input)).map fun g => strCollect g.2"
   ]
  ],
  "edit": "compact ignored",
  "breaks": [
   "C103"
  ],
  "definition": "tokenize_bytes"
 },
 {
  "id": "u8-trim-tok",
  "edits": [
   [
    "Model/Utf8Trim.lean",
    "    if tokens.isEmpty then .ok input\n    else if trim_from_start",
    "    if tokens.isEmpty then .ok []\n    else if trim_from_start"
   ]
  ],
  "edit": "no tokens: the empty text",
  "breaks": [
   "C103"
  ],
  "definition": "trim_okurigana_bytes"
 },
 {
  "id": "u8-ascii",
  "edits": [
   [
    "Model/Utf8Convert.lean",
    "((bs.take n).all fun b => decide (b.toNat < 128))",
    "((bs.take n).any fun b => decide (b.toNat < 128))"
   ]
  ],
  "edit": "a chunk with one ASCII byte is converted bytewise",
  "breaks": [
   "C104"
  ],
  "definition": "convertWhileAscii"
 },
 {
  "id": "u8-lowbyte",
  "edits": [
   [
    "Model/Utf8Convert.lean",
    "if 65 ≤ b.toNat ∧ b.toNat ≤ 90 then b + 32",
    "if 65 ≤ b.toNat ∧ b.toNat < 90 then b + 32"
   ]
  ],
  "edit": "Z stays",
  "breaks": [
   "C104"
  ],
  "definition": "asciiLowerByte"
 },
 {
  "id": "u8-upbyte",
  "edits": [
   [
    "Model/Utf8Convert.lean",
    "if 97 ≤ b.toNat ∧ b.toNat ≤ 122 then b - 32",
    "if 97 ≤ b.toNat then b - 32"
   ]
  ],
  "edit": "bytes above z change too",
  "breaks": [
   "C104"
  ],
  "definition": "asciiUpperByte"
 },
 {
  "id": "u8-sigma",
  "edits": [
   [
    "Model/Utf8Convert.lean",
    "strSlice from_ (prefix_len + i + 2)",
    "strSlice from_ (prefix_len + i + 1)"
   ]
  ],
  "edit": "the text after Σ begins inside it",
  "breaks": [
   "C104"
  ],
  "definition": "lowercaseLoopBytes"
 },
 {
  "id": "u8-sigma2",
  "edits": [
   [
    "Model/Utf8Convert.lean",
    "strSlice from_ 0 (prefix_len + i)",
    "strSlice from_ 0 i"
   ]
  ],
  "edit": "the text before Σ without the converted prefix",
  "breaks": [
   "C104"
  ],
  "definition": "lowercaseLoopBytes"
 },
 {
  "id": "u8-any",
  "edits": [
   [
    "Model/Utf8Convert.lean",
    "if input.isEmpty then false else (strChars input).all is_char",
    "(strChars input).all is_char"
   ]
  ],
  "edit": "the empty text passes",
  "breaks": [
   "C104"
  ],
  "definition": "allCharsBytes"
 },
 {
  "id": "u8-kana-push",
  "edits": [
   [
    "Model/Utf8Convert.lean",
    "(ouput ++ strCollect [c])\n      else do\n        let consumed ← slice chars",
    "(ouput ++ [UInt8.ofNat c.toNat])\n      else do\n        let consumed ← slice chars"
   ]
  ],
  "edit": "a character without kana is written as one byte",
  "breaks": [
   "C104"
  ],
  "definition": "toKanaLoopBytes"
 },
 {
  "id": "u8-rom-len",
  "edits": [
   [
    "Model/Utf8Convert.lean",
    "  toRomajiLoopBytes std n options (strChars orig) chars chars.length (chars.length + 1) 0 []",
    "  toRomajiLoopBytes std n options (strChars orig) chars kana.length (kana.length + 1) 0 []"
   ]
  ],
  "edit": "the length in bytes instead of characters",
  "breaks": [
   "C104"
  ],
  "definition": "to_romaji_with_opt_bytes"
 },
 {
  "id": "u8-k2h",
  "edits": [
   [
    "Model/Utf8Convert.lean",
    "k2hLoop std (strChars input) is_destination_romaji (strChars input) 0 none []",
    "k2hLoop std (strChars input) false (strChars input) 0 none []"
   ]
  ],
  "edit": "the destination is ignored",
  "breaks": [
   "C104"
  ],
  "definition": "katakana_to_hiragana_with_opt_bytes"
 },
 {
  "id": "cli-overlong",
  "edits": [
   [
    "Model/Utf8Cli.lean",
    "byteIn 0xE0 0xE0 first && byteIn 0xA0 0xBF y",
    "byteIn 0xE0 0xE0 first && byteIn 0x80 0xBF y"
   ]
  ],
  "edit": "overlong three byte forms are accepted",
  "breaks": [
   "C105"
  ],
  "definition": "utf8Valid"
 },
 {
  "id": "cli-surr",
  "edits": [
   [
    "Model/Utf8Cli.lean",
    "byteIn 0xED 0xED first && byteIn 0x80 0x9F y",
    "byteIn 0xED 0xED first && byteIn 0x80 0xBF y"
   ]
  ],
  "edit": "surrogates are accepted",
  "breaks": [
   "C105"
  ],
  "definition": "utf8Valid"
 },
 {
  "id": "cli-max",
  "edits": [
   [
    "Model/Utf8Cli.lean",
    "byteIn 0xF4 0xF4 first && byteIn 0x80 0x8F y",
    "byteIn 0xF4 0xF4 first && byteIn 0x80 0x9F y"
   ]
  ],
  "edit": "code points above 10FFFF are accepted",
  "breaks": [
   "C105"
  ],
  "definition": "utf8Valid"
 },
 {
  "id": "cli-c0",
  "edits": [
   [
    "Model/Utf8Cli.lean",
    "byteIn 0xC2 0xDF first",
    "byteIn 0xC0 0xDF first"
   ]
  ],
  "edit": "overlong two byte forms are accepted",
  "breaks": [
   "C105"
  ],
  "definition": "utf8Valid"
 },
 {
  "id": "cli-e1",
  "edits": [
   [
    "Model/Utf8Cli.lean",
    "byteIn 0xE1 0xEC first && byteIn 0x80 0xBF y",
    "byteIn 0xE1 0xEC first && byteIn 0x80 0xB0 y"
   ]
  ],
  "edit": "valid characters are refused",
  "breaks": [
   "C105"
  ],
  "definition": "utf8Valid"
 },
 {
  "id": "cli-cont",
  "edits": [
   [
    "Model/Utf8Cli.lean",
    "decide (128 ≤ b.toNat) && decide (b.toNat < 192)",
    "decide (128 ≤ b.toNat)"
   ]
  ],
  "edit": "lead bytes pass as continuation bytes",
  "breaks": [
   "C105"
  ],
  "definition": "isContByte"
 },
 {
  "id": "cli-joinb",
  "edits": [
   [
    "Model/Utf8Cli.lean",
    "a ++ [0x20] ++",
    "a ++ [0x09] ++"
   ]
  ],
  "edit": "arguments are joined with tabs",
  "breaks": [
   "C105"
  ],
  "definition": "joinSpaceBytes"
 },
 {
  "id": "cli-nlb",
  "edits": [
   [
    "Model/Utf8Cli.lean",
    "if !buffer.isEmpty then convert buffer else .ok []",
    "if !buffer.isEmpty then (convert buffer).map (· ++ [0x0A]) else .ok []"
   ]
  ],
  "edit": "a newline after standard input too",
  "breaks": [
   "C105"
  ],
  "definition": "cliMainBytes"
 },
 {
  "id": "cli-argv",
  "edits": [
   [
    "Model/Utf8Cli.lean",
    "joinSpaceBytes (args.drop 1)",
    "joinSpaceBytes args"
   ]
  ],
  "edit": "the name of the program is converted too",
  "breaks": [
   "C105"
  ],
  "definition": "cliMainBytes"
 },
 {
  "id": "lz-wait",
  "edits": [
   [
    "Model/Lazy.lean",
    "    | .running => none\n",
    "    | .running => some (none, m, ⟨.fault .panic, t.stack⟩)\n"
   ]
  ],
  "edit": "a thread that finds an initialisation running fails instead of waiting",
  "breaks": [
   "C106"
  ],
  "definition": "stepThread"
 },
 {
  "id": "lz-twice",
  "edits": [
   [
    "Model/Lazy.lean",
    "    | .running => none\n",
    "    | .running => some (some s, m, ⟨staticInit s, ⟨s, false, k⟩ :: st⟩)\n"
   ]
  ],
  "edit": "a thread that finds an initialisation running starts another",
  "breaks": [
   "C106"
  ],
  "definition": "stepThread"
 },
 {
  "id": "lz-early",
  "edits": [
   [
    "Model/Lazy.lean",
    "if f.stored then some (none, m.setOnce f.static .complete, ⟨.deref f.static f.k, st⟩)\n    else some (none, m.setCell f.static v, ⟨.ret v, ⟨f.static, true, f.k⟩ :: st⟩)",
    "if f.stored then some (none, m.setCell f.static v, ⟨.deref f.static f.k, st⟩)\n    else some (none, m.setOnce f.static .complete, ⟨.ret v, ⟨f.static, true, f.k⟩ :: st⟩)"
   ]
  ],
  "edit": "COMPLETE is set before the value is stored",
  "breaks": [
   "C106"
  ],
  "definition": "stepThread"
 },
 {
  "id": "lz-poison",
  "edits": [
   [
    "Model/Lazy.lean",
    "if f.stored then some (none, m.setOnce f.static .complete, ⟨.deref f.static f.k, st⟩)",
    "if f.stored then some (none, m.setOnce f.static .poisoned, ⟨.deref f.static f.k, st⟩)"
   ]
  ],
  "edit": "POISONED after success",
  "breaks": [
   "C106"
  ],
  "definition": "stepThread"
 },
 {
  "id": "lz-stay",
  "edits": [
   [
    "Model/Lazy.lean",
    "if f.stored then some (none, m.setOnce f.static .complete, ⟨.deref f.static f.k, st⟩)",
    "if f.stored then some (none, m.setOnce f.static .incomplete, ⟨f.k v, st⟩)"
   ]
  ],
  "edit": "the state goes back to INCOMPLETE: every use initialises again",
  "breaks": [
   "C106"
  ],
  "definition": "stepThread"
 },
 {
  "id": "lz-norun",
  "edits": [
   [
    "Model/Lazy.lean",
    "some (some s, m.setOnce s .running, ",
    "some (some s, m, "
   ]
  ],
  "edit": "RUNNING is not set: two threads can initialise the same table",
  "breaks": [
   "C106"
  ],
  "definition": "stepThread"
 },
 {
  "id": "lz-cycle",
  "edits": [
   [
    "Model/Lazy.lean",
    "  | .TO_KANA_NODE_TREE => .ret (.kana (KNode.mk kanaTransitions none).sort)\n",
    "  | .TO_KANA_NODE_TREE => do\n    let tree ← Prog.kana .TO_KANA_NODE_TREE_OBSOLETE\n    .ret (.kana (KNode.mk tree.transitions none).sort)\n"
   ]
  ],
  "edit": "two tables need each other",
  "breaks": [
   "C106"
  ],
  "definition": "staticInit"
 },
 {
  "id": "lz-wrong",
  "edits": [
   [
    "Model/Lazy.lean",
    "  | .TO_KANA_NODE_TREE_IMEMODE => do\n    let tree ← Prog.kana .TO_KANA_NODE_TREE\n",
    "  | .TO_KANA_NODE_TREE_IMEMODE => do\n    let tree ← Prog.kana .TO_KANA_NODE_TREE_OBSOLETE\n"
   ]
  ],
  "edit": "the IME table is made from the obsolete one",
  "breaks": [
   "C106"
  ],
  "definition": "staticInit"
 },
 {
  "id": "lz-swap",
  "edits": [
   [
    "Model/Lazy.lean",
    "if options.use_obsolete_kana then Prog.kana .TO_KANA_NODE_TREE_OBSOLETE",
    "if options.use_obsolete_kana then Prog.kana .TO_KANA_NODE_TREE_IMEMODE"
   ]
  ],
  "edit": "the wrong static",
  "breaks": [
   "C106"
  ],
  "definition": "toKanaLookup"
 },
 {
  "id": "lz-vow",
  "edits": [
   [
    "Model/Lazy.lean",
    "('e', 'え'), ('o', 'う')]",
    "('e', 'え'), ('o', 'お')]"
   ]
  ],
  "edit": "long o is お",
  "breaks": [
   "C106"
  ],
  "definition": "staticInit"
 },
 {
  "id": "lz-hash",
  "edits": [
   [
    "Model/Lazy.lean",
    "if c = key then some value else m c",
    "if c = key then m c else some value"
   ]
  ],
  "edit": "insertion at all other keys",
  "breaks": [
   "C106"
  ],
  "definition": "insert"
 },
 {
  "id": "lz-mixed",
  "edits": [
   [
    "Model/Lazy.lean",
    "    .ret (r && !has_kanji)",
    "    .ret (r && has_kanji)"
   ]
  ],
  "edit": "kanji required instead of refused",
  "breaks": [
   "C106"
  ],
  "definition": "is_mixed_pass_kanji"
 },
 {
  "id": "gb-top",
  "edits": [
   [
    "Model/GroupBy.lean",
    "top_group := if old_key ≠ key elt then st.top_group + 1 else st.top_group",
    "top_group := st.top_group"
   ]
  ],
  "edit": "a new key after the first element does not begin a new group",
  "breaks": [
   "C107"
  ],
  "definition": "groupKey"
 },
 {
  "id": "gb-collect",
  "edits": [
   [
    "Model/GroupBy.lean",
    "collectGroup client fuel (acc ++ [c]) r.2",
    "collectGroup client fuel (c :: acc) r.2"
   ]
  ],
  "edit": "groups are collected backwards",
  "breaks": [
   "C107"
  ],
  "definition": "collectGroup"
 },
 {
  "id": "gb-first",
  "edits": [
   [
    "Model/GroupBy.lean",
    "collectGroup key index n [elt] k.2",
    "collectGroup key index n [] k.2"
   ]
  ],
  "edit": "the first element of a group is lost",
  "breaks": [
   "C107"
  ],
  "definition": "groupsLoop"
 },
 {
  "id": "gb-done",
  "edits": [
   [
    "Model/GroupBy.lean",
    "(none, { st with done := true })",
    "(none, st)"
   ]
  ],
  "edit": "the end of the text is not remembered",
  "breaks": [
   "C107"
  ],
  "definition": "nextElement"
 },
 {
  "id": "gb-oldest",
  "edits": [
   [
    "Model/GroupBy.lean",
    "if client < st.oldest_buffered_group then .ok (none, st)\n  else do\n    let inBuffer",
    "if client ≤ st.oldest_buffered_group then .ok (none, st)\n  else do\n    let inBuffer"
   ]
  ],
  "edit": "the oldest group counts as finished",
  "breaks": [
   "C107"
  ],
  "definition": "step"
 },
 {
  "id": "gb-keyold",
  "edits": [
   [
    "Model/GroupBy.lean",
    "groupsLoop n fuel (index + 1) (dropGroup index g.2) (result ++ [(k.1, g.1)])",
    "groupsLoop n fuel (index + 1) (dropGroup index g.2) ((k.1, g.1) :: result)"
   ]
  ],
  "edit": "the groups in reverse order",
  "breaks": [
   "C107"
  ],
  "definition": "groupsLoop"
 },
 {
  "id": "gb-det",
  "edits": [
   [
    "Model/GroupBy.lean",
    "groupBy (fun elt => get_type elt compact) input\n\n/-- src/tokenize.rs:114-120",
    "groupBy (fun elt => get_type elt (!compact)) input\n\n/-- src/tokenize.rs:114-120"
   ]
  ],
  "edit": "compact turned around",
  "breaks": [
   "C107"
  ],
  "definition": "tokenize_detailed"
 },
 {
  "id": "tw-byteset",
  "edits": [
   [
    "Model/StrSearcher.lean",
    "let b ← slice needle 0 period",
    "let b ← slice needle 0 crit_pos"
   ]
  ],
  "edit": "the set of bytes is made from the wrong part",
  "breaks": [
   "C108"
  ],
  "definition": "TwoWay.new"
 },
 {
  "id": "tw-set7",
  "edits": [
   [
    "Model/StrSearcher.lean",
    "bytes.foldl (fun a b => (1 <<< (b.toNat % 64)) ||| a) 0",
    "bytes.foldl (fun a b => (1 <<< (b.toNat % 64)) &&& a) 0"
   ]
  ],
  "edit": "the set stays empty",
  "breaks": [
   "C108"
  ],
  "definition": "bytesetCreate"
 },
 {
  "id": "tw-has",
  "edits": [
   [
    "Model/StrSearcher.lean",
    "(set >>> (b.toNat % 64)) % 2 != 0",
    "(set >>> (b.toNat % 128)) % 2 != 0"
   ]
  ],
  "edit": "membership looks at seven bits",
  "breaks": [
   "C108"
  ],
  "definition": "bytesetContains"
 },
 {
  "id": "tw-right",
  "edits": [
   [
    "Model/StrSearcher.lean",
    "range start needle.length",
    "range (start + 1) needle.length"
   ]
  ],
  "edit": "the byte at the critical position is not compared",
  "breaks": [
   "C108"
  ],
  "definition": "TwoWay.next"
 },
 {
  "id": "tw-left",
  "edits": [
   [
    "Model/StrSearcher.lean",
    "(range (st.memory.getD 0) st.crit_pos).reverse",
    "(range (st.memory.getD 0 + 1) st.crit_pos).reverse"
   ]
  ],
  "edit": "the first byte is not compared",
  "breaks": [
   "C108"
  ],
  "definition": "TwoWay.next"
 },
 {
  "id": "tw-adv",
  "edits": [
   [
    "Model/StrSearcher.lean",
    ".ok (.match st.position (st.position + needle.length),\n              { st with position := st.position + needle.length",
    ".ok (.match st.position (st.position + needle.length),\n              { st with position := st.position + st.period"
   ]
  ],
  "edit": "after a match only a period is skipped (overlapping matches)",
  "breaks": [
   "C108"
  ],
  "definition": "TwoWay.next"
 },
 {
  "id": "tw-mem",
  "edits": [
   [
    "Model/StrSearcher.lean",
    "{ st with position := st.position + needle.length, memory := st.memory.map fun _ => 0 })",
    "{ st with position := st.position + needle.length, memory := st.memory.map fun _ => needle.length })"
   ]
  ],
  "edit": "the memory is not cleared after a match",
  "breaks": [
   "C108"
  ],
  "definition": "TwoWay.next"
 },
 {
  "id": "tw-back-crit",
  "edits": [
   [
    "Model/StrSearcher.lean",
    "range st.crit_pos_back (st.memory_back.getD needle.length)",
    "range (st.crit_pos_back + 1) (st.memory_back.getD needle.length)"
   ]
  ],
  "edit": "a byte is not compared going back",
  "breaks": [
   "C108"
  ],
  "definition": "TwoWay.nextBack"
 },
 {
  "id": "tw-back-min",
  "edits": [
   [
    "Model/StrSearcher.lean",
    "let crit := min st.crit_pos_back",
    "let crit := max st.crit_pos_back"
   ]
  ],
  "edit": "max instead of min",
  "breaks": [
   "C108"
  ],
  "definition": "TwoWay.nextBack"
 },
 {
  "id": "tw-reject",
  "edits": [
   [
    "Model/StrSearcher.lean",
    ".ok (.reject old_end haystack.length, { st with position := haystack.length })",
    ".ok (.done, { st with position := haystack.length })"
   ]
  ],
  "edit": "no reject for a rest shorter than the pattern",
  "breaks": [
   "C108"
  ],
  "definition": "TwoWay.next"
 },
 {
  "id": "tw-early",
  "edits": [
   [
    "Model/StrSearcher.lean",
    "if old_end ≠ st.position then .ok (.reject old_end st.position, st)\n      else ",
    ""
   ]
  ],
  "edit": "no early reject: the search goes on to the next match",
  "breaks": [
   "C108"
  ],
  "definition": "TwoWay.next"
 },
 {
  "id": "tw-per",
  "edits": [
   [
    "Model/StrSearcher.lean",
    "if offset + 1 = period then maximalSuffixLoop arr order_greater fuel left (right + offset + 1) 0 period",
    "if offset = period then maximalSuffixLoop arr order_greater fuel left (right + offset + 1) 0 period"
   ]
  ],
  "edit": "off by one in the period",
  "breaks": [
   "C108"
  ],
  "definition": "maximalSuffixLoop"
 },
 {
  "id": "tw-empty",
  "edits": [
   [
    "Model/StrSearcher.lean",
    "if st.is_match then .ok (.match st.position st.position, { st with is_match := false })\n  else match nextCodePoint",
    "if st.is_match then .ok (.match st.position st.position, st)\n  else match nextCodePoint"
   ]
  ],
  "edit": "the empty pattern matches forever",
  "breaks": [
   "C108"
  ],
  "definition": "emptyForward"
 },
 {
  "id": "tw-rs",
  "edits": [
   [
    "Model/StrSearcher.lean",
    "  | some (a, _) => a\n  | none => len",
    "  | some (_, b) => b\n  | none => len"
   ]
  ],
  "edit": "the end of the rejected piece instead of its start",
  "breaks": [
   "C108"
  ],
  "definition": "rejectStart"
 },
 {
  "id": "tw-re",
  "edits": [
   [
    "Model/StrSearcher.lean",
    "  | some (_, b) => b\n  | none => 0",
    "  | some (a, _) => a\n  | none => 0"
   ]
  ],
  "edit": "the start of the rejected piece instead of its end",
  "breaks": [
   "C108"
  ],
  "definition": "rejectEnd"
 },
 {
  "id": "tw-long",
  "edits": [
   [
    "Model/StrSearcher.lean",
    "period := max crit_pos l + 1",
    "period := max crit_pos l + 2"
   ]
  ],
  "edit": "the shift of the long period case too large",
  "breaks": [
   "C108"
  ],
  "definition": "TwoWay.new"
 },
 {
  "id": "tw-bound",
  "edits": [
   [
    "Model/StrSearcher.lean",
    "let b ← boundaryUp haystack (haystack.length + 1) b\n",
    "let b ← boundaryUp haystack (haystack.length + 1) (b + 1)\n"
   ]
  ],
  "edit": "looks for a boundary after the end",
  "breaks": [
   "C108"
  ],
  "definition": "stepForward"
 },
 {
  "id": "tw-uv",
  "edits": [
   [
    "Model/StrSearcher.lean",
    "let v ← slice needle period (period + crit_pos)",
    "let v ← slice needle crit_pos (crit_pos + period)"
   ]
  ],
  "edit": "the wrong part is compared to find the short period",
  "breaks": [
   "C108"
  ],
  "definition": "TwoWay.new"
 },
 {
  "id": "c109-copy",
  "edits": [
   [
    "Model/CostTrim.lean",
    "(result ++ [(k.1, g.1.1)]) (g.2 + 2)",
    "(result ++ [(k.1, g.1.1)]) (g.2 + 2 + result.length)"
   ]
  ],
  "edit": "the list of tokens is copied for every new token",
  "breaks": [
   "C109"
  ],
  "definition": "groupsLoopC"
 },
 {
  "id": "c109-collect",
  "edits": [
   [
    "Model/CostTrim.lean",
    "collectGroupC client fuel (acc ++ [c]) r.2 (steps + 2 + stepCost client st)",
    "collectGroupC client fuel (acc ++ [c]) r.2 (steps + 2 + acc.length + stepCost client st)"
   ]
  ],
  "edit": "a token is copied for every character appended to it",
  "breaks": [
   "C109"
  ],
  "definition": "collectGroupC"
 },
 {
  "id": "c109-rescan",
  "edits": [
   [
    "Model/CostTrim.lean",
    "| .match _ _ => nextRejectC next fuel r.1.2 r.2",
    "| .match a _ => nextRejectC next fuel r.1.2 (r.2 + a)"
   ]
  ],
  "edit": "after every match the text is read again from its start",
  "breaks": [
   "C109"
  ],
  "definition": "nextRejectC"
 },
 {
  "id": "c109-suffix",
  "edits": [
   [
    "Model/CostTrim.lean",
    "else maximalSuffixLoopC arr order_greater fuel right (right + 1) 0 1 (steps + 1)",
    "else maximalSuffixLoopC arr order_greater fuel right (right + 1) 0 1 (steps + 1 + right)"
   ]
  ],
  "edit": "the maximal suffix is searched again from the start of the pattern",
  "breaks": [
   "C109"
  ],
  "definition": "maximalSuffixLoopC"
 },
 {
  "id": "c109-boundary",
  "edits": [
   [
    "Model/CostTrim.lean",
    "if isCharBoundary haystack b then .ok (b, steps + 1) else boundaryUpC haystack fuel (b + 1) (steps + 1)",
    "if isCharBoundary haystack b then .ok (b, steps + 1 + b * b) else boundaryUpC haystack fuel (b + 1) (steps + 1)"
   ]
  ],
  "edit": "finding the character boundary takes quadratic time",
  "breaks": [
   "C109"
  ],
  "definition": "boundaryUpC"
 },
 {
  "id": "c109-result",
  "edits": [
   [
    "Model/CostTrim.lean",
    "let s ← strSlice haystack 0 (rejectEnd r.1)\n  .ok (s, r.2 + 1)",
    "let s ← strSlice haystack (rejectStart haystack.length r.1) haystack.length\n  .ok (s, r.2 + 1)"
   ]
  ],
  "edit": "the counted program cuts at the wrong end",
  "breaks": [
   "C109"
  ],
  "definition": "trim_end_matchesC"
 }
]