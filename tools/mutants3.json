[
 {
  "id": "io-eintr-r",
  "edits": [
   [
    "Model/Stdio.lean",
    ".interrupted :: as, buf => readToEnd as buf",
    ".interrupted :: _, buf => (.error, buf)"
   ]
  ],
  "edit": "an interrupted read counts as an error",
  "breaks": [
   "C113"
  ],
  "definition": "readToEnd"
 },
 {
  "id": "io-eintr-end",
  "edits": [
   [
    "Model/Stdio.lean",
    ".interrupted :: as, buf => readToEnd as buf",
    ".interrupted :: _, buf => (.done, buf)"
   ]
  ],
  "edit": "an interrupted read counts as the end of the input",
  "breaks": [
   "C113"
  ],
  "definition": "readToEnd"
 },
 {
  "id": "io-over",
  "edits": [
   [
    "Model/Stdio.lean",
    "readToEnd as (buf ++ bs)",
    "readToEnd as bs"
   ]
  ],
  "edit": "every read overwrites the buffer",
  "breaks": [
   "C113"
  ],
  "definition": "readToEnd"
 },
 {
  "id": "io-prepend",
  "edits": [
   [
    "Model/Stdio.lean",
    "readToEnd as (buf ++ bs)",
    "readToEnd as (bs ++ buf)"
   ]
  ],
  "edit": "what is read is put in front",
  "breaks": [
   "C113"
  ],
  "definition": "readToEnd"
 },
 {
  "id": "io-once",
  "edits": [
   [
    "Model/Stdio.lean",
    "if bs.isEmpty then (.done, buf) else readToEnd as (buf ++ bs)",
    "(.done, buf ++ bs)"
   ]
  ],
  "edit": "one read is taken for the whole input",
  "breaks": [
   "C113"
  ],
  "definition": "readToEnd"
 },
 {
  "id": "io-readerr",
  "edits": [
   [
    "Model/Stdio.lean",
    ".failed :: _, buf => (.error, buf)",
    ".failed :: _, buf => (.done, buf)"
   ]
  ],
  "edit": "a failed read counts as the end of the input",
  "breaks": [
   "C113"
  ],
  "definition": "readToEnd"
 },
 {
  "id": "io-inclosed",
  "edits": [
   [
    "Model/Stdio.lean",
    "if closed then (.done, []) else",
    "if closed then (.error, []) else"
   ]
  ],
  "edit": "a closed standard input is an error",
  "breaks": [
   "C113"
  ],
  "definition": "stdinToEnd"
 },
 {
  "id": "io-eintr-w",
  "edits": [
   [
    "Model/Stdio.lean",
    ".interrupted :: as, b :: bs => writeLoop as (b :: bs)",
    ".interrupted :: as, b :: bs => (.error, as, [], b :: bs)"
   ]
  ],
  "edit": "an interrupted write counts as an error",
  "breaks": [
   "C113"
  ],
  "definition": "writeLoop"
 },
 {
  "id": "io-eintr-skip",
  "edits": [
   [
    "Model/Stdio.lean",
    ".interrupted :: as, b :: bs => writeLoop as (b :: bs)",
    ".interrupted :: as, _ :: bs => writeLoop as bs"
   ]
  ],
  "edit": "a byte is skipped when a write is interrupted",
  "breaks": [
   "C113"
  ],
  "definition": "writeLoop"
 },
 {
  "id": "io-short",
  "edits": [
   [
    "Model/Stdio.lean",
    "let r := writeLoop as ((b :: bs).drop n)",
    "let r := writeLoop as ([] : List UInt8)"
   ]
  ],
  "edit": "a short write counts as a whole one",
  "breaks": [
   "C113"
  ],
  "definition": "writeLoop"
 },
 {
  "id": "io-again",
  "edits": [
   [
    "Model/Stdio.lean",
    "let r := writeLoop as ((b :: bs).drop n)",
    "let r := writeLoop as ((b :: bs).drop (n - 1))"
   ]
  ],
  "edit": "the last byte taken is sent again",
  "breaks": [
   "C113"
  ],
  "definition": "writeLoop"
 },
 {
  "id": "io-ignore",
  "edits": [
   [
    "Model/Stdio.lean",
    ".failed :: as, b :: bs => (.error, as, [], b :: bs)",
    ".failed :: as, _ :: _ => (.done, as, [], [])"
   ]
  ],
  "edit": "a failed write counts as done",
  "breaks": [
   "C113"
  ],
  "definition": "writeLoop"
 },
 {
  "id": "io-zero",
  "edits": [
   [
    "Model/Stdio.lean",
    "if n = 0 then (.error, as, [], b :: bs)",
    "if n = 0 then (.done, as, [], [])"
   ]
  ],
  "edit": "a write that takes nothing ends the loop as if it were done",
  "breaks": [
   "C113"
  ],
  "definition": "writeLoop"
 },
 {
  "id": "io-outclosed",
  "edits": [
   [
    "Model/Stdio.lean",
    "if closed then (.done, o)",
    "if closed then (.error, o)"
   ]
  ],
  "edit": "a closed standard output is an error",
  "breaks": [
   "C113"
  ],
  "definition": "rawWriteAll"
 },
 {
  "id": "io-noflush",
  "edits": [
   [
    "Model/Stdio.lean",
    "  match flushBuf closed o with\n  | (.waiting, o) => (.running, o)\n  | (_, o) => (.exited status, o)",
    "  if closed then (.exited status, o) else (.exited status, o)"
   ]
  ],
  "edit": "the buffer is not written at the end",
  "breaks": [
   "C113"
  ],
  "definition": "cleanup"
 },
 {
  "id": "io-cleanup-err",
  "edits": [
   [
    "Model/Stdio.lean",
    "  | (_, o) => (.exited status, o)",
    "  | (.error, o) => (.exited 101, o)\n  | (.done, o) => (.exited status, o)"
   ]
  ],
  "edit": "an error at the end ends the process with status 101 (what a user would expect)",
  "breaks": [
   "C113"
  ],
  "definition": "cleanup"
 },
 {
  "id": "io-order",
  "edits": [
   [
    "Model/Stdio.lean",
    "(if bs.length > cap - o.buf.length then flushBuf closed o else (.done, o))",
    "(if bs.length > 2 * cap then flushBuf closed o else (.done, o))"
   ]
  ],
  "edit": "what does not fit overtakes the buffer",
  "breaks": [
   "C113"
  ],
  "definition": "bufWriteAll"
 },
 {
  "id": "io-drop",
  "edits": [
   [
    "Model/Stdio.lean",
    "then rawWriteAll closed o bs else (.done, { o with buf := o.buf ++ bs })",
    "then rawWriteAll closed o bs else (.done, { o with buf := bs })"
   ]
  ],
  "edit": "the buffer is replaced instead of extended",
  "breaks": [
   "C113"
  ],
  "definition": "bufWriteAll"
 },
 {
  "id": "io-first",
  "edits": [
   [
    "Model/Stdio.lean",
    "    match lastNewline bs with\n    | some i => some (i + 1)\n    | none => if b == 0x0A then some 0 else none",
    "    if b == 0x0A then some 0\n    else match lastNewline bs with\n      | some i => some (i + 1)\n      | none => none"
   ]
  ],
  "edit": "the first line feed is looked for, not the last",
  "breaks": [
   "C113"
  ],
  "definition": "lastNewline"
 },
 {
  "id": "io-cr",
  "edits": [
   [
    "Model/Stdio.lean",
    "if b == 0x0A then some 0",
    "if b == 0x0D then some 0"
   ]
  ],
  "edit": "lines end with a carriage return",
  "breaks": [
   "C113"
  ],
  "definition": "lastNewline"
 },
 {
  "id": "io-line-lost",
  "edits": [
   [
    "Model/Stdio.lean",
    "bufWriteAll cap closed o (bs.drop (i + 1))",
    "bufWriteAll cap closed o (bs.drop (i + 2))"
   ]
  ],
  "edit": "the first byte after a line is lost",
  "breaks": [
   "C113"
  ],
  "definition": "lineWriteAll"
 },
 {
  "id": "io-line-buf",
  "edits": [
   [
    "Model/Stdio.lean",
    "if o.buf.isEmpty then rawWriteAll closed o (bs.take (i + 1))",
    "if true then rawWriteAll closed o (bs.take (i + 1))"
   ]
  ],
  "edit": "whole lines overtake the buffer",
  "breaks": [
   "C113"
  ],
  "definition": "lineWriteAll"
 },
 {
  "id": "io-line-keep",
  "edits": [
   [
    "Model/Stdio.lean",
    "andThen (bufWriteAll cap closed o (bs.take (i + 1))) fun o => flushBuf closed o)",
    "bufWriteAll cap closed o (bs.take (i + 1)))"
   ]
  ],
  "edit": "whole lines stay in the buffer",
  "breaks": [
   "C113"
  ],
  "definition": "lineWriteAll"
 },
 {
  "id": "io-rev",
  "edits": [
   [
    "Model/Stdio.lean",
    "andThen (lineWriteAll cap closed o p) fun o => printPieces cap closed o ps",
    "andThen (printPieces cap closed o ps) fun o => lineWriteAll cap closed o p"
   ]
  ],
  "edit": "the pieces are printed in the wrong order",
  "breaks": [
   "C113"
  ],
  "definition": "printPieces"
 },
 {
  "id": "io-panic0",
  "edits": [
   [
    "Model/Stdio.lean",
    "| (.error, o) => cleanup closed 101 o",
    "| (.error, o) => cleanup closed 0 o"
   ]
  ],
  "edit": "a failed print ends with status 0",
  "breaks": [
   "C113"
  ],
  "definition": "printAndExit"
 },
 {
  "id": "io-cap",
  "edits": [
   [
    "Model/Stdio.lean",
    "stdoutCap : Nat := 1024",
    "stdoutCap : Nat := 8192"
   ]
  ],
  "edit": "a buffer of 8192 bytes",
  "breaks": [
   "C113"
  ],
  "definition": "stdoutCap"
 },
 {
  "id": "io-nonl",
  "edits": [
   [
    "Model/Stdio.lean",
    "printAndExit stdoutCap outClosed o [r, [0x0A]]",
    "printAndExit stdoutCap outClosed o [r]"
   ]
  ],
  "edit": "no line feed after converted arguments",
  "breaks": [
   "C113"
  ],
  "definition": "cliProcess"
 },
 {
  "id": "io-nl",
  "edits": [
   [
    "Model/Stdio.lean",
    "      match convert buffer with\n            | .error _ => cleanup outClosed 101 o\n            | .ok r => printAndExit stdoutCap outClosed o [r]",
    "      match convert buffer with\n            | .error _ => cleanup outClosed 101 o\n            | .ok r => printAndExit stdoutCap outClosed o [r, [0x0A]]"
   ]
  ],
  "edit": "a line feed after converted standard input",
  "breaks": [
   "C113"
  ],
  "definition": "cliProcess"
 },
 {
  "id": "io-invalid",
  "edits": [
   [
    "Model/Stdio.lean",
    "| none => cleanup outClosed 101 o\n        | some buffer",
    "| none => cleanup outClosed 0 o\n        | some buffer"
   ]
  ],
  "edit": "standard input that is not UTF-8 ends with status 0",
  "breaks": [
   "C113"
  ],
  "definition": "cliProcess"
 },
 {
  "id": "io-echo",
  "edits": [
   [
    "Model/Stdio.lean",
    "| none => cleanup outClosed 101 o\n        | some buffer",
    "| none => printAndExit stdoutCap outClosed o [bs]\n        | some buffer"
   ]
  ],
  "edit": "standard input that is not UTF-8 is copied",
  "breaks": [
   "C113"
  ],
  "definition": "cliProcess"
 },
 {
  "id": "io-readerr0",
  "edits": [
   [
    "Model/Stdio.lean",
    "| (.error, _) => cleanup outClosed 101 o\n      | (.done, bs)",
    "| (.error, _) => cleanup outClosed 0 o\n      | (.done, bs)"
   ]
  ],
  "edit": "a failed read ends with status 0",
  "breaks": [
   "C113"
  ],
  "definition": "cliProcess"
 },
 {
  "id": "io-argname",
  "edits": [
   [
    "Model/Stdio.lean",
    "joinSpaceBytes (args.drop 1)",
    "joinSpaceBytes args"
   ]
  ],
  "edit": "the name of the program is converted as well",
  "breaks": [
   "C113"
  ],
  "definition": "cliProcess"
 }
]