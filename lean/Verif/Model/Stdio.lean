import Verif.Model.Utf8Cli
/-! # src/bin/to_kana.rs and src/bin/to_romaji.rs and the operating system

`cliMainBytes` hands over the content of standard input and takes the output in one step.  Here the programs talk to an
operating system that gives and takes the bytes in pieces of its own choice, interrupts calls and fails.  What it does
is a list of answers to the calls of `read` and one of answers to the calls of `write`, as long as one likes; when a
list is used up the program is waiting in such a call.

The standard library between the programs and the system is modelled after its source (library/std/src/io of Rust 1.81):
`read_to_string` on `Stdin`, and for `print!` the `LineWriter` around `StdoutRaw` with its buffer of 1024 bytes, which
`std::rt::cleanup` writes out at the end.  Left out: the sizes of the buffers offered to `read` and the limit of the
length of one `write` (any division into pieces is allowed here), the text of the message of a panic (it goes to
standard error), signals that end the process, and programs that run out of memory. -/

namespace WanaKana

/-- what the system may answer to a call of `read`: bytes (none at the end of the input), `EINTR`, another error
(src/bin/to_kana.rs:12, src/bin/to_romaji.rs:12) -/
inductive ReadAnswer where
  | got (bytes : List UInt8)
  | interrupted
  | failed
deriving DecidableEq, Repr

/-- what the system may answer to a call of `write`: how many of the bytes it took (at most all), `EINTR`, another
error (src/bin/to_kana.rs:9,14, src/bin/to_romaji.rs:9,14) -/
inductive WriteAnswer where
  | wrote (n : Nat)
  | interrupted
  | failed
deriving DecidableEq, Repr

/-- how an operation ends: it is done, it returns an error, or it waits for the system
(src/bin/to_kana.rs:9,12,14, src/bin/to_romaji.rs:9,12,14) -/
inductive IoEnd where
  | done
  | error
  | waiting
deriving DecidableEq, Repr

/-- `std::io::default_read_to_end`: read until a call brings nothing (src/bin/to_kana.rs:12, src/bin/to_romaji.rs:12) -/
def readToEnd : List ReadAnswer → List UInt8 → IoEnd × List UInt8
  | [], buf => (.waiting, buf)
  | .interrupted :: as, buf => readToEnd as buf
  | .failed :: _, buf => (.error, buf)
  | .got bs :: as, buf => if bs.isEmpty then (.done, buf) else readToEnd as (buf ++ bs)

/-- `StdinRaw::read_to_end`: a standard input that is closed counts as empty (`handle_ebadf`).
Used in src/bin/to_kana.rs:12, src/bin/to_romaji.rs:12. -/
def stdinToEnd (closed : Bool) (reads : List ReadAnswer) : IoEnd × List UInt8 :=
  if closed then (.done, []) else readToEnd reads []

/-- standard output: what the system will answer, what it has taken, and the buffer of the `LineWriter`
(src/bin/to_kana.rs:9,14, src/bin/to_romaji.rs:9,14) -/
structure Out where
  answers : List WriteAnswer
  sent : List UInt8
  buf : List UInt8
deriving DecidableEq, Repr

/-- the loop common to `Write::write_all` and `BufWriter::flush_buf`: call `write` with what is left until nothing is.
Gives how it ends, the answers not used, the bytes taken and the bytes left
(src/bin/to_kana.rs:9,14, src/bin/to_romaji.rs:9,14). -/
def writeLoop : List WriteAnswer → List UInt8 → IoEnd × List WriteAnswer × List UInt8 × List UInt8
  | as, [] => (.done, as, [], [])
  | [], b :: bs => (.waiting, [], [], b :: bs)
  | .interrupted :: as, b :: bs => writeLoop as (b :: bs)
  | .failed :: as, b :: bs => (.error, as, [], b :: bs)
  | .wrote n :: as, b :: bs =>
    if n = 0 then (.error, as, [], b :: bs)
    else
      let r := writeLoop as ((b :: bs).drop n)
      (r.1, r.2.1, (b :: bs).take n ++ r.2.2.1, r.2.2.2)

/-- `StdoutRaw::write_all`: a standard output that is closed takes everything (`handle_ebadf`).
Used in src/bin/to_kana.rs:9,14, src/bin/to_romaji.rs:9,14. -/
def rawWriteAll (closed : Bool) (o : Out) (bs : List UInt8) : IoEnd × Out :=
  if closed then (.done, o)
  else
    let r := writeLoop o.answers bs
    (r.1, { o with answers := r.2.1, sent := o.sent ++ r.2.2.1 })

/-- `BufWriter::flush_buf`: what could not be written stays in the buffer (`BufGuard`).
Used in src/bin/to_kana.rs:9,14, src/bin/to_romaji.rs:9,14. -/
def flushBuf (closed : Bool) (o : Out) : IoEnd × Out :=
  if closed then (.done, { o with buf := [] })
  else
    let r := writeLoop o.answers o.buf
    (r.1, { answers := r.2.1, sent := o.sent ++ r.2.2.1, buf := r.2.2.2 })

/-- `?` between two operations on standard output (src/bin/to_kana.rs:9,14, src/bin/to_romaji.rs:9,14) -/
def andThen (r : IoEnd × Out) (k : Out → IoEnd × Out) : IoEnd × Out :=
  match r with
  | (.done, o) => k o
  | (.error, o) => (.error, o)
  | (.waiting, o) => (.waiting, o)

/-- `BufWriter::write_all` with a buffer of `cap` bytes (src/bin/to_kana.rs:9,14, src/bin/to_romaji.rs:9,14) -/
def bufWriteAll (cap : Nat) (closed : Bool) (o : Out) (bs : List UInt8) : IoEnd × Out :=
  if bs.length < cap - o.buf.length then (.done, { o with buf := o.buf ++ bs })
  else
    andThen (if bs.length > cap - o.buf.length then flushBuf closed o else (.done, o)) fun o =>
      if bs.length ≥ cap then rawWriteAll closed o bs else (.done, { o with buf := o.buf ++ bs })

/-- `memrchr(b'\n', buf)` (src/bin/to_kana.rs:9,14, src/bin/to_romaji.rs:9,14) -/
def lastNewline : List UInt8 → Option Nat
  | [] => none
  | b :: bs =>
    match lastNewline bs with
    | some i => some (i + 1)
    | none => if b == 0x0A then some 0 else none

/-- `LineWriterShim::flush_if_completed_line` (src/bin/to_kana.rs:9,14, src/bin/to_romaji.rs:9,14) -/
def flushIfCompletedLine (closed : Bool) (o : Out) : IoEnd × Out :=
  if o.buf.getLast? == some 0x0A then flushBuf closed o else (.done, o)

/-- `LineWriterShim::write_all`: whole lines are written at once, the rest is kept in the buffer
(src/bin/to_kana.rs:9,14, src/bin/to_romaji.rs:9,14) -/
def lineWriteAll (cap : Nat) (closed : Bool) (o : Out) (bs : List UInt8) : IoEnd × Out :=
  match lastNewline bs with
  | none => andThen (flushIfCompletedLine closed o) fun o => bufWriteAll cap closed o bs
  | some i =>
    andThen
      (if o.buf.isEmpty then rawWriteAll closed o (bs.take (i + 1))
       else andThen (bufWriteAll cap closed o (bs.take (i + 1))) fun o => flushBuf closed o)
      fun o => bufWriteAll cap closed o (bs.drop (i + 1))

/-- `print!`: one `write_all` for each piece of the format (src/bin/to_kana.rs:9,14, src/bin/to_romaji.rs:9,14) -/
def printPieces (cap : Nat) (closed : Bool) (o : Out) : List (List UInt8) → IoEnd × Out
  | [] => (.done, o)
  | p :: ps => andThen (lineWriteAll cap closed o p) fun o => printPieces cap closed o ps

/-- the process runs or has ended with a status (src/bin/to_kana.rs:6-17, src/bin/to_romaji.rs:6-17) -/
inductive Process where
  | running
  | exited (status : Nat)
deriving DecidableEq, Repr

/-- `std::rt::cleanup` after `main`: the buffer is dropped, which writes it and forgets an error.
Used in src/bin/to_kana.rs:6-17, src/bin/to_romaji.rs:6-17. -/
def cleanup (closed : Bool) (status : Nat) (o : Out) : Process × Out :=
  match flushBuf closed o with
  | (.waiting, o) => (.running, o)
  | (_, o) => (.exited status, o)

/-- `print!`, which panics on an error, and the end of the process: status 0, or 101 after a panic
(src/bin/to_kana.rs:9,14, src/bin/to_romaji.rs:9,14) -/
def printAndExit (cap : Nat) (closed : Bool) (o : Out) (pieces : List (List UInt8)) : Process × Out :=
  match printPieces cap closed o pieces with
  | (.waiting, o) => (.running, o)
  | (.error, o) => cleanup closed 101 o
  | (.done, o) => cleanup closed 0 o

/-- the size of the buffer of standard output: `LineWriter::new` (src/bin/to_kana.rs:9,14, src/bin/to_romaji.rs:9,14) -/
def stdoutCap : Nat := 1024

/-- src/bin/to_kana.rs:6-17, src/bin/to_romaji.rs:6-17 with the calls of the system.  A panic ends the process with
status 101. -/
def cliProcess (convert : List UInt8 → Res (List UInt8)) (argv : List (List UInt8)) (inClosed : Bool)
    (reads : List ReadAnswer) (outClosed : Bool) (writes : List WriteAnswer) : Process × Out :=
  let o : Out := ⟨writes, [], []⟩
  match envArgsBytes argv with
  | .error _ => cleanup outClosed 101 o
  | .ok args =>
    let args := joinSpaceBytes (args.drop 1)
    if !args.isEmpty then
      match convert args with
      | .error _ => cleanup outClosed 101 o
      | .ok r => printAndExit stdoutCap outClosed o [r, [0x0A]]
    else
      match stdinToEnd inClosed reads with
      | (.waiting, _) => (.running, o)
      | (.error, _) => cleanup outClosed 101 o
      | (.done, bs) =>
        match fromUtf8 bs with
        | none => cleanup outClosed 101 o
        | some buffer =>
          if !buffer.isEmpty then
            match convert buffer with
            | .error _ => cleanup outClosed 101 o
            | .ok r => printAndExit stdoutCap outClosed o [r]
          else cleanup outClosed 0 o

/-- src/bin/to_kana.rs:6-17 with the calls of the system -/
def toKanaProcess (std : Std) : List (List UInt8) → Bool → List ReadAnswer → Bool → List WriteAnswer → Process × Out :=
  cliProcess fun s => to_kana_with_opt_bytes std s {}

/-- src/bin/to_romaji.rs:6-17 with the calls of the system; `n` as in `convertWhileAscii` -/
def toRomajiProcess (std : Std) (n : Nat) :
    List (List UInt8) → Bool → List ReadAnswer → Bool → List WriteAnswer → Process × Out :=
  cliProcess fun s => to_romaji_with_opt_bytes std n s {}

end WanaKana
