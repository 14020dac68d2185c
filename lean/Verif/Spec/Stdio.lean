import Verif.Model.Stdio
import Verif.Props.Utf8Cli
/-! # What the command line tools are to read and write -/

namespace Spec
open WanaKana

/-- a call of `read` that brings something or is to be repeated -/
def Bringing (a : ReadAnswer) : Prop := a = .interrupted ∨ ∃ b bs, a = .got (b :: bs)

/-- the bytes of an answer -/
def brought : ReadAnswer → List UInt8
  | .got bs => bs
  | _ => []

/-- standard input holds exactly these bytes: the calls of `read` bring them, then one brings nothing; a closed
standard input is empty -/
def Holds (closed : Bool) (reads : List ReadAnswer) (bs : List UInt8) : Prop :=
  (closed = true ∧ bs = []) ∨
  (closed = false ∧ ∃ before after, reads = before ++ .got [] :: after ∧ (∀ a ∈ before, Bringing a) ∧
    bs = (before.map brought).flatten)

/-- the text a program has to convert and what it adds to the result: the arguments after its name, and a line feed, or
else the standard input -/
def Job (argv : List (List UInt8)) (inClosed : Bool) (reads : List ReadAnswer) (text : Str) (tail : List UInt8) : Prop :=
  ∃ name args, argv = utf8 name :: args.map utf8 ∧
    ((args ≠ [] ∧ args ≠ [[]] ∧ text = WanaKana.Spec.spaced args ∧ tail = [0x0A]) ∨
     ((args = [] ∨ args = [[]]) ∧ Holds inClosed reads (utf8 text) ∧ tail = []))

/-- an answer that makes a call of `write` fail: an error, or nothing taken -/
def Fails (a : WriteAnswer) : Prop := a = .failed ∨ a = .wrote 0

/-- an answer that takes bytes -/
def isWrote : WriteAnswer → Bool
  | .wrote _ => true
  | _ => false

/-- a process that is to write `w`, when the system has given these answers: its state and what it has written -/
structure Writes (w : List UInt8) (writes : List WriteAnswer) (p : Process) (sent : List UInt8) : Prop where
  /-- never anything wrong -/
  start : sent <+: w
  status : p = .running ∨ p = .exited 0 ∨ p = .exited 101
  /-- it runs only as long as something is missing -/
  running : p = .running → sent.length < w.length
  /-- on success at most the end of the last line is missing, and then a call failed -/
  success : p = .exited 0 → ∃ lost, sent ++ lost = w ∧ (0x0A : UInt8) ∉ lost ∧ lost.length < 1024 ∧
    (lost ≠ [] → ∃ a ∈ writes, Fails a)
  failure : p = .exited 101 → ∃ a ∈ writes, Fails a
  /-- if no call fails and the system takes bytes often enough everything is written -/
  complete : (∀ a ∈ writes, ¬ Fails a) → w.length ≤ writes.countP isWrote → p = .exited 0 ∧ sent = w

end Spec
