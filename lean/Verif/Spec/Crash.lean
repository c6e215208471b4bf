import Verif.Spec.Run

/-!
# Killing the program (C53)

What is on disk when the process is killed: the bytes each `BufWriter` has handed to the operating
system.  Buffers are lost.  A `writeln!` reaches the stream in arbitrary pieces, and the process may
be killed between any two of them or in the middle of a transfer to the file.
-/

namespace RustBCA.Spec

/-- What happens at a stream: some bytes are written to it, or it is flushed. -/
inductive Micro where
  | write (f : OutFile) (data : List Char)
  | flush (f : OutFile)

/-- The steps `ms` carry out the operations `ops`: every line is written, in any number of pieces,
with its newline. -/
inductive Performs : List OutOp → List Micro → Prop
  | nil : Performs [] []
  | flush {f ops ms} : Performs ops ms → Performs (.flush f :: ops) (.flush f :: ms)
  | write {f line ops ms} (pieces : List (List Char))
      (h : pieces.flatten = line.toList ++ ['\n']) :
      Performs ops ms → Performs (.write f line :: ops) (pieces.map (.write f) ++ ms)

/-- One step on the streams. -/
def microStep (st : OutFile → Stream) : Micro → OutFile → Stream
  | .write f data => fun g => if g = f then (st f).write_all data else st g
  | .flush f => fun g => if g = f then (st f).flush else st g

/-- The streams after the steps `ms`; `cap f` is the buffer size of file `f`. -/
def streams (cap : OutFile → Nat) (ms : List Micro) : OutFile → Stream :=
  ms.foldl microStep fun f => Stream.opened (cap f)

/-- After the steps `before`, the process was killed during the steps `during`, and file `f`
then has the content `c`: some of the steps were completed, and the next one may have transferred
a part of its bytes. -/
def KilledDuring (cap : OutFile → Nat) (before during : List Micro) (f : OutFile) (c : List Char) :
    Prop :=
  ∃ a b, during = a ++ b ∧ (streams cap (before ++ a) f).file <+: c ∧
    c <+: (streams cap (before ++ a ++ b.take 1) f).file

/-- The text the operations write to file `f`: its lines, each ended by a newline. -/
def textOf (f : OutFile) (ops : List OutOp) : List Char :=
  ((linesOf f ops).map fun l => l.toList ++ ['\n']).flatten

end RustBCA.Spec
