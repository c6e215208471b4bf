import Verif.Model.Physics

/-!
# The files a run writes (output.rs, physics.rs)

Paths are the texts handed to the operating system; two different texts are taken to be two different
files (`./a` and `a` are not).  Buffering is the subject of `Stream` (Model/Output.lean); here the text
of a line is appended when the line is written, which is what the file holds once its stream is flushed
or dropped.  A file is never open twice at the same time, since all paths of a run are different
(`C111_distinct`), so that appending needs no file positions.
-/

namespace RustBCA
open Scalar

/-- Path and contents of every file. -/
abbrev Disk := String → Option (List Char)

/-- What a run does to files. -/
inductive DiskOp where
  /-- `OpenOptions::new().write(true).create(true).truncate(true).open(path)` -/
  | truncate (path : String)
  /-- `writeln!` to the file opened under this path -/
  | append (path : String) (text : List Char)

def DiskOp.path : DiskOp → String
  | .truncate p => p
  | .append p _ => p

def DiskOp.perform (d : Disk) : DiskOp → Disk
  | .truncate path => fun p => if p = path then some [] else d p
  | .append path text => fun p => if p = path then (d p).map (· ++ text) else d p

/-- Operations one after the other. -/
def perform (d : Disk) (ops : List DiskOp) : Disk := ops.foldl DiskOp.perform d

/-- output.rs:266, 275, 284, 293, 302, 311, 320: the end of the name of each list file. -/
def OutFile.ending : OutFile → String
  | .reflected => "reflected.output"
  | .sputtered => "sputtered.output"
  | .deposited => "deposited.output"
  | .trajectory => "trajectories.output"
  | .trajectory_data => "trajectory_data.output"
  | .displacements => "displacements.output"
  | .energy_loss => "energy_loss.output"

/-- `writeln!` -/
def line (text : String) : List Char := text.toList ++ ['\n']

variable {F : Type} [Scalar F]

/-- output.rs:260-333 `open_output_lists`, in this order. -/
def open_output_lists (options : Options F) : List DiskOp :=
  [.truncate (options.name ++ OutFile.reflected.ending), .truncate (options.name ++ OutFile.sputtered.ending),
    .truncate (options.name ++ OutFile.deposited.ending), .truncate (options.name ++ OutFile.trajectory.ending),
    .truncate (options.name ++ OutFile.trajectory_data.ending),
    .truncate (options.name ++ OutFile.displacements.ending),
    .truncate (options.name ++ OutFile.energy_loss.ending)]

/-- output.rs:203-221 `SummaryPerSpecies::new`, its file. -/
def open_summary (options : Options F) : List DiskOp := [.truncate (options.name ++ "summary.output")]

/-- output.rs:337-420 the writes and flushes of the list files. -/
def list_writes (options : Options F) (ops : List OutOp) : List DiskOp :=
  ops.filterMap fun op => match op with
    | .write f text => some (.append (options.name ++ f.ending) (line text))
    | .flush _ => none

/-- output.rs:223-233 `SummaryPerSpecies::print`. -/
def print_summary (fmt : F → String) (options : Options F) (units : OutputUnits F)
    (s : SummaryPerSpecies F) : List DiskOp :=
  .append (options.name ++ "summary.output") (line "mass, reflected, sputtered, deposited") ::
    (s.rows units).map fun r => .append (options.name ++ "summary.output")
      (line (fmt r.1 ++ ", " ++ toString r.2.1 ++ ", " ++ toString r.2.2.1 ++ ", " ++ toString r.2.2.2 ++ ","))

/-- output.rs:67-79 `Distributions::print`; `toml` is `toml::to_string`. -/
def print_distributions (toml : Distributions F → String) (options : Options F) (d : Distributions F) :
    List DiskOp :=
  [.truncate (options.name ++ "distributions.toml"),
    .append (options.name ++ "distributions.toml") (line (toml d))]

/-- physics.rs:74-76: with the distributions feature only. -/
def distributions_file (toml : Distributions F → String) (options : Options F) :
    Option (Distributions F) → List DiskOp
  | some d => print_distributions toml options d
  | none => []

/-- physics.rs:10-81 what `physics_loop` does to files in a run that ends with `s`. -/
def physics_loop_files (cfg : OutputConfig F) (toml : Distributions F → String) (options : Options F)
    (s : RunState F) : List DiskOp :=
  (if cfg.list_output then open_output_lists options else []) ++ open_summary options ++
    (if cfg.list_output then list_writes options s.ops else []) ++
    print_summary cfg.fmt options cfg.units s.summary ++
    distributions_file toml options s.distributions

end RustBCA
