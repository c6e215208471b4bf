import Verif.Model.Disk
import Verif.Spec.Crash

/-!
# Specification vocabulary for the files of a run (C111)
-/

namespace RustBCA.Spec

/-- The documented names, after the name of the run, of the files of a run. -/
def endings : List String := ["reflected.output", "sputtered.output", "deposited.output",
  "trajectories.output", "trajectory_data.output", "displacements.output", "energy_loss.output",
  "summary.output", "distributions.toml"]

/-- The path belongs to the run named `name`. -/
def FileOf (name path : String) : Prop := ∃ e ∈ endings, path = name ++ e

/-- The documented contents of summary.output: a heading and a row for each mass. -/
def summaryText {F : Type} (fmt : F → String) (rows : List (F × Nat × Nat × Nat)) : String :=
  "mass, reflected, sputtered, deposited\n" ++
    String.join (rows.map fun (m, r, s, d) => s!"{fmt m}, {r}, {s}, {d},\n")

/-- The disk at some moment of doing `ops`, finished or not: the program may be killed at any time, also
in the middle of a line. -/
def AtSomeMoment (d : Disk) (ops : List DiskOp) (d' : Disk) : Prop :=
  ∃ done, done <+: ops ∧ (d' = perform d done ∨
    ∃ path text part, done ++ [.append path text] <+: ops ∧ part <+: text ∧
      d' = perform d (done ++ [.append path part]))

end RustBCA.Spec
