import Verif.Model.Physics

/-! # Specification vocabulary for whole runs -/

namespace RustBCA.Spec

/-- The lines written to file `f`, in order. -/
def linesOf (f : OutFile) (ops : List OutOp) : List String :=
  ops.filterMap fun op => match op with
    | .write g line => if g = f then some line else none
    | .flush _ => none

/-- `outs` are the results of simulating the ions, in order, each ion once. -/
def Simulated {α β : Type} (sim : α → Res (List β)) : List α → List (List β) → Prop :=
  List.Forall₂ (fun ion out => sim ion = .ok out)

end RustBCA.Spec
