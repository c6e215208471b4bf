import Verif.Model.Parry
import Verif.Model.Input
import Verif.Model.Physics

/-!
# The command-line program (main.rs)

Reading a file and parsing TOML (`InputFile::new`) is external; `Files` says what each file name
yields for each geometry's input format (`none`: the file cannot be opened or parsed, which
panics).
-/

namespace RustBCA
open Scalar

/-- input.rs:18-23 (and 54-59, 89-94, 124-129, sphere.rs:3-9, parry.rs:7-13, 130-136): the record an
input file is parsed into. -/
structure InputRecord (F G : Type) where
  options : Options F
  material_parameters : MaterialParameters F
  particle_parameters : ParticleParameters F
  geometry_input : G

/-- Files and the TOML parser. -/
structure Files (F : Type) where
  mesh0D : String → Option (InputRecord F (Mesh0DInput F))
  mesh1D : String → Option (InputRecord F (Mesh1DInput F))
  mesh2D : String → Option (InputRecord F (Mesh2DInput F))
  homogeneous2D : String → Option (InputRecord F (HomogeneousMesh2DInput F))
  sphere : String → Option (InputRecord F (SphereInput F))
  ball : String → Option (InputRecord F (ParryBallInput F))
  trimesh : String → Option (InputRecord F (ParryTriMeshInput F))

/-- enums.rs:24-34 `GeometryType`. -/
inductive GeometryType where
  | MESH0D | MESH1D | MESH2D | SPHERE | BALL | TRIMESH | HOMOGENEOUS2D
deriving DecidableEq, Repr

/-- main.rs:70-90 the file and geometry named on the command line; `args[0]` is the program, and
`parry3d` tells whether that feature is on. -/
def parse_args (parry3d : Bool) (args : List String) : Res (String × GeometryType) :=
  match args with
  | [_] => pure ("input.toml", .MESH2D)
  | [_, file] => pure (file, .MESH2D)
  | [_, geometry, file] =>
    match geometry with
    | "0D" => pure (file, .MESH0D)
    | "1D" => pure (file, .MESH1D)
    | "2D" => pure (file, .MESH2D)
    | "SPHERE" => pure (file, .SPHERE)
    | "HOMOGENEOUS2D" => pure (file, .HOMOGENEOUS2D)
    | "BALL" => if parry3d then pure (file, .BALL) else rpanic "Unimplemented geometry."
    | "TRIMESH" => if parry3d then pure (file, .TRIMESH) else rpanic "Unimplemented geometry."
    | _ => rpanic "Unimplemented geometry."
  | _ => rpanic "Too many command line arguments."

variable {F : Type} [Scalar F]

/-- The build and the outside world of one execution: features, external code, the random stream
of the main thread (`tape`) and of each ion, and the schedule. -/
structure World (F : Type) where
  ext : Ext F
  parry : Parry F
  sampler : Sampler F
  files : Files F
  parry3d : Bool
  rcpr : Rcpr F
  fuel : Nat
  splits : List Split
  tape : Tape F
  tapes : Nat → Tape F
  grid : Option (GridOptions F)
  list_output : Bool
  fmt : F → String

/-- input.rs:377-400 and main.rs:92-120: `input::<T>(file)` followed by `physics_loop::<T>`, where
`geometry` is `T::new` (as the record of its queries). -/
def run_file {G : Type} (w : World F) (record : Option (InputRecord F G)) (geometry : G → Res (Geom F)) :
    Res (RunState F) := do
  let r ← (match record with
    | some r => pure r
    | none => rpanic "Input errror: could not open input file." : Res (InputRecord F G))
  let (acc, _) ← input w.ext w.sampler w.rcpr.enabled r.options
    (Material.new w.ext r.material_parameters (geometry r.geometry_input)) r.particle_parameters
    w.tape
  physics_loop_run w.rcpr w.fuel ⟨w.grid, w.list_output, acc.output_units, w.fmt⟩ acc.material
    acc.options w.splits w.tapes acc.particle_input_array

/-- main.rs:66-122 `main`. -/
def main (w : World F) (args : List String) : Res (RunState F) := do
  let (file, geometry_type) ← parse_args w.parry3d args
  match geometry_type with
  | .MESH0D => run_file w (w.files.mesh0D file) fun g => Mesh0D.toGeom <$> Mesh0D.new w.ext g
  | .MESH1D => run_file w (w.files.mesh1D file) fun g => Mesh1D.toGeom <$> Mesh1D.new w.ext g
  | .MESH2D => run_file w (w.files.mesh2D file) fun g => (Mesh2D.toGeom · w.ext) <$> Mesh2D.new w.ext g
  | .SPHERE => run_file w (w.files.sphere file) fun g => Sphere.toGeom <$> Sphere.new w.ext g
  | .BALL => run_file w (w.files.ball file) fun g => ParryBall.toGeom w.parry <$> ParryBall.new w.ext g
  | .TRIMESH => run_file w (w.files.trimesh file) fun g =>
      ParryTriMesh.toGeom <$> ParryTriMesh.new w.ext w.parry g
  | .HOMOGENEOUS2D => run_file w (w.files.homogeneous2D file) fun g =>
      (HomogeneousMesh2D.toGeom · w.ext) <$> HomogeneousMesh2D.new w.ext g

end RustBCA
