import Verif.Model.Bca

/-!
# The library interface (lib.rs)

C arrays passed as pointer and length are lists: reading past the end of a caller's array is
undefined behaviour of the caller and is not modelled.  Python dictionaries are functions from
keys to values.  `Vec`s handed to C are modelled by their contents and, for the `drop_*`
functions, by the layout of their allocation.
-/

namespace RustBCA
open Scalar
variable {F : Type} [Scalar F]

/-! ## Pieces repeated in every entry point -/

/-- lib.rs:275-302 (and 393-419, 482-509, 600-627, 725-752, 1223-1250, 1299-1326): the `Particle`
literal every C entry point builds. -/
def ion_literal (m Z E Ec Es x y z ux uy uz weight : F) (tag : Int) (tracked_vector : Vec3 F) :
    Particle F where
  m := m
  Z := Z
  E := E
  Ec := Ec
  Es := Es
  Ed := 0.0
  pos := ⟨x, y, z⟩
  dir := ⟨ux, uy, uz⟩
  pos_origin := ⟨x, y, z⟩
  pos_old := ⟨x, y, z⟩
  dir_old := ⟨ux, uy, uz⟩
  energy_origin := E
  asymptotic_deflection := 0.0
  stopped := false
  left := false
  incident := true
  first_step := true
  trajectory := []
  energies := []
  track_trajectories := false
  number_collision_events := 0
  backreflected := false
  interaction_index := 0
  weight := weight
  tag := tag
  tracked_vector := tracked_vector

/-- lib.rs:1275-1287 (and 519-529, 637-647, 1353-1363): one row of the output array. -/
def output_row (particle : Particle F) : List F :=
  [particle.Z, particle.m/AMU F, particle.E/EV F,
   particle.pos.x/ANGSTROM F, particle.pos.y/ANGSTROM F, particle.pos.z/ANGSTROM F,
   particle.dir.x, particle.dir.y, particle.dir.z]

/-- lib.rs:309-323 one row of the output of `compound_tagged_bca_list_c`: as `output_row`, with
the tracked vector in place of the position. -/
def tagged_row (particle : Particle F) : List F :=
  [particle.Z, particle.m/AMU F, particle.E/EV F,
   particle.tracked_vector.x/ANGSTROM F, particle.tracked_vector.y/ANGSTROM F,
   particle.tracked_vector.z/ANGSTROM F,
   particle.dir.x, particle.dir.y, particle.dir.z]

/-- lib.rs:763-770 one row of the output of `compound_bca_list_fortran`. -/
def fortran_row (particle : Particle F) : List F :=
  [particle.Z, particle.m/AMU F, particle.E/EV F,
   particle.dir.x, particle.dir.y, particle.dir.z]

/-- lib.rs:890-911 (and 1109-1131) one row of the output of the Python list functions: as
`output_row`, with energy 0 for stopped particles. -/
def python_row (particle : Particle F) : List F :=
  let energy_out := if particle.stopped then 0.0 else particle.E/EV F
  [particle.Z, particle.m/AMU F, energy_out,
   particle.pos.x/ANGSTROM F, particle.pos.y/ANGSTROM F, particle.pos.z/ANGSTROM F,
   particle.dir.x, particle.dir.y, particle.dir.z]

/-- lib.rs:306 (and 516, 634, 760, 886, 1105, 1274, 1352): the particles that are reported. -/
def reported (particle : Particle F) : Bool := particle.left || particle.incident

/-- lib.rs:239-261 (and 373-395, 557-579, 697-719, 846-868): the material parameters of a compound
target given in eV, amu and Angstrom. -/
def compound_parameters (Z2 m2 Ec2 Es2 Eb2 : List F) (num_species_target : Nat)
    (interaction_index : List Nat) (surface_binding_model : SurfaceBindingModel) :
    MaterialParameters F where
  energy_unit := "EV"
  mass_unit := "AMU"
  Eb := Eb2
  Es := Es2
  Ec := Ec2
  Ed := List.replicate num_species_target 0.0
  Z := Z2
  m := m2
  interaction_index := interaction_index
  surface_binding_model := surface_binding_model
  bulk_binding_model := .INDIVIDUAL

/-- `Material::<Mesh0D>::new(&material_parameters, &geometry_input)`, keeping the mesh, whose
barrier thickness some callers read. -/
def mesh0d_material (ext : Ext F) (p : MaterialParameters F) (length_unit : String)
    (densities : List F) : Res (Material F × Mesh0D F) := do
  let mesh ← Mesh0D.new ext ⟨length_unit, densities, 1.0⟩
  let m ← Material.new ext p (.ok mesh.toGeom)
  pure (m, mesh)

/-- lib.rs:235 (and 369, 436, 553, 693, 842, 1201): `-2.*(n*10E30).powf(-1./3.)`, where the list
functions start their ions. -/
def list_start_x (n : F) : F := -2.0*powf (n*10e30) (-1.0/3.0)

/-! ## Output memory -/

/-- `std::alloc::Layout`. -/
structure Layout where
  size : Nat
  align : Nat
deriving DecidableEq, Repr

/-- lib.rs:202-213 `drop_output_bca`: the layouts passed to `dealloc`, in order
(8 = `align_of::<[f64; 9]>()` on x86-64). -/
def drop_output_bca (len : Nat) : List Layout :=
  if 0 < len then [⟨len, 8⟩] else []

/-- lib.rs:181-200 `drop_output_tagged_bca`: the layouts passed to `dealloc` for the particles,
weights, tags and incident arrays. -/
def drop_output_tagged_bca (len : Nat) : List Layout :=
  if 0 < len then [⟨len, 8⟩, ⟨len, 8⟩, ⟨len, 4⟩, ⟨len, 1⟩] else []

/-! ## C entry points -/

/-- lib.rs:141-161 `InputTaggedBCA`. -/
structure InputTaggedBCA (F : Type) where
  positions : List (Vec3 F)
  velocities : List (Vec3 F)
  Z1 : F
  m1 : F
  Ec1 : F
  Es1 : F
  Z2 : List F
  m2 : List F
  n2 : List F
  Ec2 : List F
  Es2 : List F
  Eb2 : List F
  tags : List Int
  weights : List F

/-- lib.rs:171-179 `OutputTaggedBCA`: the four arrays (their common length is `len`). -/
structure OutputTaggedBCA (F : Type) where
  len : Nat
  particles : List (List F)
  weights : List F
  tags : List Int
  incident : List Bool

/-- lib.rs:265-302 the ion of velocity number `index`. -/
def tagged_ion (input : InputTaggedBCA F) (x : F) (velocity : Vec3 F) (index : Nat) :
    Res (Particle F) := do
  let v := sqrt (velocity.x*velocity.x + velocity.y*velocity.y + velocity.z*velocity.z)
  let E1 := 0.5*input.m1*AMU F*v*v
  let weight ← vget input.weights index
  let tag ← vget input.tags index
  let position ← vget input.positions index
  pure (ion_literal (input.m1*AMU F) input.Z1 E1 (input.Ec1*EV F) (input.Es1*EV F) x 0.0 0.0
    (velocity.x/v) (velocity.y/v) (velocity.z/v) weight tag position)

/-- lib.rs:304-330 what the particle adds to the four arrays. -/
def push_tagged (out : OutputTaggedBCA F) (particle : Particle F) : OutputTaggedBCA F :=
  if reported particle then { out with
    particles := out.particles ++ [tagged_row particle]
    tags := out.tags ++ [particle.tag]
    weights := out.weights ++ [particle.weight]
    incident := out.incident ++ [particle.incident] }
  else out

/-- lib.rs:264-332 the body of the loop over the velocities. -/
def tagged_body (rcpr : Rcpr F) (fuel : Nat) (input : InputTaggedBCA F) (x : F) (m : Material F)
    (s : OutputTaggedBCA F) (vi : Vec3 F × Nat) : M F (OutputTaggedBCA F) := do
  let p ← liftM (tagged_ion input x vi.1 vi.2)
  let output ← single_ion_bca rcpr fuel p m (Options.default_options true)
  pure (output.foldl push_tagged s)

/-- lib.rs:215-350 `compound_tagged_bca_list_c`. -/
def compound_tagged_bca_list_c (rcpr : Rcpr F) (fuel : Nat) (ext : Ext F)
    (input : InputTaggedBCA F) : M F (OutputTaggedBCA F) := do
  let num_species_target := input.Z2.length
  let x := list_start_x (fsum input.n2)
  let (m, _) ← liftM (mesh0d_material ext
    (compound_parameters input.Z2 input.m2 input.Ec2 input.Es2 input.Eb2 num_species_target
      (List.replicate num_species_target 0) .AVERAGE) "ANGSTROM" input.n2)
  let out ← forFold (tagged_body rcpr fuel input x m) input.velocities.zipIdx ⟨0, [], [], [], []⟩
  pure { out with len := out.particles.length }

/-- lib.rs:352-431 `reflect_single_ion_c`: the new values of `(ux, uy, uz, E1)`. -/
def reflect_single_ion_c (rcpr : Rcpr F) (fuel : Nat) (ext : Ext F)
    (ux uy uz E1 Z1 m1 Ec1 Es1 : F) (Z2 m2 Ec2 Es2 Eb2 n2 : List F) :
    M F (F × F × F × F) := do
  let num_species_target := Z2.length
  liftM (rassert (E1 >. 0.0) "assertion failed: E1 > &mut 0.0")
  let x := list_start_x (fsum n2)
  let (m, _) ← liftM (mesh0d_material ext
    (compound_parameters Z2 m2 Ec2 Es2 Eb2 num_species_target
      (List.replicate num_species_target 0) .AVERAGE) "ANGSTROM" n2)
  let p := ion_literal (m1*AMU F) Z1 (E1*EV F) (Ec1*EV F) (Es1*EV F) x 0.0 0.0 ux uy uz 1.0 0
    ⟨0.0, 0.0, 0.0⟩
  let output ← single_ion_bca rcpr fuel p m (Options.default_options false)
  let o ← liftM (vget output 0)
  pure (o.dir.x, o.dir.y, o.dir.z, if o.pos.x >=. 0.0 then 0.0 else o.E/EV F)

/-- lib.rs:468-532 (and 586-650) the body of the loop over the velocities of the C list
functions. -/
def velocity_body (rcpr : Rcpr F) (fuel : Nat) (Z1 m1 Ec1 Es1 x : F) (m : Material F)
    (total_output : List (List F)) (velocity : Vec3 F) : M F (List (List F)) := do
  let v := sqrt (velocity.x*velocity.x + velocity.y*velocity.y + velocity.z*velocity.z)
  let E1 := 0.5*m1*AMU F*v*v
  let p := ion_literal (m1*AMU F) Z1 E1 (Ec1*EV F) (Es1*EV F) x 0.0 0.0
    (velocity.x/v) (velocity.y/v) (velocity.z/v) 1.0 0 ⟨0.0, 0.0, 0.0⟩
  let output ← single_ion_bca rcpr fuel p m (Options.default_options true)
  pure (total_output ++ (output.filter reported).map output_row)

/-- lib.rs:433-542 `simple_bca_list_c`: the rows it returns.  (`Ed` is as long as the list of
velocities, lib.rs:450; the model keeps that.) -/
def simple_bca_list_c (rcpr : Rcpr F) (fuel : Nat) (ext : Ext F) (velocities : List (Vec3 F))
    (Z1 m1 Ec1 Es1 Z2 m2 n2 Ec2 Es2 Eb2 : F) : M F (List (List F)) := do
  let x := list_start_x n2
  let (m, _) ← liftM (mesh0d_material ext
    (compound_parameters [Z2] [m2] [Ec2] [Es2] [Eb2] velocities.length [0] .AVERAGE)
    "ANGSTROM" [n2])
  forFold (velocity_body rcpr fuel Z1 m1 Ec1 Es1 x m) velocities []

/-- lib.rs:544-660 `compound_bca_list_c`: the rows it returns. -/
def compound_bca_list_c (rcpr : Rcpr F) (fuel : Nat) (ext : Ext F) (velocities : List (Vec3 F))
    (Z1 m1 Ec1 Es1 : F) (Z2 m2 n2 Ec2 Es2 Eb2 : List F) : M F (List (List F)) := do
  let x := list_start_x (fsum n2)
  let (m, _) ← liftM (mesh0d_material ext
    (compound_parameters Z2 m2 Ec2 Es2 Eb2 Z2.length (List.replicate Z2.length 0) .AVERAGE)
    "ANGSTROM" n2)
  forFold (velocity_body rcpr fuel Z1 m1 Ec1 Es1 x m) velocities []

/-- One ion of the list functions that take every ion parameter as a list: the tuple
`(E, ux, uy, uz, Z1, Ec1, Es1, m1)` of lib.rs:723 and 871. -/
structure IonArgs (F : Type) where
  E : F
  ux : F
  uy : F
  uz : F
  Z : F
  Ec : F
  Es : F
  m : F

/-- lib.rs:723 `E1.iter().zip(ux)…zip(m1)` and 871 `izip!(…)`: as long as the shortest list. -/
def zip_ions (E ux uy uz Z Ec Es m : List F) : List (IonArgs F) :=
  (E.zip (ux.zip (uy.zip (uz.zip (Z.zip (Ec.zip (Es.zip m))))))).map
    fun (e, x, y, z, zz, c, s, mm) => ⟨e, x, y, z, zz, c, s, mm⟩

/-- lib.rs:723-773 the body of the loop of `compound_bca_list_fortran`. -/
def fortran_body (rcpr : Rcpr F) (fuel : Nat) (x : F) (m : Material F) (options : Options F)
    (total_output : List (List F)) (a : IonArgs F) : M F (List (List F)) := do
  let p := ion_literal (a.m*AMU F) a.Z (a.E*EV F) (a.Ec*EV F) (a.Es*EV F) x 0.0 0.0
    a.ux a.uy a.uz 1.0 0 ⟨0.0, 0.0, 0.0⟩
  let output ← single_ion_bca rcpr fuel p m options
  pure (total_output ++ (output.filter reported).map fortran_row)

/-- lib.rs:662-780 `compound_bca_list_fortran`: the rows, whose number is stored in
`num_emitted_particles`. -/
def compound_bca_list_fortran (rcpr : Rcpr F) (fuel : Nat) (ext : Ext F) (track_recoils : Bool)
    (ux uy uz E1 Z1 m1 Ec1 Es1 : List F) (Z2 m2 Ec2 Es2 Eb2 n2 : List F) :
    M F (List (List F)) := do
  let x := list_start_x (fsum n2)
  let (m, _) ← liftM (mesh0d_material ext
    (compound_parameters Z2 m2 Ec2 Es2 Eb2 Z2.length (List.replicate Z2.length 0) .INDIVIDUAL)
    "ANGSTROM" n2)
  forFold (fortran_body rcpr fuel x m (Options.default_options track_recoils))
    (zip_ions E1 ux uy uz Z1 Ec1 Es1 m1) []

/-! ## Rust and Python entry points for one ion or a list -/

/-- lib.rs:1215-1289 `simple_bca`. -/
def simple_bca (rcpr : Rcpr F) (fuel : Nat) (ext : Ext F)
    (x y z ux uy uz E1 Z1 m1 Ec1 Es1 Z2 m2 Ec2 Es2 n2 Eb2 : F) : M F (List (List F)) := do
  liftM (rassert (E1 >. 0.0) "Error: Incident energy cannot be less than or equal to 0.")
  liftM (rassert (Ec1 >. 0.0) "Error: Cutoff energy Ec1 cannot be less than or equal to 0.")
  liftM (rassert (Ec2 >. 0.0) "Error: Cutoff energy Ec2 cannot be less than or equal to 0.")
  let p := ion_literal (m1*AMU F) Z1 (E1*EV F) (Ec1*EV F) (Es1*EV F) x y z ux uy uz 1.0 0
    ⟨0.0, 0.0, 0.0⟩
  let (m, _) ← liftM (mesh0d_material ext
    (compound_parameters [Z2] [m2] [Ec2] [Es2] [Eb2] 1 [0] .AVERAGE) "ANGSTROM" [n2])
  let output ← single_ion_bca rcpr fuel p m (Options.default_options true)
  pure ((output.filter fun p => p.incident || p.left).map output_row)

/-- lib.rs:1291-1365 `simple_compound_bca`. -/
def simple_compound_bca (rcpr : Rcpr F) (fuel : Nat) (ext : Ext F)
    (x y z ux uy uz E1 Z1 m1 Ec1 Es1 : F) (Z2 m2 Ec2 Es2 n2 Eb2 : List F) :
    M F (List (List F)) := do
  liftM (rassert (E1 >. 0.0) "Error: Incident energy cannot be less than or equal to 0.")
  liftM (rassert (Ec1 >. 0.0) "Error: Cutoff energy Ec1 cannot be less than or equal to 0.")
  let p := ion_literal (m1*AMU F) Z1 (E1*EV F) (Ec1*EV F) (Es1*EV F) x y z ux uy uz 1.0 0
    ⟨0.0, 0.0, 0.0⟩
  let (m, _) ← liftM (mesh0d_material ext
    (compound_parameters Z2 m2 Ec2 Es2 Eb2 Z2.length [0] .AVERAGE) "ANGSTROM" n2)
  let output ← single_ion_bca rcpr fuel p m (Options.default_options true)
  pure ((output.filter fun p => p.incident || p.left).map output_row)

/-- lib.rs:1205-1211 the body of the loop of `simple_bca_list_py`. -/
def simple_list_body (rcpr : Rcpr F) (fuel : Nat) (ext : Ext F)
    (x Z1 m1 Ec1 Es1 Z2 m2 Ec2 Es2 n2 Eb2 : F) (total_output : List (List F))
    (a : F × F × F × F) : M F (List (List F)) := do
  let output ← simple_bca rcpr fuel ext x 0.0 0.0 a.2.1 a.2.2.1 a.2.2.2 a.1 Z1 m1 Ec1 Es1
    Z2 m2 Ec2 Es2 n2 Eb2
  pure (total_output ++ output)

/-- lib.rs:1194-1213 `simple_bca_list_py`. -/
def simple_bca_list_py (rcpr : Rcpr F) (fuel : Nat) (ext : Ext F)
    (energies usx usy usz : List F) (Z1 m1 Ec1 Es1 Z2 m2 Ec2 Es2 n2 Eb2 : F) :
    M F (List (List F)) := do
  liftM (rassert (energies.length == usx.length) "assertion `left == right` failed")
  liftM (rassert (energies.length == usy.length) "assertion `left == right` failed")
  liftM (rassert (energies.length == usz.length) "assertion `left == right` failed")
  let x := list_start_x n2
  forFold (simple_list_body rcpr fuel ext x Z1 m1 Ec1 Es1 Z2 m2 Ec2 Es2 n2 Eb2)
    (energies.zip (usx.zip (usy.zip usz))) []

/-- What the Python list functions accumulate: the rows and the flags beside them. -/
structure PyOutput (F : Type) where
  total_output : List (List F)
  incident : List Bool
  stopped : List Bool

/-- lib.rs:885-912 (and 1104-1132) what the particle adds to the output. -/
def push_py (s : PyOutput F) (particle : Particle F) : PyOutput F :=
  if reported particle then
    { total_output := s.total_output ++ [python_row particle]
      incident := s.incident ++ [particle.incident]
      stopped := s.stopped ++ [particle.stopped] }
  else s

/-- lib.rs:871-913 (and 1087-1133) the body of the loop over the ions. -/
def py_body (rcpr : Rcpr F) (fuel : Nat) (x : F) (m : Material F)
    (s : PyOutput F) (a : IonArgs F) : M F (PyOutput F) := do
  let p ← liftM (Particle.default_incident a.m a.Z a.E a.Ec a.Es x a.ux a.uy a.uz)
  let output ← single_ion_bca rcpr fuel p m (Options.default_options true)
  pure (output.foldl push_py s)

/-- lib.rs:826-838 (and 1041-1055) the length checks common to the Python list functions. -/
def check_lengths (energies ux uy uz Z1 m1 Ec1 Es1 Z2 m2 Ec2 Es2 Eb2 : List F) : Res Unit := do
  let n := energies.length
  let k := Z2.length
  rassert (ux.length == n) "Input error: list of x-directions is not the same length as list of incident energies."
  rassert (uy.length == n) "Input error: list of y-directions is not the same length as list of incident energies."
  rassert (uz.length == n) "Input error: list of z-directions is not the same length as list of incident energies."
  rassert (Z1.length == n) "Input error: list of incident atomic numbers is not the same length as list of incident energies."
  rassert (m1.length == n) "Input error: list of incident atomic masses is not the same length as list of incident energies."
  rassert (Es1.length == n) "Input error: list of incident surface binding energies is not the same length as list of incident energies."
  rassert (Ec1.length == n) "Input error: list of incident cutoff energies is not the same length as list of incident energies."
  rassert (m2.length == k) "Input error: list of target atomic masses is not the same length as atomic numbers."
  rassert (Ec2.length == k) "Input error: list of target cutoff energies is not the same length as atomic numbers."
  rassert (Es2.length == k) "Input error: list of target surface binding energies is not the same length as atomic numbers."
  rassert (Eb2.length == k) "Input error: list of target bulk binding energies is not the same length as atomic numbers."

/-- lib.rs:819-915 `compound_bca_list_py`: rows and incident flags (the model's `stopped` list is
dropped by the caller). -/
def compound_bca_list_py (rcpr : Rcpr F) (fuel : Nat) (ext : Ext F)
    (energies ux uy uz Z1 m1 Ec1 Es1 Z2 m2 Ec2 Es2 n2 Eb2 : List F) :
    M F (List (List F) × List Bool) := do
  liftM (check_lengths energies ux uy uz Z1 m1 Ec1 Es1 Z2 m2 Ec2 Es2 Eb2)
  liftM (rassert (n2.length == Z2.length)
    "Input error: list of target number densities is not the same length as atomic numbers.")
  let x := list_start_x (fsum n2)
  let (m, _) ← liftM (mesh0d_material ext
    (compound_parameters Z2 m2 Ec2 Es2 Eb2 Z2.length (List.replicate Z2.length 0) .INDIVIDUAL)
    "ANGSTROM" n2)
  let out ← forFold (py_body rcpr fuel x m) (zip_ions energies ux uy uz Z1 Ec1 Es1 m1) ⟨[], [], []⟩
  pure (out.total_output, out.incident)

/-- lib.rs:1032-1136 `compound_bca_list_1D_py`. -/
def compound_bca_list_1D_py (rcpr : Rcpr F) (fuel : Nat) (ext : Ext F)
    (ux uy uz energies Z1 m1 Ec1 Es1 Z2 m2 Ec2 Es2 Eb2 : List F) (n2 : List (List F))
    (dx : List F) : M F (List (List F) × List Bool × List Bool) := do
  liftM (check_lengths energies ux uy uz Z1 m1 Ec1 Es1 Z2 m2 Ec2 Es2 Eb2)
  let first ← liftM (vget n2 0)
  liftM (rassert (first.length == Z2.length)
    "Input error: first layer list of target number densities is not the same length as atomic numbers.")
  liftM (rassert (dx.length == n2.length)
    "Input error: number of layer thicknesses not the same as number of layers in atomic densities list.")
  let mesh ← liftM (Mesh1D.new ext {
    length_unit := "ANGSTROM"
    densities := n2
    layer_thicknesses := dx
    electronic_stopping_correction_factors := List.replicate n2.length 1.0 })
  let m ← liftM (Material.new ext
    (compound_parameters Z2 m2 Ec2 Es2 Eb2 Z2.length (List.replicate Z2.length 0) .INDIVIDUAL)
    (.ok mesh.toGeom))
  let x := -mesh.top_energy_barrier_thickness/2.0
  let out ← forFold (py_body rcpr fuel x m) (zip_ions energies ux uy uz Z1 Ec1 Es1 m1) ⟨[], [], []⟩
  pure (out.total_output, out.incident, out.stopped)

/-! ## Python dictionaries -/

/-- A value in a Python dictionary: a float, or something `downcast::<PyFloat>` refuses
(an `int`, for instance). -/
inductive PyVal (F : Type) where
  | float (x : F)
  | other

/-- A Python dictionary with string keys. -/
abbrev PyDict (F : Type) := String → Option (PyVal F)

/-- lib.rs:1490-1492 `unpack(d.get_item(key).expect(…))`. -/
def unpack (d : PyDict F) (key : String) : Res F :=
  match d key with
  | none => rpanic ("Cannot get " ++ key ++ " from dictionary.")
  | some .other => rpanic "Error unpacking Python float to f64. Check values."
  | some (.float x) => .ok x

/-- lib.rs:1512-1515: the entries of the ion's dictionary. -/
structure IonDict (F : Type) where
  Z : F
  m : F
  Ec : F
  Es : F

/-- lib.rs:1512-1515 (and 929-932, 1605-1608, 1707-1710). -/
def unpack_ion (ion : PyDict F) : Res (IonDict F) := do
  let Z ← unpack ion "Z"
  let m ← unpack ion "m"
  let Ec ← unpack ion "Ec"
  let Es ← unpack ion "Es"
  pure ⟨Z, m, Ec, Es⟩

/-- lib.rs:1517-1522: the entries of a target's dictionary. -/
structure TargetDict (F : Type) where
  Z : F
  m : F
  Ec : F
  Es : F
  Eb : F
  n : F

/-- lib.rs:1517-1522 (and 934-939, 1610-1615). -/
def unpack_target (target : PyDict F) : Res (TargetDict F) := do
  let Z ← unpack target "Z"
  let m ← unpack target "m"
  let Ec ← unpack target "Ec"
  let Es ← unpack target "Es"
  let Eb ← unpack target "Eb"
  let n ← unpack target "n"
  pure ⟨Z, m, Ec, Es, Eb, n⟩

/-- lib.rs:926-1005 `reflect_single_ion_py`. -/
def reflect_single_ion_py (rcpr : Rcpr F) (fuel : Nat) (ext : Ext F) (ion target : PyDict F)
    (vx vy vz : F) : M F (F × F × F) := do
  let i ← liftM (unpack_ion ion)
  let t ← liftM (unpack_target target)
  liftM (rassert (vx >. 0.0)
    "Input error: vx must be greater than zero for incident particles to hit surface at x=0.")
  let velocity2 := powf vx 2.0 + powf vy 2.0 + powf vz 2.0
  let energy_eV := 0.5*i.m*AMU F*velocity2/EV F
  let ux := vx/sqrt velocity2
  let uy := vy/sqrt velocity2
  let uz := vz/sqrt velocity2
  let (m, mesh) ← liftM (mesh0d_material ext
    (compound_parameters [t.Z] [t.m] [t.Ec] [t.Es] [t.Eb] 1 [0] .AVERAGE) "M" [t.n])
  let x := -mesh.energy_barrier_thickness
  let p ← liftM (Particle.default_incident i.m i.Z energy_eV i.Ec i.Es x ux uy uz)
  let output ← single_ion_bca rcpr fuel p m (Options.default_options false)
  let o ← liftM (vget output 0)
  let reflected_velocity := sqrt (2.0*o.E/(i.m*AMU F))
  if (o.E >. 0.0) && (o.dir.x <. 0.0) && o.left && o.incident then
    pure (o.dir.x*reflected_velocity, o.dir.y*reflected_velocity, o.dir.z*reflected_velocity)
  else pure (0.0, 0.0, 0.0)

/-! ## Rotation between frames -/

/-- A 3×3 matrix by rows (`nalgebra::Matrix3`). -/
structure Mat3 (F : Type) where
  r1 : Vec3 F
  r2 : Vec3 F
  r3 : Vec3 F

/-- `Matrix3 * Vector3`. -/
def Mat3.mulVec (a : Mat3 F) (v : Vec3 F) : Vec3 F := ⟨a.r1.dot v, a.r2.dot v, a.r3.dot v⟩

/-- `Matrix3::transpose`. -/
def Mat3.transpose (a : Mat3 F) : Mat3 F :=
  ⟨⟨a.r1.x, a.r2.x, a.r3.x⟩, ⟨a.r1.y, a.r2.y, a.r3.y⟩, ⟨a.r1.z, a.r2.z, a.r3.z⟩⟩

/-- `Matrix3 * Matrix3`. -/
def Mat3.mul (a b : Mat3 F) : Mat3 F :=
  ⟨b.transpose.mulVec a.r1, b.transpose.mulVec a.r2, b.transpose.mulVec a.r3⟩

/-- `Matrix3 + Matrix3`. -/
def Mat3.add (a b : Mat3 F) : Mat3 F := ⟨a.r1.add b.r1, a.r2.add b.r2, a.r3.add b.r3⟩

/-- `Matrix3 / f64`. -/
def Mat3.div (a : Mat3 F) (c : F) : Mat3 F :=
  ⟨⟨a.r1.x/c, a.r1.y/c, a.r1.z/c⟩, ⟨a.r2.x/c, a.r2.y/c, a.r2.z/c⟩, ⟨a.r3.x/c, a.r3.y/c, a.r3.z/c⟩⟩

/-- `Matrix3::identity()`. -/
def Mat3.identity : Mat3 F := ⟨⟨1.0, 0.0, 0.0⟩, ⟨0.0, 1.0, 0.0⟩, ⟨0.0, 0.0, 1.0⟩⟩

/-- `Vector3::cross`. -/
def Vec3.cross (a b : Vec3 F) : Vec3 F :=
  ⟨a.y*b.z - a.z*b.y, a.z*b.x - a.x*b.z, a.x*b.y - a.y*b.x⟩

/-- `Rotation3::from_axis_angle(&Vector3::y_axis(), angle)` of nalgebra, with the components
0, 1, 0 of the axis put in. -/
def Mat3.rotation_y (angle : F) : Mat3 F :=
  ⟨⟨cos angle, 0.0, sin angle⟩, ⟨0.0, 1.0, 0.0⟩, ⟨-sin angle, 0.0, cos angle⟩⟩

/-- lib.rs:1373-1394 (and 1438-1456): the rotation matrix for the surface normal `n`. -/
def surface_rotation (nx ny nz : F) : Mat3 F :=
  let into_surface : Vec3 F := ⟨-nx, -ny, -nz⟩
  let direction : Vec3 F := ⟨1.0, 0.0, 0.0⟩
  let v := into_surface.cross direction
  let c := into_surface.dot direction
  let vx : Mat3 F := ⟨⟨0.0, -v.z, v.y⟩, ⟨v.z, 0.0, -v.x⟩, ⟨-v.y, v.x, 0.0⟩⟩
  if !(c ==. -1.0) then (Mat3.identity.add vx).add ((vx.mul vx).div (1.0 + c))
  else Mat3.rotation_y pi

/-- lib.rs:1368-1411 `rotate_given_surface_normal`: the new `(ux, uy, uz)`. -/
def rotate_given_surface_normal (nx ny nz ux uy uz : F) : Res (Vec3 F) := do
  let DELTA : F := 1e-9
  let incident := (surface_rotation nx ny nz).mulVec ⟨ux, uy, uz⟩
  let ux := incident.x + DELTA
  rassert (ux >. 0.0) "Error: RustBCA initial direction out of surface. Please check surface normals and incident direction."
  let uy := incident.y - DELTA
  let uz := incident.z
  let mag := sqrt (powf ux 2.0 + powf uy 2.0 + powf uz 2.0)
  pure ⟨ux/mag, uy/mag, uz/mag⟩

/-- lib.rs:1435-1466 `rotate_back`: the new `(ux, uy, uz)`. -/
def rotate_back (nx ny nz ux uy uz : F) : Vec3 F :=
  (surface_rotation nx ny nz).transpose.mulVec ⟨ux, uy, uz⟩

end RustBCA
