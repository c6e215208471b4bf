import Verif.Model.Physics

/-!
# Reading the input (input.rs)

Modelled from the parsed record on.
The build is the default one (without feature `hdf5_input`); the other one is in `Model/Hdf5.lean`
(with `make_particle_input_hdf5` below).  The document is read in `Model/Toml.lean`.
-/

namespace RustBCA
open Scalar

/-- enums.rs:3-13 `Distributions`: the distribution an input value is drawn from. -/
inductive Distr (F : Type) where
  | UNIFORM (min max : F)
  | NORMAL (mean std : F)
  | POINT (x : F)

/-- The samplers of the crate `rand_distr`: `Normal::new(mean, std).unwrap()` and
`Uniform::from(min..max)` followed by `sample`. -/
structure Sampler (F : Type) where
  normal : F → F → M F F
  uniform : F → F → M F F

/-- particle.rs:29-45 `ParticleParameters` (without feature `hdf5_input`). -/
structure ParticleParameters (F : Type) where
  length_unit : String
  energy_unit : String
  mass_unit : String
  N : List Nat
  m : List F
  Z : List F
  E : List (Distr F)
  Ec : List F
  Es : List F
  pos : List (Distr F × Distr F × Distr F)
  dir : List (Distr F × Distr F × Distr F)
  interaction_index : List Nat

variable {F : Type} [Scalar F]

/-- input.rs:566-568 (and the same `match` for x, y, z, uy, uz): draw a value and scale it. -/
def draw (sampler : Sampler F) (unit : F) : Distr F → M F F
  | .NORMAL mean std => do
    let v ← sampler.normal mean std
    pure (v*unit)
  | .UNIFORM min max => do
    let v ← sampler.uniform min max
    pure (v*unit)
  | .POINT x => pure (x*unit)

/-- input.rs:657-661 the same for `ux`, where a point value must not equal 1. -/
def draw_ux (sampler : Sampler F) (unit : F) : Distr F → M F F
  | .POINT x => do
    liftM (rassert (!(x ==. 1.0)) "ux cannot equal exactly 1.0 to prevent gimbal lock")
    pure (x*unit)
  | d => draw sampler unit d

/-- input.rs:634-675 one particle input of species `i`. -/
def make_particle_input (sampler : Sampler F) (length_unit energy_unit mass_unit m Z Ec Es : F)
    (E : Distr F) (pos dir : Distr F × Distr F × Distr F) (interaction_index : Nat) :
    M F (ParticleInput F) := do
  let E ← draw sampler energy_unit E
  let x ← draw sampler length_unit pos.1
  let y ← draw sampler length_unit pos.2.1
  let z ← draw sampler length_unit pos.2.2
  let ux ← draw_ux sampler length_unit dir.1
  let uy ← draw sampler length_unit dir.2.1
  let uz ← draw sampler length_unit dir.2.2
  pure { m := m*mass_unit, Z := Z, E := E, Ec := Ec*energy_unit, Es := Es*energy_unit,
         x := x, y := y, z := z, ux := ux, uy := uy, uz := uz,
         interaction_index := interaction_index, weight := 1.0, tag := 0 }

/-- input.rs:586-600 (build with feature `hdf5_input`, `use_hdf5 = false`): a direction component.  A
point value is used as it is, a drawn one is multiplied by the length unit. -/
def draw_dir_hdf5 (sampler : Sampler F) (unit : F) : Distr F → M F F
  | .POINT x => pure x
  | d => draw sampler unit d

/-- input.rs:586-590 the same for `ux`, where a point value must not equal 1. -/
def draw_ux_hdf5 (sampler : Sampler F) (unit : F) : Distr F → M F F
  | .POINT x => do
    liftM (rassert (!(x ==. 1.0)) "ux cannot equal exactly 1.0 to prevent gimbal lock")
    pure x
  | d => draw sampler unit d

/-- input.rs:559-606 one particle input of species `i` in the build with feature `hdf5_input` (with
`use_hdf5 = false`; the loops around it, input.rs:545-608, are those of `make_particle_inputs`). -/
def make_particle_input_hdf5 (sampler : Sampler F) (length_unit energy_unit mass_unit m Z Ec Es : F)
    (E : Distr F) (pos dir : Distr F × Distr F × Distr F) (interaction_index : Nat) :
    M F (ParticleInput F) := do
  let E ← draw sampler energy_unit E
  let x ← draw sampler length_unit pos.1
  let y ← draw sampler length_unit pos.2.1
  let z ← draw sampler length_unit pos.2.2
  let ux ← draw_ux_hdf5 sampler length_unit dir.1
  let uy ← draw_dir_hdf5 sampler length_unit dir.2.1
  let uz ← draw_dir_hdf5 sampler length_unit dir.2.2
  pure { m := m*mass_unit, Z := Z, E := E, Ec := Ec*energy_unit, Es := Es*energy_unit,
         x := x, y := y, z := z, ux := ux, uy := uy, uz := uz,
         interaction_index := interaction_index, weight := 1.0, tag := 0 }

/-- input.rs:619-678 the loops over species and particles. -/
def make_particle_inputs (sampler : Sampler F) (length_unit energy_unit mass_unit : F)
    (p : ParticleParameters F) : M F (List (ParticleInput F)) :=
  forFold (fun acc i => do
    let N_ ← liftM (vget p.N i)
    let m ← liftM (vget p.m i)
    let Z ← liftM (vget p.Z i)
    let E ← liftM (vget p.E i)
    let Ec ← liftM (vget p.Ec i)
    let Es ← liftM (vget p.Es i)
    let interaction_index ← liftM (vget p.interaction_index i)
    let pos ← liftM (vget p.pos i)
    let dir ← liftM (vget p.dir i)
    let l ← collectN (fun _ => make_particle_input sampler length_unit energy_unit mass_unit
      m Z Ec Es E pos dir interaction_index) N_
    pure (acc ++ l)) (List.range p.Z.length) []

/-- input.rs:446-452 root finders that exist only with feature `cpr_rootfinder`. -/
def rootfinder_enabled (cpr : Bool) (rf : Rootfinder F) : Bool :=
  cpr || match rf with
    | .POLYNOMIAL _ => false
    | .CPR .. => false
    | _ => true

/-- input.rs:454-469 which root finder may be used with which potential. -/
def compatible (V : InteractionPotential F) (rf : Rootfinder F) : Bool :=
  match V, rf with
  | .FOUR_EIGHT .., .POLYNOMIAL _ => true
  | .LENNARD_JONES_12_6 .., .CPR .. => true
  | .LENNARD_JONES_12_6 .., .POLYNOMIAL _ => true
  | .LENNARD_JONES_12_6 .., _ => false
  | .LENNARD_JONES_65_6 .., .CPR .. => true
  | .LENNARD_JONES_65_6 .., .POLYNOMIAL _ => true
  | .LENNARD_JONES_65_6 .., _ => false
  | .MORSE .., .CPR .. => true
  | .MORSE .., _ => false
  | _, .POLYNOMIAL _ => false
  | _, _ => true

/-- `iter().max().unwrap()`: panics on an empty list. -/
def max_unwrap : List Nat → Res Nat
  | [] => rpanic "called `Option::unwrap()` on a `None` value"
  | x :: xs => pure (xs.foldl max x)

/-- input.rs:427-437 the shape checks on the three option matrices. -/
def check_matrices (options : Options F) : Res Unit :=
  forFold (fun _ i => do
    let row ← vget options.interaction_potential i
    rassert (options.interaction_potential.length == row.length)
      "Input error: interaction matrix not square."
    let row ← vget options.scattering_integral i
    rassert (options.scattering_integral.length == row.length)
      "Input error: scattering intergral matrix not square."
    let row ← vget options.root_finder i
    rassert (options.root_finder.length == row.length)
      "Input error: rootfinder matrix not square.")
    (List.range options.interaction_potential.length) ()

/-- input.rs:439-472 the compatibility checks on all entries of the zipped matrices. -/
def check_compatibility (cpr : Bool) (options : Options F) : Res Unit :=
  forFold (fun _ (rows : (List (InteractionPotential F) × List ScatteringIntegral) ×
      List (Rootfinder F)) =>
    forFold (fun _ (entry : (InteractionPotential F × ScatteringIntegral) × Rootfinder F) => do
      rassert (rootfinder_enabled cpr entry.2)
        "Input error: CPR rootfinder not enabled. Build with --features cpr_rootfinder"
      rassert (compatible entry.1.1 entry.2) "Input error: cannot use potential with rootfinder.")
      ((rows.1.1.zip rows.1.2).zip rows.2) ())
    ((options.interaction_potential.zip options.scattering_integral).zip options.root_finder) ()

/-- input.rs:415-425 the checks on incompatible options. -/
def check_options (options : Options F) : Res Unit := do
  if options.high_energy_free_flight_paths then do
    rassert (options.electronic_stopping_mode == .INTERPOLATED)
      "Input error: High energy free flight paths used with low energy stoppping power. Change to INTERPOLATED."
    rassert (options.weak_collision_order == 0)
      "Input error: Cannot use weak collisions with free flight paths. Set weak_collision_order = 0."
  if options.mean_free_path_model.isGaseous then
    rassert (options.weak_collision_order == 0)
      "Input error: Cannot use weak collisions with gaseous mean free path model. Set weak_collision_order = 0."

/-- input.rs:402-413 the checks on the material and its default interaction indices and
displacement energies. -/
def complete_material (material : Material F) : Res (Material F) := do
  rassert (material.m.length == material.Z.length)
    "Input error: material input arrays of unequal length."
  rassert (material.m.length == material.Eb.length)
    "Input error: material input arrays of unequal length."
  rassert (material.m.length == material.Es.length)
    "Input error: material input arrays of unequal length."
  let material := if material.interaction_index.length ≤ 1 then
    { material with interaction_index := List.replicate material.m.length 0 } else material
  if material.Ed.length ≤ 1 then do
    let ed ← vget material.Ed 0
    pure { material with Ed := List.replicate material.m.length ed }
  else pure material

/-- input.rs:474-486 the checks on the particle parameters and their default interaction
indices. -/
def complete_particles (p : ParticleParameters F) : Res (ParticleParameters F) := do
  rassert (p.Z.length == p.m.length) "Input error: particle input arrays of unequal length."
  rassert (p.Z.length == p.E.length) "Input error: particle input arrays of unequal length."
  rassert (p.Z.length == p.pos.length) "Input error: particle input arrays of unequal length."
  rassert (p.Z.length == p.dir.length) "Input error: particle input arrays of unequal length."
  pure (if p.interaction_index.length ≤ 1 then
    { p with interaction_index := List.replicate p.Z.length 0 } else p)

/-- What `input` returns. -/
structure Accepted (F : Type) where
  particle_input_array : List (ParticleInput F)
  material : Material F
  options : Options F
  output_units : OutputUnits F

/-- input.rs:377-685 `input`, from the parsed record on; `material` is
`Material::new(&material_parameters, geometry_input)` (input.rs:396) and `cpr` tells whether the
feature `cpr_rootfinder` is on. -/
def input (ext : Ext F) (sampler : Sampler F) (cpr : Bool) (options : Options F)
    (material : Res (Material F)) (p : ParticleParameters F) : M F (Accepted F) := do
  let material ← liftM material
  liftM (rassert (decide (0 < options.num_threads))
    "Input error: num_threads must be greater than zero.")
  liftM (rassert (decide (0 < options.num_chunks))
    "Input error: num_chunks must be greater than zero.")
  let material ← liftM (complete_material material)
  liftM (check_options options)
  liftM (check_matrices options)
  liftM (check_compatibility cpr options)
  let p ← liftM (complete_particles p)
  let mi ← liftM (max_unwrap material.interaction_index)
  liftM (rassert (decide (mi < options.interaction_potential.length))
    "Input error: interaction matrix too small for material interaction indices.")
  let pi ← liftM (max_unwrap p.interaction_index)
  liftM (rassert (decide (pi < options.interaction_potential.length))
    "Input error: interaction matrix too small for particle interaction indices.")
  let length_unit ← liftM (length_unit_of ext p.length_unit)
  let energy_unit ← liftM (energy_unit_of ext p.energy_unit)
  let mass_unit ← liftM (mass_unit_of ext p.mass_unit)
  if options.use_hdf5 then
    liftM (rpanic (α := Accepted F)
      "HDF5 particle input not enabled. Enable with: cargo build --features hdf5_input")
  else do
    let particle_input_array ← make_particle_inputs sampler length_unit energy_unit mass_unit p
    pure ⟨particle_input_array, material, options, ⟨length_unit, energy_unit, mass_unit⟩⟩

end RustBCA
