import Verif.Model.Main
import Verif.Model.Output

/-!
# Reading the input file (`InputFile::new`, `#[derive(Deserialize)]`)

The text of a file is turned into a TOML document by the crate `toml`; the document is what this
module starts from.  From there on the derived `Deserialize` implementations are modelled as
functions into `Option` (`none`: the error that `InputFile::new` unwraps).

Left out: an array in the place of a table with the fields in order (serde reads it too), and the
differences between error messages.  `TomlCrate` has the points on which the crate decides and the
code does not.
-/

namespace RustBCA
open Scalar

/-- A TOML value (toml 0.7); of an integer the crate gives an `i64`. -/
inductive Toml (F : Type) where
  | str (s : String)
  | int (n : Int)
  | float (x : F)
  | bool (b : Bool)
  | datetime (s : String)
  | arr (l : List (Toml F))
  | table (l : List (String × Toml F))

/-- What the crate `toml` accepts beyond the plain format: for a variant without fields also
`{NAME = {}}`; further keys beside those of a variant with fields; more elements than a tuple has. -/
structure TomlCrate where
  unit_from_table : Bool
  extra_variant_keys : Bool
  longer_tuples : Bool

/-- Which of the features that change the input format are on. -/
structure InputFeatures where
  distributions : Bool
  hdf5_input : Bool

variable {F : Type} [Scalar F]

/-- `as f64` from an `i64` (serde's `f64` accepts an integer). -/
def i64_as_f64 (n : Int) : F := if 0 ≤ n then ofNat n.toNat else -ofNat (-n).toNat

/-- `f64::deserialize`. -/
def read_f64 : Toml F → Option F
  | .float x => some x
  | .int n => some (i64_as_f64 n)
  | _ => none

/-- `usize::deserialize` and `u64::deserialize`. -/
def read_usize : Toml F → Option Nat
  | .int n => if 0 ≤ n then some n.toNat else none
  | _ => none

/-- `u32::deserialize`. -/
def read_u32 : Toml F → Option Nat
  | .int n => if 0 ≤ n ∧ n < 4294967296 then some n.toNat else none
  | _ => none

/-- `bool::deserialize`. -/
def read_bool : Toml F → Option Bool
  | .bool b => some b
  | _ => none

/-- `String::deserialize`. -/
def read_string : Toml F → Option String
  | .str s => some s
  | _ => none

/-- `Vec::<T>::deserialize`. -/
def read_vec {α : Type} (r : Toml F → Option α) : Toml F → Option (List α)
  | .arr l => l.mapM r
  | _ => none

/-- `<(T, T)>::deserialize`. -/
def read_pair {α : Type} (crate : TomlCrate) (r : Toml F → Option α) : Toml F → Option (α × α)
  | .arr (a :: b :: rest) => do
    let a ← r a
    let b ← r b
    if rest.isEmpty || crate.longer_tuples then pure (a, b) else none
  | _ => none

/-- `<(T, T, T)>::deserialize` and `<[T; 3]>::deserialize`. -/
def read_triple {α : Type} (crate : TomlCrate) (r : Toml F → Option α) :
    Toml F → Option (α × α × α)
  | .arr (a :: b :: c :: rest) => do
    let a ← r a
    let b ← r b
    let c ← r c
    if rest.isEmpty || crate.longer_tuples then pure (a, b, c) else none
  | _ => none

/-- A field of a `#[derive(Deserialize)]` structure: the key must be there. -/
def required {α : Type} (t : List (String × Toml F)) (k : String) (r : Toml F → Option α) : Option α :=
  match t.lookup k with
  | some v => r v
  | none => none

/-- A field with `#[serde(default = "…")]`: without the key the value is `d`. -/
def defaulted {α : Type} (t : List (String × Toml F)) (k : String) (r : Toml F → Option α) (d : α) :
    Option α :=
  match t.lookup k with
  | some v => r v
  | none => some d

/-- A variant without fields of a derived enumeration (externally tagged), by name. -/
def unit_variant (crate : TomlCrate) : Toml F → Option String
  | .str s => some s
  | .table [(s, .table [])] => if crate.unit_from_table then some s else none
  | .table [(s, .arr [])] => if crate.unit_from_table then some s else none
  | _ => none

/-- A variant with the fields `keys` of a derived enumeration: its name and its fields. -/
def struct_variant : Toml F → Option (String × List (String × Toml F))
  | .table [(s, .table t)] => some (s, t)
  | _ => none

/-- Whether a variant with fields may have the keys of `t`. -/
def keys_allowed (crate : TomlCrate) (t : List (String × Toml F)) (keys : List String) : Bool :=
  crate.extra_variant_keys || t.all fun kv => keys.contains kv.1

/-- enums.rs:15-21 `Distributions` (untagged: the first variant that fits). -/
def read_distribution (v : Toml F) : Option (Distr F) :=
  let uniform : Option (Distr F) := match v with
    | .table t => do
      let min ← required t "min" read_f64
      let max ← required t "max" read_f64
      pure (.UNIFORM min max)
    | _ => none
  let normal : Option (Distr F) := match v with
    | .table t => do
      let mean ← required t "mean" read_f64
      let std ← required t "std" read_f64
      pure (.NORMAL mean std)
    | _ => none
  uniform <|> normal <|> (Distr.POINT <$> read_f64 v)

/-- enums.rs:37-47 `ElectronicStoppingMode`. -/
def read_electronic_stopping_mode (crate : TomlCrate) (v : Toml F) : Option ElectronicStoppingMode := do
  match ← unit_variant crate v with
  | "INTERPOLATED" => pure .INTERPOLATED
  | "LOW_ENERGY_LOCAL" => pure .LOW_ENERGY_LOCAL
  | "LOW_ENERGY_NONLOCAL" => pure .LOW_ENERGY_NONLOCAL
  | "LOW_ENERGY_EQUIPARTITION" => pure .LOW_ENERGY_EQUIPARTITION
  | _ => none

/-- enums.rs:61-69 `SurfaceBindingCalculation`. -/
def read_surface_binding_calculation (crate : TomlCrate) (v : Toml F) :
    Option SurfaceBindingCalculation := do
  match ← unit_variant crate v with
  | "INDIVIDUAL" => pure .INDIVIDUAL
  | "TARGET" => pure .TARGET
  | "AVERAGE" => pure .AVERAGE
  | _ => none

/-- enums.rs:84-94 `SurfaceBindingModel`. -/
def read_surface_binding_model (crate : TomlCrate) (v : Toml F) : Option SurfaceBindingModel :=
  (do match ← unit_variant crate v with
    | "TARGET" => pure .TARGET
    | "INDIVIDUAL" => pure .INDIVIDUAL
    | "AVERAGE" => pure .AVERAGE
    | _ => none) <|>
  (do match ← struct_variant v with
    | ("ISOTROPIC", t) =>
      let c ← required t "calculation" (read_surface_binding_calculation crate)
      if keys_allowed crate t ["calculation"] then pure (.ISOTROPIC c) else none
    | ("PLANAR", t) =>
      let c ← required t "calculation" (read_surface_binding_calculation crate)
      if keys_allowed crate t ["calculation"] then pure (.PLANAR c) else none
    | _ => none)

/-- enums.rs:111-117 `BulkBindingModel`. -/
def read_bulk_binding_model (crate : TomlCrate) (v : Toml F) : Option BulkBindingModel := do
  match ← unit_variant crate v with
  | "INDIVIDUAL" => pure .INDIVIDUAL
  | "AVERAGE" => pure .AVERAGE
  | _ => none

/-- enums.rs:132-140 `MeanFreePathModel`. -/
def read_mean_free_path_model (crate : TomlCrate) (v : Toml F) : Option (MeanFreePathModel F) :=
  (do match ← unit_variant crate v with
    | "LIQUID" => pure .LIQUID
    | "GASEOUS" => pure .GASEOUS
    | _ => none) <|>
  (do match ← struct_variant v with
    | ("THRESHOLD", t) =>
      let d ← required t "density" read_f64
      if keys_allowed crate t ["density"] then pure (.THRESHOLD d) else none
    | _ => none)

/-- enums.rs:153-179 `InteractionPotential`. -/
def read_interaction_potential (crate : TomlCrate) (v : Toml F) : Option (InteractionPotential F) :=
  (do match ← unit_variant crate v with
    | "TRIDYN" => pure .TRIDYN
    | "MOLIERE" => pure .MOLIERE
    | "KR_C" => pure .KR_C
    | "ZBL" => pure .ZBL
    | "LENZ_JENSEN" => pure .LENZ_JENSEN
    | "WW" => pure .WW
    | _ => none) <|>
  (do match ← struct_variant v with
    | ("LENNARD_JONES_12_6", t) =>
      let sigma ← required t "sigma" read_f64
      let epsilon ← required t "epsilon" read_f64
      if keys_allowed crate t ["sigma", "epsilon"] then pure (.LENNARD_JONES_12_6 sigma epsilon) else none
    | ("LENNARD_JONES_65_6", t) =>
      let sigma ← required t "sigma" read_f64
      let epsilon ← required t "epsilon" read_f64
      if keys_allowed crate t ["sigma", "epsilon"] then pure (.LENNARD_JONES_65_6 sigma epsilon) else none
    | ("MORSE", t) =>
      let D ← required t "D" read_f64
      let alpha ← required t "alpha" read_f64
      let r0 ← required t "r0" read_f64
      if keys_allowed crate t ["D", "alpha", "r0"] then pure (.MORSE D alpha r0) else none
    | ("COULOMB", t) =>
      let Za ← required t "Za" read_f64
      let Zb ← required t "Zb" read_f64
      if keys_allowed crate t ["Za", "Zb"] then pure (.COULOMB Za Zb) else none
    | ("KRC_MORSE", t) =>
      let D ← required t "D" read_f64
      let alpha ← required t "alpha" read_f64
      let r0 ← required t "r0" read_f64
      let k ← required t "k" read_f64
      let x0 ← required t "x0" read_f64
      if keys_allowed crate t ["D", "alpha", "r0", "k", "x0"] then pure (.KRC_MORSE D alpha r0 k x0) else none
    | ("FOUR_EIGHT", t) =>
      let alpha ← required t "alpha" read_f64
      let beta ← required t "beta" read_f64
      if keys_allowed crate t ["alpha", "beta"] then pure (.FOUR_EIGHT alpha beta) else none
    | _ => none)

/-- enums.rs:207-217 `ScatteringIntegral`. -/
def read_scattering_integral (crate : TomlCrate) (v : Toml F) : Option ScatteringIntegral :=
  (do match ← unit_variant crate v with
    | "MENDENHALL_WELLER" => pure .MENDENHALL_WELLER
    | "MAGIC" => pure .MAGIC
    | "GAUSS_LEGENDRE" => pure .GAUSS_LEGENDRE
    | _ => none) <|>
  (do match ← struct_variant v with
    | ("GAUSS_MEHLER", t) =>
      let n ← required t "n_points" read_usize
      if keys_allowed crate t ["n_points"] then pure (.GAUSS_MEHLER n) else none
    | _ => none)

/-- enums.rs:237-245 `Rootfinder`. -/
def read_rootfinder (crate : TomlCrate) (v : Toml F) : Option (Rootfinder F) :=
  (do match ← unit_variant crate v with
    | "DEFAULTNEWTON" => pure .DEFAULTNEWTON
    | _ => none) <|>
  (do match ← struct_variant v with
    | ("NEWTON", t) =>
      let n ← required t "max_iterations" read_usize
      let tol ← required t "tolerance" read_f64
      if keys_allowed crate t ["max_iterations", "tolerance"] then pure (.NEWTON n tol) else none
    | ("CPR", t) =>
      let n0 ← required t "n0" read_usize
      let nmax ← required t "nmax" read_usize
      let epsilon ← required t "epsilon" read_f64
      let complex_threshold ← required t "complex_threshold" read_f64
      let truncation_threshold ← required t "truncation_threshold" read_f64
      let far_from_zero ← required t "far_from_zero" read_f64
      let interval_limit ← required t "interval_limit" read_f64
      let derivative_free ← required t "derivative_free" read_bool
      if keys_allowed crate t ["n0", "nmax", "epsilon", "complex_threshold", "truncation_threshold",
          "far_from_zero", "interval_limit", "derivative_free"] then
        pure (.CPR n0 nmax epsilon complex_threshold truncation_threshold far_from_zero interval_limit
          derivative_free)
      else none
    | ("POLYNOMIAL", t) =>
      let c ← required t "complex_threshold" read_f64
      if keys_allowed crate t ["complex_threshold"] then pure (.POLYNOMIAL c) else none
    | _ => none)

/-- input.rs:214-253 (and the same fields of 283-318) `Options`, with the defaults of
input.rs:156-211. -/
def read_options (crate : TomlCrate) : Toml F → Option (Options F)
  | .table t => do
    let name ← required t "name" read_string
    let track_trajectories ← defaulted t "track_trajectories" read_bool false
    let track_recoils ← defaulted t "track_recoils" read_bool true
    let track_recoil_trajectories ← defaulted t "track_recoil_trajectories" read_bool false
    let write_buffer_size ← defaulted t "write_buffer_size" read_usize 8192
    let weak_collision_order ← defaulted t "weak_collision_order" read_usize 0
    let suppress_deep_recoils ← defaulted t "suppress_deep_recoils" read_bool false
    let high_energy_free_flight_paths ← defaulted t "high_energy_free_flight_paths" read_bool false
    let electronic_stopping_mode ← defaulted t "electronic_stopping_mode"
      (read_electronic_stopping_mode crate) .LOW_ENERGY_NONLOCAL
    let mean_free_path_model ← defaulted t "mean_free_path_model" (read_mean_free_path_model crate) .LIQUID
    let interaction_potential ← defaulted t "interaction_potential"
      (read_vec (read_vec (read_interaction_potential crate))) [[.KR_C]]
    let scattering_integral ← defaulted t "scattering_integral"
      (read_vec (read_vec (read_scattering_integral crate))) [[.MENDENHALL_WELLER]]
    let root_finder ← defaulted t "root_finder" (read_vec (read_vec (read_rootfinder crate)))
      [[.DEFAULTNEWTON]]
    let num_threads ← defaulted t "num_threads" read_usize 1
    let num_chunks ← defaulted t "num_chunks" read_usize 1
    let use_hdf5 ← defaulted t "use_hdf5" read_bool false
    let track_displacements ← defaulted t "track_displacements" read_bool false
    let track_energy_losses ← defaulted t "track_energy_losses" read_bool false
    pure { name, track_trajectories, track_recoils, track_recoil_trajectories, write_buffer_size,
           weak_collision_order, suppress_deep_recoils, high_energy_free_flight_paths,
           electronic_stopping_mode, mean_free_path_model, interaction_potential,
           scattering_integral, root_finder, num_threads, num_chunks, use_hdf5,
           track_displacements, track_energy_losses }
  | _ => none

/-- input.rs:319-333 the further fields of `Options` with feature `distributions`. -/
def read_grid_options : Toml F → Option (GridOptions F)
  | .table t => do
    let energy_min ← required t "energy_min" read_f64
    let energy_max ← required t "energy_max" read_f64
    let energy_num ← required t "energy_num" read_usize
    let angle_min ← required t "angle_min" read_f64
    let angle_max ← required t "angle_max" read_f64
    let angle_num ← required t "angle_num" read_usize
    let x_min ← required t "x_min" read_f64
    let y_min ← required t "y_min" read_f64
    let z_min ← required t "z_min" read_f64
    let x_max ← required t "x_max" read_f64
    let y_max ← required t "y_max" read_f64
    let z_max ← required t "z_max" read_f64
    let x_num ← required t "x_num" read_usize
    let y_num ← required t "y_num" read_usize
    let z_num ← required t "z_num" read_usize
    pure { energy_min, energy_max, energy_num, angle_min, angle_max, angle_num, x_min, x_max, x_num,
           y_min, y_max, y_num, z_min, z_max, z_num }
  | _ => none

/-- material.rs:20-38 `MaterialParameters`, with the defaults of material.rs:4-17. -/
def read_material_parameters (crate : TomlCrate) : Toml F → Option (MaterialParameters F)
  | .table t => do
    let energy_unit ← required t "energy_unit" read_string
    let mass_unit ← required t "mass_unit" read_string
    let Eb ← required t "Eb" (read_vec read_f64)
    let Es ← required t "Es" (read_vec read_f64)
    let Ec ← required t "Ec" (read_vec read_f64)
    let Ed ← defaulted t "Ed" (read_vec read_f64) [0.0]
    let Z ← required t "Z" (read_vec read_f64)
    let m ← required t "m" (read_vec read_f64)
    let interaction_index ← defaulted t "interaction_index" (read_vec read_usize) [0]
    let surface_binding_model ← defaulted t "surface_binding_model" (read_surface_binding_model crate)
      .TARGET
    let bulk_binding_model ← defaulted t "bulk_binding_model" (read_bulk_binding_model crate) .INDIVIDUAL
    pure { energy_unit, mass_unit, Eb, Es, Ec, Ed, Z, m, interaction_index, surface_binding_model,
           bulk_binding_model }
  | _ => none

/-- particle.rs:9-44 `ParticleParameters`; with feature `hdf5_input` there is the further required
key `particle_input_filename`, whose value is not kept here. -/
def read_particle_parameters (crate : TomlCrate) (hdf5_input : Bool) :
    Toml F → Option (ParticleParameters F)
  | .table t => do
    if hdf5_input then let _ ← required t "particle_input_filename" read_string
    let length_unit ← required t "length_unit" read_string
    let energy_unit ← required t "energy_unit" read_string
    let mass_unit ← required t "mass_unit" read_string
    let N ← required t "N" (read_vec read_usize)
    let m ← required t "m" (read_vec read_f64)
    let Z ← required t "Z" (read_vec read_f64)
    let E ← required t "E" (read_vec read_distribution)
    let Ec ← required t "Ec" (read_vec read_f64)
    let Es ← required t "Es" (read_vec read_f64)
    let pos ← required t "pos" (read_vec (read_triple crate read_distribution))
    let dir ← required t "dir" (read_vec (read_triple crate read_distribution))
    let interaction_index ← defaulted t "interaction_index" (read_vec read_usize) [0]
    pure { length_unit, energy_unit, mass_unit, N, m, Z, E, Ec, Es, pos, dir, interaction_index }
  | _ => none

/-- geometry.rs:31-36 `Mesh0DInput`. -/
def read_mesh0D : Toml F → Option (Mesh0DInput F)
  | .table t => do
    let length_unit ← required t "length_unit" read_string
    let densities ← required t "densities" (read_vec read_f64)
    let electronic_stopping_correction_factor ← required t "electronic_stopping_correction_factor" read_f64
    pure { length_unit, densities, electronic_stopping_correction_factor }
  | _ => none

/-- geometry.rs:113-119 `Mesh1DInput`. -/
def read_mesh1D : Toml F → Option (Mesh1DInput F)
  | .table t => do
    let length_unit ← required t "length_unit" read_string
    let layer_thicknesses ← required t "layer_thicknesses" (read_vec read_f64)
    let densities ← required t "densities" (read_vec (read_vec read_f64))
    let electronic_stopping_correction_factors ← required t "electronic_stopping_correction_factors"
      (read_vec read_f64)
    pure { length_unit, layer_thicknesses, densities, electronic_stopping_correction_factors }
  | _ => none

/-- geometry.rs:383-393 `Mesh2DInput`. -/
def read_mesh2D (crate : TomlCrate) : Toml F → Option (Mesh2DInput F)
  | .table t => do
    let length_unit ← required t "length_unit" read_string
    let triangles ← required t "triangles" (read_vec (read_triple crate read_usize))
    let points ← required t "points" (read_vec (read_pair crate read_f64))
    let boundary ← required t "boundary" (read_vec read_usize)
    let simulation_boundary_points ← required t "simulation_boundary_points"
      (read_vec (read_pair crate read_f64))
    let densities ← required t "densities" (read_vec (read_vec read_f64))
    let electronic_stopping_correction_factors ← required t "electronic_stopping_correction_factors"
      (read_vec read_f64)
    let energy_barrier_thickness ← required t "energy_barrier_thickness" read_f64
    pure { length_unit, triangles, points, boundary, simulation_boundary_points, densities,
           electronic_stopping_correction_factors, energy_barrier_thickness }
  | _ => none

/-- geometry.rs:268-275 `HomogeneousMesh2DInput`. -/
def read_homogeneous2D (crate : TomlCrate) : Toml F → Option (HomogeneousMesh2DInput F)
  | .table t => do
    let length_unit ← required t "length_unit" read_string
    let points ← required t "points" (read_vec (read_pair crate read_f64))
    let simulation_boundary_points ← required t "simulation_boundary_points"
      (read_vec (read_pair crate read_f64))
    let densities ← required t "densities" (read_vec read_f64)
    let electronic_stopping_correction_factor ← required t "electronic_stopping_correction_factor" read_f64
    pure { length_unit, points, simulation_boundary_points, densities,
           electronic_stopping_correction_factor }
  | _ => none

/-- sphere.rs:31-37 `SphereInput`. -/
def read_sphere : Toml F → Option (SphereInput F)
  | .table t => do
    let length_unit ← required t "length_unit" read_string
    let radius ← required t "radius" read_f64
    let densities ← required t "densities" (read_vec read_f64)
    let electronic_stopping_correction_factor ← required t "electronic_stopping_correction_factor" read_f64
    pure { length_unit, radius, densities, electronic_stopping_correction_factor }
  | _ => none

/-- parry.rs:35-41 `ParryBallInput`. -/
def read_ball : Toml F → Option (ParryBallInput F)
  | .table t => do
    let length_unit ← required t "length_unit" read_string
    let radius ← required t "radius" read_f64
    let densities ← required t "densities" (read_vec read_f64)
    let electronic_stopping_correction_factor ← required t "electronic_stopping_correction_factor" read_f64
    pure { length_unit, radius, densities, electronic_stopping_correction_factor }
  | _ => none

/-- parry.rs:158-165 `ParryTriMeshInput`. -/
def read_trimesh (crate : TomlCrate) : Toml F → Option (ParryTriMeshInput F)
  | .table t => do
    let length_unit ← required t "length_unit" read_string
    let densities ← required t "densities" (read_vec read_f64)
    let electronic_stopping_correction_factor ← required t "electronic_stopping_correction_factor" read_f64
    let vertices ← required t "vertices" (read_vec (read_triple crate read_f64))
    let indices ← required t "indices" (read_vec (read_triple crate read_u32))
    pure { length_unit, densities, electronic_stopping_correction_factor, vertices, indices }
  | _ => none

/-- input.rs:18-23 (and 54-59, 89-94, 124-129, sphere.rs:3-9, parry.rs:7-13, 130-136): the
deserialization of a whole input file.  With feature `distributions` the options must have the axes
of the histograms. -/
def read_input {G : Type} (crate : TomlCrate) (features : InputFeatures) (geometry : Toml F → Option G) :
    Toml F → Option (InputRecord F G)
  | .table t => do
    let options ← required t "options" (read_options crate)
    if features.distributions then let _ ← required t "options" read_grid_options
    let material_parameters ← required t "material_parameters" (read_material_parameters crate)
    let particle_parameters ← required t "particle_parameters"
      (read_particle_parameters crate features.hdf5_input)
    let geometry_input ← required t "geometry_input" geometry
    pure { options, material_parameters, particle_parameters, geometry_input }
  | _ => none

/-- `InputFile::new` (input.rs:31-36, 67-72, 101-106, 137-139, sphere.rs:13-15, parry.rs:17-19,
140-142) after reading the file: `docs` is the document a file holds (`none`: no such file, or not
TOML). -/
def files_of (crate : TomlCrate) (features : InputFeatures) (docs : String → Option (Toml F)) :
    Files F where
  mesh0D f := docs f >>= read_input crate features read_mesh0D
  mesh1D f := docs f >>= read_input crate features read_mesh1D
  mesh2D f := docs f >>= read_input crate features (read_mesh2D crate)
  homogeneous2D f := docs f >>= read_input crate features (read_homogeneous2D crate)
  sphere f := docs f >>= read_input crate features read_sphere
  ball f := docs f >>= read_input crate features read_ball
  trimesh f := docs f >>= read_input crate features (read_trimesh crate)

end RustBCA
