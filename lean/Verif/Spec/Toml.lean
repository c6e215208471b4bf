import Verif.Model.Toml

/-!
# What an input file says (C128)

The documented format of an input file: which keys there are, what may stand behind each, and what
a missing one stands for.  Nothing here reads; the relations say when a TOML value *is* a number, a
list of counts, a Morse potential, an `[options]` section.
-/

namespace RustBCA.Spec
open Scalar
variable {F : Type} [Scalar F]

/-- A number: written with a decimal point, or as an integer. -/
inductive IsNumber : Toml F → F → Prop
  | float (x : F) : IsNumber (.float x) x
  | natural (n : Nat) : IsNumber (.int n) (ofNat n)
  | negative (n : Nat) (h : n ≠ 0) : IsNumber (.int (-n)) (-ofNat n)

/-- A count or index: an integer that is not negative. -/
inductive IsCount : Toml F → Nat → Prop
  | mk (n : Nat) : IsCount (.int n) n

/-- A count below 2^32. -/
def IsIndex (v : Toml F) (n : Nat) : Prop := IsCount v n ∧ n < 2^32

inductive IsFlag : Toml F → Bool → Prop
  | mk (b : Bool) : IsFlag (.bool b) b

inductive IsText : Toml F → String → Prop
  | mk (s : String) : IsText (.str s) s

/-- `[v, w, …]`, element by element. -/
inductive IsListOf {α : Type} (R : Toml F → α → Prop) : Toml F → List α → Prop
  | mk (l : List (Toml F)) (as : List α) (h : List.Forall₂ R l as) : IsListOf R (.arr l) as

/-- `[v, w]` (with more elements only if the crate lets that pass). -/
def IsPairOf {α : Type} (crate : TomlCrate) (R : Toml F → α → Prop) (v : Toml F) (p : α × α) : Prop :=
  ∃ a b rest, v = .arr (a :: b :: rest) ∧ R a p.1 ∧ R b p.2 ∧ (crate.longer_tuples = false → rest = [])

/-- `[v, w, u]`. -/
def IsTripleOf {α : Type} (crate : TomlCrate) (R : Toml F → α → Prop) (v : Toml F) (p : α × α × α) :
    Prop :=
  ∃ a b c rest, v = .arr (a :: b :: c :: rest) ∧ R a p.1 ∧ R b p.2.1 ∧ R c p.2.2 ∧
    (crate.longer_tuples = false → rest = [])

/-- In the section `v` the key `k` has the value `w`. -/
def KeyValue (v : Toml F) (k : String) (w : Toml F) : Prop := ∃ t, v = .table t ∧ t.lookup k = some w

/-- The section `v` has no key `k`. -/
def NoKey (v : Toml F) (k : String) : Prop := ∃ t, v = .table t ∧ t.lookup k = none

/-- The section says `k = a`. -/
def Says {α : Type} (v : Toml F) (k : String) (R : Toml F → α → Prop) (a : α) : Prop :=
  ∃ w, KeyValue v k w ∧ R w a

/-- The section says `k = a`, or does not mention `k` and `a` is the documented default `d`. -/
def SaysOr {α : Type} (v : Toml F) (k : String) (R : Toml F → α → Prop) (d a : α) : Prop :=
  Says v k R a ∨ (NoKey v k ∧ a = d)

/-- `{min = a, max = b}`, else `{mean = a, std = b}`, else a number. -/
def IsDistribution (v : Toml F) : Distr F → Prop
  | .UNIFORM a b => Says v "min" IsNumber a ∧ Says v "max" IsNumber b
  | .NORMAL a b => Says v "mean" IsNumber a ∧ Says v "std" IsNumber b ∧
      ¬ ((∃ x, Says v "min" IsNumber x) ∧ (∃ x, Says v "max" IsNumber x))
  | .POINT x => IsNumber v x

/-- The choice `"NAME"` (or, if the crate lets that pass, `{NAME = {}}`). -/
def IsName (crate : TomlCrate) (v : Toml F) (s : String) : Prop :=
  v = .str s ∨ (crate.unit_from_table = true ∧ (v = .table [(s, .table [])] ∨ v = .table [(s, .arr [])]))

/-- The choice `{NAME = {…}}` with the fields `keys`, of which `body` holds. -/
def IsChoice (crate : TomlCrate) (v : Toml F) (s : String) (keys : List String) (body : Toml F → Prop) :
    Prop :=
  ∃ t, v = .table [(s, .table t)] ∧ (crate.extra_variant_keys = false → ∀ kv ∈ t, kv.1 ∈ keys) ∧
    body (.table t)

def IsStoppingMode (crate : TomlCrate) (v : Toml F) : ElectronicStoppingMode → Prop
  | .INTERPOLATED => IsName crate v "INTERPOLATED"
  | .LOW_ENERGY_LOCAL => IsName crate v "LOW_ENERGY_LOCAL"
  | .LOW_ENERGY_NONLOCAL => IsName crate v "LOW_ENERGY_NONLOCAL"
  | .LOW_ENERGY_EQUIPARTITION => IsName crate v "LOW_ENERGY_EQUIPARTITION"

def IsCalculation (crate : TomlCrate) (v : Toml F) : SurfaceBindingCalculation → Prop
  | .INDIVIDUAL => IsName crate v "INDIVIDUAL"
  | .TARGET => IsName crate v "TARGET"
  | .AVERAGE => IsName crate v "AVERAGE"

def IsSurfaceModel (crate : TomlCrate) (v : Toml F) : SurfaceBindingModel → Prop
  | .TARGET => IsName crate v "TARGET"
  | .INDIVIDUAL => IsName crate v "INDIVIDUAL"
  | .AVERAGE => IsName crate v "AVERAGE"
  | .ISOTROPIC c => IsChoice crate v "ISOTROPIC" ["calculation"] fun w =>
      Says w "calculation" (IsCalculation crate) c
  | .PLANAR c => IsChoice crate v "PLANAR" ["calculation"] fun w =>
      Says w "calculation" (IsCalculation crate) c

def IsBulkModel (crate : TomlCrate) (v : Toml F) : BulkBindingModel → Prop
  | .INDIVIDUAL => IsName crate v "INDIVIDUAL"
  | .AVERAGE => IsName crate v "AVERAGE"

def IsPathModel (crate : TomlCrate) (v : Toml F) : MeanFreePathModel F → Prop
  | .LIQUID => IsName crate v "LIQUID"
  | .GASEOUS => IsName crate v "GASEOUS"
  | .THRESHOLD d => IsChoice crate v "THRESHOLD" ["density"] fun w => Says w "density" IsNumber d

def IsPotential (crate : TomlCrate) (v : Toml F) : InteractionPotential F → Prop
  | .TRIDYN => IsName crate v "TRIDYN"
  | .MOLIERE => IsName crate v "MOLIERE"
  | .KR_C => IsName crate v "KR_C"
  | .ZBL => IsName crate v "ZBL"
  | .LENZ_JENSEN => IsName crate v "LENZ_JENSEN"
  | .WW => IsName crate v "WW"
  | .LENNARD_JONES_12_6 s e => IsChoice crate v "LENNARD_JONES_12_6" ["sigma", "epsilon"] fun w =>
      Says w "sigma" IsNumber s ∧ Says w "epsilon" IsNumber e
  | .LENNARD_JONES_65_6 s e => IsChoice crate v "LENNARD_JONES_65_6" ["sigma", "epsilon"] fun w =>
      Says w "sigma" IsNumber s ∧ Says w "epsilon" IsNumber e
  | .MORSE D a r => IsChoice crate v "MORSE" ["D", "alpha", "r0"] fun w =>
      Says w "D" IsNumber D ∧ Says w "alpha" IsNumber a ∧ Says w "r0" IsNumber r
  | .COULOMB a b => IsChoice crate v "COULOMB" ["Za", "Zb"] fun w =>
      Says w "Za" IsNumber a ∧ Says w "Zb" IsNumber b
  | .KRC_MORSE D a r k x => IsChoice crate v "KRC_MORSE" ["D", "alpha", "r0", "k", "x0"] fun w =>
      Says w "D" IsNumber D ∧ Says w "alpha" IsNumber a ∧ Says w "r0" IsNumber r ∧
        Says w "k" IsNumber k ∧ Says w "x0" IsNumber x
  | .FOUR_EIGHT a b => IsChoice crate v "FOUR_EIGHT" ["alpha", "beta"] fun w =>
      Says w "alpha" IsNumber a ∧ Says w "beta" IsNumber b

def IsQuadrature (crate : TomlCrate) (v : Toml F) : ScatteringIntegral → Prop
  | .MENDENHALL_WELLER => IsName crate v "MENDENHALL_WELLER"
  | .MAGIC => IsName crate v "MAGIC"
  | .GAUSS_LEGENDRE => IsName crate v "GAUSS_LEGENDRE"
  | .GAUSS_MEHLER n => IsChoice crate v "GAUSS_MEHLER" ["n_points"] fun w => Says w "n_points" IsCount n

def IsRootFinder (crate : TomlCrate) (v : Toml F) : Rootfinder F → Prop
  | .DEFAULTNEWTON => IsName crate v "DEFAULTNEWTON"
  | .NEWTON n t => IsChoice crate v "NEWTON" ["max_iterations", "tolerance"] fun w =>
      Says w "max_iterations" IsCount n ∧ Says w "tolerance" IsNumber t
  | .CPR n0 nmax e c t f i d => IsChoice crate v "CPR" ["n0", "nmax", "epsilon", "complex_threshold",
        "truncation_threshold", "far_from_zero", "interval_limit", "derivative_free"] fun w =>
      Says w "n0" IsCount n0 ∧ Says w "nmax" IsCount nmax ∧ Says w "epsilon" IsNumber e ∧
        Says w "complex_threshold" IsNumber c ∧ Says w "truncation_threshold" IsNumber t ∧
        Says w "far_from_zero" IsNumber f ∧ Says w "interval_limit" IsNumber i ∧
        Says w "derivative_free" IsFlag d
  | .POLYNOMIAL c => IsChoice crate v "POLYNOMIAL" ["complex_threshold"] fun w =>
      Says w "complex_threshold" IsNumber c

/-- The section `[options]`. -/
structure OptionsSection (crate : TomlCrate) (v : Toml F) (o : Options F) : Prop where
  name : Says v "name" IsText o.name
  track_trajectories : SaysOr v "track_trajectories" IsFlag false o.track_trajectories
  track_recoils : SaysOr v "track_recoils" IsFlag true o.track_recoils
  track_recoil_trajectories : SaysOr v "track_recoil_trajectories" IsFlag false o.track_recoil_trajectories
  write_buffer_size : SaysOr v "write_buffer_size" IsCount 8192 o.write_buffer_size
  weak_collision_order : SaysOr v "weak_collision_order" IsCount 0 o.weak_collision_order
  suppress_deep_recoils : SaysOr v "suppress_deep_recoils" IsFlag false o.suppress_deep_recoils
  high_energy_free_flight_paths : SaysOr v "high_energy_free_flight_paths" IsFlag false
    o.high_energy_free_flight_paths
  electronic_stopping_mode : SaysOr v "electronic_stopping_mode" (IsStoppingMode crate)
    .LOW_ENERGY_NONLOCAL o.electronic_stopping_mode
  mean_free_path_model : SaysOr v "mean_free_path_model" (IsPathModel crate) .LIQUID o.mean_free_path_model
  interaction_potential : SaysOr v "interaction_potential" (IsListOf (IsListOf (IsPotential crate)))
    [[.KR_C]] o.interaction_potential
  scattering_integral : SaysOr v "scattering_integral" (IsListOf (IsListOf (IsQuadrature crate)))
    [[.MENDENHALL_WELLER]] o.scattering_integral
  root_finder : SaysOr v "root_finder" (IsListOf (IsListOf (IsRootFinder crate)))
    [[.DEFAULTNEWTON]] o.root_finder
  num_threads : SaysOr v "num_threads" IsCount 1 o.num_threads
  num_chunks : SaysOr v "num_chunks" IsCount 1 o.num_chunks
  use_hdf5 : SaysOr v "use_hdf5" IsFlag false o.use_hdf5
  track_displacements : SaysOr v "track_displacements" IsFlag false o.track_displacements
  track_energy_losses : SaysOr v "track_energy_losses" IsFlag false o.track_energy_losses

/-- The axes of the histograms, in `[options]` with feature `distributions`. -/
structure GridSection (v : Toml F) (g : GridOptions F) : Prop where
  energy_min : Says v "energy_min" IsNumber g.energy_min
  energy_max : Says v "energy_max" IsNumber g.energy_max
  energy_num : Says v "energy_num" IsCount g.energy_num
  angle_min : Says v "angle_min" IsNumber g.angle_min
  angle_max : Says v "angle_max" IsNumber g.angle_max
  angle_num : Says v "angle_num" IsCount g.angle_num
  x_min : Says v "x_min" IsNumber g.x_min
  x_max : Says v "x_max" IsNumber g.x_max
  x_num : Says v "x_num" IsCount g.x_num
  y_min : Says v "y_min" IsNumber g.y_min
  y_max : Says v "y_max" IsNumber g.y_max
  y_num : Says v "y_num" IsCount g.y_num
  z_min : Says v "z_min" IsNumber g.z_min
  z_max : Says v "z_max" IsNumber g.z_max
  z_num : Says v "z_num" IsCount g.z_num

/-- The section `[material_parameters]`. -/
structure MaterialSection (crate : TomlCrate) (v : Toml F) (mp : MaterialParameters F) : Prop where
  energy_unit : Says v "energy_unit" IsText mp.energy_unit
  mass_unit : Says v "mass_unit" IsText mp.mass_unit
  Eb : Says v "Eb" (IsListOf IsNumber) mp.Eb
  Es : Says v "Es" (IsListOf IsNumber) mp.Es
  Ec : Says v "Ec" (IsListOf IsNumber) mp.Ec
  Ed : SaysOr v "Ed" (IsListOf IsNumber) [0.0] mp.Ed
  Z : Says v "Z" (IsListOf IsNumber) mp.Z
  m : Says v "m" (IsListOf IsNumber) mp.m
  interaction_index : SaysOr v "interaction_index" (IsListOf IsCount) [0] mp.interaction_index
  surface_binding_model : SaysOr v "surface_binding_model" (IsSurfaceModel crate) .TARGET
    mp.surface_binding_model
  bulk_binding_model : SaysOr v "bulk_binding_model" (IsBulkModel crate) .INDIVIDUAL mp.bulk_binding_model

/-- The section `[particle_parameters]`. -/
structure ParticleSection (crate : TomlCrate) (hdf5_input : Bool) (v : Toml F)
    (p : ParticleParameters F) : Prop where
  particle_input_filename : hdf5_input = true → ∃ s, Says v "particle_input_filename" IsText s
  length_unit : Says v "length_unit" IsText p.length_unit
  energy_unit : Says v "energy_unit" IsText p.energy_unit
  mass_unit : Says v "mass_unit" IsText p.mass_unit
  N : Says v "N" (IsListOf IsCount) p.N
  m : Says v "m" (IsListOf IsNumber) p.m
  Z : Says v "Z" (IsListOf IsNumber) p.Z
  E : Says v "E" (IsListOf IsDistribution) p.E
  Ec : Says v "Ec" (IsListOf IsNumber) p.Ec
  Es : Says v "Es" (IsListOf IsNumber) p.Es
  pos : Says v "pos" (IsListOf (IsTripleOf crate IsDistribution)) p.pos
  dir : Says v "dir" (IsListOf (IsTripleOf crate IsDistribution)) p.dir
  interaction_index : SaysOr v "interaction_index" (IsListOf IsCount) [0] p.interaction_index

/-- The section `[geometry_input]` of `RustBCA 0D`. -/
structure Section0D (v : Toml F) (g : Mesh0DInput F) : Prop where
  length_unit : Says v "length_unit" IsText g.length_unit
  densities : Says v "densities" (IsListOf IsNumber) g.densities
  factor : Says v "electronic_stopping_correction_factor" IsNumber g.electronic_stopping_correction_factor

/-- … of `RustBCA 1D`. -/
structure Section1D (v : Toml F) (g : Mesh1DInput F) : Prop where
  length_unit : Says v "length_unit" IsText g.length_unit
  layer_thicknesses : Says v "layer_thicknesses" (IsListOf IsNumber) g.layer_thicknesses
  densities : Says v "densities" (IsListOf (IsListOf IsNumber)) g.densities
  factors : Says v "electronic_stopping_correction_factors" (IsListOf IsNumber)
    g.electronic_stopping_correction_factors

/-- … of `RustBCA 2D`. -/
structure Section2D (crate : TomlCrate) (v : Toml F) (g : Mesh2DInput F) : Prop where
  length_unit : Says v "length_unit" IsText g.length_unit
  triangles : Says v "triangles" (IsListOf (IsTripleOf crate IsCount)) g.triangles
  points : Says v "points" (IsListOf (IsPairOf crate IsNumber)) g.points
  boundary : Says v "boundary" (IsListOf IsCount) g.boundary
  simulation_boundary_points : Says v "simulation_boundary_points" (IsListOf (IsPairOf crate IsNumber))
    g.simulation_boundary_points
  densities : Says v "densities" (IsListOf (IsListOf IsNumber)) g.densities
  factors : Says v "electronic_stopping_correction_factors" (IsListOf IsNumber)
    g.electronic_stopping_correction_factors
  barrier : Says v "energy_barrier_thickness" IsNumber g.energy_barrier_thickness

/-- … of `RustBCA HOMOGENEOUS2D`. -/
structure SectionHomogeneous2D (crate : TomlCrate) (v : Toml F) (g : HomogeneousMesh2DInput F) :
    Prop where
  length_unit : Says v "length_unit" IsText g.length_unit
  points : Says v "points" (IsListOf (IsPairOf crate IsNumber)) g.points
  simulation_boundary_points : Says v "simulation_boundary_points" (IsListOf (IsPairOf crate IsNumber))
    g.simulation_boundary_points
  densities : Says v "densities" (IsListOf IsNumber) g.densities
  factor : Says v "electronic_stopping_correction_factor" IsNumber g.electronic_stopping_correction_factor

/-- … of `RustBCA SPHERE`. -/
structure SectionSphere (v : Toml F) (g : SphereInput F) : Prop where
  length_unit : Says v "length_unit" IsText g.length_unit
  radius : Says v "radius" IsNumber g.radius
  densities : Says v "densities" (IsListOf IsNumber) g.densities
  factor : Says v "electronic_stopping_correction_factor" IsNumber g.electronic_stopping_correction_factor

/-- … of `RustBCA BALL`. -/
structure SectionBall (v : Toml F) (g : ParryBallInput F) : Prop where
  length_unit : Says v "length_unit" IsText g.length_unit
  radius : Says v "radius" IsNumber g.radius
  densities : Says v "densities" (IsListOf IsNumber) g.densities
  factor : Says v "electronic_stopping_correction_factor" IsNumber g.electronic_stopping_correction_factor

/-- … of `RustBCA TRIMESH`. -/
structure SectionTrimesh (crate : TomlCrate) (v : Toml F) (g : ParryTriMeshInput F) : Prop where
  length_unit : Says v "length_unit" IsText g.length_unit
  densities : Says v "densities" (IsListOf IsNumber) g.densities
  factor : Says v "electronic_stopping_correction_factor" IsNumber g.electronic_stopping_correction_factor
  vertices : Says v "vertices" (IsListOf (IsTripleOf crate IsNumber)) g.vertices
  indices : Says v "indices" (IsListOf (IsTripleOf crate IsIndex)) g.indices

/-- A whole input file, `geometry` being the format of its target section. -/
structure InputDocument {G : Type} (crate : TomlCrate) (features : InputFeatures)
    (geometry : Toml F → G → Prop) (v : Toml F) (r : InputRecord F G) : Prop where
  options : Says v "options" (OptionsSection crate) r.options
  grid : features.distributions = true → ∃ g, Says v "options" GridSection g
  material_parameters : Says v "material_parameters" (MaterialSection crate) r.material_parameters
  particle_parameters : Says v "particle_parameters" (ParticleSection crate features.hdf5_input)
    r.particle_parameters
  geometry_input : Says v "geometry_input" geometry r.geometry_input

/-- The command line `args` names a file whose document says: these options, materials and
particles, and this target. -/
inductive DocumentAsks (w : World F) (crate : TomlCrate) (features : InputFeatures)
    (docs : String → Option (Toml F)) : List String → Options F → MaterialParameters F →
    ParticleParameters F → Res (Geom F) → Prop
  | default (prog : String) (v : Toml F) (r : InputRecord F (Mesh2DInput F))
      (file : docs "input.toml" = some v) (said : InputDocument crate features (Section2D crate) v r) :
      DocumentAsks w crate features docs [prog] r.options r.material_parameters r.particle_parameters
        ((fun g => g.toGeom w.ext) <$> Mesh2D.new w.ext r.geometry_input)
  | file (prog f : String) (v : Toml F) (r : InputRecord F (Mesh2DInput F)) (file : docs f = some v)
      (said : InputDocument crate features (Section2D crate) v r) :
      DocumentAsks w crate features docs [prog, f] r.options r.material_parameters r.particle_parameters
        ((fun g => g.toGeom w.ext) <$> Mesh2D.new w.ext r.geometry_input)
  | mesh0D (prog f : String) (v : Toml F) (r : InputRecord F (Mesh0DInput F)) (file : docs f = some v)
      (said : InputDocument crate features Section0D v r) :
      DocumentAsks w crate features docs [prog, "0D", f] r.options r.material_parameters
        r.particle_parameters (Mesh0D.toGeom <$> Mesh0D.new w.ext r.geometry_input)
  | mesh1D (prog f : String) (v : Toml F) (r : InputRecord F (Mesh1DInput F)) (file : docs f = some v)
      (said : InputDocument crate features Section1D v r) :
      DocumentAsks w crate features docs [prog, "1D", f] r.options r.material_parameters
        r.particle_parameters (Mesh1D.toGeom <$> Mesh1D.new w.ext r.geometry_input)
  | mesh2D (prog f : String) (v : Toml F) (r : InputRecord F (Mesh2DInput F)) (file : docs f = some v)
      (said : InputDocument crate features (Section2D crate) v r) :
      DocumentAsks w crate features docs [prog, "2D", f] r.options r.material_parameters
        r.particle_parameters ((fun g => g.toGeom w.ext) <$> Mesh2D.new w.ext r.geometry_input)
  | homogeneous2D (prog f : String) (v : Toml F) (r : InputRecord F (HomogeneousMesh2DInput F))
      (file : docs f = some v) (said : InputDocument crate features (SectionHomogeneous2D crate) v r) :
      DocumentAsks w crate features docs [prog, "HOMOGENEOUS2D", f] r.options r.material_parameters
        r.particle_parameters ((fun g => g.toGeom w.ext) <$> HomogeneousMesh2D.new w.ext r.geometry_input)
  | sphere (prog f : String) (v : Toml F) (r : InputRecord F (SphereInput F)) (file : docs f = some v)
      (said : InputDocument crate features SectionSphere v r) :
      DocumentAsks w crate features docs [prog, "SPHERE", f] r.options r.material_parameters
        r.particle_parameters (Sphere.toGeom <$> Sphere.new w.ext r.geometry_input)
  | ball (prog f : String) (v : Toml F) (r : InputRecord F (ParryBallInput F)) (file : docs f = some v)
      (said : InputDocument crate features SectionBall v r) (feature : w.parry3d = true) :
      DocumentAsks w crate features docs [prog, "BALL", f] r.options r.material_parameters
        r.particle_parameters (ParryBall.toGeom w.parry <$> ParryBall.new w.ext r.geometry_input)
  | trimesh (prog f : String) (v : Toml F) (r : InputRecord F (ParryTriMeshInput F))
      (file : docs f = some v) (said : InputDocument crate features (SectionTrimesh crate) v r)
      (feature : w.parry3d = true) :
      DocumentAsks w crate features docs [prog, "TRIMESH", f] r.options r.material_parameters
        r.particle_parameters (ParryTriMesh.toGeom <$> ParryTriMesh.new w.ext w.parry r.geometry_input)

end RustBCA.Spec
