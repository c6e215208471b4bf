import Verif.Monad

/-!
# Constants, vectors and enums (consts.rs, structs.rs, enums.rs)
-/

namespace RustBCA

section Consts
variable (F : Type) [Scalar F]

/-- consts.rs:5 `Q`. -/
def Q : F := 1.602176634e-19
/-- consts.rs:7 `EV`. -/
def EV : F := Q F
/-- consts.rs:9 `AMU`. -/
def AMU : F := 1.66053906660e-27
/-- consts.rs:11 `ANGSTROM`. -/
def ANGSTROM : F := 1e-10
/-- consts.rs:13 `MICRON`. -/
def MICRON : F := 1e-6
/-- consts.rs:15 `NM`. -/
def NM : F := 1e-9
/-- consts.rs:17 `CM`. -/
def CM : F := 1e-2
/-- consts.rs:19 `MM`. -/
def MM : F := 1e-3
/-- consts.rs:21 `EPS0`. -/
def EPS0 : F := 8.8541878128e-12
/-- consts.rs:23 `A0`. -/
def A0 : F := 5.29177210903e-11
/-- consts.rs:25 `ME`. -/
def ME : F := 9.1093837015e-31
/-- `std::f64::consts::FRAC_2_SQRT_PI`, written as `2/sqrt(pi)`. -/
def FRAC_2_SQRT_PI : F := 2.0 / Scalar.sqrt Scalar.pi
/-- consts.rs:27 `SQRTPI`. -/
def SQRTPI : F := 2.0 / FRAC_2_SQRT_PI F
/-- consts.rs:31 `C`. -/
def C : F := 299792458.0
/-- consts.rs:33 `BETHE_BLOCH_PREFACTOR`. -/
def BETHE_BLOCH_PREFACTOR : F :=
  4.0*Scalar.pi*(Q F*Q F/(4.0*Scalar.pi*EPS0 F))*(Q F*Q F/(4.0*Scalar.pi*EPS0 F))/ME F/C F/C F
/-- consts.rs:35 `LINDHARD_SCHARFF_PREFACTOR`. -/
def LINDHARD_SCHARFF_PREFACTOR : F := 1.212*ANGSTROM F*ANGSTROM F*Q F
/-- consts.rs:37 `LINDHARD_REDUCED_ENERGY_PREFACTOR`. -/
def LINDHARD_REDUCED_ENERGY_PREFACTOR : F := 4.0*Scalar.pi*EPS0 F/Q F/Q F
end Consts

/-- structs.rs:3-7 `Vector`. -/
structure Vec3 (F : Type) where
  x : F
  y : F
  z : F

namespace Vec3
variable {F : Type} [Scalar F]

/-- structs.rs:18-20 `Vector::magnitude`. -/
def magnitude (v : Vec3 F) : F := Scalar.sqrt (v.x*v.x + v.y*v.y + v.z*v.z)

/-- structs.rs:30-35 `Vector::normalize` (the mutated vector is returned). -/
def normalize (v : Vec3 F) : Vec3 F :=
  let magnitude := v.magnitude
  ⟨v.x / magnitude, v.y / magnitude, v.z / magnitude⟩

/-- structs.rs:38-40 `Vector::add`. -/
def add (v w : Vec3 F) : Vec3 F := ⟨v.x + w.x, v.y + w.y, v.z + w.z⟩

/-- structs.rs:42-44 `Vector::dot`. -/
def dot (v w : Vec3 F) : F := v.x*w.x + v.y*w.y + v.z*w.z

end Vec3

/-- structs.rs:49-54 `TrajectoryElement`. -/
structure TrajectoryElement (F : Type) where
  E : F
  x : F
  y : F
  z : F

/-- structs.rs:69-75 `EnergyLoss`. -/
structure EnergyLoss (F : Type) where
  En : F
  Ee : F
  x : F
  y : F
  z : F

/-- enums.rs:38-47 `ElectronicStoppingMode`. -/
inductive ElectronicStoppingMode where
  | INTERPOLATED
  | LOW_ENERGY_LOCAL
  | LOW_ENERGY_NONLOCAL
  | LOW_ENERGY_EQUIPARTITION
deriving DecidableEq, Repr

/-- enums.rs:62-69 `SurfaceBindingCalculation`. -/
inductive SurfaceBindingCalculation where
  | INDIVIDUAL
  | TARGET
  | AVERAGE
deriving DecidableEq, Repr

/-- enums.rs:85-94 `SurfaceBindingModel`. -/
inductive SurfaceBindingModel where
  | ISOTROPIC (calculation : SurfaceBindingCalculation)
  | PLANAR (calculation : SurfaceBindingCalculation)
  | TARGET
  | INDIVIDUAL
  | AVERAGE
deriving DecidableEq, Repr

/-- enums.rs:112-117 `BulkBindingModel`. -/
inductive BulkBindingModel where
  | INDIVIDUAL
  | AVERAGE
deriving DecidableEq, Repr

/-- enums.rs:133-140 `MeanFreePathModel`. -/
inductive MeanFreePathModel (F : Type) where
  | LIQUID
  | GASEOUS
  | THRESHOLD (density : F)

/-- enums.rs:132 `#[derive(PartialEq)]`: the test `== MeanFreePathModel::GASEOUS`. -/
def MeanFreePathModel.isGaseous {F : Type} : MeanFreePathModel F → Bool
  | .GASEOUS => true
  | _ => false

/-- enums.rs:154-179 `InteractionPotential`. -/
inductive InteractionPotential (F : Type) where
  | TRIDYN
  | MOLIERE
  | KR_C
  | ZBL
  | LENZ_JENSEN
  | LENNARD_JONES_12_6 (sigma epsilon : F)
  | LENNARD_JONES_65_6 (sigma epsilon : F)
  | MORSE (D alpha r0 : F)
  | WW
  | COULOMB (Za Zb : F)
  | KRC_MORSE (D alpha r0 k x0 : F)
  | FOUR_EIGHT (alpha beta : F)

/-- enums.rs:208-217 `ScatteringIntegral`. -/
inductive ScatteringIntegral where
  | MENDENHALL_WELLER
  | MAGIC
  | GAUSS_MEHLER (n_points : Nat)
  | GAUSS_LEGENDRE
deriving DecidableEq, Repr

/-- enums.rs:238-245 `Rootfinder`. The parameters of CPR and POLYNOMIAL are passed on to the
external crate `rcpr`, which is not modelled; they are kept as they select nothing else. -/
inductive Rootfinder (F : Type) where
  | NEWTON (max_iterations : Nat) (tolerance : F)
  | CPR (n0 nmax : Nat) (epsilon complex_threshold truncation_threshold far_from_zero
      interval_limit : F) (derivative_free : Bool)
  | POLYNOMIAL (complex_threshold : F)
  | DEFAULTNEWTON

/-- input.rs:217-253 `Options` (build without feature `distributions`; `write_buffer_size` enters
only the file model). -/
structure Options (F : Type) where
  name : String
  track_trajectories : Bool
  track_recoils : Bool
  track_recoil_trajectories : Bool
  write_buffer_size : Nat
  weak_collision_order : Nat
  suppress_deep_recoils : Bool
  high_energy_free_flight_paths : Bool
  electronic_stopping_mode : ElectronicStoppingMode
  mean_free_path_model : MeanFreePathModel F
  interaction_potential : List (List (InteractionPotential F))
  scattering_integral : List (List ScatteringIntegral)
  root_finder : List (List (Rootfinder F))
  num_threads : Nat
  num_chunks : Nat
  use_hdf5 : Bool
  track_displacements : Bool
  track_energy_losses : Bool

/-- input.rs:257-278 `Options::default_options`, with the serde defaults of input.rs:156-211. -/
def Options.default_options {F : Type} (track_recoils : Bool) : Options F where
  name := "default"
  track_trajectories := false
  track_recoils := track_recoils
  track_recoil_trajectories := false
  write_buffer_size := 8192
  weak_collision_order := 0
  suppress_deep_recoils := false
  high_energy_free_flight_paths := false
  electronic_stopping_mode := .LOW_ENERGY_NONLOCAL
  mean_free_path_model := .LIQUID
  interaction_potential := [[.KR_C]]
  scattering_integral := [[.MENDENHALL_WELLER]]
  root_finder := [[.DEFAULTNEWTON]]
  num_threads := 1
  num_chunks := 1
  use_hdf5 := false
  track_displacements := false
  track_energy_losses := false

/-- input.rs:336-373 `Options::default_options` in a build with feature `distributions`: the same
fields, but `track_trajectories: track_recoils, track_recoils: false`.  (The axes of the histograms,
input.rs:358-370, are all zero there and play no role in a cascade.) -/
def Options.default_options_distributions {F : Type} (track_recoils : Bool) : Options F :=
  { Options.default_options false with track_trajectories := track_recoils }

end RustBCA
