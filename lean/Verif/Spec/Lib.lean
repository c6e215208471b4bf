import Verif.Spec.Cascade
import Verif.Spec.Vectors
import Verif.Model.Yields

/-!
# Specification vocabulary for the library interface (C56-C60, C66-C70)
-/

namespace RustBCA.Spec
open Scalar
variable {F : Type} [Scalar F]

/-! ## Output rows -/

/-- The documented output row `[Z, m (amu), E (eV), x, y, z (angstrom), ux, uy, uz]` of particle `q`
with energy `E` (in eV) reported at the point `at_` (in metre). -/
def row (q : Particle F) (E : F) (at_ : Vec3 F) : List F :=
  [q.Z, q.m/AMU F, E, at_.x/ANGSTROM F, at_.y/ANGSTROM F, at_.z/ANGSTROM F,
    q.dir.x, q.dir.y, q.dir.z]

/-- `q` is the ion or has left the target. -/
def Emitted (q : Particle F) : Prop := q.incident = true ∨ q.left = true

/-- `out` is what the cascade of `ion` in `mat` returned, for some random numbers. -/
def CascadeOf (rcpr : Rcpr F) (fuel : Nat) (mat : Material F) (options : Options F)
    (ion : Particle F) (out : List (Particle F)) : Prop :=
  ∃ tape tape', single_ion_bca rcpr fuel ion mat options tape = .ok (out, tape')

/-- `p` is a fresh ion with the given mass (kg), charge number, energies (J), position (m) and
direction. -/
structure FreshIon (p : Particle F) (m Z E Ec Es : F) (pos dir : Vec3 F) : Prop where
  m : p.m = m
  Z : p.Z = Z
  E : p.E = E
  Ec : p.Ec = Ec
  Es : p.Es = Es
  pos : p.pos = pos
  dir : p.dir = dir
  incident : p.incident = true
  stopped : p.stopped = false
  left : p.left = false
  number_collision_events : p.number_collision_events = 0
  interaction_index : p.interaction_index = 0

/-- `mat` is the half space `x > 0` of the species given in eV and amu, with number densities given
per cubic `unit`, and with electronic stopping correction factor 1. -/
structure HalfSpace (mat : Material F) (Z m Ec Es Eb n : List F) (unit : F)
    (model : SurfaceBindingModel) : Prop where
  Z : mat.Z = Z
  m : mat.m = m.map (· * AMU F)
  Ec : mat.Ec = Ec.map (· * EV F)
  Es : mat.Es = Es.map (· * EV F)
  Eb : mat.Eb = Eb.map (· * EV F)
  inside : ∀ x y z, mat.geometry.inside x y z = .ok (x >. 0.0)
  densities : ∀ x y z, mat.geometry.get_densities x y z = .ok (n.map (· / powi unit 3))
  surface : mat.surface_binding_model = model
  correction : ∀ x y z, mat.geometry.get_ck x y z = .ok 1.0

/-- `ions` holds, index by index, the ions described by the eight lists (as many as the shortest list
has entries). -/
def IonsOf (ions : List (IonArgs F)) (E ux uy uz Z Ec Es m : List F) : Prop :=
  ∀ (i : Nat) (a : IonArgs F), ions[i]? = some a ↔ E[i]? = some a.E ∧ ux[i]? = some a.ux ∧ uy[i]? = some a.uy ∧
    uz[i]? = some a.uz ∧ Z[i]? = some a.Z ∧ Ec[i]? = some a.Ec ∧ Es[i]? = some a.Es ∧
    m[i]? = some a.m

/-! ## Python dictionaries -/

/-- The dictionary of an ion says: charge number `Z`, mass `m` (amu), cutoff and surface binding
energies `Ec`, `Es` (eV). -/
def IonEntries (d : PyDict F) (Z m Ec Es : F) : Prop :=
  d "Z" = some (.float Z) ∧ d "m" = some (.float m) ∧ d "Ec" = some (.float Ec) ∧
    d "Es" = some (.float Es)

/-- The dictionary of a target species says: the same, bulk binding energy `Eb` (eV) and number
density `n` (per cubic metre). -/
def TargetEntries (d : PyDict F) (Z m Ec Es Eb n : F) : Prop :=
  IonEntries d Z m Ec Es ∧ d "Eb" = some (.float Eb) ∧ d "n" = some (.float n)

/-- `outs` are the cascades of `n` ions of the species of dictionary `d`, of the given energy (eV) and
direction (up to its length), started at `(x, 0, 0)`; the k-th on the k-th random stream. -/
structure Sampled (rcpr : Rcpr F) (fuel : Nat) (mat : Material F) (options : Options F) (d : PyDict F)
    (energy x : F) (dir : Vec3 F) (n : Nat) (tapes : Nat → Tape F) (outs : List (List (Particle F))) :
    Prop where
  count : outs.length = n
  each : ∃ Z m Ec Es, IonEntries d Z m Ec Es ∧
    ∀ (k : Nat) (out : List (Particle F)), outs[k]? = some out → ∃ ion tape',
    FreshIon ion (m*AMU F) Z (energy*EV F) (Ec*EV F) (Es*EV F) ⟨x, 0.0, 0.0⟩
      ⟨dir.x/sqrt (dir.x*dir.x + dir.y*dir.y + dir.z*dir.z),
        dir.y/sqrt (dir.x*dir.x + dir.y*dir.y + dir.z*dir.z),
        dir.z/sqrt (dir.x*dir.x + dir.y*dir.y + dir.z*dir.z)⟩ ∧
    single_ion_bca rcpr fuel ion mat options (tapes k) = .ok (out, tape')

/-! ## Memory -/

/-- The allocation behind a Rust `Vec` of elements of the given size and alignment: the layout of
an array of `capacity` elements. -/
def vecLayout (capacity size align : Nat) : Layout := ⟨capacity*size, align⟩

/-! ## Rotations -/

/-- `R` is a rotation of space: linear, preserving scalar and vector products. -/
structure IsRotation (R : Vec3 ℝ → Vec3 ℝ) : Prop where
  plus : ∀ v w, R (plus v w) = Spec.plus (R v) (R w)
  times : ∀ c v, R (times c v) = Spec.times c (R v)
  inner : ∀ v w, inner (R v) (R w) = Spec.inner v w
  cross : ∀ v w, R (cross v w) = Spec.cross (R v) (R w)

/-- The unit vector along `v`. -/
noncomputable def unitOf (v : Vec3 ℝ) : Vec3 ℝ := times (norm v)⁻¹ v

/-- The offset `rotate_given_surface_normal` adds to the rotated direction to keep away from the x
axis. -/
noncomputable def nudge : Vec3 ℝ := ⟨1e-9, -1e-9, 0⟩

/-! ## Counting -/

/-- `k` as an `i32`. -/
def i32_wrap (k : Int) : Int := (k + 2147483648) % 4294967296 - 2147483648

/-- A target atom that left the surface moving away from it with positive energy. -/
def SputteredAway (q : Particle F) : Prop :=
  q.incident = false ∧ q.left = true ∧ (q.dir.x <. 0.0) = true ∧ (q.E >. 0.0) = true

/-- An ion that left the surface moving away from it with positive energy. -/
def ReflectedBack (q : Particle F) : Prop :=
  q.incident = true ∧ q.left = true ∧ (q.dir.x <. 0.0) = true ∧ (q.E >. 0.0) = true

open Classical in
/-- How many of the particles in `l` satisfy `P`. -/
noncomputable def howMany {α : Type} (P : α → Prop) (l : List α) : Nat :=
  l.countP (fun a => decide (P a))

open Classical in
/-- The energies of the particles in `l` that satisfy `P`. -/
noncomputable def energiesOf (P : Particle F → Prop) (l : List (Particle F)) : List F :=
  (l.filter (fun a => decide (P a))).map (·.E)

end RustBCA.Spec
