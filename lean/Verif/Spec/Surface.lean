import Verif.Spec.Vectors

/-! # Specification vocabulary for crossing the surface -/

namespace RustBCA.Spec

/-- Energy of the motion along the unit vector `n`. -/
noncomputable def normalEnergy (E : ℝ) (u n : Vec3 ℝ) : ℝ := E*(inner u n)^2

/-- Mirror image of the direction `u` in the plane with unit normal `n`. -/
noncomputable def mirrored (u n : Vec3 ℝ) : Vec3 ℝ := minus u (times (2*inner u n) n)

/-- `q` results from `p` by passing through a plane with unit normal `n` where the potential drops
by `Es`: the energy grows by `Es`, the momentum parallel to the plane stays the same, the normal
energy grows by `Es`, and the particle moves along `n`. -/
structure Refracted (p q : Particle ℝ) (n : Vec3 ℝ) (Es : ℝ) : Prop where
  energy : q.E = p.E + Es
  unit : IsUnit q.dir
  tangential : cross (momentum q.m q.E q.dir) n = cross (momentum p.m p.E p.dir) n
  normal : normalEnergy q.E q.dir n = normalEnergy p.E p.dir n + Es
  forward : 0 ≤ inner q.dir n
  rest : q = { p with E := q.E, dir := q.dir }

/-- The energy barrier answers `old` for the previous and `new` for the present position. -/
def Barrier {F : Type} (mat : Material F) (p : Particle F) (old new : Bool) : Prop :=
  mat.geometry.inside_energy_barrier p.pos_old.x p.pos_old.y p.pos_old.z = .ok old ∧
  mat.geometry.inside_energy_barrier p.pos.x p.pos.y p.pos.z = .ok new

/-- The closest surface point is at distance `d > 0` from the particle in the direction `n`. -/
def SurfaceAt (mat : Material ℝ) (p : Particle ℝ) (d : ℝ) (n : Vec3 ℝ) : Prop :=
  0 < d ∧ IsUnit n ∧ mat.geometry.closest_point p.pos.x p.pos.y p.pos.z
    = .ok (p.pos.x + d*n.x, p.pos.y + d*n.y, p.pos.z + d*n.z)

/-- The surface potential acts on the total energy instead of the normal energy. -/
def Isotropic : SurfaceBindingModel → Prop
  | .ISOTROPIC _ => True
  | _ => False

end RustBCA.Spec
