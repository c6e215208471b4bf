import Verif.Model.Bca

/-!
# What it means for two particles, options or targets to be physically the same

Small specification used by C69, C70 and C85.  `P` says which positions correspond (it may depend on
whether the particle is an incident ion), `L` how directions are turned.
-/

namespace RustBCA.Spec
open Scalar

/-- `q` is the particle `p` at a corresponding position and with its direction turned by `L`; records kept for the user (trajectory,
energy losses, tracking switch) and labels (weight, tag, tracked vector) are ignored. -/
structure SamePhysics {F : Type} (P : Bool → Vec3 F → Vec3 F → Prop) (L : Vec3 F → Vec3 F)
    (p q : Particle F) : Prop where
  m : q.m = p.m
  Z : q.Z = p.Z
  E : q.E = p.E
  Ec : q.Ec = p.Ec
  Es : q.Es = p.Es
  Ed : q.Ed = p.Ed
  pos : P p.incident p.pos q.pos
  dir : q.dir = L p.dir
  pos_old : P p.incident p.pos_old q.pos_old
  dir_old : q.dir_old = L p.dir_old
  pos_origin : P p.incident p.pos_origin q.pos_origin
  energy_origin : q.energy_origin = p.energy_origin
  asymptotic_deflection : q.asymptotic_deflection = p.asymptotic_deflection
  stopped : q.stopped = p.stopped
  left : q.left = p.left
  incident : q.incident = p.incident
  first_step : q.first_step = p.first_step
  number_collision_events : q.number_collision_events = p.number_collision_events
  backreflected : q.backreflected = p.backreflected
  interaction_index : q.interaction_index = p.interaction_index

/-- The two option records ask for the same physics; they may differ in the run's name, in what is
recorded and written, and in how the work is divided. -/
structure SamePhysicsOptions {F : Type} (o o' : Options F) : Prop where
  track_recoils : o'.track_recoils = o.track_recoils
  weak_collision_order : o'.weak_collision_order = o.weak_collision_order
  suppress_deep_recoils : o'.suppress_deep_recoils = o.suppress_deep_recoils
  high_energy_free_flight_paths :
    o'.high_energy_free_flight_paths = o.high_energy_free_flight_paths
  electronic_stopping_mode : o'.electronic_stopping_mode = o.electronic_stopping_mode
  mean_free_path_model : o'.mean_free_path_model = o.mean_free_path_model
  interaction_potential : o'.interaction_potential = o.interaction_potential
  scattering_integral : o'.scattering_integral = o.scattering_integral
  root_finder : o'.root_finder = o.root_finder

/-- Seen from corresponding positions the targets `mat` and `mat'` look alike: they have the same
tables, every query has the same answer, and the vector to the closest surface point is turned by
`L`. -/
structure SameTarget {F : Type} [Scalar F] (P : Bool → Vec3 F → Vec3 F → Prop) (L : Vec3 F → Vec3 F)
    (mat mat' : Material F) : Prop where
  m : mat'.m = mat.m
  Z : mat'.Z = mat.Z
  Eb : mat'.Eb = mat.Eb
  Es : mat'.Es = mat.Es
  Ec : mat'.Ec = mat.Ec
  Ed : mat'.Ed = mat.Ed
  interaction_index : mat'.interaction_index = mat.interaction_index
  surface_binding_model : mat'.surface_binding_model = mat.surface_binding_model
  bulk_binding_model : mat'.bulk_binding_model = mat.bulk_binding_model
  densities : ∀ {b p q}, P b p q →
    mat'.geometry.get_densities q.x q.y q.z = mat.geometry.get_densities p.x p.y p.z
  ck : ∀ {b p q}, P b p q → mat'.geometry.get_ck q.x q.y q.z = mat.geometry.get_ck p.x p.y p.z
  total : ∀ {b p q}, P b p q →
    mat'.geometry.get_total_density q.x q.y q.z = mat.geometry.get_total_density p.x p.y p.z
  concentrations : ∀ {b p q}, P b p q →
    mat'.geometry.get_concentrations q.x q.y q.z = mat.geometry.get_concentrations p.x p.y p.z
  inside : ∀ {b p q}, P b p q →
    mat'.geometry.inside q.x q.y q.z = mat.geometry.inside p.x p.y p.z
  boundary : ∀ {b p q}, P b p q → mat'.geometry.inside_simulation_boundary q.x q.y q.z =
    mat.geometry.inside_simulation_boundary p.x p.y p.z
  barrier : ∀ {b p q}, P b p q → mat'.geometry.inside_energy_barrier q.x q.y q.z =
    mat.geometry.inside_energy_barrier p.x p.y p.z
  closest : ∀ {b p q}, P b p q →
    (∃ c d, mat.geometry.closest_point p.x p.y p.z = .ok c ∧
      mat'.geometry.closest_point q.x q.y q.z = .ok d ∧
      (⟨d.1 - q.x, d.2.1 - q.y, d.2.2 - q.z⟩ : Vec3 F) =
        L ⟨c.1 - p.x, c.2.1 - p.y, c.2.2 - p.z⟩) ∨
    ∃ e, mat.geometry.closest_point p.x p.y p.z = .error e ∧
      mat'.geometry.closest_point q.x q.y q.z = .error e
  /-- The code looks stopping powers up at `(x, y, y)`. -/
  ck_yy : ∀ {b p q}, P b p q →
    mat'.geometry.get_ck q.x q.y q.y = mat.geometry.get_ck p.x p.y p.y
  densities_yy : ∀ {b p q}, P b p q →
    mat'.geometry.get_densities q.x q.y q.y = mat.geometry.get_densities p.x p.y p.y

/-- Corresponding positions stay so when particles move, collide and set recoils going, and `L` is
linear and keeps lengths and scattering angles, as far as the arithmetic of the code can tell. -/
structure Rigid {F : Type} [Scalar F] (P : Bool → Vec3 F → Vec3 F → Prop) (L : Vec3 F → Vec3 F) :
    Prop where
  move : ∀ {b : Bool} {p q : Vec3 F}, P b p q → ∀ (d : Vec3 F) (s : F),
    P b ⟨p.x + d.x*s, p.y + d.y*s, p.z + d.z*s⟩
      ⟨q.x + (L d).x*s, q.y + (L d).y*s, q.z + (L d).z*s⟩
  recoil : ∀ {b : Bool} {p q : Vec3 F}, P b p q → ∀ (d : Vec3 F) (g : BinaryCollisionGeometry F),
    P false (recoil_position p d g) (recoil_position q (L d) g)
  deflect : ∀ (d : Vec3 F) (psi phi : F), (Particle.rotated_dir (L d) psi phi).normalize =
    L (Particle.rotated_dir d psi phi).normalize
  length : ∀ v : Vec3 F, (L v).x*(L v).x + (L v).y*(L v).y + (L v).z*(L v).z =
    v.x*v.x + v.y*v.y + v.z*v.z
  cosine : ∀ (v d : Vec3 F) (m : F), (L v).x*(L d).x/m + (L v).y*(L d).y/m + (L v).z*(L d).z/m =
    v.x*d.x/m + v.y*d.y/m + v.z*d.z/m
  dot : ∀ u v : Vec3 F, (L u).dot (L v) = u.dot v
  scale : ∀ (v : Vec3 F) (m : F), (⟨(L v).x/m, (L v).y/m, (L v).z/m⟩ : Vec3 F) =
    L ⟨v.x/m, v.y/m, v.z/m⟩
  scale_neg : ∀ (v : Vec3 F) (m : F), (⟨-(L v).x/m, -(L v).y/m, -(L v).z/m⟩ : Vec3 F) =
    L ⟨-v.x/m, -v.y/m, -v.z/m⟩
  combine : ∀ (a b : F) (d n : Vec3 F),
    (⟨a*(L d).x + b*(L n).x, a*(L d).y + b*(L n).y, a*(L d).z + b*(L n).z⟩ : Vec3 F) =
      L ⟨a*d.x + b*n.x, a*d.y + b*n.y, a*d.z + b*n.z⟩
  reflect : ∀ (c m : F) (v d : Vec3 F),
    (⟨c*(L v).x/m + (L d).x, c*(L v).y/m + (L d).y, c*(L v).z/m + (L d).z⟩ : Vec3 F) =
      L ⟨c*v.x/m + d.x, c*v.y/m + d.y, c*v.z/m + d.z⟩

/-- The position is the same. -/
def AtSamePlace {F : Type} (_ : Bool) (p q : Vec3 F) : Prop := q = p

/-- The position is moved by `a`. -/
def MovedBy (a : Vec3 ℝ) (_ : Bool) (p q : Vec3 ℝ) : Prop := q = ⟨p.x + a.x, p.y + a.y, p.z + a.z⟩

/-- A vector turned by the angle `α` about the `x` axis. -/
noncomputable def turn (α : ℝ) (v : Vec3 ℝ) : Vec3 ℝ :=
  ⟨v.x, Real.cos α*v.y - Real.sin α*v.z, Real.sin α*v.y + Real.cos α*v.z⟩

/-- The depth is the same and, if it is an incident ion's, the position is turned by `α` about the
`x` axis. -/
def TurnedBy (α : ℝ) (incident : Bool) (p q : Vec3 ℝ) : Prop :=
  q.x = p.x ∧ (incident = true → q = turn α p)

end RustBCA.Spec
