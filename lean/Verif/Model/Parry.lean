import Verif.Model.Geometry

/-!
# Ball and triangle-mesh targets (parry.rs, feature `parry3d`)

The shapes themselves are external code (crate `parry3d_f64`); the operations parry.rs calls enter
as the parameter `Parry`.  What the theorems assume about them is stated where they are used.
-/

namespace RustBCA
open Scalar

/-- The operations of the crate `parry3d_f64` that parry.rs calls: on a `Ball` given by its radius
and on a `TriMesh` (type `Mesh`).  `trimesh_cast_ray` is `cast_ray_and_get_normal` with the identity
isometry, of which parry.rs uses only the `feature` of the hit (type `Feature`). -/
structure Parry (F : Type) where
  ball_contains : F → F × F × F → Bool
  ball_distance : F → F × F × F → (solid : Bool) → F
  ball_project : F → F × F × F → (solid : Bool) → F × F × F
  Mesh : Type
  Feature : Type
  trimesh_new : List (F × F × F) → List (Nat × Nat × Nat) → Res Mesh
  aabb_contains : Mesh → F × F × F → Bool
  aabb_distance : Mesh → F × F × F → (solid : Bool) → F
  trimesh_distance : Mesh → F × F × F → (solid : Bool) → F
  trimesh_project : Mesh → F × F × F → (solid : Bool) → F × F × F
  trimesh_cast_ray : Mesh → (origin dir : F × F × F) → (max_toi : F) → (solid : Bool) →
    Option Feature
  trimesh_is_backface : Mesh → Feature → Bool

variable {F : Type} [Scalar F]

/-- parry.rs:35-41 `ParryBallInput` (the same fields as `SphereInput`). -/
structure ParryBallInput (F : Type) where
  length_unit : String
  radius : F
  densities : List F
  electronic_stopping_correction_factor : F

/-- parry.rs:43-51 `ParryBall`; the field `ball` is `Ball::new(radius)`, hence given by `radius`. -/
structure ParryBall (F : Type) where
  densities : List F
  concentrations : List F
  radius : F
  electronic_stopping_correction_factor : F
  energy_barrier_thickness : F

namespace ParryBall

/-- parry.rs:61-92 `ParryBall::new`. -/
def new (ext : Ext F) (input : ParryBallInput F) : Res (ParryBall F) := do
  let length_unit ← length_unit_of ext input.length_unit
  let densities := convert_densities length_unit input.densities
  let total_density := fsum densities
  pure {
    densities := densities
    concentrations := concentrations_of densities
    radius := input.radius*length_unit
    electronic_stopping_correction_factor := input.electronic_stopping_correction_factor
    energy_barrier_thickness := barrier_thickness total_density }

/-- parry.rs:94-126 the queries of `ParryBall`. -/
def toGeom (parry : Parry F) (g : ParryBall F) : Geom F where
  get_densities _ _ _ := .ok g.densities
  get_ck _ _ _ := .ok g.electronic_stopping_correction_factor
  get_total_density _ _ _ := .ok (fsum g.densities)
  get_concentrations _ _ _ := .ok g.concentrations
  inside x y z := .ok (parry.ball_contains g.radius (x, y, z))
  inside_simulation_boundary x y z :=
    .ok (parry.ball_distance g.radius (x, y, z) true <. 10.0*g.energy_barrier_thickness)
  inside_energy_barrier x y z :=
    .ok (parry.ball_distance g.radius (x, y, z) true <. g.energy_barrier_thickness)
  closest_point x y z := .ok (parry.ball_project g.radius (x, y, z) false)

end ParryBall

/-- parry.rs:157-164 `ParryTriMeshInput`. -/
structure ParryTriMeshInput (F : Type) where
  length_unit : String
  densities : List F
  electronic_stopping_correction_factor : F
  vertices : List (F × F × F)
  indices : List (Nat × Nat × Nat)

/-- parry.rs:166-174 `ParryTriMesh`; `boundary` is `trimesh.aabb(identity)` (parry.rs:209), hence
given by `trimesh`. -/
structure ParryTriMesh (F : Type) (parry : Parry F) where
  densities : List F
  concentrations : List F
  electronic_stopping_correction_factor : F
  energy_barrier_thickness : F
  trimesh : parry.Mesh

/-- parry.rs:265-294 `inside_trimesh`. -/
def inside_trimesh (parry : Parry F) (trimesh : parry.Mesh) (x y z : F) : Bool :=
  if !(parry.aabb_contains trimesh (x, y, z)) then false
  else
    match parry.trimesh_cast_ray trimesh (x, y, z) (1.0, 0.0, 0.0) 1.0 false with
    | some feature => parry.trimesh_is_backface trimesh feature
    | none => false

namespace ParryTriMesh

/-- parry.rs:184-219 `ParryTriMesh::new`. -/
def new (ext : Ext F) (parry : Parry F) (input : ParryTriMeshInput F) :
    Res (ParryTriMesh F parry) := do
  let length_unit ← length_unit_of ext input.length_unit
  let densities := convert_densities length_unit input.densities
  let total_density := fsum densities
  let points := input.vertices.map fun p => (p.1*length_unit, p.2.1*length_unit, p.2.2*length_unit)
  let trimesh ← parry.trimesh_new points input.indices
  pure {
    densities := densities
    concentrations := concentrations_of densities
    electronic_stopping_correction_factor := input.electronic_stopping_correction_factor
    energy_barrier_thickness := barrier_thickness total_density
    trimesh := trimesh }

/-- parry.rs:221-262 the queries of `ParryTriMesh`. -/
def toGeom {parry : Parry F} (g : ParryTriMesh F parry) : Geom F where
  get_densities _ _ _ := .ok g.densities
  get_ck _ _ _ := .ok g.electronic_stopping_correction_factor
  get_total_density _ _ _ := .ok (fsum g.densities)
  get_concentrations _ _ _ := .ok g.concentrations
  inside x y z := .ok (inside_trimesh parry g.trimesh x y z)
  inside_simulation_boundary x y z :=
    if inside_trimesh parry g.trimesh x y z then .ok true
    else .ok (parry.aabb_distance g.trimesh (x, y, z) true <. 10.0*g.energy_barrier_thickness)
  inside_energy_barrier x y z :=
    if inside_trimesh parry g.trimesh x y z then .ok true
    else .ok (parry.trimesh_distance g.trimesh (x, y, z) true <. g.energy_barrier_thickness)
  closest_point x y z := .ok (parry.trimesh_project g.trimesh (x, y, z) false)

end ParryTriMesh

end RustBCA
