import Verif.Spec.ParryInput

/-!
# Specification vocabulary for the energy barrier and the simulation volume (C109)
-/

namespace RustBCA.Spec

/-- The points nearer than `d` to a point of `T`. -/
def Around (T : Set Point) (d : ℝ) : Set Point :=
  {p | ∃ q ∈ T, Real.sqrt (sqDist p.1 p.2.1 p.2.2 q) < d}

/-- `d` is `2/√π` times the interatomic spacing of material with `n` atoms per cubic metre. -/
def IsThickness (n d : ℝ) : Prop := ∃ s, 0 < s ∧ s^3*n = 1 ∧ d = 2/Real.sqrt Real.pi*s

/-- Energy barrier and simulation volume of a target are the points nearer than `d` and `10 d` to
the material. -/
def SurroundedBy (g : Geom ℝ) (T : Set Point) (d : ℝ) : Prop := ∀ x y z,
  (g.inside_energy_barrier x y z = .ok true ↔ (x, y, z) ∈ Around T d) ∧
  (g.inside_simulation_boundary x y z = .ok true ↔ (x, y, z) ∈ Around T (10*d))

/-- All triangles of a mesh. -/
def surfaceOf (tris : List Tri) : Set Point := {q | ∃ t ∈ tris, OnTri t q}

/-- The smallest box, with sides along the axes, around a mesh. -/
def boxOf (tris : List Tri) : Set Point := {p |
  ∀ coord ∈ [(fun q : Point => q.1), (fun q => q.2.1), (fun q => q.2.2)],
    (∃ t ∈ tris, ∃ v ∈ [t.1, t.2.1, t.2.2], coord v ≤ coord p) ∧
    (∃ t ∈ tris, ∃ v ∈ [t.1, t.2.1, t.2.2], coord p ≤ coord v)}

/-- `r` is the distance of `p` to the nearest point of `T`. -/
def IsDistance (T : Set Point) (p : Point) (r : ℝ) : Prop :=
  (∃ q ∈ T, r = Real.sqrt (sqDist p.1 p.2.1 p.2.2 q)) ∧
  ∀ q ∈ T, r ≤ Real.sqrt (sqDist p.1 p.2.1 p.2.2 q)

/-- The documented behaviour of the distance queries of `parry3d_f64` for the mesh of the triangles
`tris`: the distance to the nearest triangle, the distance to the bounding box, and the nearest
point on the triangles. -/
structure DistanceContract (parry : Parry ℝ) (mesh : parry.Mesh) (tris : List Tri) : Prop where
  surface : ∀ p, IsDistance (surfaceOf tris) p (parry.trimesh_distance mesh p true)
  box : ∀ p, IsDistance (boxOf tris) p (parry.aabb_distance mesh p true)
  project : ∀ p : Point,
    NearestOn (surfaceOf tris) p.1 p.2.1 p.2.2 (parry.trimesh_project mesh p false)

/-- `TriMesh::new` makes meshes with such queries. -/
def MeasuresMeshes (parry : Parry ℝ) : Prop :=
  ∀ vertices indices mesh tris, parry.trimesh_new vertices indices = .ok mesh →
    TrianglesOf vertices indices tris → tris ≠ [] → DistanceContract parry mesh tris

end RustBCA.Spec
