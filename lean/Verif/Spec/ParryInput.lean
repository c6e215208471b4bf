import Verif.Spec.Solid

/-!
# The triangles an input file describes (C41, C77)
-/

namespace RustBCA.Spec

/-- The triangles listed by `indices`, whose corners are the named vertices, are `tris`. -/
def TrianglesOf (vertices : List Point) (indices : List (ℕ × ℕ × ℕ)) (tris : List Tri) : Prop :=
  List.Forall₂ (fun i t => vertices[i.1]? = some t.1 ∧ vertices[i.2.1]? = some t.2.1 ∧ vertices[i.2.2]? = some t.2.2)
    indices tris

/-- The documented behaviour of `TriMesh::new`: the mesh of the listed triangles. -/
def MakesMeshes (parry : Parry ℝ) : Prop :=
  ∀ vertices indices mesh tris, parry.trimesh_new vertices indices = .ok mesh →
    TrianglesOf vertices indices tris → MeshContract parry mesh tris

/-- A point whose coordinates are given in units of `u` metres, in metres. -/
def inMetres (u : ℝ) (q : Point) : Point := (q.1*u, q.2.1*u, q.2.2*u)

end RustBCA.Spec
