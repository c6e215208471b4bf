import Verif.Model.Parry
import Verif.Spec.Geometry
import Mathlib.Analysis.SpecialFunctions.Pow.Real

/-!
# What is assumed of the crate `parry3d_f64`, and what a triangle mesh encloses (C76, C77)
-/

namespace RustBCA.Spec

/-- The documented behaviour of `parry3d_f64::shape::Ball` (in exact arithmetic): a ball contains
the points at distance at most `r` from the origin; the distance to a solid ball is zero inside; the
projection on the surface is the nearest surface point, obtained by scaling (undefined at the
centre). -/
structure BallContract (parry : Parry ℝ) : Prop where
  contains : ∀ r x y z, parry.ball_contains r (x, y, z) = true ↔ Real.sqrt (x^2 + y^2 + z^2) ≤ r
  distance : ∀ r x y z, parry.ball_distance r (x, y, z) true =
    max 0 (Real.sqrt (x^2 + y^2 + z^2) - r)
  project : ∀ r x y z, x^2 + y^2 + z^2 ≠ 0 → parry.ball_project r (x, y, z) false =
    (x*(r/Real.sqrt (x^2 + y^2 + z^2)), y*(r/Real.sqrt (x^2 + y^2 + z^2)),
      z*(r/Real.sqrt (x^2 + y^2 + z^2)))

/-- A point in space. -/
abbrev Point := ℝ × ℝ × ℝ

/-- A triangle in space. -/
abbrev Tri := Point × Point × Point

/-- Scalar product. -/
def dot (a b : Point) : ℝ := a.1*b.1 + a.2.1*b.2.1 + a.2.2*b.2.2

/-- `(b - a) × (c - a)`: the normal of the triangle `a b c`, outwards if its corners are listed
counterclockwise as seen from outside. -/
def normal (t : Tri) : Point :=
  let u := (t.2.1.1 - t.1.1, t.2.1.2.1 - t.1.2.1, t.2.1.2.2 - t.1.2.2)
  let v := (t.2.2.1 - t.1.1, t.2.2.2.1 - t.1.2.1, t.2.2.2.2 - t.1.2.2)
  (u.2.1*v.2.2 - u.2.2*v.2.1, u.2.2*v.1 - u.1*v.2.2, u.1*v.2.1 - u.2.1*v.1)

/-- `q` is a convex combination of the corners. -/
def OnTri (t : Tri) (q : Point) : Prop := ∃ a b c : ℝ, 0 ≤ a ∧ 0 ≤ b ∧ 0 ≤ c ∧ a + b + c = 1 ∧
  q = (a*t.1.1 + b*t.2.1.1 + c*t.2.2.1, a*t.1.2.1 + b*t.2.1.2.1 + c*t.2.2.2.1,
    a*t.1.2.2 + b*t.2.1.2.2 + c*t.2.2.2.2)

/-- The point reached from `p` after a way `s` in direction +x. -/
def alongX (p : Point) (s : ℝ) : Point := (p.1 + s, p.2.1, p.2.2)

/-- On the inner side of the plane of `t`, or on it. -/
def Behind (t : Tri) (p : Point) : Prop := dot (normal t) p ≤ dot (normal t) t.1
/-- Strictly on the inner side of the plane of `t`. -/
def StrictlyBehind (t : Tri) (p : Point) : Prop := dot (normal t) p < dot (normal t) t.1

/-- The triangles are the surface, oriented outwards, of the bounded convex body of all points
behind all of them. -/
structure ConvexSurface (tris : List Tri) : Prop where
  outward : ∀ t ∈ tris, ∀ t' ∈ tris, Behind t t'.1 ∧ Behind t t'.2.1 ∧ Behind t t'.2.2
  covered : ∀ q, (∀ t ∈ tris, Behind t q) → (∃ t ∈ tris, dot (normal t) q = dot (normal t) t.1) →
    ∃ t ∈ tris, OnTri t q
  bounded : ∃ B, ∀ q, (∀ t ∈ tris, Behind t q) → -B ≤ q.1 ∧ q.1 ≤ B

/-- The body: all points behind all triangles. -/
def Enclosed (tris : List Tri) (p : Point) : Prop := ∀ t ∈ tris, Behind t p
/-- Its interior. -/
def StrictlyEnclosed (tris : List Tri) (p : Point) : Prop := ∀ t ∈ tris, StrictlyBehind t p

/-- A ray from `p` in direction +x crosses triangle `t` (not parallel to it) after the way `s`. -/
def Crosses (t : Tri) (p : Point) (s : ℝ) : Prop :=
  0 ≤ s ∧ (normal t).1 ≠ 0 ∧ OnTri t (alongX p s)

/-- The documented behaviour of `parry3d_f64::shape::TriMesh` for the mesh `mesh` of the triangles
`tris`: its bounding box is the box of its corners; casting a ray of length `L` reports the first
triangle crossed, if one is crossed within `L`; the reported face is a back face if the ray crosses
it from its inner side. -/
structure MeshContract (parry : Parry ℝ) (mesh : parry.Mesh) (tris : List Tri) : Prop where
  box : ∀ p : Point, parry.aabb_contains mesh p = true ↔
    ∀ coord ∈ [(fun q : Point => q.1), (fun q => q.2.1), (fun q => q.2.2)],
      (∃ t ∈ tris, ∃ v ∈ [t.1, t.2.1, t.2.2], coord v ≤ coord p) ∧
      (∃ t ∈ tris, ∃ v ∈ [t.1, t.2.1, t.2.2], coord p ≤ coord v)
  hit : ∀ (p : Point) (L : ℝ) (f : parry.Feature),
    parry.trimesh_cast_ray mesh p (1, 0, 0) L false = some f →
    ∃ t ∈ tris, ∃ s, s ≤ L ∧ Crosses t p s ∧
      (parry.trimesh_is_backface mesh f = true ↔ 0 < (normal t).1) ∧
      ∀ t' ∈ tris, ∀ s', Crosses t' p s' → s ≤ s'
  miss : ∀ (p : Point) (L : ℝ), parry.trimesh_cast_ray mesh p (1, 0, 0) L false = none →
    ∀ t ∈ tris, ∀ s, Crosses t p s → L < s

end RustBCA.Spec
