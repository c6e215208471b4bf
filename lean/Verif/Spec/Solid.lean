import Verif.Spec.Parry
import Mathlib.Topology.MetricSpace.Bounded

/-!
# Solids bounded by triangles, convex or not (C77)
-/

namespace RustBCA.Spec

/-- `q` lies in the triangle and not on its edges. -/
def InTri (t : Tri) (q : Point) : Prop := ∃ a b c : ℝ, 0 < a ∧ 0 < b ∧ 0 < c ∧ a + b + c = 1 ∧
  q = (a*t.1.1 + b*t.2.1.1 + c*t.2.2.1, a*t.1.2.1 + b*t.2.1.2.1 + c*t.2.2.2.1,
    a*t.1.2.2 + b*t.2.1.2.2 + c*t.2.2.2.2)

/-- The triangles are the surface, oriented outwards, of the body: the body is bounded, its boundary is covered by
the triangles, and at every place of a triangle (off its edges) the points just behind the triangle belong
to the body and those just in front of it do not.  The body may have any shape and any number of pieces and
cavities. -/
structure SolidSurface (tris : List Tri) (body : Set Point) : Prop where
  bounded : Bornology.IsBounded body
  covered : ∀ q ∈ frontier body, ∃ t ∈ tris, OnTri t q
  sides : ∀ t ∈ tris, ∀ q, InTri t q → ∃ ε > 0, ∀ p : Point, dist p q < ε →
    (StrictlyBehind t p → p ∈ body) ∧ (dot (normal t) t.1 < dot (normal t) p → p ∉ body)

/-- The ray from `p` in direction +x meets the triangles only off their edges, never along their plane, and `p` is
on none of them. -/
def ClearRay (tris : List Tri) (p : Point) : Prop :=
  ∀ t ∈ tris, ∀ s : ℝ, 0 ≤ s → OnTri t (alongX p s) → 0 < s ∧ (normal t).1 ≠ 0 ∧ InTri t (alongX p s)

end RustBCA.Spec
