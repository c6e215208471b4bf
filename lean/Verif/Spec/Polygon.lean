import Verif.Spec.Geometry
import Verif.Model.Geo

/-!
# Vocabulary for C99: polygons
-/

namespace RustBCA.Spec

/-- `X` lies on an edge of the polygon with the given corners: on the segment from a corner to the next one,
or from the last to the first. -/
def OnPolygon (corners : List (ℝ × ℝ)) (X : ℝ × ℝ) : Prop :=
  ∃ (i : ℕ) (A B : ℝ × ℝ), corners[i]? = some A ∧ corners[(i + 1) % corners.length]? = some B ∧ OnSegment A B X

/-- Twice the signed area of the triangle `A B X`: positive if `X` is on the left of the way from `A` to `B`. -/
def leftOf (A B X : ℝ × ℝ) : ℝ := (B.1 - A.1)*(X.2 - A.2) - (B.2 - A.2)*(X.1 - A.1)

/-- The segments `A B` and `P Q` cross: the ends of each are on different sides of the other. -/
def Cross (A B P Q : ℝ × ℝ) : Prop := leftOf A B P*leftOf A B Q < 0 ∧ leftOf P Q A*leftOf P Q B < 0

/-- The edges `A B` of the polygon. -/
def Edge (corners : List (ℝ × ℝ)) (A B : ℝ × ℝ) : Prop :=
  ∃ i : ℕ, corners[i]? = some A ∧ corners[(i + 1) % corners.length]? = some B

/-- A convex polygon, its corners listed counterclockwise (`turn = 1`) or clockwise (`turn = -1`): no corner is
on the wrong side of an edge. -/
def ConvexPolygon (corners : List (ℝ × ℝ)) (turn : ℝ) : Prop :=
  ∀ A B X : ℝ × ℝ, Edge corners A B → X ∈ corners → 0 ≤ turn*leftOf A B X

/-- Not all corners are the same point. -/
def TwoCorners (corners : List (ℝ × ℝ)) : Prop := ∃ A ∈ corners, ∃ B ∈ corners, A ≠ B

end RustBCA.Spec
