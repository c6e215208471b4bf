import Verif.Model.Geometry

/-! # Specification vocabulary for geometries -/

namespace RustBCA.Spec

/-- The three regions of a geometry are nested: material, energy barrier, simulation volume. -/
def Nested {F : Type} (g : Geom F) : Prop := ∀ x y z,
  (g.inside x y z = .ok true → g.inside_energy_barrier x y z = .ok true) ∧
  (g.inside_energy_barrier x y z = .ok true → g.inside_simulation_boundary x y z = .ok true)

/-- Consecutive layers without gap or overlap from `a` to `b`, each of positive thickness. -/
def Tiles {F : Type} [Scalar F] : List (Layer1D F) → F → F → Prop
  | [], a, b => a = b
  | l :: ls, a, b => l.top = a ∧ (l.top <. l.bottom) = true ∧ Tiles ls l.bottom b

/-- All four composition queries of a geometry answer from one record of composition. -/
def AnswersFrom {F : Type} [Scalar F] (g : Geom F) (x y z : F) (densities concentrations : List F)
    (ck : F) : Prop :=
  g.get_densities x y z = .ok densities ∧ g.get_concentrations x y z = .ok concentrations ∧
  g.get_ck x y z = .ok ck ∧ g.get_total_density x y z = .ok (fsum densities)

/-- Euclidean distance in space, squared. -/
def sqDist (x y z : ℝ) (p : ℝ × ℝ × ℝ) : ℝ := (x - p.1)^2 + (y - p.2.1)^2 + (z - p.2.2)^2

/-- `q` is a point of the surface `S`, and no point of `S` is nearer to `(x, y, z)`. -/
def NearestOn (S : Set (ℝ × ℝ × ℝ)) (x y z : ℝ) (q : ℝ × ℝ × ℝ) : Prop :=
  q ∈ S ∧ ∀ p ∈ S, sqDist x y z q ≤ sqDist x y z p

/-- `X` is a convex combination of the three corners. -/
def InTriangle (A B C X : ℝ × ℝ) : Prop := ∃ a b c : ℝ, 0 ≤ a ∧ 0 ≤ b ∧ 0 ≤ c ∧ a + b + c = 1 ∧
  X.1 = a*A.1 + b*B.1 + c*C.1 ∧ X.2 = a*A.2 + b*B.2 + c*C.2

/-- The three corners are not on a line. -/
def NotCollinear (A B C : ℝ × ℝ) : Prop :=
  (B.1 - A.1)*(C.2 - A.2) - (B.2 - A.2)*(C.1 - A.1) ≠ 0

/-- `X` lies on the segment from `A` to `B`. -/
def OnSegment (A B X : ℝ × ℝ) : Prop := ∃ t : ℝ, 0 ≤ t ∧ t ≤ 1 ∧
  X.1 = A.1 + t*(B.1 - A.1) ∧ X.2 = A.2 + t*(B.2 - A.2)

/-- `X` lies on one of the three edges. -/
def OnEdges (A B C X : ℝ × ℝ) : Prop := OnSegment A B X ∨ OnSegment B C X ∨ OnSegment C A X

/-- Euclidean distance in the plane. -/
noncomputable def planeDist (X Y : ℝ × ℝ) : ℝ := Real.sqrt ((X.1 - Y.1)^2 + (X.2 - Y.2)^2)

/-- The triangle of the code with corners `A`, `B`, `C`. -/
def triangle {F : Type} (A B C : F × F) : Triangle2D F :=
  Triangle2D.new A.1 B.1 C.1 A.2 B.2 C.2

/-- Cell number `i` is the first of the cells of least distance `d`. -/
def FirstNearest {F : Type} [Scalar F] (cells : List (Cell2D F)) (x y z : F) (i : Nat)
    (c : Cell2D F) : Prop :=
  cells[i]? = some c ∧ ∃ d, c.distance_to x y z = .ok d ∧
    (∀ (j : Nat) (c' : Cell2D F) (d' : F), cells[j]? = some c' → c'.distance_to x y z = .ok d' → (d' <. d) = false) ∧
    (∀ (j : Nat) (c' : Cell2D F) (d' : F), j < i → cells[j]? = some c' → c'.distance_to x y z = .ok d' →
      (d' <=. d) = false)

end RustBCA.Spec
