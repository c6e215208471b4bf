import Verif.Double
import Verif.Model.Basic

/-!
# Specification vocabulary for directions in double precision
-/

namespace RustBCA.Spec

/-- The square of the length of a vector of doubles, computed exactly. -/
noncomputable def exactSquare {A : DoubleArith} (v : Vec3 (Dbl A)) : ℝ :=
  v.x.val^2 + v.y.val^2 + v.z.val^2

/-- A direction of length 1 to double precision, no component of which exceeds 1 - or it is
undefined: the vector 0 divided by its length, which is 0 in this arithmetic and NaN in the
hardware's. -/
def UnitDirection {A : DoubleArith} (v : Vec3 (Dbl A)) : Prop :=
  (exactSquare v = 0 ∨ |exactSquare v - 1| ≤ 2^(-50:ℤ)) ∧
  |v.x.val| ≤ 1 ∧ |v.y.val| ≤ 1 ∧ |v.z.val| ≤ 1

end RustBCA.Spec
