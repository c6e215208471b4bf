import Verif.Double
import Verif.Model.Material

/-!
# Specification vocabulary for energies in double precision
-/

namespace RustBCA.Spec

/-- What is asked of the hardware and the mathematical library: ties are rounded the same way
whatever the exponent, `powi(2)` is a multiplication, and no sine exceeds 1. -/
structure RegularArith (A : DoubleArith) : Prop where
  scales : ∀ x, A.rnd (2*x) = 2*A.rnd x
  square : ∀ x, A.powi x 2 = x*x
  sine : ∀ x, |A.sin x| ≤ 1

/-- Two masses that are equal, or differ by more than one part in `2^24` of their mean. -/
def EqualOrApart (a b : ℝ) : Prop := a = b ∨ 2^(-25:ℤ)*(a + b) ≤ |a - b|

/-- A target of sound data in double precision: positive masses, no two of them almost equal, and no
negative energies or concentrations. -/
structure SoundDoubles {A : DoubleArith} (mat : Material (Dbl A)) : Prop where
  mass : ∀ m ∈ mat.m, 0 < m.val
  apart : ∀ a ∈ mat.m, ∀ b ∈ mat.m, EqualOrApart a.val b.val
  cutoff : ∀ E ∈ mat.Ec, 0 ≤ E.val
  binding : ∀ E ∈ mat.Es, 0 ≤ E.val
  concentrations : ∀ x y z cs, mat.geometry.get_concentrations x y z = .ok cs → ∀ c ∈ cs, 0 ≤ c.val

/-- A particle of sound data: positive mass, not almost equal to one of the target's, and no
negative energies. -/
structure SoundDouble {A : DoubleArith} (mat : Material (Dbl A)) (p : Particle (Dbl A)) : Prop where
  mass : 0 < p.m.val
  apart : ∀ b ∈ mat.m, EqualOrApart p.m.val b.val
  energy : 0 ≤ p.E.val
  binding : 0 ≤ p.Es.val

end RustBCA.Spec
