import Verif.Spec.Potentials
import Verif.Spec.Input
import Mathlib.MeasureTheory.Integral.Bochner.Set
import Mathlib.MeasureTheory.Measure.Lebesgue.Basic
import Mathlib.Analysis.Calculus.Deriv.Basic

/-!
# Vocabulary for C84: classical scattering by a central potential
-/

namespace RustBCA.Spec
open Filter Topology

/-- Fraction of the centre-of-mass energy `E` in the radial motion, at distance `r` in the potential
`U` for impact parameter `p`. -/
noncomputable def radial (U : ℝ → ℝ) (E p r : ℝ) : ℝ := 1 - U r/E - p^2/r^2

/-- The classical deflection angle, `pi - 2 p ∫_{r0}^∞ dr/(r^2 sqrt(1 - U(r)/E - p^2/r^2))`, with
`r0` the distance of closest approach (Landau and Lifshitz, Mechanics, section 18). -/
noncomputable def deflection (U : ℝ → ℝ) (E p r0 : ℝ) : ℝ :=
  Real.pi - 2*p*∫ r in Set.Ioi r0, 1/(r^2*Real.sqrt (radial U E p r))

/-- `r0` is the outermost turning point, and a simple one; the potential is continuous beyond it and
vanishes at infinity. -/
structure ClosestApproach (U : ℝ → ℝ) (E p r0 : ℝ) : Prop where
  pos : 0 < r0
  zero : radial U E p r0 = 0
  beyond : ∀ r, r0 < r → 0 < radial U E p r
  simple : ∃ d, 0 < d ∧ HasDerivAt (radial U E p) d r0
  continuous : ContinuousOn U (Set.Ici r0)
  vanishes : Tendsto U atTop (𝓝 0)

/-- Coulomb's constant for charges `Z1` and `Z2`: `Z1 Z2 e^2/(4 pi eps0)`, with the elementary charge
and vacuum permittivity in SI units. -/
noncomputable def coulombConstant (Z1 Z2 : ℝ) : ℝ :=
  Z1*Z2*1.602176634e-19^2/(4*Real.pi*8.8541878128e-12)

end RustBCA.Spec
