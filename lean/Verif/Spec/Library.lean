import Verif.Spec.Potentials
import Verif.Spec.Deflection
import Verif.Spec.Stopping

/-!
# Specification vocabulary for what library calls simulate (C110)
-/

namespace RustBCA.Spec

/-- The Kr-C screening function of Wilson, Haggmark and Biersack. -/
noncomputable def krC (x : ℝ) : ℝ :=
  0.190945*Real.exp (-(0.278544*x)) + 0.473674*Real.exp (-(0.637174*x)) + 0.335381*Real.exp (-(1.919249*x))

/-- The Kr-C potential (J) of two atoms, with Firsov's screening length. -/
noncomputable def krCPotential (Za Zb r : ℝ) : ℝ := coulombConstant Za Zb/r*krC (r/firsovLength Za Zb)

/-- Mendenhall and Weller's four-point Lobatto formula for the deflection angle, from the distance of
closest approach `x0` and impact parameter `b`, both in screening lengths, and the reduced energy `e`. -/
noncomputable def lobattoAngle (f : ℝ → ℝ) (e b x0 : ℝ) : ℝ :=
  let g := fun x => 1/Real.sqrt (1 - f x/(x*e) - (b/x)^2)
  let g0 := 1/Real.sqrt (1/2 + (b/x0)^2/2 - deriv f x0/(2*e))
  Real.pi*(1 - b/x0*((1 + g0 + 5*(0.4206*g (x0/0.9072)) + 5*(0.9072*g (x0/0.4206)))/12))

end RustBCA.Spec
