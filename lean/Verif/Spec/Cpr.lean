import Verif.Spec.Potentials
import Verif.Model.Bca
import Mathlib.Analysis.Calculus.Deriv.Basic
import Mathlib.Analysis.SpecialFunctions.Log.Basic

/-!
# Specification vocabulary for the Chebyshev-proxy root finder
-/

namespace RustBCA.Spec

/-- The contract of the external solver, for the calls RustBCA makes: `g` is solved and the roots
are polished on `f`.  Whenever the two functions have the same zeros in `[lb, ub]` and the solver
reports success, it reports exactly these zeros. -/
def FindsAllRoots (find : (ℝ → Res ℝ) → (ℝ → Res ℝ) → ℝ → ℝ → Res (Anyhow (List ℝ))) : Prop :=
  ∀ (g f : ℝ → Res ℝ) (G F : ℝ → ℝ) (lb ub : ℝ) (roots : List ℝ),
    (∀ r, 0 < r → g r = .ok (G r)) → (∀ r, 0 < r → f r = .ok (F r)) →
    0 < lb → (∀ r, lb ≤ r → r ≤ ub → (G r = 0 ↔ F r = 0)) →
    find g f lb ub = .ok (.ok roots) →
    ∀ y, y ∈ roots ↔ lb ≤ y ∧ y ≤ ub ∧ F y = 0

/-- The same contract when the roots are polished with Newton's method, which also needs the
derivative of `f`. -/
def FindsAllRootsNewton
    (find : (ℝ → Res ℝ) → (ℝ → Res ℝ) → (ℝ → Res ℝ) → ℝ → ℝ → Res (Anyhow (List ℝ))) : Prop :=
  ∀ (g f df : ℝ → Res ℝ) (G F dF : ℝ → ℝ) (lb ub : ℝ) (roots : List ℝ),
    (∀ r, 0 < r → g r = .ok (G r)) → (∀ r, 0 < r → f r = .ok (F r)) →
    (∀ r, 0 < r → df r = .ok (dF r)) → (∀ r, 0 < r → HasDerivAt F (dF r) r) →
    0 < lb → (∀ r, lb ≤ r → r ≤ ub → (G r = 0 ↔ F r = 0)) →
    find g f df lb ub = .ok (.ok roots) →
    ∀ y, y ∈ roots ↔ lb ≤ y ∧ y ≤ ub ∧ F y = 0

/-- `r` is the outermost turning point of a particle of centre-of-mass energy `E` and impact
parameter `p` in the potential `U`: coming from infinity, the particle turns there. -/
def OutermostTurningPoint (U : ℝ → ℝ) (E p r : ℝ) : Prop :=
  0 < r ∧ TurningPoint (U r) E p r ∧ ∀ r', 0 < r' → TurningPoint (U r') E p r' → r' ≤ r

/-- Potentials with an attractive well, and parameters for which they make sense: the potential
energy is repulsive close by and the Morse well lies at a positive distance. -/
inductive Well : InteractionPotential ℝ → Prop
  | lennard_jones_12_6 {sigma epsilon : ℝ} : 0 < sigma → 0 < epsilon →
      Well (.LENNARD_JONES_12_6 sigma epsilon)
  | lennard_jones_65_6 {sigma epsilon : ℝ} : 0 < sigma → 0 < epsilon →
      Well (.LENNARD_JONES_65_6 sigma epsilon)
  | morse {D alpha r0 : ℝ} : 0 < D → 0 < alpha → Real.log 2 ≤ alpha*r0 →
      Well (.MORSE D alpha r0)
  | tungsten : Well .WW

end RustBCA.Spec
