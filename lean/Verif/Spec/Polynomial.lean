import Mathlib.Data.Real.Basic

/-! # Specification: value of a polynomial given by coefficients, highest degree first -/

namespace RustBCA.Spec

/-- `c0 y^n + c1 y^(n-1) + ... + cn`. -/
noncomputable def polyValue : List ℝ → ℝ → ℝ
  | [], _ => 0
  | c :: cs, y => c*y^cs.length + polyValue cs y

end RustBCA.Spec
