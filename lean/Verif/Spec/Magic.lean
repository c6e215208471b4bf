import Verif.Spec.Deflection
import Mathlib.Analysis.SpecialFunctions.Pow.Real
import Mathlib.Analysis.SpecialFunctions.Trigonometric.Inverse

/-!
# Vocabulary for C86: the "magic formula" of Biersack and Haggmark

J. P. Biersack and L. G. Haggmark, Nucl. Instrum. Methods 174 (1980) 257; constants for other
potentials in J. P. Biersack and W. Eckstein, Appl. Phys. A 34 (1984) 73, and in TRIM.
-/

namespace RustBCA.Spec

/-- The five constants of the formula. -/
structure MagicConstants where
  C1 : ℝ
  C2 : ℝ
  C3 : ℝ
  C4 : ℝ
  C5 : ℝ

/-- The formula: the scattering angle in the centre-of-mass system from the reduced energy `ε`, the
impact parameter `B`, the distance of closest approach `R0` and the sum `Rc` of the radii of
curvature of the trajectories there, all in units of the screening length:
`cos (θ/2) = (B + Rc + Δ)/(R0 + Rc)`, with `Δ = A (R0 - B)/(1 + G)`, `A = 2 α ε B^β`,
`G = γ/(sqrt(1 + A^2) - A)`, `α = 1 + C1/sqrt ε`, `β = (C2 + sqrt ε)/(C3 + sqrt ε)`,
`γ = (C4 + ε)/(C5 + ε)`. -/
noncomputable def magicAngle (C : MagicConstants) (ε B R0 Rc : ℝ) : ℝ :=
  let α := 1 + C.C1/Real.sqrt ε
  let β := (C.C2 + Real.sqrt ε)/(C.C3 + Real.sqrt ε)
  let γ := (C.C4 + ε)/(C.C5 + ε)
  let A := 2*α*ε*B^β
  let G := γ/(Real.sqrt (1 + A^2) - A)
  let Δ := A*(R0 - B)/(1 + G)
  2*Real.arccos ((B + Rc + Δ)/(R0 + Rc))

/-- Published constants: Molière, Kr-C (Wilson, Haggmark, Biersack), ZBL, and the set the TRIDYN
program uses for Kr-C. -/
inductive MagicFor : InteractionPotential ℝ → MagicConstants → Prop
  | moliere : MagicFor .MOLIERE ⟨0.6743, 0.009611, 0.005175, 10.0, 6.314⟩
  | kr_c : MagicFor .KR_C ⟨0.7887, 0.01166, 0.006913, 17.16, 10.79⟩
  | zbl : MagicFor .ZBL ⟨0.99229, 0.011615, 0.0071222, 14.813, 9.3066⟩
  | tridyn : MagicFor .TRIDYN ⟨1.0144, 0.235809, 0.126, 69350, 83550⟩

/-- The same constants with the last two exchanged. -/
def MagicConstants.exchanged (C : MagicConstants) : MagicConstants := { C with C4 := C.C5, C5 := C.C4 }

end RustBCA.Spec
