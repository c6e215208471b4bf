import Verif.Model.Interactions

/-!
# Specification vocabulary for potentials and turning points
-/

namespace RustBCA.Spec

/-- The screened-Coulomb potentials. -/
inductive Screened {F : Type} : InteractionPotential F → Prop
  | moliere : Screened .MOLIERE
  | kr_c : Screened .KR_C
  | zbl : Screened .ZBL
  | lenz_jensen : Screened .LENZ_JENSEN
  | tridyn : Screened .TRIDYN

/-- `r` is a radial turning point: for a particle of centre-of-mass energy `E`, impact parameter `p`
and potential energy `U` at distance `r`, the radial kinetic energy vanishes. -/
def TurningPoint (U E p r : ℝ) : Prop := 1 - U/E - p^2/r^2 = 0

/-- The dimensionless turning-point function of a screened potential with screening function `f`:
its zeros in `x = r/a` are the distances of closest approach, `eps` is the reduced energy and
`beta = p/a`. -/
noncomputable def closest (f : ℝ → ℝ) (eps beta x : ℝ) : ℝ := x - f x/eps - beta^2/x

/-- The screening function of a potential and its derivative, as the code computes them. -/
def HasScreening (V : InteractionPotential ℝ) (f df : ℝ → ℝ) : Prop :=
  (∀ x, phi x V = .ok (f x)) ∧ (∀ x, dphi x V = .ok (df x))

/-- Published coefficients `(c, d)` of the screening functions `phi(x) = sum of c exp(-d x)`
(Moliere; Kr-C of Wilson et al., also used by TRIDYN; universal of Ziegler et al.; Lenz-Jensen). -/
noncomputable def published : InteractionPotential ℝ → List (ℝ × ℝ)
  | .MOLIERE => [(0.35, 0.3), (0.55, 1.2), (0.10, 6.0)]
  | .KR_C | .TRIDYN => [(0.190945, 0.278544), (0.473674, 0.637174), (0.335381, 1.919249)]
  | .ZBL => [(0.02817, 0.20162), (0.28022, 0.40290), (0.50986, 0.94229), (0.18175, 3.1998)]
  | .LENZ_JENSEN => [(0.01018, 0.206), (0.24330, 0.3876), (0.7466, 1.038)]
  | _ => []

/-- Firsov's screening length (m), with the Bohr radius 0.529177210903 A. -/
noncomputable def firsovLength (Za Zb : ℝ) : ℝ :=
  0.8853*(5.29177210903e-11)/(Real.sqrt Za + Real.sqrt Zb)^((2:ℝ)/3)

/-- The universal screening length (m) of Ziegler, Biersack and Littmark. -/
noncomputable def universalLength (Za Zb : ℝ) : ℝ :=
  0.88534*(5.29177210903e-11)/(Za^(0.23:ℝ) + Zb^(0.23:ℝ))

/-- Coefficients (eV/A^3) and knots (A) of the W-W pair potential beyond 2.1 Angstrom (Bjorkas et
al.). -/
noncomputable def tungstenSpline : List (ℝ × ℝ) :=
  [(-0.1036435865158945, 4.2689), (-0.2912948318493851, 3.98568), (-2.096765499656263, 3.70246),
    (19.16045452701010, 3.41924), (-41.01619862085917, 3.13602), (46.05205617244703, 2.8528),
    (26.42203930654883, 2.7411), (15.35211507804088, 2.604045), (14.12806259323987, 2.46699)]

/-- The polynomial (eV, `x` in Angstrom) joining ZBL, below 1.1 Angstrom, and the spline, above 2.1. -/
noncomputable def tungstenQuintic (x : ℝ) : ℝ :=
  13896.53276380862 - 35969.12431628216*x + 37392.06756369099*x^2 - 19337.48081656593*x^3
    + 4955.16793802426*x^4 - 502.64585985867*x^5

end RustBCA.Spec
