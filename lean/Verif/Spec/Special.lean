import Verif.Special
import Verif.Spec.Potentials
import Verif.Model.Bca

/-!
# Vocabulary for C93: collisions of numbers with special values
-/

namespace RustBCA

/-- The same potential, with its parameters read as extended numbers. -/
def InteractionPotential.lift : InteractionPotential ℝ → InteractionPotential XReal
  | .TRIDYN => .TRIDYN
  | .MOLIERE => .MOLIERE
  | .KR_C => .KR_C
  | .ZBL => .ZBL
  | .LENZ_JENSEN => .LENZ_JENSEN
  | .LENNARD_JONES_12_6 sigma epsilon => .LENNARD_JONES_12_6 (.fin sigma) (.fin epsilon)
  | .LENNARD_JONES_65_6 sigma epsilon => .LENNARD_JONES_65_6 (.fin sigma) (.fin epsilon)
  | .MORSE D alpha r0 => .MORSE (.fin D) (.fin alpha) (.fin r0)
  | .WW => .WW
  | .COULOMB Za Zb => .COULOMB (.fin Za) (.fin Zb)
  | .KRC_MORSE D alpha r0 k x0 => .KRC_MORSE (.fin D) (.fin alpha) (.fin r0) (.fin k) (.fin x0)
  | .FOUR_EIGHT alpha beta => .FOUR_EIGHT (.fin alpha) (.fin beta)

namespace Spec

/-- A collision whose inputs are the given (real) numbers: charges `Z1`, `Z2`, masses `m1`, `m2`, energy
`E` and impact parameter `p`; `num` is the reading of a real number as a number of the program, and the
options name the potential `V` and the scattering integral `si` for the two species. -/
structure Encounter {F : Type} [Scalar F] (num : ℝ → F) (V : InteractionPotential F) (si : ScatteringIntegral)
    (Z1 Z2 m1 m2 E p : ℝ) (p1 p2 : Particle F) (g : BinaryCollisionGeometry F) (o : Options F) : Prop where
  Z1_eq : p1.Z = num Z1
  Z2_eq : p2.Z = num Z2
  m1_eq : p1.m = num m1
  m2_eq : p2.m = num m2
  E_eq : p1.E = num E
  p_eq : g.impact_parameter = num p
  potential : ∃ row, o.interaction_potential[p1.interaction_index]? = some row ∧
    row[p2.interaction_index]? = some V
  integral : ∃ row, o.scattering_integral[p1.interaction_index]? = some row ∧
    row[p2.interaction_index]? = some si

end Spec
end RustBCA
