import Verif.Spec.Potentials
import Mathlib.Analysis.SpecialFunctions.Pow.Real

/-!
# Vocabulary for C82: the electronic energy loss
-/

namespace RustBCA.Spec
open Scalar

/-- Lindhard-Scharff stopping cross section (J m^2) for a projectile of charge `Za`, mass `m` (kg)
and energy `E` (J) in a target of charge `Zb`:
`1.212 eV A^2 Za^(7/6) Zb / (Za^(2/3) + Zb^(2/3))^(3/2) sqrt(E[eV] / m[amu])`. -/
noncomputable def lindhardScharff (E m Za Zb : ℝ) : ℝ :=
  1.212*ANGSTROM ℝ^2*Q ℝ*(Za^(7/6 : ℝ)*Zb)/(Za^(2/3 : ℝ) + Zb^(2/3 : ℝ))^(3/2 : ℝ)
    *Real.sqrt ((E/Q ℝ)/(m/AMU ℝ))

/-- Biersack and Varelas' form of the Bethe stopping cross section (J m^2):
`8 pi Za^2 e^4 Zb / ((4 pi eps0)^2 I eb) ln(eb + 1 + B/eb)` with `eb = 2 me v^2/I`, written with the
projectile's velocity `v = beta c`; `I` is the mean ionisation potential. -/
noncomputable def betheBiersack (beta Za Zb : ℝ) : ℝ :=
  let I := Zb*(if Zb < 13 then 12 + 7/Zb else 9.76 + 58.5*Zb^(-1.19 : ℝ))*Q ℝ
  let B := if Zb < 3 then 100*Za/Zb else 5
  let eb := 2*ME ℝ*(beta*C ℝ)^2/I
  (Za^2*Zb*Q ℝ^4*4*Real.pi/(ME ℝ*(4*Real.pi*EPS0 ℝ)^2*C ℝ^2))/beta^2
    *Real.log (eb + 1 + B/eb)

/-- Velocity, in units of c, of a particle of mass `m` and kinetic energy `E`. -/
noncomputable def relativisticBeta (E m : ℝ) : ℝ :=
  Real.sqrt (1 - 1/(1 + E/(m*C ℝ^2))^2)

/-- Oen and Robinson's loss in a collision with distance of closest approach `x0` (in screening
lengths `a`), for the stopping cross section `S` and the decay rate `d` of the screening function. -/
noncomputable def oenRobinson (d a S x0 : ℝ) : ℝ := d^2*S/(2*Real.pi*a^2)*Real.exp (-(d*x0))

/-- Energy loss over the distance `d` at the densities `ns` with cross sections `S`. -/
noncomputable def braggLoss (S ns : List ℝ) (d : ℝ) : ℝ := (List.zipWith (·*·) S ns).sum*d

end RustBCA.Spec
