import Verif.Spec.RecoilCount
import Verif.Spec.Range
import Verif.Spec.NoPanic
import Verif.Spec.Deflection

/-!
# Vocabulary for C88: runs that end
-/

namespace RustBCA.Spec

/-- The simulated volume ends where the material ends: a particle that gets out of the material is gone. -/
def EndsWithMaterial (mat : Material ℝ) : Prop :=
  ∀ x y z : ℝ, mat.geometry.inside_simulation_boundary x y z = .ok true → mat.geometry.inside x y z = .ok true

/-- A particle of interaction index `i` has a Coulomb potential and a Gauss-Legendre or Gauss-Mehler quadrature with every
species of the target. -/
def CoulombWithAll (mat : Material ℝ) (o : Options ℝ) (i : ℕ) : Prop :=
  ∀ (k j : ℕ), mat.interaction_index[k]? = some j → ∃ row row' si, o.interaction_potential[i]? = some row ∧
    (∃ Z1 Z2, row[j]? = some (.COULOMB Z1 Z2)) ∧ o.scattering_integral[i]? = some row' ∧ row'[j]? = some si ∧
    (si = .GAUSS_LEGENDRE ∨ ∃ n, si = .GAUSS_MEHLER n)

/-- A particle of charge `Z`, mass `m` and cutoff energy `Ec`, which must be positive, loses at least `σ` per unit length
to the electrons when it is at its cutoff energy. -/
def Slowed (o : Options ℝ) (ck : ℝ) (Zs ns : List ℝ) (σ Z m Ec : ℝ) : Prop :=
  0 < Ec ∧ σ ≤ pathStopping o.electronic_stopping_mode ck Zs ns Z m Ec

/-- A particle of interaction index `i` has a screened Coulomb potential and some scattering integral with every species of
the target. -/
def ScreenedWithAll (mat : Material ℝ) (o : Options ℝ) (i : ℕ) : Prop :=
  ∀ (k j : ℕ), mat.interaction_index[k]? = some j → ∃ row row' V si, o.interaction_potential[i]? = some row ∧
    row[j]? = some V ∧ Screened V ∧ o.scattering_integral[i]? = some row' ∧ row'[j]? = some si

/-- With every target atom, twice the distance of closest approach of an unscreened head-on collision at the cutoff energy
`Ec` is at most `K`, for a particle of charge `Z` and mass `m`. -/
def ClosestBelow (mat : Material ℝ) (K Z m Ec : ℝ) : Prop :=
  ∀ Zb ∈ mat.Z, ∀ Mb ∈ mat.m, 2*coulombConstant Z Zb/(Ec*Mb/(m + Mb)) ≤ K

end RustBCA.Spec
