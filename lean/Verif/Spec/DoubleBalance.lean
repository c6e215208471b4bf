import Verif.Spec.DoubleEnergy
import Verif.Model.Bca

/-!
# Specification vocabulary for the energy balance in double precision
-/

namespace RustBCA.Spec

variable {A : DoubleArith}

/-- The energy carried by a list of particles, summed without rounding. -/
noncomputable def totalEnergyDbl (l : List (Particle (Dbl A))) : ℝ := (l.map (·.E.val)).sum

/-- The unit roundoff of double precision. -/
noncomputable def unitRoundoff : ℝ := 2^(-53:ℤ)

/-- Nothing is bound to the surface: neither the particle nor any target species. -/
def NoSurfaceBindingDbl (mat : Material (Dbl A)) (p : Particle (Dbl A)) : Prop :=
  p.Es.val = 0 ∧ ∀ E ∈ mat.Es, E.val = 0

/-- Neither are there negative bulk binding energies or atomic numbers. -/
structure SoundBulk (mat : Material (Dbl A)) : Prop where
  bulk : ∀ E ∈ mat.Eb, 0 ≤ E.val
  charge : ∀ Z ∈ mat.Z, 0 ≤ Z.val

/-- Electronic stopping takes energy from particles of sound data and gives them none. -/
def ElectronsTake (mat : Material (Dbl A)) (o : Options (Dbl A)) : Prop :=
  ∀ p d x0 Z i q el, SoundDouble mat p → 0 ≤ p.Z.val →
    subtract_electronic_stopping_energy p mat d x0 Z i o = .ok (q, el) → q.E.val ≤ p.E.val

/-- Exponentials, and powers of numbers that are not negative, are not computed as negative. -/
structure PositivePowers (A : DoubleArith) : Prop where
  exp : ∀ x, 0 ≤ A.exp x
  powf : ∀ x y, 0 ≤ x → 0 ≤ A.powf x y

end RustBCA.Spec
