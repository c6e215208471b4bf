import Verif.Spec.Independent
import Verif.Model.Physics
import Verif.Spec.Lib
import Mathlib.Probability.Moments.Variance

/-!
# Vocabulary for C98: the statistics of counts
-/

namespace RustBCA.Spec
open MeasureTheory

variable {F α β : Type}

/-- The distribution of the count `f` of the result of the computation `m`, among the runs that
return. -/
noncomputable def countLaw [MeasurableSpace α] (μ : Measure α) [IsProbabilityMeasure μ] (value : α → F) (m : M F β)
    (f : β → ℕ) : Measure ℕ :=
  Measure.sum fun k => (chance μ value m {b | f b = k}/chance μ value m Set.univ) • Measure.dirac k

/-- The expected count. -/
noncomputable def expectedCount [MeasurableSpace α] (μ : Measure α) [IsProbabilityMeasure μ] (value : α → F)
    (m : M F β) (f : β → ℕ) : ℝ :=
  ∫ k : ℕ, (k : ℝ) ∂countLaw μ value m f

/-- The variance of the count. -/
noncomputable def countVariance [MeasurableSpace α] (μ : Measure α) [IsProbabilityMeasure μ] (value : α → F)
    (m : M F β) (f : β → ℕ) : ℝ :=
  ProbabilityTheory.variance (fun k : ℕ => (k : ℝ)) (countLaw μ value m f)

/-- The simulation of one ion: its cascade. -/
def simulation [Scalar F] (rcpr : Rcpr F) (fuel : ℕ) (mat : Material F) (o : Options F) (input : ParticleInput F) :
    M F (List (Particle F)) := do
  let ion ← liftM (Particle.from_input input o)
  single_ion_bca rcpr fuel ion mat o

section
open Scalar
variable [Scalar F]

/-- One sample: `p` is an ion of the given species, energy and angle to the normal,
before the surface of the half space `mat` of the given species. -/
structure ShotAt (ion : PyDict F) (energy angle : F) (Z2 m2 Ec2 Es2 Eb2 n2 : List F) (mat : Material F)
    (p : Particle F) : Prop where
  target : HalfSpace mat Z2 m2 Ec2 Es2 Eb2 n2 1.0 .AVERAGE
  ion : ∃ Z m Ec Es ux uy, IonEntries ion Z m Ec Es ∧ ux = cos (angle/180.0*pi) + 1e-6 ∧
    uy = sin (angle/180.0*pi) - 1e-6 ∧
    FreshIon p (m*AMU F) Z (energy*EV F) (Ec*EV F) (Es*EV F)
      ⟨-barrier_thickness (fsum (n2.map (· / powi 1.0 3))), 0.0, 0.0⟩
      ⟨ux/sqrt (ux*ux + uy*uy + 0.0*0.0), uy/sqrt (ux*ux + uy*uy + 0.0*0.0), 0.0/sqrt (ux*ux + uy*uy + 0.0*0.0)⟩

end
end RustBCA.Spec
