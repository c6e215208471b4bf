import Verif.Spec.Campaign
import Verif.Spec.Lib
import Mathlib.Probability.ConditionalProbability

/-!
# Vocabulary for C116: the mean and the variance of a quantity

As in C98, but for quantities that are not counts (energies, depths, angles).
-/

namespace RustBCA.Spec
open MeasureTheory ProbabilityTheory

variable {F α β : Type}

/-- The streams of outcomes on which the computation returns a result. -/
def returning (value : α → F) (m : M F β) : Set (ℕ → α) := {ω | ∃ b t', m (fun n => value (ω n)) = .ok (b, t')}

/-- The quantity `f` of the result on a stream of outcomes (0 if there is no result). -/
def quantityOn (value : α → F) (m : M F β) (f : β → ℝ) (ω : ℕ → α) : ℝ :=
  match m (fun n => value (ω n)) with
  | .ok (b, _) => f b
  | .error _ => 0

variable [MeasurableSpace α] (μ : Measure α) [IsProbabilityMeasure μ]

/-- The mean of the quantity `f` of the result, among the runs that return. -/
noncomputable def meanOf (value : α → F) (m : M F β) (f : β → ℝ) : ℝ :=
  ∫ ω, quantityOn value m f ω ∂cond (Measure.infinitePi fun _ : ℕ => μ) (returning value m)

/-- Its variance. -/
noncomputable def varianceOf (value : α → F) (m : M F β) (f : β → ℝ) : ℝ :=
  variance (quantityOn value m f) (cond (Measure.infinitePi fun _ : ℕ => μ) (returning value m))

/-- Its mean square is finite. -/
def FiniteVariance (value : α → F) (m : M F β) (f : β → ℝ) : Prop :=
  MemLp (quantityOn value m f) 2 (cond (Measure.infinitePi fun _ : ℕ => μ) (returning value m))

/-- The sum of the quantity `v` of the particles. -/
def totalOf (v : Particle F → ℝ) (l : List (Particle F)) : ℝ := (l.map v).sum

/-- The energy brought back by the reflected ions among `l`, over the energy (in eV) of one ion. -/
noncomputable def energyReturned (energy : ℝ) (l : List (Particle ℝ)) : ℝ :=
  (energiesOf ReflectedBack l).sum/EV ℝ/energy

end RustBCA.Spec
