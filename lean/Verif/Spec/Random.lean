import Verif.Monad
import Mathlib.Probability.ProductMeasure
import Mathlib.MeasureTheory.Measure.Lebesgue.Basic
import Mathlib.MeasureTheory.Integral.Bochner.Set
import Mathlib.Analysis.SpecialFunctions.Log.Basic

/-!
# Probabilities over the random numbers
-/

namespace RustBCA.Spec
open MeasureTheory

/-- The uniform distribution on `[0, 1)`, that of `rand::random::<f64>()` in exact arithmetic. -/
noncomputable def uniform01 : Measure ℝ := volume.restrict (Set.Ico 0 1)

instance : IsProbabilityMeasure uniform01 := ⟨by simp [uniform01]⟩

/-- Independent uniform random numbers. -/
noncomputable def randomTape : Measure (Tape ℝ) := Measure.infinitePi fun _ => uniform01

instance : IsProbabilityMeasure randomTape := by unfold randomTape; infer_instance

/-- The probability that a path is longer than `l` in a target of interatomic spacing `s`: paths
have length `s`, or are exponentially distributed with mean `s` if the target is a gas; the first
path of a particle is shortened by a uniformly distributed factor. -/
noncomputable def pathSurvival (first gas : Bool) (s l : ℝ) : ℝ :=
  match first, gas with
  | false, false => if l < s then 1 else 0
  | false, true => Real.exp (-(l/s))
  | true, false => max 0 (1 - l/s)
  | true, true => ∫ u in Set.Ioo (0:ℝ) 1, Real.exp (-(l/(s*u)))

end RustBCA.Spec
