import Verif.Spec.Statistics
import Verif.Model.Input

/-!
# Vocabulary for C115: ions drawn from distributions, then followed
-/

namespace RustBCA.Spec
open MeasureTheory

variable {F α γ : Type}

/-- The computations are done one after the other; the results are listed. -/
def oneAfterAnother : List (M F γ) → M F (List γ)
  | [] => pure []
  | g :: gs => do
    let x ← g
    let xs ← oneAfterAnother gs
    pure (x :: xs)

/-- The outcomes of the generator in a run: the stream of the main thread, from which the ions are drawn,
and the streams of the threads that follow them; all independent. -/
noncomputable def programStreams [MeasurableSpace α] (Thread : Type) (μ : Measure α) [IsProbabilityMeasure μ] :
    Measure ((ℕ → α) × (Thread × ℕ → α)) :=
  (Measure.infinitePi fun _ : ℕ => μ).prod (threadStreams Thread μ)

section
variable [Scalar F]

/-- Drawing one ion of species `i` from the distributions given. -/
def drawIon (sampler : Sampler F) (length_unit energy_unit mass_unit : F) (p : ParticleParameters F) (i : ℕ) :
    M F (ParticleInput F) := do
  let m ← liftM (vget p.m i)
  let Z ← liftM (vget p.Z i)
  let E ← liftM (vget p.E i)
  let Ec ← liftM (vget p.Ec i)
  let Es ← liftM (vget p.Es i)
  let interaction_index ← liftM (vget p.interaction_index i)
  let pos ← liftM (vget p.pos i)
  let dir ← liftM (vget p.dir i)
  make_particle_input sampler length_unit energy_unit mass_unit m Z Ec Es E pos dir interaction_index

/-- The beam: as many ions of each species as asked for (`N`), species after species. -/
def beam (sampler : Sampler F) (length_unit energy_unit mass_unit : F) (p : ParticleParameters F) :
    List (M F (ParticleInput F)) :=
  ((List.range p.Z.length).map fun i =>
    List.replicate (p.N.getD i 0) (drawIon sampler length_unit energy_unit mass_unit p i)).flatten

/-- An ion drawn, then followed. -/
def drawnAndFollowed (rcpr : Rcpr F) (fuel : ℕ) (mat : Material F) (o : Options F) (g : M F (ParticleInput F)) :
    M F (List (Particle F)) := do
  let input ← g
  simulation rcpr fuel mat o input

/-- The samplers draw their random numbers one after the other. -/
structure SamplesInOrder (sampler : Sampler F) : Prop where
  normal : ∀ a b, DrawsInOrder (sampler.normal a b)
  uniform : ∀ a b, DrawsInOrder (sampler.uniform a b)

end
end RustBCA.Spec
