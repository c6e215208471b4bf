import Verif.Spec.Vectors

/-!
# Vocabulary for the energy properties (C71-C73)
-/

namespace RustBCA.Spec
open Scalar

/-- A target with physically meaningful tables: positive masses and charges, energies that are not
negative, and a geometry whose concentrations, densities and correction factors are not negative. -/
structure SoundTarget (mat : Material ℝ) : Prop where
  m : ∀ m ∈ mat.m, 0 < m
  Z : ∀ Z ∈ mat.Z, 0 < Z
  Ec : ∀ E ∈ mat.Ec, 0 ≤ E
  Es : ∀ E ∈ mat.Es, 0 ≤ E
  Eb : ∀ E ∈ mat.Eb, 0 ≤ E
  concentrations : ∀ x y z cs, mat.geometry.get_concentrations x y z = .ok cs → ∀ c ∈ cs, 0 ≤ c
  densities : ∀ x y z ns, mat.geometry.get_densities x y z = .ok ns → ∀ n ∈ ns, 0 ≤ n
  ck : ∀ x y z ck, mat.geometry.get_ck x y z = .ok ck → 0 ≤ ck

/-- A particle with positive mass and charge, energies that are not negative and a direction that
is at most a unit vector. -/
structure SoundParticle (p : Particle ℝ) : Prop where
  m : 0 < p.m
  Z : 0 < p.Z
  E : 0 ≤ p.E
  Es : 0 ≤ p.Es
  dir : inner p.dir p.dir ≤ 1

/-- Nothing is bound to the surface: neither the particle nor any target species. -/
def NoSurfaceBinding (mat : Material ℝ) (p : Particle ℝ) : Prop :=
  p.Es = 0 ∧ ∀ E ∈ mat.Es, E = 0

/-- The energy carried by a list of particles. -/
noncomputable def totalEnergy (l : List (Particle ℝ)) : ℝ := (l.map (·.E)).sum

/-- The energy that a list of energy-loss records accounts for: to recoils and to electrons. -/
noncomputable def recordedLoss (l : List (EnergyLoss ℝ)) : ℝ := (l.map fun e => e.En + e.Ee).sum

section
variable {F : Type} [Scalar F]

/-- States of the outer loop of `single_ion_bca` in its execution on `ion` and `tape`, with the
random numbers left. -/
inductive AtHead (rcpr : Rcpr F) (mat : Material F) (o : Options F) (fuel : Nat)
    (ion : Particle F) (tape : Tape F) : CascadeState F → Tape F → Prop
  | start : AtHead rcpr mat o fuel ion tape ⟨[ion], [], 1⟩ tape
  | next {s s' t t'} : AtHead rcpr mat o fuel ion tape s t → 0 < s.particle_index →
      cascade_body rcpr mat o fuel s t = .ok (s', t') → AtHead rcpr mat o fuel ion tape s' t'

/-- States of the trajectory loop in that execution. -/
inductive InTrajectory (rcpr : Rcpr F) (mat : Material F) (o : Options F) (fuel : Nat)
    (ion : Particle F) (tape : Tape F) : TrajState F → Tape F → Prop
  | start {s t p ps} : AtHead rcpr mat o fuel ion tape s t → 0 < s.particle_index →
      popLast s.particles = .ok (p, ps) →
      InTrajectory rcpr mat o fuel ion tape ⟨p, ps, s.particle_index⟩ t
  | next {x x' t t'} : InTrajectory rcpr mat o fuel ion tape x t → x.running = true →
      traj_body rcpr mat o x t = .ok (x', t') → InTrajectory rcpr mat o fuel ion tape x' t'

end

/-- A pass that takes the moving particle from `p` to `q` on the stream `t` does not move it
backwards: the step drawn, corrected by the old and the new asymptotic deflection, is not
negative. -/
def Forwards (mat : Material ℝ) (o : Options ℝ) (t : Tape ℝ) (p q : Particle ℝ) : Prop :=
  ∀ p1 gs t1 g0, determine_mfp_phi_impact_parameter p mat o t = .ok ((p1, gs), t1) →
    gs[0]? = some g0 → 0 ≤ g0.mfp + p.asymptotic_deflection - q.asymptotic_deflection

/-- No pass of the execution on `ion` and `tape` moves a particle backwards. -/
def AlwaysForwards (rcpr : Rcpr ℝ) (mat : Material ℝ) (o : Options ℝ) (fuel : Nat)
    (ion : Particle ℝ) (tape : Tape ℝ) : Prop :=
  ∀ x t x' t', InTrajectory rcpr mat o fuel ion tape x t → x.running = true →
    traj_body rcpr mat o x t = .ok (x', t') → Forwards mat o t x.particle_1 x'.particle_1

/-- The electronic loss does not depend on the distance travelled, or every pass goes forwards. -/
def LossNeverNegative (rcpr : Rcpr ℝ) (mat : Material ℝ) (o : Options ℝ) (fuel : Nat)
    (ion : Particle ℝ) (tape : Tape ℝ) : Prop :=
  o.electronic_stopping_mode = .LOW_ENERGY_LOCAL ∨ AlwaysForwards rcpr mat o fuel ion tape

/-- Every interaction potential in the options is a Coulomb potential. -/
def AllCoulomb (o : Options ℝ) : Prop :=
  ∀ row ∈ o.interaction_potential, ∀ V ∈ row, ∃ Z1 Z2, V = .COULOMB Z1 Z2

end RustBCA.Spec
