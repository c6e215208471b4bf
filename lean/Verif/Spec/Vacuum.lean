import Verif.Spec.Materials
import Verif.Spec.Recoils
import Verif.Model.Geometry

/-!
# Vocabulary for C88: an ion in the vacuum in front of a homogeneous target
-/

namespace RustBCA.Spec

/-- `mat` is a homogeneous half space: its geometry is the 0D mesh `g`, whose species are all
tabulated, of interatomic spacing `s`, with an energy barrier of positive thickness. -/
structure UniformTarget (mat : Material ℝ) (g : Mesh0D ℝ) (s : ℝ) : Prop where
  geometry : mat.geometry = g.toGeom
  concentrations : Concentrations g.concentrations
  tabulated : Tabulated mat g.concentrations.length
  spacing_pos : 0 < s
  spacing : s^3*g.densities.sum = 1
  thickness : 0 < g.energy_barrier_thickness

/-- `t` consists of numbers in `[0, 1)`, which is what the random number generator returns. -/
def Unit01 (t : Tape ℝ) : Prop := ∀ k, 0 ≤ t k ∧ t k < 1

/-- The particle is followed and is in front of the energy barrier, within the simulation
boundary. -/
structure InFront (g : Mesh0D ℝ) (p : Particle ℝ) : Prop where
  not_stopped : p.stopped = false
  not_left : p.left = false
  in_front : p.pos.x ≤ -g.energy_barrier_thickness
  within : -10*g.energy_barrier_thickness < p.pos.x

/-- `QuietPasses k p t q t'`: after `k` passes of the trajectory loop, in which no other particle is set
in motion and before each of which it is neither stopped nor gone, the particle `p` is `q`. -/
inductive QuietPasses (rcpr : Rcpr ℝ) (mat : Material ℝ) (o : Options ℝ) :
    Nat → Particle ℝ → Tape ℝ → Particle ℝ → Tape ℝ → Prop
  | zero {p t} : QuietPasses rcpr mat o 0 p t p t
  | succ {k p t q t1 r t2} : p.stopped = false → p.left = false →
      trajectory_step rcpr mat o p [] t = .ok ((q, []), t1) → QuietPasses rcpr mat o k q t1 r t2 →
      QuietPasses rcpr mat o (k + 1) p t r t2

end RustBCA.Spec
