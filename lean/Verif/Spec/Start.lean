import Verif.Model.Particle

/-! What it means that a particle has just been created (**C106**). -/

namespace RustBCA.Spec
open Scalar
variable {F : Type} [Scalar F]

/-- `p` has just been put at `at_` with energy `E₀`, flying along `along`, and nothing has happened to it
yet: it has no past position or direction, no deflection to correct for, no collisions, it has not
stopped or left, and its records hold at most the starting point and a loss of zero there. -/
structure JustStarted (p : Particle F) (E₀ : F) (at_ along : Vec3 F) : Prop where
  E : p.E = E₀
  pos : p.pos = at_
  dir : p.dir = along
  pos_old : p.pos_old = at_
  dir_old : p.dir_old = along
  pos_origin : p.pos_origin = at_
  asymptotic_deflection : p.asymptotic_deflection = 0.0
  stopped : p.stopped = false
  left : p.left = false
  backreflected : p.backreflected = false
  number_collision_events : p.number_collision_events = 0
  trajectory : ∀ t ∈ p.trajectory, t = ⟨E₀, at_.x, at_.y, at_.z⟩
  energies : ∀ l ∈ p.energies, l = ⟨0.0, 0.0, at_.x, at_.y, at_.z⟩

/-- The direction `(x, y, z)` divided by its length. -/
def direction (x y z : F) : Vec3 F :=
  ⟨x/sqrt (x*x + y*y + z*z), y/sqrt (x*x + y*y + z*z), z/sqrt (x*x + y*y + z*z)⟩

end RustBCA.Spec
