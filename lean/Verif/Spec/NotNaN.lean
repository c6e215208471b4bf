import Verif.Model.Physics

/-!
What C122 says of a particle in the output, for a scalar that may have a NaN.
-/

namespace RustBCA.Spec
open Scalar

/-- The energy is not NaN; if the particle came to rest it compares as below the particle's cutoff; if the particle
ended inside the target it does not compare as below zero. -/
structure SettledEnergy {F : Type} [Scalar F] (mat : Material F) (q : Particle F) : Prop where
  not_nan : isNaN q.E = false
  below_cutoff : q.stopped = true → (q.E <. q.Ec) = true
  not_negative : mat.geometry.inside q.pos.x q.pos.y q.pos.z = .ok true → (q.E <. 0.0) = false

end RustBCA.Spec
