import Verif.Spec.Energy

/-!
# Vocabulary for C101: what a recoil costs
-/

namespace RustBCA.Spec

/-- Everywhere in the target the average bulk binding energy (the sum over the species of concentration times bulk
binding energy) is at least `eb`. -/
def BoundBy (mat : Material ℝ) (eb : ℝ) : Prop :=
  ∀ x y z cs, mat.geometry.get_concentrations x y z = .ok cs → eb ≤ (List.zipWith (fun E c => E*c) mat.Eb cs).sum

/-- The particle is within the energy barrier. -/
def WithinBarrier (mat : Material ℝ) (p : Particle ℝ) : Prop :=
  mat.geometry.inside_energy_barrier p.pos.x p.pos.y p.pos.z = .ok true

/-- There is no vacuum around the target from which a particle could come back: the material and the whole simulated
volume are within the energy barrier. -/
structure NoVacuum (mat : Material ℝ) : Prop where
  volume : ∀ x y z : ℝ, mat.geometry.inside_simulation_boundary x y z = .ok true → mat.geometry.inside_energy_barrier x y z = .ok true
  material : ∀ x y z : ℝ, mat.geometry.inside x y z = .ok true → mat.geometry.inside_energy_barrier x y z = .ok true

end RustBCA.Spec
