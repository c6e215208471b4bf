import Verif.Spec.Bulk

/-! # Targets that are nowhere thin -/

namespace RustBCA.Spec

/-- Wherever the target is asked, there are at least `n` atoms per unit volume, and the correction factor of the electronic
stopping is at least `ck`. -/
structure NowhereThin (mat : Material ℝ) (n ck : ℝ) : Prop where
  densities : ∀ (x y z : ℝ) (ns : List ℝ), mat.geometry.get_densities x y z = .ok ns → ns.length = mat.Z.length ∧ n ≤ ns.sum
  ck : ∀ x y z c : ℝ, mat.geometry.get_ck x y z = .ok c → ck ≤ c

/-- A particle of charge `Z`, mass `m` and cutoff energy `Ec` loses at least `c` to the electrons in every collision in which
it comes no closer than is possible at its cutoff energy: here `b` bounds the distances of closest approach. -/
def LosesLocally (mat : Material ℝ) (o : Options ℝ) (ck c b Z m Ec : ℝ) : Prop :=
  ∀ row ∈ o.interaction_potential, ∀ V ∈ row, ∀ Zb ∈ mat.Z, ∀ Zs, (Zs = 0 ∨ Zs ∈ mat.Z) → ∀ E x0 : ℝ, Ec ≤ E →
    x0*screening_length Z Zs V ≤ b →
    c ≤ oenRobinson (first_screening_radius V) (screening_length Z Zs V) (lindhardScharff E m Z Zb*ck) x0

end RustBCA.Spec
