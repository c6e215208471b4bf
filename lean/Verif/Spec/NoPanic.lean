import Verif.Spec.SpecialRun
import Verif.Spec.Materials
import Verif.Spec.Cascade

/-!
# Vocabulary for C96: a run that does not fail
-/

namespace RustBCA.Spec

/-- Every question about a point has an answer, and the answers list `n` species, all of them
tabulated. -/
structure ReadyTarget (mat : Material ℝ) (n : ℕ) : Prop where
  tabulated : Tabulated mat n
  densities : ∀ x y z : ℝ, ∃ ds : List ℝ, mat.geometry.get_densities x y z = .ok ds ∧ ds.length = n
  concentrations : ∀ x y z : ℝ, ∃ cs : List ℝ, mat.geometry.get_concentrations x y z = .ok cs ∧ cs.length = n ∧
    Concentrations cs
  ck : ∀ x y z : ℝ, ∃ a : ℝ, mat.geometry.get_ck x y z = .ok a
  inside : ∀ x y z : ℝ, ∃ b : Bool, mat.geometry.inside x y z = .ok b
  boundary : ∀ x y z : ℝ, ∃ b : Bool, mat.geometry.inside_simulation_boundary x y z = .ok b
  barrier : ∀ x y z : ℝ, ∃ b : Bool, mat.geometry.inside_energy_barrier x y z = .ok b
  closest : ∀ x y z : ℝ, ∃ c : ℝ × ℝ × ℝ, mat.geometry.closest_point x y z = .ok c

/-- Whatever its energy, from its cutoff energy up, the particle can meet every species of the target. -/
def MeetsAll (mat : Material ℝ) (o : Options ℝ) (p : Particle ℝ) : Prop :=
  ∀ (i : ℕ) (Z m : ℝ) (j : ℕ), mat.Z[i]? = some Z → mat.m[i]? = some m → mat.interaction_index[i]? = some j →
    ∀ E : ℝ, p.Ec ≤ E → CanMeet o { p with E := E } Z m j

section
variable (rcpr : Rcpr ℝ) (mat : Material ℝ) (o : Options ℝ) (ion : Particle ℝ) (t0 : Tape ℝ)

/-- At some time during the run of `ion` with the random numbers `t0` the particle `p` is being followed, the
particles `ps` are waiting, and the random numbers `t` are still to come. -/
inductive Followed : List (Particle ℝ) → Particle ℝ → Tape ℝ → Prop
  | start : Followed [] ion t0
  | pass {ps p t q new t1} : Followed ps p t → p.stopped = false → p.left = false →
      trajectory_step rcpr mat o p [] t = .ok ((q, new), t1) → Followed (ps ++ new) q t1
  | next {ps r p t} : Followed (ps ++ [r]) p t → (p.stopped = true ∨ p.left = true) → Followed ps r t

/-- No particle of the run ever moves exactly along the x axis, and none crosses the energy barrier
to land exactly on the surface. -/
def Generic : Prop :=
  ∀ ps p t, Followed rcpr mat o ion t0 ps p t → p.stopped = false → p.left = false →
    |p.dir.x| ≠ 1 ∧ ∀ q new t1, trajectory_step rcpr mat o p [] t = .ok ((q, new), t1) → OffSurface mat q

end
end RustBCA.Spec
