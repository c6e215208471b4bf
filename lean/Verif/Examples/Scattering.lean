import Verif.Props.RootFinding
import Verif.Props.Scattering
import Verif.Props.Integrals
import Verif.Examples.Cascade

/-! # Concrete cases that meet the hypotheses of C19-C26 -/

namespace RustBCA
open Scalar Spec

/-- C20: krypton-carbon, charges 2 and 3, energy 4, impact parameter 5. -/
example : ∃ f : ℝ → ℝ,
    (∀ r, distance_of_closest_approach_function r 1 2 3 4 5 .KR_C = .ok (f r)) ∧
    StrictMonoOn f (Set.Ioi 0) ∧ ∃ r, 0 < r ∧ f r = 0 := by
  obtain ⟨f, h1, h2, r, h3, h4, _⟩ := C20_unique_turning_point .KR_C .kr_c 1 2 3 4 5 (by norm_num)
    (by norm_num) (by norm_num) (by norm_num)
  exact ⟨f, h1, h2, r, h3, h4⟩

/-- C23: a zero of the Lennard-Jones function, r = sigma = p: there the energy is 0. -/
example : (doca_lennard_jones 1 1 5 1 2 : ℝ) = 0 ↔ TurningPoint (lennard_jones 1 1 2) 5 1 1 :=
  (C23_zeros_are_turning_points_partial (.LENNARD_JONES_12_6 1 2) 1 1 5 1 1 _ _ _
    (by intro _ _ h; cases h) (by show (0:ℝ) < 1; norm_num) (by norm_num) (by norm_num)
    (by norm_num) (by norm_num) rfl rfl rfl).1

/-- C24: a Coulomb pair in the options. -/
example : ∃ x r, distance_of_closest_approach CascadeExample.rcpr
      { CascadeExample.ion with E := 3 } CascadeExample.ion ⟨0, 2, 1⟩
      { CascadeExample.options with interaction_potential := [[.COULOMB 1 2]] } = .ok x ∧
    r = x*screening_length 1 1 (.COULOMB 1 2) ∧ 0 < r := by
  obtain ⟨x, r, h1, h2, h3, _⟩ := C24_coulomb_closest_approach CascadeExample.rcpr
    { CascadeExample.ion with E := 3 } CascadeExample.ion ⟨0, 2, 1⟩
    { CascadeExample.options with interaction_potential := [[.COULOMB 1 2]] } [.COULOMB 1 2] 1 2
    rfl rfl (by show (0:ℝ) < 3; norm_num) (by simp [CascadeExample.ion])
    (by simp [CascadeExample.ion]) (by norm_num) (by norm_num)
  exact ⟨x, r, h1, by simpa [CascadeExample.ion] using h2, h3⟩

/-- C25: y = 1 is a root of the 12-6 polynomial for sigma = p = 1, and r = 1 a turning point. -/
example : TurningPoint (lennard_jones 1 1 2) 5 1 1 := by
  unfold TurningPoint lennard_jones
  simp

/-- C26: a Lennard-Jones potential of depth zero does not deflect, with 7 quadrature points. -/
example : scattering_angle (.GAUSS_MEHLER 7) 1 1 1 1 5
    (2*screening_length 1 1 (.LENNARD_JONES_12_6 1 0)) 2 (.LENNARD_JONES_12_6 (1:ℝ) 0)
    = .ok 0 := by
  refine C26_gauss_mehler_straight_line 1 1 1 1 5 _ 2 _ 7 (by norm_num) ?_ rfl ?_
  · have h0 := A0_pos
    simp only [screening_length, powf_real, sqrt_real, Real.sqrt_one]
    exact mul_pos (by norm_num) (mul_pos (mul_pos (by norm_num) h0)
      (Real.rpow_pos_of_pos (by norm_num) _))
  · intro r
    simp [interaction_potential, lennard_jones]

/-- C26: a Mendenhall-Weller evaluation succeeds, so the bound applies to it. -/
example : ∃ theta, scattering_angle .MENDENHALL_WELLER 1 1 1 1 5 1 2 (.KR_C : InteractionPotential ℝ)
    = .ok theta ∧ theta ≤ Real.pi := by
  refine ⟨_, rfl, ?_⟩
  exact (C26_at_most_pi .MENDENHALL_WELLER (by simp) 1 1 1 1 5 1 2 _ .KR_C
    (screening_length_pos _ .kr_c (by norm_num) (by norm_num)) (by norm_num) (by norm_num) rfl).1

end RustBCA
