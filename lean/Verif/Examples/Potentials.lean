import Verif.Props.Potentials

/-!
# Non-vacuity for C83
-/

namespace RustBCA
open Scalar Spec

/-- Lennard-Jones: at `r = 2 sigma` the energy is `-63/1024 epsilon`, attractive and above the bottom
of the well. -/
example : ∃ U : ℝ, (∀ a Za Zb, interaction_potential (2:ℝ) a Za Zb (.LENNARD_JONES_12_6 1 1) = .ok U) ∧
    U = -63/1024 ∧ ¬ 0 < U ∧ -1 ≤ U := by
  obtain ⟨U, h1, h2, h3, h4, _⟩ := C83_lennard_jones 2 1 1 (by norm_num) (by norm_num) (by norm_num)
  exact ⟨U, h1, by rw [h2]; norm_num, by rw [h3]; norm_num, h4⟩

/-- 6.5-6: the bottom of the well. -/
example : ∃ U : ℝ, (∀ a Za Zb, interaction_potential ((13/12)^2*2 : ℝ) a Za Zb
    (.LENNARD_JONES_65_6 2 3) = .ok U) ∧ U = -(4*(12/13)^12/13*3) := by
  obtain ⟨U, h1, _, _, _, h5⟩ := C83_lennard_jones_65_6 ((13/12)^2*2) 2 3 (by norm_num) (by norm_num)
    (by norm_num)
  exact ⟨U, h1, h5.2 rfl⟩

/-- Morse with depth 2 at distance 1. -/
example : ∃ U : ℝ → ℝ, (∀ r a Za Zb, interaction_potential r a Za Zb (.MORSE 2 3 1) = .ok (U r)) ∧
    U 1 = -2 ∧ U 2 ≠ -2 := by
  obtain ⟨U, h1, _, _, h4, _⟩ := C83_morse 2 3 1 (by norm_num) (by norm_num)
  exact ⟨U, h1, (h4 1).2 rfl, fun h => absurd ((h4 2).1 h) (by norm_num)⟩

/-- Four-eight: `1/r^8 - 2/r^4` at `r = 1` is the bottom of the well. -/
example : ∃ U : ℝ, (∀ a Za Zb, interaction_potential (1:ℝ) a Za Zb (.FOUR_EIGHT 2 1) = .ok U) ∧
    U = -1 := by
  obtain ⟨U, h1, _, _, _, h5⟩ := C83_four_eight 1 2 1 (by norm_num) (by norm_num) (by norm_num)
  exact ⟨U, h1, by rw [h5.2 (by norm_num)]; norm_num⟩

/-- Tungsten: attractive at 3.5 Angstrom, no interaction at 5 Angstrom. -/
example : (∃ U, interaction_potential (3.5*ANGSTROM ℝ) 0 0 0 .WW = .ok U ∧ U < 0) ∧
    interaction_potential (5*ANGSTROM ℝ) 0 0 0 .WW = .ok 0 := by
  have hA : (0:ℝ) < ANGSTROM ℝ := by unfold ANGSTROM; norm_num
  have hE : (0:ℝ) < EV ℝ := by unfold EV Q; norm_num
  have h1 := (C83_tungsten (3.5*ANGSTROM ℝ) 0 0 0).2.1
  have h2 := (C83_tungsten (5*ANGSTROM ℝ) 0 0 0).2.2
  rw [mul_div_cancel_right₀ _ hA.ne'] at h1 h2
  refine ⟨⟨_, h1 (by norm_num), mul_neg_of_pos_of_neg hE ?_⟩, h2 (by norm_num)⟩
  simp only [tungstenSpline, List.map_cons, List.map_nil, List.sum_cons, List.sum_nil]
  have p : ∀ d : ℝ, 3.5 ≤ d → max 0 (d - 3.5) = d - 3.5 := fun d h => max_eq_right (by linarith)
  have z : ∀ d : ℝ, d ≤ 3.5 → max 0 (d - 3.5) = 0 := fun d h => max_eq_left (by linarith)
  rw [p 4.2689 (by norm_num), p 3.98568 (by norm_num), p 3.70246 (by norm_num),
    z 3.41924 (by norm_num), z 3.13602 (by norm_num), z 2.8528 (by norm_num), z 2.7411 (by norm_num),
    z 2.604045 (by norm_num), z 2.46699 (by norm_num)]
  norm_num

end RustBCA
