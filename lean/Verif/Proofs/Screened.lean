import Verif.Proofs.Newton

/-! # The code's turning-point functions for screened potentials (helper lemmas) -/

namespace RustBCA
open Scalar Spec

theorem pi_pos' : (0 : ℝ) < (Scalar.pi : ℝ) := Real.pi_pos

theorem Q_pos : (0 : ℝ) < Q ℝ := by unfold Q; norm_num
theorem EPS0_pos : (0 : ℝ) < EPS0 ℝ := by unfold EPS0; norm_num
theorem A0_pos : (0 : ℝ) < A0 ℝ := by unfold A0; norm_num
theorem EV_pos : (0 : ℝ) < EV ℝ := Q_pos
theorem ANGSTROM_pos : (0 : ℝ) < ANGSTROM ℝ := by unfold ANGSTROM; norm_num

theorem lindhard_eq : LINDHARD_REDUCED_ENERGY_PREFACTOR ℝ = 4*Real.pi*EPS0 ℝ/Q ℝ/Q ℝ := by
  unfold LINDHARD_REDUCED_ENERGY_PREFACTOR
  rw [pi_real]; norm_num

theorem lindhard_pos : (0 : ℝ) < LINDHARD_REDUCED_ENERGY_PREFACTOR ℝ := by
  rw [lindhard_eq]
  have := Real.pi_pos; have := Q_pos; have := EPS0_pos
  positivity

theorem screening_length_pos (V : InteractionPotential ℝ) (hV : Screened V) {Za Zb : ℝ}
    (ha : 0 < Za) (hb : 0 < Zb) : 0 < screening_length Za Zb V := by
  have h0 := A0_pos
  have h1 : 0 < Real.sqrt Za := Real.sqrt_pos.mpr ha
  have h2 : 0 < Real.sqrt Zb := Real.sqrt_pos.mpr hb
  have hz : ∀ y : ℝ, 0 < Za ^ y := fun y => Real.rpow_pos_of_pos ha y
  have hz2 : ∀ y : ℝ, 0 < Zb ^ y := fun y => Real.rpow_pos_of_pos hb y
  cases hV <;> simp only [screening_length, powf_real, sqrt_real]
  case zbl => exact div_pos (mul_pos (by norm_num) h0) (add_pos (hz _) (hz2 _))
  all_goals exact mul_pos (mul_pos (by norm_num) h0) (Real.rpow_pos_of_pos (by linarith) _)

/-- The reduced energy of the code. -/
noncomputable def reduced_energy (Za Zb Er : ℝ) (V : InteractionPotential ℝ) : ℝ :=
  LINDHARD_REDUCED_ENERGY_PREFACTOR ℝ*screening_length Za Zb V/Za/Zb*Er

theorem reduced_energy_pos (V : InteractionPotential ℝ) (hV : Screened V) {Za Zb Er : ℝ}
    (ha : 0 < Za) (hb : 0 < Zb) (hE : 0 < Er) : 0 < reduced_energy Za Zb Er V := by
  have := screening_length_pos V hV ha hb
  have := lindhard_pos
  unfold reduced_energy; positivity

theorem doca_screened (V : InteractionPotential ℝ) (hV : Screened V) (r a Za Zb Er p : ℝ) :
    distance_of_closest_approach_function r a Za Zb Er p V =
      .ok (closest (expsum (screening_terms V)) (reduced_energy Za Zb Er V)
        (p/screening_length Za Zb V) (r/screening_length Za Zb V)) := by
  have h := phi_expsum V hV (r/screening_length Za Zb V)
  cases hV <;> simp only [distance_of_closest_approach_function, doca_function, h, bind,
    Except.bind, pure, Except.pure, closest, reduced_energy, pow_two]

theorem ddoca_screened (V : InteractionPotential ℝ) (hV : Screened V) (r a Za Zb Er p : ℝ) :
    diff_distance_of_closest_approach_function r a Za Zb Er p V =
      .ok (dclosest (dexpsum (screening_terms V)) (reduced_energy Za Zb Er V)
        (p/screening_length Za Zb V) (r/screening_length Za Zb V)) := by
  have h := dphi_dexpsum V hV (r/screening_length Za Zb V)
  cases hV <;> simp only [diff_distance_of_closest_approach_function, diff_doca_function, h, bind,
    Except.bind, pure, Except.pure, dclosest, reduced_energy, pow_two, div_div] <;> norm_num

theorem potential_screened (V : InteractionPotential ℝ) (hV : Screened V) (r a Za Zb : ℝ) :
    interaction_potential r a Za Zb V = .ok (Za*Zb*Q ℝ*Q ℝ/4/Real.pi/EPS0 ℝ/r
      *expsum (screening_terms V) (r/a)) := by
  have h := phi_expsum V hV (r/a)
  cases hV <;> simp only [interaction_potential, screened_coulomb, h, bind, Except.bind, pure,
    Except.pure, pi_real] <;> norm_num

/-- `closest` in terms of the physical turning-point expression. -/
theorem closest_eq (V : InteractionPotential ℝ) (hV : Screened V) {Za Zb Er p r : ℝ}
    (ha : 0 < Za) (hb : 0 < Zb) (hE : 0 < Er) (hr : 0 < r) :
    closest (expsum (screening_terms V)) (reduced_energy Za Zb Er V)
        (p/screening_length Za Zb V) (r/screening_length Za Zb V) =
      r/screening_length Za Zb V*(1 - Za*Zb*Q ℝ*Q ℝ/4/Real.pi/EPS0 ℝ/r
      *expsum (screening_terms V) (r/screening_length Za Zb V)/Er - p^2/r^2) := by
  have h1 := screening_length_pos V hV ha hb
  have := Real.pi_pos; have := Q_pos; have := EPS0_pos
  unfold closest reduced_energy
  rw [lindhard_eq]
  field_simp

end RustBCA
