import Verif.Proofs.Rotation
import Mathlib.Analysis.SpecialFunctions.Trigonometric.Basic

/-! # Energy and momentum in a binary collision (helper lemmas, over the reals) -/

namespace RustBCA
open Spec

theorem norm_mul_cos_abs_arg (z : ℂ) : ‖z‖ * Real.cos |Complex.arg z| = z.re := by
  rw [Real.cos_abs, Complex.norm_mul_cos_arg]

theorem norm_mul_sin_abs_arg (z : ℂ) : ‖z‖ * Real.sin |Complex.arg z| = |z.im| := by
  rcases le_or_gt 0 (Complex.arg z) with h | h
  · rw [abs_of_nonneg h, Complex.norm_mul_sin_arg, abs_of_nonneg (Complex.arg_nonneg_iff.mp h)]
  · rw [abs_of_neg h, Real.sin_neg, mul_neg, Complex.norm_mul_sin_arg,
      abs_of_neg (Complex.arg_neg_iff.mp h)]

theorem norm_mk (x y : ℝ) : ‖(⟨x, y⟩ : ℂ)‖ = Real.sqrt (x^2 + y^2) := by
  rw [Complex.norm_eq_sqrt_sq_add_sq]

/-- The recoil energy, in terms of cos theta. -/
theorem recoil_energy_eq (Ma Mb E0 a x0 theta : ℝ) (V : InteractionPotential ℝ) :
    (collision_result Ma Mb E0 a x0 theta V).recoil_energy
      = 2*(Ma*Mb)/(Ma + Mb)^2*E0*(1 - Real.cos theta) := by
  have h := Real.cos_sq (theta/2)
  have h2 := Real.sin_sq_add_cos_sq (theta/2)
  rw [show 2*(theta/2) = theta by ring] at h
  simp only [collision_result, powi_real, sin_real]
  have h3 : Real.sin (theta/2.0) ^ (2:ℤ) = (1 - Real.cos theta)/2 := by
    rw [show (2.0:ℝ) = 2 by norm_num]
    rw [show (2:ℤ) = ((2:ℕ):ℤ) by norm_num, zpow_natCast]
    linarith
  rw [h3]
  rw [show (2:ℤ) = ((2:ℕ):ℤ) by norm_num, zpow_natCast]
  norm_num
  ring

/-- Kinematic factor. -/
theorem kinematic_factor_le_one {Ma Mb : ℝ} (ha : 0 < Ma) (hb : 0 < Mb) :
    4*Ma*Mb/(Ma + Mb)^2 ≤ 1 := by
  rw [div_le_one (by positivity)]
  nlinarith [sq_nonneg (Ma - Mb)]

theorem recoil_energy_bounds {Ma Mb E0 : ℝ} (a x0 theta : ℝ) (V : InteractionPotential ℝ)
    (ha : 0 < Ma) (hb : 0 < Mb) (hE : 0 ≤ E0) :
    0 ≤ (collision_result Ma Mb E0 a x0 theta V).recoil_energy ∧
    (collision_result Ma Mb E0 a x0 theta V).recoil_energy ≤ 4*Ma*Mb/(Ma + Mb)^2*E0 := by
  rw [recoil_energy_eq]
  have h1 := Real.cos_le_one theta
  have h2 := Real.neg_one_le_cos theta
  have h3 : 0 ≤ 2*(Ma*Mb)/(Ma + Mb)^2*E0 := by positivity
  refine ⟨mul_nonneg h3 (by linarith), ?_⟩
  have h4 : 4*Ma*Mb/(Ma + Mb)^2*E0 = 2*(Ma*Mb)/(Ma + Mb)^2*E0*2 := by ring
  rw [h4]
  exact mul_le_mul_of_nonneg_left (by linarith) h3

theorem momentum_split {Ma Mb E0 : ℝ} (a x0 theta : ℝ) (V : InteractionPotential ℝ)
    (ha : 0 < Ma) (hb : 0 < Mb) (hE : 0 ≤ E0) :
    let r := collision_result Ma Mb E0 a x0 theta V
    let K := Real.sqrt (2*Ma*E0)*(Mb/(Ma + Mb))
    Real.sqrt (2*Ma*(E0 - r.recoil_energy)) * Real.cos r.psi = K*(Ma/Mb + Real.cos theta) ∧
    Real.sqrt (2*Ma*(E0 - r.recoil_energy)) * Real.sin r.psi = K*|Real.sin theta| ∧
    Real.sqrt (2*Mb*r.recoil_energy) * Real.cos r.psi_recoil = K*(1 - Real.cos theta) ∧
    Real.sqrt (2*Mb*r.recoil_energy) * Real.sin r.psi_recoil = K*|Real.sin theta| := by
  intro r K
  have hT : r.recoil_energy = 2*(Ma*Mb)/(Ma + Mb)^2*E0*(1 - Real.cos theta) :=
    recoil_energy_eq _ _ _ _ _ _ _
  have hsc := Real.sin_sq_add_cos_sq theta
  have hK : 0 ≤ K := by positivity
  have hK2 : K^2 = 2*Ma*E0*(Mb/(Ma + Mb))^2 := by
    rw [mul_pow, Real.sq_sqrt (by positivity)]
  have hMM : Ma + Mb ≠ 0 := by positivity
  -- the two speeds
  have h1 : Real.sqrt (2*Ma*(E0 - r.recoil_energy))
      = K*‖(⟨Ma/Mb + Real.cos theta, Real.sin theta⟩ : ℂ)‖ := by
    rw [norm_mk]
    have : 2*Ma*(E0 - r.recoil_energy)
        = K^2*((Ma/Mb + Real.cos theta)^2 + Real.sin theta^2) := by
      rw [hK2, hT]
      have e : (Ma/Mb + Real.cos theta)^2 + Real.sin theta^2
          = (Ma/Mb)^2 + 2*(Ma/Mb)*Real.cos theta + 1 := by linear_combination hsc
      rw [e]
      field_simp
      ring
    rw [this, Real.sqrt_mul (sq_nonneg K), Real.sqrt_sq hK]
  have h2 : Real.sqrt (2*Mb*r.recoil_energy)
      = K*‖(⟨1 - Real.cos theta, Real.sin theta⟩ : ℂ)‖ := by
    rw [norm_mk]
    have : 2*Mb*r.recoil_energy = K^2*((1 - Real.cos theta)^2 + Real.sin theta^2) := by
      rw [hK2, hT]
      have e : (1 - Real.cos theta)^2 + Real.sin theta^2 = 2*(1 - Real.cos theta) := by
        linear_combination hsc
      rw [e]
      field_simp
    rw [this, Real.sqrt_mul (sq_nonneg K), Real.sqrt_sq hK]
  have hpsi : r.psi = |Complex.arg ⟨Ma/Mb + Real.cos theta, Real.sin theta⟩| := rfl
  have hpr : r.psi_recoil = |Complex.arg ⟨1 - Real.cos theta, Real.sin theta⟩| := by
    show |Complex.arg ⟨1.0 - Real.cos theta, Real.sin theta⟩| = _
    norm_num
  rw [h1, h2, hpsi, hpr]
  refine ⟨?_, ?_, ?_, ?_⟩
  · rw [mul_assoc, norm_mul_cos_abs_arg]
  · rw [mul_assoc, norm_mul_sin_abs_arg]
  · rw [mul_assoc, norm_mul_cos_abs_arg]
  · rw [mul_assoc, norm_mul_sin_abs_arg]

/-- Momentum conservation for the two turned directions. -/
theorem momentum_conserved {Ma Mb E0 : ℝ} (a x0 theta phi : ℝ) (V : InteractionPotential ℝ)
    (d : Vec3 ℝ) (ha : 0 < Ma) (hb : 0 < Mb) (hE : 0 ≤ E0) :
    let r := collision_result Ma Mb E0 a x0 theta V
    plus (momentum Ma (E0 - r.recoil_energy) (turned d r.psi phi))
      (momentum Mb r.recoil_energy (turned d (-r.psi_recoil) phi)) = momentum Ma E0 d := by
  intro r
  obtain ⟨h1, h2, h3, h4⟩ := momentum_split a x0 theta V ha hb hE
  have hMM : Ma + Mb ≠ 0 := by positivity
  have hsum : Real.sqrt (2*Ma*E0)*(Mb/(Ma + Mb))*(Ma/Mb + Real.cos theta)
      + Real.sqrt (2*Ma*E0)*(Mb/(Ma + Mb))*(1 - Real.cos theta) = Real.sqrt (2*Ma*E0) := by
    field_simp
    ring
  have hc : Real.sqrt (2*Ma*(E0 - r.recoil_energy)) * Real.cos r.psi
      + Real.sqrt (2*Mb*r.recoil_energy) * Real.cos r.psi_recoil = Real.sqrt (2*Ma*E0) := by
    rw [h1, h3]; exact hsum
  have hs : Real.sqrt (2*Ma*(E0 - r.recoil_energy)) * Real.sin r.psi
      = Real.sqrt (2*Mb*r.recoil_energy) * Real.sin r.psi_recoil := by
    rw [h2, h4]
  simp only [momentum, turned, plus, times, minus, cross, xhat, Real.cos_neg, Real.sin_neg]
  apply Vec3.ext_real <;> simp only
  · linear_combination d.x*hc + (Real.cos phi*((Real.sqrt (1 - d.x^2))⁻¹*(1 - d.x*d.x))
      + Real.sin phi*((Real.sqrt (1 - d.x^2))⁻¹*(d.y*0 - d.z*0)))*hs
  · linear_combination d.y*hc + (Real.cos phi*((Real.sqrt (1 - d.x^2))⁻¹*(0 - d.x*d.y))
      + Real.sin phi*((Real.sqrt (1 - d.x^2))⁻¹*(d.z*1 - d.x*0)))*hs
  · linear_combination d.z*hc + (Real.cos phi*((Real.sqrt (1 - d.x^2))⁻¹*(0 - d.x*d.z))
      + Real.sin phi*((Real.sqrt (1 - d.x^2))⁻¹*(d.x*0 - d.y*1)))*hs

end RustBCA
